import Verif.Conformance.Support
/-! Generated by tools/tests_to_lean.py from tests/ieee.rs. -/

namespace Apf.Conformance.Ieee4
set_option maxRecDepth 100000
set_option linter.all false

/-- tests/ieee.rs:3202 `operator_overloads`. -/
def t_operator_overloads : M Unit := do
  let t1 ← (parse ("0x1p+0".toList) : M Single)
  let t2 ← (parse ("0x2p+0".toList) : M Single)
  let t3 ← Api.add t1 t1
  let t4 ← ApiFloat.bitwise_eq t2 (t3).value
  check t4
  let t5 ← Api.sub t2 t1
  let t6 ← ApiFloat.bitwise_eq t1 (t5).value
  check t6
  let t7 ← Api.mul t1 t2
  let t8 ← ApiFloat.bitwise_eq t2 (t7).value
  check t8
  let t9 ← Api.div t2 t2
  let t10 ← ApiFloat.bitwise_eq t1 (t9).value
  check t10

example : passes t_operator_overloads = true := by decide +kernel

/-- tests/ieee.rs:3213 `comparisons`. -/
def t_comparisons_1 : M Unit := do
  let t1 ← (ApiFloat.NAN : M Single)
  let t2 ← ApiFloat.neg t1
  let t3 ← (ApiFloat.INFINITY : M Single)
  let _ ← ApiFloat.neg t3
  let t5 ← (ApiFloat.largest : M Single)
  let _ ← ApiFloat.neg t5
  let _ ← (parse ("-0x1p+0".toList) : M Single)
  let t8 ← (ApiFloat.ZERO : M Single)
  let _ ← ApiFloat.neg t8
  let _ ← (ApiFloat.ZERO : M Single)
  let _ ← (parse ("0x1p+0".toList) : M Single)
  let _ ← (ApiFloat.largest : M Single)
  let _ ← (ApiFloat.INFINITY : M Single)
  let _ ← (ApiFloat.NAN : M Single)
  let t15 ← ApiFloat.partial_cmp t2 t2
  check (decide (t15 = (none : Option Ordering)))
  let t16 ← IeeeFloat.eq t2 t2
  check (!decide (t15 = (some Ordering.lt)) || (!t16))
  let t17 ← IeeeFloat.eq t2 t2
  check (!decide (t15 = (some Ordering.lt)) || (!t17))
  let t18 ← IeeeFloat.lt t2 t2
  check (!decide (t15 = (some Ordering.lt)) || t18)
  let t19 ← IeeeFloat.gt t2 t2
  check (!decide (t15 = (some Ordering.lt)) || (!t19))
  let t20 ← IeeeFloat_le t2 t2
  check (!decide (t15 = (some Ordering.lt)) || t20)
  let t21 ← IeeeFloat.ge t2 t2
  check (!decide (t15 = (some Ordering.lt)) || (!t21))
  let t22 ← IeeeFloat.eq t2 t2
  check (!decide (t15 = (some Ordering.eq)) || t22)
  let t23 ← IeeeFloat.eq t2 t2
  check (!decide (t15 = (some Ordering.eq)) || (!(!t23)))
  let t24 ← IeeeFloat.lt t2 t2
  check (!decide (t15 = (some Ordering.eq)) || (!t24))
  let t25 ← IeeeFloat.gt t2 t2
  check (!decide (t15 = (some Ordering.eq)) || (!t25))
  let t26 ← IeeeFloat_le t2 t2
  check (!decide (t15 = (some Ordering.eq)) || t26)
  let t27 ← IeeeFloat.ge t2 t2
  check (!decide (t15 = (some Ordering.eq)) || t27)
  let t28 ← IeeeFloat.eq t2 t2
  check (!decide (t15 = (some Ordering.gt)) || (!t28))
  let t29 ← IeeeFloat.eq t2 t2
  check (!decide (t15 = (some Ordering.gt)) || (!t29))
  let t30 ← IeeeFloat.lt t2 t2
  check (!decide (t15 = (some Ordering.gt)) || (!t30))
  let t31 ← IeeeFloat.gt t2 t2
  check (!decide (t15 = (some Ordering.gt)) || t31)
  let t32 ← IeeeFloat_le t2 t2
  check (!decide (t15 = (some Ordering.gt)) || (!t32))
  let t33 ← IeeeFloat.ge t2 t2
  check (!decide (t15 = (some Ordering.gt)) || t33)
  let t34 ← IeeeFloat.eq t2 t2
  check (!decide (t15 = (none : Option Ordering)) || (!t34))
  let t35 ← IeeeFloat.eq t2 t2
  check (!decide (t15 = (none : Option Ordering)) || (!t35))
  let t36 ← IeeeFloat.lt t2 t2
  check (!decide (t15 = (none : Option Ordering)) || (!t36))
  let t37 ← IeeeFloat.gt t2 t2
  check (!decide (t15 = (none : Option Ordering)) || (!t37))

example : passes t_comparisons_1 = true := by decide +kernel

/-- tests/ieee.rs:3213 `comparisons`. -/
def t_comparisons_2 : M Unit := do
  let t1 ← (ApiFloat.NAN : M Single)
  let t2 ← ApiFloat.neg t1
  let t3 ← (ApiFloat.INFINITY : M Single)
  let t4 ← ApiFloat.neg t3
  let t5 ← (ApiFloat.largest : M Single)
  let t6 ← ApiFloat.neg t5
  let t15 ← ApiFloat.partial_cmp t2 t2
  let t38 ← IeeeFloat_le t2 t2
  check (!decide (t15 = (none : Option Ordering)) || (!t38))
  let t39 ← IeeeFloat.ge t2 t2
  check (!decide (t15 = (none : Option Ordering)) || (!t39))
  let t40 ← ApiFloat.partial_cmp t2 t4
  check (decide (t40 = (none : Option Ordering)))
  let t41 ← IeeeFloat.eq t2 t4
  check (!decide (t40 = (some Ordering.lt)) || (!t41))
  let t42 ← IeeeFloat.eq t2 t4
  check (!decide (t40 = (some Ordering.lt)) || (!t42))
  let t43 ← IeeeFloat.lt t2 t4
  check (!decide (t40 = (some Ordering.lt)) || t43)
  let t44 ← IeeeFloat.gt t2 t4
  check (!decide (t40 = (some Ordering.lt)) || (!t44))
  let t45 ← IeeeFloat_le t2 t4
  check (!decide (t40 = (some Ordering.lt)) || t45)
  let t46 ← IeeeFloat.ge t2 t4
  check (!decide (t40 = (some Ordering.lt)) || (!t46))
  let t47 ← IeeeFloat.eq t2 t4
  check (!decide (t40 = (some Ordering.eq)) || t47)
  let t48 ← IeeeFloat.eq t2 t4
  check (!decide (t40 = (some Ordering.eq)) || (!(!t48)))
  let t49 ← IeeeFloat.lt t2 t4
  check (!decide (t40 = (some Ordering.eq)) || (!t49))
  let t50 ← IeeeFloat.gt t2 t4
  check (!decide (t40 = (some Ordering.eq)) || (!t50))
  let t51 ← IeeeFloat_le t2 t4
  check (!decide (t40 = (some Ordering.eq)) || t51)
  let t52 ← IeeeFloat.ge t2 t4
  check (!decide (t40 = (some Ordering.eq)) || t52)
  let t53 ← IeeeFloat.eq t2 t4
  check (!decide (t40 = (some Ordering.gt)) || (!t53))
  let t54 ← IeeeFloat.eq t2 t4
  check (!decide (t40 = (some Ordering.gt)) || (!t54))
  let t55 ← IeeeFloat.lt t2 t4
  check (!decide (t40 = (some Ordering.gt)) || (!t55))
  let t56 ← IeeeFloat.gt t2 t4
  check (!decide (t40 = (some Ordering.gt)) || t56)
  let t57 ← IeeeFloat_le t2 t4
  check (!decide (t40 = (some Ordering.gt)) || (!t57))
  let t58 ← IeeeFloat.ge t2 t4
  check (!decide (t40 = (some Ordering.gt)) || t58)
  let t59 ← IeeeFloat.eq t2 t4
  check (!decide (t40 = (none : Option Ordering)) || (!t59))
  let t60 ← IeeeFloat.eq t2 t4
  check (!decide (t40 = (none : Option Ordering)) || (!t60))
  let t61 ← IeeeFloat.lt t2 t4
  check (!decide (t40 = (none : Option Ordering)) || (!t61))
  let t62 ← IeeeFloat.gt t2 t4
  check (!decide (t40 = (none : Option Ordering)) || (!t62))
  let t63 ← IeeeFloat_le t2 t4
  check (!decide (t40 = (none : Option Ordering)) || (!t63))
  let t64 ← IeeeFloat.ge t2 t4
  check (!decide (t40 = (none : Option Ordering)) || (!t64))
  let t65 ← ApiFloat.partial_cmp t2 t6
  check (decide (t65 = (none : Option Ordering)))
  let t66 ← IeeeFloat.eq t2 t6
  check (!decide (t65 = (some Ordering.lt)) || (!t66))
  let t67 ← IeeeFloat.eq t2 t6
  check (!decide (t65 = (some Ordering.lt)) || (!t67))

example : passes t_comparisons_2 = true := by decide +kernel

/-- tests/ieee.rs:3213 `comparisons`. -/
def t_comparisons_3 : M Unit := do
  let t1 ← (ApiFloat.NAN : M Single)
  let t2 ← ApiFloat.neg t1
  let t5 ← (ApiFloat.largest : M Single)
  let t6 ← ApiFloat.neg t5
  let t7 ← (parse ("-0x1p+0".toList) : M Single)
  let t65 ← ApiFloat.partial_cmp t2 t6
  let t68 ← IeeeFloat.lt t2 t6
  check (!decide (t65 = (some Ordering.lt)) || t68)
  let t69 ← IeeeFloat.gt t2 t6
  check (!decide (t65 = (some Ordering.lt)) || (!t69))
  let t70 ← IeeeFloat_le t2 t6
  check (!decide (t65 = (some Ordering.lt)) || t70)
  let t71 ← IeeeFloat.ge t2 t6
  check (!decide (t65 = (some Ordering.lt)) || (!t71))
  let t72 ← IeeeFloat.eq t2 t6
  check (!decide (t65 = (some Ordering.eq)) || t72)
  let t73 ← IeeeFloat.eq t2 t6
  check (!decide (t65 = (some Ordering.eq)) || (!(!t73)))
  let t74 ← IeeeFloat.lt t2 t6
  check (!decide (t65 = (some Ordering.eq)) || (!t74))
  let t75 ← IeeeFloat.gt t2 t6
  check (!decide (t65 = (some Ordering.eq)) || (!t75))
  let t76 ← IeeeFloat_le t2 t6
  check (!decide (t65 = (some Ordering.eq)) || t76)
  let t77 ← IeeeFloat.ge t2 t6
  check (!decide (t65 = (some Ordering.eq)) || t77)
  let t78 ← IeeeFloat.eq t2 t6
  check (!decide (t65 = (some Ordering.gt)) || (!t78))
  let t79 ← IeeeFloat.eq t2 t6
  check (!decide (t65 = (some Ordering.gt)) || (!t79))
  let t80 ← IeeeFloat.lt t2 t6
  check (!decide (t65 = (some Ordering.gt)) || (!t80))
  let t81 ← IeeeFloat.gt t2 t6
  check (!decide (t65 = (some Ordering.gt)) || t81)
  let t82 ← IeeeFloat_le t2 t6
  check (!decide (t65 = (some Ordering.gt)) || (!t82))
  let t83 ← IeeeFloat.ge t2 t6
  check (!decide (t65 = (some Ordering.gt)) || t83)
  let t84 ← IeeeFloat.eq t2 t6
  check (!decide (t65 = (none : Option Ordering)) || (!t84))
  let t85 ← IeeeFloat.eq t2 t6
  check (!decide (t65 = (none : Option Ordering)) || (!t85))
  let t86 ← IeeeFloat.lt t2 t6
  check (!decide (t65 = (none : Option Ordering)) || (!t86))
  let t87 ← IeeeFloat.gt t2 t6
  check (!decide (t65 = (none : Option Ordering)) || (!t87))
  let t88 ← IeeeFloat_le t2 t6
  check (!decide (t65 = (none : Option Ordering)) || (!t88))
  let t89 ← IeeeFloat.ge t2 t6
  check (!decide (t65 = (none : Option Ordering)) || (!t89))
  let t90 ← ApiFloat.partial_cmp t2 t7
  check (decide (t90 = (none : Option Ordering)))
  let t91 ← IeeeFloat.eq t2 t7
  check (!decide (t90 = (some Ordering.lt)) || (!t91))
  let t92 ← IeeeFloat.eq t2 t7
  check (!decide (t90 = (some Ordering.lt)) || (!t92))
  let t93 ← IeeeFloat.lt t2 t7
  check (!decide (t90 = (some Ordering.lt)) || t93)
  let t94 ← IeeeFloat.gt t2 t7
  check (!decide (t90 = (some Ordering.lt)) || (!t94))
  let t95 ← IeeeFloat_le t2 t7
  check (!decide (t90 = (some Ordering.lt)) || t95)
  let t96 ← IeeeFloat.ge t2 t7
  check (!decide (t90 = (some Ordering.lt)) || (!t96))
  let t97 ← IeeeFloat.eq t2 t7
  check (!decide (t90 = (some Ordering.eq)) || t97)

example : passes t_comparisons_3 = true := by decide +kernel

/-- tests/ieee.rs:3213 `comparisons`. -/
def t_comparisons_4 : M Unit := do
  let t1 ← (ApiFloat.NAN : M Single)
  let t2 ← ApiFloat.neg t1
  let t7 ← (parse ("-0x1p+0".toList) : M Single)
  let t8 ← (ApiFloat.ZERO : M Single)
  let t9 ← ApiFloat.neg t8
  let t90 ← ApiFloat.partial_cmp t2 t7
  let t98 ← IeeeFloat.eq t2 t7
  check (!decide (t90 = (some Ordering.eq)) || (!(!t98)))
  let t99 ← IeeeFloat.lt t2 t7
  check (!decide (t90 = (some Ordering.eq)) || (!t99))
  let t100 ← IeeeFloat.gt t2 t7
  check (!decide (t90 = (some Ordering.eq)) || (!t100))
  let t101 ← IeeeFloat_le t2 t7
  check (!decide (t90 = (some Ordering.eq)) || t101)
  let t102 ← IeeeFloat.ge t2 t7
  check (!decide (t90 = (some Ordering.eq)) || t102)
  let t103 ← IeeeFloat.eq t2 t7
  check (!decide (t90 = (some Ordering.gt)) || (!t103))
  let t104 ← IeeeFloat.eq t2 t7
  check (!decide (t90 = (some Ordering.gt)) || (!t104))
  let t105 ← IeeeFloat.lt t2 t7
  check (!decide (t90 = (some Ordering.gt)) || (!t105))
  let t106 ← IeeeFloat.gt t2 t7
  check (!decide (t90 = (some Ordering.gt)) || t106)
  let t107 ← IeeeFloat_le t2 t7
  check (!decide (t90 = (some Ordering.gt)) || (!t107))
  let t108 ← IeeeFloat.ge t2 t7
  check (!decide (t90 = (some Ordering.gt)) || t108)
  let t109 ← IeeeFloat.eq t2 t7
  check (!decide (t90 = (none : Option Ordering)) || (!t109))
  let t110 ← IeeeFloat.eq t2 t7
  check (!decide (t90 = (none : Option Ordering)) || (!t110))
  let t111 ← IeeeFloat.lt t2 t7
  check (!decide (t90 = (none : Option Ordering)) || (!t111))
  let t112 ← IeeeFloat.gt t2 t7
  check (!decide (t90 = (none : Option Ordering)) || (!t112))
  let t113 ← IeeeFloat_le t2 t7
  check (!decide (t90 = (none : Option Ordering)) || (!t113))
  let t114 ← IeeeFloat.ge t2 t7
  check (!decide (t90 = (none : Option Ordering)) || (!t114))
  let t115 ← ApiFloat.partial_cmp t2 t9
  check (decide (t115 = (none : Option Ordering)))
  let t116 ← IeeeFloat.eq t2 t9
  check (!decide (t115 = (some Ordering.lt)) || (!t116))
  let t117 ← IeeeFloat.eq t2 t9
  check (!decide (t115 = (some Ordering.lt)) || (!t117))
  let t118 ← IeeeFloat.lt t2 t9
  check (!decide (t115 = (some Ordering.lt)) || t118)
  let t119 ← IeeeFloat.gt t2 t9
  check (!decide (t115 = (some Ordering.lt)) || (!t119))
  let t120 ← IeeeFloat_le t2 t9
  check (!decide (t115 = (some Ordering.lt)) || t120)
  let t121 ← IeeeFloat.ge t2 t9
  check (!decide (t115 = (some Ordering.lt)) || (!t121))
  let t122 ← IeeeFloat.eq t2 t9
  check (!decide (t115 = (some Ordering.eq)) || t122)
  let t123 ← IeeeFloat.eq t2 t9
  check (!decide (t115 = (some Ordering.eq)) || (!(!t123)))
  let t124 ← IeeeFloat.lt t2 t9
  check (!decide (t115 = (some Ordering.eq)) || (!t124))
  let t125 ← IeeeFloat.gt t2 t9
  check (!decide (t115 = (some Ordering.eq)) || (!t125))
  let t126 ← IeeeFloat_le t2 t9
  check (!decide (t115 = (some Ordering.eq)) || t126)
  let t127 ← IeeeFloat.ge t2 t9
  check (!decide (t115 = (some Ordering.eq)) || t127)

example : passes t_comparisons_4 = true := by decide +kernel

/-- tests/ieee.rs:3213 `comparisons`. -/
def t_comparisons_5 : M Unit := do
  let t1 ← (ApiFloat.NAN : M Single)
  let t2 ← ApiFloat.neg t1
  let t8 ← (ApiFloat.ZERO : M Single)
  let t9 ← ApiFloat.neg t8
  let t10 ← (ApiFloat.ZERO : M Single)
  let t115 ← ApiFloat.partial_cmp t2 t9
  let t128 ← IeeeFloat.eq t2 t9
  check (!decide (t115 = (some Ordering.gt)) || (!t128))
  let t129 ← IeeeFloat.eq t2 t9
  check (!decide (t115 = (some Ordering.gt)) || (!t129))
  let t130 ← IeeeFloat.lt t2 t9
  check (!decide (t115 = (some Ordering.gt)) || (!t130))
  let t131 ← IeeeFloat.gt t2 t9
  check (!decide (t115 = (some Ordering.gt)) || t131)
  let t132 ← IeeeFloat_le t2 t9
  check (!decide (t115 = (some Ordering.gt)) || (!t132))
  let t133 ← IeeeFloat.ge t2 t9
  check (!decide (t115 = (some Ordering.gt)) || t133)
  let t134 ← IeeeFloat.eq t2 t9
  check (!decide (t115 = (none : Option Ordering)) || (!t134))
  let t135 ← IeeeFloat.eq t2 t9
  check (!decide (t115 = (none : Option Ordering)) || (!t135))
  let t136 ← IeeeFloat.lt t2 t9
  check (!decide (t115 = (none : Option Ordering)) || (!t136))
  let t137 ← IeeeFloat.gt t2 t9
  check (!decide (t115 = (none : Option Ordering)) || (!t137))
  let t138 ← IeeeFloat_le t2 t9
  check (!decide (t115 = (none : Option Ordering)) || (!t138))
  let t139 ← IeeeFloat.ge t2 t9
  check (!decide (t115 = (none : Option Ordering)) || (!t139))
  let t140 ← ApiFloat.partial_cmp t2 t10
  check (decide (t140 = (none : Option Ordering)))
  let t141 ← IeeeFloat.eq t2 t10
  check (!decide (t140 = (some Ordering.lt)) || (!t141))
  let t142 ← IeeeFloat.eq t2 t10
  check (!decide (t140 = (some Ordering.lt)) || (!t142))
  let t143 ← IeeeFloat.lt t2 t10
  check (!decide (t140 = (some Ordering.lt)) || t143)
  let t144 ← IeeeFloat.gt t2 t10
  check (!decide (t140 = (some Ordering.lt)) || (!t144))
  let t145 ← IeeeFloat_le t2 t10
  check (!decide (t140 = (some Ordering.lt)) || t145)
  let t146 ← IeeeFloat.ge t2 t10
  check (!decide (t140 = (some Ordering.lt)) || (!t146))
  let t147 ← IeeeFloat.eq t2 t10
  check (!decide (t140 = (some Ordering.eq)) || t147)
  let t148 ← IeeeFloat.eq t2 t10
  check (!decide (t140 = (some Ordering.eq)) || (!(!t148)))
  let t149 ← IeeeFloat.lt t2 t10
  check (!decide (t140 = (some Ordering.eq)) || (!t149))
  let t150 ← IeeeFloat.gt t2 t10
  check (!decide (t140 = (some Ordering.eq)) || (!t150))
  let t151 ← IeeeFloat_le t2 t10
  check (!decide (t140 = (some Ordering.eq)) || t151)
  let t152 ← IeeeFloat.ge t2 t10
  check (!decide (t140 = (some Ordering.eq)) || t152)
  let t153 ← IeeeFloat.eq t2 t10
  check (!decide (t140 = (some Ordering.gt)) || (!t153))
  let t154 ← IeeeFloat.eq t2 t10
  check (!decide (t140 = (some Ordering.gt)) || (!t154))
  let t155 ← IeeeFloat.lt t2 t10
  check (!decide (t140 = (some Ordering.gt)) || (!t155))
  let t156 ← IeeeFloat.gt t2 t10
  check (!decide (t140 = (some Ordering.gt)) || t156)
  let t157 ← IeeeFloat_le t2 t10
  check (!decide (t140 = (some Ordering.gt)) || (!t157))

example : passes t_comparisons_5 = true := by decide +kernel

/-- tests/ieee.rs:3213 `comparisons`. -/
def t_comparisons_6 : M Unit := do
  let t1 ← (ApiFloat.NAN : M Single)
  let t2 ← ApiFloat.neg t1
  let t10 ← (ApiFloat.ZERO : M Single)
  let t11 ← (parse ("0x1p+0".toList) : M Single)
  let t140 ← ApiFloat.partial_cmp t2 t10
  let t158 ← IeeeFloat.ge t2 t10
  check (!decide (t140 = (some Ordering.gt)) || t158)
  let t159 ← IeeeFloat.eq t2 t10
  check (!decide (t140 = (none : Option Ordering)) || (!t159))
  let t160 ← IeeeFloat.eq t2 t10
  check (!decide (t140 = (none : Option Ordering)) || (!t160))
  let t161 ← IeeeFloat.lt t2 t10
  check (!decide (t140 = (none : Option Ordering)) || (!t161))
  let t162 ← IeeeFloat.gt t2 t10
  check (!decide (t140 = (none : Option Ordering)) || (!t162))
  let t163 ← IeeeFloat_le t2 t10
  check (!decide (t140 = (none : Option Ordering)) || (!t163))
  let t164 ← IeeeFloat.ge t2 t10
  check (!decide (t140 = (none : Option Ordering)) || (!t164))
  let t165 ← ApiFloat.partial_cmp t2 t11
  check (decide (t165 = (none : Option Ordering)))
  let t166 ← IeeeFloat.eq t2 t11
  check (!decide (t165 = (some Ordering.lt)) || (!t166))
  let t167 ← IeeeFloat.eq t2 t11
  check (!decide (t165 = (some Ordering.lt)) || (!t167))
  let t168 ← IeeeFloat.lt t2 t11
  check (!decide (t165 = (some Ordering.lt)) || t168)
  let t169 ← IeeeFloat.gt t2 t11
  check (!decide (t165 = (some Ordering.lt)) || (!t169))
  let t170 ← IeeeFloat_le t2 t11
  check (!decide (t165 = (some Ordering.lt)) || t170)
  let t171 ← IeeeFloat.ge t2 t11
  check (!decide (t165 = (some Ordering.lt)) || (!t171))
  let t172 ← IeeeFloat.eq t2 t11
  check (!decide (t165 = (some Ordering.eq)) || t172)
  let t173 ← IeeeFloat.eq t2 t11
  check (!decide (t165 = (some Ordering.eq)) || (!(!t173)))
  let t174 ← IeeeFloat.lt t2 t11
  check (!decide (t165 = (some Ordering.eq)) || (!t174))
  let t175 ← IeeeFloat.gt t2 t11
  check (!decide (t165 = (some Ordering.eq)) || (!t175))
  let t176 ← IeeeFloat_le t2 t11
  check (!decide (t165 = (some Ordering.eq)) || t176)
  let t177 ← IeeeFloat.ge t2 t11
  check (!decide (t165 = (some Ordering.eq)) || t177)
  let t178 ← IeeeFloat.eq t2 t11
  check (!decide (t165 = (some Ordering.gt)) || (!t178))
  let t179 ← IeeeFloat.eq t2 t11
  check (!decide (t165 = (some Ordering.gt)) || (!t179))
  let t180 ← IeeeFloat.lt t2 t11
  check (!decide (t165 = (some Ordering.gt)) || (!t180))
  let t181 ← IeeeFloat.gt t2 t11
  check (!decide (t165 = (some Ordering.gt)) || t181)
  let t182 ← IeeeFloat_le t2 t11
  check (!decide (t165 = (some Ordering.gt)) || (!t182))
  let t183 ← IeeeFloat.ge t2 t11
  check (!decide (t165 = (some Ordering.gt)) || t183)
  let t184 ← IeeeFloat.eq t2 t11
  check (!decide (t165 = (none : Option Ordering)) || (!t184))
  let t185 ← IeeeFloat.eq t2 t11
  check (!decide (t165 = (none : Option Ordering)) || (!t185))
  let t186 ← IeeeFloat.lt t2 t11
  check (!decide (t165 = (none : Option Ordering)) || (!t186))
  let t187 ← IeeeFloat.gt t2 t11
  check (!decide (t165 = (none : Option Ordering)) || (!t187))

example : passes t_comparisons_6 = true := by decide +kernel

/-- tests/ieee.rs:3213 `comparisons`. -/
def t_comparisons_7 : M Unit := do
  let t1 ← (ApiFloat.NAN : M Single)
  let t2 ← ApiFloat.neg t1
  let t11 ← (parse ("0x1p+0".toList) : M Single)
  let t12 ← (ApiFloat.largest : M Single)
  let t13 ← (ApiFloat.INFINITY : M Single)
  let t165 ← ApiFloat.partial_cmp t2 t11
  let t188 ← IeeeFloat_le t2 t11
  check (!decide (t165 = (none : Option Ordering)) || (!t188))
  let t189 ← IeeeFloat.ge t2 t11
  check (!decide (t165 = (none : Option Ordering)) || (!t189))
  let t190 ← ApiFloat.partial_cmp t2 t12
  check (decide (t190 = (none : Option Ordering)))
  let t191 ← IeeeFloat.eq t2 t12
  check (!decide (t190 = (some Ordering.lt)) || (!t191))
  let t192 ← IeeeFloat.eq t2 t12
  check (!decide (t190 = (some Ordering.lt)) || (!t192))
  let t193 ← IeeeFloat.lt t2 t12
  check (!decide (t190 = (some Ordering.lt)) || t193)
  let t194 ← IeeeFloat.gt t2 t12
  check (!decide (t190 = (some Ordering.lt)) || (!t194))
  let t195 ← IeeeFloat_le t2 t12
  check (!decide (t190 = (some Ordering.lt)) || t195)
  let t196 ← IeeeFloat.ge t2 t12
  check (!decide (t190 = (some Ordering.lt)) || (!t196))
  let t197 ← IeeeFloat.eq t2 t12
  check (!decide (t190 = (some Ordering.eq)) || t197)
  let t198 ← IeeeFloat.eq t2 t12
  check (!decide (t190 = (some Ordering.eq)) || (!(!t198)))
  let t199 ← IeeeFloat.lt t2 t12
  check (!decide (t190 = (some Ordering.eq)) || (!t199))
  let t200 ← IeeeFloat.gt t2 t12
  check (!decide (t190 = (some Ordering.eq)) || (!t200))
  let t201 ← IeeeFloat_le t2 t12
  check (!decide (t190 = (some Ordering.eq)) || t201)
  let t202 ← IeeeFloat.ge t2 t12
  check (!decide (t190 = (some Ordering.eq)) || t202)
  let t203 ← IeeeFloat.eq t2 t12
  check (!decide (t190 = (some Ordering.gt)) || (!t203))
  let t204 ← IeeeFloat.eq t2 t12
  check (!decide (t190 = (some Ordering.gt)) || (!t204))
  let t205 ← IeeeFloat.lt t2 t12
  check (!decide (t190 = (some Ordering.gt)) || (!t205))
  let t206 ← IeeeFloat.gt t2 t12
  check (!decide (t190 = (some Ordering.gt)) || t206)
  let t207 ← IeeeFloat_le t2 t12
  check (!decide (t190 = (some Ordering.gt)) || (!t207))
  let t208 ← IeeeFloat.ge t2 t12
  check (!decide (t190 = (some Ordering.gt)) || t208)
  let t209 ← IeeeFloat.eq t2 t12
  check (!decide (t190 = (none : Option Ordering)) || (!t209))
  let t210 ← IeeeFloat.eq t2 t12
  check (!decide (t190 = (none : Option Ordering)) || (!t210))
  let t211 ← IeeeFloat.lt t2 t12
  check (!decide (t190 = (none : Option Ordering)) || (!t211))
  let t212 ← IeeeFloat.gt t2 t12
  check (!decide (t190 = (none : Option Ordering)) || (!t212))
  let t213 ← IeeeFloat_le t2 t12
  check (!decide (t190 = (none : Option Ordering)) || (!t213))
  let t214 ← IeeeFloat.ge t2 t12
  check (!decide (t190 = (none : Option Ordering)) || (!t214))
  let t215 ← ApiFloat.partial_cmp t2 t13
  check (decide (t215 = (none : Option Ordering)))
  let t216 ← IeeeFloat.eq t2 t13
  check (!decide (t215 = (some Ordering.lt)) || (!t216))
  let t217 ← IeeeFloat.eq t2 t13
  check (!decide (t215 = (some Ordering.lt)) || (!t217))

example : passes t_comparisons_7 = true := by decide +kernel

/-- tests/ieee.rs:3213 `comparisons`. -/
def t_comparisons_8 : M Unit := do
  let t1 ← (ApiFloat.NAN : M Single)
  let t2 ← ApiFloat.neg t1
  let t13 ← (ApiFloat.INFINITY : M Single)
  let t14 ← (ApiFloat.NAN : M Single)
  let t215 ← ApiFloat.partial_cmp t2 t13
  let t218 ← IeeeFloat.lt t2 t13
  check (!decide (t215 = (some Ordering.lt)) || t218)
  let t219 ← IeeeFloat.gt t2 t13
  check (!decide (t215 = (some Ordering.lt)) || (!t219))
  let t220 ← IeeeFloat_le t2 t13
  check (!decide (t215 = (some Ordering.lt)) || t220)
  let t221 ← IeeeFloat.ge t2 t13
  check (!decide (t215 = (some Ordering.lt)) || (!t221))
  let t222 ← IeeeFloat.eq t2 t13
  check (!decide (t215 = (some Ordering.eq)) || t222)
  let t223 ← IeeeFloat.eq t2 t13
  check (!decide (t215 = (some Ordering.eq)) || (!(!t223)))
  let t224 ← IeeeFloat.lt t2 t13
  check (!decide (t215 = (some Ordering.eq)) || (!t224))
  let t225 ← IeeeFloat.gt t2 t13
  check (!decide (t215 = (some Ordering.eq)) || (!t225))
  let t226 ← IeeeFloat_le t2 t13
  check (!decide (t215 = (some Ordering.eq)) || t226)
  let t227 ← IeeeFloat.ge t2 t13
  check (!decide (t215 = (some Ordering.eq)) || t227)
  let t228 ← IeeeFloat.eq t2 t13
  check (!decide (t215 = (some Ordering.gt)) || (!t228))
  let t229 ← IeeeFloat.eq t2 t13
  check (!decide (t215 = (some Ordering.gt)) || (!t229))
  let t230 ← IeeeFloat.lt t2 t13
  check (!decide (t215 = (some Ordering.gt)) || (!t230))
  let t231 ← IeeeFloat.gt t2 t13
  check (!decide (t215 = (some Ordering.gt)) || t231)
  let t232 ← IeeeFloat_le t2 t13
  check (!decide (t215 = (some Ordering.gt)) || (!t232))
  let t233 ← IeeeFloat.ge t2 t13
  check (!decide (t215 = (some Ordering.gt)) || t233)
  let t234 ← IeeeFloat.eq t2 t13
  check (!decide (t215 = (none : Option Ordering)) || (!t234))
  let t235 ← IeeeFloat.eq t2 t13
  check (!decide (t215 = (none : Option Ordering)) || (!t235))
  let t236 ← IeeeFloat.lt t2 t13
  check (!decide (t215 = (none : Option Ordering)) || (!t236))
  let t237 ← IeeeFloat.gt t2 t13
  check (!decide (t215 = (none : Option Ordering)) || (!t237))
  let t238 ← IeeeFloat_le t2 t13
  check (!decide (t215 = (none : Option Ordering)) || (!t238))
  let t239 ← IeeeFloat.ge t2 t13
  check (!decide (t215 = (none : Option Ordering)) || (!t239))
  let t240 ← ApiFloat.partial_cmp t2 t14
  check (decide (t240 = (none : Option Ordering)))
  let t241 ← IeeeFloat.eq t2 t14
  check (!decide (t240 = (some Ordering.lt)) || (!t241))
  let t242 ← IeeeFloat.eq t2 t14
  check (!decide (t240 = (some Ordering.lt)) || (!t242))
  let t243 ← IeeeFloat.lt t2 t14
  check (!decide (t240 = (some Ordering.lt)) || t243)
  let t244 ← IeeeFloat.gt t2 t14
  check (!decide (t240 = (some Ordering.lt)) || (!t244))
  let t245 ← IeeeFloat_le t2 t14
  check (!decide (t240 = (some Ordering.lt)) || t245)
  let t246 ← IeeeFloat.ge t2 t14
  check (!decide (t240 = (some Ordering.lt)) || (!t246))
  let t247 ← IeeeFloat.eq t2 t14
  check (!decide (t240 = (some Ordering.eq)) || t247)

example : passes t_comparisons_8 = true := by decide +kernel

/-- tests/ieee.rs:3213 `comparisons`. -/
def t_comparisons_9 : M Unit := do
  let t1 ← (ApiFloat.NAN : M Single)
  let t2 ← ApiFloat.neg t1
  let t3 ← (ApiFloat.INFINITY : M Single)
  let t4 ← ApiFloat.neg t3
  let t14 ← (ApiFloat.NAN : M Single)
  let t240 ← ApiFloat.partial_cmp t2 t14
  let t248 ← IeeeFloat.eq t2 t14
  check (!decide (t240 = (some Ordering.eq)) || (!(!t248)))
  let t249 ← IeeeFloat.lt t2 t14
  check (!decide (t240 = (some Ordering.eq)) || (!t249))
  let t250 ← IeeeFloat.gt t2 t14
  check (!decide (t240 = (some Ordering.eq)) || (!t250))
  let t251 ← IeeeFloat_le t2 t14
  check (!decide (t240 = (some Ordering.eq)) || t251)
  let t252 ← IeeeFloat.ge t2 t14
  check (!decide (t240 = (some Ordering.eq)) || t252)
  let t253 ← IeeeFloat.eq t2 t14
  check (!decide (t240 = (some Ordering.gt)) || (!t253))
  let t254 ← IeeeFloat.eq t2 t14
  check (!decide (t240 = (some Ordering.gt)) || (!t254))
  let t255 ← IeeeFloat.lt t2 t14
  check (!decide (t240 = (some Ordering.gt)) || (!t255))
  let t256 ← IeeeFloat.gt t2 t14
  check (!decide (t240 = (some Ordering.gt)) || t256)
  let t257 ← IeeeFloat_le t2 t14
  check (!decide (t240 = (some Ordering.gt)) || (!t257))
  let t258 ← IeeeFloat.ge t2 t14
  check (!decide (t240 = (some Ordering.gt)) || t258)
  let t259 ← IeeeFloat.eq t2 t14
  check (!decide (t240 = (none : Option Ordering)) || (!t259))
  let t260 ← IeeeFloat.eq t2 t14
  check (!decide (t240 = (none : Option Ordering)) || (!t260))
  let t261 ← IeeeFloat.lt t2 t14
  check (!decide (t240 = (none : Option Ordering)) || (!t261))
  let t262 ← IeeeFloat.gt t2 t14
  check (!decide (t240 = (none : Option Ordering)) || (!t262))
  let t263 ← IeeeFloat_le t2 t14
  check (!decide (t240 = (none : Option Ordering)) || (!t263))
  let t264 ← IeeeFloat.ge t2 t14
  check (!decide (t240 = (none : Option Ordering)) || (!t264))
  let t265 ← ApiFloat.partial_cmp t4 t2
  check (decide (t265 = (none : Option Ordering)))
  let t266 ← IeeeFloat.eq t4 t2
  check (!decide (t265 = (some Ordering.lt)) || (!t266))
  let t267 ← IeeeFloat.eq t4 t2
  check (!decide (t265 = (some Ordering.lt)) || (!t267))
  let t268 ← IeeeFloat.lt t4 t2
  check (!decide (t265 = (some Ordering.lt)) || t268)
  let t269 ← IeeeFloat.gt t4 t2
  check (!decide (t265 = (some Ordering.lt)) || (!t269))
  let t270 ← IeeeFloat_le t4 t2
  check (!decide (t265 = (some Ordering.lt)) || t270)
  let t271 ← IeeeFloat.ge t4 t2
  check (!decide (t265 = (some Ordering.lt)) || (!t271))
  let t272 ← IeeeFloat.eq t4 t2
  check (!decide (t265 = (some Ordering.eq)) || t272)
  let t273 ← IeeeFloat.eq t4 t2
  check (!decide (t265 = (some Ordering.eq)) || (!(!t273)))
  let t274 ← IeeeFloat.lt t4 t2
  check (!decide (t265 = (some Ordering.eq)) || (!t274))
  let t275 ← IeeeFloat.gt t4 t2
  check (!decide (t265 = (some Ordering.eq)) || (!t275))
  let t276 ← IeeeFloat_le t4 t2
  check (!decide (t265 = (some Ordering.eq)) || t276)
  let t277 ← IeeeFloat.ge t4 t2
  check (!decide (t265 = (some Ordering.eq)) || t277)

example : passes t_comparisons_9 = true := by decide +kernel

/-- tests/ieee.rs:3213 `comparisons`. -/
def t_comparisons_10 : M Unit := do
  let t1 ← (ApiFloat.NAN : M Single)
  let t2 ← ApiFloat.neg t1
  let t3 ← (ApiFloat.INFINITY : M Single)
  let t4 ← ApiFloat.neg t3
  let t265 ← ApiFloat.partial_cmp t4 t2
  let t278 ← IeeeFloat.eq t4 t2
  check (!decide (t265 = (some Ordering.gt)) || (!t278))
  let t279 ← IeeeFloat.eq t4 t2
  check (!decide (t265 = (some Ordering.gt)) || (!t279))
  let t280 ← IeeeFloat.lt t4 t2
  check (!decide (t265 = (some Ordering.gt)) || (!t280))
  let t281 ← IeeeFloat.gt t4 t2
  check (!decide (t265 = (some Ordering.gt)) || t281)
  let t282 ← IeeeFloat_le t4 t2
  check (!decide (t265 = (some Ordering.gt)) || (!t282))
  let t283 ← IeeeFloat.ge t4 t2
  check (!decide (t265 = (some Ordering.gt)) || t283)
  let t284 ← IeeeFloat.eq t4 t2
  check (!decide (t265 = (none : Option Ordering)) || (!t284))
  let t285 ← IeeeFloat.eq t4 t2
  check (!decide (t265 = (none : Option Ordering)) || (!t285))
  let t286 ← IeeeFloat.lt t4 t2
  check (!decide (t265 = (none : Option Ordering)) || (!t286))
  let t287 ← IeeeFloat.gt t4 t2
  check (!decide (t265 = (none : Option Ordering)) || (!t287))
  let t288 ← IeeeFloat_le t4 t2
  check (!decide (t265 = (none : Option Ordering)) || (!t288))
  let t289 ← IeeeFloat.ge t4 t2
  check (!decide (t265 = (none : Option Ordering)) || (!t289))
  let t290 ← ApiFloat.partial_cmp t4 t4
  check (decide (t290 = (some Ordering.eq)))
  let t291 ← IeeeFloat.eq t4 t4
  check (!decide (t290 = (some Ordering.lt)) || (!t291))
  let t292 ← IeeeFloat.eq t4 t4
  check (!decide (t290 = (some Ordering.lt)) || (!t292))
  let t293 ← IeeeFloat.lt t4 t4
  check (!decide (t290 = (some Ordering.lt)) || t293)
  let t294 ← IeeeFloat.gt t4 t4
  check (!decide (t290 = (some Ordering.lt)) || (!t294))
  let t295 ← IeeeFloat_le t4 t4
  check (!decide (t290 = (some Ordering.lt)) || t295)
  let t296 ← IeeeFloat.ge t4 t4
  check (!decide (t290 = (some Ordering.lt)) || (!t296))
  let t297 ← IeeeFloat.eq t4 t4
  check (!decide (t290 = (some Ordering.eq)) || t297)
  let t298 ← IeeeFloat.eq t4 t4
  check (!decide (t290 = (some Ordering.eq)) || (!(!t298)))
  let t299 ← IeeeFloat.lt t4 t4
  check (!decide (t290 = (some Ordering.eq)) || (!t299))
  let t300 ← IeeeFloat.gt t4 t4
  check (!decide (t290 = (some Ordering.eq)) || (!t300))
  let t301 ← IeeeFloat_le t4 t4
  check (!decide (t290 = (some Ordering.eq)) || t301)
  let t302 ← IeeeFloat.ge t4 t4
  check (!decide (t290 = (some Ordering.eq)) || t302)
  let t303 ← IeeeFloat.eq t4 t4
  check (!decide (t290 = (some Ordering.gt)) || (!t303))
  let t304 ← IeeeFloat.eq t4 t4
  check (!decide (t290 = (some Ordering.gt)) || (!t304))
  let t305 ← IeeeFloat.lt t4 t4
  check (!decide (t290 = (some Ordering.gt)) || (!t305))
  let t306 ← IeeeFloat.gt t4 t4
  check (!decide (t290 = (some Ordering.gt)) || t306)
  let t307 ← IeeeFloat_le t4 t4
  check (!decide (t290 = (some Ordering.gt)) || (!t307))

example : passes t_comparisons_10 = true := by decide +kernel

/-- tests/ieee.rs:3213 `comparisons`. -/
def t_comparisons_11 : M Unit := do
  let t3 ← (ApiFloat.INFINITY : M Single)
  let t4 ← ApiFloat.neg t3
  let t5 ← (ApiFloat.largest : M Single)
  let t6 ← ApiFloat.neg t5
  let t290 ← ApiFloat.partial_cmp t4 t4
  let t308 ← IeeeFloat.ge t4 t4
  check (!decide (t290 = (some Ordering.gt)) || t308)
  let t309 ← IeeeFloat.eq t4 t4
  check (!decide (t290 = (none : Option Ordering)) || (!t309))
  let t310 ← IeeeFloat.eq t4 t4
  check (!decide (t290 = (none : Option Ordering)) || (!t310))
  let t311 ← IeeeFloat.lt t4 t4
  check (!decide (t290 = (none : Option Ordering)) || (!t311))
  let t312 ← IeeeFloat.gt t4 t4
  check (!decide (t290 = (none : Option Ordering)) || (!t312))
  let t313 ← IeeeFloat_le t4 t4
  check (!decide (t290 = (none : Option Ordering)) || (!t313))
  let t314 ← IeeeFloat.ge t4 t4
  check (!decide (t290 = (none : Option Ordering)) || (!t314))
  let t315 ← ApiFloat.partial_cmp t4 t6
  check (decide (t315 = (some Ordering.lt)))
  let t316 ← IeeeFloat.eq t4 t6
  check (!decide (t315 = (some Ordering.lt)) || (!t316))
  let t317 ← IeeeFloat.eq t4 t6
  check (!decide (t315 = (some Ordering.lt)) || (!t317))
  let t318 ← IeeeFloat.lt t4 t6
  check (!decide (t315 = (some Ordering.lt)) || t318)
  let t319 ← IeeeFloat.gt t4 t6
  check (!decide (t315 = (some Ordering.lt)) || (!t319))
  let t320 ← IeeeFloat_le t4 t6
  check (!decide (t315 = (some Ordering.lt)) || t320)
  let t321 ← IeeeFloat.ge t4 t6
  check (!decide (t315 = (some Ordering.lt)) || (!t321))
  let t322 ← IeeeFloat.eq t4 t6
  check (!decide (t315 = (some Ordering.eq)) || t322)
  let t323 ← IeeeFloat.eq t4 t6
  check (!decide (t315 = (some Ordering.eq)) || (!(!t323)))
  let t324 ← IeeeFloat.lt t4 t6
  check (!decide (t315 = (some Ordering.eq)) || (!t324))
  let t325 ← IeeeFloat.gt t4 t6
  check (!decide (t315 = (some Ordering.eq)) || (!t325))
  let t326 ← IeeeFloat_le t4 t6
  check (!decide (t315 = (some Ordering.eq)) || t326)
  let t327 ← IeeeFloat.ge t4 t6
  check (!decide (t315 = (some Ordering.eq)) || t327)
  let t328 ← IeeeFloat.eq t4 t6
  check (!decide (t315 = (some Ordering.gt)) || (!t328))
  let t329 ← IeeeFloat.eq t4 t6
  check (!decide (t315 = (some Ordering.gt)) || (!t329))
  let t330 ← IeeeFloat.lt t4 t6
  check (!decide (t315 = (some Ordering.gt)) || (!t330))
  let t331 ← IeeeFloat.gt t4 t6
  check (!decide (t315 = (some Ordering.gt)) || t331)
  let t332 ← IeeeFloat_le t4 t6
  check (!decide (t315 = (some Ordering.gt)) || (!t332))
  let t333 ← IeeeFloat.ge t4 t6
  check (!decide (t315 = (some Ordering.gt)) || t333)
  let t334 ← IeeeFloat.eq t4 t6
  check (!decide (t315 = (none : Option Ordering)) || (!t334))
  let t335 ← IeeeFloat.eq t4 t6
  check (!decide (t315 = (none : Option Ordering)) || (!t335))
  let t336 ← IeeeFloat.lt t4 t6
  check (!decide (t315 = (none : Option Ordering)) || (!t336))
  let t337 ← IeeeFloat.gt t4 t6
  check (!decide (t315 = (none : Option Ordering)) || (!t337))

example : passes t_comparisons_11 = true := by decide +kernel

/-- tests/ieee.rs:3213 `comparisons`. -/
def t_comparisons_12 : M Unit := do
  let t3 ← (ApiFloat.INFINITY : M Single)
  let t4 ← ApiFloat.neg t3
  let t5 ← (ApiFloat.largest : M Single)
  let t6 ← ApiFloat.neg t5
  let t7 ← (parse ("-0x1p+0".toList) : M Single)
  let t8 ← (ApiFloat.ZERO : M Single)
  let t9 ← ApiFloat.neg t8
  let t315 ← ApiFloat.partial_cmp t4 t6
  let t338 ← IeeeFloat_le t4 t6
  check (!decide (t315 = (none : Option Ordering)) || (!t338))
  let t339 ← IeeeFloat.ge t4 t6
  check (!decide (t315 = (none : Option Ordering)) || (!t339))
  let t340 ← ApiFloat.partial_cmp t4 t7
  check (decide (t340 = (some Ordering.lt)))
  let t341 ← IeeeFloat.eq t4 t7
  check (!decide (t340 = (some Ordering.lt)) || (!t341))
  let t342 ← IeeeFloat.eq t4 t7
  check (!decide (t340 = (some Ordering.lt)) || (!t342))
  let t343 ← IeeeFloat.lt t4 t7
  check (!decide (t340 = (some Ordering.lt)) || t343)
  let t344 ← IeeeFloat.gt t4 t7
  check (!decide (t340 = (some Ordering.lt)) || (!t344))
  let t345 ← IeeeFloat_le t4 t7
  check (!decide (t340 = (some Ordering.lt)) || t345)
  let t346 ← IeeeFloat.ge t4 t7
  check (!decide (t340 = (some Ordering.lt)) || (!t346))
  let t347 ← IeeeFloat.eq t4 t7
  check (!decide (t340 = (some Ordering.eq)) || t347)
  let t348 ← IeeeFloat.eq t4 t7
  check (!decide (t340 = (some Ordering.eq)) || (!(!t348)))
  let t349 ← IeeeFloat.lt t4 t7
  check (!decide (t340 = (some Ordering.eq)) || (!t349))
  let t350 ← IeeeFloat.gt t4 t7
  check (!decide (t340 = (some Ordering.eq)) || (!t350))
  let t351 ← IeeeFloat_le t4 t7
  check (!decide (t340 = (some Ordering.eq)) || t351)
  let t352 ← IeeeFloat.ge t4 t7
  check (!decide (t340 = (some Ordering.eq)) || t352)
  let t353 ← IeeeFloat.eq t4 t7
  check (!decide (t340 = (some Ordering.gt)) || (!t353))
  let t354 ← IeeeFloat.eq t4 t7
  check (!decide (t340 = (some Ordering.gt)) || (!t354))
  let t355 ← IeeeFloat.lt t4 t7
  check (!decide (t340 = (some Ordering.gt)) || (!t355))
  let t356 ← IeeeFloat.gt t4 t7
  check (!decide (t340 = (some Ordering.gt)) || t356)
  let t357 ← IeeeFloat_le t4 t7
  check (!decide (t340 = (some Ordering.gt)) || (!t357))
  let t358 ← IeeeFloat.ge t4 t7
  check (!decide (t340 = (some Ordering.gt)) || t358)
  let t359 ← IeeeFloat.eq t4 t7
  check (!decide (t340 = (none : Option Ordering)) || (!t359))
  let t360 ← IeeeFloat.eq t4 t7
  check (!decide (t340 = (none : Option Ordering)) || (!t360))
  let t361 ← IeeeFloat.lt t4 t7
  check (!decide (t340 = (none : Option Ordering)) || (!t361))
  let t362 ← IeeeFloat.gt t4 t7
  check (!decide (t340 = (none : Option Ordering)) || (!t362))
  let t363 ← IeeeFloat_le t4 t7
  check (!decide (t340 = (none : Option Ordering)) || (!t363))
  let t364 ← IeeeFloat.ge t4 t7
  check (!decide (t340 = (none : Option Ordering)) || (!t364))
  let t365 ← ApiFloat.partial_cmp t4 t9
  check (decide (t365 = (some Ordering.lt)))
  let t366 ← IeeeFloat.eq t4 t9
  check (!decide (t365 = (some Ordering.lt)) || (!t366))
  let t367 ← IeeeFloat.eq t4 t9
  check (!decide (t365 = (some Ordering.lt)) || (!t367))

example : passes t_comparisons_12 = true := by decide +kernel

/-- tests/ieee.rs:3213 `comparisons`. -/
def t_comparisons_13 : M Unit := do
  let t3 ← (ApiFloat.INFINITY : M Single)
  let t4 ← ApiFloat.neg t3
  let t8 ← (ApiFloat.ZERO : M Single)
  let t9 ← ApiFloat.neg t8
  let t10 ← (ApiFloat.ZERO : M Single)
  let t365 ← ApiFloat.partial_cmp t4 t9
  let t368 ← IeeeFloat.lt t4 t9
  check (!decide (t365 = (some Ordering.lt)) || t368)
  let t369 ← IeeeFloat.gt t4 t9
  check (!decide (t365 = (some Ordering.lt)) || (!t369))
  let t370 ← IeeeFloat_le t4 t9
  check (!decide (t365 = (some Ordering.lt)) || t370)
  let t371 ← IeeeFloat.ge t4 t9
  check (!decide (t365 = (some Ordering.lt)) || (!t371))
  let t372 ← IeeeFloat.eq t4 t9
  check (!decide (t365 = (some Ordering.eq)) || t372)
  let t373 ← IeeeFloat.eq t4 t9
  check (!decide (t365 = (some Ordering.eq)) || (!(!t373)))
  let t374 ← IeeeFloat.lt t4 t9
  check (!decide (t365 = (some Ordering.eq)) || (!t374))
  let t375 ← IeeeFloat.gt t4 t9
  check (!decide (t365 = (some Ordering.eq)) || (!t375))
  let t376 ← IeeeFloat_le t4 t9
  check (!decide (t365 = (some Ordering.eq)) || t376)
  let t377 ← IeeeFloat.ge t4 t9
  check (!decide (t365 = (some Ordering.eq)) || t377)
  let t378 ← IeeeFloat.eq t4 t9
  check (!decide (t365 = (some Ordering.gt)) || (!t378))
  let t379 ← IeeeFloat.eq t4 t9
  check (!decide (t365 = (some Ordering.gt)) || (!t379))
  let t380 ← IeeeFloat.lt t4 t9
  check (!decide (t365 = (some Ordering.gt)) || (!t380))
  let t381 ← IeeeFloat.gt t4 t9
  check (!decide (t365 = (some Ordering.gt)) || t381)
  let t382 ← IeeeFloat_le t4 t9
  check (!decide (t365 = (some Ordering.gt)) || (!t382))
  let t383 ← IeeeFloat.ge t4 t9
  check (!decide (t365 = (some Ordering.gt)) || t383)
  let t384 ← IeeeFloat.eq t4 t9
  check (!decide (t365 = (none : Option Ordering)) || (!t384))
  let t385 ← IeeeFloat.eq t4 t9
  check (!decide (t365 = (none : Option Ordering)) || (!t385))
  let t386 ← IeeeFloat.lt t4 t9
  check (!decide (t365 = (none : Option Ordering)) || (!t386))
  let t387 ← IeeeFloat.gt t4 t9
  check (!decide (t365 = (none : Option Ordering)) || (!t387))
  let t388 ← IeeeFloat_le t4 t9
  check (!decide (t365 = (none : Option Ordering)) || (!t388))
  let t389 ← IeeeFloat.ge t4 t9
  check (!decide (t365 = (none : Option Ordering)) || (!t389))
  let t390 ← ApiFloat.partial_cmp t4 t10
  check (decide (t390 = (some Ordering.lt)))
  let t391 ← IeeeFloat.eq t4 t10
  check (!decide (t390 = (some Ordering.lt)) || (!t391))
  let t392 ← IeeeFloat.eq t4 t10
  check (!decide (t390 = (some Ordering.lt)) || (!t392))
  let t393 ← IeeeFloat.lt t4 t10
  check (!decide (t390 = (some Ordering.lt)) || t393)
  let t394 ← IeeeFloat.gt t4 t10
  check (!decide (t390 = (some Ordering.lt)) || (!t394))
  let t395 ← IeeeFloat_le t4 t10
  check (!decide (t390 = (some Ordering.lt)) || t395)
  let t396 ← IeeeFloat.ge t4 t10
  check (!decide (t390 = (some Ordering.lt)) || (!t396))
  let t397 ← IeeeFloat.eq t4 t10
  check (!decide (t390 = (some Ordering.eq)) || t397)

example : passes t_comparisons_13 = true := by decide +kernel

/-- tests/ieee.rs:3213 `comparisons`. -/
def t_comparisons_14 : M Unit := do
  let t3 ← (ApiFloat.INFINITY : M Single)
  let t4 ← ApiFloat.neg t3
  let t10 ← (ApiFloat.ZERO : M Single)
  let t11 ← (parse ("0x1p+0".toList) : M Single)
  let t390 ← ApiFloat.partial_cmp t4 t10
  let t398 ← IeeeFloat.eq t4 t10
  check (!decide (t390 = (some Ordering.eq)) || (!(!t398)))
  let t399 ← IeeeFloat.lt t4 t10
  check (!decide (t390 = (some Ordering.eq)) || (!t399))
  let t400 ← IeeeFloat.gt t4 t10
  check (!decide (t390 = (some Ordering.eq)) || (!t400))
  let t401 ← IeeeFloat_le t4 t10
  check (!decide (t390 = (some Ordering.eq)) || t401)
  let t402 ← IeeeFloat.ge t4 t10
  check (!decide (t390 = (some Ordering.eq)) || t402)
  let t403 ← IeeeFloat.eq t4 t10
  check (!decide (t390 = (some Ordering.gt)) || (!t403))
  let t404 ← IeeeFloat.eq t4 t10
  check (!decide (t390 = (some Ordering.gt)) || (!t404))
  let t405 ← IeeeFloat.lt t4 t10
  check (!decide (t390 = (some Ordering.gt)) || (!t405))
  let t406 ← IeeeFloat.gt t4 t10
  check (!decide (t390 = (some Ordering.gt)) || t406)
  let t407 ← IeeeFloat_le t4 t10
  check (!decide (t390 = (some Ordering.gt)) || (!t407))
  let t408 ← IeeeFloat.ge t4 t10
  check (!decide (t390 = (some Ordering.gt)) || t408)
  let t409 ← IeeeFloat.eq t4 t10
  check (!decide (t390 = (none : Option Ordering)) || (!t409))
  let t410 ← IeeeFloat.eq t4 t10
  check (!decide (t390 = (none : Option Ordering)) || (!t410))
  let t411 ← IeeeFloat.lt t4 t10
  check (!decide (t390 = (none : Option Ordering)) || (!t411))
  let t412 ← IeeeFloat.gt t4 t10
  check (!decide (t390 = (none : Option Ordering)) || (!t412))
  let t413 ← IeeeFloat_le t4 t10
  check (!decide (t390 = (none : Option Ordering)) || (!t413))
  let t414 ← IeeeFloat.ge t4 t10
  check (!decide (t390 = (none : Option Ordering)) || (!t414))
  let t415 ← ApiFloat.partial_cmp t4 t11
  check (decide (t415 = (some Ordering.lt)))
  let t416 ← IeeeFloat.eq t4 t11
  check (!decide (t415 = (some Ordering.lt)) || (!t416))
  let t417 ← IeeeFloat.eq t4 t11
  check (!decide (t415 = (some Ordering.lt)) || (!t417))
  let t418 ← IeeeFloat.lt t4 t11
  check (!decide (t415 = (some Ordering.lt)) || t418)
  let t419 ← IeeeFloat.gt t4 t11
  check (!decide (t415 = (some Ordering.lt)) || (!t419))
  let t420 ← IeeeFloat_le t4 t11
  check (!decide (t415 = (some Ordering.lt)) || t420)
  let t421 ← IeeeFloat.ge t4 t11
  check (!decide (t415 = (some Ordering.lt)) || (!t421))
  let t422 ← IeeeFloat.eq t4 t11
  check (!decide (t415 = (some Ordering.eq)) || t422)
  let t423 ← IeeeFloat.eq t4 t11
  check (!decide (t415 = (some Ordering.eq)) || (!(!t423)))
  let t424 ← IeeeFloat.lt t4 t11
  check (!decide (t415 = (some Ordering.eq)) || (!t424))
  let t425 ← IeeeFloat.gt t4 t11
  check (!decide (t415 = (some Ordering.eq)) || (!t425))
  let t426 ← IeeeFloat_le t4 t11
  check (!decide (t415 = (some Ordering.eq)) || t426)
  let t427 ← IeeeFloat.ge t4 t11
  check (!decide (t415 = (some Ordering.eq)) || t427)

example : passes t_comparisons_14 = true := by decide +kernel

/-- tests/ieee.rs:3213 `comparisons`. -/
def t_comparisons_15 : M Unit := do
  let t3 ← (ApiFloat.INFINITY : M Single)
  let t4 ← ApiFloat.neg t3
  let t11 ← (parse ("0x1p+0".toList) : M Single)
  let t12 ← (ApiFloat.largest : M Single)
  let t415 ← ApiFloat.partial_cmp t4 t11
  let t428 ← IeeeFloat.eq t4 t11
  check (!decide (t415 = (some Ordering.gt)) || (!t428))
  let t429 ← IeeeFloat.eq t4 t11
  check (!decide (t415 = (some Ordering.gt)) || (!t429))
  let t430 ← IeeeFloat.lt t4 t11
  check (!decide (t415 = (some Ordering.gt)) || (!t430))
  let t431 ← IeeeFloat.gt t4 t11
  check (!decide (t415 = (some Ordering.gt)) || t431)
  let t432 ← IeeeFloat_le t4 t11
  check (!decide (t415 = (some Ordering.gt)) || (!t432))
  let t433 ← IeeeFloat.ge t4 t11
  check (!decide (t415 = (some Ordering.gt)) || t433)
  let t434 ← IeeeFloat.eq t4 t11
  check (!decide (t415 = (none : Option Ordering)) || (!t434))
  let t435 ← IeeeFloat.eq t4 t11
  check (!decide (t415 = (none : Option Ordering)) || (!t435))
  let t436 ← IeeeFloat.lt t4 t11
  check (!decide (t415 = (none : Option Ordering)) || (!t436))
  let t437 ← IeeeFloat.gt t4 t11
  check (!decide (t415 = (none : Option Ordering)) || (!t437))
  let t438 ← IeeeFloat_le t4 t11
  check (!decide (t415 = (none : Option Ordering)) || (!t438))
  let t439 ← IeeeFloat.ge t4 t11
  check (!decide (t415 = (none : Option Ordering)) || (!t439))
  let t440 ← ApiFloat.partial_cmp t4 t12
  check (decide (t440 = (some Ordering.lt)))
  let t441 ← IeeeFloat.eq t4 t12
  check (!decide (t440 = (some Ordering.lt)) || (!t441))
  let t442 ← IeeeFloat.eq t4 t12
  check (!decide (t440 = (some Ordering.lt)) || (!t442))
  let t443 ← IeeeFloat.lt t4 t12
  check (!decide (t440 = (some Ordering.lt)) || t443)
  let t444 ← IeeeFloat.gt t4 t12
  check (!decide (t440 = (some Ordering.lt)) || (!t444))
  let t445 ← IeeeFloat_le t4 t12
  check (!decide (t440 = (some Ordering.lt)) || t445)
  let t446 ← IeeeFloat.ge t4 t12
  check (!decide (t440 = (some Ordering.lt)) || (!t446))
  let t447 ← IeeeFloat.eq t4 t12
  check (!decide (t440 = (some Ordering.eq)) || t447)
  let t448 ← IeeeFloat.eq t4 t12
  check (!decide (t440 = (some Ordering.eq)) || (!(!t448)))
  let t449 ← IeeeFloat.lt t4 t12
  check (!decide (t440 = (some Ordering.eq)) || (!t449))
  let t450 ← IeeeFloat.gt t4 t12
  check (!decide (t440 = (some Ordering.eq)) || (!t450))
  let t451 ← IeeeFloat_le t4 t12
  check (!decide (t440 = (some Ordering.eq)) || t451)
  let t452 ← IeeeFloat.ge t4 t12
  check (!decide (t440 = (some Ordering.eq)) || t452)
  let t453 ← IeeeFloat.eq t4 t12
  check (!decide (t440 = (some Ordering.gt)) || (!t453))
  let t454 ← IeeeFloat.eq t4 t12
  check (!decide (t440 = (some Ordering.gt)) || (!t454))
  let t455 ← IeeeFloat.lt t4 t12
  check (!decide (t440 = (some Ordering.gt)) || (!t455))
  let t456 ← IeeeFloat.gt t4 t12
  check (!decide (t440 = (some Ordering.gt)) || t456)
  let t457 ← IeeeFloat_le t4 t12
  check (!decide (t440 = (some Ordering.gt)) || (!t457))

example : passes t_comparisons_15 = true := by decide +kernel

/-- tests/ieee.rs:3213 `comparisons`. -/
def t_comparisons_16 : M Unit := do
  let t3 ← (ApiFloat.INFINITY : M Single)
  let t4 ← ApiFloat.neg t3
  let t12 ← (ApiFloat.largest : M Single)
  let t13 ← (ApiFloat.INFINITY : M Single)
  let t440 ← ApiFloat.partial_cmp t4 t12
  let t458 ← IeeeFloat.ge t4 t12
  check (!decide (t440 = (some Ordering.gt)) || t458)
  let t459 ← IeeeFloat.eq t4 t12
  check (!decide (t440 = (none : Option Ordering)) || (!t459))
  let t460 ← IeeeFloat.eq t4 t12
  check (!decide (t440 = (none : Option Ordering)) || (!t460))
  let t461 ← IeeeFloat.lt t4 t12
  check (!decide (t440 = (none : Option Ordering)) || (!t461))
  let t462 ← IeeeFloat.gt t4 t12
  check (!decide (t440 = (none : Option Ordering)) || (!t462))
  let t463 ← IeeeFloat_le t4 t12
  check (!decide (t440 = (none : Option Ordering)) || (!t463))
  let t464 ← IeeeFloat.ge t4 t12
  check (!decide (t440 = (none : Option Ordering)) || (!t464))
  let t465 ← ApiFloat.partial_cmp t4 t13
  check (decide (t465 = (some Ordering.lt)))
  let t466 ← IeeeFloat.eq t4 t13
  check (!decide (t465 = (some Ordering.lt)) || (!t466))
  let t467 ← IeeeFloat.eq t4 t13
  check (!decide (t465 = (some Ordering.lt)) || (!t467))
  let t468 ← IeeeFloat.lt t4 t13
  check (!decide (t465 = (some Ordering.lt)) || t468)
  let t469 ← IeeeFloat.gt t4 t13
  check (!decide (t465 = (some Ordering.lt)) || (!t469))
  let t470 ← IeeeFloat_le t4 t13
  check (!decide (t465 = (some Ordering.lt)) || t470)
  let t471 ← IeeeFloat.ge t4 t13
  check (!decide (t465 = (some Ordering.lt)) || (!t471))
  let t472 ← IeeeFloat.eq t4 t13
  check (!decide (t465 = (some Ordering.eq)) || t472)
  let t473 ← IeeeFloat.eq t4 t13
  check (!decide (t465 = (some Ordering.eq)) || (!(!t473)))
  let t474 ← IeeeFloat.lt t4 t13
  check (!decide (t465 = (some Ordering.eq)) || (!t474))
  let t475 ← IeeeFloat.gt t4 t13
  check (!decide (t465 = (some Ordering.eq)) || (!t475))
  let t476 ← IeeeFloat_le t4 t13
  check (!decide (t465 = (some Ordering.eq)) || t476)
  let t477 ← IeeeFloat.ge t4 t13
  check (!decide (t465 = (some Ordering.eq)) || t477)
  let t478 ← IeeeFloat.eq t4 t13
  check (!decide (t465 = (some Ordering.gt)) || (!t478))
  let t479 ← IeeeFloat.eq t4 t13
  check (!decide (t465 = (some Ordering.gt)) || (!t479))
  let t480 ← IeeeFloat.lt t4 t13
  check (!decide (t465 = (some Ordering.gt)) || (!t480))
  let t481 ← IeeeFloat.gt t4 t13
  check (!decide (t465 = (some Ordering.gt)) || t481)
  let t482 ← IeeeFloat_le t4 t13
  check (!decide (t465 = (some Ordering.gt)) || (!t482))
  let t483 ← IeeeFloat.ge t4 t13
  check (!decide (t465 = (some Ordering.gt)) || t483)
  let t484 ← IeeeFloat.eq t4 t13
  check (!decide (t465 = (none : Option Ordering)) || (!t484))
  let t485 ← IeeeFloat.eq t4 t13
  check (!decide (t465 = (none : Option Ordering)) || (!t485))
  let t486 ← IeeeFloat.lt t4 t13
  check (!decide (t465 = (none : Option Ordering)) || (!t486))
  let t487 ← IeeeFloat.gt t4 t13
  check (!decide (t465 = (none : Option Ordering)) || (!t487))

example : passes t_comparisons_16 = true := by decide +kernel

/-- tests/ieee.rs:3213 `comparisons`. -/
def t_comparisons_17 : M Unit := do
  let t1 ← (ApiFloat.NAN : M Single)
  let t2 ← ApiFloat.neg t1
  let t3 ← (ApiFloat.INFINITY : M Single)
  let t4 ← ApiFloat.neg t3
  let t5 ← (ApiFloat.largest : M Single)
  let t6 ← ApiFloat.neg t5
  let t13 ← (ApiFloat.INFINITY : M Single)
  let t14 ← (ApiFloat.NAN : M Single)
  let t465 ← ApiFloat.partial_cmp t4 t13
  let t488 ← IeeeFloat_le t4 t13
  check (!decide (t465 = (none : Option Ordering)) || (!t488))
  let t489 ← IeeeFloat.ge t4 t13
  check (!decide (t465 = (none : Option Ordering)) || (!t489))
  let t490 ← ApiFloat.partial_cmp t4 t14
  check (decide (t490 = (none : Option Ordering)))
  let t491 ← IeeeFloat.eq t4 t14
  check (!decide (t490 = (some Ordering.lt)) || (!t491))
  let t492 ← IeeeFloat.eq t4 t14
  check (!decide (t490 = (some Ordering.lt)) || (!t492))
  let t493 ← IeeeFloat.lt t4 t14
  check (!decide (t490 = (some Ordering.lt)) || t493)
  let t494 ← IeeeFloat.gt t4 t14
  check (!decide (t490 = (some Ordering.lt)) || (!t494))
  let t495 ← IeeeFloat_le t4 t14
  check (!decide (t490 = (some Ordering.lt)) || t495)
  let t496 ← IeeeFloat.ge t4 t14
  check (!decide (t490 = (some Ordering.lt)) || (!t496))
  let t497 ← IeeeFloat.eq t4 t14
  check (!decide (t490 = (some Ordering.eq)) || t497)
  let t498 ← IeeeFloat.eq t4 t14
  check (!decide (t490 = (some Ordering.eq)) || (!(!t498)))
  let t499 ← IeeeFloat.lt t4 t14
  check (!decide (t490 = (some Ordering.eq)) || (!t499))
  let t500 ← IeeeFloat.gt t4 t14
  check (!decide (t490 = (some Ordering.eq)) || (!t500))
  let t501 ← IeeeFloat_le t4 t14
  check (!decide (t490 = (some Ordering.eq)) || t501)
  let t502 ← IeeeFloat.ge t4 t14
  check (!decide (t490 = (some Ordering.eq)) || t502)
  let t503 ← IeeeFloat.eq t4 t14
  check (!decide (t490 = (some Ordering.gt)) || (!t503))
  let t504 ← IeeeFloat.eq t4 t14
  check (!decide (t490 = (some Ordering.gt)) || (!t504))
  let t505 ← IeeeFloat.lt t4 t14
  check (!decide (t490 = (some Ordering.gt)) || (!t505))
  let t506 ← IeeeFloat.gt t4 t14
  check (!decide (t490 = (some Ordering.gt)) || t506)
  let t507 ← IeeeFloat_le t4 t14
  check (!decide (t490 = (some Ordering.gt)) || (!t507))
  let t508 ← IeeeFloat.ge t4 t14
  check (!decide (t490 = (some Ordering.gt)) || t508)
  let t509 ← IeeeFloat.eq t4 t14
  check (!decide (t490 = (none : Option Ordering)) || (!t509))
  let t510 ← IeeeFloat.eq t4 t14
  check (!decide (t490 = (none : Option Ordering)) || (!t510))
  let t511 ← IeeeFloat.lt t4 t14
  check (!decide (t490 = (none : Option Ordering)) || (!t511))
  let t512 ← IeeeFloat.gt t4 t14
  check (!decide (t490 = (none : Option Ordering)) || (!t512))
  let t513 ← IeeeFloat_le t4 t14
  check (!decide (t490 = (none : Option Ordering)) || (!t513))
  let t514 ← IeeeFloat.ge t4 t14
  check (!decide (t490 = (none : Option Ordering)) || (!t514))
  let t515 ← ApiFloat.partial_cmp t6 t2
  check (decide (t515 = (none : Option Ordering)))
  let t516 ← IeeeFloat.eq t6 t2
  check (!decide (t515 = (some Ordering.lt)) || (!t516))
  let t517 ← IeeeFloat.eq t6 t2
  check (!decide (t515 = (some Ordering.lt)) || (!t517))

example : passes t_comparisons_17 = true := by decide +kernel

/-- tests/ieee.rs:3213 `comparisons`. -/
def t_comparisons_18 : M Unit := do
  let t1 ← (ApiFloat.NAN : M Single)
  let t2 ← ApiFloat.neg t1
  let t3 ← (ApiFloat.INFINITY : M Single)
  let t4 ← ApiFloat.neg t3
  let t5 ← (ApiFloat.largest : M Single)
  let t6 ← ApiFloat.neg t5
  let t515 ← ApiFloat.partial_cmp t6 t2
  let t518 ← IeeeFloat.lt t6 t2
  check (!decide (t515 = (some Ordering.lt)) || t518)
  let t519 ← IeeeFloat.gt t6 t2
  check (!decide (t515 = (some Ordering.lt)) || (!t519))
  let t520 ← IeeeFloat_le t6 t2
  check (!decide (t515 = (some Ordering.lt)) || t520)
  let t521 ← IeeeFloat.ge t6 t2
  check (!decide (t515 = (some Ordering.lt)) || (!t521))
  let t522 ← IeeeFloat.eq t6 t2
  check (!decide (t515 = (some Ordering.eq)) || t522)
  let t523 ← IeeeFloat.eq t6 t2
  check (!decide (t515 = (some Ordering.eq)) || (!(!t523)))
  let t524 ← IeeeFloat.lt t6 t2
  check (!decide (t515 = (some Ordering.eq)) || (!t524))
  let t525 ← IeeeFloat.gt t6 t2
  check (!decide (t515 = (some Ordering.eq)) || (!t525))
  let t526 ← IeeeFloat_le t6 t2
  check (!decide (t515 = (some Ordering.eq)) || t526)
  let t527 ← IeeeFloat.ge t6 t2
  check (!decide (t515 = (some Ordering.eq)) || t527)
  let t528 ← IeeeFloat.eq t6 t2
  check (!decide (t515 = (some Ordering.gt)) || (!t528))
  let t529 ← IeeeFloat.eq t6 t2
  check (!decide (t515 = (some Ordering.gt)) || (!t529))
  let t530 ← IeeeFloat.lt t6 t2
  check (!decide (t515 = (some Ordering.gt)) || (!t530))
  let t531 ← IeeeFloat.gt t6 t2
  check (!decide (t515 = (some Ordering.gt)) || t531)
  let t532 ← IeeeFloat_le t6 t2
  check (!decide (t515 = (some Ordering.gt)) || (!t532))
  let t533 ← IeeeFloat.ge t6 t2
  check (!decide (t515 = (some Ordering.gt)) || t533)
  let t534 ← IeeeFloat.eq t6 t2
  check (!decide (t515 = (none : Option Ordering)) || (!t534))
  let t535 ← IeeeFloat.eq t6 t2
  check (!decide (t515 = (none : Option Ordering)) || (!t535))
  let t536 ← IeeeFloat.lt t6 t2
  check (!decide (t515 = (none : Option Ordering)) || (!t536))
  let t537 ← IeeeFloat.gt t6 t2
  check (!decide (t515 = (none : Option Ordering)) || (!t537))
  let t538 ← IeeeFloat_le t6 t2
  check (!decide (t515 = (none : Option Ordering)) || (!t538))
  let t539 ← IeeeFloat.ge t6 t2
  check (!decide (t515 = (none : Option Ordering)) || (!t539))
  let t540 ← ApiFloat.partial_cmp t6 t4
  check (decide (t540 = (some Ordering.gt)))
  let t541 ← IeeeFloat.eq t6 t4
  check (!decide (t540 = (some Ordering.lt)) || (!t541))
  let t542 ← IeeeFloat.eq t6 t4
  check (!decide (t540 = (some Ordering.lt)) || (!t542))
  let t543 ← IeeeFloat.lt t6 t4
  check (!decide (t540 = (some Ordering.lt)) || t543)
  let t544 ← IeeeFloat.gt t6 t4
  check (!decide (t540 = (some Ordering.lt)) || (!t544))
  let t545 ← IeeeFloat_le t6 t4
  check (!decide (t540 = (some Ordering.lt)) || t545)
  let t546 ← IeeeFloat.ge t6 t4
  check (!decide (t540 = (some Ordering.lt)) || (!t546))
  let t547 ← IeeeFloat.eq t6 t4
  check (!decide (t540 = (some Ordering.eq)) || t547)

example : passes t_comparisons_18 = true := by decide +kernel

/-- tests/ieee.rs:3213 `comparisons`. -/
def t_comparisons_19 : M Unit := do
  let t3 ← (ApiFloat.INFINITY : M Single)
  let t4 ← ApiFloat.neg t3
  let t5 ← (ApiFloat.largest : M Single)
  let t6 ← ApiFloat.neg t5
  let t540 ← ApiFloat.partial_cmp t6 t4
  let t548 ← IeeeFloat.eq t6 t4
  check (!decide (t540 = (some Ordering.eq)) || (!(!t548)))
  let t549 ← IeeeFloat.lt t6 t4
  check (!decide (t540 = (some Ordering.eq)) || (!t549))
  let t550 ← IeeeFloat.gt t6 t4
  check (!decide (t540 = (some Ordering.eq)) || (!t550))
  let t551 ← IeeeFloat_le t6 t4
  check (!decide (t540 = (some Ordering.eq)) || t551)
  let t552 ← IeeeFloat.ge t6 t4
  check (!decide (t540 = (some Ordering.eq)) || t552)
  let t553 ← IeeeFloat.eq t6 t4
  check (!decide (t540 = (some Ordering.gt)) || (!t553))
  let t554 ← IeeeFloat.eq t6 t4
  check (!decide (t540 = (some Ordering.gt)) || (!t554))
  let t555 ← IeeeFloat.lt t6 t4
  check (!decide (t540 = (some Ordering.gt)) || (!t555))
  let t556 ← IeeeFloat.gt t6 t4
  check (!decide (t540 = (some Ordering.gt)) || t556)
  let t557 ← IeeeFloat_le t6 t4
  check (!decide (t540 = (some Ordering.gt)) || (!t557))
  let t558 ← IeeeFloat.ge t6 t4
  check (!decide (t540 = (some Ordering.gt)) || t558)
  let t559 ← IeeeFloat.eq t6 t4
  check (!decide (t540 = (none : Option Ordering)) || (!t559))
  let t560 ← IeeeFloat.eq t6 t4
  check (!decide (t540 = (none : Option Ordering)) || (!t560))
  let t561 ← IeeeFloat.lt t6 t4
  check (!decide (t540 = (none : Option Ordering)) || (!t561))
  let t562 ← IeeeFloat.gt t6 t4
  check (!decide (t540 = (none : Option Ordering)) || (!t562))
  let t563 ← IeeeFloat_le t6 t4
  check (!decide (t540 = (none : Option Ordering)) || (!t563))
  let t564 ← IeeeFloat.ge t6 t4
  check (!decide (t540 = (none : Option Ordering)) || (!t564))
  let t565 ← ApiFloat.partial_cmp t6 t6
  check (decide (t565 = (some Ordering.eq)))
  let t566 ← IeeeFloat.eq t6 t6
  check (!decide (t565 = (some Ordering.lt)) || (!t566))
  let t567 ← IeeeFloat.eq t6 t6
  check (!decide (t565 = (some Ordering.lt)) || (!t567))
  let t568 ← IeeeFloat.lt t6 t6
  check (!decide (t565 = (some Ordering.lt)) || t568)
  let t569 ← IeeeFloat.gt t6 t6
  check (!decide (t565 = (some Ordering.lt)) || (!t569))
  let t570 ← IeeeFloat_le t6 t6
  check (!decide (t565 = (some Ordering.lt)) || t570)
  let t571 ← IeeeFloat.ge t6 t6
  check (!decide (t565 = (some Ordering.lt)) || (!t571))
  let t572 ← IeeeFloat.eq t6 t6
  check (!decide (t565 = (some Ordering.eq)) || t572)
  let t573 ← IeeeFloat.eq t6 t6
  check (!decide (t565 = (some Ordering.eq)) || (!(!t573)))
  let t574 ← IeeeFloat.lt t6 t6
  check (!decide (t565 = (some Ordering.eq)) || (!t574))
  let t575 ← IeeeFloat.gt t6 t6
  check (!decide (t565 = (some Ordering.eq)) || (!t575))
  let t576 ← IeeeFloat_le t6 t6
  check (!decide (t565 = (some Ordering.eq)) || t576)
  let t577 ← IeeeFloat.ge t6 t6
  check (!decide (t565 = (some Ordering.eq)) || t577)

example : passes t_comparisons_19 = true := by decide +kernel

/-- tests/ieee.rs:3213 `comparisons`. -/
def t_comparisons_20 : M Unit := do
  let t5 ← (ApiFloat.largest : M Single)
  let t6 ← ApiFloat.neg t5
  let t7 ← (parse ("-0x1p+0".toList) : M Single)
  let t565 ← ApiFloat.partial_cmp t6 t6
  let t578 ← IeeeFloat.eq t6 t6
  check (!decide (t565 = (some Ordering.gt)) || (!t578))
  let t579 ← IeeeFloat.eq t6 t6
  check (!decide (t565 = (some Ordering.gt)) || (!t579))
  let t580 ← IeeeFloat.lt t6 t6
  check (!decide (t565 = (some Ordering.gt)) || (!t580))
  let t581 ← IeeeFloat.gt t6 t6
  check (!decide (t565 = (some Ordering.gt)) || t581)
  let t582 ← IeeeFloat_le t6 t6
  check (!decide (t565 = (some Ordering.gt)) || (!t582))
  let t583 ← IeeeFloat.ge t6 t6
  check (!decide (t565 = (some Ordering.gt)) || t583)
  let t584 ← IeeeFloat.eq t6 t6
  check (!decide (t565 = (none : Option Ordering)) || (!t584))
  let t585 ← IeeeFloat.eq t6 t6
  check (!decide (t565 = (none : Option Ordering)) || (!t585))
  let t586 ← IeeeFloat.lt t6 t6
  check (!decide (t565 = (none : Option Ordering)) || (!t586))
  let t587 ← IeeeFloat.gt t6 t6
  check (!decide (t565 = (none : Option Ordering)) || (!t587))
  let t588 ← IeeeFloat_le t6 t6
  check (!decide (t565 = (none : Option Ordering)) || (!t588))
  let t589 ← IeeeFloat.ge t6 t6
  check (!decide (t565 = (none : Option Ordering)) || (!t589))
  let t590 ← ApiFloat.partial_cmp t6 t7
  check (decide (t590 = (some Ordering.lt)))
  let t591 ← IeeeFloat.eq t6 t7
  check (!decide (t590 = (some Ordering.lt)) || (!t591))
  let t592 ← IeeeFloat.eq t6 t7
  check (!decide (t590 = (some Ordering.lt)) || (!t592))
  let t593 ← IeeeFloat.lt t6 t7
  check (!decide (t590 = (some Ordering.lt)) || t593)
  let t594 ← IeeeFloat.gt t6 t7
  check (!decide (t590 = (some Ordering.lt)) || (!t594))
  let t595 ← IeeeFloat_le t6 t7
  check (!decide (t590 = (some Ordering.lt)) || t595)
  let t596 ← IeeeFloat.ge t6 t7
  check (!decide (t590 = (some Ordering.lt)) || (!t596))
  let t597 ← IeeeFloat.eq t6 t7
  check (!decide (t590 = (some Ordering.eq)) || t597)
  let t598 ← IeeeFloat.eq t6 t7
  check (!decide (t590 = (some Ordering.eq)) || (!(!t598)))
  let t599 ← IeeeFloat.lt t6 t7
  check (!decide (t590 = (some Ordering.eq)) || (!t599))
  let t600 ← IeeeFloat.gt t6 t7
  check (!decide (t590 = (some Ordering.eq)) || (!t600))
  let t601 ← IeeeFloat_le t6 t7
  check (!decide (t590 = (some Ordering.eq)) || t601)
  let t602 ← IeeeFloat.ge t6 t7
  check (!decide (t590 = (some Ordering.eq)) || t602)
  let t603 ← IeeeFloat.eq t6 t7
  check (!decide (t590 = (some Ordering.gt)) || (!t603))
  let t604 ← IeeeFloat.eq t6 t7
  check (!decide (t590 = (some Ordering.gt)) || (!t604))
  let t605 ← IeeeFloat.lt t6 t7
  check (!decide (t590 = (some Ordering.gt)) || (!t605))
  let t606 ← IeeeFloat.gt t6 t7
  check (!decide (t590 = (some Ordering.gt)) || t606)
  let t607 ← IeeeFloat_le t6 t7
  check (!decide (t590 = (some Ordering.gt)) || (!t607))

example : passes t_comparisons_20 = true := by decide +kernel

/-- tests/ieee.rs:3213 `comparisons`. -/
def t_comparisons_21 : M Unit := do
  let t5 ← (ApiFloat.largest : M Single)
  let t6 ← ApiFloat.neg t5
  let t7 ← (parse ("-0x1p+0".toList) : M Single)
  let t8 ← (ApiFloat.ZERO : M Single)
  let t9 ← ApiFloat.neg t8
  let t590 ← ApiFloat.partial_cmp t6 t7
  let t608 ← IeeeFloat.ge t6 t7
  check (!decide (t590 = (some Ordering.gt)) || t608)
  let t609 ← IeeeFloat.eq t6 t7
  check (!decide (t590 = (none : Option Ordering)) || (!t609))
  let t610 ← IeeeFloat.eq t6 t7
  check (!decide (t590 = (none : Option Ordering)) || (!t610))
  let t611 ← IeeeFloat.lt t6 t7
  check (!decide (t590 = (none : Option Ordering)) || (!t611))
  let t612 ← IeeeFloat.gt t6 t7
  check (!decide (t590 = (none : Option Ordering)) || (!t612))
  let t613 ← IeeeFloat_le t6 t7
  check (!decide (t590 = (none : Option Ordering)) || (!t613))
  let t614 ← IeeeFloat.ge t6 t7
  check (!decide (t590 = (none : Option Ordering)) || (!t614))
  let t615 ← ApiFloat.partial_cmp t6 t9
  check (decide (t615 = (some Ordering.lt)))
  let t616 ← IeeeFloat.eq t6 t9
  check (!decide (t615 = (some Ordering.lt)) || (!t616))
  let t617 ← IeeeFloat.eq t6 t9
  check (!decide (t615 = (some Ordering.lt)) || (!t617))
  let t618 ← IeeeFloat.lt t6 t9
  check (!decide (t615 = (some Ordering.lt)) || t618)
  let t619 ← IeeeFloat.gt t6 t9
  check (!decide (t615 = (some Ordering.lt)) || (!t619))
  let t620 ← IeeeFloat_le t6 t9
  check (!decide (t615 = (some Ordering.lt)) || t620)
  let t621 ← IeeeFloat.ge t6 t9
  check (!decide (t615 = (some Ordering.lt)) || (!t621))
  let t622 ← IeeeFloat.eq t6 t9
  check (!decide (t615 = (some Ordering.eq)) || t622)
  let t623 ← IeeeFloat.eq t6 t9
  check (!decide (t615 = (some Ordering.eq)) || (!(!t623)))
  let t624 ← IeeeFloat.lt t6 t9
  check (!decide (t615 = (some Ordering.eq)) || (!t624))
  let t625 ← IeeeFloat.gt t6 t9
  check (!decide (t615 = (some Ordering.eq)) || (!t625))
  let t626 ← IeeeFloat_le t6 t9
  check (!decide (t615 = (some Ordering.eq)) || t626)
  let t627 ← IeeeFloat.ge t6 t9
  check (!decide (t615 = (some Ordering.eq)) || t627)
  let t628 ← IeeeFloat.eq t6 t9
  check (!decide (t615 = (some Ordering.gt)) || (!t628))
  let t629 ← IeeeFloat.eq t6 t9
  check (!decide (t615 = (some Ordering.gt)) || (!t629))
  let t630 ← IeeeFloat.lt t6 t9
  check (!decide (t615 = (some Ordering.gt)) || (!t630))
  let t631 ← IeeeFloat.gt t6 t9
  check (!decide (t615 = (some Ordering.gt)) || t631)
  let t632 ← IeeeFloat_le t6 t9
  check (!decide (t615 = (some Ordering.gt)) || (!t632))
  let t633 ← IeeeFloat.ge t6 t9
  check (!decide (t615 = (some Ordering.gt)) || t633)
  let t634 ← IeeeFloat.eq t6 t9
  check (!decide (t615 = (none : Option Ordering)) || (!t634))
  let t635 ← IeeeFloat.eq t6 t9
  check (!decide (t615 = (none : Option Ordering)) || (!t635))
  let t636 ← IeeeFloat.lt t6 t9
  check (!decide (t615 = (none : Option Ordering)) || (!t636))
  let t637 ← IeeeFloat.gt t6 t9
  check (!decide (t615 = (none : Option Ordering)) || (!t637))

example : passes t_comparisons_21 = true := by decide +kernel

/-- tests/ieee.rs:3213 `comparisons`. -/
def t_comparisons_22 : M Unit := do
  let t5 ← (ApiFloat.largest : M Single)
  let t6 ← ApiFloat.neg t5
  let t8 ← (ApiFloat.ZERO : M Single)
  let t9 ← ApiFloat.neg t8
  let t10 ← (ApiFloat.ZERO : M Single)
  let t11 ← (parse ("0x1p+0".toList) : M Single)
  let t615 ← ApiFloat.partial_cmp t6 t9
  let t638 ← IeeeFloat_le t6 t9
  check (!decide (t615 = (none : Option Ordering)) || (!t638))
  let t639 ← IeeeFloat.ge t6 t9
  check (!decide (t615 = (none : Option Ordering)) || (!t639))
  let t640 ← ApiFloat.partial_cmp t6 t10
  check (decide (t640 = (some Ordering.lt)))
  let t641 ← IeeeFloat.eq t6 t10
  check (!decide (t640 = (some Ordering.lt)) || (!t641))
  let t642 ← IeeeFloat.eq t6 t10
  check (!decide (t640 = (some Ordering.lt)) || (!t642))
  let t643 ← IeeeFloat.lt t6 t10
  check (!decide (t640 = (some Ordering.lt)) || t643)
  let t644 ← IeeeFloat.gt t6 t10
  check (!decide (t640 = (some Ordering.lt)) || (!t644))
  let t645 ← IeeeFloat_le t6 t10
  check (!decide (t640 = (some Ordering.lt)) || t645)
  let t646 ← IeeeFloat.ge t6 t10
  check (!decide (t640 = (some Ordering.lt)) || (!t646))
  let t647 ← IeeeFloat.eq t6 t10
  check (!decide (t640 = (some Ordering.eq)) || t647)
  let t648 ← IeeeFloat.eq t6 t10
  check (!decide (t640 = (some Ordering.eq)) || (!(!t648)))
  let t649 ← IeeeFloat.lt t6 t10
  check (!decide (t640 = (some Ordering.eq)) || (!t649))
  let t650 ← IeeeFloat.gt t6 t10
  check (!decide (t640 = (some Ordering.eq)) || (!t650))
  let t651 ← IeeeFloat_le t6 t10
  check (!decide (t640 = (some Ordering.eq)) || t651)
  let t652 ← IeeeFloat.ge t6 t10
  check (!decide (t640 = (some Ordering.eq)) || t652)
  let t653 ← IeeeFloat.eq t6 t10
  check (!decide (t640 = (some Ordering.gt)) || (!t653))
  let t654 ← IeeeFloat.eq t6 t10
  check (!decide (t640 = (some Ordering.gt)) || (!t654))
  let t655 ← IeeeFloat.lt t6 t10
  check (!decide (t640 = (some Ordering.gt)) || (!t655))
  let t656 ← IeeeFloat.gt t6 t10
  check (!decide (t640 = (some Ordering.gt)) || t656)
  let t657 ← IeeeFloat_le t6 t10
  check (!decide (t640 = (some Ordering.gt)) || (!t657))
  let t658 ← IeeeFloat.ge t6 t10
  check (!decide (t640 = (some Ordering.gt)) || t658)
  let t659 ← IeeeFloat.eq t6 t10
  check (!decide (t640 = (none : Option Ordering)) || (!t659))
  let t660 ← IeeeFloat.eq t6 t10
  check (!decide (t640 = (none : Option Ordering)) || (!t660))
  let t661 ← IeeeFloat.lt t6 t10
  check (!decide (t640 = (none : Option Ordering)) || (!t661))
  let t662 ← IeeeFloat.gt t6 t10
  check (!decide (t640 = (none : Option Ordering)) || (!t662))
  let t663 ← IeeeFloat_le t6 t10
  check (!decide (t640 = (none : Option Ordering)) || (!t663))
  let t664 ← IeeeFloat.ge t6 t10
  check (!decide (t640 = (none : Option Ordering)) || (!t664))
  let t665 ← ApiFloat.partial_cmp t6 t11
  check (decide (t665 = (some Ordering.lt)))
  let t666 ← IeeeFloat.eq t6 t11
  check (!decide (t665 = (some Ordering.lt)) || (!t666))
  let t667 ← IeeeFloat.eq t6 t11
  check (!decide (t665 = (some Ordering.lt)) || (!t667))

example : passes t_comparisons_22 = true := by decide +kernel

/-- tests/ieee.rs:3213 `comparisons`. -/
def t_comparisons_23 : M Unit := do
  let t5 ← (ApiFloat.largest : M Single)
  let t6 ← ApiFloat.neg t5
  let t11 ← (parse ("0x1p+0".toList) : M Single)
  let t12 ← (ApiFloat.largest : M Single)
  let t665 ← ApiFloat.partial_cmp t6 t11
  let t668 ← IeeeFloat.lt t6 t11
  check (!decide (t665 = (some Ordering.lt)) || t668)
  let t669 ← IeeeFloat.gt t6 t11
  check (!decide (t665 = (some Ordering.lt)) || (!t669))
  let t670 ← IeeeFloat_le t6 t11
  check (!decide (t665 = (some Ordering.lt)) || t670)
  let t671 ← IeeeFloat.ge t6 t11
  check (!decide (t665 = (some Ordering.lt)) || (!t671))
  let t672 ← IeeeFloat.eq t6 t11
  check (!decide (t665 = (some Ordering.eq)) || t672)
  let t673 ← IeeeFloat.eq t6 t11
  check (!decide (t665 = (some Ordering.eq)) || (!(!t673)))
  let t674 ← IeeeFloat.lt t6 t11
  check (!decide (t665 = (some Ordering.eq)) || (!t674))
  let t675 ← IeeeFloat.gt t6 t11
  check (!decide (t665 = (some Ordering.eq)) || (!t675))
  let t676 ← IeeeFloat_le t6 t11
  check (!decide (t665 = (some Ordering.eq)) || t676)
  let t677 ← IeeeFloat.ge t6 t11
  check (!decide (t665 = (some Ordering.eq)) || t677)
  let t678 ← IeeeFloat.eq t6 t11
  check (!decide (t665 = (some Ordering.gt)) || (!t678))
  let t679 ← IeeeFloat.eq t6 t11
  check (!decide (t665 = (some Ordering.gt)) || (!t679))
  let t680 ← IeeeFloat.lt t6 t11
  check (!decide (t665 = (some Ordering.gt)) || (!t680))
  let t681 ← IeeeFloat.gt t6 t11
  check (!decide (t665 = (some Ordering.gt)) || t681)
  let t682 ← IeeeFloat_le t6 t11
  check (!decide (t665 = (some Ordering.gt)) || (!t682))
  let t683 ← IeeeFloat.ge t6 t11
  check (!decide (t665 = (some Ordering.gt)) || t683)
  let t684 ← IeeeFloat.eq t6 t11
  check (!decide (t665 = (none : Option Ordering)) || (!t684))
  let t685 ← IeeeFloat.eq t6 t11
  check (!decide (t665 = (none : Option Ordering)) || (!t685))
  let t686 ← IeeeFloat.lt t6 t11
  check (!decide (t665 = (none : Option Ordering)) || (!t686))
  let t687 ← IeeeFloat.gt t6 t11
  check (!decide (t665 = (none : Option Ordering)) || (!t687))
  let t688 ← IeeeFloat_le t6 t11
  check (!decide (t665 = (none : Option Ordering)) || (!t688))
  let t689 ← IeeeFloat.ge t6 t11
  check (!decide (t665 = (none : Option Ordering)) || (!t689))
  let t690 ← ApiFloat.partial_cmp t6 t12
  check (decide (t690 = (some Ordering.lt)))
  let t691 ← IeeeFloat.eq t6 t12
  check (!decide (t690 = (some Ordering.lt)) || (!t691))
  let t692 ← IeeeFloat.eq t6 t12
  check (!decide (t690 = (some Ordering.lt)) || (!t692))
  let t693 ← IeeeFloat.lt t6 t12
  check (!decide (t690 = (some Ordering.lt)) || t693)
  let t694 ← IeeeFloat.gt t6 t12
  check (!decide (t690 = (some Ordering.lt)) || (!t694))
  let t695 ← IeeeFloat_le t6 t12
  check (!decide (t690 = (some Ordering.lt)) || t695)
  let t696 ← IeeeFloat.ge t6 t12
  check (!decide (t690 = (some Ordering.lt)) || (!t696))
  let t697 ← IeeeFloat.eq t6 t12
  check (!decide (t690 = (some Ordering.eq)) || t697)

example : passes t_comparisons_23 = true := by decide +kernel

/-- tests/ieee.rs:3213 `comparisons`. -/
def t_comparisons_24 : M Unit := do
  let t5 ← (ApiFloat.largest : M Single)
  let t6 ← ApiFloat.neg t5
  let t12 ← (ApiFloat.largest : M Single)
  let t13 ← (ApiFloat.INFINITY : M Single)
  let t690 ← ApiFloat.partial_cmp t6 t12
  let t698 ← IeeeFloat.eq t6 t12
  check (!decide (t690 = (some Ordering.eq)) || (!(!t698)))
  let t699 ← IeeeFloat.lt t6 t12
  check (!decide (t690 = (some Ordering.eq)) || (!t699))
  let t700 ← IeeeFloat.gt t6 t12
  check (!decide (t690 = (some Ordering.eq)) || (!t700))
  let t701 ← IeeeFloat_le t6 t12
  check (!decide (t690 = (some Ordering.eq)) || t701)
  let t702 ← IeeeFloat.ge t6 t12
  check (!decide (t690 = (some Ordering.eq)) || t702)
  let t703 ← IeeeFloat.eq t6 t12
  check (!decide (t690 = (some Ordering.gt)) || (!t703))
  let t704 ← IeeeFloat.eq t6 t12
  check (!decide (t690 = (some Ordering.gt)) || (!t704))
  let t705 ← IeeeFloat.lt t6 t12
  check (!decide (t690 = (some Ordering.gt)) || (!t705))
  let t706 ← IeeeFloat.gt t6 t12
  check (!decide (t690 = (some Ordering.gt)) || t706)
  let t707 ← IeeeFloat_le t6 t12
  check (!decide (t690 = (some Ordering.gt)) || (!t707))
  let t708 ← IeeeFloat.ge t6 t12
  check (!decide (t690 = (some Ordering.gt)) || t708)
  let t709 ← IeeeFloat.eq t6 t12
  check (!decide (t690 = (none : Option Ordering)) || (!t709))
  let t710 ← IeeeFloat.eq t6 t12
  check (!decide (t690 = (none : Option Ordering)) || (!t710))
  let t711 ← IeeeFloat.lt t6 t12
  check (!decide (t690 = (none : Option Ordering)) || (!t711))
  let t712 ← IeeeFloat.gt t6 t12
  check (!decide (t690 = (none : Option Ordering)) || (!t712))
  let t713 ← IeeeFloat_le t6 t12
  check (!decide (t690 = (none : Option Ordering)) || (!t713))
  let t714 ← IeeeFloat.ge t6 t12
  check (!decide (t690 = (none : Option Ordering)) || (!t714))
  let t715 ← ApiFloat.partial_cmp t6 t13
  check (decide (t715 = (some Ordering.lt)))
  let t716 ← IeeeFloat.eq t6 t13
  check (!decide (t715 = (some Ordering.lt)) || (!t716))
  let t717 ← IeeeFloat.eq t6 t13
  check (!decide (t715 = (some Ordering.lt)) || (!t717))
  let t718 ← IeeeFloat.lt t6 t13
  check (!decide (t715 = (some Ordering.lt)) || t718)
  let t719 ← IeeeFloat.gt t6 t13
  check (!decide (t715 = (some Ordering.lt)) || (!t719))
  let t720 ← IeeeFloat_le t6 t13
  check (!decide (t715 = (some Ordering.lt)) || t720)
  let t721 ← IeeeFloat.ge t6 t13
  check (!decide (t715 = (some Ordering.lt)) || (!t721))
  let t722 ← IeeeFloat.eq t6 t13
  check (!decide (t715 = (some Ordering.eq)) || t722)
  let t723 ← IeeeFloat.eq t6 t13
  check (!decide (t715 = (some Ordering.eq)) || (!(!t723)))
  let t724 ← IeeeFloat.lt t6 t13
  check (!decide (t715 = (some Ordering.eq)) || (!t724))
  let t725 ← IeeeFloat.gt t6 t13
  check (!decide (t715 = (some Ordering.eq)) || (!t725))
  let t726 ← IeeeFloat_le t6 t13
  check (!decide (t715 = (some Ordering.eq)) || t726)
  let t727 ← IeeeFloat.ge t6 t13
  check (!decide (t715 = (some Ordering.eq)) || t727)

example : passes t_comparisons_24 = true := by decide +kernel

/-- tests/ieee.rs:3213 `comparisons`. -/
def t_comparisons_25 : M Unit := do
  let t5 ← (ApiFloat.largest : M Single)
  let t6 ← ApiFloat.neg t5
  let t13 ← (ApiFloat.INFINITY : M Single)
  let t14 ← (ApiFloat.NAN : M Single)
  let t715 ← ApiFloat.partial_cmp t6 t13
  let t728 ← IeeeFloat.eq t6 t13
  check (!decide (t715 = (some Ordering.gt)) || (!t728))
  let t729 ← IeeeFloat.eq t6 t13
  check (!decide (t715 = (some Ordering.gt)) || (!t729))
  let t730 ← IeeeFloat.lt t6 t13
  check (!decide (t715 = (some Ordering.gt)) || (!t730))
  let t731 ← IeeeFloat.gt t6 t13
  check (!decide (t715 = (some Ordering.gt)) || t731)
  let t732 ← IeeeFloat_le t6 t13
  check (!decide (t715 = (some Ordering.gt)) || (!t732))
  let t733 ← IeeeFloat.ge t6 t13
  check (!decide (t715 = (some Ordering.gt)) || t733)
  let t734 ← IeeeFloat.eq t6 t13
  check (!decide (t715 = (none : Option Ordering)) || (!t734))
  let t735 ← IeeeFloat.eq t6 t13
  check (!decide (t715 = (none : Option Ordering)) || (!t735))
  let t736 ← IeeeFloat.lt t6 t13
  check (!decide (t715 = (none : Option Ordering)) || (!t736))
  let t737 ← IeeeFloat.gt t6 t13
  check (!decide (t715 = (none : Option Ordering)) || (!t737))
  let t738 ← IeeeFloat_le t6 t13
  check (!decide (t715 = (none : Option Ordering)) || (!t738))
  let t739 ← IeeeFloat.ge t6 t13
  check (!decide (t715 = (none : Option Ordering)) || (!t739))
  let t740 ← ApiFloat.partial_cmp t6 t14
  check (decide (t740 = (none : Option Ordering)))
  let t741 ← IeeeFloat.eq t6 t14
  check (!decide (t740 = (some Ordering.lt)) || (!t741))
  let t742 ← IeeeFloat.eq t6 t14
  check (!decide (t740 = (some Ordering.lt)) || (!t742))
  let t743 ← IeeeFloat.lt t6 t14
  check (!decide (t740 = (some Ordering.lt)) || t743)
  let t744 ← IeeeFloat.gt t6 t14
  check (!decide (t740 = (some Ordering.lt)) || (!t744))
  let t745 ← IeeeFloat_le t6 t14
  check (!decide (t740 = (some Ordering.lt)) || t745)
  let t746 ← IeeeFloat.ge t6 t14
  check (!decide (t740 = (some Ordering.lt)) || (!t746))
  let t747 ← IeeeFloat.eq t6 t14
  check (!decide (t740 = (some Ordering.eq)) || t747)
  let t748 ← IeeeFloat.eq t6 t14
  check (!decide (t740 = (some Ordering.eq)) || (!(!t748)))
  let t749 ← IeeeFloat.lt t6 t14
  check (!decide (t740 = (some Ordering.eq)) || (!t749))
  let t750 ← IeeeFloat.gt t6 t14
  check (!decide (t740 = (some Ordering.eq)) || (!t750))
  let t751 ← IeeeFloat_le t6 t14
  check (!decide (t740 = (some Ordering.eq)) || t751)
  let t752 ← IeeeFloat.ge t6 t14
  check (!decide (t740 = (some Ordering.eq)) || t752)
  let t753 ← IeeeFloat.eq t6 t14
  check (!decide (t740 = (some Ordering.gt)) || (!t753))
  let t754 ← IeeeFloat.eq t6 t14
  check (!decide (t740 = (some Ordering.gt)) || (!t754))
  let t755 ← IeeeFloat.lt t6 t14
  check (!decide (t740 = (some Ordering.gt)) || (!t755))
  let t756 ← IeeeFloat.gt t6 t14
  check (!decide (t740 = (some Ordering.gt)) || t756)
  let t757 ← IeeeFloat_le t6 t14
  check (!decide (t740 = (some Ordering.gt)) || (!t757))

example : passes t_comparisons_25 = true := by decide +kernel

/-- tests/ieee.rs:3213 `comparisons`. -/
def t_comparisons_26 : M Unit := do
  let t1 ← (ApiFloat.NAN : M Single)
  let t2 ← ApiFloat.neg t1
  let t5 ← (ApiFloat.largest : M Single)
  let t6 ← ApiFloat.neg t5
  let t7 ← (parse ("-0x1p+0".toList) : M Single)
  let t14 ← (ApiFloat.NAN : M Single)
  let t740 ← ApiFloat.partial_cmp t6 t14
  let t758 ← IeeeFloat.ge t6 t14
  check (!decide (t740 = (some Ordering.gt)) || t758)
  let t759 ← IeeeFloat.eq t6 t14
  check (!decide (t740 = (none : Option Ordering)) || (!t759))
  let t760 ← IeeeFloat.eq t6 t14
  check (!decide (t740 = (none : Option Ordering)) || (!t760))
  let t761 ← IeeeFloat.lt t6 t14
  check (!decide (t740 = (none : Option Ordering)) || (!t761))
  let t762 ← IeeeFloat.gt t6 t14
  check (!decide (t740 = (none : Option Ordering)) || (!t762))
  let t763 ← IeeeFloat_le t6 t14
  check (!decide (t740 = (none : Option Ordering)) || (!t763))
  let t764 ← IeeeFloat.ge t6 t14
  check (!decide (t740 = (none : Option Ordering)) || (!t764))
  let t765 ← ApiFloat.partial_cmp t7 t2
  check (decide (t765 = (none : Option Ordering)))
  let t766 ← IeeeFloat.eq t7 t2
  check (!decide (t765 = (some Ordering.lt)) || (!t766))
  let t767 ← IeeeFloat.eq t7 t2
  check (!decide (t765 = (some Ordering.lt)) || (!t767))
  let t768 ← IeeeFloat.lt t7 t2
  check (!decide (t765 = (some Ordering.lt)) || t768)
  let t769 ← IeeeFloat.gt t7 t2
  check (!decide (t765 = (some Ordering.lt)) || (!t769))
  let t770 ← IeeeFloat_le t7 t2
  check (!decide (t765 = (some Ordering.lt)) || t770)
  let t771 ← IeeeFloat.ge t7 t2
  check (!decide (t765 = (some Ordering.lt)) || (!t771))
  let t772 ← IeeeFloat.eq t7 t2
  check (!decide (t765 = (some Ordering.eq)) || t772)
  let t773 ← IeeeFloat.eq t7 t2
  check (!decide (t765 = (some Ordering.eq)) || (!(!t773)))
  let t774 ← IeeeFloat.lt t7 t2
  check (!decide (t765 = (some Ordering.eq)) || (!t774))
  let t775 ← IeeeFloat.gt t7 t2
  check (!decide (t765 = (some Ordering.eq)) || (!t775))
  let t776 ← IeeeFloat_le t7 t2
  check (!decide (t765 = (some Ordering.eq)) || t776)
  let t777 ← IeeeFloat.ge t7 t2
  check (!decide (t765 = (some Ordering.eq)) || t777)
  let t778 ← IeeeFloat.eq t7 t2
  check (!decide (t765 = (some Ordering.gt)) || (!t778))
  let t779 ← IeeeFloat.eq t7 t2
  check (!decide (t765 = (some Ordering.gt)) || (!t779))
  let t780 ← IeeeFloat.lt t7 t2
  check (!decide (t765 = (some Ordering.gt)) || (!t780))
  let t781 ← IeeeFloat.gt t7 t2
  check (!decide (t765 = (some Ordering.gt)) || t781)
  let t782 ← IeeeFloat_le t7 t2
  check (!decide (t765 = (some Ordering.gt)) || (!t782))
  let t783 ← IeeeFloat.ge t7 t2
  check (!decide (t765 = (some Ordering.gt)) || t783)
  let t784 ← IeeeFloat.eq t7 t2
  check (!decide (t765 = (none : Option Ordering)) || (!t784))
  let t785 ← IeeeFloat.eq t7 t2
  check (!decide (t765 = (none : Option Ordering)) || (!t785))
  let t786 ← IeeeFloat.lt t7 t2
  check (!decide (t765 = (none : Option Ordering)) || (!t786))
  let t787 ← IeeeFloat.gt t7 t2
  check (!decide (t765 = (none : Option Ordering)) || (!t787))

example : passes t_comparisons_26 = true := by decide +kernel

/-- tests/ieee.rs:3213 `comparisons`. -/
def t_comparisons_27 : M Unit := do
  let t1 ← (ApiFloat.NAN : M Single)
  let t2 ← ApiFloat.neg t1
  let t3 ← (ApiFloat.INFINITY : M Single)
  let t4 ← ApiFloat.neg t3
  let t5 ← (ApiFloat.largest : M Single)
  let t6 ← ApiFloat.neg t5
  let t7 ← (parse ("-0x1p+0".toList) : M Single)
  let t765 ← ApiFloat.partial_cmp t7 t2
  let t788 ← IeeeFloat_le t7 t2
  check (!decide (t765 = (none : Option Ordering)) || (!t788))
  let t789 ← IeeeFloat.ge t7 t2
  check (!decide (t765 = (none : Option Ordering)) || (!t789))
  let t790 ← ApiFloat.partial_cmp t7 t4
  check (decide (t790 = (some Ordering.gt)))
  let t791 ← IeeeFloat.eq t7 t4
  check (!decide (t790 = (some Ordering.lt)) || (!t791))
  let t792 ← IeeeFloat.eq t7 t4
  check (!decide (t790 = (some Ordering.lt)) || (!t792))
  let t793 ← IeeeFloat.lt t7 t4
  check (!decide (t790 = (some Ordering.lt)) || t793)
  let t794 ← IeeeFloat.gt t7 t4
  check (!decide (t790 = (some Ordering.lt)) || (!t794))
  let t795 ← IeeeFloat_le t7 t4
  check (!decide (t790 = (some Ordering.lt)) || t795)
  let t796 ← IeeeFloat.ge t7 t4
  check (!decide (t790 = (some Ordering.lt)) || (!t796))
  let t797 ← IeeeFloat.eq t7 t4
  check (!decide (t790 = (some Ordering.eq)) || t797)
  let t798 ← IeeeFloat.eq t7 t4
  check (!decide (t790 = (some Ordering.eq)) || (!(!t798)))
  let t799 ← IeeeFloat.lt t7 t4
  check (!decide (t790 = (some Ordering.eq)) || (!t799))
  let t800 ← IeeeFloat.gt t7 t4
  check (!decide (t790 = (some Ordering.eq)) || (!t800))
  let t801 ← IeeeFloat_le t7 t4
  check (!decide (t790 = (some Ordering.eq)) || t801)
  let t802 ← IeeeFloat.ge t7 t4
  check (!decide (t790 = (some Ordering.eq)) || t802)
  let t803 ← IeeeFloat.eq t7 t4
  check (!decide (t790 = (some Ordering.gt)) || (!t803))
  let t804 ← IeeeFloat.eq t7 t4
  check (!decide (t790 = (some Ordering.gt)) || (!t804))
  let t805 ← IeeeFloat.lt t7 t4
  check (!decide (t790 = (some Ordering.gt)) || (!t805))
  let t806 ← IeeeFloat.gt t7 t4
  check (!decide (t790 = (some Ordering.gt)) || t806)
  let t807 ← IeeeFloat_le t7 t4
  check (!decide (t790 = (some Ordering.gt)) || (!t807))
  let t808 ← IeeeFloat.ge t7 t4
  check (!decide (t790 = (some Ordering.gt)) || t808)
  let t809 ← IeeeFloat.eq t7 t4
  check (!decide (t790 = (none : Option Ordering)) || (!t809))
  let t810 ← IeeeFloat.eq t7 t4
  check (!decide (t790 = (none : Option Ordering)) || (!t810))
  let t811 ← IeeeFloat.lt t7 t4
  check (!decide (t790 = (none : Option Ordering)) || (!t811))
  let t812 ← IeeeFloat.gt t7 t4
  check (!decide (t790 = (none : Option Ordering)) || (!t812))
  let t813 ← IeeeFloat_le t7 t4
  check (!decide (t790 = (none : Option Ordering)) || (!t813))
  let t814 ← IeeeFloat.ge t7 t4
  check (!decide (t790 = (none : Option Ordering)) || (!t814))
  let t815 ← ApiFloat.partial_cmp t7 t6
  check (decide (t815 = (some Ordering.gt)))
  let t816 ← IeeeFloat.eq t7 t6
  check (!decide (t815 = (some Ordering.lt)) || (!t816))
  let t817 ← IeeeFloat.eq t7 t6
  check (!decide (t815 = (some Ordering.lt)) || (!t817))

example : passes t_comparisons_27 = true := by decide +kernel

/-- tests/ieee.rs:3213 `comparisons`. -/
def t_comparisons_28 : M Unit := do
  let t5 ← (ApiFloat.largest : M Single)
  let t6 ← ApiFloat.neg t5
  let t7 ← (parse ("-0x1p+0".toList) : M Single)
  let t815 ← ApiFloat.partial_cmp t7 t6
  let t818 ← IeeeFloat.lt t7 t6
  check (!decide (t815 = (some Ordering.lt)) || t818)
  let t819 ← IeeeFloat.gt t7 t6
  check (!decide (t815 = (some Ordering.lt)) || (!t819))
  let t820 ← IeeeFloat_le t7 t6
  check (!decide (t815 = (some Ordering.lt)) || t820)
  let t821 ← IeeeFloat.ge t7 t6
  check (!decide (t815 = (some Ordering.lt)) || (!t821))
  let t822 ← IeeeFloat.eq t7 t6
  check (!decide (t815 = (some Ordering.eq)) || t822)
  let t823 ← IeeeFloat.eq t7 t6
  check (!decide (t815 = (some Ordering.eq)) || (!(!t823)))
  let t824 ← IeeeFloat.lt t7 t6
  check (!decide (t815 = (some Ordering.eq)) || (!t824))
  let t825 ← IeeeFloat.gt t7 t6
  check (!decide (t815 = (some Ordering.eq)) || (!t825))
  let t826 ← IeeeFloat_le t7 t6
  check (!decide (t815 = (some Ordering.eq)) || t826)
  let t827 ← IeeeFloat.ge t7 t6
  check (!decide (t815 = (some Ordering.eq)) || t827)
  let t828 ← IeeeFloat.eq t7 t6
  check (!decide (t815 = (some Ordering.gt)) || (!t828))
  let t829 ← IeeeFloat.eq t7 t6
  check (!decide (t815 = (some Ordering.gt)) || (!t829))
  let t830 ← IeeeFloat.lt t7 t6
  check (!decide (t815 = (some Ordering.gt)) || (!t830))
  let t831 ← IeeeFloat.gt t7 t6
  check (!decide (t815 = (some Ordering.gt)) || t831)
  let t832 ← IeeeFloat_le t7 t6
  check (!decide (t815 = (some Ordering.gt)) || (!t832))
  let t833 ← IeeeFloat.ge t7 t6
  check (!decide (t815 = (some Ordering.gt)) || t833)
  let t834 ← IeeeFloat.eq t7 t6
  check (!decide (t815 = (none : Option Ordering)) || (!t834))
  let t835 ← IeeeFloat.eq t7 t6
  check (!decide (t815 = (none : Option Ordering)) || (!t835))
  let t836 ← IeeeFloat.lt t7 t6
  check (!decide (t815 = (none : Option Ordering)) || (!t836))
  let t837 ← IeeeFloat.gt t7 t6
  check (!decide (t815 = (none : Option Ordering)) || (!t837))
  let t838 ← IeeeFloat_le t7 t6
  check (!decide (t815 = (none : Option Ordering)) || (!t838))
  let t839 ← IeeeFloat.ge t7 t6
  check (!decide (t815 = (none : Option Ordering)) || (!t839))
  let t840 ← ApiFloat.partial_cmp t7 t7
  check (decide (t840 = (some Ordering.eq)))
  let t841 ← IeeeFloat.eq t7 t7
  check (!decide (t840 = (some Ordering.lt)) || (!t841))
  let t842 ← IeeeFloat.eq t7 t7
  check (!decide (t840 = (some Ordering.lt)) || (!t842))
  let t843 ← IeeeFloat.lt t7 t7
  check (!decide (t840 = (some Ordering.lt)) || t843)
  let t844 ← IeeeFloat.gt t7 t7
  check (!decide (t840 = (some Ordering.lt)) || (!t844))
  let t845 ← IeeeFloat_le t7 t7
  check (!decide (t840 = (some Ordering.lt)) || t845)
  let t846 ← IeeeFloat.ge t7 t7
  check (!decide (t840 = (some Ordering.lt)) || (!t846))
  let t847 ← IeeeFloat.eq t7 t7
  check (!decide (t840 = (some Ordering.eq)) || t847)

example : passes t_comparisons_28 = true := by decide +kernel

/-- tests/ieee.rs:3213 `comparisons`. -/
def t_comparisons_29 : M Unit := do
  let t7 ← (parse ("-0x1p+0".toList) : M Single)
  let t8 ← (ApiFloat.ZERO : M Single)
  let t9 ← ApiFloat.neg t8
  let t840 ← ApiFloat.partial_cmp t7 t7
  let t848 ← IeeeFloat.eq t7 t7
  check (!decide (t840 = (some Ordering.eq)) || (!(!t848)))
  let t849 ← IeeeFloat.lt t7 t7
  check (!decide (t840 = (some Ordering.eq)) || (!t849))
  let t850 ← IeeeFloat.gt t7 t7
  check (!decide (t840 = (some Ordering.eq)) || (!t850))
  let t851 ← IeeeFloat_le t7 t7
  check (!decide (t840 = (some Ordering.eq)) || t851)
  let t852 ← IeeeFloat.ge t7 t7
  check (!decide (t840 = (some Ordering.eq)) || t852)
  let t853 ← IeeeFloat.eq t7 t7
  check (!decide (t840 = (some Ordering.gt)) || (!t853))
  let t854 ← IeeeFloat.eq t7 t7
  check (!decide (t840 = (some Ordering.gt)) || (!t854))
  let t855 ← IeeeFloat.lt t7 t7
  check (!decide (t840 = (some Ordering.gt)) || (!t855))
  let t856 ← IeeeFloat.gt t7 t7
  check (!decide (t840 = (some Ordering.gt)) || t856)
  let t857 ← IeeeFloat_le t7 t7
  check (!decide (t840 = (some Ordering.gt)) || (!t857))
  let t858 ← IeeeFloat.ge t7 t7
  check (!decide (t840 = (some Ordering.gt)) || t858)
  let t859 ← IeeeFloat.eq t7 t7
  check (!decide (t840 = (none : Option Ordering)) || (!t859))
  let t860 ← IeeeFloat.eq t7 t7
  check (!decide (t840 = (none : Option Ordering)) || (!t860))
  let t861 ← IeeeFloat.lt t7 t7
  check (!decide (t840 = (none : Option Ordering)) || (!t861))
  let t862 ← IeeeFloat.gt t7 t7
  check (!decide (t840 = (none : Option Ordering)) || (!t862))
  let t863 ← IeeeFloat_le t7 t7
  check (!decide (t840 = (none : Option Ordering)) || (!t863))
  let t864 ← IeeeFloat.ge t7 t7
  check (!decide (t840 = (none : Option Ordering)) || (!t864))
  let t865 ← ApiFloat.partial_cmp t7 t9
  check (decide (t865 = (some Ordering.lt)))
  let t866 ← IeeeFloat.eq t7 t9
  check (!decide (t865 = (some Ordering.lt)) || (!t866))
  let t867 ← IeeeFloat.eq t7 t9
  check (!decide (t865 = (some Ordering.lt)) || (!t867))
  let t868 ← IeeeFloat.lt t7 t9
  check (!decide (t865 = (some Ordering.lt)) || t868)
  let t869 ← IeeeFloat.gt t7 t9
  check (!decide (t865 = (some Ordering.lt)) || (!t869))
  let t870 ← IeeeFloat_le t7 t9
  check (!decide (t865 = (some Ordering.lt)) || t870)
  let t871 ← IeeeFloat.ge t7 t9
  check (!decide (t865 = (some Ordering.lt)) || (!t871))
  let t872 ← IeeeFloat.eq t7 t9
  check (!decide (t865 = (some Ordering.eq)) || t872)
  let t873 ← IeeeFloat.eq t7 t9
  check (!decide (t865 = (some Ordering.eq)) || (!(!t873)))
  let t874 ← IeeeFloat.lt t7 t9
  check (!decide (t865 = (some Ordering.eq)) || (!t874))
  let t875 ← IeeeFloat.gt t7 t9
  check (!decide (t865 = (some Ordering.eq)) || (!t875))
  let t876 ← IeeeFloat_le t7 t9
  check (!decide (t865 = (some Ordering.eq)) || t876)
  let t877 ← IeeeFloat.ge t7 t9
  check (!decide (t865 = (some Ordering.eq)) || t877)

example : passes t_comparisons_29 = true := by decide +kernel

/-- tests/ieee.rs:3213 `comparisons`. -/
def t_comparisons_30 : M Unit := do
  let t7 ← (parse ("-0x1p+0".toList) : M Single)
  let t8 ← (ApiFloat.ZERO : M Single)
  let t9 ← ApiFloat.neg t8
  let t10 ← (ApiFloat.ZERO : M Single)
  let t865 ← ApiFloat.partial_cmp t7 t9
  let t878 ← IeeeFloat.eq t7 t9
  check (!decide (t865 = (some Ordering.gt)) || (!t878))
  let t879 ← IeeeFloat.eq t7 t9
  check (!decide (t865 = (some Ordering.gt)) || (!t879))
  let t880 ← IeeeFloat.lt t7 t9
  check (!decide (t865 = (some Ordering.gt)) || (!t880))
  let t881 ← IeeeFloat.gt t7 t9
  check (!decide (t865 = (some Ordering.gt)) || t881)
  let t882 ← IeeeFloat_le t7 t9
  check (!decide (t865 = (some Ordering.gt)) || (!t882))
  let t883 ← IeeeFloat.ge t7 t9
  check (!decide (t865 = (some Ordering.gt)) || t883)
  let t884 ← IeeeFloat.eq t7 t9
  check (!decide (t865 = (none : Option Ordering)) || (!t884))
  let t885 ← IeeeFloat.eq t7 t9
  check (!decide (t865 = (none : Option Ordering)) || (!t885))
  let t886 ← IeeeFloat.lt t7 t9
  check (!decide (t865 = (none : Option Ordering)) || (!t886))
  let t887 ← IeeeFloat.gt t7 t9
  check (!decide (t865 = (none : Option Ordering)) || (!t887))
  let t888 ← IeeeFloat_le t7 t9
  check (!decide (t865 = (none : Option Ordering)) || (!t888))
  let t889 ← IeeeFloat.ge t7 t9
  check (!decide (t865 = (none : Option Ordering)) || (!t889))
  let t890 ← ApiFloat.partial_cmp t7 t10
  check (decide (t890 = (some Ordering.lt)))
  let t891 ← IeeeFloat.eq t7 t10
  check (!decide (t890 = (some Ordering.lt)) || (!t891))
  let t892 ← IeeeFloat.eq t7 t10
  check (!decide (t890 = (some Ordering.lt)) || (!t892))
  let t893 ← IeeeFloat.lt t7 t10
  check (!decide (t890 = (some Ordering.lt)) || t893)
  let t894 ← IeeeFloat.gt t7 t10
  check (!decide (t890 = (some Ordering.lt)) || (!t894))
  let t895 ← IeeeFloat_le t7 t10
  check (!decide (t890 = (some Ordering.lt)) || t895)
  let t896 ← IeeeFloat.ge t7 t10
  check (!decide (t890 = (some Ordering.lt)) || (!t896))
  let t897 ← IeeeFloat.eq t7 t10
  check (!decide (t890 = (some Ordering.eq)) || t897)
  let t898 ← IeeeFloat.eq t7 t10
  check (!decide (t890 = (some Ordering.eq)) || (!(!t898)))
  let t899 ← IeeeFloat.lt t7 t10
  check (!decide (t890 = (some Ordering.eq)) || (!t899))
  let t900 ← IeeeFloat.gt t7 t10
  check (!decide (t890 = (some Ordering.eq)) || (!t900))
  let t901 ← IeeeFloat_le t7 t10
  check (!decide (t890 = (some Ordering.eq)) || t901)
  let t902 ← IeeeFloat.ge t7 t10
  check (!decide (t890 = (some Ordering.eq)) || t902)
  let t903 ← IeeeFloat.eq t7 t10
  check (!decide (t890 = (some Ordering.gt)) || (!t903))
  let t904 ← IeeeFloat.eq t7 t10
  check (!decide (t890 = (some Ordering.gt)) || (!t904))
  let t905 ← IeeeFloat.lt t7 t10
  check (!decide (t890 = (some Ordering.gt)) || (!t905))
  let t906 ← IeeeFloat.gt t7 t10
  check (!decide (t890 = (some Ordering.gt)) || t906)
  let t907 ← IeeeFloat_le t7 t10
  check (!decide (t890 = (some Ordering.gt)) || (!t907))

example : passes t_comparisons_30 = true := by decide +kernel

/-- tests/ieee.rs:3213 `comparisons`. -/
def t_comparisons_31 : M Unit := do
  let t7 ← (parse ("-0x1p+0".toList) : M Single)
  let t10 ← (ApiFloat.ZERO : M Single)
  let t11 ← (parse ("0x1p+0".toList) : M Single)
  let t890 ← ApiFloat.partial_cmp t7 t10
  let t908 ← IeeeFloat.ge t7 t10
  check (!decide (t890 = (some Ordering.gt)) || t908)
  let t909 ← IeeeFloat.eq t7 t10
  check (!decide (t890 = (none : Option Ordering)) || (!t909))
  let t910 ← IeeeFloat.eq t7 t10
  check (!decide (t890 = (none : Option Ordering)) || (!t910))
  let t911 ← IeeeFloat.lt t7 t10
  check (!decide (t890 = (none : Option Ordering)) || (!t911))
  let t912 ← IeeeFloat.gt t7 t10
  check (!decide (t890 = (none : Option Ordering)) || (!t912))
  let t913 ← IeeeFloat_le t7 t10
  check (!decide (t890 = (none : Option Ordering)) || (!t913))
  let t914 ← IeeeFloat.ge t7 t10
  check (!decide (t890 = (none : Option Ordering)) || (!t914))
  let t915 ← ApiFloat.partial_cmp t7 t11
  check (decide (t915 = (some Ordering.lt)))
  let t916 ← IeeeFloat.eq t7 t11
  check (!decide (t915 = (some Ordering.lt)) || (!t916))
  let t917 ← IeeeFloat.eq t7 t11
  check (!decide (t915 = (some Ordering.lt)) || (!t917))
  let t918 ← IeeeFloat.lt t7 t11
  check (!decide (t915 = (some Ordering.lt)) || t918)
  let t919 ← IeeeFloat.gt t7 t11
  check (!decide (t915 = (some Ordering.lt)) || (!t919))
  let t920 ← IeeeFloat_le t7 t11
  check (!decide (t915 = (some Ordering.lt)) || t920)
  let t921 ← IeeeFloat.ge t7 t11
  check (!decide (t915 = (some Ordering.lt)) || (!t921))
  let t922 ← IeeeFloat.eq t7 t11
  check (!decide (t915 = (some Ordering.eq)) || t922)
  let t923 ← IeeeFloat.eq t7 t11
  check (!decide (t915 = (some Ordering.eq)) || (!(!t923)))
  let t924 ← IeeeFloat.lt t7 t11
  check (!decide (t915 = (some Ordering.eq)) || (!t924))
  let t925 ← IeeeFloat.gt t7 t11
  check (!decide (t915 = (some Ordering.eq)) || (!t925))
  let t926 ← IeeeFloat_le t7 t11
  check (!decide (t915 = (some Ordering.eq)) || t926)
  let t927 ← IeeeFloat.ge t7 t11
  check (!decide (t915 = (some Ordering.eq)) || t927)
  let t928 ← IeeeFloat.eq t7 t11
  check (!decide (t915 = (some Ordering.gt)) || (!t928))
  let t929 ← IeeeFloat.eq t7 t11
  check (!decide (t915 = (some Ordering.gt)) || (!t929))
  let t930 ← IeeeFloat.lt t7 t11
  check (!decide (t915 = (some Ordering.gt)) || (!t930))
  let t931 ← IeeeFloat.gt t7 t11
  check (!decide (t915 = (some Ordering.gt)) || t931)
  let t932 ← IeeeFloat_le t7 t11
  check (!decide (t915 = (some Ordering.gt)) || (!t932))
  let t933 ← IeeeFloat.ge t7 t11
  check (!decide (t915 = (some Ordering.gt)) || t933)
  let t934 ← IeeeFloat.eq t7 t11
  check (!decide (t915 = (none : Option Ordering)) || (!t934))
  let t935 ← IeeeFloat.eq t7 t11
  check (!decide (t915 = (none : Option Ordering)) || (!t935))
  let t936 ← IeeeFloat.lt t7 t11
  check (!decide (t915 = (none : Option Ordering)) || (!t936))
  let t937 ← IeeeFloat.gt t7 t11
  check (!decide (t915 = (none : Option Ordering)) || (!t937))

example : passes t_comparisons_31 = true := by decide +kernel

/-- tests/ieee.rs:3213 `comparisons`. -/
def t_comparisons_32 : M Unit := do
  let t7 ← (parse ("-0x1p+0".toList) : M Single)
  let t11 ← (parse ("0x1p+0".toList) : M Single)
  let t12 ← (ApiFloat.largest : M Single)
  let t13 ← (ApiFloat.INFINITY : M Single)
  let t915 ← ApiFloat.partial_cmp t7 t11
  let t938 ← IeeeFloat_le t7 t11
  check (!decide (t915 = (none : Option Ordering)) || (!t938))
  let t939 ← IeeeFloat.ge t7 t11
  check (!decide (t915 = (none : Option Ordering)) || (!t939))
  let t940 ← ApiFloat.partial_cmp t7 t12
  check (decide (t940 = (some Ordering.lt)))
  let t941 ← IeeeFloat.eq t7 t12
  check (!decide (t940 = (some Ordering.lt)) || (!t941))
  let t942 ← IeeeFloat.eq t7 t12
  check (!decide (t940 = (some Ordering.lt)) || (!t942))
  let t943 ← IeeeFloat.lt t7 t12
  check (!decide (t940 = (some Ordering.lt)) || t943)
  let t944 ← IeeeFloat.gt t7 t12
  check (!decide (t940 = (some Ordering.lt)) || (!t944))
  let t945 ← IeeeFloat_le t7 t12
  check (!decide (t940 = (some Ordering.lt)) || t945)
  let t946 ← IeeeFloat.ge t7 t12
  check (!decide (t940 = (some Ordering.lt)) || (!t946))
  let t947 ← IeeeFloat.eq t7 t12
  check (!decide (t940 = (some Ordering.eq)) || t947)
  let t948 ← IeeeFloat.eq t7 t12
  check (!decide (t940 = (some Ordering.eq)) || (!(!t948)))
  let t949 ← IeeeFloat.lt t7 t12
  check (!decide (t940 = (some Ordering.eq)) || (!t949))
  let t950 ← IeeeFloat.gt t7 t12
  check (!decide (t940 = (some Ordering.eq)) || (!t950))
  let t951 ← IeeeFloat_le t7 t12
  check (!decide (t940 = (some Ordering.eq)) || t951)
  let t952 ← IeeeFloat.ge t7 t12
  check (!decide (t940 = (some Ordering.eq)) || t952)
  let t953 ← IeeeFloat.eq t7 t12
  check (!decide (t940 = (some Ordering.gt)) || (!t953))
  let t954 ← IeeeFloat.eq t7 t12
  check (!decide (t940 = (some Ordering.gt)) || (!t954))
  let t955 ← IeeeFloat.lt t7 t12
  check (!decide (t940 = (some Ordering.gt)) || (!t955))
  let t956 ← IeeeFloat.gt t7 t12
  check (!decide (t940 = (some Ordering.gt)) || t956)
  let t957 ← IeeeFloat_le t7 t12
  check (!decide (t940 = (some Ordering.gt)) || (!t957))
  let t958 ← IeeeFloat.ge t7 t12
  check (!decide (t940 = (some Ordering.gt)) || t958)
  let t959 ← IeeeFloat.eq t7 t12
  check (!decide (t940 = (none : Option Ordering)) || (!t959))
  let t960 ← IeeeFloat.eq t7 t12
  check (!decide (t940 = (none : Option Ordering)) || (!t960))
  let t961 ← IeeeFloat.lt t7 t12
  check (!decide (t940 = (none : Option Ordering)) || (!t961))
  let t962 ← IeeeFloat.gt t7 t12
  check (!decide (t940 = (none : Option Ordering)) || (!t962))
  let t963 ← IeeeFloat_le t7 t12
  check (!decide (t940 = (none : Option Ordering)) || (!t963))
  let t964 ← IeeeFloat.ge t7 t12
  check (!decide (t940 = (none : Option Ordering)) || (!t964))
  let t965 ← ApiFloat.partial_cmp t7 t13
  check (decide (t965 = (some Ordering.lt)))
  let t966 ← IeeeFloat.eq t7 t13
  check (!decide (t965 = (some Ordering.lt)) || (!t966))
  let t967 ← IeeeFloat.eq t7 t13
  check (!decide (t965 = (some Ordering.lt)) || (!t967))

example : passes t_comparisons_32 = true := by decide +kernel

/-- tests/ieee.rs:3213 `comparisons`. -/
def t_comparisons_33 : M Unit := do
  let t7 ← (parse ("-0x1p+0".toList) : M Single)
  let t13 ← (ApiFloat.INFINITY : M Single)
  let t14 ← (ApiFloat.NAN : M Single)
  let t965 ← ApiFloat.partial_cmp t7 t13
  let t968 ← IeeeFloat.lt t7 t13
  check (!decide (t965 = (some Ordering.lt)) || t968)
  let t969 ← IeeeFloat.gt t7 t13
  check (!decide (t965 = (some Ordering.lt)) || (!t969))
  let t970 ← IeeeFloat_le t7 t13
  check (!decide (t965 = (some Ordering.lt)) || t970)
  let t971 ← IeeeFloat.ge t7 t13
  check (!decide (t965 = (some Ordering.lt)) || (!t971))
  let t972 ← IeeeFloat.eq t7 t13
  check (!decide (t965 = (some Ordering.eq)) || t972)
  let t973 ← IeeeFloat.eq t7 t13
  check (!decide (t965 = (some Ordering.eq)) || (!(!t973)))
  let t974 ← IeeeFloat.lt t7 t13
  check (!decide (t965 = (some Ordering.eq)) || (!t974))
  let t975 ← IeeeFloat.gt t7 t13
  check (!decide (t965 = (some Ordering.eq)) || (!t975))
  let t976 ← IeeeFloat_le t7 t13
  check (!decide (t965 = (some Ordering.eq)) || t976)
  let t977 ← IeeeFloat.ge t7 t13
  check (!decide (t965 = (some Ordering.eq)) || t977)
  let t978 ← IeeeFloat.eq t7 t13
  check (!decide (t965 = (some Ordering.gt)) || (!t978))
  let t979 ← IeeeFloat.eq t7 t13
  check (!decide (t965 = (some Ordering.gt)) || (!t979))
  let t980 ← IeeeFloat.lt t7 t13
  check (!decide (t965 = (some Ordering.gt)) || (!t980))
  let t981 ← IeeeFloat.gt t7 t13
  check (!decide (t965 = (some Ordering.gt)) || t981)
  let t982 ← IeeeFloat_le t7 t13
  check (!decide (t965 = (some Ordering.gt)) || (!t982))
  let t983 ← IeeeFloat.ge t7 t13
  check (!decide (t965 = (some Ordering.gt)) || t983)
  let t984 ← IeeeFloat.eq t7 t13
  check (!decide (t965 = (none : Option Ordering)) || (!t984))
  let t985 ← IeeeFloat.eq t7 t13
  check (!decide (t965 = (none : Option Ordering)) || (!t985))
  let t986 ← IeeeFloat.lt t7 t13
  check (!decide (t965 = (none : Option Ordering)) || (!t986))
  let t987 ← IeeeFloat.gt t7 t13
  check (!decide (t965 = (none : Option Ordering)) || (!t987))
  let t988 ← IeeeFloat_le t7 t13
  check (!decide (t965 = (none : Option Ordering)) || (!t988))
  let t989 ← IeeeFloat.ge t7 t13
  check (!decide (t965 = (none : Option Ordering)) || (!t989))
  let t990 ← ApiFloat.partial_cmp t7 t14
  check (decide (t990 = (none : Option Ordering)))
  let t991 ← IeeeFloat.eq t7 t14
  check (!decide (t990 = (some Ordering.lt)) || (!t991))
  let t992 ← IeeeFloat.eq t7 t14
  check (!decide (t990 = (some Ordering.lt)) || (!t992))
  let t993 ← IeeeFloat.lt t7 t14
  check (!decide (t990 = (some Ordering.lt)) || t993)
  let t994 ← IeeeFloat.gt t7 t14
  check (!decide (t990 = (some Ordering.lt)) || (!t994))
  let t995 ← IeeeFloat_le t7 t14
  check (!decide (t990 = (some Ordering.lt)) || t995)
  let t996 ← IeeeFloat.ge t7 t14
  check (!decide (t990 = (some Ordering.lt)) || (!t996))
  let t997 ← IeeeFloat.eq t7 t14
  check (!decide (t990 = (some Ordering.eq)) || t997)

example : passes t_comparisons_33 = true := by decide +kernel

/-- tests/ieee.rs:3213 `comparisons`. -/
def t_comparisons_34 : M Unit := do
  let t1 ← (ApiFloat.NAN : M Single)
  let t2 ← ApiFloat.neg t1
  let t7 ← (parse ("-0x1p+0".toList) : M Single)
  let t8 ← (ApiFloat.ZERO : M Single)
  let t9 ← ApiFloat.neg t8
  let t14 ← (ApiFloat.NAN : M Single)
  let t990 ← ApiFloat.partial_cmp t7 t14
  let t998 ← IeeeFloat.eq t7 t14
  check (!decide (t990 = (some Ordering.eq)) || (!(!t998)))
  let t999 ← IeeeFloat.lt t7 t14
  check (!decide (t990 = (some Ordering.eq)) || (!t999))
  let t1000 ← IeeeFloat.gt t7 t14
  check (!decide (t990 = (some Ordering.eq)) || (!t1000))
  let t1001 ← IeeeFloat_le t7 t14
  check (!decide (t990 = (some Ordering.eq)) || t1001)
  let t1002 ← IeeeFloat.ge t7 t14
  check (!decide (t990 = (some Ordering.eq)) || t1002)
  let t1003 ← IeeeFloat.eq t7 t14
  check (!decide (t990 = (some Ordering.gt)) || (!t1003))
  let t1004 ← IeeeFloat.eq t7 t14
  check (!decide (t990 = (some Ordering.gt)) || (!t1004))
  let t1005 ← IeeeFloat.lt t7 t14
  check (!decide (t990 = (some Ordering.gt)) || (!t1005))
  let t1006 ← IeeeFloat.gt t7 t14
  check (!decide (t990 = (some Ordering.gt)) || t1006)
  let t1007 ← IeeeFloat_le t7 t14
  check (!decide (t990 = (some Ordering.gt)) || (!t1007))
  let t1008 ← IeeeFloat.ge t7 t14
  check (!decide (t990 = (some Ordering.gt)) || t1008)
  let t1009 ← IeeeFloat.eq t7 t14
  check (!decide (t990 = (none : Option Ordering)) || (!t1009))
  let t1010 ← IeeeFloat.eq t7 t14
  check (!decide (t990 = (none : Option Ordering)) || (!t1010))
  let t1011 ← IeeeFloat.lt t7 t14
  check (!decide (t990 = (none : Option Ordering)) || (!t1011))
  let t1012 ← IeeeFloat.gt t7 t14
  check (!decide (t990 = (none : Option Ordering)) || (!t1012))
  let t1013 ← IeeeFloat_le t7 t14
  check (!decide (t990 = (none : Option Ordering)) || (!t1013))
  let t1014 ← IeeeFloat.ge t7 t14
  check (!decide (t990 = (none : Option Ordering)) || (!t1014))
  let t1015 ← ApiFloat.partial_cmp t9 t2
  check (decide (t1015 = (none : Option Ordering)))
  let t1016 ← IeeeFloat.eq t9 t2
  check (!decide (t1015 = (some Ordering.lt)) || (!t1016))
  let t1017 ← IeeeFloat.eq t9 t2
  check (!decide (t1015 = (some Ordering.lt)) || (!t1017))
  let t1018 ← IeeeFloat.lt t9 t2
  check (!decide (t1015 = (some Ordering.lt)) || t1018)
  let t1019 ← IeeeFloat.gt t9 t2
  check (!decide (t1015 = (some Ordering.lt)) || (!t1019))
  let t1020 ← IeeeFloat_le t9 t2
  check (!decide (t1015 = (some Ordering.lt)) || t1020)
  let t1021 ← IeeeFloat.ge t9 t2
  check (!decide (t1015 = (some Ordering.lt)) || (!t1021))
  let t1022 ← IeeeFloat.eq t9 t2
  check (!decide (t1015 = (some Ordering.eq)) || t1022)
  let t1023 ← IeeeFloat.eq t9 t2
  check (!decide (t1015 = (some Ordering.eq)) || (!(!t1023)))
  let t1024 ← IeeeFloat.lt t9 t2
  check (!decide (t1015 = (some Ordering.eq)) || (!t1024))
  let t1025 ← IeeeFloat.gt t9 t2
  check (!decide (t1015 = (some Ordering.eq)) || (!t1025))
  let t1026 ← IeeeFloat_le t9 t2
  check (!decide (t1015 = (some Ordering.eq)) || t1026)
  let t1027 ← IeeeFloat.ge t9 t2
  check (!decide (t1015 = (some Ordering.eq)) || t1027)

example : passes t_comparisons_34 = true := by decide +kernel

/-- tests/ieee.rs:3213 `comparisons`. -/
def t_comparisons_35 : M Unit := do
  let t1 ← (ApiFloat.NAN : M Single)
  let t2 ← ApiFloat.neg t1
  let t3 ← (ApiFloat.INFINITY : M Single)
  let t4 ← ApiFloat.neg t3
  let t8 ← (ApiFloat.ZERO : M Single)
  let t9 ← ApiFloat.neg t8
  let t1015 ← ApiFloat.partial_cmp t9 t2
  let t1028 ← IeeeFloat.eq t9 t2
  check (!decide (t1015 = (some Ordering.gt)) || (!t1028))
  let t1029 ← IeeeFloat.eq t9 t2
  check (!decide (t1015 = (some Ordering.gt)) || (!t1029))
  let t1030 ← IeeeFloat.lt t9 t2
  check (!decide (t1015 = (some Ordering.gt)) || (!t1030))
  let t1031 ← IeeeFloat.gt t9 t2
  check (!decide (t1015 = (some Ordering.gt)) || t1031)
  let t1032 ← IeeeFloat_le t9 t2
  check (!decide (t1015 = (some Ordering.gt)) || (!t1032))
  let t1033 ← IeeeFloat.ge t9 t2
  check (!decide (t1015 = (some Ordering.gt)) || t1033)
  let t1034 ← IeeeFloat.eq t9 t2
  check (!decide (t1015 = (none : Option Ordering)) || (!t1034))
  let t1035 ← IeeeFloat.eq t9 t2
  check (!decide (t1015 = (none : Option Ordering)) || (!t1035))
  let t1036 ← IeeeFloat.lt t9 t2
  check (!decide (t1015 = (none : Option Ordering)) || (!t1036))
  let t1037 ← IeeeFloat.gt t9 t2
  check (!decide (t1015 = (none : Option Ordering)) || (!t1037))
  let t1038 ← IeeeFloat_le t9 t2
  check (!decide (t1015 = (none : Option Ordering)) || (!t1038))
  let t1039 ← IeeeFloat.ge t9 t2
  check (!decide (t1015 = (none : Option Ordering)) || (!t1039))
  let t1040 ← ApiFloat.partial_cmp t9 t4
  check (decide (t1040 = (some Ordering.gt)))
  let t1041 ← IeeeFloat.eq t9 t4
  check (!decide (t1040 = (some Ordering.lt)) || (!t1041))
  let t1042 ← IeeeFloat.eq t9 t4
  check (!decide (t1040 = (some Ordering.lt)) || (!t1042))
  let t1043 ← IeeeFloat.lt t9 t4
  check (!decide (t1040 = (some Ordering.lt)) || t1043)
  let t1044 ← IeeeFloat.gt t9 t4
  check (!decide (t1040 = (some Ordering.lt)) || (!t1044))
  let t1045 ← IeeeFloat_le t9 t4
  check (!decide (t1040 = (some Ordering.lt)) || t1045)
  let t1046 ← IeeeFloat.ge t9 t4
  check (!decide (t1040 = (some Ordering.lt)) || (!t1046))
  let t1047 ← IeeeFloat.eq t9 t4
  check (!decide (t1040 = (some Ordering.eq)) || t1047)
  let t1048 ← IeeeFloat.eq t9 t4
  check (!decide (t1040 = (some Ordering.eq)) || (!(!t1048)))
  let t1049 ← IeeeFloat.lt t9 t4
  check (!decide (t1040 = (some Ordering.eq)) || (!t1049))
  let t1050 ← IeeeFloat.gt t9 t4
  check (!decide (t1040 = (some Ordering.eq)) || (!t1050))
  let t1051 ← IeeeFloat_le t9 t4
  check (!decide (t1040 = (some Ordering.eq)) || t1051)
  let t1052 ← IeeeFloat.ge t9 t4
  check (!decide (t1040 = (some Ordering.eq)) || t1052)
  let t1053 ← IeeeFloat.eq t9 t4
  check (!decide (t1040 = (some Ordering.gt)) || (!t1053))
  let t1054 ← IeeeFloat.eq t9 t4
  check (!decide (t1040 = (some Ordering.gt)) || (!t1054))
  let t1055 ← IeeeFloat.lt t9 t4
  check (!decide (t1040 = (some Ordering.gt)) || (!t1055))
  let t1056 ← IeeeFloat.gt t9 t4
  check (!decide (t1040 = (some Ordering.gt)) || t1056)
  let t1057 ← IeeeFloat_le t9 t4
  check (!decide (t1040 = (some Ordering.gt)) || (!t1057))

example : passes t_comparisons_35 = true := by decide +kernel

/-- tests/ieee.rs:3213 `comparisons`. -/
def t_comparisons_36 : M Unit := do
  let t3 ← (ApiFloat.INFINITY : M Single)
  let t4 ← ApiFloat.neg t3
  let t5 ← (ApiFloat.largest : M Single)
  let t6 ← ApiFloat.neg t5
  let t8 ← (ApiFloat.ZERO : M Single)
  let t9 ← ApiFloat.neg t8
  let t1040 ← ApiFloat.partial_cmp t9 t4
  let t1058 ← IeeeFloat.ge t9 t4
  check (!decide (t1040 = (some Ordering.gt)) || t1058)
  let t1059 ← IeeeFloat.eq t9 t4
  check (!decide (t1040 = (none : Option Ordering)) || (!t1059))
  let t1060 ← IeeeFloat.eq t9 t4
  check (!decide (t1040 = (none : Option Ordering)) || (!t1060))
  let t1061 ← IeeeFloat.lt t9 t4
  check (!decide (t1040 = (none : Option Ordering)) || (!t1061))
  let t1062 ← IeeeFloat.gt t9 t4
  check (!decide (t1040 = (none : Option Ordering)) || (!t1062))
  let t1063 ← IeeeFloat_le t9 t4
  check (!decide (t1040 = (none : Option Ordering)) || (!t1063))
  let t1064 ← IeeeFloat.ge t9 t4
  check (!decide (t1040 = (none : Option Ordering)) || (!t1064))
  let t1065 ← ApiFloat.partial_cmp t9 t6
  check (decide (t1065 = (some Ordering.gt)))
  let t1066 ← IeeeFloat.eq t9 t6
  check (!decide (t1065 = (some Ordering.lt)) || (!t1066))
  let t1067 ← IeeeFloat.eq t9 t6
  check (!decide (t1065 = (some Ordering.lt)) || (!t1067))
  let t1068 ← IeeeFloat.lt t9 t6
  check (!decide (t1065 = (some Ordering.lt)) || t1068)
  let t1069 ← IeeeFloat.gt t9 t6
  check (!decide (t1065 = (some Ordering.lt)) || (!t1069))
  let t1070 ← IeeeFloat_le t9 t6
  check (!decide (t1065 = (some Ordering.lt)) || t1070)
  let t1071 ← IeeeFloat.ge t9 t6
  check (!decide (t1065 = (some Ordering.lt)) || (!t1071))
  let t1072 ← IeeeFloat.eq t9 t6
  check (!decide (t1065 = (some Ordering.eq)) || t1072)
  let t1073 ← IeeeFloat.eq t9 t6
  check (!decide (t1065 = (some Ordering.eq)) || (!(!t1073)))
  let t1074 ← IeeeFloat.lt t9 t6
  check (!decide (t1065 = (some Ordering.eq)) || (!t1074))
  let t1075 ← IeeeFloat.gt t9 t6
  check (!decide (t1065 = (some Ordering.eq)) || (!t1075))
  let t1076 ← IeeeFloat_le t9 t6
  check (!decide (t1065 = (some Ordering.eq)) || t1076)
  let t1077 ← IeeeFloat.ge t9 t6
  check (!decide (t1065 = (some Ordering.eq)) || t1077)
  let t1078 ← IeeeFloat.eq t9 t6
  check (!decide (t1065 = (some Ordering.gt)) || (!t1078))
  let t1079 ← IeeeFloat.eq t9 t6
  check (!decide (t1065 = (some Ordering.gt)) || (!t1079))
  let t1080 ← IeeeFloat.lt t9 t6
  check (!decide (t1065 = (some Ordering.gt)) || (!t1080))
  let t1081 ← IeeeFloat.gt t9 t6
  check (!decide (t1065 = (some Ordering.gt)) || t1081)
  let t1082 ← IeeeFloat_le t9 t6
  check (!decide (t1065 = (some Ordering.gt)) || (!t1082))
  let t1083 ← IeeeFloat.ge t9 t6
  check (!decide (t1065 = (some Ordering.gt)) || t1083)
  let t1084 ← IeeeFloat.eq t9 t6
  check (!decide (t1065 = (none : Option Ordering)) || (!t1084))
  let t1085 ← IeeeFloat.eq t9 t6
  check (!decide (t1065 = (none : Option Ordering)) || (!t1085))
  let t1086 ← IeeeFloat.lt t9 t6
  check (!decide (t1065 = (none : Option Ordering)) || (!t1086))
  let t1087 ← IeeeFloat.gt t9 t6
  check (!decide (t1065 = (none : Option Ordering)) || (!t1087))

example : passes t_comparisons_36 = true := by decide +kernel

/-- tests/ieee.rs:3213 `comparisons`. -/
def t_comparisons_37 : M Unit := do
  let t5 ← (ApiFloat.largest : M Single)
  let t6 ← ApiFloat.neg t5
  let t7 ← (parse ("-0x1p+0".toList) : M Single)
  let t8 ← (ApiFloat.ZERO : M Single)
  let t9 ← ApiFloat.neg t8
  let t1065 ← ApiFloat.partial_cmp t9 t6
  let t1088 ← IeeeFloat_le t9 t6
  check (!decide (t1065 = (none : Option Ordering)) || (!t1088))
  let t1089 ← IeeeFloat.ge t9 t6
  check (!decide (t1065 = (none : Option Ordering)) || (!t1089))
  let t1090 ← ApiFloat.partial_cmp t9 t7
  check (decide (t1090 = (some Ordering.gt)))
  let t1091 ← IeeeFloat.eq t9 t7
  check (!decide (t1090 = (some Ordering.lt)) || (!t1091))
  let t1092 ← IeeeFloat.eq t9 t7
  check (!decide (t1090 = (some Ordering.lt)) || (!t1092))
  let t1093 ← IeeeFloat.lt t9 t7
  check (!decide (t1090 = (some Ordering.lt)) || t1093)
  let t1094 ← IeeeFloat.gt t9 t7
  check (!decide (t1090 = (some Ordering.lt)) || (!t1094))
  let t1095 ← IeeeFloat_le t9 t7
  check (!decide (t1090 = (some Ordering.lt)) || t1095)
  let t1096 ← IeeeFloat.ge t9 t7
  check (!decide (t1090 = (some Ordering.lt)) || (!t1096))
  let t1097 ← IeeeFloat.eq t9 t7
  check (!decide (t1090 = (some Ordering.eq)) || t1097)
  let t1098 ← IeeeFloat.eq t9 t7
  check (!decide (t1090 = (some Ordering.eq)) || (!(!t1098)))
  let t1099 ← IeeeFloat.lt t9 t7
  check (!decide (t1090 = (some Ordering.eq)) || (!t1099))
  let t1100 ← IeeeFloat.gt t9 t7
  check (!decide (t1090 = (some Ordering.eq)) || (!t1100))
  let t1101 ← IeeeFloat_le t9 t7
  check (!decide (t1090 = (some Ordering.eq)) || t1101)
  let t1102 ← IeeeFloat.ge t9 t7
  check (!decide (t1090 = (some Ordering.eq)) || t1102)
  let t1103 ← IeeeFloat.eq t9 t7
  check (!decide (t1090 = (some Ordering.gt)) || (!t1103))
  let t1104 ← IeeeFloat.eq t9 t7
  check (!decide (t1090 = (some Ordering.gt)) || (!t1104))
  let t1105 ← IeeeFloat.lt t9 t7
  check (!decide (t1090 = (some Ordering.gt)) || (!t1105))
  let t1106 ← IeeeFloat.gt t9 t7
  check (!decide (t1090 = (some Ordering.gt)) || t1106)
  let t1107 ← IeeeFloat_le t9 t7
  check (!decide (t1090 = (some Ordering.gt)) || (!t1107))
  let t1108 ← IeeeFloat.ge t9 t7
  check (!decide (t1090 = (some Ordering.gt)) || t1108)
  let t1109 ← IeeeFloat.eq t9 t7
  check (!decide (t1090 = (none : Option Ordering)) || (!t1109))
  let t1110 ← IeeeFloat.eq t9 t7
  check (!decide (t1090 = (none : Option Ordering)) || (!t1110))
  let t1111 ← IeeeFloat.lt t9 t7
  check (!decide (t1090 = (none : Option Ordering)) || (!t1111))
  let t1112 ← IeeeFloat.gt t9 t7
  check (!decide (t1090 = (none : Option Ordering)) || (!t1112))
  let t1113 ← IeeeFloat_le t9 t7
  check (!decide (t1090 = (none : Option Ordering)) || (!t1113))
  let t1114 ← IeeeFloat.ge t9 t7
  check (!decide (t1090 = (none : Option Ordering)) || (!t1114))
  let t1115 ← ApiFloat.partial_cmp t9 t9
  check (decide (t1115 = (some Ordering.eq)))
  let t1116 ← IeeeFloat.eq t9 t9
  check (!decide (t1115 = (some Ordering.lt)) || (!t1116))
  let t1117 ← IeeeFloat.eq t9 t9
  check (!decide (t1115 = (some Ordering.lt)) || (!t1117))

example : passes t_comparisons_37 = true := by decide +kernel

/-- tests/ieee.rs:3213 `comparisons`. -/
def t_comparisons_38 : M Unit := do
  let t8 ← (ApiFloat.ZERO : M Single)
  let t9 ← ApiFloat.neg t8
  let t10 ← (ApiFloat.ZERO : M Single)
  let t1115 ← ApiFloat.partial_cmp t9 t9
  let t1118 ← IeeeFloat.lt t9 t9
  check (!decide (t1115 = (some Ordering.lt)) || t1118)
  let t1119 ← IeeeFloat.gt t9 t9
  check (!decide (t1115 = (some Ordering.lt)) || (!t1119))
  let t1120 ← IeeeFloat_le t9 t9
  check (!decide (t1115 = (some Ordering.lt)) || t1120)
  let t1121 ← IeeeFloat.ge t9 t9
  check (!decide (t1115 = (some Ordering.lt)) || (!t1121))
  let t1122 ← IeeeFloat.eq t9 t9
  check (!decide (t1115 = (some Ordering.eq)) || t1122)
  let t1123 ← IeeeFloat.eq t9 t9
  check (!decide (t1115 = (some Ordering.eq)) || (!(!t1123)))
  let t1124 ← IeeeFloat.lt t9 t9
  check (!decide (t1115 = (some Ordering.eq)) || (!t1124))
  let t1125 ← IeeeFloat.gt t9 t9
  check (!decide (t1115 = (some Ordering.eq)) || (!t1125))
  let t1126 ← IeeeFloat_le t9 t9
  check (!decide (t1115 = (some Ordering.eq)) || t1126)
  let t1127 ← IeeeFloat.ge t9 t9
  check (!decide (t1115 = (some Ordering.eq)) || t1127)
  let t1128 ← IeeeFloat.eq t9 t9
  check (!decide (t1115 = (some Ordering.gt)) || (!t1128))
  let t1129 ← IeeeFloat.eq t9 t9
  check (!decide (t1115 = (some Ordering.gt)) || (!t1129))
  let t1130 ← IeeeFloat.lt t9 t9
  check (!decide (t1115 = (some Ordering.gt)) || (!t1130))
  let t1131 ← IeeeFloat.gt t9 t9
  check (!decide (t1115 = (some Ordering.gt)) || t1131)
  let t1132 ← IeeeFloat_le t9 t9
  check (!decide (t1115 = (some Ordering.gt)) || (!t1132))
  let t1133 ← IeeeFloat.ge t9 t9
  check (!decide (t1115 = (some Ordering.gt)) || t1133)
  let t1134 ← IeeeFloat.eq t9 t9
  check (!decide (t1115 = (none : Option Ordering)) || (!t1134))
  let t1135 ← IeeeFloat.eq t9 t9
  check (!decide (t1115 = (none : Option Ordering)) || (!t1135))
  let t1136 ← IeeeFloat.lt t9 t9
  check (!decide (t1115 = (none : Option Ordering)) || (!t1136))
  let t1137 ← IeeeFloat.gt t9 t9
  check (!decide (t1115 = (none : Option Ordering)) || (!t1137))
  let t1138 ← IeeeFloat_le t9 t9
  check (!decide (t1115 = (none : Option Ordering)) || (!t1138))
  let t1139 ← IeeeFloat.ge t9 t9
  check (!decide (t1115 = (none : Option Ordering)) || (!t1139))
  let t1140 ← ApiFloat.partial_cmp t9 t10
  check (decide (t1140 = (some Ordering.eq)))
  let t1141 ← IeeeFloat.eq t9 t10
  check (!decide (t1140 = (some Ordering.lt)) || (!t1141))
  let t1142 ← IeeeFloat.eq t9 t10
  check (!decide (t1140 = (some Ordering.lt)) || (!t1142))
  let t1143 ← IeeeFloat.lt t9 t10
  check (!decide (t1140 = (some Ordering.lt)) || t1143)
  let t1144 ← IeeeFloat.gt t9 t10
  check (!decide (t1140 = (some Ordering.lt)) || (!t1144))
  let t1145 ← IeeeFloat_le t9 t10
  check (!decide (t1140 = (some Ordering.lt)) || t1145)
  let t1146 ← IeeeFloat.ge t9 t10
  check (!decide (t1140 = (some Ordering.lt)) || (!t1146))
  let t1147 ← IeeeFloat.eq t9 t10
  check (!decide (t1140 = (some Ordering.eq)) || t1147)

example : passes t_comparisons_38 = true := by decide +kernel

/-- tests/ieee.rs:3213 `comparisons`. -/
def t_comparisons_39 : M Unit := do
  let t8 ← (ApiFloat.ZERO : M Single)
  let t9 ← ApiFloat.neg t8
  let t10 ← (ApiFloat.ZERO : M Single)
  let t11 ← (parse ("0x1p+0".toList) : M Single)
  let t1140 ← ApiFloat.partial_cmp t9 t10
  let t1148 ← IeeeFloat.eq t9 t10
  check (!decide (t1140 = (some Ordering.eq)) || (!(!t1148)))
  let t1149 ← IeeeFloat.lt t9 t10
  check (!decide (t1140 = (some Ordering.eq)) || (!t1149))
  let t1150 ← IeeeFloat.gt t9 t10
  check (!decide (t1140 = (some Ordering.eq)) || (!t1150))
  let t1151 ← IeeeFloat_le t9 t10
  check (!decide (t1140 = (some Ordering.eq)) || t1151)
  let t1152 ← IeeeFloat.ge t9 t10
  check (!decide (t1140 = (some Ordering.eq)) || t1152)
  let t1153 ← IeeeFloat.eq t9 t10
  check (!decide (t1140 = (some Ordering.gt)) || (!t1153))
  let t1154 ← IeeeFloat.eq t9 t10
  check (!decide (t1140 = (some Ordering.gt)) || (!t1154))
  let t1155 ← IeeeFloat.lt t9 t10
  check (!decide (t1140 = (some Ordering.gt)) || (!t1155))
  let t1156 ← IeeeFloat.gt t9 t10
  check (!decide (t1140 = (some Ordering.gt)) || t1156)
  let t1157 ← IeeeFloat_le t9 t10
  check (!decide (t1140 = (some Ordering.gt)) || (!t1157))
  let t1158 ← IeeeFloat.ge t9 t10
  check (!decide (t1140 = (some Ordering.gt)) || t1158)
  let t1159 ← IeeeFloat.eq t9 t10
  check (!decide (t1140 = (none : Option Ordering)) || (!t1159))
  let t1160 ← IeeeFloat.eq t9 t10
  check (!decide (t1140 = (none : Option Ordering)) || (!t1160))
  let t1161 ← IeeeFloat.lt t9 t10
  check (!decide (t1140 = (none : Option Ordering)) || (!t1161))
  let t1162 ← IeeeFloat.gt t9 t10
  check (!decide (t1140 = (none : Option Ordering)) || (!t1162))
  let t1163 ← IeeeFloat_le t9 t10
  check (!decide (t1140 = (none : Option Ordering)) || (!t1163))
  let t1164 ← IeeeFloat.ge t9 t10
  check (!decide (t1140 = (none : Option Ordering)) || (!t1164))
  let t1165 ← ApiFloat.partial_cmp t9 t11
  check (decide (t1165 = (some Ordering.lt)))
  let t1166 ← IeeeFloat.eq t9 t11
  check (!decide (t1165 = (some Ordering.lt)) || (!t1166))
  let t1167 ← IeeeFloat.eq t9 t11
  check (!decide (t1165 = (some Ordering.lt)) || (!t1167))
  let t1168 ← IeeeFloat.lt t9 t11
  check (!decide (t1165 = (some Ordering.lt)) || t1168)
  let t1169 ← IeeeFloat.gt t9 t11
  check (!decide (t1165 = (some Ordering.lt)) || (!t1169))
  let t1170 ← IeeeFloat_le t9 t11
  check (!decide (t1165 = (some Ordering.lt)) || t1170)
  let t1171 ← IeeeFloat.ge t9 t11
  check (!decide (t1165 = (some Ordering.lt)) || (!t1171))
  let t1172 ← IeeeFloat.eq t9 t11
  check (!decide (t1165 = (some Ordering.eq)) || t1172)
  let t1173 ← IeeeFloat.eq t9 t11
  check (!decide (t1165 = (some Ordering.eq)) || (!(!t1173)))
  let t1174 ← IeeeFloat.lt t9 t11
  check (!decide (t1165 = (some Ordering.eq)) || (!t1174))
  let t1175 ← IeeeFloat.gt t9 t11
  check (!decide (t1165 = (some Ordering.eq)) || (!t1175))
  let t1176 ← IeeeFloat_le t9 t11
  check (!decide (t1165 = (some Ordering.eq)) || t1176)
  let t1177 ← IeeeFloat.ge t9 t11
  check (!decide (t1165 = (some Ordering.eq)) || t1177)

example : passes t_comparisons_39 = true := by decide +kernel

/-- tests/ieee.rs:3213 `comparisons`. -/
def t_comparisons_40 : M Unit := do
  let t8 ← (ApiFloat.ZERO : M Single)
  let t9 ← ApiFloat.neg t8
  let t11 ← (parse ("0x1p+0".toList) : M Single)
  let t12 ← (ApiFloat.largest : M Single)
  let t1165 ← ApiFloat.partial_cmp t9 t11
  let t1178 ← IeeeFloat.eq t9 t11
  check (!decide (t1165 = (some Ordering.gt)) || (!t1178))
  let t1179 ← IeeeFloat.eq t9 t11
  check (!decide (t1165 = (some Ordering.gt)) || (!t1179))
  let t1180 ← IeeeFloat.lt t9 t11
  check (!decide (t1165 = (some Ordering.gt)) || (!t1180))
  let t1181 ← IeeeFloat.gt t9 t11
  check (!decide (t1165 = (some Ordering.gt)) || t1181)
  let t1182 ← IeeeFloat_le t9 t11
  check (!decide (t1165 = (some Ordering.gt)) || (!t1182))
  let t1183 ← IeeeFloat.ge t9 t11
  check (!decide (t1165 = (some Ordering.gt)) || t1183)
  let t1184 ← IeeeFloat.eq t9 t11
  check (!decide (t1165 = (none : Option Ordering)) || (!t1184))
  let t1185 ← IeeeFloat.eq t9 t11
  check (!decide (t1165 = (none : Option Ordering)) || (!t1185))
  let t1186 ← IeeeFloat.lt t9 t11
  check (!decide (t1165 = (none : Option Ordering)) || (!t1186))
  let t1187 ← IeeeFloat.gt t9 t11
  check (!decide (t1165 = (none : Option Ordering)) || (!t1187))
  let t1188 ← IeeeFloat_le t9 t11
  check (!decide (t1165 = (none : Option Ordering)) || (!t1188))
  let t1189 ← IeeeFloat.ge t9 t11
  check (!decide (t1165 = (none : Option Ordering)) || (!t1189))
  let t1190 ← ApiFloat.partial_cmp t9 t12
  check (decide (t1190 = (some Ordering.lt)))
  let t1191 ← IeeeFloat.eq t9 t12
  check (!decide (t1190 = (some Ordering.lt)) || (!t1191))
  let t1192 ← IeeeFloat.eq t9 t12
  check (!decide (t1190 = (some Ordering.lt)) || (!t1192))
  let t1193 ← IeeeFloat.lt t9 t12
  check (!decide (t1190 = (some Ordering.lt)) || t1193)
  let t1194 ← IeeeFloat.gt t9 t12
  check (!decide (t1190 = (some Ordering.lt)) || (!t1194))
  let t1195 ← IeeeFloat_le t9 t12
  check (!decide (t1190 = (some Ordering.lt)) || t1195)
  let t1196 ← IeeeFloat.ge t9 t12
  check (!decide (t1190 = (some Ordering.lt)) || (!t1196))
  let t1197 ← IeeeFloat.eq t9 t12
  check (!decide (t1190 = (some Ordering.eq)) || t1197)
  let t1198 ← IeeeFloat.eq t9 t12
  check (!decide (t1190 = (some Ordering.eq)) || (!(!t1198)))
  let t1199 ← IeeeFloat.lt t9 t12
  check (!decide (t1190 = (some Ordering.eq)) || (!t1199))
  let t1200 ← IeeeFloat.gt t9 t12
  check (!decide (t1190 = (some Ordering.eq)) || (!t1200))
  let t1201 ← IeeeFloat_le t9 t12
  check (!decide (t1190 = (some Ordering.eq)) || t1201)
  let t1202 ← IeeeFloat.ge t9 t12
  check (!decide (t1190 = (some Ordering.eq)) || t1202)
  let t1203 ← IeeeFloat.eq t9 t12
  check (!decide (t1190 = (some Ordering.gt)) || (!t1203))
  let t1204 ← IeeeFloat.eq t9 t12
  check (!decide (t1190 = (some Ordering.gt)) || (!t1204))
  let t1205 ← IeeeFloat.lt t9 t12
  check (!decide (t1190 = (some Ordering.gt)) || (!t1205))
  let t1206 ← IeeeFloat.gt t9 t12
  check (!decide (t1190 = (some Ordering.gt)) || t1206)
  let t1207 ← IeeeFloat_le t9 t12
  check (!decide (t1190 = (some Ordering.gt)) || (!t1207))

example : passes t_comparisons_40 = true := by decide +kernel

/-- tests/ieee.rs:3213 `comparisons`. -/
def t_comparisons_41 : M Unit := do
  let t8 ← (ApiFloat.ZERO : M Single)
  let t9 ← ApiFloat.neg t8
  let t12 ← (ApiFloat.largest : M Single)
  let t13 ← (ApiFloat.INFINITY : M Single)
  let t1190 ← ApiFloat.partial_cmp t9 t12
  let t1208 ← IeeeFloat.ge t9 t12
  check (!decide (t1190 = (some Ordering.gt)) || t1208)
  let t1209 ← IeeeFloat.eq t9 t12
  check (!decide (t1190 = (none : Option Ordering)) || (!t1209))
  let t1210 ← IeeeFloat.eq t9 t12
  check (!decide (t1190 = (none : Option Ordering)) || (!t1210))
  let t1211 ← IeeeFloat.lt t9 t12
  check (!decide (t1190 = (none : Option Ordering)) || (!t1211))
  let t1212 ← IeeeFloat.gt t9 t12
  check (!decide (t1190 = (none : Option Ordering)) || (!t1212))
  let t1213 ← IeeeFloat_le t9 t12
  check (!decide (t1190 = (none : Option Ordering)) || (!t1213))
  let t1214 ← IeeeFloat.ge t9 t12
  check (!decide (t1190 = (none : Option Ordering)) || (!t1214))
  let t1215 ← ApiFloat.partial_cmp t9 t13
  check (decide (t1215 = (some Ordering.lt)))
  let t1216 ← IeeeFloat.eq t9 t13
  check (!decide (t1215 = (some Ordering.lt)) || (!t1216))
  let t1217 ← IeeeFloat.eq t9 t13
  check (!decide (t1215 = (some Ordering.lt)) || (!t1217))
  let t1218 ← IeeeFloat.lt t9 t13
  check (!decide (t1215 = (some Ordering.lt)) || t1218)
  let t1219 ← IeeeFloat.gt t9 t13
  check (!decide (t1215 = (some Ordering.lt)) || (!t1219))
  let t1220 ← IeeeFloat_le t9 t13
  check (!decide (t1215 = (some Ordering.lt)) || t1220)
  let t1221 ← IeeeFloat.ge t9 t13
  check (!decide (t1215 = (some Ordering.lt)) || (!t1221))
  let t1222 ← IeeeFloat.eq t9 t13
  check (!decide (t1215 = (some Ordering.eq)) || t1222)
  let t1223 ← IeeeFloat.eq t9 t13
  check (!decide (t1215 = (some Ordering.eq)) || (!(!t1223)))
  let t1224 ← IeeeFloat.lt t9 t13
  check (!decide (t1215 = (some Ordering.eq)) || (!t1224))
  let t1225 ← IeeeFloat.gt t9 t13
  check (!decide (t1215 = (some Ordering.eq)) || (!t1225))
  let t1226 ← IeeeFloat_le t9 t13
  check (!decide (t1215 = (some Ordering.eq)) || t1226)
  let t1227 ← IeeeFloat.ge t9 t13
  check (!decide (t1215 = (some Ordering.eq)) || t1227)
  let t1228 ← IeeeFloat.eq t9 t13
  check (!decide (t1215 = (some Ordering.gt)) || (!t1228))
  let t1229 ← IeeeFloat.eq t9 t13
  check (!decide (t1215 = (some Ordering.gt)) || (!t1229))
  let t1230 ← IeeeFloat.lt t9 t13
  check (!decide (t1215 = (some Ordering.gt)) || (!t1230))
  let t1231 ← IeeeFloat.gt t9 t13
  check (!decide (t1215 = (some Ordering.gt)) || t1231)
  let t1232 ← IeeeFloat_le t9 t13
  check (!decide (t1215 = (some Ordering.gt)) || (!t1232))
  let t1233 ← IeeeFloat.ge t9 t13
  check (!decide (t1215 = (some Ordering.gt)) || t1233)
  let t1234 ← IeeeFloat.eq t9 t13
  check (!decide (t1215 = (none : Option Ordering)) || (!t1234))
  let t1235 ← IeeeFloat.eq t9 t13
  check (!decide (t1215 = (none : Option Ordering)) || (!t1235))
  let t1236 ← IeeeFloat.lt t9 t13
  check (!decide (t1215 = (none : Option Ordering)) || (!t1236))
  let t1237 ← IeeeFloat.gt t9 t13
  check (!decide (t1215 = (none : Option Ordering)) || (!t1237))

example : passes t_comparisons_41 = true := by decide +kernel

/-- tests/ieee.rs:3213 `comparisons`. -/
def t_comparisons_42 : M Unit := do
  let t1 ← (ApiFloat.NAN : M Single)
  let t2 ← ApiFloat.neg t1
  let t8 ← (ApiFloat.ZERO : M Single)
  let t9 ← ApiFloat.neg t8
  let t10 ← (ApiFloat.ZERO : M Single)
  let t13 ← (ApiFloat.INFINITY : M Single)
  let t14 ← (ApiFloat.NAN : M Single)
  let t1215 ← ApiFloat.partial_cmp t9 t13
  let t1238 ← IeeeFloat_le t9 t13
  check (!decide (t1215 = (none : Option Ordering)) || (!t1238))
  let t1239 ← IeeeFloat.ge t9 t13
  check (!decide (t1215 = (none : Option Ordering)) || (!t1239))
  let t1240 ← ApiFloat.partial_cmp t9 t14
  check (decide (t1240 = (none : Option Ordering)))
  let t1241 ← IeeeFloat.eq t9 t14
  check (!decide (t1240 = (some Ordering.lt)) || (!t1241))
  let t1242 ← IeeeFloat.eq t9 t14
  check (!decide (t1240 = (some Ordering.lt)) || (!t1242))
  let t1243 ← IeeeFloat.lt t9 t14
  check (!decide (t1240 = (some Ordering.lt)) || t1243)
  let t1244 ← IeeeFloat.gt t9 t14
  check (!decide (t1240 = (some Ordering.lt)) || (!t1244))
  let t1245 ← IeeeFloat_le t9 t14
  check (!decide (t1240 = (some Ordering.lt)) || t1245)
  let t1246 ← IeeeFloat.ge t9 t14
  check (!decide (t1240 = (some Ordering.lt)) || (!t1246))
  let t1247 ← IeeeFloat.eq t9 t14
  check (!decide (t1240 = (some Ordering.eq)) || t1247)
  let t1248 ← IeeeFloat.eq t9 t14
  check (!decide (t1240 = (some Ordering.eq)) || (!(!t1248)))
  let t1249 ← IeeeFloat.lt t9 t14
  check (!decide (t1240 = (some Ordering.eq)) || (!t1249))
  let t1250 ← IeeeFloat.gt t9 t14
  check (!decide (t1240 = (some Ordering.eq)) || (!t1250))
  let t1251 ← IeeeFloat_le t9 t14
  check (!decide (t1240 = (some Ordering.eq)) || t1251)
  let t1252 ← IeeeFloat.ge t9 t14
  check (!decide (t1240 = (some Ordering.eq)) || t1252)
  let t1253 ← IeeeFloat.eq t9 t14
  check (!decide (t1240 = (some Ordering.gt)) || (!t1253))
  let t1254 ← IeeeFloat.eq t9 t14
  check (!decide (t1240 = (some Ordering.gt)) || (!t1254))
  let t1255 ← IeeeFloat.lt t9 t14
  check (!decide (t1240 = (some Ordering.gt)) || (!t1255))
  let t1256 ← IeeeFloat.gt t9 t14
  check (!decide (t1240 = (some Ordering.gt)) || t1256)
  let t1257 ← IeeeFloat_le t9 t14
  check (!decide (t1240 = (some Ordering.gt)) || (!t1257))
  let t1258 ← IeeeFloat.ge t9 t14
  check (!decide (t1240 = (some Ordering.gt)) || t1258)
  let t1259 ← IeeeFloat.eq t9 t14
  check (!decide (t1240 = (none : Option Ordering)) || (!t1259))
  let t1260 ← IeeeFloat.eq t9 t14
  check (!decide (t1240 = (none : Option Ordering)) || (!t1260))
  let t1261 ← IeeeFloat.lt t9 t14
  check (!decide (t1240 = (none : Option Ordering)) || (!t1261))
  let t1262 ← IeeeFloat.gt t9 t14
  check (!decide (t1240 = (none : Option Ordering)) || (!t1262))
  let t1263 ← IeeeFloat_le t9 t14
  check (!decide (t1240 = (none : Option Ordering)) || (!t1263))
  let t1264 ← IeeeFloat.ge t9 t14
  check (!decide (t1240 = (none : Option Ordering)) || (!t1264))
  let t1265 ← ApiFloat.partial_cmp t10 t2
  check (decide (t1265 = (none : Option Ordering)))
  let t1266 ← IeeeFloat.eq t10 t2
  check (!decide (t1265 = (some Ordering.lt)) || (!t1266))
  let t1267 ← IeeeFloat.eq t10 t2
  check (!decide (t1265 = (some Ordering.lt)) || (!t1267))

example : passes t_comparisons_42 = true := by decide +kernel

/-- tests/ieee.rs:3213 `comparisons`. -/
def t_comparisons_43 : M Unit := do
  let t1 ← (ApiFloat.NAN : M Single)
  let t2 ← ApiFloat.neg t1
  let t3 ← (ApiFloat.INFINITY : M Single)
  let t4 ← ApiFloat.neg t3
  let t10 ← (ApiFloat.ZERO : M Single)
  let t1265 ← ApiFloat.partial_cmp t10 t2
  let t1268 ← IeeeFloat.lt t10 t2
  check (!decide (t1265 = (some Ordering.lt)) || t1268)
  let t1269 ← IeeeFloat.gt t10 t2
  check (!decide (t1265 = (some Ordering.lt)) || (!t1269))
  let t1270 ← IeeeFloat_le t10 t2
  check (!decide (t1265 = (some Ordering.lt)) || t1270)
  let t1271 ← IeeeFloat.ge t10 t2
  check (!decide (t1265 = (some Ordering.lt)) || (!t1271))
  let t1272 ← IeeeFloat.eq t10 t2
  check (!decide (t1265 = (some Ordering.eq)) || t1272)
  let t1273 ← IeeeFloat.eq t10 t2
  check (!decide (t1265 = (some Ordering.eq)) || (!(!t1273)))
  let t1274 ← IeeeFloat.lt t10 t2
  check (!decide (t1265 = (some Ordering.eq)) || (!t1274))
  let t1275 ← IeeeFloat.gt t10 t2
  check (!decide (t1265 = (some Ordering.eq)) || (!t1275))
  let t1276 ← IeeeFloat_le t10 t2
  check (!decide (t1265 = (some Ordering.eq)) || t1276)
  let t1277 ← IeeeFloat.ge t10 t2
  check (!decide (t1265 = (some Ordering.eq)) || t1277)
  let t1278 ← IeeeFloat.eq t10 t2
  check (!decide (t1265 = (some Ordering.gt)) || (!t1278))
  let t1279 ← IeeeFloat.eq t10 t2
  check (!decide (t1265 = (some Ordering.gt)) || (!t1279))
  let t1280 ← IeeeFloat.lt t10 t2
  check (!decide (t1265 = (some Ordering.gt)) || (!t1280))
  let t1281 ← IeeeFloat.gt t10 t2
  check (!decide (t1265 = (some Ordering.gt)) || t1281)
  let t1282 ← IeeeFloat_le t10 t2
  check (!decide (t1265 = (some Ordering.gt)) || (!t1282))
  let t1283 ← IeeeFloat.ge t10 t2
  check (!decide (t1265 = (some Ordering.gt)) || t1283)
  let t1284 ← IeeeFloat.eq t10 t2
  check (!decide (t1265 = (none : Option Ordering)) || (!t1284))
  let t1285 ← IeeeFloat.eq t10 t2
  check (!decide (t1265 = (none : Option Ordering)) || (!t1285))
  let t1286 ← IeeeFloat.lt t10 t2
  check (!decide (t1265 = (none : Option Ordering)) || (!t1286))
  let t1287 ← IeeeFloat.gt t10 t2
  check (!decide (t1265 = (none : Option Ordering)) || (!t1287))
  let t1288 ← IeeeFloat_le t10 t2
  check (!decide (t1265 = (none : Option Ordering)) || (!t1288))
  let t1289 ← IeeeFloat.ge t10 t2
  check (!decide (t1265 = (none : Option Ordering)) || (!t1289))
  let t1290 ← ApiFloat.partial_cmp t10 t4
  check (decide (t1290 = (some Ordering.gt)))
  let t1291 ← IeeeFloat.eq t10 t4
  check (!decide (t1290 = (some Ordering.lt)) || (!t1291))
  let t1292 ← IeeeFloat.eq t10 t4
  check (!decide (t1290 = (some Ordering.lt)) || (!t1292))
  let t1293 ← IeeeFloat.lt t10 t4
  check (!decide (t1290 = (some Ordering.lt)) || t1293)
  let t1294 ← IeeeFloat.gt t10 t4
  check (!decide (t1290 = (some Ordering.lt)) || (!t1294))
  let t1295 ← IeeeFloat_le t10 t4
  check (!decide (t1290 = (some Ordering.lt)) || t1295)
  let t1296 ← IeeeFloat.ge t10 t4
  check (!decide (t1290 = (some Ordering.lt)) || (!t1296))
  let t1297 ← IeeeFloat.eq t10 t4
  check (!decide (t1290 = (some Ordering.eq)) || t1297)

example : passes t_comparisons_43 = true := by decide +kernel

/-- tests/ieee.rs:3213 `comparisons`. -/
def t_comparisons_44 : M Unit := do
  let t3 ← (ApiFloat.INFINITY : M Single)
  let t4 ← ApiFloat.neg t3
  let t5 ← (ApiFloat.largest : M Single)
  let t6 ← ApiFloat.neg t5
  let t10 ← (ApiFloat.ZERO : M Single)
  let t1290 ← ApiFloat.partial_cmp t10 t4
  let t1298 ← IeeeFloat.eq t10 t4
  check (!decide (t1290 = (some Ordering.eq)) || (!(!t1298)))
  let t1299 ← IeeeFloat.lt t10 t4
  check (!decide (t1290 = (some Ordering.eq)) || (!t1299))
  let t1300 ← IeeeFloat.gt t10 t4
  check (!decide (t1290 = (some Ordering.eq)) || (!t1300))
  let t1301 ← IeeeFloat_le t10 t4
  check (!decide (t1290 = (some Ordering.eq)) || t1301)
  let t1302 ← IeeeFloat.ge t10 t4
  check (!decide (t1290 = (some Ordering.eq)) || t1302)
  let t1303 ← IeeeFloat.eq t10 t4
  check (!decide (t1290 = (some Ordering.gt)) || (!t1303))
  let t1304 ← IeeeFloat.eq t10 t4
  check (!decide (t1290 = (some Ordering.gt)) || (!t1304))
  let t1305 ← IeeeFloat.lt t10 t4
  check (!decide (t1290 = (some Ordering.gt)) || (!t1305))
  let t1306 ← IeeeFloat.gt t10 t4
  check (!decide (t1290 = (some Ordering.gt)) || t1306)
  let t1307 ← IeeeFloat_le t10 t4
  check (!decide (t1290 = (some Ordering.gt)) || (!t1307))
  let t1308 ← IeeeFloat.ge t10 t4
  check (!decide (t1290 = (some Ordering.gt)) || t1308)
  let t1309 ← IeeeFloat.eq t10 t4
  check (!decide (t1290 = (none : Option Ordering)) || (!t1309))
  let t1310 ← IeeeFloat.eq t10 t4
  check (!decide (t1290 = (none : Option Ordering)) || (!t1310))
  let t1311 ← IeeeFloat.lt t10 t4
  check (!decide (t1290 = (none : Option Ordering)) || (!t1311))
  let t1312 ← IeeeFloat.gt t10 t4
  check (!decide (t1290 = (none : Option Ordering)) || (!t1312))
  let t1313 ← IeeeFloat_le t10 t4
  check (!decide (t1290 = (none : Option Ordering)) || (!t1313))
  let t1314 ← IeeeFloat.ge t10 t4
  check (!decide (t1290 = (none : Option Ordering)) || (!t1314))
  let t1315 ← ApiFloat.partial_cmp t10 t6
  check (decide (t1315 = (some Ordering.gt)))
  let t1316 ← IeeeFloat.eq t10 t6
  check (!decide (t1315 = (some Ordering.lt)) || (!t1316))
  let t1317 ← IeeeFloat.eq t10 t6
  check (!decide (t1315 = (some Ordering.lt)) || (!t1317))
  let t1318 ← IeeeFloat.lt t10 t6
  check (!decide (t1315 = (some Ordering.lt)) || t1318)
  let t1319 ← IeeeFloat.gt t10 t6
  check (!decide (t1315 = (some Ordering.lt)) || (!t1319))
  let t1320 ← IeeeFloat_le t10 t6
  check (!decide (t1315 = (some Ordering.lt)) || t1320)
  let t1321 ← IeeeFloat.ge t10 t6
  check (!decide (t1315 = (some Ordering.lt)) || (!t1321))
  let t1322 ← IeeeFloat.eq t10 t6
  check (!decide (t1315 = (some Ordering.eq)) || t1322)
  let t1323 ← IeeeFloat.eq t10 t6
  check (!decide (t1315 = (some Ordering.eq)) || (!(!t1323)))
  let t1324 ← IeeeFloat.lt t10 t6
  check (!decide (t1315 = (some Ordering.eq)) || (!t1324))
  let t1325 ← IeeeFloat.gt t10 t6
  check (!decide (t1315 = (some Ordering.eq)) || (!t1325))
  let t1326 ← IeeeFloat_le t10 t6
  check (!decide (t1315 = (some Ordering.eq)) || t1326)
  let t1327 ← IeeeFloat.ge t10 t6
  check (!decide (t1315 = (some Ordering.eq)) || t1327)

example : passes t_comparisons_44 = true := by decide +kernel

/-- tests/ieee.rs:3213 `comparisons`. -/
def t_comparisons_45 : M Unit := do
  let t5 ← (ApiFloat.largest : M Single)
  let t6 ← ApiFloat.neg t5
  let t7 ← (parse ("-0x1p+0".toList) : M Single)
  let t10 ← (ApiFloat.ZERO : M Single)
  let t1315 ← ApiFloat.partial_cmp t10 t6
  let t1328 ← IeeeFloat.eq t10 t6
  check (!decide (t1315 = (some Ordering.gt)) || (!t1328))
  let t1329 ← IeeeFloat.eq t10 t6
  check (!decide (t1315 = (some Ordering.gt)) || (!t1329))
  let t1330 ← IeeeFloat.lt t10 t6
  check (!decide (t1315 = (some Ordering.gt)) || (!t1330))
  let t1331 ← IeeeFloat.gt t10 t6
  check (!decide (t1315 = (some Ordering.gt)) || t1331)
  let t1332 ← IeeeFloat_le t10 t6
  check (!decide (t1315 = (some Ordering.gt)) || (!t1332))
  let t1333 ← IeeeFloat.ge t10 t6
  check (!decide (t1315 = (some Ordering.gt)) || t1333)
  let t1334 ← IeeeFloat.eq t10 t6
  check (!decide (t1315 = (none : Option Ordering)) || (!t1334))
  let t1335 ← IeeeFloat.eq t10 t6
  check (!decide (t1315 = (none : Option Ordering)) || (!t1335))
  let t1336 ← IeeeFloat.lt t10 t6
  check (!decide (t1315 = (none : Option Ordering)) || (!t1336))
  let t1337 ← IeeeFloat.gt t10 t6
  check (!decide (t1315 = (none : Option Ordering)) || (!t1337))
  let t1338 ← IeeeFloat_le t10 t6
  check (!decide (t1315 = (none : Option Ordering)) || (!t1338))
  let t1339 ← IeeeFloat.ge t10 t6
  check (!decide (t1315 = (none : Option Ordering)) || (!t1339))
  let t1340 ← ApiFloat.partial_cmp t10 t7
  check (decide (t1340 = (some Ordering.gt)))
  let t1341 ← IeeeFloat.eq t10 t7
  check (!decide (t1340 = (some Ordering.lt)) || (!t1341))
  let t1342 ← IeeeFloat.eq t10 t7
  check (!decide (t1340 = (some Ordering.lt)) || (!t1342))
  let t1343 ← IeeeFloat.lt t10 t7
  check (!decide (t1340 = (some Ordering.lt)) || t1343)
  let t1344 ← IeeeFloat.gt t10 t7
  check (!decide (t1340 = (some Ordering.lt)) || (!t1344))
  let t1345 ← IeeeFloat_le t10 t7
  check (!decide (t1340 = (some Ordering.lt)) || t1345)
  let t1346 ← IeeeFloat.ge t10 t7
  check (!decide (t1340 = (some Ordering.lt)) || (!t1346))
  let t1347 ← IeeeFloat.eq t10 t7
  check (!decide (t1340 = (some Ordering.eq)) || t1347)
  let t1348 ← IeeeFloat.eq t10 t7
  check (!decide (t1340 = (some Ordering.eq)) || (!(!t1348)))
  let t1349 ← IeeeFloat.lt t10 t7
  check (!decide (t1340 = (some Ordering.eq)) || (!t1349))
  let t1350 ← IeeeFloat.gt t10 t7
  check (!decide (t1340 = (some Ordering.eq)) || (!t1350))
  let t1351 ← IeeeFloat_le t10 t7
  check (!decide (t1340 = (some Ordering.eq)) || t1351)
  let t1352 ← IeeeFloat.ge t10 t7
  check (!decide (t1340 = (some Ordering.eq)) || t1352)
  let t1353 ← IeeeFloat.eq t10 t7
  check (!decide (t1340 = (some Ordering.gt)) || (!t1353))
  let t1354 ← IeeeFloat.eq t10 t7
  check (!decide (t1340 = (some Ordering.gt)) || (!t1354))
  let t1355 ← IeeeFloat.lt t10 t7
  check (!decide (t1340 = (some Ordering.gt)) || (!t1355))
  let t1356 ← IeeeFloat.gt t10 t7
  check (!decide (t1340 = (some Ordering.gt)) || t1356)
  let t1357 ← IeeeFloat_le t10 t7
  check (!decide (t1340 = (some Ordering.gt)) || (!t1357))

example : passes t_comparisons_45 = true := by decide +kernel

/-- tests/ieee.rs:3213 `comparisons`. -/
def t_comparisons_46 : M Unit := do
  let t7 ← (parse ("-0x1p+0".toList) : M Single)
  let t8 ← (ApiFloat.ZERO : M Single)
  let t9 ← ApiFloat.neg t8
  let t10 ← (ApiFloat.ZERO : M Single)
  let t1340 ← ApiFloat.partial_cmp t10 t7
  let t1358 ← IeeeFloat.ge t10 t7
  check (!decide (t1340 = (some Ordering.gt)) || t1358)
  let t1359 ← IeeeFloat.eq t10 t7
  check (!decide (t1340 = (none : Option Ordering)) || (!t1359))
  let t1360 ← IeeeFloat.eq t10 t7
  check (!decide (t1340 = (none : Option Ordering)) || (!t1360))
  let t1361 ← IeeeFloat.lt t10 t7
  check (!decide (t1340 = (none : Option Ordering)) || (!t1361))
  let t1362 ← IeeeFloat.gt t10 t7
  check (!decide (t1340 = (none : Option Ordering)) || (!t1362))
  let t1363 ← IeeeFloat_le t10 t7
  check (!decide (t1340 = (none : Option Ordering)) || (!t1363))
  let t1364 ← IeeeFloat.ge t10 t7
  check (!decide (t1340 = (none : Option Ordering)) || (!t1364))
  let t1365 ← ApiFloat.partial_cmp t10 t9
  check (decide (t1365 = (some Ordering.eq)))
  let t1366 ← IeeeFloat.eq t10 t9
  check (!decide (t1365 = (some Ordering.lt)) || (!t1366))
  let t1367 ← IeeeFloat.eq t10 t9
  check (!decide (t1365 = (some Ordering.lt)) || (!t1367))
  let t1368 ← IeeeFloat.lt t10 t9
  check (!decide (t1365 = (some Ordering.lt)) || t1368)
  let t1369 ← IeeeFloat.gt t10 t9
  check (!decide (t1365 = (some Ordering.lt)) || (!t1369))
  let t1370 ← IeeeFloat_le t10 t9
  check (!decide (t1365 = (some Ordering.lt)) || t1370)
  let t1371 ← IeeeFloat.ge t10 t9
  check (!decide (t1365 = (some Ordering.lt)) || (!t1371))
  let t1372 ← IeeeFloat.eq t10 t9
  check (!decide (t1365 = (some Ordering.eq)) || t1372)
  let t1373 ← IeeeFloat.eq t10 t9
  check (!decide (t1365 = (some Ordering.eq)) || (!(!t1373)))
  let t1374 ← IeeeFloat.lt t10 t9
  check (!decide (t1365 = (some Ordering.eq)) || (!t1374))
  let t1375 ← IeeeFloat.gt t10 t9
  check (!decide (t1365 = (some Ordering.eq)) || (!t1375))
  let t1376 ← IeeeFloat_le t10 t9
  check (!decide (t1365 = (some Ordering.eq)) || t1376)
  let t1377 ← IeeeFloat.ge t10 t9
  check (!decide (t1365 = (some Ordering.eq)) || t1377)
  let t1378 ← IeeeFloat.eq t10 t9
  check (!decide (t1365 = (some Ordering.gt)) || (!t1378))
  let t1379 ← IeeeFloat.eq t10 t9
  check (!decide (t1365 = (some Ordering.gt)) || (!t1379))
  let t1380 ← IeeeFloat.lt t10 t9
  check (!decide (t1365 = (some Ordering.gt)) || (!t1380))
  let t1381 ← IeeeFloat.gt t10 t9
  check (!decide (t1365 = (some Ordering.gt)) || t1381)
  let t1382 ← IeeeFloat_le t10 t9
  check (!decide (t1365 = (some Ordering.gt)) || (!t1382))
  let t1383 ← IeeeFloat.ge t10 t9
  check (!decide (t1365 = (some Ordering.gt)) || t1383)
  let t1384 ← IeeeFloat.eq t10 t9
  check (!decide (t1365 = (none : Option Ordering)) || (!t1384))
  let t1385 ← IeeeFloat.eq t10 t9
  check (!decide (t1365 = (none : Option Ordering)) || (!t1385))
  let t1386 ← IeeeFloat.lt t10 t9
  check (!decide (t1365 = (none : Option Ordering)) || (!t1386))
  let t1387 ← IeeeFloat.gt t10 t9
  check (!decide (t1365 = (none : Option Ordering)) || (!t1387))

example : passes t_comparisons_46 = true := by decide +kernel

/-- tests/ieee.rs:3213 `comparisons`. -/
def t_comparisons_47 : M Unit := do
  let t8 ← (ApiFloat.ZERO : M Single)
  let t9 ← ApiFloat.neg t8
  let t10 ← (ApiFloat.ZERO : M Single)
  let t11 ← (parse ("0x1p+0".toList) : M Single)
  let t1365 ← ApiFloat.partial_cmp t10 t9
  let t1388 ← IeeeFloat_le t10 t9
  check (!decide (t1365 = (none : Option Ordering)) || (!t1388))
  let t1389 ← IeeeFloat.ge t10 t9
  check (!decide (t1365 = (none : Option Ordering)) || (!t1389))
  let t1390 ← ApiFloat.partial_cmp t10 t10
  check (decide (t1390 = (some Ordering.eq)))
  let t1391 ← IeeeFloat.eq t10 t10
  check (!decide (t1390 = (some Ordering.lt)) || (!t1391))
  let t1392 ← IeeeFloat.eq t10 t10
  check (!decide (t1390 = (some Ordering.lt)) || (!t1392))
  let t1393 ← IeeeFloat.lt t10 t10
  check (!decide (t1390 = (some Ordering.lt)) || t1393)
  let t1394 ← IeeeFloat.gt t10 t10
  check (!decide (t1390 = (some Ordering.lt)) || (!t1394))
  let t1395 ← IeeeFloat_le t10 t10
  check (!decide (t1390 = (some Ordering.lt)) || t1395)
  let t1396 ← IeeeFloat.ge t10 t10
  check (!decide (t1390 = (some Ordering.lt)) || (!t1396))
  let t1397 ← IeeeFloat.eq t10 t10
  check (!decide (t1390 = (some Ordering.eq)) || t1397)
  let t1398 ← IeeeFloat.eq t10 t10
  check (!decide (t1390 = (some Ordering.eq)) || (!(!t1398)))
  let t1399 ← IeeeFloat.lt t10 t10
  check (!decide (t1390 = (some Ordering.eq)) || (!t1399))
  let t1400 ← IeeeFloat.gt t10 t10
  check (!decide (t1390 = (some Ordering.eq)) || (!t1400))
  let t1401 ← IeeeFloat_le t10 t10
  check (!decide (t1390 = (some Ordering.eq)) || t1401)
  let t1402 ← IeeeFloat.ge t10 t10
  check (!decide (t1390 = (some Ordering.eq)) || t1402)
  let t1403 ← IeeeFloat.eq t10 t10
  check (!decide (t1390 = (some Ordering.gt)) || (!t1403))
  let t1404 ← IeeeFloat.eq t10 t10
  check (!decide (t1390 = (some Ordering.gt)) || (!t1404))
  let t1405 ← IeeeFloat.lt t10 t10
  check (!decide (t1390 = (some Ordering.gt)) || (!t1405))
  let t1406 ← IeeeFloat.gt t10 t10
  check (!decide (t1390 = (some Ordering.gt)) || t1406)
  let t1407 ← IeeeFloat_le t10 t10
  check (!decide (t1390 = (some Ordering.gt)) || (!t1407))
  let t1408 ← IeeeFloat.ge t10 t10
  check (!decide (t1390 = (some Ordering.gt)) || t1408)
  let t1409 ← IeeeFloat.eq t10 t10
  check (!decide (t1390 = (none : Option Ordering)) || (!t1409))
  let t1410 ← IeeeFloat.eq t10 t10
  check (!decide (t1390 = (none : Option Ordering)) || (!t1410))
  let t1411 ← IeeeFloat.lt t10 t10
  check (!decide (t1390 = (none : Option Ordering)) || (!t1411))
  let t1412 ← IeeeFloat.gt t10 t10
  check (!decide (t1390 = (none : Option Ordering)) || (!t1412))
  let t1413 ← IeeeFloat_le t10 t10
  check (!decide (t1390 = (none : Option Ordering)) || (!t1413))
  let t1414 ← IeeeFloat.ge t10 t10
  check (!decide (t1390 = (none : Option Ordering)) || (!t1414))
  let t1415 ← ApiFloat.partial_cmp t10 t11
  check (decide (t1415 = (some Ordering.lt)))
  let t1416 ← IeeeFloat.eq t10 t11
  check (!decide (t1415 = (some Ordering.lt)) || (!t1416))
  let t1417 ← IeeeFloat.eq t10 t11
  check (!decide (t1415 = (some Ordering.lt)) || (!t1417))

example : passes t_comparisons_47 = true := by decide +kernel

/-- tests/ieee.rs:3213 `comparisons`. -/
def t_comparisons_48 : M Unit := do
  let t10 ← (ApiFloat.ZERO : M Single)
  let t11 ← (parse ("0x1p+0".toList) : M Single)
  let t12 ← (ApiFloat.largest : M Single)
  let t1415 ← ApiFloat.partial_cmp t10 t11
  let t1418 ← IeeeFloat.lt t10 t11
  check (!decide (t1415 = (some Ordering.lt)) || t1418)
  let t1419 ← IeeeFloat.gt t10 t11
  check (!decide (t1415 = (some Ordering.lt)) || (!t1419))
  let t1420 ← IeeeFloat_le t10 t11
  check (!decide (t1415 = (some Ordering.lt)) || t1420)
  let t1421 ← IeeeFloat.ge t10 t11
  check (!decide (t1415 = (some Ordering.lt)) || (!t1421))
  let t1422 ← IeeeFloat.eq t10 t11
  check (!decide (t1415 = (some Ordering.eq)) || t1422)
  let t1423 ← IeeeFloat.eq t10 t11
  check (!decide (t1415 = (some Ordering.eq)) || (!(!t1423)))
  let t1424 ← IeeeFloat.lt t10 t11
  check (!decide (t1415 = (some Ordering.eq)) || (!t1424))
  let t1425 ← IeeeFloat.gt t10 t11
  check (!decide (t1415 = (some Ordering.eq)) || (!t1425))
  let t1426 ← IeeeFloat_le t10 t11
  check (!decide (t1415 = (some Ordering.eq)) || t1426)
  let t1427 ← IeeeFloat.ge t10 t11
  check (!decide (t1415 = (some Ordering.eq)) || t1427)
  let t1428 ← IeeeFloat.eq t10 t11
  check (!decide (t1415 = (some Ordering.gt)) || (!t1428))
  let t1429 ← IeeeFloat.eq t10 t11
  check (!decide (t1415 = (some Ordering.gt)) || (!t1429))
  let t1430 ← IeeeFloat.lt t10 t11
  check (!decide (t1415 = (some Ordering.gt)) || (!t1430))
  let t1431 ← IeeeFloat.gt t10 t11
  check (!decide (t1415 = (some Ordering.gt)) || t1431)
  let t1432 ← IeeeFloat_le t10 t11
  check (!decide (t1415 = (some Ordering.gt)) || (!t1432))
  let t1433 ← IeeeFloat.ge t10 t11
  check (!decide (t1415 = (some Ordering.gt)) || t1433)
  let t1434 ← IeeeFloat.eq t10 t11
  check (!decide (t1415 = (none : Option Ordering)) || (!t1434))
  let t1435 ← IeeeFloat.eq t10 t11
  check (!decide (t1415 = (none : Option Ordering)) || (!t1435))
  let t1436 ← IeeeFloat.lt t10 t11
  check (!decide (t1415 = (none : Option Ordering)) || (!t1436))
  let t1437 ← IeeeFloat.gt t10 t11
  check (!decide (t1415 = (none : Option Ordering)) || (!t1437))
  let t1438 ← IeeeFloat_le t10 t11
  check (!decide (t1415 = (none : Option Ordering)) || (!t1438))
  let t1439 ← IeeeFloat.ge t10 t11
  check (!decide (t1415 = (none : Option Ordering)) || (!t1439))
  let t1440 ← ApiFloat.partial_cmp t10 t12
  check (decide (t1440 = (some Ordering.lt)))
  let t1441 ← IeeeFloat.eq t10 t12
  check (!decide (t1440 = (some Ordering.lt)) || (!t1441))
  let t1442 ← IeeeFloat.eq t10 t12
  check (!decide (t1440 = (some Ordering.lt)) || (!t1442))
  let t1443 ← IeeeFloat.lt t10 t12
  check (!decide (t1440 = (some Ordering.lt)) || t1443)
  let t1444 ← IeeeFloat.gt t10 t12
  check (!decide (t1440 = (some Ordering.lt)) || (!t1444))
  let t1445 ← IeeeFloat_le t10 t12
  check (!decide (t1440 = (some Ordering.lt)) || t1445)
  let t1446 ← IeeeFloat.ge t10 t12
  check (!decide (t1440 = (some Ordering.lt)) || (!t1446))
  let t1447 ← IeeeFloat.eq t10 t12
  check (!decide (t1440 = (some Ordering.eq)) || t1447)

example : passes t_comparisons_48 = true := by decide +kernel

/-- tests/ieee.rs:3213 `comparisons`. -/
def t_comparisons_49 : M Unit := do
  let t10 ← (ApiFloat.ZERO : M Single)
  let t12 ← (ApiFloat.largest : M Single)
  let t13 ← (ApiFloat.INFINITY : M Single)
  let t1440 ← ApiFloat.partial_cmp t10 t12
  let t1448 ← IeeeFloat.eq t10 t12
  check (!decide (t1440 = (some Ordering.eq)) || (!(!t1448)))
  let t1449 ← IeeeFloat.lt t10 t12
  check (!decide (t1440 = (some Ordering.eq)) || (!t1449))
  let t1450 ← IeeeFloat.gt t10 t12
  check (!decide (t1440 = (some Ordering.eq)) || (!t1450))
  let t1451 ← IeeeFloat_le t10 t12
  check (!decide (t1440 = (some Ordering.eq)) || t1451)
  let t1452 ← IeeeFloat.ge t10 t12
  check (!decide (t1440 = (some Ordering.eq)) || t1452)
  let t1453 ← IeeeFloat.eq t10 t12
  check (!decide (t1440 = (some Ordering.gt)) || (!t1453))
  let t1454 ← IeeeFloat.eq t10 t12
  check (!decide (t1440 = (some Ordering.gt)) || (!t1454))
  let t1455 ← IeeeFloat.lt t10 t12
  check (!decide (t1440 = (some Ordering.gt)) || (!t1455))
  let t1456 ← IeeeFloat.gt t10 t12
  check (!decide (t1440 = (some Ordering.gt)) || t1456)
  let t1457 ← IeeeFloat_le t10 t12
  check (!decide (t1440 = (some Ordering.gt)) || (!t1457))
  let t1458 ← IeeeFloat.ge t10 t12
  check (!decide (t1440 = (some Ordering.gt)) || t1458)
  let t1459 ← IeeeFloat.eq t10 t12
  check (!decide (t1440 = (none : Option Ordering)) || (!t1459))
  let t1460 ← IeeeFloat.eq t10 t12
  check (!decide (t1440 = (none : Option Ordering)) || (!t1460))
  let t1461 ← IeeeFloat.lt t10 t12
  check (!decide (t1440 = (none : Option Ordering)) || (!t1461))
  let t1462 ← IeeeFloat.gt t10 t12
  check (!decide (t1440 = (none : Option Ordering)) || (!t1462))
  let t1463 ← IeeeFloat_le t10 t12
  check (!decide (t1440 = (none : Option Ordering)) || (!t1463))
  let t1464 ← IeeeFloat.ge t10 t12
  check (!decide (t1440 = (none : Option Ordering)) || (!t1464))
  let t1465 ← ApiFloat.partial_cmp t10 t13
  check (decide (t1465 = (some Ordering.lt)))
  let t1466 ← IeeeFloat.eq t10 t13
  check (!decide (t1465 = (some Ordering.lt)) || (!t1466))
  let t1467 ← IeeeFloat.eq t10 t13
  check (!decide (t1465 = (some Ordering.lt)) || (!t1467))
  let t1468 ← IeeeFloat.lt t10 t13
  check (!decide (t1465 = (some Ordering.lt)) || t1468)
  let t1469 ← IeeeFloat.gt t10 t13
  check (!decide (t1465 = (some Ordering.lt)) || (!t1469))
  let t1470 ← IeeeFloat_le t10 t13
  check (!decide (t1465 = (some Ordering.lt)) || t1470)
  let t1471 ← IeeeFloat.ge t10 t13
  check (!decide (t1465 = (some Ordering.lt)) || (!t1471))
  let t1472 ← IeeeFloat.eq t10 t13
  check (!decide (t1465 = (some Ordering.eq)) || t1472)
  let t1473 ← IeeeFloat.eq t10 t13
  check (!decide (t1465 = (some Ordering.eq)) || (!(!t1473)))
  let t1474 ← IeeeFloat.lt t10 t13
  check (!decide (t1465 = (some Ordering.eq)) || (!t1474))
  let t1475 ← IeeeFloat.gt t10 t13
  check (!decide (t1465 = (some Ordering.eq)) || (!t1475))
  let t1476 ← IeeeFloat_le t10 t13
  check (!decide (t1465 = (some Ordering.eq)) || t1476)
  let t1477 ← IeeeFloat.ge t10 t13
  check (!decide (t1465 = (some Ordering.eq)) || t1477)

example : passes t_comparisons_49 = true := by decide +kernel

/-- tests/ieee.rs:3213 `comparisons`. -/
def t_comparisons_50 : M Unit := do
  let t10 ← (ApiFloat.ZERO : M Single)
  let t13 ← (ApiFloat.INFINITY : M Single)
  let t14 ← (ApiFloat.NAN : M Single)
  let t1465 ← ApiFloat.partial_cmp t10 t13
  let t1478 ← IeeeFloat.eq t10 t13
  check (!decide (t1465 = (some Ordering.gt)) || (!t1478))
  let t1479 ← IeeeFloat.eq t10 t13
  check (!decide (t1465 = (some Ordering.gt)) || (!t1479))
  let t1480 ← IeeeFloat.lt t10 t13
  check (!decide (t1465 = (some Ordering.gt)) || (!t1480))
  let t1481 ← IeeeFloat.gt t10 t13
  check (!decide (t1465 = (some Ordering.gt)) || t1481)
  let t1482 ← IeeeFloat_le t10 t13
  check (!decide (t1465 = (some Ordering.gt)) || (!t1482))
  let t1483 ← IeeeFloat.ge t10 t13
  check (!decide (t1465 = (some Ordering.gt)) || t1483)
  let t1484 ← IeeeFloat.eq t10 t13
  check (!decide (t1465 = (none : Option Ordering)) || (!t1484))
  let t1485 ← IeeeFloat.eq t10 t13
  check (!decide (t1465 = (none : Option Ordering)) || (!t1485))
  let t1486 ← IeeeFloat.lt t10 t13
  check (!decide (t1465 = (none : Option Ordering)) || (!t1486))
  let t1487 ← IeeeFloat.gt t10 t13
  check (!decide (t1465 = (none : Option Ordering)) || (!t1487))
  let t1488 ← IeeeFloat_le t10 t13
  check (!decide (t1465 = (none : Option Ordering)) || (!t1488))
  let t1489 ← IeeeFloat.ge t10 t13
  check (!decide (t1465 = (none : Option Ordering)) || (!t1489))
  let t1490 ← ApiFloat.partial_cmp t10 t14
  check (decide (t1490 = (none : Option Ordering)))
  let t1491 ← IeeeFloat.eq t10 t14
  check (!decide (t1490 = (some Ordering.lt)) || (!t1491))
  let t1492 ← IeeeFloat.eq t10 t14
  check (!decide (t1490 = (some Ordering.lt)) || (!t1492))
  let t1493 ← IeeeFloat.lt t10 t14
  check (!decide (t1490 = (some Ordering.lt)) || t1493)
  let t1494 ← IeeeFloat.gt t10 t14
  check (!decide (t1490 = (some Ordering.lt)) || (!t1494))
  let t1495 ← IeeeFloat_le t10 t14
  check (!decide (t1490 = (some Ordering.lt)) || t1495)
  let t1496 ← IeeeFloat.ge t10 t14
  check (!decide (t1490 = (some Ordering.lt)) || (!t1496))
  let t1497 ← IeeeFloat.eq t10 t14
  check (!decide (t1490 = (some Ordering.eq)) || t1497)
  let t1498 ← IeeeFloat.eq t10 t14
  check (!decide (t1490 = (some Ordering.eq)) || (!(!t1498)))
  let t1499 ← IeeeFloat.lt t10 t14
  check (!decide (t1490 = (some Ordering.eq)) || (!t1499))
  let t1500 ← IeeeFloat.gt t10 t14
  check (!decide (t1490 = (some Ordering.eq)) || (!t1500))
  let t1501 ← IeeeFloat_le t10 t14
  check (!decide (t1490 = (some Ordering.eq)) || t1501)
  let t1502 ← IeeeFloat.ge t10 t14
  check (!decide (t1490 = (some Ordering.eq)) || t1502)
  let t1503 ← IeeeFloat.eq t10 t14
  check (!decide (t1490 = (some Ordering.gt)) || (!t1503))
  let t1504 ← IeeeFloat.eq t10 t14
  check (!decide (t1490 = (some Ordering.gt)) || (!t1504))
  let t1505 ← IeeeFloat.lt t10 t14
  check (!decide (t1490 = (some Ordering.gt)) || (!t1505))
  let t1506 ← IeeeFloat.gt t10 t14
  check (!decide (t1490 = (some Ordering.gt)) || t1506)
  let t1507 ← IeeeFloat_le t10 t14
  check (!decide (t1490 = (some Ordering.gt)) || (!t1507))

example : passes t_comparisons_50 = true := by decide +kernel

/-- tests/ieee.rs:3213 `comparisons`. -/
def t_comparisons_51 : M Unit := do
  let t1 ← (ApiFloat.NAN : M Single)
  let t2 ← ApiFloat.neg t1
  let t10 ← (ApiFloat.ZERO : M Single)
  let t11 ← (parse ("0x1p+0".toList) : M Single)
  let t14 ← (ApiFloat.NAN : M Single)
  let t1490 ← ApiFloat.partial_cmp t10 t14
  let t1508 ← IeeeFloat.ge t10 t14
  check (!decide (t1490 = (some Ordering.gt)) || t1508)
  let t1509 ← IeeeFloat.eq t10 t14
  check (!decide (t1490 = (none : Option Ordering)) || (!t1509))
  let t1510 ← IeeeFloat.eq t10 t14
  check (!decide (t1490 = (none : Option Ordering)) || (!t1510))
  let t1511 ← IeeeFloat.lt t10 t14
  check (!decide (t1490 = (none : Option Ordering)) || (!t1511))
  let t1512 ← IeeeFloat.gt t10 t14
  check (!decide (t1490 = (none : Option Ordering)) || (!t1512))
  let t1513 ← IeeeFloat_le t10 t14
  check (!decide (t1490 = (none : Option Ordering)) || (!t1513))
  let t1514 ← IeeeFloat.ge t10 t14
  check (!decide (t1490 = (none : Option Ordering)) || (!t1514))
  let t1515 ← ApiFloat.partial_cmp t11 t2
  check (decide (t1515 = (none : Option Ordering)))
  let t1516 ← IeeeFloat.eq t11 t2
  check (!decide (t1515 = (some Ordering.lt)) || (!t1516))
  let t1517 ← IeeeFloat.eq t11 t2
  check (!decide (t1515 = (some Ordering.lt)) || (!t1517))
  let t1518 ← IeeeFloat.lt t11 t2
  check (!decide (t1515 = (some Ordering.lt)) || t1518)
  let t1519 ← IeeeFloat.gt t11 t2
  check (!decide (t1515 = (some Ordering.lt)) || (!t1519))
  let t1520 ← IeeeFloat_le t11 t2
  check (!decide (t1515 = (some Ordering.lt)) || t1520)
  let t1521 ← IeeeFloat.ge t11 t2
  check (!decide (t1515 = (some Ordering.lt)) || (!t1521))
  let t1522 ← IeeeFloat.eq t11 t2
  check (!decide (t1515 = (some Ordering.eq)) || t1522)
  let t1523 ← IeeeFloat.eq t11 t2
  check (!decide (t1515 = (some Ordering.eq)) || (!(!t1523)))
  let t1524 ← IeeeFloat.lt t11 t2
  check (!decide (t1515 = (some Ordering.eq)) || (!t1524))
  let t1525 ← IeeeFloat.gt t11 t2
  check (!decide (t1515 = (some Ordering.eq)) || (!t1525))
  let t1526 ← IeeeFloat_le t11 t2
  check (!decide (t1515 = (some Ordering.eq)) || t1526)
  let t1527 ← IeeeFloat.ge t11 t2
  check (!decide (t1515 = (some Ordering.eq)) || t1527)
  let t1528 ← IeeeFloat.eq t11 t2
  check (!decide (t1515 = (some Ordering.gt)) || (!t1528))
  let t1529 ← IeeeFloat.eq t11 t2
  check (!decide (t1515 = (some Ordering.gt)) || (!t1529))
  let t1530 ← IeeeFloat.lt t11 t2
  check (!decide (t1515 = (some Ordering.gt)) || (!t1530))
  let t1531 ← IeeeFloat.gt t11 t2
  check (!decide (t1515 = (some Ordering.gt)) || t1531)
  let t1532 ← IeeeFloat_le t11 t2
  check (!decide (t1515 = (some Ordering.gt)) || (!t1532))
  let t1533 ← IeeeFloat.ge t11 t2
  check (!decide (t1515 = (some Ordering.gt)) || t1533)
  let t1534 ← IeeeFloat.eq t11 t2
  check (!decide (t1515 = (none : Option Ordering)) || (!t1534))
  let t1535 ← IeeeFloat.eq t11 t2
  check (!decide (t1515 = (none : Option Ordering)) || (!t1535))
  let t1536 ← IeeeFloat.lt t11 t2
  check (!decide (t1515 = (none : Option Ordering)) || (!t1536))
  let t1537 ← IeeeFloat.gt t11 t2
  check (!decide (t1515 = (none : Option Ordering)) || (!t1537))

example : passes t_comparisons_51 = true := by decide +kernel

/-- tests/ieee.rs:3213 `comparisons`. -/
def t_comparisons_52 : M Unit := do
  let t1 ← (ApiFloat.NAN : M Single)
  let t2 ← ApiFloat.neg t1
  let t3 ← (ApiFloat.INFINITY : M Single)
  let t4 ← ApiFloat.neg t3
  let t5 ← (ApiFloat.largest : M Single)
  let t6 ← ApiFloat.neg t5
  let t11 ← (parse ("0x1p+0".toList) : M Single)
  let t1515 ← ApiFloat.partial_cmp t11 t2
  let t1538 ← IeeeFloat_le t11 t2
  check (!decide (t1515 = (none : Option Ordering)) || (!t1538))
  let t1539 ← IeeeFloat.ge t11 t2
  check (!decide (t1515 = (none : Option Ordering)) || (!t1539))
  let t1540 ← ApiFloat.partial_cmp t11 t4
  check (decide (t1540 = (some Ordering.gt)))
  let t1541 ← IeeeFloat.eq t11 t4
  check (!decide (t1540 = (some Ordering.lt)) || (!t1541))
  let t1542 ← IeeeFloat.eq t11 t4
  check (!decide (t1540 = (some Ordering.lt)) || (!t1542))
  let t1543 ← IeeeFloat.lt t11 t4
  check (!decide (t1540 = (some Ordering.lt)) || t1543)
  let t1544 ← IeeeFloat.gt t11 t4
  check (!decide (t1540 = (some Ordering.lt)) || (!t1544))
  let t1545 ← IeeeFloat_le t11 t4
  check (!decide (t1540 = (some Ordering.lt)) || t1545)
  let t1546 ← IeeeFloat.ge t11 t4
  check (!decide (t1540 = (some Ordering.lt)) || (!t1546))
  let t1547 ← IeeeFloat.eq t11 t4
  check (!decide (t1540 = (some Ordering.eq)) || t1547)
  let t1548 ← IeeeFloat.eq t11 t4
  check (!decide (t1540 = (some Ordering.eq)) || (!(!t1548)))
  let t1549 ← IeeeFloat.lt t11 t4
  check (!decide (t1540 = (some Ordering.eq)) || (!t1549))
  let t1550 ← IeeeFloat.gt t11 t4
  check (!decide (t1540 = (some Ordering.eq)) || (!t1550))
  let t1551 ← IeeeFloat_le t11 t4
  check (!decide (t1540 = (some Ordering.eq)) || t1551)
  let t1552 ← IeeeFloat.ge t11 t4
  check (!decide (t1540 = (some Ordering.eq)) || t1552)
  let t1553 ← IeeeFloat.eq t11 t4
  check (!decide (t1540 = (some Ordering.gt)) || (!t1553))
  let t1554 ← IeeeFloat.eq t11 t4
  check (!decide (t1540 = (some Ordering.gt)) || (!t1554))
  let t1555 ← IeeeFloat.lt t11 t4
  check (!decide (t1540 = (some Ordering.gt)) || (!t1555))
  let t1556 ← IeeeFloat.gt t11 t4
  check (!decide (t1540 = (some Ordering.gt)) || t1556)
  let t1557 ← IeeeFloat_le t11 t4
  check (!decide (t1540 = (some Ordering.gt)) || (!t1557))
  let t1558 ← IeeeFloat.ge t11 t4
  check (!decide (t1540 = (some Ordering.gt)) || t1558)
  let t1559 ← IeeeFloat.eq t11 t4
  check (!decide (t1540 = (none : Option Ordering)) || (!t1559))
  let t1560 ← IeeeFloat.eq t11 t4
  check (!decide (t1540 = (none : Option Ordering)) || (!t1560))
  let t1561 ← IeeeFloat.lt t11 t4
  check (!decide (t1540 = (none : Option Ordering)) || (!t1561))
  let t1562 ← IeeeFloat.gt t11 t4
  check (!decide (t1540 = (none : Option Ordering)) || (!t1562))
  let t1563 ← IeeeFloat_le t11 t4
  check (!decide (t1540 = (none : Option Ordering)) || (!t1563))
  let t1564 ← IeeeFloat.ge t11 t4
  check (!decide (t1540 = (none : Option Ordering)) || (!t1564))
  let t1565 ← ApiFloat.partial_cmp t11 t6
  check (decide (t1565 = (some Ordering.gt)))
  let t1566 ← IeeeFloat.eq t11 t6
  check (!decide (t1565 = (some Ordering.lt)) || (!t1566))
  let t1567 ← IeeeFloat.eq t11 t6
  check (!decide (t1565 = (some Ordering.lt)) || (!t1567))

example : passes t_comparisons_52 = true := by decide +kernel

/-- tests/ieee.rs:3213 `comparisons`. -/
def t_comparisons_53 : M Unit := do
  let t5 ← (ApiFloat.largest : M Single)
  let t6 ← ApiFloat.neg t5
  let t7 ← (parse ("-0x1p+0".toList) : M Single)
  let t11 ← (parse ("0x1p+0".toList) : M Single)
  let t1565 ← ApiFloat.partial_cmp t11 t6
  let t1568 ← IeeeFloat.lt t11 t6
  check (!decide (t1565 = (some Ordering.lt)) || t1568)
  let t1569 ← IeeeFloat.gt t11 t6
  check (!decide (t1565 = (some Ordering.lt)) || (!t1569))
  let t1570 ← IeeeFloat_le t11 t6
  check (!decide (t1565 = (some Ordering.lt)) || t1570)
  let t1571 ← IeeeFloat.ge t11 t6
  check (!decide (t1565 = (some Ordering.lt)) || (!t1571))
  let t1572 ← IeeeFloat.eq t11 t6
  check (!decide (t1565 = (some Ordering.eq)) || t1572)
  let t1573 ← IeeeFloat.eq t11 t6
  check (!decide (t1565 = (some Ordering.eq)) || (!(!t1573)))
  let t1574 ← IeeeFloat.lt t11 t6
  check (!decide (t1565 = (some Ordering.eq)) || (!t1574))
  let t1575 ← IeeeFloat.gt t11 t6
  check (!decide (t1565 = (some Ordering.eq)) || (!t1575))
  let t1576 ← IeeeFloat_le t11 t6
  check (!decide (t1565 = (some Ordering.eq)) || t1576)
  let t1577 ← IeeeFloat.ge t11 t6
  check (!decide (t1565 = (some Ordering.eq)) || t1577)
  let t1578 ← IeeeFloat.eq t11 t6
  check (!decide (t1565 = (some Ordering.gt)) || (!t1578))
  let t1579 ← IeeeFloat.eq t11 t6
  check (!decide (t1565 = (some Ordering.gt)) || (!t1579))
  let t1580 ← IeeeFloat.lt t11 t6
  check (!decide (t1565 = (some Ordering.gt)) || (!t1580))
  let t1581 ← IeeeFloat.gt t11 t6
  check (!decide (t1565 = (some Ordering.gt)) || t1581)
  let t1582 ← IeeeFloat_le t11 t6
  check (!decide (t1565 = (some Ordering.gt)) || (!t1582))
  let t1583 ← IeeeFloat.ge t11 t6
  check (!decide (t1565 = (some Ordering.gt)) || t1583)
  let t1584 ← IeeeFloat.eq t11 t6
  check (!decide (t1565 = (none : Option Ordering)) || (!t1584))
  let t1585 ← IeeeFloat.eq t11 t6
  check (!decide (t1565 = (none : Option Ordering)) || (!t1585))
  let t1586 ← IeeeFloat.lt t11 t6
  check (!decide (t1565 = (none : Option Ordering)) || (!t1586))
  let t1587 ← IeeeFloat.gt t11 t6
  check (!decide (t1565 = (none : Option Ordering)) || (!t1587))
  let t1588 ← IeeeFloat_le t11 t6
  check (!decide (t1565 = (none : Option Ordering)) || (!t1588))
  let t1589 ← IeeeFloat.ge t11 t6
  check (!decide (t1565 = (none : Option Ordering)) || (!t1589))
  let t1590 ← ApiFloat.partial_cmp t11 t7
  check (decide (t1590 = (some Ordering.gt)))
  let t1591 ← IeeeFloat.eq t11 t7
  check (!decide (t1590 = (some Ordering.lt)) || (!t1591))
  let t1592 ← IeeeFloat.eq t11 t7
  check (!decide (t1590 = (some Ordering.lt)) || (!t1592))
  let t1593 ← IeeeFloat.lt t11 t7
  check (!decide (t1590 = (some Ordering.lt)) || t1593)
  let t1594 ← IeeeFloat.gt t11 t7
  check (!decide (t1590 = (some Ordering.lt)) || (!t1594))
  let t1595 ← IeeeFloat_le t11 t7
  check (!decide (t1590 = (some Ordering.lt)) || t1595)
  let t1596 ← IeeeFloat.ge t11 t7
  check (!decide (t1590 = (some Ordering.lt)) || (!t1596))
  let t1597 ← IeeeFloat.eq t11 t7
  check (!decide (t1590 = (some Ordering.eq)) || t1597)

example : passes t_comparisons_53 = true := by decide +kernel

/-- tests/ieee.rs:3213 `comparisons`. -/
def t_comparisons_54 : M Unit := do
  let t7 ← (parse ("-0x1p+0".toList) : M Single)
  let t8 ← (ApiFloat.ZERO : M Single)
  let t9 ← ApiFloat.neg t8
  let t11 ← (parse ("0x1p+0".toList) : M Single)
  let t1590 ← ApiFloat.partial_cmp t11 t7
  let t1598 ← IeeeFloat.eq t11 t7
  check (!decide (t1590 = (some Ordering.eq)) || (!(!t1598)))
  let t1599 ← IeeeFloat.lt t11 t7
  check (!decide (t1590 = (some Ordering.eq)) || (!t1599))
  let t1600 ← IeeeFloat.gt t11 t7
  check (!decide (t1590 = (some Ordering.eq)) || (!t1600))
  let t1601 ← IeeeFloat_le t11 t7
  check (!decide (t1590 = (some Ordering.eq)) || t1601)
  let t1602 ← IeeeFloat.ge t11 t7
  check (!decide (t1590 = (some Ordering.eq)) || t1602)
  let t1603 ← IeeeFloat.eq t11 t7
  check (!decide (t1590 = (some Ordering.gt)) || (!t1603))
  let t1604 ← IeeeFloat.eq t11 t7
  check (!decide (t1590 = (some Ordering.gt)) || (!t1604))
  let t1605 ← IeeeFloat.lt t11 t7
  check (!decide (t1590 = (some Ordering.gt)) || (!t1605))
  let t1606 ← IeeeFloat.gt t11 t7
  check (!decide (t1590 = (some Ordering.gt)) || t1606)
  let t1607 ← IeeeFloat_le t11 t7
  check (!decide (t1590 = (some Ordering.gt)) || (!t1607))
  let t1608 ← IeeeFloat.ge t11 t7
  check (!decide (t1590 = (some Ordering.gt)) || t1608)
  let t1609 ← IeeeFloat.eq t11 t7
  check (!decide (t1590 = (none : Option Ordering)) || (!t1609))
  let t1610 ← IeeeFloat.eq t11 t7
  check (!decide (t1590 = (none : Option Ordering)) || (!t1610))
  let t1611 ← IeeeFloat.lt t11 t7
  check (!decide (t1590 = (none : Option Ordering)) || (!t1611))
  let t1612 ← IeeeFloat.gt t11 t7
  check (!decide (t1590 = (none : Option Ordering)) || (!t1612))
  let t1613 ← IeeeFloat_le t11 t7
  check (!decide (t1590 = (none : Option Ordering)) || (!t1613))
  let t1614 ← IeeeFloat.ge t11 t7
  check (!decide (t1590 = (none : Option Ordering)) || (!t1614))
  let t1615 ← ApiFloat.partial_cmp t11 t9
  check (decide (t1615 = (some Ordering.gt)))
  let t1616 ← IeeeFloat.eq t11 t9
  check (!decide (t1615 = (some Ordering.lt)) || (!t1616))
  let t1617 ← IeeeFloat.eq t11 t9
  check (!decide (t1615 = (some Ordering.lt)) || (!t1617))
  let t1618 ← IeeeFloat.lt t11 t9
  check (!decide (t1615 = (some Ordering.lt)) || t1618)
  let t1619 ← IeeeFloat.gt t11 t9
  check (!decide (t1615 = (some Ordering.lt)) || (!t1619))
  let t1620 ← IeeeFloat_le t11 t9
  check (!decide (t1615 = (some Ordering.lt)) || t1620)
  let t1621 ← IeeeFloat.ge t11 t9
  check (!decide (t1615 = (some Ordering.lt)) || (!t1621))
  let t1622 ← IeeeFloat.eq t11 t9
  check (!decide (t1615 = (some Ordering.eq)) || t1622)
  let t1623 ← IeeeFloat.eq t11 t9
  check (!decide (t1615 = (some Ordering.eq)) || (!(!t1623)))
  let t1624 ← IeeeFloat.lt t11 t9
  check (!decide (t1615 = (some Ordering.eq)) || (!t1624))
  let t1625 ← IeeeFloat.gt t11 t9
  check (!decide (t1615 = (some Ordering.eq)) || (!t1625))
  let t1626 ← IeeeFloat_le t11 t9
  check (!decide (t1615 = (some Ordering.eq)) || t1626)
  let t1627 ← IeeeFloat.ge t11 t9
  check (!decide (t1615 = (some Ordering.eq)) || t1627)

example : passes t_comparisons_54 = true := by decide +kernel

/-- tests/ieee.rs:3213 `comparisons`. -/
def t_comparisons_55 : M Unit := do
  let t8 ← (ApiFloat.ZERO : M Single)
  let t9 ← ApiFloat.neg t8
  let t10 ← (ApiFloat.ZERO : M Single)
  let t11 ← (parse ("0x1p+0".toList) : M Single)
  let t1615 ← ApiFloat.partial_cmp t11 t9
  let t1628 ← IeeeFloat.eq t11 t9
  check (!decide (t1615 = (some Ordering.gt)) || (!t1628))
  let t1629 ← IeeeFloat.eq t11 t9
  check (!decide (t1615 = (some Ordering.gt)) || (!t1629))
  let t1630 ← IeeeFloat.lt t11 t9
  check (!decide (t1615 = (some Ordering.gt)) || (!t1630))
  let t1631 ← IeeeFloat.gt t11 t9
  check (!decide (t1615 = (some Ordering.gt)) || t1631)
  let t1632 ← IeeeFloat_le t11 t9
  check (!decide (t1615 = (some Ordering.gt)) || (!t1632))
  let t1633 ← IeeeFloat.ge t11 t9
  check (!decide (t1615 = (some Ordering.gt)) || t1633)
  let t1634 ← IeeeFloat.eq t11 t9
  check (!decide (t1615 = (none : Option Ordering)) || (!t1634))
  let t1635 ← IeeeFloat.eq t11 t9
  check (!decide (t1615 = (none : Option Ordering)) || (!t1635))
  let t1636 ← IeeeFloat.lt t11 t9
  check (!decide (t1615 = (none : Option Ordering)) || (!t1636))
  let t1637 ← IeeeFloat.gt t11 t9
  check (!decide (t1615 = (none : Option Ordering)) || (!t1637))
  let t1638 ← IeeeFloat_le t11 t9
  check (!decide (t1615 = (none : Option Ordering)) || (!t1638))
  let t1639 ← IeeeFloat.ge t11 t9
  check (!decide (t1615 = (none : Option Ordering)) || (!t1639))
  let t1640 ← ApiFloat.partial_cmp t11 t10
  check (decide (t1640 = (some Ordering.gt)))
  let t1641 ← IeeeFloat.eq t11 t10
  check (!decide (t1640 = (some Ordering.lt)) || (!t1641))
  let t1642 ← IeeeFloat.eq t11 t10
  check (!decide (t1640 = (some Ordering.lt)) || (!t1642))
  let t1643 ← IeeeFloat.lt t11 t10
  check (!decide (t1640 = (some Ordering.lt)) || t1643)
  let t1644 ← IeeeFloat.gt t11 t10
  check (!decide (t1640 = (some Ordering.lt)) || (!t1644))
  let t1645 ← IeeeFloat_le t11 t10
  check (!decide (t1640 = (some Ordering.lt)) || t1645)
  let t1646 ← IeeeFloat.ge t11 t10
  check (!decide (t1640 = (some Ordering.lt)) || (!t1646))
  let t1647 ← IeeeFloat.eq t11 t10
  check (!decide (t1640 = (some Ordering.eq)) || t1647)
  let t1648 ← IeeeFloat.eq t11 t10
  check (!decide (t1640 = (some Ordering.eq)) || (!(!t1648)))
  let t1649 ← IeeeFloat.lt t11 t10
  check (!decide (t1640 = (some Ordering.eq)) || (!t1649))
  let t1650 ← IeeeFloat.gt t11 t10
  check (!decide (t1640 = (some Ordering.eq)) || (!t1650))
  let t1651 ← IeeeFloat_le t11 t10
  check (!decide (t1640 = (some Ordering.eq)) || t1651)
  let t1652 ← IeeeFloat.ge t11 t10
  check (!decide (t1640 = (some Ordering.eq)) || t1652)
  let t1653 ← IeeeFloat.eq t11 t10
  check (!decide (t1640 = (some Ordering.gt)) || (!t1653))
  let t1654 ← IeeeFloat.eq t11 t10
  check (!decide (t1640 = (some Ordering.gt)) || (!t1654))
  let t1655 ← IeeeFloat.lt t11 t10
  check (!decide (t1640 = (some Ordering.gt)) || (!t1655))
  let t1656 ← IeeeFloat.gt t11 t10
  check (!decide (t1640 = (some Ordering.gt)) || t1656)
  let t1657 ← IeeeFloat_le t11 t10
  check (!decide (t1640 = (some Ordering.gt)) || (!t1657))

example : passes t_comparisons_55 = true := by decide +kernel

/-- tests/ieee.rs:3213 `comparisons`. -/
def t_comparisons_56 : M Unit := do
  let t10 ← (ApiFloat.ZERO : M Single)
  let t11 ← (parse ("0x1p+0".toList) : M Single)
  let t1640 ← ApiFloat.partial_cmp t11 t10
  let t1658 ← IeeeFloat.ge t11 t10
  check (!decide (t1640 = (some Ordering.gt)) || t1658)
  let t1659 ← IeeeFloat.eq t11 t10
  check (!decide (t1640 = (none : Option Ordering)) || (!t1659))
  let t1660 ← IeeeFloat.eq t11 t10
  check (!decide (t1640 = (none : Option Ordering)) || (!t1660))
  let t1661 ← IeeeFloat.lt t11 t10
  check (!decide (t1640 = (none : Option Ordering)) || (!t1661))
  let t1662 ← IeeeFloat.gt t11 t10
  check (!decide (t1640 = (none : Option Ordering)) || (!t1662))
  let t1663 ← IeeeFloat_le t11 t10
  check (!decide (t1640 = (none : Option Ordering)) || (!t1663))
  let t1664 ← IeeeFloat.ge t11 t10
  check (!decide (t1640 = (none : Option Ordering)) || (!t1664))
  let t1665 ← ApiFloat.partial_cmp t11 t11
  check (decide (t1665 = (some Ordering.eq)))
  let t1666 ← IeeeFloat.eq t11 t11
  check (!decide (t1665 = (some Ordering.lt)) || (!t1666))
  let t1667 ← IeeeFloat.eq t11 t11
  check (!decide (t1665 = (some Ordering.lt)) || (!t1667))
  let t1668 ← IeeeFloat.lt t11 t11
  check (!decide (t1665 = (some Ordering.lt)) || t1668)
  let t1669 ← IeeeFloat.gt t11 t11
  check (!decide (t1665 = (some Ordering.lt)) || (!t1669))
  let t1670 ← IeeeFloat_le t11 t11
  check (!decide (t1665 = (some Ordering.lt)) || t1670)
  let t1671 ← IeeeFloat.ge t11 t11
  check (!decide (t1665 = (some Ordering.lt)) || (!t1671))
  let t1672 ← IeeeFloat.eq t11 t11
  check (!decide (t1665 = (some Ordering.eq)) || t1672)
  let t1673 ← IeeeFloat.eq t11 t11
  check (!decide (t1665 = (some Ordering.eq)) || (!(!t1673)))
  let t1674 ← IeeeFloat.lt t11 t11
  check (!decide (t1665 = (some Ordering.eq)) || (!t1674))
  let t1675 ← IeeeFloat.gt t11 t11
  check (!decide (t1665 = (some Ordering.eq)) || (!t1675))
  let t1676 ← IeeeFloat_le t11 t11
  check (!decide (t1665 = (some Ordering.eq)) || t1676)
  let t1677 ← IeeeFloat.ge t11 t11
  check (!decide (t1665 = (some Ordering.eq)) || t1677)
  let t1678 ← IeeeFloat.eq t11 t11
  check (!decide (t1665 = (some Ordering.gt)) || (!t1678))
  let t1679 ← IeeeFloat.eq t11 t11
  check (!decide (t1665 = (some Ordering.gt)) || (!t1679))
  let t1680 ← IeeeFloat.lt t11 t11
  check (!decide (t1665 = (some Ordering.gt)) || (!t1680))
  let t1681 ← IeeeFloat.gt t11 t11
  check (!decide (t1665 = (some Ordering.gt)) || t1681)
  let t1682 ← IeeeFloat_le t11 t11
  check (!decide (t1665 = (some Ordering.gt)) || (!t1682))
  let t1683 ← IeeeFloat.ge t11 t11
  check (!decide (t1665 = (some Ordering.gt)) || t1683)
  let t1684 ← IeeeFloat.eq t11 t11
  check (!decide (t1665 = (none : Option Ordering)) || (!t1684))
  let t1685 ← IeeeFloat.eq t11 t11
  check (!decide (t1665 = (none : Option Ordering)) || (!t1685))
  let t1686 ← IeeeFloat.lt t11 t11
  check (!decide (t1665 = (none : Option Ordering)) || (!t1686))
  let t1687 ← IeeeFloat.gt t11 t11
  check (!decide (t1665 = (none : Option Ordering)) || (!t1687))

example : passes t_comparisons_56 = true := by decide +kernel

/-- tests/ieee.rs:3213 `comparisons`. -/
def t_comparisons_57 : M Unit := do
  let t11 ← (parse ("0x1p+0".toList) : M Single)
  let t12 ← (ApiFloat.largest : M Single)
  let t13 ← (ApiFloat.INFINITY : M Single)
  let t1665 ← ApiFloat.partial_cmp t11 t11
  let t1688 ← IeeeFloat_le t11 t11
  check (!decide (t1665 = (none : Option Ordering)) || (!t1688))
  let t1689 ← IeeeFloat.ge t11 t11
  check (!decide (t1665 = (none : Option Ordering)) || (!t1689))
  let t1690 ← ApiFloat.partial_cmp t11 t12
  check (decide (t1690 = (some Ordering.lt)))
  let t1691 ← IeeeFloat.eq t11 t12
  check (!decide (t1690 = (some Ordering.lt)) || (!t1691))
  let t1692 ← IeeeFloat.eq t11 t12
  check (!decide (t1690 = (some Ordering.lt)) || (!t1692))
  let t1693 ← IeeeFloat.lt t11 t12
  check (!decide (t1690 = (some Ordering.lt)) || t1693)
  let t1694 ← IeeeFloat.gt t11 t12
  check (!decide (t1690 = (some Ordering.lt)) || (!t1694))
  let t1695 ← IeeeFloat_le t11 t12
  check (!decide (t1690 = (some Ordering.lt)) || t1695)
  let t1696 ← IeeeFloat.ge t11 t12
  check (!decide (t1690 = (some Ordering.lt)) || (!t1696))
  let t1697 ← IeeeFloat.eq t11 t12
  check (!decide (t1690 = (some Ordering.eq)) || t1697)
  let t1698 ← IeeeFloat.eq t11 t12
  check (!decide (t1690 = (some Ordering.eq)) || (!(!t1698)))
  let t1699 ← IeeeFloat.lt t11 t12
  check (!decide (t1690 = (some Ordering.eq)) || (!t1699))
  let t1700 ← IeeeFloat.gt t11 t12
  check (!decide (t1690 = (some Ordering.eq)) || (!t1700))
  let t1701 ← IeeeFloat_le t11 t12
  check (!decide (t1690 = (some Ordering.eq)) || t1701)
  let t1702 ← IeeeFloat.ge t11 t12
  check (!decide (t1690 = (some Ordering.eq)) || t1702)
  let t1703 ← IeeeFloat.eq t11 t12
  check (!decide (t1690 = (some Ordering.gt)) || (!t1703))
  let t1704 ← IeeeFloat.eq t11 t12
  check (!decide (t1690 = (some Ordering.gt)) || (!t1704))
  let t1705 ← IeeeFloat.lt t11 t12
  check (!decide (t1690 = (some Ordering.gt)) || (!t1705))
  let t1706 ← IeeeFloat.gt t11 t12
  check (!decide (t1690 = (some Ordering.gt)) || t1706)
  let t1707 ← IeeeFloat_le t11 t12
  check (!decide (t1690 = (some Ordering.gt)) || (!t1707))
  let t1708 ← IeeeFloat.ge t11 t12
  check (!decide (t1690 = (some Ordering.gt)) || t1708)
  let t1709 ← IeeeFloat.eq t11 t12
  check (!decide (t1690 = (none : Option Ordering)) || (!t1709))
  let t1710 ← IeeeFloat.eq t11 t12
  check (!decide (t1690 = (none : Option Ordering)) || (!t1710))
  let t1711 ← IeeeFloat.lt t11 t12
  check (!decide (t1690 = (none : Option Ordering)) || (!t1711))
  let t1712 ← IeeeFloat.gt t11 t12
  check (!decide (t1690 = (none : Option Ordering)) || (!t1712))
  let t1713 ← IeeeFloat_le t11 t12
  check (!decide (t1690 = (none : Option Ordering)) || (!t1713))
  let t1714 ← IeeeFloat.ge t11 t12
  check (!decide (t1690 = (none : Option Ordering)) || (!t1714))
  let t1715 ← ApiFloat.partial_cmp t11 t13
  check (decide (t1715 = (some Ordering.lt)))
  let t1716 ← IeeeFloat.eq t11 t13
  check (!decide (t1715 = (some Ordering.lt)) || (!t1716))
  let t1717 ← IeeeFloat.eq t11 t13
  check (!decide (t1715 = (some Ordering.lt)) || (!t1717))

example : passes t_comparisons_57 = true := by decide +kernel

/-- tests/ieee.rs:3213 `comparisons`. -/
def t_comparisons_58 : M Unit := do
  let t11 ← (parse ("0x1p+0".toList) : M Single)
  let t13 ← (ApiFloat.INFINITY : M Single)
  let t14 ← (ApiFloat.NAN : M Single)
  let t1715 ← ApiFloat.partial_cmp t11 t13
  let t1718 ← IeeeFloat.lt t11 t13
  check (!decide (t1715 = (some Ordering.lt)) || t1718)
  let t1719 ← IeeeFloat.gt t11 t13
  check (!decide (t1715 = (some Ordering.lt)) || (!t1719))
  let t1720 ← IeeeFloat_le t11 t13
  check (!decide (t1715 = (some Ordering.lt)) || t1720)
  let t1721 ← IeeeFloat.ge t11 t13
  check (!decide (t1715 = (some Ordering.lt)) || (!t1721))
  let t1722 ← IeeeFloat.eq t11 t13
  check (!decide (t1715 = (some Ordering.eq)) || t1722)
  let t1723 ← IeeeFloat.eq t11 t13
  check (!decide (t1715 = (some Ordering.eq)) || (!(!t1723)))
  let t1724 ← IeeeFloat.lt t11 t13
  check (!decide (t1715 = (some Ordering.eq)) || (!t1724))
  let t1725 ← IeeeFloat.gt t11 t13
  check (!decide (t1715 = (some Ordering.eq)) || (!t1725))
  let t1726 ← IeeeFloat_le t11 t13
  check (!decide (t1715 = (some Ordering.eq)) || t1726)
  let t1727 ← IeeeFloat.ge t11 t13
  check (!decide (t1715 = (some Ordering.eq)) || t1727)
  let t1728 ← IeeeFloat.eq t11 t13
  check (!decide (t1715 = (some Ordering.gt)) || (!t1728))
  let t1729 ← IeeeFloat.eq t11 t13
  check (!decide (t1715 = (some Ordering.gt)) || (!t1729))
  let t1730 ← IeeeFloat.lt t11 t13
  check (!decide (t1715 = (some Ordering.gt)) || (!t1730))
  let t1731 ← IeeeFloat.gt t11 t13
  check (!decide (t1715 = (some Ordering.gt)) || t1731)
  let t1732 ← IeeeFloat_le t11 t13
  check (!decide (t1715 = (some Ordering.gt)) || (!t1732))
  let t1733 ← IeeeFloat.ge t11 t13
  check (!decide (t1715 = (some Ordering.gt)) || t1733)
  let t1734 ← IeeeFloat.eq t11 t13
  check (!decide (t1715 = (none : Option Ordering)) || (!t1734))
  let t1735 ← IeeeFloat.eq t11 t13
  check (!decide (t1715 = (none : Option Ordering)) || (!t1735))
  let t1736 ← IeeeFloat.lt t11 t13
  check (!decide (t1715 = (none : Option Ordering)) || (!t1736))
  let t1737 ← IeeeFloat.gt t11 t13
  check (!decide (t1715 = (none : Option Ordering)) || (!t1737))
  let t1738 ← IeeeFloat_le t11 t13
  check (!decide (t1715 = (none : Option Ordering)) || (!t1738))
  let t1739 ← IeeeFloat.ge t11 t13
  check (!decide (t1715 = (none : Option Ordering)) || (!t1739))
  let t1740 ← ApiFloat.partial_cmp t11 t14
  check (decide (t1740 = (none : Option Ordering)))
  let t1741 ← IeeeFloat.eq t11 t14
  check (!decide (t1740 = (some Ordering.lt)) || (!t1741))
  let t1742 ← IeeeFloat.eq t11 t14
  check (!decide (t1740 = (some Ordering.lt)) || (!t1742))
  let t1743 ← IeeeFloat.lt t11 t14
  check (!decide (t1740 = (some Ordering.lt)) || t1743)
  let t1744 ← IeeeFloat.gt t11 t14
  check (!decide (t1740 = (some Ordering.lt)) || (!t1744))
  let t1745 ← IeeeFloat_le t11 t14
  check (!decide (t1740 = (some Ordering.lt)) || t1745)
  let t1746 ← IeeeFloat.ge t11 t14
  check (!decide (t1740 = (some Ordering.lt)) || (!t1746))
  let t1747 ← IeeeFloat.eq t11 t14
  check (!decide (t1740 = (some Ordering.eq)) || t1747)

example : passes t_comparisons_58 = true := by decide +kernel

/-- tests/ieee.rs:3213 `comparisons`. -/
def t_comparisons_59 : M Unit := do
  let t1 ← (ApiFloat.NAN : M Single)
  let t2 ← ApiFloat.neg t1
  let t11 ← (parse ("0x1p+0".toList) : M Single)
  let t12 ← (ApiFloat.largest : M Single)
  let t14 ← (ApiFloat.NAN : M Single)
  let t1740 ← ApiFloat.partial_cmp t11 t14
  let t1748 ← IeeeFloat.eq t11 t14
  check (!decide (t1740 = (some Ordering.eq)) || (!(!t1748)))
  let t1749 ← IeeeFloat.lt t11 t14
  check (!decide (t1740 = (some Ordering.eq)) || (!t1749))
  let t1750 ← IeeeFloat.gt t11 t14
  check (!decide (t1740 = (some Ordering.eq)) || (!t1750))
  let t1751 ← IeeeFloat_le t11 t14
  check (!decide (t1740 = (some Ordering.eq)) || t1751)
  let t1752 ← IeeeFloat.ge t11 t14
  check (!decide (t1740 = (some Ordering.eq)) || t1752)
  let t1753 ← IeeeFloat.eq t11 t14
  check (!decide (t1740 = (some Ordering.gt)) || (!t1753))
  let t1754 ← IeeeFloat.eq t11 t14
  check (!decide (t1740 = (some Ordering.gt)) || (!t1754))
  let t1755 ← IeeeFloat.lt t11 t14
  check (!decide (t1740 = (some Ordering.gt)) || (!t1755))
  let t1756 ← IeeeFloat.gt t11 t14
  check (!decide (t1740 = (some Ordering.gt)) || t1756)
  let t1757 ← IeeeFloat_le t11 t14
  check (!decide (t1740 = (some Ordering.gt)) || (!t1757))
  let t1758 ← IeeeFloat.ge t11 t14
  check (!decide (t1740 = (some Ordering.gt)) || t1758)
  let t1759 ← IeeeFloat.eq t11 t14
  check (!decide (t1740 = (none : Option Ordering)) || (!t1759))
  let t1760 ← IeeeFloat.eq t11 t14
  check (!decide (t1740 = (none : Option Ordering)) || (!t1760))
  let t1761 ← IeeeFloat.lt t11 t14
  check (!decide (t1740 = (none : Option Ordering)) || (!t1761))
  let t1762 ← IeeeFloat.gt t11 t14
  check (!decide (t1740 = (none : Option Ordering)) || (!t1762))
  let t1763 ← IeeeFloat_le t11 t14
  check (!decide (t1740 = (none : Option Ordering)) || (!t1763))
  let t1764 ← IeeeFloat.ge t11 t14
  check (!decide (t1740 = (none : Option Ordering)) || (!t1764))
  let t1765 ← ApiFloat.partial_cmp t12 t2
  check (decide (t1765 = (none : Option Ordering)))
  let t1766 ← IeeeFloat.eq t12 t2
  check (!decide (t1765 = (some Ordering.lt)) || (!t1766))
  let t1767 ← IeeeFloat.eq t12 t2
  check (!decide (t1765 = (some Ordering.lt)) || (!t1767))
  let t1768 ← IeeeFloat.lt t12 t2
  check (!decide (t1765 = (some Ordering.lt)) || t1768)
  let t1769 ← IeeeFloat.gt t12 t2
  check (!decide (t1765 = (some Ordering.lt)) || (!t1769))
  let t1770 ← IeeeFloat_le t12 t2
  check (!decide (t1765 = (some Ordering.lt)) || t1770)
  let t1771 ← IeeeFloat.ge t12 t2
  check (!decide (t1765 = (some Ordering.lt)) || (!t1771))
  let t1772 ← IeeeFloat.eq t12 t2
  check (!decide (t1765 = (some Ordering.eq)) || t1772)
  let t1773 ← IeeeFloat.eq t12 t2
  check (!decide (t1765 = (some Ordering.eq)) || (!(!t1773)))
  let t1774 ← IeeeFloat.lt t12 t2
  check (!decide (t1765 = (some Ordering.eq)) || (!t1774))
  let t1775 ← IeeeFloat.gt t12 t2
  check (!decide (t1765 = (some Ordering.eq)) || (!t1775))
  let t1776 ← IeeeFloat_le t12 t2
  check (!decide (t1765 = (some Ordering.eq)) || t1776)
  let t1777 ← IeeeFloat.ge t12 t2
  check (!decide (t1765 = (some Ordering.eq)) || t1777)

example : passes t_comparisons_59 = true := by decide +kernel

/-- tests/ieee.rs:3213 `comparisons`. -/
def t_comparisons_60 : M Unit := do
  let t1 ← (ApiFloat.NAN : M Single)
  let t2 ← ApiFloat.neg t1
  let t3 ← (ApiFloat.INFINITY : M Single)
  let t4 ← ApiFloat.neg t3
  let t12 ← (ApiFloat.largest : M Single)
  let t1765 ← ApiFloat.partial_cmp t12 t2
  let t1778 ← IeeeFloat.eq t12 t2
  check (!decide (t1765 = (some Ordering.gt)) || (!t1778))
  let t1779 ← IeeeFloat.eq t12 t2
  check (!decide (t1765 = (some Ordering.gt)) || (!t1779))
  let t1780 ← IeeeFloat.lt t12 t2
  check (!decide (t1765 = (some Ordering.gt)) || (!t1780))
  let t1781 ← IeeeFloat.gt t12 t2
  check (!decide (t1765 = (some Ordering.gt)) || t1781)
  let t1782 ← IeeeFloat_le t12 t2
  check (!decide (t1765 = (some Ordering.gt)) || (!t1782))
  let t1783 ← IeeeFloat.ge t12 t2
  check (!decide (t1765 = (some Ordering.gt)) || t1783)
  let t1784 ← IeeeFloat.eq t12 t2
  check (!decide (t1765 = (none : Option Ordering)) || (!t1784))
  let t1785 ← IeeeFloat.eq t12 t2
  check (!decide (t1765 = (none : Option Ordering)) || (!t1785))
  let t1786 ← IeeeFloat.lt t12 t2
  check (!decide (t1765 = (none : Option Ordering)) || (!t1786))
  let t1787 ← IeeeFloat.gt t12 t2
  check (!decide (t1765 = (none : Option Ordering)) || (!t1787))
  let t1788 ← IeeeFloat_le t12 t2
  check (!decide (t1765 = (none : Option Ordering)) || (!t1788))
  let t1789 ← IeeeFloat.ge t12 t2
  check (!decide (t1765 = (none : Option Ordering)) || (!t1789))
  let t1790 ← ApiFloat.partial_cmp t12 t4
  check (decide (t1790 = (some Ordering.gt)))
  let t1791 ← IeeeFloat.eq t12 t4
  check (!decide (t1790 = (some Ordering.lt)) || (!t1791))
  let t1792 ← IeeeFloat.eq t12 t4
  check (!decide (t1790 = (some Ordering.lt)) || (!t1792))
  let t1793 ← IeeeFloat.lt t12 t4
  check (!decide (t1790 = (some Ordering.lt)) || t1793)
  let t1794 ← IeeeFloat.gt t12 t4
  check (!decide (t1790 = (some Ordering.lt)) || (!t1794))
  let t1795 ← IeeeFloat_le t12 t4
  check (!decide (t1790 = (some Ordering.lt)) || t1795)
  let t1796 ← IeeeFloat.ge t12 t4
  check (!decide (t1790 = (some Ordering.lt)) || (!t1796))
  let t1797 ← IeeeFloat.eq t12 t4
  check (!decide (t1790 = (some Ordering.eq)) || t1797)
  let t1798 ← IeeeFloat.eq t12 t4
  check (!decide (t1790 = (some Ordering.eq)) || (!(!t1798)))
  let t1799 ← IeeeFloat.lt t12 t4
  check (!decide (t1790 = (some Ordering.eq)) || (!t1799))
  let t1800 ← IeeeFloat.gt t12 t4
  check (!decide (t1790 = (some Ordering.eq)) || (!t1800))
  let t1801 ← IeeeFloat_le t12 t4
  check (!decide (t1790 = (some Ordering.eq)) || t1801)
  let t1802 ← IeeeFloat.ge t12 t4
  check (!decide (t1790 = (some Ordering.eq)) || t1802)
  let t1803 ← IeeeFloat.eq t12 t4
  check (!decide (t1790 = (some Ordering.gt)) || (!t1803))
  let t1804 ← IeeeFloat.eq t12 t4
  check (!decide (t1790 = (some Ordering.gt)) || (!t1804))
  let t1805 ← IeeeFloat.lt t12 t4
  check (!decide (t1790 = (some Ordering.gt)) || (!t1805))
  let t1806 ← IeeeFloat.gt t12 t4
  check (!decide (t1790 = (some Ordering.gt)) || t1806)
  let t1807 ← IeeeFloat_le t12 t4
  check (!decide (t1790 = (some Ordering.gt)) || (!t1807))

example : passes t_comparisons_60 = true := by decide +kernel

/-- tests/ieee.rs:3213 `comparisons`. -/
def t_comparisons_61 : M Unit := do
  let t3 ← (ApiFloat.INFINITY : M Single)
  let t4 ← ApiFloat.neg t3
  let t5 ← (ApiFloat.largest : M Single)
  let t6 ← ApiFloat.neg t5
  let t12 ← (ApiFloat.largest : M Single)
  let t1790 ← ApiFloat.partial_cmp t12 t4
  let t1808 ← IeeeFloat.ge t12 t4
  check (!decide (t1790 = (some Ordering.gt)) || t1808)
  let t1809 ← IeeeFloat.eq t12 t4
  check (!decide (t1790 = (none : Option Ordering)) || (!t1809))
  let t1810 ← IeeeFloat.eq t12 t4
  check (!decide (t1790 = (none : Option Ordering)) || (!t1810))
  let t1811 ← IeeeFloat.lt t12 t4
  check (!decide (t1790 = (none : Option Ordering)) || (!t1811))
  let t1812 ← IeeeFloat.gt t12 t4
  check (!decide (t1790 = (none : Option Ordering)) || (!t1812))
  let t1813 ← IeeeFloat_le t12 t4
  check (!decide (t1790 = (none : Option Ordering)) || (!t1813))
  let t1814 ← IeeeFloat.ge t12 t4
  check (!decide (t1790 = (none : Option Ordering)) || (!t1814))
  let t1815 ← ApiFloat.partial_cmp t12 t6
  check (decide (t1815 = (some Ordering.gt)))
  let t1816 ← IeeeFloat.eq t12 t6
  check (!decide (t1815 = (some Ordering.lt)) || (!t1816))
  let t1817 ← IeeeFloat.eq t12 t6
  check (!decide (t1815 = (some Ordering.lt)) || (!t1817))
  let t1818 ← IeeeFloat.lt t12 t6
  check (!decide (t1815 = (some Ordering.lt)) || t1818)
  let t1819 ← IeeeFloat.gt t12 t6
  check (!decide (t1815 = (some Ordering.lt)) || (!t1819))
  let t1820 ← IeeeFloat_le t12 t6
  check (!decide (t1815 = (some Ordering.lt)) || t1820)
  let t1821 ← IeeeFloat.ge t12 t6
  check (!decide (t1815 = (some Ordering.lt)) || (!t1821))
  let t1822 ← IeeeFloat.eq t12 t6
  check (!decide (t1815 = (some Ordering.eq)) || t1822)
  let t1823 ← IeeeFloat.eq t12 t6
  check (!decide (t1815 = (some Ordering.eq)) || (!(!t1823)))
  let t1824 ← IeeeFloat.lt t12 t6
  check (!decide (t1815 = (some Ordering.eq)) || (!t1824))
  let t1825 ← IeeeFloat.gt t12 t6
  check (!decide (t1815 = (some Ordering.eq)) || (!t1825))
  let t1826 ← IeeeFloat_le t12 t6
  check (!decide (t1815 = (some Ordering.eq)) || t1826)
  let t1827 ← IeeeFloat.ge t12 t6
  check (!decide (t1815 = (some Ordering.eq)) || t1827)
  let t1828 ← IeeeFloat.eq t12 t6
  check (!decide (t1815 = (some Ordering.gt)) || (!t1828))
  let t1829 ← IeeeFloat.eq t12 t6
  check (!decide (t1815 = (some Ordering.gt)) || (!t1829))
  let t1830 ← IeeeFloat.lt t12 t6
  check (!decide (t1815 = (some Ordering.gt)) || (!t1830))
  let t1831 ← IeeeFloat.gt t12 t6
  check (!decide (t1815 = (some Ordering.gt)) || t1831)
  let t1832 ← IeeeFloat_le t12 t6
  check (!decide (t1815 = (some Ordering.gt)) || (!t1832))
  let t1833 ← IeeeFloat.ge t12 t6
  check (!decide (t1815 = (some Ordering.gt)) || t1833)
  let t1834 ← IeeeFloat.eq t12 t6
  check (!decide (t1815 = (none : Option Ordering)) || (!t1834))
  let t1835 ← IeeeFloat.eq t12 t6
  check (!decide (t1815 = (none : Option Ordering)) || (!t1835))
  let t1836 ← IeeeFloat.lt t12 t6
  check (!decide (t1815 = (none : Option Ordering)) || (!t1836))
  let t1837 ← IeeeFloat.gt t12 t6
  check (!decide (t1815 = (none : Option Ordering)) || (!t1837))

example : passes t_comparisons_61 = true := by decide +kernel

/-- tests/ieee.rs:3213 `comparisons`. -/
def t_comparisons_62 : M Unit := do
  let t5 ← (ApiFloat.largest : M Single)
  let t6 ← ApiFloat.neg t5
  let t7 ← (parse ("-0x1p+0".toList) : M Single)
  let t8 ← (ApiFloat.ZERO : M Single)
  let t9 ← ApiFloat.neg t8
  let t12 ← (ApiFloat.largest : M Single)
  let t1815 ← ApiFloat.partial_cmp t12 t6
  let t1838 ← IeeeFloat_le t12 t6
  check (!decide (t1815 = (none : Option Ordering)) || (!t1838))
  let t1839 ← IeeeFloat.ge t12 t6
  check (!decide (t1815 = (none : Option Ordering)) || (!t1839))
  let t1840 ← ApiFloat.partial_cmp t12 t7
  check (decide (t1840 = (some Ordering.gt)))
  let t1841 ← IeeeFloat.eq t12 t7
  check (!decide (t1840 = (some Ordering.lt)) || (!t1841))
  let t1842 ← IeeeFloat.eq t12 t7
  check (!decide (t1840 = (some Ordering.lt)) || (!t1842))
  let t1843 ← IeeeFloat.lt t12 t7
  check (!decide (t1840 = (some Ordering.lt)) || t1843)
  let t1844 ← IeeeFloat.gt t12 t7
  check (!decide (t1840 = (some Ordering.lt)) || (!t1844))
  let t1845 ← IeeeFloat_le t12 t7
  check (!decide (t1840 = (some Ordering.lt)) || t1845)
  let t1846 ← IeeeFloat.ge t12 t7
  check (!decide (t1840 = (some Ordering.lt)) || (!t1846))
  let t1847 ← IeeeFloat.eq t12 t7
  check (!decide (t1840 = (some Ordering.eq)) || t1847)
  let t1848 ← IeeeFloat.eq t12 t7
  check (!decide (t1840 = (some Ordering.eq)) || (!(!t1848)))
  let t1849 ← IeeeFloat.lt t12 t7
  check (!decide (t1840 = (some Ordering.eq)) || (!t1849))
  let t1850 ← IeeeFloat.gt t12 t7
  check (!decide (t1840 = (some Ordering.eq)) || (!t1850))
  let t1851 ← IeeeFloat_le t12 t7
  check (!decide (t1840 = (some Ordering.eq)) || t1851)
  let t1852 ← IeeeFloat.ge t12 t7
  check (!decide (t1840 = (some Ordering.eq)) || t1852)
  let t1853 ← IeeeFloat.eq t12 t7
  check (!decide (t1840 = (some Ordering.gt)) || (!t1853))
  let t1854 ← IeeeFloat.eq t12 t7
  check (!decide (t1840 = (some Ordering.gt)) || (!t1854))
  let t1855 ← IeeeFloat.lt t12 t7
  check (!decide (t1840 = (some Ordering.gt)) || (!t1855))
  let t1856 ← IeeeFloat.gt t12 t7
  check (!decide (t1840 = (some Ordering.gt)) || t1856)
  let t1857 ← IeeeFloat_le t12 t7
  check (!decide (t1840 = (some Ordering.gt)) || (!t1857))
  let t1858 ← IeeeFloat.ge t12 t7
  check (!decide (t1840 = (some Ordering.gt)) || t1858)
  let t1859 ← IeeeFloat.eq t12 t7
  check (!decide (t1840 = (none : Option Ordering)) || (!t1859))
  let t1860 ← IeeeFloat.eq t12 t7
  check (!decide (t1840 = (none : Option Ordering)) || (!t1860))
  let t1861 ← IeeeFloat.lt t12 t7
  check (!decide (t1840 = (none : Option Ordering)) || (!t1861))
  let t1862 ← IeeeFloat.gt t12 t7
  check (!decide (t1840 = (none : Option Ordering)) || (!t1862))
  let t1863 ← IeeeFloat_le t12 t7
  check (!decide (t1840 = (none : Option Ordering)) || (!t1863))
  let t1864 ← IeeeFloat.ge t12 t7
  check (!decide (t1840 = (none : Option Ordering)) || (!t1864))
  let t1865 ← ApiFloat.partial_cmp t12 t9
  check (decide (t1865 = (some Ordering.gt)))
  let t1866 ← IeeeFloat.eq t12 t9
  check (!decide (t1865 = (some Ordering.lt)) || (!t1866))
  let t1867 ← IeeeFloat.eq t12 t9
  check (!decide (t1865 = (some Ordering.lt)) || (!t1867))

example : passes t_comparisons_62 = true := by decide +kernel

/-- tests/ieee.rs:3213 `comparisons`. -/
def t_comparisons_63 : M Unit := do
  let t8 ← (ApiFloat.ZERO : M Single)
  let t9 ← ApiFloat.neg t8
  let t10 ← (ApiFloat.ZERO : M Single)
  let t12 ← (ApiFloat.largest : M Single)
  let t1865 ← ApiFloat.partial_cmp t12 t9
  let t1868 ← IeeeFloat.lt t12 t9
  check (!decide (t1865 = (some Ordering.lt)) || t1868)
  let t1869 ← IeeeFloat.gt t12 t9
  check (!decide (t1865 = (some Ordering.lt)) || (!t1869))
  let t1870 ← IeeeFloat_le t12 t9
  check (!decide (t1865 = (some Ordering.lt)) || t1870)
  let t1871 ← IeeeFloat.ge t12 t9
  check (!decide (t1865 = (some Ordering.lt)) || (!t1871))
  let t1872 ← IeeeFloat.eq t12 t9
  check (!decide (t1865 = (some Ordering.eq)) || t1872)
  let t1873 ← IeeeFloat.eq t12 t9
  check (!decide (t1865 = (some Ordering.eq)) || (!(!t1873)))
  let t1874 ← IeeeFloat.lt t12 t9
  check (!decide (t1865 = (some Ordering.eq)) || (!t1874))
  let t1875 ← IeeeFloat.gt t12 t9
  check (!decide (t1865 = (some Ordering.eq)) || (!t1875))
  let t1876 ← IeeeFloat_le t12 t9
  check (!decide (t1865 = (some Ordering.eq)) || t1876)
  let t1877 ← IeeeFloat.ge t12 t9
  check (!decide (t1865 = (some Ordering.eq)) || t1877)
  let t1878 ← IeeeFloat.eq t12 t9
  check (!decide (t1865 = (some Ordering.gt)) || (!t1878))
  let t1879 ← IeeeFloat.eq t12 t9
  check (!decide (t1865 = (some Ordering.gt)) || (!t1879))
  let t1880 ← IeeeFloat.lt t12 t9
  check (!decide (t1865 = (some Ordering.gt)) || (!t1880))
  let t1881 ← IeeeFloat.gt t12 t9
  check (!decide (t1865 = (some Ordering.gt)) || t1881)
  let t1882 ← IeeeFloat_le t12 t9
  check (!decide (t1865 = (some Ordering.gt)) || (!t1882))
  let t1883 ← IeeeFloat.ge t12 t9
  check (!decide (t1865 = (some Ordering.gt)) || t1883)
  let t1884 ← IeeeFloat.eq t12 t9
  check (!decide (t1865 = (none : Option Ordering)) || (!t1884))
  let t1885 ← IeeeFloat.eq t12 t9
  check (!decide (t1865 = (none : Option Ordering)) || (!t1885))
  let t1886 ← IeeeFloat.lt t12 t9
  check (!decide (t1865 = (none : Option Ordering)) || (!t1886))
  let t1887 ← IeeeFloat.gt t12 t9
  check (!decide (t1865 = (none : Option Ordering)) || (!t1887))
  let t1888 ← IeeeFloat_le t12 t9
  check (!decide (t1865 = (none : Option Ordering)) || (!t1888))
  let t1889 ← IeeeFloat.ge t12 t9
  check (!decide (t1865 = (none : Option Ordering)) || (!t1889))
  let t1890 ← ApiFloat.partial_cmp t12 t10
  check (decide (t1890 = (some Ordering.gt)))
  let t1891 ← IeeeFloat.eq t12 t10
  check (!decide (t1890 = (some Ordering.lt)) || (!t1891))
  let t1892 ← IeeeFloat.eq t12 t10
  check (!decide (t1890 = (some Ordering.lt)) || (!t1892))
  let t1893 ← IeeeFloat.lt t12 t10
  check (!decide (t1890 = (some Ordering.lt)) || t1893)
  let t1894 ← IeeeFloat.gt t12 t10
  check (!decide (t1890 = (some Ordering.lt)) || (!t1894))
  let t1895 ← IeeeFloat_le t12 t10
  check (!decide (t1890 = (some Ordering.lt)) || t1895)
  let t1896 ← IeeeFloat.ge t12 t10
  check (!decide (t1890 = (some Ordering.lt)) || (!t1896))
  let t1897 ← IeeeFloat.eq t12 t10
  check (!decide (t1890 = (some Ordering.eq)) || t1897)

example : passes t_comparisons_63 = true := by decide +kernel

/-- tests/ieee.rs:3213 `comparisons`. -/
def t_comparisons_64 : M Unit := do
  let t10 ← (ApiFloat.ZERO : M Single)
  let t11 ← (parse ("0x1p+0".toList) : M Single)
  let t12 ← (ApiFloat.largest : M Single)
  let t1890 ← ApiFloat.partial_cmp t12 t10
  let t1898 ← IeeeFloat.eq t12 t10
  check (!decide (t1890 = (some Ordering.eq)) || (!(!t1898)))
  let t1899 ← IeeeFloat.lt t12 t10
  check (!decide (t1890 = (some Ordering.eq)) || (!t1899))
  let t1900 ← IeeeFloat.gt t12 t10
  check (!decide (t1890 = (some Ordering.eq)) || (!t1900))
  let t1901 ← IeeeFloat_le t12 t10
  check (!decide (t1890 = (some Ordering.eq)) || t1901)
  let t1902 ← IeeeFloat.ge t12 t10
  check (!decide (t1890 = (some Ordering.eq)) || t1902)
  let t1903 ← IeeeFloat.eq t12 t10
  check (!decide (t1890 = (some Ordering.gt)) || (!t1903))
  let t1904 ← IeeeFloat.eq t12 t10
  check (!decide (t1890 = (some Ordering.gt)) || (!t1904))
  let t1905 ← IeeeFloat.lt t12 t10
  check (!decide (t1890 = (some Ordering.gt)) || (!t1905))
  let t1906 ← IeeeFloat.gt t12 t10
  check (!decide (t1890 = (some Ordering.gt)) || t1906)
  let t1907 ← IeeeFloat_le t12 t10
  check (!decide (t1890 = (some Ordering.gt)) || (!t1907))
  let t1908 ← IeeeFloat.ge t12 t10
  check (!decide (t1890 = (some Ordering.gt)) || t1908)
  let t1909 ← IeeeFloat.eq t12 t10
  check (!decide (t1890 = (none : Option Ordering)) || (!t1909))
  let t1910 ← IeeeFloat.eq t12 t10
  check (!decide (t1890 = (none : Option Ordering)) || (!t1910))
  let t1911 ← IeeeFloat.lt t12 t10
  check (!decide (t1890 = (none : Option Ordering)) || (!t1911))
  let t1912 ← IeeeFloat.gt t12 t10
  check (!decide (t1890 = (none : Option Ordering)) || (!t1912))
  let t1913 ← IeeeFloat_le t12 t10
  check (!decide (t1890 = (none : Option Ordering)) || (!t1913))
  let t1914 ← IeeeFloat.ge t12 t10
  check (!decide (t1890 = (none : Option Ordering)) || (!t1914))
  let t1915 ← ApiFloat.partial_cmp t12 t11
  check (decide (t1915 = (some Ordering.gt)))
  let t1916 ← IeeeFloat.eq t12 t11
  check (!decide (t1915 = (some Ordering.lt)) || (!t1916))
  let t1917 ← IeeeFloat.eq t12 t11
  check (!decide (t1915 = (some Ordering.lt)) || (!t1917))
  let t1918 ← IeeeFloat.lt t12 t11
  check (!decide (t1915 = (some Ordering.lt)) || t1918)
  let t1919 ← IeeeFloat.gt t12 t11
  check (!decide (t1915 = (some Ordering.lt)) || (!t1919))
  let t1920 ← IeeeFloat_le t12 t11
  check (!decide (t1915 = (some Ordering.lt)) || t1920)
  let t1921 ← IeeeFloat.ge t12 t11
  check (!decide (t1915 = (some Ordering.lt)) || (!t1921))
  let t1922 ← IeeeFloat.eq t12 t11
  check (!decide (t1915 = (some Ordering.eq)) || t1922)
  let t1923 ← IeeeFloat.eq t12 t11
  check (!decide (t1915 = (some Ordering.eq)) || (!(!t1923)))
  let t1924 ← IeeeFloat.lt t12 t11
  check (!decide (t1915 = (some Ordering.eq)) || (!t1924))
  let t1925 ← IeeeFloat.gt t12 t11
  check (!decide (t1915 = (some Ordering.eq)) || (!t1925))
  let t1926 ← IeeeFloat_le t12 t11
  check (!decide (t1915 = (some Ordering.eq)) || t1926)
  let t1927 ← IeeeFloat.ge t12 t11
  check (!decide (t1915 = (some Ordering.eq)) || t1927)

example : passes t_comparisons_64 = true := by decide +kernel

/-- tests/ieee.rs:3213 `comparisons`. -/
def t_comparisons_65 : M Unit := do
  let t11 ← (parse ("0x1p+0".toList) : M Single)
  let t12 ← (ApiFloat.largest : M Single)
  let t1915 ← ApiFloat.partial_cmp t12 t11
  let t1928 ← IeeeFloat.eq t12 t11
  check (!decide (t1915 = (some Ordering.gt)) || (!t1928))
  let t1929 ← IeeeFloat.eq t12 t11
  check (!decide (t1915 = (some Ordering.gt)) || (!t1929))
  let t1930 ← IeeeFloat.lt t12 t11
  check (!decide (t1915 = (some Ordering.gt)) || (!t1930))
  let t1931 ← IeeeFloat.gt t12 t11
  check (!decide (t1915 = (some Ordering.gt)) || t1931)
  let t1932 ← IeeeFloat_le t12 t11
  check (!decide (t1915 = (some Ordering.gt)) || (!t1932))
  let t1933 ← IeeeFloat.ge t12 t11
  check (!decide (t1915 = (some Ordering.gt)) || t1933)
  let t1934 ← IeeeFloat.eq t12 t11
  check (!decide (t1915 = (none : Option Ordering)) || (!t1934))
  let t1935 ← IeeeFloat.eq t12 t11
  check (!decide (t1915 = (none : Option Ordering)) || (!t1935))
  let t1936 ← IeeeFloat.lt t12 t11
  check (!decide (t1915 = (none : Option Ordering)) || (!t1936))
  let t1937 ← IeeeFloat.gt t12 t11
  check (!decide (t1915 = (none : Option Ordering)) || (!t1937))
  let t1938 ← IeeeFloat_le t12 t11
  check (!decide (t1915 = (none : Option Ordering)) || (!t1938))
  let t1939 ← IeeeFloat.ge t12 t11
  check (!decide (t1915 = (none : Option Ordering)) || (!t1939))
  let t1940 ← ApiFloat.partial_cmp t12 t12
  check (decide (t1940 = (some Ordering.eq)))
  let t1941 ← IeeeFloat.eq t12 t12
  check (!decide (t1940 = (some Ordering.lt)) || (!t1941))
  let t1942 ← IeeeFloat.eq t12 t12
  check (!decide (t1940 = (some Ordering.lt)) || (!t1942))
  let t1943 ← IeeeFloat.lt t12 t12
  check (!decide (t1940 = (some Ordering.lt)) || t1943)
  let t1944 ← IeeeFloat.gt t12 t12
  check (!decide (t1940 = (some Ordering.lt)) || (!t1944))
  let t1945 ← IeeeFloat_le t12 t12
  check (!decide (t1940 = (some Ordering.lt)) || t1945)
  let t1946 ← IeeeFloat.ge t12 t12
  check (!decide (t1940 = (some Ordering.lt)) || (!t1946))
  let t1947 ← IeeeFloat.eq t12 t12
  check (!decide (t1940 = (some Ordering.eq)) || t1947)
  let t1948 ← IeeeFloat.eq t12 t12
  check (!decide (t1940 = (some Ordering.eq)) || (!(!t1948)))
  let t1949 ← IeeeFloat.lt t12 t12
  check (!decide (t1940 = (some Ordering.eq)) || (!t1949))
  let t1950 ← IeeeFloat.gt t12 t12
  check (!decide (t1940 = (some Ordering.eq)) || (!t1950))
  let t1951 ← IeeeFloat_le t12 t12
  check (!decide (t1940 = (some Ordering.eq)) || t1951)
  let t1952 ← IeeeFloat.ge t12 t12
  check (!decide (t1940 = (some Ordering.eq)) || t1952)
  let t1953 ← IeeeFloat.eq t12 t12
  check (!decide (t1940 = (some Ordering.gt)) || (!t1953))
  let t1954 ← IeeeFloat.eq t12 t12
  check (!decide (t1940 = (some Ordering.gt)) || (!t1954))
  let t1955 ← IeeeFloat.lt t12 t12
  check (!decide (t1940 = (some Ordering.gt)) || (!t1955))
  let t1956 ← IeeeFloat.gt t12 t12
  check (!decide (t1940 = (some Ordering.gt)) || t1956)
  let t1957 ← IeeeFloat_le t12 t12
  check (!decide (t1940 = (some Ordering.gt)) || (!t1957))

example : passes t_comparisons_65 = true := by decide +kernel

/-- tests/ieee.rs:3213 `comparisons`. -/
def t_comparisons_66 : M Unit := do
  let t12 ← (ApiFloat.largest : M Single)
  let t13 ← (ApiFloat.INFINITY : M Single)
  let t1940 ← ApiFloat.partial_cmp t12 t12
  let t1958 ← IeeeFloat.ge t12 t12
  check (!decide (t1940 = (some Ordering.gt)) || t1958)
  let t1959 ← IeeeFloat.eq t12 t12
  check (!decide (t1940 = (none : Option Ordering)) || (!t1959))
  let t1960 ← IeeeFloat.eq t12 t12
  check (!decide (t1940 = (none : Option Ordering)) || (!t1960))
  let t1961 ← IeeeFloat.lt t12 t12
  check (!decide (t1940 = (none : Option Ordering)) || (!t1961))
  let t1962 ← IeeeFloat.gt t12 t12
  check (!decide (t1940 = (none : Option Ordering)) || (!t1962))
  let t1963 ← IeeeFloat_le t12 t12
  check (!decide (t1940 = (none : Option Ordering)) || (!t1963))
  let t1964 ← IeeeFloat.ge t12 t12
  check (!decide (t1940 = (none : Option Ordering)) || (!t1964))
  let t1965 ← ApiFloat.partial_cmp t12 t13
  check (decide (t1965 = (some Ordering.lt)))
  let t1966 ← IeeeFloat.eq t12 t13
  check (!decide (t1965 = (some Ordering.lt)) || (!t1966))
  let t1967 ← IeeeFloat.eq t12 t13
  check (!decide (t1965 = (some Ordering.lt)) || (!t1967))
  let t1968 ← IeeeFloat.lt t12 t13
  check (!decide (t1965 = (some Ordering.lt)) || t1968)
  let t1969 ← IeeeFloat.gt t12 t13
  check (!decide (t1965 = (some Ordering.lt)) || (!t1969))
  let t1970 ← IeeeFloat_le t12 t13
  check (!decide (t1965 = (some Ordering.lt)) || t1970)
  let t1971 ← IeeeFloat.ge t12 t13
  check (!decide (t1965 = (some Ordering.lt)) || (!t1971))
  let t1972 ← IeeeFloat.eq t12 t13
  check (!decide (t1965 = (some Ordering.eq)) || t1972)
  let t1973 ← IeeeFloat.eq t12 t13
  check (!decide (t1965 = (some Ordering.eq)) || (!(!t1973)))
  let t1974 ← IeeeFloat.lt t12 t13
  check (!decide (t1965 = (some Ordering.eq)) || (!t1974))
  let t1975 ← IeeeFloat.gt t12 t13
  check (!decide (t1965 = (some Ordering.eq)) || (!t1975))
  let t1976 ← IeeeFloat_le t12 t13
  check (!decide (t1965 = (some Ordering.eq)) || t1976)
  let t1977 ← IeeeFloat.ge t12 t13
  check (!decide (t1965 = (some Ordering.eq)) || t1977)
  let t1978 ← IeeeFloat.eq t12 t13
  check (!decide (t1965 = (some Ordering.gt)) || (!t1978))
  let t1979 ← IeeeFloat.eq t12 t13
  check (!decide (t1965 = (some Ordering.gt)) || (!t1979))
  let t1980 ← IeeeFloat.lt t12 t13
  check (!decide (t1965 = (some Ordering.gt)) || (!t1980))
  let t1981 ← IeeeFloat.gt t12 t13
  check (!decide (t1965 = (some Ordering.gt)) || t1981)
  let t1982 ← IeeeFloat_le t12 t13
  check (!decide (t1965 = (some Ordering.gt)) || (!t1982))
  let t1983 ← IeeeFloat.ge t12 t13
  check (!decide (t1965 = (some Ordering.gt)) || t1983)
  let t1984 ← IeeeFloat.eq t12 t13
  check (!decide (t1965 = (none : Option Ordering)) || (!t1984))
  let t1985 ← IeeeFloat.eq t12 t13
  check (!decide (t1965 = (none : Option Ordering)) || (!t1985))
  let t1986 ← IeeeFloat.lt t12 t13
  check (!decide (t1965 = (none : Option Ordering)) || (!t1986))
  let t1987 ← IeeeFloat.gt t12 t13
  check (!decide (t1965 = (none : Option Ordering)) || (!t1987))

example : passes t_comparisons_66 = true := by decide +kernel

/-- tests/ieee.rs:3213 `comparisons`. -/
def t_comparisons_67 : M Unit := do
  let t1 ← (ApiFloat.NAN : M Single)
  let t2 ← ApiFloat.neg t1
  let t12 ← (ApiFloat.largest : M Single)
  let t13 ← (ApiFloat.INFINITY : M Single)
  let t14 ← (ApiFloat.NAN : M Single)
  let t1965 ← ApiFloat.partial_cmp t12 t13
  let t1988 ← IeeeFloat_le t12 t13
  check (!decide (t1965 = (none : Option Ordering)) || (!t1988))
  let t1989 ← IeeeFloat.ge t12 t13
  check (!decide (t1965 = (none : Option Ordering)) || (!t1989))
  let t1990 ← ApiFloat.partial_cmp t12 t14
  check (decide (t1990 = (none : Option Ordering)))
  let t1991 ← IeeeFloat.eq t12 t14
  check (!decide (t1990 = (some Ordering.lt)) || (!t1991))
  let t1992 ← IeeeFloat.eq t12 t14
  check (!decide (t1990 = (some Ordering.lt)) || (!t1992))
  let t1993 ← IeeeFloat.lt t12 t14
  check (!decide (t1990 = (some Ordering.lt)) || t1993)
  let t1994 ← IeeeFloat.gt t12 t14
  check (!decide (t1990 = (some Ordering.lt)) || (!t1994))
  let t1995 ← IeeeFloat_le t12 t14
  check (!decide (t1990 = (some Ordering.lt)) || t1995)
  let t1996 ← IeeeFloat.ge t12 t14
  check (!decide (t1990 = (some Ordering.lt)) || (!t1996))
  let t1997 ← IeeeFloat.eq t12 t14
  check (!decide (t1990 = (some Ordering.eq)) || t1997)
  let t1998 ← IeeeFloat.eq t12 t14
  check (!decide (t1990 = (some Ordering.eq)) || (!(!t1998)))
  let t1999 ← IeeeFloat.lt t12 t14
  check (!decide (t1990 = (some Ordering.eq)) || (!t1999))
  let t2000 ← IeeeFloat.gt t12 t14
  check (!decide (t1990 = (some Ordering.eq)) || (!t2000))
  let t2001 ← IeeeFloat_le t12 t14
  check (!decide (t1990 = (some Ordering.eq)) || t2001)
  let t2002 ← IeeeFloat.ge t12 t14
  check (!decide (t1990 = (some Ordering.eq)) || t2002)
  let t2003 ← IeeeFloat.eq t12 t14
  check (!decide (t1990 = (some Ordering.gt)) || (!t2003))
  let t2004 ← IeeeFloat.eq t12 t14
  check (!decide (t1990 = (some Ordering.gt)) || (!t2004))
  let t2005 ← IeeeFloat.lt t12 t14
  check (!decide (t1990 = (some Ordering.gt)) || (!t2005))
  let t2006 ← IeeeFloat.gt t12 t14
  check (!decide (t1990 = (some Ordering.gt)) || t2006)
  let t2007 ← IeeeFloat_le t12 t14
  check (!decide (t1990 = (some Ordering.gt)) || (!t2007))
  let t2008 ← IeeeFloat.ge t12 t14
  check (!decide (t1990 = (some Ordering.gt)) || t2008)
  let t2009 ← IeeeFloat.eq t12 t14
  check (!decide (t1990 = (none : Option Ordering)) || (!t2009))
  let t2010 ← IeeeFloat.eq t12 t14
  check (!decide (t1990 = (none : Option Ordering)) || (!t2010))
  let t2011 ← IeeeFloat.lt t12 t14
  check (!decide (t1990 = (none : Option Ordering)) || (!t2011))
  let t2012 ← IeeeFloat.gt t12 t14
  check (!decide (t1990 = (none : Option Ordering)) || (!t2012))
  let t2013 ← IeeeFloat_le t12 t14
  check (!decide (t1990 = (none : Option Ordering)) || (!t2013))
  let t2014 ← IeeeFloat.ge t12 t14
  check (!decide (t1990 = (none : Option Ordering)) || (!t2014))
  let t2015 ← ApiFloat.partial_cmp t13 t2
  check (decide (t2015 = (none : Option Ordering)))
  let t2016 ← IeeeFloat.eq t13 t2
  check (!decide (t2015 = (some Ordering.lt)) || (!t2016))
  let t2017 ← IeeeFloat.eq t13 t2
  check (!decide (t2015 = (some Ordering.lt)) || (!t2017))

example : passes t_comparisons_67 = true := by decide +kernel

/-- tests/ieee.rs:3213 `comparisons`. -/
def t_comparisons_68 : M Unit := do
  let t1 ← (ApiFloat.NAN : M Single)
  let t2 ← ApiFloat.neg t1
  let t3 ← (ApiFloat.INFINITY : M Single)
  let t4 ← ApiFloat.neg t3
  let t13 ← (ApiFloat.INFINITY : M Single)
  let t2015 ← ApiFloat.partial_cmp t13 t2
  let t2018 ← IeeeFloat.lt t13 t2
  check (!decide (t2015 = (some Ordering.lt)) || t2018)
  let t2019 ← IeeeFloat.gt t13 t2
  check (!decide (t2015 = (some Ordering.lt)) || (!t2019))
  let t2020 ← IeeeFloat_le t13 t2
  check (!decide (t2015 = (some Ordering.lt)) || t2020)
  let t2021 ← IeeeFloat.ge t13 t2
  check (!decide (t2015 = (some Ordering.lt)) || (!t2021))
  let t2022 ← IeeeFloat.eq t13 t2
  check (!decide (t2015 = (some Ordering.eq)) || t2022)
  let t2023 ← IeeeFloat.eq t13 t2
  check (!decide (t2015 = (some Ordering.eq)) || (!(!t2023)))
  let t2024 ← IeeeFloat.lt t13 t2
  check (!decide (t2015 = (some Ordering.eq)) || (!t2024))
  let t2025 ← IeeeFloat.gt t13 t2
  check (!decide (t2015 = (some Ordering.eq)) || (!t2025))
  let t2026 ← IeeeFloat_le t13 t2
  check (!decide (t2015 = (some Ordering.eq)) || t2026)
  let t2027 ← IeeeFloat.ge t13 t2
  check (!decide (t2015 = (some Ordering.eq)) || t2027)
  let t2028 ← IeeeFloat.eq t13 t2
  check (!decide (t2015 = (some Ordering.gt)) || (!t2028))
  let t2029 ← IeeeFloat.eq t13 t2
  check (!decide (t2015 = (some Ordering.gt)) || (!t2029))
  let t2030 ← IeeeFloat.lt t13 t2
  check (!decide (t2015 = (some Ordering.gt)) || (!t2030))
  let t2031 ← IeeeFloat.gt t13 t2
  check (!decide (t2015 = (some Ordering.gt)) || t2031)
  let t2032 ← IeeeFloat_le t13 t2
  check (!decide (t2015 = (some Ordering.gt)) || (!t2032))
  let t2033 ← IeeeFloat.ge t13 t2
  check (!decide (t2015 = (some Ordering.gt)) || t2033)
  let t2034 ← IeeeFloat.eq t13 t2
  check (!decide (t2015 = (none : Option Ordering)) || (!t2034))
  let t2035 ← IeeeFloat.eq t13 t2
  check (!decide (t2015 = (none : Option Ordering)) || (!t2035))
  let t2036 ← IeeeFloat.lt t13 t2
  check (!decide (t2015 = (none : Option Ordering)) || (!t2036))
  let t2037 ← IeeeFloat.gt t13 t2
  check (!decide (t2015 = (none : Option Ordering)) || (!t2037))
  let t2038 ← IeeeFloat_le t13 t2
  check (!decide (t2015 = (none : Option Ordering)) || (!t2038))
  let t2039 ← IeeeFloat.ge t13 t2
  check (!decide (t2015 = (none : Option Ordering)) || (!t2039))
  let t2040 ← ApiFloat.partial_cmp t13 t4
  check (decide (t2040 = (some Ordering.gt)))
  let t2041 ← IeeeFloat.eq t13 t4
  check (!decide (t2040 = (some Ordering.lt)) || (!t2041))
  let t2042 ← IeeeFloat.eq t13 t4
  check (!decide (t2040 = (some Ordering.lt)) || (!t2042))
  let t2043 ← IeeeFloat.lt t13 t4
  check (!decide (t2040 = (some Ordering.lt)) || t2043)
  let t2044 ← IeeeFloat.gt t13 t4
  check (!decide (t2040 = (some Ordering.lt)) || (!t2044))
  let t2045 ← IeeeFloat_le t13 t4
  check (!decide (t2040 = (some Ordering.lt)) || t2045)
  let t2046 ← IeeeFloat.ge t13 t4
  check (!decide (t2040 = (some Ordering.lt)) || (!t2046))
  let t2047 ← IeeeFloat.eq t13 t4
  check (!decide (t2040 = (some Ordering.eq)) || t2047)

example : passes t_comparisons_68 = true := by decide +kernel

/-- tests/ieee.rs:3213 `comparisons`. -/
def t_comparisons_69 : M Unit := do
  let t3 ← (ApiFloat.INFINITY : M Single)
  let t4 ← ApiFloat.neg t3
  let t5 ← (ApiFloat.largest : M Single)
  let t6 ← ApiFloat.neg t5
  let t13 ← (ApiFloat.INFINITY : M Single)
  let t2040 ← ApiFloat.partial_cmp t13 t4
  let t2048 ← IeeeFloat.eq t13 t4
  check (!decide (t2040 = (some Ordering.eq)) || (!(!t2048)))
  let t2049 ← IeeeFloat.lt t13 t4
  check (!decide (t2040 = (some Ordering.eq)) || (!t2049))
  let t2050 ← IeeeFloat.gt t13 t4
  check (!decide (t2040 = (some Ordering.eq)) || (!t2050))
  let t2051 ← IeeeFloat_le t13 t4
  check (!decide (t2040 = (some Ordering.eq)) || t2051)
  let t2052 ← IeeeFloat.ge t13 t4
  check (!decide (t2040 = (some Ordering.eq)) || t2052)
  let t2053 ← IeeeFloat.eq t13 t4
  check (!decide (t2040 = (some Ordering.gt)) || (!t2053))
  let t2054 ← IeeeFloat.eq t13 t4
  check (!decide (t2040 = (some Ordering.gt)) || (!t2054))
  let t2055 ← IeeeFloat.lt t13 t4
  check (!decide (t2040 = (some Ordering.gt)) || (!t2055))
  let t2056 ← IeeeFloat.gt t13 t4
  check (!decide (t2040 = (some Ordering.gt)) || t2056)
  let t2057 ← IeeeFloat_le t13 t4
  check (!decide (t2040 = (some Ordering.gt)) || (!t2057))
  let t2058 ← IeeeFloat.ge t13 t4
  check (!decide (t2040 = (some Ordering.gt)) || t2058)
  let t2059 ← IeeeFloat.eq t13 t4
  check (!decide (t2040 = (none : Option Ordering)) || (!t2059))
  let t2060 ← IeeeFloat.eq t13 t4
  check (!decide (t2040 = (none : Option Ordering)) || (!t2060))
  let t2061 ← IeeeFloat.lt t13 t4
  check (!decide (t2040 = (none : Option Ordering)) || (!t2061))
  let t2062 ← IeeeFloat.gt t13 t4
  check (!decide (t2040 = (none : Option Ordering)) || (!t2062))
  let t2063 ← IeeeFloat_le t13 t4
  check (!decide (t2040 = (none : Option Ordering)) || (!t2063))
  let t2064 ← IeeeFloat.ge t13 t4
  check (!decide (t2040 = (none : Option Ordering)) || (!t2064))
  let t2065 ← ApiFloat.partial_cmp t13 t6
  check (decide (t2065 = (some Ordering.gt)))
  let t2066 ← IeeeFloat.eq t13 t6
  check (!decide (t2065 = (some Ordering.lt)) || (!t2066))
  let t2067 ← IeeeFloat.eq t13 t6
  check (!decide (t2065 = (some Ordering.lt)) || (!t2067))
  let t2068 ← IeeeFloat.lt t13 t6
  check (!decide (t2065 = (some Ordering.lt)) || t2068)
  let t2069 ← IeeeFloat.gt t13 t6
  check (!decide (t2065 = (some Ordering.lt)) || (!t2069))
  let t2070 ← IeeeFloat_le t13 t6
  check (!decide (t2065 = (some Ordering.lt)) || t2070)
  let t2071 ← IeeeFloat.ge t13 t6
  check (!decide (t2065 = (some Ordering.lt)) || (!t2071))
  let t2072 ← IeeeFloat.eq t13 t6
  check (!decide (t2065 = (some Ordering.eq)) || t2072)
  let t2073 ← IeeeFloat.eq t13 t6
  check (!decide (t2065 = (some Ordering.eq)) || (!(!t2073)))
  let t2074 ← IeeeFloat.lt t13 t6
  check (!decide (t2065 = (some Ordering.eq)) || (!t2074))
  let t2075 ← IeeeFloat.gt t13 t6
  check (!decide (t2065 = (some Ordering.eq)) || (!t2075))
  let t2076 ← IeeeFloat_le t13 t6
  check (!decide (t2065 = (some Ordering.eq)) || t2076)
  let t2077 ← IeeeFloat.ge t13 t6
  check (!decide (t2065 = (some Ordering.eq)) || t2077)

example : passes t_comparisons_69 = true := by decide +kernel

/-- tests/ieee.rs:3213 `comparisons`. -/
def t_comparisons_70 : M Unit := do
  let t5 ← (ApiFloat.largest : M Single)
  let t6 ← ApiFloat.neg t5
  let t7 ← (parse ("-0x1p+0".toList) : M Single)
  let t13 ← (ApiFloat.INFINITY : M Single)
  let t2065 ← ApiFloat.partial_cmp t13 t6
  let t2078 ← IeeeFloat.eq t13 t6
  check (!decide (t2065 = (some Ordering.gt)) || (!t2078))
  let t2079 ← IeeeFloat.eq t13 t6
  check (!decide (t2065 = (some Ordering.gt)) || (!t2079))
  let t2080 ← IeeeFloat.lt t13 t6
  check (!decide (t2065 = (some Ordering.gt)) || (!t2080))
  let t2081 ← IeeeFloat.gt t13 t6
  check (!decide (t2065 = (some Ordering.gt)) || t2081)
  let t2082 ← IeeeFloat_le t13 t6
  check (!decide (t2065 = (some Ordering.gt)) || (!t2082))
  let t2083 ← IeeeFloat.ge t13 t6
  check (!decide (t2065 = (some Ordering.gt)) || t2083)
  let t2084 ← IeeeFloat.eq t13 t6
  check (!decide (t2065 = (none : Option Ordering)) || (!t2084))
  let t2085 ← IeeeFloat.eq t13 t6
  check (!decide (t2065 = (none : Option Ordering)) || (!t2085))
  let t2086 ← IeeeFloat.lt t13 t6
  check (!decide (t2065 = (none : Option Ordering)) || (!t2086))
  let t2087 ← IeeeFloat.gt t13 t6
  check (!decide (t2065 = (none : Option Ordering)) || (!t2087))
  let t2088 ← IeeeFloat_le t13 t6
  check (!decide (t2065 = (none : Option Ordering)) || (!t2088))
  let t2089 ← IeeeFloat.ge t13 t6
  check (!decide (t2065 = (none : Option Ordering)) || (!t2089))
  let t2090 ← ApiFloat.partial_cmp t13 t7
  check (decide (t2090 = (some Ordering.gt)))
  let t2091 ← IeeeFloat.eq t13 t7
  check (!decide (t2090 = (some Ordering.lt)) || (!t2091))
  let t2092 ← IeeeFloat.eq t13 t7
  check (!decide (t2090 = (some Ordering.lt)) || (!t2092))
  let t2093 ← IeeeFloat.lt t13 t7
  check (!decide (t2090 = (some Ordering.lt)) || t2093)
  let t2094 ← IeeeFloat.gt t13 t7
  check (!decide (t2090 = (some Ordering.lt)) || (!t2094))
  let t2095 ← IeeeFloat_le t13 t7
  check (!decide (t2090 = (some Ordering.lt)) || t2095)
  let t2096 ← IeeeFloat.ge t13 t7
  check (!decide (t2090 = (some Ordering.lt)) || (!t2096))
  let t2097 ← IeeeFloat.eq t13 t7
  check (!decide (t2090 = (some Ordering.eq)) || t2097)
  let t2098 ← IeeeFloat.eq t13 t7
  check (!decide (t2090 = (some Ordering.eq)) || (!(!t2098)))
  let t2099 ← IeeeFloat.lt t13 t7
  check (!decide (t2090 = (some Ordering.eq)) || (!t2099))
  let t2100 ← IeeeFloat.gt t13 t7
  check (!decide (t2090 = (some Ordering.eq)) || (!t2100))
  let t2101 ← IeeeFloat_le t13 t7
  check (!decide (t2090 = (some Ordering.eq)) || t2101)
  let t2102 ← IeeeFloat.ge t13 t7
  check (!decide (t2090 = (some Ordering.eq)) || t2102)
  let t2103 ← IeeeFloat.eq t13 t7
  check (!decide (t2090 = (some Ordering.gt)) || (!t2103))
  let t2104 ← IeeeFloat.eq t13 t7
  check (!decide (t2090 = (some Ordering.gt)) || (!t2104))
  let t2105 ← IeeeFloat.lt t13 t7
  check (!decide (t2090 = (some Ordering.gt)) || (!t2105))
  let t2106 ← IeeeFloat.gt t13 t7
  check (!decide (t2090 = (some Ordering.gt)) || t2106)
  let t2107 ← IeeeFloat_le t13 t7
  check (!decide (t2090 = (some Ordering.gt)) || (!t2107))

example : passes t_comparisons_70 = true := by decide +kernel

/-- tests/ieee.rs:3213 `comparisons`. -/
def t_comparisons_71 : M Unit := do
  let t7 ← (parse ("-0x1p+0".toList) : M Single)
  let t8 ← (ApiFloat.ZERO : M Single)
  let t9 ← ApiFloat.neg t8
  let t13 ← (ApiFloat.INFINITY : M Single)
  let t2090 ← ApiFloat.partial_cmp t13 t7
  let t2108 ← IeeeFloat.ge t13 t7
  check (!decide (t2090 = (some Ordering.gt)) || t2108)
  let t2109 ← IeeeFloat.eq t13 t7
  check (!decide (t2090 = (none : Option Ordering)) || (!t2109))
  let t2110 ← IeeeFloat.eq t13 t7
  check (!decide (t2090 = (none : Option Ordering)) || (!t2110))
  let t2111 ← IeeeFloat.lt t13 t7
  check (!decide (t2090 = (none : Option Ordering)) || (!t2111))
  let t2112 ← IeeeFloat.gt t13 t7
  check (!decide (t2090 = (none : Option Ordering)) || (!t2112))
  let t2113 ← IeeeFloat_le t13 t7
  check (!decide (t2090 = (none : Option Ordering)) || (!t2113))
  let t2114 ← IeeeFloat.ge t13 t7
  check (!decide (t2090 = (none : Option Ordering)) || (!t2114))
  let t2115 ← ApiFloat.partial_cmp t13 t9
  check (decide (t2115 = (some Ordering.gt)))
  let t2116 ← IeeeFloat.eq t13 t9
  check (!decide (t2115 = (some Ordering.lt)) || (!t2116))
  let t2117 ← IeeeFloat.eq t13 t9
  check (!decide (t2115 = (some Ordering.lt)) || (!t2117))
  let t2118 ← IeeeFloat.lt t13 t9
  check (!decide (t2115 = (some Ordering.lt)) || t2118)
  let t2119 ← IeeeFloat.gt t13 t9
  check (!decide (t2115 = (some Ordering.lt)) || (!t2119))
  let t2120 ← IeeeFloat_le t13 t9
  check (!decide (t2115 = (some Ordering.lt)) || t2120)
  let t2121 ← IeeeFloat.ge t13 t9
  check (!decide (t2115 = (some Ordering.lt)) || (!t2121))
  let t2122 ← IeeeFloat.eq t13 t9
  check (!decide (t2115 = (some Ordering.eq)) || t2122)
  let t2123 ← IeeeFloat.eq t13 t9
  check (!decide (t2115 = (some Ordering.eq)) || (!(!t2123)))
  let t2124 ← IeeeFloat.lt t13 t9
  check (!decide (t2115 = (some Ordering.eq)) || (!t2124))
  let t2125 ← IeeeFloat.gt t13 t9
  check (!decide (t2115 = (some Ordering.eq)) || (!t2125))
  let t2126 ← IeeeFloat_le t13 t9
  check (!decide (t2115 = (some Ordering.eq)) || t2126)
  let t2127 ← IeeeFloat.ge t13 t9
  check (!decide (t2115 = (some Ordering.eq)) || t2127)
  let t2128 ← IeeeFloat.eq t13 t9
  check (!decide (t2115 = (some Ordering.gt)) || (!t2128))
  let t2129 ← IeeeFloat.eq t13 t9
  check (!decide (t2115 = (some Ordering.gt)) || (!t2129))
  let t2130 ← IeeeFloat.lt t13 t9
  check (!decide (t2115 = (some Ordering.gt)) || (!t2130))
  let t2131 ← IeeeFloat.gt t13 t9
  check (!decide (t2115 = (some Ordering.gt)) || t2131)
  let t2132 ← IeeeFloat_le t13 t9
  check (!decide (t2115 = (some Ordering.gt)) || (!t2132))
  let t2133 ← IeeeFloat.ge t13 t9
  check (!decide (t2115 = (some Ordering.gt)) || t2133)
  let t2134 ← IeeeFloat.eq t13 t9
  check (!decide (t2115 = (none : Option Ordering)) || (!t2134))
  let t2135 ← IeeeFloat.eq t13 t9
  check (!decide (t2115 = (none : Option Ordering)) || (!t2135))
  let t2136 ← IeeeFloat.lt t13 t9
  check (!decide (t2115 = (none : Option Ordering)) || (!t2136))
  let t2137 ← IeeeFloat.gt t13 t9
  check (!decide (t2115 = (none : Option Ordering)) || (!t2137))

example : passes t_comparisons_71 = true := by decide +kernel

/-- tests/ieee.rs:3213 `comparisons`. -/
def t_comparisons_72 : M Unit := do
  let t8 ← (ApiFloat.ZERO : M Single)
  let t9 ← ApiFloat.neg t8
  let t10 ← (ApiFloat.ZERO : M Single)
  let t11 ← (parse ("0x1p+0".toList) : M Single)
  let t13 ← (ApiFloat.INFINITY : M Single)
  let t2115 ← ApiFloat.partial_cmp t13 t9
  let t2138 ← IeeeFloat_le t13 t9
  check (!decide (t2115 = (none : Option Ordering)) || (!t2138))
  let t2139 ← IeeeFloat.ge t13 t9
  check (!decide (t2115 = (none : Option Ordering)) || (!t2139))
  let t2140 ← ApiFloat.partial_cmp t13 t10
  check (decide (t2140 = (some Ordering.gt)))
  let t2141 ← IeeeFloat.eq t13 t10
  check (!decide (t2140 = (some Ordering.lt)) || (!t2141))
  let t2142 ← IeeeFloat.eq t13 t10
  check (!decide (t2140 = (some Ordering.lt)) || (!t2142))
  let t2143 ← IeeeFloat.lt t13 t10
  check (!decide (t2140 = (some Ordering.lt)) || t2143)
  let t2144 ← IeeeFloat.gt t13 t10
  check (!decide (t2140 = (some Ordering.lt)) || (!t2144))
  let t2145 ← IeeeFloat_le t13 t10
  check (!decide (t2140 = (some Ordering.lt)) || t2145)
  let t2146 ← IeeeFloat.ge t13 t10
  check (!decide (t2140 = (some Ordering.lt)) || (!t2146))
  let t2147 ← IeeeFloat.eq t13 t10
  check (!decide (t2140 = (some Ordering.eq)) || t2147)
  let t2148 ← IeeeFloat.eq t13 t10
  check (!decide (t2140 = (some Ordering.eq)) || (!(!t2148)))
  let t2149 ← IeeeFloat.lt t13 t10
  check (!decide (t2140 = (some Ordering.eq)) || (!t2149))
  let t2150 ← IeeeFloat.gt t13 t10
  check (!decide (t2140 = (some Ordering.eq)) || (!t2150))
  let t2151 ← IeeeFloat_le t13 t10
  check (!decide (t2140 = (some Ordering.eq)) || t2151)
  let t2152 ← IeeeFloat.ge t13 t10
  check (!decide (t2140 = (some Ordering.eq)) || t2152)
  let t2153 ← IeeeFloat.eq t13 t10
  check (!decide (t2140 = (some Ordering.gt)) || (!t2153))
  let t2154 ← IeeeFloat.eq t13 t10
  check (!decide (t2140 = (some Ordering.gt)) || (!t2154))
  let t2155 ← IeeeFloat.lt t13 t10
  check (!decide (t2140 = (some Ordering.gt)) || (!t2155))
  let t2156 ← IeeeFloat.gt t13 t10
  check (!decide (t2140 = (some Ordering.gt)) || t2156)
  let t2157 ← IeeeFloat_le t13 t10
  check (!decide (t2140 = (some Ordering.gt)) || (!t2157))
  let t2158 ← IeeeFloat.ge t13 t10
  check (!decide (t2140 = (some Ordering.gt)) || t2158)
  let t2159 ← IeeeFloat.eq t13 t10
  check (!decide (t2140 = (none : Option Ordering)) || (!t2159))
  let t2160 ← IeeeFloat.eq t13 t10
  check (!decide (t2140 = (none : Option Ordering)) || (!t2160))
  let t2161 ← IeeeFloat.lt t13 t10
  check (!decide (t2140 = (none : Option Ordering)) || (!t2161))
  let t2162 ← IeeeFloat.gt t13 t10
  check (!decide (t2140 = (none : Option Ordering)) || (!t2162))
  let t2163 ← IeeeFloat_le t13 t10
  check (!decide (t2140 = (none : Option Ordering)) || (!t2163))
  let t2164 ← IeeeFloat.ge t13 t10
  check (!decide (t2140 = (none : Option Ordering)) || (!t2164))
  let t2165 ← ApiFloat.partial_cmp t13 t11
  check (decide (t2165 = (some Ordering.gt)))
  let t2166 ← IeeeFloat.eq t13 t11
  check (!decide (t2165 = (some Ordering.lt)) || (!t2166))
  let t2167 ← IeeeFloat.eq t13 t11
  check (!decide (t2165 = (some Ordering.lt)) || (!t2167))

example : passes t_comparisons_72 = true := by decide +kernel

/-- tests/ieee.rs:3213 `comparisons`. -/
def t_comparisons_73 : M Unit := do
  let t11 ← (parse ("0x1p+0".toList) : M Single)
  let t12 ← (ApiFloat.largest : M Single)
  let t13 ← (ApiFloat.INFINITY : M Single)
  let t2165 ← ApiFloat.partial_cmp t13 t11
  let t2168 ← IeeeFloat.lt t13 t11
  check (!decide (t2165 = (some Ordering.lt)) || t2168)
  let t2169 ← IeeeFloat.gt t13 t11
  check (!decide (t2165 = (some Ordering.lt)) || (!t2169))
  let t2170 ← IeeeFloat_le t13 t11
  check (!decide (t2165 = (some Ordering.lt)) || t2170)
  let t2171 ← IeeeFloat.ge t13 t11
  check (!decide (t2165 = (some Ordering.lt)) || (!t2171))
  let t2172 ← IeeeFloat.eq t13 t11
  check (!decide (t2165 = (some Ordering.eq)) || t2172)
  let t2173 ← IeeeFloat.eq t13 t11
  check (!decide (t2165 = (some Ordering.eq)) || (!(!t2173)))
  let t2174 ← IeeeFloat.lt t13 t11
  check (!decide (t2165 = (some Ordering.eq)) || (!t2174))
  let t2175 ← IeeeFloat.gt t13 t11
  check (!decide (t2165 = (some Ordering.eq)) || (!t2175))
  let t2176 ← IeeeFloat_le t13 t11
  check (!decide (t2165 = (some Ordering.eq)) || t2176)
  let t2177 ← IeeeFloat.ge t13 t11
  check (!decide (t2165 = (some Ordering.eq)) || t2177)
  let t2178 ← IeeeFloat.eq t13 t11
  check (!decide (t2165 = (some Ordering.gt)) || (!t2178))
  let t2179 ← IeeeFloat.eq t13 t11
  check (!decide (t2165 = (some Ordering.gt)) || (!t2179))
  let t2180 ← IeeeFloat.lt t13 t11
  check (!decide (t2165 = (some Ordering.gt)) || (!t2180))
  let t2181 ← IeeeFloat.gt t13 t11
  check (!decide (t2165 = (some Ordering.gt)) || t2181)
  let t2182 ← IeeeFloat_le t13 t11
  check (!decide (t2165 = (some Ordering.gt)) || (!t2182))
  let t2183 ← IeeeFloat.ge t13 t11
  check (!decide (t2165 = (some Ordering.gt)) || t2183)
  let t2184 ← IeeeFloat.eq t13 t11
  check (!decide (t2165 = (none : Option Ordering)) || (!t2184))
  let t2185 ← IeeeFloat.eq t13 t11
  check (!decide (t2165 = (none : Option Ordering)) || (!t2185))
  let t2186 ← IeeeFloat.lt t13 t11
  check (!decide (t2165 = (none : Option Ordering)) || (!t2186))
  let t2187 ← IeeeFloat.gt t13 t11
  check (!decide (t2165 = (none : Option Ordering)) || (!t2187))
  let t2188 ← IeeeFloat_le t13 t11
  check (!decide (t2165 = (none : Option Ordering)) || (!t2188))
  let t2189 ← IeeeFloat.ge t13 t11
  check (!decide (t2165 = (none : Option Ordering)) || (!t2189))
  let t2190 ← ApiFloat.partial_cmp t13 t12
  check (decide (t2190 = (some Ordering.gt)))
  let t2191 ← IeeeFloat.eq t13 t12
  check (!decide (t2190 = (some Ordering.lt)) || (!t2191))
  let t2192 ← IeeeFloat.eq t13 t12
  check (!decide (t2190 = (some Ordering.lt)) || (!t2192))
  let t2193 ← IeeeFloat.lt t13 t12
  check (!decide (t2190 = (some Ordering.lt)) || t2193)
  let t2194 ← IeeeFloat.gt t13 t12
  check (!decide (t2190 = (some Ordering.lt)) || (!t2194))
  let t2195 ← IeeeFloat_le t13 t12
  check (!decide (t2190 = (some Ordering.lt)) || t2195)
  let t2196 ← IeeeFloat.ge t13 t12
  check (!decide (t2190 = (some Ordering.lt)) || (!t2196))
  let t2197 ← IeeeFloat.eq t13 t12
  check (!decide (t2190 = (some Ordering.eq)) || t2197)

example : passes t_comparisons_73 = true := by decide +kernel

/-- tests/ieee.rs:3213 `comparisons`. -/
def t_comparisons_74 : M Unit := do
  let t12 ← (ApiFloat.largest : M Single)
  let t13 ← (ApiFloat.INFINITY : M Single)
  let t2190 ← ApiFloat.partial_cmp t13 t12
  let t2198 ← IeeeFloat.eq t13 t12
  check (!decide (t2190 = (some Ordering.eq)) || (!(!t2198)))
  let t2199 ← IeeeFloat.lt t13 t12
  check (!decide (t2190 = (some Ordering.eq)) || (!t2199))
  let t2200 ← IeeeFloat.gt t13 t12
  check (!decide (t2190 = (some Ordering.eq)) || (!t2200))
  let t2201 ← IeeeFloat_le t13 t12
  check (!decide (t2190 = (some Ordering.eq)) || t2201)
  let t2202 ← IeeeFloat.ge t13 t12
  check (!decide (t2190 = (some Ordering.eq)) || t2202)
  let t2203 ← IeeeFloat.eq t13 t12
  check (!decide (t2190 = (some Ordering.gt)) || (!t2203))
  let t2204 ← IeeeFloat.eq t13 t12
  check (!decide (t2190 = (some Ordering.gt)) || (!t2204))
  let t2205 ← IeeeFloat.lt t13 t12
  check (!decide (t2190 = (some Ordering.gt)) || (!t2205))
  let t2206 ← IeeeFloat.gt t13 t12
  check (!decide (t2190 = (some Ordering.gt)) || t2206)
  let t2207 ← IeeeFloat_le t13 t12
  check (!decide (t2190 = (some Ordering.gt)) || (!t2207))
  let t2208 ← IeeeFloat.ge t13 t12
  check (!decide (t2190 = (some Ordering.gt)) || t2208)
  let t2209 ← IeeeFloat.eq t13 t12
  check (!decide (t2190 = (none : Option Ordering)) || (!t2209))
  let t2210 ← IeeeFloat.eq t13 t12
  check (!decide (t2190 = (none : Option Ordering)) || (!t2210))
  let t2211 ← IeeeFloat.lt t13 t12
  check (!decide (t2190 = (none : Option Ordering)) || (!t2211))
  let t2212 ← IeeeFloat.gt t13 t12
  check (!decide (t2190 = (none : Option Ordering)) || (!t2212))
  let t2213 ← IeeeFloat_le t13 t12
  check (!decide (t2190 = (none : Option Ordering)) || (!t2213))
  let t2214 ← IeeeFloat.ge t13 t12
  check (!decide (t2190 = (none : Option Ordering)) || (!t2214))
  let t2215 ← ApiFloat.partial_cmp t13 t13
  check (decide (t2215 = (some Ordering.eq)))
  let t2216 ← IeeeFloat.eq t13 t13
  check (!decide (t2215 = (some Ordering.lt)) || (!t2216))
  let t2217 ← IeeeFloat.eq t13 t13
  check (!decide (t2215 = (some Ordering.lt)) || (!t2217))
  let t2218 ← IeeeFloat.lt t13 t13
  check (!decide (t2215 = (some Ordering.lt)) || t2218)
  let t2219 ← IeeeFloat.gt t13 t13
  check (!decide (t2215 = (some Ordering.lt)) || (!t2219))
  let t2220 ← IeeeFloat_le t13 t13
  check (!decide (t2215 = (some Ordering.lt)) || t2220)
  let t2221 ← IeeeFloat.ge t13 t13
  check (!decide (t2215 = (some Ordering.lt)) || (!t2221))
  let t2222 ← IeeeFloat.eq t13 t13
  check (!decide (t2215 = (some Ordering.eq)) || t2222)
  let t2223 ← IeeeFloat.eq t13 t13
  check (!decide (t2215 = (some Ordering.eq)) || (!(!t2223)))
  let t2224 ← IeeeFloat.lt t13 t13
  check (!decide (t2215 = (some Ordering.eq)) || (!t2224))
  let t2225 ← IeeeFloat.gt t13 t13
  check (!decide (t2215 = (some Ordering.eq)) || (!t2225))
  let t2226 ← IeeeFloat_le t13 t13
  check (!decide (t2215 = (some Ordering.eq)) || t2226)
  let t2227 ← IeeeFloat.ge t13 t13
  check (!decide (t2215 = (some Ordering.eq)) || t2227)

example : passes t_comparisons_74 = true := by decide +kernel

/-- tests/ieee.rs:3213 `comparisons`. -/
def t_comparisons_75 : M Unit := do
  let t13 ← (ApiFloat.INFINITY : M Single)
  let t14 ← (ApiFloat.NAN : M Single)
  let t2215 ← ApiFloat.partial_cmp t13 t13
  let t2228 ← IeeeFloat.eq t13 t13
  check (!decide (t2215 = (some Ordering.gt)) || (!t2228))
  let t2229 ← IeeeFloat.eq t13 t13
  check (!decide (t2215 = (some Ordering.gt)) || (!t2229))
  let t2230 ← IeeeFloat.lt t13 t13
  check (!decide (t2215 = (some Ordering.gt)) || (!t2230))
  let t2231 ← IeeeFloat.gt t13 t13
  check (!decide (t2215 = (some Ordering.gt)) || t2231)
  let t2232 ← IeeeFloat_le t13 t13
  check (!decide (t2215 = (some Ordering.gt)) || (!t2232))
  let t2233 ← IeeeFloat.ge t13 t13
  check (!decide (t2215 = (some Ordering.gt)) || t2233)
  let t2234 ← IeeeFloat.eq t13 t13
  check (!decide (t2215 = (none : Option Ordering)) || (!t2234))
  let t2235 ← IeeeFloat.eq t13 t13
  check (!decide (t2215 = (none : Option Ordering)) || (!t2235))
  let t2236 ← IeeeFloat.lt t13 t13
  check (!decide (t2215 = (none : Option Ordering)) || (!t2236))
  let t2237 ← IeeeFloat.gt t13 t13
  check (!decide (t2215 = (none : Option Ordering)) || (!t2237))
  let t2238 ← IeeeFloat_le t13 t13
  check (!decide (t2215 = (none : Option Ordering)) || (!t2238))
  let t2239 ← IeeeFloat.ge t13 t13
  check (!decide (t2215 = (none : Option Ordering)) || (!t2239))
  let t2240 ← ApiFloat.partial_cmp t13 t14
  check (decide (t2240 = (none : Option Ordering)))
  let t2241 ← IeeeFloat.eq t13 t14
  check (!decide (t2240 = (some Ordering.lt)) || (!t2241))
  let t2242 ← IeeeFloat.eq t13 t14
  check (!decide (t2240 = (some Ordering.lt)) || (!t2242))
  let t2243 ← IeeeFloat.lt t13 t14
  check (!decide (t2240 = (some Ordering.lt)) || t2243)
  let t2244 ← IeeeFloat.gt t13 t14
  check (!decide (t2240 = (some Ordering.lt)) || (!t2244))
  let t2245 ← IeeeFloat_le t13 t14
  check (!decide (t2240 = (some Ordering.lt)) || t2245)
  let t2246 ← IeeeFloat.ge t13 t14
  check (!decide (t2240 = (some Ordering.lt)) || (!t2246))
  let t2247 ← IeeeFloat.eq t13 t14
  check (!decide (t2240 = (some Ordering.eq)) || t2247)
  let t2248 ← IeeeFloat.eq t13 t14
  check (!decide (t2240 = (some Ordering.eq)) || (!(!t2248)))
  let t2249 ← IeeeFloat.lt t13 t14
  check (!decide (t2240 = (some Ordering.eq)) || (!t2249))
  let t2250 ← IeeeFloat.gt t13 t14
  check (!decide (t2240 = (some Ordering.eq)) || (!t2250))
  let t2251 ← IeeeFloat_le t13 t14
  check (!decide (t2240 = (some Ordering.eq)) || t2251)
  let t2252 ← IeeeFloat.ge t13 t14
  check (!decide (t2240 = (some Ordering.eq)) || t2252)
  let t2253 ← IeeeFloat.eq t13 t14
  check (!decide (t2240 = (some Ordering.gt)) || (!t2253))
  let t2254 ← IeeeFloat.eq t13 t14
  check (!decide (t2240 = (some Ordering.gt)) || (!t2254))
  let t2255 ← IeeeFloat.lt t13 t14
  check (!decide (t2240 = (some Ordering.gt)) || (!t2255))
  let t2256 ← IeeeFloat.gt t13 t14
  check (!decide (t2240 = (some Ordering.gt)) || t2256)
  let t2257 ← IeeeFloat_le t13 t14
  check (!decide (t2240 = (some Ordering.gt)) || (!t2257))

example : passes t_comparisons_75 = true := by decide +kernel

/-- tests/ieee.rs:3213 `comparisons`. -/
def t_comparisons_76 : M Unit := do
  let t1 ← (ApiFloat.NAN : M Single)
  let t2 ← ApiFloat.neg t1
  let t13 ← (ApiFloat.INFINITY : M Single)
  let t14 ← (ApiFloat.NAN : M Single)
  let t2240 ← ApiFloat.partial_cmp t13 t14
  let t2258 ← IeeeFloat.ge t13 t14
  check (!decide (t2240 = (some Ordering.gt)) || t2258)
  let t2259 ← IeeeFloat.eq t13 t14
  check (!decide (t2240 = (none : Option Ordering)) || (!t2259))
  let t2260 ← IeeeFloat.eq t13 t14
  check (!decide (t2240 = (none : Option Ordering)) || (!t2260))
  let t2261 ← IeeeFloat.lt t13 t14
  check (!decide (t2240 = (none : Option Ordering)) || (!t2261))
  let t2262 ← IeeeFloat.gt t13 t14
  check (!decide (t2240 = (none : Option Ordering)) || (!t2262))
  let t2263 ← IeeeFloat_le t13 t14
  check (!decide (t2240 = (none : Option Ordering)) || (!t2263))
  let t2264 ← IeeeFloat.ge t13 t14
  check (!decide (t2240 = (none : Option Ordering)) || (!t2264))
  let t2265 ← ApiFloat.partial_cmp t14 t2
  check (decide (t2265 = (none : Option Ordering)))
  let t2266 ← IeeeFloat.eq t14 t2
  check (!decide (t2265 = (some Ordering.lt)) || (!t2266))
  let t2267 ← IeeeFloat.eq t14 t2
  check (!decide (t2265 = (some Ordering.lt)) || (!t2267))
  let t2268 ← IeeeFloat.lt t14 t2
  check (!decide (t2265 = (some Ordering.lt)) || t2268)
  let t2269 ← IeeeFloat.gt t14 t2
  check (!decide (t2265 = (some Ordering.lt)) || (!t2269))
  let t2270 ← IeeeFloat_le t14 t2
  check (!decide (t2265 = (some Ordering.lt)) || t2270)
  let t2271 ← IeeeFloat.ge t14 t2
  check (!decide (t2265 = (some Ordering.lt)) || (!t2271))
  let t2272 ← IeeeFloat.eq t14 t2
  check (!decide (t2265 = (some Ordering.eq)) || t2272)
  let t2273 ← IeeeFloat.eq t14 t2
  check (!decide (t2265 = (some Ordering.eq)) || (!(!t2273)))
  let t2274 ← IeeeFloat.lt t14 t2
  check (!decide (t2265 = (some Ordering.eq)) || (!t2274))
  let t2275 ← IeeeFloat.gt t14 t2
  check (!decide (t2265 = (some Ordering.eq)) || (!t2275))
  let t2276 ← IeeeFloat_le t14 t2
  check (!decide (t2265 = (some Ordering.eq)) || t2276)
  let t2277 ← IeeeFloat.ge t14 t2
  check (!decide (t2265 = (some Ordering.eq)) || t2277)
  let t2278 ← IeeeFloat.eq t14 t2
  check (!decide (t2265 = (some Ordering.gt)) || (!t2278))
  let t2279 ← IeeeFloat.eq t14 t2
  check (!decide (t2265 = (some Ordering.gt)) || (!t2279))
  let t2280 ← IeeeFloat.lt t14 t2
  check (!decide (t2265 = (some Ordering.gt)) || (!t2280))
  let t2281 ← IeeeFloat.gt t14 t2
  check (!decide (t2265 = (some Ordering.gt)) || t2281)
  let t2282 ← IeeeFloat_le t14 t2
  check (!decide (t2265 = (some Ordering.gt)) || (!t2282))
  let t2283 ← IeeeFloat.ge t14 t2
  check (!decide (t2265 = (some Ordering.gt)) || t2283)
  let t2284 ← IeeeFloat.eq t14 t2
  check (!decide (t2265 = (none : Option Ordering)) || (!t2284))
  let t2285 ← IeeeFloat.eq t14 t2
  check (!decide (t2265 = (none : Option Ordering)) || (!t2285))
  let t2286 ← IeeeFloat.lt t14 t2
  check (!decide (t2265 = (none : Option Ordering)) || (!t2286))
  let t2287 ← IeeeFloat.gt t14 t2
  check (!decide (t2265 = (none : Option Ordering)) || (!t2287))

example : passes t_comparisons_76 = true := by decide +kernel

/-- tests/ieee.rs:3213 `comparisons`. -/
def t_comparisons_77 : M Unit := do
  let t1 ← (ApiFloat.NAN : M Single)
  let t2 ← ApiFloat.neg t1
  let t3 ← (ApiFloat.INFINITY : M Single)
  let t4 ← ApiFloat.neg t3
  let t5 ← (ApiFloat.largest : M Single)
  let t6 ← ApiFloat.neg t5
  let t14 ← (ApiFloat.NAN : M Single)
  let t2265 ← ApiFloat.partial_cmp t14 t2
  let t2288 ← IeeeFloat_le t14 t2
  check (!decide (t2265 = (none : Option Ordering)) || (!t2288))
  let t2289 ← IeeeFloat.ge t14 t2
  check (!decide (t2265 = (none : Option Ordering)) || (!t2289))
  let t2290 ← ApiFloat.partial_cmp t14 t4
  check (decide (t2290 = (none : Option Ordering)))
  let t2291 ← IeeeFloat.eq t14 t4
  check (!decide (t2290 = (some Ordering.lt)) || (!t2291))
  let t2292 ← IeeeFloat.eq t14 t4
  check (!decide (t2290 = (some Ordering.lt)) || (!t2292))
  let t2293 ← IeeeFloat.lt t14 t4
  check (!decide (t2290 = (some Ordering.lt)) || t2293)
  let t2294 ← IeeeFloat.gt t14 t4
  check (!decide (t2290 = (some Ordering.lt)) || (!t2294))
  let t2295 ← IeeeFloat_le t14 t4
  check (!decide (t2290 = (some Ordering.lt)) || t2295)
  let t2296 ← IeeeFloat.ge t14 t4
  check (!decide (t2290 = (some Ordering.lt)) || (!t2296))
  let t2297 ← IeeeFloat.eq t14 t4
  check (!decide (t2290 = (some Ordering.eq)) || t2297)
  let t2298 ← IeeeFloat.eq t14 t4
  check (!decide (t2290 = (some Ordering.eq)) || (!(!t2298)))
  let t2299 ← IeeeFloat.lt t14 t4
  check (!decide (t2290 = (some Ordering.eq)) || (!t2299))
  let t2300 ← IeeeFloat.gt t14 t4
  check (!decide (t2290 = (some Ordering.eq)) || (!t2300))
  let t2301 ← IeeeFloat_le t14 t4
  check (!decide (t2290 = (some Ordering.eq)) || t2301)
  let t2302 ← IeeeFloat.ge t14 t4
  check (!decide (t2290 = (some Ordering.eq)) || t2302)
  let t2303 ← IeeeFloat.eq t14 t4
  check (!decide (t2290 = (some Ordering.gt)) || (!t2303))
  let t2304 ← IeeeFloat.eq t14 t4
  check (!decide (t2290 = (some Ordering.gt)) || (!t2304))
  let t2305 ← IeeeFloat.lt t14 t4
  check (!decide (t2290 = (some Ordering.gt)) || (!t2305))
  let t2306 ← IeeeFloat.gt t14 t4
  check (!decide (t2290 = (some Ordering.gt)) || t2306)
  let t2307 ← IeeeFloat_le t14 t4
  check (!decide (t2290 = (some Ordering.gt)) || (!t2307))
  let t2308 ← IeeeFloat.ge t14 t4
  check (!decide (t2290 = (some Ordering.gt)) || t2308)
  let t2309 ← IeeeFloat.eq t14 t4
  check (!decide (t2290 = (none : Option Ordering)) || (!t2309))
  let t2310 ← IeeeFloat.eq t14 t4
  check (!decide (t2290 = (none : Option Ordering)) || (!t2310))
  let t2311 ← IeeeFloat.lt t14 t4
  check (!decide (t2290 = (none : Option Ordering)) || (!t2311))
  let t2312 ← IeeeFloat.gt t14 t4
  check (!decide (t2290 = (none : Option Ordering)) || (!t2312))
  let t2313 ← IeeeFloat_le t14 t4
  check (!decide (t2290 = (none : Option Ordering)) || (!t2313))
  let t2314 ← IeeeFloat.ge t14 t4
  check (!decide (t2290 = (none : Option Ordering)) || (!t2314))
  let t2315 ← ApiFloat.partial_cmp t14 t6
  check (decide (t2315 = (none : Option Ordering)))
  let t2316 ← IeeeFloat.eq t14 t6
  check (!decide (t2315 = (some Ordering.lt)) || (!t2316))
  let t2317 ← IeeeFloat.eq t14 t6
  check (!decide (t2315 = (some Ordering.lt)) || (!t2317))

example : passes t_comparisons_77 = true := by decide +kernel

/-- tests/ieee.rs:3213 `comparisons`. -/
def t_comparisons_78 : M Unit := do
  let t5 ← (ApiFloat.largest : M Single)
  let t6 ← ApiFloat.neg t5
  let t7 ← (parse ("-0x1p+0".toList) : M Single)
  let t14 ← (ApiFloat.NAN : M Single)
  let t2315 ← ApiFloat.partial_cmp t14 t6
  let t2318 ← IeeeFloat.lt t14 t6
  check (!decide (t2315 = (some Ordering.lt)) || t2318)
  let t2319 ← IeeeFloat.gt t14 t6
  check (!decide (t2315 = (some Ordering.lt)) || (!t2319))
  let t2320 ← IeeeFloat_le t14 t6
  check (!decide (t2315 = (some Ordering.lt)) || t2320)
  let t2321 ← IeeeFloat.ge t14 t6
  check (!decide (t2315 = (some Ordering.lt)) || (!t2321))
  let t2322 ← IeeeFloat.eq t14 t6
  check (!decide (t2315 = (some Ordering.eq)) || t2322)
  let t2323 ← IeeeFloat.eq t14 t6
  check (!decide (t2315 = (some Ordering.eq)) || (!(!t2323)))
  let t2324 ← IeeeFloat.lt t14 t6
  check (!decide (t2315 = (some Ordering.eq)) || (!t2324))
  let t2325 ← IeeeFloat.gt t14 t6
  check (!decide (t2315 = (some Ordering.eq)) || (!t2325))
  let t2326 ← IeeeFloat_le t14 t6
  check (!decide (t2315 = (some Ordering.eq)) || t2326)
  let t2327 ← IeeeFloat.ge t14 t6
  check (!decide (t2315 = (some Ordering.eq)) || t2327)
  let t2328 ← IeeeFloat.eq t14 t6
  check (!decide (t2315 = (some Ordering.gt)) || (!t2328))
  let t2329 ← IeeeFloat.eq t14 t6
  check (!decide (t2315 = (some Ordering.gt)) || (!t2329))
  let t2330 ← IeeeFloat.lt t14 t6
  check (!decide (t2315 = (some Ordering.gt)) || (!t2330))
  let t2331 ← IeeeFloat.gt t14 t6
  check (!decide (t2315 = (some Ordering.gt)) || t2331)
  let t2332 ← IeeeFloat_le t14 t6
  check (!decide (t2315 = (some Ordering.gt)) || (!t2332))
  let t2333 ← IeeeFloat.ge t14 t6
  check (!decide (t2315 = (some Ordering.gt)) || t2333)
  let t2334 ← IeeeFloat.eq t14 t6
  check (!decide (t2315 = (none : Option Ordering)) || (!t2334))
  let t2335 ← IeeeFloat.eq t14 t6
  check (!decide (t2315 = (none : Option Ordering)) || (!t2335))
  let t2336 ← IeeeFloat.lt t14 t6
  check (!decide (t2315 = (none : Option Ordering)) || (!t2336))
  let t2337 ← IeeeFloat.gt t14 t6
  check (!decide (t2315 = (none : Option Ordering)) || (!t2337))
  let t2338 ← IeeeFloat_le t14 t6
  check (!decide (t2315 = (none : Option Ordering)) || (!t2338))
  let t2339 ← IeeeFloat.ge t14 t6
  check (!decide (t2315 = (none : Option Ordering)) || (!t2339))
  let t2340 ← ApiFloat.partial_cmp t14 t7
  check (decide (t2340 = (none : Option Ordering)))
  let t2341 ← IeeeFloat.eq t14 t7
  check (!decide (t2340 = (some Ordering.lt)) || (!t2341))
  let t2342 ← IeeeFloat.eq t14 t7
  check (!decide (t2340 = (some Ordering.lt)) || (!t2342))
  let t2343 ← IeeeFloat.lt t14 t7
  check (!decide (t2340 = (some Ordering.lt)) || t2343)
  let t2344 ← IeeeFloat.gt t14 t7
  check (!decide (t2340 = (some Ordering.lt)) || (!t2344))
  let t2345 ← IeeeFloat_le t14 t7
  check (!decide (t2340 = (some Ordering.lt)) || t2345)
  let t2346 ← IeeeFloat.ge t14 t7
  check (!decide (t2340 = (some Ordering.lt)) || (!t2346))
  let t2347 ← IeeeFloat.eq t14 t7
  check (!decide (t2340 = (some Ordering.eq)) || t2347)

example : passes t_comparisons_78 = true := by decide +kernel

/-- tests/ieee.rs:3213 `comparisons`. -/
def t_comparisons_79 : M Unit := do
  let t7 ← (parse ("-0x1p+0".toList) : M Single)
  let t8 ← (ApiFloat.ZERO : M Single)
  let t9 ← ApiFloat.neg t8
  let t14 ← (ApiFloat.NAN : M Single)
  let t2340 ← ApiFloat.partial_cmp t14 t7
  let t2348 ← IeeeFloat.eq t14 t7
  check (!decide (t2340 = (some Ordering.eq)) || (!(!t2348)))
  let t2349 ← IeeeFloat.lt t14 t7
  check (!decide (t2340 = (some Ordering.eq)) || (!t2349))
  let t2350 ← IeeeFloat.gt t14 t7
  check (!decide (t2340 = (some Ordering.eq)) || (!t2350))
  let t2351 ← IeeeFloat_le t14 t7
  check (!decide (t2340 = (some Ordering.eq)) || t2351)
  let t2352 ← IeeeFloat.ge t14 t7
  check (!decide (t2340 = (some Ordering.eq)) || t2352)
  let t2353 ← IeeeFloat.eq t14 t7
  check (!decide (t2340 = (some Ordering.gt)) || (!t2353))
  let t2354 ← IeeeFloat.eq t14 t7
  check (!decide (t2340 = (some Ordering.gt)) || (!t2354))
  let t2355 ← IeeeFloat.lt t14 t7
  check (!decide (t2340 = (some Ordering.gt)) || (!t2355))
  let t2356 ← IeeeFloat.gt t14 t7
  check (!decide (t2340 = (some Ordering.gt)) || t2356)
  let t2357 ← IeeeFloat_le t14 t7
  check (!decide (t2340 = (some Ordering.gt)) || (!t2357))
  let t2358 ← IeeeFloat.ge t14 t7
  check (!decide (t2340 = (some Ordering.gt)) || t2358)
  let t2359 ← IeeeFloat.eq t14 t7
  check (!decide (t2340 = (none : Option Ordering)) || (!t2359))
  let t2360 ← IeeeFloat.eq t14 t7
  check (!decide (t2340 = (none : Option Ordering)) || (!t2360))
  let t2361 ← IeeeFloat.lt t14 t7
  check (!decide (t2340 = (none : Option Ordering)) || (!t2361))
  let t2362 ← IeeeFloat.gt t14 t7
  check (!decide (t2340 = (none : Option Ordering)) || (!t2362))
  let t2363 ← IeeeFloat_le t14 t7
  check (!decide (t2340 = (none : Option Ordering)) || (!t2363))
  let t2364 ← IeeeFloat.ge t14 t7
  check (!decide (t2340 = (none : Option Ordering)) || (!t2364))
  let t2365 ← ApiFloat.partial_cmp t14 t9
  check (decide (t2365 = (none : Option Ordering)))
  let t2366 ← IeeeFloat.eq t14 t9
  check (!decide (t2365 = (some Ordering.lt)) || (!t2366))
  let t2367 ← IeeeFloat.eq t14 t9
  check (!decide (t2365 = (some Ordering.lt)) || (!t2367))
  let t2368 ← IeeeFloat.lt t14 t9
  check (!decide (t2365 = (some Ordering.lt)) || t2368)
  let t2369 ← IeeeFloat.gt t14 t9
  check (!decide (t2365 = (some Ordering.lt)) || (!t2369))
  let t2370 ← IeeeFloat_le t14 t9
  check (!decide (t2365 = (some Ordering.lt)) || t2370)
  let t2371 ← IeeeFloat.ge t14 t9
  check (!decide (t2365 = (some Ordering.lt)) || (!t2371))
  let t2372 ← IeeeFloat.eq t14 t9
  check (!decide (t2365 = (some Ordering.eq)) || t2372)
  let t2373 ← IeeeFloat.eq t14 t9
  check (!decide (t2365 = (some Ordering.eq)) || (!(!t2373)))
  let t2374 ← IeeeFloat.lt t14 t9
  check (!decide (t2365 = (some Ordering.eq)) || (!t2374))
  let t2375 ← IeeeFloat.gt t14 t9
  check (!decide (t2365 = (some Ordering.eq)) || (!t2375))
  let t2376 ← IeeeFloat_le t14 t9
  check (!decide (t2365 = (some Ordering.eq)) || t2376)
  let t2377 ← IeeeFloat.ge t14 t9
  check (!decide (t2365 = (some Ordering.eq)) || t2377)

example : passes t_comparisons_79 = true := by decide +kernel

/-- tests/ieee.rs:3213 `comparisons`. -/
def t_comparisons_80 : M Unit := do
  let t8 ← (ApiFloat.ZERO : M Single)
  let t9 ← ApiFloat.neg t8
  let t10 ← (ApiFloat.ZERO : M Single)
  let t14 ← (ApiFloat.NAN : M Single)
  let t2365 ← ApiFloat.partial_cmp t14 t9
  let t2378 ← IeeeFloat.eq t14 t9
  check (!decide (t2365 = (some Ordering.gt)) || (!t2378))
  let t2379 ← IeeeFloat.eq t14 t9
  check (!decide (t2365 = (some Ordering.gt)) || (!t2379))
  let t2380 ← IeeeFloat.lt t14 t9
  check (!decide (t2365 = (some Ordering.gt)) || (!t2380))
  let t2381 ← IeeeFloat.gt t14 t9
  check (!decide (t2365 = (some Ordering.gt)) || t2381)
  let t2382 ← IeeeFloat_le t14 t9
  check (!decide (t2365 = (some Ordering.gt)) || (!t2382))
  let t2383 ← IeeeFloat.ge t14 t9
  check (!decide (t2365 = (some Ordering.gt)) || t2383)
  let t2384 ← IeeeFloat.eq t14 t9
  check (!decide (t2365 = (none : Option Ordering)) || (!t2384))
  let t2385 ← IeeeFloat.eq t14 t9
  check (!decide (t2365 = (none : Option Ordering)) || (!t2385))
  let t2386 ← IeeeFloat.lt t14 t9
  check (!decide (t2365 = (none : Option Ordering)) || (!t2386))
  let t2387 ← IeeeFloat.gt t14 t9
  check (!decide (t2365 = (none : Option Ordering)) || (!t2387))
  let t2388 ← IeeeFloat_le t14 t9
  check (!decide (t2365 = (none : Option Ordering)) || (!t2388))
  let t2389 ← IeeeFloat.ge t14 t9
  check (!decide (t2365 = (none : Option Ordering)) || (!t2389))
  let t2390 ← ApiFloat.partial_cmp t14 t10
  check (decide (t2390 = (none : Option Ordering)))
  let t2391 ← IeeeFloat.eq t14 t10
  check (!decide (t2390 = (some Ordering.lt)) || (!t2391))
  let t2392 ← IeeeFloat.eq t14 t10
  check (!decide (t2390 = (some Ordering.lt)) || (!t2392))
  let t2393 ← IeeeFloat.lt t14 t10
  check (!decide (t2390 = (some Ordering.lt)) || t2393)
  let t2394 ← IeeeFloat.gt t14 t10
  check (!decide (t2390 = (some Ordering.lt)) || (!t2394))
  let t2395 ← IeeeFloat_le t14 t10
  check (!decide (t2390 = (some Ordering.lt)) || t2395)
  let t2396 ← IeeeFloat.ge t14 t10
  check (!decide (t2390 = (some Ordering.lt)) || (!t2396))
  let t2397 ← IeeeFloat.eq t14 t10
  check (!decide (t2390 = (some Ordering.eq)) || t2397)
  let t2398 ← IeeeFloat.eq t14 t10
  check (!decide (t2390 = (some Ordering.eq)) || (!(!t2398)))
  let t2399 ← IeeeFloat.lt t14 t10
  check (!decide (t2390 = (some Ordering.eq)) || (!t2399))
  let t2400 ← IeeeFloat.gt t14 t10
  check (!decide (t2390 = (some Ordering.eq)) || (!t2400))
  let t2401 ← IeeeFloat_le t14 t10
  check (!decide (t2390 = (some Ordering.eq)) || t2401)
  let t2402 ← IeeeFloat.ge t14 t10
  check (!decide (t2390 = (some Ordering.eq)) || t2402)
  let t2403 ← IeeeFloat.eq t14 t10
  check (!decide (t2390 = (some Ordering.gt)) || (!t2403))
  let t2404 ← IeeeFloat.eq t14 t10
  check (!decide (t2390 = (some Ordering.gt)) || (!t2404))
  let t2405 ← IeeeFloat.lt t14 t10
  check (!decide (t2390 = (some Ordering.gt)) || (!t2405))
  let t2406 ← IeeeFloat.gt t14 t10
  check (!decide (t2390 = (some Ordering.gt)) || t2406)
  let t2407 ← IeeeFloat_le t14 t10
  check (!decide (t2390 = (some Ordering.gt)) || (!t2407))

example : passes t_comparisons_80 = true := by decide +kernel

/-- tests/ieee.rs:3213 `comparisons`. -/
def t_comparisons_81 : M Unit := do
  let t10 ← (ApiFloat.ZERO : M Single)
  let t11 ← (parse ("0x1p+0".toList) : M Single)
  let t14 ← (ApiFloat.NAN : M Single)
  let t2390 ← ApiFloat.partial_cmp t14 t10
  let t2408 ← IeeeFloat.ge t14 t10
  check (!decide (t2390 = (some Ordering.gt)) || t2408)
  let t2409 ← IeeeFloat.eq t14 t10
  check (!decide (t2390 = (none : Option Ordering)) || (!t2409))
  let t2410 ← IeeeFloat.eq t14 t10
  check (!decide (t2390 = (none : Option Ordering)) || (!t2410))
  let t2411 ← IeeeFloat.lt t14 t10
  check (!decide (t2390 = (none : Option Ordering)) || (!t2411))
  let t2412 ← IeeeFloat.gt t14 t10
  check (!decide (t2390 = (none : Option Ordering)) || (!t2412))
  let t2413 ← IeeeFloat_le t14 t10
  check (!decide (t2390 = (none : Option Ordering)) || (!t2413))
  let t2414 ← IeeeFloat.ge t14 t10
  check (!decide (t2390 = (none : Option Ordering)) || (!t2414))
  let t2415 ← ApiFloat.partial_cmp t14 t11
  check (decide (t2415 = (none : Option Ordering)))
  let t2416 ← IeeeFloat.eq t14 t11
  check (!decide (t2415 = (some Ordering.lt)) || (!t2416))
  let t2417 ← IeeeFloat.eq t14 t11
  check (!decide (t2415 = (some Ordering.lt)) || (!t2417))
  let t2418 ← IeeeFloat.lt t14 t11
  check (!decide (t2415 = (some Ordering.lt)) || t2418)
  let t2419 ← IeeeFloat.gt t14 t11
  check (!decide (t2415 = (some Ordering.lt)) || (!t2419))
  let t2420 ← IeeeFloat_le t14 t11
  check (!decide (t2415 = (some Ordering.lt)) || t2420)
  let t2421 ← IeeeFloat.ge t14 t11
  check (!decide (t2415 = (some Ordering.lt)) || (!t2421))
  let t2422 ← IeeeFloat.eq t14 t11
  check (!decide (t2415 = (some Ordering.eq)) || t2422)
  let t2423 ← IeeeFloat.eq t14 t11
  check (!decide (t2415 = (some Ordering.eq)) || (!(!t2423)))
  let t2424 ← IeeeFloat.lt t14 t11
  check (!decide (t2415 = (some Ordering.eq)) || (!t2424))
  let t2425 ← IeeeFloat.gt t14 t11
  check (!decide (t2415 = (some Ordering.eq)) || (!t2425))
  let t2426 ← IeeeFloat_le t14 t11
  check (!decide (t2415 = (some Ordering.eq)) || t2426)
  let t2427 ← IeeeFloat.ge t14 t11
  check (!decide (t2415 = (some Ordering.eq)) || t2427)
  let t2428 ← IeeeFloat.eq t14 t11
  check (!decide (t2415 = (some Ordering.gt)) || (!t2428))
  let t2429 ← IeeeFloat.eq t14 t11
  check (!decide (t2415 = (some Ordering.gt)) || (!t2429))
  let t2430 ← IeeeFloat.lt t14 t11
  check (!decide (t2415 = (some Ordering.gt)) || (!t2430))
  let t2431 ← IeeeFloat.gt t14 t11
  check (!decide (t2415 = (some Ordering.gt)) || t2431)
  let t2432 ← IeeeFloat_le t14 t11
  check (!decide (t2415 = (some Ordering.gt)) || (!t2432))
  let t2433 ← IeeeFloat.ge t14 t11
  check (!decide (t2415 = (some Ordering.gt)) || t2433)
  let t2434 ← IeeeFloat.eq t14 t11
  check (!decide (t2415 = (none : Option Ordering)) || (!t2434))
  let t2435 ← IeeeFloat.eq t14 t11
  check (!decide (t2415 = (none : Option Ordering)) || (!t2435))
  let t2436 ← IeeeFloat.lt t14 t11
  check (!decide (t2415 = (none : Option Ordering)) || (!t2436))
  let t2437 ← IeeeFloat.gt t14 t11
  check (!decide (t2415 = (none : Option Ordering)) || (!t2437))

example : passes t_comparisons_81 = true := by decide +kernel

/-- tests/ieee.rs:3213 `comparisons`. -/
def t_comparisons_82 : M Unit := do
  let t11 ← (parse ("0x1p+0".toList) : M Single)
  let t12 ← (ApiFloat.largest : M Single)
  let t13 ← (ApiFloat.INFINITY : M Single)
  let t14 ← (ApiFloat.NAN : M Single)
  let t2415 ← ApiFloat.partial_cmp t14 t11
  let t2438 ← IeeeFloat_le t14 t11
  check (!decide (t2415 = (none : Option Ordering)) || (!t2438))
  let t2439 ← IeeeFloat.ge t14 t11
  check (!decide (t2415 = (none : Option Ordering)) || (!t2439))
  let t2440 ← ApiFloat.partial_cmp t14 t12
  check (decide (t2440 = (none : Option Ordering)))
  let t2441 ← IeeeFloat.eq t14 t12
  check (!decide (t2440 = (some Ordering.lt)) || (!t2441))
  let t2442 ← IeeeFloat.eq t14 t12
  check (!decide (t2440 = (some Ordering.lt)) || (!t2442))
  let t2443 ← IeeeFloat.lt t14 t12
  check (!decide (t2440 = (some Ordering.lt)) || t2443)
  let t2444 ← IeeeFloat.gt t14 t12
  check (!decide (t2440 = (some Ordering.lt)) || (!t2444))
  let t2445 ← IeeeFloat_le t14 t12
  check (!decide (t2440 = (some Ordering.lt)) || t2445)
  let t2446 ← IeeeFloat.ge t14 t12
  check (!decide (t2440 = (some Ordering.lt)) || (!t2446))
  let t2447 ← IeeeFloat.eq t14 t12
  check (!decide (t2440 = (some Ordering.eq)) || t2447)
  let t2448 ← IeeeFloat.eq t14 t12
  check (!decide (t2440 = (some Ordering.eq)) || (!(!t2448)))
  let t2449 ← IeeeFloat.lt t14 t12
  check (!decide (t2440 = (some Ordering.eq)) || (!t2449))
  let t2450 ← IeeeFloat.gt t14 t12
  check (!decide (t2440 = (some Ordering.eq)) || (!t2450))
  let t2451 ← IeeeFloat_le t14 t12
  check (!decide (t2440 = (some Ordering.eq)) || t2451)
  let t2452 ← IeeeFloat.ge t14 t12
  check (!decide (t2440 = (some Ordering.eq)) || t2452)
  let t2453 ← IeeeFloat.eq t14 t12
  check (!decide (t2440 = (some Ordering.gt)) || (!t2453))
  let t2454 ← IeeeFloat.eq t14 t12
  check (!decide (t2440 = (some Ordering.gt)) || (!t2454))
  let t2455 ← IeeeFloat.lt t14 t12
  check (!decide (t2440 = (some Ordering.gt)) || (!t2455))
  let t2456 ← IeeeFloat.gt t14 t12
  check (!decide (t2440 = (some Ordering.gt)) || t2456)
  let t2457 ← IeeeFloat_le t14 t12
  check (!decide (t2440 = (some Ordering.gt)) || (!t2457))
  let t2458 ← IeeeFloat.ge t14 t12
  check (!decide (t2440 = (some Ordering.gt)) || t2458)
  let t2459 ← IeeeFloat.eq t14 t12
  check (!decide (t2440 = (none : Option Ordering)) || (!t2459))
  let t2460 ← IeeeFloat.eq t14 t12
  check (!decide (t2440 = (none : Option Ordering)) || (!t2460))
  let t2461 ← IeeeFloat.lt t14 t12
  check (!decide (t2440 = (none : Option Ordering)) || (!t2461))
  let t2462 ← IeeeFloat.gt t14 t12
  check (!decide (t2440 = (none : Option Ordering)) || (!t2462))
  let t2463 ← IeeeFloat_le t14 t12
  check (!decide (t2440 = (none : Option Ordering)) || (!t2463))
  let t2464 ← IeeeFloat.ge t14 t12
  check (!decide (t2440 = (none : Option Ordering)) || (!t2464))
  let t2465 ← ApiFloat.partial_cmp t14 t13
  check (decide (t2465 = (none : Option Ordering)))
  let t2466 ← IeeeFloat.eq t14 t13
  check (!decide (t2465 = (some Ordering.lt)) || (!t2466))
  let t2467 ← IeeeFloat.eq t14 t13
  check (!decide (t2465 = (some Ordering.lt)) || (!t2467))

example : passes t_comparisons_82 = true := by decide +kernel

/-- tests/ieee.rs:3213 `comparisons`. -/
def t_comparisons_83 : M Unit := do
  let t13 ← (ApiFloat.INFINITY : M Single)
  let t14 ← (ApiFloat.NAN : M Single)
  let t2465 ← ApiFloat.partial_cmp t14 t13
  let t2468 ← IeeeFloat.lt t14 t13
  check (!decide (t2465 = (some Ordering.lt)) || t2468)
  let t2469 ← IeeeFloat.gt t14 t13
  check (!decide (t2465 = (some Ordering.lt)) || (!t2469))
  let t2470 ← IeeeFloat_le t14 t13
  check (!decide (t2465 = (some Ordering.lt)) || t2470)
  let t2471 ← IeeeFloat.ge t14 t13
  check (!decide (t2465 = (some Ordering.lt)) || (!t2471))
  let t2472 ← IeeeFloat.eq t14 t13
  check (!decide (t2465 = (some Ordering.eq)) || t2472)
  let t2473 ← IeeeFloat.eq t14 t13
  check (!decide (t2465 = (some Ordering.eq)) || (!(!t2473)))
  let t2474 ← IeeeFloat.lt t14 t13
  check (!decide (t2465 = (some Ordering.eq)) || (!t2474))
  let t2475 ← IeeeFloat.gt t14 t13
  check (!decide (t2465 = (some Ordering.eq)) || (!t2475))
  let t2476 ← IeeeFloat_le t14 t13
  check (!decide (t2465 = (some Ordering.eq)) || t2476)
  let t2477 ← IeeeFloat.ge t14 t13
  check (!decide (t2465 = (some Ordering.eq)) || t2477)
  let t2478 ← IeeeFloat.eq t14 t13
  check (!decide (t2465 = (some Ordering.gt)) || (!t2478))
  let t2479 ← IeeeFloat.eq t14 t13
  check (!decide (t2465 = (some Ordering.gt)) || (!t2479))
  let t2480 ← IeeeFloat.lt t14 t13
  check (!decide (t2465 = (some Ordering.gt)) || (!t2480))
  let t2481 ← IeeeFloat.gt t14 t13
  check (!decide (t2465 = (some Ordering.gt)) || t2481)
  let t2482 ← IeeeFloat_le t14 t13
  check (!decide (t2465 = (some Ordering.gt)) || (!t2482))
  let t2483 ← IeeeFloat.ge t14 t13
  check (!decide (t2465 = (some Ordering.gt)) || t2483)
  let t2484 ← IeeeFloat.eq t14 t13
  check (!decide (t2465 = (none : Option Ordering)) || (!t2484))
  let t2485 ← IeeeFloat.eq t14 t13
  check (!decide (t2465 = (none : Option Ordering)) || (!t2485))
  let t2486 ← IeeeFloat.lt t14 t13
  check (!decide (t2465 = (none : Option Ordering)) || (!t2486))
  let t2487 ← IeeeFloat.gt t14 t13
  check (!decide (t2465 = (none : Option Ordering)) || (!t2487))
  let t2488 ← IeeeFloat_le t14 t13
  check (!decide (t2465 = (none : Option Ordering)) || (!t2488))
  let t2489 ← IeeeFloat.ge t14 t13
  check (!decide (t2465 = (none : Option Ordering)) || (!t2489))
  let t2490 ← ApiFloat.partial_cmp t14 t14
  check (decide (t2490 = (none : Option Ordering)))
  let t2491 ← IeeeFloat.eq t14 t14
  check (!decide (t2490 = (some Ordering.lt)) || (!t2491))
  let t2492 ← IeeeFloat.eq t14 t14
  check (!decide (t2490 = (some Ordering.lt)) || (!t2492))
  let t2493 ← IeeeFloat.lt t14 t14
  check (!decide (t2490 = (some Ordering.lt)) || t2493)
  let t2494 ← IeeeFloat.gt t14 t14
  check (!decide (t2490 = (some Ordering.lt)) || (!t2494))
  let t2495 ← IeeeFloat_le t14 t14
  check (!decide (t2490 = (some Ordering.lt)) || t2495)
  let t2496 ← IeeeFloat.ge t14 t14
  check (!decide (t2490 = (some Ordering.lt)) || (!t2496))
  let t2497 ← IeeeFloat.eq t14 t14
  check (!decide (t2490 = (some Ordering.eq)) || t2497)

example : passes t_comparisons_83 = true := by decide +kernel

/-- tests/ieee.rs:3213 `comparisons`. -/
def t_comparisons_84 : M Unit := do
  let t14 ← (ApiFloat.NAN : M Single)
  let t2490 ← ApiFloat.partial_cmp t14 t14
  let t2498 ← IeeeFloat.eq t14 t14
  check (!decide (t2490 = (some Ordering.eq)) || (!(!t2498)))
  let t2499 ← IeeeFloat.lt t14 t14
  check (!decide (t2490 = (some Ordering.eq)) || (!t2499))
  let t2500 ← IeeeFloat.gt t14 t14
  check (!decide (t2490 = (some Ordering.eq)) || (!t2500))
  let t2501 ← IeeeFloat_le t14 t14
  check (!decide (t2490 = (some Ordering.eq)) || t2501)
  let t2502 ← IeeeFloat.ge t14 t14
  check (!decide (t2490 = (some Ordering.eq)) || t2502)
  let t2503 ← IeeeFloat.eq t14 t14
  check (!decide (t2490 = (some Ordering.gt)) || (!t2503))
  let t2504 ← IeeeFloat.eq t14 t14
  check (!decide (t2490 = (some Ordering.gt)) || (!t2504))
  let t2505 ← IeeeFloat.lt t14 t14
  check (!decide (t2490 = (some Ordering.gt)) || (!t2505))
  let t2506 ← IeeeFloat.gt t14 t14
  check (!decide (t2490 = (some Ordering.gt)) || t2506)
  let t2507 ← IeeeFloat_le t14 t14
  check (!decide (t2490 = (some Ordering.gt)) || (!t2507))
  let t2508 ← IeeeFloat.ge t14 t14
  check (!decide (t2490 = (some Ordering.gt)) || t2508)
  let t2509 ← IeeeFloat.eq t14 t14
  check (!decide (t2490 = (none : Option Ordering)) || (!t2509))
  let t2510 ← IeeeFloat.eq t14 t14
  check (!decide (t2490 = (none : Option Ordering)) || (!t2510))
  let t2511 ← IeeeFloat.lt t14 t14
  check (!decide (t2490 = (none : Option Ordering)) || (!t2511))
  let t2512 ← IeeeFloat.gt t14 t14
  check (!decide (t2490 = (none : Option Ordering)) || (!t2512))
  let t2513 ← IeeeFloat_le t14 t14
  check (!decide (t2490 = (none : Option Ordering)) || (!t2513))
  let t2514 ← IeeeFloat.ge t14 t14
  check (!decide (t2490 = (none : Option Ordering)) || (!t2514))

example : passes t_comparisons_84 = true := by decide +kernel

end Apf.Conformance.Ieee4
