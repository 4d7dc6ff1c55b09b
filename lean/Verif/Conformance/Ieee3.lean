import Verif.Conformance.Support
/-! Generated by tools/tests_to_lean.py from tests/ieee.rs. -/

namespace Apf.Conformance.Ieee3
set_option maxRecDepth 100000
set_option linter.all false

/-- tests/ieee.rs:2557 `multiply`. -/
def t_multiply_1 : M Unit := do
  let t1 ← (ApiFloat.INFINITY : M Single)
  let t2 ← (ApiFloat.INFINITY : M Single)
  let t3 ← ApiFloat.neg t2
  let t4 ← (ApiFloat.ZERO : M Single)
  let t5 ← (ApiFloat.ZERO : M Single)
  let t6 ← ApiFloat.neg t5
  let t7 ← (ApiFloat.NAN : M Single)
  let t8 ← (parse ("snan123".toList) : M Single)
  let _ ← (parse ("0x1p+0".toList) : M Single)
  let _ ← (parse ("-0x1p+0".toList) : M Single)
  let _ ← (ApiFloat.largest : M Single)
  let t12 ← (ApiFloat.largest : M Single)
  let _ ← ApiFloat.neg t12
  let _ ← (ApiFloat.SMALLEST : M Single)
  let t15 ← (ApiFloat.SMALLEST : M Single)
  let _ ← ApiFloat.neg t15
  let _ ← (ApiFloat.smallest_normalized : M Single)
  let t18 ← (ApiFloat.smallest_normalized : M Single)
  let _ ← ApiFloat.neg t18
  let _ ← (parse ("0x1.ffffffffffffffffffffffffffffp+16383".toList) : M Quad)
  let _ ← (parse ("0x0.0000000000000000000000000001p-16382".toList) : M Quad)
  let _ ← (parse ("-0x0.0000000000000000000000000001p-16382".toList) : M Quad)
  let t23 ← Api.mul t1 t1
  check (decide (Status.OK = (t23).status))
  let t24 ← ApiFloat.category (t23).value
  check (decide (Category.infinity = t24))
  let t25 ← (parse ("inf".toList) : M Single)
  let t26 ← ApiFloat.bitwise_eq (t23).value t25
  check t26
  let t27 ← Api.mul t1 t3
  check (decide (Status.OK = (t27).status))
  let t28 ← ApiFloat.category (t27).value
  check (decide (Category.infinity = t28))
  let t29 ← (parse ("-inf".toList) : M Single)
  let t30 ← ApiFloat.bitwise_eq (t27).value t29
  check t30
  let t31 ← Api.mul t1 t4
  check (decide (({ invalidOp := true } : Status) = (t31).status))
  let t32 ← ApiFloat.category (t31).value
  check (decide (Category.nan = t32))
  let t33 ← (parse ("nan".toList) : M Single)
  let t34 ← ApiFloat.bitwise_eq (t31).value t33
  check t34
  let t35 ← Api.mul t1 t6
  check (decide (({ invalidOp := true } : Status) = (t35).status))
  let t36 ← ApiFloat.category (t35).value
  check (decide (Category.nan = t36))
  let t37 ← (parse ("nan".toList) : M Single)
  let t38 ← ApiFloat.bitwise_eq (t35).value t37
  check t38
  let t39 ← Api.mul t1 t7
  check (decide (Status.OK = (t39).status))
  let t40 ← ApiFloat.category (t39).value
  check (decide (Category.nan = t40))
  let t41 ← (parse ("nan".toList) : M Single)
  let t42 ← ApiFloat.bitwise_eq (t39).value t41
  check t42
  let t43 ← Api.mul t1 t8
  check (decide (({ invalidOp := true } : Status) = (t43).status))
  let t44 ← ApiFloat.category (t43).value
  check (decide (Category.nan = t44))

example : passes t_multiply_1 = true := by decide +kernel

/-- tests/ieee.rs:2557 `multiply`. -/
def t_multiply_2 : M Unit := do
  let t1 ← (ApiFloat.INFINITY : M Single)
  let t2 ← (ApiFloat.INFINITY : M Single)
  let t3 ← ApiFloat.neg t2
  let t8 ← (parse ("snan123".toList) : M Single)
  let t9 ← (parse ("0x1p+0".toList) : M Single)
  let t10 ← (parse ("-0x1p+0".toList) : M Single)
  let t11 ← (ApiFloat.largest : M Single)
  let t12 ← (ApiFloat.largest : M Single)
  let t13 ← ApiFloat.neg t12
  let t14 ← (ApiFloat.SMALLEST : M Single)
  let t15 ← (ApiFloat.SMALLEST : M Single)
  let t16 ← ApiFloat.neg t15
  let t17 ← (ApiFloat.smallest_normalized : M Single)
  let t18 ← (ApiFloat.smallest_normalized : M Single)
  let t19 ← ApiFloat.neg t18
  let t43 ← Api.mul t1 t8
  let t45 ← (parse ("nan123".toList) : M Single)
  let t46 ← ApiFloat.bitwise_eq (t43).value t45
  check t46
  let t47 ← Api.mul t1 t9
  check (decide (Status.OK = (t47).status))
  let t48 ← ApiFloat.category (t47).value
  check (decide (Category.infinity = t48))
  let t49 ← (parse ("inf".toList) : M Single)
  let t50 ← ApiFloat.bitwise_eq (t47).value t49
  check t50
  let t51 ← Api.mul t1 t10
  check (decide (Status.OK = (t51).status))
  let t52 ← ApiFloat.category (t51).value
  check (decide (Category.infinity = t52))
  let t53 ← (parse ("-inf".toList) : M Single)
  let t54 ← ApiFloat.bitwise_eq (t51).value t53
  check t54
  let t55 ← Api.mul t1 t11
  check (decide (Status.OK = (t55).status))
  let t56 ← ApiFloat.category (t55).value
  check (decide (Category.infinity = t56))
  let t57 ← (parse ("inf".toList) : M Single)
  let t58 ← ApiFloat.bitwise_eq (t55).value t57
  check t58
  let t59 ← Api.mul t1 t13
  check (decide (Status.OK = (t59).status))
  let t60 ← ApiFloat.category (t59).value
  check (decide (Category.infinity = t60))
  let t61 ← (parse ("-inf".toList) : M Single)
  let t62 ← ApiFloat.bitwise_eq (t59).value t61
  check t62
  let t63 ← Api.mul t1 t14
  check (decide (Status.OK = (t63).status))
  let t64 ← ApiFloat.category (t63).value
  check (decide (Category.infinity = t64))
  let t65 ← (parse ("inf".toList) : M Single)
  let t66 ← ApiFloat.bitwise_eq (t63).value t65
  check t66
  let t67 ← Api.mul t1 t16
  check (decide (Status.OK = (t67).status))
  let t68 ← ApiFloat.category (t67).value
  check (decide (Category.infinity = t68))
  let t69 ← (parse ("-inf".toList) : M Single)
  let t70 ← ApiFloat.bitwise_eq (t67).value t69
  check t70
  let t71 ← Api.mul t1 t17
  check (decide (Status.OK = (t71).status))
  let t72 ← ApiFloat.category (t71).value
  check (decide (Category.infinity = t72))
  let t73 ← (parse ("inf".toList) : M Single)
  let t74 ← ApiFloat.bitwise_eq (t71).value t73
  check t74
  let t75 ← Api.mul t1 t19
  check (decide (Status.OK = (t75).status))
  let t76 ← ApiFloat.category (t75).value
  check (decide (Category.infinity = t76))
  let t77 ← (parse ("-inf".toList) : M Single)
  let t78 ← ApiFloat.bitwise_eq (t75).value t77
  check t78
  let t79 ← Api.mul t3 t1
  check (decide (Status.OK = (t79).status))

example : passes t_multiply_2 = true := by decide +kernel

/-- tests/ieee.rs:2557 `multiply`. -/
def t_multiply_3 : M Unit := do
  let t1 ← (ApiFloat.INFINITY : M Single)
  let t2 ← (ApiFloat.INFINITY : M Single)
  let t3 ← ApiFloat.neg t2
  let t4 ← (ApiFloat.ZERO : M Single)
  let t5 ← (ApiFloat.ZERO : M Single)
  let t6 ← ApiFloat.neg t5
  let t7 ← (ApiFloat.NAN : M Single)
  let t8 ← (parse ("snan123".toList) : M Single)
  let t9 ← (parse ("0x1p+0".toList) : M Single)
  let t10 ← (parse ("-0x1p+0".toList) : M Single)
  let t11 ← (ApiFloat.largest : M Single)
  let t79 ← Api.mul t3 t1
  let t80 ← ApiFloat.category (t79).value
  check (decide (Category.infinity = t80))
  let t81 ← (parse ("-inf".toList) : M Single)
  let t82 ← ApiFloat.bitwise_eq (t79).value t81
  check t82
  let t83 ← Api.mul t3 t3
  check (decide (Status.OK = (t83).status))
  let t84 ← ApiFloat.category (t83).value
  check (decide (Category.infinity = t84))
  let t85 ← (parse ("inf".toList) : M Single)
  let t86 ← ApiFloat.bitwise_eq (t83).value t85
  check t86
  let t87 ← Api.mul t3 t4
  check (decide (({ invalidOp := true } : Status) = (t87).status))
  let t88 ← ApiFloat.category (t87).value
  check (decide (Category.nan = t88))
  let t89 ← (parse ("nan".toList) : M Single)
  let t90 ← ApiFloat.bitwise_eq (t87).value t89
  check t90
  let t91 ← Api.mul t3 t6
  check (decide (({ invalidOp := true } : Status) = (t91).status))
  let t92 ← ApiFloat.category (t91).value
  check (decide (Category.nan = t92))
  let t93 ← (parse ("nan".toList) : M Single)
  let t94 ← ApiFloat.bitwise_eq (t91).value t93
  check t94
  let t95 ← Api.mul t3 t7
  check (decide (Status.OK = (t95).status))
  let t96 ← ApiFloat.category (t95).value
  check (decide (Category.nan = t96))
  let t97 ← (parse ("nan".toList) : M Single)
  let t98 ← ApiFloat.bitwise_eq (t95).value t97
  check t98
  let t99 ← Api.mul t3 t8
  check (decide (({ invalidOp := true } : Status) = (t99).status))
  let t100 ← ApiFloat.category (t99).value
  check (decide (Category.nan = t100))
  let t101 ← (parse ("nan123".toList) : M Single)
  let t102 ← ApiFloat.bitwise_eq (t99).value t101
  check t102
  let t103 ← Api.mul t3 t9
  check (decide (Status.OK = (t103).status))
  let t104 ← ApiFloat.category (t103).value
  check (decide (Category.infinity = t104))
  let t105 ← (parse ("-inf".toList) : M Single)
  let t106 ← ApiFloat.bitwise_eq (t103).value t105
  check t106
  let t107 ← Api.mul t3 t10
  check (decide (Status.OK = (t107).status))
  let t108 ← ApiFloat.category (t107).value
  check (decide (Category.infinity = t108))
  let t109 ← (parse ("inf".toList) : M Single)
  let t110 ← ApiFloat.bitwise_eq (t107).value t109
  check t110
  let t111 ← Api.mul t3 t11
  check (decide (Status.OK = (t111).status))
  let t112 ← ApiFloat.category (t111).value
  check (decide (Category.infinity = t112))
  let t113 ← (parse ("-inf".toList) : M Single)
  let t114 ← ApiFloat.bitwise_eq (t111).value t113
  check t114

example : passes t_multiply_3 = true := by decide +kernel

/-- tests/ieee.rs:2557 `multiply`. -/
def t_multiply_4 : M Unit := do
  let t1 ← (ApiFloat.INFINITY : M Single)
  let t2 ← (ApiFloat.INFINITY : M Single)
  let t3 ← ApiFloat.neg t2
  let t4 ← (ApiFloat.ZERO : M Single)
  let t5 ← (ApiFloat.ZERO : M Single)
  let t6 ← ApiFloat.neg t5
  let t12 ← (ApiFloat.largest : M Single)
  let t13 ← ApiFloat.neg t12
  let t14 ← (ApiFloat.SMALLEST : M Single)
  let t15 ← (ApiFloat.SMALLEST : M Single)
  let t16 ← ApiFloat.neg t15
  let t17 ← (ApiFloat.smallest_normalized : M Single)
  let t18 ← (ApiFloat.smallest_normalized : M Single)
  let t19 ← ApiFloat.neg t18
  let t115 ← Api.mul t3 t13
  check (decide (Status.OK = (t115).status))
  let t116 ← ApiFloat.category (t115).value
  check (decide (Category.infinity = t116))
  let t117 ← (parse ("inf".toList) : M Single)
  let t118 ← ApiFloat.bitwise_eq (t115).value t117
  check t118
  let t119 ← Api.mul t3 t14
  check (decide (Status.OK = (t119).status))
  let t120 ← ApiFloat.category (t119).value
  check (decide (Category.infinity = t120))
  let t121 ← (parse ("-inf".toList) : M Single)
  let t122 ← ApiFloat.bitwise_eq (t119).value t121
  check t122
  let t123 ← Api.mul t3 t16
  check (decide (Status.OK = (t123).status))
  let t124 ← ApiFloat.category (t123).value
  check (decide (Category.infinity = t124))
  let t125 ← (parse ("inf".toList) : M Single)
  let t126 ← ApiFloat.bitwise_eq (t123).value t125
  check t126
  let t127 ← Api.mul t3 t17
  check (decide (Status.OK = (t127).status))
  let t128 ← ApiFloat.category (t127).value
  check (decide (Category.infinity = t128))
  let t129 ← (parse ("-inf".toList) : M Single)
  let t130 ← ApiFloat.bitwise_eq (t127).value t129
  check t130
  let t131 ← Api.mul t3 t19
  check (decide (Status.OK = (t131).status))
  let t132 ← ApiFloat.category (t131).value
  check (decide (Category.infinity = t132))
  let t133 ← (parse ("inf".toList) : M Single)
  let t134 ← ApiFloat.bitwise_eq (t131).value t133
  check t134
  let t135 ← Api.mul t4 t1
  check (decide (({ invalidOp := true } : Status) = (t135).status))
  let t136 ← ApiFloat.category (t135).value
  check (decide (Category.nan = t136))
  let t137 ← (parse ("nan".toList) : M Single)
  let t138 ← ApiFloat.bitwise_eq (t135).value t137
  check t138
  let t139 ← Api.mul t4 t3
  check (decide (({ invalidOp := true } : Status) = (t139).status))
  let t140 ← ApiFloat.category (t139).value
  check (decide (Category.nan = t140))
  let t141 ← (parse ("nan".toList) : M Single)
  let t142 ← ApiFloat.bitwise_eq (t139).value t141
  check t142
  let t143 ← Api.mul t4 t4
  check (decide (Status.OK = (t143).status))
  let t144 ← ApiFloat.category (t143).value
  check (decide (Category.zero = t144))
  let t145 ← (parse ("0x0p+0".toList) : M Single)
  let t146 ← ApiFloat.bitwise_eq (t143).value t145
  check t146
  let t147 ← Api.mul t4 t6
  check (decide (Status.OK = (t147).status))
  let t148 ← ApiFloat.category (t147).value
  check (decide (Category.zero = t148))

example : passes t_multiply_4 = true := by decide +kernel

/-- tests/ieee.rs:2557 `multiply`. -/
def t_multiply_5 : M Unit := do
  let t4 ← (ApiFloat.ZERO : M Single)
  let t5 ← (ApiFloat.ZERO : M Single)
  let t6 ← ApiFloat.neg t5
  let t7 ← (ApiFloat.NAN : M Single)
  let t8 ← (parse ("snan123".toList) : M Single)
  let t9 ← (parse ("0x1p+0".toList) : M Single)
  let t10 ← (parse ("-0x1p+0".toList) : M Single)
  let t11 ← (ApiFloat.largest : M Single)
  let t12 ← (ApiFloat.largest : M Single)
  let t13 ← ApiFloat.neg t12
  let t14 ← (ApiFloat.SMALLEST : M Single)
  let t15 ← (ApiFloat.SMALLEST : M Single)
  let t16 ← ApiFloat.neg t15
  let t17 ← (ApiFloat.smallest_normalized : M Single)
  let t147 ← Api.mul t4 t6
  let t149 ← (parse ("-0x0p+0".toList) : M Single)
  let t150 ← ApiFloat.bitwise_eq (t147).value t149
  check t150
  let t151 ← Api.mul t4 t7
  check (decide (Status.OK = (t151).status))
  let t152 ← ApiFloat.category (t151).value
  check (decide (Category.nan = t152))
  let t153 ← (parse ("nan".toList) : M Single)
  let t154 ← ApiFloat.bitwise_eq (t151).value t153
  check t154
  let t155 ← Api.mul t4 t8
  check (decide (({ invalidOp := true } : Status) = (t155).status))
  let t156 ← ApiFloat.category (t155).value
  check (decide (Category.nan = t156))
  let t157 ← (parse ("nan123".toList) : M Single)
  let t158 ← ApiFloat.bitwise_eq (t155).value t157
  check t158
  let t159 ← Api.mul t4 t9
  check (decide (Status.OK = (t159).status))
  let t160 ← ApiFloat.category (t159).value
  check (decide (Category.zero = t160))
  let t161 ← (parse ("0x0p+0".toList) : M Single)
  let t162 ← ApiFloat.bitwise_eq (t159).value t161
  check t162
  let t163 ← Api.mul t4 t10
  check (decide (Status.OK = (t163).status))
  let t164 ← ApiFloat.category (t163).value
  check (decide (Category.zero = t164))
  let t165 ← (parse ("-0x0p+0".toList) : M Single)
  let t166 ← ApiFloat.bitwise_eq (t163).value t165
  check t166
  let t167 ← Api.mul t4 t11
  check (decide (Status.OK = (t167).status))
  let t168 ← ApiFloat.category (t167).value
  check (decide (Category.zero = t168))
  let t169 ← (parse ("0x0p+0".toList) : M Single)
  let t170 ← ApiFloat.bitwise_eq (t167).value t169
  check t170
  let t171 ← Api.mul t4 t13
  check (decide (Status.OK = (t171).status))
  let t172 ← ApiFloat.category (t171).value
  check (decide (Category.zero = t172))
  let t173 ← (parse ("-0x0p+0".toList) : M Single)
  let t174 ← ApiFloat.bitwise_eq (t171).value t173
  check t174
  let t175 ← Api.mul t4 t14
  check (decide (Status.OK = (t175).status))
  let t176 ← ApiFloat.category (t175).value
  check (decide (Category.zero = t176))
  let t177 ← (parse ("0x0p+0".toList) : M Single)
  let t178 ← ApiFloat.bitwise_eq (t175).value t177
  check t178
  let t179 ← Api.mul t4 t16
  check (decide (Status.OK = (t179).status))
  let t180 ← ApiFloat.category (t179).value
  check (decide (Category.zero = t180))
  let t181 ← (parse ("-0x0p+0".toList) : M Single)
  let t182 ← ApiFloat.bitwise_eq (t179).value t181
  check t182
  let t183 ← Api.mul t4 t17
  check (decide (Status.OK = (t183).status))

example : passes t_multiply_5 = true := by decide +kernel

/-- tests/ieee.rs:2557 `multiply`. -/
def t_multiply_6 : M Unit := do
  let t1 ← (ApiFloat.INFINITY : M Single)
  let t2 ← (ApiFloat.INFINITY : M Single)
  let t3 ← ApiFloat.neg t2
  let t4 ← (ApiFloat.ZERO : M Single)
  let t5 ← (ApiFloat.ZERO : M Single)
  let t6 ← ApiFloat.neg t5
  let t7 ← (ApiFloat.NAN : M Single)
  let t8 ← (parse ("snan123".toList) : M Single)
  let t9 ← (parse ("0x1p+0".toList) : M Single)
  let t17 ← (ApiFloat.smallest_normalized : M Single)
  let t18 ← (ApiFloat.smallest_normalized : M Single)
  let t19 ← ApiFloat.neg t18
  let t183 ← Api.mul t4 t17
  let t184 ← ApiFloat.category (t183).value
  check (decide (Category.zero = t184))
  let t185 ← (parse ("0x0p+0".toList) : M Single)
  let t186 ← ApiFloat.bitwise_eq (t183).value t185
  check t186
  let t187 ← Api.mul t4 t19
  check (decide (Status.OK = (t187).status))
  let t188 ← ApiFloat.category (t187).value
  check (decide (Category.zero = t188))
  let t189 ← (parse ("-0x0p+0".toList) : M Single)
  let t190 ← ApiFloat.bitwise_eq (t187).value t189
  check t190
  let t191 ← Api.mul t6 t1
  check (decide (({ invalidOp := true } : Status) = (t191).status))
  let t192 ← ApiFloat.category (t191).value
  check (decide (Category.nan = t192))
  let t193 ← (parse ("nan".toList) : M Single)
  let t194 ← ApiFloat.bitwise_eq (t191).value t193
  check t194
  let t195 ← Api.mul t6 t3
  check (decide (({ invalidOp := true } : Status) = (t195).status))
  let t196 ← ApiFloat.category (t195).value
  check (decide (Category.nan = t196))
  let t197 ← (parse ("nan".toList) : M Single)
  let t198 ← ApiFloat.bitwise_eq (t195).value t197
  check t198
  let t199 ← Api.mul t6 t4
  check (decide (Status.OK = (t199).status))
  let t200 ← ApiFloat.category (t199).value
  check (decide (Category.zero = t200))
  let t201 ← (parse ("-0x0p+0".toList) : M Single)
  let t202 ← ApiFloat.bitwise_eq (t199).value t201
  check t202
  let t203 ← Api.mul t6 t6
  check (decide (Status.OK = (t203).status))
  let t204 ← ApiFloat.category (t203).value
  check (decide (Category.zero = t204))
  let t205 ← (parse ("0x0p+0".toList) : M Single)
  let t206 ← ApiFloat.bitwise_eq (t203).value t205
  check t206
  let t207 ← Api.mul t6 t7
  check (decide (Status.OK = (t207).status))
  let t208 ← ApiFloat.category (t207).value
  check (decide (Category.nan = t208))
  let t209 ← (parse ("nan".toList) : M Single)
  let t210 ← ApiFloat.bitwise_eq (t207).value t209
  check t210
  let t211 ← Api.mul t6 t8
  check (decide (({ invalidOp := true } : Status) = (t211).status))
  let t212 ← ApiFloat.category (t211).value
  check (decide (Category.nan = t212))
  let t213 ← (parse ("nan123".toList) : M Single)
  let t214 ← ApiFloat.bitwise_eq (t211).value t213
  check t214
  let t215 ← Api.mul t6 t9
  check (decide (Status.OK = (t215).status))
  let t216 ← ApiFloat.category (t215).value
  check (decide (Category.zero = t216))
  let t217 ← (parse ("-0x0p+0".toList) : M Single)
  let t218 ← ApiFloat.bitwise_eq (t215).value t217
  check t218

example : passes t_multiply_6 = true := by decide +kernel

/-- tests/ieee.rs:2557 `multiply`. -/
def t_multiply_7 : M Unit := do
  let t1 ← (ApiFloat.INFINITY : M Single)
  let t2 ← (ApiFloat.INFINITY : M Single)
  let t3 ← ApiFloat.neg t2
  let t5 ← (ApiFloat.ZERO : M Single)
  let t6 ← ApiFloat.neg t5
  let t7 ← (ApiFloat.NAN : M Single)
  let t10 ← (parse ("-0x1p+0".toList) : M Single)
  let t11 ← (ApiFloat.largest : M Single)
  let t12 ← (ApiFloat.largest : M Single)
  let t13 ← ApiFloat.neg t12
  let t14 ← (ApiFloat.SMALLEST : M Single)
  let t15 ← (ApiFloat.SMALLEST : M Single)
  let t16 ← ApiFloat.neg t15
  let t17 ← (ApiFloat.smallest_normalized : M Single)
  let t18 ← (ApiFloat.smallest_normalized : M Single)
  let t19 ← ApiFloat.neg t18
  let t219 ← Api.mul t6 t10
  check (decide (Status.OK = (t219).status))
  let t220 ← ApiFloat.category (t219).value
  check (decide (Category.zero = t220))
  let t221 ← (parse ("0x0p+0".toList) : M Single)
  let t222 ← ApiFloat.bitwise_eq (t219).value t221
  check t222
  let t223 ← Api.mul t6 t11
  check (decide (Status.OK = (t223).status))
  let t224 ← ApiFloat.category (t223).value
  check (decide (Category.zero = t224))
  let t225 ← (parse ("-0x0p+0".toList) : M Single)
  let t226 ← ApiFloat.bitwise_eq (t223).value t225
  check t226
  let t227 ← Api.mul t6 t13
  check (decide (Status.OK = (t227).status))
  let t228 ← ApiFloat.category (t227).value
  check (decide (Category.zero = t228))
  let t229 ← (parse ("0x0p+0".toList) : M Single)
  let t230 ← ApiFloat.bitwise_eq (t227).value t229
  check t230
  let t231 ← Api.mul t6 t14
  check (decide (Status.OK = (t231).status))
  let t232 ← ApiFloat.category (t231).value
  check (decide (Category.zero = t232))
  let t233 ← (parse ("-0x0p+0".toList) : M Single)
  let t234 ← ApiFloat.bitwise_eq (t231).value t233
  check t234
  let t235 ← Api.mul t6 t16
  check (decide (Status.OK = (t235).status))
  let t236 ← ApiFloat.category (t235).value
  check (decide (Category.zero = t236))
  let t237 ← (parse ("0x0p+0".toList) : M Single)
  let t238 ← ApiFloat.bitwise_eq (t235).value t237
  check t238
  let t239 ← Api.mul t6 t17
  check (decide (Status.OK = (t239).status))
  let t240 ← ApiFloat.category (t239).value
  check (decide (Category.zero = t240))
  let t241 ← (parse ("-0x0p+0".toList) : M Single)
  let t242 ← ApiFloat.bitwise_eq (t239).value t241
  check t242
  let t243 ← Api.mul t6 t19
  check (decide (Status.OK = (t243).status))
  let t244 ← ApiFloat.category (t243).value
  check (decide (Category.zero = t244))
  let t245 ← (parse ("0x0p+0".toList) : M Single)
  let t246 ← ApiFloat.bitwise_eq (t243).value t245
  check t246
  let t247 ← Api.mul t7 t1
  check (decide (Status.OK = (t247).status))
  let t248 ← ApiFloat.category (t247).value
  check (decide (Category.nan = t248))
  let t249 ← (parse ("nan".toList) : M Single)
  let t250 ← ApiFloat.bitwise_eq (t247).value t249
  check t250
  let t251 ← Api.mul t7 t3
  check (decide (Status.OK = (t251).status))
  let t252 ← ApiFloat.category (t251).value
  check (decide (Category.nan = t252))

example : passes t_multiply_7 = true := by decide +kernel

/-- tests/ieee.rs:2557 `multiply`. -/
def t_multiply_8 : M Unit := do
  let t2 ← (ApiFloat.INFINITY : M Single)
  let t3 ← ApiFloat.neg t2
  let t4 ← (ApiFloat.ZERO : M Single)
  let t5 ← (ApiFloat.ZERO : M Single)
  let t6 ← ApiFloat.neg t5
  let t7 ← (ApiFloat.NAN : M Single)
  let t8 ← (parse ("snan123".toList) : M Single)
  let t9 ← (parse ("0x1p+0".toList) : M Single)
  let t10 ← (parse ("-0x1p+0".toList) : M Single)
  let t11 ← (ApiFloat.largest : M Single)
  let t12 ← (ApiFloat.largest : M Single)
  let t13 ← ApiFloat.neg t12
  let t14 ← (ApiFloat.SMALLEST : M Single)
  let t251 ← Api.mul t7 t3
  let t253 ← (parse ("nan".toList) : M Single)
  let t254 ← ApiFloat.bitwise_eq (t251).value t253
  check t254
  let t255 ← Api.mul t7 t4
  check (decide (Status.OK = (t255).status))
  let t256 ← ApiFloat.category (t255).value
  check (decide (Category.nan = t256))
  let t257 ← (parse ("nan".toList) : M Single)
  let t258 ← ApiFloat.bitwise_eq (t255).value t257
  check t258
  let t259 ← Api.mul t7 t6
  check (decide (Status.OK = (t259).status))
  let t260 ← ApiFloat.category (t259).value
  check (decide (Category.nan = t260))
  let t261 ← (parse ("nan".toList) : M Single)
  let t262 ← ApiFloat.bitwise_eq (t259).value t261
  check t262
  let t263 ← Api.mul t7 t7
  check (decide (Status.OK = (t263).status))
  let t264 ← ApiFloat.category (t263).value
  check (decide (Category.nan = t264))
  let t265 ← (parse ("nan".toList) : M Single)
  let t266 ← ApiFloat.bitwise_eq (t263).value t265
  check t266
  let t267 ← Api.mul t7 t8
  check (decide (({ invalidOp := true } : Status) = (t267).status))
  let t268 ← ApiFloat.category (t267).value
  check (decide (Category.nan = t268))
  let t269 ← (parse ("nan".toList) : M Single)
  let t270 ← ApiFloat.bitwise_eq (t267).value t269
  check t270
  let t271 ← Api.mul t7 t9
  check (decide (Status.OK = (t271).status))
  let t272 ← ApiFloat.category (t271).value
  check (decide (Category.nan = t272))
  let t273 ← (parse ("nan".toList) : M Single)
  let t274 ← ApiFloat.bitwise_eq (t271).value t273
  check t274
  let t275 ← Api.mul t7 t10
  check (decide (Status.OK = (t275).status))
  let t276 ← ApiFloat.category (t275).value
  check (decide (Category.nan = t276))
  let t277 ← (parse ("nan".toList) : M Single)
  let t278 ← ApiFloat.bitwise_eq (t275).value t277
  check t278
  let t279 ← Api.mul t7 t11
  check (decide (Status.OK = (t279).status))
  let t280 ← ApiFloat.category (t279).value
  check (decide (Category.nan = t280))
  let t281 ← (parse ("nan".toList) : M Single)
  let t282 ← ApiFloat.bitwise_eq (t279).value t281
  check t282
  let t283 ← Api.mul t7 t13
  check (decide (Status.OK = (t283).status))
  let t284 ← ApiFloat.category (t283).value
  check (decide (Category.nan = t284))
  let t285 ← (parse ("nan".toList) : M Single)
  let t286 ← ApiFloat.bitwise_eq (t283).value t285
  check t286
  let t287 ← Api.mul t7 t14
  check (decide (Status.OK = (t287).status))

example : passes t_multiply_8 = true := by decide +kernel

/-- tests/ieee.rs:2557 `multiply`. -/
def t_multiply_9 : M Unit := do
  let t1 ← (ApiFloat.INFINITY : M Single)
  let t2 ← (ApiFloat.INFINITY : M Single)
  let t3 ← ApiFloat.neg t2
  let t4 ← (ApiFloat.ZERO : M Single)
  let t5 ← (ApiFloat.ZERO : M Single)
  let t6 ← ApiFloat.neg t5
  let t7 ← (ApiFloat.NAN : M Single)
  let t8 ← (parse ("snan123".toList) : M Single)
  let t14 ← (ApiFloat.SMALLEST : M Single)
  let t15 ← (ApiFloat.SMALLEST : M Single)
  let t16 ← ApiFloat.neg t15
  let t17 ← (ApiFloat.smallest_normalized : M Single)
  let t18 ← (ApiFloat.smallest_normalized : M Single)
  let t19 ← ApiFloat.neg t18
  let t287 ← Api.mul t7 t14
  let t288 ← ApiFloat.category (t287).value
  check (decide (Category.nan = t288))
  let t289 ← (parse ("nan".toList) : M Single)
  let t290 ← ApiFloat.bitwise_eq (t287).value t289
  check t290
  let t291 ← Api.mul t7 t16
  check (decide (Status.OK = (t291).status))
  let t292 ← ApiFloat.category (t291).value
  check (decide (Category.nan = t292))
  let t293 ← (parse ("nan".toList) : M Single)
  let t294 ← ApiFloat.bitwise_eq (t291).value t293
  check t294
  let t295 ← Api.mul t7 t17
  check (decide (Status.OK = (t295).status))
  let t296 ← ApiFloat.category (t295).value
  check (decide (Category.nan = t296))
  let t297 ← (parse ("nan".toList) : M Single)
  let t298 ← ApiFloat.bitwise_eq (t295).value t297
  check t298
  let t299 ← Api.mul t7 t19
  check (decide (Status.OK = (t299).status))
  let t300 ← ApiFloat.category (t299).value
  check (decide (Category.nan = t300))
  let t301 ← (parse ("nan".toList) : M Single)
  let t302 ← ApiFloat.bitwise_eq (t299).value t301
  check t302
  let t303 ← Api.mul t8 t1
  check (decide (({ invalidOp := true } : Status) = (t303).status))
  let t304 ← ApiFloat.category (t303).value
  check (decide (Category.nan = t304))
  let t305 ← (parse ("nan123".toList) : M Single)
  let t306 ← ApiFloat.bitwise_eq (t303).value t305
  check t306
  let t307 ← Api.mul t8 t3
  check (decide (({ invalidOp := true } : Status) = (t307).status))
  let t308 ← ApiFloat.category (t307).value
  check (decide (Category.nan = t308))
  let t309 ← (parse ("nan123".toList) : M Single)
  let t310 ← ApiFloat.bitwise_eq (t307).value t309
  check t310
  let t311 ← Api.mul t8 t4
  check (decide (({ invalidOp := true } : Status) = (t311).status))
  let t312 ← ApiFloat.category (t311).value
  check (decide (Category.nan = t312))
  let t313 ← (parse ("nan123".toList) : M Single)
  let t314 ← ApiFloat.bitwise_eq (t311).value t313
  check t314
  let t315 ← Api.mul t8 t6
  check (decide (({ invalidOp := true } : Status) = (t315).status))
  let t316 ← ApiFloat.category (t315).value
  check (decide (Category.nan = t316))
  let t317 ← (parse ("nan123".toList) : M Single)
  let t318 ← ApiFloat.bitwise_eq (t315).value t317
  check t318
  let t319 ← Api.mul t8 t7
  check (decide (({ invalidOp := true } : Status) = (t319).status))
  let t320 ← ApiFloat.category (t319).value
  check (decide (Category.nan = t320))
  let t321 ← (parse ("nan123".toList) : M Single)
  let t322 ← ApiFloat.bitwise_eq (t319).value t321
  check t322

example : passes t_multiply_9 = true := by decide +kernel

/-- tests/ieee.rs:2557 `multiply`. -/
def t_multiply_10 : M Unit := do
  let t8 ← (parse ("snan123".toList) : M Single)
  let t9 ← (parse ("0x1p+0".toList) : M Single)
  let t10 ← (parse ("-0x1p+0".toList) : M Single)
  let t11 ← (ApiFloat.largest : M Single)
  let t12 ← (ApiFloat.largest : M Single)
  let t13 ← ApiFloat.neg t12
  let t14 ← (ApiFloat.SMALLEST : M Single)
  let t15 ← (ApiFloat.SMALLEST : M Single)
  let t16 ← ApiFloat.neg t15
  let t17 ← (ApiFloat.smallest_normalized : M Single)
  let t18 ← (ApiFloat.smallest_normalized : M Single)
  let t19 ← ApiFloat.neg t18
  let t323 ← Api.mul t8 t8
  check (decide (({ invalidOp := true } : Status) = (t323).status))
  let t324 ← ApiFloat.category (t323).value
  check (decide (Category.nan = t324))
  let t325 ← (parse ("nan123".toList) : M Single)
  let t326 ← ApiFloat.bitwise_eq (t323).value t325
  check t326
  let t327 ← Api.mul t8 t9
  check (decide (({ invalidOp := true } : Status) = (t327).status))
  let t328 ← ApiFloat.category (t327).value
  check (decide (Category.nan = t328))
  let t329 ← (parse ("nan123".toList) : M Single)
  let t330 ← ApiFloat.bitwise_eq (t327).value t329
  check t330
  let t331 ← Api.mul t8 t10
  check (decide (({ invalidOp := true } : Status) = (t331).status))
  let t332 ← ApiFloat.category (t331).value
  check (decide (Category.nan = t332))
  let t333 ← (parse ("nan123".toList) : M Single)
  let t334 ← ApiFloat.bitwise_eq (t331).value t333
  check t334
  let t335 ← Api.mul t8 t11
  check (decide (({ invalidOp := true } : Status) = (t335).status))
  let t336 ← ApiFloat.category (t335).value
  check (decide (Category.nan = t336))
  let t337 ← (parse ("nan123".toList) : M Single)
  let t338 ← ApiFloat.bitwise_eq (t335).value t337
  check t338
  let t339 ← Api.mul t8 t13
  check (decide (({ invalidOp := true } : Status) = (t339).status))
  let t340 ← ApiFloat.category (t339).value
  check (decide (Category.nan = t340))
  let t341 ← (parse ("nan123".toList) : M Single)
  let t342 ← ApiFloat.bitwise_eq (t339).value t341
  check t342
  let t343 ← Api.mul t8 t14
  check (decide (({ invalidOp := true } : Status) = (t343).status))
  let t344 ← ApiFloat.category (t343).value
  check (decide (Category.nan = t344))
  let t345 ← (parse ("nan123".toList) : M Single)
  let t346 ← ApiFloat.bitwise_eq (t343).value t345
  check t346
  let t347 ← Api.mul t8 t16
  check (decide (({ invalidOp := true } : Status) = (t347).status))
  let t348 ← ApiFloat.category (t347).value
  check (decide (Category.nan = t348))
  let t349 ← (parse ("nan123".toList) : M Single)
  let t350 ← ApiFloat.bitwise_eq (t347).value t349
  check t350
  let t351 ← Api.mul t8 t17
  check (decide (({ invalidOp := true } : Status) = (t351).status))
  let t352 ← ApiFloat.category (t351).value
  check (decide (Category.nan = t352))
  let t353 ← (parse ("nan123".toList) : M Single)
  let t354 ← ApiFloat.bitwise_eq (t351).value t353
  check t354
  let t355 ← Api.mul t8 t19
  check (decide (({ invalidOp := true } : Status) = (t355).status))
  let t356 ← ApiFloat.category (t355).value
  check (decide (Category.nan = t356))

example : passes t_multiply_10 = true := by decide +kernel

/-- tests/ieee.rs:2557 `multiply`. -/
def t_multiply_11 : M Unit := do
  let t1 ← (ApiFloat.INFINITY : M Single)
  let t2 ← (ApiFloat.INFINITY : M Single)
  let t3 ← ApiFloat.neg t2
  let t4 ← (ApiFloat.ZERO : M Single)
  let t5 ← (ApiFloat.ZERO : M Single)
  let t6 ← ApiFloat.neg t5
  let t7 ← (ApiFloat.NAN : M Single)
  let t8 ← (parse ("snan123".toList) : M Single)
  let t9 ← (parse ("0x1p+0".toList) : M Single)
  let t10 ← (parse ("-0x1p+0".toList) : M Single)
  let t11 ← (ApiFloat.largest : M Single)
  let t18 ← (ApiFloat.smallest_normalized : M Single)
  let t19 ← ApiFloat.neg t18
  let t355 ← Api.mul t8 t19
  let t357 ← (parse ("nan123".toList) : M Single)
  let t358 ← ApiFloat.bitwise_eq (t355).value t357
  check t358
  let t359 ← Api.mul t9 t1
  check (decide (Status.OK = (t359).status))
  let t360 ← ApiFloat.category (t359).value
  check (decide (Category.infinity = t360))
  let t361 ← (parse ("inf".toList) : M Single)
  let t362 ← ApiFloat.bitwise_eq (t359).value t361
  check t362
  let t363 ← Api.mul t9 t3
  check (decide (Status.OK = (t363).status))
  let t364 ← ApiFloat.category (t363).value
  check (decide (Category.infinity = t364))
  let t365 ← (parse ("-inf".toList) : M Single)
  let t366 ← ApiFloat.bitwise_eq (t363).value t365
  check t366
  let t367 ← Api.mul t9 t4
  check (decide (Status.OK = (t367).status))
  let t368 ← ApiFloat.category (t367).value
  check (decide (Category.zero = t368))
  let t369 ← (parse ("0x0p+0".toList) : M Single)
  let t370 ← ApiFloat.bitwise_eq (t367).value t369
  check t370
  let t371 ← Api.mul t9 t6
  check (decide (Status.OK = (t371).status))
  let t372 ← ApiFloat.category (t371).value
  check (decide (Category.zero = t372))
  let t373 ← (parse ("-0x0p+0".toList) : M Single)
  let t374 ← ApiFloat.bitwise_eq (t371).value t373
  check t374
  let t375 ← Api.mul t9 t7
  check (decide (Status.OK = (t375).status))
  let t376 ← ApiFloat.category (t375).value
  check (decide (Category.nan = t376))
  let t377 ← (parse ("nan".toList) : M Single)
  let t378 ← ApiFloat.bitwise_eq (t375).value t377
  check t378
  let t379 ← Api.mul t9 t8
  check (decide (({ invalidOp := true } : Status) = (t379).status))
  let t380 ← ApiFloat.category (t379).value
  check (decide (Category.nan = t380))
  let t381 ← (parse ("nan123".toList) : M Single)
  let t382 ← ApiFloat.bitwise_eq (t379).value t381
  check t382
  let t383 ← Api.mul t9 t9
  check (decide (Status.OK = (t383).status))
  let t384 ← ApiFloat.category (t383).value
  check (decide (Category.normal = t384))
  let t385 ← (parse ("0x1p+0".toList) : M Single)
  let t386 ← ApiFloat.bitwise_eq (t383).value t385
  check t386
  let t387 ← Api.mul t9 t10
  check (decide (Status.OK = (t387).status))
  let t388 ← ApiFloat.category (t387).value
  check (decide (Category.normal = t388))
  let t389 ← (parse ("-0x1p+0".toList) : M Single)
  let t390 ← ApiFloat.bitwise_eq (t387).value t389
  check t390
  let t391 ← Api.mul t9 t11
  check (decide (Status.OK = (t391).status))

example : passes t_multiply_11 = true := by decide +kernel

/-- tests/ieee.rs:2557 `multiply`. -/
def t_multiply_12 : M Unit := do
  let t1 ← (ApiFloat.INFINITY : M Single)
  let t2 ← (ApiFloat.INFINITY : M Single)
  let t3 ← ApiFloat.neg t2
  let t4 ← (ApiFloat.ZERO : M Single)
  let t9 ← (parse ("0x1p+0".toList) : M Single)
  let t10 ← (parse ("-0x1p+0".toList) : M Single)
  let t11 ← (ApiFloat.largest : M Single)
  let t12 ← (ApiFloat.largest : M Single)
  let t13 ← ApiFloat.neg t12
  let t14 ← (ApiFloat.SMALLEST : M Single)
  let t15 ← (ApiFloat.SMALLEST : M Single)
  let t16 ← ApiFloat.neg t15
  let t17 ← (ApiFloat.smallest_normalized : M Single)
  let t18 ← (ApiFloat.smallest_normalized : M Single)
  let t19 ← ApiFloat.neg t18
  let t391 ← Api.mul t9 t11
  let t392 ← ApiFloat.category (t391).value
  check (decide (Category.normal = t392))
  let t393 ← (parse ("0x1.fffffep+127".toList) : M Single)
  let t394 ← ApiFloat.bitwise_eq (t391).value t393
  check t394
  let t395 ← Api.mul t9 t13
  check (decide (Status.OK = (t395).status))
  let t396 ← ApiFloat.category (t395).value
  check (decide (Category.normal = t396))
  let t397 ← (parse ("-0x1.fffffep+127".toList) : M Single)
  let t398 ← ApiFloat.bitwise_eq (t395).value t397
  check t398
  let t399 ← Api.mul t9 t14
  check (decide (Status.OK = (t399).status))
  let t400 ← ApiFloat.category (t399).value
  check (decide (Category.normal = t400))
  let t401 ← (parse ("0x1p-149".toList) : M Single)
  let t402 ← ApiFloat.bitwise_eq (t399).value t401
  check t402
  let t403 ← Api.mul t9 t16
  check (decide (Status.OK = (t403).status))
  let t404 ← ApiFloat.category (t403).value
  check (decide (Category.normal = t404))
  let t405 ← (parse ("-0x1p-149".toList) : M Single)
  let t406 ← ApiFloat.bitwise_eq (t403).value t405
  check t406
  let t407 ← Api.mul t9 t17
  check (decide (Status.OK = (t407).status))
  let t408 ← ApiFloat.category (t407).value
  check (decide (Category.normal = t408))
  let t409 ← (parse ("0x1p-126".toList) : M Single)
  let t410 ← ApiFloat.bitwise_eq (t407).value t409
  check t410
  let t411 ← Api.mul t9 t19
  check (decide (Status.OK = (t411).status))
  let t412 ← ApiFloat.category (t411).value
  check (decide (Category.normal = t412))
  let t413 ← (parse ("-0x1p-126".toList) : M Single)
  let t414 ← ApiFloat.bitwise_eq (t411).value t413
  check t414
  let t415 ← Api.mul t10 t1
  check (decide (Status.OK = (t415).status))
  let t416 ← ApiFloat.category (t415).value
  check (decide (Category.infinity = t416))
  let t417 ← (parse ("-inf".toList) : M Single)
  let t418 ← ApiFloat.bitwise_eq (t415).value t417
  check t418
  let t419 ← Api.mul t10 t3
  check (decide (Status.OK = (t419).status))
  let t420 ← ApiFloat.category (t419).value
  check (decide (Category.infinity = t420))
  let t421 ← (parse ("inf".toList) : M Single)
  let t422 ← ApiFloat.bitwise_eq (t419).value t421
  check t422
  let t423 ← Api.mul t10 t4
  check (decide (Status.OK = (t423).status))
  let t424 ← ApiFloat.category (t423).value
  check (decide (Category.zero = t424))
  let t425 ← (parse ("-0x0p+0".toList) : M Single)
  let t426 ← ApiFloat.bitwise_eq (t423).value t425
  check t426

example : passes t_multiply_12 = true := by decide +kernel

/-- tests/ieee.rs:2557 `multiply`. -/
def t_multiply_13 : M Unit := do
  let t5 ← (ApiFloat.ZERO : M Single)
  let t6 ← ApiFloat.neg t5
  let t7 ← (ApiFloat.NAN : M Single)
  let t8 ← (parse ("snan123".toList) : M Single)
  let t9 ← (parse ("0x1p+0".toList) : M Single)
  let t10 ← (parse ("-0x1p+0".toList) : M Single)
  let t11 ← (ApiFloat.largest : M Single)
  let t12 ← (ApiFloat.largest : M Single)
  let t13 ← ApiFloat.neg t12
  let t14 ← (ApiFloat.SMALLEST : M Single)
  let t15 ← (ApiFloat.SMALLEST : M Single)
  let t16 ← ApiFloat.neg t15
  let t427 ← Api.mul t10 t6
  check (decide (Status.OK = (t427).status))
  let t428 ← ApiFloat.category (t427).value
  check (decide (Category.zero = t428))
  let t429 ← (parse ("0x0p+0".toList) : M Single)
  let t430 ← ApiFloat.bitwise_eq (t427).value t429
  check t430
  let t431 ← Api.mul t10 t7
  check (decide (Status.OK = (t431).status))
  let t432 ← ApiFloat.category (t431).value
  check (decide (Category.nan = t432))
  let t433 ← (parse ("nan".toList) : M Single)
  let t434 ← ApiFloat.bitwise_eq (t431).value t433
  check t434
  let t435 ← Api.mul t10 t8
  check (decide (({ invalidOp := true } : Status) = (t435).status))
  let t436 ← ApiFloat.category (t435).value
  check (decide (Category.nan = t436))
  let t437 ← (parse ("nan123".toList) : M Single)
  let t438 ← ApiFloat.bitwise_eq (t435).value t437
  check t438
  let t439 ← Api.mul t10 t9
  check (decide (Status.OK = (t439).status))
  let t440 ← ApiFloat.category (t439).value
  check (decide (Category.normal = t440))
  let t441 ← (parse ("-0x1p+0".toList) : M Single)
  let t442 ← ApiFloat.bitwise_eq (t439).value t441
  check t442
  let t443 ← Api.mul t10 t10
  check (decide (Status.OK = (t443).status))
  let t444 ← ApiFloat.category (t443).value
  check (decide (Category.normal = t444))
  let t445 ← (parse ("0x1p+0".toList) : M Single)
  let t446 ← ApiFloat.bitwise_eq (t443).value t445
  check t446
  let t447 ← Api.mul t10 t11
  check (decide (Status.OK = (t447).status))
  let t448 ← ApiFloat.category (t447).value
  check (decide (Category.normal = t448))
  let t449 ← (parse ("-0x1.fffffep+127".toList) : M Single)
  let t450 ← ApiFloat.bitwise_eq (t447).value t449
  check t450
  let t451 ← Api.mul t10 t13
  check (decide (Status.OK = (t451).status))
  let t452 ← ApiFloat.category (t451).value
  check (decide (Category.normal = t452))
  let t453 ← (parse ("0x1.fffffep+127".toList) : M Single)
  let t454 ← ApiFloat.bitwise_eq (t451).value t453
  check t454
  let t455 ← Api.mul t10 t14
  check (decide (Status.OK = (t455).status))
  let t456 ← ApiFloat.category (t455).value
  check (decide (Category.normal = t456))
  let t457 ← (parse ("-0x1p-149".toList) : M Single)
  let t458 ← ApiFloat.bitwise_eq (t455).value t457
  check t458
  let t459 ← Api.mul t10 t16
  check (decide (Status.OK = (t459).status))
  let t460 ← ApiFloat.category (t459).value
  check (decide (Category.normal = t460))

example : passes t_multiply_13 = true := by decide +kernel

/-- tests/ieee.rs:2557 `multiply`. -/
def t_multiply_14 : M Unit := do
  let t1 ← (ApiFloat.INFINITY : M Single)
  let t2 ← (ApiFloat.INFINITY : M Single)
  let t3 ← ApiFloat.neg t2
  let t4 ← (ApiFloat.ZERO : M Single)
  let t5 ← (ApiFloat.ZERO : M Single)
  let t6 ← ApiFloat.neg t5
  let t7 ← (ApiFloat.NAN : M Single)
  let t8 ← (parse ("snan123".toList) : M Single)
  let t9 ← (parse ("0x1p+0".toList) : M Single)
  let t10 ← (parse ("-0x1p+0".toList) : M Single)
  let t11 ← (ApiFloat.largest : M Single)
  let t15 ← (ApiFloat.SMALLEST : M Single)
  let t16 ← ApiFloat.neg t15
  let t17 ← (ApiFloat.smallest_normalized : M Single)
  let t18 ← (ApiFloat.smallest_normalized : M Single)
  let t19 ← ApiFloat.neg t18
  let t459 ← Api.mul t10 t16
  let t461 ← (parse ("0x1p-149".toList) : M Single)
  let t462 ← ApiFloat.bitwise_eq (t459).value t461
  check t462
  let t463 ← Api.mul t10 t17
  check (decide (Status.OK = (t463).status))
  let t464 ← ApiFloat.category (t463).value
  check (decide (Category.normal = t464))
  let t465 ← (parse ("-0x1p-126".toList) : M Single)
  let t466 ← ApiFloat.bitwise_eq (t463).value t465
  check t466
  let t467 ← Api.mul t10 t19
  check (decide (Status.OK = (t467).status))
  let t468 ← ApiFloat.category (t467).value
  check (decide (Category.normal = t468))
  let t469 ← (parse ("0x1p-126".toList) : M Single)
  let t470 ← ApiFloat.bitwise_eq (t467).value t469
  check t470
  let t471 ← Api.mul t11 t1
  check (decide (Status.OK = (t471).status))
  let t472 ← ApiFloat.category (t471).value
  check (decide (Category.infinity = t472))
  let t473 ← (parse ("inf".toList) : M Single)
  let t474 ← ApiFloat.bitwise_eq (t471).value t473
  check t474
  let t475 ← Api.mul t11 t3
  check (decide (Status.OK = (t475).status))
  let t476 ← ApiFloat.category (t475).value
  check (decide (Category.infinity = t476))
  let t477 ← (parse ("-inf".toList) : M Single)
  let t478 ← ApiFloat.bitwise_eq (t475).value t477
  check t478
  let t479 ← Api.mul t11 t4
  check (decide (Status.OK = (t479).status))
  let t480 ← ApiFloat.category (t479).value
  check (decide (Category.zero = t480))
  let t481 ← (parse ("0x0p+0".toList) : M Single)
  let t482 ← ApiFloat.bitwise_eq (t479).value t481
  check t482
  let t483 ← Api.mul t11 t6
  check (decide (Status.OK = (t483).status))
  let t484 ← ApiFloat.category (t483).value
  check (decide (Category.zero = t484))
  let t485 ← (parse ("-0x0p+0".toList) : M Single)
  let t486 ← ApiFloat.bitwise_eq (t483).value t485
  check t486
  let t487 ← Api.mul t11 t7
  check (decide (Status.OK = (t487).status))
  let t488 ← ApiFloat.category (t487).value
  check (decide (Category.nan = t488))
  let t489 ← (parse ("nan".toList) : M Single)
  let t490 ← ApiFloat.bitwise_eq (t487).value t489
  check t490
  let t491 ← Api.mul t11 t8
  check (decide (({ invalidOp := true } : Status) = (t491).status))
  let t492 ← ApiFloat.category (t491).value
  check (decide (Category.nan = t492))
  let t493 ← (parse ("nan123".toList) : M Single)
  let t494 ← ApiFloat.bitwise_eq (t491).value t493
  check t494
  let t495 ← Api.mul t11 t9
  check (decide (Status.OK = (t495).status))

example : passes t_multiply_14 = true := by decide +kernel

/-- tests/ieee.rs:2557 `multiply`. -/
def t_multiply_15 : M Unit := do
  let t1 ← (ApiFloat.INFINITY : M Single)
  let t9 ← (parse ("0x1p+0".toList) : M Single)
  let t10 ← (parse ("-0x1p+0".toList) : M Single)
  let t11 ← (ApiFloat.largest : M Single)
  let t12 ← (ApiFloat.largest : M Single)
  let t13 ← ApiFloat.neg t12
  let t14 ← (ApiFloat.SMALLEST : M Single)
  let t15 ← (ApiFloat.SMALLEST : M Single)
  let t16 ← ApiFloat.neg t15
  let t17 ← (ApiFloat.smallest_normalized : M Single)
  let t18 ← (ApiFloat.smallest_normalized : M Single)
  let t19 ← ApiFloat.neg t18
  let t495 ← Api.mul t11 t9
  let t496 ← ApiFloat.category (t495).value
  check (decide (Category.normal = t496))
  let t497 ← (parse ("0x1.fffffep+127".toList) : M Single)
  let t498 ← ApiFloat.bitwise_eq (t495).value t497
  check t498
  let t499 ← Api.mul t11 t10
  check (decide (Status.OK = (t499).status))
  let t500 ← ApiFloat.category (t499).value
  check (decide (Category.normal = t500))
  let t501 ← (parse ("-0x1.fffffep+127".toList) : M Single)
  let t502 ← ApiFloat.bitwise_eq (t499).value t501
  check t502
  let t503 ← Api.mul t11 t11
  check (decide (({ overflow := true, inexact := true } : Status) = (t503).status))
  let t504 ← ApiFloat.category (t503).value
  check (decide (Category.infinity = t504))
  let t505 ← (parse ("inf".toList) : M Single)
  let t506 ← ApiFloat.bitwise_eq (t503).value t505
  check t506
  let t507 ← Api.mul t11 t13
  check (decide (({ overflow := true, inexact := true } : Status) = (t507).status))
  let t508 ← ApiFloat.category (t507).value
  check (decide (Category.infinity = t508))
  let t509 ← (parse ("-inf".toList) : M Single)
  let t510 ← ApiFloat.bitwise_eq (t507).value t509
  check t510
  let t511 ← Api.mul t11 t14
  check (decide (Status.OK = (t511).status))
  let t512 ← ApiFloat.category (t511).value
  check (decide (Category.normal = t512))
  let t513 ← (parse ("0x1.fffffep-22".toList) : M Single)
  let t514 ← ApiFloat.bitwise_eq (t511).value t513
  check t514
  let t515 ← Api.mul t11 t16
  check (decide (Status.OK = (t515).status))
  let t516 ← ApiFloat.category (t515).value
  check (decide (Category.normal = t516))
  let t517 ← (parse ("-0x1.fffffep-22".toList) : M Single)
  let t518 ← ApiFloat.bitwise_eq (t515).value t517
  check t518
  let t519 ← Api.mul t11 t17
  check (decide (Status.OK = (t519).status))
  let t520 ← ApiFloat.category (t519).value
  check (decide (Category.normal = t520))
  let t521 ← (parse ("0x1.fffffep+1".toList) : M Single)
  let t522 ← ApiFloat.bitwise_eq (t519).value t521
  check t522
  let t523 ← Api.mul t11 t19
  check (decide (Status.OK = (t523).status))
  let t524 ← ApiFloat.category (t523).value
  check (decide (Category.normal = t524))
  let t525 ← (parse ("-0x1.fffffep+1".toList) : M Single)
  let t526 ← ApiFloat.bitwise_eq (t523).value t525
  check t526
  let t527 ← Api.mul t13 t1
  check (decide (Status.OK = (t527).status))
  let t528 ← ApiFloat.category (t527).value
  check (decide (Category.infinity = t528))
  let t529 ← (parse ("-inf".toList) : M Single)
  let t530 ← ApiFloat.bitwise_eq (t527).value t529
  check t530

example : passes t_multiply_15 = true := by decide +kernel

/-- tests/ieee.rs:2557 `multiply`. -/
def t_multiply_16 : M Unit := do
  let t2 ← (ApiFloat.INFINITY : M Single)
  let t3 ← ApiFloat.neg t2
  let t4 ← (ApiFloat.ZERO : M Single)
  let t5 ← (ApiFloat.ZERO : M Single)
  let t6 ← ApiFloat.neg t5
  let t7 ← (ApiFloat.NAN : M Single)
  let t8 ← (parse ("snan123".toList) : M Single)
  let t9 ← (parse ("0x1p+0".toList) : M Single)
  let t10 ← (parse ("-0x1p+0".toList) : M Single)
  let t11 ← (ApiFloat.largest : M Single)
  let t12 ← (ApiFloat.largest : M Single)
  let t13 ← ApiFloat.neg t12
  let t531 ← Api.mul t13 t3
  check (decide (Status.OK = (t531).status))
  let t532 ← ApiFloat.category (t531).value
  check (decide (Category.infinity = t532))
  let t533 ← (parse ("inf".toList) : M Single)
  let t534 ← ApiFloat.bitwise_eq (t531).value t533
  check t534
  let t535 ← Api.mul t13 t4
  check (decide (Status.OK = (t535).status))
  let t536 ← ApiFloat.category (t535).value
  check (decide (Category.zero = t536))
  let t537 ← (parse ("-0x0p+0".toList) : M Single)
  let t538 ← ApiFloat.bitwise_eq (t535).value t537
  check t538
  let t539 ← Api.mul t13 t6
  check (decide (Status.OK = (t539).status))
  let t540 ← ApiFloat.category (t539).value
  check (decide (Category.zero = t540))
  let t541 ← (parse ("0x0p+0".toList) : M Single)
  let t542 ← ApiFloat.bitwise_eq (t539).value t541
  check t542
  let t543 ← Api.mul t13 t7
  check (decide (Status.OK = (t543).status))
  let t544 ← ApiFloat.category (t543).value
  check (decide (Category.nan = t544))
  let t545 ← (parse ("nan".toList) : M Single)
  let t546 ← ApiFloat.bitwise_eq (t543).value t545
  check t546
  let t547 ← Api.mul t13 t8
  check (decide (({ invalidOp := true } : Status) = (t547).status))
  let t548 ← ApiFloat.category (t547).value
  check (decide (Category.nan = t548))
  let t549 ← (parse ("nan123".toList) : M Single)
  let t550 ← ApiFloat.bitwise_eq (t547).value t549
  check t550
  let t551 ← Api.mul t13 t9
  check (decide (Status.OK = (t551).status))
  let t552 ← ApiFloat.category (t551).value
  check (decide (Category.normal = t552))
  let t553 ← (parse ("-0x1.fffffep+127".toList) : M Single)
  let t554 ← ApiFloat.bitwise_eq (t551).value t553
  check t554
  let t555 ← Api.mul t13 t10
  check (decide (Status.OK = (t555).status))
  let t556 ← ApiFloat.category (t555).value
  check (decide (Category.normal = t556))
  let t557 ← (parse ("0x1.fffffep+127".toList) : M Single)
  let t558 ← ApiFloat.bitwise_eq (t555).value t557
  check t558
  let t559 ← Api.mul t13 t11
  check (decide (({ overflow := true, inexact := true } : Status) = (t559).status))
  let t560 ← ApiFloat.category (t559).value
  check (decide (Category.infinity = t560))
  let t561 ← (parse ("-inf".toList) : M Single)
  let t562 ← ApiFloat.bitwise_eq (t559).value t561
  check t562
  let t563 ← Api.mul t13 t13
  check (decide (({ overflow := true, inexact := true } : Status) = (t563).status))
  let t564 ← ApiFloat.category (t563).value
  check (decide (Category.infinity = t564))

example : passes t_multiply_16 = true := by decide +kernel

/-- tests/ieee.rs:2557 `multiply`. -/
def t_multiply_17 : M Unit := do
  let t1 ← (ApiFloat.INFINITY : M Single)
  let t2 ← (ApiFloat.INFINITY : M Single)
  let t3 ← ApiFloat.neg t2
  let t4 ← (ApiFloat.ZERO : M Single)
  let t5 ← (ApiFloat.ZERO : M Single)
  let t6 ← ApiFloat.neg t5
  let t7 ← (ApiFloat.NAN : M Single)
  let t12 ← (ApiFloat.largest : M Single)
  let t13 ← ApiFloat.neg t12
  let t14 ← (ApiFloat.SMALLEST : M Single)
  let t15 ← (ApiFloat.SMALLEST : M Single)
  let t16 ← ApiFloat.neg t15
  let t17 ← (ApiFloat.smallest_normalized : M Single)
  let t18 ← (ApiFloat.smallest_normalized : M Single)
  let t19 ← ApiFloat.neg t18
  let t563 ← Api.mul t13 t13
  let t565 ← (parse ("inf".toList) : M Single)
  let t566 ← ApiFloat.bitwise_eq (t563).value t565
  check t566
  let t567 ← Api.mul t13 t14
  check (decide (Status.OK = (t567).status))
  let t568 ← ApiFloat.category (t567).value
  check (decide (Category.normal = t568))
  let t569 ← (parse ("-0x1.fffffep-22".toList) : M Single)
  let t570 ← ApiFloat.bitwise_eq (t567).value t569
  check t570
  let t571 ← Api.mul t13 t16
  check (decide (Status.OK = (t571).status))
  let t572 ← ApiFloat.category (t571).value
  check (decide (Category.normal = t572))
  let t573 ← (parse ("0x1.fffffep-22".toList) : M Single)
  let t574 ← ApiFloat.bitwise_eq (t571).value t573
  check t574
  let t575 ← Api.mul t13 t17
  check (decide (Status.OK = (t575).status))
  let t576 ← ApiFloat.category (t575).value
  check (decide (Category.normal = t576))
  let t577 ← (parse ("-0x1.fffffep+1".toList) : M Single)
  let t578 ← ApiFloat.bitwise_eq (t575).value t577
  check t578
  let t579 ← Api.mul t13 t19
  check (decide (Status.OK = (t579).status))
  let t580 ← ApiFloat.category (t579).value
  check (decide (Category.normal = t580))
  let t581 ← (parse ("0x1.fffffep+1".toList) : M Single)
  let t582 ← ApiFloat.bitwise_eq (t579).value t581
  check t582
  let t583 ← Api.mul t14 t1
  check (decide (Status.OK = (t583).status))
  let t584 ← ApiFloat.category (t583).value
  check (decide (Category.infinity = t584))
  let t585 ← (parse ("inf".toList) : M Single)
  let t586 ← ApiFloat.bitwise_eq (t583).value t585
  check t586
  let t587 ← Api.mul t14 t3
  check (decide (Status.OK = (t587).status))
  let t588 ← ApiFloat.category (t587).value
  check (decide (Category.infinity = t588))
  let t589 ← (parse ("-inf".toList) : M Single)
  let t590 ← ApiFloat.bitwise_eq (t587).value t589
  check t590
  let t591 ← Api.mul t14 t4
  check (decide (Status.OK = (t591).status))
  let t592 ← ApiFloat.category (t591).value
  check (decide (Category.zero = t592))
  let t593 ← (parse ("0x0p+0".toList) : M Single)
  let t594 ← ApiFloat.bitwise_eq (t591).value t593
  check t594
  let t595 ← Api.mul t14 t6
  check (decide (Status.OK = (t595).status))
  let t596 ← ApiFloat.category (t595).value
  check (decide (Category.zero = t596))
  let t597 ← (parse ("-0x0p+0".toList) : M Single)
  let t598 ← ApiFloat.bitwise_eq (t595).value t597
  check t598
  let t599 ← Api.mul t14 t7
  check (decide (Status.OK = (t599).status))

example : passes t_multiply_17 = true := by decide +kernel

/-- tests/ieee.rs:2557 `multiply`. -/
def t_multiply_18 : M Unit := do
  let t7 ← (ApiFloat.NAN : M Single)
  let t8 ← (parse ("snan123".toList) : M Single)
  let t9 ← (parse ("0x1p+0".toList) : M Single)
  let t10 ← (parse ("-0x1p+0".toList) : M Single)
  let t11 ← (ApiFloat.largest : M Single)
  let t12 ← (ApiFloat.largest : M Single)
  let t13 ← ApiFloat.neg t12
  let t14 ← (ApiFloat.SMALLEST : M Single)
  let t15 ← (ApiFloat.SMALLEST : M Single)
  let t16 ← ApiFloat.neg t15
  let t17 ← (ApiFloat.smallest_normalized : M Single)
  let t599 ← Api.mul t14 t7
  let t600 ← ApiFloat.category (t599).value
  check (decide (Category.nan = t600))
  let t601 ← (parse ("nan".toList) : M Single)
  let t602 ← ApiFloat.bitwise_eq (t599).value t601
  check t602
  let t603 ← Api.mul t14 t8
  check (decide (({ invalidOp := true } : Status) = (t603).status))
  let t604 ← ApiFloat.category (t603).value
  check (decide (Category.nan = t604))
  let t605 ← (parse ("nan123".toList) : M Single)
  let t606 ← ApiFloat.bitwise_eq (t603).value t605
  check t606
  let t607 ← Api.mul t14 t9
  check (decide (Status.OK = (t607).status))
  let t608 ← ApiFloat.category (t607).value
  check (decide (Category.normal = t608))
  let t609 ← (parse ("0x1p-149".toList) : M Single)
  let t610 ← ApiFloat.bitwise_eq (t607).value t609
  check t610
  let t611 ← Api.mul t14 t10
  check (decide (Status.OK = (t611).status))
  let t612 ← ApiFloat.category (t611).value
  check (decide (Category.normal = t612))
  let t613 ← (parse ("-0x1p-149".toList) : M Single)
  let t614 ← ApiFloat.bitwise_eq (t611).value t613
  check t614
  let t615 ← Api.mul t14 t11
  check (decide (Status.OK = (t615).status))
  let t616 ← ApiFloat.category (t615).value
  check (decide (Category.normal = t616))
  let t617 ← (parse ("0x1.fffffep-22".toList) : M Single)
  let t618 ← ApiFloat.bitwise_eq (t615).value t617
  check t618
  let t619 ← Api.mul t14 t13
  check (decide (Status.OK = (t619).status))
  let t620 ← ApiFloat.category (t619).value
  check (decide (Category.normal = t620))
  let t621 ← (parse ("-0x1.fffffep-22".toList) : M Single)
  let t622 ← ApiFloat.bitwise_eq (t619).value t621
  check t622
  let t623 ← Api.mul t14 t14
  check (decide (({ underflow := true, inexact := true } : Status) = (t623).status))
  let t624 ← ApiFloat.category (t623).value
  check (decide (Category.zero = t624))
  let t625 ← (parse ("0x0p+0".toList) : M Single)
  let t626 ← ApiFloat.bitwise_eq (t623).value t625
  check t626
  let t627 ← Api.mul t14 t16
  check (decide (({ underflow := true, inexact := true } : Status) = (t627).status))
  let t628 ← ApiFloat.category (t627).value
  check (decide (Category.zero = t628))
  let t629 ← (parse ("-0x0p+0".toList) : M Single)
  let t630 ← ApiFloat.bitwise_eq (t627).value t629
  check t630
  let t631 ← Api.mul t14 t17
  check (decide (({ underflow := true, inexact := true } : Status) = (t631).status))
  let t632 ← ApiFloat.category (t631).value
  check (decide (Category.zero = t632))
  let t633 ← (parse ("0x0p+0".toList) : M Single)
  let t634 ← ApiFloat.bitwise_eq (t631).value t633
  check t634

example : passes t_multiply_18 = true := by decide +kernel

/-- tests/ieee.rs:2557 `multiply`. -/
def t_multiply_19 : M Unit := do
  let t1 ← (ApiFloat.INFINITY : M Single)
  let t2 ← (ApiFloat.INFINITY : M Single)
  let t3 ← ApiFloat.neg t2
  let t4 ← (ApiFloat.ZERO : M Single)
  let t5 ← (ApiFloat.ZERO : M Single)
  let t6 ← ApiFloat.neg t5
  let t7 ← (ApiFloat.NAN : M Single)
  let t8 ← (parse ("snan123".toList) : M Single)
  let t9 ← (parse ("0x1p+0".toList) : M Single)
  let t10 ← (parse ("-0x1p+0".toList) : M Single)
  let t14 ← (ApiFloat.SMALLEST : M Single)
  let t15 ← (ApiFloat.SMALLEST : M Single)
  let t16 ← ApiFloat.neg t15
  let t18 ← (ApiFloat.smallest_normalized : M Single)
  let t19 ← ApiFloat.neg t18
  let t635 ← Api.mul t14 t19
  check (decide (({ underflow := true, inexact := true } : Status) = (t635).status))
  let t636 ← ApiFloat.category (t635).value
  check (decide (Category.zero = t636))
  let t637 ← (parse ("-0x0p+0".toList) : M Single)
  let t638 ← ApiFloat.bitwise_eq (t635).value t637
  check t638
  let t639 ← Api.mul t16 t1
  check (decide (Status.OK = (t639).status))
  let t640 ← ApiFloat.category (t639).value
  check (decide (Category.infinity = t640))
  let t641 ← (parse ("-inf".toList) : M Single)
  let t642 ← ApiFloat.bitwise_eq (t639).value t641
  check t642
  let t643 ← Api.mul t16 t3
  check (decide (Status.OK = (t643).status))
  let t644 ← ApiFloat.category (t643).value
  check (decide (Category.infinity = t644))
  let t645 ← (parse ("inf".toList) : M Single)
  let t646 ← ApiFloat.bitwise_eq (t643).value t645
  check t646
  let t647 ← Api.mul t16 t4
  check (decide (Status.OK = (t647).status))
  let t648 ← ApiFloat.category (t647).value
  check (decide (Category.zero = t648))
  let t649 ← (parse ("-0x0p+0".toList) : M Single)
  let t650 ← ApiFloat.bitwise_eq (t647).value t649
  check t650
  let t651 ← Api.mul t16 t6
  check (decide (Status.OK = (t651).status))
  let t652 ← ApiFloat.category (t651).value
  check (decide (Category.zero = t652))
  let t653 ← (parse ("0x0p+0".toList) : M Single)
  let t654 ← ApiFloat.bitwise_eq (t651).value t653
  check t654
  let t655 ← Api.mul t16 t7
  check (decide (Status.OK = (t655).status))
  let t656 ← ApiFloat.category (t655).value
  check (decide (Category.nan = t656))
  let t657 ← (parse ("nan".toList) : M Single)
  let t658 ← ApiFloat.bitwise_eq (t655).value t657
  check t658
  let t659 ← Api.mul t16 t8
  check (decide (({ invalidOp := true } : Status) = (t659).status))
  let t660 ← ApiFloat.category (t659).value
  check (decide (Category.nan = t660))
  let t661 ← (parse ("nan123".toList) : M Single)
  let t662 ← ApiFloat.bitwise_eq (t659).value t661
  check t662
  let t663 ← Api.mul t16 t9
  check (decide (Status.OK = (t663).status))
  let t664 ← ApiFloat.category (t663).value
  check (decide (Category.normal = t664))
  let t665 ← (parse ("-0x1p-149".toList) : M Single)
  let t666 ← ApiFloat.bitwise_eq (t663).value t665
  check t666
  let t667 ← Api.mul t16 t10
  check (decide (Status.OK = (t667).status))
  let t668 ← ApiFloat.category (t667).value
  check (decide (Category.normal = t668))

example : passes t_multiply_19 = true := by decide +kernel

/-- tests/ieee.rs:2557 `multiply`. -/
def t_multiply_20 : M Unit := do
  let t1 ← (ApiFloat.INFINITY : M Single)
  let t2 ← (ApiFloat.INFINITY : M Single)
  let t3 ← ApiFloat.neg t2
  let t4 ← (ApiFloat.ZERO : M Single)
  let t10 ← (parse ("-0x1p+0".toList) : M Single)
  let t11 ← (ApiFloat.largest : M Single)
  let t12 ← (ApiFloat.largest : M Single)
  let t13 ← ApiFloat.neg t12
  let t14 ← (ApiFloat.SMALLEST : M Single)
  let t15 ← (ApiFloat.SMALLEST : M Single)
  let t16 ← ApiFloat.neg t15
  let t17 ← (ApiFloat.smallest_normalized : M Single)
  let t18 ← (ApiFloat.smallest_normalized : M Single)
  let t19 ← ApiFloat.neg t18
  let t667 ← Api.mul t16 t10
  let t669 ← (parse ("0x1p-149".toList) : M Single)
  let t670 ← ApiFloat.bitwise_eq (t667).value t669
  check t670
  let t671 ← Api.mul t16 t11
  check (decide (Status.OK = (t671).status))
  let t672 ← ApiFloat.category (t671).value
  check (decide (Category.normal = t672))
  let t673 ← (parse ("-0x1.fffffep-22".toList) : M Single)
  let t674 ← ApiFloat.bitwise_eq (t671).value t673
  check t674
  let t675 ← Api.mul t16 t13
  check (decide (Status.OK = (t675).status))
  let t676 ← ApiFloat.category (t675).value
  check (decide (Category.normal = t676))
  let t677 ← (parse ("0x1.fffffep-22".toList) : M Single)
  let t678 ← ApiFloat.bitwise_eq (t675).value t677
  check t678
  let t679 ← Api.mul t16 t14
  check (decide (({ underflow := true, inexact := true } : Status) = (t679).status))
  let t680 ← ApiFloat.category (t679).value
  check (decide (Category.zero = t680))
  let t681 ← (parse ("-0x0p+0".toList) : M Single)
  let t682 ← ApiFloat.bitwise_eq (t679).value t681
  check t682
  let t683 ← Api.mul t16 t16
  check (decide (({ underflow := true, inexact := true } : Status) = (t683).status))
  let t684 ← ApiFloat.category (t683).value
  check (decide (Category.zero = t684))
  let t685 ← (parse ("0x0p+0".toList) : M Single)
  let t686 ← ApiFloat.bitwise_eq (t683).value t685
  check t686
  let t687 ← Api.mul t16 t17
  check (decide (({ underflow := true, inexact := true } : Status) = (t687).status))
  let t688 ← ApiFloat.category (t687).value
  check (decide (Category.zero = t688))
  let t689 ← (parse ("-0x0p+0".toList) : M Single)
  let t690 ← ApiFloat.bitwise_eq (t687).value t689
  check t690
  let t691 ← Api.mul t16 t19
  check (decide (({ underflow := true, inexact := true } : Status) = (t691).status))
  let t692 ← ApiFloat.category (t691).value
  check (decide (Category.zero = t692))
  let t693 ← (parse ("0x0p+0".toList) : M Single)
  let t694 ← ApiFloat.bitwise_eq (t691).value t693
  check t694
  let t695 ← Api.mul t17 t1
  check (decide (Status.OK = (t695).status))
  let t696 ← ApiFloat.category (t695).value
  check (decide (Category.infinity = t696))
  let t697 ← (parse ("inf".toList) : M Single)
  let t698 ← ApiFloat.bitwise_eq (t695).value t697
  check t698
  let t699 ← Api.mul t17 t3
  check (decide (Status.OK = (t699).status))
  let t700 ← ApiFloat.category (t699).value
  check (decide (Category.infinity = t700))
  let t701 ← (parse ("-inf".toList) : M Single)
  let t702 ← ApiFloat.bitwise_eq (t699).value t701
  check t702
  let t703 ← Api.mul t17 t4
  check (decide (Status.OK = (t703).status))

example : passes t_multiply_20 = true := by decide +kernel

/-- tests/ieee.rs:2557 `multiply`. -/
def t_multiply_21 : M Unit := do
  let t4 ← (ApiFloat.ZERO : M Single)
  let t5 ← (ApiFloat.ZERO : M Single)
  let t6 ← ApiFloat.neg t5
  let t7 ← (ApiFloat.NAN : M Single)
  let t8 ← (parse ("snan123".toList) : M Single)
  let t9 ← (parse ("0x1p+0".toList) : M Single)
  let t10 ← (parse ("-0x1p+0".toList) : M Single)
  let t11 ← (ApiFloat.largest : M Single)
  let t12 ← (ApiFloat.largest : M Single)
  let t13 ← ApiFloat.neg t12
  let t14 ← (ApiFloat.SMALLEST : M Single)
  let t17 ← (ApiFloat.smallest_normalized : M Single)
  let t703 ← Api.mul t17 t4
  let t704 ← ApiFloat.category (t703).value
  check (decide (Category.zero = t704))
  let t705 ← (parse ("0x0p+0".toList) : M Single)
  let t706 ← ApiFloat.bitwise_eq (t703).value t705
  check t706
  let t707 ← Api.mul t17 t6
  check (decide (Status.OK = (t707).status))
  let t708 ← ApiFloat.category (t707).value
  check (decide (Category.zero = t708))
  let t709 ← (parse ("-0x0p+0".toList) : M Single)
  let t710 ← ApiFloat.bitwise_eq (t707).value t709
  check t710
  let t711 ← Api.mul t17 t7
  check (decide (Status.OK = (t711).status))
  let t712 ← ApiFloat.category (t711).value
  check (decide (Category.nan = t712))
  let t713 ← (parse ("nan".toList) : M Single)
  let t714 ← ApiFloat.bitwise_eq (t711).value t713
  check t714
  let t715 ← Api.mul t17 t8
  check (decide (({ invalidOp := true } : Status) = (t715).status))
  let t716 ← ApiFloat.category (t715).value
  check (decide (Category.nan = t716))
  let t717 ← (parse ("nan123".toList) : M Single)
  let t718 ← ApiFloat.bitwise_eq (t715).value t717
  check t718
  let t719 ← Api.mul t17 t9
  check (decide (Status.OK = (t719).status))
  let t720 ← ApiFloat.category (t719).value
  check (decide (Category.normal = t720))
  let t721 ← (parse ("0x1p-126".toList) : M Single)
  let t722 ← ApiFloat.bitwise_eq (t719).value t721
  check t722
  let t723 ← Api.mul t17 t10
  check (decide (Status.OK = (t723).status))
  let t724 ← ApiFloat.category (t723).value
  check (decide (Category.normal = t724))
  let t725 ← (parse ("-0x1p-126".toList) : M Single)
  let t726 ← ApiFloat.bitwise_eq (t723).value t725
  check t726
  let t727 ← Api.mul t17 t11
  check (decide (Status.OK = (t727).status))
  let t728 ← ApiFloat.category (t727).value
  check (decide (Category.normal = t728))
  let t729 ← (parse ("0x1.fffffep+1".toList) : M Single)
  let t730 ← ApiFloat.bitwise_eq (t727).value t729
  check t730
  let t731 ← Api.mul t17 t13
  check (decide (Status.OK = (t731).status))
  let t732 ← ApiFloat.category (t731).value
  check (decide (Category.normal = t732))
  let t733 ← (parse ("-0x1.fffffep+1".toList) : M Single)
  let t734 ← ApiFloat.bitwise_eq (t731).value t733
  check t734
  let t735 ← Api.mul t17 t14
  check (decide (({ underflow := true, inexact := true } : Status) = (t735).status))
  let t736 ← ApiFloat.category (t735).value
  check (decide (Category.zero = t736))
  let t737 ← (parse ("0x0p+0".toList) : M Single)
  let t738 ← ApiFloat.bitwise_eq (t735).value t737
  check t738

example : passes t_multiply_21 = true := by decide +kernel

/-- tests/ieee.rs:2557 `multiply`. -/
def t_multiply_22 : M Unit := do
  let t1 ← (ApiFloat.INFINITY : M Single)
  let t2 ← (ApiFloat.INFINITY : M Single)
  let t3 ← ApiFloat.neg t2
  let t4 ← (ApiFloat.ZERO : M Single)
  let t5 ← (ApiFloat.ZERO : M Single)
  let t6 ← ApiFloat.neg t5
  let t7 ← (ApiFloat.NAN : M Single)
  let t8 ← (parse ("snan123".toList) : M Single)
  let t15 ← (ApiFloat.SMALLEST : M Single)
  let t16 ← ApiFloat.neg t15
  let t17 ← (ApiFloat.smallest_normalized : M Single)
  let t18 ← (ApiFloat.smallest_normalized : M Single)
  let t19 ← ApiFloat.neg t18
  let t739 ← Api.mul t17 t16
  check (decide (({ underflow := true, inexact := true } : Status) = (t739).status))
  let t740 ← ApiFloat.category (t739).value
  check (decide (Category.zero = t740))
  let t741 ← (parse ("-0x0p+0".toList) : M Single)
  let t742 ← ApiFloat.bitwise_eq (t739).value t741
  check t742
  let t743 ← Api.mul t17 t17
  check (decide (({ underflow := true, inexact := true } : Status) = (t743).status))
  let t744 ← ApiFloat.category (t743).value
  check (decide (Category.zero = t744))
  let t745 ← (parse ("0x0p+0".toList) : M Single)
  let t746 ← ApiFloat.bitwise_eq (t743).value t745
  check t746
  let t747 ← Api.mul t17 t19
  check (decide (({ underflow := true, inexact := true } : Status) = (t747).status))
  let t748 ← ApiFloat.category (t747).value
  check (decide (Category.zero = t748))
  let t749 ← (parse ("-0x0p+0".toList) : M Single)
  let t750 ← ApiFloat.bitwise_eq (t747).value t749
  check t750
  let t751 ← Api.mul t19 t1
  check (decide (Status.OK = (t751).status))
  let t752 ← ApiFloat.category (t751).value
  check (decide (Category.infinity = t752))
  let t753 ← (parse ("-inf".toList) : M Single)
  let t754 ← ApiFloat.bitwise_eq (t751).value t753
  check t754
  let t755 ← Api.mul t19 t3
  check (decide (Status.OK = (t755).status))
  let t756 ← ApiFloat.category (t755).value
  check (decide (Category.infinity = t756))
  let t757 ← (parse ("inf".toList) : M Single)
  let t758 ← ApiFloat.bitwise_eq (t755).value t757
  check t758
  let t759 ← Api.mul t19 t4
  check (decide (Status.OK = (t759).status))
  let t760 ← ApiFloat.category (t759).value
  check (decide (Category.zero = t760))
  let t761 ← (parse ("-0x0p+0".toList) : M Single)
  let t762 ← ApiFloat.bitwise_eq (t759).value t761
  check t762
  let t763 ← Api.mul t19 t6
  check (decide (Status.OK = (t763).status))
  let t764 ← ApiFloat.category (t763).value
  check (decide (Category.zero = t764))
  let t765 ← (parse ("0x0p+0".toList) : M Single)
  let t766 ← ApiFloat.bitwise_eq (t763).value t765
  check t766
  let t767 ← Api.mul t19 t7
  check (decide (Status.OK = (t767).status))
  let t768 ← ApiFloat.category (t767).value
  check (decide (Category.nan = t768))
  let t769 ← (parse ("nan".toList) : M Single)
  let t770 ← ApiFloat.bitwise_eq (t767).value t769
  check t770
  let t771 ← Api.mul t19 t8
  check (decide (({ invalidOp := true } : Status) = (t771).status))
  let t772 ← ApiFloat.category (t771).value
  check (decide (Category.nan = t772))

example : passes t_multiply_22 = true := by decide +kernel

/-- tests/ieee.rs:2557 `multiply`. -/
def t_multiply_23 : M Unit := do
  let t8 ← (parse ("snan123".toList) : M Single)
  let t9 ← (parse ("0x1p+0".toList) : M Single)
  let t10 ← (parse ("-0x1p+0".toList) : M Single)
  let t11 ← (ApiFloat.largest : M Single)
  let t12 ← (ApiFloat.largest : M Single)
  let t13 ← ApiFloat.neg t12
  let t14 ← (ApiFloat.SMALLEST : M Single)
  let t15 ← (ApiFloat.SMALLEST : M Single)
  let t16 ← ApiFloat.neg t15
  let t17 ← (ApiFloat.smallest_normalized : M Single)
  let t18 ← (ApiFloat.smallest_normalized : M Single)
  let t19 ← ApiFloat.neg t18
  let t20 ← (parse ("0x1.ffffffffffffffffffffffffffffp+16383".toList) : M Quad)
  let t21 ← (parse ("0x0.0000000000000000000000000001p-16382".toList) : M Quad)
  let t771 ← Api.mul t19 t8
  let t773 ← (parse ("nan123".toList) : M Single)
  let t774 ← ApiFloat.bitwise_eq (t771).value t773
  check t774
  let t775 ← Api.mul t19 t9
  check (decide (Status.OK = (t775).status))
  let t776 ← ApiFloat.category (t775).value
  check (decide (Category.normal = t776))
  let t777 ← (parse ("-0x1p-126".toList) : M Single)
  let t778 ← ApiFloat.bitwise_eq (t775).value t777
  check t778
  let t779 ← Api.mul t19 t10
  check (decide (Status.OK = (t779).status))
  let t780 ← ApiFloat.category (t779).value
  check (decide (Category.normal = t780))
  let t781 ← (parse ("0x1p-126".toList) : M Single)
  let t782 ← ApiFloat.bitwise_eq (t779).value t781
  check t782
  let t783 ← Api.mul t19 t11
  check (decide (Status.OK = (t783).status))
  let t784 ← ApiFloat.category (t783).value
  check (decide (Category.normal = t784))
  let t785 ← (parse ("-0x1.fffffep+1".toList) : M Single)
  let t786 ← ApiFloat.bitwise_eq (t783).value t785
  check t786
  let t787 ← Api.mul t19 t13
  check (decide (Status.OK = (t787).status))
  let t788 ← ApiFloat.category (t787).value
  check (decide (Category.normal = t788))
  let t789 ← (parse ("0x1.fffffep+1".toList) : M Single)
  let t790 ← ApiFloat.bitwise_eq (t787).value t789
  check t790
  let t791 ← Api.mul t19 t14
  check (decide (({ underflow := true, inexact := true } : Status) = (t791).status))
  let t792 ← ApiFloat.category (t791).value
  check (decide (Category.zero = t792))
  let t793 ← (parse ("-0x0p+0".toList) : M Single)
  let t794 ← ApiFloat.bitwise_eq (t791).value t793
  check t794
  let t795 ← Api.mul t19 t16
  check (decide (({ underflow := true, inexact := true } : Status) = (t795).status))
  let t796 ← ApiFloat.category (t795).value
  check (decide (Category.zero = t796))
  let t797 ← (parse ("0x0p+0".toList) : M Single)
  let t798 ← ApiFloat.bitwise_eq (t795).value t797
  check t798
  let t799 ← Api.mul t19 t17
  check (decide (({ underflow := true, inexact := true } : Status) = (t799).status))
  let t800 ← ApiFloat.category (t799).value
  check (decide (Category.zero = t800))
  let t801 ← (parse ("-0x0p+0".toList) : M Single)
  let t802 ← ApiFloat.bitwise_eq (t799).value t801
  check t802
  let t803 ← Api.mul t19 t19
  check (decide (({ underflow := true, inexact := true } : Status) = (t803).status))
  let t804 ← ApiFloat.category (t803).value
  check (decide (Category.zero = t804))
  let t805 ← (parse ("0x0p+0".toList) : M Single)
  let t806 ← ApiFloat.bitwise_eq (t803).value t805
  check t806
  let t807 ← ApiFloat.mul_r t20 t21 Round.nearestTiesToEven
  check (decide (Status.OK = (t807).status))

example : passes t_multiply_23 = true := by decide +kernel

/-- tests/ieee.rs:2557 `multiply`. -/
def t_multiply_24 : M Unit := do
  let t20 ← (parse ("0x1.ffffffffffffffffffffffffffffp+16383".toList) : M Quad)
  let t21 ← (parse ("0x0.0000000000000000000000000001p-16382".toList) : M Quad)
  let t22 ← (parse ("-0x0.0000000000000000000000000001p-16382".toList) : M Quad)
  let t807 ← ApiFloat.mul_r t20 t21 Round.nearestTiesToEven
  let t808 ← ApiFloat.category (t807).value
  check (decide (Category.normal = t808))
  let t809 ← (parse ("0x1.ffffffffffffffffffffffffffffp-111".toList) : M Quad)
  let t810 ← ApiFloat.bitwise_eq (t807).value t809
  check t810
  let t811 ← ApiFloat.mul_r t20 t21 Round.towardPositive
  check (decide (Status.OK = (t811).status))
  let t812 ← ApiFloat.category (t811).value
  check (decide (Category.normal = t812))
  let t813 ← (parse ("0x1.ffffffffffffffffffffffffffffp-111".toList) : M Quad)
  let t814 ← ApiFloat.bitwise_eq (t811).value t813
  check t814
  let t815 ← ApiFloat.mul_r t20 t21 Round.towardNegative
  check (decide (Status.OK = (t815).status))
  let t816 ← ApiFloat.category (t815).value
  check (decide (Category.normal = t816))
  let t817 ← (parse ("0x1.ffffffffffffffffffffffffffffp-111".toList) : M Quad)
  let t818 ← ApiFloat.bitwise_eq (t815).value t817
  check t818
  let t819 ← ApiFloat.mul_r t20 t21 Round.towardZero
  check (decide (Status.OK = (t819).status))
  let t820 ← ApiFloat.category (t819).value
  check (decide (Category.normal = t820))
  let t821 ← (parse ("0x1.ffffffffffffffffffffffffffffp-111".toList) : M Quad)
  let t822 ← ApiFloat.bitwise_eq (t819).value t821
  check t822
  let t823 ← ApiFloat.mul_r t20 t21 Round.nearestTiesToAway
  check (decide (Status.OK = (t823).status))
  let t824 ← ApiFloat.category (t823).value
  check (decide (Category.normal = t824))
  let t825 ← (parse ("0x1.ffffffffffffffffffffffffffffp-111".toList) : M Quad)
  let t826 ← ApiFloat.bitwise_eq (t823).value t825
  check t826
  let t827 ← ApiFloat.mul_r t20 t22 Round.nearestTiesToEven
  check (decide (Status.OK = (t827).status))
  let t828 ← ApiFloat.category (t827).value
  check (decide (Category.normal = t828))
  let t829 ← (parse ("-0x1.ffffffffffffffffffffffffffffp-111".toList) : M Quad)
  let t830 ← ApiFloat.bitwise_eq (t827).value t829
  check t830
  let t831 ← ApiFloat.mul_r t20 t22 Round.towardPositive
  check (decide (Status.OK = (t831).status))
  let t832 ← ApiFloat.category (t831).value
  check (decide (Category.normal = t832))
  let t833 ← (parse ("-0x1.ffffffffffffffffffffffffffffp-111".toList) : M Quad)
  let t834 ← ApiFloat.bitwise_eq (t831).value t833
  check t834
  let t835 ← ApiFloat.mul_r t20 t22 Round.towardNegative
  check (decide (Status.OK = (t835).status))
  let t836 ← ApiFloat.category (t835).value
  check (decide (Category.normal = t836))
  let t837 ← (parse ("-0x1.ffffffffffffffffffffffffffffp-111".toList) : M Quad)
  let t838 ← ApiFloat.bitwise_eq (t835).value t837
  check t838
  let t839 ← ApiFloat.mul_r t20 t22 Round.towardZero
  check (decide (Status.OK = (t839).status))
  let t840 ← ApiFloat.category (t839).value
  check (decide (Category.normal = t840))
  let t841 ← (parse ("-0x1.ffffffffffffffffffffffffffffp-111".toList) : M Quad)
  let t842 ← ApiFloat.bitwise_eq (t839).value t841
  check t842

example : passes t_multiply_24 = true := by decide +kernel

/-- tests/ieee.rs:2557 `multiply`. -/
def t_multiply_25 : M Unit := do
  let t20 ← (parse ("0x1.ffffffffffffffffffffffffffffp+16383".toList) : M Quad)
  let t21 ← (parse ("0x0.0000000000000000000000000001p-16382".toList) : M Quad)
  let t22 ← (parse ("-0x0.0000000000000000000000000001p-16382".toList) : M Quad)
  let t843 ← ApiFloat.mul_r t20 t22 Round.nearestTiesToAway
  check (decide (Status.OK = (t843).status))
  let t844 ← ApiFloat.category (t843).value
  check (decide (Category.normal = t844))
  let t845 ← (parse ("-0x1.ffffffffffffffffffffffffffffp-111".toList) : M Quad)
  let t846 ← ApiFloat.bitwise_eq (t843).value t845
  check t846
  let t847 ← ApiFloat.mul_r t20 t20 Round.nearestTiesToEven
  check (decide (({ overflow := true, inexact := true } : Status) = (t847).status))
  let t848 ← ApiFloat.category (t847).value
  check (decide (Category.infinity = t848))
  let t849 ← (parse ("inf".toList) : M Quad)
  let t850 ← ApiFloat.bitwise_eq (t847).value t849
  check t850
  let t851 ← ApiFloat.mul_r t20 t20 Round.towardPositive
  check (decide (({ overflow := true, inexact := true } : Status) = (t851).status))
  let t852 ← ApiFloat.category (t851).value
  check (decide (Category.infinity = t852))
  let t853 ← (parse ("inf".toList) : M Quad)
  let t854 ← ApiFloat.bitwise_eq (t851).value t853
  check t854
  let t855 ← ApiFloat.mul_r t20 t20 Round.towardNegative
  check (decide (({ inexact := true } : Status) = (t855).status))
  let t856 ← ApiFloat.category (t855).value
  check (decide (Category.normal = t856))
  let t857 ← (parse ("0x1.ffffffffffffffffffffffffffffp+16383".toList) : M Quad)
  let t858 ← ApiFloat.bitwise_eq (t855).value t857
  check t858
  let t859 ← ApiFloat.mul_r t20 t20 Round.towardZero
  check (decide (({ inexact := true } : Status) = (t859).status))
  let t860 ← ApiFloat.category (t859).value
  check (decide (Category.normal = t860))
  let t861 ← (parse ("0x1.ffffffffffffffffffffffffffffp+16383".toList) : M Quad)
  let t862 ← ApiFloat.bitwise_eq (t859).value t861
  check t862
  let t863 ← ApiFloat.mul_r t20 t20 Round.nearestTiesToAway
  check (decide (({ overflow := true, inexact := true } : Status) = (t863).status))
  let t864 ← ApiFloat.category (t863).value
  check (decide (Category.infinity = t864))
  let t865 ← (parse ("inf".toList) : M Quad)
  let t866 ← ApiFloat.bitwise_eq (t863).value t865
  check t866
  let t867 ← ApiFloat.mul_r t21 t21 Round.nearestTiesToEven
  check (decide (({ underflow := true, inexact := true } : Status) = (t867).status))
  let t868 ← ApiFloat.category (t867).value
  check (decide (Category.zero = t868))
  let t869 ← (parse ("0".toList) : M Quad)
  let t870 ← ApiFloat.bitwise_eq (t867).value t869
  check t870
  let t871 ← ApiFloat.mul_r t21 t21 Round.towardPositive
  check (decide (({ underflow := true, inexact := true } : Status) = (t871).status))
  let t872 ← ApiFloat.category (t871).value
  check (decide (Category.normal = t872))
  let t873 ← (parse ("0x0.0000000000000000000000000001p-16382".toList) : M Quad)
  let t874 ← ApiFloat.bitwise_eq (t871).value t873
  check t874
  let t875 ← ApiFloat.mul_r t21 t21 Round.towardNegative
  check (decide (({ underflow := true, inexact := true } : Status) = (t875).status))
  let t876 ← ApiFloat.category (t875).value
  check (decide (Category.zero = t876))

example : passes t_multiply_25 = true := by decide +kernel

/-- tests/ieee.rs:2557 `multiply`. -/
def t_multiply_26 : M Unit := do
  let t21 ← (parse ("0x0.0000000000000000000000000001p-16382".toList) : M Quad)
  let t22 ← (parse ("-0x0.0000000000000000000000000001p-16382".toList) : M Quad)
  let t875 ← ApiFloat.mul_r t21 t21 Round.towardNegative
  let t877 ← (parse ("0".toList) : M Quad)
  let t878 ← ApiFloat.bitwise_eq (t875).value t877
  check t878
  let t879 ← ApiFloat.mul_r t21 t21 Round.towardZero
  check (decide (({ underflow := true, inexact := true } : Status) = (t879).status))
  let t880 ← ApiFloat.category (t879).value
  check (decide (Category.zero = t880))
  let t881 ← (parse ("0".toList) : M Quad)
  let t882 ← ApiFloat.bitwise_eq (t879).value t881
  check t882
  let t883 ← ApiFloat.mul_r t21 t21 Round.nearestTiesToAway
  check (decide (({ underflow := true, inexact := true } : Status) = (t883).status))
  let t884 ← ApiFloat.category (t883).value
  check (decide (Category.zero = t884))
  let t885 ← (parse ("0".toList) : M Quad)
  let t886 ← ApiFloat.bitwise_eq (t883).value t885
  check t886
  let t887 ← ApiFloat.mul_r t21 t22 Round.nearestTiesToEven
  check (decide (({ underflow := true, inexact := true } : Status) = (t887).status))
  let t888 ← ApiFloat.category (t887).value
  check (decide (Category.zero = t888))
  let t889 ← (parse ("-0".toList) : M Quad)
  let t890 ← ApiFloat.bitwise_eq (t887).value t889
  check t890
  let t891 ← ApiFloat.mul_r t21 t22 Round.towardPositive
  check (decide (({ underflow := true, inexact := true } : Status) = (t891).status))
  let t892 ← ApiFloat.category (t891).value
  check (decide (Category.zero = t892))
  let t893 ← (parse ("-0".toList) : M Quad)
  let t894 ← ApiFloat.bitwise_eq (t891).value t893
  check t894
  let t895 ← ApiFloat.mul_r t21 t22 Round.towardNegative
  check (decide (({ underflow := true, inexact := true } : Status) = (t895).status))
  let t896 ← ApiFloat.category (t895).value
  check (decide (Category.normal = t896))
  let t897 ← (parse ("-0x0.0000000000000000000000000001p-16382".toList) : M Quad)
  let t898 ← ApiFloat.bitwise_eq (t895).value t897
  check t898
  let t899 ← ApiFloat.mul_r t21 t22 Round.towardZero
  check (decide (({ underflow := true, inexact := true } : Status) = (t899).status))
  let t900 ← ApiFloat.category (t899).value
  check (decide (Category.zero = t900))
  let t901 ← (parse ("-0".toList) : M Quad)
  let t902 ← ApiFloat.bitwise_eq (t899).value t901
  check t902
  let t903 ← ApiFloat.mul_r t21 t22 Round.nearestTiesToAway
  check (decide (({ underflow := true, inexact := true } : Status) = (t903).status))
  let t904 ← ApiFloat.category (t903).value
  check (decide (Category.zero = t904))
  let t905 ← (parse ("-0".toList) : M Quad)
  let t906 ← ApiFloat.bitwise_eq (t903).value t905
  check t906

example : passes t_multiply_26 = true := by decide +kernel

/-- tests/ieee.rs:2916 `divide`. -/
def t_divide_1 : M Unit := do
  let t1 ← (ApiFloat.INFINITY : M Single)
  let t2 ← (ApiFloat.INFINITY : M Single)
  let t3 ← ApiFloat.neg t2
  let t4 ← (ApiFloat.ZERO : M Single)
  let t5 ← (ApiFloat.ZERO : M Single)
  let t6 ← ApiFloat.neg t5
  let t7 ← (ApiFloat.NAN : M Single)
  let t8 ← (parse ("snan123".toList) : M Single)
  let _ ← (parse ("0x1p+0".toList) : M Single)
  let _ ← (parse ("-0x1p+0".toList) : M Single)
  let _ ← (ApiFloat.largest : M Single)
  let t12 ← (ApiFloat.largest : M Single)
  let _ ← ApiFloat.neg t12
  let _ ← (ApiFloat.SMALLEST : M Single)
  let t15 ← (ApiFloat.SMALLEST : M Single)
  let _ ← ApiFloat.neg t15
  let _ ← (ApiFloat.smallest_normalized : M Single)
  let t18 ← (ApiFloat.smallest_normalized : M Single)
  let _ ← ApiFloat.neg t18
  let _ ← (parse ("0x1.ffffffffffffffffffffffffffffp+16383".toList) : M Quad)
  let _ ← (parse ("0x0.0000000000000000000000000001p-16382".toList) : M Quad)
  let _ ← (parse ("-0x0.0000000000000000000000000001p-16382".toList) : M Quad)
  let t23 ← Api.div t1 t1
  check (decide (({ invalidOp := true } : Status) = (t23).status))
  let t24 ← ApiFloat.category (t23).value
  check (decide (Category.nan = t24))
  let t25 ← (parse ("nan".toList) : M Single)
  let t26 ← ApiFloat.bitwise_eq (t23).value t25
  check t26
  let t27 ← Api.div t1 t3
  check (decide (({ invalidOp := true } : Status) = (t27).status))
  let t28 ← ApiFloat.category (t27).value
  check (decide (Category.nan = t28))
  let t29 ← (parse ("nan".toList) : M Single)
  let t30 ← ApiFloat.bitwise_eq (t27).value t29
  check t30
  let t31 ← Api.div t1 t4
  check (decide (Status.OK = (t31).status))
  let t32 ← ApiFloat.category (t31).value
  check (decide (Category.infinity = t32))
  let t33 ← (parse ("inf".toList) : M Single)
  let t34 ← ApiFloat.bitwise_eq (t31).value t33
  check t34
  let t35 ← Api.div t1 t6
  check (decide (Status.OK = (t35).status))
  let t36 ← ApiFloat.category (t35).value
  check (decide (Category.infinity = t36))
  let t37 ← (parse ("-inf".toList) : M Single)
  let t38 ← ApiFloat.bitwise_eq (t35).value t37
  check t38
  let t39 ← Api.div t1 t7
  check (decide (Status.OK = (t39).status))
  let t40 ← ApiFloat.category (t39).value
  check (decide (Category.nan = t40))
  let t41 ← (parse ("nan".toList) : M Single)
  let t42 ← ApiFloat.bitwise_eq (t39).value t41
  check t42
  let t43 ← Api.div t1 t8
  check (decide (({ invalidOp := true } : Status) = (t43).status))
  let t44 ← ApiFloat.category (t43).value
  check (decide (Category.nan = t44))

example : passes t_divide_1 = true := by decide +kernel

/-- tests/ieee.rs:2916 `divide`. -/
def t_divide_2 : M Unit := do
  let t1 ← (ApiFloat.INFINITY : M Single)
  let t2 ← (ApiFloat.INFINITY : M Single)
  let t3 ← ApiFloat.neg t2
  let t8 ← (parse ("snan123".toList) : M Single)
  let t9 ← (parse ("0x1p+0".toList) : M Single)
  let t10 ← (parse ("-0x1p+0".toList) : M Single)
  let t11 ← (ApiFloat.largest : M Single)
  let t12 ← (ApiFloat.largest : M Single)
  let t13 ← ApiFloat.neg t12
  let t14 ← (ApiFloat.SMALLEST : M Single)
  let t15 ← (ApiFloat.SMALLEST : M Single)
  let t16 ← ApiFloat.neg t15
  let t17 ← (ApiFloat.smallest_normalized : M Single)
  let t18 ← (ApiFloat.smallest_normalized : M Single)
  let t19 ← ApiFloat.neg t18
  let t43 ← Api.div t1 t8
  let t45 ← (parse ("nan123".toList) : M Single)
  let t46 ← ApiFloat.bitwise_eq (t43).value t45
  check t46
  let t47 ← Api.div t1 t9
  check (decide (Status.OK = (t47).status))
  let t48 ← ApiFloat.category (t47).value
  check (decide (Category.infinity = t48))
  let t49 ← (parse ("inf".toList) : M Single)
  let t50 ← ApiFloat.bitwise_eq (t47).value t49
  check t50
  let t51 ← Api.div t1 t10
  check (decide (Status.OK = (t51).status))
  let t52 ← ApiFloat.category (t51).value
  check (decide (Category.infinity = t52))
  let t53 ← (parse ("-inf".toList) : M Single)
  let t54 ← ApiFloat.bitwise_eq (t51).value t53
  check t54
  let t55 ← Api.div t1 t11
  check (decide (Status.OK = (t55).status))
  let t56 ← ApiFloat.category (t55).value
  check (decide (Category.infinity = t56))
  let t57 ← (parse ("inf".toList) : M Single)
  let t58 ← ApiFloat.bitwise_eq (t55).value t57
  check t58
  let t59 ← Api.div t1 t13
  check (decide (Status.OK = (t59).status))
  let t60 ← ApiFloat.category (t59).value
  check (decide (Category.infinity = t60))
  let t61 ← (parse ("-inf".toList) : M Single)
  let t62 ← ApiFloat.bitwise_eq (t59).value t61
  check t62
  let t63 ← Api.div t1 t14
  check (decide (Status.OK = (t63).status))
  let t64 ← ApiFloat.category (t63).value
  check (decide (Category.infinity = t64))
  let t65 ← (parse ("inf".toList) : M Single)
  let t66 ← ApiFloat.bitwise_eq (t63).value t65
  check t66
  let t67 ← Api.div t1 t16
  check (decide (Status.OK = (t67).status))
  let t68 ← ApiFloat.category (t67).value
  check (decide (Category.infinity = t68))
  let t69 ← (parse ("-inf".toList) : M Single)
  let t70 ← ApiFloat.bitwise_eq (t67).value t69
  check t70
  let t71 ← Api.div t1 t17
  check (decide (Status.OK = (t71).status))
  let t72 ← ApiFloat.category (t71).value
  check (decide (Category.infinity = t72))
  let t73 ← (parse ("inf".toList) : M Single)
  let t74 ← ApiFloat.bitwise_eq (t71).value t73
  check t74
  let t75 ← Api.div t1 t19
  check (decide (Status.OK = (t75).status))
  let t76 ← ApiFloat.category (t75).value
  check (decide (Category.infinity = t76))
  let t77 ← (parse ("-inf".toList) : M Single)
  let t78 ← ApiFloat.bitwise_eq (t75).value t77
  check t78
  let t79 ← Api.div t3 t1
  check (decide (({ invalidOp := true } : Status) = (t79).status))

example : passes t_divide_2 = true := by decide +kernel

/-- tests/ieee.rs:2916 `divide`. -/
def t_divide_3 : M Unit := do
  let t1 ← (ApiFloat.INFINITY : M Single)
  let t2 ← (ApiFloat.INFINITY : M Single)
  let t3 ← ApiFloat.neg t2
  let t4 ← (ApiFloat.ZERO : M Single)
  let t5 ← (ApiFloat.ZERO : M Single)
  let t6 ← ApiFloat.neg t5
  let t7 ← (ApiFloat.NAN : M Single)
  let t8 ← (parse ("snan123".toList) : M Single)
  let t9 ← (parse ("0x1p+0".toList) : M Single)
  let t10 ← (parse ("-0x1p+0".toList) : M Single)
  let t11 ← (ApiFloat.largest : M Single)
  let t79 ← Api.div t3 t1
  let t80 ← ApiFloat.category (t79).value
  check (decide (Category.nan = t80))
  let t81 ← (parse ("nan".toList) : M Single)
  let t82 ← ApiFloat.bitwise_eq (t79).value t81
  check t82
  let t83 ← Api.div t3 t3
  check (decide (({ invalidOp := true } : Status) = (t83).status))
  let t84 ← ApiFloat.category (t83).value
  check (decide (Category.nan = t84))
  let t85 ← (parse ("nan".toList) : M Single)
  let t86 ← ApiFloat.bitwise_eq (t83).value t85
  check t86
  let t87 ← Api.div t3 t4
  check (decide (Status.OK = (t87).status))
  let t88 ← ApiFloat.category (t87).value
  check (decide (Category.infinity = t88))
  let t89 ← (parse ("-inf".toList) : M Single)
  let t90 ← ApiFloat.bitwise_eq (t87).value t89
  check t90
  let t91 ← Api.div t3 t6
  check (decide (Status.OK = (t91).status))
  let t92 ← ApiFloat.category (t91).value
  check (decide (Category.infinity = t92))
  let t93 ← (parse ("inf".toList) : M Single)
  let t94 ← ApiFloat.bitwise_eq (t91).value t93
  check t94
  let t95 ← Api.div t3 t7
  check (decide (Status.OK = (t95).status))
  let t96 ← ApiFloat.category (t95).value
  check (decide (Category.nan = t96))
  let t97 ← (parse ("nan".toList) : M Single)
  let t98 ← ApiFloat.bitwise_eq (t95).value t97
  check t98
  let t99 ← Api.div t3 t8
  check (decide (({ invalidOp := true } : Status) = (t99).status))
  let t100 ← ApiFloat.category (t99).value
  check (decide (Category.nan = t100))
  let t101 ← (parse ("nan123".toList) : M Single)
  let t102 ← ApiFloat.bitwise_eq (t99).value t101
  check t102
  let t103 ← Api.div t3 t9
  check (decide (Status.OK = (t103).status))
  let t104 ← ApiFloat.category (t103).value
  check (decide (Category.infinity = t104))
  let t105 ← (parse ("-inf".toList) : M Single)
  let t106 ← ApiFloat.bitwise_eq (t103).value t105
  check t106
  let t107 ← Api.div t3 t10
  check (decide (Status.OK = (t107).status))
  let t108 ← ApiFloat.category (t107).value
  check (decide (Category.infinity = t108))
  let t109 ← (parse ("inf".toList) : M Single)
  let t110 ← ApiFloat.bitwise_eq (t107).value t109
  check t110
  let t111 ← Api.div t3 t11
  check (decide (Status.OK = (t111).status))
  let t112 ← ApiFloat.category (t111).value
  check (decide (Category.infinity = t112))
  let t113 ← (parse ("-inf".toList) : M Single)
  let t114 ← ApiFloat.bitwise_eq (t111).value t113
  check t114

example : passes t_divide_3 = true := by decide +kernel

/-- tests/ieee.rs:2916 `divide`. -/
def t_divide_4 : M Unit := do
  let t1 ← (ApiFloat.INFINITY : M Single)
  let t2 ← (ApiFloat.INFINITY : M Single)
  let t3 ← ApiFloat.neg t2
  let t4 ← (ApiFloat.ZERO : M Single)
  let t5 ← (ApiFloat.ZERO : M Single)
  let t6 ← ApiFloat.neg t5
  let t12 ← (ApiFloat.largest : M Single)
  let t13 ← ApiFloat.neg t12
  let t14 ← (ApiFloat.SMALLEST : M Single)
  let t15 ← (ApiFloat.SMALLEST : M Single)
  let t16 ← ApiFloat.neg t15
  let t17 ← (ApiFloat.smallest_normalized : M Single)
  let t18 ← (ApiFloat.smallest_normalized : M Single)
  let t19 ← ApiFloat.neg t18
  let t115 ← Api.div t3 t13
  check (decide (Status.OK = (t115).status))
  let t116 ← ApiFloat.category (t115).value
  check (decide (Category.infinity = t116))
  let t117 ← (parse ("inf".toList) : M Single)
  let t118 ← ApiFloat.bitwise_eq (t115).value t117
  check t118
  let t119 ← Api.div t3 t14
  check (decide (Status.OK = (t119).status))
  let t120 ← ApiFloat.category (t119).value
  check (decide (Category.infinity = t120))
  let t121 ← (parse ("-inf".toList) : M Single)
  let t122 ← ApiFloat.bitwise_eq (t119).value t121
  check t122
  let t123 ← Api.div t3 t16
  check (decide (Status.OK = (t123).status))
  let t124 ← ApiFloat.category (t123).value
  check (decide (Category.infinity = t124))
  let t125 ← (parse ("inf".toList) : M Single)
  let t126 ← ApiFloat.bitwise_eq (t123).value t125
  check t126
  let t127 ← Api.div t3 t17
  check (decide (Status.OK = (t127).status))
  let t128 ← ApiFloat.category (t127).value
  check (decide (Category.infinity = t128))
  let t129 ← (parse ("-inf".toList) : M Single)
  let t130 ← ApiFloat.bitwise_eq (t127).value t129
  check t130
  let t131 ← Api.div t3 t19
  check (decide (Status.OK = (t131).status))
  let t132 ← ApiFloat.category (t131).value
  check (decide (Category.infinity = t132))
  let t133 ← (parse ("inf".toList) : M Single)
  let t134 ← ApiFloat.bitwise_eq (t131).value t133
  check t134
  let t135 ← Api.div t4 t1
  check (decide (Status.OK = (t135).status))
  let t136 ← ApiFloat.category (t135).value
  check (decide (Category.zero = t136))
  let t137 ← (parse ("0x0p+0".toList) : M Single)
  let t138 ← ApiFloat.bitwise_eq (t135).value t137
  check t138
  let t139 ← Api.div t4 t3
  check (decide (Status.OK = (t139).status))
  let t140 ← ApiFloat.category (t139).value
  check (decide (Category.zero = t140))
  let t141 ← (parse ("-0x0p+0".toList) : M Single)
  let t142 ← ApiFloat.bitwise_eq (t139).value t141
  check t142
  let t143 ← Api.div t4 t4
  check (decide (({ invalidOp := true } : Status) = (t143).status))
  let t144 ← ApiFloat.category (t143).value
  check (decide (Category.nan = t144))
  let t145 ← (parse ("nan".toList) : M Single)
  let t146 ← ApiFloat.bitwise_eq (t143).value t145
  check t146
  let t147 ← Api.div t4 t6
  check (decide (({ invalidOp := true } : Status) = (t147).status))
  let t148 ← ApiFloat.category (t147).value
  check (decide (Category.nan = t148))

example : passes t_divide_4 = true := by decide +kernel

/-- tests/ieee.rs:2916 `divide`. -/
def t_divide_5 : M Unit := do
  let t4 ← (ApiFloat.ZERO : M Single)
  let t5 ← (ApiFloat.ZERO : M Single)
  let t6 ← ApiFloat.neg t5
  let t7 ← (ApiFloat.NAN : M Single)
  let t8 ← (parse ("snan123".toList) : M Single)
  let t9 ← (parse ("0x1p+0".toList) : M Single)
  let t10 ← (parse ("-0x1p+0".toList) : M Single)
  let t11 ← (ApiFloat.largest : M Single)
  let t12 ← (ApiFloat.largest : M Single)
  let t13 ← ApiFloat.neg t12
  let t14 ← (ApiFloat.SMALLEST : M Single)
  let t15 ← (ApiFloat.SMALLEST : M Single)
  let t16 ← ApiFloat.neg t15
  let t17 ← (ApiFloat.smallest_normalized : M Single)
  let t147 ← Api.div t4 t6
  let t149 ← (parse ("nan".toList) : M Single)
  let t150 ← ApiFloat.bitwise_eq (t147).value t149
  check t150
  let t151 ← Api.div t4 t7
  check (decide (Status.OK = (t151).status))
  let t152 ← ApiFloat.category (t151).value
  check (decide (Category.nan = t152))
  let t153 ← (parse ("nan".toList) : M Single)
  let t154 ← ApiFloat.bitwise_eq (t151).value t153
  check t154
  let t155 ← Api.div t4 t8
  check (decide (({ invalidOp := true } : Status) = (t155).status))
  let t156 ← ApiFloat.category (t155).value
  check (decide (Category.nan = t156))
  let t157 ← (parse ("nan123".toList) : M Single)
  let t158 ← ApiFloat.bitwise_eq (t155).value t157
  check t158
  let t159 ← Api.div t4 t9
  check (decide (Status.OK = (t159).status))
  let t160 ← ApiFloat.category (t159).value
  check (decide (Category.zero = t160))
  let t161 ← (parse ("0x0p+0".toList) : M Single)
  let t162 ← ApiFloat.bitwise_eq (t159).value t161
  check t162
  let t163 ← Api.div t4 t10
  check (decide (Status.OK = (t163).status))
  let t164 ← ApiFloat.category (t163).value
  check (decide (Category.zero = t164))
  let t165 ← (parse ("-0x0p+0".toList) : M Single)
  let t166 ← ApiFloat.bitwise_eq (t163).value t165
  check t166
  let t167 ← Api.div t4 t11
  check (decide (Status.OK = (t167).status))
  let t168 ← ApiFloat.category (t167).value
  check (decide (Category.zero = t168))
  let t169 ← (parse ("0x0p+0".toList) : M Single)
  let t170 ← ApiFloat.bitwise_eq (t167).value t169
  check t170
  let t171 ← Api.div t4 t13
  check (decide (Status.OK = (t171).status))
  let t172 ← ApiFloat.category (t171).value
  check (decide (Category.zero = t172))
  let t173 ← (parse ("-0x0p+0".toList) : M Single)
  let t174 ← ApiFloat.bitwise_eq (t171).value t173
  check t174
  let t175 ← Api.div t4 t14
  check (decide (Status.OK = (t175).status))
  let t176 ← ApiFloat.category (t175).value
  check (decide (Category.zero = t176))
  let t177 ← (parse ("0x0p+0".toList) : M Single)
  let t178 ← ApiFloat.bitwise_eq (t175).value t177
  check t178
  let t179 ← Api.div t4 t16
  check (decide (Status.OK = (t179).status))
  let t180 ← ApiFloat.category (t179).value
  check (decide (Category.zero = t180))
  let t181 ← (parse ("-0x0p+0".toList) : M Single)
  let t182 ← ApiFloat.bitwise_eq (t179).value t181
  check t182
  let t183 ← Api.div t4 t17
  check (decide (Status.OK = (t183).status))

example : passes t_divide_5 = true := by decide +kernel

/-- tests/ieee.rs:2916 `divide`. -/
def t_divide_6 : M Unit := do
  let t1 ← (ApiFloat.INFINITY : M Single)
  let t2 ← (ApiFloat.INFINITY : M Single)
  let t3 ← ApiFloat.neg t2
  let t4 ← (ApiFloat.ZERO : M Single)
  let t5 ← (ApiFloat.ZERO : M Single)
  let t6 ← ApiFloat.neg t5
  let t7 ← (ApiFloat.NAN : M Single)
  let t8 ← (parse ("snan123".toList) : M Single)
  let t9 ← (parse ("0x1p+0".toList) : M Single)
  let t17 ← (ApiFloat.smallest_normalized : M Single)
  let t18 ← (ApiFloat.smallest_normalized : M Single)
  let t19 ← ApiFloat.neg t18
  let t183 ← Api.div t4 t17
  let t184 ← ApiFloat.category (t183).value
  check (decide (Category.zero = t184))
  let t185 ← (parse ("0x0p+0".toList) : M Single)
  let t186 ← ApiFloat.bitwise_eq (t183).value t185
  check t186
  let t187 ← Api.div t4 t19
  check (decide (Status.OK = (t187).status))
  let t188 ← ApiFloat.category (t187).value
  check (decide (Category.zero = t188))
  let t189 ← (parse ("-0x0p+0".toList) : M Single)
  let t190 ← ApiFloat.bitwise_eq (t187).value t189
  check t190
  let t191 ← Api.div t6 t1
  check (decide (Status.OK = (t191).status))
  let t192 ← ApiFloat.category (t191).value
  check (decide (Category.zero = t192))
  let t193 ← (parse ("-0x0p+0".toList) : M Single)
  let t194 ← ApiFloat.bitwise_eq (t191).value t193
  check t194
  let t195 ← Api.div t6 t3
  check (decide (Status.OK = (t195).status))
  let t196 ← ApiFloat.category (t195).value
  check (decide (Category.zero = t196))
  let t197 ← (parse ("0x0p+0".toList) : M Single)
  let t198 ← ApiFloat.bitwise_eq (t195).value t197
  check t198
  let t199 ← Api.div t6 t4
  check (decide (({ invalidOp := true } : Status) = (t199).status))
  let t200 ← ApiFloat.category (t199).value
  check (decide (Category.nan = t200))
  let t201 ← (parse ("nan".toList) : M Single)
  let t202 ← ApiFloat.bitwise_eq (t199).value t201
  check t202
  let t203 ← Api.div t6 t6
  check (decide (({ invalidOp := true } : Status) = (t203).status))
  let t204 ← ApiFloat.category (t203).value
  check (decide (Category.nan = t204))
  let t205 ← (parse ("nan".toList) : M Single)
  let t206 ← ApiFloat.bitwise_eq (t203).value t205
  check t206
  let t207 ← Api.div t6 t7
  check (decide (Status.OK = (t207).status))
  let t208 ← ApiFloat.category (t207).value
  check (decide (Category.nan = t208))
  let t209 ← (parse ("nan".toList) : M Single)
  let t210 ← ApiFloat.bitwise_eq (t207).value t209
  check t210
  let t211 ← Api.div t6 t8
  check (decide (({ invalidOp := true } : Status) = (t211).status))
  let t212 ← ApiFloat.category (t211).value
  check (decide (Category.nan = t212))
  let t213 ← (parse ("nan123".toList) : M Single)
  let t214 ← ApiFloat.bitwise_eq (t211).value t213
  check t214
  let t215 ← Api.div t6 t9
  check (decide (Status.OK = (t215).status))
  let t216 ← ApiFloat.category (t215).value
  check (decide (Category.zero = t216))
  let t217 ← (parse ("-0x0p+0".toList) : M Single)
  let t218 ← ApiFloat.bitwise_eq (t215).value t217
  check t218

example : passes t_divide_6 = true := by decide +kernel

/-- tests/ieee.rs:2916 `divide`. -/
def t_divide_7 : M Unit := do
  let t1 ← (ApiFloat.INFINITY : M Single)
  let t2 ← (ApiFloat.INFINITY : M Single)
  let t3 ← ApiFloat.neg t2
  let t5 ← (ApiFloat.ZERO : M Single)
  let t6 ← ApiFloat.neg t5
  let t7 ← (ApiFloat.NAN : M Single)
  let t10 ← (parse ("-0x1p+0".toList) : M Single)
  let t11 ← (ApiFloat.largest : M Single)
  let t12 ← (ApiFloat.largest : M Single)
  let t13 ← ApiFloat.neg t12
  let t14 ← (ApiFloat.SMALLEST : M Single)
  let t15 ← (ApiFloat.SMALLEST : M Single)
  let t16 ← ApiFloat.neg t15
  let t17 ← (ApiFloat.smallest_normalized : M Single)
  let t18 ← (ApiFloat.smallest_normalized : M Single)
  let t19 ← ApiFloat.neg t18
  let t219 ← Api.div t6 t10
  check (decide (Status.OK = (t219).status))
  let t220 ← ApiFloat.category (t219).value
  check (decide (Category.zero = t220))
  let t221 ← (parse ("0x0p+0".toList) : M Single)
  let t222 ← ApiFloat.bitwise_eq (t219).value t221
  check t222
  let t223 ← Api.div t6 t11
  check (decide (Status.OK = (t223).status))
  let t224 ← ApiFloat.category (t223).value
  check (decide (Category.zero = t224))
  let t225 ← (parse ("-0x0p+0".toList) : M Single)
  let t226 ← ApiFloat.bitwise_eq (t223).value t225
  check t226
  let t227 ← Api.div t6 t13
  check (decide (Status.OK = (t227).status))
  let t228 ← ApiFloat.category (t227).value
  check (decide (Category.zero = t228))
  let t229 ← (parse ("0x0p+0".toList) : M Single)
  let t230 ← ApiFloat.bitwise_eq (t227).value t229
  check t230
  let t231 ← Api.div t6 t14
  check (decide (Status.OK = (t231).status))
  let t232 ← ApiFloat.category (t231).value
  check (decide (Category.zero = t232))
  let t233 ← (parse ("-0x0p+0".toList) : M Single)
  let t234 ← ApiFloat.bitwise_eq (t231).value t233
  check t234
  let t235 ← Api.div t6 t16
  check (decide (Status.OK = (t235).status))
  let t236 ← ApiFloat.category (t235).value
  check (decide (Category.zero = t236))
  let t237 ← (parse ("0x0p+0".toList) : M Single)
  let t238 ← ApiFloat.bitwise_eq (t235).value t237
  check t238
  let t239 ← Api.div t6 t17
  check (decide (Status.OK = (t239).status))
  let t240 ← ApiFloat.category (t239).value
  check (decide (Category.zero = t240))
  let t241 ← (parse ("-0x0p+0".toList) : M Single)
  let t242 ← ApiFloat.bitwise_eq (t239).value t241
  check t242
  let t243 ← Api.div t6 t19
  check (decide (Status.OK = (t243).status))
  let t244 ← ApiFloat.category (t243).value
  check (decide (Category.zero = t244))
  let t245 ← (parse ("0x0p+0".toList) : M Single)
  let t246 ← ApiFloat.bitwise_eq (t243).value t245
  check t246
  let t247 ← Api.div t7 t1
  check (decide (Status.OK = (t247).status))
  let t248 ← ApiFloat.category (t247).value
  check (decide (Category.nan = t248))
  let t249 ← (parse ("nan".toList) : M Single)
  let t250 ← ApiFloat.bitwise_eq (t247).value t249
  check t250
  let t251 ← Api.div t7 t3
  check (decide (Status.OK = (t251).status))
  let t252 ← ApiFloat.category (t251).value
  check (decide (Category.nan = t252))

example : passes t_divide_7 = true := by decide +kernel

/-- tests/ieee.rs:2916 `divide`. -/
def t_divide_8 : M Unit := do
  let t2 ← (ApiFloat.INFINITY : M Single)
  let t3 ← ApiFloat.neg t2
  let t4 ← (ApiFloat.ZERO : M Single)
  let t5 ← (ApiFloat.ZERO : M Single)
  let t6 ← ApiFloat.neg t5
  let t7 ← (ApiFloat.NAN : M Single)
  let t8 ← (parse ("snan123".toList) : M Single)
  let t9 ← (parse ("0x1p+0".toList) : M Single)
  let t10 ← (parse ("-0x1p+0".toList) : M Single)
  let t11 ← (ApiFloat.largest : M Single)
  let t12 ← (ApiFloat.largest : M Single)
  let t13 ← ApiFloat.neg t12
  let t14 ← (ApiFloat.SMALLEST : M Single)
  let t251 ← Api.div t7 t3
  let t253 ← (parse ("nan".toList) : M Single)
  let t254 ← ApiFloat.bitwise_eq (t251).value t253
  check t254
  let t255 ← Api.div t7 t4
  check (decide (Status.OK = (t255).status))
  let t256 ← ApiFloat.category (t255).value
  check (decide (Category.nan = t256))
  let t257 ← (parse ("nan".toList) : M Single)
  let t258 ← ApiFloat.bitwise_eq (t255).value t257
  check t258
  let t259 ← Api.div t7 t6
  check (decide (Status.OK = (t259).status))
  let t260 ← ApiFloat.category (t259).value
  check (decide (Category.nan = t260))
  let t261 ← (parse ("nan".toList) : M Single)
  let t262 ← ApiFloat.bitwise_eq (t259).value t261
  check t262
  let t263 ← Api.div t7 t7
  check (decide (Status.OK = (t263).status))
  let t264 ← ApiFloat.category (t263).value
  check (decide (Category.nan = t264))
  let t265 ← (parse ("nan".toList) : M Single)
  let t266 ← ApiFloat.bitwise_eq (t263).value t265
  check t266
  let t267 ← Api.div t7 t8
  check (decide (({ invalidOp := true } : Status) = (t267).status))
  let t268 ← ApiFloat.category (t267).value
  check (decide (Category.nan = t268))
  let t269 ← (parse ("nan".toList) : M Single)
  let t270 ← ApiFloat.bitwise_eq (t267).value t269
  check t270
  let t271 ← Api.div t7 t9
  check (decide (Status.OK = (t271).status))
  let t272 ← ApiFloat.category (t271).value
  check (decide (Category.nan = t272))
  let t273 ← (parse ("nan".toList) : M Single)
  let t274 ← ApiFloat.bitwise_eq (t271).value t273
  check t274
  let t275 ← Api.div t7 t10
  check (decide (Status.OK = (t275).status))
  let t276 ← ApiFloat.category (t275).value
  check (decide (Category.nan = t276))
  let t277 ← (parse ("nan".toList) : M Single)
  let t278 ← ApiFloat.bitwise_eq (t275).value t277
  check t278
  let t279 ← Api.div t7 t11
  check (decide (Status.OK = (t279).status))
  let t280 ← ApiFloat.category (t279).value
  check (decide (Category.nan = t280))
  let t281 ← (parse ("nan".toList) : M Single)
  let t282 ← ApiFloat.bitwise_eq (t279).value t281
  check t282
  let t283 ← Api.div t7 t13
  check (decide (Status.OK = (t283).status))
  let t284 ← ApiFloat.category (t283).value
  check (decide (Category.nan = t284))
  let t285 ← (parse ("nan".toList) : M Single)
  let t286 ← ApiFloat.bitwise_eq (t283).value t285
  check t286
  let t287 ← Api.div t7 t14
  check (decide (Status.OK = (t287).status))

example : passes t_divide_8 = true := by decide +kernel

/-- tests/ieee.rs:2916 `divide`. -/
def t_divide_9 : M Unit := do
  let t1 ← (ApiFloat.INFINITY : M Single)
  let t2 ← (ApiFloat.INFINITY : M Single)
  let t3 ← ApiFloat.neg t2
  let t4 ← (ApiFloat.ZERO : M Single)
  let t5 ← (ApiFloat.ZERO : M Single)
  let t6 ← ApiFloat.neg t5
  let t7 ← (ApiFloat.NAN : M Single)
  let t8 ← (parse ("snan123".toList) : M Single)
  let t14 ← (ApiFloat.SMALLEST : M Single)
  let t15 ← (ApiFloat.SMALLEST : M Single)
  let t16 ← ApiFloat.neg t15
  let t17 ← (ApiFloat.smallest_normalized : M Single)
  let t18 ← (ApiFloat.smallest_normalized : M Single)
  let t19 ← ApiFloat.neg t18
  let t287 ← Api.div t7 t14
  let t288 ← ApiFloat.category (t287).value
  check (decide (Category.nan = t288))
  let t289 ← (parse ("nan".toList) : M Single)
  let t290 ← ApiFloat.bitwise_eq (t287).value t289
  check t290
  let t291 ← Api.div t7 t16
  check (decide (Status.OK = (t291).status))
  let t292 ← ApiFloat.category (t291).value
  check (decide (Category.nan = t292))
  let t293 ← (parse ("nan".toList) : M Single)
  let t294 ← ApiFloat.bitwise_eq (t291).value t293
  check t294
  let t295 ← Api.div t7 t17
  check (decide (Status.OK = (t295).status))
  let t296 ← ApiFloat.category (t295).value
  check (decide (Category.nan = t296))
  let t297 ← (parse ("nan".toList) : M Single)
  let t298 ← ApiFloat.bitwise_eq (t295).value t297
  check t298
  let t299 ← Api.div t7 t19
  check (decide (Status.OK = (t299).status))
  let t300 ← ApiFloat.category (t299).value
  check (decide (Category.nan = t300))
  let t301 ← (parse ("nan".toList) : M Single)
  let t302 ← ApiFloat.bitwise_eq (t299).value t301
  check t302
  let t303 ← Api.div t8 t1
  check (decide (({ invalidOp := true } : Status) = (t303).status))
  let t304 ← ApiFloat.category (t303).value
  check (decide (Category.nan = t304))
  let t305 ← (parse ("nan123".toList) : M Single)
  let t306 ← ApiFloat.bitwise_eq (t303).value t305
  check t306
  let t307 ← Api.div t8 t3
  check (decide (({ invalidOp := true } : Status) = (t307).status))
  let t308 ← ApiFloat.category (t307).value
  check (decide (Category.nan = t308))
  let t309 ← (parse ("nan123".toList) : M Single)
  let t310 ← ApiFloat.bitwise_eq (t307).value t309
  check t310
  let t311 ← Api.div t8 t4
  check (decide (({ invalidOp := true } : Status) = (t311).status))
  let t312 ← ApiFloat.category (t311).value
  check (decide (Category.nan = t312))
  let t313 ← (parse ("nan123".toList) : M Single)
  let t314 ← ApiFloat.bitwise_eq (t311).value t313
  check t314
  let t315 ← Api.div t8 t6
  check (decide (({ invalidOp := true } : Status) = (t315).status))
  let t316 ← ApiFloat.category (t315).value
  check (decide (Category.nan = t316))
  let t317 ← (parse ("nan123".toList) : M Single)
  let t318 ← ApiFloat.bitwise_eq (t315).value t317
  check t318
  let t319 ← Api.div t8 t7
  check (decide (({ invalidOp := true } : Status) = (t319).status))
  let t320 ← ApiFloat.category (t319).value
  check (decide (Category.nan = t320))
  let t321 ← (parse ("nan123".toList) : M Single)
  let t322 ← ApiFloat.bitwise_eq (t319).value t321
  check t322

example : passes t_divide_9 = true := by decide +kernel

/-- tests/ieee.rs:2916 `divide`. -/
def t_divide_10 : M Unit := do
  let t8 ← (parse ("snan123".toList) : M Single)
  let t9 ← (parse ("0x1p+0".toList) : M Single)
  let t10 ← (parse ("-0x1p+0".toList) : M Single)
  let t11 ← (ApiFloat.largest : M Single)
  let t12 ← (ApiFloat.largest : M Single)
  let t13 ← ApiFloat.neg t12
  let t14 ← (ApiFloat.SMALLEST : M Single)
  let t15 ← (ApiFloat.SMALLEST : M Single)
  let t16 ← ApiFloat.neg t15
  let t17 ← (ApiFloat.smallest_normalized : M Single)
  let t18 ← (ApiFloat.smallest_normalized : M Single)
  let t19 ← ApiFloat.neg t18
  let t323 ← Api.div t8 t8
  check (decide (({ invalidOp := true } : Status) = (t323).status))
  let t324 ← ApiFloat.category (t323).value
  check (decide (Category.nan = t324))
  let t325 ← (parse ("nan123".toList) : M Single)
  let t326 ← ApiFloat.bitwise_eq (t323).value t325
  check t326
  let t327 ← Api.div t8 t9
  check (decide (({ invalidOp := true } : Status) = (t327).status))
  let t328 ← ApiFloat.category (t327).value
  check (decide (Category.nan = t328))
  let t329 ← (parse ("nan123".toList) : M Single)
  let t330 ← ApiFloat.bitwise_eq (t327).value t329
  check t330
  let t331 ← Api.div t8 t10
  check (decide (({ invalidOp := true } : Status) = (t331).status))
  let t332 ← ApiFloat.category (t331).value
  check (decide (Category.nan = t332))
  let t333 ← (parse ("nan123".toList) : M Single)
  let t334 ← ApiFloat.bitwise_eq (t331).value t333
  check t334
  let t335 ← Api.div t8 t11
  check (decide (({ invalidOp := true } : Status) = (t335).status))
  let t336 ← ApiFloat.category (t335).value
  check (decide (Category.nan = t336))
  let t337 ← (parse ("nan123".toList) : M Single)
  let t338 ← ApiFloat.bitwise_eq (t335).value t337
  check t338
  let t339 ← Api.div t8 t13
  check (decide (({ invalidOp := true } : Status) = (t339).status))
  let t340 ← ApiFloat.category (t339).value
  check (decide (Category.nan = t340))
  let t341 ← (parse ("nan123".toList) : M Single)
  let t342 ← ApiFloat.bitwise_eq (t339).value t341
  check t342
  let t343 ← Api.div t8 t14
  check (decide (({ invalidOp := true } : Status) = (t343).status))
  let t344 ← ApiFloat.category (t343).value
  check (decide (Category.nan = t344))
  let t345 ← (parse ("nan123".toList) : M Single)
  let t346 ← ApiFloat.bitwise_eq (t343).value t345
  check t346
  let t347 ← Api.div t8 t16
  check (decide (({ invalidOp := true } : Status) = (t347).status))
  let t348 ← ApiFloat.category (t347).value
  check (decide (Category.nan = t348))
  let t349 ← (parse ("nan123".toList) : M Single)
  let t350 ← ApiFloat.bitwise_eq (t347).value t349
  check t350
  let t351 ← Api.div t8 t17
  check (decide (({ invalidOp := true } : Status) = (t351).status))
  let t352 ← ApiFloat.category (t351).value
  check (decide (Category.nan = t352))
  let t353 ← (parse ("nan123".toList) : M Single)
  let t354 ← ApiFloat.bitwise_eq (t351).value t353
  check t354
  let t355 ← Api.div t8 t19
  check (decide (({ invalidOp := true } : Status) = (t355).status))
  let t356 ← ApiFloat.category (t355).value
  check (decide (Category.nan = t356))

example : passes t_divide_10 = true := by decide +kernel

/-- tests/ieee.rs:2916 `divide`. -/
def t_divide_11 : M Unit := do
  let t1 ← (ApiFloat.INFINITY : M Single)
  let t2 ← (ApiFloat.INFINITY : M Single)
  let t3 ← ApiFloat.neg t2
  let t4 ← (ApiFloat.ZERO : M Single)
  let t5 ← (ApiFloat.ZERO : M Single)
  let t6 ← ApiFloat.neg t5
  let t7 ← (ApiFloat.NAN : M Single)
  let t8 ← (parse ("snan123".toList) : M Single)
  let t9 ← (parse ("0x1p+0".toList) : M Single)
  let t10 ← (parse ("-0x1p+0".toList) : M Single)
  let t11 ← (ApiFloat.largest : M Single)
  let t18 ← (ApiFloat.smallest_normalized : M Single)
  let t19 ← ApiFloat.neg t18
  let t355 ← Api.div t8 t19
  let t357 ← (parse ("nan123".toList) : M Single)
  let t358 ← ApiFloat.bitwise_eq (t355).value t357
  check t358
  let t359 ← Api.div t9 t1
  check (decide (Status.OK = (t359).status))
  let t360 ← ApiFloat.category (t359).value
  check (decide (Category.zero = t360))
  let t361 ← (parse ("0x0p+0".toList) : M Single)
  let t362 ← ApiFloat.bitwise_eq (t359).value t361
  check t362
  let t363 ← Api.div t9 t3
  check (decide (Status.OK = (t363).status))
  let t364 ← ApiFloat.category (t363).value
  check (decide (Category.zero = t364))
  let t365 ← (parse ("-0x0p+0".toList) : M Single)
  let t366 ← ApiFloat.bitwise_eq (t363).value t365
  check t366
  let t367 ← Api.div t9 t4
  check (decide (({ divByZero := true } : Status) = (t367).status))
  let t368 ← ApiFloat.category (t367).value
  check (decide (Category.infinity = t368))
  let t369 ← (parse ("inf".toList) : M Single)
  let t370 ← ApiFloat.bitwise_eq (t367).value t369
  check t370
  let t371 ← Api.div t9 t6
  check (decide (({ divByZero := true } : Status) = (t371).status))
  let t372 ← ApiFloat.category (t371).value
  check (decide (Category.infinity = t372))
  let t373 ← (parse ("-inf".toList) : M Single)
  let t374 ← ApiFloat.bitwise_eq (t371).value t373
  check t374
  let t375 ← Api.div t9 t7
  check (decide (Status.OK = (t375).status))
  let t376 ← ApiFloat.category (t375).value
  check (decide (Category.nan = t376))
  let t377 ← (parse ("nan".toList) : M Single)
  let t378 ← ApiFloat.bitwise_eq (t375).value t377
  check t378
  let t379 ← Api.div t9 t8
  check (decide (({ invalidOp := true } : Status) = (t379).status))
  let t380 ← ApiFloat.category (t379).value
  check (decide (Category.nan = t380))
  let t381 ← (parse ("nan123".toList) : M Single)
  let t382 ← ApiFloat.bitwise_eq (t379).value t381
  check t382
  let t383 ← Api.div t9 t9
  check (decide (Status.OK = (t383).status))
  let t384 ← ApiFloat.category (t383).value
  check (decide (Category.normal = t384))
  let t385 ← (parse ("0x1p+0".toList) : M Single)
  let t386 ← ApiFloat.bitwise_eq (t383).value t385
  check t386
  let t387 ← Api.div t9 t10
  check (decide (Status.OK = (t387).status))
  let t388 ← ApiFloat.category (t387).value
  check (decide (Category.normal = t388))
  let t389 ← (parse ("-0x1p+0".toList) : M Single)
  let t390 ← ApiFloat.bitwise_eq (t387).value t389
  check t390
  let t391 ← Api.div t9 t11
  check (decide (({ underflow := true, inexact := true } : Status) = (t391).status))

example : passes t_divide_11 = true := by decide +kernel

/-- tests/ieee.rs:2916 `divide`. -/
def t_divide_12 : M Unit := do
  let t1 ← (ApiFloat.INFINITY : M Single)
  let t2 ← (ApiFloat.INFINITY : M Single)
  let t3 ← ApiFloat.neg t2
  let t4 ← (ApiFloat.ZERO : M Single)
  let t9 ← (parse ("0x1p+0".toList) : M Single)
  let t10 ← (parse ("-0x1p+0".toList) : M Single)
  let t11 ← (ApiFloat.largest : M Single)
  let t12 ← (ApiFloat.largest : M Single)
  let t13 ← ApiFloat.neg t12
  let t14 ← (ApiFloat.SMALLEST : M Single)
  let t15 ← (ApiFloat.SMALLEST : M Single)
  let t16 ← ApiFloat.neg t15
  let t17 ← (ApiFloat.smallest_normalized : M Single)
  let t18 ← (ApiFloat.smallest_normalized : M Single)
  let t19 ← ApiFloat.neg t18
  let t391 ← Api.div t9 t11
  let t392 ← ApiFloat.category (t391).value
  check (decide (Category.normal = t392))
  let t393 ← (parse ("0x1p-128".toList) : M Single)
  let t394 ← ApiFloat.bitwise_eq (t391).value t393
  check t394
  let t395 ← Api.div t9 t13
  check (decide (({ underflow := true, inexact := true } : Status) = (t395).status))
  let t396 ← ApiFloat.category (t395).value
  check (decide (Category.normal = t396))
  let t397 ← (parse ("-0x1p-128".toList) : M Single)
  let t398 ← ApiFloat.bitwise_eq (t395).value t397
  check t398
  let t399 ← Api.div t9 t14
  check (decide (({ overflow := true, inexact := true } : Status) = (t399).status))
  let t400 ← ApiFloat.category (t399).value
  check (decide (Category.infinity = t400))
  let t401 ← (parse ("inf".toList) : M Single)
  let t402 ← ApiFloat.bitwise_eq (t399).value t401
  check t402
  let t403 ← Api.div t9 t16
  check (decide (({ overflow := true, inexact := true } : Status) = (t403).status))
  let t404 ← ApiFloat.category (t403).value
  check (decide (Category.infinity = t404))
  let t405 ← (parse ("-inf".toList) : M Single)
  let t406 ← ApiFloat.bitwise_eq (t403).value t405
  check t406
  let t407 ← Api.div t9 t17
  check (decide (Status.OK = (t407).status))
  let t408 ← ApiFloat.category (t407).value
  check (decide (Category.normal = t408))
  let t409 ← (parse ("0x1p+126".toList) : M Single)
  let t410 ← ApiFloat.bitwise_eq (t407).value t409
  check t410
  let t411 ← Api.div t9 t19
  check (decide (Status.OK = (t411).status))
  let t412 ← ApiFloat.category (t411).value
  check (decide (Category.normal = t412))
  let t413 ← (parse ("-0x1p+126".toList) : M Single)
  let t414 ← ApiFloat.bitwise_eq (t411).value t413
  check t414
  let t415 ← Api.div t10 t1
  check (decide (Status.OK = (t415).status))
  let t416 ← ApiFloat.category (t415).value
  check (decide (Category.zero = t416))
  let t417 ← (parse ("-0x0p+0".toList) : M Single)
  let t418 ← ApiFloat.bitwise_eq (t415).value t417
  check t418
  let t419 ← Api.div t10 t3
  check (decide (Status.OK = (t419).status))
  let t420 ← ApiFloat.category (t419).value
  check (decide (Category.zero = t420))
  let t421 ← (parse ("0x0p+0".toList) : M Single)
  let t422 ← ApiFloat.bitwise_eq (t419).value t421
  check t422
  let t423 ← Api.div t10 t4
  check (decide (({ divByZero := true } : Status) = (t423).status))
  let t424 ← ApiFloat.category (t423).value
  check (decide (Category.infinity = t424))
  let t425 ← (parse ("-inf".toList) : M Single)
  let t426 ← ApiFloat.bitwise_eq (t423).value t425
  check t426

example : passes t_divide_12 = true := by decide +kernel

/-- tests/ieee.rs:2916 `divide`. -/
def t_divide_13 : M Unit := do
  let t5 ← (ApiFloat.ZERO : M Single)
  let t6 ← ApiFloat.neg t5
  let t7 ← (ApiFloat.NAN : M Single)
  let t8 ← (parse ("snan123".toList) : M Single)
  let t9 ← (parse ("0x1p+0".toList) : M Single)
  let t10 ← (parse ("-0x1p+0".toList) : M Single)
  let t11 ← (ApiFloat.largest : M Single)
  let t12 ← (ApiFloat.largest : M Single)
  let t13 ← ApiFloat.neg t12
  let t14 ← (ApiFloat.SMALLEST : M Single)
  let t15 ← (ApiFloat.SMALLEST : M Single)
  let t16 ← ApiFloat.neg t15
  let t427 ← Api.div t10 t6
  check (decide (({ divByZero := true } : Status) = (t427).status))
  let t428 ← ApiFloat.category (t427).value
  check (decide (Category.infinity = t428))
  let t429 ← (parse ("inf".toList) : M Single)
  let t430 ← ApiFloat.bitwise_eq (t427).value t429
  check t430
  let t431 ← Api.div t10 t7
  check (decide (Status.OK = (t431).status))
  let t432 ← ApiFloat.category (t431).value
  check (decide (Category.nan = t432))
  let t433 ← (parse ("nan".toList) : M Single)
  let t434 ← ApiFloat.bitwise_eq (t431).value t433
  check t434
  let t435 ← Api.div t10 t8
  check (decide (({ invalidOp := true } : Status) = (t435).status))
  let t436 ← ApiFloat.category (t435).value
  check (decide (Category.nan = t436))
  let t437 ← (parse ("nan123".toList) : M Single)
  let t438 ← ApiFloat.bitwise_eq (t435).value t437
  check t438
  let t439 ← Api.div t10 t9
  check (decide (Status.OK = (t439).status))
  let t440 ← ApiFloat.category (t439).value
  check (decide (Category.normal = t440))
  let t441 ← (parse ("-0x1p+0".toList) : M Single)
  let t442 ← ApiFloat.bitwise_eq (t439).value t441
  check t442
  let t443 ← Api.div t10 t10
  check (decide (Status.OK = (t443).status))
  let t444 ← ApiFloat.category (t443).value
  check (decide (Category.normal = t444))
  let t445 ← (parse ("0x1p+0".toList) : M Single)
  let t446 ← ApiFloat.bitwise_eq (t443).value t445
  check t446
  let t447 ← Api.div t10 t11
  check (decide (({ underflow := true, inexact := true } : Status) = (t447).status))
  let t448 ← ApiFloat.category (t447).value
  check (decide (Category.normal = t448))
  let t449 ← (parse ("-0x1p-128".toList) : M Single)
  let t450 ← ApiFloat.bitwise_eq (t447).value t449
  check t450
  let t451 ← Api.div t10 t13
  check (decide (({ underflow := true, inexact := true } : Status) = (t451).status))
  let t452 ← ApiFloat.category (t451).value
  check (decide (Category.normal = t452))
  let t453 ← (parse ("0x1p-128".toList) : M Single)
  let t454 ← ApiFloat.bitwise_eq (t451).value t453
  check t454
  let t455 ← Api.div t10 t14
  check (decide (({ overflow := true, inexact := true } : Status) = (t455).status))
  let t456 ← ApiFloat.category (t455).value
  check (decide (Category.infinity = t456))
  let t457 ← (parse ("-inf".toList) : M Single)
  let t458 ← ApiFloat.bitwise_eq (t455).value t457
  check t458
  let t459 ← Api.div t10 t16
  check (decide (({ overflow := true, inexact := true } : Status) = (t459).status))
  let t460 ← ApiFloat.category (t459).value
  check (decide (Category.infinity = t460))

example : passes t_divide_13 = true := by decide +kernel

/-- tests/ieee.rs:2916 `divide`. -/
def t_divide_14 : M Unit := do
  let t1 ← (ApiFloat.INFINITY : M Single)
  let t2 ← (ApiFloat.INFINITY : M Single)
  let t3 ← ApiFloat.neg t2
  let t4 ← (ApiFloat.ZERO : M Single)
  let t5 ← (ApiFloat.ZERO : M Single)
  let t6 ← ApiFloat.neg t5
  let t7 ← (ApiFloat.NAN : M Single)
  let t8 ← (parse ("snan123".toList) : M Single)
  let t9 ← (parse ("0x1p+0".toList) : M Single)
  let t10 ← (parse ("-0x1p+0".toList) : M Single)
  let t11 ← (ApiFloat.largest : M Single)
  let t15 ← (ApiFloat.SMALLEST : M Single)
  let t16 ← ApiFloat.neg t15
  let t17 ← (ApiFloat.smallest_normalized : M Single)
  let t18 ← (ApiFloat.smallest_normalized : M Single)
  let t19 ← ApiFloat.neg t18
  let t459 ← Api.div t10 t16
  let t461 ← (parse ("inf".toList) : M Single)
  let t462 ← ApiFloat.bitwise_eq (t459).value t461
  check t462
  let t463 ← Api.div t10 t17
  check (decide (Status.OK = (t463).status))
  let t464 ← ApiFloat.category (t463).value
  check (decide (Category.normal = t464))
  let t465 ← (parse ("-0x1p+126".toList) : M Single)
  let t466 ← ApiFloat.bitwise_eq (t463).value t465
  check t466
  let t467 ← Api.div t10 t19
  check (decide (Status.OK = (t467).status))
  let t468 ← ApiFloat.category (t467).value
  check (decide (Category.normal = t468))
  let t469 ← (parse ("0x1p+126".toList) : M Single)
  let t470 ← ApiFloat.bitwise_eq (t467).value t469
  check t470
  let t471 ← Api.div t11 t1
  check (decide (Status.OK = (t471).status))
  let t472 ← ApiFloat.category (t471).value
  check (decide (Category.zero = t472))
  let t473 ← (parse ("0x0p+0".toList) : M Single)
  let t474 ← ApiFloat.bitwise_eq (t471).value t473
  check t474
  let t475 ← Api.div t11 t3
  check (decide (Status.OK = (t475).status))
  let t476 ← ApiFloat.category (t475).value
  check (decide (Category.zero = t476))
  let t477 ← (parse ("-0x0p+0".toList) : M Single)
  let t478 ← ApiFloat.bitwise_eq (t475).value t477
  check t478
  let t479 ← Api.div t11 t4
  check (decide (({ divByZero := true } : Status) = (t479).status))
  let t480 ← ApiFloat.category (t479).value
  check (decide (Category.infinity = t480))
  let t481 ← (parse ("inf".toList) : M Single)
  let t482 ← ApiFloat.bitwise_eq (t479).value t481
  check t482
  let t483 ← Api.div t11 t6
  check (decide (({ divByZero := true } : Status) = (t483).status))
  let t484 ← ApiFloat.category (t483).value
  check (decide (Category.infinity = t484))
  let t485 ← (parse ("-inf".toList) : M Single)
  let t486 ← ApiFloat.bitwise_eq (t483).value t485
  check t486
  let t487 ← Api.div t11 t7
  check (decide (Status.OK = (t487).status))
  let t488 ← ApiFloat.category (t487).value
  check (decide (Category.nan = t488))
  let t489 ← (parse ("nan".toList) : M Single)
  let t490 ← ApiFloat.bitwise_eq (t487).value t489
  check t490
  let t491 ← Api.div t11 t8
  check (decide (({ invalidOp := true } : Status) = (t491).status))
  let t492 ← ApiFloat.category (t491).value
  check (decide (Category.nan = t492))
  let t493 ← (parse ("nan123".toList) : M Single)
  let t494 ← ApiFloat.bitwise_eq (t491).value t493
  check t494
  let t495 ← Api.div t11 t9
  check (decide (Status.OK = (t495).status))

example : passes t_divide_14 = true := by decide +kernel

/-- tests/ieee.rs:2916 `divide`. -/
def t_divide_15 : M Unit := do
  let t1 ← (ApiFloat.INFINITY : M Single)
  let t9 ← (parse ("0x1p+0".toList) : M Single)
  let t10 ← (parse ("-0x1p+0".toList) : M Single)
  let t11 ← (ApiFloat.largest : M Single)
  let t12 ← (ApiFloat.largest : M Single)
  let t13 ← ApiFloat.neg t12
  let t14 ← (ApiFloat.SMALLEST : M Single)
  let t15 ← (ApiFloat.SMALLEST : M Single)
  let t16 ← ApiFloat.neg t15
  let t17 ← (ApiFloat.smallest_normalized : M Single)
  let t18 ← (ApiFloat.smallest_normalized : M Single)
  let t19 ← ApiFloat.neg t18
  let t495 ← Api.div t11 t9
  let t496 ← ApiFloat.category (t495).value
  check (decide (Category.normal = t496))
  let t497 ← (parse ("0x1.fffffep+127".toList) : M Single)
  let t498 ← ApiFloat.bitwise_eq (t495).value t497
  check t498
  let t499 ← Api.div t11 t10
  check (decide (Status.OK = (t499).status))
  let t500 ← ApiFloat.category (t499).value
  check (decide (Category.normal = t500))
  let t501 ← (parse ("-0x1.fffffep+127".toList) : M Single)
  let t502 ← ApiFloat.bitwise_eq (t499).value t501
  check t502
  let t503 ← Api.div t11 t11
  check (decide (Status.OK = (t503).status))
  let t504 ← ApiFloat.category (t503).value
  check (decide (Category.normal = t504))
  let t505 ← (parse ("0x1p+0".toList) : M Single)
  let t506 ← ApiFloat.bitwise_eq (t503).value t505
  check t506
  let t507 ← Api.div t11 t13
  check (decide (Status.OK = (t507).status))
  let t508 ← ApiFloat.category (t507).value
  check (decide (Category.normal = t508))
  let t509 ← (parse ("-0x1p+0".toList) : M Single)
  let t510 ← ApiFloat.bitwise_eq (t507).value t509
  check t510
  let t511 ← Api.div t11 t14
  check (decide (({ overflow := true, inexact := true } : Status) = (t511).status))
  let t512 ← ApiFloat.category (t511).value
  check (decide (Category.infinity = t512))
  let t513 ← (parse ("inf".toList) : M Single)
  let t514 ← ApiFloat.bitwise_eq (t511).value t513
  check t514
  let t515 ← Api.div t11 t16
  check (decide (({ overflow := true, inexact := true } : Status) = (t515).status))
  let t516 ← ApiFloat.category (t515).value
  check (decide (Category.infinity = t516))
  let t517 ← (parse ("-inf".toList) : M Single)
  let t518 ← ApiFloat.bitwise_eq (t515).value t517
  check t518
  let t519 ← Api.div t11 t17
  check (decide (({ overflow := true, inexact := true } : Status) = (t519).status))
  let t520 ← ApiFloat.category (t519).value
  check (decide (Category.infinity = t520))
  let t521 ← (parse ("inf".toList) : M Single)
  let t522 ← ApiFloat.bitwise_eq (t519).value t521
  check t522
  let t523 ← Api.div t11 t19
  check (decide (({ overflow := true, inexact := true } : Status) = (t523).status))
  let t524 ← ApiFloat.category (t523).value
  check (decide (Category.infinity = t524))
  let t525 ← (parse ("-inf".toList) : M Single)
  let t526 ← ApiFloat.bitwise_eq (t523).value t525
  check t526
  let t527 ← Api.div t13 t1
  check (decide (Status.OK = (t527).status))
  let t528 ← ApiFloat.category (t527).value
  check (decide (Category.zero = t528))
  let t529 ← (parse ("-0x0p+0".toList) : M Single)
  let t530 ← ApiFloat.bitwise_eq (t527).value t529
  check t530

example : passes t_divide_15 = true := by decide +kernel

/-- tests/ieee.rs:2916 `divide`. -/
def t_divide_16 : M Unit := do
  let t2 ← (ApiFloat.INFINITY : M Single)
  let t3 ← ApiFloat.neg t2
  let t4 ← (ApiFloat.ZERO : M Single)
  let t5 ← (ApiFloat.ZERO : M Single)
  let t6 ← ApiFloat.neg t5
  let t7 ← (ApiFloat.NAN : M Single)
  let t8 ← (parse ("snan123".toList) : M Single)
  let t9 ← (parse ("0x1p+0".toList) : M Single)
  let t10 ← (parse ("-0x1p+0".toList) : M Single)
  let t11 ← (ApiFloat.largest : M Single)
  let t12 ← (ApiFloat.largest : M Single)
  let t13 ← ApiFloat.neg t12
  let t531 ← Api.div t13 t3
  check (decide (Status.OK = (t531).status))
  let t532 ← ApiFloat.category (t531).value
  check (decide (Category.zero = t532))
  let t533 ← (parse ("0x0p+0".toList) : M Single)
  let t534 ← ApiFloat.bitwise_eq (t531).value t533
  check t534
  let t535 ← Api.div t13 t4
  check (decide (({ divByZero := true } : Status) = (t535).status))
  let t536 ← ApiFloat.category (t535).value
  check (decide (Category.infinity = t536))
  let t537 ← (parse ("-inf".toList) : M Single)
  let t538 ← ApiFloat.bitwise_eq (t535).value t537
  check t538
  let t539 ← Api.div t13 t6
  check (decide (({ divByZero := true } : Status) = (t539).status))
  let t540 ← ApiFloat.category (t539).value
  check (decide (Category.infinity = t540))
  let t541 ← (parse ("inf".toList) : M Single)
  let t542 ← ApiFloat.bitwise_eq (t539).value t541
  check t542
  let t543 ← Api.div t13 t7
  check (decide (Status.OK = (t543).status))
  let t544 ← ApiFloat.category (t543).value
  check (decide (Category.nan = t544))
  let t545 ← (parse ("nan".toList) : M Single)
  let t546 ← ApiFloat.bitwise_eq (t543).value t545
  check t546
  let t547 ← Api.div t13 t8
  check (decide (({ invalidOp := true } : Status) = (t547).status))
  let t548 ← ApiFloat.category (t547).value
  check (decide (Category.nan = t548))
  let t549 ← (parse ("nan123".toList) : M Single)
  let t550 ← ApiFloat.bitwise_eq (t547).value t549
  check t550
  let t551 ← Api.div t13 t9
  check (decide (Status.OK = (t551).status))
  let t552 ← ApiFloat.category (t551).value
  check (decide (Category.normal = t552))
  let t553 ← (parse ("-0x1.fffffep+127".toList) : M Single)
  let t554 ← ApiFloat.bitwise_eq (t551).value t553
  check t554
  let t555 ← Api.div t13 t10
  check (decide (Status.OK = (t555).status))
  let t556 ← ApiFloat.category (t555).value
  check (decide (Category.normal = t556))
  let t557 ← (parse ("0x1.fffffep+127".toList) : M Single)
  let t558 ← ApiFloat.bitwise_eq (t555).value t557
  check t558
  let t559 ← Api.div t13 t11
  check (decide (Status.OK = (t559).status))
  let t560 ← ApiFloat.category (t559).value
  check (decide (Category.normal = t560))
  let t561 ← (parse ("-0x1p+0".toList) : M Single)
  let t562 ← ApiFloat.bitwise_eq (t559).value t561
  check t562
  let t563 ← Api.div t13 t13
  check (decide (Status.OK = (t563).status))
  let t564 ← ApiFloat.category (t563).value
  check (decide (Category.normal = t564))

example : passes t_divide_16 = true := by decide +kernel

/-- tests/ieee.rs:2916 `divide`. -/
def t_divide_17 : M Unit := do
  let t1 ← (ApiFloat.INFINITY : M Single)
  let t2 ← (ApiFloat.INFINITY : M Single)
  let t3 ← ApiFloat.neg t2
  let t4 ← (ApiFloat.ZERO : M Single)
  let t5 ← (ApiFloat.ZERO : M Single)
  let t6 ← ApiFloat.neg t5
  let t7 ← (ApiFloat.NAN : M Single)
  let t12 ← (ApiFloat.largest : M Single)
  let t13 ← ApiFloat.neg t12
  let t14 ← (ApiFloat.SMALLEST : M Single)
  let t15 ← (ApiFloat.SMALLEST : M Single)
  let t16 ← ApiFloat.neg t15
  let t17 ← (ApiFloat.smallest_normalized : M Single)
  let t18 ← (ApiFloat.smallest_normalized : M Single)
  let t19 ← ApiFloat.neg t18
  let t563 ← Api.div t13 t13
  let t565 ← (parse ("0x1p+0".toList) : M Single)
  let t566 ← ApiFloat.bitwise_eq (t563).value t565
  check t566
  let t567 ← Api.div t13 t14
  check (decide (({ overflow := true, inexact := true } : Status) = (t567).status))
  let t568 ← ApiFloat.category (t567).value
  check (decide (Category.infinity = t568))
  let t569 ← (parse ("-inf".toList) : M Single)
  let t570 ← ApiFloat.bitwise_eq (t567).value t569
  check t570
  let t571 ← Api.div t13 t16
  check (decide (({ overflow := true, inexact := true } : Status) = (t571).status))
  let t572 ← ApiFloat.category (t571).value
  check (decide (Category.infinity = t572))
  let t573 ← (parse ("inf".toList) : M Single)
  let t574 ← ApiFloat.bitwise_eq (t571).value t573
  check t574
  let t575 ← Api.div t13 t17
  check (decide (({ overflow := true, inexact := true } : Status) = (t575).status))
  let t576 ← ApiFloat.category (t575).value
  check (decide (Category.infinity = t576))
  let t577 ← (parse ("-inf".toList) : M Single)
  let t578 ← ApiFloat.bitwise_eq (t575).value t577
  check t578
  let t579 ← Api.div t13 t19
  check (decide (({ overflow := true, inexact := true } : Status) = (t579).status))
  let t580 ← ApiFloat.category (t579).value
  check (decide (Category.infinity = t580))
  let t581 ← (parse ("inf".toList) : M Single)
  let t582 ← ApiFloat.bitwise_eq (t579).value t581
  check t582
  let t583 ← Api.div t14 t1
  check (decide (Status.OK = (t583).status))
  let t584 ← ApiFloat.category (t583).value
  check (decide (Category.zero = t584))
  let t585 ← (parse ("0x0p+0".toList) : M Single)
  let t586 ← ApiFloat.bitwise_eq (t583).value t585
  check t586
  let t587 ← Api.div t14 t3
  check (decide (Status.OK = (t587).status))
  let t588 ← ApiFloat.category (t587).value
  check (decide (Category.zero = t588))
  let t589 ← (parse ("-0x0p+0".toList) : M Single)
  let t590 ← ApiFloat.bitwise_eq (t587).value t589
  check t590
  let t591 ← Api.div t14 t4
  check (decide (({ divByZero := true } : Status) = (t591).status))
  let t592 ← ApiFloat.category (t591).value
  check (decide (Category.infinity = t592))
  let t593 ← (parse ("inf".toList) : M Single)
  let t594 ← ApiFloat.bitwise_eq (t591).value t593
  check t594
  let t595 ← Api.div t14 t6
  check (decide (({ divByZero := true } : Status) = (t595).status))
  let t596 ← ApiFloat.category (t595).value
  check (decide (Category.infinity = t596))
  let t597 ← (parse ("-inf".toList) : M Single)
  let t598 ← ApiFloat.bitwise_eq (t595).value t597
  check t598
  let t599 ← Api.div t14 t7
  check (decide (Status.OK = (t599).status))

example : passes t_divide_17 = true := by decide +kernel

/-- tests/ieee.rs:2916 `divide`. -/
def t_divide_18 : M Unit := do
  let t7 ← (ApiFloat.NAN : M Single)
  let t8 ← (parse ("snan123".toList) : M Single)
  let t9 ← (parse ("0x1p+0".toList) : M Single)
  let t10 ← (parse ("-0x1p+0".toList) : M Single)
  let t11 ← (ApiFloat.largest : M Single)
  let t12 ← (ApiFloat.largest : M Single)
  let t13 ← ApiFloat.neg t12
  let t14 ← (ApiFloat.SMALLEST : M Single)
  let t15 ← (ApiFloat.SMALLEST : M Single)
  let t16 ← ApiFloat.neg t15
  let t17 ← (ApiFloat.smallest_normalized : M Single)
  let t599 ← Api.div t14 t7
  let t600 ← ApiFloat.category (t599).value
  check (decide (Category.nan = t600))
  let t601 ← (parse ("nan".toList) : M Single)
  let t602 ← ApiFloat.bitwise_eq (t599).value t601
  check t602
  let t603 ← Api.div t14 t8
  check (decide (({ invalidOp := true } : Status) = (t603).status))
  let t604 ← ApiFloat.category (t603).value
  check (decide (Category.nan = t604))
  let t605 ← (parse ("nan123".toList) : M Single)
  let t606 ← ApiFloat.bitwise_eq (t603).value t605
  check t606
  let t607 ← Api.div t14 t9
  check (decide (Status.OK = (t607).status))
  let t608 ← ApiFloat.category (t607).value
  check (decide (Category.normal = t608))
  let t609 ← (parse ("0x1p-149".toList) : M Single)
  let t610 ← ApiFloat.bitwise_eq (t607).value t609
  check t610
  let t611 ← Api.div t14 t10
  check (decide (Status.OK = (t611).status))
  let t612 ← ApiFloat.category (t611).value
  check (decide (Category.normal = t612))
  let t613 ← (parse ("-0x1p-149".toList) : M Single)
  let t614 ← ApiFloat.bitwise_eq (t611).value t613
  check t614
  let t615 ← Api.div t14 t11
  check (decide (({ underflow := true, inexact := true } : Status) = (t615).status))
  let t616 ← ApiFloat.category (t615).value
  check (decide (Category.zero = t616))
  let t617 ← (parse ("0x0p+0".toList) : M Single)
  let t618 ← ApiFloat.bitwise_eq (t615).value t617
  check t618
  let t619 ← Api.div t14 t13
  check (decide (({ underflow := true, inexact := true } : Status) = (t619).status))
  let t620 ← ApiFloat.category (t619).value
  check (decide (Category.zero = t620))
  let t621 ← (parse ("-0x0p+0".toList) : M Single)
  let t622 ← ApiFloat.bitwise_eq (t619).value t621
  check t622
  let t623 ← Api.div t14 t14
  check (decide (Status.OK = (t623).status))
  let t624 ← ApiFloat.category (t623).value
  check (decide (Category.normal = t624))
  let t625 ← (parse ("0x1p+0".toList) : M Single)
  let t626 ← ApiFloat.bitwise_eq (t623).value t625
  check t626
  let t627 ← Api.div t14 t16
  check (decide (Status.OK = (t627).status))
  let t628 ← ApiFloat.category (t627).value
  check (decide (Category.normal = t628))
  let t629 ← (parse ("-0x1p+0".toList) : M Single)
  let t630 ← ApiFloat.bitwise_eq (t627).value t629
  check t630
  let t631 ← Api.div t14 t17
  check (decide (Status.OK = (t631).status))
  let t632 ← ApiFloat.category (t631).value
  check (decide (Category.normal = t632))
  let t633 ← (parse ("0x1p-23".toList) : M Single)
  let t634 ← ApiFloat.bitwise_eq (t631).value t633
  check t634

example : passes t_divide_18 = true := by decide +kernel

/-- tests/ieee.rs:2916 `divide`. -/
def t_divide_19 : M Unit := do
  let t1 ← (ApiFloat.INFINITY : M Single)
  let t2 ← (ApiFloat.INFINITY : M Single)
  let t3 ← ApiFloat.neg t2
  let t4 ← (ApiFloat.ZERO : M Single)
  let t5 ← (ApiFloat.ZERO : M Single)
  let t6 ← ApiFloat.neg t5
  let t7 ← (ApiFloat.NAN : M Single)
  let t8 ← (parse ("snan123".toList) : M Single)
  let t9 ← (parse ("0x1p+0".toList) : M Single)
  let t10 ← (parse ("-0x1p+0".toList) : M Single)
  let t14 ← (ApiFloat.SMALLEST : M Single)
  let t15 ← (ApiFloat.SMALLEST : M Single)
  let t16 ← ApiFloat.neg t15
  let t18 ← (ApiFloat.smallest_normalized : M Single)
  let t19 ← ApiFloat.neg t18
  let t635 ← Api.div t14 t19
  check (decide (Status.OK = (t635).status))
  let t636 ← ApiFloat.category (t635).value
  check (decide (Category.normal = t636))
  let t637 ← (parse ("-0x1p-23".toList) : M Single)
  let t638 ← ApiFloat.bitwise_eq (t635).value t637
  check t638
  let t639 ← Api.div t16 t1
  check (decide (Status.OK = (t639).status))
  let t640 ← ApiFloat.category (t639).value
  check (decide (Category.zero = t640))
  let t641 ← (parse ("-0x0p+0".toList) : M Single)
  let t642 ← ApiFloat.bitwise_eq (t639).value t641
  check t642
  let t643 ← Api.div t16 t3
  check (decide (Status.OK = (t643).status))
  let t644 ← ApiFloat.category (t643).value
  check (decide (Category.zero = t644))
  let t645 ← (parse ("0x0p+0".toList) : M Single)
  let t646 ← ApiFloat.bitwise_eq (t643).value t645
  check t646
  let t647 ← Api.div t16 t4
  check (decide (({ divByZero := true } : Status) = (t647).status))
  let t648 ← ApiFloat.category (t647).value
  check (decide (Category.infinity = t648))
  let t649 ← (parse ("-inf".toList) : M Single)
  let t650 ← ApiFloat.bitwise_eq (t647).value t649
  check t650
  let t651 ← Api.div t16 t6
  check (decide (({ divByZero := true } : Status) = (t651).status))
  let t652 ← ApiFloat.category (t651).value
  check (decide (Category.infinity = t652))
  let t653 ← (parse ("inf".toList) : M Single)
  let t654 ← ApiFloat.bitwise_eq (t651).value t653
  check t654
  let t655 ← Api.div t16 t7
  check (decide (Status.OK = (t655).status))
  let t656 ← ApiFloat.category (t655).value
  check (decide (Category.nan = t656))
  let t657 ← (parse ("nan".toList) : M Single)
  let t658 ← ApiFloat.bitwise_eq (t655).value t657
  check t658
  let t659 ← Api.div t16 t8
  check (decide (({ invalidOp := true } : Status) = (t659).status))
  let t660 ← ApiFloat.category (t659).value
  check (decide (Category.nan = t660))
  let t661 ← (parse ("nan123".toList) : M Single)
  let t662 ← ApiFloat.bitwise_eq (t659).value t661
  check t662
  let t663 ← Api.div t16 t9
  check (decide (Status.OK = (t663).status))
  let t664 ← ApiFloat.category (t663).value
  check (decide (Category.normal = t664))
  let t665 ← (parse ("-0x1p-149".toList) : M Single)
  let t666 ← ApiFloat.bitwise_eq (t663).value t665
  check t666
  let t667 ← Api.div t16 t10
  check (decide (Status.OK = (t667).status))
  let t668 ← ApiFloat.category (t667).value
  check (decide (Category.normal = t668))

example : passes t_divide_19 = true := by decide +kernel

/-- tests/ieee.rs:2916 `divide`. -/
def t_divide_20 : M Unit := do
  let t1 ← (ApiFloat.INFINITY : M Single)
  let t2 ← (ApiFloat.INFINITY : M Single)
  let t3 ← ApiFloat.neg t2
  let t4 ← (ApiFloat.ZERO : M Single)
  let t10 ← (parse ("-0x1p+0".toList) : M Single)
  let t11 ← (ApiFloat.largest : M Single)
  let t12 ← (ApiFloat.largest : M Single)
  let t13 ← ApiFloat.neg t12
  let t14 ← (ApiFloat.SMALLEST : M Single)
  let t15 ← (ApiFloat.SMALLEST : M Single)
  let t16 ← ApiFloat.neg t15
  let t17 ← (ApiFloat.smallest_normalized : M Single)
  let t18 ← (ApiFloat.smallest_normalized : M Single)
  let t19 ← ApiFloat.neg t18
  let t667 ← Api.div t16 t10
  let t669 ← (parse ("0x1p-149".toList) : M Single)
  let t670 ← ApiFloat.bitwise_eq (t667).value t669
  check t670
  let t671 ← Api.div t16 t11
  check (decide (({ underflow := true, inexact := true } : Status) = (t671).status))
  let t672 ← ApiFloat.category (t671).value
  check (decide (Category.zero = t672))
  let t673 ← (parse ("-0x0p+0".toList) : M Single)
  let t674 ← ApiFloat.bitwise_eq (t671).value t673
  check t674
  let t675 ← Api.div t16 t13
  check (decide (({ underflow := true, inexact := true } : Status) = (t675).status))
  let t676 ← ApiFloat.category (t675).value
  check (decide (Category.zero = t676))
  let t677 ← (parse ("0x0p+0".toList) : M Single)
  let t678 ← ApiFloat.bitwise_eq (t675).value t677
  check t678
  let t679 ← Api.div t16 t14
  check (decide (Status.OK = (t679).status))
  let t680 ← ApiFloat.category (t679).value
  check (decide (Category.normal = t680))
  let t681 ← (parse ("-0x1p+0".toList) : M Single)
  let t682 ← ApiFloat.bitwise_eq (t679).value t681
  check t682
  let t683 ← Api.div t16 t16
  check (decide (Status.OK = (t683).status))
  let t684 ← ApiFloat.category (t683).value
  check (decide (Category.normal = t684))
  let t685 ← (parse ("0x1p+0".toList) : M Single)
  let t686 ← ApiFloat.bitwise_eq (t683).value t685
  check t686
  let t687 ← Api.div t16 t17
  check (decide (Status.OK = (t687).status))
  let t688 ← ApiFloat.category (t687).value
  check (decide (Category.normal = t688))
  let t689 ← (parse ("-0x1p-23".toList) : M Single)
  let t690 ← ApiFloat.bitwise_eq (t687).value t689
  check t690
  let t691 ← Api.div t16 t19
  check (decide (Status.OK = (t691).status))
  let t692 ← ApiFloat.category (t691).value
  check (decide (Category.normal = t692))
  let t693 ← (parse ("0x1p-23".toList) : M Single)
  let t694 ← ApiFloat.bitwise_eq (t691).value t693
  check t694
  let t695 ← Api.div t17 t1
  check (decide (Status.OK = (t695).status))
  let t696 ← ApiFloat.category (t695).value
  check (decide (Category.zero = t696))
  let t697 ← (parse ("0x0p+0".toList) : M Single)
  let t698 ← ApiFloat.bitwise_eq (t695).value t697
  check t698
  let t699 ← Api.div t17 t3
  check (decide (Status.OK = (t699).status))
  let t700 ← ApiFloat.category (t699).value
  check (decide (Category.zero = t700))
  let t701 ← (parse ("-0x0p+0".toList) : M Single)
  let t702 ← ApiFloat.bitwise_eq (t699).value t701
  check t702
  let t703 ← Api.div t17 t4
  check (decide (({ divByZero := true } : Status) = (t703).status))

example : passes t_divide_20 = true := by decide +kernel

/-- tests/ieee.rs:2916 `divide`. -/
def t_divide_21 : M Unit := do
  let t4 ← (ApiFloat.ZERO : M Single)
  let t5 ← (ApiFloat.ZERO : M Single)
  let t6 ← ApiFloat.neg t5
  let t7 ← (ApiFloat.NAN : M Single)
  let t8 ← (parse ("snan123".toList) : M Single)
  let t9 ← (parse ("0x1p+0".toList) : M Single)
  let t10 ← (parse ("-0x1p+0".toList) : M Single)
  let t11 ← (ApiFloat.largest : M Single)
  let t12 ← (ApiFloat.largest : M Single)
  let t13 ← ApiFloat.neg t12
  let t14 ← (ApiFloat.SMALLEST : M Single)
  let t17 ← (ApiFloat.smallest_normalized : M Single)
  let t703 ← Api.div t17 t4
  let t704 ← ApiFloat.category (t703).value
  check (decide (Category.infinity = t704))
  let t705 ← (parse ("inf".toList) : M Single)
  let t706 ← ApiFloat.bitwise_eq (t703).value t705
  check t706
  let t707 ← Api.div t17 t6
  check (decide (({ divByZero := true } : Status) = (t707).status))
  let t708 ← ApiFloat.category (t707).value
  check (decide (Category.infinity = t708))
  let t709 ← (parse ("-inf".toList) : M Single)
  let t710 ← ApiFloat.bitwise_eq (t707).value t709
  check t710
  let t711 ← Api.div t17 t7
  check (decide (Status.OK = (t711).status))
  let t712 ← ApiFloat.category (t711).value
  check (decide (Category.nan = t712))
  let t713 ← (parse ("nan".toList) : M Single)
  let t714 ← ApiFloat.bitwise_eq (t711).value t713
  check t714
  let t715 ← Api.div t17 t8
  check (decide (({ invalidOp := true } : Status) = (t715).status))
  let t716 ← ApiFloat.category (t715).value
  check (decide (Category.nan = t716))
  let t717 ← (parse ("nan123".toList) : M Single)
  let t718 ← ApiFloat.bitwise_eq (t715).value t717
  check t718
  let t719 ← Api.div t17 t9
  check (decide (Status.OK = (t719).status))
  let t720 ← ApiFloat.category (t719).value
  check (decide (Category.normal = t720))
  let t721 ← (parse ("0x1p-126".toList) : M Single)
  let t722 ← ApiFloat.bitwise_eq (t719).value t721
  check t722
  let t723 ← Api.div t17 t10
  check (decide (Status.OK = (t723).status))
  let t724 ← ApiFloat.category (t723).value
  check (decide (Category.normal = t724))
  let t725 ← (parse ("-0x1p-126".toList) : M Single)
  let t726 ← ApiFloat.bitwise_eq (t723).value t725
  check t726
  let t727 ← Api.div t17 t11
  check (decide (({ underflow := true, inexact := true } : Status) = (t727).status))
  let t728 ← ApiFloat.category (t727).value
  check (decide (Category.zero = t728))
  let t729 ← (parse ("0x0p+0".toList) : M Single)
  let t730 ← ApiFloat.bitwise_eq (t727).value t729
  check t730
  let t731 ← Api.div t17 t13
  check (decide (({ underflow := true, inexact := true } : Status) = (t731).status))
  let t732 ← ApiFloat.category (t731).value
  check (decide (Category.zero = t732))
  let t733 ← (parse ("-0x0p+0".toList) : M Single)
  let t734 ← ApiFloat.bitwise_eq (t731).value t733
  check t734
  let t735 ← Api.div t17 t14
  check (decide (Status.OK = (t735).status))
  let t736 ← ApiFloat.category (t735).value
  check (decide (Category.normal = t736))
  let t737 ← (parse ("0x1p+23".toList) : M Single)
  let t738 ← ApiFloat.bitwise_eq (t735).value t737
  check t738

example : passes t_divide_21 = true := by decide +kernel

/-- tests/ieee.rs:2916 `divide`. -/
def t_divide_22 : M Unit := do
  let t1 ← (ApiFloat.INFINITY : M Single)
  let t2 ← (ApiFloat.INFINITY : M Single)
  let t3 ← ApiFloat.neg t2
  let t4 ← (ApiFloat.ZERO : M Single)
  let t5 ← (ApiFloat.ZERO : M Single)
  let t6 ← ApiFloat.neg t5
  let t7 ← (ApiFloat.NAN : M Single)
  let t8 ← (parse ("snan123".toList) : M Single)
  let t15 ← (ApiFloat.SMALLEST : M Single)
  let t16 ← ApiFloat.neg t15
  let t17 ← (ApiFloat.smallest_normalized : M Single)
  let t18 ← (ApiFloat.smallest_normalized : M Single)
  let t19 ← ApiFloat.neg t18
  let t739 ← Api.div t17 t16
  check (decide (Status.OK = (t739).status))
  let t740 ← ApiFloat.category (t739).value
  check (decide (Category.normal = t740))
  let t741 ← (parse ("-0x1p+23".toList) : M Single)
  let t742 ← ApiFloat.bitwise_eq (t739).value t741
  check t742
  let t743 ← Api.div t17 t17
  check (decide (Status.OK = (t743).status))
  let t744 ← ApiFloat.category (t743).value
  check (decide (Category.normal = t744))
  let t745 ← (parse ("0x1p+0".toList) : M Single)
  let t746 ← ApiFloat.bitwise_eq (t743).value t745
  check t746
  let t747 ← Api.div t17 t19
  check (decide (Status.OK = (t747).status))
  let t748 ← ApiFloat.category (t747).value
  check (decide (Category.normal = t748))
  let t749 ← (parse ("-0x1p+0".toList) : M Single)
  let t750 ← ApiFloat.bitwise_eq (t747).value t749
  check t750
  let t751 ← Api.div t19 t1
  check (decide (Status.OK = (t751).status))
  let t752 ← ApiFloat.category (t751).value
  check (decide (Category.zero = t752))
  let t753 ← (parse ("-0x0p+0".toList) : M Single)
  let t754 ← ApiFloat.bitwise_eq (t751).value t753
  check t754
  let t755 ← Api.div t19 t3
  check (decide (Status.OK = (t755).status))
  let t756 ← ApiFloat.category (t755).value
  check (decide (Category.zero = t756))
  let t757 ← (parse ("0x0p+0".toList) : M Single)
  let t758 ← ApiFloat.bitwise_eq (t755).value t757
  check t758
  let t759 ← Api.div t19 t4
  check (decide (({ divByZero := true } : Status) = (t759).status))
  let t760 ← ApiFloat.category (t759).value
  check (decide (Category.infinity = t760))
  let t761 ← (parse ("-inf".toList) : M Single)
  let t762 ← ApiFloat.bitwise_eq (t759).value t761
  check t762
  let t763 ← Api.div t19 t6
  check (decide (({ divByZero := true } : Status) = (t763).status))
  let t764 ← ApiFloat.category (t763).value
  check (decide (Category.infinity = t764))
  let t765 ← (parse ("inf".toList) : M Single)
  let t766 ← ApiFloat.bitwise_eq (t763).value t765
  check t766
  let t767 ← Api.div t19 t7
  check (decide (Status.OK = (t767).status))
  let t768 ← ApiFloat.category (t767).value
  check (decide (Category.nan = t768))
  let t769 ← (parse ("nan".toList) : M Single)
  let t770 ← ApiFloat.bitwise_eq (t767).value t769
  check t770
  let t771 ← Api.div t19 t8
  check (decide (({ invalidOp := true } : Status) = (t771).status))
  let t772 ← ApiFloat.category (t771).value
  check (decide (Category.nan = t772))

example : passes t_divide_22 = true := by decide +kernel

/-- tests/ieee.rs:2916 `divide`. -/
def t_divide_23 : M Unit := do
  let t8 ← (parse ("snan123".toList) : M Single)
  let t9 ← (parse ("0x1p+0".toList) : M Single)
  let t10 ← (parse ("-0x1p+0".toList) : M Single)
  let t11 ← (ApiFloat.largest : M Single)
  let t12 ← (ApiFloat.largest : M Single)
  let t13 ← ApiFloat.neg t12
  let t14 ← (ApiFloat.SMALLEST : M Single)
  let t15 ← (ApiFloat.SMALLEST : M Single)
  let t16 ← ApiFloat.neg t15
  let t17 ← (ApiFloat.smallest_normalized : M Single)
  let t18 ← (ApiFloat.smallest_normalized : M Single)
  let t19 ← ApiFloat.neg t18
  let t20 ← (parse ("0x1.ffffffffffffffffffffffffffffp+16383".toList) : M Quad)
  let t22 ← (parse ("-0x0.0000000000000000000000000001p-16382".toList) : M Quad)
  let t771 ← Api.div t19 t8
  let t773 ← (parse ("nan123".toList) : M Single)
  let t774 ← ApiFloat.bitwise_eq (t771).value t773
  check t774
  let t775 ← Api.div t19 t9
  check (decide (Status.OK = (t775).status))
  let t776 ← ApiFloat.category (t775).value
  check (decide (Category.normal = t776))
  let t777 ← (parse ("-0x1p-126".toList) : M Single)
  let t778 ← ApiFloat.bitwise_eq (t775).value t777
  check t778
  let t779 ← Api.div t19 t10
  check (decide (Status.OK = (t779).status))
  let t780 ← ApiFloat.category (t779).value
  check (decide (Category.normal = t780))
  let t781 ← (parse ("0x1p-126".toList) : M Single)
  let t782 ← ApiFloat.bitwise_eq (t779).value t781
  check t782
  let t783 ← Api.div t19 t11
  check (decide (({ underflow := true, inexact := true } : Status) = (t783).status))
  let t784 ← ApiFloat.category (t783).value
  check (decide (Category.zero = t784))
  let t785 ← (parse ("-0x0p+0".toList) : M Single)
  let t786 ← ApiFloat.bitwise_eq (t783).value t785
  check t786
  let t787 ← Api.div t19 t13
  check (decide (({ underflow := true, inexact := true } : Status) = (t787).status))
  let t788 ← ApiFloat.category (t787).value
  check (decide (Category.zero = t788))
  let t789 ← (parse ("0x0p+0".toList) : M Single)
  let t790 ← ApiFloat.bitwise_eq (t787).value t789
  check t790
  let t791 ← Api.div t19 t14
  check (decide (Status.OK = (t791).status))
  let t792 ← ApiFloat.category (t791).value
  check (decide (Category.normal = t792))
  let t793 ← (parse ("-0x1p+23".toList) : M Single)
  let t794 ← ApiFloat.bitwise_eq (t791).value t793
  check t794
  let t795 ← Api.div t19 t16
  check (decide (Status.OK = (t795).status))
  let t796 ← ApiFloat.category (t795).value
  check (decide (Category.normal = t796))
  let t797 ← (parse ("0x1p+23".toList) : M Single)
  let t798 ← ApiFloat.bitwise_eq (t795).value t797
  check t798
  let t799 ← Api.div t19 t17
  check (decide (Status.OK = (t799).status))
  let t800 ← ApiFloat.category (t799).value
  check (decide (Category.normal = t800))
  let t801 ← (parse ("-0x1p+0".toList) : M Single)
  let t802 ← ApiFloat.bitwise_eq (t799).value t801
  check t802
  let t803 ← Api.div t19 t19
  check (decide (Status.OK = (t803).status))
  let t804 ← ApiFloat.category (t803).value
  check (decide (Category.normal = t804))
  let t805 ← (parse ("0x1p+0".toList) : M Single)
  let t806 ← ApiFloat.bitwise_eq (t803).value t805
  check t806
  let t807 ← ApiFloat.div_r t20 t22 Round.nearestTiesToEven
  check (decide (({ overflow := true, inexact := true } : Status) = (t807).status))

example : passes t_divide_23 = true := by decide +kernel

/-- tests/ieee.rs:2916 `divide`. -/
def t_divide_24 : M Unit := do
  let t20 ← (parse ("0x1.ffffffffffffffffffffffffffffp+16383".toList) : M Quad)
  let t21 ← (parse ("0x0.0000000000000000000000000001p-16382".toList) : M Quad)
  let t22 ← (parse ("-0x0.0000000000000000000000000001p-16382".toList) : M Quad)
  let t807 ← ApiFloat.div_r t20 t22 Round.nearestTiesToEven
  let t808 ← ApiFloat.category (t807).value
  check (decide (Category.infinity = t808))
  let t809 ← (parse ("-inf".toList) : M Quad)
  let t810 ← ApiFloat.bitwise_eq (t807).value t809
  check t810
  let t811 ← ApiFloat.div_r t20 t22 Round.towardPositive
  check (decide (({ inexact := true } : Status) = (t811).status))
  let t812 ← ApiFloat.category (t811).value
  check (decide (Category.normal = t812))
  let t813 ← (parse ("-0x1.ffffffffffffffffffffffffffffp+16383".toList) : M Quad)
  let t814 ← ApiFloat.bitwise_eq (t811).value t813
  check t814
  let t815 ← ApiFloat.div_r t20 t22 Round.towardNegative
  check (decide (({ overflow := true, inexact := true } : Status) = (t815).status))
  let t816 ← ApiFloat.category (t815).value
  check (decide (Category.infinity = t816))
  let t817 ← (parse ("-inf".toList) : M Quad)
  let t818 ← ApiFloat.bitwise_eq (t815).value t817
  check t818
  let t819 ← ApiFloat.div_r t20 t22 Round.towardZero
  check (decide (({ inexact := true } : Status) = (t819).status))
  let t820 ← ApiFloat.category (t819).value
  check (decide (Category.normal = t820))
  let t821 ← (parse ("-0x1.ffffffffffffffffffffffffffffp+16383".toList) : M Quad)
  let t822 ← ApiFloat.bitwise_eq (t819).value t821
  check t822
  let t823 ← ApiFloat.div_r t20 t22 Round.nearestTiesToAway
  check (decide (({ overflow := true, inexact := true } : Status) = (t823).status))
  let t824 ← ApiFloat.category (t823).value
  check (decide (Category.infinity = t824))
  let t825 ← (parse ("-inf".toList) : M Quad)
  let t826 ← ApiFloat.bitwise_eq (t823).value t825
  check t826
  let t827 ← ApiFloat.div_r t21 t20 Round.nearestTiesToEven
  check (decide (({ underflow := true, inexact := true } : Status) = (t827).status))
  let t828 ← ApiFloat.category (t827).value
  check (decide (Category.zero = t828))
  let t829 ← (parse ("0".toList) : M Quad)
  let t830 ← ApiFloat.bitwise_eq (t827).value t829
  check t830
  let t831 ← ApiFloat.div_r t21 t20 Round.towardPositive
  check (decide (({ underflow := true, inexact := true } : Status) = (t831).status))
  let t832 ← ApiFloat.category (t831).value
  check (decide (Category.normal = t832))
  let t833 ← (parse ("0x0.0000000000000000000000000001p-16382".toList) : M Quad)
  let t834 ← ApiFloat.bitwise_eq (t831).value t833
  check t834
  let t835 ← ApiFloat.div_r t21 t20 Round.towardNegative
  check (decide (({ underflow := true, inexact := true } : Status) = (t835).status))
  let t836 ← ApiFloat.category (t835).value
  check (decide (Category.zero = t836))
  let t837 ← (parse ("0".toList) : M Quad)
  let t838 ← ApiFloat.bitwise_eq (t835).value t837
  check t838
  let t839 ← ApiFloat.div_r t21 t20 Round.towardZero
  check (decide (({ underflow := true, inexact := true } : Status) = (t839).status))
  let t840 ← ApiFloat.category (t839).value
  check (decide (Category.zero = t840))
  let t841 ← (parse ("0".toList) : M Quad)
  let t842 ← ApiFloat.bitwise_eq (t839).value t841
  check t842

example : passes t_divide_24 = true := by decide +kernel

/-- tests/ieee.rs:2916 `divide`. -/
def t_divide_25 : M Unit := do
  let t20 ← (parse ("0x1.ffffffffffffffffffffffffffffp+16383".toList) : M Quad)
  let t21 ← (parse ("0x0.0000000000000000000000000001p-16382".toList) : M Quad)
  let t22 ← (parse ("-0x0.0000000000000000000000000001p-16382".toList) : M Quad)
  let t843 ← ApiFloat.div_r t21 t20 Round.nearestTiesToAway
  check (decide (({ underflow := true, inexact := true } : Status) = (t843).status))
  let t844 ← ApiFloat.category (t843).value
  check (decide (Category.zero = t844))
  let t845 ← (parse ("0".toList) : M Quad)
  let t846 ← ApiFloat.bitwise_eq (t843).value t845
  check t846
  let t847 ← ApiFloat.div_r t22 t20 Round.nearestTiesToEven
  check (decide (({ underflow := true, inexact := true } : Status) = (t847).status))
  let t848 ← ApiFloat.category (t847).value
  check (decide (Category.zero = t848))
  let t849 ← (parse ("-0".toList) : M Quad)
  let t850 ← ApiFloat.bitwise_eq (t847).value t849
  check t850
  let t851 ← ApiFloat.div_r t22 t20 Round.towardPositive
  check (decide (({ underflow := true, inexact := true } : Status) = (t851).status))
  let t852 ← ApiFloat.category (t851).value
  check (decide (Category.zero = t852))
  let t853 ← (parse ("-0".toList) : M Quad)
  let t854 ← ApiFloat.bitwise_eq (t851).value t853
  check t854
  let t855 ← ApiFloat.div_r t22 t20 Round.towardNegative
  check (decide (({ underflow := true, inexact := true } : Status) = (t855).status))
  let t856 ← ApiFloat.category (t855).value
  check (decide (Category.normal = t856))
  let t857 ← (parse ("-0x0.0000000000000000000000000001p-16382".toList) : M Quad)
  let t858 ← ApiFloat.bitwise_eq (t855).value t857
  check t858
  let t859 ← ApiFloat.div_r t22 t20 Round.towardZero
  check (decide (({ underflow := true, inexact := true } : Status) = (t859).status))
  let t860 ← ApiFloat.category (t859).value
  check (decide (Category.zero = t860))
  let t861 ← (parse ("-0".toList) : M Quad)
  let t862 ← ApiFloat.bitwise_eq (t859).value t861
  check t862
  let t863 ← ApiFloat.div_r t22 t20 Round.nearestTiesToAway
  check (decide (({ underflow := true, inexact := true } : Status) = (t863).status))
  let t864 ← ApiFloat.category (t863).value
  check (decide (Category.zero = t864))
  let t865 ← (parse ("-0".toList) : M Quad)
  let t866 ← ApiFloat.bitwise_eq (t863).value t865
  check t866

example : passes t_divide_25 = true := by decide +kernel

end Apf.Conformance.Ieee3
