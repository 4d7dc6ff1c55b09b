import Verif.Conformance.Support
/-! Generated by tools/tests_to_lean.py from tests/ieee.rs. -/

namespace Apf.Conformance.Ieee5
set_option maxRecDepth 100000
set_option linter.all false

/-- tests/ieee.rs:3294 `abs`. -/
def t_abs_1 : M Unit := do
  let t1 ← (ApiFloat.INFINITY : M Single)
  let t2 ← (ApiFloat.INFINITY : M Single)
  let t3 ← ApiFloat.neg t2
  let t4 ← (ApiFloat.ZERO : M Single)
  let t5 ← (ApiFloat.ZERO : M Single)
  let t6 ← ApiFloat.neg t5
  let t7 ← (ApiFloat.NAN : M Single)
  let t8 ← (ApiFloat.NAN : M Single)
  let t9 ← ApiFloat.neg t8
  let t10 ← (ApiFloat.snan none : M Single)
  let t11 ← (ApiFloat.snan none : M Single)
  let t12 ← ApiFloat.neg t11
  let t13 ← (parse ("0x1p+0".toList) : M Single)
  let t14 ← (parse ("-0x1p+0".toList) : M Single)
  let t15 ← (ApiFloat.largest : M Single)
  let t16 ← (ApiFloat.largest : M Single)
  let t17 ← ApiFloat.neg t16
  let t18 ← (ApiFloat.SMALLEST : M Single)
  let t19 ← (ApiFloat.SMALLEST : M Single)
  let _ ← ApiFloat.neg t19
  let _ ← (ApiFloat.smallest_normalized : M Single)
  let t22 ← (ApiFloat.smallest_normalized : M Single)
  let _ ← ApiFloat.neg t22
  let t24 ← ApiFloat.abs t1
  let t25 ← ApiFloat.bitwise_eq t1 t24
  check t25
  let t26 ← ApiFloat.abs t3
  let t27 ← ApiFloat.bitwise_eq t1 t26
  check t27
  let t28 ← ApiFloat.abs t4
  let t29 ← ApiFloat.bitwise_eq t4 t28
  check t29
  let t30 ← ApiFloat.abs t6
  let t31 ← ApiFloat.bitwise_eq t4 t30
  check t31
  let t32 ← ApiFloat.abs t7
  let t33 ← ApiFloat.bitwise_eq t7 t32
  check t33
  let t34 ← ApiFloat.abs t9
  let t35 ← ApiFloat.bitwise_eq t7 t34
  check t35
  let t36 ← ApiFloat.abs t10
  let t37 ← ApiFloat.bitwise_eq t10 t36
  check t37
  let t38 ← ApiFloat.abs t12
  let t39 ← ApiFloat.bitwise_eq t10 t38
  check t39
  let t40 ← ApiFloat.abs t13
  let t41 ← ApiFloat.bitwise_eq t13 t40
  check t41
  let t42 ← ApiFloat.abs t14
  let t43 ← ApiFloat.bitwise_eq t13 t42
  check t43
  let t44 ← ApiFloat.abs t15
  let t45 ← ApiFloat.bitwise_eq t15 t44
  check t45
  let t46 ← ApiFloat.abs t17
  let t47 ← ApiFloat.bitwise_eq t15 t46
  check t47
  let t48 ← ApiFloat.abs t18
  let t49 ← ApiFloat.bitwise_eq t18 t48
  check t49

example : passes t_abs_1 = true := by decide +kernel

/-- tests/ieee.rs:3294 `abs`. -/
def t_abs_2 : M Unit := do
  let t18 ← (ApiFloat.SMALLEST : M Single)
  let t19 ← (ApiFloat.SMALLEST : M Single)
  let t20 ← ApiFloat.neg t19
  let t21 ← (ApiFloat.smallest_normalized : M Single)
  let t22 ← (ApiFloat.smallest_normalized : M Single)
  let t23 ← ApiFloat.neg t22
  let t50 ← ApiFloat.abs t20
  let t51 ← ApiFloat.bitwise_eq t18 t50
  check t51
  let t52 ← ApiFloat.abs t21
  let t53 ← ApiFloat.bitwise_eq t21 t52
  check t53
  let t54 ← ApiFloat.abs t23
  let t55 ← ApiFloat.bitwise_eq t21 t54
  check t55

example : passes t_abs_2 = true := by decide +kernel

/-- tests/ieee.rs:3331 `neg`. -/
def t_neg : M Unit := do
  let t1 ← (parse ("1.0".toList) : M Single)
  let t2 ← (parse ("-1.0".toList) : M Single)
  let t3 ← (ApiFloat.ZERO : M Single)
  let t4 ← (ApiFloat.ZERO : M Single)
  let t5 ← ApiFloat.neg t4
  let t6 ← (ApiFloat.INFINITY : M Single)
  let t7 ← (ApiFloat.INFINITY : M Single)
  let t8 ← ApiFloat.neg t7
  let t9 ← (ApiFloat.NAN : M Single)
  let t10 ← (ApiFloat.NAN : M Single)
  let t11 ← ApiFloat.neg t10
  let t12 ← ApiFloat.neg t1
  let t13 ← ApiFloat.bitwise_eq t2 t12
  check t13
  let t14 ← ApiFloat.neg t2
  let t15 ← ApiFloat.bitwise_eq t1 t14
  check t15
  let t16 ← ApiFloat.neg t3
  let t17 ← ApiFloat.bitwise_eq t5 t16
  check t17
  let t18 ← ApiFloat.neg t5
  let t19 ← ApiFloat.bitwise_eq t3 t18
  check t19
  let t20 ← ApiFloat.neg t6
  let t21 ← ApiFloat.bitwise_eq t8 t20
  check t21
  let t22 ← ApiFloat.neg t8
  let t23 ← ApiFloat.bitwise_eq t6 t22
  check t23
  let t24 ← ApiFloat.neg t6
  let t25 ← ApiFloat.bitwise_eq t8 t24
  check t25
  let t26 ← ApiFloat.neg t8
  let t27 ← ApiFloat.bitwise_eq t6 t26
  check t27
  let t28 ← ApiFloat.neg t9
  let t29 ← ApiFloat.bitwise_eq t11 t28
  check t29
  let t30 ← ApiFloat.neg t11
  let t31 ← ApiFloat.bitwise_eq t9 t30
  check t31

example : passes t_neg = true := by decide +kernel

/-- tests/ieee.rs:3354 `ilogb`. -/
def t_ilogb_1 : M Unit := do
  let t1 ← (ApiFloat.SMALLEST : M Double)
  let t2 ← ApiFloat.ilogb t1
  check (decide ((-1074 : Int) = t2))
  let t3 ← (ApiFloat.SMALLEST : M Double)
  let t4 ← ApiFloat.neg t3
  let t5 ← ApiFloat.ilogb t4
  check (decide ((-1074 : Int) = t5))
  let t6 ← (parse ("0x1.ffffffffffffep-1024".toList) : M Double)
  let t7 ← ApiFloat.ilogb t6
  check (decide ((-1023 : Int) = t7))
  let t8 ← (parse ("0x1.ffffffffffffep-1023".toList) : M Double)
  let t9 ← ApiFloat.ilogb t8
  check (decide ((-1023 : Int) = t9))
  let t10 ← (parse ("-0x1.ffffffffffffep-1023".toList) : M Double)
  let t11 ← ApiFloat.ilogb t10
  check (decide ((-1023 : Int) = t11))
  let t12 ← (parse ("0x1p-51".toList) : M Double)
  let t13 ← ApiFloat.ilogb t12
  check (decide ((-51 : Int) = t13))
  let t14 ← (parse ("0x1.c60f120d9f87cp-1023".toList) : M Double)
  let t15 ← ApiFloat.ilogb t14
  check (decide ((-1023 : Int) = t15))
  let t16 ← (parse ("0x0.ffffp-1".toList) : M Double)
  let t17 ← ApiFloat.ilogb t16
  check (decide ((-2 : Int) = t17))
  let t18 ← (parse ("0x1.fffep-1023".toList) : M Double)
  let t19 ← ApiFloat.ilogb t18
  check (decide ((-1023 : Int) = t19))
  let t20 ← (ApiFloat.largest : M Double)
  let t21 ← ApiFloat.ilogb t20
  check (decide (1023 = t21))
  let t22 ← (ApiFloat.largest : M Double)
  let t23 ← ApiFloat.neg t22
  let t24 ← ApiFloat.ilogb t23
  check (decide (1023 = t24))
  let t25 ← (parse ("0x1p+0".toList) : M Single)
  let t26 ← ApiFloat.ilogb t25
  check (decide (0 = t26))
  let t27 ← (parse ("-0x1p+0".toList) : M Single)
  let t28 ← ApiFloat.ilogb t27
  check (decide (0 = t28))
  let t29 ← (parse ("0x1p+42".toList) : M Single)
  let t30 ← ApiFloat.ilogb t29
  check (decide (42 = t30))
  let t31 ← (parse ("0x1p-42".toList) : M Single)
  let t32 ← ApiFloat.ilogb t31
  check (decide ((-42 : Int) = t32))
  let t33 ← (ApiFloat.INFINITY : M Single)
  let t34 ← ApiFloat.ilogb t33
  check (decide (2147483647 = t34))
  let t35 ← (ApiFloat.INFINITY : M Single)
  let t36 ← ApiFloat.neg t35
  let t37 ← ApiFloat.ilogb t36
  check (decide (2147483647 = t37))
  let t38 ← (ApiFloat.ZERO : M Single)
  let t39 ← ApiFloat.ilogb t38
  check (decide ((-2147483647 : Int) = t39))
  let t40 ← (ApiFloat.ZERO : M Single)
  let t41 ← ApiFloat.neg t40
  let t42 ← ApiFloat.ilogb t41
  check (decide ((-2147483647 : Int) = t42))

example : passes t_ilogb_1 = true := by decide +kernel

/-- tests/ieee.rs:3354 `ilogb`. -/
def t_ilogb_2 : M Unit := do
  let t43 ← (ApiFloat.NAN : M Single)
  let t44 ← ApiFloat.ilogb t43
  check (decide ((-2147483648 : Int) = t44))
  let t45 ← (ApiFloat.snan none : M Single)
  let t46 ← ApiFloat.ilogb t45
  check (decide ((-2147483648 : Int) = t46))
  let t47 ← (ApiFloat.largest : M Single)
  let t48 ← ApiFloat.ilogb t47
  check (decide (127 = t48))
  let t49 ← (ApiFloat.largest : M Single)
  let t50 ← ApiFloat.neg t49
  let t51 ← ApiFloat.ilogb t50
  check (decide (127 = t51))
  let t52 ← (ApiFloat.SMALLEST : M Single)
  let t53 ← ApiFloat.ilogb t52
  check (decide ((-149 : Int) = t53))
  let t54 ← (ApiFloat.SMALLEST : M Single)
  let t55 ← ApiFloat.neg t54
  let t56 ← ApiFloat.ilogb t55
  check (decide ((-149 : Int) = t56))
  let t57 ← (ApiFloat.smallest_normalized : M Single)
  let t58 ← ApiFloat.ilogb t57
  check (decide ((-126 : Int) = t58))
  let t59 ← (ApiFloat.smallest_normalized : M Single)
  let t60 ← ApiFloat.neg t59
  let t61 ← ApiFloat.ilogb t60
  check (decide ((-126 : Int) = t61))

example : passes t_ilogb_2 = true := by decide +kernel

/-- tests/ieee.rs:3389 `scalbn`. -/
def t_scalbn_1 : M Unit := do
  let t1 ← (parse ("0x1p+0".toList) : M Single)
  let t2 ← (parse ("0x1p+0".toList) : M Single)
  let t3 ← Api.scalbn t2 0
  let t4 ← ApiFloat.bitwise_eq t1 t3
  check t4
  let t5 ← (parse ("0x1p+42".toList) : M Single)
  let t6 ← (parse ("0x1p+0".toList) : M Single)
  let t7 ← Api.scalbn t6 42
  let t8 ← ApiFloat.bitwise_eq t5 t7
  check t8
  let t9 ← (parse ("0x1p-42".toList) : M Single)
  let t10 ← (parse ("0x1p+0".toList) : M Single)
  let t11 ← Api.scalbn t10 (-42 : Int)
  let t12 ← ApiFloat.bitwise_eq t9 t11
  check t12
  let t13 ← (ApiFloat.INFINITY : M Single)
  let t14 ← (ApiFloat.INFINITY : M Single)
  let t15 ← ApiFloat.neg t14
  let t16 ← (ApiFloat.ZERO : M Single)
  let t17 ← (ApiFloat.ZERO : M Single)
  let t18 ← ApiFloat.neg t17
  let t19 ← (ApiFloat.NAN : M Single)
  let t20 ← (ApiFloat.NAN : M Single)
  let t21 ← ApiFloat.neg t20
  let t22 ← (ApiFloat.snan none : M Single)
  let t23 ← Api.scalbn t13 0
  let t24 ← ApiFloat.bitwise_eq t13 t23
  check t24
  let t25 ← Api.scalbn t15 0
  let t26 ← ApiFloat.bitwise_eq t15 t25
  check t26
  let t27 ← Api.scalbn t16 0
  let t28 ← ApiFloat.bitwise_eq t16 t27
  check t28
  let t29 ← Api.scalbn t18 0
  let t30 ← ApiFloat.bitwise_eq t18 t29
  check t30
  let t31 ← Api.scalbn t19 0
  let t32 ← ApiFloat.bitwise_eq t19 t31
  check t32
  let t33 ← Api.scalbn t21 0
  let t34 ← ApiFloat.bitwise_eq t21 t33
  check t34
  let t35 ← Api.scalbn t22 0
  let t36 ← ApiFloat.is_signaling t35
  check (!t36)
  let t37 ← Api.scalbn t22 1
  let t38 ← is_nan t37
  let t39 ← ApiFloat.is_signaling t37
  check (t38 && (!t39))
  let t40 ← (ApiFloat.snan (some 1694149849907201) : M Double)
  let t41 ← Api.scalbn t40 1
  let t42 ← is_nan t41
  let t43 ← ApiFloat.is_signaling t41
  check (t42 && (!t43))
  let t44 ← ApiFloat.to_bits t41
  check (decide (1694149849907201 = (t44 &&& 2251799813685247)))
  let t45 ← (parse ("0x1p+0".toList) : M Single)
  let t46 ← Api.scalbn t45 128
  let t47 ← ApiFloat.bitwise_eq t13 t46
  check t47

example : passes t_scalbn_1 = true := by decide +kernel

/-- tests/ieee.rs:3389 `scalbn`. -/
def t_scalbn_2 : M Unit := do
  let t13 ← (ApiFloat.INFINITY : M Single)
  let t14 ← (ApiFloat.INFINITY : M Single)
  let t15 ← ApiFloat.neg t14
  let t16 ← (ApiFloat.ZERO : M Single)
  let t17 ← (ApiFloat.ZERO : M Single)
  let t18 ← ApiFloat.neg t17
  let t48 ← (parse ("-0x1p+0".toList) : M Single)
  let t49 ← Api.scalbn t48 128
  let t50 ← ApiFloat.bitwise_eq t15 t49
  check t50
  let t51 ← (parse ("0x1p+127".toList) : M Single)
  let t52 ← Api.scalbn t51 1
  let t53 ← ApiFloat.bitwise_eq t13 t52
  check t53
  let t54 ← (parse ("0x1p-127".toList) : M Single)
  let t55 ← Api.scalbn t54 (-127 : Int)
  let t56 ← ApiFloat.bitwise_eq t16 t55
  check t56
  let t57 ← (parse ("-0x1p-127".toList) : M Single)
  let t58 ← Api.scalbn t57 (-127 : Int)
  let t59 ← ApiFloat.bitwise_eq t18 t58
  check t59
  let t60 ← (parse ("-0x1p-149".toList) : M Single)
  let t61 ← (parse ("-0x1p-127".toList) : M Single)
  let t62 ← Api.scalbn t61 (-22 : Int)
  let t63 ← ApiFloat.bitwise_eq t60 t62
  check t63
  let t64 ← (parse ("0x1p-126".toList) : M Single)
  let t65 ← Api.scalbn t64 (-24 : Int)
  let t66 ← ApiFloat.bitwise_eq t16 t65
  check t66
  let t67 ← (ApiFloat.SMALLEST : M Double)
  let t68 ← (ApiFloat.SMALLEST : M Double)
  let t69 ← ApiFloat.neg t68
  let _ ← (ApiFloat.largest : M Double)
  let t71 ← (ApiFloat.largest : M Double)
  let _ ← ApiFloat.neg t71
  let _ ← (parse ("0x1.ffffffffffffep-1023".toList) : M Double)
  let _ ← (parse ("-0x1.ffffffffffffep-1023".toList) : M Double)
  let t75 ← (parse ("0x1p-1074".toList) : M Double)
  let t76 ← Api.scalbn t75 0
  let t77 ← ApiFloat.bitwise_eq t67 t76
  check t77
  let t78 ← (parse ("-0x1p-1074".toList) : M Double)
  let t79 ← Api.scalbn t78 0
  let t80 ← ApiFloat.bitwise_eq t69 t79
  check t80
  let t81 ← (parse ("0x1p+1023".toList) : M Double)
  let t82 ← Api.scalbn t67 2097
  let t83 ← ApiFloat.bitwise_eq t81 t82
  check t83
  let t84 ← Api.scalbn t67 (-2097 : Int)
  let t85 ← is_pos_zero t84
  check t85
  let t86 ← Api.scalbn t67 (-2098 : Int)
  let t87 ← is_pos_zero t86
  check t87
  let t88 ← Api.scalbn t67 (-2099 : Int)
  let t89 ← is_pos_zero t88
  check t89
  let t90 ← (parse ("0x1p+1022".toList) : M Double)
  let t91 ← Api.scalbn t67 2096
  let t92 ← ApiFloat.bitwise_eq t90 t91
  check t92
  let t93 ← (parse ("0x1p+1023".toList) : M Double)
  let t94 ← Api.scalbn t67 2097
  let t95 ← ApiFloat.bitwise_eq t93 t94
  check t95

example : passes t_scalbn_2 = true := by decide +kernel

/-- tests/ieee.rs:3389 `scalbn`. -/
def t_scalbn_3 : M Unit := do
  let t67 ← (ApiFloat.SMALLEST : M Double)
  let t70 ← (ApiFloat.largest : M Double)
  let t73 ← (parse ("0x1.ffffffffffffep-1023".toList) : M Double)
  let t74 ← (parse ("-0x1.ffffffffffffep-1023".toList) : M Double)
  let t96 ← Api.scalbn t67 2098
  let t97 ← is_infinite t96
  check t97
  let t98 ← Api.scalbn t67 2099
  let t99 ← is_infinite t98
  check t99
  let t100 ← Api.scalbn t67 (-2147483647 : Int)
  let t101 ← is_pos_zero t100
  check t101
  let t102 ← Api.scalbn t70 2147483647
  let t103 ← is_infinite t102
  check t103
  let t104 ← Api.scalbn t73 0
  let t105 ← ApiFloat.bitwise_eq t73 t104
  check t105
  let t106 ← Api.scalbn t74 0
  let t107 ← ApiFloat.bitwise_eq t74 t106
  check t107
  let t108 ← (parse ("0x1.ffffffffffffep-1022".toList) : M Double)
  let t109 ← Api.scalbn t73 1
  let t110 ← ApiFloat.bitwise_eq t108 t109
  check t110
  let t111 ← (parse ("-0x1.ffffffffffffep-1021".toList) : M Double)
  let t112 ← Api.scalbn t74 2
  let t113 ← ApiFloat.bitwise_eq t111 t112
  check t113
  let t114 ← (parse ("0x1.ffffffffffffep+1".toList) : M Double)
  let t115 ← Api.scalbn t73 1024
  let t116 ← ApiFloat.bitwise_eq t114 t115
  check t116
  let t117 ← Api.scalbn t73 (-1023 : Int)
  let t118 ← is_pos_zero t117
  check t118
  let t119 ← Api.scalbn t73 (-1024 : Int)
  let t120 ← is_pos_zero t119
  check t120
  let t121 ← Api.scalbn t73 (-2048 : Int)
  let t122 ← is_pos_zero t121
  check t122
  let t123 ← Api.scalbn t73 2047
  let t124 ← is_infinite t123
  check t124
  let t125 ← Api.scalbn t73 2098
  let t126 ← is_infinite t125
  check t126
  let t127 ← Api.scalbn t73 2099
  let t128 ← is_infinite t127
  check t128
  let t129 ← (parse ("0x1.ffffffffffffep-2".toList) : M Double)
  let t130 ← Api.scalbn t73 1021
  let t131 ← ApiFloat.bitwise_eq t129 t130
  check t131
  let t132 ← (parse ("0x1.ffffffffffffep-1".toList) : M Double)
  let t133 ← Api.scalbn t73 1022
  let t134 ← ApiFloat.bitwise_eq t132 t133
  check t134
  let t135 ← (parse ("0x1.ffffffffffffep+0".toList) : M Double)
  let t136 ← Api.scalbn t73 1023
  let t137 ← ApiFloat.bitwise_eq t135 t136
  check t137

example : passes t_scalbn_3 = true := by decide +kernel

/-- tests/ieee.rs:3389 `scalbn`. -/
def t_scalbn_4 : M Unit := do
  let t67 ← (ApiFloat.SMALLEST : M Double)
  let t70 ← (ApiFloat.largest : M Double)
  let t71 ← (ApiFloat.largest : M Double)
  let t72 ← ApiFloat.neg t71
  let t73 ← (parse ("0x1.ffffffffffffep-1023".toList) : M Double)
  let t138 ← (parse ("0x1.ffffffffffffep+1023".toList) : M Double)
  let t139 ← Api.scalbn t73 2046
  let t140 ← ApiFloat.bitwise_eq t138 t139
  check t140
  let t141 ← (parse ("0x1p+974".toList) : M Double)
  let t142 ← Api.scalbn t67 2048
  let t143 ← ApiFloat.bitwise_eq t141 t142
  check t143
  let t144 ← (parse ("0x1.c60f120d9f87cp+51".toList) : M Double)
  let t145 ← (parse ("0x1.c60f120d9f87cp-972".toList) : M Double)
  let t146 ← Api.scalbn t144 (-1023 : Int)
  let t147 ← ApiFloat.bitwise_eq t145 t146
  check t147
  let t148 ← (parse ("0x1.c60f120d9f87cp-1".toList) : M Double)
  let t149 ← Api.scalbn t144 (-52 : Int)
  let t150 ← ApiFloat.bitwise_eq t148 t149
  check t150
  let t151 ← (parse ("0x1.c60f120d9f87cp-2".toList) : M Double)
  let t152 ← Api.scalbn t144 (-53 : Int)
  let t153 ← ApiFloat.bitwise_eq t151 t152
  check t153
  let t154 ← (parse ("0x1.c60f120d9f87cp+0".toList) : M Double)
  let t155 ← Api.scalbn t144 (-51 : Int)
  let t156 ← ApiFloat.bitwise_eq t154 t155
  check t156
  let t157 ← Api.scalbn t144 (-2097 : Int)
  let t158 ← is_pos_zero t157
  check t158
  let t159 ← Api.scalbn t144 (-2090 : Int)
  let t160 ← is_pos_zero t159
  check t160
  let t161 ← (parse ("-0x1p-1073".toList) : M Double)
  let t162 ← Api.scalbn t72 (-2097 : Int)
  let t163 ← ApiFloat.bitwise_eq t161 t162
  check t163
  let t164 ← (parse ("-0x1p-1024".toList) : M Double)
  let t165 ← Api.scalbn t72 (-2048 : Int)
  let t166 ← ApiFloat.bitwise_eq t164 t165
  check t166
  let t167 ← (parse ("0x1p-1073".toList) : M Double)
  let t168 ← Api.scalbn t70 (-2097 : Int)
  let t169 ← ApiFloat.bitwise_eq t167 t168
  check t169
  let t170 ← (parse ("0x1p-1074".toList) : M Double)
  let t171 ← Api.scalbn t70 (-2098 : Int)
  let t172 ← ApiFloat.bitwise_eq t170 t171
  check t172
  let t173 ← (parse ("-0x1p-1074".toList) : M Double)
  let t174 ← Api.scalbn t72 (-2098 : Int)
  let t175 ← ApiFloat.bitwise_eq t173 t174
  check t175
  let t176 ← Api.scalbn t72 (-2099 : Int)
  let t177 ← is_neg_zero t176
  check t177
  let t178 ← Api.scalbn t70 1
  let t179 ← is_infinite t178
  check t179
  let t180 ← (parse ("0x1p+0".toList) : M Double)
  let t181 ← (parse ("0x1p+52".toList) : M Double)
  let t182 ← Api.scalbn t181 (-52 : Int)
  let t183 ← ApiFloat.bitwise_eq t180 t182
  check t183

example : passes t_scalbn_4 = true := by decide +kernel

/-- tests/ieee.rs:3389 `scalbn`. -/
def t_scalbn_5 : M Unit := do
  let t184 ← (parse ("0x1p-103".toList) : M Double)
  let t185 ← (parse ("0x1p-51".toList) : M Double)
  let t186 ← Api.scalbn t185 (-52 : Int)
  let t187 ← ApiFloat.bitwise_eq t184 t186
  check t187

example : passes t_scalbn_5 = true := by decide +kernel

/-- tests/ieee.rs:3579 `frexp`. -/
def t_frexp_1 : M Unit := do
  let t1 ← (ApiFloat.ZERO : M Double)
  let t2 ← (ApiFloat.ZERO : M Double)
  let t3 ← ApiFloat.neg t2
  let t4 ← (f64_lit 0x3ff0000000000000 : M Double)
  let t5 ← from_f64 t4
  let t6 ← (f64_lit 0xbff0000000000000 : M Double)
  let t7 ← from_f64 t6
  let t8 ← (parse ("0x1.ffffffffffffep-1023".toList) : M Double)
  let t9 ← (parse ("-0x1.ffffffffffffep-1023".toList) : M Double)
  let t10 ← (ApiFloat.SMALLEST : M Double)
  let t11 ← (ApiFloat.SMALLEST : M Double)
  let t12 ← ApiFloat.neg t11
  let _ ← (ApiFloat.largest : M Double)
  let t14 ← (ApiFloat.largest : M Double)
  let _ ← ApiFloat.neg t14
  let _ ← (ApiFloat.INFINITY : M Double)
  let t17 ← (ApiFloat.INFINITY : M Double)
  let _ ← ApiFloat.neg t17
  let _ ← (ApiFloat.NAN : M Double)
  let t20 ← (ApiFloat.NAN : M Double)
  let _ ← ApiFloat.neg t20
  let _ ← (ApiFloat.snan none : M Double)
  let _ ← (ApiFloat.snan (some 1694149849907201) : M Double)
  let t24 ← Api.frexp t1
  check (decide (0 = (t24).2))
  let t25 ← is_pos_zero (t24).1
  check t25
  let t26 ← Api.frexp t3
  check (decide (0 = (t26).2))
  let t27 ← is_neg_zero (t26).1
  check t27
  let t28 ← Api.frexp t5
  check (decide (1 = (t28).2))
  let t29 ← (parse ("0x1p-1".toList) : M Double)
  let t30 ← ApiFloat.bitwise_eq t29 (t28).1
  check t30
  let t31 ← Api.frexp t7
  check (decide (1 = (t31).2))
  let t32 ← (parse ("-0x1p-1".toList) : M Double)
  let t33 ← ApiFloat.bitwise_eq t32 (t31).1
  check t33
  let t34 ← Api.frexp t8
  check (decide ((-1022 : Int) = (t34).2))
  let t35 ← (parse ("0x1.ffffffffffffep-1".toList) : M Double)
  let t36 ← ApiFloat.bitwise_eq t35 (t34).1
  check t36
  let t37 ← Api.frexp t9
  check (decide ((-1022 : Int) = (t37).2))
  let t38 ← (parse ("-0x1.ffffffffffffep-1".toList) : M Double)
  let t39 ← ApiFloat.bitwise_eq t38 (t37).1
  check t39
  let t40 ← Api.frexp t10
  check (decide ((-1073 : Int) = (t40).2))
  let t41 ← (parse ("0x1p-1".toList) : M Double)
  let t42 ← ApiFloat.bitwise_eq t41 (t40).1
  check t42
  let t43 ← Api.frexp t12
  check (decide ((-1073 : Int) = (t43).2))
  let t44 ← (parse ("-0x1p-1".toList) : M Double)
  let t45 ← ApiFloat.bitwise_eq t44 (t43).1
  check t45

example : passes t_frexp_1 = true := by decide +kernel

/-- tests/ieee.rs:3579 `frexp`. -/
def t_frexp_2 : M Unit := do
  let t13 ← (ApiFloat.largest : M Double)
  let t14 ← (ApiFloat.largest : M Double)
  let t15 ← ApiFloat.neg t14
  let t16 ← (ApiFloat.INFINITY : M Double)
  let t17 ← (ApiFloat.INFINITY : M Double)
  let t18 ← ApiFloat.neg t17
  let t19 ← (ApiFloat.NAN : M Double)
  let t20 ← (ApiFloat.NAN : M Double)
  let t21 ← ApiFloat.neg t20
  let t22 ← (ApiFloat.snan none : M Double)
  let t23 ← (ApiFloat.snan (some 1694149849907201) : M Double)
  let t46 ← Api.frexp t13
  check (decide (1024 = (t46).2))
  let t47 ← (parse ("0x1.fffffffffffffp-1".toList) : M Double)
  let t48 ← ApiFloat.bitwise_eq t47 (t46).1
  check t48
  let t49 ← Api.frexp t15
  check (decide (1024 = (t49).2))
  let t50 ← (parse ("-0x1.fffffffffffffp-1".toList) : M Double)
  let t51 ← ApiFloat.bitwise_eq t50 (t49).1
  check t51
  let t52 ← Api.frexp t16
  check (decide (2147483647 = (t52).2))
  let t53 ← is_infinite (t52).1
  let t54 ← ApiFloat.is_negative (t52).1
  check (t53 && (!t54))
  let t55 ← Api.frexp t18
  check (decide (2147483647 = (t55).2))
  let t56 ← is_infinite (t55).1
  let t57 ← ApiFloat.is_negative (t55).1
  check (t56 && t57)
  let t58 ← Api.frexp t19
  check (decide ((-2147483648 : Int) = (t58).2))
  let t59 ← is_nan (t58).1
  check t59
  let t60 ← Api.frexp t21
  check (decide ((-2147483648 : Int) = (t60).2))
  let t61 ← is_nan (t60).1
  check t61
  let t62 ← Api.frexp t22
  check (decide ((-2147483648 : Int) = (t62).2))
  let t63 ← is_nan (t62).1
  let t64 ← ApiFloat.is_signaling (t62).1
  check (t63 && (!t64))
  let t65 ← Api.frexp t23
  check (decide ((-2147483648 : Int) = (t65).2))
  let t66 ← is_nan (t65).1
  let t67 ← ApiFloat.is_signaling (t65).1
  check (t66 && (!t67))
  let t68 ← ApiFloat.to_bits (t65).1
  check (decide (1694149849907201 = (t68 &&& 2251799813685247)))
  let t69 ← (parse ("0x0.ffffp-1".toList) : M Double)
  let t70 ← Api.frexp t69
  check (decide ((-1 : Int) = (t70).2))
  let t71 ← (parse ("0x1.fffep-1".toList) : M Double)
  let t72 ← ApiFloat.bitwise_eq t71 (t70).1
  check t72
  let t73 ← (parse ("0x1p-51".toList) : M Double)
  let t74 ← Api.frexp t73
  check (decide ((-50 : Int) = (t74).2))
  let t75 ← (parse ("0x1p-1".toList) : M Double)
  let t76 ← ApiFloat.bitwise_eq t75 (t74).1
  check t76
  let t77 ← (parse ("0x1.c60f120d9f87cp+51".toList) : M Double)
  let t78 ← Api.frexp t77
  check (decide (52 = (t78).2))
  let t79 ← (parse ("0x1.c60f120d9f87cp-1".toList) : M Double)
  let t80 ← ApiFloat.bitwise_eq t79 (t78).1
  check t80

example : passes t_frexp_2 = true := by decide +kernel

/-- tests/ieee.rs:3687 `modulo`. -/
def t_modulo_1 : M Unit := do
  let t1 ← (parse ("1.5".toList) : M Double)
  let t2 ← (parse ("1.0".toList) : M Double)
  let t3 ← (parse ("0.5".toList) : M Double)
  let t4 ← Api.rem t1 t2
  let t5 ← ApiFloat.bitwise_eq (t4).value t3
  check t5
  check (decide ((t4).status = Status.OK))
  let t6 ← (parse ("0.5".toList) : M Double)
  let t7 ← (parse ("1.0".toList) : M Double)
  let t8 ← (parse ("0.5".toList) : M Double)
  let t9 ← Api.rem t6 t7
  let t10 ← ApiFloat.bitwise_eq (t9).value t8
  check t10
  check (decide ((t9).status = Status.OK))
  let t11 ← (parse ("0x1.3333333333333p-2".toList) : M Double)
  let t12 ← (parse ("0x1.47ae147ae147bp-7".toList) : M Double)
  let t13 ← (parse ("0x1.47ae147ae1471p-7".toList) : M Double)
  let t14 ← Api.rem t11 t12
  let t15 ← ApiFloat.bitwise_eq (t14).value t13
  check t15
  check (decide ((t14).status = Status.OK))
  let t16 ← (parse ("0x1p64".toList) : M Double)
  let t17 ← (parse ("1.5".toList) : M Double)
  let t18 ← (parse ("1.0".toList) : M Double)
  let t19 ← Api.rem t16 t17
  let t20 ← ApiFloat.bitwise_eq (t19).value t18
  check t20
  check (decide ((t19).status = Status.OK))
  let t21 ← (parse ("0x1p1000".toList) : M Double)
  let t22 ← (parse ("0x1p-1000".toList) : M Double)
  let t23 ← (parse ("0.0".toList) : M Double)
  let t24 ← Api.rem t21 t22
  let t25 ← ApiFloat.bitwise_eq (t24).value t23
  check t25
  check (decide ((t24).status = Status.OK))
  let t26 ← (parse ("0.0".toList) : M Double)
  let t27 ← (parse ("1.0".toList) : M Double)
  let t28 ← (parse ("0.0".toList) : M Double)
  let t29 ← Api.rem t26 t27
  let t30 ← ApiFloat.bitwise_eq (t29).value t28
  check t30
  check (decide ((t29).status = Status.OK))
  let t31 ← (parse ("1.0".toList) : M Double)
  let t32 ← (parse ("0.0".toList) : M Double)
  let t33 ← Api.rem t31 t32
  let t34 ← is_nan (t33).value
  check t34
  check (decide ((t33).status = ({ invalidOp := true } : Status)))
  let t35 ← (parse ("0.0".toList) : M Double)
  let t36 ← (parse ("0.0".toList) : M Double)
  let t37 ← Api.rem t35 t36
  let t38 ← is_nan (t37).value
  check t38
  check (decide ((t37).status = ({ invalidOp := true } : Status)))
  let t39 ← (ApiFloat.INFINITY : M Double)
  let t40 ← (parse ("1.0".toList) : M Double)
  let t41 ← Api.rem t39 t40
  let t42 ← is_nan (t41).value
  check t42
  check (decide ((t41).status = ({ invalidOp := true } : Status)))

example : passes t_modulo_1 = true := by decide +kernel

/-- tests/ieee.rs:3687 `modulo`. -/
def t_modulo_2 : M Unit := do
  let t43 ← (parse ("-4.0".toList) : M Double)
  let t44 ← (parse ("-2.0".toList) : M Double)
  let t45 ← (parse ("-0.0".toList) : M Double)
  let t46 ← Api.rem t43 t44
  let t47 ← ApiFloat.bitwise_eq (t46).value t45
  check t47
  check (decide ((t46).status = Status.OK))
  let t48 ← (parse ("-4.0".toList) : M Double)
  let t49 ← (parse ("2.0".toList) : M Double)
  let t50 ← (parse ("-0.0".toList) : M Double)
  let t51 ← Api.rem t48 t49
  let t52 ← ApiFloat.bitwise_eq (t51).value t50
  check t52
  check (decide ((t51).status = Status.OK))
  let t53 ← (parse ("0x1p8".toList) : M Float8E4M3FN)
  let t54 ← (parse ("0x1.ep-6".toList) : M Float8E4M3FN)
  let t55 ← (parse ("0x1p-8".toList) : M Float8E4M3FN)
  let t56 ← Api.rem t53 t54
  let t57 ← ApiFloat.bitwise_eq (t56).value t55
  check t57
  check (decide ((t56).status = Status.OK))

example : passes t_modulo_2 = true := by decide +kernel

/-- tests/ieee.rs:3777 `remainder`. -/
def t_remainder_1 : M Unit := do
  let t1 ← (ApiFloat.INFINITY : M Single)
  let t2 ← (ApiFloat.INFINITY : M Single)
  let t3 ← ApiFloat.neg t2
  let t4 ← (ApiFloat.ZERO : M Single)
  let t5 ← (ApiFloat.ZERO : M Single)
  let t6 ← ApiFloat.neg t5
  let t7 ← (ApiFloat.NAN : M Single)
  let _ ← (parse ("snan123".toList) : M Single)
  let _ ← (parse ("0x1p+0".toList) : M Single)
  let _ ← (parse ("-0x1p+0".toList) : M Single)
  let _ ← (ApiFloat.largest : M Single)
  let t12 ← (ApiFloat.largest : M Single)
  let _ ← ApiFloat.neg t12
  let _ ← (ApiFloat.SMALLEST : M Single)
  let t15 ← (ApiFloat.SMALLEST : M Single)
  let _ ← ApiFloat.neg t15
  let _ ← (ApiFloat.smallest_normalized : M Single)
  let t18 ← (ApiFloat.smallest_normalized : M Single)
  let _ ← ApiFloat.neg t18
  let _ ← (parse ("0x1.fffffep+126".toList) : M Single)
  let _ ← (parse ("-0x1.fffffep+126".toList) : M Single)
  let _ ← (parse ("0x1.fffffep-126".toList) : M Single)
  let _ ← (parse ("-0x1.fffffep-126".toList) : M Single)
  let _ ← (parse ("0x1p-125".toList) : M Single)
  let _ ← (parse ("-0x1p-125".toList) : M Single)
  let _ ← (parse ("0x1p+127".toList) : M Single)
  let _ ← (parse ("-0x1p+127".toList) : M Single)
  let _ ← (parse ("1.5".toList) : M Single)
  let _ ← (parse ("-1.5".toList) : M Single)
  let _ ← (parse ("1".toList) : M Single)
  let _ ← (parse ("-1".toList) : M Single)
  let t32 ← ApiFloat.ieee_rem t1 t1
  check (decide (({ invalidOp := true } : Status) = (t32).status))
  let t33 ← ApiFloat.category (t32).value
  check (decide (Category.nan = t33))
  let t34 ← (parse ("nan".toList) : M Single)
  let t35 ← ApiFloat.bitwise_eq (t32).value t34
  check t35
  let t36 ← ApiFloat.ieee_rem t1 t3
  check (decide (({ invalidOp := true } : Status) = (t36).status))
  let t37 ← ApiFloat.category (t36).value
  check (decide (Category.nan = t37))
  let t38 ← (parse ("nan".toList) : M Single)
  let t39 ← ApiFloat.bitwise_eq (t36).value t38
  check t39
  let t40 ← ApiFloat.ieee_rem t1 t4
  check (decide (({ invalidOp := true } : Status) = (t40).status))
  let t41 ← ApiFloat.category (t40).value
  check (decide (Category.nan = t41))
  let t42 ← (parse ("nan".toList) : M Single)
  let t43 ← ApiFloat.bitwise_eq (t40).value t42
  check t43
  let t44 ← ApiFloat.ieee_rem t1 t6
  check (decide (({ invalidOp := true } : Status) = (t44).status))
  let t45 ← ApiFloat.category (t44).value
  check (decide (Category.nan = t45))
  let t46 ← (parse ("nan".toList) : M Single)
  let t47 ← ApiFloat.bitwise_eq (t44).value t46
  check t47
  let t48 ← ApiFloat.ieee_rem t1 t7
  check (decide (Status.OK = (t48).status))

example : passes t_remainder_1 = true := by decide +kernel

/-- tests/ieee.rs:3777 `remainder`. -/
def t_remainder_2 : M Unit := do
  let t1 ← (ApiFloat.INFINITY : M Single)
  let t7 ← (ApiFloat.NAN : M Single)
  let t8 ← (parse ("snan123".toList) : M Single)
  let t9 ← (parse ("0x1p+0".toList) : M Single)
  let t10 ← (parse ("-0x1p+0".toList) : M Single)
  let t11 ← (ApiFloat.largest : M Single)
  let t12 ← (ApiFloat.largest : M Single)
  let t13 ← ApiFloat.neg t12
  let t14 ← (ApiFloat.SMALLEST : M Single)
  let t15 ← (ApiFloat.SMALLEST : M Single)
  let t16 ← ApiFloat.neg t15
  let t17 ← (ApiFloat.smallest_normalized : M Single)
  let t48 ← ApiFloat.ieee_rem t1 t7
  let t49 ← ApiFloat.category (t48).value
  check (decide (Category.nan = t49))
  let t50 ← (parse ("nan".toList) : M Single)
  let t51 ← ApiFloat.bitwise_eq (t48).value t50
  check t51
  let t52 ← ApiFloat.ieee_rem t1 t8
  check (decide (({ invalidOp := true } : Status) = (t52).status))
  let t53 ← ApiFloat.category (t52).value
  check (decide (Category.nan = t53))
  let t54 ← (parse ("nan123".toList) : M Single)
  let t55 ← ApiFloat.bitwise_eq (t52).value t54
  check t55
  let t56 ← ApiFloat.ieee_rem t1 t9
  check (decide (({ invalidOp := true } : Status) = (t56).status))
  let t57 ← ApiFloat.category (t56).value
  check (decide (Category.nan = t57))
  let t58 ← (parse ("nan".toList) : M Single)
  let t59 ← ApiFloat.bitwise_eq (t56).value t58
  check t59
  let t60 ← ApiFloat.ieee_rem t1 t10
  check (decide (({ invalidOp := true } : Status) = (t60).status))
  let t61 ← ApiFloat.category (t60).value
  check (decide (Category.nan = t61))
  let t62 ← (parse ("nan".toList) : M Single)
  let t63 ← ApiFloat.bitwise_eq (t60).value t62
  check t63
  let t64 ← ApiFloat.ieee_rem t1 t11
  check (decide (({ invalidOp := true } : Status) = (t64).status))
  let t65 ← ApiFloat.category (t64).value
  check (decide (Category.nan = t65))
  let t66 ← (parse ("nan".toList) : M Single)
  let t67 ← ApiFloat.bitwise_eq (t64).value t66
  check t67
  let t68 ← ApiFloat.ieee_rem t1 t13
  check (decide (({ invalidOp := true } : Status) = (t68).status))
  let t69 ← ApiFloat.category (t68).value
  check (decide (Category.nan = t69))
  let t70 ← (parse ("nan".toList) : M Single)
  let t71 ← ApiFloat.bitwise_eq (t68).value t70
  check t71
  let t72 ← ApiFloat.ieee_rem t1 t14
  check (decide (({ invalidOp := true } : Status) = (t72).status))
  let t73 ← ApiFloat.category (t72).value
  check (decide (Category.nan = t73))
  let t74 ← (parse ("nan".toList) : M Single)
  let t75 ← ApiFloat.bitwise_eq (t72).value t74
  check t75
  let t76 ← ApiFloat.ieee_rem t1 t16
  check (decide (({ invalidOp := true } : Status) = (t76).status))
  let t77 ← ApiFloat.category (t76).value
  check (decide (Category.nan = t77))
  let t78 ← (parse ("nan".toList) : M Single)
  let t79 ← ApiFloat.bitwise_eq (t76).value t78
  check t79
  let t80 ← ApiFloat.ieee_rem t1 t17
  check (decide (({ invalidOp := true } : Status) = (t80).status))
  let t81 ← ApiFloat.category (t80).value
  check (decide (Category.nan = t81))
  let t82 ← (parse ("nan".toList) : M Single)
  let t83 ← ApiFloat.bitwise_eq (t80).value t82
  check t83

example : passes t_remainder_2 = true := by decide +kernel

/-- tests/ieee.rs:3777 `remainder`. -/
def t_remainder_3 : M Unit := do
  let t1 ← (ApiFloat.INFINITY : M Single)
  let t2 ← (ApiFloat.INFINITY : M Single)
  let t3 ← ApiFloat.neg t2
  let t4 ← (ApiFloat.ZERO : M Single)
  let t5 ← (ApiFloat.ZERO : M Single)
  let t6 ← ApiFloat.neg t5
  let t7 ← (ApiFloat.NAN : M Single)
  let t8 ← (parse ("snan123".toList) : M Single)
  let t9 ← (parse ("0x1p+0".toList) : M Single)
  let t10 ← (parse ("-0x1p+0".toList) : M Single)
  let t18 ← (ApiFloat.smallest_normalized : M Single)
  let t19 ← ApiFloat.neg t18
  let t84 ← ApiFloat.ieee_rem t1 t19
  check (decide (({ invalidOp := true } : Status) = (t84).status))
  let t85 ← ApiFloat.category (t84).value
  check (decide (Category.nan = t85))
  let t86 ← (parse ("nan".toList) : M Single)
  let t87 ← ApiFloat.bitwise_eq (t84).value t86
  check t87
  let t88 ← ApiFloat.ieee_rem t3 t1
  check (decide (({ invalidOp := true } : Status) = (t88).status))
  let t89 ← ApiFloat.category (t88).value
  check (decide (Category.nan = t89))
  let t90 ← (parse ("nan".toList) : M Single)
  let t91 ← ApiFloat.bitwise_eq (t88).value t90
  check t91
  let t92 ← ApiFloat.ieee_rem t3 t3
  check (decide (({ invalidOp := true } : Status) = (t92).status))
  let t93 ← ApiFloat.category (t92).value
  check (decide (Category.nan = t93))
  let t94 ← (parse ("nan".toList) : M Single)
  let t95 ← ApiFloat.bitwise_eq (t92).value t94
  check t95
  let t96 ← ApiFloat.ieee_rem t3 t4
  check (decide (({ invalidOp := true } : Status) = (t96).status))
  let t97 ← ApiFloat.category (t96).value
  check (decide (Category.nan = t97))
  let t98 ← (parse ("nan".toList) : M Single)
  let t99 ← ApiFloat.bitwise_eq (t96).value t98
  check t99
  let t100 ← ApiFloat.ieee_rem t3 t6
  check (decide (({ invalidOp := true } : Status) = (t100).status))
  let t101 ← ApiFloat.category (t100).value
  check (decide (Category.nan = t101))
  let t102 ← (parse ("nan".toList) : M Single)
  let t103 ← ApiFloat.bitwise_eq (t100).value t102
  check t103
  let t104 ← ApiFloat.ieee_rem t3 t7
  check (decide (Status.OK = (t104).status))
  let t105 ← ApiFloat.category (t104).value
  check (decide (Category.nan = t105))
  let t106 ← (parse ("nan".toList) : M Single)
  let t107 ← ApiFloat.bitwise_eq (t104).value t106
  check t107
  let t108 ← ApiFloat.ieee_rem t3 t8
  check (decide (({ invalidOp := true } : Status) = (t108).status))
  let t109 ← ApiFloat.category (t108).value
  check (decide (Category.nan = t109))
  let t110 ← (parse ("nan123".toList) : M Single)
  let t111 ← ApiFloat.bitwise_eq (t108).value t110
  check t111
  let t112 ← ApiFloat.ieee_rem t3 t9
  check (decide (({ invalidOp := true } : Status) = (t112).status))
  let t113 ← ApiFloat.category (t112).value
  check (decide (Category.nan = t113))
  let t114 ← (parse ("nan".toList) : M Single)
  let t115 ← ApiFloat.bitwise_eq (t112).value t114
  check t115
  let t116 ← ApiFloat.ieee_rem t3 t10
  check (decide (({ invalidOp := true } : Status) = (t116).status))
  let t117 ← ApiFloat.category (t116).value
  check (decide (Category.nan = t117))

example : passes t_remainder_3 = true := by decide +kernel

/-- tests/ieee.rs:3777 `remainder`. -/
def t_remainder_4 : M Unit := do
  let t1 ← (ApiFloat.INFINITY : M Single)
  let t2 ← (ApiFloat.INFINITY : M Single)
  let t3 ← ApiFloat.neg t2
  let t4 ← (ApiFloat.ZERO : M Single)
  let t10 ← (parse ("-0x1p+0".toList) : M Single)
  let t11 ← (ApiFloat.largest : M Single)
  let t12 ← (ApiFloat.largest : M Single)
  let t13 ← ApiFloat.neg t12
  let t14 ← (ApiFloat.SMALLEST : M Single)
  let t15 ← (ApiFloat.SMALLEST : M Single)
  let t16 ← ApiFloat.neg t15
  let t17 ← (ApiFloat.smallest_normalized : M Single)
  let t18 ← (ApiFloat.smallest_normalized : M Single)
  let t19 ← ApiFloat.neg t18
  let t116 ← ApiFloat.ieee_rem t3 t10
  let t118 ← (parse ("nan".toList) : M Single)
  let t119 ← ApiFloat.bitwise_eq (t116).value t118
  check t119
  let t120 ← ApiFloat.ieee_rem t3 t11
  check (decide (({ invalidOp := true } : Status) = (t120).status))
  let t121 ← ApiFloat.category (t120).value
  check (decide (Category.nan = t121))
  let t122 ← (parse ("nan".toList) : M Single)
  let t123 ← ApiFloat.bitwise_eq (t120).value t122
  check t123
  let t124 ← ApiFloat.ieee_rem t3 t13
  check (decide (({ invalidOp := true } : Status) = (t124).status))
  let t125 ← ApiFloat.category (t124).value
  check (decide (Category.nan = t125))
  let t126 ← (parse ("nan".toList) : M Single)
  let t127 ← ApiFloat.bitwise_eq (t124).value t126
  check t127
  let t128 ← ApiFloat.ieee_rem t3 t14
  check (decide (({ invalidOp := true } : Status) = (t128).status))
  let t129 ← ApiFloat.category (t128).value
  check (decide (Category.nan = t129))
  let t130 ← (parse ("nan".toList) : M Single)
  let t131 ← ApiFloat.bitwise_eq (t128).value t130
  check t131
  let t132 ← ApiFloat.ieee_rem t3 t16
  check (decide (({ invalidOp := true } : Status) = (t132).status))
  let t133 ← ApiFloat.category (t132).value
  check (decide (Category.nan = t133))
  let t134 ← (parse ("nan".toList) : M Single)
  let t135 ← ApiFloat.bitwise_eq (t132).value t134
  check t135
  let t136 ← ApiFloat.ieee_rem t3 t17
  check (decide (({ invalidOp := true } : Status) = (t136).status))
  let t137 ← ApiFloat.category (t136).value
  check (decide (Category.nan = t137))
  let t138 ← (parse ("nan".toList) : M Single)
  let t139 ← ApiFloat.bitwise_eq (t136).value t138
  check t139
  let t140 ← ApiFloat.ieee_rem t3 t19
  check (decide (({ invalidOp := true } : Status) = (t140).status))
  let t141 ← ApiFloat.category (t140).value
  check (decide (Category.nan = t141))
  let t142 ← (parse ("nan".toList) : M Single)
  let t143 ← ApiFloat.bitwise_eq (t140).value t142
  check t143
  let t144 ← ApiFloat.ieee_rem t4 t1
  check (decide (Status.OK = (t144).status))
  let t145 ← ApiFloat.category (t144).value
  check (decide (Category.zero = t145))
  let t146 ← (parse ("0x0p+0".toList) : M Single)
  let t147 ← ApiFloat.bitwise_eq (t144).value t146
  check t147
  let t148 ← ApiFloat.ieee_rem t4 t3
  check (decide (Status.OK = (t148).status))
  let t149 ← ApiFloat.category (t148).value
  check (decide (Category.zero = t149))
  let t150 ← (parse ("0x0p+0".toList) : M Single)
  let t151 ← ApiFloat.bitwise_eq (t148).value t150
  check t151
  let t152 ← ApiFloat.ieee_rem t4 t4
  check (decide (({ invalidOp := true } : Status) = (t152).status))

example : passes t_remainder_4 = true := by decide +kernel

/-- tests/ieee.rs:3777 `remainder`. -/
def t_remainder_5 : M Unit := do
  let t4 ← (ApiFloat.ZERO : M Single)
  let t5 ← (ApiFloat.ZERO : M Single)
  let t6 ← ApiFloat.neg t5
  let t7 ← (ApiFloat.NAN : M Single)
  let t8 ← (parse ("snan123".toList) : M Single)
  let t9 ← (parse ("0x1p+0".toList) : M Single)
  let t10 ← (parse ("-0x1p+0".toList) : M Single)
  let t11 ← (ApiFloat.largest : M Single)
  let t12 ← (ApiFloat.largest : M Single)
  let t13 ← ApiFloat.neg t12
  let t14 ← (ApiFloat.SMALLEST : M Single)
  let t152 ← ApiFloat.ieee_rem t4 t4
  let t153 ← ApiFloat.category (t152).value
  check (decide (Category.nan = t153))
  let t154 ← (parse ("nan".toList) : M Single)
  let t155 ← ApiFloat.bitwise_eq (t152).value t154
  check t155
  let t156 ← ApiFloat.ieee_rem t4 t6
  check (decide (({ invalidOp := true } : Status) = (t156).status))
  let t157 ← ApiFloat.category (t156).value
  check (decide (Category.nan = t157))
  let t158 ← (parse ("nan".toList) : M Single)
  let t159 ← ApiFloat.bitwise_eq (t156).value t158
  check t159
  let t160 ← ApiFloat.ieee_rem t4 t7
  check (decide (Status.OK = (t160).status))
  let t161 ← ApiFloat.category (t160).value
  check (decide (Category.nan = t161))
  let t162 ← (parse ("nan".toList) : M Single)
  let t163 ← ApiFloat.bitwise_eq (t160).value t162
  check t163
  let t164 ← ApiFloat.ieee_rem t4 t8
  check (decide (({ invalidOp := true } : Status) = (t164).status))
  let t165 ← ApiFloat.category (t164).value
  check (decide (Category.nan = t165))
  let t166 ← (parse ("nan123".toList) : M Single)
  let t167 ← ApiFloat.bitwise_eq (t164).value t166
  check t167
  let t168 ← ApiFloat.ieee_rem t4 t9
  check (decide (Status.OK = (t168).status))
  let t169 ← ApiFloat.category (t168).value
  check (decide (Category.zero = t169))
  let t170 ← (parse ("0x0p+0".toList) : M Single)
  let t171 ← ApiFloat.bitwise_eq (t168).value t170
  check t171
  let t172 ← ApiFloat.ieee_rem t4 t10
  check (decide (Status.OK = (t172).status))
  let t173 ← ApiFloat.category (t172).value
  check (decide (Category.zero = t173))
  let t174 ← (parse ("0x0p+0".toList) : M Single)
  let t175 ← ApiFloat.bitwise_eq (t172).value t174
  check t175
  let t176 ← ApiFloat.ieee_rem t4 t11
  check (decide (Status.OK = (t176).status))
  let t177 ← ApiFloat.category (t176).value
  check (decide (Category.zero = t177))
  let t178 ← (parse ("0x0p+0".toList) : M Single)
  let t179 ← ApiFloat.bitwise_eq (t176).value t178
  check t179
  let t180 ← ApiFloat.ieee_rem t4 t13
  check (decide (Status.OK = (t180).status))
  let t181 ← ApiFloat.category (t180).value
  check (decide (Category.zero = t181))
  let t182 ← (parse ("0x0p+0".toList) : M Single)
  let t183 ← ApiFloat.bitwise_eq (t180).value t182
  check t183
  let t184 ← ApiFloat.ieee_rem t4 t14
  check (decide (Status.OK = (t184).status))
  let t185 ← ApiFloat.category (t184).value
  check (decide (Category.zero = t185))
  let t186 ← (parse ("0x0p+0".toList) : M Single)
  let t187 ← ApiFloat.bitwise_eq (t184).value t186
  check t187

example : passes t_remainder_5 = true := by decide +kernel

/-- tests/ieee.rs:3777 `remainder`. -/
def t_remainder_6 : M Unit := do
  let t1 ← (ApiFloat.INFINITY : M Single)
  let t2 ← (ApiFloat.INFINITY : M Single)
  let t3 ← ApiFloat.neg t2
  let t4 ← (ApiFloat.ZERO : M Single)
  let t5 ← (ApiFloat.ZERO : M Single)
  let t6 ← ApiFloat.neg t5
  let t7 ← (ApiFloat.NAN : M Single)
  let t8 ← (parse ("snan123".toList) : M Single)
  let t15 ← (ApiFloat.SMALLEST : M Single)
  let t16 ← ApiFloat.neg t15
  let t17 ← (ApiFloat.smallest_normalized : M Single)
  let t18 ← (ApiFloat.smallest_normalized : M Single)
  let t19 ← ApiFloat.neg t18
  let t188 ← ApiFloat.ieee_rem t4 t16
  check (decide (Status.OK = (t188).status))
  let t189 ← ApiFloat.category (t188).value
  check (decide (Category.zero = t189))
  let t190 ← (parse ("0x0p+0".toList) : M Single)
  let t191 ← ApiFloat.bitwise_eq (t188).value t190
  check t191
  let t192 ← ApiFloat.ieee_rem t4 t17
  check (decide (Status.OK = (t192).status))
  let t193 ← ApiFloat.category (t192).value
  check (decide (Category.zero = t193))
  let t194 ← (parse ("0x0p+0".toList) : M Single)
  let t195 ← ApiFloat.bitwise_eq (t192).value t194
  check t195
  let t196 ← ApiFloat.ieee_rem t4 t19
  check (decide (Status.OK = (t196).status))
  let t197 ← ApiFloat.category (t196).value
  check (decide (Category.zero = t197))
  let t198 ← (parse ("0x0p+0".toList) : M Single)
  let t199 ← ApiFloat.bitwise_eq (t196).value t198
  check t199
  let t200 ← ApiFloat.ieee_rem t6 t1
  check (decide (Status.OK = (t200).status))
  let t201 ← ApiFloat.category (t200).value
  check (decide (Category.zero = t201))
  let t202 ← (parse ("-0x0p+0".toList) : M Single)
  let t203 ← ApiFloat.bitwise_eq (t200).value t202
  check t203
  let t204 ← ApiFloat.ieee_rem t6 t3
  check (decide (Status.OK = (t204).status))
  let t205 ← ApiFloat.category (t204).value
  check (decide (Category.zero = t205))
  let t206 ← (parse ("-0x0p+0".toList) : M Single)
  let t207 ← ApiFloat.bitwise_eq (t204).value t206
  check t207
  let t208 ← ApiFloat.ieee_rem t6 t4
  check (decide (({ invalidOp := true } : Status) = (t208).status))
  let t209 ← ApiFloat.category (t208).value
  check (decide (Category.nan = t209))
  let t210 ← (parse ("nan".toList) : M Single)
  let t211 ← ApiFloat.bitwise_eq (t208).value t210
  check t211
  let t212 ← ApiFloat.ieee_rem t6 t6
  check (decide (({ invalidOp := true } : Status) = (t212).status))
  let t213 ← ApiFloat.category (t212).value
  check (decide (Category.nan = t213))
  let t214 ← (parse ("nan".toList) : M Single)
  let t215 ← ApiFloat.bitwise_eq (t212).value t214
  check t215
  let t216 ← ApiFloat.ieee_rem t6 t7
  check (decide (Status.OK = (t216).status))
  let t217 ← ApiFloat.category (t216).value
  check (decide (Category.nan = t217))
  let t218 ← (parse ("nan".toList) : M Single)
  let t219 ← ApiFloat.bitwise_eq (t216).value t218
  check t219
  let t220 ← ApiFloat.ieee_rem t6 t8
  check (decide (({ invalidOp := true } : Status) = (t220).status))
  let t221 ← ApiFloat.category (t220).value
  check (decide (Category.nan = t221))

example : passes t_remainder_6 = true := by decide +kernel

/-- tests/ieee.rs:3777 `remainder`. -/
def t_remainder_7 : M Unit := do
  let t1 ← (ApiFloat.INFINITY : M Single)
  let t5 ← (ApiFloat.ZERO : M Single)
  let t6 ← ApiFloat.neg t5
  let t7 ← (ApiFloat.NAN : M Single)
  let t8 ← (parse ("snan123".toList) : M Single)
  let t9 ← (parse ("0x1p+0".toList) : M Single)
  let t10 ← (parse ("-0x1p+0".toList) : M Single)
  let t11 ← (ApiFloat.largest : M Single)
  let t12 ← (ApiFloat.largest : M Single)
  let t13 ← ApiFloat.neg t12
  let t14 ← (ApiFloat.SMALLEST : M Single)
  let t15 ← (ApiFloat.SMALLEST : M Single)
  let t16 ← ApiFloat.neg t15
  let t17 ← (ApiFloat.smallest_normalized : M Single)
  let t18 ← (ApiFloat.smallest_normalized : M Single)
  let t19 ← ApiFloat.neg t18
  let t220 ← ApiFloat.ieee_rem t6 t8
  let t222 ← (parse ("nan123".toList) : M Single)
  let t223 ← ApiFloat.bitwise_eq (t220).value t222
  check t223
  let t224 ← ApiFloat.ieee_rem t6 t9
  check (decide (Status.OK = (t224).status))
  let t225 ← ApiFloat.category (t224).value
  check (decide (Category.zero = t225))
  let t226 ← (parse ("-0x0p+0".toList) : M Single)
  let t227 ← ApiFloat.bitwise_eq (t224).value t226
  check t227
  let t228 ← ApiFloat.ieee_rem t6 t10
  check (decide (Status.OK = (t228).status))
  let t229 ← ApiFloat.category (t228).value
  check (decide (Category.zero = t229))
  let t230 ← (parse ("-0x0p+0".toList) : M Single)
  let t231 ← ApiFloat.bitwise_eq (t228).value t230
  check t231
  let t232 ← ApiFloat.ieee_rem t6 t11
  check (decide (Status.OK = (t232).status))
  let t233 ← ApiFloat.category (t232).value
  check (decide (Category.zero = t233))
  let t234 ← (parse ("-0x0p+0".toList) : M Single)
  let t235 ← ApiFloat.bitwise_eq (t232).value t234
  check t235
  let t236 ← ApiFloat.ieee_rem t6 t13
  check (decide (Status.OK = (t236).status))
  let t237 ← ApiFloat.category (t236).value
  check (decide (Category.zero = t237))
  let t238 ← (parse ("-0x0p+0".toList) : M Single)
  let t239 ← ApiFloat.bitwise_eq (t236).value t238
  check t239
  let t240 ← ApiFloat.ieee_rem t6 t14
  check (decide (Status.OK = (t240).status))
  let t241 ← ApiFloat.category (t240).value
  check (decide (Category.zero = t241))
  let t242 ← (parse ("-0x0p+0".toList) : M Single)
  let t243 ← ApiFloat.bitwise_eq (t240).value t242
  check t243
  let t244 ← ApiFloat.ieee_rem t6 t16
  check (decide (Status.OK = (t244).status))
  let t245 ← ApiFloat.category (t244).value
  check (decide (Category.zero = t245))
  let t246 ← (parse ("-0x0p+0".toList) : M Single)
  let t247 ← ApiFloat.bitwise_eq (t244).value t246
  check t247
  let t248 ← ApiFloat.ieee_rem t6 t17
  check (decide (Status.OK = (t248).status))
  let t249 ← ApiFloat.category (t248).value
  check (decide (Category.zero = t249))
  let t250 ← (parse ("-0x0p+0".toList) : M Single)
  let t251 ← ApiFloat.bitwise_eq (t248).value t250
  check t251
  let t252 ← ApiFloat.ieee_rem t6 t19
  check (decide (Status.OK = (t252).status))
  let t253 ← ApiFloat.category (t252).value
  check (decide (Category.zero = t253))
  let t254 ← (parse ("-0x0p+0".toList) : M Single)
  let t255 ← ApiFloat.bitwise_eq (t252).value t254
  check t255
  let t256 ← ApiFloat.ieee_rem t7 t1
  check (decide (Status.OK = (t256).status))

example : passes t_remainder_7 = true := by decide +kernel

/-- tests/ieee.rs:3777 `remainder`. -/
def t_remainder_8 : M Unit := do
  let t1 ← (ApiFloat.INFINITY : M Single)
  let t2 ← (ApiFloat.INFINITY : M Single)
  let t3 ← ApiFloat.neg t2
  let t4 ← (ApiFloat.ZERO : M Single)
  let t5 ← (ApiFloat.ZERO : M Single)
  let t6 ← ApiFloat.neg t5
  let t7 ← (ApiFloat.NAN : M Single)
  let t8 ← (parse ("snan123".toList) : M Single)
  let t9 ← (parse ("0x1p+0".toList) : M Single)
  let t10 ← (parse ("-0x1p+0".toList) : M Single)
  let t11 ← (ApiFloat.largest : M Single)
  let t256 ← ApiFloat.ieee_rem t7 t1
  let t257 ← ApiFloat.category (t256).value
  check (decide (Category.nan = t257))
  let t258 ← (parse ("nan".toList) : M Single)
  let t259 ← ApiFloat.bitwise_eq (t256).value t258
  check t259
  let t260 ← ApiFloat.ieee_rem t7 t3
  check (decide (Status.OK = (t260).status))
  let t261 ← ApiFloat.category (t260).value
  check (decide (Category.nan = t261))
  let t262 ← (parse ("nan".toList) : M Single)
  let t263 ← ApiFloat.bitwise_eq (t260).value t262
  check t263
  let t264 ← ApiFloat.ieee_rem t7 t4
  check (decide (Status.OK = (t264).status))
  let t265 ← ApiFloat.category (t264).value
  check (decide (Category.nan = t265))
  let t266 ← (parse ("nan".toList) : M Single)
  let t267 ← ApiFloat.bitwise_eq (t264).value t266
  check t267
  let t268 ← ApiFloat.ieee_rem t7 t6
  check (decide (Status.OK = (t268).status))
  let t269 ← ApiFloat.category (t268).value
  check (decide (Category.nan = t269))
  let t270 ← (parse ("nan".toList) : M Single)
  let t271 ← ApiFloat.bitwise_eq (t268).value t270
  check t271
  let t272 ← ApiFloat.ieee_rem t7 t7
  check (decide (Status.OK = (t272).status))
  let t273 ← ApiFloat.category (t272).value
  check (decide (Category.nan = t273))
  let t274 ← (parse ("nan".toList) : M Single)
  let t275 ← ApiFloat.bitwise_eq (t272).value t274
  check t275
  let t276 ← ApiFloat.ieee_rem t7 t8
  check (decide (({ invalidOp := true } : Status) = (t276).status))
  let t277 ← ApiFloat.category (t276).value
  check (decide (Category.nan = t277))
  let t278 ← (parse ("nan".toList) : M Single)
  let t279 ← ApiFloat.bitwise_eq (t276).value t278
  check t279
  let t280 ← ApiFloat.ieee_rem t7 t9
  check (decide (Status.OK = (t280).status))
  let t281 ← ApiFloat.category (t280).value
  check (decide (Category.nan = t281))
  let t282 ← (parse ("nan".toList) : M Single)
  let t283 ← ApiFloat.bitwise_eq (t280).value t282
  check t283
  let t284 ← ApiFloat.ieee_rem t7 t10
  check (decide (Status.OK = (t284).status))
  let t285 ← ApiFloat.category (t284).value
  check (decide (Category.nan = t285))
  let t286 ← (parse ("nan".toList) : M Single)
  let t287 ← ApiFloat.bitwise_eq (t284).value t286
  check t287
  let t288 ← ApiFloat.ieee_rem t7 t11
  check (decide (Status.OK = (t288).status))
  let t289 ← ApiFloat.category (t288).value
  check (decide (Category.nan = t289))
  let t290 ← (parse ("nan".toList) : M Single)
  let t291 ← ApiFloat.bitwise_eq (t288).value t290
  check t291

example : passes t_remainder_8 = true := by decide +kernel

/-- tests/ieee.rs:3777 `remainder`. -/
def t_remainder_9 : M Unit := do
  let t1 ← (ApiFloat.INFINITY : M Single)
  let t2 ← (ApiFloat.INFINITY : M Single)
  let t3 ← ApiFloat.neg t2
  let t4 ← (ApiFloat.ZERO : M Single)
  let t5 ← (ApiFloat.ZERO : M Single)
  let t6 ← ApiFloat.neg t5
  let t7 ← (ApiFloat.NAN : M Single)
  let t8 ← (parse ("snan123".toList) : M Single)
  let t12 ← (ApiFloat.largest : M Single)
  let t13 ← ApiFloat.neg t12
  let t14 ← (ApiFloat.SMALLEST : M Single)
  let t15 ← (ApiFloat.SMALLEST : M Single)
  let t16 ← ApiFloat.neg t15
  let t17 ← (ApiFloat.smallest_normalized : M Single)
  let t18 ← (ApiFloat.smallest_normalized : M Single)
  let t19 ← ApiFloat.neg t18
  let t292 ← ApiFloat.ieee_rem t7 t13
  check (decide (Status.OK = (t292).status))
  let t293 ← ApiFloat.category (t292).value
  check (decide (Category.nan = t293))
  let t294 ← (parse ("nan".toList) : M Single)
  let t295 ← ApiFloat.bitwise_eq (t292).value t294
  check t295
  let t296 ← ApiFloat.ieee_rem t7 t14
  check (decide (Status.OK = (t296).status))
  let t297 ← ApiFloat.category (t296).value
  check (decide (Category.nan = t297))
  let t298 ← (parse ("nan".toList) : M Single)
  let t299 ← ApiFloat.bitwise_eq (t296).value t298
  check t299
  let t300 ← ApiFloat.ieee_rem t7 t16
  check (decide (Status.OK = (t300).status))
  let t301 ← ApiFloat.category (t300).value
  check (decide (Category.nan = t301))
  let t302 ← (parse ("nan".toList) : M Single)
  let t303 ← ApiFloat.bitwise_eq (t300).value t302
  check t303
  let t304 ← ApiFloat.ieee_rem t7 t17
  check (decide (Status.OK = (t304).status))
  let t305 ← ApiFloat.category (t304).value
  check (decide (Category.nan = t305))
  let t306 ← (parse ("nan".toList) : M Single)
  let t307 ← ApiFloat.bitwise_eq (t304).value t306
  check t307
  let t308 ← ApiFloat.ieee_rem t7 t19
  check (decide (Status.OK = (t308).status))
  let t309 ← ApiFloat.category (t308).value
  check (decide (Category.nan = t309))
  let t310 ← (parse ("nan".toList) : M Single)
  let t311 ← ApiFloat.bitwise_eq (t308).value t310
  check t311
  let t312 ← ApiFloat.ieee_rem t8 t1
  check (decide (({ invalidOp := true } : Status) = (t312).status))
  let t313 ← ApiFloat.category (t312).value
  check (decide (Category.nan = t313))
  let t314 ← (parse ("nan123".toList) : M Single)
  let t315 ← ApiFloat.bitwise_eq (t312).value t314
  check t315
  let t316 ← ApiFloat.ieee_rem t8 t3
  check (decide (({ invalidOp := true } : Status) = (t316).status))
  let t317 ← ApiFloat.category (t316).value
  check (decide (Category.nan = t317))
  let t318 ← (parse ("nan123".toList) : M Single)
  let t319 ← ApiFloat.bitwise_eq (t316).value t318
  check t319
  let t320 ← ApiFloat.ieee_rem t8 t4
  check (decide (({ invalidOp := true } : Status) = (t320).status))
  let t321 ← ApiFloat.category (t320).value
  check (decide (Category.nan = t321))
  let t322 ← (parse ("nan123".toList) : M Single)
  let t323 ← ApiFloat.bitwise_eq (t320).value t322
  check t323
  let t324 ← ApiFloat.ieee_rem t8 t6
  check (decide (({ invalidOp := true } : Status) = (t324).status))
  let t325 ← ApiFloat.category (t324).value
  check (decide (Category.nan = t325))

example : passes t_remainder_9 = true := by decide +kernel

/-- tests/ieee.rs:3777 `remainder`. -/
def t_remainder_10 : M Unit := do
  let t5 ← (ApiFloat.ZERO : M Single)
  let t6 ← ApiFloat.neg t5
  let t7 ← (ApiFloat.NAN : M Single)
  let t8 ← (parse ("snan123".toList) : M Single)
  let t9 ← (parse ("0x1p+0".toList) : M Single)
  let t10 ← (parse ("-0x1p+0".toList) : M Single)
  let t11 ← (ApiFloat.largest : M Single)
  let t12 ← (ApiFloat.largest : M Single)
  let t13 ← ApiFloat.neg t12
  let t14 ← (ApiFloat.SMALLEST : M Single)
  let t15 ← (ApiFloat.SMALLEST : M Single)
  let t16 ← ApiFloat.neg t15
  let t17 ← (ApiFloat.smallest_normalized : M Single)
  let t324 ← ApiFloat.ieee_rem t8 t6
  let t326 ← (parse ("nan123".toList) : M Single)
  let t327 ← ApiFloat.bitwise_eq (t324).value t326
  check t327
  let t328 ← ApiFloat.ieee_rem t8 t7
  check (decide (({ invalidOp := true } : Status) = (t328).status))
  let t329 ← ApiFloat.category (t328).value
  check (decide (Category.nan = t329))
  let t330 ← (parse ("nan123".toList) : M Single)
  let t331 ← ApiFloat.bitwise_eq (t328).value t330
  check t331
  let t332 ← ApiFloat.ieee_rem t8 t8
  check (decide (({ invalidOp := true } : Status) = (t332).status))
  let t333 ← ApiFloat.category (t332).value
  check (decide (Category.nan = t333))
  let t334 ← (parse ("nan123".toList) : M Single)
  let t335 ← ApiFloat.bitwise_eq (t332).value t334
  check t335
  let t336 ← ApiFloat.ieee_rem t8 t9
  check (decide (({ invalidOp := true } : Status) = (t336).status))
  let t337 ← ApiFloat.category (t336).value
  check (decide (Category.nan = t337))
  let t338 ← (parse ("nan123".toList) : M Single)
  let t339 ← ApiFloat.bitwise_eq (t336).value t338
  check t339
  let t340 ← ApiFloat.ieee_rem t8 t10
  check (decide (({ invalidOp := true } : Status) = (t340).status))
  let t341 ← ApiFloat.category (t340).value
  check (decide (Category.nan = t341))
  let t342 ← (parse ("nan123".toList) : M Single)
  let t343 ← ApiFloat.bitwise_eq (t340).value t342
  check t343
  let t344 ← ApiFloat.ieee_rem t8 t11
  check (decide (({ invalidOp := true } : Status) = (t344).status))
  let t345 ← ApiFloat.category (t344).value
  check (decide (Category.nan = t345))
  let t346 ← (parse ("nan123".toList) : M Single)
  let t347 ← ApiFloat.bitwise_eq (t344).value t346
  check t347
  let t348 ← ApiFloat.ieee_rem t8 t13
  check (decide (({ invalidOp := true } : Status) = (t348).status))
  let t349 ← ApiFloat.category (t348).value
  check (decide (Category.nan = t349))
  let t350 ← (parse ("nan123".toList) : M Single)
  let t351 ← ApiFloat.bitwise_eq (t348).value t350
  check t351
  let t352 ← ApiFloat.ieee_rem t8 t14
  check (decide (({ invalidOp := true } : Status) = (t352).status))
  let t353 ← ApiFloat.category (t352).value
  check (decide (Category.nan = t353))
  let t354 ← (parse ("nan123".toList) : M Single)
  let t355 ← ApiFloat.bitwise_eq (t352).value t354
  check t355
  let t356 ← ApiFloat.ieee_rem t8 t16
  check (decide (({ invalidOp := true } : Status) = (t356).status))
  let t357 ← ApiFloat.category (t356).value
  check (decide (Category.nan = t357))
  let t358 ← (parse ("nan123".toList) : M Single)
  let t359 ← ApiFloat.bitwise_eq (t356).value t358
  check t359
  let t360 ← ApiFloat.ieee_rem t8 t17
  check (decide (({ invalidOp := true } : Status) = (t360).status))

example : passes t_remainder_10 = true := by decide +kernel

/-- tests/ieee.rs:3777 `remainder`. -/
def t_remainder_11 : M Unit := do
  let t1 ← (ApiFloat.INFINITY : M Single)
  let t2 ← (ApiFloat.INFINITY : M Single)
  let t3 ← ApiFloat.neg t2
  let t4 ← (ApiFloat.ZERO : M Single)
  let t5 ← (ApiFloat.ZERO : M Single)
  let t6 ← ApiFloat.neg t5
  let t7 ← (ApiFloat.NAN : M Single)
  let t8 ← (parse ("snan123".toList) : M Single)
  let t9 ← (parse ("0x1p+0".toList) : M Single)
  let t17 ← (ApiFloat.smallest_normalized : M Single)
  let t18 ← (ApiFloat.smallest_normalized : M Single)
  let t19 ← ApiFloat.neg t18
  let t360 ← ApiFloat.ieee_rem t8 t17
  let t361 ← ApiFloat.category (t360).value
  check (decide (Category.nan = t361))
  let t362 ← (parse ("nan123".toList) : M Single)
  let t363 ← ApiFloat.bitwise_eq (t360).value t362
  check t363
  let t364 ← ApiFloat.ieee_rem t8 t19
  check (decide (({ invalidOp := true } : Status) = (t364).status))
  let t365 ← ApiFloat.category (t364).value
  check (decide (Category.nan = t365))
  let t366 ← (parse ("nan123".toList) : M Single)
  let t367 ← ApiFloat.bitwise_eq (t364).value t366
  check t367
  let t368 ← ApiFloat.ieee_rem t9 t1
  check (decide (Status.OK = (t368).status))
  let t369 ← ApiFloat.category (t368).value
  check (decide (Category.normal = t369))
  let t370 ← (parse ("0x1p+0".toList) : M Single)
  let t371 ← ApiFloat.bitwise_eq (t368).value t370
  check t371
  let t372 ← ApiFloat.ieee_rem t9 t3
  check (decide (Status.OK = (t372).status))
  let t373 ← ApiFloat.category (t372).value
  check (decide (Category.normal = t373))
  let t374 ← (parse ("0x1p+0".toList) : M Single)
  let t375 ← ApiFloat.bitwise_eq (t372).value t374
  check t375
  let t376 ← ApiFloat.ieee_rem t9 t4
  check (decide (({ invalidOp := true } : Status) = (t376).status))
  let t377 ← ApiFloat.category (t376).value
  check (decide (Category.nan = t377))
  let t378 ← (parse ("nan".toList) : M Single)
  let t379 ← ApiFloat.bitwise_eq (t376).value t378
  check t379
  let t380 ← ApiFloat.ieee_rem t9 t6
  check (decide (({ invalidOp := true } : Status) = (t380).status))
  let t381 ← ApiFloat.category (t380).value
  check (decide (Category.nan = t381))
  let t382 ← (parse ("nan".toList) : M Single)
  let t383 ← ApiFloat.bitwise_eq (t380).value t382
  check t383
  let t384 ← ApiFloat.ieee_rem t9 t7
  check (decide (Status.OK = (t384).status))
  let t385 ← ApiFloat.category (t384).value
  check (decide (Category.nan = t385))
  let t386 ← (parse ("nan".toList) : M Single)
  let t387 ← ApiFloat.bitwise_eq (t384).value t386
  check t387
  let t388 ← ApiFloat.ieee_rem t9 t8
  check (decide (({ invalidOp := true } : Status) = (t388).status))
  let t389 ← ApiFloat.category (t388).value
  check (decide (Category.nan = t389))
  let t390 ← (parse ("nan123".toList) : M Single)
  let t391 ← ApiFloat.bitwise_eq (t388).value t390
  check t391
  let t392 ← ApiFloat.ieee_rem t9 t9
  check (decide (Status.OK = (t392).status))
  let t393 ← ApiFloat.category (t392).value
  check (decide (Category.zero = t393))
  let t394 ← (parse ("0x0p+0".toList) : M Single)
  let t395 ← ApiFloat.bitwise_eq (t392).value t394
  check t395

example : passes t_remainder_11 = true := by decide +kernel

/-- tests/ieee.rs:3777 `remainder`. -/
def t_remainder_12 : M Unit := do
  let t1 ← (ApiFloat.INFINITY : M Single)
  let t2 ← (ApiFloat.INFINITY : M Single)
  let t3 ← ApiFloat.neg t2
  let t9 ← (parse ("0x1p+0".toList) : M Single)
  let t10 ← (parse ("-0x1p+0".toList) : M Single)
  let t11 ← (ApiFloat.largest : M Single)
  let t12 ← (ApiFloat.largest : M Single)
  let t13 ← ApiFloat.neg t12
  let t14 ← (ApiFloat.SMALLEST : M Single)
  let t15 ← (ApiFloat.SMALLEST : M Single)
  let t16 ← ApiFloat.neg t15
  let t17 ← (ApiFloat.smallest_normalized : M Single)
  let t18 ← (ApiFloat.smallest_normalized : M Single)
  let t19 ← ApiFloat.neg t18
  let t396 ← ApiFloat.ieee_rem t9 t10
  check (decide (Status.OK = (t396).status))
  let t397 ← ApiFloat.category (t396).value
  check (decide (Category.zero = t397))
  let t398 ← (parse ("0x0p+0".toList) : M Single)
  let t399 ← ApiFloat.bitwise_eq (t396).value t398
  check t399
  let t400 ← ApiFloat.ieee_rem t9 t11
  check (decide (Status.OK = (t400).status))
  let t401 ← ApiFloat.category (t400).value
  check (decide (Category.normal = t401))
  let t402 ← (parse ("0x1p+0".toList) : M Single)
  let t403 ← ApiFloat.bitwise_eq (t400).value t402
  check t403
  let t404 ← ApiFloat.ieee_rem t9 t13
  check (decide (Status.OK = (t404).status))
  let t405 ← ApiFloat.category (t404).value
  check (decide (Category.normal = t405))
  let t406 ← (parse ("0x1p+0".toList) : M Single)
  let t407 ← ApiFloat.bitwise_eq (t404).value t406
  check t407
  let t408 ← ApiFloat.ieee_rem t9 t14
  check (decide (Status.OK = (t408).status))
  let t409 ← ApiFloat.category (t408).value
  check (decide (Category.zero = t409))
  let t410 ← (parse ("0x0p+0".toList) : M Single)
  let t411 ← ApiFloat.bitwise_eq (t408).value t410
  check t411
  let t412 ← ApiFloat.ieee_rem t9 t16
  check (decide (Status.OK = (t412).status))
  let t413 ← ApiFloat.category (t412).value
  check (decide (Category.zero = t413))
  let t414 ← (parse ("0x0p+0".toList) : M Single)
  let t415 ← ApiFloat.bitwise_eq (t412).value t414
  check t415
  let t416 ← ApiFloat.ieee_rem t9 t17
  check (decide (Status.OK = (t416).status))
  let t417 ← ApiFloat.category (t416).value
  check (decide (Category.zero = t417))
  let t418 ← (parse ("0x0p+0".toList) : M Single)
  let t419 ← ApiFloat.bitwise_eq (t416).value t418
  check t419
  let t420 ← ApiFloat.ieee_rem t9 t19
  check (decide (Status.OK = (t420).status))
  let t421 ← ApiFloat.category (t420).value
  check (decide (Category.zero = t421))
  let t422 ← (parse ("0x0p+0".toList) : M Single)
  let t423 ← ApiFloat.bitwise_eq (t420).value t422
  check t423
  let t424 ← ApiFloat.ieee_rem t10 t1
  check (decide (Status.OK = (t424).status))
  let t425 ← ApiFloat.category (t424).value
  check (decide (Category.normal = t425))
  let t426 ← (parse ("-0x1p+0".toList) : M Single)
  let t427 ← ApiFloat.bitwise_eq (t424).value t426
  check t427
  let t428 ← ApiFloat.ieee_rem t10 t3
  check (decide (Status.OK = (t428).status))
  let t429 ← ApiFloat.category (t428).value
  check (decide (Category.normal = t429))

example : passes t_remainder_12 = true := by decide +kernel

/-- tests/ieee.rs:3777 `remainder`. -/
def t_remainder_13 : M Unit := do
  let t2 ← (ApiFloat.INFINITY : M Single)
  let t3 ← ApiFloat.neg t2
  let t4 ← (ApiFloat.ZERO : M Single)
  let t5 ← (ApiFloat.ZERO : M Single)
  let t6 ← ApiFloat.neg t5
  let t7 ← (ApiFloat.NAN : M Single)
  let t8 ← (parse ("snan123".toList) : M Single)
  let t9 ← (parse ("0x1p+0".toList) : M Single)
  let t10 ← (parse ("-0x1p+0".toList) : M Single)
  let t11 ← (ApiFloat.largest : M Single)
  let t12 ← (ApiFloat.largest : M Single)
  let t13 ← ApiFloat.neg t12
  let t14 ← (ApiFloat.SMALLEST : M Single)
  let t428 ← ApiFloat.ieee_rem t10 t3
  let t430 ← (parse ("-0x1p+0".toList) : M Single)
  let t431 ← ApiFloat.bitwise_eq (t428).value t430
  check t431
  let t432 ← ApiFloat.ieee_rem t10 t4
  check (decide (({ invalidOp := true } : Status) = (t432).status))
  let t433 ← ApiFloat.category (t432).value
  check (decide (Category.nan = t433))
  let t434 ← (parse ("nan".toList) : M Single)
  let t435 ← ApiFloat.bitwise_eq (t432).value t434
  check t435
  let t436 ← ApiFloat.ieee_rem t10 t6
  check (decide (({ invalidOp := true } : Status) = (t436).status))
  let t437 ← ApiFloat.category (t436).value
  check (decide (Category.nan = t437))
  let t438 ← (parse ("nan".toList) : M Single)
  let t439 ← ApiFloat.bitwise_eq (t436).value t438
  check t439
  let t440 ← ApiFloat.ieee_rem t10 t7
  check (decide (Status.OK = (t440).status))
  let t441 ← ApiFloat.category (t440).value
  check (decide (Category.nan = t441))
  let t442 ← (parse ("nan".toList) : M Single)
  let t443 ← ApiFloat.bitwise_eq (t440).value t442
  check t443
  let t444 ← ApiFloat.ieee_rem t10 t8
  check (decide (({ invalidOp := true } : Status) = (t444).status))
  let t445 ← ApiFloat.category (t444).value
  check (decide (Category.nan = t445))
  let t446 ← (parse ("nan123".toList) : M Single)
  let t447 ← ApiFloat.bitwise_eq (t444).value t446
  check t447
  let t448 ← ApiFloat.ieee_rem t10 t9
  check (decide (Status.OK = (t448).status))
  let t449 ← ApiFloat.category (t448).value
  check (decide (Category.zero = t449))
  let t450 ← (parse ("-0x0p+0".toList) : M Single)
  let t451 ← ApiFloat.bitwise_eq (t448).value t450
  check t451
  let t452 ← ApiFloat.ieee_rem t10 t10
  check (decide (Status.OK = (t452).status))
  let t453 ← ApiFloat.category (t452).value
  check (decide (Category.zero = t453))
  let t454 ← (parse ("-0x0p+0".toList) : M Single)
  let t455 ← ApiFloat.bitwise_eq (t452).value t454
  check t455
  let t456 ← ApiFloat.ieee_rem t10 t11
  check (decide (Status.OK = (t456).status))
  let t457 ← ApiFloat.category (t456).value
  check (decide (Category.normal = t457))
  let t458 ← (parse ("-0x1p+0".toList) : M Single)
  let t459 ← ApiFloat.bitwise_eq (t456).value t458
  check t459
  let t460 ← ApiFloat.ieee_rem t10 t13
  check (decide (Status.OK = (t460).status))
  let t461 ← ApiFloat.category (t460).value
  check (decide (Category.normal = t461))
  let t462 ← (parse ("-0x1p+0".toList) : M Single)
  let t463 ← ApiFloat.bitwise_eq (t460).value t462
  check t463
  let t464 ← ApiFloat.ieee_rem t10 t14
  check (decide (Status.OK = (t464).status))

example : passes t_remainder_13 = true := by decide +kernel

/-- tests/ieee.rs:3777 `remainder`. -/
def t_remainder_14 : M Unit := do
  let t1 ← (ApiFloat.INFINITY : M Single)
  let t2 ← (ApiFloat.INFINITY : M Single)
  let t3 ← ApiFloat.neg t2
  let t4 ← (ApiFloat.ZERO : M Single)
  let t5 ← (ApiFloat.ZERO : M Single)
  let t6 ← ApiFloat.neg t5
  let t7 ← (ApiFloat.NAN : M Single)
  let t10 ← (parse ("-0x1p+0".toList) : M Single)
  let t11 ← (ApiFloat.largest : M Single)
  let t14 ← (ApiFloat.SMALLEST : M Single)
  let t15 ← (ApiFloat.SMALLEST : M Single)
  let t16 ← ApiFloat.neg t15
  let t17 ← (ApiFloat.smallest_normalized : M Single)
  let t18 ← (ApiFloat.smallest_normalized : M Single)
  let t19 ← ApiFloat.neg t18
  let t464 ← ApiFloat.ieee_rem t10 t14
  let t465 ← ApiFloat.category (t464).value
  check (decide (Category.zero = t465))
  let t466 ← (parse ("-0x0p+0".toList) : M Single)
  let t467 ← ApiFloat.bitwise_eq (t464).value t466
  check t467
  let t468 ← ApiFloat.ieee_rem t10 t16
  check (decide (Status.OK = (t468).status))
  let t469 ← ApiFloat.category (t468).value
  check (decide (Category.zero = t469))
  let t470 ← (parse ("-0x0p+0".toList) : M Single)
  let t471 ← ApiFloat.bitwise_eq (t468).value t470
  check t471
  let t472 ← ApiFloat.ieee_rem t10 t17
  check (decide (Status.OK = (t472).status))
  let t473 ← ApiFloat.category (t472).value
  check (decide (Category.zero = t473))
  let t474 ← (parse ("-0x0p+0".toList) : M Single)
  let t475 ← ApiFloat.bitwise_eq (t472).value t474
  check t475
  let t476 ← ApiFloat.ieee_rem t10 t19
  check (decide (Status.OK = (t476).status))
  let t477 ← ApiFloat.category (t476).value
  check (decide (Category.zero = t477))
  let t478 ← (parse ("-0x0p+0".toList) : M Single)
  let t479 ← ApiFloat.bitwise_eq (t476).value t478
  check t479
  let t480 ← ApiFloat.ieee_rem t11 t1
  check (decide (Status.OK = (t480).status))
  let t481 ← ApiFloat.category (t480).value
  check (decide (Category.normal = t481))
  let t482 ← (parse ("0x1.fffffep+127".toList) : M Single)
  let t483 ← ApiFloat.bitwise_eq (t480).value t482
  check t483
  let t484 ← ApiFloat.ieee_rem t11 t3
  check (decide (Status.OK = (t484).status))
  let t485 ← ApiFloat.category (t484).value
  check (decide (Category.normal = t485))
  let t486 ← (parse ("0x1.fffffep+127".toList) : M Single)
  let t487 ← ApiFloat.bitwise_eq (t484).value t486
  check t487
  let t488 ← ApiFloat.ieee_rem t11 t4
  check (decide (({ invalidOp := true } : Status) = (t488).status))
  let t489 ← ApiFloat.category (t488).value
  check (decide (Category.nan = t489))
  let t490 ← (parse ("nan".toList) : M Single)
  let t491 ← ApiFloat.bitwise_eq (t488).value t490
  check t491
  let t492 ← ApiFloat.ieee_rem t11 t6
  check (decide (({ invalidOp := true } : Status) = (t492).status))
  let t493 ← ApiFloat.category (t492).value
  check (decide (Category.nan = t493))
  let t494 ← (parse ("nan".toList) : M Single)
  let t495 ← ApiFloat.bitwise_eq (t492).value t494
  check t495
  let t496 ← ApiFloat.ieee_rem t11 t7
  check (decide (Status.OK = (t496).status))
  let t497 ← ApiFloat.category (t496).value
  check (decide (Category.nan = t497))
  let t498 ← (parse ("nan".toList) : M Single)
  let t499 ← ApiFloat.bitwise_eq (t496).value t498
  check t499

example : passes t_remainder_14 = true := by decide +kernel

/-- tests/ieee.rs:3777 `remainder`. -/
def t_remainder_15 : M Unit := do
  let t8 ← (parse ("snan123".toList) : M Single)
  let t9 ← (parse ("0x1p+0".toList) : M Single)
  let t10 ← (parse ("-0x1p+0".toList) : M Single)
  let t11 ← (ApiFloat.largest : M Single)
  let t12 ← (ApiFloat.largest : M Single)
  let t13 ← ApiFloat.neg t12
  let t14 ← (ApiFloat.SMALLEST : M Single)
  let t15 ← (ApiFloat.SMALLEST : M Single)
  let t16 ← ApiFloat.neg t15
  let t17 ← (ApiFloat.smallest_normalized : M Single)
  let t18 ← (ApiFloat.smallest_normalized : M Single)
  let t19 ← ApiFloat.neg t18
  let t500 ← ApiFloat.ieee_rem t11 t8
  check (decide (({ invalidOp := true } : Status) = (t500).status))
  let t501 ← ApiFloat.category (t500).value
  check (decide (Category.nan = t501))
  let t502 ← (parse ("nan123".toList) : M Single)
  let t503 ← ApiFloat.bitwise_eq (t500).value t502
  check t503
  let t504 ← ApiFloat.ieee_rem t11 t9
  check (decide (Status.OK = (t504).status))
  let t505 ← ApiFloat.category (t504).value
  check (decide (Category.zero = t505))
  let t506 ← (parse ("0x0p+0".toList) : M Single)
  let t507 ← ApiFloat.bitwise_eq (t504).value t506
  check t507
  let t508 ← ApiFloat.ieee_rem t11 t10
  check (decide (Status.OK = (t508).status))
  let t509 ← ApiFloat.category (t508).value
  check (decide (Category.zero = t509))
  let t510 ← (parse ("0x0p+0".toList) : M Single)
  let t511 ← ApiFloat.bitwise_eq (t508).value t510
  check t511
  let t512 ← ApiFloat.ieee_rem t11 t11
  check (decide (Status.OK = (t512).status))
  let t513 ← ApiFloat.category (t512).value
  check (decide (Category.zero = t513))
  let t514 ← (parse ("0x0p+0".toList) : M Single)
  let t515 ← ApiFloat.bitwise_eq (t512).value t514
  check t515
  let t516 ← ApiFloat.ieee_rem t11 t13
  check (decide (Status.OK = (t516).status))
  let t517 ← ApiFloat.category (t516).value
  check (decide (Category.zero = t517))
  let t518 ← (parse ("0x0p+0".toList) : M Single)
  let t519 ← ApiFloat.bitwise_eq (t516).value t518
  check t519
  let t520 ← ApiFloat.ieee_rem t11 t14
  check (decide (Status.OK = (t520).status))
  let t521 ← ApiFloat.category (t520).value
  check (decide (Category.zero = t521))
  let t522 ← (parse ("0x0p+0".toList) : M Single)
  let t523 ← ApiFloat.bitwise_eq (t520).value t522
  check t523
  let t524 ← ApiFloat.ieee_rem t11 t16
  check (decide (Status.OK = (t524).status))
  let t525 ← ApiFloat.category (t524).value
  check (decide (Category.zero = t525))
  let t526 ← (parse ("0x0p+0".toList) : M Single)
  let t527 ← ApiFloat.bitwise_eq (t524).value t526
  check t527
  let t528 ← ApiFloat.ieee_rem t11 t17
  check (decide (Status.OK = (t528).status))
  let t529 ← ApiFloat.category (t528).value
  check (decide (Category.zero = t529))
  let t530 ← (parse ("0x0p+0".toList) : M Single)
  let t531 ← ApiFloat.bitwise_eq (t528).value t530
  check t531
  let t532 ← ApiFloat.ieee_rem t11 t19
  check (decide (Status.OK = (t532).status))
  let t533 ← ApiFloat.category (t532).value
  check (decide (Category.zero = t533))

example : passes t_remainder_15 = true := by decide +kernel

/-- tests/ieee.rs:3777 `remainder`. -/
def t_remainder_16 : M Unit := do
  let t1 ← (ApiFloat.INFINITY : M Single)
  let t2 ← (ApiFloat.INFINITY : M Single)
  let t3 ← ApiFloat.neg t2
  let t4 ← (ApiFloat.ZERO : M Single)
  let t5 ← (ApiFloat.ZERO : M Single)
  let t6 ← ApiFloat.neg t5
  let t7 ← (ApiFloat.NAN : M Single)
  let t8 ← (parse ("snan123".toList) : M Single)
  let t9 ← (parse ("0x1p+0".toList) : M Single)
  let t10 ← (parse ("-0x1p+0".toList) : M Single)
  let t11 ← (ApiFloat.largest : M Single)
  let t12 ← (ApiFloat.largest : M Single)
  let t13 ← ApiFloat.neg t12
  let t18 ← (ApiFloat.smallest_normalized : M Single)
  let t19 ← ApiFloat.neg t18
  let t532 ← ApiFloat.ieee_rem t11 t19
  let t534 ← (parse ("0x0p+0".toList) : M Single)
  let t535 ← ApiFloat.bitwise_eq (t532).value t534
  check t535
  let t536 ← ApiFloat.ieee_rem t13 t1
  check (decide (Status.OK = (t536).status))
  let t537 ← ApiFloat.category (t536).value
  check (decide (Category.normal = t537))
  let t538 ← (parse ("-0x1.fffffep+127".toList) : M Single)
  let t539 ← ApiFloat.bitwise_eq (t536).value t538
  check t539
  let t540 ← ApiFloat.ieee_rem t13 t3
  check (decide (Status.OK = (t540).status))
  let t541 ← ApiFloat.category (t540).value
  check (decide (Category.normal = t541))
  let t542 ← (parse ("-0x1.fffffep+127".toList) : M Single)
  let t543 ← ApiFloat.bitwise_eq (t540).value t542
  check t543
  let t544 ← ApiFloat.ieee_rem t13 t4
  check (decide (({ invalidOp := true } : Status) = (t544).status))
  let t545 ← ApiFloat.category (t544).value
  check (decide (Category.nan = t545))
  let t546 ← (parse ("nan".toList) : M Single)
  let t547 ← ApiFloat.bitwise_eq (t544).value t546
  check t547
  let t548 ← ApiFloat.ieee_rem t13 t6
  check (decide (({ invalidOp := true } : Status) = (t548).status))
  let t549 ← ApiFloat.category (t548).value
  check (decide (Category.nan = t549))
  let t550 ← (parse ("nan".toList) : M Single)
  let t551 ← ApiFloat.bitwise_eq (t548).value t550
  check t551
  let t552 ← ApiFloat.ieee_rem t13 t7
  check (decide (Status.OK = (t552).status))
  let t553 ← ApiFloat.category (t552).value
  check (decide (Category.nan = t553))
  let t554 ← (parse ("nan".toList) : M Single)
  let t555 ← ApiFloat.bitwise_eq (t552).value t554
  check t555
  let t556 ← ApiFloat.ieee_rem t13 t8
  check (decide (({ invalidOp := true } : Status) = (t556).status))
  let t557 ← ApiFloat.category (t556).value
  check (decide (Category.nan = t557))
  let t558 ← (parse ("nan123".toList) : M Single)
  let t559 ← ApiFloat.bitwise_eq (t556).value t558
  check t559
  let t560 ← ApiFloat.ieee_rem t13 t9
  check (decide (Status.OK = (t560).status))
  let t561 ← ApiFloat.category (t560).value
  check (decide (Category.zero = t561))
  let t562 ← (parse ("-0x0p+0".toList) : M Single)
  let t563 ← ApiFloat.bitwise_eq (t560).value t562
  check t563
  let t564 ← ApiFloat.ieee_rem t13 t10
  check (decide (Status.OK = (t564).status))
  let t565 ← ApiFloat.category (t564).value
  check (decide (Category.zero = t565))
  let t566 ← (parse ("-0x0p+0".toList) : M Single)
  let t567 ← ApiFloat.bitwise_eq (t564).value t566
  check t567
  let t568 ← ApiFloat.ieee_rem t13 t11
  check (decide (Status.OK = (t568).status))

example : passes t_remainder_16 = true := by decide +kernel

/-- tests/ieee.rs:3777 `remainder`. -/
def t_remainder_17 : M Unit := do
  let t1 ← (ApiFloat.INFINITY : M Single)
  let t2 ← (ApiFloat.INFINITY : M Single)
  let t3 ← ApiFloat.neg t2
  let t4 ← (ApiFloat.ZERO : M Single)
  let t11 ← (ApiFloat.largest : M Single)
  let t12 ← (ApiFloat.largest : M Single)
  let t13 ← ApiFloat.neg t12
  let t14 ← (ApiFloat.SMALLEST : M Single)
  let t15 ← (ApiFloat.SMALLEST : M Single)
  let t16 ← ApiFloat.neg t15
  let t17 ← (ApiFloat.smallest_normalized : M Single)
  let t18 ← (ApiFloat.smallest_normalized : M Single)
  let t19 ← ApiFloat.neg t18
  let t568 ← ApiFloat.ieee_rem t13 t11
  let t569 ← ApiFloat.category (t568).value
  check (decide (Category.zero = t569))
  let t570 ← (parse ("-0x0p+0".toList) : M Single)
  let t571 ← ApiFloat.bitwise_eq (t568).value t570
  check t571
  let t572 ← ApiFloat.ieee_rem t13 t13
  check (decide (Status.OK = (t572).status))
  let t573 ← ApiFloat.category (t572).value
  check (decide (Category.zero = t573))
  let t574 ← (parse ("-0x0p+0".toList) : M Single)
  let t575 ← ApiFloat.bitwise_eq (t572).value t574
  check t575
  let t576 ← ApiFloat.ieee_rem t13 t14
  check (decide (Status.OK = (t576).status))
  let t577 ← ApiFloat.category (t576).value
  check (decide (Category.zero = t577))
  let t578 ← (parse ("-0x0p+0".toList) : M Single)
  let t579 ← ApiFloat.bitwise_eq (t576).value t578
  check t579
  let t580 ← ApiFloat.ieee_rem t13 t16
  check (decide (Status.OK = (t580).status))
  let t581 ← ApiFloat.category (t580).value
  check (decide (Category.zero = t581))
  let t582 ← (parse ("-0x0p+0".toList) : M Single)
  let t583 ← ApiFloat.bitwise_eq (t580).value t582
  check t583
  let t584 ← ApiFloat.ieee_rem t13 t17
  check (decide (Status.OK = (t584).status))
  let t585 ← ApiFloat.category (t584).value
  check (decide (Category.zero = t585))
  let t586 ← (parse ("-0x0p+0".toList) : M Single)
  let t587 ← ApiFloat.bitwise_eq (t584).value t586
  check t587
  let t588 ← ApiFloat.ieee_rem t13 t19
  check (decide (Status.OK = (t588).status))
  let t589 ← ApiFloat.category (t588).value
  check (decide (Category.zero = t589))
  let t590 ← (parse ("-0x0p+0".toList) : M Single)
  let t591 ← ApiFloat.bitwise_eq (t588).value t590
  check t591
  let t592 ← ApiFloat.ieee_rem t14 t1
  check (decide (Status.OK = (t592).status))
  let t593 ← ApiFloat.category (t592).value
  check (decide (Category.normal = t593))
  let t594 ← (parse ("0x1p-149".toList) : M Single)
  let t595 ← ApiFloat.bitwise_eq (t592).value t594
  check t595
  let t596 ← ApiFloat.ieee_rem t14 t3
  check (decide (Status.OK = (t596).status))
  let t597 ← ApiFloat.category (t596).value
  check (decide (Category.normal = t597))
  let t598 ← (parse ("0x1p-149".toList) : M Single)
  let t599 ← ApiFloat.bitwise_eq (t596).value t598
  check t599
  let t600 ← ApiFloat.ieee_rem t14 t4
  check (decide (({ invalidOp := true } : Status) = (t600).status))
  let t601 ← ApiFloat.category (t600).value
  check (decide (Category.nan = t601))
  let t602 ← (parse ("nan".toList) : M Single)
  let t603 ← ApiFloat.bitwise_eq (t600).value t602
  check t603

example : passes t_remainder_17 = true := by decide +kernel

/-- tests/ieee.rs:3777 `remainder`. -/
def t_remainder_18 : M Unit := do
  let t5 ← (ApiFloat.ZERO : M Single)
  let t6 ← ApiFloat.neg t5
  let t7 ← (ApiFloat.NAN : M Single)
  let t8 ← (parse ("snan123".toList) : M Single)
  let t9 ← (parse ("0x1p+0".toList) : M Single)
  let t10 ← (parse ("-0x1p+0".toList) : M Single)
  let t11 ← (ApiFloat.largest : M Single)
  let t12 ← (ApiFloat.largest : M Single)
  let t13 ← ApiFloat.neg t12
  let t14 ← (ApiFloat.SMALLEST : M Single)
  let t15 ← (ApiFloat.SMALLEST : M Single)
  let t16 ← ApiFloat.neg t15
  let t604 ← ApiFloat.ieee_rem t14 t6
  check (decide (({ invalidOp := true } : Status) = (t604).status))
  let t605 ← ApiFloat.category (t604).value
  check (decide (Category.nan = t605))
  let t606 ← (parse ("nan".toList) : M Single)
  let t607 ← ApiFloat.bitwise_eq (t604).value t606
  check t607
  let t608 ← ApiFloat.ieee_rem t14 t7
  check (decide (Status.OK = (t608).status))
  let t609 ← ApiFloat.category (t608).value
  check (decide (Category.nan = t609))
  let t610 ← (parse ("nan".toList) : M Single)
  let t611 ← ApiFloat.bitwise_eq (t608).value t610
  check t611
  let t612 ← ApiFloat.ieee_rem t14 t8
  check (decide (({ invalidOp := true } : Status) = (t612).status))
  let t613 ← ApiFloat.category (t612).value
  check (decide (Category.nan = t613))
  let t614 ← (parse ("nan123".toList) : M Single)
  let t615 ← ApiFloat.bitwise_eq (t612).value t614
  check t615
  let t616 ← ApiFloat.ieee_rem t14 t9
  check (decide (Status.OK = (t616).status))
  let t617 ← ApiFloat.category (t616).value
  check (decide (Category.normal = t617))
  let t618 ← (parse ("0x1p-149".toList) : M Single)
  let t619 ← ApiFloat.bitwise_eq (t616).value t618
  check t619
  let t620 ← ApiFloat.ieee_rem t14 t10
  check (decide (Status.OK = (t620).status))
  let t621 ← ApiFloat.category (t620).value
  check (decide (Category.normal = t621))
  let t622 ← (parse ("0x1p-149".toList) : M Single)
  let t623 ← ApiFloat.bitwise_eq (t620).value t622
  check t623
  let t624 ← ApiFloat.ieee_rem t14 t11
  check (decide (Status.OK = (t624).status))
  let t625 ← ApiFloat.category (t624).value
  check (decide (Category.normal = t625))
  let t626 ← (parse ("0x1p-149".toList) : M Single)
  let t627 ← ApiFloat.bitwise_eq (t624).value t626
  check t627
  let t628 ← ApiFloat.ieee_rem t14 t13
  check (decide (Status.OK = (t628).status))
  let t629 ← ApiFloat.category (t628).value
  check (decide (Category.normal = t629))
  let t630 ← (parse ("0x1p-149".toList) : M Single)
  let t631 ← ApiFloat.bitwise_eq (t628).value t630
  check t631
  let t632 ← ApiFloat.ieee_rem t14 t14
  check (decide (Status.OK = (t632).status))
  let t633 ← ApiFloat.category (t632).value
  check (decide (Category.zero = t633))
  let t634 ← (parse ("0x0p+0".toList) : M Single)
  let t635 ← ApiFloat.bitwise_eq (t632).value t634
  check t635
  let t636 ← ApiFloat.ieee_rem t14 t16
  check (decide (Status.OK = (t636).status))
  let t637 ← ApiFloat.category (t636).value
  check (decide (Category.zero = t637))

example : passes t_remainder_18 = true := by decide +kernel

/-- tests/ieee.rs:3777 `remainder`. -/
def t_remainder_19 : M Unit := do
  let t1 ← (ApiFloat.INFINITY : M Single)
  let t2 ← (ApiFloat.INFINITY : M Single)
  let t3 ← ApiFloat.neg t2
  let t4 ← (ApiFloat.ZERO : M Single)
  let t5 ← (ApiFloat.ZERO : M Single)
  let t6 ← ApiFloat.neg t5
  let t7 ← (ApiFloat.NAN : M Single)
  let t8 ← (parse ("snan123".toList) : M Single)
  let t9 ← (parse ("0x1p+0".toList) : M Single)
  let t14 ← (ApiFloat.SMALLEST : M Single)
  let t15 ← (ApiFloat.SMALLEST : M Single)
  let t16 ← ApiFloat.neg t15
  let t17 ← (ApiFloat.smallest_normalized : M Single)
  let t18 ← (ApiFloat.smallest_normalized : M Single)
  let t19 ← ApiFloat.neg t18
  let t636 ← ApiFloat.ieee_rem t14 t16
  let t638 ← (parse ("0x0p+0".toList) : M Single)
  let t639 ← ApiFloat.bitwise_eq (t636).value t638
  check t639
  let t640 ← ApiFloat.ieee_rem t14 t17
  check (decide (Status.OK = (t640).status))
  let t641 ← ApiFloat.category (t640).value
  check (decide (Category.normal = t641))
  let t642 ← (parse ("0x1p-149".toList) : M Single)
  let t643 ← ApiFloat.bitwise_eq (t640).value t642
  check t643
  let t644 ← ApiFloat.ieee_rem t14 t19
  check (decide (Status.OK = (t644).status))
  let t645 ← ApiFloat.category (t644).value
  check (decide (Category.normal = t645))
  let t646 ← (parse ("0x1p-149".toList) : M Single)
  let t647 ← ApiFloat.bitwise_eq (t644).value t646
  check t647
  let t648 ← ApiFloat.ieee_rem t16 t1
  check (decide (Status.OK = (t648).status))
  let t649 ← ApiFloat.category (t648).value
  check (decide (Category.normal = t649))
  let t650 ← (parse ("-0x1p-149".toList) : M Single)
  let t651 ← ApiFloat.bitwise_eq (t648).value t650
  check t651
  let t652 ← ApiFloat.ieee_rem t16 t3
  check (decide (Status.OK = (t652).status))
  let t653 ← ApiFloat.category (t652).value
  check (decide (Category.normal = t653))
  let t654 ← (parse ("-0x1p-149".toList) : M Single)
  let t655 ← ApiFloat.bitwise_eq (t652).value t654
  check t655
  let t656 ← ApiFloat.ieee_rem t16 t4
  check (decide (({ invalidOp := true } : Status) = (t656).status))
  let t657 ← ApiFloat.category (t656).value
  check (decide (Category.nan = t657))
  let t658 ← (parse ("nan".toList) : M Single)
  let t659 ← ApiFloat.bitwise_eq (t656).value t658
  check t659
  let t660 ← ApiFloat.ieee_rem t16 t6
  check (decide (({ invalidOp := true } : Status) = (t660).status))
  let t661 ← ApiFloat.category (t660).value
  check (decide (Category.nan = t661))
  let t662 ← (parse ("nan".toList) : M Single)
  let t663 ← ApiFloat.bitwise_eq (t660).value t662
  check t663
  let t664 ← ApiFloat.ieee_rem t16 t7
  check (decide (Status.OK = (t664).status))
  let t665 ← ApiFloat.category (t664).value
  check (decide (Category.nan = t665))
  let t666 ← (parse ("nan".toList) : M Single)
  let t667 ← ApiFloat.bitwise_eq (t664).value t666
  check t667
  let t668 ← ApiFloat.ieee_rem t16 t8
  check (decide (({ invalidOp := true } : Status) = (t668).status))
  let t669 ← ApiFloat.category (t668).value
  check (decide (Category.nan = t669))
  let t670 ← (parse ("nan123".toList) : M Single)
  let t671 ← ApiFloat.bitwise_eq (t668).value t670
  check t671
  let t672 ← ApiFloat.ieee_rem t16 t9
  check (decide (Status.OK = (t672).status))

example : passes t_remainder_19 = true := by decide +kernel

/-- tests/ieee.rs:3777 `remainder`. -/
def t_remainder_20 : M Unit := do
  let t1 ← (ApiFloat.INFINITY : M Single)
  let t9 ← (parse ("0x1p+0".toList) : M Single)
  let t10 ← (parse ("-0x1p+0".toList) : M Single)
  let t11 ← (ApiFloat.largest : M Single)
  let t12 ← (ApiFloat.largest : M Single)
  let t13 ← ApiFloat.neg t12
  let t14 ← (ApiFloat.SMALLEST : M Single)
  let t15 ← (ApiFloat.SMALLEST : M Single)
  let t16 ← ApiFloat.neg t15
  let t17 ← (ApiFloat.smallest_normalized : M Single)
  let t18 ← (ApiFloat.smallest_normalized : M Single)
  let t19 ← ApiFloat.neg t18
  let t672 ← ApiFloat.ieee_rem t16 t9
  let t673 ← ApiFloat.category (t672).value
  check (decide (Category.normal = t673))
  let t674 ← (parse ("-0x1p-149".toList) : M Single)
  let t675 ← ApiFloat.bitwise_eq (t672).value t674
  check t675
  let t676 ← ApiFloat.ieee_rem t16 t10
  check (decide (Status.OK = (t676).status))
  let t677 ← ApiFloat.category (t676).value
  check (decide (Category.normal = t677))
  let t678 ← (parse ("-0x1p-149".toList) : M Single)
  let t679 ← ApiFloat.bitwise_eq (t676).value t678
  check t679
  let t680 ← ApiFloat.ieee_rem t16 t11
  check (decide (Status.OK = (t680).status))
  let t681 ← ApiFloat.category (t680).value
  check (decide (Category.normal = t681))
  let t682 ← (parse ("-0x1p-149".toList) : M Single)
  let t683 ← ApiFloat.bitwise_eq (t680).value t682
  check t683
  let t684 ← ApiFloat.ieee_rem t16 t13
  check (decide (Status.OK = (t684).status))
  let t685 ← ApiFloat.category (t684).value
  check (decide (Category.normal = t685))
  let t686 ← (parse ("-0x1p-149".toList) : M Single)
  let t687 ← ApiFloat.bitwise_eq (t684).value t686
  check t687
  let t688 ← ApiFloat.ieee_rem t16 t14
  check (decide (Status.OK = (t688).status))
  let t689 ← ApiFloat.category (t688).value
  check (decide (Category.zero = t689))
  let t690 ← (parse ("-0x0p+0".toList) : M Single)
  let t691 ← ApiFloat.bitwise_eq (t688).value t690
  check t691
  let t692 ← ApiFloat.ieee_rem t16 t16
  check (decide (Status.OK = (t692).status))
  let t693 ← ApiFloat.category (t692).value
  check (decide (Category.zero = t693))
  let t694 ← (parse ("-0x0p+0".toList) : M Single)
  let t695 ← ApiFloat.bitwise_eq (t692).value t694
  check t695
  let t696 ← ApiFloat.ieee_rem t16 t17
  check (decide (Status.OK = (t696).status))
  let t697 ← ApiFloat.category (t696).value
  check (decide (Category.normal = t697))
  let t698 ← (parse ("-0x1p-149".toList) : M Single)
  let t699 ← ApiFloat.bitwise_eq (t696).value t698
  check t699
  let t700 ← ApiFloat.ieee_rem t16 t19
  check (decide (Status.OK = (t700).status))
  let t701 ← ApiFloat.category (t700).value
  check (decide (Category.normal = t701))
  let t702 ← (parse ("-0x1p-149".toList) : M Single)
  let t703 ← ApiFloat.bitwise_eq (t700).value t702
  check t703
  let t704 ← ApiFloat.ieee_rem t17 t1
  check (decide (Status.OK = (t704).status))
  let t705 ← ApiFloat.category (t704).value
  check (decide (Category.normal = t705))
  let t706 ← (parse ("0x1p-126".toList) : M Single)
  let t707 ← ApiFloat.bitwise_eq (t704).value t706
  check t707

example : passes t_remainder_20 = true := by decide +kernel

/-- tests/ieee.rs:3777 `remainder`. -/
def t_remainder_21 : M Unit := do
  let t2 ← (ApiFloat.INFINITY : M Single)
  let t3 ← ApiFloat.neg t2
  let t4 ← (ApiFloat.ZERO : M Single)
  let t5 ← (ApiFloat.ZERO : M Single)
  let t6 ← ApiFloat.neg t5
  let t7 ← (ApiFloat.NAN : M Single)
  let t8 ← (parse ("snan123".toList) : M Single)
  let t9 ← (parse ("0x1p+0".toList) : M Single)
  let t10 ← (parse ("-0x1p+0".toList) : M Single)
  let t11 ← (ApiFloat.largest : M Single)
  let t12 ← (ApiFloat.largest : M Single)
  let t13 ← ApiFloat.neg t12
  let t17 ← (ApiFloat.smallest_normalized : M Single)
  let t708 ← ApiFloat.ieee_rem t17 t3
  check (decide (Status.OK = (t708).status))
  let t709 ← ApiFloat.category (t708).value
  check (decide (Category.normal = t709))
  let t710 ← (parse ("0x1p-126".toList) : M Single)
  let t711 ← ApiFloat.bitwise_eq (t708).value t710
  check t711
  let t712 ← ApiFloat.ieee_rem t17 t4
  check (decide (({ invalidOp := true } : Status) = (t712).status))
  let t713 ← ApiFloat.category (t712).value
  check (decide (Category.nan = t713))
  let t714 ← (parse ("nan".toList) : M Single)
  let t715 ← ApiFloat.bitwise_eq (t712).value t714
  check t715
  let t716 ← ApiFloat.ieee_rem t17 t6
  check (decide (({ invalidOp := true } : Status) = (t716).status))
  let t717 ← ApiFloat.category (t716).value
  check (decide (Category.nan = t717))
  let t718 ← (parse ("nan".toList) : M Single)
  let t719 ← ApiFloat.bitwise_eq (t716).value t718
  check t719
  let t720 ← ApiFloat.ieee_rem t17 t7
  check (decide (Status.OK = (t720).status))
  let t721 ← ApiFloat.category (t720).value
  check (decide (Category.nan = t721))
  let t722 ← (parse ("nan".toList) : M Single)
  let t723 ← ApiFloat.bitwise_eq (t720).value t722
  check t723
  let t724 ← ApiFloat.ieee_rem t17 t8
  check (decide (({ invalidOp := true } : Status) = (t724).status))
  let t725 ← ApiFloat.category (t724).value
  check (decide (Category.nan = t725))
  let t726 ← (parse ("nan123".toList) : M Single)
  let t727 ← ApiFloat.bitwise_eq (t724).value t726
  check t727
  let t728 ← ApiFloat.ieee_rem t17 t9
  check (decide (Status.OK = (t728).status))
  let t729 ← ApiFloat.category (t728).value
  check (decide (Category.normal = t729))
  let t730 ← (parse ("0x1p-126".toList) : M Single)
  let t731 ← ApiFloat.bitwise_eq (t728).value t730
  check t731
  let t732 ← ApiFloat.ieee_rem t17 t10
  check (decide (Status.OK = (t732).status))
  let t733 ← ApiFloat.category (t732).value
  check (decide (Category.normal = t733))
  let t734 ← (parse ("0x1p-126".toList) : M Single)
  let t735 ← ApiFloat.bitwise_eq (t732).value t734
  check t735
  let t736 ← ApiFloat.ieee_rem t17 t11
  check (decide (Status.OK = (t736).status))
  let t737 ← ApiFloat.category (t736).value
  check (decide (Category.normal = t737))
  let t738 ← (parse ("0x1p-126".toList) : M Single)
  let t739 ← ApiFloat.bitwise_eq (t736).value t738
  check t739
  let t740 ← ApiFloat.ieee_rem t17 t13
  check (decide (Status.OK = (t740).status))
  let t741 ← ApiFloat.category (t740).value
  check (decide (Category.normal = t741))

example : passes t_remainder_21 = true := by decide +kernel

/-- tests/ieee.rs:3777 `remainder`. -/
def t_remainder_22 : M Unit := do
  let t1 ← (ApiFloat.INFINITY : M Single)
  let t2 ← (ApiFloat.INFINITY : M Single)
  let t3 ← ApiFloat.neg t2
  let t4 ← (ApiFloat.ZERO : M Single)
  let t5 ← (ApiFloat.ZERO : M Single)
  let t6 ← ApiFloat.neg t5
  let t7 ← (ApiFloat.NAN : M Single)
  let t12 ← (ApiFloat.largest : M Single)
  let t13 ← ApiFloat.neg t12
  let t14 ← (ApiFloat.SMALLEST : M Single)
  let t15 ← (ApiFloat.SMALLEST : M Single)
  let t16 ← ApiFloat.neg t15
  let t17 ← (ApiFloat.smallest_normalized : M Single)
  let t18 ← (ApiFloat.smallest_normalized : M Single)
  let t19 ← ApiFloat.neg t18
  let t740 ← ApiFloat.ieee_rem t17 t13
  let t742 ← (parse ("0x1p-126".toList) : M Single)
  let t743 ← ApiFloat.bitwise_eq (t740).value t742
  check t743
  let t744 ← ApiFloat.ieee_rem t17 t14
  check (decide (Status.OK = (t744).status))
  let t745 ← ApiFloat.category (t744).value
  check (decide (Category.zero = t745))
  let t746 ← (parse ("0x0p+0".toList) : M Single)
  let t747 ← ApiFloat.bitwise_eq (t744).value t746
  check t747
  let t748 ← ApiFloat.ieee_rem t17 t16
  check (decide (Status.OK = (t748).status))
  let t749 ← ApiFloat.category (t748).value
  check (decide (Category.zero = t749))
  let t750 ← (parse ("0x0p+0".toList) : M Single)
  let t751 ← ApiFloat.bitwise_eq (t748).value t750
  check t751
  let t752 ← ApiFloat.ieee_rem t17 t17
  check (decide (Status.OK = (t752).status))
  let t753 ← ApiFloat.category (t752).value
  check (decide (Category.zero = t753))
  let t754 ← (parse ("0x0p+0".toList) : M Single)
  let t755 ← ApiFloat.bitwise_eq (t752).value t754
  check t755
  let t756 ← ApiFloat.ieee_rem t17 t19
  check (decide (Status.OK = (t756).status))
  let t757 ← ApiFloat.category (t756).value
  check (decide (Category.zero = t757))
  let t758 ← (parse ("0x0p+0".toList) : M Single)
  let t759 ← ApiFloat.bitwise_eq (t756).value t758
  check t759
  let t760 ← ApiFloat.ieee_rem t19 t1
  check (decide (Status.OK = (t760).status))
  let t761 ← ApiFloat.category (t760).value
  check (decide (Category.normal = t761))
  let t762 ← (parse ("-0x1p-126".toList) : M Single)
  let t763 ← ApiFloat.bitwise_eq (t760).value t762
  check t763
  let t764 ← ApiFloat.ieee_rem t19 t3
  check (decide (Status.OK = (t764).status))
  let t765 ← ApiFloat.category (t764).value
  check (decide (Category.normal = t765))
  let t766 ← (parse ("-0x1p-126".toList) : M Single)
  let t767 ← ApiFloat.bitwise_eq (t764).value t766
  check t767
  let t768 ← ApiFloat.ieee_rem t19 t4
  check (decide (({ invalidOp := true } : Status) = (t768).status))
  let t769 ← ApiFloat.category (t768).value
  check (decide (Category.nan = t769))
  let t770 ← (parse ("nan".toList) : M Single)
  let t771 ← ApiFloat.bitwise_eq (t768).value t770
  check t771
  let t772 ← ApiFloat.ieee_rem t19 t6
  check (decide (({ invalidOp := true } : Status) = (t772).status))
  let t773 ← ApiFloat.category (t772).value
  check (decide (Category.nan = t773))
  let t774 ← (parse ("nan".toList) : M Single)
  let t775 ← ApiFloat.bitwise_eq (t772).value t774
  check t775
  let t776 ← ApiFloat.ieee_rem t19 t7
  check (decide (Status.OK = (t776).status))

example : passes t_remainder_22 = true := by decide +kernel

/-- tests/ieee.rs:3777 `remainder`. -/
def t_remainder_23 : M Unit := do
  let t7 ← (ApiFloat.NAN : M Single)
  let t8 ← (parse ("snan123".toList) : M Single)
  let t9 ← (parse ("0x1p+0".toList) : M Single)
  let t10 ← (parse ("-0x1p+0".toList) : M Single)
  let t11 ← (ApiFloat.largest : M Single)
  let t12 ← (ApiFloat.largest : M Single)
  let t13 ← ApiFloat.neg t12
  let t14 ← (ApiFloat.SMALLEST : M Single)
  let t15 ← (ApiFloat.SMALLEST : M Single)
  let t16 ← ApiFloat.neg t15
  let t17 ← (ApiFloat.smallest_normalized : M Single)
  let t18 ← (ApiFloat.smallest_normalized : M Single)
  let t19 ← ApiFloat.neg t18
  let t776 ← ApiFloat.ieee_rem t19 t7
  let t777 ← ApiFloat.category (t776).value
  check (decide (Category.nan = t777))
  let t778 ← (parse ("nan".toList) : M Single)
  let t779 ← ApiFloat.bitwise_eq (t776).value t778
  check t779
  let t780 ← ApiFloat.ieee_rem t19 t8
  check (decide (({ invalidOp := true } : Status) = (t780).status))
  let t781 ← ApiFloat.category (t780).value
  check (decide (Category.nan = t781))
  let t782 ← (parse ("nan123".toList) : M Single)
  let t783 ← ApiFloat.bitwise_eq (t780).value t782
  check t783
  let t784 ← ApiFloat.ieee_rem t19 t9
  check (decide (Status.OK = (t784).status))
  let t785 ← ApiFloat.category (t784).value
  check (decide (Category.normal = t785))
  let t786 ← (parse ("-0x1p-126".toList) : M Single)
  let t787 ← ApiFloat.bitwise_eq (t784).value t786
  check t787
  let t788 ← ApiFloat.ieee_rem t19 t10
  check (decide (Status.OK = (t788).status))
  let t789 ← ApiFloat.category (t788).value
  check (decide (Category.normal = t789))
  let t790 ← (parse ("-0x1p-126".toList) : M Single)
  let t791 ← ApiFloat.bitwise_eq (t788).value t790
  check t791
  let t792 ← ApiFloat.ieee_rem t19 t11
  check (decide (Status.OK = (t792).status))
  let t793 ← ApiFloat.category (t792).value
  check (decide (Category.normal = t793))
  let t794 ← (parse ("-0x1p-126".toList) : M Single)
  let t795 ← ApiFloat.bitwise_eq (t792).value t794
  check t795
  let t796 ← ApiFloat.ieee_rem t19 t13
  check (decide (Status.OK = (t796).status))
  let t797 ← ApiFloat.category (t796).value
  check (decide (Category.normal = t797))
  let t798 ← (parse ("-0x1p-126".toList) : M Single)
  let t799 ← ApiFloat.bitwise_eq (t796).value t798
  check t799
  let t800 ← ApiFloat.ieee_rem t19 t14
  check (decide (Status.OK = (t800).status))
  let t801 ← ApiFloat.category (t800).value
  check (decide (Category.zero = t801))
  let t802 ← (parse ("-0x0p+0".toList) : M Single)
  let t803 ← ApiFloat.bitwise_eq (t800).value t802
  check t803
  let t804 ← ApiFloat.ieee_rem t19 t16
  check (decide (Status.OK = (t804).status))
  let t805 ← ApiFloat.category (t804).value
  check (decide (Category.zero = t805))
  let t806 ← (parse ("-0x0p+0".toList) : M Single)
  let t807 ← ApiFloat.bitwise_eq (t804).value t806
  check t807
  let t808 ← ApiFloat.ieee_rem t19 t17
  check (decide (Status.OK = (t808).status))
  let t809 ← ApiFloat.category (t808).value
  check (decide (Category.zero = t809))
  let t810 ← (parse ("-0x0p+0".toList) : M Single)
  let t811 ← ApiFloat.bitwise_eq (t808).value t810
  check t811

example : passes t_remainder_23 = true := by decide +kernel

/-- tests/ieee.rs:3777 `remainder`. -/
def t_remainder_24 : M Unit := do
  let t18 ← (ApiFloat.smallest_normalized : M Single)
  let t19 ← ApiFloat.neg t18
  let t20 ← (parse ("0x1.fffffep+126".toList) : M Single)
  let t21 ← (parse ("-0x1.fffffep+126".toList) : M Single)
  let t22 ← (parse ("0x1.fffffep-126".toList) : M Single)
  let t23 ← (parse ("-0x1.fffffep-126".toList) : M Single)
  let t24 ← (parse ("0x1p-125".toList) : M Single)
  let t25 ← (parse ("-0x1p-125".toList) : M Single)
  let t26 ← (parse ("0x1p+127".toList) : M Single)
  let t27 ← (parse ("-0x1p+127".toList) : M Single)
  let t812 ← ApiFloat.ieee_rem t19 t19
  check (decide (Status.OK = (t812).status))
  let t813 ← ApiFloat.category (t812).value
  check (decide (Category.zero = t813))
  let t814 ← (parse ("-0x0p+0".toList) : M Single)
  let t815 ← ApiFloat.bitwise_eq (t812).value t814
  check t815
  let t816 ← ApiFloat.ieee_rem t20 t20
  check (decide (Status.OK = (t816).status))
  let t817 ← ApiFloat.category (t816).value
  check (decide (Category.zero = t817))
  let t818 ← (parse ("0x0p+0".toList) : M Single)
  let t819 ← ApiFloat.bitwise_eq (t816).value t818
  check t819
  let t820 ← ApiFloat.ieee_rem t20 t21
  check (decide (Status.OK = (t820).status))
  let t821 ← ApiFloat.category (t820).value
  check (decide (Category.zero = t821))
  let t822 ← (parse ("0x0p+0".toList) : M Single)
  let t823 ← ApiFloat.bitwise_eq (t820).value t822
  check t823
  let t824 ← ApiFloat.ieee_rem t20 t22
  check (decide (Status.OK = (t824).status))
  let t825 ← ApiFloat.category (t824).value
  check (decide (Category.zero = t825))
  let t826 ← (parse ("0x0p+0".toList) : M Single)
  let t827 ← ApiFloat.bitwise_eq (t824).value t826
  check t827
  let t828 ← ApiFloat.ieee_rem t20 t23
  check (decide (Status.OK = (t828).status))
  let t829 ← ApiFloat.category (t828).value
  check (decide (Category.zero = t829))
  let t830 ← (parse ("0x0p+0".toList) : M Single)
  let t831 ← ApiFloat.bitwise_eq (t828).value t830
  check t831
  let t832 ← ApiFloat.ieee_rem t20 t24
  check (decide (Status.OK = (t832).status))
  let t833 ← ApiFloat.category (t832).value
  check (decide (Category.zero = t833))
  let t834 ← (parse ("0x0p+0".toList) : M Single)
  let t835 ← ApiFloat.bitwise_eq (t832).value t834
  check t835
  let t836 ← ApiFloat.ieee_rem t20 t25
  check (decide (Status.OK = (t836).status))
  let t837 ← ApiFloat.category (t836).value
  check (decide (Category.zero = t837))
  let t838 ← (parse ("0x0p+0".toList) : M Single)
  let t839 ← ApiFloat.bitwise_eq (t836).value t838
  check t839
  let t840 ← ApiFloat.ieee_rem t20 t26
  check (decide (Status.OK = (t840).status))
  let t841 ← ApiFloat.category (t840).value
  check (decide (Category.normal = t841))
  let t842 ← (parse ("-0x1p+103".toList) : M Single)
  let t843 ← ApiFloat.bitwise_eq (t840).value t842
  check t843
  let t844 ← ApiFloat.ieee_rem t20 t27
  check (decide (Status.OK = (t844).status))
  let t845 ← ApiFloat.category (t844).value
  check (decide (Category.normal = t845))

example : passes t_remainder_24 = true := by decide +kernel

/-- tests/ieee.rs:3777 `remainder`. -/
def t_remainder_25 : M Unit := do
  let t20 ← (parse ("0x1.fffffep+126".toList) : M Single)
  let t21 ← (parse ("-0x1.fffffep+126".toList) : M Single)
  let t22 ← (parse ("0x1.fffffep-126".toList) : M Single)
  let t23 ← (parse ("-0x1.fffffep-126".toList) : M Single)
  let t24 ← (parse ("0x1p-125".toList) : M Single)
  let t27 ← (parse ("-0x1p+127".toList) : M Single)
  let t28 ← (parse ("1.5".toList) : M Single)
  let t29 ← (parse ("-1.5".toList) : M Single)
  let t30 ← (parse ("1".toList) : M Single)
  let t31 ← (parse ("-1".toList) : M Single)
  let t844 ← ApiFloat.ieee_rem t20 t27
  let t846 ← (parse ("-0x1p+103".toList) : M Single)
  let t847 ← ApiFloat.bitwise_eq (t844).value t846
  check t847
  let t848 ← ApiFloat.ieee_rem t20 t28
  check (decide (Status.OK = (t848).status))
  let t849 ← ApiFloat.category (t848).value
  check (decide (Category.zero = t849))
  let t850 ← (parse ("0x0p+0".toList) : M Single)
  let t851 ← ApiFloat.bitwise_eq (t848).value t850
  check t851
  let t852 ← ApiFloat.ieee_rem t20 t29
  check (decide (Status.OK = (t852).status))
  let t853 ← ApiFloat.category (t852).value
  check (decide (Category.zero = t853))
  let t854 ← (parse ("0x0p+0".toList) : M Single)
  let t855 ← ApiFloat.bitwise_eq (t852).value t854
  check t855
  let t856 ← ApiFloat.ieee_rem t20 t30
  check (decide (Status.OK = (t856).status))
  let t857 ← ApiFloat.category (t856).value
  check (decide (Category.zero = t857))
  let t858 ← (parse ("0x0p+0".toList) : M Single)
  let t859 ← ApiFloat.bitwise_eq (t856).value t858
  check t859
  let t860 ← ApiFloat.ieee_rem t20 t31
  check (decide (Status.OK = (t860).status))
  let t861 ← ApiFloat.category (t860).value
  check (decide (Category.zero = t861))
  let t862 ← (parse ("0x0p+0".toList) : M Single)
  let t863 ← ApiFloat.bitwise_eq (t860).value t862
  check t863
  let t864 ← ApiFloat.ieee_rem t21 t20
  check (decide (Status.OK = (t864).status))
  let t865 ← ApiFloat.category (t864).value
  check (decide (Category.zero = t865))
  let t866 ← (parse ("-0x0p+0".toList) : M Single)
  let t867 ← ApiFloat.bitwise_eq (t864).value t866
  check t867
  let t868 ← ApiFloat.ieee_rem t21 t21
  check (decide (Status.OK = (t868).status))
  let t869 ← ApiFloat.category (t868).value
  check (decide (Category.zero = t869))
  let t870 ← (parse ("-0x0p+0".toList) : M Single)
  let t871 ← ApiFloat.bitwise_eq (t868).value t870
  check t871
  let t872 ← ApiFloat.ieee_rem t21 t22
  check (decide (Status.OK = (t872).status))
  let t873 ← ApiFloat.category (t872).value
  check (decide (Category.zero = t873))
  let t874 ← (parse ("-0x0p+0".toList) : M Single)
  let t875 ← ApiFloat.bitwise_eq (t872).value t874
  check t875
  let t876 ← ApiFloat.ieee_rem t21 t23
  check (decide (Status.OK = (t876).status))
  let t877 ← ApiFloat.category (t876).value
  check (decide (Category.zero = t877))
  let t878 ← (parse ("-0x0p+0".toList) : M Single)
  let t879 ← ApiFloat.bitwise_eq (t876).value t878
  check t879
  let t880 ← ApiFloat.ieee_rem t21 t24
  check (decide (Status.OK = (t880).status))

example : passes t_remainder_25 = true := by decide +kernel

/-- tests/ieee.rs:3777 `remainder`. -/
def t_remainder_26 : M Unit := do
  let t20 ← (parse ("0x1.fffffep+126".toList) : M Single)
  let t21 ← (parse ("-0x1.fffffep+126".toList) : M Single)
  let t22 ← (parse ("0x1.fffffep-126".toList) : M Single)
  let t24 ← (parse ("0x1p-125".toList) : M Single)
  let t25 ← (parse ("-0x1p-125".toList) : M Single)
  let t26 ← (parse ("0x1p+127".toList) : M Single)
  let t27 ← (parse ("-0x1p+127".toList) : M Single)
  let t28 ← (parse ("1.5".toList) : M Single)
  let t29 ← (parse ("-1.5".toList) : M Single)
  let t30 ← (parse ("1".toList) : M Single)
  let t31 ← (parse ("-1".toList) : M Single)
  let t880 ← ApiFloat.ieee_rem t21 t24
  let t881 ← ApiFloat.category (t880).value
  check (decide (Category.zero = t881))
  let t882 ← (parse ("-0x0p+0".toList) : M Single)
  let t883 ← ApiFloat.bitwise_eq (t880).value t882
  check t883
  let t884 ← ApiFloat.ieee_rem t21 t25
  check (decide (Status.OK = (t884).status))
  let t885 ← ApiFloat.category (t884).value
  check (decide (Category.zero = t885))
  let t886 ← (parse ("-0x0p+0".toList) : M Single)
  let t887 ← ApiFloat.bitwise_eq (t884).value t886
  check t887
  let t888 ← ApiFloat.ieee_rem t21 t26
  check (decide (Status.OK = (t888).status))
  let t889 ← ApiFloat.category (t888).value
  check (decide (Category.normal = t889))
  let t890 ← (parse ("0x1p+103".toList) : M Single)
  let t891 ← ApiFloat.bitwise_eq (t888).value t890
  check t891
  let t892 ← ApiFloat.ieee_rem t21 t27
  check (decide (Status.OK = (t892).status))
  let t893 ← ApiFloat.category (t892).value
  check (decide (Category.normal = t893))
  let t894 ← (parse ("0x1p+103".toList) : M Single)
  let t895 ← ApiFloat.bitwise_eq (t892).value t894
  check t895
  let t896 ← ApiFloat.ieee_rem t21 t28
  check (decide (Status.OK = (t896).status))
  let t897 ← ApiFloat.category (t896).value
  check (decide (Category.zero = t897))
  let t898 ← (parse ("-0x0p+0".toList) : M Single)
  let t899 ← ApiFloat.bitwise_eq (t896).value t898
  check t899
  let t900 ← ApiFloat.ieee_rem t21 t29
  check (decide (Status.OK = (t900).status))
  let t901 ← ApiFloat.category (t900).value
  check (decide (Category.zero = t901))
  let t902 ← (parse ("-0x0p+0".toList) : M Single)
  let t903 ← ApiFloat.bitwise_eq (t900).value t902
  check t903
  let t904 ← ApiFloat.ieee_rem t21 t30
  check (decide (Status.OK = (t904).status))
  let t905 ← ApiFloat.category (t904).value
  check (decide (Category.zero = t905))
  let t906 ← (parse ("-0x0p+0".toList) : M Single)
  let t907 ← ApiFloat.bitwise_eq (t904).value t906
  check t907
  let t908 ← ApiFloat.ieee_rem t21 t31
  check (decide (Status.OK = (t908).status))
  let t909 ← ApiFloat.category (t908).value
  check (decide (Category.zero = t909))
  let t910 ← (parse ("-0x0p+0".toList) : M Single)
  let t911 ← ApiFloat.bitwise_eq (t908).value t910
  check t911
  let t912 ← ApiFloat.ieee_rem t22 t20
  check (decide (Status.OK = (t912).status))
  let t913 ← ApiFloat.category (t912).value
  check (decide (Category.normal = t913))
  let t914 ← (parse ("0x1.fffffep-126".toList) : M Single)
  let t915 ← ApiFloat.bitwise_eq (t912).value t914
  check t915

example : passes t_remainder_26 = true := by decide +kernel

/-- tests/ieee.rs:3777 `remainder`. -/
def t_remainder_27 : M Unit := do
  let t21 ← (parse ("-0x1.fffffep+126".toList) : M Single)
  let t22 ← (parse ("0x1.fffffep-126".toList) : M Single)
  let t23 ← (parse ("-0x1.fffffep-126".toList) : M Single)
  let t24 ← (parse ("0x1p-125".toList) : M Single)
  let t25 ← (parse ("-0x1p-125".toList) : M Single)
  let t26 ← (parse ("0x1p+127".toList) : M Single)
  let t27 ← (parse ("-0x1p+127".toList) : M Single)
  let t28 ← (parse ("1.5".toList) : M Single)
  let t29 ← (parse ("-1.5".toList) : M Single)
  let t916 ← ApiFloat.ieee_rem t22 t21
  check (decide (Status.OK = (t916).status))
  let t917 ← ApiFloat.category (t916).value
  check (decide (Category.normal = t917))
  let t918 ← (parse ("0x1.fffffep-126".toList) : M Single)
  let t919 ← ApiFloat.bitwise_eq (t916).value t918
  check t919
  let t920 ← ApiFloat.ieee_rem t22 t22
  check (decide (Status.OK = (t920).status))
  let t921 ← ApiFloat.category (t920).value
  check (decide (Category.zero = t921))
  let t922 ← (parse ("0x0p+0".toList) : M Single)
  let t923 ← ApiFloat.bitwise_eq (t920).value t922
  check t923
  let t924 ← ApiFloat.ieee_rem t22 t23
  check (decide (Status.OK = (t924).status))
  let t925 ← ApiFloat.category (t924).value
  check (decide (Category.zero = t925))
  let t926 ← (parse ("0x0p+0".toList) : M Single)
  let t927 ← ApiFloat.bitwise_eq (t924).value t926
  check t927
  let t928 ← ApiFloat.ieee_rem t22 t24
  check (decide (Status.OK = (t928).status))
  let t929 ← ApiFloat.category (t928).value
  check (decide (Category.normal = t929))
  let t930 ← (parse ("-0x0.000002p-126".toList) : M Single)
  let t931 ← ApiFloat.bitwise_eq (t928).value t930
  check t931
  let t932 ← ApiFloat.ieee_rem t22 t25
  check (decide (Status.OK = (t932).status))
  let t933 ← ApiFloat.category (t932).value
  check (decide (Category.normal = t933))
  let t934 ← (parse ("-0x0.000002p-126".toList) : M Single)
  let t935 ← ApiFloat.bitwise_eq (t932).value t934
  check t935
  let t936 ← ApiFloat.ieee_rem t22 t26
  check (decide (Status.OK = (t936).status))
  let t937 ← ApiFloat.category (t936).value
  check (decide (Category.normal = t937))
  let t938 ← (parse ("0x1.fffffep-126".toList) : M Single)
  let t939 ← ApiFloat.bitwise_eq (t936).value t938
  check t939
  let t940 ← ApiFloat.ieee_rem t22 t27
  check (decide (Status.OK = (t940).status))
  let t941 ← ApiFloat.category (t940).value
  check (decide (Category.normal = t941))
  let t942 ← (parse ("0x1.fffffep-126".toList) : M Single)
  let t943 ← ApiFloat.bitwise_eq (t940).value t942
  check t943
  let t944 ← ApiFloat.ieee_rem t22 t28
  check (decide (Status.OK = (t944).status))
  let t945 ← ApiFloat.category (t944).value
  check (decide (Category.normal = t945))
  let t946 ← (parse ("0x1.fffffep-126".toList) : M Single)
  let t947 ← ApiFloat.bitwise_eq (t944).value t946
  check t947
  let t948 ← ApiFloat.ieee_rem t22 t29
  check (decide (Status.OK = (t948).status))
  let t949 ← ApiFloat.category (t948).value
  check (decide (Category.normal = t949))

example : passes t_remainder_27 = true := by decide +kernel

/-- tests/ieee.rs:3777 `remainder`. -/
def t_remainder_28 : M Unit := do
  let t20 ← (parse ("0x1.fffffep+126".toList) : M Single)
  let t21 ← (parse ("-0x1.fffffep+126".toList) : M Single)
  let t22 ← (parse ("0x1.fffffep-126".toList) : M Single)
  let t23 ← (parse ("-0x1.fffffep-126".toList) : M Single)
  let t24 ← (parse ("0x1p-125".toList) : M Single)
  let t25 ← (parse ("-0x1p-125".toList) : M Single)
  let t26 ← (parse ("0x1p+127".toList) : M Single)
  let t29 ← (parse ("-1.5".toList) : M Single)
  let t30 ← (parse ("1".toList) : M Single)
  let t31 ← (parse ("-1".toList) : M Single)
  let t948 ← ApiFloat.ieee_rem t22 t29
  let t950 ← (parse ("0x1.fffffep-126".toList) : M Single)
  let t951 ← ApiFloat.bitwise_eq (t948).value t950
  check t951
  let t952 ← ApiFloat.ieee_rem t22 t30
  check (decide (Status.OK = (t952).status))
  let t953 ← ApiFloat.category (t952).value
  check (decide (Category.normal = t953))
  let t954 ← (parse ("0x1.fffffep-126".toList) : M Single)
  let t955 ← ApiFloat.bitwise_eq (t952).value t954
  check t955
  let t956 ← ApiFloat.ieee_rem t22 t31
  check (decide (Status.OK = (t956).status))
  let t957 ← ApiFloat.category (t956).value
  check (decide (Category.normal = t957))
  let t958 ← (parse ("0x1.fffffep-126".toList) : M Single)
  let t959 ← ApiFloat.bitwise_eq (t956).value t958
  check t959
  let t960 ← ApiFloat.ieee_rem t23 t20
  check (decide (Status.OK = (t960).status))
  let t961 ← ApiFloat.category (t960).value
  check (decide (Category.normal = t961))
  let t962 ← (parse ("-0x1.fffffep-126".toList) : M Single)
  let t963 ← ApiFloat.bitwise_eq (t960).value t962
  check t963
  let t964 ← ApiFloat.ieee_rem t23 t21
  check (decide (Status.OK = (t964).status))
  let t965 ← ApiFloat.category (t964).value
  check (decide (Category.normal = t965))
  let t966 ← (parse ("-0x1.fffffep-126".toList) : M Single)
  let t967 ← ApiFloat.bitwise_eq (t964).value t966
  check t967
  let t968 ← ApiFloat.ieee_rem t23 t22
  check (decide (Status.OK = (t968).status))
  let t969 ← ApiFloat.category (t968).value
  check (decide (Category.zero = t969))
  let t970 ← (parse ("-0x0p+0".toList) : M Single)
  let t971 ← ApiFloat.bitwise_eq (t968).value t970
  check t971
  let t972 ← ApiFloat.ieee_rem t23 t23
  check (decide (Status.OK = (t972).status))
  let t973 ← ApiFloat.category (t972).value
  check (decide (Category.zero = t973))
  let t974 ← (parse ("-0x0p+0".toList) : M Single)
  let t975 ← ApiFloat.bitwise_eq (t972).value t974
  check t975
  let t976 ← ApiFloat.ieee_rem t23 t24
  check (decide (Status.OK = (t976).status))
  let t977 ← ApiFloat.category (t976).value
  check (decide (Category.normal = t977))
  let t978 ← (parse ("0x0.000002p-126".toList) : M Single)
  let t979 ← ApiFloat.bitwise_eq (t976).value t978
  check t979
  let t980 ← ApiFloat.ieee_rem t23 t25
  check (decide (Status.OK = (t980).status))
  let t981 ← ApiFloat.category (t980).value
  check (decide (Category.normal = t981))
  let t982 ← (parse ("0x0.000002p-126".toList) : M Single)
  let t983 ← ApiFloat.bitwise_eq (t980).value t982
  check t983
  let t984 ← ApiFloat.ieee_rem t23 t26
  check (decide (Status.OK = (t984).status))

example : passes t_remainder_28 = true := by decide +kernel

/-- tests/ieee.rs:3777 `remainder`. -/
def t_remainder_29 : M Unit := do
  let t20 ← (parse ("0x1.fffffep+126".toList) : M Single)
  let t21 ← (parse ("-0x1.fffffep+126".toList) : M Single)
  let t22 ← (parse ("0x1.fffffep-126".toList) : M Single)
  let t23 ← (parse ("-0x1.fffffep-126".toList) : M Single)
  let t24 ← (parse ("0x1p-125".toList) : M Single)
  let t26 ← (parse ("0x1p+127".toList) : M Single)
  let t27 ← (parse ("-0x1p+127".toList) : M Single)
  let t28 ← (parse ("1.5".toList) : M Single)
  let t29 ← (parse ("-1.5".toList) : M Single)
  let t30 ← (parse ("1".toList) : M Single)
  let t31 ← (parse ("-1".toList) : M Single)
  let t984 ← ApiFloat.ieee_rem t23 t26
  let t985 ← ApiFloat.category (t984).value
  check (decide (Category.normal = t985))
  let t986 ← (parse ("-0x1.fffffep-126".toList) : M Single)
  let t987 ← ApiFloat.bitwise_eq (t984).value t986
  check t987
  let t988 ← ApiFloat.ieee_rem t23 t27
  check (decide (Status.OK = (t988).status))
  let t989 ← ApiFloat.category (t988).value
  check (decide (Category.normal = t989))
  let t990 ← (parse ("-0x1.fffffep-126".toList) : M Single)
  let t991 ← ApiFloat.bitwise_eq (t988).value t990
  check t991
  let t992 ← ApiFloat.ieee_rem t23 t28
  check (decide (Status.OK = (t992).status))
  let t993 ← ApiFloat.category (t992).value
  check (decide (Category.normal = t993))
  let t994 ← (parse ("-0x1.fffffep-126".toList) : M Single)
  let t995 ← ApiFloat.bitwise_eq (t992).value t994
  check t995
  let t996 ← ApiFloat.ieee_rem t23 t29
  check (decide (Status.OK = (t996).status))
  let t997 ← ApiFloat.category (t996).value
  check (decide (Category.normal = t997))
  let t998 ← (parse ("-0x1.fffffep-126".toList) : M Single)
  let t999 ← ApiFloat.bitwise_eq (t996).value t998
  check t999
  let t1000 ← ApiFloat.ieee_rem t23 t30
  check (decide (Status.OK = (t1000).status))
  let t1001 ← ApiFloat.category (t1000).value
  check (decide (Category.normal = t1001))
  let t1002 ← (parse ("-0x1.fffffep-126".toList) : M Single)
  let t1003 ← ApiFloat.bitwise_eq (t1000).value t1002
  check t1003
  let t1004 ← ApiFloat.ieee_rem t23 t31
  check (decide (Status.OK = (t1004).status))
  let t1005 ← ApiFloat.category (t1004).value
  check (decide (Category.normal = t1005))
  let t1006 ← (parse ("-0x1.fffffep-126".toList) : M Single)
  let t1007 ← ApiFloat.bitwise_eq (t1004).value t1006
  check t1007
  let t1008 ← ApiFloat.ieee_rem t24 t20
  check (decide (Status.OK = (t1008).status))
  let t1009 ← ApiFloat.category (t1008).value
  check (decide (Category.normal = t1009))
  let t1010 ← (parse ("0x1p-125".toList) : M Single)
  let t1011 ← ApiFloat.bitwise_eq (t1008).value t1010
  check t1011
  let t1012 ← ApiFloat.ieee_rem t24 t21
  check (decide (Status.OK = (t1012).status))
  let t1013 ← ApiFloat.category (t1012).value
  check (decide (Category.normal = t1013))
  let t1014 ← (parse ("0x1p-125".toList) : M Single)
  let t1015 ← ApiFloat.bitwise_eq (t1012).value t1014
  check t1015
  let t1016 ← ApiFloat.ieee_rem t24 t22
  check (decide (Status.OK = (t1016).status))
  let t1017 ← ApiFloat.category (t1016).value
  check (decide (Category.normal = t1017))
  let t1018 ← (parse ("0x0.000002p-126".toList) : M Single)
  let t1019 ← ApiFloat.bitwise_eq (t1016).value t1018
  check t1019

example : passes t_remainder_29 = true := by decide +kernel

/-- tests/ieee.rs:3777 `remainder`. -/
def t_remainder_30 : M Unit := do
  let t23 ← (parse ("-0x1.fffffep-126".toList) : M Single)
  let t24 ← (parse ("0x1p-125".toList) : M Single)
  let t25 ← (parse ("-0x1p-125".toList) : M Single)
  let t26 ← (parse ("0x1p+127".toList) : M Single)
  let t27 ← (parse ("-0x1p+127".toList) : M Single)
  let t28 ← (parse ("1.5".toList) : M Single)
  let t29 ← (parse ("-1.5".toList) : M Single)
  let t30 ← (parse ("1".toList) : M Single)
  let t31 ← (parse ("-1".toList) : M Single)
  let t1020 ← ApiFloat.ieee_rem t24 t23
  check (decide (Status.OK = (t1020).status))
  let t1021 ← ApiFloat.category (t1020).value
  check (decide (Category.normal = t1021))
  let t1022 ← (parse ("0x0.000002p-126".toList) : M Single)
  let t1023 ← ApiFloat.bitwise_eq (t1020).value t1022
  check t1023
  let t1024 ← ApiFloat.ieee_rem t24 t24
  check (decide (Status.OK = (t1024).status))
  let t1025 ← ApiFloat.category (t1024).value
  check (decide (Category.zero = t1025))
  let t1026 ← (parse ("0x0p+0".toList) : M Single)
  let t1027 ← ApiFloat.bitwise_eq (t1024).value t1026
  check t1027
  let t1028 ← ApiFloat.ieee_rem t24 t25
  check (decide (Status.OK = (t1028).status))
  let t1029 ← ApiFloat.category (t1028).value
  check (decide (Category.zero = t1029))
  let t1030 ← (parse ("0x0p+0".toList) : M Single)
  let t1031 ← ApiFloat.bitwise_eq (t1028).value t1030
  check t1031
  let t1032 ← ApiFloat.ieee_rem t24 t26
  check (decide (Status.OK = (t1032).status))
  let t1033 ← ApiFloat.category (t1032).value
  check (decide (Category.normal = t1033))
  let t1034 ← (parse ("0x1p-125".toList) : M Single)
  let t1035 ← ApiFloat.bitwise_eq (t1032).value t1034
  check t1035
  let t1036 ← ApiFloat.ieee_rem t24 t27
  check (decide (Status.OK = (t1036).status))
  let t1037 ← ApiFloat.category (t1036).value
  check (decide (Category.normal = t1037))
  let t1038 ← (parse ("0x1p-125".toList) : M Single)
  let t1039 ← ApiFloat.bitwise_eq (t1036).value t1038
  check t1039
  let t1040 ← ApiFloat.ieee_rem t24 t28
  check (decide (Status.OK = (t1040).status))
  let t1041 ← ApiFloat.category (t1040).value
  check (decide (Category.normal = t1041))
  let t1042 ← (parse ("0x1p-125".toList) : M Single)
  let t1043 ← ApiFloat.bitwise_eq (t1040).value t1042
  check t1043
  let t1044 ← ApiFloat.ieee_rem t24 t29
  check (decide (Status.OK = (t1044).status))
  let t1045 ← ApiFloat.category (t1044).value
  check (decide (Category.normal = t1045))
  let t1046 ← (parse ("0x1p-125".toList) : M Single)
  let t1047 ← ApiFloat.bitwise_eq (t1044).value t1046
  check t1047
  let t1048 ← ApiFloat.ieee_rem t24 t30
  check (decide (Status.OK = (t1048).status))
  let t1049 ← ApiFloat.category (t1048).value
  check (decide (Category.normal = t1049))
  let t1050 ← (parse ("0x1p-125".toList) : M Single)
  let t1051 ← ApiFloat.bitwise_eq (t1048).value t1050
  check t1051
  let t1052 ← ApiFloat.ieee_rem t24 t31
  check (decide (Status.OK = (t1052).status))
  let t1053 ← ApiFloat.category (t1052).value
  check (decide (Category.normal = t1053))

example : passes t_remainder_30 = true := by decide +kernel

/-- tests/ieee.rs:3777 `remainder`. -/
def t_remainder_31 : M Unit := do
  let t20 ← (parse ("0x1.fffffep+126".toList) : M Single)
  let t21 ← (parse ("-0x1.fffffep+126".toList) : M Single)
  let t22 ← (parse ("0x1.fffffep-126".toList) : M Single)
  let t23 ← (parse ("-0x1.fffffep-126".toList) : M Single)
  let t24 ← (parse ("0x1p-125".toList) : M Single)
  let t25 ← (parse ("-0x1p-125".toList) : M Single)
  let t26 ← (parse ("0x1p+127".toList) : M Single)
  let t27 ← (parse ("-0x1p+127".toList) : M Single)
  let t28 ← (parse ("1.5".toList) : M Single)
  let t31 ← (parse ("-1".toList) : M Single)
  let t1052 ← ApiFloat.ieee_rem t24 t31
  let t1054 ← (parse ("0x1p-125".toList) : M Single)
  let t1055 ← ApiFloat.bitwise_eq (t1052).value t1054
  check t1055
  let t1056 ← ApiFloat.ieee_rem t25 t20
  check (decide (Status.OK = (t1056).status))
  let t1057 ← ApiFloat.category (t1056).value
  check (decide (Category.normal = t1057))
  let t1058 ← (parse ("-0x1p-125".toList) : M Single)
  let t1059 ← ApiFloat.bitwise_eq (t1056).value t1058
  check t1059
  let t1060 ← ApiFloat.ieee_rem t25 t21
  check (decide (Status.OK = (t1060).status))
  let t1061 ← ApiFloat.category (t1060).value
  check (decide (Category.normal = t1061))
  let t1062 ← (parse ("-0x1p-125".toList) : M Single)
  let t1063 ← ApiFloat.bitwise_eq (t1060).value t1062
  check t1063
  let t1064 ← ApiFloat.ieee_rem t25 t22
  check (decide (Status.OK = (t1064).status))
  let t1065 ← ApiFloat.category (t1064).value
  check (decide (Category.normal = t1065))
  let t1066 ← (parse ("-0x0.000002p-126".toList) : M Single)
  let t1067 ← ApiFloat.bitwise_eq (t1064).value t1066
  check t1067
  let t1068 ← ApiFloat.ieee_rem t25 t23
  check (decide (Status.OK = (t1068).status))
  let t1069 ← ApiFloat.category (t1068).value
  check (decide (Category.normal = t1069))
  let t1070 ← (parse ("-0x0.000002p-126".toList) : M Single)
  let t1071 ← ApiFloat.bitwise_eq (t1068).value t1070
  check t1071
  let t1072 ← ApiFloat.ieee_rem t25 t24
  check (decide (Status.OK = (t1072).status))
  let t1073 ← ApiFloat.category (t1072).value
  check (decide (Category.zero = t1073))
  let t1074 ← (parse ("-0x0p+0".toList) : M Single)
  let t1075 ← ApiFloat.bitwise_eq (t1072).value t1074
  check t1075
  let t1076 ← ApiFloat.ieee_rem t25 t25
  check (decide (Status.OK = (t1076).status))
  let t1077 ← ApiFloat.category (t1076).value
  check (decide (Category.zero = t1077))
  let t1078 ← (parse ("-0x0p+0".toList) : M Single)
  let t1079 ← ApiFloat.bitwise_eq (t1076).value t1078
  check t1079
  let t1080 ← ApiFloat.ieee_rem t25 t26
  check (decide (Status.OK = (t1080).status))
  let t1081 ← ApiFloat.category (t1080).value
  check (decide (Category.normal = t1081))
  let t1082 ← (parse ("-0x1p-125".toList) : M Single)
  let t1083 ← ApiFloat.bitwise_eq (t1080).value t1082
  check t1083
  let t1084 ← ApiFloat.ieee_rem t25 t27
  check (decide (Status.OK = (t1084).status))
  let t1085 ← ApiFloat.category (t1084).value
  check (decide (Category.normal = t1085))
  let t1086 ← (parse ("-0x1p-125".toList) : M Single)
  let t1087 ← ApiFloat.bitwise_eq (t1084).value t1086
  check t1087
  let t1088 ← ApiFloat.ieee_rem t25 t28
  check (decide (Status.OK = (t1088).status))

example : passes t_remainder_31 = true := by decide +kernel

/-- tests/ieee.rs:3777 `remainder`. -/
def t_remainder_32 : M Unit := do
  let t20 ← (parse ("0x1.fffffep+126".toList) : M Single)
  let t21 ← (parse ("-0x1.fffffep+126".toList) : M Single)
  let t22 ← (parse ("0x1.fffffep-126".toList) : M Single)
  let t23 ← (parse ("-0x1.fffffep-126".toList) : M Single)
  let t24 ← (parse ("0x1p-125".toList) : M Single)
  let t25 ← (parse ("-0x1p-125".toList) : M Single)
  let t26 ← (parse ("0x1p+127".toList) : M Single)
  let t28 ← (parse ("1.5".toList) : M Single)
  let t29 ← (parse ("-1.5".toList) : M Single)
  let t30 ← (parse ("1".toList) : M Single)
  let t31 ← (parse ("-1".toList) : M Single)
  let t1088 ← ApiFloat.ieee_rem t25 t28
  let t1089 ← ApiFloat.category (t1088).value
  check (decide (Category.normal = t1089))
  let t1090 ← (parse ("-0x1p-125".toList) : M Single)
  let t1091 ← ApiFloat.bitwise_eq (t1088).value t1090
  check t1091
  let t1092 ← ApiFloat.ieee_rem t25 t29
  check (decide (Status.OK = (t1092).status))
  let t1093 ← ApiFloat.category (t1092).value
  check (decide (Category.normal = t1093))
  let t1094 ← (parse ("-0x1p-125".toList) : M Single)
  let t1095 ← ApiFloat.bitwise_eq (t1092).value t1094
  check t1095
  let t1096 ← ApiFloat.ieee_rem t25 t30
  check (decide (Status.OK = (t1096).status))
  let t1097 ← ApiFloat.category (t1096).value
  check (decide (Category.normal = t1097))
  let t1098 ← (parse ("-0x1p-125".toList) : M Single)
  let t1099 ← ApiFloat.bitwise_eq (t1096).value t1098
  check t1099
  let t1100 ← ApiFloat.ieee_rem t25 t31
  check (decide (Status.OK = (t1100).status))
  let t1101 ← ApiFloat.category (t1100).value
  check (decide (Category.normal = t1101))
  let t1102 ← (parse ("-0x1p-125".toList) : M Single)
  let t1103 ← ApiFloat.bitwise_eq (t1100).value t1102
  check t1103
  let t1104 ← ApiFloat.ieee_rem t26 t20
  check (decide (Status.OK = (t1104).status))
  let t1105 ← ApiFloat.category (t1104).value
  check (decide (Category.normal = t1105))
  let t1106 ← (parse ("0x1p+103".toList) : M Single)
  let t1107 ← ApiFloat.bitwise_eq (t1104).value t1106
  check t1107
  let t1108 ← ApiFloat.ieee_rem t26 t21
  check (decide (Status.OK = (t1108).status))
  let t1109 ← ApiFloat.category (t1108).value
  check (decide (Category.normal = t1109))
  let t1110 ← (parse ("0x1p+103".toList) : M Single)
  let t1111 ← ApiFloat.bitwise_eq (t1108).value t1110
  check t1111
  let t1112 ← ApiFloat.ieee_rem t26 t22
  check (decide (Status.OK = (t1112).status))
  let t1113 ← ApiFloat.category (t1112).value
  check (decide (Category.normal = t1113))
  let t1114 ← (parse ("0x0.002p-126".toList) : M Single)
  let t1115 ← ApiFloat.bitwise_eq (t1112).value t1114
  check t1115
  let t1116 ← ApiFloat.ieee_rem t26 t23
  check (decide (Status.OK = (t1116).status))
  let t1117 ← ApiFloat.category (t1116).value
  check (decide (Category.normal = t1117))
  let t1118 ← (parse ("0x0.002p-126".toList) : M Single)
  let t1119 ← ApiFloat.bitwise_eq (t1116).value t1118
  check t1119
  let t1120 ← ApiFloat.ieee_rem t26 t24
  check (decide (Status.OK = (t1120).status))
  let t1121 ← ApiFloat.category (t1120).value
  check (decide (Category.zero = t1121))
  let t1122 ← (parse ("0x0p+0".toList) : M Single)
  let t1123 ← ApiFloat.bitwise_eq (t1120).value t1122
  check t1123

example : passes t_remainder_32 = true := by decide +kernel

/-- tests/ieee.rs:3777 `remainder`. -/
def t_remainder_33 : M Unit := do
  let t20 ← (parse ("0x1.fffffep+126".toList) : M Single)
  let t21 ← (parse ("-0x1.fffffep+126".toList) : M Single)
  let t25 ← (parse ("-0x1p-125".toList) : M Single)
  let t26 ← (parse ("0x1p+127".toList) : M Single)
  let t27 ← (parse ("-0x1p+127".toList) : M Single)
  let t28 ← (parse ("1.5".toList) : M Single)
  let t29 ← (parse ("-1.5".toList) : M Single)
  let t30 ← (parse ("1".toList) : M Single)
  let t31 ← (parse ("-1".toList) : M Single)
  let t1124 ← ApiFloat.ieee_rem t26 t25
  check (decide (Status.OK = (t1124).status))
  let t1125 ← ApiFloat.category (t1124).value
  check (decide (Category.zero = t1125))
  let t1126 ← (parse ("0x0p+0".toList) : M Single)
  let t1127 ← ApiFloat.bitwise_eq (t1124).value t1126
  check t1127
  let t1128 ← ApiFloat.ieee_rem t26 t26
  check (decide (Status.OK = (t1128).status))
  let t1129 ← ApiFloat.category (t1128).value
  check (decide (Category.zero = t1129))
  let t1130 ← (parse ("0x0p+0".toList) : M Single)
  let t1131 ← ApiFloat.bitwise_eq (t1128).value t1130
  check t1131
  let t1132 ← ApiFloat.ieee_rem t26 t27
  check (decide (Status.OK = (t1132).status))
  let t1133 ← ApiFloat.category (t1132).value
  check (decide (Category.zero = t1133))
  let t1134 ← (parse ("0x0p+0".toList) : M Single)
  let t1135 ← ApiFloat.bitwise_eq (t1132).value t1134
  check t1135
  let t1136 ← ApiFloat.ieee_rem t26 t28
  check (decide (Status.OK = (t1136).status))
  let t1137 ← ApiFloat.category (t1136).value
  check (decide (Category.normal = t1137))
  let t1138 ← (parse ("0.5".toList) : M Single)
  let t1139 ← ApiFloat.bitwise_eq (t1136).value t1138
  check t1139
  let t1140 ← ApiFloat.ieee_rem t26 t29
  check (decide (Status.OK = (t1140).status))
  let t1141 ← ApiFloat.category (t1140).value
  check (decide (Category.normal = t1141))
  let t1142 ← (parse ("0.5".toList) : M Single)
  let t1143 ← ApiFloat.bitwise_eq (t1140).value t1142
  check t1143
  let t1144 ← ApiFloat.ieee_rem t26 t30
  check (decide (Status.OK = (t1144).status))
  let t1145 ← ApiFloat.category (t1144).value
  check (decide (Category.zero = t1145))
  let t1146 ← (parse ("0x0p+0".toList) : M Single)
  let t1147 ← ApiFloat.bitwise_eq (t1144).value t1146
  check t1147
  let t1148 ← ApiFloat.ieee_rem t26 t31
  check (decide (Status.OK = (t1148).status))
  let t1149 ← ApiFloat.category (t1148).value
  check (decide (Category.zero = t1149))
  let t1150 ← (parse ("0x0p+0".toList) : M Single)
  let t1151 ← ApiFloat.bitwise_eq (t1148).value t1150
  check t1151
  let t1152 ← ApiFloat.ieee_rem t27 t20
  check (decide (Status.OK = (t1152).status))
  let t1153 ← ApiFloat.category (t1152).value
  check (decide (Category.normal = t1153))
  let t1154 ← (parse ("-0x1p+103".toList) : M Single)
  let t1155 ← ApiFloat.bitwise_eq (t1152).value t1154
  check t1155
  let t1156 ← ApiFloat.ieee_rem t27 t21
  check (decide (Status.OK = (t1156).status))
  let t1157 ← ApiFloat.category (t1156).value
  check (decide (Category.normal = t1157))

example : passes t_remainder_33 = true := by decide +kernel

/-- tests/ieee.rs:3777 `remainder`. -/
def t_remainder_34 : M Unit := do
  let t21 ← (parse ("-0x1.fffffep+126".toList) : M Single)
  let t22 ← (parse ("0x1.fffffep-126".toList) : M Single)
  let t23 ← (parse ("-0x1.fffffep-126".toList) : M Single)
  let t24 ← (parse ("0x1p-125".toList) : M Single)
  let t25 ← (parse ("-0x1p-125".toList) : M Single)
  let t26 ← (parse ("0x1p+127".toList) : M Single)
  let t27 ← (parse ("-0x1p+127".toList) : M Single)
  let t28 ← (parse ("1.5".toList) : M Single)
  let t29 ← (parse ("-1.5".toList) : M Single)
  let t30 ← (parse ("1".toList) : M Single)
  let t1156 ← ApiFloat.ieee_rem t27 t21
  let t1158 ← (parse ("-0x1p+103".toList) : M Single)
  let t1159 ← ApiFloat.bitwise_eq (t1156).value t1158
  check t1159
  let t1160 ← ApiFloat.ieee_rem t27 t22
  check (decide (Status.OK = (t1160).status))
  let t1161 ← ApiFloat.category (t1160).value
  check (decide (Category.normal = t1161))
  let t1162 ← (parse ("-0x0.002p-126".toList) : M Single)
  let t1163 ← ApiFloat.bitwise_eq (t1160).value t1162
  check t1163
  let t1164 ← ApiFloat.ieee_rem t27 t23
  check (decide (Status.OK = (t1164).status))
  let t1165 ← ApiFloat.category (t1164).value
  check (decide (Category.normal = t1165))
  let t1166 ← (parse ("-0x0.002p-126".toList) : M Single)
  let t1167 ← ApiFloat.bitwise_eq (t1164).value t1166
  check t1167
  let t1168 ← ApiFloat.ieee_rem t27 t24
  check (decide (Status.OK = (t1168).status))
  let t1169 ← ApiFloat.category (t1168).value
  check (decide (Category.zero = t1169))
  let t1170 ← (parse ("-0x0p+0".toList) : M Single)
  let t1171 ← ApiFloat.bitwise_eq (t1168).value t1170
  check t1171
  let t1172 ← ApiFloat.ieee_rem t27 t25
  check (decide (Status.OK = (t1172).status))
  let t1173 ← ApiFloat.category (t1172).value
  check (decide (Category.zero = t1173))
  let t1174 ← (parse ("-0x0p+0".toList) : M Single)
  let t1175 ← ApiFloat.bitwise_eq (t1172).value t1174
  check t1175
  let t1176 ← ApiFloat.ieee_rem t27 t26
  check (decide (Status.OK = (t1176).status))
  let t1177 ← ApiFloat.category (t1176).value
  check (decide (Category.zero = t1177))
  let t1178 ← (parse ("-0x0p+0".toList) : M Single)
  let t1179 ← ApiFloat.bitwise_eq (t1176).value t1178
  check t1179
  let t1180 ← ApiFloat.ieee_rem t27 t27
  check (decide (Status.OK = (t1180).status))
  let t1181 ← ApiFloat.category (t1180).value
  check (decide (Category.zero = t1181))
  let t1182 ← (parse ("-0x0p+0".toList) : M Single)
  let t1183 ← ApiFloat.bitwise_eq (t1180).value t1182
  check t1183
  let t1184 ← ApiFloat.ieee_rem t27 t28
  check (decide (Status.OK = (t1184).status))
  let t1185 ← ApiFloat.category (t1184).value
  check (decide (Category.normal = t1185))
  let t1186 ← (parse ("-0.5".toList) : M Single)
  let t1187 ← ApiFloat.bitwise_eq (t1184).value t1186
  check t1187
  let t1188 ← ApiFloat.ieee_rem t27 t29
  check (decide (Status.OK = (t1188).status))
  let t1189 ← ApiFloat.category (t1188).value
  check (decide (Category.normal = t1189))
  let t1190 ← (parse ("-0.5".toList) : M Single)
  let t1191 ← ApiFloat.bitwise_eq (t1188).value t1190
  check t1191
  let t1192 ← ApiFloat.ieee_rem t27 t30
  check (decide (Status.OK = (t1192).status))

example : passes t_remainder_34 = true := by decide +kernel

/-- tests/ieee.rs:3777 `remainder`. -/
def t_remainder_35 : M Unit := do
  let t20 ← (parse ("0x1.fffffep+126".toList) : M Single)
  let t21 ← (parse ("-0x1.fffffep+126".toList) : M Single)
  let t22 ← (parse ("0x1.fffffep-126".toList) : M Single)
  let t23 ← (parse ("-0x1.fffffep-126".toList) : M Single)
  let t24 ← (parse ("0x1p-125".toList) : M Single)
  let t25 ← (parse ("-0x1p-125".toList) : M Single)
  let t26 ← (parse ("0x1p+127".toList) : M Single)
  let t27 ← (parse ("-0x1p+127".toList) : M Single)
  let t28 ← (parse ("1.5".toList) : M Single)
  let t30 ← (parse ("1".toList) : M Single)
  let t31 ← (parse ("-1".toList) : M Single)
  let t1192 ← ApiFloat.ieee_rem t27 t30
  let t1193 ← ApiFloat.category (t1192).value
  check (decide (Category.zero = t1193))
  let t1194 ← (parse ("-0x0p+0".toList) : M Single)
  let t1195 ← ApiFloat.bitwise_eq (t1192).value t1194
  check t1195
  let t1196 ← ApiFloat.ieee_rem t27 t31
  check (decide (Status.OK = (t1196).status))
  let t1197 ← ApiFloat.category (t1196).value
  check (decide (Category.zero = t1197))
  let t1198 ← (parse ("-0x0p+0".toList) : M Single)
  let t1199 ← ApiFloat.bitwise_eq (t1196).value t1198
  check t1199
  let t1200 ← ApiFloat.ieee_rem t28 t20
  check (decide (Status.OK = (t1200).status))
  let t1201 ← ApiFloat.category (t1200).value
  check (decide (Category.normal = t1201))
  let t1202 ← (parse ("1.5".toList) : M Single)
  let t1203 ← ApiFloat.bitwise_eq (t1200).value t1202
  check t1203
  let t1204 ← ApiFloat.ieee_rem t28 t21
  check (decide (Status.OK = (t1204).status))
  let t1205 ← ApiFloat.category (t1204).value
  check (decide (Category.normal = t1205))
  let t1206 ← (parse ("1.5".toList) : M Single)
  let t1207 ← ApiFloat.bitwise_eq (t1204).value t1206
  check t1207
  let t1208 ← ApiFloat.ieee_rem t28 t22
  check (decide (Status.OK = (t1208).status))
  let t1209 ← ApiFloat.category (t1208).value
  check (decide (Category.normal = t1209))
  let t1210 ← (parse ("0x0.00006p-126".toList) : M Single)
  let t1211 ← ApiFloat.bitwise_eq (t1208).value t1210
  check t1211
  let t1212 ← ApiFloat.ieee_rem t28 t23
  check (decide (Status.OK = (t1212).status))
  let t1213 ← ApiFloat.category (t1212).value
  check (decide (Category.normal = t1213))
  let t1214 ← (parse ("0x0.00006p-126".toList) : M Single)
  let t1215 ← ApiFloat.bitwise_eq (t1212).value t1214
  check t1215
  let t1216 ← ApiFloat.ieee_rem t28 t24
  check (decide (Status.OK = (t1216).status))
  let t1217 ← ApiFloat.category (t1216).value
  check (decide (Category.zero = t1217))
  let t1218 ← (parse ("0x0p+0".toList) : M Single)
  let t1219 ← ApiFloat.bitwise_eq (t1216).value t1218
  check t1219
  let t1220 ← ApiFloat.ieee_rem t28 t25
  check (decide (Status.OK = (t1220).status))
  let t1221 ← ApiFloat.category (t1220).value
  check (decide (Category.zero = t1221))
  let t1222 ← (parse ("0x0p+0".toList) : M Single)
  let t1223 ← ApiFloat.bitwise_eq (t1220).value t1222
  check t1223
  let t1224 ← ApiFloat.ieee_rem t28 t26
  check (decide (Status.OK = (t1224).status))
  let t1225 ← ApiFloat.category (t1224).value
  check (decide (Category.normal = t1225))
  let t1226 ← (parse ("1.5".toList) : M Single)
  let t1227 ← ApiFloat.bitwise_eq (t1224).value t1226
  check t1227

example : passes t_remainder_35 = true := by decide +kernel

/-- tests/ieee.rs:3777 `remainder`. -/
def t_remainder_36 : M Unit := do
  let t20 ← (parse ("0x1.fffffep+126".toList) : M Single)
  let t21 ← (parse ("-0x1.fffffep+126".toList) : M Single)
  let t22 ← (parse ("0x1.fffffep-126".toList) : M Single)
  let t23 ← (parse ("-0x1.fffffep-126".toList) : M Single)
  let t27 ← (parse ("-0x1p+127".toList) : M Single)
  let t28 ← (parse ("1.5".toList) : M Single)
  let t29 ← (parse ("-1.5".toList) : M Single)
  let t30 ← (parse ("1".toList) : M Single)
  let t31 ← (parse ("-1".toList) : M Single)
  let t1228 ← ApiFloat.ieee_rem t28 t27
  check (decide (Status.OK = (t1228).status))
  let t1229 ← ApiFloat.category (t1228).value
  check (decide (Category.normal = t1229))
  let t1230 ← (parse ("1.5".toList) : M Single)
  let t1231 ← ApiFloat.bitwise_eq (t1228).value t1230
  check t1231
  let t1232 ← ApiFloat.ieee_rem t28 t28
  check (decide (Status.OK = (t1232).status))
  let t1233 ← ApiFloat.category (t1232).value
  check (decide (Category.zero = t1233))
  let t1234 ← (parse ("0x0p+0".toList) : M Single)
  let t1235 ← ApiFloat.bitwise_eq (t1232).value t1234
  check t1235
  let t1236 ← ApiFloat.ieee_rem t28 t29
  check (decide (Status.OK = (t1236).status))
  let t1237 ← ApiFloat.category (t1236).value
  check (decide (Category.zero = t1237))
  let t1238 ← (parse ("0x0p+0".toList) : M Single)
  let t1239 ← ApiFloat.bitwise_eq (t1236).value t1238
  check t1239
  let t1240 ← ApiFloat.ieee_rem t28 t30
  check (decide (Status.OK = (t1240).status))
  let t1241 ← ApiFloat.category (t1240).value
  check (decide (Category.normal = t1241))
  let t1242 ← (parse ("-0.5".toList) : M Single)
  let t1243 ← ApiFloat.bitwise_eq (t1240).value t1242
  check t1243
  let t1244 ← ApiFloat.ieee_rem t28 t31
  check (decide (Status.OK = (t1244).status))
  let t1245 ← ApiFloat.category (t1244).value
  check (decide (Category.normal = t1245))
  let t1246 ← (parse ("-0.5".toList) : M Single)
  let t1247 ← ApiFloat.bitwise_eq (t1244).value t1246
  check t1247
  let t1248 ← ApiFloat.ieee_rem t29 t20
  check (decide (Status.OK = (t1248).status))
  let t1249 ← ApiFloat.category (t1248).value
  check (decide (Category.normal = t1249))
  let t1250 ← (parse ("-1.5".toList) : M Single)
  let t1251 ← ApiFloat.bitwise_eq (t1248).value t1250
  check t1251
  let t1252 ← ApiFloat.ieee_rem t29 t21
  check (decide (Status.OK = (t1252).status))
  let t1253 ← ApiFloat.category (t1252).value
  check (decide (Category.normal = t1253))
  let t1254 ← (parse ("-1.5".toList) : M Single)
  let t1255 ← ApiFloat.bitwise_eq (t1252).value t1254
  check t1255
  let t1256 ← ApiFloat.ieee_rem t29 t22
  check (decide (Status.OK = (t1256).status))
  let t1257 ← ApiFloat.category (t1256).value
  check (decide (Category.normal = t1257))
  let t1258 ← (parse ("-0x0.00006p-126".toList) : M Single)
  let t1259 ← ApiFloat.bitwise_eq (t1256).value t1258
  check t1259
  let t1260 ← ApiFloat.ieee_rem t29 t23
  check (decide (Status.OK = (t1260).status))
  let t1261 ← ApiFloat.category (t1260).value
  check (decide (Category.normal = t1261))

example : passes t_remainder_36 = true := by decide +kernel

/-- tests/ieee.rs:3777 `remainder`. -/
def t_remainder_37 : M Unit := do
  let t20 ← (parse ("0x1.fffffep+126".toList) : M Single)
  let t23 ← (parse ("-0x1.fffffep-126".toList) : M Single)
  let t24 ← (parse ("0x1p-125".toList) : M Single)
  let t25 ← (parse ("-0x1p-125".toList) : M Single)
  let t26 ← (parse ("0x1p+127".toList) : M Single)
  let t27 ← (parse ("-0x1p+127".toList) : M Single)
  let t28 ← (parse ("1.5".toList) : M Single)
  let t29 ← (parse ("-1.5".toList) : M Single)
  let t30 ← (parse ("1".toList) : M Single)
  let t31 ← (parse ("-1".toList) : M Single)
  let t1260 ← ApiFloat.ieee_rem t29 t23
  let t1262 ← (parse ("-0x0.00006p-126".toList) : M Single)
  let t1263 ← ApiFloat.bitwise_eq (t1260).value t1262
  check t1263
  let t1264 ← ApiFloat.ieee_rem t29 t24
  check (decide (Status.OK = (t1264).status))
  let t1265 ← ApiFloat.category (t1264).value
  check (decide (Category.zero = t1265))
  let t1266 ← (parse ("-0x0p+0".toList) : M Single)
  let t1267 ← ApiFloat.bitwise_eq (t1264).value t1266
  check t1267
  let t1268 ← ApiFloat.ieee_rem t29 t25
  check (decide (Status.OK = (t1268).status))
  let t1269 ← ApiFloat.category (t1268).value
  check (decide (Category.zero = t1269))
  let t1270 ← (parse ("-0x0p+0".toList) : M Single)
  let t1271 ← ApiFloat.bitwise_eq (t1268).value t1270
  check t1271
  let t1272 ← ApiFloat.ieee_rem t29 t26
  check (decide (Status.OK = (t1272).status))
  let t1273 ← ApiFloat.category (t1272).value
  check (decide (Category.normal = t1273))
  let t1274 ← (parse ("-1.5".toList) : M Single)
  let t1275 ← ApiFloat.bitwise_eq (t1272).value t1274
  check t1275
  let t1276 ← ApiFloat.ieee_rem t29 t27
  check (decide (Status.OK = (t1276).status))
  let t1277 ← ApiFloat.category (t1276).value
  check (decide (Category.normal = t1277))
  let t1278 ← (parse ("-1.5".toList) : M Single)
  let t1279 ← ApiFloat.bitwise_eq (t1276).value t1278
  check t1279
  let t1280 ← ApiFloat.ieee_rem t29 t28
  check (decide (Status.OK = (t1280).status))
  let t1281 ← ApiFloat.category (t1280).value
  check (decide (Category.zero = t1281))
  let t1282 ← (parse ("-0x0p+0".toList) : M Single)
  let t1283 ← ApiFloat.bitwise_eq (t1280).value t1282
  check t1283
  let t1284 ← ApiFloat.ieee_rem t29 t29
  check (decide (Status.OK = (t1284).status))
  let t1285 ← ApiFloat.category (t1284).value
  check (decide (Category.zero = t1285))
  let t1286 ← (parse ("-0x0p+0".toList) : M Single)
  let t1287 ← ApiFloat.bitwise_eq (t1284).value t1286
  check t1287
  let t1288 ← ApiFloat.ieee_rem t29 t30
  check (decide (Status.OK = (t1288).status))
  let t1289 ← ApiFloat.category (t1288).value
  check (decide (Category.normal = t1289))
  let t1290 ← (parse ("0.5".toList) : M Single)
  let t1291 ← ApiFloat.bitwise_eq (t1288).value t1290
  check t1291
  let t1292 ← ApiFloat.ieee_rem t29 t31
  check (decide (Status.OK = (t1292).status))
  let t1293 ← ApiFloat.category (t1292).value
  check (decide (Category.normal = t1293))
  let t1294 ← (parse ("0.5".toList) : M Single)
  let t1295 ← ApiFloat.bitwise_eq (t1292).value t1294
  check t1295
  let t1296 ← ApiFloat.ieee_rem t30 t20
  check (decide (Status.OK = (t1296).status))

example : passes t_remainder_37 = true := by decide +kernel

/-- tests/ieee.rs:3777 `remainder`. -/
def t_remainder_38 : M Unit := do
  let t20 ← (parse ("0x1.fffffep+126".toList) : M Single)
  let t21 ← (parse ("-0x1.fffffep+126".toList) : M Single)
  let t22 ← (parse ("0x1.fffffep-126".toList) : M Single)
  let t23 ← (parse ("-0x1.fffffep-126".toList) : M Single)
  let t24 ← (parse ("0x1p-125".toList) : M Single)
  let t25 ← (parse ("-0x1p-125".toList) : M Single)
  let t26 ← (parse ("0x1p+127".toList) : M Single)
  let t27 ← (parse ("-0x1p+127".toList) : M Single)
  let t28 ← (parse ("1.5".toList) : M Single)
  let t30 ← (parse ("1".toList) : M Single)
  let t1296 ← ApiFloat.ieee_rem t30 t20
  let t1297 ← ApiFloat.category (t1296).value
  check (decide (Category.normal = t1297))
  let t1298 ← (parse ("0x1p+0".toList) : M Single)
  let t1299 ← ApiFloat.bitwise_eq (t1296).value t1298
  check t1299
  let t1300 ← ApiFloat.ieee_rem t30 t21
  check (decide (Status.OK = (t1300).status))
  let t1301 ← ApiFloat.category (t1300).value
  check (decide (Category.normal = t1301))
  let t1302 ← (parse ("0x1p+0".toList) : M Single)
  let t1303 ← ApiFloat.bitwise_eq (t1300).value t1302
  check t1303
  let t1304 ← ApiFloat.ieee_rem t30 t22
  check (decide (Status.OK = (t1304).status))
  let t1305 ← ApiFloat.category (t1304).value
  check (decide (Category.normal = t1305))
  let t1306 ← (parse ("0x0.00004p-126".toList) : M Single)
  let t1307 ← ApiFloat.bitwise_eq (t1304).value t1306
  check t1307
  let t1308 ← ApiFloat.ieee_rem t30 t23
  check (decide (Status.OK = (t1308).status))
  let t1309 ← ApiFloat.category (t1308).value
  check (decide (Category.normal = t1309))
  let t1310 ← (parse ("0x0.00004p-126".toList) : M Single)
  let t1311 ← ApiFloat.bitwise_eq (t1308).value t1310
  check t1311
  let t1312 ← ApiFloat.ieee_rem t30 t24
  check (decide (Status.OK = (t1312).status))
  let t1313 ← ApiFloat.category (t1312).value
  check (decide (Category.zero = t1313))
  let t1314 ← (parse ("0x0p+0".toList) : M Single)
  let t1315 ← ApiFloat.bitwise_eq (t1312).value t1314
  check t1315
  let t1316 ← ApiFloat.ieee_rem t30 t25
  check (decide (Status.OK = (t1316).status))
  let t1317 ← ApiFloat.category (t1316).value
  check (decide (Category.zero = t1317))
  let t1318 ← (parse ("0x0p+0".toList) : M Single)
  let t1319 ← ApiFloat.bitwise_eq (t1316).value t1318
  check t1319
  let t1320 ← ApiFloat.ieee_rem t30 t26
  check (decide (Status.OK = (t1320).status))
  let t1321 ← ApiFloat.category (t1320).value
  check (decide (Category.normal = t1321))
  let t1322 ← (parse ("0x1p+0".toList) : M Single)
  let t1323 ← ApiFloat.bitwise_eq (t1320).value t1322
  check t1323
  let t1324 ← ApiFloat.ieee_rem t30 t27
  check (decide (Status.OK = (t1324).status))
  let t1325 ← ApiFloat.category (t1324).value
  check (decide (Category.normal = t1325))
  let t1326 ← (parse ("0x1p+0".toList) : M Single)
  let t1327 ← ApiFloat.bitwise_eq (t1324).value t1326
  check t1327
  let t1328 ← ApiFloat.ieee_rem t30 t28
  check (decide (Status.OK = (t1328).status))
  let t1329 ← ApiFloat.category (t1328).value
  check (decide (Category.normal = t1329))
  let t1330 ← (parse ("-0.5".toList) : M Single)
  let t1331 ← ApiFloat.bitwise_eq (t1328).value t1330
  check t1331

example : passes t_remainder_38 = true := by decide +kernel

/-- tests/ieee.rs:3777 `remainder`. -/
def t_remainder_39 : M Unit := do
  let t20 ← (parse ("0x1.fffffep+126".toList) : M Single)
  let t21 ← (parse ("-0x1.fffffep+126".toList) : M Single)
  let t22 ← (parse ("0x1.fffffep-126".toList) : M Single)
  let t23 ← (parse ("-0x1.fffffep-126".toList) : M Single)
  let t24 ← (parse ("0x1p-125".toList) : M Single)
  let t25 ← (parse ("-0x1p-125".toList) : M Single)
  let t29 ← (parse ("-1.5".toList) : M Single)
  let t30 ← (parse ("1".toList) : M Single)
  let t31 ← (parse ("-1".toList) : M Single)
  let t1332 ← ApiFloat.ieee_rem t30 t29
  check (decide (Status.OK = (t1332).status))
  let t1333 ← ApiFloat.category (t1332).value
  check (decide (Category.normal = t1333))
  let t1334 ← (parse ("-0.5".toList) : M Single)
  let t1335 ← ApiFloat.bitwise_eq (t1332).value t1334
  check t1335
  let t1336 ← ApiFloat.ieee_rem t30 t30
  check (decide (Status.OK = (t1336).status))
  let t1337 ← ApiFloat.category (t1336).value
  check (decide (Category.zero = t1337))
  let t1338 ← (parse ("0x0p+0".toList) : M Single)
  let t1339 ← ApiFloat.bitwise_eq (t1336).value t1338
  check t1339
  let t1340 ← ApiFloat.ieee_rem t30 t31
  check (decide (Status.OK = (t1340).status))
  let t1341 ← ApiFloat.category (t1340).value
  check (decide (Category.zero = t1341))
  let t1342 ← (parse ("0x0p+0".toList) : M Single)
  let t1343 ← ApiFloat.bitwise_eq (t1340).value t1342
  check t1343
  let t1344 ← ApiFloat.ieee_rem t31 t20
  check (decide (Status.OK = (t1344).status))
  let t1345 ← ApiFloat.category (t1344).value
  check (decide (Category.normal = t1345))
  let t1346 ← (parse ("-0x1p+0".toList) : M Single)
  let t1347 ← ApiFloat.bitwise_eq (t1344).value t1346
  check t1347
  let t1348 ← ApiFloat.ieee_rem t31 t21
  check (decide (Status.OK = (t1348).status))
  let t1349 ← ApiFloat.category (t1348).value
  check (decide (Category.normal = t1349))
  let t1350 ← (parse ("-0x1p+0".toList) : M Single)
  let t1351 ← ApiFloat.bitwise_eq (t1348).value t1350
  check t1351
  let t1352 ← ApiFloat.ieee_rem t31 t22
  check (decide (Status.OK = (t1352).status))
  let t1353 ← ApiFloat.category (t1352).value
  check (decide (Category.normal = t1353))
  let t1354 ← (parse ("-0x0.00004p-126".toList) : M Single)
  let t1355 ← ApiFloat.bitwise_eq (t1352).value t1354
  check t1355
  let t1356 ← ApiFloat.ieee_rem t31 t23
  check (decide (Status.OK = (t1356).status))
  let t1357 ← ApiFloat.category (t1356).value
  check (decide (Category.normal = t1357))
  let t1358 ← (parse ("-0x0.00004p-126".toList) : M Single)
  let t1359 ← ApiFloat.bitwise_eq (t1356).value t1358
  check t1359
  let t1360 ← ApiFloat.ieee_rem t31 t24
  check (decide (Status.OK = (t1360).status))
  let t1361 ← ApiFloat.category (t1360).value
  check (decide (Category.zero = t1361))
  let t1362 ← (parse ("-0x0p+0".toList) : M Single)
  let t1363 ← ApiFloat.bitwise_eq (t1360).value t1362
  check t1363
  let t1364 ← ApiFloat.ieee_rem t31 t25
  check (decide (Status.OK = (t1364).status))
  let t1365 ← ApiFloat.category (t1364).value
  check (decide (Category.zero = t1365))

example : passes t_remainder_39 = true := by decide +kernel

/-- tests/ieee.rs:3777 `remainder`. -/
def t_remainder_40 : M Unit := do
  let t25 ← (parse ("-0x1p-125".toList) : M Single)
  let t26 ← (parse ("0x1p+127".toList) : M Single)
  let t27 ← (parse ("-0x1p+127".toList) : M Single)
  let t28 ← (parse ("1.5".toList) : M Single)
  let t29 ← (parse ("-1.5".toList) : M Single)
  let t30 ← (parse ("1".toList) : M Single)
  let t31 ← (parse ("-1".toList) : M Single)
  let t1364 ← ApiFloat.ieee_rem t31 t25
  let t1366 ← (parse ("-0x0p+0".toList) : M Single)
  let t1367 ← ApiFloat.bitwise_eq (t1364).value t1366
  check t1367
  let t1368 ← ApiFloat.ieee_rem t31 t26
  check (decide (Status.OK = (t1368).status))
  let t1369 ← ApiFloat.category (t1368).value
  check (decide (Category.normal = t1369))
  let t1370 ← (parse ("-0x1p+0".toList) : M Single)
  let t1371 ← ApiFloat.bitwise_eq (t1368).value t1370
  check t1371
  let t1372 ← ApiFloat.ieee_rem t31 t27
  check (decide (Status.OK = (t1372).status))
  let t1373 ← ApiFloat.category (t1372).value
  check (decide (Category.normal = t1373))
  let t1374 ← (parse ("-0x1p+0".toList) : M Single)
  let t1375 ← ApiFloat.bitwise_eq (t1372).value t1374
  check t1375
  let t1376 ← ApiFloat.ieee_rem t31 t28
  check (decide (Status.OK = (t1376).status))
  let t1377 ← ApiFloat.category (t1376).value
  check (decide (Category.normal = t1377))
  let t1378 ← (parse ("0.5".toList) : M Single)
  let t1379 ← ApiFloat.bitwise_eq (t1376).value t1378
  check t1379
  let t1380 ← ApiFloat.ieee_rem t31 t29
  check (decide (Status.OK = (t1380).status))
  let t1381 ← ApiFloat.category (t1380).value
  check (decide (Category.normal = t1381))
  let t1382 ← (parse ("0.5".toList) : M Single)
  let t1383 ← ApiFloat.bitwise_eq (t1380).value t1382
  check t1383
  let t1384 ← ApiFloat.ieee_rem t31 t30
  check (decide (Status.OK = (t1384).status))
  let t1385 ← ApiFloat.category (t1384).value
  check (decide (Category.zero = t1385))
  let t1386 ← (parse ("-0x0p+0".toList) : M Single)
  let t1387 ← ApiFloat.bitwise_eq (t1384).value t1386
  check t1387
  let t1388 ← ApiFloat.ieee_rem t31 t31
  check (decide (Status.OK = (t1388).status))
  let t1389 ← ApiFloat.category (t1388).value
  check (decide (Category.zero = t1389))
  let t1390 ← (parse ("-0x0p+0".toList) : M Single)
  let t1391 ← ApiFloat.bitwise_eq (t1388).value t1390
  check t1391
  let t1392 ← (parse ("0x1.3333333333333p-2".toList) : M Double)
  let t1393 ← (parse ("0x1.47ae147ae147bp-7".toList) : M Double)
  let t1394 ← (parse ("-0x1.4p-56".toList) : M Double)
  let t1395 ← ApiFloat.ieee_rem t1392 t1393
  let t1396 ← ApiFloat.bitwise_eq (t1395).value t1394
  check t1396
  check (decide ((t1395).status = Status.OK))
  let t1397 ← (parse ("0x1p64".toList) : M Double)
  let t1398 ← (parse ("1.5".toList) : M Double)
  let t1399 ← (parse ("-0.5".toList) : M Double)
  let t1400 ← ApiFloat.ieee_rem t1397 t1398
  let t1401 ← ApiFloat.bitwise_eq (t1400).value t1399
  check t1401
  check (decide ((t1400).status = Status.OK))
  let t1402 ← (parse ("0x1p1000".toList) : M Double)
  let t1403 ← (parse ("0x1p-1000".toList) : M Double)
  let t1404 ← (parse ("0.0".toList) : M Double)
  let t1405 ← ApiFloat.ieee_rem t1402 t1403
  let t1406 ← ApiFloat.bitwise_eq (t1405).value t1404
  check t1406

example : passes t_remainder_40 = true := by decide +kernel

/-- tests/ieee.rs:3777 `remainder`. -/
def t_remainder_41 : M Unit := do
  let t1402 ← (parse ("0x1p1000".toList) : M Double)
  let t1403 ← (parse ("0x1p-1000".toList) : M Double)
  let t1405 ← ApiFloat.ieee_rem t1402 t1403
  check (decide ((t1405).status = Status.OK))
  let t1407 ← (ApiFloat.INFINITY : M Double)
  let t1408 ← (parse ("1.0".toList) : M Double)
  let t1409 ← ApiFloat.ieee_rem t1407 t1408
  let t1410 ← is_nan (t1409).value
  check t1410
  check (decide ((t1409).status = ({ invalidOp := true } : Status)))
  let t1411 ← (parse ("-4.0".toList) : M Double)
  let t1412 ← (parse ("-2.0".toList) : M Double)
  let t1413 ← (parse ("-0.0".toList) : M Double)
  let t1414 ← ApiFloat.ieee_rem t1411 t1412
  let t1415 ← ApiFloat.bitwise_eq (t1414).value t1413
  check t1415
  check (decide ((t1414).status = Status.OK))
  let t1416 ← (parse ("-4.0".toList) : M Double)
  let t1417 ← (parse ("2.0".toList) : M Double)
  let t1418 ← (parse ("-0.0".toList) : M Double)
  let t1419 ← ApiFloat.ieee_rem t1416 t1417
  let t1420 ← ApiFloat.bitwise_eq (t1419).value t1418
  check t1420
  check (decide ((t1419).status = Status.OK))

example : passes t_remainder_41 = true := by decide +kernel

end Apf.Conformance.Ieee5
