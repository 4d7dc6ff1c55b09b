import Verif.Conformance.Support
/-! Generated by tools/tests_to_lean.py from tests/ieee.rs. -/

namespace Apf.Conformance.Ieee2
set_option maxRecDepth 100000
set_option linter.all false

/-- tests/ieee.rs:1143 `from_to_string_specials`. -/
def t_from_to_string_specials : M Unit := do
  let t1 ← (parse ("+Inf".toList) : M Double)
  let t2 ← ApiFloat.fmt t1 none none false
  check (decide (("+Inf".toList) = t2))
  let t3 ← (parse ("INFINITY".toList) : M Double)
  let t4 ← ApiFloat.fmt t3 none none false
  check (decide (("+Inf".toList) = t4))
  let t5 ← (parse ("inf".toList) : M Double)
  let t6 ← ApiFloat.fmt t5 none none false
  check (decide (("+Inf".toList) = t6))
  let t7 ← (parse ("-Inf".toList) : M Double)
  let t8 ← ApiFloat.fmt t7 none none false
  check (decide (("-Inf".toList) = t8))
  let t9 ← (parse ("-INFINITY".toList) : M Double)
  let t10 ← ApiFloat.fmt t9 none none false
  check (decide (("-Inf".toList) = t10))
  let t11 ← (parse ("-inf".toList) : M Double)
  let t12 ← ApiFloat.fmt t11 none none false
  check (decide (("-Inf".toList) = t12))
  let t13 ← (parse ("NaN".toList) : M Double)
  let t14 ← ApiFloat.fmt t13 none none false
  check (decide (("NaN".toList) = t14))
  let t15 ← (parse ("nan".toList) : M Double)
  let t16 ← ApiFloat.fmt t15 none none false
  check (decide (("NaN".toList) = t16))
  let t17 ← (parse ("-NaN".toList) : M Double)
  let t18 ← ApiFloat.fmt t17 none none false
  check (decide (("NaN".toList) = t18))
  let t19 ← (parse ("-nan".toList) : M Double)
  let t20 ← ApiFloat.fmt t19 none none false
  check (decide (("NaN".toList) = t20))

example : passes t_from_to_string_specials = true := by decide +kernel

/-- tests/ieee.rs:1157 `from_hexadecimal_string`. -/
def t_from_hexadecimal_string_1 : M Unit := do
  let t1 ← (parse ("0x1p0".toList) : M Double)
  let t2 ← to_f64 t1
  let t3 ← (f64_lit 0x3ff0000000000000 : M Double)
  let t4 ← IeeeFloat.eq t3 t2
  check t4
  let t5 ← (parse ("+0x1p0".toList) : M Double)
  let t6 ← to_f64 t5
  let t7 ← IeeeFloat.eq t3 t6
  check t7
  let t8 ← (parse ("-0x1p0".toList) : M Double)
  let t9 ← to_f64 t8
  let t10 ← (f64_lit 0xbff0000000000000 : M Double)
  let t11 ← IeeeFloat.eq t10 t9
  check t11
  let t12 ← (parse ("0x1p+0".toList) : M Double)
  let t13 ← to_f64 t12
  let t14 ← IeeeFloat.eq t3 t13
  check t14
  let t15 ← (parse ("+0x1p+0".toList) : M Double)
  let t16 ← to_f64 t15
  let t17 ← IeeeFloat.eq t3 t16
  check t17
  let t18 ← (parse ("-0x1p+0".toList) : M Double)
  let t19 ← to_f64 t18
  let t20 ← IeeeFloat.eq t10 t19
  check t20
  let t21 ← (parse ("0x1p-0".toList) : M Double)
  let t22 ← to_f64 t21
  let t23 ← IeeeFloat.eq t3 t22
  check t23
  let t24 ← (parse ("+0x1p-0".toList) : M Double)
  let t25 ← to_f64 t24
  let t26 ← IeeeFloat.eq t3 t25
  check t26
  let t27 ← (parse ("-0x1p-0".toList) : M Double)
  let t28 ← to_f64 t27
  let t29 ← IeeeFloat.eq t10 t28
  check t29
  let t30 ← (parse ("0x1p1".toList) : M Double)
  let t31 ← to_f64 t30
  let t32 ← (f64_lit 0x4000000000000000 : M Double)
  let t33 ← IeeeFloat.eq t32 t31
  check t33
  let t34 ← (parse ("+0x1p1".toList) : M Double)
  let t35 ← to_f64 t34
  let t36 ← IeeeFloat.eq t32 t35
  check t36
  let t37 ← (parse ("-0x1p1".toList) : M Double)
  let t38 ← to_f64 t37
  let t39 ← (f64_lit 0xc000000000000000 : M Double)
  let t40 ← IeeeFloat.eq t39 t38
  check t40
  let t41 ← (parse ("0x1p+1".toList) : M Double)
  let t42 ← to_f64 t41
  let t43 ← IeeeFloat.eq t32 t42
  check t43
  let t44 ← (parse ("+0x1p+1".toList) : M Double)
  let t45 ← to_f64 t44
  let t46 ← IeeeFloat.eq t32 t45
  check t46

example : passes t_from_hexadecimal_string_1 = true := by decide +kernel

/-- tests/ieee.rs:1157 `from_hexadecimal_string`. -/
def t_from_hexadecimal_string_2 : M Unit := do
  let t39 ← (f64_lit 0xc000000000000000 : M Double)
  let t47 ← (parse ("-0x1p+1".toList) : M Double)
  let t48 ← to_f64 t47
  let t49 ← IeeeFloat.eq t39 t48
  check t49
  let t50 ← (parse ("0x1p-1".toList) : M Double)
  let t51 ← to_f64 t50
  let t52 ← (f64_lit 0x3fe0000000000000 : M Double)
  let t53 ← IeeeFloat.eq t52 t51
  check t53
  let t54 ← (parse ("+0x1p-1".toList) : M Double)
  let t55 ← to_f64 t54
  let t56 ← IeeeFloat.eq t52 t55
  check t56
  let t57 ← (parse ("-0x1p-1".toList) : M Double)
  let t58 ← to_f64 t57
  let t59 ← (f64_lit 0xbfe0000000000000 : M Double)
  let t60 ← IeeeFloat.eq t59 t58
  check t60
  let t61 ← (parse ("0x1.8p1".toList) : M Double)
  let t62 ← to_f64 t61
  let t63 ← (f64_lit 0x4008000000000000 : M Double)
  let t64 ← IeeeFloat.eq t63 t62
  check t64
  let t65 ← (parse ("+0x1.8p1".toList) : M Double)
  let t66 ← to_f64 t65
  let t67 ← IeeeFloat.eq t63 t66
  check t67
  let t68 ← (parse ("-0x1.8p1".toList) : M Double)
  let t69 ← to_f64 t68
  let t70 ← (f64_lit 0xc008000000000000 : M Double)
  let t71 ← IeeeFloat.eq t70 t69
  check t71
  let t72 ← (parse ("0x1.8p+1".toList) : M Double)
  let t73 ← to_f64 t72
  let t74 ← IeeeFloat.eq t63 t73
  check t74
  let t75 ← (parse ("+0x1.8p+1".toList) : M Double)
  let t76 ← to_f64 t75
  let t77 ← IeeeFloat.eq t63 t76
  check t77
  let t78 ← (parse ("-0x1.8p+1".toList) : M Double)
  let t79 ← to_f64 t78
  let t80 ← IeeeFloat.eq t70 t79
  check t80
  let t81 ← (parse ("0x1.8p-1".toList) : M Double)
  let t82 ← to_f64 t81
  let t83 ← (f64_lit 0x3fe8000000000000 : M Double)
  let t84 ← IeeeFloat.eq t83 t82
  check t84
  let t85 ← (parse ("+0x1.8p-1".toList) : M Double)
  let t86 ← to_f64 t85
  let t87 ← IeeeFloat.eq t83 t86
  check t87
  let t88 ← (parse ("-0x1.8p-1".toList) : M Double)
  let t89 ← to_f64 t88
  let t90 ← (f64_lit 0xbfe8000000000000 : M Double)
  let t91 ← IeeeFloat.eq t90 t89
  check t91
  let t92 ← (parse ("0x1000.000p1".toList) : M Double)
  let t93 ← to_f64 t92
  let t94 ← (f64_lit 0x40c0000000000000 : M Double)
  let t95 ← IeeeFloat.eq t94 t93
  check t95

example : passes t_from_hexadecimal_string_2 = true := by decide +kernel

/-- tests/ieee.rs:1157 `from_hexadecimal_string`. -/
def t_from_hexadecimal_string_3 : M Unit := do
  let t94 ← (f64_lit 0x40c0000000000000 : M Double)
  let t96 ← (parse ("+0x1000.000p1".toList) : M Double)
  let t97 ← to_f64 t96
  let t98 ← IeeeFloat.eq t94 t97
  check t98
  let t99 ← (parse ("-0x1000.000p1".toList) : M Double)
  let t100 ← to_f64 t99
  let t101 ← (f64_lit 0xc0c0000000000000 : M Double)
  let t102 ← IeeeFloat.eq t101 t100
  check t102
  let t103 ← (parse ("0x1000.000p+1".toList) : M Double)
  let t104 ← to_f64 t103
  let t105 ← IeeeFloat.eq t94 t104
  check t105
  let t106 ← (parse ("+0x1000.000p+1".toList) : M Double)
  let t107 ← to_f64 t106
  let t108 ← IeeeFloat.eq t94 t107
  check t108
  let t109 ← (parse ("-0x1000.000p+1".toList) : M Double)
  let t110 ← to_f64 t109
  let t111 ← IeeeFloat.eq t101 t110
  check t111
  let t112 ← (parse ("0x1000.000p-1".toList) : M Double)
  let t113 ← to_f64 t112
  let t114 ← (f64_lit 0x40a0000000000000 : M Double)
  let t115 ← IeeeFloat.eq t114 t113
  check t115
  let t116 ← (parse ("+0x1000.000p-1".toList) : M Double)
  let t117 ← to_f64 t116
  let t118 ← IeeeFloat.eq t114 t117
  check t118
  let t119 ← (parse ("-0x1000.000p-1".toList) : M Double)
  let t120 ← to_f64 t119
  let t121 ← (f64_lit 0xc0a0000000000000 : M Double)
  let t122 ← IeeeFloat.eq t121 t120
  check t122
  let t123 ← (parse ("0x1000p1".toList) : M Double)
  let t124 ← to_f64 t123
  let t125 ← IeeeFloat.eq t94 t124
  check t125
  let t126 ← (parse ("+0x1000p1".toList) : M Double)
  let t127 ← to_f64 t126
  let t128 ← IeeeFloat.eq t94 t127
  check t128
  let t129 ← (parse ("-0x1000p1".toList) : M Double)
  let t130 ← to_f64 t129
  let t131 ← IeeeFloat.eq t101 t130
  check t131
  let t132 ← (parse ("0x1000p+1".toList) : M Double)
  let t133 ← to_f64 t132
  let t134 ← IeeeFloat.eq t94 t133
  check t134
  let t135 ← (parse ("+0x1000p+1".toList) : M Double)
  let t136 ← to_f64 t135
  let t137 ← IeeeFloat.eq t94 t136
  check t137
  let t138 ← (parse ("-0x1000p+1".toList) : M Double)
  let t139 ← to_f64 t138
  let t140 ← IeeeFloat.eq t101 t139
  check t140
  let t141 ← (parse ("0x1000p-1".toList) : M Double)
  let t142 ← to_f64 t141
  let t143 ← IeeeFloat.eq t114 t142
  check t143

example : passes t_from_hexadecimal_string_3 = true := by decide +kernel

/-- tests/ieee.rs:1157 `from_hexadecimal_string`. -/
def t_from_hexadecimal_string_4 : M Unit := do
  let t3 ← (f64_lit 0x3ff0000000000000 : M Double)
  let t114 ← (f64_lit 0x40a0000000000000 : M Double)
  let t121 ← (f64_lit 0xc0a0000000000000 : M Double)
  let t144 ← (parse ("+0x1000p-1".toList) : M Double)
  let t145 ← to_f64 t144
  let t146 ← IeeeFloat.eq t114 t145
  check t146
  let t147 ← (parse ("-0x1000p-1".toList) : M Double)
  let t148 ← to_f64 t147
  let t149 ← IeeeFloat.eq t121 t148
  check t149
  let t150 ← (parse ("0x10p10".toList) : M Double)
  let t151 ← to_f64 t150
  let t152 ← (f64_lit 0x40d0000000000000 : M Double)
  let t153 ← IeeeFloat.eq t152 t151
  check t153
  let t154 ← (parse ("+0x10p10".toList) : M Double)
  let t155 ← to_f64 t154
  let t156 ← IeeeFloat.eq t152 t155
  check t156
  let t157 ← (parse ("-0x10p10".toList) : M Double)
  let t158 ← to_f64 t157
  let t159 ← (f64_lit 0xc0d0000000000000 : M Double)
  let t160 ← IeeeFloat.eq t159 t158
  check t160
  let t161 ← (parse ("0x10p+10".toList) : M Double)
  let t162 ← to_f64 t161
  let t163 ← IeeeFloat.eq t152 t162
  check t163
  let t164 ← (parse ("+0x10p+10".toList) : M Double)
  let t165 ← to_f64 t164
  let t166 ← IeeeFloat.eq t152 t165
  check t166
  let t167 ← (parse ("-0x10p+10".toList) : M Double)
  let t168 ← to_f64 t167
  let t169 ← IeeeFloat.eq t159 t168
  check t169
  let t170 ← (parse ("0x10p-10".toList) : M Double)
  let t171 ← to_f64 t170
  let t172 ← (f64_lit 0x3f90000000000000 : M Double)
  let t173 ← IeeeFloat.eq t172 t171
  check t173
  let t174 ← (parse ("+0x10p-10".toList) : M Double)
  let t175 ← to_f64 t174
  let t176 ← IeeeFloat.eq t172 t175
  check t176
  let t177 ← (parse ("-0x10p-10".toList) : M Double)
  let t178 ← to_f64 t177
  let t179 ← (f64_lit 0xbf90000000000000 : M Double)
  let t180 ← IeeeFloat.eq t179 t178
  check t180
  let t181 ← (parse ("0x1.1p0".toList) : M Double)
  let t182 ← to_f64 t181
  let t183 ← (f64_lit 0x3ff1000000000000 : M Double)
  let t184 ← IeeeFloat.eq t183 t182
  check t184
  let t185 ← (parse ("0x1p0".toList) : M Double)
  let t186 ← to_f64 t185
  let t187 ← IeeeFloat.eq t3 t186
  check t187
  let t188 ← (parse ("0x1p-150".toList) : M Double)
  let t189 ← to_f64 t188
  let t190 ← (parse ("+0x800000000000000001.p-221".toList) : M Double)
  let t191 ← to_f64 t190
  let t192 ← IeeeFloat.eq t189 t191
  check t192

example : passes t_from_hexadecimal_string_4 = true := by decide +kernel

/-- tests/ieee.rs:1157 `from_hexadecimal_string`. -/
def t_from_hexadecimal_string_5 : M Unit := do
  let t193 ← (parse ("0x80000000000004000000.010p-28".toList) : M Double)
  let t194 ← to_f64 t193
  let t195 ← (f64_lit 0x4320000000000001 : M Double)
  let t196 ← IeeeFloat.eq t195 t194
  check t196

example : passes t_from_hexadecimal_string_5 = true := by decide +kernel

/-- tests/ieee.rs:1241 `to_string`. -/
def t_to_string_1 : M Unit := do
  let t1 ← (f64_lit 0x4024000000000000 : M Double)
  let t2 ← from_f64 t1
  let t3 ← ApiFloat.fmt t2 (some 3) (some 6) false
  check (decide (("10".toList) = t3))
  let t4 ← from_f64 t1
  let t5 ← ApiFloat.fmt t4 (some 0) (some 6) false
  check (decide (("1.0E+1".toList) = t5))
  let t6 ← (f64_lit 0x40c3ba0000000000 : M Double)
  let t7 ← from_f64 t6
  let t8 ← ApiFloat.fmt t7 (some 2) (some 5) false
  check (decide (("10100".toList) = t8))
  let t9 ← from_f64 t6
  let t10 ← ApiFloat.fmt t9 (some 2) (some 4) false
  check (decide (("1.01E+4".toList) = t10))
  let t11 ← from_f64 t6
  let t12 ← ApiFloat.fmt t11 (some 1) (some 5) false
  check (decide (("1.01E+4".toList) = t12))
  let t13 ← (f64_lit 0x3f84af4f0d844d01 : M Double)
  let t14 ← from_f64 t13
  let t15 ← ApiFloat.fmt t14 (some 2) (some 5) false
  check (decide (("0.0101".toList) = t15))
  let t16 ← from_f64 t13
  let t17 ← ApiFloat.fmt t16 (some 2) (some 4) false
  check (decide (("0.0101".toList) = t17))
  let t18 ← from_f64 t13
  let t19 ← ApiFloat.fmt t18 (some 1) (some 5) false
  check (decide (("1.01E-2".toList) = t19))
  let t20 ← (f64_lit 0x3fe921fb54442d18 : M Double)
  let t21 ← from_f64 t20
  let t22 ← ApiFloat.fmt t21 (some 3) none false
  check (decide (("0.78539816339744828".toList) = t22))
  let t23 ← (f64_lit 0x1 : M Double)
  let t24 ← from_f64 t23
  let t25 ← ApiFloat.fmt t24 (some 3) none false
  check (decide (("4.9406564584124654E-324".toList) = t25))
  let t26 ← (f64_lit 0x408b49779a6b50b1 : M Double)
  let t27 ← from_f64 t26
  let t28 ← ApiFloat.fmt t27 (some 1) none false
  check (decide (("873.18340000000001".toList) = t28))
  let t29 ← from_f64 t26
  let t30 ← ApiFloat.fmt t29 (some 0) none false
  check (decide (("8.7318340000000001E+2".toList) = t30))
  let t31 ← (f64_lit 0x7fefffffffffffff : M Double)
  let t32 ← from_f64 t31
  let t33 ← ApiFloat.fmt t32 (some 0) none false
  check (decide (("1.7976931348623157E+308".toList) = t33))
  let t34 ← from_f64 t1
  let t35 ← ApiFloat.fmt t34 (some 3) (some 6) true
  check (decide (("10".toList) = t35))
  let t36 ← from_f64 t1
  let t37 ← ApiFloat.fmt t36 (some 0) (some 6) true
  check (decide (("1.000000e+01".toList) = t37))
  let t38 ← from_f64 t6
  let t39 ← ApiFloat.fmt t38 (some 2) (some 5) true
  check (decide (("10100".toList) = t39))
  let t40 ← from_f64 t6
  let t41 ← ApiFloat.fmt t40 (some 2) (some 4) true
  check (decide (("1.0100e+04".toList) = t41))
  let t42 ← from_f64 t6
  let t43 ← ApiFloat.fmt t42 (some 1) (some 5) true
  check (decide (("1.01000e+04".toList) = t43))

example : passes t_to_string_1 = true := by decide +kernel

/-- tests/ieee.rs:1241 `to_string`. -/
def t_to_string_2 : M Unit := do
  let t13 ← (f64_lit 0x3f84af4f0d844d01 : M Double)
  let t20 ← (f64_lit 0x3fe921fb54442d18 : M Double)
  let t23 ← (f64_lit 0x1 : M Double)
  let t26 ← (f64_lit 0x408b49779a6b50b1 : M Double)
  let t31 ← (f64_lit 0x7fefffffffffffff : M Double)
  let t44 ← from_f64 t13
  let t45 ← ApiFloat.fmt t44 (some 2) (some 5) true
  check (decide (("0.0101".toList) = t45))
  let t46 ← from_f64 t13
  let t47 ← ApiFloat.fmt t46 (some 2) (some 4) true
  check (decide (("0.0101".toList) = t47))
  let t48 ← from_f64 t13
  let t49 ← ApiFloat.fmt t48 (some 1) (some 5) true
  check (decide (("1.01000e-02".toList) = t49))
  let t50 ← from_f64 t20
  let t51 ← ApiFloat.fmt t50 (some 3) none true
  check (decide (("0.78539816339744828".toList) = t51))
  let t52 ← from_f64 t23
  let t53 ← ApiFloat.fmt t52 (some 3) none true
  check (decide (("4.94065645841246540e-324".toList) = t53))
  let t54 ← from_f64 t26
  let t55 ← ApiFloat.fmt t54 (some 1) none true
  check (decide (("873.18340000000001".toList) = t55))
  let t56 ← from_f64 t26
  let t57 ← ApiFloat.fmt t56 (some 0) none true
  check (decide (("8.73183400000000010e+02".toList) = t57))
  let t58 ← from_f64 t31
  let t59 ← ApiFloat.fmt t58 (some 0) none true
  check (decide (("1.79769313486231570e+308".toList) = t59))
  let t60 ← (ApiFloat.from_bits 18446744073709551616 : M X87DoubleExtended)
  let t61 ← ApiFloat.fmt t60 none none false
  check (decide (("NaN".toList) = t61))

example : passes t_to_string_2 = true := by decide +kernel

/-- tests/ieee.rs:1289 `to_integer`. -/
def t_to_integer : M Unit := do
  let t1 ← (parse ("10".toList) : M Double)
  let t2 ← ApiFloat.to_u128_r t1 5 Round.towardZero
  check (decide (Status.OK = ((t2).1).status) && decide (10 = ((t2).1).value))
  check (t2).2
  let t3 ← (parse ("-10".toList) : M Double)
  let t4 ← ApiFloat.to_u128_r t3 5 Round.towardZero
  check (decide (({ invalidOp := true } : Status) = ((t4).1).status) && decide (0 = ((t4).1).value))
  check (!(t4).2)
  let t5 ← (parse ("32".toList) : M Double)
  let t6 ← ApiFloat.to_u128_r t5 5 Round.towardZero
  check (decide (({ invalidOp := true } : Status) = ((t6).1).status) && decide (31 = ((t6).1).value))
  check (!(t6).2)
  let t7 ← (parse ("7.9".toList) : M Double)
  let t8 ← ApiFloat.to_u128_r t7 5 Round.towardZero
  check (decide (({ inexact := true } : Status) = ((t8).1).status) && decide (7 = ((t8).1).value))
  check (!(t8).2)
  let t9 ← (parse ("-10".toList) : M Double)
  let t10 ← ApiFloat.to_i128_r t9 5 Round.towardZero
  check (decide (Status.OK = ((t10).1).status) && decide ((-10 : Int) = ((t10).1).value))
  check (t10).2
  let t11 ← (parse ("-17".toList) : M Double)
  let t12 ← ApiFloat.to_i128_r t11 5 Round.towardZero
  check (decide (({ invalidOp := true } : Status) = ((t12).1).status) && decide ((-16 : Int) = ((t12).1).value))
  check (!(t12).2)
  let t13 ← (parse ("16".toList) : M Double)
  let t14 ← ApiFloat.to_i128_r t13 5 Round.towardZero
  check (decide (({ invalidOp := true } : Status) = ((t14).1).status) && decide (15 = ((t14).1).value))
  check (!(t14).2)

example : passes t_to_integer = true := by decide +kernel

/-- tests/ieee.rs:1354 `nan`. -/
def t_nan_1 : M Unit := do
  let t1 ← (ApiFloat.qnan (some 0) : M Single)
  let t2 ← ApiFloat.to_bits t1
  check (decide (2143289344 = t2))
  let t3 ← (ApiFloat.qnan (some 0) : M Single)
  let t4 ← ApiFloat.neg t3
  let t5 ← ApiFloat.to_bits t4
  check (decide (4290772992 = t5))
  let t6 ← (ApiFloat.qnan (some 44658) : M Single)
  let t7 ← ApiFloat.to_bits t6
  check (decide (2143334002 = t7))
  let t8 ← (ApiFloat.qnan (some 4294946418) : M Single)
  let t9 ← ApiFloat.to_bits t8
  check (decide (2147462770 = t9))
  let t10 ← (ApiFloat.qnan (some 14331506) : M Single)
  let t11 ← ApiFloat.to_bits t10
  check (decide (2145037938 = t11))
  let t12 ← (ApiFloat.snan (some 0) : M Single)
  let t13 ← ApiFloat.to_bits t12
  check (decide (2141192192 = t13))
  let t14 ← (ApiFloat.snan (some 0) : M Single)
  let t15 ← ApiFloat.neg t14
  let t16 ← ApiFloat.to_bits t15
  check (decide (4288675840 = t16))
  let t17 ← (ApiFloat.snan (some 44658) : M Single)
  let t18 ← ApiFloat.to_bits t17
  check (decide (2139139698 = t18))
  let t19 ← (ApiFloat.snan (some 4294946418) : M Single)
  let t20 ← ApiFloat.to_bits t19
  check (decide (2143268466 = t20))
  let t21 ← (ApiFloat.snan (some 1748594) : M Single)
  let t22 ← ApiFloat.to_bits t21
  check (decide (2140843634 = t22))
  let t23 ← (ApiFloat.qnan (some 0) : M Double)
  let t24 ← ApiFloat.to_bits t23
  check (decide (9221120237041090560 = t24))
  let t25 ← (ApiFloat.qnan (some 0) : M Double)
  let t26 ← ApiFloat.neg t25
  let t27 ← ApiFloat.to_bits t26
  check (decide (18444492273895866368 = t27))
  let t28 ← (ApiFloat.qnan (some 44658) : M Double)
  let t29 ← ApiFloat.to_bits t28
  check (decide (9221120237041135218 = t29))
  let t30 ← (ApiFloat.qnan (some 18446744073709530738) : M Double)
  let t31 ← ApiFloat.to_bits t30
  check (decide (9223372036854754930 = t31))
  let t32 ← (ApiFloat.qnan (some 3846824681713266) : M Double)
  let t33 ← ApiFloat.to_bits t32
  check (decide (9222715261909118578 = t33))
  let t34 ← (ApiFloat.snan (some 0) : M Double)
  let t35 ← ApiFloat.to_bits t34
  check (decide (9219994337134247936 = t35))
  let t36 ← (ApiFloat.snan (some 0) : M Double)
  let t37 ← ApiFloat.neg t36
  let t38 ← ApiFloat.to_bits t37
  check (decide (18443366373989023744 = t38))
  let t39 ← (ApiFloat.snan (some 44658) : M Double)
  let t40 ← ApiFloat.to_bits t39
  check (decide (9218868437227449970 = t40))
  let t41 ← (ApiFloat.snan (some 18446744073709530738) : M Double)
  let t42 ← ApiFloat.to_bits t41
  check (decide (9221120237041069682 = t42))

example : passes t_nan_1 = true := by decide +kernel

/-- tests/ieee.rs:1354 `nan`. -/
def t_nan_2 : M Unit := do
  let t43 ← (ApiFloat.snan (some 469124961185394) : M Double)
  let t44 ← ApiFloat.to_bits t43
  check (decide (9219337562188590706 = t44))

example : passes t_nan_2 = true := by decide +kernel

/-- tests/ieee.rs:1403 `string_decimal_error`. -/
def t_string_decimal_error : M Unit := do
  let t1 ← parse_err Double ("".toList)
  check (decide (ParseError.invalidLength = t1))
  let t2 ← parse_err Double ("+".toList)
  check (decide (ParseError.noDigits = t2))
  let t3 ← parse_err Double ("-".toList)
  check (decide (ParseError.noDigits = t3))
  let t4 ← parse_err Double ("\x00".toList)
  check (decide (ParseError.badSigChar = t4))
  let t5 ← parse_err Double ("1\x00".toList)
  check (decide (ParseError.badSigChar = t5))
  let t6 ← parse_err Double ("1\x002".toList)
  check (decide (ParseError.badSigChar = t6))
  let t7 ← parse_err Double ("1\x002e1".toList)
  check (decide (ParseError.badSigChar = t7))
  let t8 ← parse_err Double ("1e\x00".toList)
  check (decide (ParseError.badExpChar = t8))
  let t9 ← parse_err Double ("1e1\x00".toList)
  check (decide (ParseError.badExpChar = t9))
  let t10 ← parse_err Double ("1e1\x002".toList)
  check (decide (ParseError.badExpChar = t10))
  let t11 ← parse_err Double ("1.0f".toList)
  check (decide (ParseError.badSigChar = t11))
  let t12 ← parse_err Double ("..".toList)
  check (decide (ParseError.multipleDots = t12))
  let t13 ← parse_err Double ("..0".toList)
  check (decide (ParseError.multipleDots = t13))
  let t14 ← parse_err Double ("1.0.0".toList)
  check (decide (ParseError.multipleDots = t14))

example : passes t_string_decimal_error = true := by decide +kernel

/-- tests/ieee.rs:1424 `string_decimal_significand_error`. -/
def t_string_decimal_significand_error : M Unit := do
  let t1 ← parse_err Double (".".toList)
  check (decide (ParseError.sigNoDigits = t1))
  let t2 ← parse_err Double ("+.".toList)
  check (decide (ParseError.sigNoDigits = t2))
  let t3 ← parse_err Double ("-.".toList)
  check (decide (ParseError.sigNoDigits = t3))
  let t4 ← parse_err Double ("e".toList)
  check (decide (ParseError.sigNoDigits = t4))
  let t5 ← parse_err Double ("+e".toList)
  check (decide (ParseError.sigNoDigits = t5))
  let t6 ← parse_err Double ("-e".toList)
  check (decide (ParseError.sigNoDigits = t6))
  let t7 ← parse_err Double ("e1".toList)
  check (decide (ParseError.sigNoDigits = t7))
  let t8 ← parse_err Double ("+e1".toList)
  check (decide (ParseError.sigNoDigits = t8))
  let t9 ← parse_err Double ("-e1".toList)
  check (decide (ParseError.sigNoDigits = t9))
  let t10 ← parse_err Double (".e1".toList)
  check (decide (ParseError.sigNoDigits = t10))
  let t11 ← parse_err Double ("+.e1".toList)
  check (decide (ParseError.sigNoDigits = t11))
  let t12 ← parse_err Double ("-.e1".toList)
  check (decide (ParseError.sigNoDigits = t12))
  let t13 ← parse_err Double (".e".toList)
  check (decide (ParseError.sigNoDigits = t13))
  let t14 ← parse_err Double ("+.e".toList)
  check (decide (ParseError.sigNoDigits = t14))
  let t15 ← parse_err Double ("-.e".toList)
  check (decide (ParseError.sigNoDigits = t15))

example : passes t_string_decimal_significand_error = true := by decide +kernel

/-- tests/ieee.rs:1447 `string_hexadecimal_error`. -/
def t_string_hexadecimal_error : M Unit := do
  let t1 ← parse_err Double ("0x".toList)
  check (decide (ParseError.invalidString = t1))
  let t2 ← parse_err Double ("+0x".toList)
  check (decide (ParseError.invalidString = t2))
  let t3 ← parse_err Double ("-0x".toList)
  check (decide (ParseError.invalidString = t3))
  let t4 ← parse_err Double ("0x0".toList)
  check (decide (ParseError.hexNeedsExp = t4))
  let t5 ← parse_err Double ("+0x0".toList)
  check (decide (ParseError.hexNeedsExp = t5))
  let t6 ← parse_err Double ("-0x0".toList)
  check (decide (ParseError.hexNeedsExp = t6))
  let t7 ← parse_err Double ("0x0.".toList)
  check (decide (ParseError.hexNeedsExp = t7))
  let t8 ← parse_err Double ("+0x0.".toList)
  check (decide (ParseError.hexNeedsExp = t8))
  let t9 ← parse_err Double ("-0x0.".toList)
  check (decide (ParseError.hexNeedsExp = t9))
  let t10 ← parse_err Double ("0x.0".toList)
  check (decide (ParseError.hexNeedsExp = t10))
  let t11 ← parse_err Double ("+0x.0".toList)
  check (decide (ParseError.hexNeedsExp = t11))
  let t12 ← parse_err Double ("-0x.0".toList)
  check (decide (ParseError.hexNeedsExp = t12))
  let t13 ← parse_err Double ("0x0.0".toList)
  check (decide (ParseError.hexNeedsExp = t13))
  let t14 ← parse_err Double ("+0x0.0".toList)
  check (decide (ParseError.hexNeedsExp = t14))
  let t15 ← parse_err Double ("-0x0.0".toList)
  check (decide (ParseError.hexNeedsExp = t15))
  let t16 ← parse_err Double ("0x\x00".toList)
  check (decide (ParseError.badSigChar = t16))
  let t17 ← parse_err Double ("0x1\x00".toList)
  check (decide (ParseError.badSigChar = t17))
  let t18 ← parse_err Double ("0x1\x002".toList)
  check (decide (ParseError.badSigChar = t18))
  let t19 ← parse_err Double ("0x1\x002p1".toList)
  check (decide (ParseError.badSigChar = t19))
  let t20 ← parse_err Double ("0x1p\x00".toList)
  check (decide (ParseError.badExpChar = t20))
  let t21 ← parse_err Double ("0x1p1\x00".toList)
  check (decide (ParseError.badExpChar = t21))
  let t22 ← parse_err Double ("0x1p1\x002".toList)
  check (decide (ParseError.badExpChar = t22))
  let t23 ← parse_err Double ("0x1p0f".toList)
  check (decide (ParseError.badExpChar = t23))
  let t24 ← parse_err Double ("0x..p1".toList)
  check (decide (ParseError.multipleDots = t24))
  let t25 ← parse_err Double ("0x..0p1".toList)
  check (decide (ParseError.multipleDots = t25))
  let t26 ← parse_err Double ("0x1.0.0p1".toList)
  check (decide (ParseError.multipleDots = t26))

example : passes t_string_hexadecimal_error = true := by decide +kernel

/-- tests/ieee.rs:1484 `string_hexadecimal_significand_error`. -/
def t_string_hexadecimal_significand_error : M Unit := do
  let t1 ← parse_err Double ("0x.".toList)
  check (decide (ParseError.sigNoDigits = t1))
  let t2 ← parse_err Double ("+0x.".toList)
  check (decide (ParseError.sigNoDigits = t2))
  let t3 ← parse_err Double ("-0x.".toList)
  check (decide (ParseError.sigNoDigits = t3))
  let t4 ← parse_err Double ("0xp".toList)
  check (decide (ParseError.sigNoDigits = t4))
  let t5 ← parse_err Double ("+0xp".toList)
  check (decide (ParseError.sigNoDigits = t5))
  let t6 ← parse_err Double ("-0xp".toList)
  check (decide (ParseError.sigNoDigits = t6))
  let t7 ← parse_err Double ("0xp+".toList)
  check (decide (ParseError.sigNoDigits = t7))
  let t8 ← parse_err Double ("+0xp+".toList)
  check (decide (ParseError.sigNoDigits = t8))
  let t9 ← parse_err Double ("-0xp+".toList)
  check (decide (ParseError.sigNoDigits = t9))
  let t10 ← parse_err Double ("0xp-".toList)
  check (decide (ParseError.sigNoDigits = t10))
  let t11 ← parse_err Double ("+0xp-".toList)
  check (decide (ParseError.sigNoDigits = t11))
  let t12 ← parse_err Double ("-0xp-".toList)
  check (decide (ParseError.sigNoDigits = t12))
  let t13 ← parse_err Double ("0x.p".toList)
  check (decide (ParseError.sigNoDigits = t13))
  let t14 ← parse_err Double ("+0x.p".toList)
  check (decide (ParseError.sigNoDigits = t14))
  let t15 ← parse_err Double ("-0x.p".toList)
  check (decide (ParseError.sigNoDigits = t15))
  let t16 ← parse_err Double ("0x.p+".toList)
  check (decide (ParseError.sigNoDigits = t16))
  let t17 ← parse_err Double ("+0x.p+".toList)
  check (decide (ParseError.sigNoDigits = t17))
  let t18 ← parse_err Double ("-0x.p+".toList)
  check (decide (ParseError.sigNoDigits = t18))
  let t19 ← parse_err Double ("0x.p-".toList)
  check (decide (ParseError.sigNoDigits = t19))
  let t20 ← parse_err Double ("+0x.p-".toList)
  check (decide (ParseError.sigNoDigits = t20))
  let t21 ← parse_err Double ("-0x.p-".toList)
  check (decide (ParseError.sigNoDigits = t21))

example : passes t_string_hexadecimal_significand_error = true := by decide +kernel

/-- tests/ieee.rs:1515 `string_hexadecimal_exponent_error`. -/
def t_string_hexadecimal_exponent_error_1 : M Unit := do
  let t1 ← parse_err Double ("0x1p".toList)
  check (decide (ParseError.expNoDigits = t1))
  let t2 ← parse_err Double ("+0x1p".toList)
  check (decide (ParseError.expNoDigits = t2))
  let t3 ← parse_err Double ("-0x1p".toList)
  check (decide (ParseError.expNoDigits = t3))
  let t4 ← parse_err Double ("0x1p+".toList)
  check (decide (ParseError.expNoDigits = t4))
  let t5 ← parse_err Double ("+0x1p+".toList)
  check (decide (ParseError.expNoDigits = t5))
  let t6 ← parse_err Double ("-0x1p+".toList)
  check (decide (ParseError.expNoDigits = t6))
  let t7 ← parse_err Double ("0x1p-".toList)
  check (decide (ParseError.expNoDigits = t7))
  let t8 ← parse_err Double ("+0x1p-".toList)
  check (decide (ParseError.expNoDigits = t8))
  let t9 ← parse_err Double ("-0x1p-".toList)
  check (decide (ParseError.expNoDigits = t9))
  let t10 ← parse_err Double ("0x1.p".toList)
  check (decide (ParseError.expNoDigits = t10))
  let t11 ← parse_err Double ("+0x1.p".toList)
  check (decide (ParseError.expNoDigits = t11))
  let t12 ← parse_err Double ("-0x1.p".toList)
  check (decide (ParseError.expNoDigits = t12))
  let t13 ← parse_err Double ("0x1.p+".toList)
  check (decide (ParseError.expNoDigits = t13))
  let t14 ← parse_err Double ("+0x1.p+".toList)
  check (decide (ParseError.expNoDigits = t14))
  let t15 ← parse_err Double ("-0x1.p+".toList)
  check (decide (ParseError.expNoDigits = t15))
  let t16 ← parse_err Double ("0x1.p-".toList)
  check (decide (ParseError.expNoDigits = t16))
  let t17 ← parse_err Double ("+0x1.p-".toList)
  check (decide (ParseError.expNoDigits = t17))
  let t18 ← parse_err Double ("-0x1.p-".toList)
  check (decide (ParseError.expNoDigits = t18))
  let t19 ← parse_err Double ("0x.1p".toList)
  check (decide (ParseError.expNoDigits = t19))
  let t20 ← parse_err Double ("+0x.1p".toList)
  check (decide (ParseError.expNoDigits = t20))
  let t21 ← parse_err Double ("-0x.1p".toList)
  check (decide (ParseError.expNoDigits = t21))
  let t22 ← parse_err Double ("0x.1p+".toList)
  check (decide (ParseError.expNoDigits = t22))
  let t23 ← parse_err Double ("+0x.1p+".toList)
  check (decide (ParseError.expNoDigits = t23))
  let t24 ← parse_err Double ("-0x.1p+".toList)
  check (decide (ParseError.expNoDigits = t24))
  let t25 ← parse_err Double ("0x.1p-".toList)
  check (decide (ParseError.expNoDigits = t25))
  let t26 ← parse_err Double ("+0x.1p-".toList)
  check (decide (ParseError.expNoDigits = t26))
  let t27 ← parse_err Double ("-0x.1p-".toList)
  check (decide (ParseError.expNoDigits = t27))
  let t28 ← parse_err Double ("0x1.1p".toList)
  check (decide (ParseError.expNoDigits = t28))
  let t29 ← parse_err Double ("+0x1.1p".toList)
  check (decide (ParseError.expNoDigits = t29))
  let t30 ← parse_err Double ("-0x1.1p".toList)
  check (decide (ParseError.expNoDigits = t30))

example : passes t_string_hexadecimal_exponent_error_1 = true := by decide +kernel

/-- tests/ieee.rs:1515 `string_hexadecimal_exponent_error`. -/
def t_string_hexadecimal_exponent_error_2 : M Unit := do
  let t31 ← parse_err Double ("0x1.1p+".toList)
  check (decide (ParseError.expNoDigits = t31))
  let t32 ← parse_err Double ("+0x1.1p+".toList)
  check (decide (ParseError.expNoDigits = t32))
  let t33 ← parse_err Double ("-0x1.1p+".toList)
  check (decide (ParseError.expNoDigits = t33))
  let t34 ← parse_err Double ("0x1.1p-".toList)
  check (decide (ParseError.expNoDigits = t34))
  let t35 ← parse_err Double ("+0x1.1p-".toList)
  check (decide (ParseError.expNoDigits = t35))
  let t36 ← parse_err Double ("-0x1.1p-".toList)
  check (decide (ParseError.expNoDigits = t36))

example : passes t_string_hexadecimal_exponent_error_2 = true := by decide +kernel

/-- tests/ieee.rs:1566 `exact_inverse`. -/
def t_exact_inverse : M Unit := do
  let t1 ← (f64_lit 0x4000000000000000 : M Double)
  let t2 ← from_f64 t1
  let t3 ← ApiFloat.get_exact_inverse t2
  let t4 ← unwrap t3
  let t5 ← (f64_lit 0x3fe0000000000000 : M Double)
  let t6 ← from_f64 t5
  let t7 ← ApiFloat.bitwise_eq t4 t6
  check t7
  let t8 ← (f32_lit 0x40000000 : M Single)
  let t9 ← from_f32 t8
  let t10 ← ApiFloat.get_exact_inverse t9
  let t11 ← unwrap t10
  let t12 ← (f32_lit 0x3f000000 : M Single)
  let t13 ← from_f32 t12
  let t14 ← ApiFloat.bitwise_eq t11 t13
  check t14
  let t15 ← (parse ("2.0".toList) : M Quad)
  let t16 ← ApiFloat.get_exact_inverse t15
  let t17 ← unwrap t16
  let t18 ← (parse ("0.5".toList) : M Quad)
  let t19 ← ApiFloat.bitwise_eq t17 t18
  check t19
  let t20 ← (parse ("2.0".toList) : M X87DoubleExtended)
  let t21 ← ApiFloat.get_exact_inverse t20
  let t22 ← unwrap t21
  let t23 ← (parse ("0.5".toList) : M X87DoubleExtended)
  let t24 ← ApiFloat.bitwise_eq t22 t23
  check t24
  let t25 ← (f32_lit 0x800000 : M Single)
  let t26 ← from_f32 t25
  let t27 ← ApiFloat.get_exact_inverse t26
  let t28 ← unwrap t27
  let t29 ← (f32_lit 0x7e800000 : M Single)
  let t30 ← from_f32 t29
  let t31 ← ApiFloat.bitwise_eq t28 t30
  check t31
  let t32 ← (f32_lit 0x7f000000 : M Single)
  let t33 ← from_f32 t32
  let t34 ← ApiFloat.get_exact_inverse t33
  check (t34).isNone
  let t35 ← (f64_lit 0x0 : M Double)
  let t36 ← from_f64 t35
  let t37 ← ApiFloat.get_exact_inverse t36
  check (t37).isNone
  let t38 ← (f32_lit 0x1 : M Single)
  let t39 ← from_f32 t38
  let t40 ← ApiFloat.get_exact_inverse t39
  check (t40).isNone

example : passes t_exact_inverse = true := by decide +kernel

/-- tests/ieee.rs:1604 `round_to_integral`. -/
def t_round_to_integral_1 : M Unit := do
  let t1 ← (f64_lit 0xbfe0000000000000 : M Double)
  let t2 ← from_f64 t1
  let t3 ← ApiFloat.round_to_integral t2 Round.towardZero
  let t4 ← to_f64 (t3).value
  let t5 ← (f64_lit 0x8000000000000000 : M Double)
  let t6 ← IeeeFloat.eq t5 t4
  check t6
  let t7 ← ApiFloat.round_to_integral t2 Round.towardNegative
  let t8 ← to_f64 (t7).value
  let t9 ← (f64_lit 0xbff0000000000000 : M Double)
  let t10 ← IeeeFloat.eq t9 t8
  check t10
  let t11 ← ApiFloat.round_to_integral t2 Round.towardPositive
  let t12 ← to_f64 (t11).value
  let t13 ← IeeeFloat.eq t5 t12
  check t13
  let t14 ← ApiFloat.round_to_integral t2 Round.nearestTiesToEven
  let t15 ← to_f64 (t14).value
  let t16 ← IeeeFloat.eq t5 t15
  check t16
  let t17 ← (f64_lit 0x40091eb851eb851f : M Double)
  let t18 ← from_f64 t17
  let t19 ← ApiFloat.round_to_integral t18 Round.towardZero
  let t20 ← to_f64 (t19).value
  let t21 ← (f64_lit 0x4008000000000000 : M Double)
  let t22 ← IeeeFloat.eq t21 t20
  check t22
  let t23 ← ApiFloat.round_to_integral t18 Round.towardNegative
  let t24 ← to_f64 (t23).value
  let t25 ← IeeeFloat.eq t21 t24
  check t25
  let t26 ← ApiFloat.round_to_integral t18 Round.towardPositive
  let t27 ← to_f64 (t26).value
  let t28 ← (f64_lit 0x4010000000000000 : M Double)
  let t29 ← IeeeFloat.eq t28 t27
  check t29
  let t30 ← ApiFloat.round_to_integral t18 Round.nearestTiesToEven
  let t31 ← to_f64 (t30).value
  let t32 ← IeeeFloat.eq t21 t31
  check t32
  let t33 ← (ApiFloat.largest : M Double)
  let t34 ← to_f64 t33
  let t35 ← ApiFloat.round_to_integral t33 Round.towardZero
  let t36 ← to_f64 (t35).value
  let t37 ← IeeeFloat.eq t34 t36
  check t37
  let t38 ← to_f64 t33
  let t39 ← ApiFloat.round_to_integral t33 Round.towardNegative
  let t40 ← to_f64 (t39).value
  let t41 ← IeeeFloat.eq t38 t40
  check t41
  let t42 ← to_f64 t33
  let t43 ← ApiFloat.round_to_integral t33 Round.towardPositive
  let t44 ← to_f64 (t43).value
  let t45 ← IeeeFloat.eq t42 t44
  check t45
  let t46 ← to_f64 t33
  let t47 ← ApiFloat.round_to_integral t33 Round.nearestTiesToEven
  let t48 ← to_f64 (t47).value
  let t49 ← IeeeFloat.eq t46 t48
  check t49

example : passes t_round_to_integral_1 = true := by decide +kernel

/-- tests/ieee.rs:1604 `round_to_integral`. -/
def t_round_to_integral_2 : M Unit := do
  let t5 ← (f64_lit 0x8000000000000000 : M Double)
  let t50 ← (ApiFloat.ZERO : M Double)
  let t51 ← ApiFloat.round_to_integral t50 Round.towardZero
  let t52 ← to_f64 (t51).value
  let t53 ← (f64_lit 0x0 : M Double)
  let t54 ← IeeeFloat.eq t53 t52
  check t54
  let t55 ← (ApiFloat.ZERO : M Double)
  let t56 ← ApiFloat.neg t55
  let t57 ← ApiFloat.round_to_integral t56 Round.towardZero
  let t58 ← to_f64 (t57).value
  let t59 ← IeeeFloat.eq t5 t58
  check t59
  let t60 ← (ApiFloat.NAN : M Double)
  let t61 ← ApiFloat.round_to_integral t60 Round.towardZero
  let t62 ← to_f64 (t61).value
  let t63 ← is_nan t62
  check t63
  let t64 ← (ApiFloat.INFINITY : M Double)
  let t65 ← ApiFloat.round_to_integral t64 Round.towardZero
  let t66 ← to_f64 (t65).value
  let t67 ← is_infinite t66
  let t68 ← to_f64 (t65).value
  let t69 ← IeeeFloat.gt t68 t53
  check (t67 && t69)
  let t70 ← (ApiFloat.INFINITY : M Double)
  let t71 ← ApiFloat.neg t70
  let t72 ← ApiFloat.round_to_integral t71 Round.towardZero
  let t73 ← to_f64 (t72).value
  let t74 ← is_infinite t73
  let t75 ← to_f64 (t72).value
  let t76 ← IeeeFloat.lt t75 t53
  check (t74 && t76)
  let t77 ← (ApiFloat.NAN : M Double)
  let t78 ← ApiFloat.round_to_integral t77 Round.towardZero
  let t79 ← is_nan (t78).value
  check t79
  let t80 ← ApiFloat.is_negative (t78).value
  check (!t80)
  check (decide (Status.OK = (t78).status))
  let t81 ← (ApiFloat.NAN : M Double)
  let t82 ← ApiFloat.neg t81
  let t83 ← ApiFloat.round_to_integral t82 Round.towardZero
  let t84 ← is_nan (t83).value
  check t84
  let t85 ← ApiFloat.is_negative (t83).value
  check t85
  check (decide (Status.OK = (t83).status))
  let t86 ← (ApiFloat.snan none : M Double)
  let t87 ← ApiFloat.round_to_integral t86 Round.towardZero
  let t88 ← is_nan (t87).value
  check t88
  let t89 ← ApiFloat.is_signaling (t87).value
  check (!t89)
  let t90 ← ApiFloat.is_negative (t87).value
  check (!t90)
  check (decide (({ invalidOp := true } : Status) = (t87).status))
  let t91 ← (ApiFloat.snan none : M Double)
  let t92 ← ApiFloat.neg t91
  let t93 ← ApiFloat.round_to_integral t92 Round.towardZero
  let t94 ← is_nan (t93).value
  check t94

example : passes t_round_to_integral_2 = true := by decide +kernel

/-- tests/ieee.rs:1604 `round_to_integral`. -/
def t_round_to_integral_3 : M Unit := do
  let t91 ← (ApiFloat.snan none : M Double)
  let t92 ← ApiFloat.neg t91
  let t93 ← ApiFloat.round_to_integral t92 Round.towardZero
  let t95 ← ApiFloat.is_signaling (t93).value
  check (!t95)
  let t96 ← ApiFloat.is_negative (t93).value
  check t96
  check (decide (({ invalidOp := true } : Status) = (t93).status))
  let t97 ← (ApiFloat.INFINITY : M Double)
  let t98 ← ApiFloat.round_to_integral t97 Round.towardZero
  let t99 ← is_infinite (t98).value
  check t99
  let t100 ← ApiFloat.is_negative (t98).value
  check (!t100)
  check (decide (Status.OK = (t98).status))
  let t101 ← (ApiFloat.INFINITY : M Double)
  let t102 ← ApiFloat.neg t101
  let t103 ← ApiFloat.round_to_integral t102 Round.towardZero
  let t104 ← is_infinite (t103).value
  check t104
  let t105 ← ApiFloat.is_negative (t103).value
  check t105
  check (decide (Status.OK = (t103).status))
  let t106 ← (ApiFloat.ZERO : M Double)
  let t107 ← ApiFloat.round_to_integral t106 Round.towardZero
  let t108 ← is_zero (t107).value
  check t108
  let t109 ← ApiFloat.is_negative (t107).value
  check (!t109)
  check (decide (Status.OK = (t107).status))
  let t110 ← (ApiFloat.ZERO : M Double)
  let t111 ← ApiFloat.round_to_integral t110 Round.towardNegative
  let t112 ← is_zero (t111).value
  check t112
  let t113 ← ApiFloat.is_negative (t111).value
  check (!t113)
  check (decide (Status.OK = (t111).status))
  let t114 ← (ApiFloat.ZERO : M Double)
  let t115 ← ApiFloat.neg t114
  let t116 ← ApiFloat.round_to_integral t115 Round.towardZero
  let t117 ← is_zero (t116).value
  check t117
  let t118 ← ApiFloat.is_negative (t116).value
  check t118
  check (decide (Status.OK = (t116).status))
  let t119 ← (ApiFloat.ZERO : M Double)
  let t120 ← ApiFloat.neg t119
  let t121 ← ApiFloat.round_to_integral t120 Round.towardNegative
  let t122 ← is_zero (t121).value
  check t122
  let t123 ← ApiFloat.is_negative (t121).value
  check t123
  check (decide (Status.OK = (t121).status))
  let t124 ← (f64_lit 0x2b2bff2ee48e0530 : M Double)
  let t125 ← from_f64 t124
  let t126 ← ApiFloat.round_to_integral t125 Round.towardNegative
  let t127 ← is_zero (t126).value
  check t127
  let t128 ← ApiFloat.is_negative (t126).value
  check (!t128)
  check (decide (({ inexact := true } : Status) = (t126).status))
  let t129 ← from_f64 t124
  let t130 ← ApiFloat.round_to_integral t129 Round.towardPositive
  let t131 ← to_f64 (t130).value
  let t132 ← (f64_lit 0x3ff0000000000000 : M Double)
  let t133 ← IeeeFloat.eq t132 t131
  check t133

example : passes t_round_to_integral_3 = true := by decide +kernel

/-- tests/ieee.rs:1604 `round_to_integral`. -/
def t_round_to_integral_4 : M Unit := do
  let t9 ← (f64_lit 0xbff0000000000000 : M Double)
  let t124 ← (f64_lit 0x2b2bff2ee48e0530 : M Double)
  let t129 ← from_f64 t124
  let t130 ← ApiFloat.round_to_integral t129 Round.towardPositive
  let t134 ← ApiFloat.is_negative (t130).value
  check (!t134)
  check (decide (({ inexact := true } : Status) = (t130).status))
  let t135 ← (f64_lit 0xab2bff2ee48e0530 : M Double)
  let t136 ← from_f64 t135
  let t137 ← ApiFloat.round_to_integral t136 Round.towardNegative
  let t138 ← ApiFloat.is_negative (t137).value
  check t138
  let t139 ← to_f64 (t137).value
  let t140 ← IeeeFloat.eq t9 t139
  check t140
  check (decide (({ inexact := true } : Status) = (t137).status))
  let t141 ← from_f64 t135
  let t142 ← ApiFloat.round_to_integral t141 Round.towardPositive
  let t143 ← is_zero (t142).value
  check t143
  let t144 ← ApiFloat.is_negative (t142).value
  check t144
  check (decide (({ inexact := true } : Status) = (t142).status))
  let t145 ← (f64_lit 0x4024000000000000 : M Double)
  let t146 ← from_f64 t145
  let t147 ← ApiFloat.round_to_integral t146 Round.towardZero
  let t148 ← to_f64 (t147).value
  let t149 ← IeeeFloat.eq t145 t148
  check t149
  check (decide (Status.OK = (t147).status))
  let t150 ← (f64_lit 0x4025000000000000 : M Double)
  let t151 ← from_f64 t150
  let t152 ← ApiFloat.round_to_integral t151 Round.towardZero
  let t153 ← to_f64 (t152).value
  let t154 ← IeeeFloat.eq t145 t153
  check t154
  check (decide (({ inexact := true } : Status) = (t152).status))
  let t155 ← from_f64 t150
  let t156 ← ApiFloat.round_to_integral t155 Round.towardPositive
  let t157 ← to_f64 (t156).value
  let t158 ← (f64_lit 0x4026000000000000 : M Double)
  let t159 ← IeeeFloat.eq t158 t157
  check t159
  check (decide (({ inexact := true } : Status) = (t156).status))
  let t160 ← from_f64 t150
  let t161 ← ApiFloat.round_to_integral t160 Round.towardNegative
  let t162 ← to_f64 (t161).value
  let t163 ← IeeeFloat.eq t145 t162
  check t163
  check (decide (({ inexact := true } : Status) = (t161).status))
  let t164 ← from_f64 t150
  let t165 ← ApiFloat.round_to_integral t164 Round.nearestTiesToAway
  let t166 ← to_f64 (t165).value
  let t167 ← IeeeFloat.eq t158 t166
  check t167
  check (decide (({ inexact := true } : Status) = (t165).status))
  let t168 ← from_f64 t150
  let t169 ← ApiFloat.round_to_integral t168 Round.nearestTiesToEven
  let t170 ← to_f64 (t169).value
  let t171 ← IeeeFloat.eq t145 t170
  check t171
  check (decide (({ inexact := true } : Status) = (t169).status))

example : passes t_round_to_integral_4 = true := by decide +kernel

/-- tests/ieee.rs:1734 `is_integer`. -/
def t_is_integer : M Unit := do
  let t1 ← (f64_lit 0x8000000000000000 : M Double)
  let t2 ← from_f64 t1
  let t3 ← ApiFloat.is_integer t2
  check t3
  let t4 ← (f64_lit 0x400921f9f01b866e : M Double)
  let t5 ← from_f64 t4
  let t6 ← ApiFloat.is_integer t5
  check (!t6)
  let t7 ← (ApiFloat.NAN : M Double)
  let t8 ← ApiFloat.is_integer t7
  check (!t8)
  let t9 ← (ApiFloat.INFINITY : M Double)
  let t10 ← ApiFloat.is_integer t9
  check (!t10)
  let t11 ← (ApiFloat.INFINITY : M Double)
  let t12 ← ApiFloat.neg t11
  let t13 ← ApiFloat.is_integer t12
  check (!t13)
  let t14 ← (ApiFloat.largest : M Double)
  let t15 ← ApiFloat.is_integer t14
  check t15

example : passes t_is_integer = true := by decide +kernel

/-- tests/ieee.rs:1750 `largest`. -/
def t_largest : M Unit := do
  let t1 ← (ApiFloat.largest : M Single)
  let t2 ← to_f32 t1
  let t3 ← (f32_lit 0x7f7fffff : M Single)
  let t4 ← IeeeFloat.eq t3 t2
  check t4
  let t5 ← (ApiFloat.largest : M Double)
  let t6 ← to_f64 t5
  let t7 ← (f64_lit 0x7fefffffffffffff : M Double)
  let t8 ← IeeeFloat.eq t7 t6
  check t8
  let t9 ← (ApiFloat.largest : M Float8E4M3FN)
  let t10 ← to_f64 t9
  let t11 ← (f64_lit 0x407c000000000000 : M Double)
  let t12 ← IeeeFloat.eq t11 t10
  check t12

example : passes t_largest = true := by decide +kernel

/-- tests/ieee.rs:1757 `smallest`. -/
def t_smallest : M Unit := do
  let t1 ← (ApiFloat.SMALLEST : M Single)
  let t2 ← (parse ("0x0.000002p-126".toList) : M Single)
  let t3 ← ApiFloat.is_negative t1
  check (!t3)
  let t4 ← is_finite_non_zero t1
  check t4
  let t5 ← ApiFloat.is_denormal t1
  check t5
  let t6 ← ApiFloat.bitwise_eq t1 t2
  check t6
  let t7 ← (ApiFloat.SMALLEST : M Single)
  let t8 ← ApiFloat.neg t7
  let t9 ← (parse ("-0x0.000002p-126".toList) : M Single)
  let t10 ← ApiFloat.is_negative t8
  check t10
  let t11 ← is_finite_non_zero t8
  check t11
  let t12 ← ApiFloat.is_denormal t8
  check t12
  let t13 ← ApiFloat.bitwise_eq t8 t9
  check t13
  let t14 ← (ApiFloat.SMALLEST : M Quad)
  let t15 ← (parse ("0x0.0000000000000000000000000001p-16382".toList) : M Quad)
  let t16 ← ApiFloat.is_negative t14
  check (!t16)
  let t17 ← is_finite_non_zero t14
  check t17
  let t18 ← ApiFloat.is_denormal t14
  check t18
  let t19 ← ApiFloat.bitwise_eq t14 t15
  check t19
  let t20 ← (ApiFloat.SMALLEST : M Quad)
  let t21 ← ApiFloat.neg t20
  let t22 ← (parse ("-0x0.0000000000000000000000000001p-16382".toList) : M Quad)
  let t23 ← ApiFloat.is_negative t21
  check t23
  let t24 ← is_finite_non_zero t21
  check t24
  let t25 ← ApiFloat.is_denormal t21
  check t25
  let t26 ← ApiFloat.bitwise_eq t21 t22
  check t26

example : passes t_smallest = true := by decide +kernel

/-- tests/ieee.rs:1788 `smallest_normalized`. -/
def t_smallest_normalized_1 : M Unit := do
  let t1 ← (ApiFloat.smallest_normalized : M Single)
  let t2 ← (parse ("0x1p-126".toList) : M Single)
  let t3 ← ApiFloat.is_negative t1
  check (!t3)
  let t4 ← is_finite_non_zero t1
  check t4
  let t5 ← ApiFloat.is_denormal t1
  check (!t5)
  let t6 ← ApiFloat.bitwise_eq t1 t2
  check t6
  let t7 ← ApiFloat.is_smallest_normalized t1
  check t7
  let t8 ← (ApiFloat.smallest_normalized : M Single)
  let t9 ← ApiFloat.neg t8
  let t10 ← (parse ("-0x1p-126".toList) : M Single)
  let t11 ← ApiFloat.is_negative t9
  check t11
  let t12 ← is_finite_non_zero t9
  check t12
  let t13 ← ApiFloat.is_denormal t9
  check (!t13)
  let t14 ← ApiFloat.bitwise_eq t9 t10
  check t14
  let t15 ← ApiFloat.is_smallest_normalized t9
  check t15
  let t16 ← (ApiFloat.smallest_normalized : M Double)
  let t17 ← (parse ("0x1p-1022".toList) : M Double)
  let t18 ← ApiFloat.is_negative t16
  check (!t18)
  let t19 ← is_finite_non_zero t16
  check t19
  let t20 ← ApiFloat.is_denormal t16
  check (!t20)
  let t21 ← ApiFloat.bitwise_eq t16 t17
  check t21
  let t22 ← ApiFloat.is_smallest_normalized t16
  check t22
  let t23 ← (ApiFloat.smallest_normalized : M Double)
  let t24 ← ApiFloat.neg t23
  let t25 ← (parse ("-0x1p-1022".toList) : M Double)
  let t26 ← ApiFloat.is_negative t24
  check t26
  let t27 ← is_finite_non_zero t24
  check t27
  let t28 ← ApiFloat.is_denormal t24
  check (!t28)
  let t29 ← ApiFloat.bitwise_eq t24 t25
  check t29
  let t30 ← ApiFloat.is_smallest_normalized t24
  check t30
  let t31 ← (ApiFloat.smallest_normalized : M Quad)
  let t32 ← (parse ("0x1p-16382".toList) : M Quad)
  let t33 ← ApiFloat.is_negative t31
  check (!t33)
  let t34 ← is_finite_non_zero t31
  check t34
  let t35 ← ApiFloat.is_denormal t31
  check (!t35)
  let t36 ← ApiFloat.bitwise_eq t31 t32
  check t36

example : passes t_smallest_normalized_1 = true := by decide +kernel

/-- tests/ieee.rs:1788 `smallest_normalized`. -/
def t_smallest_normalized_2 : M Unit := do
  let t31 ← (ApiFloat.smallest_normalized : M Quad)
  let t37 ← ApiFloat.is_smallest_normalized t31
  check t37
  let t38 ← (ApiFloat.smallest_normalized : M Quad)
  let t39 ← ApiFloat.neg t38
  let t40 ← (parse ("-0x1p-16382".toList) : M Quad)
  let t41 ← ApiFloat.is_negative t39
  check t41
  let t42 ← is_finite_non_zero t39
  check t42
  let t43 ← ApiFloat.is_denormal t39
  check (!t43)
  let t44 ← ApiFloat.bitwise_eq t39 t40
  check t44
  let t45 ← ApiFloat.is_smallest_normalized t39
  check t45

example : passes t_smallest_normalized_2 = true := by decide +kernel

/-- tests/ieee.rs:1839 `zero`. -/
def t_zero_1 : M Unit := do
  let t1 ← (f32_lit 0x0 : M Single)
  let t2 ← from_f32 t1
  let t3 ← to_f32 t2
  let t4 ← IeeeFloat.eq t1 t3
  check t4
  let t5 ← (f32_lit 0x80000000 : M Single)
  let t6 ← from_f32 t5
  let t7 ← to_f32 t6
  let t8 ← IeeeFloat.eq t5 t7
  check t8
  let t9 ← from_f32 t5
  let t10 ← ApiFloat.is_negative t9
  check t10
  let t11 ← (f64_lit 0x0 : M Double)
  let t12 ← from_f64 t11
  let t13 ← to_f64 t12
  let t14 ← IeeeFloat.eq t11 t13
  check t14
  let t15 ← (f64_lit 0x8000000000000000 : M Double)
  let t16 ← from_f64 t15
  let t17 ← to_f64 t16
  let t18 ← IeeeFloat.eq t15 t17
  check t18
  let t19 ← from_f64 t15
  let t20 ← ApiFloat.is_negative t19
  check t20
  let t21 ← (ApiFloat.ZERO : M Half)
  let t22 ← (parse ("0x0p+0".toList) : M Half)
  let t23 ← is_zero t21
  check t23
  let t24 ← ApiFloat.is_negative t21
  check (decide (false = t24))
  let t25 ← ApiFloat.bitwise_eq t21 t22
  check t25
  let t26 ← ApiFloat.to_bits t21
  check (decide (0 = t26))
  let t27 ← (ApiFloat.ZERO : M Half)
  let t28 ← ApiFloat.neg t27
  let t29 ← (parse ("-0x0p+0".toList) : M Half)
  let t30 ← is_zero t28
  check t30
  let t31 ← ApiFloat.is_negative t28
  check (decide (true = t31))
  let t32 ← ApiFloat.bitwise_eq t28 t29
  check t32
  let t33 ← ApiFloat.to_bits t28
  check (decide (32768 = t33))
  let t34 ← (ApiFloat.ZERO : M Single)
  let t35 ← (parse ("0x0p+0".toList) : M Single)
  let t36 ← is_zero t34
  check t36
  let t37 ← ApiFloat.is_negative t34
  check (decide (false = t37))
  let t38 ← ApiFloat.bitwise_eq t34 t35
  check t38
  let t39 ← ApiFloat.to_bits t34
  check (decide (0 = t39))
  let t40 ← (ApiFloat.ZERO : M Single)
  let t41 ← ApiFloat.neg t40
  let _ ← (parse ("-0x0p+0".toList) : M Single)
  let t43 ← is_zero t41
  check t43

example : passes t_zero_1 = true := by decide +kernel

/-- tests/ieee.rs:1839 `zero`. -/
def t_zero_2 : M Unit := do
  let t40 ← (ApiFloat.ZERO : M Single)
  let t41 ← ApiFloat.neg t40
  let t42 ← (parse ("-0x0p+0".toList) : M Single)
  let t44 ← ApiFloat.is_negative t41
  check (decide (true = t44))
  let t45 ← ApiFloat.bitwise_eq t41 t42
  check t45
  let t46 ← ApiFloat.to_bits t41
  check (decide (2147483648 = t46))
  let t47 ← (ApiFloat.ZERO : M Double)
  let t48 ← (parse ("0x0p+0".toList) : M Double)
  let t49 ← is_zero t47
  check t49
  let t50 ← ApiFloat.is_negative t47
  check (decide (false = t50))
  let t51 ← ApiFloat.bitwise_eq t47 t48
  check t51
  let t52 ← ApiFloat.to_bits t47
  check (decide (0 = t52))
  let t53 ← (ApiFloat.ZERO : M Double)
  let t54 ← ApiFloat.neg t53
  let t55 ← (parse ("-0x0p+0".toList) : M Double)
  let t56 ← is_zero t54
  check t56
  let t57 ← ApiFloat.is_negative t54
  check (decide (true = t57))
  let t58 ← ApiFloat.bitwise_eq t54 t55
  check t58
  let t59 ← ApiFloat.to_bits t54
  check (decide (9223372036854775808 = t59))
  let t60 ← (ApiFloat.ZERO : M Quad)
  let t61 ← (parse ("0x0p+0".toList) : M Quad)
  let t62 ← is_zero t60
  check t62
  let t63 ← ApiFloat.is_negative t60
  check (decide (false = t63))
  let t64 ← ApiFloat.bitwise_eq t60 t61
  check t64
  let t65 ← ApiFloat.to_bits t60
  check (decide (0 = t65))
  let t66 ← (ApiFloat.ZERO : M Quad)
  let t67 ← ApiFloat.neg t66
  let t68 ← (parse ("-0x0p+0".toList) : M Quad)
  let t69 ← is_zero t67
  check t69
  let t70 ← ApiFloat.is_negative t67
  check (decide (true = t70))
  let t71 ← ApiFloat.bitwise_eq t67 t68
  check t71
  let t72 ← ApiFloat.to_bits t67
  check (decide (170141183460469231731687303715884105728 = t72))
  let t73 ← (ApiFloat.ZERO : M X87DoubleExtended)
  let t74 ← (parse ("0x0p+0".toList) : M X87DoubleExtended)
  let t75 ← is_zero t73
  check t75
  let t76 ← ApiFloat.is_negative t73
  check (decide (false = t76))
  let t77 ← ApiFloat.bitwise_eq t73 t74
  check t77
  let t78 ← ApiFloat.to_bits t73
  check (decide (0 = t78))
  let t79 ← (ApiFloat.ZERO : M X87DoubleExtended)
  let t80 ← ApiFloat.neg t79
  let _ ← (parse ("-0x0p+0".toList) : M X87DoubleExtended)
  let t82 ← is_zero t80
  check t82

example : passes t_zero_2 = true := by decide +kernel

/-- tests/ieee.rs:1839 `zero`. -/
def t_zero_3 : M Unit := do
  let t79 ← (ApiFloat.ZERO : M X87DoubleExtended)
  let t80 ← ApiFloat.neg t79
  let t81 ← (parse ("-0x0p+0".toList) : M X87DoubleExtended)
  let t83 ← ApiFloat.is_negative t80
  check (decide (true = t83))
  let t84 ← ApiFloat.bitwise_eq t80 t81
  check t84
  let t85 ← ApiFloat.to_bits t80
  check (decide (604462909807314587353088 = t85))
  let t86 ← (ApiFloat.ZERO : M Float8E5M2)
  let t87 ← (parse ("0x0p+0".toList) : M Float8E5M2)
  let t88 ← is_zero t86
  check t88
  let t89 ← ApiFloat.is_negative t86
  check (decide (false = t89))
  let t90 ← ApiFloat.bitwise_eq t86 t87
  check t90
  let t91 ← ApiFloat.to_bits t86
  check (decide (0 = t91))
  let t92 ← (ApiFloat.ZERO : M Float8E5M2)
  let t93 ← ApiFloat.neg t92
  let t94 ← (parse ("-0x0p+0".toList) : M Float8E5M2)
  let t95 ← is_zero t93
  check t95
  let t96 ← ApiFloat.is_negative t93
  check (decide (true = t96))
  let t97 ← ApiFloat.bitwise_eq t93 t94
  check t97
  let t98 ← ApiFloat.to_bits t93
  check (decide (128 = t98))
  let t99 ← (ApiFloat.ZERO : M Float8E4M3FN)
  let t100 ← (parse ("0x0p+0".toList) : M Float8E4M3FN)
  let t101 ← is_zero t99
  check t101
  let t102 ← ApiFloat.is_negative t99
  check (decide (false = t102))
  let t103 ← ApiFloat.bitwise_eq t99 t100
  check t103
  let t104 ← ApiFloat.to_bits t99
  check (decide (0 = t104))
  let t105 ← (ApiFloat.ZERO : M Float8E4M3FN)
  let t106 ← ApiFloat.neg t105
  let t107 ← (parse ("-0x0p+0".toList) : M Float8E4M3FN)
  let t108 ← is_zero t106
  check t108
  let t109 ← ApiFloat.is_negative t106
  check (decide (true = t109))
  let t110 ← ApiFloat.bitwise_eq t106 t107
  check t110
  let t111 ← ApiFloat.to_bits t106
  check (decide (128 = t111))

example : passes t_zero_3 = true := by decide +kernel

/-- tests/ieee.rs:1874 `copy_sign`. -/
def t_copy_sign : M Unit := do
  let t1 ← (f64_lit 0xc045000000000000 : M Double)
  let t2 ← from_f64 t1
  let t3 ← (f64_lit 0x4045000000000000 : M Double)
  let t4 ← from_f64 t3
  let t5 ← (f64_lit 0xbff0000000000000 : M Double)
  let t6 ← from_f64 t5
  let t7 ← ApiFloat.copy_sign t4 t6
  let t8 ← ApiFloat.bitwise_eq t2 t7
  check t8
  let t9 ← from_f64 t3
  let t10 ← from_f64 t1
  let t11 ← (f64_lit 0x3ff0000000000000 : M Double)
  let t12 ← from_f64 t11
  let t13 ← ApiFloat.copy_sign t10 t12
  let t14 ← ApiFloat.bitwise_eq t9 t13
  check t14
  let t15 ← from_f64 t1
  let t16 ← from_f64 t1
  let t17 ← from_f64 t5
  let t18 ← ApiFloat.copy_sign t16 t17
  let t19 ← ApiFloat.bitwise_eq t15 t18
  check t19
  let t20 ← from_f64 t3
  let t21 ← from_f64 t3
  let t22 ← from_f64 t11
  let t23 ← ApiFloat.copy_sign t21 t22
  let t24 ← ApiFloat.bitwise_eq t20 t23
  check t24

example : passes t_copy_sign = true := by decide +kernel

/-- tests/ieee.rs:1882 `convert`. -/
def t_convert_1 : M Unit := do
  let t1 ← (parse ("1.0".toList) : M Double)
  let t2 ← IeeeFloat.convertR doubleS singleS t1 Round.nearestTiesToEven
  let t3 ← to_f32 ((⟨(t2).status, (t2).value⟩ : StatusAnd Single)).value
  let t4 ← (f32_lit 0x3f800000 : M Single)
  let t5 ← IeeeFloat.eq t4 t3
  check t5
  check (!(t2).losesInfo)
  let t6 ← (parse ("0x1p-53".toList) : M X87DoubleExtended)
  let t7 ← (parse ("1.0".toList) : M X87DoubleExtended)
  let t8 ← Api.add t6 t7
  let t9 ← IeeeFloat.convertR x87S doubleS (t8).value Round.nearestTiesToEven
  let t10 ← to_f64 ((⟨(t9).status, (t9).value⟩ : StatusAnd Double)).value
  let t11 ← (f64_lit 0x3ff0000000000000 : M Double)
  let t12 ← IeeeFloat.eq t11 t10
  check t12
  check (t9).losesInfo
  let t13 ← (parse ("0x1p-53".toList) : M Quad)
  let t14 ← (parse ("1.0".toList) : M Quad)
  let t15 ← Api.add t13 t14
  let t16 ← IeeeFloat.convertR quadS doubleS (t15).value Round.nearestTiesToEven
  let t17 ← to_f64 ((⟨(t16).status, (t16).value⟩ : StatusAnd Double)).value
  let t18 ← IeeeFloat.eq t11 t17
  check t18
  check (t16).losesInfo
  let t19 ← (parse ("0xf.fffffffp+28".toList) : M X87DoubleExtended)
  let t20 ← IeeeFloat.convertR x87S doubleS t19 Round.nearestTiesToEven
  let t21 ← to_f64 ((⟨(t20).status, (t20).value⟩ : StatusAnd Double)).value
  let t22 ← (f64_lit 0x41efffffffe00000 : M Double)
  let t23 ← IeeeFloat.eq t22 t21
  check t23
  check (!(t20).losesInfo)
  let t24 ← (ApiFloat.snan none : M Single)
  let t25 ← IeeeFloat.convertR singleS x87S t24 Round.nearestTiesToEven
  let t26 ← (ApiFloat.qnan (some 6917529027641081856) : M X87DoubleExtended)
  let t27 ← ApiFloat.bitwise_eq ((⟨(t25).status, (t25).value⟩ : StatusAnd X87DoubleExtended)).value t26
  check t27
  check (!(t25).losesInfo)
  check (decide (((⟨(t25).status, (t25).value⟩ : StatusAnd X87DoubleExtended)).status = ({ invalidOp := true } : Status)))
  let t28 ← (ApiFloat.qnan none : M Single)
  let t29 ← (ApiFloat.qnan none : M X87DoubleExtended)
  let t30 ← IeeeFloat.convertR singleS x87S t28 Round.nearestTiesToEven
  let t31 ← ApiFloat.bitwise_eq ((⟨(t30).status, (t30).value⟩ : StatusAnd X87DoubleExtended)).value t29
  check t31
  check (!(t30).losesInfo)
  let t32 ← (ApiFloat.snan none : M Double)
  let t33 ← IeeeFloat.convertR doubleS x87S t32 Round.nearestTiesToEven
  let t34 ← (ApiFloat.qnan (some 6917529027641081856) : M X87DoubleExtended)
  let t35 ← ApiFloat.bitwise_eq ((⟨(t33).status, (t33).value⟩ : StatusAnd X87DoubleExtended)).value t34
  check t35
  check (!(t33).losesInfo)
  let t36 ← (ApiFloat.qnan none : M Double)
  let t37 ← IeeeFloat.convertR doubleS x87S t36 Round.nearestTiesToEven
  let t38 ← ApiFloat.bitwise_eq ((⟨(t37).status, (t37).value⟩ : StatusAnd X87DoubleExtended)).value t29
  check t38
  check (!(t37).losesInfo)
  let t39 ← (ApiFloat.snan (some 1) : M Double)
  let t40 ← IeeeFloat.convertR doubleS singleS t39 Round.nearestTiesToEven
  let t41 ← ApiFloat.to_bits ((⟨(t40).status, (t40).value⟩ : StatusAnd Single)).value
  check (decide (2143289344 = t41))
  check (t40).losesInfo

example : passes t_convert_1 = true := by decide +kernel

/-- tests/ieee.rs:1882 `convert`. -/
def t_convert_2 : M Unit := do
  let t39 ← (ApiFloat.snan (some 1) : M Double)
  let t40 ← IeeeFloat.convertR doubleS singleS t39 Round.nearestTiesToEven
  check (decide (((⟨(t40).status, (t40).value⟩ : StatusAnd Single)).status = ({ invalidOp := true } : Status)))
  let t42 ← (ApiFloat.qnan (some 1) : M Double)
  let t43 ← IeeeFloat.convertR doubleS singleS t42 Round.nearestTiesToEven
  let t44 ← ApiFloat.to_bits ((⟨(t43).status, (t43).value⟩ : StatusAnd Single)).value
  check (decide (2143289344 = t44))
  check (t43).losesInfo
  check (decide (((⟨(t43).status, (t43).value⟩ : StatusAnd Single)).status = Status.OK))
  let t45 ← (parse ("0x0.0000010000000p-1022".toList) : M Double)
  let t46 ← IeeeFloat.convertR doubleS singleS t45 Round.nearestTiesToEven
  let t47 ← to_f32 ((⟨(t46).status, (t46).value⟩ : StatusAnd Single)).value
  let t48 ← (f32_lit 0x0 : M Single)
  let t49 ← IeeeFloat.eq t48 t47
  check t49
  check (t46).losesInfo
  let t50 ← (parse ("0x0.0000010000001p-1022".toList) : M Double)
  let t51 ← IeeeFloat.convertR doubleS singleS t50 Round.nearestTiesToEven
  let t52 ← to_f32 ((⟨(t51).status, (t51).value⟩ : StatusAnd Single)).value
  let t53 ← IeeeFloat.eq t48 t52
  check t53
  check (t51).losesInfo
  let t54 ← (parse ("-0x0.0000010000001p-1022".toList) : M Double)
  let t55 ← IeeeFloat.convertR doubleS singleS t54 Round.nearestTiesToEven
  let t56 ← to_f32 ((⟨(t55).status, (t55).value⟩ : StatusAnd Single)).value
  let t57 ← IeeeFloat.eq t48 t56
  check t57
  check (t55).losesInfo
  let t58 ← (parse ("0x0.0000020000000p-1022".toList) : M Double)
  let t59 ← IeeeFloat.convertR doubleS singleS t58 Round.nearestTiesToEven
  let t60 ← to_f32 ((⟨(t59).status, (t59).value⟩ : StatusAnd Single)).value
  let t61 ← IeeeFloat.eq t48 t60
  check t61
  check (t59).losesInfo
  let t62 ← (parse ("0x0.0000020000001p-1022".toList) : M Double)
  let t63 ← IeeeFloat.convertR doubleS singleS t62 Round.nearestTiesToEven
  let t64 ← to_f32 ((⟨(t63).status, (t63).value⟩ : StatusAnd Single)).value
  let t65 ← IeeeFloat.eq t48 t64
  check t65
  check (t63).losesInfo
  let t66 ← (parse ("0x0.01p-126".toList) : M Single)
  let t67 ← IeeeFloat.convertR singleS bfloatS t66 Round.nearestTiesToEven
  let t68 ← to_f32 ((⟨(t67).status, (t67).value⟩ : StatusAnd BFloat)).value
  let t69 ← IeeeFloat.eq t48 t68
  check t69
  check (t67).losesInfo
  let t70 ← (parse ("0x0.02p-126".toList) : M Single)
  let t71 ← IeeeFloat.convertR singleS bfloatS t70 Round.nearestTiesToEven
  let t72 ← ApiFloat.to_bits ((⟨(t71).status, (t71).value⟩ : StatusAnd BFloat)).value
  check (decide (1 = t72))
  check (!(t71).losesInfo)
  let t73 ← (parse ("0x0.01p-126".toList) : M Single)
  let t74 ← IeeeFloat.convertR singleS bfloatS t73 Round.nearestTiesToAway
  let t75 ← ApiFloat.to_bits ((⟨(t74).status, (t74).value⟩ : StatusAnd BFloat)).value
  check (decide (1 = t75))
  check (t74).losesInfo

example : passes t_convert_2 = true := by decide +kernel

/-- tests/ieee.rs:1995 `is_negative`. -/
def t_is_negative : M Unit := do
  let t1 ← (parse ("0x1p+0".toList) : M Single)
  let t2 ← ApiFloat.is_negative t1
  check (!t2)
  let t3 ← (parse ("-0x1p+0".toList) : M Single)
  let t4 ← ApiFloat.is_negative t3
  check t4
  let t5 ← (ApiFloat.INFINITY : M Single)
  let t6 ← ApiFloat.is_negative t5
  check (!t6)
  let t7 ← (ApiFloat.INFINITY : M Single)
  let t8 ← ApiFloat.neg t7
  let t9 ← ApiFloat.is_negative t8
  check t9
  let t10 ← (ApiFloat.ZERO : M Single)
  let t11 ← ApiFloat.is_negative t10
  check (!t11)
  let t12 ← (ApiFloat.ZERO : M Single)
  let t13 ← ApiFloat.neg t12
  let t14 ← ApiFloat.is_negative t13
  check t14
  let t15 ← (ApiFloat.NAN : M Single)
  let t16 ← ApiFloat.is_negative t15
  check (!t16)
  let t17 ← (ApiFloat.NAN : M Single)
  let t18 ← ApiFloat.neg t17
  let t19 ← ApiFloat.is_negative t18
  check t19
  let t20 ← (ApiFloat.snan none : M Single)
  let t21 ← ApiFloat.is_negative t20
  check (!t21)
  let t22 ← (ApiFloat.snan none : M Single)
  let t23 ← ApiFloat.neg t22
  let t24 ← ApiFloat.is_negative t23
  check t24

example : passes t_is_negative = true := by decide +kernel

/-- tests/ieee.rs:2015 `is_normal`. -/
def t_is_normal : M Unit := do
  let t1 ← (parse ("0x1p+0".toList) : M Single)
  let t2 ← is_normal t1
  check t2
  let t3 ← (ApiFloat.INFINITY : M Single)
  let t4 ← is_normal t3
  check (!t4)
  let t5 ← (ApiFloat.ZERO : M Single)
  let t6 ← is_normal t5
  check (!t6)
  let t7 ← (ApiFloat.NAN : M Single)
  let t8 ← is_normal t7
  check (!t8)
  let t9 ← (ApiFloat.snan none : M Single)
  let t10 ← is_normal t9
  check (!t10)
  let t11 ← (parse ("0x1p-149".toList) : M Single)
  let t12 ← is_normal t11
  check (!t12)

example : passes t_is_normal = true := by decide +kernel

/-- tests/ieee.rs:2027 `is_finite`. -/
def t_is_finite : M Unit := do
  let t1 ← (parse ("0x1p+0".toList) : M Single)
  let t2 ← is_finite t1
  check t2
  let t3 ← (ApiFloat.INFINITY : M Single)
  let t4 ← is_finite t3
  check (!t4)
  let t5 ← (ApiFloat.ZERO : M Single)
  let t6 ← is_finite t5
  check t6
  let t7 ← (ApiFloat.NAN : M Single)
  let t8 ← is_finite t7
  check (!t8)
  let t9 ← (ApiFloat.snan none : M Single)
  let t10 ← is_finite t9
  check (!t10)
  let t11 ← (parse ("0x1p-149".toList) : M Single)
  let t12 ← is_finite t11
  check t12

example : passes t_is_finite = true := by decide +kernel

/-- tests/ieee.rs:2038 `is_infinite`. -/
def t_is_infinite : M Unit := do
  let t1 ← (parse ("0x1p+0".toList) : M Single)
  let t2 ← is_infinite t1
  check (!t2)
  let t3 ← (ApiFloat.INFINITY : M Single)
  let t4 ← (ApiFloat.INFINITY : M Single)
  let t5 ← ApiFloat.neg t4
  let t6 ← is_infinite t3
  check t6
  let t7 ← is_pos_infinity t3
  check t7
  let t8 ← is_neg_infinity t3
  check (!t8)
  let t9 ← is_infinite t5
  check t9
  let t10 ← is_pos_infinity t5
  check (!t10)
  let t11 ← is_neg_infinity t5
  check t11
  let t12 ← (ApiFloat.ZERO : M Single)
  let t13 ← is_infinite t12
  check (!t13)
  let t14 ← (ApiFloat.NAN : M Single)
  let t15 ← is_infinite t14
  check (!t15)
  let t16 ← (ApiFloat.snan none : M Single)
  let t17 ← is_infinite t16
  check (!t17)
  let t18 ← (parse ("0x1p-149".toList) : M Single)
  let t19 ← is_infinite t18
  check (!t19)

example : passes t_is_infinite = true := by decide +kernel

/-- tests/ieee.rs:2059 `is_nan`. -/
def t_is_nan : M Unit := do
  let t1 ← (parse ("0x1p+0".toList) : M Single)
  let t2 ← is_nan t1
  check (!t2)
  let t3 ← (ApiFloat.INFINITY : M Single)
  let t4 ← is_nan t3
  check (!t4)
  let t5 ← (ApiFloat.ZERO : M Single)
  let t6 ← is_nan t5
  check (!t6)
  let t7 ← (ApiFloat.NAN : M Single)
  let t8 ← is_nan t7
  check t8
  let t9 ← (ApiFloat.snan none : M Single)
  let t10 ← is_nan t9
  check t10
  let t11 ← (parse ("0x1p-149".toList) : M Single)
  let t12 ← is_nan t11
  check (!t12)

example : passes t_is_nan = true := by decide +kernel

/-- tests/ieee.rs:2070 `is_finite_non_zero`. -/
def t_is_finite_non_zero : M Unit := do
  let t1 ← (parse ("0x1p+0".toList) : M Single)
  let t2 ← is_finite_non_zero t1
  check t2
  let t3 ← (parse ("-0x1p+0".toList) : M Single)
  let t4 ← is_finite_non_zero t3
  check t4
  let t5 ← (parse ("0x1p-149".toList) : M Single)
  let t6 ← is_finite_non_zero t5
  check t6
  let t7 ← (parse ("-0x1p-149".toList) : M Single)
  let t8 ← is_finite_non_zero t7
  check t8
  let t9 ← (ApiFloat.INFINITY : M Single)
  let t10 ← is_finite_non_zero t9
  check (!t10)
  let t11 ← (ApiFloat.INFINITY : M Single)
  let t12 ← ApiFloat.neg t11
  let t13 ← is_finite_non_zero t12
  check (!t13)
  let t14 ← (ApiFloat.ZERO : M Single)
  let t15 ← is_finite_non_zero t14
  check (!t15)
  let t16 ← (ApiFloat.ZERO : M Single)
  let t17 ← ApiFloat.neg t16
  let t18 ← is_finite_non_zero t17
  check (!t18)
  let t19 ← (ApiFloat.NAN : M Single)
  let t20 ← is_finite_non_zero t19
  check (!t20)
  let t21 ← (ApiFloat.NAN : M Single)
  let t22 ← ApiFloat.neg t21
  let t23 ← is_finite_non_zero t22
  check (!t23)
  let t24 ← (ApiFloat.snan none : M Single)
  let t25 ← is_finite_non_zero t24
  check (!t25)
  let t26 ← (ApiFloat.snan none : M Single)
  let t27 ← ApiFloat.neg t26
  let t28 ← is_finite_non_zero t27
  check (!t28)

example : passes t_is_finite_non_zero = true := by decide +kernel

/-- tests/ieee.rs:2099 `add`. -/
def t_add_1 : M Unit := do
  let t1 ← (ApiFloat.INFINITY : M Single)
  let t2 ← (ApiFloat.INFINITY : M Single)
  let t3 ← ApiFloat.neg t2
  let t4 ← (ApiFloat.ZERO : M Single)
  let t5 ← (ApiFloat.ZERO : M Single)
  let t6 ← ApiFloat.neg t5
  let t7 ← (ApiFloat.NAN : M Single)
  let t8 ← (parse ("snan123".toList) : M Single)
  let _ ← (parse ("0x1p+0".toList) : M Single)
  let _ ← (parse ("-0x1p+0".toList) : M Single)
  let _ ← (ApiFloat.largest : M Single)
  let t12 ← (ApiFloat.largest : M Single)
  let _ ← ApiFloat.neg t12
  let _ ← (ApiFloat.SMALLEST : M Single)
  let t15 ← (ApiFloat.SMALLEST : M Single)
  let _ ← ApiFloat.neg t15
  let _ ← (ApiFloat.smallest_normalized : M Single)
  let t18 ← (ApiFloat.smallest_normalized : M Single)
  let _ ← ApiFloat.neg t18
  let t20 ← Api.add t1 t1
  check (decide (Status.OK = (t20).status))
  let t21 ← ApiFloat.category (t20).value
  check (decide (Category.infinity = t21))
  let t22 ← (parse ("inf".toList) : M Single)
  let t23 ← ApiFloat.bitwise_eq (t20).value t22
  check t23
  let t24 ← Api.add t1 t3
  check (decide (({ invalidOp := true } : Status) = (t24).status))
  let t25 ← ApiFloat.category (t24).value
  check (decide (Category.nan = t25))
  let t26 ← (parse ("nan".toList) : M Single)
  let t27 ← ApiFloat.bitwise_eq (t24).value t26
  check t27
  let t28 ← Api.add t1 t4
  check (decide (Status.OK = (t28).status))
  let t29 ← ApiFloat.category (t28).value
  check (decide (Category.infinity = t29))
  let t30 ← (parse ("inf".toList) : M Single)
  let t31 ← ApiFloat.bitwise_eq (t28).value t30
  check t31
  let t32 ← Api.add t1 t6
  check (decide (Status.OK = (t32).status))
  let t33 ← ApiFloat.category (t32).value
  check (decide (Category.infinity = t33))
  let t34 ← (parse ("inf".toList) : M Single)
  let t35 ← ApiFloat.bitwise_eq (t32).value t34
  check t35
  let t36 ← Api.add t1 t7
  check (decide (Status.OK = (t36).status))
  let t37 ← ApiFloat.category (t36).value
  check (decide (Category.nan = t37))
  let t38 ← (parse ("nan".toList) : M Single)
  let t39 ← ApiFloat.bitwise_eq (t36).value t38
  check t39
  let t40 ← Api.add t1 t8
  check (decide (({ invalidOp := true } : Status) = (t40).status))
  let t41 ← ApiFloat.category (t40).value
  check (decide (Category.nan = t41))
  let t42 ← (parse ("nan123".toList) : M Single)
  let t43 ← ApiFloat.bitwise_eq (t40).value t42
  check t43

example : passes t_add_1 = true := by decide +kernel

/-- tests/ieee.rs:2099 `add`. -/
def t_add_2 : M Unit := do
  let t1 ← (ApiFloat.INFINITY : M Single)
  let t2 ← (ApiFloat.INFINITY : M Single)
  let t3 ← ApiFloat.neg t2
  let t9 ← (parse ("0x1p+0".toList) : M Single)
  let t10 ← (parse ("-0x1p+0".toList) : M Single)
  let t11 ← (ApiFloat.largest : M Single)
  let t12 ← (ApiFloat.largest : M Single)
  let t13 ← ApiFloat.neg t12
  let t14 ← (ApiFloat.SMALLEST : M Single)
  let t15 ← (ApiFloat.SMALLEST : M Single)
  let t16 ← ApiFloat.neg t15
  let t17 ← (ApiFloat.smallest_normalized : M Single)
  let t18 ← (ApiFloat.smallest_normalized : M Single)
  let t19 ← ApiFloat.neg t18
  let t44 ← Api.add t1 t9
  check (decide (Status.OK = (t44).status))
  let t45 ← ApiFloat.category (t44).value
  check (decide (Category.infinity = t45))
  let t46 ← (parse ("inf".toList) : M Single)
  let t47 ← ApiFloat.bitwise_eq (t44).value t46
  check t47
  let t48 ← Api.add t1 t10
  check (decide (Status.OK = (t48).status))
  let t49 ← ApiFloat.category (t48).value
  check (decide (Category.infinity = t49))
  let t50 ← (parse ("inf".toList) : M Single)
  let t51 ← ApiFloat.bitwise_eq (t48).value t50
  check t51
  let t52 ← Api.add t1 t11
  check (decide (Status.OK = (t52).status))
  let t53 ← ApiFloat.category (t52).value
  check (decide (Category.infinity = t53))
  let t54 ← (parse ("inf".toList) : M Single)
  let t55 ← ApiFloat.bitwise_eq (t52).value t54
  check t55
  let t56 ← Api.add t1 t13
  check (decide (Status.OK = (t56).status))
  let t57 ← ApiFloat.category (t56).value
  check (decide (Category.infinity = t57))
  let t58 ← (parse ("inf".toList) : M Single)
  let t59 ← ApiFloat.bitwise_eq (t56).value t58
  check t59
  let t60 ← Api.add t1 t14
  check (decide (Status.OK = (t60).status))
  let t61 ← ApiFloat.category (t60).value
  check (decide (Category.infinity = t61))
  let t62 ← (parse ("inf".toList) : M Single)
  let t63 ← ApiFloat.bitwise_eq (t60).value t62
  check t63
  let t64 ← Api.add t1 t16
  check (decide (Status.OK = (t64).status))
  let t65 ← ApiFloat.category (t64).value
  check (decide (Category.infinity = t65))
  let t66 ← (parse ("inf".toList) : M Single)
  let t67 ← ApiFloat.bitwise_eq (t64).value t66
  check t67
  let t68 ← Api.add t1 t17
  check (decide (Status.OK = (t68).status))
  let t69 ← ApiFloat.category (t68).value
  check (decide (Category.infinity = t69))
  let t70 ← (parse ("inf".toList) : M Single)
  let t71 ← ApiFloat.bitwise_eq (t68).value t70
  check t71
  let t72 ← Api.add t1 t19
  check (decide (Status.OK = (t72).status))
  let t73 ← ApiFloat.category (t72).value
  check (decide (Category.infinity = t73))
  let t74 ← (parse ("inf".toList) : M Single)
  let t75 ← ApiFloat.bitwise_eq (t72).value t74
  check t75
  let t76 ← Api.add t3 t1
  check (decide (({ invalidOp := true } : Status) = (t76).status))
  let t77 ← ApiFloat.category (t76).value
  check (decide (Category.nan = t77))

example : passes t_add_2 = true := by decide +kernel

/-- tests/ieee.rs:2099 `add`. -/
def t_add_3 : M Unit := do
  let t1 ← (ApiFloat.INFINITY : M Single)
  let t2 ← (ApiFloat.INFINITY : M Single)
  let t3 ← ApiFloat.neg t2
  let t4 ← (ApiFloat.ZERO : M Single)
  let t5 ← (ApiFloat.ZERO : M Single)
  let t6 ← ApiFloat.neg t5
  let t7 ← (ApiFloat.NAN : M Single)
  let t8 ← (parse ("snan123".toList) : M Single)
  let t9 ← (parse ("0x1p+0".toList) : M Single)
  let t10 ← (parse ("-0x1p+0".toList) : M Single)
  let t11 ← (ApiFloat.largest : M Single)
  let t12 ← (ApiFloat.largest : M Single)
  let t13 ← ApiFloat.neg t12
  let t76 ← Api.add t3 t1
  let t78 ← (parse ("nan".toList) : M Single)
  let t79 ← ApiFloat.bitwise_eq (t76).value t78
  check t79
  let t80 ← Api.add t3 t3
  check (decide (Status.OK = (t80).status))
  let t81 ← ApiFloat.category (t80).value
  check (decide (Category.infinity = t81))
  let t82 ← (parse ("-inf".toList) : M Single)
  let t83 ← ApiFloat.bitwise_eq (t80).value t82
  check t83
  let t84 ← Api.add t3 t4
  check (decide (Status.OK = (t84).status))
  let t85 ← ApiFloat.category (t84).value
  check (decide (Category.infinity = t85))
  let t86 ← (parse ("-inf".toList) : M Single)
  let t87 ← ApiFloat.bitwise_eq (t84).value t86
  check t87
  let t88 ← Api.add t3 t6
  check (decide (Status.OK = (t88).status))
  let t89 ← ApiFloat.category (t88).value
  check (decide (Category.infinity = t89))
  let t90 ← (parse ("-inf".toList) : M Single)
  let t91 ← ApiFloat.bitwise_eq (t88).value t90
  check t91
  let t92 ← Api.add t3 t7
  check (decide (Status.OK = (t92).status))
  let t93 ← ApiFloat.category (t92).value
  check (decide (Category.nan = t93))
  let t94 ← (parse ("nan".toList) : M Single)
  let t95 ← ApiFloat.bitwise_eq (t92).value t94
  check t95
  let t96 ← Api.add t3 t8
  check (decide (({ invalidOp := true } : Status) = (t96).status))
  let t97 ← ApiFloat.category (t96).value
  check (decide (Category.nan = t97))
  let t98 ← (parse ("nan123".toList) : M Single)
  let t99 ← ApiFloat.bitwise_eq (t96).value t98
  check t99
  let t100 ← Api.add t3 t9
  check (decide (Status.OK = (t100).status))
  let t101 ← ApiFloat.category (t100).value
  check (decide (Category.infinity = t101))
  let t102 ← (parse ("-inf".toList) : M Single)
  let t103 ← ApiFloat.bitwise_eq (t100).value t102
  check t103
  let t104 ← Api.add t3 t10
  check (decide (Status.OK = (t104).status))
  let t105 ← ApiFloat.category (t104).value
  check (decide (Category.infinity = t105))
  let t106 ← (parse ("-inf".toList) : M Single)
  let t107 ← ApiFloat.bitwise_eq (t104).value t106
  check t107
  let t108 ← Api.add t3 t11
  check (decide (Status.OK = (t108).status))
  let t109 ← ApiFloat.category (t108).value
  check (decide (Category.infinity = t109))
  let t110 ← (parse ("-inf".toList) : M Single)
  let t111 ← ApiFloat.bitwise_eq (t108).value t110
  check t111
  let t112 ← Api.add t3 t13
  check (decide (Status.OK = (t112).status))

example : passes t_add_3 = true := by decide +kernel

/-- tests/ieee.rs:2099 `add`. -/
def t_add_4 : M Unit := do
  let t1 ← (ApiFloat.INFINITY : M Single)
  let t2 ← (ApiFloat.INFINITY : M Single)
  let t3 ← ApiFloat.neg t2
  let t4 ← (ApiFloat.ZERO : M Single)
  let t5 ← (ApiFloat.ZERO : M Single)
  let t6 ← ApiFloat.neg t5
  let t12 ← (ApiFloat.largest : M Single)
  let t13 ← ApiFloat.neg t12
  let t14 ← (ApiFloat.SMALLEST : M Single)
  let t15 ← (ApiFloat.SMALLEST : M Single)
  let t16 ← ApiFloat.neg t15
  let t17 ← (ApiFloat.smallest_normalized : M Single)
  let t18 ← (ApiFloat.smallest_normalized : M Single)
  let t19 ← ApiFloat.neg t18
  let t112 ← Api.add t3 t13
  let t113 ← ApiFloat.category (t112).value
  check (decide (Category.infinity = t113))
  let t114 ← (parse ("-inf".toList) : M Single)
  let t115 ← ApiFloat.bitwise_eq (t112).value t114
  check t115
  let t116 ← Api.add t3 t14
  check (decide (Status.OK = (t116).status))
  let t117 ← ApiFloat.category (t116).value
  check (decide (Category.infinity = t117))
  let t118 ← (parse ("-inf".toList) : M Single)
  let t119 ← ApiFloat.bitwise_eq (t116).value t118
  check t119
  let t120 ← Api.add t3 t16
  check (decide (Status.OK = (t120).status))
  let t121 ← ApiFloat.category (t120).value
  check (decide (Category.infinity = t121))
  let t122 ← (parse ("-inf".toList) : M Single)
  let t123 ← ApiFloat.bitwise_eq (t120).value t122
  check t123
  let t124 ← Api.add t3 t17
  check (decide (Status.OK = (t124).status))
  let t125 ← ApiFloat.category (t124).value
  check (decide (Category.infinity = t125))
  let t126 ← (parse ("-inf".toList) : M Single)
  let t127 ← ApiFloat.bitwise_eq (t124).value t126
  check t127
  let t128 ← Api.add t3 t19
  check (decide (Status.OK = (t128).status))
  let t129 ← ApiFloat.category (t128).value
  check (decide (Category.infinity = t129))
  let t130 ← (parse ("-inf".toList) : M Single)
  let t131 ← ApiFloat.bitwise_eq (t128).value t130
  check t131
  let t132 ← Api.add t4 t1
  check (decide (Status.OK = (t132).status))
  let t133 ← ApiFloat.category (t132).value
  check (decide (Category.infinity = t133))
  let t134 ← (parse ("inf".toList) : M Single)
  let t135 ← ApiFloat.bitwise_eq (t132).value t134
  check t135
  let t136 ← Api.add t4 t3
  check (decide (Status.OK = (t136).status))
  let t137 ← ApiFloat.category (t136).value
  check (decide (Category.infinity = t137))
  let t138 ← (parse ("-inf".toList) : M Single)
  let t139 ← ApiFloat.bitwise_eq (t136).value t138
  check t139
  let t140 ← Api.add t4 t4
  check (decide (Status.OK = (t140).status))
  let t141 ← ApiFloat.category (t140).value
  check (decide (Category.zero = t141))
  let t142 ← (parse ("0x0p+0".toList) : M Single)
  let t143 ← ApiFloat.bitwise_eq (t140).value t142
  check t143
  let t144 ← Api.add t4 t6
  check (decide (Status.OK = (t144).status))
  let t145 ← ApiFloat.category (t144).value
  check (decide (Category.zero = t145))
  let t146 ← (parse ("0x0p+0".toList) : M Single)
  let t147 ← ApiFloat.bitwise_eq (t144).value t146
  check t147

example : passes t_add_4 = true := by decide +kernel

/-- tests/ieee.rs:2099 `add`. -/
def t_add_5 : M Unit := do
  let t4 ← (ApiFloat.ZERO : M Single)
  let t7 ← (ApiFloat.NAN : M Single)
  let t8 ← (parse ("snan123".toList) : M Single)
  let t9 ← (parse ("0x1p+0".toList) : M Single)
  let t10 ← (parse ("-0x1p+0".toList) : M Single)
  let t11 ← (ApiFloat.largest : M Single)
  let t12 ← (ApiFloat.largest : M Single)
  let t13 ← ApiFloat.neg t12
  let t14 ← (ApiFloat.SMALLEST : M Single)
  let t15 ← (ApiFloat.SMALLEST : M Single)
  let t16 ← ApiFloat.neg t15
  let t17 ← (ApiFloat.smallest_normalized : M Single)
  let t148 ← Api.add t4 t7
  check (decide (Status.OK = (t148).status))
  let t149 ← ApiFloat.category (t148).value
  check (decide (Category.nan = t149))
  let t150 ← (parse ("nan".toList) : M Single)
  let t151 ← ApiFloat.bitwise_eq (t148).value t150
  check t151
  let t152 ← Api.add t4 t8
  check (decide (({ invalidOp := true } : Status) = (t152).status))
  let t153 ← ApiFloat.category (t152).value
  check (decide (Category.nan = t153))
  let t154 ← (parse ("nan123".toList) : M Single)
  let t155 ← ApiFloat.bitwise_eq (t152).value t154
  check t155
  let t156 ← Api.add t4 t9
  check (decide (Status.OK = (t156).status))
  let t157 ← ApiFloat.category (t156).value
  check (decide (Category.normal = t157))
  let t158 ← (parse ("0x1p+0".toList) : M Single)
  let t159 ← ApiFloat.bitwise_eq (t156).value t158
  check t159
  let t160 ← Api.add t4 t10
  check (decide (Status.OK = (t160).status))
  let t161 ← ApiFloat.category (t160).value
  check (decide (Category.normal = t161))
  let t162 ← (parse ("-0x1p+0".toList) : M Single)
  let t163 ← ApiFloat.bitwise_eq (t160).value t162
  check t163
  let t164 ← Api.add t4 t11
  check (decide (Status.OK = (t164).status))
  let t165 ← ApiFloat.category (t164).value
  check (decide (Category.normal = t165))
  let t166 ← (parse ("0x1.fffffep+127".toList) : M Single)
  let t167 ← ApiFloat.bitwise_eq (t164).value t166
  check t167
  let t168 ← Api.add t4 t13
  check (decide (Status.OK = (t168).status))
  let t169 ← ApiFloat.category (t168).value
  check (decide (Category.normal = t169))
  let t170 ← (parse ("-0x1.fffffep+127".toList) : M Single)
  let t171 ← ApiFloat.bitwise_eq (t168).value t170
  check t171
  let t172 ← Api.add t4 t14
  check (decide (Status.OK = (t172).status))
  let t173 ← ApiFloat.category (t172).value
  check (decide (Category.normal = t173))
  let t174 ← (parse ("0x1p-149".toList) : M Single)
  let t175 ← ApiFloat.bitwise_eq (t172).value t174
  check t175
  let t176 ← Api.add t4 t16
  check (decide (Status.OK = (t176).status))
  let t177 ← ApiFloat.category (t176).value
  check (decide (Category.normal = t177))
  let t178 ← (parse ("-0x1p-149".toList) : M Single)
  let t179 ← ApiFloat.bitwise_eq (t176).value t178
  check t179
  let t180 ← Api.add t4 t17
  check (decide (Status.OK = (t180).status))
  let t181 ← ApiFloat.category (t180).value
  check (decide (Category.normal = t181))

example : passes t_add_5 = true := by decide +kernel

/-- tests/ieee.rs:2099 `add`. -/
def t_add_6 : M Unit := do
  let t1 ← (ApiFloat.INFINITY : M Single)
  let t2 ← (ApiFloat.INFINITY : M Single)
  let t3 ← ApiFloat.neg t2
  let t4 ← (ApiFloat.ZERO : M Single)
  let t5 ← (ApiFloat.ZERO : M Single)
  let t6 ← ApiFloat.neg t5
  let t7 ← (ApiFloat.NAN : M Single)
  let t8 ← (parse ("snan123".toList) : M Single)
  let t9 ← (parse ("0x1p+0".toList) : M Single)
  let t10 ← (parse ("-0x1p+0".toList) : M Single)
  let t17 ← (ApiFloat.smallest_normalized : M Single)
  let t18 ← (ApiFloat.smallest_normalized : M Single)
  let t19 ← ApiFloat.neg t18
  let t180 ← Api.add t4 t17
  let t182 ← (parse ("0x1p-126".toList) : M Single)
  let t183 ← ApiFloat.bitwise_eq (t180).value t182
  check t183
  let t184 ← Api.add t4 t19
  check (decide (Status.OK = (t184).status))
  let t185 ← ApiFloat.category (t184).value
  check (decide (Category.normal = t185))
  let t186 ← (parse ("-0x1p-126".toList) : M Single)
  let t187 ← ApiFloat.bitwise_eq (t184).value t186
  check t187
  let t188 ← Api.add t6 t1
  check (decide (Status.OK = (t188).status))
  let t189 ← ApiFloat.category (t188).value
  check (decide (Category.infinity = t189))
  let t190 ← (parse ("inf".toList) : M Single)
  let t191 ← ApiFloat.bitwise_eq (t188).value t190
  check t191
  let t192 ← Api.add t6 t3
  check (decide (Status.OK = (t192).status))
  let t193 ← ApiFloat.category (t192).value
  check (decide (Category.infinity = t193))
  let t194 ← (parse ("-inf".toList) : M Single)
  let t195 ← ApiFloat.bitwise_eq (t192).value t194
  check t195
  let t196 ← Api.add t6 t4
  check (decide (Status.OK = (t196).status))
  let t197 ← ApiFloat.category (t196).value
  check (decide (Category.zero = t197))
  let t198 ← (parse ("0x0p+0".toList) : M Single)
  let t199 ← ApiFloat.bitwise_eq (t196).value t198
  check t199
  let t200 ← Api.add t6 t6
  check (decide (Status.OK = (t200).status))
  let t201 ← ApiFloat.category (t200).value
  check (decide (Category.zero = t201))
  let t202 ← (parse ("-0x0p+0".toList) : M Single)
  let t203 ← ApiFloat.bitwise_eq (t200).value t202
  check t203
  let t204 ← Api.add t6 t7
  check (decide (Status.OK = (t204).status))
  let t205 ← ApiFloat.category (t204).value
  check (decide (Category.nan = t205))
  let t206 ← (parse ("nan".toList) : M Single)
  let t207 ← ApiFloat.bitwise_eq (t204).value t206
  check t207
  let t208 ← Api.add t6 t8
  check (decide (({ invalidOp := true } : Status) = (t208).status))
  let t209 ← ApiFloat.category (t208).value
  check (decide (Category.nan = t209))
  let t210 ← (parse ("nan123".toList) : M Single)
  let t211 ← ApiFloat.bitwise_eq (t208).value t210
  check t211
  let t212 ← Api.add t6 t9
  check (decide (Status.OK = (t212).status))
  let t213 ← ApiFloat.category (t212).value
  check (decide (Category.normal = t213))
  let t214 ← (parse ("0x1p+0".toList) : M Single)
  let t215 ← ApiFloat.bitwise_eq (t212).value t214
  check t215
  let t216 ← Api.add t6 t10
  check (decide (Status.OK = (t216).status))

example : passes t_add_6 = true := by decide +kernel

/-- tests/ieee.rs:2099 `add`. -/
def t_add_7 : M Unit := do
  let t1 ← (ApiFloat.INFINITY : M Single)
  let t2 ← (ApiFloat.INFINITY : M Single)
  let t3 ← ApiFloat.neg t2
  let t5 ← (ApiFloat.ZERO : M Single)
  let t6 ← ApiFloat.neg t5
  let t7 ← (ApiFloat.NAN : M Single)
  let t10 ← (parse ("-0x1p+0".toList) : M Single)
  let t11 ← (ApiFloat.largest : M Single)
  let t12 ← (ApiFloat.largest : M Single)
  let t13 ← ApiFloat.neg t12
  let t14 ← (ApiFloat.SMALLEST : M Single)
  let t15 ← (ApiFloat.SMALLEST : M Single)
  let t16 ← ApiFloat.neg t15
  let t17 ← (ApiFloat.smallest_normalized : M Single)
  let t18 ← (ApiFloat.smallest_normalized : M Single)
  let t19 ← ApiFloat.neg t18
  let t216 ← Api.add t6 t10
  let t217 ← ApiFloat.category (t216).value
  check (decide (Category.normal = t217))
  let t218 ← (parse ("-0x1p+0".toList) : M Single)
  let t219 ← ApiFloat.bitwise_eq (t216).value t218
  check t219
  let t220 ← Api.add t6 t11
  check (decide (Status.OK = (t220).status))
  let t221 ← ApiFloat.category (t220).value
  check (decide (Category.normal = t221))
  let t222 ← (parse ("0x1.fffffep+127".toList) : M Single)
  let t223 ← ApiFloat.bitwise_eq (t220).value t222
  check t223
  let t224 ← Api.add t6 t13
  check (decide (Status.OK = (t224).status))
  let t225 ← ApiFloat.category (t224).value
  check (decide (Category.normal = t225))
  let t226 ← (parse ("-0x1.fffffep+127".toList) : M Single)
  let t227 ← ApiFloat.bitwise_eq (t224).value t226
  check t227
  let t228 ← Api.add t6 t14
  check (decide (Status.OK = (t228).status))
  let t229 ← ApiFloat.category (t228).value
  check (decide (Category.normal = t229))
  let t230 ← (parse ("0x1p-149".toList) : M Single)
  let t231 ← ApiFloat.bitwise_eq (t228).value t230
  check t231
  let t232 ← Api.add t6 t16
  check (decide (Status.OK = (t232).status))
  let t233 ← ApiFloat.category (t232).value
  check (decide (Category.normal = t233))
  let t234 ← (parse ("-0x1p-149".toList) : M Single)
  let t235 ← ApiFloat.bitwise_eq (t232).value t234
  check t235
  let t236 ← Api.add t6 t17
  check (decide (Status.OK = (t236).status))
  let t237 ← ApiFloat.category (t236).value
  check (decide (Category.normal = t237))
  let t238 ← (parse ("0x1p-126".toList) : M Single)
  let t239 ← ApiFloat.bitwise_eq (t236).value t238
  check t239
  let t240 ← Api.add t6 t19
  check (decide (Status.OK = (t240).status))
  let t241 ← ApiFloat.category (t240).value
  check (decide (Category.normal = t241))
  let t242 ← (parse ("-0x1p-126".toList) : M Single)
  let t243 ← ApiFloat.bitwise_eq (t240).value t242
  check t243
  let t244 ← Api.add t7 t1
  check (decide (Status.OK = (t244).status))
  let t245 ← ApiFloat.category (t244).value
  check (decide (Category.nan = t245))
  let t246 ← (parse ("nan".toList) : M Single)
  let t247 ← ApiFloat.bitwise_eq (t244).value t246
  check t247
  let t248 ← Api.add t7 t3
  check (decide (Status.OK = (t248).status))
  let t249 ← ApiFloat.category (t248).value
  check (decide (Category.nan = t249))
  let t250 ← (parse ("nan".toList) : M Single)
  let t251 ← ApiFloat.bitwise_eq (t248).value t250
  check t251

example : passes t_add_7 = true := by decide +kernel

/-- tests/ieee.rs:2099 `add`. -/
def t_add_8 : M Unit := do
  let t4 ← (ApiFloat.ZERO : M Single)
  let t5 ← (ApiFloat.ZERO : M Single)
  let t6 ← ApiFloat.neg t5
  let t7 ← (ApiFloat.NAN : M Single)
  let t8 ← (parse ("snan123".toList) : M Single)
  let t9 ← (parse ("0x1p+0".toList) : M Single)
  let t10 ← (parse ("-0x1p+0".toList) : M Single)
  let t11 ← (ApiFloat.largest : M Single)
  let t12 ← (ApiFloat.largest : M Single)
  let t13 ← ApiFloat.neg t12
  let t14 ← (ApiFloat.SMALLEST : M Single)
  let t252 ← Api.add t7 t4
  check (decide (Status.OK = (t252).status))
  let t253 ← ApiFloat.category (t252).value
  check (decide (Category.nan = t253))
  let t254 ← (parse ("nan".toList) : M Single)
  let t255 ← ApiFloat.bitwise_eq (t252).value t254
  check t255
  let t256 ← Api.add t7 t6
  check (decide (Status.OK = (t256).status))
  let t257 ← ApiFloat.category (t256).value
  check (decide (Category.nan = t257))
  let t258 ← (parse ("nan".toList) : M Single)
  let t259 ← ApiFloat.bitwise_eq (t256).value t258
  check t259
  let t260 ← Api.add t7 t7
  check (decide (Status.OK = (t260).status))
  let t261 ← ApiFloat.category (t260).value
  check (decide (Category.nan = t261))
  let t262 ← (parse ("nan".toList) : M Single)
  let t263 ← ApiFloat.bitwise_eq (t260).value t262
  check t263
  let t264 ← Api.add t7 t8
  check (decide (({ invalidOp := true } : Status) = (t264).status))
  let t265 ← ApiFloat.category (t264).value
  check (decide (Category.nan = t265))
  let t266 ← (parse ("nan".toList) : M Single)
  let t267 ← ApiFloat.bitwise_eq (t264).value t266
  check t267
  let t268 ← Api.add t7 t9
  check (decide (Status.OK = (t268).status))
  let t269 ← ApiFloat.category (t268).value
  check (decide (Category.nan = t269))
  let t270 ← (parse ("nan".toList) : M Single)
  let t271 ← ApiFloat.bitwise_eq (t268).value t270
  check t271
  let t272 ← Api.add t7 t10
  check (decide (Status.OK = (t272).status))
  let t273 ← ApiFloat.category (t272).value
  check (decide (Category.nan = t273))
  let t274 ← (parse ("nan".toList) : M Single)
  let t275 ← ApiFloat.bitwise_eq (t272).value t274
  check t275
  let t276 ← Api.add t7 t11
  check (decide (Status.OK = (t276).status))
  let t277 ← ApiFloat.category (t276).value
  check (decide (Category.nan = t277))
  let t278 ← (parse ("nan".toList) : M Single)
  let t279 ← ApiFloat.bitwise_eq (t276).value t278
  check t279
  let t280 ← Api.add t7 t13
  check (decide (Status.OK = (t280).status))
  let t281 ← ApiFloat.category (t280).value
  check (decide (Category.nan = t281))
  let t282 ← (parse ("nan".toList) : M Single)
  let t283 ← ApiFloat.bitwise_eq (t280).value t282
  check t283
  let t284 ← Api.add t7 t14
  check (decide (Status.OK = (t284).status))
  let t285 ← ApiFloat.category (t284).value
  check (decide (Category.nan = t285))

example : passes t_add_8 = true := by decide +kernel

/-- tests/ieee.rs:2099 `add`. -/
def t_add_9 : M Unit := do
  let t1 ← (ApiFloat.INFINITY : M Single)
  let t2 ← (ApiFloat.INFINITY : M Single)
  let t3 ← ApiFloat.neg t2
  let t4 ← (ApiFloat.ZERO : M Single)
  let t5 ← (ApiFloat.ZERO : M Single)
  let t6 ← ApiFloat.neg t5
  let t7 ← (ApiFloat.NAN : M Single)
  let t8 ← (parse ("snan123".toList) : M Single)
  let t14 ← (ApiFloat.SMALLEST : M Single)
  let t15 ← (ApiFloat.SMALLEST : M Single)
  let t16 ← ApiFloat.neg t15
  let t17 ← (ApiFloat.smallest_normalized : M Single)
  let t18 ← (ApiFloat.smallest_normalized : M Single)
  let t19 ← ApiFloat.neg t18
  let t284 ← Api.add t7 t14
  let t286 ← (parse ("nan".toList) : M Single)
  let t287 ← ApiFloat.bitwise_eq (t284).value t286
  check t287
  let t288 ← Api.add t7 t16
  check (decide (Status.OK = (t288).status))
  let t289 ← ApiFloat.category (t288).value
  check (decide (Category.nan = t289))
  let t290 ← (parse ("nan".toList) : M Single)
  let t291 ← ApiFloat.bitwise_eq (t288).value t290
  check t291
  let t292 ← Api.add t7 t17
  check (decide (Status.OK = (t292).status))
  let t293 ← ApiFloat.category (t292).value
  check (decide (Category.nan = t293))
  let t294 ← (parse ("nan".toList) : M Single)
  let t295 ← ApiFloat.bitwise_eq (t292).value t294
  check t295
  let t296 ← Api.add t7 t19
  check (decide (Status.OK = (t296).status))
  let t297 ← ApiFloat.category (t296).value
  check (decide (Category.nan = t297))
  let t298 ← (parse ("nan".toList) : M Single)
  let t299 ← ApiFloat.bitwise_eq (t296).value t298
  check t299
  let t300 ← Api.add t8 t1
  check (decide (({ invalidOp := true } : Status) = (t300).status))
  let t301 ← ApiFloat.category (t300).value
  check (decide (Category.nan = t301))
  let t302 ← (parse ("nan123".toList) : M Single)
  let t303 ← ApiFloat.bitwise_eq (t300).value t302
  check t303
  let t304 ← Api.add t8 t3
  check (decide (({ invalidOp := true } : Status) = (t304).status))
  let t305 ← ApiFloat.category (t304).value
  check (decide (Category.nan = t305))
  let t306 ← (parse ("nan123".toList) : M Single)
  let t307 ← ApiFloat.bitwise_eq (t304).value t306
  check t307
  let t308 ← Api.add t8 t4
  check (decide (({ invalidOp := true } : Status) = (t308).status))
  let t309 ← ApiFloat.category (t308).value
  check (decide (Category.nan = t309))
  let t310 ← (parse ("nan123".toList) : M Single)
  let t311 ← ApiFloat.bitwise_eq (t308).value t310
  check t311
  let t312 ← Api.add t8 t6
  check (decide (({ invalidOp := true } : Status) = (t312).status))
  let t313 ← ApiFloat.category (t312).value
  check (decide (Category.nan = t313))
  let t314 ← (parse ("nan123".toList) : M Single)
  let t315 ← ApiFloat.bitwise_eq (t312).value t314
  check t315
  let t316 ← Api.add t8 t7
  check (decide (({ invalidOp := true } : Status) = (t316).status))
  let t317 ← ApiFloat.category (t316).value
  check (decide (Category.nan = t317))
  let t318 ← (parse ("nan123".toList) : M Single)
  let t319 ← ApiFloat.bitwise_eq (t316).value t318
  check t319
  let t320 ← Api.add t8 t8
  check (decide (({ invalidOp := true } : Status) = (t320).status))

example : passes t_add_9 = true := by decide +kernel

/-- tests/ieee.rs:2099 `add`. -/
def t_add_10 : M Unit := do
  let t8 ← (parse ("snan123".toList) : M Single)
  let t9 ← (parse ("0x1p+0".toList) : M Single)
  let t10 ← (parse ("-0x1p+0".toList) : M Single)
  let t11 ← (ApiFloat.largest : M Single)
  let t12 ← (ApiFloat.largest : M Single)
  let t13 ← ApiFloat.neg t12
  let t14 ← (ApiFloat.SMALLEST : M Single)
  let t15 ← (ApiFloat.SMALLEST : M Single)
  let t16 ← ApiFloat.neg t15
  let t17 ← (ApiFloat.smallest_normalized : M Single)
  let t18 ← (ApiFloat.smallest_normalized : M Single)
  let t19 ← ApiFloat.neg t18
  let t320 ← Api.add t8 t8
  let t321 ← ApiFloat.category (t320).value
  check (decide (Category.nan = t321))
  let t322 ← (parse ("nan123".toList) : M Single)
  let t323 ← ApiFloat.bitwise_eq (t320).value t322
  check t323
  let t324 ← Api.add t8 t9
  check (decide (({ invalidOp := true } : Status) = (t324).status))
  let t325 ← ApiFloat.category (t324).value
  check (decide (Category.nan = t325))
  let t326 ← (parse ("nan123".toList) : M Single)
  let t327 ← ApiFloat.bitwise_eq (t324).value t326
  check t327
  let t328 ← Api.add t8 t10
  check (decide (({ invalidOp := true } : Status) = (t328).status))
  let t329 ← ApiFloat.category (t328).value
  check (decide (Category.nan = t329))
  let t330 ← (parse ("nan123".toList) : M Single)
  let t331 ← ApiFloat.bitwise_eq (t328).value t330
  check t331
  let t332 ← Api.add t8 t11
  check (decide (({ invalidOp := true } : Status) = (t332).status))
  let t333 ← ApiFloat.category (t332).value
  check (decide (Category.nan = t333))
  let t334 ← (parse ("nan123".toList) : M Single)
  let t335 ← ApiFloat.bitwise_eq (t332).value t334
  check t335
  let t336 ← Api.add t8 t13
  check (decide (({ invalidOp := true } : Status) = (t336).status))
  let t337 ← ApiFloat.category (t336).value
  check (decide (Category.nan = t337))
  let t338 ← (parse ("nan123".toList) : M Single)
  let t339 ← ApiFloat.bitwise_eq (t336).value t338
  check t339
  let t340 ← Api.add t8 t14
  check (decide (({ invalidOp := true } : Status) = (t340).status))
  let t341 ← ApiFloat.category (t340).value
  check (decide (Category.nan = t341))
  let t342 ← (parse ("nan123".toList) : M Single)
  let t343 ← ApiFloat.bitwise_eq (t340).value t342
  check t343
  let t344 ← Api.add t8 t16
  check (decide (({ invalidOp := true } : Status) = (t344).status))
  let t345 ← ApiFloat.category (t344).value
  check (decide (Category.nan = t345))
  let t346 ← (parse ("nan123".toList) : M Single)
  let t347 ← ApiFloat.bitwise_eq (t344).value t346
  check t347
  let t348 ← Api.add t8 t17
  check (decide (({ invalidOp := true } : Status) = (t348).status))
  let t349 ← ApiFloat.category (t348).value
  check (decide (Category.nan = t349))
  let t350 ← (parse ("nan123".toList) : M Single)
  let t351 ← ApiFloat.bitwise_eq (t348).value t350
  check t351
  let t352 ← Api.add t8 t19
  check (decide (({ invalidOp := true } : Status) = (t352).status))
  let t353 ← ApiFloat.category (t352).value
  check (decide (Category.nan = t353))
  let t354 ← (parse ("nan123".toList) : M Single)
  let t355 ← ApiFloat.bitwise_eq (t352).value t354
  check t355

example : passes t_add_10 = true := by decide +kernel

/-- tests/ieee.rs:2099 `add`. -/
def t_add_11 : M Unit := do
  let t1 ← (ApiFloat.INFINITY : M Single)
  let t2 ← (ApiFloat.INFINITY : M Single)
  let t3 ← ApiFloat.neg t2
  let t4 ← (ApiFloat.ZERO : M Single)
  let t5 ← (ApiFloat.ZERO : M Single)
  let t6 ← ApiFloat.neg t5
  let t7 ← (ApiFloat.NAN : M Single)
  let t8 ← (parse ("snan123".toList) : M Single)
  let t9 ← (parse ("0x1p+0".toList) : M Single)
  let t10 ← (parse ("-0x1p+0".toList) : M Single)
  let t11 ← (ApiFloat.largest : M Single)
  let t356 ← Api.add t9 t1
  check (decide (Status.OK = (t356).status))
  let t357 ← ApiFloat.category (t356).value
  check (decide (Category.infinity = t357))
  let t358 ← (parse ("inf".toList) : M Single)
  let t359 ← ApiFloat.bitwise_eq (t356).value t358
  check t359
  let t360 ← Api.add t9 t3
  check (decide (Status.OK = (t360).status))
  let t361 ← ApiFloat.category (t360).value
  check (decide (Category.infinity = t361))
  let t362 ← (parse ("-inf".toList) : M Single)
  let t363 ← ApiFloat.bitwise_eq (t360).value t362
  check t363
  let t364 ← Api.add t9 t4
  check (decide (Status.OK = (t364).status))
  let t365 ← ApiFloat.category (t364).value
  check (decide (Category.normal = t365))
  let t366 ← (parse ("0x1p+0".toList) : M Single)
  let t367 ← ApiFloat.bitwise_eq (t364).value t366
  check t367
  let t368 ← Api.add t9 t6
  check (decide (Status.OK = (t368).status))
  let t369 ← ApiFloat.category (t368).value
  check (decide (Category.normal = t369))
  let t370 ← (parse ("0x1p+0".toList) : M Single)
  let t371 ← ApiFloat.bitwise_eq (t368).value t370
  check t371
  let t372 ← Api.add t9 t7
  check (decide (Status.OK = (t372).status))
  let t373 ← ApiFloat.category (t372).value
  check (decide (Category.nan = t373))
  let t374 ← (parse ("nan".toList) : M Single)
  let t375 ← ApiFloat.bitwise_eq (t372).value t374
  check t375
  let t376 ← Api.add t9 t8
  check (decide (({ invalidOp := true } : Status) = (t376).status))
  let t377 ← ApiFloat.category (t376).value
  check (decide (Category.nan = t377))
  let t378 ← (parse ("nan123".toList) : M Single)
  let t379 ← ApiFloat.bitwise_eq (t376).value t378
  check t379
  let t380 ← Api.add t9 t9
  check (decide (Status.OK = (t380).status))
  let t381 ← ApiFloat.category (t380).value
  check (decide (Category.normal = t381))
  let t382 ← (parse ("0x1p+1".toList) : M Single)
  let t383 ← ApiFloat.bitwise_eq (t380).value t382
  check t383
  let t384 ← Api.add t9 t10
  check (decide (Status.OK = (t384).status))
  let t385 ← ApiFloat.category (t384).value
  check (decide (Category.zero = t385))
  let t386 ← (parse ("0x0p+0".toList) : M Single)
  let t387 ← ApiFloat.bitwise_eq (t384).value t386
  check t387
  let t388 ← Api.add t9 t11
  check (decide (({ inexact := true } : Status) = (t388).status))
  let t389 ← ApiFloat.category (t388).value
  check (decide (Category.normal = t389))

example : passes t_add_11 = true := by decide +kernel

/-- tests/ieee.rs:2099 `add`. -/
def t_add_12 : M Unit := do
  let t1 ← (ApiFloat.INFINITY : M Single)
  let t2 ← (ApiFloat.INFINITY : M Single)
  let t3 ← ApiFloat.neg t2
  let t4 ← (ApiFloat.ZERO : M Single)
  let t5 ← (ApiFloat.ZERO : M Single)
  let t6 ← ApiFloat.neg t5
  let t9 ← (parse ("0x1p+0".toList) : M Single)
  let t10 ← (parse ("-0x1p+0".toList) : M Single)
  let t11 ← (ApiFloat.largest : M Single)
  let t12 ← (ApiFloat.largest : M Single)
  let t13 ← ApiFloat.neg t12
  let t14 ← (ApiFloat.SMALLEST : M Single)
  let t15 ← (ApiFloat.SMALLEST : M Single)
  let t16 ← ApiFloat.neg t15
  let t17 ← (ApiFloat.smallest_normalized : M Single)
  let t18 ← (ApiFloat.smallest_normalized : M Single)
  let t19 ← ApiFloat.neg t18
  let t388 ← Api.add t9 t11
  let t390 ← (parse ("0x1.fffffep+127".toList) : M Single)
  let t391 ← ApiFloat.bitwise_eq (t388).value t390
  check t391
  let t392 ← Api.add t9 t13
  check (decide (({ inexact := true } : Status) = (t392).status))
  let t393 ← ApiFloat.category (t392).value
  check (decide (Category.normal = t393))
  let t394 ← (parse ("-0x1.fffffep+127".toList) : M Single)
  let t395 ← ApiFloat.bitwise_eq (t392).value t394
  check t395
  let t396 ← Api.add t9 t14
  check (decide (({ inexact := true } : Status) = (t396).status))
  let t397 ← ApiFloat.category (t396).value
  check (decide (Category.normal = t397))
  let t398 ← (parse ("0x1p+0".toList) : M Single)
  let t399 ← ApiFloat.bitwise_eq (t396).value t398
  check t399
  let t400 ← Api.add t9 t16
  check (decide (({ inexact := true } : Status) = (t400).status))
  let t401 ← ApiFloat.category (t400).value
  check (decide (Category.normal = t401))
  let t402 ← (parse ("0x1p+0".toList) : M Single)
  let t403 ← ApiFloat.bitwise_eq (t400).value t402
  check t403
  let t404 ← Api.add t9 t17
  check (decide (({ inexact := true } : Status) = (t404).status))
  let t405 ← ApiFloat.category (t404).value
  check (decide (Category.normal = t405))
  let t406 ← (parse ("0x1p+0".toList) : M Single)
  let t407 ← ApiFloat.bitwise_eq (t404).value t406
  check t407
  let t408 ← Api.add t9 t19
  check (decide (({ inexact := true } : Status) = (t408).status))
  let t409 ← ApiFloat.category (t408).value
  check (decide (Category.normal = t409))
  let t410 ← (parse ("0x1p+0".toList) : M Single)
  let t411 ← ApiFloat.bitwise_eq (t408).value t410
  check t411
  let t412 ← Api.add t10 t1
  check (decide (Status.OK = (t412).status))
  let t413 ← ApiFloat.category (t412).value
  check (decide (Category.infinity = t413))
  let t414 ← (parse ("inf".toList) : M Single)
  let t415 ← ApiFloat.bitwise_eq (t412).value t414
  check t415
  let t416 ← Api.add t10 t3
  check (decide (Status.OK = (t416).status))
  let t417 ← ApiFloat.category (t416).value
  check (decide (Category.infinity = t417))
  let t418 ← (parse ("-inf".toList) : M Single)
  let t419 ← ApiFloat.bitwise_eq (t416).value t418
  check t419
  let t420 ← Api.add t10 t4
  check (decide (Status.OK = (t420).status))
  let t421 ← ApiFloat.category (t420).value
  check (decide (Category.normal = t421))
  let t422 ← (parse ("-0x1p+0".toList) : M Single)
  let t423 ← ApiFloat.bitwise_eq (t420).value t422
  check t423
  let t424 ← Api.add t10 t6
  check (decide (Status.OK = (t424).status))

example : passes t_add_12 = true := by decide +kernel

/-- tests/ieee.rs:2099 `add`. -/
def t_add_13 : M Unit := do
  let t5 ← (ApiFloat.ZERO : M Single)
  let t6 ← ApiFloat.neg t5
  let t7 ← (ApiFloat.NAN : M Single)
  let t8 ← (parse ("snan123".toList) : M Single)
  let t9 ← (parse ("0x1p+0".toList) : M Single)
  let t10 ← (parse ("-0x1p+0".toList) : M Single)
  let t11 ← (ApiFloat.largest : M Single)
  let t12 ← (ApiFloat.largest : M Single)
  let t13 ← ApiFloat.neg t12
  let t14 ← (ApiFloat.SMALLEST : M Single)
  let t15 ← (ApiFloat.SMALLEST : M Single)
  let t16 ← ApiFloat.neg t15
  let t424 ← Api.add t10 t6
  let t425 ← ApiFloat.category (t424).value
  check (decide (Category.normal = t425))
  let t426 ← (parse ("-0x1p+0".toList) : M Single)
  let t427 ← ApiFloat.bitwise_eq (t424).value t426
  check t427
  let t428 ← Api.add t10 t7
  check (decide (Status.OK = (t428).status))
  let t429 ← ApiFloat.category (t428).value
  check (decide (Category.nan = t429))
  let t430 ← (parse ("nan".toList) : M Single)
  let t431 ← ApiFloat.bitwise_eq (t428).value t430
  check t431
  let t432 ← Api.add t10 t8
  check (decide (({ invalidOp := true } : Status) = (t432).status))
  let t433 ← ApiFloat.category (t432).value
  check (decide (Category.nan = t433))
  let t434 ← (parse ("nan123".toList) : M Single)
  let t435 ← ApiFloat.bitwise_eq (t432).value t434
  check t435
  let t436 ← Api.add t10 t9
  check (decide (Status.OK = (t436).status))
  let t437 ← ApiFloat.category (t436).value
  check (decide (Category.zero = t437))
  let t438 ← (parse ("0x0p+0".toList) : M Single)
  let t439 ← ApiFloat.bitwise_eq (t436).value t438
  check t439
  let t440 ← Api.add t10 t10
  check (decide (Status.OK = (t440).status))
  let t441 ← ApiFloat.category (t440).value
  check (decide (Category.normal = t441))
  let t442 ← (parse ("-0x1p+1".toList) : M Single)
  let t443 ← ApiFloat.bitwise_eq (t440).value t442
  check t443
  let t444 ← Api.add t10 t11
  check (decide (({ inexact := true } : Status) = (t444).status))
  let t445 ← ApiFloat.category (t444).value
  check (decide (Category.normal = t445))
  let t446 ← (parse ("0x1.fffffep+127".toList) : M Single)
  let t447 ← ApiFloat.bitwise_eq (t444).value t446
  check t447
  let t448 ← Api.add t10 t13
  check (decide (({ inexact := true } : Status) = (t448).status))
  let t449 ← ApiFloat.category (t448).value
  check (decide (Category.normal = t449))
  let t450 ← (parse ("-0x1.fffffep+127".toList) : M Single)
  let t451 ← ApiFloat.bitwise_eq (t448).value t450
  check t451
  let t452 ← Api.add t10 t14
  check (decide (({ inexact := true } : Status) = (t452).status))
  let t453 ← ApiFloat.category (t452).value
  check (decide (Category.normal = t453))
  let t454 ← (parse ("-0x1p+0".toList) : M Single)
  let t455 ← ApiFloat.bitwise_eq (t452).value t454
  check t455
  let t456 ← Api.add t10 t16
  check (decide (({ inexact := true } : Status) = (t456).status))
  let t457 ← ApiFloat.category (t456).value
  check (decide (Category.normal = t457))
  let t458 ← (parse ("-0x1p+0".toList) : M Single)
  let t459 ← ApiFloat.bitwise_eq (t456).value t458
  check t459

example : passes t_add_13 = true := by decide +kernel

/-- tests/ieee.rs:2099 `add`. -/
def t_add_14 : M Unit := do
  let t1 ← (ApiFloat.INFINITY : M Single)
  let t2 ← (ApiFloat.INFINITY : M Single)
  let t3 ← ApiFloat.neg t2
  let t4 ← (ApiFloat.ZERO : M Single)
  let t5 ← (ApiFloat.ZERO : M Single)
  let t6 ← ApiFloat.neg t5
  let t7 ← (ApiFloat.NAN : M Single)
  let t8 ← (parse ("snan123".toList) : M Single)
  let t9 ← (parse ("0x1p+0".toList) : M Single)
  let t10 ← (parse ("-0x1p+0".toList) : M Single)
  let t11 ← (ApiFloat.largest : M Single)
  let t17 ← (ApiFloat.smallest_normalized : M Single)
  let t18 ← (ApiFloat.smallest_normalized : M Single)
  let t19 ← ApiFloat.neg t18
  let t460 ← Api.add t10 t17
  check (decide (({ inexact := true } : Status) = (t460).status))
  let t461 ← ApiFloat.category (t460).value
  check (decide (Category.normal = t461))
  let t462 ← (parse ("-0x1p+0".toList) : M Single)
  let t463 ← ApiFloat.bitwise_eq (t460).value t462
  check t463
  let t464 ← Api.add t10 t19
  check (decide (({ inexact := true } : Status) = (t464).status))
  let t465 ← ApiFloat.category (t464).value
  check (decide (Category.normal = t465))
  let t466 ← (parse ("-0x1p+0".toList) : M Single)
  let t467 ← ApiFloat.bitwise_eq (t464).value t466
  check t467
  let t468 ← Api.add t11 t1
  check (decide (Status.OK = (t468).status))
  let t469 ← ApiFloat.category (t468).value
  check (decide (Category.infinity = t469))
  let t470 ← (parse ("inf".toList) : M Single)
  let t471 ← ApiFloat.bitwise_eq (t468).value t470
  check t471
  let t472 ← Api.add t11 t3
  check (decide (Status.OK = (t472).status))
  let t473 ← ApiFloat.category (t472).value
  check (decide (Category.infinity = t473))
  let t474 ← (parse ("-inf".toList) : M Single)
  let t475 ← ApiFloat.bitwise_eq (t472).value t474
  check t475
  let t476 ← Api.add t11 t4
  check (decide (Status.OK = (t476).status))
  let t477 ← ApiFloat.category (t476).value
  check (decide (Category.normal = t477))
  let t478 ← (parse ("0x1.fffffep+127".toList) : M Single)
  let t479 ← ApiFloat.bitwise_eq (t476).value t478
  check t479
  let t480 ← Api.add t11 t6
  check (decide (Status.OK = (t480).status))
  let t481 ← ApiFloat.category (t480).value
  check (decide (Category.normal = t481))
  let t482 ← (parse ("0x1.fffffep+127".toList) : M Single)
  let t483 ← ApiFloat.bitwise_eq (t480).value t482
  check t483
  let t484 ← Api.add t11 t7
  check (decide (Status.OK = (t484).status))
  let t485 ← ApiFloat.category (t484).value
  check (decide (Category.nan = t485))
  let t486 ← (parse ("nan".toList) : M Single)
  let t487 ← ApiFloat.bitwise_eq (t484).value t486
  check t487
  let t488 ← Api.add t11 t8
  check (decide (({ invalidOp := true } : Status) = (t488).status))
  let t489 ← ApiFloat.category (t488).value
  check (decide (Category.nan = t489))
  let t490 ← (parse ("nan123".toList) : M Single)
  let t491 ← ApiFloat.bitwise_eq (t488).value t490
  check t491
  let t492 ← Api.add t11 t9
  check (decide (({ inexact := true } : Status) = (t492).status))
  let t493 ← ApiFloat.category (t492).value
  check (decide (Category.normal = t493))

example : passes t_add_14 = true := by decide +kernel

/-- tests/ieee.rs:2099 `add`. -/
def t_add_15 : M Unit := do
  let t1 ← (ApiFloat.INFINITY : M Single)
  let t2 ← (ApiFloat.INFINITY : M Single)
  let t3 ← ApiFloat.neg t2
  let t9 ← (parse ("0x1p+0".toList) : M Single)
  let t10 ← (parse ("-0x1p+0".toList) : M Single)
  let t11 ← (ApiFloat.largest : M Single)
  let t12 ← (ApiFloat.largest : M Single)
  let t13 ← ApiFloat.neg t12
  let t14 ← (ApiFloat.SMALLEST : M Single)
  let t15 ← (ApiFloat.SMALLEST : M Single)
  let t16 ← ApiFloat.neg t15
  let t17 ← (ApiFloat.smallest_normalized : M Single)
  let t18 ← (ApiFloat.smallest_normalized : M Single)
  let t19 ← ApiFloat.neg t18
  let t492 ← Api.add t11 t9
  let t494 ← (parse ("0x1.fffffep+127".toList) : M Single)
  let t495 ← ApiFloat.bitwise_eq (t492).value t494
  check t495
  let t496 ← Api.add t11 t10
  check (decide (({ inexact := true } : Status) = (t496).status))
  let t497 ← ApiFloat.category (t496).value
  check (decide (Category.normal = t497))
  let t498 ← (parse ("0x1.fffffep+127".toList) : M Single)
  let t499 ← ApiFloat.bitwise_eq (t496).value t498
  check t499
  let t500 ← Api.add t11 t11
  check (decide (({ overflow := true, inexact := true } : Status) = (t500).status))
  let t501 ← ApiFloat.category (t500).value
  check (decide (Category.infinity = t501))
  let t502 ← (parse ("inf".toList) : M Single)
  let t503 ← ApiFloat.bitwise_eq (t500).value t502
  check t503
  let t504 ← Api.add t11 t13
  check (decide (Status.OK = (t504).status))
  let t505 ← ApiFloat.category (t504).value
  check (decide (Category.zero = t505))
  let t506 ← (parse ("0x0p+0".toList) : M Single)
  let t507 ← ApiFloat.bitwise_eq (t504).value t506
  check t507
  let t508 ← Api.add t11 t14
  check (decide (({ inexact := true } : Status) = (t508).status))
  let t509 ← ApiFloat.category (t508).value
  check (decide (Category.normal = t509))
  let t510 ← (parse ("0x1.fffffep+127".toList) : M Single)
  let t511 ← ApiFloat.bitwise_eq (t508).value t510
  check t511
  let t512 ← Api.add t11 t16
  check (decide (({ inexact := true } : Status) = (t512).status))
  let t513 ← ApiFloat.category (t512).value
  check (decide (Category.normal = t513))
  let t514 ← (parse ("0x1.fffffep+127".toList) : M Single)
  let t515 ← ApiFloat.bitwise_eq (t512).value t514
  check t515
  let t516 ← Api.add t11 t17
  check (decide (({ inexact := true } : Status) = (t516).status))
  let t517 ← ApiFloat.category (t516).value
  check (decide (Category.normal = t517))
  let t518 ← (parse ("0x1.fffffep+127".toList) : M Single)
  let t519 ← ApiFloat.bitwise_eq (t516).value t518
  check t519
  let t520 ← Api.add t11 t19
  check (decide (({ inexact := true } : Status) = (t520).status))
  let t521 ← ApiFloat.category (t520).value
  check (decide (Category.normal = t521))
  let t522 ← (parse ("0x1.fffffep+127".toList) : M Single)
  let t523 ← ApiFloat.bitwise_eq (t520).value t522
  check t523
  let t524 ← Api.add t13 t1
  check (decide (Status.OK = (t524).status))
  let t525 ← ApiFloat.category (t524).value
  check (decide (Category.infinity = t525))
  let t526 ← (parse ("inf".toList) : M Single)
  let t527 ← ApiFloat.bitwise_eq (t524).value t526
  check t527
  let t528 ← Api.add t13 t3
  check (decide (Status.OK = (t528).status))

example : passes t_add_15 = true := by decide +kernel

/-- tests/ieee.rs:2099 `add`. -/
def t_add_16 : M Unit := do
  let t2 ← (ApiFloat.INFINITY : M Single)
  let t3 ← ApiFloat.neg t2
  let t4 ← (ApiFloat.ZERO : M Single)
  let t5 ← (ApiFloat.ZERO : M Single)
  let t6 ← ApiFloat.neg t5
  let t7 ← (ApiFloat.NAN : M Single)
  let t8 ← (parse ("snan123".toList) : M Single)
  let t9 ← (parse ("0x1p+0".toList) : M Single)
  let t10 ← (parse ("-0x1p+0".toList) : M Single)
  let t11 ← (ApiFloat.largest : M Single)
  let t12 ← (ApiFloat.largest : M Single)
  let t13 ← ApiFloat.neg t12
  let t528 ← Api.add t13 t3
  let t529 ← ApiFloat.category (t528).value
  check (decide (Category.infinity = t529))
  let t530 ← (parse ("-inf".toList) : M Single)
  let t531 ← ApiFloat.bitwise_eq (t528).value t530
  check t531
  let t532 ← Api.add t13 t4
  check (decide (Status.OK = (t532).status))
  let t533 ← ApiFloat.category (t532).value
  check (decide (Category.normal = t533))
  let t534 ← (parse ("-0x1.fffffep+127".toList) : M Single)
  let t535 ← ApiFloat.bitwise_eq (t532).value t534
  check t535
  let t536 ← Api.add t13 t6
  check (decide (Status.OK = (t536).status))
  let t537 ← ApiFloat.category (t536).value
  check (decide (Category.normal = t537))
  let t538 ← (parse ("-0x1.fffffep+127".toList) : M Single)
  let t539 ← ApiFloat.bitwise_eq (t536).value t538
  check t539
  let t540 ← Api.add t13 t7
  check (decide (Status.OK = (t540).status))
  let t541 ← ApiFloat.category (t540).value
  check (decide (Category.nan = t541))
  let t542 ← (parse ("nan".toList) : M Single)
  let t543 ← ApiFloat.bitwise_eq (t540).value t542
  check t543
  let t544 ← Api.add t13 t8
  check (decide (({ invalidOp := true } : Status) = (t544).status))
  let t545 ← ApiFloat.category (t544).value
  check (decide (Category.nan = t545))
  let t546 ← (parse ("nan123".toList) : M Single)
  let t547 ← ApiFloat.bitwise_eq (t544).value t546
  check t547
  let t548 ← Api.add t13 t9
  check (decide (({ inexact := true } : Status) = (t548).status))
  let t549 ← ApiFloat.category (t548).value
  check (decide (Category.normal = t549))
  let t550 ← (parse ("-0x1.fffffep+127".toList) : M Single)
  let t551 ← ApiFloat.bitwise_eq (t548).value t550
  check t551
  let t552 ← Api.add t13 t10
  check (decide (({ inexact := true } : Status) = (t552).status))
  let t553 ← ApiFloat.category (t552).value
  check (decide (Category.normal = t553))
  let t554 ← (parse ("-0x1.fffffep+127".toList) : M Single)
  let t555 ← ApiFloat.bitwise_eq (t552).value t554
  check t555
  let t556 ← Api.add t13 t11
  check (decide (Status.OK = (t556).status))
  let t557 ← ApiFloat.category (t556).value
  check (decide (Category.zero = t557))
  let t558 ← (parse ("0x0p+0".toList) : M Single)
  let t559 ← ApiFloat.bitwise_eq (t556).value t558
  check t559
  let t560 ← Api.add t13 t13
  check (decide (({ overflow := true, inexact := true } : Status) = (t560).status))
  let t561 ← ApiFloat.category (t560).value
  check (decide (Category.infinity = t561))
  let t562 ← (parse ("-inf".toList) : M Single)
  let t563 ← ApiFloat.bitwise_eq (t560).value t562
  check t563

example : passes t_add_16 = true := by decide +kernel

/-- tests/ieee.rs:2099 `add`. -/
def t_add_17 : M Unit := do
  let t1 ← (ApiFloat.INFINITY : M Single)
  let t2 ← (ApiFloat.INFINITY : M Single)
  let t3 ← ApiFloat.neg t2
  let t4 ← (ApiFloat.ZERO : M Single)
  let t5 ← (ApiFloat.ZERO : M Single)
  let t6 ← ApiFloat.neg t5
  let t7 ← (ApiFloat.NAN : M Single)
  let t12 ← (ApiFloat.largest : M Single)
  let t13 ← ApiFloat.neg t12
  let t14 ← (ApiFloat.SMALLEST : M Single)
  let t15 ← (ApiFloat.SMALLEST : M Single)
  let t16 ← ApiFloat.neg t15
  let t17 ← (ApiFloat.smallest_normalized : M Single)
  let t18 ← (ApiFloat.smallest_normalized : M Single)
  let t19 ← ApiFloat.neg t18
  let t564 ← Api.add t13 t14
  check (decide (({ inexact := true } : Status) = (t564).status))
  let t565 ← ApiFloat.category (t564).value
  check (decide (Category.normal = t565))
  let t566 ← (parse ("-0x1.fffffep+127".toList) : M Single)
  let t567 ← ApiFloat.bitwise_eq (t564).value t566
  check t567
  let t568 ← Api.add t13 t16
  check (decide (({ inexact := true } : Status) = (t568).status))
  let t569 ← ApiFloat.category (t568).value
  check (decide (Category.normal = t569))
  let t570 ← (parse ("-0x1.fffffep+127".toList) : M Single)
  let t571 ← ApiFloat.bitwise_eq (t568).value t570
  check t571
  let t572 ← Api.add t13 t17
  check (decide (({ inexact := true } : Status) = (t572).status))
  let t573 ← ApiFloat.category (t572).value
  check (decide (Category.normal = t573))
  let t574 ← (parse ("-0x1.fffffep+127".toList) : M Single)
  let t575 ← ApiFloat.bitwise_eq (t572).value t574
  check t575
  let t576 ← Api.add t13 t19
  check (decide (({ inexact := true } : Status) = (t576).status))
  let t577 ← ApiFloat.category (t576).value
  check (decide (Category.normal = t577))
  let t578 ← (parse ("-0x1.fffffep+127".toList) : M Single)
  let t579 ← ApiFloat.bitwise_eq (t576).value t578
  check t579
  let t580 ← Api.add t14 t1
  check (decide (Status.OK = (t580).status))
  let t581 ← ApiFloat.category (t580).value
  check (decide (Category.infinity = t581))
  let t582 ← (parse ("inf".toList) : M Single)
  let t583 ← ApiFloat.bitwise_eq (t580).value t582
  check t583
  let t584 ← Api.add t14 t3
  check (decide (Status.OK = (t584).status))
  let t585 ← ApiFloat.category (t584).value
  check (decide (Category.infinity = t585))
  let t586 ← (parse ("-inf".toList) : M Single)
  let t587 ← ApiFloat.bitwise_eq (t584).value t586
  check t587
  let t588 ← Api.add t14 t4
  check (decide (Status.OK = (t588).status))
  let t589 ← ApiFloat.category (t588).value
  check (decide (Category.normal = t589))
  let t590 ← (parse ("0x1p-149".toList) : M Single)
  let t591 ← ApiFloat.bitwise_eq (t588).value t590
  check t591
  let t592 ← Api.add t14 t6
  check (decide (Status.OK = (t592).status))
  let t593 ← ApiFloat.category (t592).value
  check (decide (Category.normal = t593))
  let t594 ← (parse ("0x1p-149".toList) : M Single)
  let t595 ← ApiFloat.bitwise_eq (t592).value t594
  check t595
  let t596 ← Api.add t14 t7
  check (decide (Status.OK = (t596).status))
  let t597 ← ApiFloat.category (t596).value
  check (decide (Category.nan = t597))

example : passes t_add_17 = true := by decide +kernel

/-- tests/ieee.rs:2099 `add`. -/
def t_add_18 : M Unit := do
  let t7 ← (ApiFloat.NAN : M Single)
  let t8 ← (parse ("snan123".toList) : M Single)
  let t9 ← (parse ("0x1p+0".toList) : M Single)
  let t10 ← (parse ("-0x1p+0".toList) : M Single)
  let t11 ← (ApiFloat.largest : M Single)
  let t12 ← (ApiFloat.largest : M Single)
  let t13 ← ApiFloat.neg t12
  let t14 ← (ApiFloat.SMALLEST : M Single)
  let t15 ← (ApiFloat.SMALLEST : M Single)
  let t16 ← ApiFloat.neg t15
  let t17 ← (ApiFloat.smallest_normalized : M Single)
  let t18 ← (ApiFloat.smallest_normalized : M Single)
  let t19 ← ApiFloat.neg t18
  let t596 ← Api.add t14 t7
  let t598 ← (parse ("nan".toList) : M Single)
  let t599 ← ApiFloat.bitwise_eq (t596).value t598
  check t599
  let t600 ← Api.add t14 t8
  check (decide (({ invalidOp := true } : Status) = (t600).status))
  let t601 ← ApiFloat.category (t600).value
  check (decide (Category.nan = t601))
  let t602 ← (parse ("nan123".toList) : M Single)
  let t603 ← ApiFloat.bitwise_eq (t600).value t602
  check t603
  let t604 ← Api.add t14 t9
  check (decide (({ inexact := true } : Status) = (t604).status))
  let t605 ← ApiFloat.category (t604).value
  check (decide (Category.normal = t605))
  let t606 ← (parse ("0x1p+0".toList) : M Single)
  let t607 ← ApiFloat.bitwise_eq (t604).value t606
  check t607
  let t608 ← Api.add t14 t10
  check (decide (({ inexact := true } : Status) = (t608).status))
  let t609 ← ApiFloat.category (t608).value
  check (decide (Category.normal = t609))
  let t610 ← (parse ("-0x1p+0".toList) : M Single)
  let t611 ← ApiFloat.bitwise_eq (t608).value t610
  check t611
  let t612 ← Api.add t14 t11
  check (decide (({ inexact := true } : Status) = (t612).status))
  let t613 ← ApiFloat.category (t612).value
  check (decide (Category.normal = t613))
  let t614 ← (parse ("0x1.fffffep+127".toList) : M Single)
  let t615 ← ApiFloat.bitwise_eq (t612).value t614
  check t615
  let t616 ← Api.add t14 t13
  check (decide (({ inexact := true } : Status) = (t616).status))
  let t617 ← ApiFloat.category (t616).value
  check (decide (Category.normal = t617))
  let t618 ← (parse ("-0x1.fffffep+127".toList) : M Single)
  let t619 ← ApiFloat.bitwise_eq (t616).value t618
  check t619
  let t620 ← Api.add t14 t14
  check (decide (Status.OK = (t620).status))
  let t621 ← ApiFloat.category (t620).value
  check (decide (Category.normal = t621))
  let t622 ← (parse ("0x1p-148".toList) : M Single)
  let t623 ← ApiFloat.bitwise_eq (t620).value t622
  check t623
  let t624 ← Api.add t14 t16
  check (decide (Status.OK = (t624).status))
  let t625 ← ApiFloat.category (t624).value
  check (decide (Category.zero = t625))
  let t626 ← (parse ("0x0p+0".toList) : M Single)
  let t627 ← ApiFloat.bitwise_eq (t624).value t626
  check t627
  let t628 ← Api.add t14 t17
  check (decide (Status.OK = (t628).status))
  let t629 ← ApiFloat.category (t628).value
  check (decide (Category.normal = t629))
  let t630 ← (parse ("0x1.000002p-126".toList) : M Single)
  let t631 ← ApiFloat.bitwise_eq (t628).value t630
  check t631
  let t632 ← Api.add t14 t19
  check (decide (Status.OK = (t632).status))

example : passes t_add_18 = true := by decide +kernel

/-- tests/ieee.rs:2099 `add`. -/
def t_add_19 : M Unit := do
  let t1 ← (ApiFloat.INFINITY : M Single)
  let t2 ← (ApiFloat.INFINITY : M Single)
  let t3 ← ApiFloat.neg t2
  let t4 ← (ApiFloat.ZERO : M Single)
  let t5 ← (ApiFloat.ZERO : M Single)
  let t6 ← ApiFloat.neg t5
  let t7 ← (ApiFloat.NAN : M Single)
  let t8 ← (parse ("snan123".toList) : M Single)
  let t9 ← (parse ("0x1p+0".toList) : M Single)
  let t10 ← (parse ("-0x1p+0".toList) : M Single)
  let t14 ← (ApiFloat.SMALLEST : M Single)
  let t15 ← (ApiFloat.SMALLEST : M Single)
  let t16 ← ApiFloat.neg t15
  let t18 ← (ApiFloat.smallest_normalized : M Single)
  let t19 ← ApiFloat.neg t18
  let t632 ← Api.add t14 t19
  let t633 ← ApiFloat.category (t632).value
  check (decide (Category.normal = t633))
  let t634 ← (parse ("-0x1.fffffcp-127".toList) : M Single)
  let t635 ← ApiFloat.bitwise_eq (t632).value t634
  check t635
  let t636 ← Api.add t16 t1
  check (decide (Status.OK = (t636).status))
  let t637 ← ApiFloat.category (t636).value
  check (decide (Category.infinity = t637))
  let t638 ← (parse ("inf".toList) : M Single)
  let t639 ← ApiFloat.bitwise_eq (t636).value t638
  check t639
  let t640 ← Api.add t16 t3
  check (decide (Status.OK = (t640).status))
  let t641 ← ApiFloat.category (t640).value
  check (decide (Category.infinity = t641))
  let t642 ← (parse ("-inf".toList) : M Single)
  let t643 ← ApiFloat.bitwise_eq (t640).value t642
  check t643
  let t644 ← Api.add t16 t4
  check (decide (Status.OK = (t644).status))
  let t645 ← ApiFloat.category (t644).value
  check (decide (Category.normal = t645))
  let t646 ← (parse ("-0x1p-149".toList) : M Single)
  let t647 ← ApiFloat.bitwise_eq (t644).value t646
  check t647
  let t648 ← Api.add t16 t6
  check (decide (Status.OK = (t648).status))
  let t649 ← ApiFloat.category (t648).value
  check (decide (Category.normal = t649))
  let t650 ← (parse ("-0x1p-149".toList) : M Single)
  let t651 ← ApiFloat.bitwise_eq (t648).value t650
  check t651
  let t652 ← Api.add t16 t7
  check (decide (Status.OK = (t652).status))
  let t653 ← ApiFloat.category (t652).value
  check (decide (Category.nan = t653))
  let t654 ← (parse ("nan".toList) : M Single)
  let t655 ← ApiFloat.bitwise_eq (t652).value t654
  check t655
  let t656 ← Api.add t16 t8
  check (decide (({ invalidOp := true } : Status) = (t656).status))
  let t657 ← ApiFloat.category (t656).value
  check (decide (Category.nan = t657))
  let t658 ← (parse ("nan123".toList) : M Single)
  let t659 ← ApiFloat.bitwise_eq (t656).value t658
  check t659
  let t660 ← Api.add t16 t9
  check (decide (({ inexact := true } : Status) = (t660).status))
  let t661 ← ApiFloat.category (t660).value
  check (decide (Category.normal = t661))
  let t662 ← (parse ("0x1p+0".toList) : M Single)
  let t663 ← ApiFloat.bitwise_eq (t660).value t662
  check t663
  let t664 ← Api.add t16 t10
  check (decide (({ inexact := true } : Status) = (t664).status))
  let t665 ← ApiFloat.category (t664).value
  check (decide (Category.normal = t665))
  let t666 ← (parse ("-0x1p+0".toList) : M Single)
  let t667 ← ApiFloat.bitwise_eq (t664).value t666
  check t667

example : passes t_add_19 = true := by decide +kernel

/-- tests/ieee.rs:2099 `add`. -/
def t_add_20 : M Unit := do
  let t1 ← (ApiFloat.INFINITY : M Single)
  let t2 ← (ApiFloat.INFINITY : M Single)
  let t3 ← ApiFloat.neg t2
  let t4 ← (ApiFloat.ZERO : M Single)
  let t11 ← (ApiFloat.largest : M Single)
  let t12 ← (ApiFloat.largest : M Single)
  let t13 ← ApiFloat.neg t12
  let t14 ← (ApiFloat.SMALLEST : M Single)
  let t15 ← (ApiFloat.SMALLEST : M Single)
  let t16 ← ApiFloat.neg t15
  let t17 ← (ApiFloat.smallest_normalized : M Single)
  let t18 ← (ApiFloat.smallest_normalized : M Single)
  let t19 ← ApiFloat.neg t18
  let t668 ← Api.add t16 t11
  check (decide (({ inexact := true } : Status) = (t668).status))
  let t669 ← ApiFloat.category (t668).value
  check (decide (Category.normal = t669))
  let t670 ← (parse ("0x1.fffffep+127".toList) : M Single)
  let t671 ← ApiFloat.bitwise_eq (t668).value t670
  check t671
  let t672 ← Api.add t16 t13
  check (decide (({ inexact := true } : Status) = (t672).status))
  let t673 ← ApiFloat.category (t672).value
  check (decide (Category.normal = t673))
  let t674 ← (parse ("-0x1.fffffep+127".toList) : M Single)
  let t675 ← ApiFloat.bitwise_eq (t672).value t674
  check t675
  let t676 ← Api.add t16 t14
  check (decide (Status.OK = (t676).status))
  let t677 ← ApiFloat.category (t676).value
  check (decide (Category.zero = t677))
  let t678 ← (parse ("0x0p+0".toList) : M Single)
  let t679 ← ApiFloat.bitwise_eq (t676).value t678
  check t679
  let t680 ← Api.add t16 t16
  check (decide (Status.OK = (t680).status))
  let t681 ← ApiFloat.category (t680).value
  check (decide (Category.normal = t681))
  let t682 ← (parse ("-0x1p-148".toList) : M Single)
  let t683 ← ApiFloat.bitwise_eq (t680).value t682
  check t683
  let t684 ← Api.add t16 t17
  check (decide (Status.OK = (t684).status))
  let t685 ← ApiFloat.category (t684).value
  check (decide (Category.normal = t685))
  let t686 ← (parse ("0x1.fffffcp-127".toList) : M Single)
  let t687 ← ApiFloat.bitwise_eq (t684).value t686
  check t687
  let t688 ← Api.add t16 t19
  check (decide (Status.OK = (t688).status))
  let t689 ← ApiFloat.category (t688).value
  check (decide (Category.normal = t689))
  let t690 ← (parse ("-0x1.000002p-126".toList) : M Single)
  let t691 ← ApiFloat.bitwise_eq (t688).value t690
  check t691
  let t692 ← Api.add t17 t1
  check (decide (Status.OK = (t692).status))
  let t693 ← ApiFloat.category (t692).value
  check (decide (Category.infinity = t693))
  let t694 ← (parse ("inf".toList) : M Single)
  let t695 ← ApiFloat.bitwise_eq (t692).value t694
  check t695
  let t696 ← Api.add t17 t3
  check (decide (Status.OK = (t696).status))
  let t697 ← ApiFloat.category (t696).value
  check (decide (Category.infinity = t697))
  let t698 ← (parse ("-inf".toList) : M Single)
  let t699 ← ApiFloat.bitwise_eq (t696).value t698
  check t699
  let t700 ← Api.add t17 t4
  check (decide (Status.OK = (t700).status))
  let t701 ← ApiFloat.category (t700).value
  check (decide (Category.normal = t701))

example : passes t_add_20 = true := by decide +kernel

/-- tests/ieee.rs:2099 `add`. -/
def t_add_21 : M Unit := do
  let t4 ← (ApiFloat.ZERO : M Single)
  let t5 ← (ApiFloat.ZERO : M Single)
  let t6 ← ApiFloat.neg t5
  let t7 ← (ApiFloat.NAN : M Single)
  let t8 ← (parse ("snan123".toList) : M Single)
  let t9 ← (parse ("0x1p+0".toList) : M Single)
  let t10 ← (parse ("-0x1p+0".toList) : M Single)
  let t11 ← (ApiFloat.largest : M Single)
  let t12 ← (ApiFloat.largest : M Single)
  let t13 ← ApiFloat.neg t12
  let t14 ← (ApiFloat.SMALLEST : M Single)
  let t15 ← (ApiFloat.SMALLEST : M Single)
  let t16 ← ApiFloat.neg t15
  let t17 ← (ApiFloat.smallest_normalized : M Single)
  let t700 ← Api.add t17 t4
  let t702 ← (parse ("0x1p-126".toList) : M Single)
  let t703 ← ApiFloat.bitwise_eq (t700).value t702
  check t703
  let t704 ← Api.add t17 t6
  check (decide (Status.OK = (t704).status))
  let t705 ← ApiFloat.category (t704).value
  check (decide (Category.normal = t705))
  let t706 ← (parse ("0x1p-126".toList) : M Single)
  let t707 ← ApiFloat.bitwise_eq (t704).value t706
  check t707
  let t708 ← Api.add t17 t7
  check (decide (Status.OK = (t708).status))
  let t709 ← ApiFloat.category (t708).value
  check (decide (Category.nan = t709))
  let t710 ← (parse ("nan".toList) : M Single)
  let t711 ← ApiFloat.bitwise_eq (t708).value t710
  check t711
  let t712 ← Api.add t17 t8
  check (decide (({ invalidOp := true } : Status) = (t712).status))
  let t713 ← ApiFloat.category (t712).value
  check (decide (Category.nan = t713))
  let t714 ← (parse ("nan123".toList) : M Single)
  let t715 ← ApiFloat.bitwise_eq (t712).value t714
  check t715
  let t716 ← Api.add t17 t9
  check (decide (({ inexact := true } : Status) = (t716).status))
  let t717 ← ApiFloat.category (t716).value
  check (decide (Category.normal = t717))
  let t718 ← (parse ("0x1p+0".toList) : M Single)
  let t719 ← ApiFloat.bitwise_eq (t716).value t718
  check t719
  let t720 ← Api.add t17 t10
  check (decide (({ inexact := true } : Status) = (t720).status))
  let t721 ← ApiFloat.category (t720).value
  check (decide (Category.normal = t721))
  let t722 ← (parse ("-0x1p+0".toList) : M Single)
  let t723 ← ApiFloat.bitwise_eq (t720).value t722
  check t723
  let t724 ← Api.add t17 t11
  check (decide (({ inexact := true } : Status) = (t724).status))
  let t725 ← ApiFloat.category (t724).value
  check (decide (Category.normal = t725))
  let t726 ← (parse ("0x1.fffffep+127".toList) : M Single)
  let t727 ← ApiFloat.bitwise_eq (t724).value t726
  check t727
  let t728 ← Api.add t17 t13
  check (decide (({ inexact := true } : Status) = (t728).status))
  let t729 ← ApiFloat.category (t728).value
  check (decide (Category.normal = t729))
  let t730 ← (parse ("-0x1.fffffep+127".toList) : M Single)
  let t731 ← ApiFloat.bitwise_eq (t728).value t730
  check t731
  let t732 ← Api.add t17 t14
  check (decide (Status.OK = (t732).status))
  let t733 ← ApiFloat.category (t732).value
  check (decide (Category.normal = t733))
  let t734 ← (parse ("0x1.000002p-126".toList) : M Single)
  let t735 ← ApiFloat.bitwise_eq (t732).value t734
  check t735
  let t736 ← Api.add t17 t16
  check (decide (Status.OK = (t736).status))

example : passes t_add_21 = true := by decide +kernel

/-- tests/ieee.rs:2099 `add`. -/
def t_add_22 : M Unit := do
  let t1 ← (ApiFloat.INFINITY : M Single)
  let t2 ← (ApiFloat.INFINITY : M Single)
  let t3 ← ApiFloat.neg t2
  let t4 ← (ApiFloat.ZERO : M Single)
  let t5 ← (ApiFloat.ZERO : M Single)
  let t6 ← ApiFloat.neg t5
  let t7 ← (ApiFloat.NAN : M Single)
  let t8 ← (parse ("snan123".toList) : M Single)
  let t15 ← (ApiFloat.SMALLEST : M Single)
  let t16 ← ApiFloat.neg t15
  let t17 ← (ApiFloat.smallest_normalized : M Single)
  let t18 ← (ApiFloat.smallest_normalized : M Single)
  let t19 ← ApiFloat.neg t18
  let t736 ← Api.add t17 t16
  let t737 ← ApiFloat.category (t736).value
  check (decide (Category.normal = t737))
  let t738 ← (parse ("0x1.fffffcp-127".toList) : M Single)
  let t739 ← ApiFloat.bitwise_eq (t736).value t738
  check t739
  let t740 ← Api.add t17 t17
  check (decide (Status.OK = (t740).status))
  let t741 ← ApiFloat.category (t740).value
  check (decide (Category.normal = t741))
  let t742 ← (parse ("0x1p-125".toList) : M Single)
  let t743 ← ApiFloat.bitwise_eq (t740).value t742
  check t743
  let t744 ← Api.add t17 t19
  check (decide (Status.OK = (t744).status))
  let t745 ← ApiFloat.category (t744).value
  check (decide (Category.zero = t745))
  let t746 ← (parse ("0x0p+0".toList) : M Single)
  let t747 ← ApiFloat.bitwise_eq (t744).value t746
  check t747
  let t748 ← Api.add t19 t1
  check (decide (Status.OK = (t748).status))
  let t749 ← ApiFloat.category (t748).value
  check (decide (Category.infinity = t749))
  let t750 ← (parse ("inf".toList) : M Single)
  let t751 ← ApiFloat.bitwise_eq (t748).value t750
  check t751
  let t752 ← Api.add t19 t3
  check (decide (Status.OK = (t752).status))
  let t753 ← ApiFloat.category (t752).value
  check (decide (Category.infinity = t753))
  let t754 ← (parse ("-inf".toList) : M Single)
  let t755 ← ApiFloat.bitwise_eq (t752).value t754
  check t755
  let t756 ← Api.add t19 t4
  check (decide (Status.OK = (t756).status))
  let t757 ← ApiFloat.category (t756).value
  check (decide (Category.normal = t757))
  let t758 ← (parse ("-0x1p-126".toList) : M Single)
  let t759 ← ApiFloat.bitwise_eq (t756).value t758
  check t759
  let t760 ← Api.add t19 t6
  check (decide (Status.OK = (t760).status))
  let t761 ← ApiFloat.category (t760).value
  check (decide (Category.normal = t761))
  let t762 ← (parse ("-0x1p-126".toList) : M Single)
  let t763 ← ApiFloat.bitwise_eq (t760).value t762
  check t763
  let t764 ← Api.add t19 t7
  check (decide (Status.OK = (t764).status))
  let t765 ← ApiFloat.category (t764).value
  check (decide (Category.nan = t765))
  let t766 ← (parse ("nan".toList) : M Single)
  let t767 ← ApiFloat.bitwise_eq (t764).value t766
  check t767
  let t768 ← Api.add t19 t8
  check (decide (({ invalidOp := true } : Status) = (t768).status))
  let t769 ← ApiFloat.category (t768).value
  check (decide (Category.nan = t769))
  let t770 ← (parse ("nan123".toList) : M Single)
  let t771 ← ApiFloat.bitwise_eq (t768).value t770
  check t771

example : passes t_add_22 = true := by decide +kernel

/-- tests/ieee.rs:2099 `add`. -/
def t_add_23 : M Unit := do
  let t9 ← (parse ("0x1p+0".toList) : M Single)
  let t10 ← (parse ("-0x1p+0".toList) : M Single)
  let t11 ← (ApiFloat.largest : M Single)
  let t12 ← (ApiFloat.largest : M Single)
  let t13 ← ApiFloat.neg t12
  let t14 ← (ApiFloat.SMALLEST : M Single)
  let t15 ← (ApiFloat.SMALLEST : M Single)
  let t16 ← ApiFloat.neg t15
  let t17 ← (ApiFloat.smallest_normalized : M Single)
  let t18 ← (ApiFloat.smallest_normalized : M Single)
  let t19 ← ApiFloat.neg t18
  let t772 ← Api.add t19 t9
  check (decide (({ inexact := true } : Status) = (t772).status))
  let t773 ← ApiFloat.category (t772).value
  check (decide (Category.normal = t773))
  let t774 ← (parse ("0x1p+0".toList) : M Single)
  let t775 ← ApiFloat.bitwise_eq (t772).value t774
  check t775
  let t776 ← Api.add t19 t10
  check (decide (({ inexact := true } : Status) = (t776).status))
  let t777 ← ApiFloat.category (t776).value
  check (decide (Category.normal = t777))
  let t778 ← (parse ("-0x1p+0".toList) : M Single)
  let t779 ← ApiFloat.bitwise_eq (t776).value t778
  check t779
  let t780 ← Api.add t19 t11
  check (decide (({ inexact := true } : Status) = (t780).status))
  let t781 ← ApiFloat.category (t780).value
  check (decide (Category.normal = t781))
  let t782 ← (parse ("0x1.fffffep+127".toList) : M Single)
  let t783 ← ApiFloat.bitwise_eq (t780).value t782
  check t783
  let t784 ← Api.add t19 t13
  check (decide (({ inexact := true } : Status) = (t784).status))
  let t785 ← ApiFloat.category (t784).value
  check (decide (Category.normal = t785))
  let t786 ← (parse ("-0x1.fffffep+127".toList) : M Single)
  let t787 ← ApiFloat.bitwise_eq (t784).value t786
  check t787
  let t788 ← Api.add t19 t14
  check (decide (Status.OK = (t788).status))
  let t789 ← ApiFloat.category (t788).value
  check (decide (Category.normal = t789))
  let t790 ← (parse ("-0x1.fffffcp-127".toList) : M Single)
  let t791 ← ApiFloat.bitwise_eq (t788).value t790
  check t791
  let t792 ← Api.add t19 t16
  check (decide (Status.OK = (t792).status))
  let t793 ← ApiFloat.category (t792).value
  check (decide (Category.normal = t793))
  let t794 ← (parse ("-0x1.000002p-126".toList) : M Single)
  let t795 ← ApiFloat.bitwise_eq (t792).value t794
  check t795
  let t796 ← Api.add t19 t17
  check (decide (Status.OK = (t796).status))
  let t797 ← ApiFloat.category (t796).value
  check (decide (Category.zero = t797))
  let t798 ← (parse ("0x0p+0".toList) : M Single)
  let t799 ← ApiFloat.bitwise_eq (t796).value t798
  check t799
  let t800 ← Api.add t19 t19
  check (decide (Status.OK = (t800).status))
  let t801 ← ApiFloat.category (t800).value
  check (decide (Category.normal = t801))
  let t802 ← (parse ("-0x1p-125".toList) : M Single)
  let t803 ← ApiFloat.bitwise_eq (t800).value t802
  check t803

example : passes t_add_23 = true := by decide +kernel

/-- tests/ieee.rs:2328 `subtract`. -/
def t_subtract_1 : M Unit := do
  let t1 ← (ApiFloat.INFINITY : M Single)
  let t2 ← (ApiFloat.INFINITY : M Single)
  let t3 ← ApiFloat.neg t2
  let t4 ← (ApiFloat.ZERO : M Single)
  let t5 ← (ApiFloat.ZERO : M Single)
  let t6 ← ApiFloat.neg t5
  let t7 ← (ApiFloat.NAN : M Single)
  let t8 ← (parse ("snan123".toList) : M Single)
  let _ ← (parse ("0x1p+0".toList) : M Single)
  let _ ← (parse ("-0x1p+0".toList) : M Single)
  let _ ← (ApiFloat.largest : M Single)
  let t12 ← (ApiFloat.largest : M Single)
  let _ ← ApiFloat.neg t12
  let _ ← (ApiFloat.SMALLEST : M Single)
  let t15 ← (ApiFloat.SMALLEST : M Single)
  let _ ← ApiFloat.neg t15
  let _ ← (ApiFloat.smallest_normalized : M Single)
  let t18 ← (ApiFloat.smallest_normalized : M Single)
  let _ ← ApiFloat.neg t18
  let t20 ← Api.sub t1 t1
  check (decide (({ invalidOp := true } : Status) = (t20).status))
  let t21 ← ApiFloat.category (t20).value
  check (decide (Category.nan = t21))
  let t22 ← (parse ("nan".toList) : M Single)
  let t23 ← ApiFloat.bitwise_eq (t20).value t22
  check t23
  let t24 ← Api.sub t1 t3
  check (decide (Status.OK = (t24).status))
  let t25 ← ApiFloat.category (t24).value
  check (decide (Category.infinity = t25))
  let t26 ← (parse ("inf".toList) : M Single)
  let t27 ← ApiFloat.bitwise_eq (t24).value t26
  check t27
  let t28 ← Api.sub t1 t4
  check (decide (Status.OK = (t28).status))
  let t29 ← ApiFloat.category (t28).value
  check (decide (Category.infinity = t29))
  let t30 ← (parse ("inf".toList) : M Single)
  let t31 ← ApiFloat.bitwise_eq (t28).value t30
  check t31
  let t32 ← Api.sub t1 t6
  check (decide (Status.OK = (t32).status))
  let t33 ← ApiFloat.category (t32).value
  check (decide (Category.infinity = t33))
  let t34 ← (parse ("inf".toList) : M Single)
  let t35 ← ApiFloat.bitwise_eq (t32).value t34
  check t35
  let t36 ← Api.sub t1 t7
  check (decide (Status.OK = (t36).status))
  let t37 ← ApiFloat.category (t36).value
  check (decide (Category.nan = t37))
  let t38 ← (parse ("nan".toList) : M Single)
  let t39 ← ApiFloat.bitwise_eq (t36).value t38
  check t39
  let t40 ← Api.sub t1 t8
  check (decide (({ invalidOp := true } : Status) = (t40).status))
  let t41 ← ApiFloat.category (t40).value
  check (decide (Category.nan = t41))
  let t42 ← (parse ("nan123".toList) : M Single)
  let t43 ← ApiFloat.bitwise_eq (t40).value t42
  check t43

example : passes t_subtract_1 = true := by decide +kernel

/-- tests/ieee.rs:2328 `subtract`. -/
def t_subtract_2 : M Unit := do
  let t1 ← (ApiFloat.INFINITY : M Single)
  let t2 ← (ApiFloat.INFINITY : M Single)
  let t3 ← ApiFloat.neg t2
  let t9 ← (parse ("0x1p+0".toList) : M Single)
  let t10 ← (parse ("-0x1p+0".toList) : M Single)
  let t11 ← (ApiFloat.largest : M Single)
  let t12 ← (ApiFloat.largest : M Single)
  let t13 ← ApiFloat.neg t12
  let t14 ← (ApiFloat.SMALLEST : M Single)
  let t15 ← (ApiFloat.SMALLEST : M Single)
  let t16 ← ApiFloat.neg t15
  let t17 ← (ApiFloat.smallest_normalized : M Single)
  let t18 ← (ApiFloat.smallest_normalized : M Single)
  let t19 ← ApiFloat.neg t18
  let t44 ← Api.sub t1 t9
  check (decide (Status.OK = (t44).status))
  let t45 ← ApiFloat.category (t44).value
  check (decide (Category.infinity = t45))
  let t46 ← (parse ("inf".toList) : M Single)
  let t47 ← ApiFloat.bitwise_eq (t44).value t46
  check t47
  let t48 ← Api.sub t1 t10
  check (decide (Status.OK = (t48).status))
  let t49 ← ApiFloat.category (t48).value
  check (decide (Category.infinity = t49))
  let t50 ← (parse ("inf".toList) : M Single)
  let t51 ← ApiFloat.bitwise_eq (t48).value t50
  check t51
  let t52 ← Api.sub t1 t11
  check (decide (Status.OK = (t52).status))
  let t53 ← ApiFloat.category (t52).value
  check (decide (Category.infinity = t53))
  let t54 ← (parse ("inf".toList) : M Single)
  let t55 ← ApiFloat.bitwise_eq (t52).value t54
  check t55
  let t56 ← Api.sub t1 t13
  check (decide (Status.OK = (t56).status))
  let t57 ← ApiFloat.category (t56).value
  check (decide (Category.infinity = t57))
  let t58 ← (parse ("inf".toList) : M Single)
  let t59 ← ApiFloat.bitwise_eq (t56).value t58
  check t59
  let t60 ← Api.sub t1 t14
  check (decide (Status.OK = (t60).status))
  let t61 ← ApiFloat.category (t60).value
  check (decide (Category.infinity = t61))
  let t62 ← (parse ("inf".toList) : M Single)
  let t63 ← ApiFloat.bitwise_eq (t60).value t62
  check t63
  let t64 ← Api.sub t1 t16
  check (decide (Status.OK = (t64).status))
  let t65 ← ApiFloat.category (t64).value
  check (decide (Category.infinity = t65))
  let t66 ← (parse ("inf".toList) : M Single)
  let t67 ← ApiFloat.bitwise_eq (t64).value t66
  check t67
  let t68 ← Api.sub t1 t17
  check (decide (Status.OK = (t68).status))
  let t69 ← ApiFloat.category (t68).value
  check (decide (Category.infinity = t69))
  let t70 ← (parse ("inf".toList) : M Single)
  let t71 ← ApiFloat.bitwise_eq (t68).value t70
  check t71
  let t72 ← Api.sub t1 t19
  check (decide (Status.OK = (t72).status))
  let t73 ← ApiFloat.category (t72).value
  check (decide (Category.infinity = t73))
  let t74 ← (parse ("inf".toList) : M Single)
  let t75 ← ApiFloat.bitwise_eq (t72).value t74
  check t75
  let t76 ← Api.sub t3 t1
  check (decide (Status.OK = (t76).status))
  let t77 ← ApiFloat.category (t76).value
  check (decide (Category.infinity = t77))

example : passes t_subtract_2 = true := by decide +kernel

/-- tests/ieee.rs:2328 `subtract`. -/
def t_subtract_3 : M Unit := do
  let t1 ← (ApiFloat.INFINITY : M Single)
  let t2 ← (ApiFloat.INFINITY : M Single)
  let t3 ← ApiFloat.neg t2
  let t4 ← (ApiFloat.ZERO : M Single)
  let t5 ← (ApiFloat.ZERO : M Single)
  let t6 ← ApiFloat.neg t5
  let t7 ← (ApiFloat.NAN : M Single)
  let t8 ← (parse ("snan123".toList) : M Single)
  let t9 ← (parse ("0x1p+0".toList) : M Single)
  let t10 ← (parse ("-0x1p+0".toList) : M Single)
  let t11 ← (ApiFloat.largest : M Single)
  let t12 ← (ApiFloat.largest : M Single)
  let t13 ← ApiFloat.neg t12
  let t76 ← Api.sub t3 t1
  let t78 ← (parse ("-inf".toList) : M Single)
  let t79 ← ApiFloat.bitwise_eq (t76).value t78
  check t79
  let t80 ← Api.sub t3 t3
  check (decide (({ invalidOp := true } : Status) = (t80).status))
  let t81 ← ApiFloat.category (t80).value
  check (decide (Category.nan = t81))
  let t82 ← (parse ("nan".toList) : M Single)
  let t83 ← ApiFloat.bitwise_eq (t80).value t82
  check t83
  let t84 ← Api.sub t3 t4
  check (decide (Status.OK = (t84).status))
  let t85 ← ApiFloat.category (t84).value
  check (decide (Category.infinity = t85))
  let t86 ← (parse ("-inf".toList) : M Single)
  let t87 ← ApiFloat.bitwise_eq (t84).value t86
  check t87
  let t88 ← Api.sub t3 t6
  check (decide (Status.OK = (t88).status))
  let t89 ← ApiFloat.category (t88).value
  check (decide (Category.infinity = t89))
  let t90 ← (parse ("-inf".toList) : M Single)
  let t91 ← ApiFloat.bitwise_eq (t88).value t90
  check t91
  let t92 ← Api.sub t3 t7
  check (decide (Status.OK = (t92).status))
  let t93 ← ApiFloat.category (t92).value
  check (decide (Category.nan = t93))
  let t94 ← (parse ("nan".toList) : M Single)
  let t95 ← ApiFloat.bitwise_eq (t92).value t94
  check t95
  let t96 ← Api.sub t3 t8
  check (decide (({ invalidOp := true } : Status) = (t96).status))
  let t97 ← ApiFloat.category (t96).value
  check (decide (Category.nan = t97))
  let t98 ← (parse ("nan123".toList) : M Single)
  let t99 ← ApiFloat.bitwise_eq (t96).value t98
  check t99
  let t100 ← Api.sub t3 t9
  check (decide (Status.OK = (t100).status))
  let t101 ← ApiFloat.category (t100).value
  check (decide (Category.infinity = t101))
  let t102 ← (parse ("-inf".toList) : M Single)
  let t103 ← ApiFloat.bitwise_eq (t100).value t102
  check t103
  let t104 ← Api.sub t3 t10
  check (decide (Status.OK = (t104).status))
  let t105 ← ApiFloat.category (t104).value
  check (decide (Category.infinity = t105))
  let t106 ← (parse ("-inf".toList) : M Single)
  let t107 ← ApiFloat.bitwise_eq (t104).value t106
  check t107
  let t108 ← Api.sub t3 t11
  check (decide (Status.OK = (t108).status))
  let t109 ← ApiFloat.category (t108).value
  check (decide (Category.infinity = t109))
  let t110 ← (parse ("-inf".toList) : M Single)
  let t111 ← ApiFloat.bitwise_eq (t108).value t110
  check t111
  let t112 ← Api.sub t3 t13
  check (decide (Status.OK = (t112).status))

example : passes t_subtract_3 = true := by decide +kernel

/-- tests/ieee.rs:2328 `subtract`. -/
def t_subtract_4 : M Unit := do
  let t1 ← (ApiFloat.INFINITY : M Single)
  let t2 ← (ApiFloat.INFINITY : M Single)
  let t3 ← ApiFloat.neg t2
  let t4 ← (ApiFloat.ZERO : M Single)
  let t5 ← (ApiFloat.ZERO : M Single)
  let t6 ← ApiFloat.neg t5
  let t12 ← (ApiFloat.largest : M Single)
  let t13 ← ApiFloat.neg t12
  let t14 ← (ApiFloat.SMALLEST : M Single)
  let t15 ← (ApiFloat.SMALLEST : M Single)
  let t16 ← ApiFloat.neg t15
  let t17 ← (ApiFloat.smallest_normalized : M Single)
  let t18 ← (ApiFloat.smallest_normalized : M Single)
  let t19 ← ApiFloat.neg t18
  let t112 ← Api.sub t3 t13
  let t113 ← ApiFloat.category (t112).value
  check (decide (Category.infinity = t113))
  let t114 ← (parse ("-inf".toList) : M Single)
  let t115 ← ApiFloat.bitwise_eq (t112).value t114
  check t115
  let t116 ← Api.sub t3 t14
  check (decide (Status.OK = (t116).status))
  let t117 ← ApiFloat.category (t116).value
  check (decide (Category.infinity = t117))
  let t118 ← (parse ("-inf".toList) : M Single)
  let t119 ← ApiFloat.bitwise_eq (t116).value t118
  check t119
  let t120 ← Api.sub t3 t16
  check (decide (Status.OK = (t120).status))
  let t121 ← ApiFloat.category (t120).value
  check (decide (Category.infinity = t121))
  let t122 ← (parse ("-inf".toList) : M Single)
  let t123 ← ApiFloat.bitwise_eq (t120).value t122
  check t123
  let t124 ← Api.sub t3 t17
  check (decide (Status.OK = (t124).status))
  let t125 ← ApiFloat.category (t124).value
  check (decide (Category.infinity = t125))
  let t126 ← (parse ("-inf".toList) : M Single)
  let t127 ← ApiFloat.bitwise_eq (t124).value t126
  check t127
  let t128 ← Api.sub t3 t19
  check (decide (Status.OK = (t128).status))
  let t129 ← ApiFloat.category (t128).value
  check (decide (Category.infinity = t129))
  let t130 ← (parse ("-inf".toList) : M Single)
  let t131 ← ApiFloat.bitwise_eq (t128).value t130
  check t131
  let t132 ← Api.sub t4 t1
  check (decide (Status.OK = (t132).status))
  let t133 ← ApiFloat.category (t132).value
  check (decide (Category.infinity = t133))
  let t134 ← (parse ("-inf".toList) : M Single)
  let t135 ← ApiFloat.bitwise_eq (t132).value t134
  check t135
  let t136 ← Api.sub t4 t3
  check (decide (Status.OK = (t136).status))
  let t137 ← ApiFloat.category (t136).value
  check (decide (Category.infinity = t137))
  let t138 ← (parse ("inf".toList) : M Single)
  let t139 ← ApiFloat.bitwise_eq (t136).value t138
  check t139
  let t140 ← Api.sub t4 t4
  check (decide (Status.OK = (t140).status))
  let t141 ← ApiFloat.category (t140).value
  check (decide (Category.zero = t141))
  let t142 ← (parse ("0x0p+0".toList) : M Single)
  let t143 ← ApiFloat.bitwise_eq (t140).value t142
  check t143
  let t144 ← Api.sub t4 t6
  check (decide (Status.OK = (t144).status))
  let t145 ← ApiFloat.category (t144).value
  check (decide (Category.zero = t145))
  let t146 ← (parse ("0x0p+0".toList) : M Single)
  let t147 ← ApiFloat.bitwise_eq (t144).value t146
  check t147

example : passes t_subtract_4 = true := by decide +kernel

/-- tests/ieee.rs:2328 `subtract`. -/
def t_subtract_5 : M Unit := do
  let t4 ← (ApiFloat.ZERO : M Single)
  let t7 ← (ApiFloat.NAN : M Single)
  let t8 ← (parse ("snan123".toList) : M Single)
  let t9 ← (parse ("0x1p+0".toList) : M Single)
  let t10 ← (parse ("-0x1p+0".toList) : M Single)
  let t11 ← (ApiFloat.largest : M Single)
  let t12 ← (ApiFloat.largest : M Single)
  let t13 ← ApiFloat.neg t12
  let t14 ← (ApiFloat.SMALLEST : M Single)
  let t15 ← (ApiFloat.SMALLEST : M Single)
  let t16 ← ApiFloat.neg t15
  let t17 ← (ApiFloat.smallest_normalized : M Single)
  let t148 ← Api.sub t4 t7
  check (decide (Status.OK = (t148).status))
  let t149 ← ApiFloat.category (t148).value
  check (decide (Category.nan = t149))
  let t150 ← (parse ("nan".toList) : M Single)
  let t151 ← ApiFloat.bitwise_eq (t148).value t150
  check t151
  let t152 ← Api.sub t4 t8
  check (decide (({ invalidOp := true } : Status) = (t152).status))
  let t153 ← ApiFloat.category (t152).value
  check (decide (Category.nan = t153))
  let t154 ← (parse ("nan123".toList) : M Single)
  let t155 ← ApiFloat.bitwise_eq (t152).value t154
  check t155
  let t156 ← Api.sub t4 t9
  check (decide (Status.OK = (t156).status))
  let t157 ← ApiFloat.category (t156).value
  check (decide (Category.normal = t157))
  let t158 ← (parse ("-0x1p+0".toList) : M Single)
  let t159 ← ApiFloat.bitwise_eq (t156).value t158
  check t159
  let t160 ← Api.sub t4 t10
  check (decide (Status.OK = (t160).status))
  let t161 ← ApiFloat.category (t160).value
  check (decide (Category.normal = t161))
  let t162 ← (parse ("0x1p+0".toList) : M Single)
  let t163 ← ApiFloat.bitwise_eq (t160).value t162
  check t163
  let t164 ← Api.sub t4 t11
  check (decide (Status.OK = (t164).status))
  let t165 ← ApiFloat.category (t164).value
  check (decide (Category.normal = t165))
  let t166 ← (parse ("-0x1.fffffep+127".toList) : M Single)
  let t167 ← ApiFloat.bitwise_eq (t164).value t166
  check t167
  let t168 ← Api.sub t4 t13
  check (decide (Status.OK = (t168).status))
  let t169 ← ApiFloat.category (t168).value
  check (decide (Category.normal = t169))
  let t170 ← (parse ("0x1.fffffep+127".toList) : M Single)
  let t171 ← ApiFloat.bitwise_eq (t168).value t170
  check t171
  let t172 ← Api.sub t4 t14
  check (decide (Status.OK = (t172).status))
  let t173 ← ApiFloat.category (t172).value
  check (decide (Category.normal = t173))
  let t174 ← (parse ("-0x1p-149".toList) : M Single)
  let t175 ← ApiFloat.bitwise_eq (t172).value t174
  check t175
  let t176 ← Api.sub t4 t16
  check (decide (Status.OK = (t176).status))
  let t177 ← ApiFloat.category (t176).value
  check (decide (Category.normal = t177))
  let t178 ← (parse ("0x1p-149".toList) : M Single)
  let t179 ← ApiFloat.bitwise_eq (t176).value t178
  check t179
  let t180 ← Api.sub t4 t17
  check (decide (Status.OK = (t180).status))
  let t181 ← ApiFloat.category (t180).value
  check (decide (Category.normal = t181))

example : passes t_subtract_5 = true := by decide +kernel

/-- tests/ieee.rs:2328 `subtract`. -/
def t_subtract_6 : M Unit := do
  let t1 ← (ApiFloat.INFINITY : M Single)
  let t2 ← (ApiFloat.INFINITY : M Single)
  let t3 ← ApiFloat.neg t2
  let t4 ← (ApiFloat.ZERO : M Single)
  let t5 ← (ApiFloat.ZERO : M Single)
  let t6 ← ApiFloat.neg t5
  let t7 ← (ApiFloat.NAN : M Single)
  let t8 ← (parse ("snan123".toList) : M Single)
  let t9 ← (parse ("0x1p+0".toList) : M Single)
  let t10 ← (parse ("-0x1p+0".toList) : M Single)
  let t17 ← (ApiFloat.smallest_normalized : M Single)
  let t18 ← (ApiFloat.smallest_normalized : M Single)
  let t19 ← ApiFloat.neg t18
  let t180 ← Api.sub t4 t17
  let t182 ← (parse ("-0x1p-126".toList) : M Single)
  let t183 ← ApiFloat.bitwise_eq (t180).value t182
  check t183
  let t184 ← Api.sub t4 t19
  check (decide (Status.OK = (t184).status))
  let t185 ← ApiFloat.category (t184).value
  check (decide (Category.normal = t185))
  let t186 ← (parse ("0x1p-126".toList) : M Single)
  let t187 ← ApiFloat.bitwise_eq (t184).value t186
  check t187
  let t188 ← Api.sub t6 t1
  check (decide (Status.OK = (t188).status))
  let t189 ← ApiFloat.category (t188).value
  check (decide (Category.infinity = t189))
  let t190 ← (parse ("-inf".toList) : M Single)
  let t191 ← ApiFloat.bitwise_eq (t188).value t190
  check t191
  let t192 ← Api.sub t6 t3
  check (decide (Status.OK = (t192).status))
  let t193 ← ApiFloat.category (t192).value
  check (decide (Category.infinity = t193))
  let t194 ← (parse ("inf".toList) : M Single)
  let t195 ← ApiFloat.bitwise_eq (t192).value t194
  check t195
  let t196 ← Api.sub t6 t4
  check (decide (Status.OK = (t196).status))
  let t197 ← ApiFloat.category (t196).value
  check (decide (Category.zero = t197))
  let t198 ← (parse ("-0x0p+0".toList) : M Single)
  let t199 ← ApiFloat.bitwise_eq (t196).value t198
  check t199
  let t200 ← Api.sub t6 t6
  check (decide (Status.OK = (t200).status))
  let t201 ← ApiFloat.category (t200).value
  check (decide (Category.zero = t201))
  let t202 ← (parse ("0x0p+0".toList) : M Single)
  let t203 ← ApiFloat.bitwise_eq (t200).value t202
  check t203
  let t204 ← Api.sub t6 t7
  check (decide (Status.OK = (t204).status))
  let t205 ← ApiFloat.category (t204).value
  check (decide (Category.nan = t205))
  let t206 ← (parse ("nan".toList) : M Single)
  let t207 ← ApiFloat.bitwise_eq (t204).value t206
  check t207
  let t208 ← Api.sub t6 t8
  check (decide (({ invalidOp := true } : Status) = (t208).status))
  let t209 ← ApiFloat.category (t208).value
  check (decide (Category.nan = t209))
  let t210 ← (parse ("nan123".toList) : M Single)
  let t211 ← ApiFloat.bitwise_eq (t208).value t210
  check t211
  let t212 ← Api.sub t6 t9
  check (decide (Status.OK = (t212).status))
  let t213 ← ApiFloat.category (t212).value
  check (decide (Category.normal = t213))
  let t214 ← (parse ("-0x1p+0".toList) : M Single)
  let t215 ← ApiFloat.bitwise_eq (t212).value t214
  check t215
  let t216 ← Api.sub t6 t10
  check (decide (Status.OK = (t216).status))

example : passes t_subtract_6 = true := by decide +kernel

/-- tests/ieee.rs:2328 `subtract`. -/
def t_subtract_7 : M Unit := do
  let t1 ← (ApiFloat.INFINITY : M Single)
  let t2 ← (ApiFloat.INFINITY : M Single)
  let t3 ← ApiFloat.neg t2
  let t5 ← (ApiFloat.ZERO : M Single)
  let t6 ← ApiFloat.neg t5
  let t7 ← (ApiFloat.NAN : M Single)
  let t10 ← (parse ("-0x1p+0".toList) : M Single)
  let t11 ← (ApiFloat.largest : M Single)
  let t12 ← (ApiFloat.largest : M Single)
  let t13 ← ApiFloat.neg t12
  let t14 ← (ApiFloat.SMALLEST : M Single)
  let t15 ← (ApiFloat.SMALLEST : M Single)
  let t16 ← ApiFloat.neg t15
  let t17 ← (ApiFloat.smallest_normalized : M Single)
  let t18 ← (ApiFloat.smallest_normalized : M Single)
  let t19 ← ApiFloat.neg t18
  let t216 ← Api.sub t6 t10
  let t217 ← ApiFloat.category (t216).value
  check (decide (Category.normal = t217))
  let t218 ← (parse ("0x1p+0".toList) : M Single)
  let t219 ← ApiFloat.bitwise_eq (t216).value t218
  check t219
  let t220 ← Api.sub t6 t11
  check (decide (Status.OK = (t220).status))
  let t221 ← ApiFloat.category (t220).value
  check (decide (Category.normal = t221))
  let t222 ← (parse ("-0x1.fffffep+127".toList) : M Single)
  let t223 ← ApiFloat.bitwise_eq (t220).value t222
  check t223
  let t224 ← Api.sub t6 t13
  check (decide (Status.OK = (t224).status))
  let t225 ← ApiFloat.category (t224).value
  check (decide (Category.normal = t225))
  let t226 ← (parse ("0x1.fffffep+127".toList) : M Single)
  let t227 ← ApiFloat.bitwise_eq (t224).value t226
  check t227
  let t228 ← Api.sub t6 t14
  check (decide (Status.OK = (t228).status))
  let t229 ← ApiFloat.category (t228).value
  check (decide (Category.normal = t229))
  let t230 ← (parse ("-0x1p-149".toList) : M Single)
  let t231 ← ApiFloat.bitwise_eq (t228).value t230
  check t231
  let t232 ← Api.sub t6 t16
  check (decide (Status.OK = (t232).status))
  let t233 ← ApiFloat.category (t232).value
  check (decide (Category.normal = t233))
  let t234 ← (parse ("0x1p-149".toList) : M Single)
  let t235 ← ApiFloat.bitwise_eq (t232).value t234
  check t235
  let t236 ← Api.sub t6 t17
  check (decide (Status.OK = (t236).status))
  let t237 ← ApiFloat.category (t236).value
  check (decide (Category.normal = t237))
  let t238 ← (parse ("-0x1p-126".toList) : M Single)
  let t239 ← ApiFloat.bitwise_eq (t236).value t238
  check t239
  let t240 ← Api.sub t6 t19
  check (decide (Status.OK = (t240).status))
  let t241 ← ApiFloat.category (t240).value
  check (decide (Category.normal = t241))
  let t242 ← (parse ("0x1p-126".toList) : M Single)
  let t243 ← ApiFloat.bitwise_eq (t240).value t242
  check t243
  let t244 ← Api.sub t7 t1
  check (decide (Status.OK = (t244).status))
  let t245 ← ApiFloat.category (t244).value
  check (decide (Category.nan = t245))
  let t246 ← (parse ("nan".toList) : M Single)
  let t247 ← ApiFloat.bitwise_eq (t244).value t246
  check t247
  let t248 ← Api.sub t7 t3
  check (decide (Status.OK = (t248).status))
  let t249 ← ApiFloat.category (t248).value
  check (decide (Category.nan = t249))
  let t250 ← (parse ("nan".toList) : M Single)
  let t251 ← ApiFloat.bitwise_eq (t248).value t250
  check t251

example : passes t_subtract_7 = true := by decide +kernel

/-- tests/ieee.rs:2328 `subtract`. -/
def t_subtract_8 : M Unit := do
  let t4 ← (ApiFloat.ZERO : M Single)
  let t5 ← (ApiFloat.ZERO : M Single)
  let t6 ← ApiFloat.neg t5
  let t7 ← (ApiFloat.NAN : M Single)
  let t8 ← (parse ("snan123".toList) : M Single)
  let t9 ← (parse ("0x1p+0".toList) : M Single)
  let t10 ← (parse ("-0x1p+0".toList) : M Single)
  let t11 ← (ApiFloat.largest : M Single)
  let t12 ← (ApiFloat.largest : M Single)
  let t13 ← ApiFloat.neg t12
  let t14 ← (ApiFloat.SMALLEST : M Single)
  let t252 ← Api.sub t7 t4
  check (decide (Status.OK = (t252).status))
  let t253 ← ApiFloat.category (t252).value
  check (decide (Category.nan = t253))
  let t254 ← (parse ("nan".toList) : M Single)
  let t255 ← ApiFloat.bitwise_eq (t252).value t254
  check t255
  let t256 ← Api.sub t7 t6
  check (decide (Status.OK = (t256).status))
  let t257 ← ApiFloat.category (t256).value
  check (decide (Category.nan = t257))
  let t258 ← (parse ("nan".toList) : M Single)
  let t259 ← ApiFloat.bitwise_eq (t256).value t258
  check t259
  let t260 ← Api.sub t7 t7
  check (decide (Status.OK = (t260).status))
  let t261 ← ApiFloat.category (t260).value
  check (decide (Category.nan = t261))
  let t262 ← (parse ("nan".toList) : M Single)
  let t263 ← ApiFloat.bitwise_eq (t260).value t262
  check t263
  let t264 ← Api.sub t7 t8
  check (decide (({ invalidOp := true } : Status) = (t264).status))
  let t265 ← ApiFloat.category (t264).value
  check (decide (Category.nan = t265))
  let t266 ← (parse ("nan".toList) : M Single)
  let t267 ← ApiFloat.bitwise_eq (t264).value t266
  check t267
  let t268 ← Api.sub t7 t9
  check (decide (Status.OK = (t268).status))
  let t269 ← ApiFloat.category (t268).value
  check (decide (Category.nan = t269))
  let t270 ← (parse ("nan".toList) : M Single)
  let t271 ← ApiFloat.bitwise_eq (t268).value t270
  check t271
  let t272 ← Api.sub t7 t10
  check (decide (Status.OK = (t272).status))
  let t273 ← ApiFloat.category (t272).value
  check (decide (Category.nan = t273))
  let t274 ← (parse ("nan".toList) : M Single)
  let t275 ← ApiFloat.bitwise_eq (t272).value t274
  check t275
  let t276 ← Api.sub t7 t11
  check (decide (Status.OK = (t276).status))
  let t277 ← ApiFloat.category (t276).value
  check (decide (Category.nan = t277))
  let t278 ← (parse ("nan".toList) : M Single)
  let t279 ← ApiFloat.bitwise_eq (t276).value t278
  check t279
  let t280 ← Api.sub t7 t13
  check (decide (Status.OK = (t280).status))
  let t281 ← ApiFloat.category (t280).value
  check (decide (Category.nan = t281))
  let t282 ← (parse ("nan".toList) : M Single)
  let t283 ← ApiFloat.bitwise_eq (t280).value t282
  check t283
  let t284 ← Api.sub t7 t14
  check (decide (Status.OK = (t284).status))
  let t285 ← ApiFloat.category (t284).value
  check (decide (Category.nan = t285))

example : passes t_subtract_8 = true := by decide +kernel

/-- tests/ieee.rs:2328 `subtract`. -/
def t_subtract_9 : M Unit := do
  let t1 ← (ApiFloat.INFINITY : M Single)
  let t2 ← (ApiFloat.INFINITY : M Single)
  let t3 ← ApiFloat.neg t2
  let t4 ← (ApiFloat.ZERO : M Single)
  let t5 ← (ApiFloat.ZERO : M Single)
  let t6 ← ApiFloat.neg t5
  let t7 ← (ApiFloat.NAN : M Single)
  let t8 ← (parse ("snan123".toList) : M Single)
  let t14 ← (ApiFloat.SMALLEST : M Single)
  let t15 ← (ApiFloat.SMALLEST : M Single)
  let t16 ← ApiFloat.neg t15
  let t17 ← (ApiFloat.smallest_normalized : M Single)
  let t18 ← (ApiFloat.smallest_normalized : M Single)
  let t19 ← ApiFloat.neg t18
  let t284 ← Api.sub t7 t14
  let t286 ← (parse ("nan".toList) : M Single)
  let t287 ← ApiFloat.bitwise_eq (t284).value t286
  check t287
  let t288 ← Api.sub t7 t16
  check (decide (Status.OK = (t288).status))
  let t289 ← ApiFloat.category (t288).value
  check (decide (Category.nan = t289))
  let t290 ← (parse ("nan".toList) : M Single)
  let t291 ← ApiFloat.bitwise_eq (t288).value t290
  check t291
  let t292 ← Api.sub t7 t17
  check (decide (Status.OK = (t292).status))
  let t293 ← ApiFloat.category (t292).value
  check (decide (Category.nan = t293))
  let t294 ← (parse ("nan".toList) : M Single)
  let t295 ← ApiFloat.bitwise_eq (t292).value t294
  check t295
  let t296 ← Api.sub t7 t19
  check (decide (Status.OK = (t296).status))
  let t297 ← ApiFloat.category (t296).value
  check (decide (Category.nan = t297))
  let t298 ← (parse ("nan".toList) : M Single)
  let t299 ← ApiFloat.bitwise_eq (t296).value t298
  check t299
  let t300 ← Api.sub t8 t1
  check (decide (({ invalidOp := true } : Status) = (t300).status))
  let t301 ← ApiFloat.category (t300).value
  check (decide (Category.nan = t301))
  let t302 ← (parse ("nan123".toList) : M Single)
  let t303 ← ApiFloat.bitwise_eq (t300).value t302
  check t303
  let t304 ← Api.sub t8 t3
  check (decide (({ invalidOp := true } : Status) = (t304).status))
  let t305 ← ApiFloat.category (t304).value
  check (decide (Category.nan = t305))
  let t306 ← (parse ("nan123".toList) : M Single)
  let t307 ← ApiFloat.bitwise_eq (t304).value t306
  check t307
  let t308 ← Api.sub t8 t4
  check (decide (({ invalidOp := true } : Status) = (t308).status))
  let t309 ← ApiFloat.category (t308).value
  check (decide (Category.nan = t309))
  let t310 ← (parse ("nan123".toList) : M Single)
  let t311 ← ApiFloat.bitwise_eq (t308).value t310
  check t311
  let t312 ← Api.sub t8 t6
  check (decide (({ invalidOp := true } : Status) = (t312).status))
  let t313 ← ApiFloat.category (t312).value
  check (decide (Category.nan = t313))
  let t314 ← (parse ("nan123".toList) : M Single)
  let t315 ← ApiFloat.bitwise_eq (t312).value t314
  check t315
  let t316 ← Api.sub t8 t7
  check (decide (({ invalidOp := true } : Status) = (t316).status))
  let t317 ← ApiFloat.category (t316).value
  check (decide (Category.nan = t317))
  let t318 ← (parse ("nan123".toList) : M Single)
  let t319 ← ApiFloat.bitwise_eq (t316).value t318
  check t319
  let t320 ← Api.sub t8 t8
  check (decide (({ invalidOp := true } : Status) = (t320).status))

example : passes t_subtract_9 = true := by decide +kernel

/-- tests/ieee.rs:2328 `subtract`. -/
def t_subtract_10 : M Unit := do
  let t8 ← (parse ("snan123".toList) : M Single)
  let t9 ← (parse ("0x1p+0".toList) : M Single)
  let t10 ← (parse ("-0x1p+0".toList) : M Single)
  let t11 ← (ApiFloat.largest : M Single)
  let t12 ← (ApiFloat.largest : M Single)
  let t13 ← ApiFloat.neg t12
  let t14 ← (ApiFloat.SMALLEST : M Single)
  let t15 ← (ApiFloat.SMALLEST : M Single)
  let t16 ← ApiFloat.neg t15
  let t17 ← (ApiFloat.smallest_normalized : M Single)
  let t18 ← (ApiFloat.smallest_normalized : M Single)
  let t19 ← ApiFloat.neg t18
  let t320 ← Api.sub t8 t8
  let t321 ← ApiFloat.category (t320).value
  check (decide (Category.nan = t321))
  let t322 ← (parse ("nan123".toList) : M Single)
  let t323 ← ApiFloat.bitwise_eq (t320).value t322
  check t323
  let t324 ← Api.sub t8 t9
  check (decide (({ invalidOp := true } : Status) = (t324).status))
  let t325 ← ApiFloat.category (t324).value
  check (decide (Category.nan = t325))
  let t326 ← (parse ("nan123".toList) : M Single)
  let t327 ← ApiFloat.bitwise_eq (t324).value t326
  check t327
  let t328 ← Api.sub t8 t10
  check (decide (({ invalidOp := true } : Status) = (t328).status))
  let t329 ← ApiFloat.category (t328).value
  check (decide (Category.nan = t329))
  let t330 ← (parse ("nan123".toList) : M Single)
  let t331 ← ApiFloat.bitwise_eq (t328).value t330
  check t331
  let t332 ← Api.sub t8 t11
  check (decide (({ invalidOp := true } : Status) = (t332).status))
  let t333 ← ApiFloat.category (t332).value
  check (decide (Category.nan = t333))
  let t334 ← (parse ("nan123".toList) : M Single)
  let t335 ← ApiFloat.bitwise_eq (t332).value t334
  check t335
  let t336 ← Api.sub t8 t13
  check (decide (({ invalidOp := true } : Status) = (t336).status))
  let t337 ← ApiFloat.category (t336).value
  check (decide (Category.nan = t337))
  let t338 ← (parse ("nan123".toList) : M Single)
  let t339 ← ApiFloat.bitwise_eq (t336).value t338
  check t339
  let t340 ← Api.sub t8 t14
  check (decide (({ invalidOp := true } : Status) = (t340).status))
  let t341 ← ApiFloat.category (t340).value
  check (decide (Category.nan = t341))
  let t342 ← (parse ("nan123".toList) : M Single)
  let t343 ← ApiFloat.bitwise_eq (t340).value t342
  check t343
  let t344 ← Api.sub t8 t16
  check (decide (({ invalidOp := true } : Status) = (t344).status))
  let t345 ← ApiFloat.category (t344).value
  check (decide (Category.nan = t345))
  let t346 ← (parse ("nan123".toList) : M Single)
  let t347 ← ApiFloat.bitwise_eq (t344).value t346
  check t347
  let t348 ← Api.sub t8 t17
  check (decide (({ invalidOp := true } : Status) = (t348).status))
  let t349 ← ApiFloat.category (t348).value
  check (decide (Category.nan = t349))
  let t350 ← (parse ("nan123".toList) : M Single)
  let t351 ← ApiFloat.bitwise_eq (t348).value t350
  check t351
  let t352 ← Api.sub t8 t19
  check (decide (({ invalidOp := true } : Status) = (t352).status))
  let t353 ← ApiFloat.category (t352).value
  check (decide (Category.nan = t353))
  let t354 ← (parse ("nan123".toList) : M Single)
  let t355 ← ApiFloat.bitwise_eq (t352).value t354
  check t355

example : passes t_subtract_10 = true := by decide +kernel

/-- tests/ieee.rs:2328 `subtract`. -/
def t_subtract_11 : M Unit := do
  let t1 ← (ApiFloat.INFINITY : M Single)
  let t2 ← (ApiFloat.INFINITY : M Single)
  let t3 ← ApiFloat.neg t2
  let t4 ← (ApiFloat.ZERO : M Single)
  let t5 ← (ApiFloat.ZERO : M Single)
  let t6 ← ApiFloat.neg t5
  let t7 ← (ApiFloat.NAN : M Single)
  let t8 ← (parse ("snan123".toList) : M Single)
  let t9 ← (parse ("0x1p+0".toList) : M Single)
  let t10 ← (parse ("-0x1p+0".toList) : M Single)
  let t11 ← (ApiFloat.largest : M Single)
  let t356 ← Api.sub t9 t1
  check (decide (Status.OK = (t356).status))
  let t357 ← ApiFloat.category (t356).value
  check (decide (Category.infinity = t357))
  let t358 ← (parse ("-inf".toList) : M Single)
  let t359 ← ApiFloat.bitwise_eq (t356).value t358
  check t359
  let t360 ← Api.sub t9 t3
  check (decide (Status.OK = (t360).status))
  let t361 ← ApiFloat.category (t360).value
  check (decide (Category.infinity = t361))
  let t362 ← (parse ("inf".toList) : M Single)
  let t363 ← ApiFloat.bitwise_eq (t360).value t362
  check t363
  let t364 ← Api.sub t9 t4
  check (decide (Status.OK = (t364).status))
  let t365 ← ApiFloat.category (t364).value
  check (decide (Category.normal = t365))
  let t366 ← (parse ("0x1p+0".toList) : M Single)
  let t367 ← ApiFloat.bitwise_eq (t364).value t366
  check t367
  let t368 ← Api.sub t9 t6
  check (decide (Status.OK = (t368).status))
  let t369 ← ApiFloat.category (t368).value
  check (decide (Category.normal = t369))
  let t370 ← (parse ("0x1p+0".toList) : M Single)
  let t371 ← ApiFloat.bitwise_eq (t368).value t370
  check t371
  let t372 ← Api.sub t9 t7
  check (decide (Status.OK = (t372).status))
  let t373 ← ApiFloat.category (t372).value
  check (decide (Category.nan = t373))
  let t374 ← (parse ("nan".toList) : M Single)
  let t375 ← ApiFloat.bitwise_eq (t372).value t374
  check t375
  let t376 ← Api.sub t9 t8
  check (decide (({ invalidOp := true } : Status) = (t376).status))
  let t377 ← ApiFloat.category (t376).value
  check (decide (Category.nan = t377))
  let t378 ← (parse ("nan123".toList) : M Single)
  let t379 ← ApiFloat.bitwise_eq (t376).value t378
  check t379
  let t380 ← Api.sub t9 t9
  check (decide (Status.OK = (t380).status))
  let t381 ← ApiFloat.category (t380).value
  check (decide (Category.zero = t381))
  let t382 ← (parse ("0x0p+0".toList) : M Single)
  let t383 ← ApiFloat.bitwise_eq (t380).value t382
  check t383
  let t384 ← Api.sub t9 t10
  check (decide (Status.OK = (t384).status))
  let t385 ← ApiFloat.category (t384).value
  check (decide (Category.normal = t385))
  let t386 ← (parse ("0x1p+1".toList) : M Single)
  let t387 ← ApiFloat.bitwise_eq (t384).value t386
  check t387
  let t388 ← Api.sub t9 t11
  check (decide (({ inexact := true } : Status) = (t388).status))
  let t389 ← ApiFloat.category (t388).value
  check (decide (Category.normal = t389))

example : passes t_subtract_11 = true := by decide +kernel

/-- tests/ieee.rs:2328 `subtract`. -/
def t_subtract_12 : M Unit := do
  let t1 ← (ApiFloat.INFINITY : M Single)
  let t2 ← (ApiFloat.INFINITY : M Single)
  let t3 ← ApiFloat.neg t2
  let t4 ← (ApiFloat.ZERO : M Single)
  let t5 ← (ApiFloat.ZERO : M Single)
  let t6 ← ApiFloat.neg t5
  let t9 ← (parse ("0x1p+0".toList) : M Single)
  let t10 ← (parse ("-0x1p+0".toList) : M Single)
  let t11 ← (ApiFloat.largest : M Single)
  let t12 ← (ApiFloat.largest : M Single)
  let t13 ← ApiFloat.neg t12
  let t14 ← (ApiFloat.SMALLEST : M Single)
  let t15 ← (ApiFloat.SMALLEST : M Single)
  let t16 ← ApiFloat.neg t15
  let t17 ← (ApiFloat.smallest_normalized : M Single)
  let t18 ← (ApiFloat.smallest_normalized : M Single)
  let t19 ← ApiFloat.neg t18
  let t388 ← Api.sub t9 t11
  let t390 ← (parse ("-0x1.fffffep+127".toList) : M Single)
  let t391 ← ApiFloat.bitwise_eq (t388).value t390
  check t391
  let t392 ← Api.sub t9 t13
  check (decide (({ inexact := true } : Status) = (t392).status))
  let t393 ← ApiFloat.category (t392).value
  check (decide (Category.normal = t393))
  let t394 ← (parse ("0x1.fffffep+127".toList) : M Single)
  let t395 ← ApiFloat.bitwise_eq (t392).value t394
  check t395
  let t396 ← Api.sub t9 t14
  check (decide (({ inexact := true } : Status) = (t396).status))
  let t397 ← ApiFloat.category (t396).value
  check (decide (Category.normal = t397))
  let t398 ← (parse ("0x1p+0".toList) : M Single)
  let t399 ← ApiFloat.bitwise_eq (t396).value t398
  check t399
  let t400 ← Api.sub t9 t16
  check (decide (({ inexact := true } : Status) = (t400).status))
  let t401 ← ApiFloat.category (t400).value
  check (decide (Category.normal = t401))
  let t402 ← (parse ("0x1p+0".toList) : M Single)
  let t403 ← ApiFloat.bitwise_eq (t400).value t402
  check t403
  let t404 ← Api.sub t9 t17
  check (decide (({ inexact := true } : Status) = (t404).status))
  let t405 ← ApiFloat.category (t404).value
  check (decide (Category.normal = t405))
  let t406 ← (parse ("0x1p+0".toList) : M Single)
  let t407 ← ApiFloat.bitwise_eq (t404).value t406
  check t407
  let t408 ← Api.sub t9 t19
  check (decide (({ inexact := true } : Status) = (t408).status))
  let t409 ← ApiFloat.category (t408).value
  check (decide (Category.normal = t409))
  let t410 ← (parse ("0x1p+0".toList) : M Single)
  let t411 ← ApiFloat.bitwise_eq (t408).value t410
  check t411
  let t412 ← Api.sub t10 t1
  check (decide (Status.OK = (t412).status))
  let t413 ← ApiFloat.category (t412).value
  check (decide (Category.infinity = t413))
  let t414 ← (parse ("-inf".toList) : M Single)
  let t415 ← ApiFloat.bitwise_eq (t412).value t414
  check t415
  let t416 ← Api.sub t10 t3
  check (decide (Status.OK = (t416).status))
  let t417 ← ApiFloat.category (t416).value
  check (decide (Category.infinity = t417))
  let t418 ← (parse ("inf".toList) : M Single)
  let t419 ← ApiFloat.bitwise_eq (t416).value t418
  check t419
  let t420 ← Api.sub t10 t4
  check (decide (Status.OK = (t420).status))
  let t421 ← ApiFloat.category (t420).value
  check (decide (Category.normal = t421))
  let t422 ← (parse ("-0x1p+0".toList) : M Single)
  let t423 ← ApiFloat.bitwise_eq (t420).value t422
  check t423
  let t424 ← Api.sub t10 t6
  check (decide (Status.OK = (t424).status))

example : passes t_subtract_12 = true := by decide +kernel

/-- tests/ieee.rs:2328 `subtract`. -/
def t_subtract_13 : M Unit := do
  let t5 ← (ApiFloat.ZERO : M Single)
  let t6 ← ApiFloat.neg t5
  let t7 ← (ApiFloat.NAN : M Single)
  let t8 ← (parse ("snan123".toList) : M Single)
  let t9 ← (parse ("0x1p+0".toList) : M Single)
  let t10 ← (parse ("-0x1p+0".toList) : M Single)
  let t11 ← (ApiFloat.largest : M Single)
  let t12 ← (ApiFloat.largest : M Single)
  let t13 ← ApiFloat.neg t12
  let t14 ← (ApiFloat.SMALLEST : M Single)
  let t15 ← (ApiFloat.SMALLEST : M Single)
  let t16 ← ApiFloat.neg t15
  let t424 ← Api.sub t10 t6
  let t425 ← ApiFloat.category (t424).value
  check (decide (Category.normal = t425))
  let t426 ← (parse ("-0x1p+0".toList) : M Single)
  let t427 ← ApiFloat.bitwise_eq (t424).value t426
  check t427
  let t428 ← Api.sub t10 t7
  check (decide (Status.OK = (t428).status))
  let t429 ← ApiFloat.category (t428).value
  check (decide (Category.nan = t429))
  let t430 ← (parse ("nan".toList) : M Single)
  let t431 ← ApiFloat.bitwise_eq (t428).value t430
  check t431
  let t432 ← Api.sub t10 t8
  check (decide (({ invalidOp := true } : Status) = (t432).status))
  let t433 ← ApiFloat.category (t432).value
  check (decide (Category.nan = t433))
  let t434 ← (parse ("nan123".toList) : M Single)
  let t435 ← ApiFloat.bitwise_eq (t432).value t434
  check t435
  let t436 ← Api.sub t10 t9
  check (decide (Status.OK = (t436).status))
  let t437 ← ApiFloat.category (t436).value
  check (decide (Category.normal = t437))
  let t438 ← (parse ("-0x1p+1".toList) : M Single)
  let t439 ← ApiFloat.bitwise_eq (t436).value t438
  check t439
  let t440 ← Api.sub t10 t10
  check (decide (Status.OK = (t440).status))
  let t441 ← ApiFloat.category (t440).value
  check (decide (Category.zero = t441))
  let t442 ← (parse ("0x0p+0".toList) : M Single)
  let t443 ← ApiFloat.bitwise_eq (t440).value t442
  check t443
  let t444 ← Api.sub t10 t11
  check (decide (({ inexact := true } : Status) = (t444).status))
  let t445 ← ApiFloat.category (t444).value
  check (decide (Category.normal = t445))
  let t446 ← (parse ("-0x1.fffffep+127".toList) : M Single)
  let t447 ← ApiFloat.bitwise_eq (t444).value t446
  check t447
  let t448 ← Api.sub t10 t13
  check (decide (({ inexact := true } : Status) = (t448).status))
  let t449 ← ApiFloat.category (t448).value
  check (decide (Category.normal = t449))
  let t450 ← (parse ("0x1.fffffep+127".toList) : M Single)
  let t451 ← ApiFloat.bitwise_eq (t448).value t450
  check t451
  let t452 ← Api.sub t10 t14
  check (decide (({ inexact := true } : Status) = (t452).status))
  let t453 ← ApiFloat.category (t452).value
  check (decide (Category.normal = t453))
  let t454 ← (parse ("-0x1p+0".toList) : M Single)
  let t455 ← ApiFloat.bitwise_eq (t452).value t454
  check t455
  let t456 ← Api.sub t10 t16
  check (decide (({ inexact := true } : Status) = (t456).status))
  let t457 ← ApiFloat.category (t456).value
  check (decide (Category.normal = t457))
  let t458 ← (parse ("-0x1p+0".toList) : M Single)
  let t459 ← ApiFloat.bitwise_eq (t456).value t458
  check t459

example : passes t_subtract_13 = true := by decide +kernel

/-- tests/ieee.rs:2328 `subtract`. -/
def t_subtract_14 : M Unit := do
  let t1 ← (ApiFloat.INFINITY : M Single)
  let t2 ← (ApiFloat.INFINITY : M Single)
  let t3 ← ApiFloat.neg t2
  let t4 ← (ApiFloat.ZERO : M Single)
  let t5 ← (ApiFloat.ZERO : M Single)
  let t6 ← ApiFloat.neg t5
  let t7 ← (ApiFloat.NAN : M Single)
  let t8 ← (parse ("snan123".toList) : M Single)
  let t9 ← (parse ("0x1p+0".toList) : M Single)
  let t10 ← (parse ("-0x1p+0".toList) : M Single)
  let t11 ← (ApiFloat.largest : M Single)
  let t17 ← (ApiFloat.smallest_normalized : M Single)
  let t18 ← (ApiFloat.smallest_normalized : M Single)
  let t19 ← ApiFloat.neg t18
  let t460 ← Api.sub t10 t17
  check (decide (({ inexact := true } : Status) = (t460).status))
  let t461 ← ApiFloat.category (t460).value
  check (decide (Category.normal = t461))
  let t462 ← (parse ("-0x1p+0".toList) : M Single)
  let t463 ← ApiFloat.bitwise_eq (t460).value t462
  check t463
  let t464 ← Api.sub t10 t19
  check (decide (({ inexact := true } : Status) = (t464).status))
  let t465 ← ApiFloat.category (t464).value
  check (decide (Category.normal = t465))
  let t466 ← (parse ("-0x1p+0".toList) : M Single)
  let t467 ← ApiFloat.bitwise_eq (t464).value t466
  check t467
  let t468 ← Api.sub t11 t1
  check (decide (Status.OK = (t468).status))
  let t469 ← ApiFloat.category (t468).value
  check (decide (Category.infinity = t469))
  let t470 ← (parse ("-inf".toList) : M Single)
  let t471 ← ApiFloat.bitwise_eq (t468).value t470
  check t471
  let t472 ← Api.sub t11 t3
  check (decide (Status.OK = (t472).status))
  let t473 ← ApiFloat.category (t472).value
  check (decide (Category.infinity = t473))
  let t474 ← (parse ("inf".toList) : M Single)
  let t475 ← ApiFloat.bitwise_eq (t472).value t474
  check t475
  let t476 ← Api.sub t11 t4
  check (decide (Status.OK = (t476).status))
  let t477 ← ApiFloat.category (t476).value
  check (decide (Category.normal = t477))
  let t478 ← (parse ("0x1.fffffep+127".toList) : M Single)
  let t479 ← ApiFloat.bitwise_eq (t476).value t478
  check t479
  let t480 ← Api.sub t11 t6
  check (decide (Status.OK = (t480).status))
  let t481 ← ApiFloat.category (t480).value
  check (decide (Category.normal = t481))
  let t482 ← (parse ("0x1.fffffep+127".toList) : M Single)
  let t483 ← ApiFloat.bitwise_eq (t480).value t482
  check t483
  let t484 ← Api.sub t11 t7
  check (decide (Status.OK = (t484).status))
  let t485 ← ApiFloat.category (t484).value
  check (decide (Category.nan = t485))
  let t486 ← (parse ("nan".toList) : M Single)
  let t487 ← ApiFloat.bitwise_eq (t484).value t486
  check t487
  let t488 ← Api.sub t11 t8
  check (decide (({ invalidOp := true } : Status) = (t488).status))
  let t489 ← ApiFloat.category (t488).value
  check (decide (Category.nan = t489))
  let t490 ← (parse ("nan123".toList) : M Single)
  let t491 ← ApiFloat.bitwise_eq (t488).value t490
  check t491
  let t492 ← Api.sub t11 t9
  check (decide (({ inexact := true } : Status) = (t492).status))
  let t493 ← ApiFloat.category (t492).value
  check (decide (Category.normal = t493))

example : passes t_subtract_14 = true := by decide +kernel

/-- tests/ieee.rs:2328 `subtract`. -/
def t_subtract_15 : M Unit := do
  let t1 ← (ApiFloat.INFINITY : M Single)
  let t2 ← (ApiFloat.INFINITY : M Single)
  let t3 ← ApiFloat.neg t2
  let t9 ← (parse ("0x1p+0".toList) : M Single)
  let t10 ← (parse ("-0x1p+0".toList) : M Single)
  let t11 ← (ApiFloat.largest : M Single)
  let t12 ← (ApiFloat.largest : M Single)
  let t13 ← ApiFloat.neg t12
  let t14 ← (ApiFloat.SMALLEST : M Single)
  let t15 ← (ApiFloat.SMALLEST : M Single)
  let t16 ← ApiFloat.neg t15
  let t17 ← (ApiFloat.smallest_normalized : M Single)
  let t18 ← (ApiFloat.smallest_normalized : M Single)
  let t19 ← ApiFloat.neg t18
  let t492 ← Api.sub t11 t9
  let t494 ← (parse ("0x1.fffffep+127".toList) : M Single)
  let t495 ← ApiFloat.bitwise_eq (t492).value t494
  check t495
  let t496 ← Api.sub t11 t10
  check (decide (({ inexact := true } : Status) = (t496).status))
  let t497 ← ApiFloat.category (t496).value
  check (decide (Category.normal = t497))
  let t498 ← (parse ("0x1.fffffep+127".toList) : M Single)
  let t499 ← ApiFloat.bitwise_eq (t496).value t498
  check t499
  let t500 ← Api.sub t11 t11
  check (decide (Status.OK = (t500).status))
  let t501 ← ApiFloat.category (t500).value
  check (decide (Category.zero = t501))
  let t502 ← (parse ("0x0p+0".toList) : M Single)
  let t503 ← ApiFloat.bitwise_eq (t500).value t502
  check t503
  let t504 ← Api.sub t11 t13
  check (decide (({ overflow := true, inexact := true } : Status) = (t504).status))
  let t505 ← ApiFloat.category (t504).value
  check (decide (Category.infinity = t505))
  let t506 ← (parse ("inf".toList) : M Single)
  let t507 ← ApiFloat.bitwise_eq (t504).value t506
  check t507
  let t508 ← Api.sub t11 t14
  check (decide (({ inexact := true } : Status) = (t508).status))
  let t509 ← ApiFloat.category (t508).value
  check (decide (Category.normal = t509))
  let t510 ← (parse ("0x1.fffffep+127".toList) : M Single)
  let t511 ← ApiFloat.bitwise_eq (t508).value t510
  check t511
  let t512 ← Api.sub t11 t16
  check (decide (({ inexact := true } : Status) = (t512).status))
  let t513 ← ApiFloat.category (t512).value
  check (decide (Category.normal = t513))
  let t514 ← (parse ("0x1.fffffep+127".toList) : M Single)
  let t515 ← ApiFloat.bitwise_eq (t512).value t514
  check t515
  let t516 ← Api.sub t11 t17
  check (decide (({ inexact := true } : Status) = (t516).status))
  let t517 ← ApiFloat.category (t516).value
  check (decide (Category.normal = t517))
  let t518 ← (parse ("0x1.fffffep+127".toList) : M Single)
  let t519 ← ApiFloat.bitwise_eq (t516).value t518
  check t519
  let t520 ← Api.sub t11 t19
  check (decide (({ inexact := true } : Status) = (t520).status))
  let t521 ← ApiFloat.category (t520).value
  check (decide (Category.normal = t521))
  let t522 ← (parse ("0x1.fffffep+127".toList) : M Single)
  let t523 ← ApiFloat.bitwise_eq (t520).value t522
  check t523
  let t524 ← Api.sub t13 t1
  check (decide (Status.OK = (t524).status))
  let t525 ← ApiFloat.category (t524).value
  check (decide (Category.infinity = t525))
  let t526 ← (parse ("-inf".toList) : M Single)
  let t527 ← ApiFloat.bitwise_eq (t524).value t526
  check t527
  let t528 ← Api.sub t13 t3
  check (decide (Status.OK = (t528).status))

example : passes t_subtract_15 = true := by decide +kernel

/-- tests/ieee.rs:2328 `subtract`. -/
def t_subtract_16 : M Unit := do
  let t2 ← (ApiFloat.INFINITY : M Single)
  let t3 ← ApiFloat.neg t2
  let t4 ← (ApiFloat.ZERO : M Single)
  let t5 ← (ApiFloat.ZERO : M Single)
  let t6 ← ApiFloat.neg t5
  let t7 ← (ApiFloat.NAN : M Single)
  let t8 ← (parse ("snan123".toList) : M Single)
  let t9 ← (parse ("0x1p+0".toList) : M Single)
  let t10 ← (parse ("-0x1p+0".toList) : M Single)
  let t11 ← (ApiFloat.largest : M Single)
  let t12 ← (ApiFloat.largest : M Single)
  let t13 ← ApiFloat.neg t12
  let t528 ← Api.sub t13 t3
  let t529 ← ApiFloat.category (t528).value
  check (decide (Category.infinity = t529))
  let t530 ← (parse ("inf".toList) : M Single)
  let t531 ← ApiFloat.bitwise_eq (t528).value t530
  check t531
  let t532 ← Api.sub t13 t4
  check (decide (Status.OK = (t532).status))
  let t533 ← ApiFloat.category (t532).value
  check (decide (Category.normal = t533))
  let t534 ← (parse ("-0x1.fffffep+127".toList) : M Single)
  let t535 ← ApiFloat.bitwise_eq (t532).value t534
  check t535
  let t536 ← Api.sub t13 t6
  check (decide (Status.OK = (t536).status))
  let t537 ← ApiFloat.category (t536).value
  check (decide (Category.normal = t537))
  let t538 ← (parse ("-0x1.fffffep+127".toList) : M Single)
  let t539 ← ApiFloat.bitwise_eq (t536).value t538
  check t539
  let t540 ← Api.sub t13 t7
  check (decide (Status.OK = (t540).status))
  let t541 ← ApiFloat.category (t540).value
  check (decide (Category.nan = t541))
  let t542 ← (parse ("nan".toList) : M Single)
  let t543 ← ApiFloat.bitwise_eq (t540).value t542
  check t543
  let t544 ← Api.sub t13 t8
  check (decide (({ invalidOp := true } : Status) = (t544).status))
  let t545 ← ApiFloat.category (t544).value
  check (decide (Category.nan = t545))
  let t546 ← (parse ("nan123".toList) : M Single)
  let t547 ← ApiFloat.bitwise_eq (t544).value t546
  check t547
  let t548 ← Api.sub t13 t9
  check (decide (({ inexact := true } : Status) = (t548).status))
  let t549 ← ApiFloat.category (t548).value
  check (decide (Category.normal = t549))
  let t550 ← (parse ("-0x1.fffffep+127".toList) : M Single)
  let t551 ← ApiFloat.bitwise_eq (t548).value t550
  check t551
  let t552 ← Api.sub t13 t10
  check (decide (({ inexact := true } : Status) = (t552).status))
  let t553 ← ApiFloat.category (t552).value
  check (decide (Category.normal = t553))
  let t554 ← (parse ("-0x1.fffffep+127".toList) : M Single)
  let t555 ← ApiFloat.bitwise_eq (t552).value t554
  check t555
  let t556 ← Api.sub t13 t11
  check (decide (({ overflow := true, inexact := true } : Status) = (t556).status))
  let t557 ← ApiFloat.category (t556).value
  check (decide (Category.infinity = t557))
  let t558 ← (parse ("-inf".toList) : M Single)
  let t559 ← ApiFloat.bitwise_eq (t556).value t558
  check t559
  let t560 ← Api.sub t13 t13
  check (decide (Status.OK = (t560).status))
  let t561 ← ApiFloat.category (t560).value
  check (decide (Category.zero = t561))
  let t562 ← (parse ("0x0p+0".toList) : M Single)
  let t563 ← ApiFloat.bitwise_eq (t560).value t562
  check t563

example : passes t_subtract_16 = true := by decide +kernel

/-- tests/ieee.rs:2328 `subtract`. -/
def t_subtract_17 : M Unit := do
  let t1 ← (ApiFloat.INFINITY : M Single)
  let t2 ← (ApiFloat.INFINITY : M Single)
  let t3 ← ApiFloat.neg t2
  let t4 ← (ApiFloat.ZERO : M Single)
  let t5 ← (ApiFloat.ZERO : M Single)
  let t6 ← ApiFloat.neg t5
  let t7 ← (ApiFloat.NAN : M Single)
  let t12 ← (ApiFloat.largest : M Single)
  let t13 ← ApiFloat.neg t12
  let t14 ← (ApiFloat.SMALLEST : M Single)
  let t15 ← (ApiFloat.SMALLEST : M Single)
  let t16 ← ApiFloat.neg t15
  let t17 ← (ApiFloat.smallest_normalized : M Single)
  let t18 ← (ApiFloat.smallest_normalized : M Single)
  let t19 ← ApiFloat.neg t18
  let t564 ← Api.sub t13 t14
  check (decide (({ inexact := true } : Status) = (t564).status))
  let t565 ← ApiFloat.category (t564).value
  check (decide (Category.normal = t565))
  let t566 ← (parse ("-0x1.fffffep+127".toList) : M Single)
  let t567 ← ApiFloat.bitwise_eq (t564).value t566
  check t567
  let t568 ← Api.sub t13 t16
  check (decide (({ inexact := true } : Status) = (t568).status))
  let t569 ← ApiFloat.category (t568).value
  check (decide (Category.normal = t569))
  let t570 ← (parse ("-0x1.fffffep+127".toList) : M Single)
  let t571 ← ApiFloat.bitwise_eq (t568).value t570
  check t571
  let t572 ← Api.sub t13 t17
  check (decide (({ inexact := true } : Status) = (t572).status))
  let t573 ← ApiFloat.category (t572).value
  check (decide (Category.normal = t573))
  let t574 ← (parse ("-0x1.fffffep+127".toList) : M Single)
  let t575 ← ApiFloat.bitwise_eq (t572).value t574
  check t575
  let t576 ← Api.sub t13 t19
  check (decide (({ inexact := true } : Status) = (t576).status))
  let t577 ← ApiFloat.category (t576).value
  check (decide (Category.normal = t577))
  let t578 ← (parse ("-0x1.fffffep+127".toList) : M Single)
  let t579 ← ApiFloat.bitwise_eq (t576).value t578
  check t579
  let t580 ← Api.sub t14 t1
  check (decide (Status.OK = (t580).status))
  let t581 ← ApiFloat.category (t580).value
  check (decide (Category.infinity = t581))
  let t582 ← (parse ("-inf".toList) : M Single)
  let t583 ← ApiFloat.bitwise_eq (t580).value t582
  check t583
  let t584 ← Api.sub t14 t3
  check (decide (Status.OK = (t584).status))
  let t585 ← ApiFloat.category (t584).value
  check (decide (Category.infinity = t585))
  let t586 ← (parse ("inf".toList) : M Single)
  let t587 ← ApiFloat.bitwise_eq (t584).value t586
  check t587
  let t588 ← Api.sub t14 t4
  check (decide (Status.OK = (t588).status))
  let t589 ← ApiFloat.category (t588).value
  check (decide (Category.normal = t589))
  let t590 ← (parse ("0x1p-149".toList) : M Single)
  let t591 ← ApiFloat.bitwise_eq (t588).value t590
  check t591
  let t592 ← Api.sub t14 t6
  check (decide (Status.OK = (t592).status))
  let t593 ← ApiFloat.category (t592).value
  check (decide (Category.normal = t593))
  let t594 ← (parse ("0x1p-149".toList) : M Single)
  let t595 ← ApiFloat.bitwise_eq (t592).value t594
  check t595
  let t596 ← Api.sub t14 t7
  check (decide (Status.OK = (t596).status))
  let t597 ← ApiFloat.category (t596).value
  check (decide (Category.nan = t597))

example : passes t_subtract_17 = true := by decide +kernel

/-- tests/ieee.rs:2328 `subtract`. -/
def t_subtract_18 : M Unit := do
  let t7 ← (ApiFloat.NAN : M Single)
  let t8 ← (parse ("snan123".toList) : M Single)
  let t9 ← (parse ("0x1p+0".toList) : M Single)
  let t10 ← (parse ("-0x1p+0".toList) : M Single)
  let t11 ← (ApiFloat.largest : M Single)
  let t12 ← (ApiFloat.largest : M Single)
  let t13 ← ApiFloat.neg t12
  let t14 ← (ApiFloat.SMALLEST : M Single)
  let t15 ← (ApiFloat.SMALLEST : M Single)
  let t16 ← ApiFloat.neg t15
  let t17 ← (ApiFloat.smallest_normalized : M Single)
  let t18 ← (ApiFloat.smallest_normalized : M Single)
  let t19 ← ApiFloat.neg t18
  let t596 ← Api.sub t14 t7
  let t598 ← (parse ("nan".toList) : M Single)
  let t599 ← ApiFloat.bitwise_eq (t596).value t598
  check t599
  let t600 ← Api.sub t14 t8
  check (decide (({ invalidOp := true } : Status) = (t600).status))
  let t601 ← ApiFloat.category (t600).value
  check (decide (Category.nan = t601))
  let t602 ← (parse ("nan123".toList) : M Single)
  let t603 ← ApiFloat.bitwise_eq (t600).value t602
  check t603
  let t604 ← Api.sub t14 t9
  check (decide (({ inexact := true } : Status) = (t604).status))
  let t605 ← ApiFloat.category (t604).value
  check (decide (Category.normal = t605))
  let t606 ← (parse ("-0x1p+0".toList) : M Single)
  let t607 ← ApiFloat.bitwise_eq (t604).value t606
  check t607
  let t608 ← Api.sub t14 t10
  check (decide (({ inexact := true } : Status) = (t608).status))
  let t609 ← ApiFloat.category (t608).value
  check (decide (Category.normal = t609))
  let t610 ← (parse ("0x1p+0".toList) : M Single)
  let t611 ← ApiFloat.bitwise_eq (t608).value t610
  check t611
  let t612 ← Api.sub t14 t11
  check (decide (({ inexact := true } : Status) = (t612).status))
  let t613 ← ApiFloat.category (t612).value
  check (decide (Category.normal = t613))
  let t614 ← (parse ("-0x1.fffffep+127".toList) : M Single)
  let t615 ← ApiFloat.bitwise_eq (t612).value t614
  check t615
  let t616 ← Api.sub t14 t13
  check (decide (({ inexact := true } : Status) = (t616).status))
  let t617 ← ApiFloat.category (t616).value
  check (decide (Category.normal = t617))
  let t618 ← (parse ("0x1.fffffep+127".toList) : M Single)
  let t619 ← ApiFloat.bitwise_eq (t616).value t618
  check t619
  let t620 ← Api.sub t14 t14
  check (decide (Status.OK = (t620).status))
  let t621 ← ApiFloat.category (t620).value
  check (decide (Category.zero = t621))
  let t622 ← (parse ("0x0p+0".toList) : M Single)
  let t623 ← ApiFloat.bitwise_eq (t620).value t622
  check t623
  let t624 ← Api.sub t14 t16
  check (decide (Status.OK = (t624).status))
  let t625 ← ApiFloat.category (t624).value
  check (decide (Category.normal = t625))
  let t626 ← (parse ("0x1p-148".toList) : M Single)
  let t627 ← ApiFloat.bitwise_eq (t624).value t626
  check t627
  let t628 ← Api.sub t14 t17
  check (decide (Status.OK = (t628).status))
  let t629 ← ApiFloat.category (t628).value
  check (decide (Category.normal = t629))
  let t630 ← (parse ("-0x1.fffffcp-127".toList) : M Single)
  let t631 ← ApiFloat.bitwise_eq (t628).value t630
  check t631
  let t632 ← Api.sub t14 t19
  check (decide (Status.OK = (t632).status))

example : passes t_subtract_18 = true := by decide +kernel

/-- tests/ieee.rs:2328 `subtract`. -/
def t_subtract_19 : M Unit := do
  let t1 ← (ApiFloat.INFINITY : M Single)
  let t2 ← (ApiFloat.INFINITY : M Single)
  let t3 ← ApiFloat.neg t2
  let t4 ← (ApiFloat.ZERO : M Single)
  let t5 ← (ApiFloat.ZERO : M Single)
  let t6 ← ApiFloat.neg t5
  let t7 ← (ApiFloat.NAN : M Single)
  let t8 ← (parse ("snan123".toList) : M Single)
  let t9 ← (parse ("0x1p+0".toList) : M Single)
  let t10 ← (parse ("-0x1p+0".toList) : M Single)
  let t14 ← (ApiFloat.SMALLEST : M Single)
  let t15 ← (ApiFloat.SMALLEST : M Single)
  let t16 ← ApiFloat.neg t15
  let t18 ← (ApiFloat.smallest_normalized : M Single)
  let t19 ← ApiFloat.neg t18
  let t632 ← Api.sub t14 t19
  let t633 ← ApiFloat.category (t632).value
  check (decide (Category.normal = t633))
  let t634 ← (parse ("0x1.000002p-126".toList) : M Single)
  let t635 ← ApiFloat.bitwise_eq (t632).value t634
  check t635
  let t636 ← Api.sub t16 t1
  check (decide (Status.OK = (t636).status))
  let t637 ← ApiFloat.category (t636).value
  check (decide (Category.infinity = t637))
  let t638 ← (parse ("-inf".toList) : M Single)
  let t639 ← ApiFloat.bitwise_eq (t636).value t638
  check t639
  let t640 ← Api.sub t16 t3
  check (decide (Status.OK = (t640).status))
  let t641 ← ApiFloat.category (t640).value
  check (decide (Category.infinity = t641))
  let t642 ← (parse ("inf".toList) : M Single)
  let t643 ← ApiFloat.bitwise_eq (t640).value t642
  check t643
  let t644 ← Api.sub t16 t4
  check (decide (Status.OK = (t644).status))
  let t645 ← ApiFloat.category (t644).value
  check (decide (Category.normal = t645))
  let t646 ← (parse ("-0x1p-149".toList) : M Single)
  let t647 ← ApiFloat.bitwise_eq (t644).value t646
  check t647
  let t648 ← Api.sub t16 t6
  check (decide (Status.OK = (t648).status))
  let t649 ← ApiFloat.category (t648).value
  check (decide (Category.normal = t649))
  let t650 ← (parse ("-0x1p-149".toList) : M Single)
  let t651 ← ApiFloat.bitwise_eq (t648).value t650
  check t651
  let t652 ← Api.sub t16 t7
  check (decide (Status.OK = (t652).status))
  let t653 ← ApiFloat.category (t652).value
  check (decide (Category.nan = t653))
  let t654 ← (parse ("nan".toList) : M Single)
  let t655 ← ApiFloat.bitwise_eq (t652).value t654
  check t655
  let t656 ← Api.sub t16 t8
  check (decide (({ invalidOp := true } : Status) = (t656).status))
  let t657 ← ApiFloat.category (t656).value
  check (decide (Category.nan = t657))
  let t658 ← (parse ("nan123".toList) : M Single)
  let t659 ← ApiFloat.bitwise_eq (t656).value t658
  check t659
  let t660 ← Api.sub t16 t9
  check (decide (({ inexact := true } : Status) = (t660).status))
  let t661 ← ApiFloat.category (t660).value
  check (decide (Category.normal = t661))
  let t662 ← (parse ("-0x1p+0".toList) : M Single)
  let t663 ← ApiFloat.bitwise_eq (t660).value t662
  check t663
  let t664 ← Api.sub t16 t10
  check (decide (({ inexact := true } : Status) = (t664).status))
  let t665 ← ApiFloat.category (t664).value
  check (decide (Category.normal = t665))
  let t666 ← (parse ("0x1p+0".toList) : M Single)
  let t667 ← ApiFloat.bitwise_eq (t664).value t666
  check t667

example : passes t_subtract_19 = true := by decide +kernel

/-- tests/ieee.rs:2328 `subtract`. -/
def t_subtract_20 : M Unit := do
  let t1 ← (ApiFloat.INFINITY : M Single)
  let t2 ← (ApiFloat.INFINITY : M Single)
  let t3 ← ApiFloat.neg t2
  let t4 ← (ApiFloat.ZERO : M Single)
  let t11 ← (ApiFloat.largest : M Single)
  let t12 ← (ApiFloat.largest : M Single)
  let t13 ← ApiFloat.neg t12
  let t14 ← (ApiFloat.SMALLEST : M Single)
  let t15 ← (ApiFloat.SMALLEST : M Single)
  let t16 ← ApiFloat.neg t15
  let t17 ← (ApiFloat.smallest_normalized : M Single)
  let t18 ← (ApiFloat.smallest_normalized : M Single)
  let t19 ← ApiFloat.neg t18
  let t668 ← Api.sub t16 t11
  check (decide (({ inexact := true } : Status) = (t668).status))
  let t669 ← ApiFloat.category (t668).value
  check (decide (Category.normal = t669))
  let t670 ← (parse ("-0x1.fffffep+127".toList) : M Single)
  let t671 ← ApiFloat.bitwise_eq (t668).value t670
  check t671
  let t672 ← Api.sub t16 t13
  check (decide (({ inexact := true } : Status) = (t672).status))
  let t673 ← ApiFloat.category (t672).value
  check (decide (Category.normal = t673))
  let t674 ← (parse ("0x1.fffffep+127".toList) : M Single)
  let t675 ← ApiFloat.bitwise_eq (t672).value t674
  check t675
  let t676 ← Api.sub t16 t14
  check (decide (Status.OK = (t676).status))
  let t677 ← ApiFloat.category (t676).value
  check (decide (Category.normal = t677))
  let t678 ← (parse ("-0x1p-148".toList) : M Single)
  let t679 ← ApiFloat.bitwise_eq (t676).value t678
  check t679
  let t680 ← Api.sub t16 t16
  check (decide (Status.OK = (t680).status))
  let t681 ← ApiFloat.category (t680).value
  check (decide (Category.zero = t681))
  let t682 ← (parse ("0x0p+0".toList) : M Single)
  let t683 ← ApiFloat.bitwise_eq (t680).value t682
  check t683
  let t684 ← Api.sub t16 t17
  check (decide (Status.OK = (t684).status))
  let t685 ← ApiFloat.category (t684).value
  check (decide (Category.normal = t685))
  let t686 ← (parse ("-0x1.000002p-126".toList) : M Single)
  let t687 ← ApiFloat.bitwise_eq (t684).value t686
  check t687
  let t688 ← Api.sub t16 t19
  check (decide (Status.OK = (t688).status))
  let t689 ← ApiFloat.category (t688).value
  check (decide (Category.normal = t689))
  let t690 ← (parse ("0x1.fffffcp-127".toList) : M Single)
  let t691 ← ApiFloat.bitwise_eq (t688).value t690
  check t691
  let t692 ← Api.sub t17 t1
  check (decide (Status.OK = (t692).status))
  let t693 ← ApiFloat.category (t692).value
  check (decide (Category.infinity = t693))
  let t694 ← (parse ("-inf".toList) : M Single)
  let t695 ← ApiFloat.bitwise_eq (t692).value t694
  check t695
  let t696 ← Api.sub t17 t3
  check (decide (Status.OK = (t696).status))
  let t697 ← ApiFloat.category (t696).value
  check (decide (Category.infinity = t697))
  let t698 ← (parse ("inf".toList) : M Single)
  let t699 ← ApiFloat.bitwise_eq (t696).value t698
  check t699
  let t700 ← Api.sub t17 t4
  check (decide (Status.OK = (t700).status))
  let t701 ← ApiFloat.category (t700).value
  check (decide (Category.normal = t701))

example : passes t_subtract_20 = true := by decide +kernel

/-- tests/ieee.rs:2328 `subtract`. -/
def t_subtract_21 : M Unit := do
  let t4 ← (ApiFloat.ZERO : M Single)
  let t5 ← (ApiFloat.ZERO : M Single)
  let t6 ← ApiFloat.neg t5
  let t7 ← (ApiFloat.NAN : M Single)
  let t8 ← (parse ("snan123".toList) : M Single)
  let t9 ← (parse ("0x1p+0".toList) : M Single)
  let t10 ← (parse ("-0x1p+0".toList) : M Single)
  let t11 ← (ApiFloat.largest : M Single)
  let t12 ← (ApiFloat.largest : M Single)
  let t13 ← ApiFloat.neg t12
  let t14 ← (ApiFloat.SMALLEST : M Single)
  let t15 ← (ApiFloat.SMALLEST : M Single)
  let t16 ← ApiFloat.neg t15
  let t17 ← (ApiFloat.smallest_normalized : M Single)
  let t700 ← Api.sub t17 t4
  let t702 ← (parse ("0x1p-126".toList) : M Single)
  let t703 ← ApiFloat.bitwise_eq (t700).value t702
  check t703
  let t704 ← Api.sub t17 t6
  check (decide (Status.OK = (t704).status))
  let t705 ← ApiFloat.category (t704).value
  check (decide (Category.normal = t705))
  let t706 ← (parse ("0x1p-126".toList) : M Single)
  let t707 ← ApiFloat.bitwise_eq (t704).value t706
  check t707
  let t708 ← Api.sub t17 t7
  check (decide (Status.OK = (t708).status))
  let t709 ← ApiFloat.category (t708).value
  check (decide (Category.nan = t709))
  let t710 ← (parse ("nan".toList) : M Single)
  let t711 ← ApiFloat.bitwise_eq (t708).value t710
  check t711
  let t712 ← Api.sub t17 t8
  check (decide (({ invalidOp := true } : Status) = (t712).status))
  let t713 ← ApiFloat.category (t712).value
  check (decide (Category.nan = t713))
  let t714 ← (parse ("nan123".toList) : M Single)
  let t715 ← ApiFloat.bitwise_eq (t712).value t714
  check t715
  let t716 ← Api.sub t17 t9
  check (decide (({ inexact := true } : Status) = (t716).status))
  let t717 ← ApiFloat.category (t716).value
  check (decide (Category.normal = t717))
  let t718 ← (parse ("-0x1p+0".toList) : M Single)
  let t719 ← ApiFloat.bitwise_eq (t716).value t718
  check t719
  let t720 ← Api.sub t17 t10
  check (decide (({ inexact := true } : Status) = (t720).status))
  let t721 ← ApiFloat.category (t720).value
  check (decide (Category.normal = t721))
  let t722 ← (parse ("0x1p+0".toList) : M Single)
  let t723 ← ApiFloat.bitwise_eq (t720).value t722
  check t723
  let t724 ← Api.sub t17 t11
  check (decide (({ inexact := true } : Status) = (t724).status))
  let t725 ← ApiFloat.category (t724).value
  check (decide (Category.normal = t725))
  let t726 ← (parse ("-0x1.fffffep+127".toList) : M Single)
  let t727 ← ApiFloat.bitwise_eq (t724).value t726
  check t727
  let t728 ← Api.sub t17 t13
  check (decide (({ inexact := true } : Status) = (t728).status))
  let t729 ← ApiFloat.category (t728).value
  check (decide (Category.normal = t729))
  let t730 ← (parse ("0x1.fffffep+127".toList) : M Single)
  let t731 ← ApiFloat.bitwise_eq (t728).value t730
  check t731
  let t732 ← Api.sub t17 t14
  check (decide (Status.OK = (t732).status))
  let t733 ← ApiFloat.category (t732).value
  check (decide (Category.normal = t733))
  let t734 ← (parse ("0x1.fffffcp-127".toList) : M Single)
  let t735 ← ApiFloat.bitwise_eq (t732).value t734
  check t735
  let t736 ← Api.sub t17 t16
  check (decide (Status.OK = (t736).status))

example : passes t_subtract_21 = true := by decide +kernel

/-- tests/ieee.rs:2328 `subtract`. -/
def t_subtract_22 : M Unit := do
  let t1 ← (ApiFloat.INFINITY : M Single)
  let t2 ← (ApiFloat.INFINITY : M Single)
  let t3 ← ApiFloat.neg t2
  let t4 ← (ApiFloat.ZERO : M Single)
  let t5 ← (ApiFloat.ZERO : M Single)
  let t6 ← ApiFloat.neg t5
  let t7 ← (ApiFloat.NAN : M Single)
  let t8 ← (parse ("snan123".toList) : M Single)
  let t15 ← (ApiFloat.SMALLEST : M Single)
  let t16 ← ApiFloat.neg t15
  let t17 ← (ApiFloat.smallest_normalized : M Single)
  let t18 ← (ApiFloat.smallest_normalized : M Single)
  let t19 ← ApiFloat.neg t18
  let t736 ← Api.sub t17 t16
  let t737 ← ApiFloat.category (t736).value
  check (decide (Category.normal = t737))
  let t738 ← (parse ("0x1.000002p-126".toList) : M Single)
  let t739 ← ApiFloat.bitwise_eq (t736).value t738
  check t739
  let t740 ← Api.sub t17 t17
  check (decide (Status.OK = (t740).status))
  let t741 ← ApiFloat.category (t740).value
  check (decide (Category.zero = t741))
  let t742 ← (parse ("0x0p+0".toList) : M Single)
  let t743 ← ApiFloat.bitwise_eq (t740).value t742
  check t743
  let t744 ← Api.sub t17 t19
  check (decide (Status.OK = (t744).status))
  let t745 ← ApiFloat.category (t744).value
  check (decide (Category.normal = t745))
  let t746 ← (parse ("0x1p-125".toList) : M Single)
  let t747 ← ApiFloat.bitwise_eq (t744).value t746
  check t747
  let t748 ← Api.sub t19 t1
  check (decide (Status.OK = (t748).status))
  let t749 ← ApiFloat.category (t748).value
  check (decide (Category.infinity = t749))
  let t750 ← (parse ("-inf".toList) : M Single)
  let t751 ← ApiFloat.bitwise_eq (t748).value t750
  check t751
  let t752 ← Api.sub t19 t3
  check (decide (Status.OK = (t752).status))
  let t753 ← ApiFloat.category (t752).value
  check (decide (Category.infinity = t753))
  let t754 ← (parse ("inf".toList) : M Single)
  let t755 ← ApiFloat.bitwise_eq (t752).value t754
  check t755
  let t756 ← Api.sub t19 t4
  check (decide (Status.OK = (t756).status))
  let t757 ← ApiFloat.category (t756).value
  check (decide (Category.normal = t757))
  let t758 ← (parse ("-0x1p-126".toList) : M Single)
  let t759 ← ApiFloat.bitwise_eq (t756).value t758
  check t759
  let t760 ← Api.sub t19 t6
  check (decide (Status.OK = (t760).status))
  let t761 ← ApiFloat.category (t760).value
  check (decide (Category.normal = t761))
  let t762 ← (parse ("-0x1p-126".toList) : M Single)
  let t763 ← ApiFloat.bitwise_eq (t760).value t762
  check t763
  let t764 ← Api.sub t19 t7
  check (decide (Status.OK = (t764).status))
  let t765 ← ApiFloat.category (t764).value
  check (decide (Category.nan = t765))
  let t766 ← (parse ("nan".toList) : M Single)
  let t767 ← ApiFloat.bitwise_eq (t764).value t766
  check t767
  let t768 ← Api.sub t19 t8
  check (decide (({ invalidOp := true } : Status) = (t768).status))
  let t769 ← ApiFloat.category (t768).value
  check (decide (Category.nan = t769))
  let t770 ← (parse ("nan123".toList) : M Single)
  let t771 ← ApiFloat.bitwise_eq (t768).value t770
  check t771

example : passes t_subtract_22 = true := by decide +kernel

/-- tests/ieee.rs:2328 `subtract`. -/
def t_subtract_23 : M Unit := do
  let t9 ← (parse ("0x1p+0".toList) : M Single)
  let t10 ← (parse ("-0x1p+0".toList) : M Single)
  let t11 ← (ApiFloat.largest : M Single)
  let t12 ← (ApiFloat.largest : M Single)
  let t13 ← ApiFloat.neg t12
  let t14 ← (ApiFloat.SMALLEST : M Single)
  let t15 ← (ApiFloat.SMALLEST : M Single)
  let t16 ← ApiFloat.neg t15
  let t17 ← (ApiFloat.smallest_normalized : M Single)
  let t18 ← (ApiFloat.smallest_normalized : M Single)
  let t19 ← ApiFloat.neg t18
  let t772 ← Api.sub t19 t9
  check (decide (({ inexact := true } : Status) = (t772).status))
  let t773 ← ApiFloat.category (t772).value
  check (decide (Category.normal = t773))
  let t774 ← (parse ("-0x1p+0".toList) : M Single)
  let t775 ← ApiFloat.bitwise_eq (t772).value t774
  check t775
  let t776 ← Api.sub t19 t10
  check (decide (({ inexact := true } : Status) = (t776).status))
  let t777 ← ApiFloat.category (t776).value
  check (decide (Category.normal = t777))
  let t778 ← (parse ("0x1p+0".toList) : M Single)
  let t779 ← ApiFloat.bitwise_eq (t776).value t778
  check t779
  let t780 ← Api.sub t19 t11
  check (decide (({ inexact := true } : Status) = (t780).status))
  let t781 ← ApiFloat.category (t780).value
  check (decide (Category.normal = t781))
  let t782 ← (parse ("-0x1.fffffep+127".toList) : M Single)
  let t783 ← ApiFloat.bitwise_eq (t780).value t782
  check t783
  let t784 ← Api.sub t19 t13
  check (decide (({ inexact := true } : Status) = (t784).status))
  let t785 ← ApiFloat.category (t784).value
  check (decide (Category.normal = t785))
  let t786 ← (parse ("0x1.fffffep+127".toList) : M Single)
  let t787 ← ApiFloat.bitwise_eq (t784).value t786
  check t787
  let t788 ← Api.sub t19 t14
  check (decide (Status.OK = (t788).status))
  let t789 ← ApiFloat.category (t788).value
  check (decide (Category.normal = t789))
  let t790 ← (parse ("-0x1.000002p-126".toList) : M Single)
  let t791 ← ApiFloat.bitwise_eq (t788).value t790
  check t791
  let t792 ← Api.sub t19 t16
  check (decide (Status.OK = (t792).status))
  let t793 ← ApiFloat.category (t792).value
  check (decide (Category.normal = t793))
  let t794 ← (parse ("-0x1.fffffcp-127".toList) : M Single)
  let t795 ← ApiFloat.bitwise_eq (t792).value t794
  check t795
  let t796 ← Api.sub t19 t17
  check (decide (Status.OK = (t796).status))
  let t797 ← ApiFloat.category (t796).value
  check (decide (Category.normal = t797))
  let t798 ← (parse ("-0x1p-125".toList) : M Single)
  let t799 ← ApiFloat.bitwise_eq (t796).value t798
  check t799
  let t800 ← Api.sub t19 t19
  check (decide (Status.OK = (t800).status))
  let t801 ← ApiFloat.category (t800).value
  check (decide (Category.zero = t801))
  let t802 ← (parse ("0x0p+0".toList) : M Single)
  let t803 ← ApiFloat.bitwise_eq (t800).value t802
  check t803

example : passes t_subtract_23 = true := by decide +kernel

end Apf.Conformance.Ieee2
