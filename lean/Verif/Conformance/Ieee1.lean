import Verif.Conformance.Support
/-! Generated by tools/tests_to_lean.py from tests/ieee.rs. -/

namespace Apf.Conformance.Ieee1
set_option maxRecDepth 100000
set_option linter.all false

/-- tests/ieee.rs:100 `is_signaling`. -/
def t_is_signaling : M Unit := do
  let t1 ← (ApiFloat.qnan none : M Single)
  let t2 ← ApiFloat.is_signaling t1
  check (!t2)
  let t3 ← (ApiFloat.qnan none : M Single)
  let t4 ← ApiFloat.neg t3
  let t5 ← ApiFloat.is_signaling t4
  check (!t5)
  let t6 ← (ApiFloat.qnan (some 4) : M Single)
  let t7 ← ApiFloat.is_signaling t6
  check (!t7)
  let t8 ← (ApiFloat.qnan (some 4) : M Single)
  let t9 ← ApiFloat.neg t8
  let t10 ← ApiFloat.is_signaling t9
  check (!t10)
  let t11 ← (ApiFloat.snan none : M Single)
  let t12 ← ApiFloat.is_signaling t11
  check t12
  let t13 ← (ApiFloat.snan none : M Single)
  let t14 ← ApiFloat.neg t13
  let t15 ← ApiFloat.is_signaling t14
  check t15
  let t16 ← (ApiFloat.snan (some 4) : M Single)
  let t17 ← ApiFloat.is_signaling t16
  check t17
  let t18 ← (ApiFloat.snan (some 4) : M Single)
  let t19 ← ApiFloat.neg t18
  let t20 ← ApiFloat.is_signaling t19
  check t20

example : passes t_is_signaling = true := by decide +kernel

/-- tests/ieee.rs:114 `next`. -/
def t_next_1 : M Unit := do
  let t1 ← (ApiFloat.INFINITY : M Quad)
  let t2 ← ApiFloat.next_up t1
  let t3 ← (ApiFloat.INFINITY : M Quad)
  check (decide ((t2).status = Status.OK))
  let t4 ← is_infinite (t2).value
  check t4
  let t5 ← ApiFloat.is_negative (t2).value
  check (!t5)
  let t6 ← ApiFloat.bitwise_eq (t2).value t3
  check t6
  let t7 ← (ApiFloat.INFINITY : M Quad)
  let t8 ← ApiFloat.next_down t7
  let t9 ← (ApiFloat.largest : M Quad)
  check (decide ((t8).status = Status.OK))
  let t10 ← ApiFloat.is_negative (t8).value
  check (!t10)
  let t11 ← ApiFloat.bitwise_eq (t8).value t9
  check t11
  let t12 ← (ApiFloat.INFINITY : M Quad)
  let t13 ← ApiFloat.neg t12
  let t14 ← ApiFloat.next_up t13
  let t15 ← (ApiFloat.largest : M Quad)
  let t16 ← ApiFloat.neg t15
  check (decide ((t14).status = Status.OK))
  let t17 ← ApiFloat.is_negative (t14).value
  check t17
  let t18 ← ApiFloat.bitwise_eq (t14).value t16
  check t18
  let t19 ← (ApiFloat.INFINITY : M Quad)
  let t20 ← ApiFloat.neg t19
  let t21 ← ApiFloat.next_down t20
  let t22 ← (ApiFloat.INFINITY : M Quad)
  let t23 ← ApiFloat.neg t22
  check (decide ((t21).status = Status.OK))
  let t24 ← is_infinite (t21).value
  let t25 ← ApiFloat.is_negative (t21).value
  check (t24 && t25)
  let t26 ← ApiFloat.bitwise_eq (t21).value t23
  check t26
  let t27 ← (ApiFloat.largest : M Quad)
  let t28 ← ApiFloat.next_up t27
  let t29 ← (ApiFloat.INFINITY : M Quad)
  check (decide ((t28).status = Status.OK))
  let t30 ← is_infinite (t28).value
  let t31 ← ApiFloat.is_negative (t28).value
  check (t30 && (!t31))
  let t32 ← ApiFloat.bitwise_eq (t28).value t29
  check t32
  let t33 ← (ApiFloat.largest : M Quad)
  let t34 ← ApiFloat.next_down t33
  let t35 ← (parse ("0x1.fffffffffffffffffffffffffffep+16383".toList) : M Quad)
  check (decide ((t34).status = Status.OK))
  let t36 ← is_infinite (t34).value
  let t37 ← ApiFloat.is_negative (t34).value
  check ((!t36) && (!t37))
  let t38 ← ApiFloat.bitwise_eq (t34).value t35
  check t38
  let t39 ← (ApiFloat.largest : M Quad)
  let t40 ← ApiFloat.neg t39
  let t41 ← ApiFloat.next_up t40
  let _ ← (parse ("-0x1.fffffffffffffffffffffffffffep+16383".toList) : M Quad)
  check (decide ((t41).status = Status.OK))

example : passes t_next_1 = true := by decide +kernel

/-- tests/ieee.rs:114 `next`. -/
def t_next_2 : M Unit := do
  let t39 ← (ApiFloat.largest : M Quad)
  let t40 ← ApiFloat.neg t39
  let t41 ← ApiFloat.next_up t40
  let t42 ← (parse ("-0x1.fffffffffffffffffffffffffffep+16383".toList) : M Quad)
  let t43 ← ApiFloat.bitwise_eq (t41).value t42
  check t43
  let t44 ← (ApiFloat.largest : M Quad)
  let t45 ← ApiFloat.neg t44
  let t46 ← ApiFloat.next_down t45
  let t47 ← (ApiFloat.INFINITY : M Quad)
  let t48 ← ApiFloat.neg t47
  check (decide ((t46).status = Status.OK))
  let t49 ← is_infinite (t46).value
  let t50 ← ApiFloat.is_negative (t46).value
  check (t49 && t50)
  let t51 ← ApiFloat.bitwise_eq (t46).value t48
  check t51
  let t52 ← (parse ("0x0.0000000000000000000000000001p-16382".toList) : M Quad)
  let t53 ← ApiFloat.next_up t52
  let t54 ← (parse ("0x0.0000000000000000000000000002p-16382".toList) : M Quad)
  check (decide ((t53).status = Status.OK))
  let t55 ← ApiFloat.bitwise_eq (t53).value t54
  check t55
  let t56 ← (parse ("0x0.0000000000000000000000000001p-16382".toList) : M Quad)
  let t57 ← ApiFloat.next_down t56
  let t58 ← (ApiFloat.ZERO : M Quad)
  check (decide ((t57).status = Status.OK))
  let t59 ← is_pos_zero (t57).value
  check t59
  let t60 ← ApiFloat.bitwise_eq (t57).value t58
  check t60
  let t61 ← (parse ("-0x0.0000000000000000000000000001p-16382".toList) : M Quad)
  let t62 ← ApiFloat.next_up t61
  let t63 ← (ApiFloat.ZERO : M Quad)
  let t64 ← ApiFloat.neg t63
  check (decide ((t62).status = Status.OK))
  let t65 ← is_neg_zero (t62).value
  check t65
  let t66 ← ApiFloat.bitwise_eq (t62).value t64
  check t66
  let t67 ← (parse ("-0x0.0000000000000000000000000001p-16382".toList) : M Quad)
  let t68 ← ApiFloat.next_down t67
  let t69 ← (parse ("-0x0.0000000000000000000000000002p-16382".toList) : M Quad)
  check (decide ((t68).status = Status.OK))
  let t70 ← ApiFloat.bitwise_eq (t68).value t69
  check t70
  let t71 ← (ApiFloat.qnan none : M Quad)
  let t72 ← ApiFloat.next_up t71
  let t73 ← (ApiFloat.qnan none : M Quad)
  check (decide ((t72).status = Status.OK))
  let t74 ← ApiFloat.bitwise_eq (t72).value t73
  check t74
  let t75 ← (ApiFloat.qnan none : M Quad)
  let t76 ← ApiFloat.next_down t75
  let t77 ← (ApiFloat.qnan none : M Quad)
  check (decide ((t76).status = Status.OK))
  let t78 ← ApiFloat.bitwise_eq (t76).value t77
  check t78
  let t79 ← (ApiFloat.snan none : M Quad)
  let t80 ← ApiFloat.next_up t79
  let t81 ← (ApiFloat.qnan none : M Quad)
  check (decide ((t80).status = ({ invalidOp := true } : Status)))
  let t82 ← ApiFloat.bitwise_eq (t80).value t81
  check t82

example : passes t_next_2 = true := by decide +kernel

/-- tests/ieee.rs:114 `next`. -/
def t_next_3 : M Unit := do
  let t83 ← (ApiFloat.snan none : M Quad)
  let t84 ← ApiFloat.next_down t83
  let t85 ← (ApiFloat.qnan none : M Quad)
  check (decide ((t84).status = ({ invalidOp := true } : Status)))
  let t86 ← ApiFloat.bitwise_eq (t84).value t85
  check t86
  let t87 ← (ApiFloat.ZERO : M Quad)
  let t88 ← ApiFloat.next_up t87
  let t89 ← (ApiFloat.SMALLEST : M Quad)
  check (decide ((t88).status = Status.OK))
  let t90 ← ApiFloat.bitwise_eq (t88).value t89
  check t90
  let t91 ← (ApiFloat.ZERO : M Quad)
  let t92 ← ApiFloat.next_down t91
  let t93 ← (ApiFloat.SMALLEST : M Quad)
  let t94 ← ApiFloat.neg t93
  check (decide ((t92).status = Status.OK))
  let t95 ← ApiFloat.bitwise_eq (t92).value t94
  check t95
  let t96 ← (ApiFloat.ZERO : M Quad)
  let t97 ← ApiFloat.neg t96
  let t98 ← ApiFloat.next_up t97
  let t99 ← (ApiFloat.SMALLEST : M Quad)
  check (decide ((t98).status = Status.OK))
  let t100 ← ApiFloat.bitwise_eq (t98).value t99
  check t100
  let t101 ← (ApiFloat.ZERO : M Quad)
  let t102 ← ApiFloat.neg t101
  let t103 ← ApiFloat.next_down t102
  let t104 ← (ApiFloat.SMALLEST : M Quad)
  let t105 ← ApiFloat.neg t104
  check (decide ((t103).status = Status.OK))
  let t106 ← ApiFloat.bitwise_eq (t103).value t105
  check t106
  let t107 ← (parse ("0x0.ffffffffffffffffffffffffffffp-16382".toList) : M Quad)
  let t108 ← ApiFloat.next_up t107
  let t109 ← (parse ("0x1.0000000000000000000000000000p-16382".toList) : M Quad)
  check (decide ((t108).status = Status.OK))
  let t110 ← ApiFloat.is_denormal (t108).value
  check (!t110)
  let t111 ← ApiFloat.bitwise_eq (t108).value t109
  check t111
  let t112 ← (parse ("-0x0.ffffffffffffffffffffffffffffp-16382".toList) : M Quad)
  let t113 ← ApiFloat.next_down t112
  let t114 ← (parse ("-0x1.0000000000000000000000000000p-16382".toList) : M Quad)
  check (decide ((t113).status = Status.OK))
  let t115 ← ApiFloat.is_denormal (t113).value
  check (!t115)
  let t116 ← ApiFloat.bitwise_eq (t113).value t114
  check t116
  let t117 ← (parse ("-0x1.0000000000000000000000000000p-16382".toList) : M Quad)
  let t118 ← ApiFloat.next_up t117
  let t119 ← (parse ("-0x0.ffffffffffffffffffffffffffffp-16382".toList) : M Quad)
  check (decide ((t118).status = Status.OK))
  let t120 ← ApiFloat.is_denormal (t118).value
  check t120
  let t121 ← ApiFloat.bitwise_eq (t118).value t119
  check t121
  let t122 ← (parse ("+0x1.0000000000000000000000000000p-16382".toList) : M Quad)
  let t123 ← ApiFloat.next_down t122
  let _ ← (parse ("+0x0.ffffffffffffffffffffffffffffp-16382".toList) : M Quad)
  check (decide ((t123).status = Status.OK))

example : passes t_next_3 = true := by decide +kernel

/-- tests/ieee.rs:114 `next`. -/
def t_next_4 : M Unit := do
  let t122 ← (parse ("+0x1.0000000000000000000000000000p-16382".toList) : M Quad)
  let t123 ← ApiFloat.next_down t122
  let t124 ← (parse ("+0x0.ffffffffffffffffffffffffffffp-16382".toList) : M Quad)
  let t125 ← ApiFloat.is_denormal (t123).value
  check t125
  let t126 ← ApiFloat.bitwise_eq (t123).value t124
  check t126
  let t127 ← (parse ("-0x1p+1".toList) : M Quad)
  let t128 ← ApiFloat.next_up t127
  let t129 ← (parse ("-0x1.ffffffffffffffffffffffffffffp+0".toList) : M Quad)
  check (decide ((t128).status = Status.OK))
  let t130 ← ApiFloat.bitwise_eq (t128).value t129
  check t130
  let t131 ← (parse ("0x1p+1".toList) : M Quad)
  let t132 ← ApiFloat.next_down t131
  let t133 ← (parse ("0x1.ffffffffffffffffffffffffffffp+0".toList) : M Quad)
  check (decide ((t132).status = Status.OK))
  let t134 ← ApiFloat.bitwise_eq (t132).value t133
  check t134
  let t135 ← (parse ("0x1.ffffffffffffffffffffffffffffp+0".toList) : M Quad)
  let t136 ← ApiFloat.next_up t135
  let t137 ← (parse ("0x1p+1".toList) : M Quad)
  check (decide ((t136).status = Status.OK))
  let t138 ← ApiFloat.bitwise_eq (t136).value t137
  check t138
  let t139 ← (parse ("-0x1.ffffffffffffffffffffffffffffp+0".toList) : M Quad)
  let t140 ← ApiFloat.next_down t139
  let t141 ← (parse ("-0x1p+1".toList) : M Quad)
  check (decide ((t140).status = Status.OK))
  let t142 ← ApiFloat.bitwise_eq (t140).value t141
  check t142
  let t143 ← (parse ("-0x0.ffffffffffffffffffffffffffffp-16382".toList) : M Quad)
  let t144 ← ApiFloat.next_up t143
  let t145 ← (parse ("-0x0.fffffffffffffffffffffffffffep-16382".toList) : M Quad)
  check (decide ((t144).status = Status.OK))
  let t146 ← ApiFloat.is_denormal (t144).value
  check t146
  let t147 ← ApiFloat.is_negative (t144).value
  check t147
  let t148 ← ApiFloat.bitwise_eq (t144).value t145
  check t148
  let t149 ← (parse ("0x0.ffffffffffffffffffffffffffffp-16382".toList) : M Quad)
  let t150 ← ApiFloat.next_down t149
  let t151 ← (parse ("0x0.fffffffffffffffffffffffffffep-16382".toList) : M Quad)
  check (decide ((t150).status = Status.OK))
  let t152 ← ApiFloat.is_denormal (t150).value
  check t152
  let t153 ← ApiFloat.is_negative (t150).value
  check (!t153)
  let t154 ← ApiFloat.bitwise_eq (t150).value t151
  check t154
  let t155 ← (parse ("0x1.0000000000000000000000000000p-16382".toList) : M Quad)
  let t156 ← ApiFloat.next_up t155
  let t157 ← (parse ("0x1.0000000000000000000000000001p-16382".toList) : M Quad)
  check (decide ((t156).status = Status.OK))
  let t158 ← ApiFloat.is_denormal (t156).value
  check (!t158)
  let t159 ← ApiFloat.is_negative (t156).value
  check (!t159)
  let t160 ← ApiFloat.bitwise_eq (t156).value t157
  check t160
  let t161 ← (parse ("-0x1.0000000000000000000000000000p-16382".toList) : M Quad)
  let t162 ← ApiFloat.next_down t161
  let _ ← (parse ("-0x1.0000000000000000000000000001p-16382".toList) : M Quad)
  check (decide ((t162).status = Status.OK))

example : passes t_next_4 = true := by decide +kernel

/-- tests/ieee.rs:114 `next`. -/
def t_next_5 : M Unit := do
  let t161 ← (parse ("-0x1.0000000000000000000000000000p-16382".toList) : M Quad)
  let t162 ← ApiFloat.next_down t161
  let t163 ← (parse ("-0x1.0000000000000000000000000001p-16382".toList) : M Quad)
  let t164 ← ApiFloat.is_denormal (t162).value
  check (!t164)
  let t165 ← ApiFloat.is_negative (t162).value
  check t165
  let t166 ← ApiFloat.bitwise_eq (t162).value t163
  check t166
  let t167 ← (parse ("-0x1p-16381".toList) : M Quad)
  let t168 ← ApiFloat.next_up t167
  let t169 ← (parse ("-0x1.ffffffffffffffffffffffffffffp-16382".toList) : M Quad)
  check (decide ((t168).status = Status.OK))
  let t170 ← ApiFloat.bitwise_eq (t168).value t169
  check t170
  let t171 ← (parse ("-0x1.ffffffffffffffffffffffffffffp-16382".toList) : M Quad)
  let t172 ← ApiFloat.next_down t171
  let t173 ← (parse ("-0x1p-16381".toList) : M Quad)
  check (decide ((t172).status = Status.OK))
  let t174 ← ApiFloat.bitwise_eq (t172).value t173
  check t174
  let t175 ← (parse ("0x1.ffffffffffffffffffffffffffffp-16382".toList) : M Quad)
  let t176 ← ApiFloat.next_up t175
  let t177 ← (parse ("0x1p-16381".toList) : M Quad)
  check (decide ((t176).status = Status.OK))
  let t178 ← ApiFloat.bitwise_eq (t176).value t177
  check t178
  let t179 ← (parse ("0x1p-16381".toList) : M Quad)
  let t180 ← ApiFloat.next_down t179
  let t181 ← (parse ("0x1.ffffffffffffffffffffffffffffp-16382".toList) : M Quad)
  check (decide ((t180).status = Status.OK))
  let t182 ← ApiFloat.bitwise_eq (t180).value t181
  check t182
  let t183 ← (parse ("0x0.ffffffffffffffffffffffff000cp-16382".toList) : M Quad)
  let t184 ← ApiFloat.next_up t183
  let t185 ← (parse ("0x0.ffffffffffffffffffffffff000dp-16382".toList) : M Quad)
  check (decide ((t184).status = Status.OK))
  let t186 ← ApiFloat.is_denormal (t184).value
  check t186
  let t187 ← ApiFloat.is_negative (t184).value
  check (!t187)
  let t188 ← ApiFloat.bitwise_eq (t184).value t185
  check t188
  let t189 ← (parse ("0x0.ffffffffffffffffffffffff000cp-16382".toList) : M Quad)
  let t190 ← ApiFloat.next_down t189
  let t191 ← (parse ("0x0.ffffffffffffffffffffffff000bp-16382".toList) : M Quad)
  check (decide ((t190).status = Status.OK))
  let t192 ← ApiFloat.is_denormal (t190).value
  check t192
  let t193 ← ApiFloat.is_negative (t190).value
  check (!t193)
  let t194 ← ApiFloat.bitwise_eq (t190).value t191
  check t194
  let t195 ← (parse ("-0x0.ffffffffffffffffffffffff000cp-16382".toList) : M Quad)
  let t196 ← ApiFloat.next_up t195
  let t197 ← (parse ("-0x0.ffffffffffffffffffffffff000bp-16382".toList) : M Quad)
  check (decide ((t196).status = Status.OK))
  let t198 ← ApiFloat.is_denormal (t196).value
  check t198
  let t199 ← ApiFloat.is_negative (t196).value
  check t199
  let t200 ← ApiFloat.bitwise_eq (t196).value t197
  check t200

example : passes t_next_5 = true := by decide +kernel

/-- tests/ieee.rs:114 `next`. -/
def t_next_6 : M Unit := do
  let t201 ← (parse ("-0x0.ffffffffffffffffffffffff000cp-16382".toList) : M Quad)
  let t202 ← ApiFloat.next_down t201
  let t203 ← (parse ("-0x0.ffffffffffffffffffffffff000dp-16382".toList) : M Quad)
  check (decide ((t202).status = Status.OK))
  let t204 ← ApiFloat.is_denormal (t202).value
  check t204
  let t205 ← ApiFloat.is_negative (t202).value
  check t205
  let t206 ← ApiFloat.bitwise_eq (t202).value t203
  check t206
  let t207 ← (parse ("0x1.ffffffffffffffffffffffff000cp-16000".toList) : M Quad)
  let t208 ← ApiFloat.next_up t207
  let t209 ← (parse ("0x1.ffffffffffffffffffffffff000dp-16000".toList) : M Quad)
  check (decide ((t208).status = Status.OK))
  let t210 ← ApiFloat.is_denormal (t208).value
  check (!t210)
  let t211 ← ApiFloat.is_negative (t208).value
  check (!t211)
  let t212 ← ApiFloat.bitwise_eq (t208).value t209
  check t212
  let t213 ← (parse ("0x1.ffffffffffffffffffffffff000cp-16000".toList) : M Quad)
  let t214 ← ApiFloat.next_down t213
  let t215 ← (parse ("0x1.ffffffffffffffffffffffff000bp-16000".toList) : M Quad)
  check (decide ((t214).status = Status.OK))
  let t216 ← ApiFloat.is_denormal (t214).value
  check (!t216)
  let t217 ← ApiFloat.is_negative (t214).value
  check (!t217)
  let t218 ← ApiFloat.bitwise_eq (t214).value t215
  check t218
  let t219 ← (parse ("-0x1.ffffffffffffffffffffffff000cp-16000".toList) : M Quad)
  let t220 ← ApiFloat.next_up t219
  let t221 ← (parse ("-0x1.ffffffffffffffffffffffff000bp-16000".toList) : M Quad)
  check (decide ((t220).status = Status.OK))
  let t222 ← ApiFloat.is_denormal (t220).value
  check (!t222)
  let t223 ← ApiFloat.is_negative (t220).value
  check t223
  let t224 ← ApiFloat.bitwise_eq (t220).value t221
  check t224
  let t225 ← (parse ("-0x1.ffffffffffffffffffffffff000cp-16000".toList) : M Quad)
  let t226 ← ApiFloat.next_down t225
  let t227 ← (parse ("-0x1.ffffffffffffffffffffffff000dp-16000".toList) : M Quad)
  check (decide ((t226).status = Status.OK))
  let t228 ← ApiFloat.is_denormal (t226).value
  check (!t228)
  let t229 ← ApiFloat.is_negative (t226).value
  check t229
  let t230 ← ApiFloat.bitwise_eq (t226).value t227
  check t230

example : passes t_next_6 = true := by decide +kernel

/-- tests/ieee.rs:556 `fma`. -/
def t_fma_1 : M Unit := do
  let t1 ← (f32_lit 0x41680000 : M Single)
  let t2 ← from_f32 t1
  let t3 ← (f32_lit 0xc1680000 : M Single)
  let t4 ← from_f32 t3
  let t5 ← (f32_lit 0x43610000 : M Single)
  let t6 ← from_f32 t5
  let t7 ← Api.mul_add t2 t4 t6
  let t8 ← to_f32 (t7).value
  let t9 ← (f32_lit 0x416c0000 : M Single)
  let t10 ← IeeeFloat.eq t9 t8
  check t10
  let t11 ← (f32_lit 0x40000000 : M Single)
  let t12 ← from_f32 t11
  let t13 ← (f32_lit 0x800000 : M Single)
  let t14 ← from_f32 t13
  let t15 ← from_f32 t13
  let t16 ← Api.div t14 t12
  let t17 ← Api.div t15 t12
  let t18 ← (f32_lit 0x41400000 : M Single)
  let t19 ← from_f32 t18
  let t20 ← Api.mul_add (t16).value (t17).value t19
  let t21 ← to_f32 (t20).value
  let t22 ← IeeeFloat.eq t18 t21
  check t22
  let t23 ← (f64_lit 0x3ff0000000000000 : M Double)
  let t24 ← from_f64 t23
  let t25 ← (f64_lit 0xbff0000000000000 : M Double)
  let t26 ← from_f64 t25
  let t27 ← from_f64 t23
  let t28 ← Api.mul_add t24 t26 t27
  let t29 ← ApiFloat.is_negative (t28).value
  let t30 ← is_zero (t28).value
  check ((!t29) && t30)
  let t31 ← from_f64 t23
  let t32 ← from_f64 t25
  let t33 ← from_f64 t23
  let t34 ← ApiFloat.mul_add_r t31 t32 t33 Round.towardNegative
  let t35 ← ApiFloat.is_negative (t34).value
  let t36 ← is_zero (t34).value
  check (t35 && t36)
  let t37 ← (f64_lit 0x0 : M Double)
  let t38 ← from_f64 t37
  let t39 ← (f64_lit 0x8000000000000000 : M Double)
  let t40 ← from_f64 t39
  let t41 ← from_f64 t39
  let t42 ← Api.mul_add t38 t40 t41
  let t43 ← ApiFloat.is_negative (t42).value
  let t44 ← is_zero (t42).value
  check (t43 && t44)
  let t45 ← (parse ("-0x1p-1074".toList) : M Double)
  let t46 ← (parse ("+0x1p-1074".toList) : M Double)
  let t47 ← from_f64 t37
  let t48 ← Api.mul_add t45 t46 t47
  let t49 ← ApiFloat.is_negative (t48).value
  let t50 ← is_zero (t48).value
  check (t49 && t50)
  let t51 ← (Api.from_u128 1 : M (StatusAnd X87DoubleExtended))
  let t52 ← (Api.from_u128 1 : M (StatusAnd X87DoubleExtended))
  let t53 ← (Api.from_u128 3 : M (StatusAnd X87DoubleExtended))
  let t54 ← Api.mul_add (t51).value (t52).value (t53).value
  let t55 ← IeeeFloat.convertR x87S singleS (t54).value Round.nearestTiesToEven
  check (!(t55).losesInfo)

example : passes t_fma_1 = true := by decide +kernel

/-- tests/ieee.rs:556 `fma`. -/
def t_fma_2 : M Unit := do
  let t11 ← (f32_lit 0x40000000 : M Single)
  let t51 ← (Api.from_u128 1 : M (StatusAnd X87DoubleExtended))
  let t52 ← (Api.from_u128 1 : M (StatusAnd X87DoubleExtended))
  let t53 ← (Api.from_u128 3 : M (StatusAnd X87DoubleExtended))
  let t54 ← Api.mul_add (t51).value (t52).value (t53).value
  let t55 ← IeeeFloat.convertR x87S singleS (t54).value Round.nearestTiesToEven
  let t56 ← to_f32 ((⟨(t55).status, (t55).value⟩ : StatusAnd Single)).value
  let t57 ← (f32_lit 0x40800000 : M Single)
  let t58 ← IeeeFloat.eq t57 t56
  check t58
  let t59 ← (f32_lit 0x8000f6c5 : M Single)
  let t60 ← from_f32 t59
  let t61 ← from_f32 t11
  let t62 ← (f32_lit 0xf6c5 : M Single)
  let t63 ← from_f32 t62
  let t64 ← Api.mul_add t60 t61 t63
  let t65 ← to_f32 (t64).value
  let t66 ← IeeeFloat.eq t59 t65
  check t66
  let t67 ← (f64_lit 0x3ff8000000000000 : M Double)
  let t68 ← from_f64 t67
  let t69 ← Api.mul_add t68 t68 t68
  let t70 ← to_f64 (t69).value
  let t71 ← (f64_lit 0x400e000000000000 : M Double)
  let t72 ← IeeeFloat.eq t71 t70
  check t72

example : passes t_fma_2 = true := by decide +kernel

/-- tests/ieee.rs:648 `min_num`. -/
def t_min_num : M Unit := do
  let t1 ← (f64_lit 0x3ff0000000000000 : M Double)
  let t2 ← from_f64 t1
  let t3 ← (f64_lit 0x4000000000000000 : M Double)
  let t4 ← from_f64 t3
  let t5 ← (ApiFloat.NAN : M Double)
  let t6 ← ApiFloat.min t2 t4
  let t7 ← to_f64 t6
  let t8 ← IeeeFloat.eq t1 t7
  check t8
  let t9 ← ApiFloat.min t4 t2
  let t10 ← to_f64 t9
  let t11 ← IeeeFloat.eq t1 t10
  check t11
  let t12 ← ApiFloat.min t2 t5
  let t13 ← to_f64 t12
  let t14 ← IeeeFloat.eq t1 t13
  check t14
  let t15 ← ApiFloat.min t5 t2
  let t16 ← to_f64 t15
  let t17 ← IeeeFloat.eq t1 t16
  check t17

example : passes t_min_num = true := by decide +kernel

/-- tests/ieee.rs:660 `max_num`. -/
def t_max_num : M Unit := do
  let t1 ← (f64_lit 0x3ff0000000000000 : M Double)
  let t2 ← from_f64 t1
  let t3 ← (f64_lit 0x4000000000000000 : M Double)
  let t4 ← from_f64 t3
  let t5 ← (ApiFloat.NAN : M Double)
  let t6 ← ApiFloat.max t2 t4
  let t7 ← to_f64 t6
  let t8 ← IeeeFloat.eq t3 t7
  check t8
  let t9 ← ApiFloat.max t4 t2
  let t10 ← to_f64 t9
  let t11 ← IeeeFloat.eq t3 t10
  check t11
  let t12 ← ApiFloat.max t2 t5
  let t13 ← to_f64 t12
  let t14 ← IeeeFloat.eq t1 t13
  check t14
  let t15 ← ApiFloat.max t5 t2
  let t16 ← to_f64 t15
  let t17 ← IeeeFloat.eq t1 t16
  check t17

example : passes t_max_num = true := by decide +kernel

/-- tests/ieee.rs:672 `minimum`. -/
def t_minimum : M Unit := do
  let t1 ← (f64_lit 0x3ff0000000000000 : M Double)
  let t2 ← from_f64 t1
  let t3 ← (f64_lit 0x4000000000000000 : M Double)
  let t4 ← from_f64 t3
  let t5 ← (f64_lit 0x0 : M Double)
  let t6 ← from_f64 t5
  let t7 ← (f64_lit 0x8000000000000000 : M Double)
  let t8 ← from_f64 t7
  let t9 ← (ApiFloat.NAN : M Double)
  let t10 ← ApiFloat.minimum t2 t4
  let t11 ← to_f64 t10
  let t12 ← IeeeFloat.eq t1 t11
  check t12
  let t13 ← ApiFloat.minimum t4 t2
  let t14 ← to_f64 t13
  let t15 ← IeeeFloat.eq t1 t14
  check t15
  let t16 ← ApiFloat.minimum t6 t8
  let t17 ← to_f64 t16
  let t18 ← IeeeFloat.eq t7 t17
  check t18
  let t19 ← ApiFloat.minimum t8 t6
  let t20 ← to_f64 t19
  let t21 ← IeeeFloat.eq t7 t20
  check t21
  let t22 ← ApiFloat.minimum t2 t9
  let t23 ← to_f64 t22
  let t24 ← is_nan t23
  check t24
  let t25 ← ApiFloat.minimum t9 t2
  let t26 ← to_f64 t25
  let t27 ← is_nan t26
  check t27

example : passes t_minimum = true := by decide +kernel

/-- tests/ieee.rs:688 `maximum`. -/
def t_maximum : M Unit := do
  let t1 ← (f64_lit 0x3ff0000000000000 : M Double)
  let t2 ← from_f64 t1
  let t3 ← (f64_lit 0x4000000000000000 : M Double)
  let t4 ← from_f64 t3
  let t5 ← (f64_lit 0x0 : M Double)
  let t6 ← from_f64 t5
  let t7 ← (f64_lit 0x8000000000000000 : M Double)
  let t8 ← from_f64 t7
  let t9 ← (ApiFloat.NAN : M Double)
  let t10 ← ApiFloat.maximum t2 t4
  let t11 ← to_f64 t10
  let t12 ← IeeeFloat.eq t3 t11
  check t12
  let t13 ← ApiFloat.maximum t4 t2
  let t14 ← to_f64 t13
  let t15 ← IeeeFloat.eq t3 t14
  check t15
  let t16 ← ApiFloat.maximum t6 t8
  let t17 ← to_f64 t16
  let t18 ← IeeeFloat.eq t5 t17
  check t18
  let t19 ← ApiFloat.maximum t8 t6
  let t20 ← to_f64 t19
  let t21 ← IeeeFloat.eq t5 t20
  check t21
  let t22 ← ApiFloat.maximum t2 t9
  let t23 ← to_f64 t22
  let t24 ← is_nan t23
  check t24
  let t25 ← ApiFloat.maximum t9 t2
  let t26 ← to_f64 t25
  let t27 ← is_nan t26
  check t27

example : passes t_maximum = true := by decide +kernel

/-- tests/ieee.rs:704 `denormal`. -/
def t_denormal : M Unit := do
  let t1 ← (Api.from_u128 0 : M (StatusAnd Single))
  let t2 ← ApiFloat.is_denormal (t1).value
  check (!t2)
  let t3 ← (parse ("1.17549435082228750797e-38".toList) : M Single)
  let t4 ← ApiFloat.is_denormal t3
  check (!t4)
  let t5 ← (Api.from_u128 2 : M (StatusAnd Single))
  let t6 ← Api.div t3 (t5).value
  let t7 ← ApiFloat.is_denormal (t6).value
  check t7
  let t8 ← (Api.from_u128 0 : M (StatusAnd Double))
  let t9 ← ApiFloat.is_denormal (t8).value
  check (!t9)
  let t10 ← (parse ("2.22507385850720138309e-308".toList) : M Double)
  let t11 ← ApiFloat.is_denormal t10
  check (!t11)
  let t12 ← (Api.from_u128 2 : M (StatusAnd Double))
  let t13 ← Api.div t10 (t12).value
  let t14 ← ApiFloat.is_denormal (t13).value
  check t14
  let t15 ← (Api.from_u128 0 : M (StatusAnd X87DoubleExtended))
  let t16 ← ApiFloat.is_denormal (t15).value
  check (!t16)
  let _ ← (Api.from_u128 2 : M (StatusAnd X87DoubleExtended))
  let t22 ← (Api.from_u128 0 : M (StatusAnd Quad))
  let t23 ← ApiFloat.is_denormal (t22).value
  check (!t23)
  let _ ← (Api.from_u128 2 : M (StatusAnd Quad))

example : passes t_denormal = true := by decide +kernel

/-- tests/ieee.rs:751 `is_smallest_normalized`. -/
def t_is_smallest_normalized_1 : M Unit := do
  let t1 ← (ApiFloat.ZERO : M Half)
  let t2 ← ApiFloat.is_smallest_normalized t1
  check (!t2)
  let t3 ← (ApiFloat.ZERO : M Half)
  let t4 ← ApiFloat.neg t3
  let t5 ← ApiFloat.is_smallest_normalized t4
  check (!t5)
  let t6 ← (ApiFloat.INFINITY : M Half)
  let t7 ← ApiFloat.is_smallest_normalized t6
  check (!t7)
  let t8 ← (ApiFloat.INFINITY : M Half)
  let t9 ← ApiFloat.neg t8
  let t10 ← ApiFloat.is_smallest_normalized t9
  check (!t10)
  let t11 ← (ApiFloat.qnan none : M Half)
  let t12 ← ApiFloat.is_smallest_normalized t11
  check (!t12)
  let t13 ← (ApiFloat.snan none : M Half)
  let t14 ← ApiFloat.is_smallest_normalized t13
  check (!t14)
  let t15 ← (ApiFloat.largest : M Half)
  let t16 ← ApiFloat.is_smallest_normalized t15
  check (!t16)
  let t17 ← (ApiFloat.largest : M Half)
  let t18 ← ApiFloat.neg t17
  let t19 ← ApiFloat.is_smallest_normalized t18
  check (!t19)
  let t20 ← (ApiFloat.SMALLEST : M Half)
  let t21 ← ApiFloat.is_smallest_normalized t20
  check (!t21)
  let t22 ← (ApiFloat.SMALLEST : M Half)
  let t23 ← ApiFloat.neg t22
  let t24 ← ApiFloat.is_smallest_normalized t23
  check (!t24)
  let t25 ← (ApiFloat.from_bits 65535 : M Half)
  let t26 ← ApiFloat.is_smallest_normalized t25
  check (!t26)
  let t27 ← (ApiFloat.smallest_normalized : M Half)
  let t28 ← (ApiFloat.smallest_normalized : M Half)
  let t29 ← ApiFloat.neg t28
  let t30 ← ApiFloat.is_smallest_normalized t27
  check t30
  let t31 ← ApiFloat.is_smallest_normalized t29
  check t31
  let t32 ← ApiFloat.is_negative t27
  let t33 ← ApiFloat.next_down t27
  check (decide (Status.OK = (t33).status))
  let t34 ← ApiFloat.is_negative (t33).value
  check (decide (t32 = t34))
  let t35 ← ApiFloat.is_smallest_normalized (t33).value
  check (!t35)
  let t36 ← ApiFloat.is_negative (t33).value
  check (decide (t32 = t36))
  let t37 ← ApiFloat.next_up (t33).value
  check (decide (Status.OK = (t37).status))
  let t38 ← ApiFloat.is_smallest_normalized (t37).value
  check t38
  let t39 ← ApiFloat.is_negative (t37).value
  check (decide (t32 = t39))
  let t40 ← ApiFloat.next_up (t37).value
  check (decide (Status.OK = (t40).status))

example : passes t_is_smallest_normalized_1 = true := by decide +kernel

/-- tests/ieee.rs:751 `is_smallest_normalized`. -/
def t_is_smallest_normalized_2 : M Unit := do
  let t27 ← (ApiFloat.smallest_normalized : M Half)
  let t28 ← (ApiFloat.smallest_normalized : M Half)
  let t29 ← ApiFloat.neg t28
  let t32 ← ApiFloat.is_negative t27
  let t33 ← ApiFloat.next_down t27
  let t37 ← ApiFloat.next_up (t33).value
  let t40 ← ApiFloat.next_up (t37).value
  let t41 ← ApiFloat.is_smallest_normalized (t40).value
  check (!t41)
  let t42 ← ApiFloat.is_negative (t40).value
  check (decide (t32 = t42))
  let t43 ← ApiFloat.is_negative t29
  let t44 ← ApiFloat.next_down t29
  check (decide (Status.OK = (t44).status))
  let t45 ← ApiFloat.is_negative (t44).value
  check (decide (t43 = t45))
  let t46 ← ApiFloat.is_smallest_normalized (t44).value
  check (!t46)
  let t47 ← ApiFloat.is_negative (t44).value
  check (decide (t43 = t47))
  let t48 ← ApiFloat.next_up (t44).value
  check (decide (Status.OK = (t48).status))
  let t49 ← ApiFloat.is_smallest_normalized (t48).value
  check t49
  let t50 ← ApiFloat.is_negative (t48).value
  check (decide (t43 = t50))
  let t51 ← ApiFloat.next_up (t48).value
  check (decide (Status.OK = (t51).status))
  let t52 ← ApiFloat.is_smallest_normalized (t51).value
  check (!t52)
  let t53 ← ApiFloat.is_negative (t51).value
  check (decide (t43 = t53))
  let t54 ← (ApiFloat.ZERO : M Single)
  let t55 ← ApiFloat.is_smallest_normalized t54
  check (!t55)
  let t56 ← (ApiFloat.ZERO : M Single)
  let t57 ← ApiFloat.neg t56
  let t58 ← ApiFloat.is_smallest_normalized t57
  check (!t58)
  let t59 ← (ApiFloat.INFINITY : M Single)
  let t60 ← ApiFloat.is_smallest_normalized t59
  check (!t60)
  let t61 ← (ApiFloat.INFINITY : M Single)
  let t62 ← ApiFloat.neg t61
  let t63 ← ApiFloat.is_smallest_normalized t62
  check (!t63)
  let t64 ← (ApiFloat.qnan none : M Single)
  let t65 ← ApiFloat.is_smallest_normalized t64
  check (!t65)
  let t66 ← (ApiFloat.snan none : M Single)
  let t67 ← ApiFloat.is_smallest_normalized t66
  check (!t67)
  let t68 ← (ApiFloat.largest : M Single)
  let t69 ← ApiFloat.is_smallest_normalized t68
  check (!t69)
  let t70 ← (ApiFloat.largest : M Single)
  let t71 ← ApiFloat.neg t70
  let t72 ← ApiFloat.is_smallest_normalized t71
  check (!t72)
  let t73 ← (ApiFloat.SMALLEST : M Single)
  let t74 ← ApiFloat.is_smallest_normalized t73
  check (!t74)
  let t75 ← (ApiFloat.SMALLEST : M Single)
  let t76 ← ApiFloat.neg t75
  let t77 ← ApiFloat.is_smallest_normalized t76
  check (!t77)
  let t78 ← (ApiFloat.from_bits 4294967295 : M Single)
  let t79 ← ApiFloat.is_smallest_normalized t78
  check (!t79)

example : passes t_is_smallest_normalized_2 = true := by decide +kernel

/-- tests/ieee.rs:751 `is_smallest_normalized`. -/
def t_is_smallest_normalized_3 : M Unit := do
  let t80 ← (ApiFloat.smallest_normalized : M Single)
  let t81 ← (ApiFloat.smallest_normalized : M Single)
  let t82 ← ApiFloat.neg t81
  let t83 ← ApiFloat.is_smallest_normalized t80
  check t83
  let t84 ← ApiFloat.is_smallest_normalized t82
  check t84
  let t85 ← ApiFloat.is_negative t80
  let t86 ← ApiFloat.next_down t80
  check (decide (Status.OK = (t86).status))
  let t87 ← ApiFloat.is_negative (t86).value
  check (decide (t85 = t87))
  let t88 ← ApiFloat.is_smallest_normalized (t86).value
  check (!t88)
  let t89 ← ApiFloat.is_negative (t86).value
  check (decide (t85 = t89))
  let t90 ← ApiFloat.next_up (t86).value
  check (decide (Status.OK = (t90).status))
  let t91 ← ApiFloat.is_smallest_normalized (t90).value
  check t91
  let t92 ← ApiFloat.is_negative (t90).value
  check (decide (t85 = t92))
  let t93 ← ApiFloat.next_up (t90).value
  check (decide (Status.OK = (t93).status))
  let t94 ← ApiFloat.is_smallest_normalized (t93).value
  check (!t94)
  let t95 ← ApiFloat.is_negative (t93).value
  check (decide (t85 = t95))
  let t96 ← ApiFloat.is_negative t82
  let t97 ← ApiFloat.next_down t82
  check (decide (Status.OK = (t97).status))
  let t98 ← ApiFloat.is_negative (t97).value
  check (decide (t96 = t98))
  let t99 ← ApiFloat.is_smallest_normalized (t97).value
  check (!t99)
  let t100 ← ApiFloat.is_negative (t97).value
  check (decide (t96 = t100))
  let t101 ← ApiFloat.next_up (t97).value
  check (decide (Status.OK = (t101).status))
  let t102 ← ApiFloat.is_smallest_normalized (t101).value
  check t102
  let t103 ← ApiFloat.is_negative (t101).value
  check (decide (t96 = t103))
  let t104 ← ApiFloat.next_up (t101).value
  check (decide (Status.OK = (t104).status))
  let t105 ← ApiFloat.is_smallest_normalized (t104).value
  check (!t105)
  let t106 ← ApiFloat.is_negative (t104).value
  check (decide (t96 = t106))
  let t107 ← (ApiFloat.ZERO : M Double)
  let t108 ← ApiFloat.is_smallest_normalized t107
  check (!t108)
  let t109 ← (ApiFloat.ZERO : M Double)
  let t110 ← ApiFloat.neg t109
  let t111 ← ApiFloat.is_smallest_normalized t110
  check (!t111)
  let t112 ← (ApiFloat.INFINITY : M Double)
  let t113 ← ApiFloat.is_smallest_normalized t112
  check (!t113)
  let t114 ← (ApiFloat.INFINITY : M Double)
  let t115 ← ApiFloat.neg t114
  let t116 ← ApiFloat.is_smallest_normalized t115
  check (!t116)

example : passes t_is_smallest_normalized_3 = true := by decide +kernel

/-- tests/ieee.rs:751 `is_smallest_normalized`. -/
def t_is_smallest_normalized_4 : M Unit := do
  let t117 ← (ApiFloat.qnan none : M Double)
  let t118 ← ApiFloat.is_smallest_normalized t117
  check (!t118)
  let t119 ← (ApiFloat.snan none : M Double)
  let t120 ← ApiFloat.is_smallest_normalized t119
  check (!t120)
  let t121 ← (ApiFloat.largest : M Double)
  let t122 ← ApiFloat.is_smallest_normalized t121
  check (!t122)
  let t123 ← (ApiFloat.largest : M Double)
  let t124 ← ApiFloat.neg t123
  let t125 ← ApiFloat.is_smallest_normalized t124
  check (!t125)
  let t126 ← (ApiFloat.SMALLEST : M Double)
  let t127 ← ApiFloat.is_smallest_normalized t126
  check (!t127)
  let t128 ← (ApiFloat.SMALLEST : M Double)
  let t129 ← ApiFloat.neg t128
  let t130 ← ApiFloat.is_smallest_normalized t129
  check (!t130)
  let t131 ← (ApiFloat.from_bits 18446744073709551615 : M Double)
  let t132 ← ApiFloat.is_smallest_normalized t131
  check (!t132)
  let t133 ← (ApiFloat.smallest_normalized : M Double)
  let t134 ← (ApiFloat.smallest_normalized : M Double)
  let t135 ← ApiFloat.neg t134
  let t136 ← ApiFloat.is_smallest_normalized t133
  check t136
  let t137 ← ApiFloat.is_smallest_normalized t135
  check t137
  let t138 ← ApiFloat.is_negative t133
  let t139 ← ApiFloat.next_down t133
  check (decide (Status.OK = (t139).status))
  let t140 ← ApiFloat.is_negative (t139).value
  check (decide (t138 = t140))
  let t141 ← ApiFloat.is_smallest_normalized (t139).value
  check (!t141)
  let t142 ← ApiFloat.is_negative (t139).value
  check (decide (t138 = t142))
  let t143 ← ApiFloat.next_up (t139).value
  check (decide (Status.OK = (t143).status))
  let t144 ← ApiFloat.is_smallest_normalized (t143).value
  check t144
  let t145 ← ApiFloat.is_negative (t143).value
  check (decide (t138 = t145))
  let t146 ← ApiFloat.next_up (t143).value
  check (decide (Status.OK = (t146).status))
  let t147 ← ApiFloat.is_smallest_normalized (t146).value
  check (!t147)
  let t148 ← ApiFloat.is_negative (t146).value
  check (decide (t138 = t148))
  let t149 ← ApiFloat.is_negative t135
  let t150 ← ApiFloat.next_down t135
  check (decide (Status.OK = (t150).status))
  let t151 ← ApiFloat.is_negative (t150).value
  check (decide (t149 = t151))
  let t152 ← ApiFloat.is_smallest_normalized (t150).value
  check (!t152)
  let t153 ← ApiFloat.is_negative (t150).value
  check (decide (t149 = t153))

example : passes t_is_smallest_normalized_4 = true := by decide +kernel

/-- tests/ieee.rs:751 `is_smallest_normalized`. -/
def t_is_smallest_normalized_5 : M Unit := do
  let t134 ← (ApiFloat.smallest_normalized : M Double)
  let t135 ← ApiFloat.neg t134
  let t149 ← ApiFloat.is_negative t135
  let t150 ← ApiFloat.next_down t135
  let t154 ← ApiFloat.next_up (t150).value
  check (decide (Status.OK = (t154).status))
  let t155 ← ApiFloat.is_smallest_normalized (t154).value
  check t155
  let t156 ← ApiFloat.is_negative (t154).value
  check (decide (t149 = t156))
  let t157 ← ApiFloat.next_up (t154).value
  check (decide (Status.OK = (t157).status))
  let t158 ← ApiFloat.is_smallest_normalized (t157).value
  check (!t158)
  let t159 ← ApiFloat.is_negative (t157).value
  check (decide (t149 = t159))
  let t160 ← (ApiFloat.ZERO : M Quad)
  let t161 ← ApiFloat.is_smallest_normalized t160
  check (!t161)
  let t162 ← (ApiFloat.ZERO : M Quad)
  let t163 ← ApiFloat.neg t162
  let t164 ← ApiFloat.is_smallest_normalized t163
  check (!t164)
  let t165 ← (ApiFloat.INFINITY : M Quad)
  let t166 ← ApiFloat.is_smallest_normalized t165
  check (!t166)
  let t167 ← (ApiFloat.INFINITY : M Quad)
  let t168 ← ApiFloat.neg t167
  let t169 ← ApiFloat.is_smallest_normalized t168
  check (!t169)
  let t170 ← (ApiFloat.qnan none : M Quad)
  let t171 ← ApiFloat.is_smallest_normalized t170
  check (!t171)
  let t172 ← (ApiFloat.snan none : M Quad)
  let t173 ← ApiFloat.is_smallest_normalized t172
  check (!t173)
  let t174 ← (ApiFloat.largest : M Quad)
  let t175 ← ApiFloat.is_smallest_normalized t174
  check (!t175)
  let t176 ← (ApiFloat.largest : M Quad)
  let t177 ← ApiFloat.neg t176
  let t178 ← ApiFloat.is_smallest_normalized t177
  check (!t178)
  let t179 ← (ApiFloat.SMALLEST : M Quad)
  let t180 ← ApiFloat.is_smallest_normalized t179
  check (!t180)
  let t181 ← (ApiFloat.SMALLEST : M Quad)
  let t182 ← ApiFloat.neg t181
  let t183 ← ApiFloat.is_smallest_normalized t182
  check (!t183)
  let t184 ← (ApiFloat.from_bits 340282366920938463463374607431768211455 : M Quad)
  let t185 ← ApiFloat.is_smallest_normalized t184
  check (!t185)
  let t186 ← (ApiFloat.smallest_normalized : M Quad)
  let t187 ← (ApiFloat.smallest_normalized : M Quad)
  let t188 ← ApiFloat.neg t187
  let t189 ← ApiFloat.is_smallest_normalized t186
  check t189
  let t190 ← ApiFloat.is_smallest_normalized t188
  check t190
  let t191 ← ApiFloat.is_negative t186
  let t192 ← ApiFloat.next_down t186
  check (decide (Status.OK = (t192).status))
  let t193 ← ApiFloat.is_negative (t192).value
  check (decide (t191 = t193))

example : passes t_is_smallest_normalized_5 = true := by decide +kernel

/-- tests/ieee.rs:751 `is_smallest_normalized`. -/
def t_is_smallest_normalized_6 : M Unit := do
  let t186 ← (ApiFloat.smallest_normalized : M Quad)
  let t187 ← (ApiFloat.smallest_normalized : M Quad)
  let t188 ← ApiFloat.neg t187
  let t191 ← ApiFloat.is_negative t186
  let t192 ← ApiFloat.next_down t186
  let t194 ← ApiFloat.is_smallest_normalized (t192).value
  check (!t194)
  let t195 ← ApiFloat.is_negative (t192).value
  check (decide (t191 = t195))
  let t196 ← ApiFloat.next_up (t192).value
  check (decide (Status.OK = (t196).status))
  let t197 ← ApiFloat.is_smallest_normalized (t196).value
  check t197
  let t198 ← ApiFloat.is_negative (t196).value
  check (decide (t191 = t198))
  let t199 ← ApiFloat.next_up (t196).value
  check (decide (Status.OK = (t199).status))
  let t200 ← ApiFloat.is_smallest_normalized (t199).value
  check (!t200)
  let t201 ← ApiFloat.is_negative (t199).value
  check (decide (t191 = t201))
  let t202 ← ApiFloat.is_negative t188
  let t203 ← ApiFloat.next_down t188
  check (decide (Status.OK = (t203).status))
  let t204 ← ApiFloat.is_negative (t203).value
  check (decide (t202 = t204))
  let t205 ← ApiFloat.is_smallest_normalized (t203).value
  check (!t205)
  let t206 ← ApiFloat.is_negative (t203).value
  check (decide (t202 = t206))
  let t207 ← ApiFloat.next_up (t203).value
  check (decide (Status.OK = (t207).status))
  let t208 ← ApiFloat.is_smallest_normalized (t207).value
  check t208
  let t209 ← ApiFloat.is_negative (t207).value
  check (decide (t202 = t209))
  let t210 ← ApiFloat.next_up (t207).value
  check (decide (Status.OK = (t210).status))
  let t211 ← ApiFloat.is_smallest_normalized (t210).value
  check (!t211)
  let t212 ← ApiFloat.is_negative (t210).value
  check (decide (t202 = t212))
  let t213 ← (ApiFloat.ZERO : M BFloat)
  let t214 ← ApiFloat.is_smallest_normalized t213
  check (!t214)
  let t215 ← (ApiFloat.ZERO : M BFloat)
  let t216 ← ApiFloat.neg t215
  let t217 ← ApiFloat.is_smallest_normalized t216
  check (!t217)
  let t218 ← (ApiFloat.INFINITY : M BFloat)
  let t219 ← ApiFloat.is_smallest_normalized t218
  check (!t219)
  let t220 ← (ApiFloat.INFINITY : M BFloat)
  let t221 ← ApiFloat.neg t220
  let t222 ← ApiFloat.is_smallest_normalized t221
  check (!t222)
  let t223 ← (ApiFloat.qnan none : M BFloat)
  let t224 ← ApiFloat.is_smallest_normalized t223
  check (!t224)
  let t225 ← (ApiFloat.snan none : M BFloat)
  let t226 ← ApiFloat.is_smallest_normalized t225
  check (!t226)
  let t227 ← (ApiFloat.largest : M BFloat)
  let t228 ← ApiFloat.is_smallest_normalized t227
  check (!t228)

example : passes t_is_smallest_normalized_6 = true := by decide +kernel

/-- tests/ieee.rs:751 `is_smallest_normalized`. -/
def t_is_smallest_normalized_7 : M Unit := do
  let t229 ← (ApiFloat.largest : M BFloat)
  let t230 ← ApiFloat.neg t229
  let t231 ← ApiFloat.is_smallest_normalized t230
  check (!t231)
  let t232 ← (ApiFloat.SMALLEST : M BFloat)
  let t233 ← ApiFloat.is_smallest_normalized t232
  check (!t233)
  let t234 ← (ApiFloat.SMALLEST : M BFloat)
  let t235 ← ApiFloat.neg t234
  let t236 ← ApiFloat.is_smallest_normalized t235
  check (!t236)
  let t237 ← (ApiFloat.from_bits 65535 : M BFloat)
  let t238 ← ApiFloat.is_smallest_normalized t237
  check (!t238)
  let t239 ← (ApiFloat.smallest_normalized : M BFloat)
  let t240 ← (ApiFloat.smallest_normalized : M BFloat)
  let t241 ← ApiFloat.neg t240
  let t242 ← ApiFloat.is_smallest_normalized t239
  check t242
  let t243 ← ApiFloat.is_smallest_normalized t241
  check t243
  let t244 ← ApiFloat.is_negative t239
  let t245 ← ApiFloat.next_down t239
  check (decide (Status.OK = (t245).status))
  let t246 ← ApiFloat.is_negative (t245).value
  check (decide (t244 = t246))
  let t247 ← ApiFloat.is_smallest_normalized (t245).value
  check (!t247)
  let t248 ← ApiFloat.is_negative (t245).value
  check (decide (t244 = t248))
  let t249 ← ApiFloat.next_up (t245).value
  check (decide (Status.OK = (t249).status))
  let t250 ← ApiFloat.is_smallest_normalized (t249).value
  check t250
  let t251 ← ApiFloat.is_negative (t249).value
  check (decide (t244 = t251))
  let t252 ← ApiFloat.next_up (t249).value
  check (decide (Status.OK = (t252).status))
  let t253 ← ApiFloat.is_smallest_normalized (t252).value
  check (!t253)
  let t254 ← ApiFloat.is_negative (t252).value
  check (decide (t244 = t254))
  let t255 ← ApiFloat.is_negative t241
  let t256 ← ApiFloat.next_down t241
  check (decide (Status.OK = (t256).status))
  let t257 ← ApiFloat.is_negative (t256).value
  check (decide (t255 = t257))
  let t258 ← ApiFloat.is_smallest_normalized (t256).value
  check (!t258)
  let t259 ← ApiFloat.is_negative (t256).value
  check (decide (t255 = t259))
  let t260 ← ApiFloat.next_up (t256).value
  check (decide (Status.OK = (t260).status))
  let t261 ← ApiFloat.is_smallest_normalized (t260).value
  check t261
  let t262 ← ApiFloat.is_negative (t260).value
  check (decide (t255 = t262))
  let t263 ← ApiFloat.next_up (t260).value
  check (decide (Status.OK = (t263).status))
  let t264 ← ApiFloat.is_smallest_normalized (t263).value
  check (!t264)

example : passes t_is_smallest_normalized_7 = true := by decide +kernel

/-- tests/ieee.rs:751 `is_smallest_normalized`. -/
def t_is_smallest_normalized_8 : M Unit := do
  let t240 ← (ApiFloat.smallest_normalized : M BFloat)
  let t241 ← ApiFloat.neg t240
  let t255 ← ApiFloat.is_negative t241
  let t256 ← ApiFloat.next_down t241
  let t260 ← ApiFloat.next_up (t256).value
  let t263 ← ApiFloat.next_up (t260).value
  let t265 ← ApiFloat.is_negative (t263).value
  check (decide (t255 = t265))
  let t266 ← (ApiFloat.ZERO : M Float8E5M2)
  let t267 ← ApiFloat.is_smallest_normalized t266
  check (!t267)
  let t268 ← (ApiFloat.ZERO : M Float8E5M2)
  let t269 ← ApiFloat.neg t268
  let t270 ← ApiFloat.is_smallest_normalized t269
  check (!t270)
  let t271 ← (ApiFloat.INFINITY : M Float8E5M2)
  let t272 ← ApiFloat.is_smallest_normalized t271
  check (!t272)
  let t273 ← (ApiFloat.INFINITY : M Float8E5M2)
  let t274 ← ApiFloat.neg t273
  let t275 ← ApiFloat.is_smallest_normalized t274
  check (!t275)
  let t276 ← (ApiFloat.qnan none : M Float8E5M2)
  let t277 ← ApiFloat.is_smallest_normalized t276
  check (!t277)
  let t278 ← (ApiFloat.snan none : M Float8E5M2)
  let t279 ← ApiFloat.is_smallest_normalized t278
  check (!t279)
  let t280 ← (ApiFloat.largest : M Float8E5M2)
  let t281 ← ApiFloat.is_smallest_normalized t280
  check (!t281)
  let t282 ← (ApiFloat.largest : M Float8E5M2)
  let t283 ← ApiFloat.neg t282
  let t284 ← ApiFloat.is_smallest_normalized t283
  check (!t284)
  let t285 ← (ApiFloat.SMALLEST : M Float8E5M2)
  let t286 ← ApiFloat.is_smallest_normalized t285
  check (!t286)
  let t287 ← (ApiFloat.SMALLEST : M Float8E5M2)
  let t288 ← ApiFloat.neg t287
  let t289 ← ApiFloat.is_smallest_normalized t288
  check (!t289)
  let t290 ← (ApiFloat.from_bits 255 : M Float8E5M2)
  let t291 ← ApiFloat.is_smallest_normalized t290
  check (!t291)
  let t292 ← (ApiFloat.smallest_normalized : M Float8E5M2)
  let t293 ← (ApiFloat.smallest_normalized : M Float8E5M2)
  let t294 ← ApiFloat.neg t293
  let t295 ← ApiFloat.is_smallest_normalized t292
  check t295
  let t296 ← ApiFloat.is_smallest_normalized t294
  check t296
  let t297 ← ApiFloat.is_negative t292
  let t298 ← ApiFloat.next_down t292
  check (decide (Status.OK = (t298).status))
  let t299 ← ApiFloat.is_negative (t298).value
  check (decide (t297 = t299))
  let t300 ← ApiFloat.is_smallest_normalized (t298).value
  check (!t300)
  let t301 ← ApiFloat.is_negative (t298).value
  check (decide (t297 = t301))
  let t302 ← ApiFloat.next_up (t298).value
  check (decide (Status.OK = (t302).status))
  let t303 ← ApiFloat.is_smallest_normalized (t302).value
  check t303
  let t304 ← ApiFloat.is_negative (t302).value
  check (decide (t297 = t304))

example : passes t_is_smallest_normalized_8 = true := by decide +kernel

/-- tests/ieee.rs:751 `is_smallest_normalized`. -/
def t_is_smallest_normalized_9 : M Unit := do
  let t292 ← (ApiFloat.smallest_normalized : M Float8E5M2)
  let t293 ← (ApiFloat.smallest_normalized : M Float8E5M2)
  let t294 ← ApiFloat.neg t293
  let t297 ← ApiFloat.is_negative t292
  let t298 ← ApiFloat.next_down t292
  let t302 ← ApiFloat.next_up (t298).value
  let t305 ← ApiFloat.next_up (t302).value
  check (decide (Status.OK = (t305).status))
  let t306 ← ApiFloat.is_smallest_normalized (t305).value
  check (!t306)
  let t307 ← ApiFloat.is_negative (t305).value
  check (decide (t297 = t307))
  let t308 ← ApiFloat.is_negative t294
  let t309 ← ApiFloat.next_down t294
  check (decide (Status.OK = (t309).status))
  let t310 ← ApiFloat.is_negative (t309).value
  check (decide (t308 = t310))
  let t311 ← ApiFloat.is_smallest_normalized (t309).value
  check (!t311)
  let t312 ← ApiFloat.is_negative (t309).value
  check (decide (t308 = t312))
  let t313 ← ApiFloat.next_up (t309).value
  check (decide (Status.OK = (t313).status))
  let t314 ← ApiFloat.is_smallest_normalized (t313).value
  check t314
  let t315 ← ApiFloat.is_negative (t313).value
  check (decide (t308 = t315))
  let t316 ← ApiFloat.next_up (t313).value
  check (decide (Status.OK = (t316).status))
  let t317 ← ApiFloat.is_smallest_normalized (t316).value
  check (!t317)
  let t318 ← ApiFloat.is_negative (t316).value
  check (decide (t308 = t318))
  let t319 ← (ApiFloat.ZERO : M Float8E4M3FN)
  let t320 ← ApiFloat.is_smallest_normalized t319
  check (!t320)
  let t321 ← (ApiFloat.ZERO : M Float8E4M3FN)
  let t322 ← ApiFloat.neg t321
  let t323 ← ApiFloat.is_smallest_normalized t322
  check (!t323)
  let t324 ← (ApiFloat.INFINITY : M Float8E4M3FN)
  let t325 ← ApiFloat.is_smallest_normalized t324
  check (!t325)
  let t326 ← (ApiFloat.INFINITY : M Float8E4M3FN)
  let t327 ← ApiFloat.neg t326
  let t328 ← ApiFloat.is_smallest_normalized t327
  check (!t328)
  let t329 ← (ApiFloat.qnan none : M Float8E4M3FN)
  let t330 ← ApiFloat.is_smallest_normalized t329
  check (!t330)
  let t331 ← (ApiFloat.snan none : M Float8E4M3FN)
  let t332 ← ApiFloat.is_smallest_normalized t331
  check (!t332)
  let t333 ← (ApiFloat.largest : M Float8E4M3FN)
  let t334 ← ApiFloat.is_smallest_normalized t333
  check (!t334)
  let t335 ← (ApiFloat.largest : M Float8E4M3FN)
  let t336 ← ApiFloat.neg t335
  let t337 ← ApiFloat.is_smallest_normalized t336
  check (!t337)
  let t338 ← (ApiFloat.SMALLEST : M Float8E4M3FN)
  let t339 ← ApiFloat.is_smallest_normalized t338
  check (!t339)
  let t340 ← (ApiFloat.SMALLEST : M Float8E4M3FN)
  let t341 ← ApiFloat.neg t340
  let t342 ← ApiFloat.is_smallest_normalized t341
  check (!t342)

example : passes t_is_smallest_normalized_9 = true := by decide +kernel

/-- tests/ieee.rs:751 `is_smallest_normalized`. -/
def t_is_smallest_normalized_10 : M Unit := do
  let t343 ← (ApiFloat.from_bits 255 : M Float8E4M3FN)
  let t344 ← ApiFloat.is_smallest_normalized t343
  check (!t344)
  let t345 ← (ApiFloat.smallest_normalized : M Float8E4M3FN)
  let t346 ← (ApiFloat.smallest_normalized : M Float8E4M3FN)
  let t347 ← ApiFloat.neg t346
  let t348 ← ApiFloat.is_smallest_normalized t345
  check t348
  let t349 ← ApiFloat.is_smallest_normalized t347
  check t349
  let t350 ← ApiFloat.is_negative t345
  let t351 ← ApiFloat.next_down t345
  check (decide (Status.OK = (t351).status))
  let t352 ← ApiFloat.is_negative (t351).value
  check (decide (t350 = t352))
  let t353 ← ApiFloat.is_smallest_normalized (t351).value
  check (!t353)
  let t354 ← ApiFloat.is_negative (t351).value
  check (decide (t350 = t354))
  let t355 ← ApiFloat.next_up (t351).value
  check (decide (Status.OK = (t355).status))
  let t356 ← ApiFloat.is_smallest_normalized (t355).value
  check t356
  let t357 ← ApiFloat.is_negative (t355).value
  check (decide (t350 = t357))
  let t358 ← ApiFloat.next_up (t355).value
  check (decide (Status.OK = (t358).status))
  let t359 ← ApiFloat.is_smallest_normalized (t358).value
  check (!t359)
  let t360 ← ApiFloat.is_negative (t358).value
  check (decide (t350 = t360))
  let t361 ← ApiFloat.is_negative t347
  let t362 ← ApiFloat.next_down t347
  check (decide (Status.OK = (t362).status))
  let t363 ← ApiFloat.is_negative (t362).value
  check (decide (t361 = t363))
  let t364 ← ApiFloat.is_smallest_normalized (t362).value
  check (!t364)
  let t365 ← ApiFloat.is_negative (t362).value
  check (decide (t361 = t365))
  let t366 ← ApiFloat.next_up (t362).value
  check (decide (Status.OK = (t366).status))
  let t367 ← ApiFloat.is_smallest_normalized (t366).value
  check t367
  let t368 ← ApiFloat.is_negative (t366).value
  check (decide (t361 = t368))
  let t369 ← ApiFloat.next_up (t366).value
  check (decide (Status.OK = (t369).status))
  let t370 ← ApiFloat.is_smallest_normalized (t369).value
  check (!t370)
  let t371 ← ApiFloat.is_negative (t369).value
  check (decide (t361 = t371))
  let t372 ← (ApiFloat.ZERO : M X87DoubleExtended)
  let t373 ← ApiFloat.is_smallest_normalized t372
  check (!t373)
  let t374 ← (ApiFloat.ZERO : M X87DoubleExtended)
  let t375 ← ApiFloat.neg t374
  let t376 ← ApiFloat.is_smallest_normalized t375
  check (!t376)
  let t377 ← (ApiFloat.INFINITY : M X87DoubleExtended)
  let t378 ← ApiFloat.is_smallest_normalized t377
  check (!t378)

example : passes t_is_smallest_normalized_10 = true := by decide +kernel

/-- tests/ieee.rs:751 `is_smallest_normalized`. -/
def t_is_smallest_normalized_11 : M Unit := do
  let t379 ← (ApiFloat.INFINITY : M X87DoubleExtended)
  let t380 ← ApiFloat.neg t379
  let t381 ← ApiFloat.is_smallest_normalized t380
  check (!t381)
  let t382 ← (ApiFloat.qnan none : M X87DoubleExtended)
  let t383 ← ApiFloat.is_smallest_normalized t382
  check (!t383)
  let t384 ← (ApiFloat.snan none : M X87DoubleExtended)
  let t385 ← ApiFloat.is_smallest_normalized t384
  check (!t385)
  let t386 ← (ApiFloat.largest : M X87DoubleExtended)
  let t387 ← ApiFloat.is_smallest_normalized t386
  check (!t387)
  let t388 ← (ApiFloat.largest : M X87DoubleExtended)
  let t389 ← ApiFloat.neg t388
  let t390 ← ApiFloat.is_smallest_normalized t389
  check (!t390)
  let t391 ← (ApiFloat.SMALLEST : M X87DoubleExtended)
  let t392 ← ApiFloat.is_smallest_normalized t391
  check (!t392)
  let t393 ← (ApiFloat.SMALLEST : M X87DoubleExtended)
  let t394 ← ApiFloat.neg t393
  let t395 ← ApiFloat.is_smallest_normalized t394
  check (!t395)
  let t396 ← (ApiFloat.from_bits 1208925819614629174706175 : M X87DoubleExtended)
  let t397 ← ApiFloat.is_smallest_normalized t396
  check (!t397)
  let t398 ← (ApiFloat.smallest_normalized : M X87DoubleExtended)
  let t399 ← (ApiFloat.smallest_normalized : M X87DoubleExtended)
  let t400 ← ApiFloat.neg t399
  let t401 ← ApiFloat.is_smallest_normalized t398
  check t401
  let t402 ← ApiFloat.is_smallest_normalized t400
  check t402
  let t403 ← ApiFloat.is_negative t398
  let t404 ← ApiFloat.next_down t398
  check (decide (Status.OK = (t404).status))
  let t405 ← ApiFloat.is_negative (t404).value
  check (decide (t403 = t405))
  let t406 ← ApiFloat.is_smallest_normalized (t404).value
  check (!t406)
  let t407 ← ApiFloat.is_negative (t404).value
  check (decide (t403 = t407))
  let t408 ← ApiFloat.next_up (t404).value
  check (decide (Status.OK = (t408).status))
  let t409 ← ApiFloat.is_smallest_normalized (t408).value
  check t409
  let t410 ← ApiFloat.is_negative (t408).value
  check (decide (t403 = t410))
  let t411 ← ApiFloat.next_up (t408).value
  check (decide (Status.OK = (t411).status))
  let t412 ← ApiFloat.is_smallest_normalized (t411).value
  check (!t412)
  let t413 ← ApiFloat.is_negative (t411).value
  check (decide (t403 = t413))
  let t414 ← ApiFloat.is_negative t400
  let t415 ← ApiFloat.next_down t400
  check (decide (Status.OK = (t415).status))
  let t416 ← ApiFloat.is_negative (t415).value
  check (decide (t414 = t416))

example : passes t_is_smallest_normalized_11 = true := by decide +kernel

/-- tests/ieee.rs:751 `is_smallest_normalized`. -/
def t_is_smallest_normalized_12 : M Unit := do
  let t399 ← (ApiFloat.smallest_normalized : M X87DoubleExtended)
  let t400 ← ApiFloat.neg t399
  let t414 ← ApiFloat.is_negative t400
  let t415 ← ApiFloat.next_down t400
  let t417 ← ApiFloat.is_smallest_normalized (t415).value
  check (!t417)
  let t418 ← ApiFloat.is_negative (t415).value
  check (decide (t414 = t418))
  let t419 ← ApiFloat.next_up (t415).value
  check (decide (Status.OK = (t419).status))
  let t420 ← ApiFloat.is_smallest_normalized (t419).value
  check t420
  let t421 ← ApiFloat.is_negative (t419).value
  check (decide (t414 = t421))
  let t422 ← ApiFloat.next_up (t419).value
  check (decide (Status.OK = (t422).status))
  let t423 ← ApiFloat.is_smallest_normalized (t422).value
  check (!t423)
  let t424 ← ApiFloat.is_negative (t422).value
  check (decide (t414 = t424))
  let t425 ← (ApiFloat.ZERO : M DoubleDouble)
  let t426 ← ApiFloat.is_smallest_normalized t425
  check (!t426)
  let t427 ← (ApiFloat.ZERO : M DoubleDouble)
  let t428 ← ApiFloat.neg t427
  let t429 ← ApiFloat.is_smallest_normalized t428
  check (!t429)
  let t430 ← (ApiFloat.INFINITY : M DoubleDouble)
  let t431 ← ApiFloat.is_smallest_normalized t430
  check (!t431)
  let t432 ← (ApiFloat.INFINITY : M DoubleDouble)
  let t433 ← ApiFloat.neg t432
  let t434 ← ApiFloat.is_smallest_normalized t433
  check (!t434)
  let t435 ← (ApiFloat.qnan none : M DoubleDouble)
  let t436 ← ApiFloat.is_smallest_normalized t435
  check (!t436)
  let t437 ← (ApiFloat.snan none : M DoubleDouble)
  let t438 ← ApiFloat.is_smallest_normalized t437
  check (!t438)
  let t439 ← (ApiFloat.largest : M DoubleDouble)
  let t440 ← ApiFloat.is_smallest_normalized t439
  check (!t440)
  let t441 ← (ApiFloat.largest : M DoubleDouble)
  let t442 ← ApiFloat.neg t441
  let t443 ← ApiFloat.is_smallest_normalized t442
  check (!t443)
  let t444 ← (ApiFloat.SMALLEST : M DoubleDouble)
  let t445 ← ApiFloat.is_smallest_normalized t444
  check (!t445)
  let t446 ← (ApiFloat.SMALLEST : M DoubleDouble)
  let t447 ← ApiFloat.neg t446
  let t448 ← ApiFloat.is_smallest_normalized t447
  check (!t448)
  let t449 ← (ApiFloat.from_bits 340282366920938463463374607431768211455 : M DoubleDouble)
  let t450 ← ApiFloat.is_smallest_normalized t449
  check (!t450)
  let t451 ← (ApiFloat.smallest_normalized : M DoubleDouble)
  let t452 ← (ApiFloat.smallest_normalized : M DoubleDouble)
  let t453 ← ApiFloat.neg t452
  let t454 ← ApiFloat.is_smallest_normalized t451
  check t454
  let t455 ← ApiFloat.is_smallest_normalized t453
  check t455

example : passes t_is_smallest_normalized_12 = true := by decide +kernel

/-- tests/ieee.rs:751 `is_smallest_normalized`. -/
def t_is_smallest_normalized_13 : M Unit := do
  let t451 ← (ApiFloat.smallest_normalized : M DoubleDouble)
  let t452 ← (ApiFloat.smallest_normalized : M DoubleDouble)
  let t453 ← ApiFloat.neg t452
  let t456 ← ApiFloat.is_negative t451
  let t457 ← ApiFloat.next_down t451
  check (decide (Status.OK = (t457).status))
  let t458 ← ApiFloat.is_negative (t457).value
  check (decide (t456 = t458))
  let t459 ← ApiFloat.is_smallest_normalized (t457).value
  check (!t459)
  let t460 ← ApiFloat.is_negative (t457).value
  check (decide (t456 = t460))
  let t461 ← ApiFloat.next_up (t457).value
  check (decide (Status.OK = (t461).status))
  let t462 ← ApiFloat.is_smallest_normalized (t461).value
  check t462
  let t463 ← ApiFloat.is_negative (t461).value
  check (decide (t456 = t463))
  let t464 ← ApiFloat.next_up (t461).value
  check (decide (Status.OK = (t464).status))
  let t465 ← ApiFloat.is_smallest_normalized (t464).value
  check (!t465)
  let t466 ← ApiFloat.is_negative (t464).value
  check (decide (t456 = t466))
  let t467 ← ApiFloat.is_negative t453
  let t468 ← ApiFloat.next_down t453
  check (decide (Status.OK = (t468).status))
  let t469 ← ApiFloat.is_negative (t468).value
  check (decide (t467 = t469))
  let t470 ← ApiFloat.is_smallest_normalized (t468).value
  check (!t470)
  let t471 ← ApiFloat.is_negative (t468).value
  check (decide (t467 = t471))
  let t472 ← ApiFloat.next_up (t468).value
  check (decide (Status.OK = (t472).status))
  let t473 ← ApiFloat.is_smallest_normalized (t472).value
  check t473
  let t474 ← ApiFloat.is_negative (t472).value
  check (decide (t467 = t474))
  let t475 ← ApiFloat.next_up (t472).value
  check (decide (Status.OK = (t475).status))
  let t476 ← ApiFloat.is_smallest_normalized (t475).value
  check (!t476)
  let t477 ← ApiFloat.is_negative (t475).value
  check (decide (t467 = t477))

example : passes t_is_smallest_normalized_13 = true := by decide +kernel

/-- tests/ieee.rs:804 `decimal_strings_without_null_terminators`. -/
def t_decimal_strings_without_null_terminators : M Unit := do
  let t1 ← (parse ("0.0".toList) : M Double)
  let t2 ← to_f64 t1
  let t3 ← (f64_lit 0x0 : M Double)
  let t4 ← IeeeFloat.eq t2 t3
  check t4
  let t5 ← (parse ("0.0".toList) : M Double)
  let t6 ← to_f64 t5
  let t7 ← IeeeFloat.eq t6 t3
  check t7
  let t8 ← (parse ("0.0".toList) : M Double)
  let t9 ← to_f64 t8
  let t10 ← IeeeFloat.eq t9 t3
  check t10
  let t11 ← (parse ("0.09".toList) : M Double)
  let t12 ← to_f64 t11
  let t13 ← (f64_lit 0x3fb70a3d70a3d70a : M Double)
  let t14 ← IeeeFloat.eq t12 t13
  check t14
  let t15 ← (parse ("0.00e+3".toList) : M Double)
  let t16 ← to_f64 t15
  let t17 ← IeeeFloat.eq t16 t3
  check t17
  let t18 ← (parse ("0e+3".toList) : M Double)
  let t19 ← to_f64 t18
  let t20 ← IeeeFloat.eq t19 t3
  check t20

example : passes t_decimal_strings_without_null_terminators = true := by decide +kernel

/-- tests/ieee.rs:816 `from_zero_decimal_string`. -/
def t_from_zero_decimal_string_1 : M Unit := do
  let t1 ← (parse ("0".toList) : M Double)
  let t2 ← to_f64 t1
  let t3 ← (f64_lit 0x0 : M Double)
  let t4 ← IeeeFloat.eq t3 t2
  check t4
  let t5 ← (parse ("+0".toList) : M Double)
  let t6 ← to_f64 t5
  let t7 ← IeeeFloat.eq t3 t6
  check t7
  let t8 ← (parse ("-0".toList) : M Double)
  let t9 ← to_f64 t8
  let t10 ← (f64_lit 0x8000000000000000 : M Double)
  let t11 ← IeeeFloat.eq t10 t9
  check t11
  let t12 ← (parse ("0.".toList) : M Double)
  let t13 ← to_f64 t12
  let t14 ← IeeeFloat.eq t3 t13
  check t14
  let t15 ← (parse ("+0.".toList) : M Double)
  let t16 ← to_f64 t15
  let t17 ← IeeeFloat.eq t3 t16
  check t17
  let t18 ← (parse ("-0.".toList) : M Double)
  let t19 ← to_f64 t18
  let t20 ← IeeeFloat.eq t10 t19
  check t20
  let t21 ← (parse (".0".toList) : M Double)
  let t22 ← to_f64 t21
  let t23 ← IeeeFloat.eq t3 t22
  check t23
  let t24 ← (parse ("+.0".toList) : M Double)
  let t25 ← to_f64 t24
  let t26 ← IeeeFloat.eq t3 t25
  check t26
  let t27 ← (parse ("-.0".toList) : M Double)
  let t28 ← to_f64 t27
  let t29 ← IeeeFloat.eq t10 t28
  check t29
  let t30 ← (parse ("0.0".toList) : M Double)
  let t31 ← to_f64 t30
  let t32 ← IeeeFloat.eq t3 t31
  check t32
  let t33 ← (parse ("+0.0".toList) : M Double)
  let t34 ← to_f64 t33
  let t35 ← IeeeFloat.eq t3 t34
  check t35
  let t36 ← (parse ("-0.0".toList) : M Double)
  let t37 ← to_f64 t36
  let t38 ← IeeeFloat.eq t10 t37
  check t38
  let t39 ← (parse ("00000.".toList) : M Double)
  let t40 ← to_f64 t39
  let t41 ← IeeeFloat.eq t3 t40
  check t41
  let t42 ← (parse ("+00000.".toList) : M Double)
  let t43 ← to_f64 t42
  let t44 ← IeeeFloat.eq t3 t43
  check t44
  let t45 ← (parse ("-00000.".toList) : M Double)
  let t46 ← to_f64 t45
  let t47 ← IeeeFloat.eq t10 t46
  check t47

example : passes t_from_zero_decimal_string_1 = true := by decide +kernel

/-- tests/ieee.rs:816 `from_zero_decimal_string`. -/
def t_from_zero_decimal_string_2 : M Unit := do
  let t3 ← (f64_lit 0x0 : M Double)
  let t10 ← (f64_lit 0x8000000000000000 : M Double)
  let t48 ← (parse (".00000".toList) : M Double)
  let t49 ← to_f64 t48
  let t50 ← IeeeFloat.eq t3 t49
  check t50
  let t51 ← (parse ("+.00000".toList) : M Double)
  let t52 ← to_f64 t51
  let t53 ← IeeeFloat.eq t3 t52
  check t53
  let t54 ← (parse ("-.00000".toList) : M Double)
  let t55 ← to_f64 t54
  let t56 ← IeeeFloat.eq t10 t55
  check t56
  let t57 ← (parse ("0000.00000".toList) : M Double)
  let t58 ← to_f64 t57
  let t59 ← IeeeFloat.eq t3 t58
  check t59
  let t60 ← (parse ("+0000.00000".toList) : M Double)
  let t61 ← to_f64 t60
  let t62 ← IeeeFloat.eq t3 t61
  check t62
  let t63 ← (parse ("-0000.00000".toList) : M Double)
  let t64 ← to_f64 t63
  let t65 ← IeeeFloat.eq t10 t64
  check t65

example : passes t_from_zero_decimal_string_2 = true := by decide +kernel

/-- tests/ieee.rs:847 `from_zero_decimal_single_exponent_string`. -/
def t_from_zero_decimal_single_exponent_string_1 : M Unit := do
  let t1 ← (parse ("0e1".toList) : M Double)
  let t2 ← to_f64 t1
  let t3 ← (f64_lit 0x0 : M Double)
  let t4 ← IeeeFloat.eq t3 t2
  check t4
  let t5 ← (parse ("+0e1".toList) : M Double)
  let t6 ← to_f64 t5
  let t7 ← IeeeFloat.eq t3 t6
  check t7
  let t8 ← (parse ("-0e1".toList) : M Double)
  let t9 ← to_f64 t8
  let t10 ← (f64_lit 0x8000000000000000 : M Double)
  let t11 ← IeeeFloat.eq t10 t9
  check t11
  let t12 ← (parse ("0e+1".toList) : M Double)
  let t13 ← to_f64 t12
  let t14 ← IeeeFloat.eq t3 t13
  check t14
  let t15 ← (parse ("+0e+1".toList) : M Double)
  let t16 ← to_f64 t15
  let t17 ← IeeeFloat.eq t3 t16
  check t17
  let t18 ← (parse ("-0e+1".toList) : M Double)
  let t19 ← to_f64 t18
  let t20 ← IeeeFloat.eq t10 t19
  check t20
  let t21 ← (parse ("0e-1".toList) : M Double)
  let t22 ← to_f64 t21
  let t23 ← IeeeFloat.eq t3 t22
  check t23
  let t24 ← (parse ("+0e-1".toList) : M Double)
  let t25 ← to_f64 t24
  let t26 ← IeeeFloat.eq t3 t25
  check t26
  let t27 ← (parse ("-0e-1".toList) : M Double)
  let t28 ← to_f64 t27
  let t29 ← IeeeFloat.eq t10 t28
  check t29
  let t30 ← (parse ("0.e1".toList) : M Double)
  let t31 ← to_f64 t30
  let t32 ← IeeeFloat.eq t3 t31
  check t32
  let t33 ← (parse ("+0.e1".toList) : M Double)
  let t34 ← to_f64 t33
  let t35 ← IeeeFloat.eq t3 t34
  check t35
  let t36 ← (parse ("-0.e1".toList) : M Double)
  let t37 ← to_f64 t36
  let t38 ← IeeeFloat.eq t10 t37
  check t38
  let t39 ← (parse ("0.e+1".toList) : M Double)
  let t40 ← to_f64 t39
  let t41 ← IeeeFloat.eq t3 t40
  check t41
  let t42 ← (parse ("+0.e+1".toList) : M Double)
  let t43 ← to_f64 t42
  let t44 ← IeeeFloat.eq t3 t43
  check t44
  let t45 ← (parse ("-0.e+1".toList) : M Double)
  let t46 ← to_f64 t45
  let t47 ← IeeeFloat.eq t10 t46
  check t47

example : passes t_from_zero_decimal_single_exponent_string_1 = true := by decide +kernel

/-- tests/ieee.rs:847 `from_zero_decimal_single_exponent_string`. -/
def t_from_zero_decimal_single_exponent_string_2 : M Unit := do
  let t3 ← (f64_lit 0x0 : M Double)
  let t10 ← (f64_lit 0x8000000000000000 : M Double)
  let t48 ← (parse ("0.e-1".toList) : M Double)
  let t49 ← to_f64 t48
  let t50 ← IeeeFloat.eq t3 t49
  check t50
  let t51 ← (parse ("+0.e-1".toList) : M Double)
  let t52 ← to_f64 t51
  let t53 ← IeeeFloat.eq t3 t52
  check t53
  let t54 ← (parse ("-0.e-1".toList) : M Double)
  let t55 ← to_f64 t54
  let t56 ← IeeeFloat.eq t10 t55
  check t56
  let t57 ← (parse (".0e1".toList) : M Double)
  let t58 ← to_f64 t57
  let t59 ← IeeeFloat.eq t3 t58
  check t59
  let t60 ← (parse ("+.0e1".toList) : M Double)
  let t61 ← to_f64 t60
  let t62 ← IeeeFloat.eq t3 t61
  check t62
  let t63 ← (parse ("-.0e1".toList) : M Double)
  let t64 ← to_f64 t63
  let t65 ← IeeeFloat.eq t10 t64
  check t65
  let t66 ← (parse (".0e+1".toList) : M Double)
  let t67 ← to_f64 t66
  let t68 ← IeeeFloat.eq t3 t67
  check t68
  let t69 ← (parse ("+.0e+1".toList) : M Double)
  let t70 ← to_f64 t69
  let t71 ← IeeeFloat.eq t3 t70
  check t71
  let t72 ← (parse ("-.0e+1".toList) : M Double)
  let t73 ← to_f64 t72
  let t74 ← IeeeFloat.eq t10 t73
  check t74
  let t75 ← (parse (".0e-1".toList) : M Double)
  let t76 ← to_f64 t75
  let t77 ← IeeeFloat.eq t3 t76
  check t77
  let t78 ← (parse ("+.0e-1".toList) : M Double)
  let t79 ← to_f64 t78
  let t80 ← IeeeFloat.eq t3 t79
  check t80
  let t81 ← (parse ("-.0e-1".toList) : M Double)
  let t82 ← to_f64 t81
  let t83 ← IeeeFloat.eq t10 t82
  check t83
  let t84 ← (parse ("0.0e1".toList) : M Double)
  let t85 ← to_f64 t84
  let t86 ← IeeeFloat.eq t3 t85
  check t86
  let t87 ← (parse ("+0.0e1".toList) : M Double)
  let t88 ← to_f64 t87
  let t89 ← IeeeFloat.eq t3 t88
  check t89
  let t90 ← (parse ("-0.0e1".toList) : M Double)
  let t91 ← to_f64 t90
  let t92 ← IeeeFloat.eq t10 t91
  check t92

example : passes t_from_zero_decimal_single_exponent_string_2 = true := by decide +kernel

/-- tests/ieee.rs:847 `from_zero_decimal_single_exponent_string`. -/
def t_from_zero_decimal_single_exponent_string_3 : M Unit := do
  let t3 ← (f64_lit 0x0 : M Double)
  let t10 ← (f64_lit 0x8000000000000000 : M Double)
  let t93 ← (parse ("0.0e+1".toList) : M Double)
  let t94 ← to_f64 t93
  let t95 ← IeeeFloat.eq t3 t94
  check t95
  let t96 ← (parse ("+0.0e+1".toList) : M Double)
  let t97 ← to_f64 t96
  let t98 ← IeeeFloat.eq t3 t97
  check t98
  let t99 ← (parse ("-0.0e+1".toList) : M Double)
  let t100 ← to_f64 t99
  let t101 ← IeeeFloat.eq t10 t100
  check t101
  let t102 ← (parse ("0.0e-1".toList) : M Double)
  let t103 ← to_f64 t102
  let t104 ← IeeeFloat.eq t3 t103
  check t104
  let t105 ← (parse ("+0.0e-1".toList) : M Double)
  let t106 ← to_f64 t105
  let t107 ← IeeeFloat.eq t3 t106
  check t107
  let t108 ← (parse ("-0.0e-1".toList) : M Double)
  let t109 ← to_f64 t108
  let t110 ← IeeeFloat.eq t10 t109
  check t110
  let t111 ← (parse ("000.0000e1".toList) : M Double)
  let t112 ← to_f64 t111
  let t113 ← IeeeFloat.eq t3 t112
  check t113
  let t114 ← (parse ("+000.0000e+1".toList) : M Double)
  let t115 ← to_f64 t114
  let t116 ← IeeeFloat.eq t3 t115
  check t116
  let t117 ← (parse ("-000.0000e+1".toList) : M Double)
  let t118 ← to_f64 t117
  let t119 ← IeeeFloat.eq t10 t118
  check t119

example : passes t_from_zero_decimal_single_exponent_string_3 = true := by decide +kernel

/-- tests/ieee.rs:902 `from_zero_decimal_large_exponent_string`. -/
def t_from_zero_decimal_large_exponent_string : M Unit := do
  let t1 ← (parse ("0e1234".toList) : M Double)
  let t2 ← to_f64 t1
  let t3 ← (f64_lit 0x0 : M Double)
  let t4 ← IeeeFloat.eq t3 t2
  check t4
  let t5 ← (parse ("+0e1234".toList) : M Double)
  let t6 ← to_f64 t5
  let t7 ← IeeeFloat.eq t3 t6
  check t7
  let t8 ← (parse ("-0e1234".toList) : M Double)
  let t9 ← to_f64 t8
  let t10 ← (f64_lit 0x8000000000000000 : M Double)
  let t11 ← IeeeFloat.eq t10 t9
  check t11
  let t12 ← (parse ("0e+1234".toList) : M Double)
  let t13 ← to_f64 t12
  let t14 ← IeeeFloat.eq t3 t13
  check t14
  let t15 ← (parse ("+0e+1234".toList) : M Double)
  let t16 ← to_f64 t15
  let t17 ← IeeeFloat.eq t3 t16
  check t17
  let t18 ← (parse ("-0e+1234".toList) : M Double)
  let t19 ← to_f64 t18
  let t20 ← IeeeFloat.eq t10 t19
  check t20
  let t21 ← (parse ("0e-1234".toList) : M Double)
  let t22 ← to_f64 t21
  let t23 ← IeeeFloat.eq t3 t22
  check t23
  let t24 ← (parse ("+0e-1234".toList) : M Double)
  let t25 ← to_f64 t24
  let t26 ← IeeeFloat.eq t3 t25
  check t26
  let t27 ← (parse ("-0e-1234".toList) : M Double)
  let t28 ← to_f64 t27
  let t29 ← IeeeFloat.eq t10 t28
  check t29
  let t30 ← (parse ("000.0000e1234".toList) : M Double)
  let t31 ← to_f64 t30
  let t32 ← IeeeFloat.eq t3 t31
  check t32
  let t33 ← (parse ("000.0000e-1234".toList) : M Double)
  let t34 ← to_f64 t33
  let t35 ← IeeeFloat.eq t3 t34
  check t35

example : passes t_from_zero_decimal_large_exponent_string = true := by decide +kernel

/-- tests/ieee.rs:920 `from_zero_hexadecimal_string`. -/
def t_from_zero_hexadecimal_string_1 : M Unit := do
  let t1 ← (parse ("0x0p1".toList) : M Double)
  let t2 ← to_f64 t1
  let t3 ← (f64_lit 0x0 : M Double)
  let t4 ← IeeeFloat.eq t3 t2
  check t4
  let t5 ← (parse ("+0x0p1".toList) : M Double)
  let t6 ← to_f64 t5
  let t7 ← IeeeFloat.eq t3 t6
  check t7
  let t8 ← (parse ("-0x0p1".toList) : M Double)
  let t9 ← to_f64 t8
  let t10 ← (f64_lit 0x8000000000000000 : M Double)
  let t11 ← IeeeFloat.eq t10 t9
  check t11
  let t12 ← (parse ("0x0p+1".toList) : M Double)
  let t13 ← to_f64 t12
  let t14 ← IeeeFloat.eq t3 t13
  check t14
  let t15 ← (parse ("+0x0p+1".toList) : M Double)
  let t16 ← to_f64 t15
  let t17 ← IeeeFloat.eq t3 t16
  check t17
  let t18 ← (parse ("-0x0p+1".toList) : M Double)
  let t19 ← to_f64 t18
  let t20 ← IeeeFloat.eq t10 t19
  check t20
  let t21 ← (parse ("0x0p-1".toList) : M Double)
  let t22 ← to_f64 t21
  let t23 ← IeeeFloat.eq t3 t22
  check t23
  let t24 ← (parse ("+0x0p-1".toList) : M Double)
  let t25 ← to_f64 t24
  let t26 ← IeeeFloat.eq t3 t25
  check t26
  let t27 ← (parse ("-0x0p-1".toList) : M Double)
  let t28 ← to_f64 t27
  let t29 ← IeeeFloat.eq t10 t28
  check t29
  let t30 ← (parse ("0x0.p1".toList) : M Double)
  let t31 ← to_f64 t30
  let t32 ← IeeeFloat.eq t3 t31
  check t32
  let t33 ← (parse ("+0x0.p1".toList) : M Double)
  let t34 ← to_f64 t33
  let t35 ← IeeeFloat.eq t3 t34
  check t35
  let t36 ← (parse ("-0x0.p1".toList) : M Double)
  let t37 ← to_f64 t36
  let t38 ← IeeeFloat.eq t10 t37
  check t38
  let t39 ← (parse ("0x0.p+1".toList) : M Double)
  let t40 ← to_f64 t39
  let t41 ← IeeeFloat.eq t3 t40
  check t41
  let t42 ← (parse ("+0x0.p+1".toList) : M Double)
  let t43 ← to_f64 t42
  let t44 ← IeeeFloat.eq t3 t43
  check t44
  let t45 ← (parse ("-0x0.p+1".toList) : M Double)
  let t46 ← to_f64 t45
  let t47 ← IeeeFloat.eq t10 t46
  check t47

example : passes t_from_zero_hexadecimal_string_1 = true := by decide +kernel

/-- tests/ieee.rs:920 `from_zero_hexadecimal_string`. -/
def t_from_zero_hexadecimal_string_2 : M Unit := do
  let t3 ← (f64_lit 0x0 : M Double)
  let t10 ← (f64_lit 0x8000000000000000 : M Double)
  let t48 ← (parse ("0x0.p-1".toList) : M Double)
  let t49 ← to_f64 t48
  let t50 ← IeeeFloat.eq t3 t49
  check t50
  let t51 ← (parse ("+0x0.p-1".toList) : M Double)
  let t52 ← to_f64 t51
  let t53 ← IeeeFloat.eq t3 t52
  check t53
  let t54 ← (parse ("-0x0.p-1".toList) : M Double)
  let t55 ← to_f64 t54
  let t56 ← IeeeFloat.eq t10 t55
  check t56
  let t57 ← (parse ("0x.0p1".toList) : M Double)
  let t58 ← to_f64 t57
  let t59 ← IeeeFloat.eq t3 t58
  check t59
  let t60 ← (parse ("+0x.0p1".toList) : M Double)
  let t61 ← to_f64 t60
  let t62 ← IeeeFloat.eq t3 t61
  check t62
  let t63 ← (parse ("-0x.0p1".toList) : M Double)
  let t64 ← to_f64 t63
  let t65 ← IeeeFloat.eq t10 t64
  check t65
  let t66 ← (parse ("0x.0p+1".toList) : M Double)
  let t67 ← to_f64 t66
  let t68 ← IeeeFloat.eq t3 t67
  check t68
  let t69 ← (parse ("+0x.0p+1".toList) : M Double)
  let t70 ← to_f64 t69
  let t71 ← IeeeFloat.eq t3 t70
  check t71
  let t72 ← (parse ("-0x.0p+1".toList) : M Double)
  let t73 ← to_f64 t72
  let t74 ← IeeeFloat.eq t10 t73
  check t74
  let t75 ← (parse ("0x.0p-1".toList) : M Double)
  let t76 ← to_f64 t75
  let t77 ← IeeeFloat.eq t3 t76
  check t77
  let t78 ← (parse ("+0x.0p-1".toList) : M Double)
  let t79 ← to_f64 t78
  let t80 ← IeeeFloat.eq t3 t79
  check t80
  let t81 ← (parse ("-0x.0p-1".toList) : M Double)
  let t82 ← to_f64 t81
  let t83 ← IeeeFloat.eq t10 t82
  check t83
  let t84 ← (parse ("0x0.0p1".toList) : M Double)
  let t85 ← to_f64 t84
  let t86 ← IeeeFloat.eq t3 t85
  check t86
  let t87 ← (parse ("+0x0.0p1".toList) : M Double)
  let t88 ← to_f64 t87
  let t89 ← IeeeFloat.eq t3 t88
  check t89
  let t90 ← (parse ("-0x0.0p1".toList) : M Double)
  let t91 ← to_f64 t90
  let t92 ← IeeeFloat.eq t10 t91
  check t92

example : passes t_from_zero_hexadecimal_string_2 = true := by decide +kernel

/-- tests/ieee.rs:920 `from_zero_hexadecimal_string`. -/
def t_from_zero_hexadecimal_string_3 : M Unit := do
  let t3 ← (f64_lit 0x0 : M Double)
  let t10 ← (f64_lit 0x8000000000000000 : M Double)
  let t93 ← (parse ("0x0.0p+1".toList) : M Double)
  let t94 ← to_f64 t93
  let t95 ← IeeeFloat.eq t3 t94
  check t95
  let t96 ← (parse ("+0x0.0p+1".toList) : M Double)
  let t97 ← to_f64 t96
  let t98 ← IeeeFloat.eq t3 t97
  check t98
  let t99 ← (parse ("-0x0.0p+1".toList) : M Double)
  let t100 ← to_f64 t99
  let t101 ← IeeeFloat.eq t10 t100
  check t101
  let t102 ← (parse ("0x0.0p-1".toList) : M Double)
  let t103 ← to_f64 t102
  let t104 ← IeeeFloat.eq t3 t103
  check t104
  let t105 ← (parse ("+0x0.0p-1".toList) : M Double)
  let t106 ← to_f64 t105
  let t107 ← IeeeFloat.eq t3 t106
  check t107
  let t108 ← (parse ("-0x0.0p-1".toList) : M Double)
  let t109 ← to_f64 t108
  let t110 ← IeeeFloat.eq t10 t109
  check t110
  let t111 ← (parse ("0x00000.p1".toList) : M Double)
  let t112 ← to_f64 t111
  let t113 ← IeeeFloat.eq t3 t112
  check t113
  let t114 ← (parse ("0x0000.00000p1".toList) : M Double)
  let t115 ← to_f64 t114
  let t116 ← IeeeFloat.eq t3 t115
  check t116
  let t117 ← (parse ("0x.00000p1".toList) : M Double)
  let t118 ← to_f64 t117
  let t119 ← IeeeFloat.eq t3 t118
  check t119
  let t120 ← (parse ("0x0.p1".toList) : M Double)
  let t121 ← to_f64 t120
  let t122 ← IeeeFloat.eq t3 t121
  check t122
  let t123 ← (parse ("0x0p1234".toList) : M Double)
  let t124 ← to_f64 t123
  let t125 ← IeeeFloat.eq t3 t124
  check t125
  let t126 ← (parse ("-0x0p1234".toList) : M Double)
  let t127 ← to_f64 t126
  let t128 ← IeeeFloat.eq t10 t127
  check t128
  let t129 ← (parse ("0x00000.p1234".toList) : M Double)
  let t130 ← to_f64 t129
  let t131 ← IeeeFloat.eq t3 t130
  check t131
  let t132 ← (parse ("0x0000.00000p1234".toList) : M Double)
  let t133 ← to_f64 t132
  let t134 ← IeeeFloat.eq t3 t133
  check t134
  let t135 ← (parse ("0x.00000p1234".toList) : M Double)
  let t136 ← to_f64 t135
  let t137 ← IeeeFloat.eq t3 t136
  check t137

example : passes t_from_zero_hexadecimal_string_3 = true := by decide +kernel

/-- tests/ieee.rs:920 `from_zero_hexadecimal_string`. -/
def t_from_zero_hexadecimal_string_4 : M Unit := do
  let t3 ← (f64_lit 0x0 : M Double)
  let t138 ← (parse ("0x0.p1234".toList) : M Double)
  let t139 ← to_f64 t138
  let t140 ← IeeeFloat.eq t3 t139
  check t140

example : passes t_from_zero_hexadecimal_string_4 = true := by decide +kernel

/-- tests/ieee.rs:982 `from_decimal_string`. -/
def t_from_decimal_string_1 : M Unit := do
  let t1 ← (parse ("1".toList) : M Double)
  let t2 ← to_f64 t1
  let t3 ← (f64_lit 0x3ff0000000000000 : M Double)
  let t4 ← IeeeFloat.eq t3 t2
  check t4
  let t5 ← (parse ("2.".toList) : M Double)
  let t6 ← to_f64 t5
  let t7 ← (f64_lit 0x4000000000000000 : M Double)
  let t8 ← IeeeFloat.eq t7 t6
  check t8
  let t9 ← (parse (".5".toList) : M Double)
  let t10 ← to_f64 t9
  let t11 ← (f64_lit 0x3fe0000000000000 : M Double)
  let t12 ← IeeeFloat.eq t11 t10
  check t12
  let t13 ← (parse ("1.0".toList) : M Double)
  let t14 ← to_f64 t13
  let t15 ← IeeeFloat.eq t3 t14
  check t15
  let t16 ← (parse ("-2".toList) : M Double)
  let t17 ← to_f64 t16
  let t18 ← (f64_lit 0xc000000000000000 : M Double)
  let t19 ← IeeeFloat.eq t18 t17
  check t19
  let t20 ← (parse ("-4.".toList) : M Double)
  let t21 ← to_f64 t20
  let t22 ← (f64_lit 0xc010000000000000 : M Double)
  let t23 ← IeeeFloat.eq t22 t21
  check t23
  let t24 ← (parse ("-.5".toList) : M Double)
  let t25 ← to_f64 t24
  let t26 ← (f64_lit 0xbfe0000000000000 : M Double)
  let t27 ← IeeeFloat.eq t26 t25
  check t27
  let t28 ← (parse ("-1.5".toList) : M Double)
  let t29 ← to_f64 t28
  let t30 ← (f64_lit 0xbff8000000000000 : M Double)
  let t31 ← IeeeFloat.eq t30 t29
  check t31
  let t32 ← (parse ("1.25e12".toList) : M Double)
  let t33 ← to_f64 t32
  let t34 ← (f64_lit 0x4272309ce5400000 : M Double)
  let t35 ← IeeeFloat.eq t34 t33
  check t35
  let t36 ← (parse ("1.25e+12".toList) : M Double)
  let t37 ← to_f64 t36
  let t38 ← IeeeFloat.eq t34 t37
  check t38
  let t39 ← (parse ("1.25e-12".toList) : M Double)
  let t40 ← to_f64 t39
  let t41 ← (f64_lit 0x3d75fd7fe1796495 : M Double)
  let t42 ← IeeeFloat.eq t41 t40
  check t42
  let t43 ← (parse ("1024.".toList) : M Double)
  let t44 ← to_f64 t43
  let t45 ← (f64_lit 0x4090000000000000 : M Double)
  let t46 ← IeeeFloat.eq t45 t44
  check t46
  let t47 ← (parse ("1024.05000".toList) : M Double)
  let t48 ← to_f64 t47
  let t49 ← (f64_lit 0x4090003333333333 : M Double)
  let t50 ← IeeeFloat.eq t49 t48
  check t50

example : passes t_from_decimal_string_1 = true := by decide +kernel

/-- tests/ieee.rs:982 `from_decimal_string`. -/
def t_from_decimal_string_2 : M Unit := do
  let t3 ← (f64_lit 0x3ff0000000000000 : M Double)
  let t7 ← (f64_lit 0x4000000000000000 : M Double)
  let t51 ← (parse (".05000".toList) : M Double)
  let t52 ← to_f64 t51
  let t53 ← (f64_lit 0x3fa999999999999a : M Double)
  let t54 ← IeeeFloat.eq t53 t52
  check t54
  let t55 ← (parse ("2.".toList) : M Double)
  let t56 ← to_f64 t55
  let t57 ← IeeeFloat.eq t7 t56
  check t57
  let t58 ← (parse ("2.e2".toList) : M Double)
  let t59 ← to_f64 t58
  let t60 ← (f64_lit 0x4069000000000000 : M Double)
  let t61 ← IeeeFloat.eq t60 t59
  check t61
  let t62 ← (parse ("2.e+2".toList) : M Double)
  let t63 ← to_f64 t62
  let t64 ← IeeeFloat.eq t60 t63
  check t64
  let t65 ← (parse ("2.e-2".toList) : M Double)
  let t66 ← to_f64 t65
  let t67 ← (f64_lit 0x3f947ae147ae147b : M Double)
  let t68 ← IeeeFloat.eq t67 t66
  check t68
  let t69 ← (parse ("002.05000e2".toList) : M Double)
  let t70 ← to_f64 t69
  let t71 ← (f64_lit 0x4069a00000000000 : M Double)
  let t72 ← IeeeFloat.eq t71 t70
  check t72
  let t73 ← (parse ("002.05000e+2".toList) : M Double)
  let t74 ← to_f64 t73
  let t75 ← IeeeFloat.eq t71 t74
  check t75
  let t76 ← (parse ("002.05000e-2".toList) : M Double)
  let t77 ← to_f64 t76
  let t78 ← (f64_lit 0x3f94fdf3b645a1cb : M Double)
  let t79 ← IeeeFloat.eq t78 t77
  check t79
  let t80 ← (parse ("002.05000e12".toList) : M Double)
  let t81 ← to_f64 t80
  let t82 ← (f64_lit 0x427dd4d859400000 : M Double)
  let t83 ← IeeeFloat.eq t82 t81
  check t83
  let t84 ← (parse ("002.05000e+12".toList) : M Double)
  let t85 ← to_f64 t84
  let t86 ← IeeeFloat.eq t82 t85
  check t86
  let t87 ← (parse ("002.05000e-12".toList) : M Double)
  let t88 ← to_f64 t87
  let t89 ← (f64_lit 0x3d8208308acf0feb : M Double)
  let t90 ← IeeeFloat.eq t89 t88
  check t90
  let t91 ← (parse ("1e".toList) : M Double)
  let t92 ← to_f64 t91
  let t93 ← IeeeFloat.eq t3 t92
  check t93
  let t94 ← (parse ("+1e".toList) : M Double)
  let t95 ← to_f64 t94
  let t96 ← IeeeFloat.eq t3 t95
  check t96
  let t97 ← (parse ("-1e".toList) : M Double)
  let t98 ← to_f64 t97
  let t99 ← (f64_lit 0xbff0000000000000 : M Double)
  let t100 ← IeeeFloat.eq t99 t98
  check t100

example : passes t_from_decimal_string_2 = true := by decide +kernel

/-- tests/ieee.rs:982 `from_decimal_string`. -/
def t_from_decimal_string_3 : M Unit := do
  let t3 ← (f64_lit 0x3ff0000000000000 : M Double)
  let t99 ← (f64_lit 0xbff0000000000000 : M Double)
  let t101 ← (parse ("1.e".toList) : M Double)
  let t102 ← to_f64 t101
  let t103 ← IeeeFloat.eq t3 t102
  check t103
  let t104 ← (parse ("+1.e".toList) : M Double)
  let t105 ← to_f64 t104
  let t106 ← IeeeFloat.eq t3 t105
  check t106
  let t107 ← (parse ("-1.e".toList) : M Double)
  let t108 ← to_f64 t107
  let t109 ← IeeeFloat.eq t99 t108
  check t109
  let t110 ← (parse (".1e".toList) : M Double)
  let t111 ← to_f64 t110
  let t112 ← (f64_lit 0x3fb999999999999a : M Double)
  let t113 ← IeeeFloat.eq t112 t111
  check t113
  let t114 ← (parse ("+.1e".toList) : M Double)
  let t115 ← to_f64 t114
  let t116 ← IeeeFloat.eq t112 t115
  check t116
  let t117 ← (parse ("-.1e".toList) : M Double)
  let t118 ← to_f64 t117
  let t119 ← (f64_lit 0xbfb999999999999a : M Double)
  let t120 ← IeeeFloat.eq t119 t118
  check t120
  let t121 ← (parse ("1.1e".toList) : M Double)
  let t122 ← to_f64 t121
  let t123 ← (f64_lit 0x3ff199999999999a : M Double)
  let t124 ← IeeeFloat.eq t123 t122
  check t124
  let t125 ← (parse ("+1.1e".toList) : M Double)
  let t126 ← to_f64 t125
  let t127 ← IeeeFloat.eq t123 t126
  check t127
  let t128 ← (parse ("-1.1e".toList) : M Double)
  let t129 ← to_f64 t128
  let t130 ← (f64_lit 0xbff199999999999a : M Double)
  let t131 ← IeeeFloat.eq t130 t129
  check t131
  let t132 ← (parse ("1e+".toList) : M Double)
  let t133 ← to_f64 t132
  let t134 ← IeeeFloat.eq t3 t133
  check t134
  let t135 ← (parse ("1e-".toList) : M Double)
  let t136 ← to_f64 t135
  let t137 ← IeeeFloat.eq t3 t136
  check t137
  let t138 ← (parse (".1e".toList) : M Double)
  let t139 ← to_f64 t138
  let t140 ← IeeeFloat.eq t112 t139
  check t140
  let t141 ← (parse (".1e+".toList) : M Double)
  let t142 ← to_f64 t141
  let t143 ← IeeeFloat.eq t112 t142
  check t143
  let t144 ← (parse (".1e-".toList) : M Double)
  let t145 ← to_f64 t144
  let t146 ← IeeeFloat.eq t112 t145
  check t146

example : passes t_from_decimal_string_3 = true := by decide +kernel

/-- tests/ieee.rs:982 `from_decimal_string`. -/
def t_from_decimal_string_4 : M Unit := do
  let t3 ← (f64_lit 0x3ff0000000000000 : M Double)
  let t147 ← (parse ("1.0e".toList) : M Double)
  let t148 ← to_f64 t147
  let t149 ← IeeeFloat.eq t3 t148
  check t149
  let t150 ← (parse ("1.0e+".toList) : M Double)
  let t151 ← to_f64 t150
  let t152 ← IeeeFloat.eq t3 t151
  check t152
  let t153 ← (parse ("1.0e-".toList) : M Double)
  let t154 ← to_f64 t153
  let t155 ← IeeeFloat.eq t3 t154
  check t155
  let t156 ← (parse ("99e99999".toList) : M Double)
  let t157 ← is_infinite t156
  check t157
  let t158 ← (parse ("-99e99999".toList) : M Double)
  let t159 ← is_infinite t158
  check t159
  let t160 ← (parse ("1e-99999".toList) : M Double)
  let t161 ← is_pos_zero t160
  check t161
  let t162 ← (parse ("-1e-99999".toList) : M Double)
  let t163 ← is_neg_zero t162
  check t163
  let t164 ← (parse ("2.71828".toList) : M Double)
  let t165 ← to_f64 t164
  let t166 ← (f64_lit 0x4005bf0995aaf790 : M Double)
  let t167 ← IeeeFloat.eq t166 t165
  check t167

example : passes t_from_decimal_string_4 = true := by decide +kernel

/-- tests/ieee.rs:1046 `from_string_specials`. -/
def t_from_string_specials_1 : M Unit := do
  let t1 ← (ApiFloat.snan none : M Double)
  let _ ← ApiFloat.to_bits t1
  let t3 ← (parse ("nan".toList) : M Double)
  let t4 ← is_nan t3
  check t4
  let t5 ← ApiFloat.is_signaling t3
  check (decide (false = t5))
  let t6 ← ApiFloat.is_negative t3
  check (decide (false = t6))
  let t7 ← ApiFloat.to_bits t3
  check (decide (0 = (t7 &&& 2251799813685247)))
  let t8 ← (parse ("nan0".toList) : M Double)
  let t9 ← is_nan t8
  check t9
  let t10 ← ApiFloat.is_signaling t8
  check (decide (false = t10))
  let t11 ← ApiFloat.is_negative t8
  check (decide (false = t11))
  let t12 ← ApiFloat.to_bits t8
  check (decide (0 = (t12 &&& 2251799813685247)))
  let t13 ← (parse ("nan0x0".toList) : M Double)
  let t14 ← is_nan t13
  check t14
  let t15 ← ApiFloat.is_signaling t13
  check (decide (false = t15))
  let t16 ← ApiFloat.is_negative t13
  check (decide (false = t16))
  let t17 ← ApiFloat.to_bits t13
  check (decide (0 = (t17 &&& 2251799813685247)))
  let t18 ← (parse ("nan(0)".toList) : M Double)
  let t19 ← is_nan t18
  check t19
  let t20 ← ApiFloat.is_signaling t18
  check (decide (false = t20))
  let t21 ← ApiFloat.is_negative t18
  check (decide (false = t21))
  let t22 ← ApiFloat.to_bits t18
  check (decide (0 = (t22 &&& 2251799813685247)))
  let t23 ← (parse ("nan(0x0)".toList) : M Double)
  let t24 ← is_nan t23
  check t24
  let t25 ← ApiFloat.is_signaling t23
  check (decide (false = t25))
  let t26 ← ApiFloat.is_negative t23
  check (decide (false = t26))
  let t27 ← ApiFloat.to_bits t23
  check (decide (0 = (t27 &&& 2251799813685247)))
  let t28 ← (parse ("-nan".toList) : M Double)
  let t29 ← is_nan t28
  check t29
  let t30 ← ApiFloat.is_signaling t28
  check (decide (false = t30))
  let t31 ← ApiFloat.is_negative t28
  check (decide (true = t31))
  let t32 ← ApiFloat.to_bits t28
  check (decide (0 = (t32 &&& 2251799813685247)))
  let t33 ← (parse ("-nan0".toList) : M Double)
  let t34 ← is_nan t33
  check t34
  let t35 ← ApiFloat.is_signaling t33
  check (decide (false = t35))

example : passes t_from_string_specials_1 = true := by decide +kernel

/-- tests/ieee.rs:1046 `from_string_specials`. -/
def t_from_string_specials_2 : M Unit := do
  let t33 ← (parse ("-nan0".toList) : M Double)
  let t36 ← ApiFloat.is_negative t33
  check (decide (true = t36))
  let t37 ← ApiFloat.to_bits t33
  check (decide (0 = (t37 &&& 2251799813685247)))
  let t38 ← (parse ("-nan0x0".toList) : M Double)
  let t39 ← is_nan t38
  check t39
  let t40 ← ApiFloat.is_signaling t38
  check (decide (false = t40))
  let t41 ← ApiFloat.is_negative t38
  check (decide (true = t41))
  let t42 ← ApiFloat.to_bits t38
  check (decide (0 = (t42 &&& 2251799813685247)))
  let t43 ← (parse ("-nan(0)".toList) : M Double)
  let t44 ← is_nan t43
  check t44
  let t45 ← ApiFloat.is_signaling t43
  check (decide (false = t45))
  let t46 ← ApiFloat.is_negative t43
  check (decide (true = t46))
  let t47 ← ApiFloat.to_bits t43
  check (decide (0 = (t47 &&& 2251799813685247)))
  let t48 ← (parse ("-nan(0x0)".toList) : M Double)
  let t49 ← is_nan t48
  check t49
  let t50 ← ApiFloat.is_signaling t48
  check (decide (false = t50))
  let t51 ← ApiFloat.is_negative t48
  check (decide (true = t51))
  let t52 ← ApiFloat.to_bits t48
  check (decide (0 = (t52 &&& 2251799813685247)))
  let t53 ← (parse ("nan1".toList) : M Double)
  let t54 ← is_nan t53
  check t54
  let t55 ← ApiFloat.is_signaling t53
  check (decide (false = t55))
  let t56 ← ApiFloat.is_negative t53
  check (decide (false = t56))
  let t57 ← ApiFloat.to_bits t53
  check (decide (1 = (t57 &&& 2251799813685247)))
  let t58 ← (parse ("nan0x1".toList) : M Double)
  let t59 ← is_nan t58
  check t59
  let t60 ← ApiFloat.is_signaling t58
  check (decide (false = t60))
  let t61 ← ApiFloat.is_negative t58
  check (decide (false = t61))
  let t62 ← ApiFloat.to_bits t58
  check (decide (1 = (t62 &&& 2251799813685247)))
  let t63 ← (parse ("nan(1)".toList) : M Double)
  let t64 ← is_nan t63
  check t64
  let t65 ← ApiFloat.is_signaling t63
  check (decide (false = t65))
  let t66 ← ApiFloat.is_negative t63
  check (decide (false = t66))
  let t67 ← ApiFloat.to_bits t63
  check (decide (1 = (t67 &&& 2251799813685247)))
  let t68 ← (parse ("nan(0x1)".toList) : M Double)
  let t69 ← is_nan t68
  check t69

example : passes t_from_string_specials_2 = true := by decide +kernel

/-- tests/ieee.rs:1046 `from_string_specials`. -/
def t_from_string_specials_3 : M Unit := do
  let t68 ← (parse ("nan(0x1)".toList) : M Double)
  let t70 ← ApiFloat.is_signaling t68
  check (decide (false = t70))
  let t71 ← ApiFloat.is_negative t68
  check (decide (false = t71))
  let t72 ← ApiFloat.to_bits t68
  check (decide (1 = (t72 &&& 2251799813685247)))
  let t73 ← (parse ("-nan1".toList) : M Double)
  let t74 ← is_nan t73
  check t74
  let t75 ← ApiFloat.is_signaling t73
  check (decide (false = t75))
  let t76 ← ApiFloat.is_negative t73
  check (decide (true = t76))
  let t77 ← ApiFloat.to_bits t73
  check (decide (1 = (t77 &&& 2251799813685247)))
  let t78 ← (parse ("-nan0x1".toList) : M Double)
  let t79 ← is_nan t78
  check t79
  let t80 ← ApiFloat.is_signaling t78
  check (decide (false = t80))
  let t81 ← ApiFloat.is_negative t78
  check (decide (true = t81))
  let t82 ← ApiFloat.to_bits t78
  check (decide (1 = (t82 &&& 2251799813685247)))
  let t83 ← (parse ("-nan(1)".toList) : M Double)
  let t84 ← is_nan t83
  check t84
  let t85 ← ApiFloat.is_signaling t83
  check (decide (false = t85))
  let t86 ← ApiFloat.is_negative t83
  check (decide (true = t86))
  let t87 ← ApiFloat.to_bits t83
  check (decide (1 = (t87 &&& 2251799813685247)))
  let t88 ← (parse ("-nan(0x1)".toList) : M Double)
  let t89 ← is_nan t88
  check t89
  let t90 ← ApiFloat.is_signaling t88
  check (decide (false = t90))
  let t91 ← ApiFloat.is_negative t88
  check (decide (true = t91))
  let t92 ← ApiFloat.to_bits t88
  check (decide (1 = (t92 &&& 2251799813685247)))
  let t93 ← (parse ("nan123".toList) : M Double)
  let t94 ← is_nan t93
  check t94
  let t95 ← ApiFloat.is_signaling t93
  check (decide (false = t95))
  let t96 ← ApiFloat.is_negative t93
  check (decide (false = t96))
  let t97 ← ApiFloat.to_bits t93
  check (decide (123 = (t97 &&& 2251799813685247)))
  let t98 ← (parse ("nan0x7b".toList) : M Double)
  let t99 ← is_nan t98
  check t99
  let t100 ← ApiFloat.is_signaling t98
  check (decide (false = t100))
  let t101 ← ApiFloat.is_negative t98
  check (decide (false = t101))
  let t102 ← ApiFloat.to_bits t98
  check (decide (123 = (t102 &&& 2251799813685247)))

example : passes t_from_string_specials_3 = true := by decide +kernel

/-- tests/ieee.rs:1046 `from_string_specials`. -/
def t_from_string_specials_4 : M Unit := do
  let t103 ← (parse ("nan(123)".toList) : M Double)
  let t104 ← is_nan t103
  check t104
  let t105 ← ApiFloat.is_signaling t103
  check (decide (false = t105))
  let t106 ← ApiFloat.is_negative t103
  check (decide (false = t106))
  let t107 ← ApiFloat.to_bits t103
  check (decide (123 = (t107 &&& 2251799813685247)))
  let t108 ← (parse ("nan(0x7b)".toList) : M Double)
  let t109 ← is_nan t108
  check t109
  let t110 ← ApiFloat.is_signaling t108
  check (decide (false = t110))
  let t111 ← ApiFloat.is_negative t108
  check (decide (false = t111))
  let t112 ← ApiFloat.to_bits t108
  check (decide (123 = (t112 &&& 2251799813685247)))
  let t113 ← (parse ("-nan123".toList) : M Double)
  let t114 ← is_nan t113
  check t114
  let t115 ← ApiFloat.is_signaling t113
  check (decide (false = t115))
  let t116 ← ApiFloat.is_negative t113
  check (decide (true = t116))
  let t117 ← ApiFloat.to_bits t113
  check (decide (123 = (t117 &&& 2251799813685247)))
  let t118 ← (parse ("-nan0x7b".toList) : M Double)
  let t119 ← is_nan t118
  check t119
  let t120 ← ApiFloat.is_signaling t118
  check (decide (false = t120))
  let t121 ← ApiFloat.is_negative t118
  check (decide (true = t121))
  let t122 ← ApiFloat.to_bits t118
  check (decide (123 = (t122 &&& 2251799813685247)))
  let t123 ← (parse ("-nan(123)".toList) : M Double)
  let t124 ← is_nan t123
  check t124
  let t125 ← ApiFloat.is_signaling t123
  check (decide (false = t125))
  let t126 ← ApiFloat.is_negative t123
  check (decide (true = t126))
  let t127 ← ApiFloat.to_bits t123
  check (decide (123 = (t127 &&& 2251799813685247)))
  let t128 ← (parse ("-nan(0x7b)".toList) : M Double)
  let t129 ← is_nan t128
  check t129
  let t130 ← ApiFloat.is_signaling t128
  check (decide (false = t130))
  let t131 ← ApiFloat.is_negative t128
  check (decide (true = t131))
  let t132 ← ApiFloat.to_bits t128
  check (decide (123 = (t132 &&& 2251799813685247)))
  let t133 ← (parse ("nan3735928559".toList) : M Double)
  let t134 ← is_nan t133
  check t134
  let t135 ← ApiFloat.is_signaling t133
  check (decide (false = t135))
  let t136 ← ApiFloat.is_negative t133
  check (decide (false = t136))

example : passes t_from_string_specials_4 = true := by decide +kernel

/-- tests/ieee.rs:1046 `from_string_specials`. -/
def t_from_string_specials_5 : M Unit := do
  let t133 ← (parse ("nan3735928559".toList) : M Double)
  let t137 ← ApiFloat.to_bits t133
  check (decide (3735928559 = (t137 &&& 2251799813685247)))
  let t138 ← (parse ("nan0xdeadbeef".toList) : M Double)
  let t139 ← is_nan t138
  check t139
  let t140 ← ApiFloat.is_signaling t138
  check (decide (false = t140))
  let t141 ← ApiFloat.is_negative t138
  check (decide (false = t141))
  let t142 ← ApiFloat.to_bits t138
  check (decide (3735928559 = (t142 &&& 2251799813685247)))
  let t143 ← (parse ("nan(3735928559)".toList) : M Double)
  let t144 ← is_nan t143
  check t144
  let t145 ← ApiFloat.is_signaling t143
  check (decide (false = t145))
  let t146 ← ApiFloat.is_negative t143
  check (decide (false = t146))
  let t147 ← ApiFloat.to_bits t143
  check (decide (3735928559 = (t147 &&& 2251799813685247)))
  let t148 ← (parse ("nan(0xdeadbeef)".toList) : M Double)
  let t149 ← is_nan t148
  check t149
  let t150 ← ApiFloat.is_signaling t148
  check (decide (false = t150))
  let t151 ← ApiFloat.is_negative t148
  check (decide (false = t151))
  let t152 ← ApiFloat.to_bits t148
  check (decide (3735928559 = (t152 &&& 2251799813685247)))
  let t153 ← (parse ("-nan3735928559".toList) : M Double)
  let t154 ← is_nan t153
  check t154
  let t155 ← ApiFloat.is_signaling t153
  check (decide (false = t155))
  let t156 ← ApiFloat.is_negative t153
  check (decide (true = t156))
  let t157 ← ApiFloat.to_bits t153
  check (decide (3735928559 = (t157 &&& 2251799813685247)))
  let t158 ← (parse ("-nan0xdeadbeef".toList) : M Double)
  let t159 ← is_nan t158
  check t159
  let t160 ← ApiFloat.is_signaling t158
  check (decide (false = t160))
  let t161 ← ApiFloat.is_negative t158
  check (decide (true = t161))
  let t162 ← ApiFloat.to_bits t158
  check (decide (3735928559 = (t162 &&& 2251799813685247)))
  let t163 ← (parse ("-nan(3735928559)".toList) : M Double)
  let t164 ← is_nan t163
  check t164
  let t165 ← ApiFloat.is_signaling t163
  check (decide (false = t165))
  let t166 ← ApiFloat.is_negative t163
  check (decide (true = t166))
  let t167 ← ApiFloat.to_bits t163
  check (decide (3735928559 = (t167 &&& 2251799813685247)))
  let t168 ← (parse ("-nan(0xdeadbeef)".toList) : M Double)
  let t169 ← is_nan t168
  check t169
  let t170 ← ApiFloat.is_signaling t168
  check (decide (false = t170))

example : passes t_from_string_specials_5 = true := by decide +kernel

/-- tests/ieee.rs:1046 `from_string_specials`. -/
def t_from_string_specials_6 : M Unit := do
  let t168 ← (parse ("-nan(0xdeadbeef)".toList) : M Double)
  let t171 ← ApiFloat.is_negative t168
  check (decide (true = t171))
  let t172 ← ApiFloat.to_bits t168
  check (decide (3735928559 = (t172 &&& 2251799813685247)))
  let t173 ← (parse ("nan340282366920938463463374607431768211454".toList) : M Double)
  let t174 ← is_nan t173
  check t174
  let t175 ← ApiFloat.is_signaling t173
  check (decide (false = t175))
  let t176 ← ApiFloat.is_negative t173
  check (decide (false = t176))
  let t177 ← ApiFloat.to_bits t173
  check (decide (2251799813685246 = (t177 &&& 2251799813685247)))
  let t178 ← (parse ("nan0xfffffffffffffffffffffffffffffffe".toList) : M Double)
  let t179 ← is_nan t178
  check t179
  let t180 ← ApiFloat.is_signaling t178
  check (decide (false = t180))
  let t181 ← ApiFloat.is_negative t178
  check (decide (false = t181))
  let t182 ← ApiFloat.to_bits t178
  check (decide (2251799813685246 = (t182 &&& 2251799813685247)))
  let t183 ← (parse ("nan(340282366920938463463374607431768211454)".toList) : M Double)
  let t184 ← is_nan t183
  check t184
  let t185 ← ApiFloat.is_signaling t183
  check (decide (false = t185))
  let t186 ← ApiFloat.is_negative t183
  check (decide (false = t186))
  let t187 ← ApiFloat.to_bits t183
  check (decide (2251799813685246 = (t187 &&& 2251799813685247)))
  let t188 ← (parse ("nan(0xfffffffffffffffffffffffffffffffe)".toList) : M Double)
  let t189 ← is_nan t188
  check t189
  let t190 ← ApiFloat.is_signaling t188
  check (decide (false = t190))
  let t191 ← ApiFloat.is_negative t188
  check (decide (false = t191))
  let t192 ← ApiFloat.to_bits t188
  check (decide (2251799813685246 = (t192 &&& 2251799813685247)))
  let t193 ← (parse ("-nan340282366920938463463374607431768211454".toList) : M Double)
  let t194 ← is_nan t193
  check t194
  let t195 ← ApiFloat.is_signaling t193
  check (decide (false = t195))
  let t196 ← ApiFloat.is_negative t193
  check (decide (true = t196))
  let t197 ← ApiFloat.to_bits t193
  check (decide (2251799813685246 = (t197 &&& 2251799813685247)))
  let t198 ← (parse ("-nan0xfffffffffffffffffffffffffffffffe".toList) : M Double)
  let t199 ← is_nan t198
  check t199
  let t200 ← ApiFloat.is_signaling t198
  check (decide (false = t200))
  let t201 ← ApiFloat.is_negative t198
  check (decide (true = t201))
  let t202 ← ApiFloat.to_bits t198
  check (decide (2251799813685246 = (t202 &&& 2251799813685247)))
  let t203 ← (parse ("-nan(340282366920938463463374607431768211454)".toList) : M Double)
  let t204 ← is_nan t203
  check t204

example : passes t_from_string_specials_6 = true := by decide +kernel

/-- tests/ieee.rs:1046 `from_string_specials`. -/
def t_from_string_specials_7 : M Unit := do
  let t203 ← (parse ("-nan(340282366920938463463374607431768211454)".toList) : M Double)
  let t205 ← ApiFloat.is_signaling t203
  check (decide (false = t205))
  let t206 ← ApiFloat.is_negative t203
  check (decide (true = t206))
  let t207 ← ApiFloat.to_bits t203
  check (decide (2251799813685246 = (t207 &&& 2251799813685247)))
  let t208 ← (parse ("-nan(0xfffffffffffffffffffffffffffffffe)".toList) : M Double)
  let t209 ← is_nan t208
  check t209
  let t210 ← ApiFloat.is_signaling t208
  check (decide (false = t210))
  let t211 ← ApiFloat.is_negative t208
  check (decide (true = t211))
  let t212 ← ApiFloat.to_bits t208
  check (decide (2251799813685246 = (t212 &&& 2251799813685247)))
  let t213 ← (parse ("nan".toList) : M Double)
  let t214 ← is_nan t213
  check t214
  let t215 ← ApiFloat.is_signaling t213
  check (decide (false = t215))
  let t216 ← ApiFloat.is_negative t213
  check (decide (false = t216))
  let t217 ← ApiFloat.to_bits t213
  check (decide (0 = (t217 &&& 2251799813685247)))
  let t218 ← (parse ("nan2251799813685248".toList) : M Double)
  let t219 ← is_nan t218
  check t219
  let t220 ← ApiFloat.is_signaling t218
  check (decide (false = t220))
  let t221 ← ApiFloat.is_negative t218
  check (decide (false = t221))
  let t222 ← ApiFloat.to_bits t218
  check (decide (0 = (t222 &&& 2251799813685247)))
  let t223 ← (parse ("nan0x8000000000000".toList) : M Double)
  let t224 ← is_nan t223
  check t224
  let t225 ← ApiFloat.is_signaling t223
  check (decide (false = t225))
  let t226 ← ApiFloat.is_negative t223
  check (decide (false = t226))
  let t227 ← ApiFloat.to_bits t223
  check (decide (0 = (t227 &&& 2251799813685247)))
  let t228 ← (parse ("nan(2251799813685248)".toList) : M Double)
  let t229 ← is_nan t228
  check t229
  let t230 ← ApiFloat.is_signaling t228
  check (decide (false = t230))
  let t231 ← ApiFloat.is_negative t228
  check (decide (false = t231))
  let t232 ← ApiFloat.to_bits t228
  check (decide (0 = (t232 &&& 2251799813685247)))
  let t233 ← (parse ("nan(0x8000000000000)".toList) : M Double)
  let t234 ← is_nan t233
  check t234
  let t235 ← ApiFloat.is_signaling t233
  check (decide (false = t235))
  let t236 ← ApiFloat.is_negative t233
  check (decide (false = t236))
  let t237 ← ApiFloat.to_bits t233
  check (decide (0 = (t237 &&& 2251799813685247)))

example : passes t_from_string_specials_7 = true := by decide +kernel

/-- tests/ieee.rs:1046 `from_string_specials`. -/
def t_from_string_specials_8 : M Unit := do
  let t238 ← (parse ("-nan".toList) : M Double)
  let t239 ← is_nan t238
  check t239
  let t240 ← ApiFloat.is_signaling t238
  check (decide (false = t240))
  let t241 ← ApiFloat.is_negative t238
  check (decide (true = t241))
  let t242 ← ApiFloat.to_bits t238
  check (decide (0 = (t242 &&& 2251799813685247)))
  let t243 ← (parse ("-nan2251799813685248".toList) : M Double)
  let t244 ← is_nan t243
  check t244
  let t245 ← ApiFloat.is_signaling t243
  check (decide (false = t245))
  let t246 ← ApiFloat.is_negative t243
  check (decide (true = t246))
  let t247 ← ApiFloat.to_bits t243
  check (decide (0 = (t247 &&& 2251799813685247)))
  let t248 ← (parse ("-nan0x8000000000000".toList) : M Double)
  let t249 ← is_nan t248
  check t249
  let t250 ← ApiFloat.is_signaling t248
  check (decide (false = t250))
  let t251 ← ApiFloat.is_negative t248
  check (decide (true = t251))
  let t252 ← ApiFloat.to_bits t248
  check (decide (0 = (t252 &&& 2251799813685247)))
  let t253 ← (parse ("-nan(2251799813685248)".toList) : M Double)
  let t254 ← is_nan t253
  check t254
  let t255 ← ApiFloat.is_signaling t253
  check (decide (false = t255))
  let t256 ← ApiFloat.is_negative t253
  check (decide (true = t256))
  let t257 ← ApiFloat.to_bits t253
  check (decide (0 = (t257 &&& 2251799813685247)))
  let t258 ← (parse ("-nan(0x8000000000000)".toList) : M Double)
  let t259 ← is_nan t258
  check t259
  let t260 ← ApiFloat.is_signaling t258
  check (decide (false = t260))
  let t261 ← ApiFloat.is_negative t258
  check (decide (true = t261))
  let t262 ← ApiFloat.to_bits t258
  check (decide (0 = (t262 &&& 2251799813685247)))
  let t263 ← (parse ("nan1125899906842624".toList) : M Double)
  let t264 ← is_nan t263
  check t264
  let t265 ← ApiFloat.is_signaling t263
  check (decide (false = t265))
  let t266 ← ApiFloat.is_negative t263
  check (decide (false = t266))
  let t267 ← ApiFloat.to_bits t263
  check (decide (1125899906842624 = (t267 &&& 2251799813685247)))
  let t268 ← (parse ("nan0x4000000000000".toList) : M Double)
  let t269 ← is_nan t268
  check t269
  let t270 ← ApiFloat.is_signaling t268
  check (decide (false = t270))
  let t271 ← ApiFloat.is_negative t268
  check (decide (false = t271))

example : passes t_from_string_specials_8 = true := by decide +kernel

/-- tests/ieee.rs:1046 `from_string_specials`. -/
def t_from_string_specials_9 : M Unit := do
  let t268 ← (parse ("nan0x4000000000000".toList) : M Double)
  let t272 ← ApiFloat.to_bits t268
  check (decide (1125899906842624 = (t272 &&& 2251799813685247)))
  let t273 ← (parse ("nan(1125899906842624)".toList) : M Double)
  let t274 ← is_nan t273
  check t274
  let t275 ← ApiFloat.is_signaling t273
  check (decide (false = t275))
  let t276 ← ApiFloat.is_negative t273
  check (decide (false = t276))
  let t277 ← ApiFloat.to_bits t273
  check (decide (1125899906842624 = (t277 &&& 2251799813685247)))
  let t278 ← (parse ("nan(0x4000000000000)".toList) : M Double)
  let t279 ← is_nan t278
  check t279
  let t280 ← ApiFloat.is_signaling t278
  check (decide (false = t280))
  let t281 ← ApiFloat.is_negative t278
  check (decide (false = t281))
  let t282 ← ApiFloat.to_bits t278
  check (decide (1125899906842624 = (t282 &&& 2251799813685247)))
  let t283 ← (parse ("-nan1125899906842624".toList) : M Double)
  let t284 ← is_nan t283
  check t284
  let t285 ← ApiFloat.is_signaling t283
  check (decide (false = t285))
  let t286 ← ApiFloat.is_negative t283
  check (decide (true = t286))
  let t287 ← ApiFloat.to_bits t283
  check (decide (1125899906842624 = (t287 &&& 2251799813685247)))
  let t288 ← (parse ("-nan0x4000000000000".toList) : M Double)
  let t289 ← is_nan t288
  check t289
  let t290 ← ApiFloat.is_signaling t288
  check (decide (false = t290))
  let t291 ← ApiFloat.is_negative t288
  check (decide (true = t291))
  let t292 ← ApiFloat.to_bits t288
  check (decide (1125899906842624 = (t292 &&& 2251799813685247)))
  let t293 ← (parse ("-nan(1125899906842624)".toList) : M Double)
  let t294 ← is_nan t293
  check t294
  let t295 ← ApiFloat.is_signaling t293
  check (decide (false = t295))
  let t296 ← ApiFloat.is_negative t293
  check (decide (true = t296))
  let t297 ← ApiFloat.to_bits t293
  check (decide (1125899906842624 = (t297 &&& 2251799813685247)))
  let t298 ← (parse ("-nan(0x4000000000000)".toList) : M Double)
  let t299 ← is_nan t298
  check t299
  let t300 ← ApiFloat.is_signaling t298
  check (decide (false = t300))
  let t301 ← ApiFloat.is_negative t298
  check (decide (true = t301))
  let t302 ← ApiFloat.to_bits t298
  check (decide (1125899906842624 = (t302 &&& 2251799813685247)))
  let t303 ← (parse ("nan562949953421312".toList) : M Double)
  let t304 ← is_nan t303
  check t304
  let t305 ← ApiFloat.is_signaling t303
  check (decide (false = t305))

example : passes t_from_string_specials_9 = true := by decide +kernel

/-- tests/ieee.rs:1046 `from_string_specials`. -/
def t_from_string_specials_10 : M Unit := do
  let t303 ← (parse ("nan562949953421312".toList) : M Double)
  let t306 ← ApiFloat.is_negative t303
  check (decide (false = t306))
  let t307 ← ApiFloat.to_bits t303
  check (decide (562949953421312 = (t307 &&& 2251799813685247)))
  let t308 ← (parse ("nan0x2000000000000".toList) : M Double)
  let t309 ← is_nan t308
  check t309
  let t310 ← ApiFloat.is_signaling t308
  check (decide (false = t310))
  let t311 ← ApiFloat.is_negative t308
  check (decide (false = t311))
  let t312 ← ApiFloat.to_bits t308
  check (decide (562949953421312 = (t312 &&& 2251799813685247)))
  let t313 ← (parse ("nan(562949953421312)".toList) : M Double)
  let t314 ← is_nan t313
  check t314
  let t315 ← ApiFloat.is_signaling t313
  check (decide (false = t315))
  let t316 ← ApiFloat.is_negative t313
  check (decide (false = t316))
  let t317 ← ApiFloat.to_bits t313
  check (decide (562949953421312 = (t317 &&& 2251799813685247)))
  let t318 ← (parse ("nan(0x2000000000000)".toList) : M Double)
  let t319 ← is_nan t318
  check t319
  let t320 ← ApiFloat.is_signaling t318
  check (decide (false = t320))
  let t321 ← ApiFloat.is_negative t318
  check (decide (false = t321))
  let t322 ← ApiFloat.to_bits t318
  check (decide (562949953421312 = (t322 &&& 2251799813685247)))
  let t323 ← (parse ("-nan562949953421312".toList) : M Double)
  let t324 ← is_nan t323
  check t324
  let t325 ← ApiFloat.is_signaling t323
  check (decide (false = t325))
  let t326 ← ApiFloat.is_negative t323
  check (decide (true = t326))
  let t327 ← ApiFloat.to_bits t323
  check (decide (562949953421312 = (t327 &&& 2251799813685247)))
  let t328 ← (parse ("-nan0x2000000000000".toList) : M Double)
  let t329 ← is_nan t328
  check t329
  let t330 ← ApiFloat.is_signaling t328
  check (decide (false = t330))
  let t331 ← ApiFloat.is_negative t328
  check (decide (true = t331))
  let t332 ← ApiFloat.to_bits t328
  check (decide (562949953421312 = (t332 &&& 2251799813685247)))
  let t333 ← (parse ("-nan(562949953421312)".toList) : M Double)
  let t334 ← is_nan t333
  check t334
  let t335 ← ApiFloat.is_signaling t333
  check (decide (false = t335))
  let t336 ← ApiFloat.is_negative t333
  check (decide (true = t336))
  let t337 ← ApiFloat.to_bits t333
  check (decide (562949953421312 = (t337 &&& 2251799813685247)))
  let t338 ← (parse ("-nan(0x2000000000000)".toList) : M Double)
  let t339 ← is_nan t338
  check t339

example : passes t_from_string_specials_10 = true := by decide +kernel

/-- tests/ieee.rs:1046 `from_string_specials`. -/
def t_from_string_specials_11 : M Unit := do
  let t1 ← (ApiFloat.snan none : M Double)
  let t2 ← ApiFloat.to_bits t1
  let t338 ← (parse ("-nan(0x2000000000000)".toList) : M Double)
  let t340 ← ApiFloat.is_signaling t338
  check (decide (false = t340))
  let t341 ← ApiFloat.is_negative t338
  check (decide (true = t341))
  let t342 ← ApiFloat.to_bits t338
  check (decide (562949953421312 = (t342 &&& 2251799813685247)))
  check (!decide ((t2 &&& 2251799813685247) = 0))
  let t343 ← (parse ("snan0".toList) : M Double)
  let t344 ← is_nan t343
  check t344
  let t345 ← ApiFloat.is_signaling t343
  check (decide (true = t345))
  let t346 ← ApiFloat.is_negative t343
  check (decide (false = t346))
  let t347 ← ApiFloat.to_bits t343
  check (decide ((t2 &&& 2251799813685247) = (t347 &&& 2251799813685247)))
  let t348 ← (parse ("snan0x0".toList) : M Double)
  let t349 ← is_nan t348
  check t349
  let t350 ← ApiFloat.is_signaling t348
  check (decide (true = t350))
  let t351 ← ApiFloat.is_negative t348
  check (decide (false = t351))
  let t352 ← ApiFloat.to_bits t348
  check (decide ((t2 &&& 2251799813685247) = (t352 &&& 2251799813685247)))
  let t353 ← (parse ("snan(0)".toList) : M Double)
  let t354 ← is_nan t353
  check t354
  let t355 ← ApiFloat.is_signaling t353
  check (decide (true = t355))
  let t356 ← ApiFloat.is_negative t353
  check (decide (false = t356))
  let t357 ← ApiFloat.to_bits t353
  check (decide ((t2 &&& 2251799813685247) = (t357 &&& 2251799813685247)))
  let t358 ← (parse ("snan(0x0)".toList) : M Double)
  let t359 ← is_nan t358
  check t359
  let t360 ← ApiFloat.is_signaling t358
  check (decide (true = t360))
  let t361 ← ApiFloat.is_negative t358
  check (decide (false = t361))
  let t362 ← ApiFloat.to_bits t358
  check (decide ((t2 &&& 2251799813685247) = (t362 &&& 2251799813685247)))
  check (!decide ((t2 &&& 2251799813685247) = 0))
  let t363 ← (parse ("-snan0".toList) : M Double)
  let t364 ← is_nan t363
  check t364
  let t365 ← ApiFloat.is_signaling t363
  check (decide (true = t365))
  let t366 ← ApiFloat.is_negative t363
  check (decide (true = t366))
  let t367 ← ApiFloat.to_bits t363
  check (decide ((t2 &&& 2251799813685247) = (t367 &&& 2251799813685247)))
  let t368 ← (parse ("-snan0x0".toList) : M Double)
  let t369 ← is_nan t368
  check t369
  let t370 ← ApiFloat.is_signaling t368
  check (decide (true = t370))
  let t371 ← ApiFloat.is_negative t368
  check (decide (true = t371))

example : passes t_from_string_specials_11 = true := by decide +kernel

/-- tests/ieee.rs:1046 `from_string_specials`. -/
def t_from_string_specials_12 : M Unit := do
  let t1 ← (ApiFloat.snan none : M Double)
  let t2 ← ApiFloat.to_bits t1
  let t368 ← (parse ("-snan0x0".toList) : M Double)
  let t372 ← ApiFloat.to_bits t368
  check (decide ((t2 &&& 2251799813685247) = (t372 &&& 2251799813685247)))
  let t373 ← (parse ("-snan(0)".toList) : M Double)
  let t374 ← is_nan t373
  check t374
  let t375 ← ApiFloat.is_signaling t373
  check (decide (true = t375))
  let t376 ← ApiFloat.is_negative t373
  check (decide (true = t376))
  let t377 ← ApiFloat.to_bits t373
  check (decide ((t2 &&& 2251799813685247) = (t377 &&& 2251799813685247)))
  let t378 ← (parse ("-snan(0x0)".toList) : M Double)
  let t379 ← is_nan t378
  check t379
  let t380 ← ApiFloat.is_signaling t378
  check (decide (true = t380))
  let t381 ← ApiFloat.is_negative t378
  check (decide (true = t381))
  let t382 ← ApiFloat.to_bits t378
  check (decide ((t2 &&& 2251799813685247) = (t382 &&& 2251799813685247)))
  let t383 ← (parse ("snan1".toList) : M Double)
  let t384 ← is_nan t383
  check t384
  let t385 ← ApiFloat.is_signaling t383
  check (decide (true = t385))
  let t386 ← ApiFloat.is_negative t383
  check (decide (false = t386))
  let t387 ← ApiFloat.to_bits t383
  check (decide (1 = (t387 &&& 2251799813685247)))
  let t388 ← (parse ("snan0x1".toList) : M Double)
  let t389 ← is_nan t388
  check t389
  let t390 ← ApiFloat.is_signaling t388
  check (decide (true = t390))
  let t391 ← ApiFloat.is_negative t388
  check (decide (false = t391))
  let t392 ← ApiFloat.to_bits t388
  check (decide (1 = (t392 &&& 2251799813685247)))
  let t393 ← (parse ("snan(1)".toList) : M Double)
  let t394 ← is_nan t393
  check t394
  let t395 ← ApiFloat.is_signaling t393
  check (decide (true = t395))
  let t396 ← ApiFloat.is_negative t393
  check (decide (false = t396))
  let t397 ← ApiFloat.to_bits t393
  check (decide (1 = (t397 &&& 2251799813685247)))
  let t398 ← (parse ("snan(0x1)".toList) : M Double)
  let t399 ← is_nan t398
  check t399
  let t400 ← ApiFloat.is_signaling t398
  check (decide (true = t400))
  let t401 ← ApiFloat.is_negative t398
  check (decide (false = t401))
  let t402 ← ApiFloat.to_bits t398
  check (decide (1 = (t402 &&& 2251799813685247)))
  let t403 ← (parse ("-snan1".toList) : M Double)
  let t404 ← is_nan t403
  check t404
  let t405 ← ApiFloat.is_signaling t403
  check (decide (true = t405))

example : passes t_from_string_specials_12 = true := by decide +kernel

/-- tests/ieee.rs:1046 `from_string_specials`. -/
def t_from_string_specials_13 : M Unit := do
  let t403 ← (parse ("-snan1".toList) : M Double)
  let t406 ← ApiFloat.is_negative t403
  check (decide (true = t406))
  let t407 ← ApiFloat.to_bits t403
  check (decide (1 = (t407 &&& 2251799813685247)))
  let t408 ← (parse ("-snan0x1".toList) : M Double)
  let t409 ← is_nan t408
  check t409
  let t410 ← ApiFloat.is_signaling t408
  check (decide (true = t410))
  let t411 ← ApiFloat.is_negative t408
  check (decide (true = t411))
  let t412 ← ApiFloat.to_bits t408
  check (decide (1 = (t412 &&& 2251799813685247)))
  let t413 ← (parse ("-snan(1)".toList) : M Double)
  let t414 ← is_nan t413
  check t414
  let t415 ← ApiFloat.is_signaling t413
  check (decide (true = t415))
  let t416 ← ApiFloat.is_negative t413
  check (decide (true = t416))
  let t417 ← ApiFloat.to_bits t413
  check (decide (1 = (t417 &&& 2251799813685247)))
  let t418 ← (parse ("-snan(0x1)".toList) : M Double)
  let t419 ← is_nan t418
  check t419
  let t420 ← ApiFloat.is_signaling t418
  check (decide (true = t420))
  let t421 ← ApiFloat.is_negative t418
  check (decide (true = t421))
  let t422 ← ApiFloat.to_bits t418
  check (decide (1 = (t422 &&& 2251799813685247)))
  let t423 ← (parse ("snan123".toList) : M Double)
  let t424 ← is_nan t423
  check t424
  let t425 ← ApiFloat.is_signaling t423
  check (decide (true = t425))
  let t426 ← ApiFloat.is_negative t423
  check (decide (false = t426))
  let t427 ← ApiFloat.to_bits t423
  check (decide (123 = (t427 &&& 2251799813685247)))
  let t428 ← (parse ("snan0x7b".toList) : M Double)
  let t429 ← is_nan t428
  check t429
  let t430 ← ApiFloat.is_signaling t428
  check (decide (true = t430))
  let t431 ← ApiFloat.is_negative t428
  check (decide (false = t431))
  let t432 ← ApiFloat.to_bits t428
  check (decide (123 = (t432 &&& 2251799813685247)))
  let t433 ← (parse ("snan(123)".toList) : M Double)
  let t434 ← is_nan t433
  check t434
  let t435 ← ApiFloat.is_signaling t433
  check (decide (true = t435))
  let t436 ← ApiFloat.is_negative t433
  check (decide (false = t436))
  let t437 ← ApiFloat.to_bits t433
  check (decide (123 = (t437 &&& 2251799813685247)))
  let t438 ← (parse ("snan(0x7b)".toList) : M Double)
  let t439 ← is_nan t438
  check t439

example : passes t_from_string_specials_13 = true := by decide +kernel

/-- tests/ieee.rs:1046 `from_string_specials`. -/
def t_from_string_specials_14 : M Unit := do
  let t438 ← (parse ("snan(0x7b)".toList) : M Double)
  let t440 ← ApiFloat.is_signaling t438
  check (decide (true = t440))
  let t441 ← ApiFloat.is_negative t438
  check (decide (false = t441))
  let t442 ← ApiFloat.to_bits t438
  check (decide (123 = (t442 &&& 2251799813685247)))
  let t443 ← (parse ("-snan123".toList) : M Double)
  let t444 ← is_nan t443
  check t444
  let t445 ← ApiFloat.is_signaling t443
  check (decide (true = t445))
  let t446 ← ApiFloat.is_negative t443
  check (decide (true = t446))
  let t447 ← ApiFloat.to_bits t443
  check (decide (123 = (t447 &&& 2251799813685247)))
  let t448 ← (parse ("-snan0x7b".toList) : M Double)
  let t449 ← is_nan t448
  check t449
  let t450 ← ApiFloat.is_signaling t448
  check (decide (true = t450))
  let t451 ← ApiFloat.is_negative t448
  check (decide (true = t451))
  let t452 ← ApiFloat.to_bits t448
  check (decide (123 = (t452 &&& 2251799813685247)))
  let t453 ← (parse ("-snan(123)".toList) : M Double)
  let t454 ← is_nan t453
  check t454
  let t455 ← ApiFloat.is_signaling t453
  check (decide (true = t455))
  let t456 ← ApiFloat.is_negative t453
  check (decide (true = t456))
  let t457 ← ApiFloat.to_bits t453
  check (decide (123 = (t457 &&& 2251799813685247)))
  let t458 ← (parse ("-snan(0x7b)".toList) : M Double)
  let t459 ← is_nan t458
  check t459
  let t460 ← ApiFloat.is_signaling t458
  check (decide (true = t460))
  let t461 ← ApiFloat.is_negative t458
  check (decide (true = t461))
  let t462 ← ApiFloat.to_bits t458
  check (decide (123 = (t462 &&& 2251799813685247)))
  let t463 ← (parse ("snan3735928559".toList) : M Double)
  let t464 ← is_nan t463
  check t464
  let t465 ← ApiFloat.is_signaling t463
  check (decide (true = t465))
  let t466 ← ApiFloat.is_negative t463
  check (decide (false = t466))
  let t467 ← ApiFloat.to_bits t463
  check (decide (3735928559 = (t467 &&& 2251799813685247)))
  let t468 ← (parse ("snan0xdeadbeef".toList) : M Double)
  let t469 ← is_nan t468
  check t469
  let t470 ← ApiFloat.is_signaling t468
  check (decide (true = t470))
  let t471 ← ApiFloat.is_negative t468
  check (decide (false = t471))
  let t472 ← ApiFloat.to_bits t468
  check (decide (3735928559 = (t472 &&& 2251799813685247)))

example : passes t_from_string_specials_14 = true := by decide +kernel

/-- tests/ieee.rs:1046 `from_string_specials`. -/
def t_from_string_specials_15 : M Unit := do
  let t473 ← (parse ("snan(3735928559)".toList) : M Double)
  let t474 ← is_nan t473
  check t474
  let t475 ← ApiFloat.is_signaling t473
  check (decide (true = t475))
  let t476 ← ApiFloat.is_negative t473
  check (decide (false = t476))
  let t477 ← ApiFloat.to_bits t473
  check (decide (3735928559 = (t477 &&& 2251799813685247)))
  let t478 ← (parse ("snan(0xdeadbeef)".toList) : M Double)
  let t479 ← is_nan t478
  check t479
  let t480 ← ApiFloat.is_signaling t478
  check (decide (true = t480))
  let t481 ← ApiFloat.is_negative t478
  check (decide (false = t481))
  let t482 ← ApiFloat.to_bits t478
  check (decide (3735928559 = (t482 &&& 2251799813685247)))
  let t483 ← (parse ("-snan3735928559".toList) : M Double)
  let t484 ← is_nan t483
  check t484
  let t485 ← ApiFloat.is_signaling t483
  check (decide (true = t485))
  let t486 ← ApiFloat.is_negative t483
  check (decide (true = t486))
  let t487 ← ApiFloat.to_bits t483
  check (decide (3735928559 = (t487 &&& 2251799813685247)))
  let t488 ← (parse ("-snan0xdeadbeef".toList) : M Double)
  let t489 ← is_nan t488
  check t489
  let t490 ← ApiFloat.is_signaling t488
  check (decide (true = t490))
  let t491 ← ApiFloat.is_negative t488
  check (decide (true = t491))
  let t492 ← ApiFloat.to_bits t488
  check (decide (3735928559 = (t492 &&& 2251799813685247)))
  let t493 ← (parse ("-snan(3735928559)".toList) : M Double)
  let t494 ← is_nan t493
  check t494
  let t495 ← ApiFloat.is_signaling t493
  check (decide (true = t495))
  let t496 ← ApiFloat.is_negative t493
  check (decide (true = t496))
  let t497 ← ApiFloat.to_bits t493
  check (decide (3735928559 = (t497 &&& 2251799813685247)))
  let t498 ← (parse ("-snan(0xdeadbeef)".toList) : M Double)
  let t499 ← is_nan t498
  check t499
  let t500 ← ApiFloat.is_signaling t498
  check (decide (true = t500))
  let t501 ← ApiFloat.is_negative t498
  check (decide (true = t501))
  let t502 ← ApiFloat.to_bits t498
  check (decide (3735928559 = (t502 &&& 2251799813685247)))
  let t503 ← (parse ("snan340282366920938463463374607431768211454".toList) : M Double)
  let t504 ← is_nan t503
  check t504
  let t505 ← ApiFloat.is_signaling t503
  check (decide (true = t505))
  let t506 ← ApiFloat.is_negative t503
  check (decide (false = t506))

example : passes t_from_string_specials_15 = true := by decide +kernel

/-- tests/ieee.rs:1046 `from_string_specials`. -/
def t_from_string_specials_16 : M Unit := do
  let t503 ← (parse ("snan340282366920938463463374607431768211454".toList) : M Double)
  let t507 ← ApiFloat.to_bits t503
  check (decide (2251799813685246 = (t507 &&& 2251799813685247)))
  let t508 ← (parse ("snan0xfffffffffffffffffffffffffffffffe".toList) : M Double)
  let t509 ← is_nan t508
  check t509
  let t510 ← ApiFloat.is_signaling t508
  check (decide (true = t510))
  let t511 ← ApiFloat.is_negative t508
  check (decide (false = t511))
  let t512 ← ApiFloat.to_bits t508
  check (decide (2251799813685246 = (t512 &&& 2251799813685247)))
  let t513 ← (parse ("snan(340282366920938463463374607431768211454)".toList) : M Double)
  let t514 ← is_nan t513
  check t514
  let t515 ← ApiFloat.is_signaling t513
  check (decide (true = t515))
  let t516 ← ApiFloat.is_negative t513
  check (decide (false = t516))
  let t517 ← ApiFloat.to_bits t513
  check (decide (2251799813685246 = (t517 &&& 2251799813685247)))
  let t518 ← (parse ("snan(0xfffffffffffffffffffffffffffffffe)".toList) : M Double)
  let t519 ← is_nan t518
  check t519
  let t520 ← ApiFloat.is_signaling t518
  check (decide (true = t520))
  let t521 ← ApiFloat.is_negative t518
  check (decide (false = t521))
  let t522 ← ApiFloat.to_bits t518
  check (decide (2251799813685246 = (t522 &&& 2251799813685247)))
  let t523 ← (parse ("-snan340282366920938463463374607431768211454".toList) : M Double)
  let t524 ← is_nan t523
  check t524
  let t525 ← ApiFloat.is_signaling t523
  check (decide (true = t525))
  let t526 ← ApiFloat.is_negative t523
  check (decide (true = t526))
  let t527 ← ApiFloat.to_bits t523
  check (decide (2251799813685246 = (t527 &&& 2251799813685247)))
  let t528 ← (parse ("-snan0xfffffffffffffffffffffffffffffffe".toList) : M Double)
  let t529 ← is_nan t528
  check t529
  let t530 ← ApiFloat.is_signaling t528
  check (decide (true = t530))
  let t531 ← ApiFloat.is_negative t528
  check (decide (true = t531))
  let t532 ← ApiFloat.to_bits t528
  check (decide (2251799813685246 = (t532 &&& 2251799813685247)))
  let t533 ← (parse ("-snan(340282366920938463463374607431768211454)".toList) : M Double)
  let t534 ← is_nan t533
  check t534
  let t535 ← ApiFloat.is_signaling t533
  check (decide (true = t535))
  let t536 ← ApiFloat.is_negative t533
  check (decide (true = t536))
  let t537 ← ApiFloat.to_bits t533
  check (decide (2251799813685246 = (t537 &&& 2251799813685247)))
  let t538 ← (parse ("-snan(0xfffffffffffffffffffffffffffffffe)".toList) : M Double)
  let t539 ← is_nan t538
  check t539
  let t540 ← ApiFloat.is_signaling t538
  check (decide (true = t540))

example : passes t_from_string_specials_16 = true := by decide +kernel

/-- tests/ieee.rs:1046 `from_string_specials`. -/
def t_from_string_specials_17 : M Unit := do
  let t1 ← (ApiFloat.snan none : M Double)
  let t2 ← ApiFloat.to_bits t1
  let t538 ← (parse ("-snan(0xfffffffffffffffffffffffffffffffe)".toList) : M Double)
  let t541 ← ApiFloat.is_negative t538
  check (decide (true = t541))
  let t542 ← ApiFloat.to_bits t538
  check (decide (2251799813685246 = (t542 &&& 2251799813685247)))
  check (!decide ((t2 &&& 2251799813685247) = 0))
  let t543 ← (parse ("snan2251799813685248".toList) : M Double)
  let t544 ← is_nan t543
  check t544
  let t545 ← ApiFloat.is_signaling t543
  check (decide (true = t545))
  let t546 ← ApiFloat.is_negative t543
  check (decide (false = t546))
  let t547 ← ApiFloat.to_bits t543
  check (decide ((t2 &&& 2251799813685247) = (t547 &&& 2251799813685247)))
  let t548 ← (parse ("snan0x8000000000000".toList) : M Double)
  let t549 ← is_nan t548
  check t549
  let t550 ← ApiFloat.is_signaling t548
  check (decide (true = t550))
  let t551 ← ApiFloat.is_negative t548
  check (decide (false = t551))
  let t552 ← ApiFloat.to_bits t548
  check (decide ((t2 &&& 2251799813685247) = (t552 &&& 2251799813685247)))
  let t553 ← (parse ("snan(2251799813685248)".toList) : M Double)
  let t554 ← is_nan t553
  check t554
  let t555 ← ApiFloat.is_signaling t553
  check (decide (true = t555))
  let t556 ← ApiFloat.is_negative t553
  check (decide (false = t556))
  let t557 ← ApiFloat.to_bits t553
  check (decide ((t2 &&& 2251799813685247) = (t557 &&& 2251799813685247)))
  let t558 ← (parse ("snan(0x8000000000000)".toList) : M Double)
  let t559 ← is_nan t558
  check t559
  let t560 ← ApiFloat.is_signaling t558
  check (decide (true = t560))
  let t561 ← ApiFloat.is_negative t558
  check (decide (false = t561))
  let t562 ← ApiFloat.to_bits t558
  check (decide ((t2 &&& 2251799813685247) = (t562 &&& 2251799813685247)))
  check (!decide ((t2 &&& 2251799813685247) = 0))
  let t563 ← (parse ("-snan2251799813685248".toList) : M Double)
  let t564 ← is_nan t563
  check t564
  let t565 ← ApiFloat.is_signaling t563
  check (decide (true = t565))
  let t566 ← ApiFloat.is_negative t563
  check (decide (true = t566))
  let t567 ← ApiFloat.to_bits t563
  check (decide ((t2 &&& 2251799813685247) = (t567 &&& 2251799813685247)))
  let t568 ← (parse ("-snan0x8000000000000".toList) : M Double)
  let t569 ← is_nan t568
  check t569
  let t570 ← ApiFloat.is_signaling t568
  check (decide (true = t570))
  let t571 ← ApiFloat.is_negative t568
  check (decide (true = t571))
  let t572 ← ApiFloat.to_bits t568
  check (decide ((t2 &&& 2251799813685247) = (t572 &&& 2251799813685247)))

example : passes t_from_string_specials_17 = true := by decide +kernel

/-- tests/ieee.rs:1046 `from_string_specials`. -/
def t_from_string_specials_18 : M Unit := do
  let t1 ← (ApiFloat.snan none : M Double)
  let t2 ← ApiFloat.to_bits t1
  let t573 ← (parse ("-snan(2251799813685248)".toList) : M Double)
  let t574 ← is_nan t573
  check t574
  let t575 ← ApiFloat.is_signaling t573
  check (decide (true = t575))
  let t576 ← ApiFloat.is_negative t573
  check (decide (true = t576))
  let t577 ← ApiFloat.to_bits t573
  check (decide ((t2 &&& 2251799813685247) = (t577 &&& 2251799813685247)))
  let t578 ← (parse ("-snan(0x8000000000000)".toList) : M Double)
  let t579 ← is_nan t578
  check t579
  let t580 ← ApiFloat.is_signaling t578
  check (decide (true = t580))
  let t581 ← ApiFloat.is_negative t578
  check (decide (true = t581))
  let t582 ← ApiFloat.to_bits t578
  check (decide ((t2 &&& 2251799813685247) = (t582 &&& 2251799813685247)))
  let t583 ← (parse ("snan1125899906842624".toList) : M Double)
  let t584 ← is_nan t583
  check t584
  let t585 ← ApiFloat.is_signaling t583
  check (decide (true = t585))
  let t586 ← ApiFloat.is_negative t583
  check (decide (false = t586))
  let t587 ← ApiFloat.to_bits t583
  check (decide (1125899906842624 = (t587 &&& 2251799813685247)))
  let t588 ← (parse ("snan0x4000000000000".toList) : M Double)
  let t589 ← is_nan t588
  check t589
  let t590 ← ApiFloat.is_signaling t588
  check (decide (true = t590))
  let t591 ← ApiFloat.is_negative t588
  check (decide (false = t591))
  let t592 ← ApiFloat.to_bits t588
  check (decide (1125899906842624 = (t592 &&& 2251799813685247)))
  let t593 ← (parse ("snan(1125899906842624)".toList) : M Double)
  let t594 ← is_nan t593
  check t594
  let t595 ← ApiFloat.is_signaling t593
  check (decide (true = t595))
  let t596 ← ApiFloat.is_negative t593
  check (decide (false = t596))
  let t597 ← ApiFloat.to_bits t593
  check (decide (1125899906842624 = (t597 &&& 2251799813685247)))
  let t598 ← (parse ("snan(0x4000000000000)".toList) : M Double)
  let t599 ← is_nan t598
  check t599
  let t600 ← ApiFloat.is_signaling t598
  check (decide (true = t600))
  let t601 ← ApiFloat.is_negative t598
  check (decide (false = t601))
  let t602 ← ApiFloat.to_bits t598
  check (decide (1125899906842624 = (t602 &&& 2251799813685247)))
  let t603 ← (parse ("-snan1125899906842624".toList) : M Double)
  let t604 ← is_nan t603
  check t604
  let t605 ← ApiFloat.is_signaling t603
  check (decide (true = t605))
  let t606 ← ApiFloat.is_negative t603
  check (decide (true = t606))

example : passes t_from_string_specials_18 = true := by decide +kernel

/-- tests/ieee.rs:1046 `from_string_specials`. -/
def t_from_string_specials_19 : M Unit := do
  let t603 ← (parse ("-snan1125899906842624".toList) : M Double)
  let t607 ← ApiFloat.to_bits t603
  check (decide (1125899906842624 = (t607 &&& 2251799813685247)))
  let t608 ← (parse ("-snan0x4000000000000".toList) : M Double)
  let t609 ← is_nan t608
  check t609
  let t610 ← ApiFloat.is_signaling t608
  check (decide (true = t610))
  let t611 ← ApiFloat.is_negative t608
  check (decide (true = t611))
  let t612 ← ApiFloat.to_bits t608
  check (decide (1125899906842624 = (t612 &&& 2251799813685247)))
  let t613 ← (parse ("-snan(1125899906842624)".toList) : M Double)
  let t614 ← is_nan t613
  check t614
  let t615 ← ApiFloat.is_signaling t613
  check (decide (true = t615))
  let t616 ← ApiFloat.is_negative t613
  check (decide (true = t616))
  let t617 ← ApiFloat.to_bits t613
  check (decide (1125899906842624 = (t617 &&& 2251799813685247)))
  let t618 ← (parse ("-snan(0x4000000000000)".toList) : M Double)
  let t619 ← is_nan t618
  check t619
  let t620 ← ApiFloat.is_signaling t618
  check (decide (true = t620))
  let t621 ← ApiFloat.is_negative t618
  check (decide (true = t621))
  let t622 ← ApiFloat.to_bits t618
  check (decide (1125899906842624 = (t622 &&& 2251799813685247)))
  let t623 ← (parse ("snan562949953421312".toList) : M Double)
  let t624 ← is_nan t623
  check t624
  let t625 ← ApiFloat.is_signaling t623
  check (decide (true = t625))
  let t626 ← ApiFloat.is_negative t623
  check (decide (false = t626))
  let t627 ← ApiFloat.to_bits t623
  check (decide (562949953421312 = (t627 &&& 2251799813685247)))
  let t628 ← (parse ("snan0x2000000000000".toList) : M Double)
  let t629 ← is_nan t628
  check t629
  let t630 ← ApiFloat.is_signaling t628
  check (decide (true = t630))
  let t631 ← ApiFloat.is_negative t628
  check (decide (false = t631))
  let t632 ← ApiFloat.to_bits t628
  check (decide (562949953421312 = (t632 &&& 2251799813685247)))
  let t633 ← (parse ("snan(562949953421312)".toList) : M Double)
  let t634 ← is_nan t633
  check t634
  let t635 ← ApiFloat.is_signaling t633
  check (decide (true = t635))
  let t636 ← ApiFloat.is_negative t633
  check (decide (false = t636))
  let t637 ← ApiFloat.to_bits t633
  check (decide (562949953421312 = (t637 &&& 2251799813685247)))
  let t638 ← (parse ("snan(0x2000000000000)".toList) : M Double)
  let t639 ← is_nan t638
  check t639
  let t640 ← ApiFloat.is_signaling t638
  check (decide (true = t640))

example : passes t_from_string_specials_19 = true := by decide +kernel

/-- tests/ieee.rs:1046 `from_string_specials`. -/
def t_from_string_specials_20 : M Unit := do
  let t1 ← (ApiFloat.snan none : M Double)
  let t2 ← ApiFloat.to_bits t1
  let t638 ← (parse ("snan(0x2000000000000)".toList) : M Double)
  let t641 ← ApiFloat.is_negative t638
  check (decide (false = t641))
  let t642 ← ApiFloat.to_bits t638
  check (decide (562949953421312 = (t642 &&& 2251799813685247)))
  let t643 ← (parse ("-snan562949953421312".toList) : M Double)
  let t644 ← is_nan t643
  check t644
  let t645 ← ApiFloat.is_signaling t643
  check (decide (true = t645))
  let t646 ← ApiFloat.is_negative t643
  check (decide (true = t646))
  let t647 ← ApiFloat.to_bits t643
  check (decide (562949953421312 = (t647 &&& 2251799813685247)))
  let t648 ← (parse ("-snan0x2000000000000".toList) : M Double)
  let t649 ← is_nan t648
  check t649
  let t650 ← ApiFloat.is_signaling t648
  check (decide (true = t650))
  let t651 ← ApiFloat.is_negative t648
  check (decide (true = t651))
  let t652 ← ApiFloat.to_bits t648
  check (decide (562949953421312 = (t652 &&& 2251799813685247)))
  let t653 ← (parse ("-snan(562949953421312)".toList) : M Double)
  let t654 ← is_nan t653
  check t654
  let t655 ← ApiFloat.is_signaling t653
  check (decide (true = t655))
  let t656 ← ApiFloat.is_negative t653
  check (decide (true = t656))
  let t657 ← ApiFloat.to_bits t653
  check (decide (562949953421312 = (t657 &&& 2251799813685247)))
  let t658 ← (parse ("-snan(0x2000000000000)".toList) : M Double)
  let t659 ← is_nan t658
  check t659
  let t660 ← ApiFloat.is_signaling t658
  check (decide (true = t660))
  let t661 ← ApiFloat.is_negative t658
  check (decide (true = t661))
  let t662 ← ApiFloat.to_bits t658
  check (decide (562949953421312 = (t662 &&& 2251799813685247)))
  check (!decide ((t2 &&& 2251799813685247) = 0))
  let t663 ← (parse ("Snan0".toList) : M Double)
  let t664 ← is_nan t663
  check t664
  let t665 ← ApiFloat.is_signaling t663
  check (decide (true = t665))
  let t666 ← ApiFloat.is_negative t663
  check (decide (false = t666))
  let t667 ← ApiFloat.to_bits t663
  check (decide ((t2 &&& 2251799813685247) = (t667 &&& 2251799813685247)))
  let t668 ← (parse ("Snan0x0".toList) : M Double)
  let t669 ← is_nan t668
  check t669
  let t670 ← ApiFloat.is_signaling t668
  check (decide (true = t670))
  let t671 ← ApiFloat.is_negative t668
  check (decide (false = t671))
  let t672 ← ApiFloat.to_bits t668
  check (decide ((t2 &&& 2251799813685247) = (t672 &&& 2251799813685247)))
  let t673 ← (parse ("Snan(0)".toList) : M Double)
  let t674 ← is_nan t673
  check t674

example : passes t_from_string_specials_20 = true := by decide +kernel

/-- tests/ieee.rs:1046 `from_string_specials`. -/
def t_from_string_specials_21 : M Unit := do
  let t1 ← (ApiFloat.snan none : M Double)
  let t2 ← ApiFloat.to_bits t1
  let t673 ← (parse ("Snan(0)".toList) : M Double)
  let t675 ← ApiFloat.is_signaling t673
  check (decide (true = t675))
  let t676 ← ApiFloat.is_negative t673
  check (decide (false = t676))
  let t677 ← ApiFloat.to_bits t673
  check (decide ((t2 &&& 2251799813685247) = (t677 &&& 2251799813685247)))
  let t678 ← (parse ("Snan(0x0)".toList) : M Double)
  let t679 ← is_nan t678
  check t679
  let t680 ← ApiFloat.is_signaling t678
  check (decide (true = t680))
  let t681 ← ApiFloat.is_negative t678
  check (decide (false = t681))
  let t682 ← ApiFloat.to_bits t678
  check (decide ((t2 &&& 2251799813685247) = (t682 &&& 2251799813685247)))
  check (!decide ((t2 &&& 2251799813685247) = 0))
  let t683 ← (parse ("-Snan0".toList) : M Double)
  let t684 ← is_nan t683
  check t684
  let t685 ← ApiFloat.is_signaling t683
  check (decide (true = t685))
  let t686 ← ApiFloat.is_negative t683
  check (decide (true = t686))
  let t687 ← ApiFloat.to_bits t683
  check (decide ((t2 &&& 2251799813685247) = (t687 &&& 2251799813685247)))
  let t688 ← (parse ("-Snan0x0".toList) : M Double)
  let t689 ← is_nan t688
  check t689
  let t690 ← ApiFloat.is_signaling t688
  check (decide (true = t690))
  let t691 ← ApiFloat.is_negative t688
  check (decide (true = t691))
  let t692 ← ApiFloat.to_bits t688
  check (decide ((t2 &&& 2251799813685247) = (t692 &&& 2251799813685247)))
  let t693 ← (parse ("-Snan(0)".toList) : M Double)
  let t694 ← is_nan t693
  check t694
  let t695 ← ApiFloat.is_signaling t693
  check (decide (true = t695))
  let t696 ← ApiFloat.is_negative t693
  check (decide (true = t696))
  let t697 ← ApiFloat.to_bits t693
  check (decide ((t2 &&& 2251799813685247) = (t697 &&& 2251799813685247)))
  let t698 ← (parse ("-Snan(0x0)".toList) : M Double)
  let t699 ← is_nan t698
  check t699
  let t700 ← ApiFloat.is_signaling t698
  check (decide (true = t700))
  let t701 ← ApiFloat.is_negative t698
  check (decide (true = t701))
  let t702 ← ApiFloat.to_bits t698
  check (decide ((t2 &&& 2251799813685247) = (t702 &&& 2251799813685247)))
  let t703 ← (parse ("Snan1".toList) : M Double)
  let t704 ← is_nan t703
  check t704
  let t705 ← ApiFloat.is_signaling t703
  check (decide (true = t705))
  let t706 ← ApiFloat.is_negative t703
  check (decide (false = t706))
  let t707 ← ApiFloat.to_bits t703
  check (decide (1 = (t707 &&& 2251799813685247)))

example : passes t_from_string_specials_21 = true := by decide +kernel

/-- tests/ieee.rs:1046 `from_string_specials`. -/
def t_from_string_specials_22 : M Unit := do
  let t708 ← (parse ("Snan0x1".toList) : M Double)
  let t709 ← is_nan t708
  check t709
  let t710 ← ApiFloat.is_signaling t708
  check (decide (true = t710))
  let t711 ← ApiFloat.is_negative t708
  check (decide (false = t711))
  let t712 ← ApiFloat.to_bits t708
  check (decide (1 = (t712 &&& 2251799813685247)))
  let t713 ← (parse ("Snan(1)".toList) : M Double)
  let t714 ← is_nan t713
  check t714
  let t715 ← ApiFloat.is_signaling t713
  check (decide (true = t715))
  let t716 ← ApiFloat.is_negative t713
  check (decide (false = t716))
  let t717 ← ApiFloat.to_bits t713
  check (decide (1 = (t717 &&& 2251799813685247)))
  let t718 ← (parse ("Snan(0x1)".toList) : M Double)
  let t719 ← is_nan t718
  check t719
  let t720 ← ApiFloat.is_signaling t718
  check (decide (true = t720))
  let t721 ← ApiFloat.is_negative t718
  check (decide (false = t721))
  let t722 ← ApiFloat.to_bits t718
  check (decide (1 = (t722 &&& 2251799813685247)))
  let t723 ← (parse ("-Snan1".toList) : M Double)
  let t724 ← is_nan t723
  check t724
  let t725 ← ApiFloat.is_signaling t723
  check (decide (true = t725))
  let t726 ← ApiFloat.is_negative t723
  check (decide (true = t726))
  let t727 ← ApiFloat.to_bits t723
  check (decide (1 = (t727 &&& 2251799813685247)))
  let t728 ← (parse ("-Snan0x1".toList) : M Double)
  let t729 ← is_nan t728
  check t729
  let t730 ← ApiFloat.is_signaling t728
  check (decide (true = t730))
  let t731 ← ApiFloat.is_negative t728
  check (decide (true = t731))
  let t732 ← ApiFloat.to_bits t728
  check (decide (1 = (t732 &&& 2251799813685247)))
  let t733 ← (parse ("-Snan(1)".toList) : M Double)
  let t734 ← is_nan t733
  check t734
  let t735 ← ApiFloat.is_signaling t733
  check (decide (true = t735))
  let t736 ← ApiFloat.is_negative t733
  check (decide (true = t736))
  let t737 ← ApiFloat.to_bits t733
  check (decide (1 = (t737 &&& 2251799813685247)))
  let t738 ← (parse ("-Snan(0x1)".toList) : M Double)
  let t739 ← is_nan t738
  check t739
  let t740 ← ApiFloat.is_signaling t738
  check (decide (true = t740))
  let t741 ← ApiFloat.is_negative t738
  check (decide (true = t741))

example : passes t_from_string_specials_22 = true := by decide +kernel

/-- tests/ieee.rs:1046 `from_string_specials`. -/
def t_from_string_specials_23 : M Unit := do
  let t738 ← (parse ("-Snan(0x1)".toList) : M Double)
  let t742 ← ApiFloat.to_bits t738
  check (decide (1 = (t742 &&& 2251799813685247)))
  let t743 ← (parse ("Snan123".toList) : M Double)
  let t744 ← is_nan t743
  check t744
  let t745 ← ApiFloat.is_signaling t743
  check (decide (true = t745))
  let t746 ← ApiFloat.is_negative t743
  check (decide (false = t746))
  let t747 ← ApiFloat.to_bits t743
  check (decide (123 = (t747 &&& 2251799813685247)))
  let t748 ← (parse ("Snan0x7b".toList) : M Double)
  let t749 ← is_nan t748
  check t749
  let t750 ← ApiFloat.is_signaling t748
  check (decide (true = t750))
  let t751 ← ApiFloat.is_negative t748
  check (decide (false = t751))
  let t752 ← ApiFloat.to_bits t748
  check (decide (123 = (t752 &&& 2251799813685247)))
  let t753 ← (parse ("Snan(123)".toList) : M Double)
  let t754 ← is_nan t753
  check t754
  let t755 ← ApiFloat.is_signaling t753
  check (decide (true = t755))
  let t756 ← ApiFloat.is_negative t753
  check (decide (false = t756))
  let t757 ← ApiFloat.to_bits t753
  check (decide (123 = (t757 &&& 2251799813685247)))
  let t758 ← (parse ("Snan(0x7b)".toList) : M Double)
  let t759 ← is_nan t758
  check t759
  let t760 ← ApiFloat.is_signaling t758
  check (decide (true = t760))
  let t761 ← ApiFloat.is_negative t758
  check (decide (false = t761))
  let t762 ← ApiFloat.to_bits t758
  check (decide (123 = (t762 &&& 2251799813685247)))
  let t763 ← (parse ("-Snan123".toList) : M Double)
  let t764 ← is_nan t763
  check t764
  let t765 ← ApiFloat.is_signaling t763
  check (decide (true = t765))
  let t766 ← ApiFloat.is_negative t763
  check (decide (true = t766))
  let t767 ← ApiFloat.to_bits t763
  check (decide (123 = (t767 &&& 2251799813685247)))
  let t768 ← (parse ("-Snan0x7b".toList) : M Double)
  let t769 ← is_nan t768
  check t769
  let t770 ← ApiFloat.is_signaling t768
  check (decide (true = t770))
  let t771 ← ApiFloat.is_negative t768
  check (decide (true = t771))
  let t772 ← ApiFloat.to_bits t768
  check (decide (123 = (t772 &&& 2251799813685247)))
  let t773 ← (parse ("-Snan(123)".toList) : M Double)
  let t774 ← is_nan t773
  check t774
  let t775 ← ApiFloat.is_signaling t773
  check (decide (true = t775))

example : passes t_from_string_specials_23 = true := by decide +kernel

/-- tests/ieee.rs:1046 `from_string_specials`. -/
def t_from_string_specials_24 : M Unit := do
  let t773 ← (parse ("-Snan(123)".toList) : M Double)
  let t776 ← ApiFloat.is_negative t773
  check (decide (true = t776))
  let t777 ← ApiFloat.to_bits t773
  check (decide (123 = (t777 &&& 2251799813685247)))
  let t778 ← (parse ("-Snan(0x7b)".toList) : M Double)
  let t779 ← is_nan t778
  check t779
  let t780 ← ApiFloat.is_signaling t778
  check (decide (true = t780))
  let t781 ← ApiFloat.is_negative t778
  check (decide (true = t781))
  let t782 ← ApiFloat.to_bits t778
  check (decide (123 = (t782 &&& 2251799813685247)))
  let t783 ← (parse ("Snan3735928559".toList) : M Double)
  let t784 ← is_nan t783
  check t784
  let t785 ← ApiFloat.is_signaling t783
  check (decide (true = t785))
  let t786 ← ApiFloat.is_negative t783
  check (decide (false = t786))
  let t787 ← ApiFloat.to_bits t783
  check (decide (3735928559 = (t787 &&& 2251799813685247)))
  let t788 ← (parse ("Snan0xdeadbeef".toList) : M Double)
  let t789 ← is_nan t788
  check t789
  let t790 ← ApiFloat.is_signaling t788
  check (decide (true = t790))
  let t791 ← ApiFloat.is_negative t788
  check (decide (false = t791))
  let t792 ← ApiFloat.to_bits t788
  check (decide (3735928559 = (t792 &&& 2251799813685247)))
  let t793 ← (parse ("Snan(3735928559)".toList) : M Double)
  let t794 ← is_nan t793
  check t794
  let t795 ← ApiFloat.is_signaling t793
  check (decide (true = t795))
  let t796 ← ApiFloat.is_negative t793
  check (decide (false = t796))
  let t797 ← ApiFloat.to_bits t793
  check (decide (3735928559 = (t797 &&& 2251799813685247)))
  let t798 ← (parse ("Snan(0xdeadbeef)".toList) : M Double)
  let t799 ← is_nan t798
  check t799
  let t800 ← ApiFloat.is_signaling t798
  check (decide (true = t800))
  let t801 ← ApiFloat.is_negative t798
  check (decide (false = t801))
  let t802 ← ApiFloat.to_bits t798
  check (decide (3735928559 = (t802 &&& 2251799813685247)))
  let t803 ← (parse ("-Snan3735928559".toList) : M Double)
  let t804 ← is_nan t803
  check t804
  let t805 ← ApiFloat.is_signaling t803
  check (decide (true = t805))
  let t806 ← ApiFloat.is_negative t803
  check (decide (true = t806))
  let t807 ← ApiFloat.to_bits t803
  check (decide (3735928559 = (t807 &&& 2251799813685247)))
  let t808 ← (parse ("-Snan0xdeadbeef".toList) : M Double)
  let t809 ← is_nan t808
  check t809

example : passes t_from_string_specials_24 = true := by decide +kernel

/-- tests/ieee.rs:1046 `from_string_specials`. -/
def t_from_string_specials_25 : M Unit := do
  let t808 ← (parse ("-Snan0xdeadbeef".toList) : M Double)
  let t810 ← ApiFloat.is_signaling t808
  check (decide (true = t810))
  let t811 ← ApiFloat.is_negative t808
  check (decide (true = t811))
  let t812 ← ApiFloat.to_bits t808
  check (decide (3735928559 = (t812 &&& 2251799813685247)))
  let t813 ← (parse ("-Snan(3735928559)".toList) : M Double)
  let t814 ← is_nan t813
  check t814
  let t815 ← ApiFloat.is_signaling t813
  check (decide (true = t815))
  let t816 ← ApiFloat.is_negative t813
  check (decide (true = t816))
  let t817 ← ApiFloat.to_bits t813
  check (decide (3735928559 = (t817 &&& 2251799813685247)))
  let t818 ← (parse ("-Snan(0xdeadbeef)".toList) : M Double)
  let t819 ← is_nan t818
  check t819
  let t820 ← ApiFloat.is_signaling t818
  check (decide (true = t820))
  let t821 ← ApiFloat.is_negative t818
  check (decide (true = t821))
  let t822 ← ApiFloat.to_bits t818
  check (decide (3735928559 = (t822 &&& 2251799813685247)))
  let t823 ← (parse ("Snan340282366920938463463374607431768211454".toList) : M Double)
  let t824 ← is_nan t823
  check t824
  let t825 ← ApiFloat.is_signaling t823
  check (decide (true = t825))
  let t826 ← ApiFloat.is_negative t823
  check (decide (false = t826))
  let t827 ← ApiFloat.to_bits t823
  check (decide (2251799813685246 = (t827 &&& 2251799813685247)))
  let t828 ← (parse ("Snan0xfffffffffffffffffffffffffffffffe".toList) : M Double)
  let t829 ← is_nan t828
  check t829
  let t830 ← ApiFloat.is_signaling t828
  check (decide (true = t830))
  let t831 ← ApiFloat.is_negative t828
  check (decide (false = t831))
  let t832 ← ApiFloat.to_bits t828
  check (decide (2251799813685246 = (t832 &&& 2251799813685247)))
  let t833 ← (parse ("Snan(340282366920938463463374607431768211454)".toList) : M Double)
  let t834 ← is_nan t833
  check t834
  let t835 ← ApiFloat.is_signaling t833
  check (decide (true = t835))
  let t836 ← ApiFloat.is_negative t833
  check (decide (false = t836))
  let t837 ← ApiFloat.to_bits t833
  check (decide (2251799813685246 = (t837 &&& 2251799813685247)))
  let t838 ← (parse ("Snan(0xfffffffffffffffffffffffffffffffe)".toList) : M Double)
  let t839 ← is_nan t838
  check t839
  let t840 ← ApiFloat.is_signaling t838
  check (decide (true = t840))
  let t841 ← ApiFloat.is_negative t838
  check (decide (false = t841))
  let t842 ← ApiFloat.to_bits t838
  check (decide (2251799813685246 = (t842 &&& 2251799813685247)))

example : passes t_from_string_specials_25 = true := by decide +kernel

/-- tests/ieee.rs:1046 `from_string_specials`. -/
def t_from_string_specials_26 : M Unit := do
  let t1 ← (ApiFloat.snan none : M Double)
  let t2 ← ApiFloat.to_bits t1
  let t843 ← (parse ("-Snan340282366920938463463374607431768211454".toList) : M Double)
  let t844 ← is_nan t843
  check t844
  let t845 ← ApiFloat.is_signaling t843
  check (decide (true = t845))
  let t846 ← ApiFloat.is_negative t843
  check (decide (true = t846))
  let t847 ← ApiFloat.to_bits t843
  check (decide (2251799813685246 = (t847 &&& 2251799813685247)))
  let t848 ← (parse ("-Snan0xfffffffffffffffffffffffffffffffe".toList) : M Double)
  let t849 ← is_nan t848
  check t849
  let t850 ← ApiFloat.is_signaling t848
  check (decide (true = t850))
  let t851 ← ApiFloat.is_negative t848
  check (decide (true = t851))
  let t852 ← ApiFloat.to_bits t848
  check (decide (2251799813685246 = (t852 &&& 2251799813685247)))
  let t853 ← (parse ("-Snan(340282366920938463463374607431768211454)".toList) : M Double)
  let t854 ← is_nan t853
  check t854
  let t855 ← ApiFloat.is_signaling t853
  check (decide (true = t855))
  let t856 ← ApiFloat.is_negative t853
  check (decide (true = t856))
  let t857 ← ApiFloat.to_bits t853
  check (decide (2251799813685246 = (t857 &&& 2251799813685247)))
  let t858 ← (parse ("-Snan(0xfffffffffffffffffffffffffffffffe)".toList) : M Double)
  let t859 ← is_nan t858
  check t859
  let t860 ← ApiFloat.is_signaling t858
  check (decide (true = t860))
  let t861 ← ApiFloat.is_negative t858
  check (decide (true = t861))
  let t862 ← ApiFloat.to_bits t858
  check (decide (2251799813685246 = (t862 &&& 2251799813685247)))
  check (!decide ((t2 &&& 2251799813685247) = 0))
  let t863 ← (parse ("Snan2251799813685248".toList) : M Double)
  let t864 ← is_nan t863
  check t864
  let t865 ← ApiFloat.is_signaling t863
  check (decide (true = t865))
  let t866 ← ApiFloat.is_negative t863
  check (decide (false = t866))
  let t867 ← ApiFloat.to_bits t863
  check (decide ((t2 &&& 2251799813685247) = (t867 &&& 2251799813685247)))
  let t868 ← (parse ("Snan0x8000000000000".toList) : M Double)
  let t869 ← is_nan t868
  check t869
  let t870 ← ApiFloat.is_signaling t868
  check (decide (true = t870))
  let t871 ← ApiFloat.is_negative t868
  check (decide (false = t871))
  let t872 ← ApiFloat.to_bits t868
  check (decide ((t2 &&& 2251799813685247) = (t872 &&& 2251799813685247)))
  let t873 ← (parse ("Snan(2251799813685248)".toList) : M Double)
  let t874 ← is_nan t873
  check t874
  let t875 ← ApiFloat.is_signaling t873
  check (decide (true = t875))

example : passes t_from_string_specials_26 = true := by decide +kernel

/-- tests/ieee.rs:1046 `from_string_specials`. -/
def t_from_string_specials_27 : M Unit := do
  let t1 ← (ApiFloat.snan none : M Double)
  let t2 ← ApiFloat.to_bits t1
  let t873 ← (parse ("Snan(2251799813685248)".toList) : M Double)
  let t876 ← ApiFloat.is_negative t873
  check (decide (false = t876))
  let t877 ← ApiFloat.to_bits t873
  check (decide ((t2 &&& 2251799813685247) = (t877 &&& 2251799813685247)))
  let t878 ← (parse ("Snan(0x8000000000000)".toList) : M Double)
  let t879 ← is_nan t878
  check t879
  let t880 ← ApiFloat.is_signaling t878
  check (decide (true = t880))
  let t881 ← ApiFloat.is_negative t878
  check (decide (false = t881))
  let t882 ← ApiFloat.to_bits t878
  check (decide ((t2 &&& 2251799813685247) = (t882 &&& 2251799813685247)))
  check (!decide ((t2 &&& 2251799813685247) = 0))
  let t883 ← (parse ("-Snan2251799813685248".toList) : M Double)
  let t884 ← is_nan t883
  check t884
  let t885 ← ApiFloat.is_signaling t883
  check (decide (true = t885))
  let t886 ← ApiFloat.is_negative t883
  check (decide (true = t886))
  let t887 ← ApiFloat.to_bits t883
  check (decide ((t2 &&& 2251799813685247) = (t887 &&& 2251799813685247)))
  let t888 ← (parse ("-Snan0x8000000000000".toList) : M Double)
  let t889 ← is_nan t888
  check t889
  let t890 ← ApiFloat.is_signaling t888
  check (decide (true = t890))
  let t891 ← ApiFloat.is_negative t888
  check (decide (true = t891))
  let t892 ← ApiFloat.to_bits t888
  check (decide ((t2 &&& 2251799813685247) = (t892 &&& 2251799813685247)))
  let t893 ← (parse ("-Snan(2251799813685248)".toList) : M Double)
  let t894 ← is_nan t893
  check t894
  let t895 ← ApiFloat.is_signaling t893
  check (decide (true = t895))
  let t896 ← ApiFloat.is_negative t893
  check (decide (true = t896))
  let t897 ← ApiFloat.to_bits t893
  check (decide ((t2 &&& 2251799813685247) = (t897 &&& 2251799813685247)))
  let t898 ← (parse ("-Snan(0x8000000000000)".toList) : M Double)
  let t899 ← is_nan t898
  check t899
  let t900 ← ApiFloat.is_signaling t898
  check (decide (true = t900))
  let t901 ← ApiFloat.is_negative t898
  check (decide (true = t901))
  let t902 ← ApiFloat.to_bits t898
  check (decide ((t2 &&& 2251799813685247) = (t902 &&& 2251799813685247)))
  let t903 ← (parse ("Snan1125899906842624".toList) : M Double)
  let t904 ← is_nan t903
  check t904
  let t905 ← ApiFloat.is_signaling t903
  check (decide (true = t905))
  let t906 ← ApiFloat.is_negative t903
  check (decide (false = t906))
  let t907 ← ApiFloat.to_bits t903
  check (decide (1125899906842624 = (t907 &&& 2251799813685247)))
  let t908 ← (parse ("Snan0x4000000000000".toList) : M Double)
  let t909 ← is_nan t908
  check t909

example : passes t_from_string_specials_27 = true := by decide +kernel

/-- tests/ieee.rs:1046 `from_string_specials`. -/
def t_from_string_specials_28 : M Unit := do
  let t908 ← (parse ("Snan0x4000000000000".toList) : M Double)
  let t910 ← ApiFloat.is_signaling t908
  check (decide (true = t910))
  let t911 ← ApiFloat.is_negative t908
  check (decide (false = t911))
  let t912 ← ApiFloat.to_bits t908
  check (decide (1125899906842624 = (t912 &&& 2251799813685247)))
  let t913 ← (parse ("Snan(1125899906842624)".toList) : M Double)
  let t914 ← is_nan t913
  check t914
  let t915 ← ApiFloat.is_signaling t913
  check (decide (true = t915))
  let t916 ← ApiFloat.is_negative t913
  check (decide (false = t916))
  let t917 ← ApiFloat.to_bits t913
  check (decide (1125899906842624 = (t917 &&& 2251799813685247)))
  let t918 ← (parse ("Snan(0x4000000000000)".toList) : M Double)
  let t919 ← is_nan t918
  check t919
  let t920 ← ApiFloat.is_signaling t918
  check (decide (true = t920))
  let t921 ← ApiFloat.is_negative t918
  check (decide (false = t921))
  let t922 ← ApiFloat.to_bits t918
  check (decide (1125899906842624 = (t922 &&& 2251799813685247)))
  let t923 ← (parse ("-Snan1125899906842624".toList) : M Double)
  let t924 ← is_nan t923
  check t924
  let t925 ← ApiFloat.is_signaling t923
  check (decide (true = t925))
  let t926 ← ApiFloat.is_negative t923
  check (decide (true = t926))
  let t927 ← ApiFloat.to_bits t923
  check (decide (1125899906842624 = (t927 &&& 2251799813685247)))
  let t928 ← (parse ("-Snan0x4000000000000".toList) : M Double)
  let t929 ← is_nan t928
  check t929
  let t930 ← ApiFloat.is_signaling t928
  check (decide (true = t930))
  let t931 ← ApiFloat.is_negative t928
  check (decide (true = t931))
  let t932 ← ApiFloat.to_bits t928
  check (decide (1125899906842624 = (t932 &&& 2251799813685247)))
  let t933 ← (parse ("-Snan(1125899906842624)".toList) : M Double)
  let t934 ← is_nan t933
  check t934
  let t935 ← ApiFloat.is_signaling t933
  check (decide (true = t935))
  let t936 ← ApiFloat.is_negative t933
  check (decide (true = t936))
  let t937 ← ApiFloat.to_bits t933
  check (decide (1125899906842624 = (t937 &&& 2251799813685247)))
  let t938 ← (parse ("-Snan(0x4000000000000)".toList) : M Double)
  let t939 ← is_nan t938
  check t939
  let t940 ← ApiFloat.is_signaling t938
  check (decide (true = t940))
  let t941 ← ApiFloat.is_negative t938
  check (decide (true = t941))
  let t942 ← ApiFloat.to_bits t938
  check (decide (1125899906842624 = (t942 &&& 2251799813685247)))

example : passes t_from_string_specials_28 = true := by decide +kernel

/-- tests/ieee.rs:1046 `from_string_specials`. -/
def t_from_string_specials_29 : M Unit := do
  let t943 ← (parse ("Snan562949953421312".toList) : M Double)
  let t944 ← is_nan t943
  check t944
  let t945 ← ApiFloat.is_signaling t943
  check (decide (true = t945))
  let t946 ← ApiFloat.is_negative t943
  check (decide (false = t946))
  let t947 ← ApiFloat.to_bits t943
  check (decide (562949953421312 = (t947 &&& 2251799813685247)))
  let t948 ← (parse ("Snan0x2000000000000".toList) : M Double)
  let t949 ← is_nan t948
  check t949
  let t950 ← ApiFloat.is_signaling t948
  check (decide (true = t950))
  let t951 ← ApiFloat.is_negative t948
  check (decide (false = t951))
  let t952 ← ApiFloat.to_bits t948
  check (decide (562949953421312 = (t952 &&& 2251799813685247)))
  let t953 ← (parse ("Snan(562949953421312)".toList) : M Double)
  let t954 ← is_nan t953
  check t954
  let t955 ← ApiFloat.is_signaling t953
  check (decide (true = t955))
  let t956 ← ApiFloat.is_negative t953
  check (decide (false = t956))
  let t957 ← ApiFloat.to_bits t953
  check (decide (562949953421312 = (t957 &&& 2251799813685247)))
  let t958 ← (parse ("Snan(0x2000000000000)".toList) : M Double)
  let t959 ← is_nan t958
  check t959
  let t960 ← ApiFloat.is_signaling t958
  check (decide (true = t960))
  let t961 ← ApiFloat.is_negative t958
  check (decide (false = t961))
  let t962 ← ApiFloat.to_bits t958
  check (decide (562949953421312 = (t962 &&& 2251799813685247)))
  let t963 ← (parse ("-Snan562949953421312".toList) : M Double)
  let t964 ← is_nan t963
  check t964
  let t965 ← ApiFloat.is_signaling t963
  check (decide (true = t965))
  let t966 ← ApiFloat.is_negative t963
  check (decide (true = t966))
  let t967 ← ApiFloat.to_bits t963
  check (decide (562949953421312 = (t967 &&& 2251799813685247)))
  let t968 ← (parse ("-Snan0x2000000000000".toList) : M Double)
  let t969 ← is_nan t968
  check t969
  let t970 ← ApiFloat.is_signaling t968
  check (decide (true = t970))
  let t971 ← ApiFloat.is_negative t968
  check (decide (true = t971))
  let t972 ← ApiFloat.to_bits t968
  check (decide (562949953421312 = (t972 &&& 2251799813685247)))
  let t973 ← (parse ("-Snan(562949953421312)".toList) : M Double)
  let t974 ← is_nan t973
  check t974
  let t975 ← ApiFloat.is_signaling t973
  check (decide (true = t975))
  let t976 ← ApiFloat.is_negative t973
  check (decide (true = t976))

example : passes t_from_string_specials_29 = true := by decide +kernel

/-- tests/ieee.rs:1046 `from_string_specials`. -/
def t_from_string_specials_30 : M Unit := do
  let t973 ← (parse ("-Snan(562949953421312)".toList) : M Double)
  let t977 ← ApiFloat.to_bits t973
  check (decide (562949953421312 = (t977 &&& 2251799813685247)))
  let t978 ← (parse ("-Snan(0x2000000000000)".toList) : M Double)
  let t979 ← is_nan t978
  check t979
  let t980 ← ApiFloat.is_signaling t978
  check (decide (true = t980))
  let t981 ← ApiFloat.is_negative t978
  check (decide (true = t981))
  let t982 ← ApiFloat.to_bits t978
  check (decide (562949953421312 = (t982 &&& 2251799813685247)))
  let t983 ← (parse ("NaN".toList) : M Double)
  let t984 ← is_nan t983
  check t984
  let t985 ← ApiFloat.is_signaling t983
  check (decide (false = t985))
  let t986 ← ApiFloat.is_negative t983
  check (decide (false = t986))
  let t987 ← ApiFloat.to_bits t983
  check (decide (0 = (t987 &&& 2251799813685247)))
  let t988 ← (parse ("NaN0".toList) : M Double)
  let t989 ← is_nan t988
  check t989
  let t990 ← ApiFloat.is_signaling t988
  check (decide (false = t990))
  let t991 ← ApiFloat.is_negative t988
  check (decide (false = t991))
  let t992 ← ApiFloat.to_bits t988
  check (decide (0 = (t992 &&& 2251799813685247)))
  let t993 ← (parse ("NaN0x0".toList) : M Double)
  let t994 ← is_nan t993
  check t994
  let t995 ← ApiFloat.is_signaling t993
  check (decide (false = t995))
  let t996 ← ApiFloat.is_negative t993
  check (decide (false = t996))
  let t997 ← ApiFloat.to_bits t993
  check (decide (0 = (t997 &&& 2251799813685247)))
  let t998 ← (parse ("NaN(0)".toList) : M Double)
  let t999 ← is_nan t998
  check t999
  let t1000 ← ApiFloat.is_signaling t998
  check (decide (false = t1000))
  let t1001 ← ApiFloat.is_negative t998
  check (decide (false = t1001))
  let t1002 ← ApiFloat.to_bits t998
  check (decide (0 = (t1002 &&& 2251799813685247)))
  let t1003 ← (parse ("NaN(0x0)".toList) : M Double)
  let t1004 ← is_nan t1003
  check t1004
  let t1005 ← ApiFloat.is_signaling t1003
  check (decide (false = t1005))
  let t1006 ← ApiFloat.is_negative t1003
  check (decide (false = t1006))
  let t1007 ← ApiFloat.to_bits t1003
  check (decide (0 = (t1007 &&& 2251799813685247)))
  let t1008 ← (parse ("-NaN".toList) : M Double)
  let t1009 ← is_nan t1008
  check t1009
  let t1010 ← ApiFloat.is_signaling t1008
  check (decide (false = t1010))

example : passes t_from_string_specials_30 = true := by decide +kernel

/-- tests/ieee.rs:1046 `from_string_specials`. -/
def t_from_string_specials_31 : M Unit := do
  let t1008 ← (parse ("-NaN".toList) : M Double)
  let t1011 ← ApiFloat.is_negative t1008
  check (decide (true = t1011))
  let t1012 ← ApiFloat.to_bits t1008
  check (decide (0 = (t1012 &&& 2251799813685247)))
  let t1013 ← (parse ("-NaN0".toList) : M Double)
  let t1014 ← is_nan t1013
  check t1014
  let t1015 ← ApiFloat.is_signaling t1013
  check (decide (false = t1015))
  let t1016 ← ApiFloat.is_negative t1013
  check (decide (true = t1016))
  let t1017 ← ApiFloat.to_bits t1013
  check (decide (0 = (t1017 &&& 2251799813685247)))
  let t1018 ← (parse ("-NaN0x0".toList) : M Double)
  let t1019 ← is_nan t1018
  check t1019
  let t1020 ← ApiFloat.is_signaling t1018
  check (decide (false = t1020))
  let t1021 ← ApiFloat.is_negative t1018
  check (decide (true = t1021))
  let t1022 ← ApiFloat.to_bits t1018
  check (decide (0 = (t1022 &&& 2251799813685247)))
  let t1023 ← (parse ("-NaN(0)".toList) : M Double)
  let t1024 ← is_nan t1023
  check t1024
  let t1025 ← ApiFloat.is_signaling t1023
  check (decide (false = t1025))
  let t1026 ← ApiFloat.is_negative t1023
  check (decide (true = t1026))
  let t1027 ← ApiFloat.to_bits t1023
  check (decide (0 = (t1027 &&& 2251799813685247)))
  let t1028 ← (parse ("-NaN(0x0)".toList) : M Double)
  let t1029 ← is_nan t1028
  check t1029
  let t1030 ← ApiFloat.is_signaling t1028
  check (decide (false = t1030))
  let t1031 ← ApiFloat.is_negative t1028
  check (decide (true = t1031))
  let t1032 ← ApiFloat.to_bits t1028
  check (decide (0 = (t1032 &&& 2251799813685247)))
  let t1033 ← (parse ("NaN1".toList) : M Double)
  let t1034 ← is_nan t1033
  check t1034
  let t1035 ← ApiFloat.is_signaling t1033
  check (decide (false = t1035))
  let t1036 ← ApiFloat.is_negative t1033
  check (decide (false = t1036))
  let t1037 ← ApiFloat.to_bits t1033
  check (decide (1 = (t1037 &&& 2251799813685247)))
  let t1038 ← (parse ("NaN0x1".toList) : M Double)
  let t1039 ← is_nan t1038
  check t1039
  let t1040 ← ApiFloat.is_signaling t1038
  check (decide (false = t1040))
  let t1041 ← ApiFloat.is_negative t1038
  check (decide (false = t1041))
  let t1042 ← ApiFloat.to_bits t1038
  check (decide (1 = (t1042 &&& 2251799813685247)))
  let t1043 ← (parse ("NaN(1)".toList) : M Double)
  let t1044 ← is_nan t1043
  check t1044

example : passes t_from_string_specials_31 = true := by decide +kernel

/-- tests/ieee.rs:1046 `from_string_specials`. -/
def t_from_string_specials_32 : M Unit := do
  let t1043 ← (parse ("NaN(1)".toList) : M Double)
  let t1045 ← ApiFloat.is_signaling t1043
  check (decide (false = t1045))
  let t1046 ← ApiFloat.is_negative t1043
  check (decide (false = t1046))
  let t1047 ← ApiFloat.to_bits t1043
  check (decide (1 = (t1047 &&& 2251799813685247)))
  let t1048 ← (parse ("NaN(0x1)".toList) : M Double)
  let t1049 ← is_nan t1048
  check t1049
  let t1050 ← ApiFloat.is_signaling t1048
  check (decide (false = t1050))
  let t1051 ← ApiFloat.is_negative t1048
  check (decide (false = t1051))
  let t1052 ← ApiFloat.to_bits t1048
  check (decide (1 = (t1052 &&& 2251799813685247)))
  let t1053 ← (parse ("-NaN1".toList) : M Double)
  let t1054 ← is_nan t1053
  check t1054
  let t1055 ← ApiFloat.is_signaling t1053
  check (decide (false = t1055))
  let t1056 ← ApiFloat.is_negative t1053
  check (decide (true = t1056))
  let t1057 ← ApiFloat.to_bits t1053
  check (decide (1 = (t1057 &&& 2251799813685247)))
  let t1058 ← (parse ("-NaN0x1".toList) : M Double)
  let t1059 ← is_nan t1058
  check t1059
  let t1060 ← ApiFloat.is_signaling t1058
  check (decide (false = t1060))
  let t1061 ← ApiFloat.is_negative t1058
  check (decide (true = t1061))
  let t1062 ← ApiFloat.to_bits t1058
  check (decide (1 = (t1062 &&& 2251799813685247)))
  let t1063 ← (parse ("-NaN(1)".toList) : M Double)
  let t1064 ← is_nan t1063
  check t1064
  let t1065 ← ApiFloat.is_signaling t1063
  check (decide (false = t1065))
  let t1066 ← ApiFloat.is_negative t1063
  check (decide (true = t1066))
  let t1067 ← ApiFloat.to_bits t1063
  check (decide (1 = (t1067 &&& 2251799813685247)))
  let t1068 ← (parse ("-NaN(0x1)".toList) : M Double)
  let t1069 ← is_nan t1068
  check t1069
  let t1070 ← ApiFloat.is_signaling t1068
  check (decide (false = t1070))
  let t1071 ← ApiFloat.is_negative t1068
  check (decide (true = t1071))
  let t1072 ← ApiFloat.to_bits t1068
  check (decide (1 = (t1072 &&& 2251799813685247)))
  let t1073 ← (parse ("NaN123".toList) : M Double)
  let t1074 ← is_nan t1073
  check t1074
  let t1075 ← ApiFloat.is_signaling t1073
  check (decide (false = t1075))
  let t1076 ← ApiFloat.is_negative t1073
  check (decide (false = t1076))
  let t1077 ← ApiFloat.to_bits t1073
  check (decide (123 = (t1077 &&& 2251799813685247)))

example : passes t_from_string_specials_32 = true := by decide +kernel

/-- tests/ieee.rs:1046 `from_string_specials`. -/
def t_from_string_specials_33 : M Unit := do
  let t1078 ← (parse ("NaN0x7b".toList) : M Double)
  let t1079 ← is_nan t1078
  check t1079
  let t1080 ← ApiFloat.is_signaling t1078
  check (decide (false = t1080))
  let t1081 ← ApiFloat.is_negative t1078
  check (decide (false = t1081))
  let t1082 ← ApiFloat.to_bits t1078
  check (decide (123 = (t1082 &&& 2251799813685247)))
  let t1083 ← (parse ("NaN(123)".toList) : M Double)
  let t1084 ← is_nan t1083
  check t1084
  let t1085 ← ApiFloat.is_signaling t1083
  check (decide (false = t1085))
  let t1086 ← ApiFloat.is_negative t1083
  check (decide (false = t1086))
  let t1087 ← ApiFloat.to_bits t1083
  check (decide (123 = (t1087 &&& 2251799813685247)))
  let t1088 ← (parse ("NaN(0x7b)".toList) : M Double)
  let t1089 ← is_nan t1088
  check t1089
  let t1090 ← ApiFloat.is_signaling t1088
  check (decide (false = t1090))
  let t1091 ← ApiFloat.is_negative t1088
  check (decide (false = t1091))
  let t1092 ← ApiFloat.to_bits t1088
  check (decide (123 = (t1092 &&& 2251799813685247)))
  let t1093 ← (parse ("-NaN123".toList) : M Double)
  let t1094 ← is_nan t1093
  check t1094
  let t1095 ← ApiFloat.is_signaling t1093
  check (decide (false = t1095))
  let t1096 ← ApiFloat.is_negative t1093
  check (decide (true = t1096))
  let t1097 ← ApiFloat.to_bits t1093
  check (decide (123 = (t1097 &&& 2251799813685247)))
  let t1098 ← (parse ("-NaN0x7b".toList) : M Double)
  let t1099 ← is_nan t1098
  check t1099
  let t1100 ← ApiFloat.is_signaling t1098
  check (decide (false = t1100))
  let t1101 ← ApiFloat.is_negative t1098
  check (decide (true = t1101))
  let t1102 ← ApiFloat.to_bits t1098
  check (decide (123 = (t1102 &&& 2251799813685247)))
  let t1103 ← (parse ("-NaN(123)".toList) : M Double)
  let t1104 ← is_nan t1103
  check t1104
  let t1105 ← ApiFloat.is_signaling t1103
  check (decide (false = t1105))
  let t1106 ← ApiFloat.is_negative t1103
  check (decide (true = t1106))
  let t1107 ← ApiFloat.to_bits t1103
  check (decide (123 = (t1107 &&& 2251799813685247)))
  let t1108 ← (parse ("-NaN(0x7b)".toList) : M Double)
  let t1109 ← is_nan t1108
  check t1109
  let t1110 ← ApiFloat.is_signaling t1108
  check (decide (false = t1110))
  let t1111 ← ApiFloat.is_negative t1108
  check (decide (true = t1111))

example : passes t_from_string_specials_33 = true := by decide +kernel

/-- tests/ieee.rs:1046 `from_string_specials`. -/
def t_from_string_specials_34 : M Unit := do
  let t1108 ← (parse ("-NaN(0x7b)".toList) : M Double)
  let t1112 ← ApiFloat.to_bits t1108
  check (decide (123 = (t1112 &&& 2251799813685247)))
  let t1113 ← (parse ("NaN3735928559".toList) : M Double)
  let t1114 ← is_nan t1113
  check t1114
  let t1115 ← ApiFloat.is_signaling t1113
  check (decide (false = t1115))
  let t1116 ← ApiFloat.is_negative t1113
  check (decide (false = t1116))
  let t1117 ← ApiFloat.to_bits t1113
  check (decide (3735928559 = (t1117 &&& 2251799813685247)))
  let t1118 ← (parse ("NaN0xdeadbeef".toList) : M Double)
  let t1119 ← is_nan t1118
  check t1119
  let t1120 ← ApiFloat.is_signaling t1118
  check (decide (false = t1120))
  let t1121 ← ApiFloat.is_negative t1118
  check (decide (false = t1121))
  let t1122 ← ApiFloat.to_bits t1118
  check (decide (3735928559 = (t1122 &&& 2251799813685247)))
  let t1123 ← (parse ("NaN(3735928559)".toList) : M Double)
  let t1124 ← is_nan t1123
  check t1124
  let t1125 ← ApiFloat.is_signaling t1123
  check (decide (false = t1125))
  let t1126 ← ApiFloat.is_negative t1123
  check (decide (false = t1126))
  let t1127 ← ApiFloat.to_bits t1123
  check (decide (3735928559 = (t1127 &&& 2251799813685247)))
  let t1128 ← (parse ("NaN(0xdeadbeef)".toList) : M Double)
  let t1129 ← is_nan t1128
  check t1129
  let t1130 ← ApiFloat.is_signaling t1128
  check (decide (false = t1130))
  let t1131 ← ApiFloat.is_negative t1128
  check (decide (false = t1131))
  let t1132 ← ApiFloat.to_bits t1128
  check (decide (3735928559 = (t1132 &&& 2251799813685247)))
  let t1133 ← (parse ("-NaN3735928559".toList) : M Double)
  let t1134 ← is_nan t1133
  check t1134
  let t1135 ← ApiFloat.is_signaling t1133
  check (decide (false = t1135))
  let t1136 ← ApiFloat.is_negative t1133
  check (decide (true = t1136))
  let t1137 ← ApiFloat.to_bits t1133
  check (decide (3735928559 = (t1137 &&& 2251799813685247)))
  let t1138 ← (parse ("-NaN0xdeadbeef".toList) : M Double)
  let t1139 ← is_nan t1138
  check t1139
  let t1140 ← ApiFloat.is_signaling t1138
  check (decide (false = t1140))
  let t1141 ← ApiFloat.is_negative t1138
  check (decide (true = t1141))
  let t1142 ← ApiFloat.to_bits t1138
  check (decide (3735928559 = (t1142 &&& 2251799813685247)))
  let t1143 ← (parse ("-NaN(3735928559)".toList) : M Double)
  let t1144 ← is_nan t1143
  check t1144
  let t1145 ← ApiFloat.is_signaling t1143
  check (decide (false = t1145))

example : passes t_from_string_specials_34 = true := by decide +kernel

/-- tests/ieee.rs:1046 `from_string_specials`. -/
def t_from_string_specials_35 : M Unit := do
  let t1143 ← (parse ("-NaN(3735928559)".toList) : M Double)
  let t1146 ← ApiFloat.is_negative t1143
  check (decide (true = t1146))
  let t1147 ← ApiFloat.to_bits t1143
  check (decide (3735928559 = (t1147 &&& 2251799813685247)))
  let t1148 ← (parse ("-NaN(0xdeadbeef)".toList) : M Double)
  let t1149 ← is_nan t1148
  check t1149
  let t1150 ← ApiFloat.is_signaling t1148
  check (decide (false = t1150))
  let t1151 ← ApiFloat.is_negative t1148
  check (decide (true = t1151))
  let t1152 ← ApiFloat.to_bits t1148
  check (decide (3735928559 = (t1152 &&& 2251799813685247)))
  let t1153 ← (parse ("NaN340282366920938463463374607431768211454".toList) : M Double)
  let t1154 ← is_nan t1153
  check t1154
  let t1155 ← ApiFloat.is_signaling t1153
  check (decide (false = t1155))
  let t1156 ← ApiFloat.is_negative t1153
  check (decide (false = t1156))
  let t1157 ← ApiFloat.to_bits t1153
  check (decide (2251799813685246 = (t1157 &&& 2251799813685247)))
  let t1158 ← (parse ("NaN0xfffffffffffffffffffffffffffffffe".toList) : M Double)
  let t1159 ← is_nan t1158
  check t1159
  let t1160 ← ApiFloat.is_signaling t1158
  check (decide (false = t1160))
  let t1161 ← ApiFloat.is_negative t1158
  check (decide (false = t1161))
  let t1162 ← ApiFloat.to_bits t1158
  check (decide (2251799813685246 = (t1162 &&& 2251799813685247)))
  let t1163 ← (parse ("NaN(340282366920938463463374607431768211454)".toList) : M Double)
  let t1164 ← is_nan t1163
  check t1164
  let t1165 ← ApiFloat.is_signaling t1163
  check (decide (false = t1165))
  let t1166 ← ApiFloat.is_negative t1163
  check (decide (false = t1166))
  let t1167 ← ApiFloat.to_bits t1163
  check (decide (2251799813685246 = (t1167 &&& 2251799813685247)))
  let t1168 ← (parse ("NaN(0xfffffffffffffffffffffffffffffffe)".toList) : M Double)
  let t1169 ← is_nan t1168
  check t1169
  let t1170 ← ApiFloat.is_signaling t1168
  check (decide (false = t1170))
  let t1171 ← ApiFloat.is_negative t1168
  check (decide (false = t1171))
  let t1172 ← ApiFloat.to_bits t1168
  check (decide (2251799813685246 = (t1172 &&& 2251799813685247)))
  let t1173 ← (parse ("-NaN340282366920938463463374607431768211454".toList) : M Double)
  let t1174 ← is_nan t1173
  check t1174
  let t1175 ← ApiFloat.is_signaling t1173
  check (decide (false = t1175))
  let t1176 ← ApiFloat.is_negative t1173
  check (decide (true = t1176))
  let t1177 ← ApiFloat.to_bits t1173
  check (decide (2251799813685246 = (t1177 &&& 2251799813685247)))
  let t1178 ← (parse ("-NaN0xfffffffffffffffffffffffffffffffe".toList) : M Double)
  let t1179 ← is_nan t1178
  check t1179

example : passes t_from_string_specials_35 = true := by decide +kernel

/-- tests/ieee.rs:1046 `from_string_specials`. -/
def t_from_string_specials_36 : M Unit := do
  let t1178 ← (parse ("-NaN0xfffffffffffffffffffffffffffffffe".toList) : M Double)
  let t1180 ← ApiFloat.is_signaling t1178
  check (decide (false = t1180))
  let t1181 ← ApiFloat.is_negative t1178
  check (decide (true = t1181))
  let t1182 ← ApiFloat.to_bits t1178
  check (decide (2251799813685246 = (t1182 &&& 2251799813685247)))
  let t1183 ← (parse ("-NaN(340282366920938463463374607431768211454)".toList) : M Double)
  let t1184 ← is_nan t1183
  check t1184
  let t1185 ← ApiFloat.is_signaling t1183
  check (decide (false = t1185))
  let t1186 ← ApiFloat.is_negative t1183
  check (decide (true = t1186))
  let t1187 ← ApiFloat.to_bits t1183
  check (decide (2251799813685246 = (t1187 &&& 2251799813685247)))
  let t1188 ← (parse ("-NaN(0xfffffffffffffffffffffffffffffffe)".toList) : M Double)
  let t1189 ← is_nan t1188
  check t1189
  let t1190 ← ApiFloat.is_signaling t1188
  check (decide (false = t1190))
  let t1191 ← ApiFloat.is_negative t1188
  check (decide (true = t1191))
  let t1192 ← ApiFloat.to_bits t1188
  check (decide (2251799813685246 = (t1192 &&& 2251799813685247)))
  let t1193 ← (parse ("NaN".toList) : M Double)
  let t1194 ← is_nan t1193
  check t1194
  let t1195 ← ApiFloat.is_signaling t1193
  check (decide (false = t1195))
  let t1196 ← ApiFloat.is_negative t1193
  check (decide (false = t1196))
  let t1197 ← ApiFloat.to_bits t1193
  check (decide (0 = (t1197 &&& 2251799813685247)))
  let t1198 ← (parse ("NaN2251799813685248".toList) : M Double)
  let t1199 ← is_nan t1198
  check t1199
  let t1200 ← ApiFloat.is_signaling t1198
  check (decide (false = t1200))
  let t1201 ← ApiFloat.is_negative t1198
  check (decide (false = t1201))
  let t1202 ← ApiFloat.to_bits t1198
  check (decide (0 = (t1202 &&& 2251799813685247)))
  let t1203 ← (parse ("NaN0x8000000000000".toList) : M Double)
  let t1204 ← is_nan t1203
  check t1204
  let t1205 ← ApiFloat.is_signaling t1203
  check (decide (false = t1205))
  let t1206 ← ApiFloat.is_negative t1203
  check (decide (false = t1206))
  let t1207 ← ApiFloat.to_bits t1203
  check (decide (0 = (t1207 &&& 2251799813685247)))
  let t1208 ← (parse ("NaN(2251799813685248)".toList) : M Double)
  let t1209 ← is_nan t1208
  check t1209
  let t1210 ← ApiFloat.is_signaling t1208
  check (decide (false = t1210))
  let t1211 ← ApiFloat.is_negative t1208
  check (decide (false = t1211))
  let t1212 ← ApiFloat.to_bits t1208
  check (decide (0 = (t1212 &&& 2251799813685247)))

example : passes t_from_string_specials_36 = true := by decide +kernel

/-- tests/ieee.rs:1046 `from_string_specials`. -/
def t_from_string_specials_37 : M Unit := do
  let t1213 ← (parse ("NaN(0x8000000000000)".toList) : M Double)
  let t1214 ← is_nan t1213
  check t1214
  let t1215 ← ApiFloat.is_signaling t1213
  check (decide (false = t1215))
  let t1216 ← ApiFloat.is_negative t1213
  check (decide (false = t1216))
  let t1217 ← ApiFloat.to_bits t1213
  check (decide (0 = (t1217 &&& 2251799813685247)))
  let t1218 ← (parse ("-NaN".toList) : M Double)
  let t1219 ← is_nan t1218
  check t1219
  let t1220 ← ApiFloat.is_signaling t1218
  check (decide (false = t1220))
  let t1221 ← ApiFloat.is_negative t1218
  check (decide (true = t1221))
  let t1222 ← ApiFloat.to_bits t1218
  check (decide (0 = (t1222 &&& 2251799813685247)))
  let t1223 ← (parse ("-NaN2251799813685248".toList) : M Double)
  let t1224 ← is_nan t1223
  check t1224
  let t1225 ← ApiFloat.is_signaling t1223
  check (decide (false = t1225))
  let t1226 ← ApiFloat.is_negative t1223
  check (decide (true = t1226))
  let t1227 ← ApiFloat.to_bits t1223
  check (decide (0 = (t1227 &&& 2251799813685247)))
  let t1228 ← (parse ("-NaN0x8000000000000".toList) : M Double)
  let t1229 ← is_nan t1228
  check t1229
  let t1230 ← ApiFloat.is_signaling t1228
  check (decide (false = t1230))
  let t1231 ← ApiFloat.is_negative t1228
  check (decide (true = t1231))
  let t1232 ← ApiFloat.to_bits t1228
  check (decide (0 = (t1232 &&& 2251799813685247)))
  let t1233 ← (parse ("-NaN(2251799813685248)".toList) : M Double)
  let t1234 ← is_nan t1233
  check t1234
  let t1235 ← ApiFloat.is_signaling t1233
  check (decide (false = t1235))
  let t1236 ← ApiFloat.is_negative t1233
  check (decide (true = t1236))
  let t1237 ← ApiFloat.to_bits t1233
  check (decide (0 = (t1237 &&& 2251799813685247)))
  let t1238 ← (parse ("-NaN(0x8000000000000)".toList) : M Double)
  let t1239 ← is_nan t1238
  check t1239
  let t1240 ← ApiFloat.is_signaling t1238
  check (decide (false = t1240))
  let t1241 ← ApiFloat.is_negative t1238
  check (decide (true = t1241))
  let t1242 ← ApiFloat.to_bits t1238
  check (decide (0 = (t1242 &&& 2251799813685247)))
  let t1243 ← (parse ("NaN1125899906842624".toList) : M Double)
  let t1244 ← is_nan t1243
  check t1244
  let t1245 ← ApiFloat.is_signaling t1243
  check (decide (false = t1245))
  let t1246 ← ApiFloat.is_negative t1243
  check (decide (false = t1246))

example : passes t_from_string_specials_37 = true := by decide +kernel

/-- tests/ieee.rs:1046 `from_string_specials`. -/
def t_from_string_specials_38 : M Unit := do
  let t1243 ← (parse ("NaN1125899906842624".toList) : M Double)
  let t1247 ← ApiFloat.to_bits t1243
  check (decide (1125899906842624 = (t1247 &&& 2251799813685247)))
  let t1248 ← (parse ("NaN0x4000000000000".toList) : M Double)
  let t1249 ← is_nan t1248
  check t1249
  let t1250 ← ApiFloat.is_signaling t1248
  check (decide (false = t1250))
  let t1251 ← ApiFloat.is_negative t1248
  check (decide (false = t1251))
  let t1252 ← ApiFloat.to_bits t1248
  check (decide (1125899906842624 = (t1252 &&& 2251799813685247)))
  let t1253 ← (parse ("NaN(1125899906842624)".toList) : M Double)
  let t1254 ← is_nan t1253
  check t1254
  let t1255 ← ApiFloat.is_signaling t1253
  check (decide (false = t1255))
  let t1256 ← ApiFloat.is_negative t1253
  check (decide (false = t1256))
  let t1257 ← ApiFloat.to_bits t1253
  check (decide (1125899906842624 = (t1257 &&& 2251799813685247)))
  let t1258 ← (parse ("NaN(0x4000000000000)".toList) : M Double)
  let t1259 ← is_nan t1258
  check t1259
  let t1260 ← ApiFloat.is_signaling t1258
  check (decide (false = t1260))
  let t1261 ← ApiFloat.is_negative t1258
  check (decide (false = t1261))
  let t1262 ← ApiFloat.to_bits t1258
  check (decide (1125899906842624 = (t1262 &&& 2251799813685247)))
  let t1263 ← (parse ("-NaN1125899906842624".toList) : M Double)
  let t1264 ← is_nan t1263
  check t1264
  let t1265 ← ApiFloat.is_signaling t1263
  check (decide (false = t1265))
  let t1266 ← ApiFloat.is_negative t1263
  check (decide (true = t1266))
  let t1267 ← ApiFloat.to_bits t1263
  check (decide (1125899906842624 = (t1267 &&& 2251799813685247)))
  let t1268 ← (parse ("-NaN0x4000000000000".toList) : M Double)
  let t1269 ← is_nan t1268
  check t1269
  let t1270 ← ApiFloat.is_signaling t1268
  check (decide (false = t1270))
  let t1271 ← ApiFloat.is_negative t1268
  check (decide (true = t1271))
  let t1272 ← ApiFloat.to_bits t1268
  check (decide (1125899906842624 = (t1272 &&& 2251799813685247)))
  let t1273 ← (parse ("-NaN(1125899906842624)".toList) : M Double)
  let t1274 ← is_nan t1273
  check t1274
  let t1275 ← ApiFloat.is_signaling t1273
  check (decide (false = t1275))
  let t1276 ← ApiFloat.is_negative t1273
  check (decide (true = t1276))
  let t1277 ← ApiFloat.to_bits t1273
  check (decide (1125899906842624 = (t1277 &&& 2251799813685247)))
  let t1278 ← (parse ("-NaN(0x4000000000000)".toList) : M Double)
  let t1279 ← is_nan t1278
  check t1279
  let t1280 ← ApiFloat.is_signaling t1278
  check (decide (false = t1280))

example : passes t_from_string_specials_38 = true := by decide +kernel

/-- tests/ieee.rs:1046 `from_string_specials`. -/
def t_from_string_specials_39 : M Unit := do
  let t1278 ← (parse ("-NaN(0x4000000000000)".toList) : M Double)
  let t1281 ← ApiFloat.is_negative t1278
  check (decide (true = t1281))
  let t1282 ← ApiFloat.to_bits t1278
  check (decide (1125899906842624 = (t1282 &&& 2251799813685247)))
  let t1283 ← (parse ("NaN562949953421312".toList) : M Double)
  let t1284 ← is_nan t1283
  check t1284
  let t1285 ← ApiFloat.is_signaling t1283
  check (decide (false = t1285))
  let t1286 ← ApiFloat.is_negative t1283
  check (decide (false = t1286))
  let t1287 ← ApiFloat.to_bits t1283
  check (decide (562949953421312 = (t1287 &&& 2251799813685247)))
  let t1288 ← (parse ("NaN0x2000000000000".toList) : M Double)
  let t1289 ← is_nan t1288
  check t1289
  let t1290 ← ApiFloat.is_signaling t1288
  check (decide (false = t1290))
  let t1291 ← ApiFloat.is_negative t1288
  check (decide (false = t1291))
  let t1292 ← ApiFloat.to_bits t1288
  check (decide (562949953421312 = (t1292 &&& 2251799813685247)))
  let t1293 ← (parse ("NaN(562949953421312)".toList) : M Double)
  let t1294 ← is_nan t1293
  check t1294
  let t1295 ← ApiFloat.is_signaling t1293
  check (decide (false = t1295))
  let t1296 ← ApiFloat.is_negative t1293
  check (decide (false = t1296))
  let t1297 ← ApiFloat.to_bits t1293
  check (decide (562949953421312 = (t1297 &&& 2251799813685247)))
  let t1298 ← (parse ("NaN(0x2000000000000)".toList) : M Double)
  let t1299 ← is_nan t1298
  check t1299
  let t1300 ← ApiFloat.is_signaling t1298
  check (decide (false = t1300))
  let t1301 ← ApiFloat.is_negative t1298
  check (decide (false = t1301))
  let t1302 ← ApiFloat.to_bits t1298
  check (decide (562949953421312 = (t1302 &&& 2251799813685247)))
  let t1303 ← (parse ("-NaN562949953421312".toList) : M Double)
  let t1304 ← is_nan t1303
  check t1304
  let t1305 ← ApiFloat.is_signaling t1303
  check (decide (false = t1305))
  let t1306 ← ApiFloat.is_negative t1303
  check (decide (true = t1306))
  let t1307 ← ApiFloat.to_bits t1303
  check (decide (562949953421312 = (t1307 &&& 2251799813685247)))
  let t1308 ← (parse ("-NaN0x2000000000000".toList) : M Double)
  let t1309 ← is_nan t1308
  check t1309
  let t1310 ← ApiFloat.is_signaling t1308
  check (decide (false = t1310))
  let t1311 ← ApiFloat.is_negative t1308
  check (decide (true = t1311))
  let t1312 ← ApiFloat.to_bits t1308
  check (decide (562949953421312 = (t1312 &&& 2251799813685247)))
  let t1313 ← (parse ("-NaN(562949953421312)".toList) : M Double)
  let t1314 ← is_nan t1313
  check t1314

example : passes t_from_string_specials_39 = true := by decide +kernel

/-- tests/ieee.rs:1046 `from_string_specials`. -/
def t_from_string_specials_40 : M Unit := do
  let t1 ← (ApiFloat.snan none : M Double)
  let t2 ← ApiFloat.to_bits t1
  let t1313 ← (parse ("-NaN(562949953421312)".toList) : M Double)
  let t1315 ← ApiFloat.is_signaling t1313
  check (decide (false = t1315))
  let t1316 ← ApiFloat.is_negative t1313
  check (decide (true = t1316))
  let t1317 ← ApiFloat.to_bits t1313
  check (decide (562949953421312 = (t1317 &&& 2251799813685247)))
  let t1318 ← (parse ("-NaN(0x2000000000000)".toList) : M Double)
  let t1319 ← is_nan t1318
  check t1319
  let t1320 ← ApiFloat.is_signaling t1318
  check (decide (false = t1320))
  let t1321 ← ApiFloat.is_negative t1318
  check (decide (true = t1321))
  let t1322 ← ApiFloat.to_bits t1318
  check (decide (562949953421312 = (t1322 &&& 2251799813685247)))
  check (!decide ((t2 &&& 2251799813685247) = 0))
  let t1323 ← (parse ("sNaN0".toList) : M Double)
  let t1324 ← is_nan t1323
  check t1324
  let t1325 ← ApiFloat.is_signaling t1323
  check (decide (true = t1325))
  let t1326 ← ApiFloat.is_negative t1323
  check (decide (false = t1326))
  let t1327 ← ApiFloat.to_bits t1323
  check (decide ((t2 &&& 2251799813685247) = (t1327 &&& 2251799813685247)))
  let t1328 ← (parse ("sNaN0x0".toList) : M Double)
  let t1329 ← is_nan t1328
  check t1329
  let t1330 ← ApiFloat.is_signaling t1328
  check (decide (true = t1330))
  let t1331 ← ApiFloat.is_negative t1328
  check (decide (false = t1331))
  let t1332 ← ApiFloat.to_bits t1328
  check (decide ((t2 &&& 2251799813685247) = (t1332 &&& 2251799813685247)))
  let t1333 ← (parse ("sNaN(0)".toList) : M Double)
  let t1334 ← is_nan t1333
  check t1334
  let t1335 ← ApiFloat.is_signaling t1333
  check (decide (true = t1335))
  let t1336 ← ApiFloat.is_negative t1333
  check (decide (false = t1336))
  let t1337 ← ApiFloat.to_bits t1333
  check (decide ((t2 &&& 2251799813685247) = (t1337 &&& 2251799813685247)))
  let t1338 ← (parse ("sNaN(0x0)".toList) : M Double)
  let t1339 ← is_nan t1338
  check t1339
  let t1340 ← ApiFloat.is_signaling t1338
  check (decide (true = t1340))
  let t1341 ← ApiFloat.is_negative t1338
  check (decide (false = t1341))
  let t1342 ← ApiFloat.to_bits t1338
  check (decide ((t2 &&& 2251799813685247) = (t1342 &&& 2251799813685247)))
  check (!decide ((t2 &&& 2251799813685247) = 0))
  let t1343 ← (parse ("-sNaN0".toList) : M Double)
  let t1344 ← is_nan t1343
  check t1344
  let t1345 ← ApiFloat.is_signaling t1343
  check (decide (true = t1345))
  let t1346 ← ApiFloat.is_negative t1343
  check (decide (true = t1346))

example : passes t_from_string_specials_40 = true := by decide +kernel

/-- tests/ieee.rs:1046 `from_string_specials`. -/
def t_from_string_specials_41 : M Unit := do
  let t1 ← (ApiFloat.snan none : M Double)
  let t2 ← ApiFloat.to_bits t1
  let t1343 ← (parse ("-sNaN0".toList) : M Double)
  let t1347 ← ApiFloat.to_bits t1343
  check (decide ((t2 &&& 2251799813685247) = (t1347 &&& 2251799813685247)))
  let t1348 ← (parse ("-sNaN0x0".toList) : M Double)
  let t1349 ← is_nan t1348
  check t1349
  let t1350 ← ApiFloat.is_signaling t1348
  check (decide (true = t1350))
  let t1351 ← ApiFloat.is_negative t1348
  check (decide (true = t1351))
  let t1352 ← ApiFloat.to_bits t1348
  check (decide ((t2 &&& 2251799813685247) = (t1352 &&& 2251799813685247)))
  let t1353 ← (parse ("-sNaN(0)".toList) : M Double)
  let t1354 ← is_nan t1353
  check t1354
  let t1355 ← ApiFloat.is_signaling t1353
  check (decide (true = t1355))
  let t1356 ← ApiFloat.is_negative t1353
  check (decide (true = t1356))
  let t1357 ← ApiFloat.to_bits t1353
  check (decide ((t2 &&& 2251799813685247) = (t1357 &&& 2251799813685247)))
  let t1358 ← (parse ("-sNaN(0x0)".toList) : M Double)
  let t1359 ← is_nan t1358
  check t1359
  let t1360 ← ApiFloat.is_signaling t1358
  check (decide (true = t1360))
  let t1361 ← ApiFloat.is_negative t1358
  check (decide (true = t1361))
  let t1362 ← ApiFloat.to_bits t1358
  check (decide ((t2 &&& 2251799813685247) = (t1362 &&& 2251799813685247)))
  let t1363 ← (parse ("sNaN1".toList) : M Double)
  let t1364 ← is_nan t1363
  check t1364
  let t1365 ← ApiFloat.is_signaling t1363
  check (decide (true = t1365))
  let t1366 ← ApiFloat.is_negative t1363
  check (decide (false = t1366))
  let t1367 ← ApiFloat.to_bits t1363
  check (decide (1 = (t1367 &&& 2251799813685247)))
  let t1368 ← (parse ("sNaN0x1".toList) : M Double)
  let t1369 ← is_nan t1368
  check t1369
  let t1370 ← ApiFloat.is_signaling t1368
  check (decide (true = t1370))
  let t1371 ← ApiFloat.is_negative t1368
  check (decide (false = t1371))
  let t1372 ← ApiFloat.to_bits t1368
  check (decide (1 = (t1372 &&& 2251799813685247)))
  let t1373 ← (parse ("sNaN(1)".toList) : M Double)
  let t1374 ← is_nan t1373
  check t1374
  let t1375 ← ApiFloat.is_signaling t1373
  check (decide (true = t1375))
  let t1376 ← ApiFloat.is_negative t1373
  check (decide (false = t1376))
  let t1377 ← ApiFloat.to_bits t1373
  check (decide (1 = (t1377 &&& 2251799813685247)))
  let t1378 ← (parse ("sNaN(0x1)".toList) : M Double)
  let t1379 ← is_nan t1378
  check t1379
  let t1380 ← ApiFloat.is_signaling t1378
  check (decide (true = t1380))

example : passes t_from_string_specials_41 = true := by decide +kernel

/-- tests/ieee.rs:1046 `from_string_specials`. -/
def t_from_string_specials_42 : M Unit := do
  let t1378 ← (parse ("sNaN(0x1)".toList) : M Double)
  let t1381 ← ApiFloat.is_negative t1378
  check (decide (false = t1381))
  let t1382 ← ApiFloat.to_bits t1378
  check (decide (1 = (t1382 &&& 2251799813685247)))
  let t1383 ← (parse ("-sNaN1".toList) : M Double)
  let t1384 ← is_nan t1383
  check t1384
  let t1385 ← ApiFloat.is_signaling t1383
  check (decide (true = t1385))
  let t1386 ← ApiFloat.is_negative t1383
  check (decide (true = t1386))
  let t1387 ← ApiFloat.to_bits t1383
  check (decide (1 = (t1387 &&& 2251799813685247)))
  let t1388 ← (parse ("-sNaN0x1".toList) : M Double)
  let t1389 ← is_nan t1388
  check t1389
  let t1390 ← ApiFloat.is_signaling t1388
  check (decide (true = t1390))
  let t1391 ← ApiFloat.is_negative t1388
  check (decide (true = t1391))
  let t1392 ← ApiFloat.to_bits t1388
  check (decide (1 = (t1392 &&& 2251799813685247)))
  let t1393 ← (parse ("-sNaN(1)".toList) : M Double)
  let t1394 ← is_nan t1393
  check t1394
  let t1395 ← ApiFloat.is_signaling t1393
  check (decide (true = t1395))
  let t1396 ← ApiFloat.is_negative t1393
  check (decide (true = t1396))
  let t1397 ← ApiFloat.to_bits t1393
  check (decide (1 = (t1397 &&& 2251799813685247)))
  let t1398 ← (parse ("-sNaN(0x1)".toList) : M Double)
  let t1399 ← is_nan t1398
  check t1399
  let t1400 ← ApiFloat.is_signaling t1398
  check (decide (true = t1400))
  let t1401 ← ApiFloat.is_negative t1398
  check (decide (true = t1401))
  let t1402 ← ApiFloat.to_bits t1398
  check (decide (1 = (t1402 &&& 2251799813685247)))
  let t1403 ← (parse ("sNaN123".toList) : M Double)
  let t1404 ← is_nan t1403
  check t1404
  let t1405 ← ApiFloat.is_signaling t1403
  check (decide (true = t1405))
  let t1406 ← ApiFloat.is_negative t1403
  check (decide (false = t1406))
  let t1407 ← ApiFloat.to_bits t1403
  check (decide (123 = (t1407 &&& 2251799813685247)))
  let t1408 ← (parse ("sNaN0x7b".toList) : M Double)
  let t1409 ← is_nan t1408
  check t1409
  let t1410 ← ApiFloat.is_signaling t1408
  check (decide (true = t1410))
  let t1411 ← ApiFloat.is_negative t1408
  check (decide (false = t1411))
  let t1412 ← ApiFloat.to_bits t1408
  check (decide (123 = (t1412 &&& 2251799813685247)))
  let t1413 ← (parse ("sNaN(123)".toList) : M Double)
  let t1414 ← is_nan t1413
  check t1414

example : passes t_from_string_specials_42 = true := by decide +kernel

/-- tests/ieee.rs:1046 `from_string_specials`. -/
def t_from_string_specials_43 : M Unit := do
  let t1413 ← (parse ("sNaN(123)".toList) : M Double)
  let t1415 ← ApiFloat.is_signaling t1413
  check (decide (true = t1415))
  let t1416 ← ApiFloat.is_negative t1413
  check (decide (false = t1416))
  let t1417 ← ApiFloat.to_bits t1413
  check (decide (123 = (t1417 &&& 2251799813685247)))
  let t1418 ← (parse ("sNaN(0x7b)".toList) : M Double)
  let t1419 ← is_nan t1418
  check t1419
  let t1420 ← ApiFloat.is_signaling t1418
  check (decide (true = t1420))
  let t1421 ← ApiFloat.is_negative t1418
  check (decide (false = t1421))
  let t1422 ← ApiFloat.to_bits t1418
  check (decide (123 = (t1422 &&& 2251799813685247)))
  let t1423 ← (parse ("-sNaN123".toList) : M Double)
  let t1424 ← is_nan t1423
  check t1424
  let t1425 ← ApiFloat.is_signaling t1423
  check (decide (true = t1425))
  let t1426 ← ApiFloat.is_negative t1423
  check (decide (true = t1426))
  let t1427 ← ApiFloat.to_bits t1423
  check (decide (123 = (t1427 &&& 2251799813685247)))
  let t1428 ← (parse ("-sNaN0x7b".toList) : M Double)
  let t1429 ← is_nan t1428
  check t1429
  let t1430 ← ApiFloat.is_signaling t1428
  check (decide (true = t1430))
  let t1431 ← ApiFloat.is_negative t1428
  check (decide (true = t1431))
  let t1432 ← ApiFloat.to_bits t1428
  check (decide (123 = (t1432 &&& 2251799813685247)))
  let t1433 ← (parse ("-sNaN(123)".toList) : M Double)
  let t1434 ← is_nan t1433
  check t1434
  let t1435 ← ApiFloat.is_signaling t1433
  check (decide (true = t1435))
  let t1436 ← ApiFloat.is_negative t1433
  check (decide (true = t1436))
  let t1437 ← ApiFloat.to_bits t1433
  check (decide (123 = (t1437 &&& 2251799813685247)))
  let t1438 ← (parse ("-sNaN(0x7b)".toList) : M Double)
  let t1439 ← is_nan t1438
  check t1439
  let t1440 ← ApiFloat.is_signaling t1438
  check (decide (true = t1440))
  let t1441 ← ApiFloat.is_negative t1438
  check (decide (true = t1441))
  let t1442 ← ApiFloat.to_bits t1438
  check (decide (123 = (t1442 &&& 2251799813685247)))
  let t1443 ← (parse ("sNaN3735928559".toList) : M Double)
  let t1444 ← is_nan t1443
  check t1444
  let t1445 ← ApiFloat.is_signaling t1443
  check (decide (true = t1445))
  let t1446 ← ApiFloat.is_negative t1443
  check (decide (false = t1446))
  let t1447 ← ApiFloat.to_bits t1443
  check (decide (3735928559 = (t1447 &&& 2251799813685247)))

example : passes t_from_string_specials_43 = true := by decide +kernel

/-- tests/ieee.rs:1046 `from_string_specials`. -/
def t_from_string_specials_44 : M Unit := do
  let t1448 ← (parse ("sNaN0xdeadbeef".toList) : M Double)
  let t1449 ← is_nan t1448
  check t1449
  let t1450 ← ApiFloat.is_signaling t1448
  check (decide (true = t1450))
  let t1451 ← ApiFloat.is_negative t1448
  check (decide (false = t1451))
  let t1452 ← ApiFloat.to_bits t1448
  check (decide (3735928559 = (t1452 &&& 2251799813685247)))
  let t1453 ← (parse ("sNaN(3735928559)".toList) : M Double)
  let t1454 ← is_nan t1453
  check t1454
  let t1455 ← ApiFloat.is_signaling t1453
  check (decide (true = t1455))
  let t1456 ← ApiFloat.is_negative t1453
  check (decide (false = t1456))
  let t1457 ← ApiFloat.to_bits t1453
  check (decide (3735928559 = (t1457 &&& 2251799813685247)))
  let t1458 ← (parse ("sNaN(0xdeadbeef)".toList) : M Double)
  let t1459 ← is_nan t1458
  check t1459
  let t1460 ← ApiFloat.is_signaling t1458
  check (decide (true = t1460))
  let t1461 ← ApiFloat.is_negative t1458
  check (decide (false = t1461))
  let t1462 ← ApiFloat.to_bits t1458
  check (decide (3735928559 = (t1462 &&& 2251799813685247)))
  let t1463 ← (parse ("-sNaN3735928559".toList) : M Double)
  let t1464 ← is_nan t1463
  check t1464
  let t1465 ← ApiFloat.is_signaling t1463
  check (decide (true = t1465))
  let t1466 ← ApiFloat.is_negative t1463
  check (decide (true = t1466))
  let t1467 ← ApiFloat.to_bits t1463
  check (decide (3735928559 = (t1467 &&& 2251799813685247)))
  let t1468 ← (parse ("-sNaN0xdeadbeef".toList) : M Double)
  let t1469 ← is_nan t1468
  check t1469
  let t1470 ← ApiFloat.is_signaling t1468
  check (decide (true = t1470))
  let t1471 ← ApiFloat.is_negative t1468
  check (decide (true = t1471))
  let t1472 ← ApiFloat.to_bits t1468
  check (decide (3735928559 = (t1472 &&& 2251799813685247)))
  let t1473 ← (parse ("-sNaN(3735928559)".toList) : M Double)
  let t1474 ← is_nan t1473
  check t1474
  let t1475 ← ApiFloat.is_signaling t1473
  check (decide (true = t1475))
  let t1476 ← ApiFloat.is_negative t1473
  check (decide (true = t1476))
  let t1477 ← ApiFloat.to_bits t1473
  check (decide (3735928559 = (t1477 &&& 2251799813685247)))
  let t1478 ← (parse ("-sNaN(0xdeadbeef)".toList) : M Double)
  let t1479 ← is_nan t1478
  check t1479
  let t1480 ← ApiFloat.is_signaling t1478
  check (decide (true = t1480))
  let t1481 ← ApiFloat.is_negative t1478
  check (decide (true = t1481))

example : passes t_from_string_specials_44 = true := by decide +kernel

/-- tests/ieee.rs:1046 `from_string_specials`. -/
def t_from_string_specials_45 : M Unit := do
  let t1478 ← (parse ("-sNaN(0xdeadbeef)".toList) : M Double)
  let t1482 ← ApiFloat.to_bits t1478
  check (decide (3735928559 = (t1482 &&& 2251799813685247)))
  let t1483 ← (parse ("sNaN340282366920938463463374607431768211454".toList) : M Double)
  let t1484 ← is_nan t1483
  check t1484
  let t1485 ← ApiFloat.is_signaling t1483
  check (decide (true = t1485))
  let t1486 ← ApiFloat.is_negative t1483
  check (decide (false = t1486))
  let t1487 ← ApiFloat.to_bits t1483
  check (decide (2251799813685246 = (t1487 &&& 2251799813685247)))
  let t1488 ← (parse ("sNaN0xfffffffffffffffffffffffffffffffe".toList) : M Double)
  let t1489 ← is_nan t1488
  check t1489
  let t1490 ← ApiFloat.is_signaling t1488
  check (decide (true = t1490))
  let t1491 ← ApiFloat.is_negative t1488
  check (decide (false = t1491))
  let t1492 ← ApiFloat.to_bits t1488
  check (decide (2251799813685246 = (t1492 &&& 2251799813685247)))
  let t1493 ← (parse ("sNaN(340282366920938463463374607431768211454)".toList) : M Double)
  let t1494 ← is_nan t1493
  check t1494
  let t1495 ← ApiFloat.is_signaling t1493
  check (decide (true = t1495))
  let t1496 ← ApiFloat.is_negative t1493
  check (decide (false = t1496))
  let t1497 ← ApiFloat.to_bits t1493
  check (decide (2251799813685246 = (t1497 &&& 2251799813685247)))
  let t1498 ← (parse ("sNaN(0xfffffffffffffffffffffffffffffffe)".toList) : M Double)
  let t1499 ← is_nan t1498
  check t1499
  let t1500 ← ApiFloat.is_signaling t1498
  check (decide (true = t1500))
  let t1501 ← ApiFloat.is_negative t1498
  check (decide (false = t1501))
  let t1502 ← ApiFloat.to_bits t1498
  check (decide (2251799813685246 = (t1502 &&& 2251799813685247)))
  let t1503 ← (parse ("-sNaN340282366920938463463374607431768211454".toList) : M Double)
  let t1504 ← is_nan t1503
  check t1504
  let t1505 ← ApiFloat.is_signaling t1503
  check (decide (true = t1505))
  let t1506 ← ApiFloat.is_negative t1503
  check (decide (true = t1506))
  let t1507 ← ApiFloat.to_bits t1503
  check (decide (2251799813685246 = (t1507 &&& 2251799813685247)))
  let t1508 ← (parse ("-sNaN0xfffffffffffffffffffffffffffffffe".toList) : M Double)
  let t1509 ← is_nan t1508
  check t1509
  let t1510 ← ApiFloat.is_signaling t1508
  check (decide (true = t1510))
  let t1511 ← ApiFloat.is_negative t1508
  check (decide (true = t1511))
  let t1512 ← ApiFloat.to_bits t1508
  check (decide (2251799813685246 = (t1512 &&& 2251799813685247)))
  let t1513 ← (parse ("-sNaN(340282366920938463463374607431768211454)".toList) : M Double)
  let t1514 ← is_nan t1513
  check t1514
  let t1515 ← ApiFloat.is_signaling t1513
  check (decide (true = t1515))

example : passes t_from_string_specials_45 = true := by decide +kernel

/-- tests/ieee.rs:1046 `from_string_specials`. -/
def t_from_string_specials_46 : M Unit := do
  let t1 ← (ApiFloat.snan none : M Double)
  let t2 ← ApiFloat.to_bits t1
  let t1513 ← (parse ("-sNaN(340282366920938463463374607431768211454)".toList) : M Double)
  let t1516 ← ApiFloat.is_negative t1513
  check (decide (true = t1516))
  let t1517 ← ApiFloat.to_bits t1513
  check (decide (2251799813685246 = (t1517 &&& 2251799813685247)))
  let t1518 ← (parse ("-sNaN(0xfffffffffffffffffffffffffffffffe)".toList) : M Double)
  let t1519 ← is_nan t1518
  check t1519
  let t1520 ← ApiFloat.is_signaling t1518
  check (decide (true = t1520))
  let t1521 ← ApiFloat.is_negative t1518
  check (decide (true = t1521))
  let t1522 ← ApiFloat.to_bits t1518
  check (decide (2251799813685246 = (t1522 &&& 2251799813685247)))
  check (!decide ((t2 &&& 2251799813685247) = 0))
  let t1523 ← (parse ("sNaN2251799813685248".toList) : M Double)
  let t1524 ← is_nan t1523
  check t1524
  let t1525 ← ApiFloat.is_signaling t1523
  check (decide (true = t1525))
  let t1526 ← ApiFloat.is_negative t1523
  check (decide (false = t1526))
  let t1527 ← ApiFloat.to_bits t1523
  check (decide ((t2 &&& 2251799813685247) = (t1527 &&& 2251799813685247)))
  let t1528 ← (parse ("sNaN0x8000000000000".toList) : M Double)
  let t1529 ← is_nan t1528
  check t1529
  let t1530 ← ApiFloat.is_signaling t1528
  check (decide (true = t1530))
  let t1531 ← ApiFloat.is_negative t1528
  check (decide (false = t1531))
  let t1532 ← ApiFloat.to_bits t1528
  check (decide ((t2 &&& 2251799813685247) = (t1532 &&& 2251799813685247)))
  let t1533 ← (parse ("sNaN(2251799813685248)".toList) : M Double)
  let t1534 ← is_nan t1533
  check t1534
  let t1535 ← ApiFloat.is_signaling t1533
  check (decide (true = t1535))
  let t1536 ← ApiFloat.is_negative t1533
  check (decide (false = t1536))
  let t1537 ← ApiFloat.to_bits t1533
  check (decide ((t2 &&& 2251799813685247) = (t1537 &&& 2251799813685247)))
  let t1538 ← (parse ("sNaN(0x8000000000000)".toList) : M Double)
  let t1539 ← is_nan t1538
  check t1539
  let t1540 ← ApiFloat.is_signaling t1538
  check (decide (true = t1540))
  let t1541 ← ApiFloat.is_negative t1538
  check (decide (false = t1541))
  let t1542 ← ApiFloat.to_bits t1538
  check (decide ((t2 &&& 2251799813685247) = (t1542 &&& 2251799813685247)))
  check (!decide ((t2 &&& 2251799813685247) = 0))
  let t1543 ← (parse ("-sNaN2251799813685248".toList) : M Double)
  let t1544 ← is_nan t1543
  check t1544
  let t1545 ← ApiFloat.is_signaling t1543
  check (decide (true = t1545))
  let t1546 ← ApiFloat.is_negative t1543
  check (decide (true = t1546))
  let t1547 ← ApiFloat.to_bits t1543
  check (decide ((t2 &&& 2251799813685247) = (t1547 &&& 2251799813685247)))

example : passes t_from_string_specials_46 = true := by decide +kernel

/-- tests/ieee.rs:1046 `from_string_specials`. -/
def t_from_string_specials_47 : M Unit := do
  let t1 ← (ApiFloat.snan none : M Double)
  let t2 ← ApiFloat.to_bits t1
  let t1548 ← (parse ("-sNaN0x8000000000000".toList) : M Double)
  let t1549 ← is_nan t1548
  check t1549
  let t1550 ← ApiFloat.is_signaling t1548
  check (decide (true = t1550))
  let t1551 ← ApiFloat.is_negative t1548
  check (decide (true = t1551))
  let t1552 ← ApiFloat.to_bits t1548
  check (decide ((t2 &&& 2251799813685247) = (t1552 &&& 2251799813685247)))
  let t1553 ← (parse ("-sNaN(2251799813685248)".toList) : M Double)
  let t1554 ← is_nan t1553
  check t1554
  let t1555 ← ApiFloat.is_signaling t1553
  check (decide (true = t1555))
  let t1556 ← ApiFloat.is_negative t1553
  check (decide (true = t1556))
  let t1557 ← ApiFloat.to_bits t1553
  check (decide ((t2 &&& 2251799813685247) = (t1557 &&& 2251799813685247)))
  let t1558 ← (parse ("-sNaN(0x8000000000000)".toList) : M Double)
  let t1559 ← is_nan t1558
  check t1559
  let t1560 ← ApiFloat.is_signaling t1558
  check (decide (true = t1560))
  let t1561 ← ApiFloat.is_negative t1558
  check (decide (true = t1561))
  let t1562 ← ApiFloat.to_bits t1558
  check (decide ((t2 &&& 2251799813685247) = (t1562 &&& 2251799813685247)))
  let t1563 ← (parse ("sNaN1125899906842624".toList) : M Double)
  let t1564 ← is_nan t1563
  check t1564
  let t1565 ← ApiFloat.is_signaling t1563
  check (decide (true = t1565))
  let t1566 ← ApiFloat.is_negative t1563
  check (decide (false = t1566))
  let t1567 ← ApiFloat.to_bits t1563
  check (decide (1125899906842624 = (t1567 &&& 2251799813685247)))
  let t1568 ← (parse ("sNaN0x4000000000000".toList) : M Double)
  let t1569 ← is_nan t1568
  check t1569
  let t1570 ← ApiFloat.is_signaling t1568
  check (decide (true = t1570))
  let t1571 ← ApiFloat.is_negative t1568
  check (decide (false = t1571))
  let t1572 ← ApiFloat.to_bits t1568
  check (decide (1125899906842624 = (t1572 &&& 2251799813685247)))
  let t1573 ← (parse ("sNaN(1125899906842624)".toList) : M Double)
  let t1574 ← is_nan t1573
  check t1574
  let t1575 ← ApiFloat.is_signaling t1573
  check (decide (true = t1575))
  let t1576 ← ApiFloat.is_negative t1573
  check (decide (false = t1576))
  let t1577 ← ApiFloat.to_bits t1573
  check (decide (1125899906842624 = (t1577 &&& 2251799813685247)))
  let t1578 ← (parse ("sNaN(0x4000000000000)".toList) : M Double)
  let t1579 ← is_nan t1578
  check t1579
  let t1580 ← ApiFloat.is_signaling t1578
  check (decide (true = t1580))
  let t1581 ← ApiFloat.is_negative t1578
  check (decide (false = t1581))

example : passes t_from_string_specials_47 = true := by decide +kernel

/-- tests/ieee.rs:1046 `from_string_specials`. -/
def t_from_string_specials_48 : M Unit := do
  let t1578 ← (parse ("sNaN(0x4000000000000)".toList) : M Double)
  let t1582 ← ApiFloat.to_bits t1578
  check (decide (1125899906842624 = (t1582 &&& 2251799813685247)))
  let t1583 ← (parse ("-sNaN1125899906842624".toList) : M Double)
  let t1584 ← is_nan t1583
  check t1584
  let t1585 ← ApiFloat.is_signaling t1583
  check (decide (true = t1585))
  let t1586 ← ApiFloat.is_negative t1583
  check (decide (true = t1586))
  let t1587 ← ApiFloat.to_bits t1583
  check (decide (1125899906842624 = (t1587 &&& 2251799813685247)))
  let t1588 ← (parse ("-sNaN0x4000000000000".toList) : M Double)
  let t1589 ← is_nan t1588
  check t1589
  let t1590 ← ApiFloat.is_signaling t1588
  check (decide (true = t1590))
  let t1591 ← ApiFloat.is_negative t1588
  check (decide (true = t1591))
  let t1592 ← ApiFloat.to_bits t1588
  check (decide (1125899906842624 = (t1592 &&& 2251799813685247)))
  let t1593 ← (parse ("-sNaN(1125899906842624)".toList) : M Double)
  let t1594 ← is_nan t1593
  check t1594
  let t1595 ← ApiFloat.is_signaling t1593
  check (decide (true = t1595))
  let t1596 ← ApiFloat.is_negative t1593
  check (decide (true = t1596))
  let t1597 ← ApiFloat.to_bits t1593
  check (decide (1125899906842624 = (t1597 &&& 2251799813685247)))
  let t1598 ← (parse ("-sNaN(0x4000000000000)".toList) : M Double)
  let t1599 ← is_nan t1598
  check t1599
  let t1600 ← ApiFloat.is_signaling t1598
  check (decide (true = t1600))
  let t1601 ← ApiFloat.is_negative t1598
  check (decide (true = t1601))
  let t1602 ← ApiFloat.to_bits t1598
  check (decide (1125899906842624 = (t1602 &&& 2251799813685247)))
  let t1603 ← (parse ("sNaN562949953421312".toList) : M Double)
  let t1604 ← is_nan t1603
  check t1604
  let t1605 ← ApiFloat.is_signaling t1603
  check (decide (true = t1605))
  let t1606 ← ApiFloat.is_negative t1603
  check (decide (false = t1606))
  let t1607 ← ApiFloat.to_bits t1603
  check (decide (562949953421312 = (t1607 &&& 2251799813685247)))
  let t1608 ← (parse ("sNaN0x2000000000000".toList) : M Double)
  let t1609 ← is_nan t1608
  check t1609
  let t1610 ← ApiFloat.is_signaling t1608
  check (decide (true = t1610))
  let t1611 ← ApiFloat.is_negative t1608
  check (decide (false = t1611))
  let t1612 ← ApiFloat.to_bits t1608
  check (decide (562949953421312 = (t1612 &&& 2251799813685247)))
  let t1613 ← (parse ("sNaN(562949953421312)".toList) : M Double)
  let t1614 ← is_nan t1613
  check t1614
  let t1615 ← ApiFloat.is_signaling t1613
  check (decide (true = t1615))

example : passes t_from_string_specials_48 = true := by decide +kernel

/-- tests/ieee.rs:1046 `from_string_specials`. -/
def t_from_string_specials_49 : M Unit := do
  let t1 ← (ApiFloat.snan none : M Double)
  let t2 ← ApiFloat.to_bits t1
  let t1613 ← (parse ("sNaN(562949953421312)".toList) : M Double)
  let t1616 ← ApiFloat.is_negative t1613
  check (decide (false = t1616))
  let t1617 ← ApiFloat.to_bits t1613
  check (decide (562949953421312 = (t1617 &&& 2251799813685247)))
  let t1618 ← (parse ("sNaN(0x2000000000000)".toList) : M Double)
  let t1619 ← is_nan t1618
  check t1619
  let t1620 ← ApiFloat.is_signaling t1618
  check (decide (true = t1620))
  let t1621 ← ApiFloat.is_negative t1618
  check (decide (false = t1621))
  let t1622 ← ApiFloat.to_bits t1618
  check (decide (562949953421312 = (t1622 &&& 2251799813685247)))
  let t1623 ← (parse ("-sNaN562949953421312".toList) : M Double)
  let t1624 ← is_nan t1623
  check t1624
  let t1625 ← ApiFloat.is_signaling t1623
  check (decide (true = t1625))
  let t1626 ← ApiFloat.is_negative t1623
  check (decide (true = t1626))
  let t1627 ← ApiFloat.to_bits t1623
  check (decide (562949953421312 = (t1627 &&& 2251799813685247)))
  let t1628 ← (parse ("-sNaN0x2000000000000".toList) : M Double)
  let t1629 ← is_nan t1628
  check t1629
  let t1630 ← ApiFloat.is_signaling t1628
  check (decide (true = t1630))
  let t1631 ← ApiFloat.is_negative t1628
  check (decide (true = t1631))
  let t1632 ← ApiFloat.to_bits t1628
  check (decide (562949953421312 = (t1632 &&& 2251799813685247)))
  let t1633 ← (parse ("-sNaN(562949953421312)".toList) : M Double)
  let t1634 ← is_nan t1633
  check t1634
  let t1635 ← ApiFloat.is_signaling t1633
  check (decide (true = t1635))
  let t1636 ← ApiFloat.is_negative t1633
  check (decide (true = t1636))
  let t1637 ← ApiFloat.to_bits t1633
  check (decide (562949953421312 = (t1637 &&& 2251799813685247)))
  let t1638 ← (parse ("-sNaN(0x2000000000000)".toList) : M Double)
  let t1639 ← is_nan t1638
  check t1639
  let t1640 ← ApiFloat.is_signaling t1638
  check (decide (true = t1640))
  let t1641 ← ApiFloat.is_negative t1638
  check (decide (true = t1641))
  let t1642 ← ApiFloat.to_bits t1638
  check (decide (562949953421312 = (t1642 &&& 2251799813685247)))
  check (!decide ((t2 &&& 2251799813685247) = 0))
  let t1643 ← (parse ("SNaN0".toList) : M Double)
  let t1644 ← is_nan t1643
  check t1644
  let t1645 ← ApiFloat.is_signaling t1643
  check (decide (true = t1645))
  let t1646 ← ApiFloat.is_negative t1643
  check (decide (false = t1646))
  let t1647 ← ApiFloat.to_bits t1643
  check (decide ((t2 &&& 2251799813685247) = (t1647 &&& 2251799813685247)))
  let t1648 ← (parse ("SNaN0x0".toList) : M Double)
  let t1649 ← is_nan t1648
  check t1649

example : passes t_from_string_specials_49 = true := by decide +kernel

/-- tests/ieee.rs:1046 `from_string_specials`. -/
def t_from_string_specials_50 : M Unit := do
  let t1 ← (ApiFloat.snan none : M Double)
  let t2 ← ApiFloat.to_bits t1
  let t1648 ← (parse ("SNaN0x0".toList) : M Double)
  let t1650 ← ApiFloat.is_signaling t1648
  check (decide (true = t1650))
  let t1651 ← ApiFloat.is_negative t1648
  check (decide (false = t1651))
  let t1652 ← ApiFloat.to_bits t1648
  check (decide ((t2 &&& 2251799813685247) = (t1652 &&& 2251799813685247)))
  let t1653 ← (parse ("SNaN(0)".toList) : M Double)
  let t1654 ← is_nan t1653
  check t1654
  let t1655 ← ApiFloat.is_signaling t1653
  check (decide (true = t1655))
  let t1656 ← ApiFloat.is_negative t1653
  check (decide (false = t1656))
  let t1657 ← ApiFloat.to_bits t1653
  check (decide ((t2 &&& 2251799813685247) = (t1657 &&& 2251799813685247)))
  let t1658 ← (parse ("SNaN(0x0)".toList) : M Double)
  let t1659 ← is_nan t1658
  check t1659
  let t1660 ← ApiFloat.is_signaling t1658
  check (decide (true = t1660))
  let t1661 ← ApiFloat.is_negative t1658
  check (decide (false = t1661))
  let t1662 ← ApiFloat.to_bits t1658
  check (decide ((t2 &&& 2251799813685247) = (t1662 &&& 2251799813685247)))
  check (!decide ((t2 &&& 2251799813685247) = 0))
  let t1663 ← (parse ("-SNaN0".toList) : M Double)
  let t1664 ← is_nan t1663
  check t1664
  let t1665 ← ApiFloat.is_signaling t1663
  check (decide (true = t1665))
  let t1666 ← ApiFloat.is_negative t1663
  check (decide (true = t1666))
  let t1667 ← ApiFloat.to_bits t1663
  check (decide ((t2 &&& 2251799813685247) = (t1667 &&& 2251799813685247)))
  let t1668 ← (parse ("-SNaN0x0".toList) : M Double)
  let t1669 ← is_nan t1668
  check t1669
  let t1670 ← ApiFloat.is_signaling t1668
  check (decide (true = t1670))
  let t1671 ← ApiFloat.is_negative t1668
  check (decide (true = t1671))
  let t1672 ← ApiFloat.to_bits t1668
  check (decide ((t2 &&& 2251799813685247) = (t1672 &&& 2251799813685247)))
  let t1673 ← (parse ("-SNaN(0)".toList) : M Double)
  let t1674 ← is_nan t1673
  check t1674
  let t1675 ← ApiFloat.is_signaling t1673
  check (decide (true = t1675))
  let t1676 ← ApiFloat.is_negative t1673
  check (decide (true = t1676))
  let t1677 ← ApiFloat.to_bits t1673
  check (decide ((t2 &&& 2251799813685247) = (t1677 &&& 2251799813685247)))
  let t1678 ← (parse ("-SNaN(0x0)".toList) : M Double)
  let t1679 ← is_nan t1678
  check t1679
  let t1680 ← ApiFloat.is_signaling t1678
  check (decide (true = t1680))
  let t1681 ← ApiFloat.is_negative t1678
  check (decide (true = t1681))
  let t1682 ← ApiFloat.to_bits t1678
  check (decide ((t2 &&& 2251799813685247) = (t1682 &&& 2251799813685247)))

example : passes t_from_string_specials_50 = true := by decide +kernel

/-- tests/ieee.rs:1046 `from_string_specials`. -/
def t_from_string_specials_51 : M Unit := do
  let t1683 ← (parse ("SNaN1".toList) : M Double)
  let t1684 ← is_nan t1683
  check t1684
  let t1685 ← ApiFloat.is_signaling t1683
  check (decide (true = t1685))
  let t1686 ← ApiFloat.is_negative t1683
  check (decide (false = t1686))
  let t1687 ← ApiFloat.to_bits t1683
  check (decide (1 = (t1687 &&& 2251799813685247)))
  let t1688 ← (parse ("SNaN0x1".toList) : M Double)
  let t1689 ← is_nan t1688
  check t1689
  let t1690 ← ApiFloat.is_signaling t1688
  check (decide (true = t1690))
  let t1691 ← ApiFloat.is_negative t1688
  check (decide (false = t1691))
  let t1692 ← ApiFloat.to_bits t1688
  check (decide (1 = (t1692 &&& 2251799813685247)))
  let t1693 ← (parse ("SNaN(1)".toList) : M Double)
  let t1694 ← is_nan t1693
  check t1694
  let t1695 ← ApiFloat.is_signaling t1693
  check (decide (true = t1695))
  let t1696 ← ApiFloat.is_negative t1693
  check (decide (false = t1696))
  let t1697 ← ApiFloat.to_bits t1693
  check (decide (1 = (t1697 &&& 2251799813685247)))
  let t1698 ← (parse ("SNaN(0x1)".toList) : M Double)
  let t1699 ← is_nan t1698
  check t1699
  let t1700 ← ApiFloat.is_signaling t1698
  check (decide (true = t1700))
  let t1701 ← ApiFloat.is_negative t1698
  check (decide (false = t1701))
  let t1702 ← ApiFloat.to_bits t1698
  check (decide (1 = (t1702 &&& 2251799813685247)))
  let t1703 ← (parse ("-SNaN1".toList) : M Double)
  let t1704 ← is_nan t1703
  check t1704
  let t1705 ← ApiFloat.is_signaling t1703
  check (decide (true = t1705))
  let t1706 ← ApiFloat.is_negative t1703
  check (decide (true = t1706))
  let t1707 ← ApiFloat.to_bits t1703
  check (decide (1 = (t1707 &&& 2251799813685247)))
  let t1708 ← (parse ("-SNaN0x1".toList) : M Double)
  let t1709 ← is_nan t1708
  check t1709
  let t1710 ← ApiFloat.is_signaling t1708
  check (decide (true = t1710))
  let t1711 ← ApiFloat.is_negative t1708
  check (decide (true = t1711))
  let t1712 ← ApiFloat.to_bits t1708
  check (decide (1 = (t1712 &&& 2251799813685247)))
  let t1713 ← (parse ("-SNaN(1)".toList) : M Double)
  let t1714 ← is_nan t1713
  check t1714
  let t1715 ← ApiFloat.is_signaling t1713
  check (decide (true = t1715))
  let t1716 ← ApiFloat.is_negative t1713
  check (decide (true = t1716))

example : passes t_from_string_specials_51 = true := by decide +kernel

/-- tests/ieee.rs:1046 `from_string_specials`. -/
def t_from_string_specials_52 : M Unit := do
  let t1713 ← (parse ("-SNaN(1)".toList) : M Double)
  let t1717 ← ApiFloat.to_bits t1713
  check (decide (1 = (t1717 &&& 2251799813685247)))
  let t1718 ← (parse ("-SNaN(0x1)".toList) : M Double)
  let t1719 ← is_nan t1718
  check t1719
  let t1720 ← ApiFloat.is_signaling t1718
  check (decide (true = t1720))
  let t1721 ← ApiFloat.is_negative t1718
  check (decide (true = t1721))
  let t1722 ← ApiFloat.to_bits t1718
  check (decide (1 = (t1722 &&& 2251799813685247)))
  let t1723 ← (parse ("SNaN123".toList) : M Double)
  let t1724 ← is_nan t1723
  check t1724
  let t1725 ← ApiFloat.is_signaling t1723
  check (decide (true = t1725))
  let t1726 ← ApiFloat.is_negative t1723
  check (decide (false = t1726))
  let t1727 ← ApiFloat.to_bits t1723
  check (decide (123 = (t1727 &&& 2251799813685247)))
  let t1728 ← (parse ("SNaN0x7b".toList) : M Double)
  let t1729 ← is_nan t1728
  check t1729
  let t1730 ← ApiFloat.is_signaling t1728
  check (decide (true = t1730))
  let t1731 ← ApiFloat.is_negative t1728
  check (decide (false = t1731))
  let t1732 ← ApiFloat.to_bits t1728
  check (decide (123 = (t1732 &&& 2251799813685247)))
  let t1733 ← (parse ("SNaN(123)".toList) : M Double)
  let t1734 ← is_nan t1733
  check t1734
  let t1735 ← ApiFloat.is_signaling t1733
  check (decide (true = t1735))
  let t1736 ← ApiFloat.is_negative t1733
  check (decide (false = t1736))
  let t1737 ← ApiFloat.to_bits t1733
  check (decide (123 = (t1737 &&& 2251799813685247)))
  let t1738 ← (parse ("SNaN(0x7b)".toList) : M Double)
  let t1739 ← is_nan t1738
  check t1739
  let t1740 ← ApiFloat.is_signaling t1738
  check (decide (true = t1740))
  let t1741 ← ApiFloat.is_negative t1738
  check (decide (false = t1741))
  let t1742 ← ApiFloat.to_bits t1738
  check (decide (123 = (t1742 &&& 2251799813685247)))
  let t1743 ← (parse ("-SNaN123".toList) : M Double)
  let t1744 ← is_nan t1743
  check t1744
  let t1745 ← ApiFloat.is_signaling t1743
  check (decide (true = t1745))
  let t1746 ← ApiFloat.is_negative t1743
  check (decide (true = t1746))
  let t1747 ← ApiFloat.to_bits t1743
  check (decide (123 = (t1747 &&& 2251799813685247)))
  let t1748 ← (parse ("-SNaN0x7b".toList) : M Double)
  let t1749 ← is_nan t1748
  check t1749
  let t1750 ← ApiFloat.is_signaling t1748
  check (decide (true = t1750))

example : passes t_from_string_specials_52 = true := by decide +kernel

/-- tests/ieee.rs:1046 `from_string_specials`. -/
def t_from_string_specials_53 : M Unit := do
  let t1748 ← (parse ("-SNaN0x7b".toList) : M Double)
  let t1751 ← ApiFloat.is_negative t1748
  check (decide (true = t1751))
  let t1752 ← ApiFloat.to_bits t1748
  check (decide (123 = (t1752 &&& 2251799813685247)))
  let t1753 ← (parse ("-SNaN(123)".toList) : M Double)
  let t1754 ← is_nan t1753
  check t1754
  let t1755 ← ApiFloat.is_signaling t1753
  check (decide (true = t1755))
  let t1756 ← ApiFloat.is_negative t1753
  check (decide (true = t1756))
  let t1757 ← ApiFloat.to_bits t1753
  check (decide (123 = (t1757 &&& 2251799813685247)))
  let t1758 ← (parse ("-SNaN(0x7b)".toList) : M Double)
  let t1759 ← is_nan t1758
  check t1759
  let t1760 ← ApiFloat.is_signaling t1758
  check (decide (true = t1760))
  let t1761 ← ApiFloat.is_negative t1758
  check (decide (true = t1761))
  let t1762 ← ApiFloat.to_bits t1758
  check (decide (123 = (t1762 &&& 2251799813685247)))
  let t1763 ← (parse ("SNaN3735928559".toList) : M Double)
  let t1764 ← is_nan t1763
  check t1764
  let t1765 ← ApiFloat.is_signaling t1763
  check (decide (true = t1765))
  let t1766 ← ApiFloat.is_negative t1763
  check (decide (false = t1766))
  let t1767 ← ApiFloat.to_bits t1763
  check (decide (3735928559 = (t1767 &&& 2251799813685247)))
  let t1768 ← (parse ("SNaN0xdeadbeef".toList) : M Double)
  let t1769 ← is_nan t1768
  check t1769
  let t1770 ← ApiFloat.is_signaling t1768
  check (decide (true = t1770))
  let t1771 ← ApiFloat.is_negative t1768
  check (decide (false = t1771))
  let t1772 ← ApiFloat.to_bits t1768
  check (decide (3735928559 = (t1772 &&& 2251799813685247)))
  let t1773 ← (parse ("SNaN(3735928559)".toList) : M Double)
  let t1774 ← is_nan t1773
  check t1774
  let t1775 ← ApiFloat.is_signaling t1773
  check (decide (true = t1775))
  let t1776 ← ApiFloat.is_negative t1773
  check (decide (false = t1776))
  let t1777 ← ApiFloat.to_bits t1773
  check (decide (3735928559 = (t1777 &&& 2251799813685247)))
  let t1778 ← (parse ("SNaN(0xdeadbeef)".toList) : M Double)
  let t1779 ← is_nan t1778
  check t1779
  let t1780 ← ApiFloat.is_signaling t1778
  check (decide (true = t1780))
  let t1781 ← ApiFloat.is_negative t1778
  check (decide (false = t1781))
  let t1782 ← ApiFloat.to_bits t1778
  check (decide (3735928559 = (t1782 &&& 2251799813685247)))
  let t1783 ← (parse ("-SNaN3735928559".toList) : M Double)
  let t1784 ← is_nan t1783
  check t1784

example : passes t_from_string_specials_53 = true := by decide +kernel

/-- tests/ieee.rs:1046 `from_string_specials`. -/
def t_from_string_specials_54 : M Unit := do
  let t1783 ← (parse ("-SNaN3735928559".toList) : M Double)
  let t1785 ← ApiFloat.is_signaling t1783
  check (decide (true = t1785))
  let t1786 ← ApiFloat.is_negative t1783
  check (decide (true = t1786))
  let t1787 ← ApiFloat.to_bits t1783
  check (decide (3735928559 = (t1787 &&& 2251799813685247)))
  let t1788 ← (parse ("-SNaN0xdeadbeef".toList) : M Double)
  let t1789 ← is_nan t1788
  check t1789
  let t1790 ← ApiFloat.is_signaling t1788
  check (decide (true = t1790))
  let t1791 ← ApiFloat.is_negative t1788
  check (decide (true = t1791))
  let t1792 ← ApiFloat.to_bits t1788
  check (decide (3735928559 = (t1792 &&& 2251799813685247)))
  let t1793 ← (parse ("-SNaN(3735928559)".toList) : M Double)
  let t1794 ← is_nan t1793
  check t1794
  let t1795 ← ApiFloat.is_signaling t1793
  check (decide (true = t1795))
  let t1796 ← ApiFloat.is_negative t1793
  check (decide (true = t1796))
  let t1797 ← ApiFloat.to_bits t1793
  check (decide (3735928559 = (t1797 &&& 2251799813685247)))
  let t1798 ← (parse ("-SNaN(0xdeadbeef)".toList) : M Double)
  let t1799 ← is_nan t1798
  check t1799
  let t1800 ← ApiFloat.is_signaling t1798
  check (decide (true = t1800))
  let t1801 ← ApiFloat.is_negative t1798
  check (decide (true = t1801))
  let t1802 ← ApiFloat.to_bits t1798
  check (decide (3735928559 = (t1802 &&& 2251799813685247)))
  let t1803 ← (parse ("SNaN340282366920938463463374607431768211454".toList) : M Double)
  let t1804 ← is_nan t1803
  check t1804
  let t1805 ← ApiFloat.is_signaling t1803
  check (decide (true = t1805))
  let t1806 ← ApiFloat.is_negative t1803
  check (decide (false = t1806))
  let t1807 ← ApiFloat.to_bits t1803
  check (decide (2251799813685246 = (t1807 &&& 2251799813685247)))
  let t1808 ← (parse ("SNaN0xfffffffffffffffffffffffffffffffe".toList) : M Double)
  let t1809 ← is_nan t1808
  check t1809
  let t1810 ← ApiFloat.is_signaling t1808
  check (decide (true = t1810))
  let t1811 ← ApiFloat.is_negative t1808
  check (decide (false = t1811))
  let t1812 ← ApiFloat.to_bits t1808
  check (decide (2251799813685246 = (t1812 &&& 2251799813685247)))
  let t1813 ← (parse ("SNaN(340282366920938463463374607431768211454)".toList) : M Double)
  let t1814 ← is_nan t1813
  check t1814
  let t1815 ← ApiFloat.is_signaling t1813
  check (decide (true = t1815))
  let t1816 ← ApiFloat.is_negative t1813
  check (decide (false = t1816))
  let t1817 ← ApiFloat.to_bits t1813
  check (decide (2251799813685246 = (t1817 &&& 2251799813685247)))

example : passes t_from_string_specials_54 = true := by decide +kernel

/-- tests/ieee.rs:1046 `from_string_specials`. -/
def t_from_string_specials_55 : M Unit := do
  let t1 ← (ApiFloat.snan none : M Double)
  let t2 ← ApiFloat.to_bits t1
  let t1818 ← (parse ("SNaN(0xfffffffffffffffffffffffffffffffe)".toList) : M Double)
  let t1819 ← is_nan t1818
  check t1819
  let t1820 ← ApiFloat.is_signaling t1818
  check (decide (true = t1820))
  let t1821 ← ApiFloat.is_negative t1818
  check (decide (false = t1821))
  let t1822 ← ApiFloat.to_bits t1818
  check (decide (2251799813685246 = (t1822 &&& 2251799813685247)))
  let t1823 ← (parse ("-SNaN340282366920938463463374607431768211454".toList) : M Double)
  let t1824 ← is_nan t1823
  check t1824
  let t1825 ← ApiFloat.is_signaling t1823
  check (decide (true = t1825))
  let t1826 ← ApiFloat.is_negative t1823
  check (decide (true = t1826))
  let t1827 ← ApiFloat.to_bits t1823
  check (decide (2251799813685246 = (t1827 &&& 2251799813685247)))
  let t1828 ← (parse ("-SNaN0xfffffffffffffffffffffffffffffffe".toList) : M Double)
  let t1829 ← is_nan t1828
  check t1829
  let t1830 ← ApiFloat.is_signaling t1828
  check (decide (true = t1830))
  let t1831 ← ApiFloat.is_negative t1828
  check (decide (true = t1831))
  let t1832 ← ApiFloat.to_bits t1828
  check (decide (2251799813685246 = (t1832 &&& 2251799813685247)))
  let t1833 ← (parse ("-SNaN(340282366920938463463374607431768211454)".toList) : M Double)
  let t1834 ← is_nan t1833
  check t1834
  let t1835 ← ApiFloat.is_signaling t1833
  check (decide (true = t1835))
  let t1836 ← ApiFloat.is_negative t1833
  check (decide (true = t1836))
  let t1837 ← ApiFloat.to_bits t1833
  check (decide (2251799813685246 = (t1837 &&& 2251799813685247)))
  let t1838 ← (parse ("-SNaN(0xfffffffffffffffffffffffffffffffe)".toList) : M Double)
  let t1839 ← is_nan t1838
  check t1839
  let t1840 ← ApiFloat.is_signaling t1838
  check (decide (true = t1840))
  let t1841 ← ApiFloat.is_negative t1838
  check (decide (true = t1841))
  let t1842 ← ApiFloat.to_bits t1838
  check (decide (2251799813685246 = (t1842 &&& 2251799813685247)))
  check (!decide ((t2 &&& 2251799813685247) = 0))
  let t1843 ← (parse ("SNaN2251799813685248".toList) : M Double)
  let t1844 ← is_nan t1843
  check t1844
  let t1845 ← ApiFloat.is_signaling t1843
  check (decide (true = t1845))
  let t1846 ← ApiFloat.is_negative t1843
  check (decide (false = t1846))
  let t1847 ← ApiFloat.to_bits t1843
  check (decide ((t2 &&& 2251799813685247) = (t1847 &&& 2251799813685247)))
  let t1848 ← (parse ("SNaN0x8000000000000".toList) : M Double)
  let t1849 ← is_nan t1848
  check t1849
  let t1850 ← ApiFloat.is_signaling t1848
  check (decide (true = t1850))

example : passes t_from_string_specials_55 = true := by decide +kernel

/-- tests/ieee.rs:1046 `from_string_specials`. -/
def t_from_string_specials_56 : M Unit := do
  let t1 ← (ApiFloat.snan none : M Double)
  let t2 ← ApiFloat.to_bits t1
  let t1848 ← (parse ("SNaN0x8000000000000".toList) : M Double)
  let t1851 ← ApiFloat.is_negative t1848
  check (decide (false = t1851))
  let t1852 ← ApiFloat.to_bits t1848
  check (decide ((t2 &&& 2251799813685247) = (t1852 &&& 2251799813685247)))
  let t1853 ← (parse ("SNaN(2251799813685248)".toList) : M Double)
  let t1854 ← is_nan t1853
  check t1854
  let t1855 ← ApiFloat.is_signaling t1853
  check (decide (true = t1855))
  let t1856 ← ApiFloat.is_negative t1853
  check (decide (false = t1856))
  let t1857 ← ApiFloat.to_bits t1853
  check (decide ((t2 &&& 2251799813685247) = (t1857 &&& 2251799813685247)))
  let t1858 ← (parse ("SNaN(0x8000000000000)".toList) : M Double)
  let t1859 ← is_nan t1858
  check t1859
  let t1860 ← ApiFloat.is_signaling t1858
  check (decide (true = t1860))
  let t1861 ← ApiFloat.is_negative t1858
  check (decide (false = t1861))
  let t1862 ← ApiFloat.to_bits t1858
  check (decide ((t2 &&& 2251799813685247) = (t1862 &&& 2251799813685247)))
  check (!decide ((t2 &&& 2251799813685247) = 0))
  let t1863 ← (parse ("-SNaN2251799813685248".toList) : M Double)
  let t1864 ← is_nan t1863
  check t1864
  let t1865 ← ApiFloat.is_signaling t1863
  check (decide (true = t1865))
  let t1866 ← ApiFloat.is_negative t1863
  check (decide (true = t1866))
  let t1867 ← ApiFloat.to_bits t1863
  check (decide ((t2 &&& 2251799813685247) = (t1867 &&& 2251799813685247)))
  let t1868 ← (parse ("-SNaN0x8000000000000".toList) : M Double)
  let t1869 ← is_nan t1868
  check t1869
  let t1870 ← ApiFloat.is_signaling t1868
  check (decide (true = t1870))
  let t1871 ← ApiFloat.is_negative t1868
  check (decide (true = t1871))
  let t1872 ← ApiFloat.to_bits t1868
  check (decide ((t2 &&& 2251799813685247) = (t1872 &&& 2251799813685247)))
  let t1873 ← (parse ("-SNaN(2251799813685248)".toList) : M Double)
  let t1874 ← is_nan t1873
  check t1874
  let t1875 ← ApiFloat.is_signaling t1873
  check (decide (true = t1875))
  let t1876 ← ApiFloat.is_negative t1873
  check (decide (true = t1876))
  let t1877 ← ApiFloat.to_bits t1873
  check (decide ((t2 &&& 2251799813685247) = (t1877 &&& 2251799813685247)))
  let t1878 ← (parse ("-SNaN(0x8000000000000)".toList) : M Double)
  let t1879 ← is_nan t1878
  check t1879
  let t1880 ← ApiFloat.is_signaling t1878
  check (decide (true = t1880))
  let t1881 ← ApiFloat.is_negative t1878
  check (decide (true = t1881))
  let t1882 ← ApiFloat.to_bits t1878
  check (decide ((t2 &&& 2251799813685247) = (t1882 &&& 2251799813685247)))
  let t1883 ← (parse ("SNaN1125899906842624".toList) : M Double)
  let t1884 ← is_nan t1883
  check t1884

example : passes t_from_string_specials_56 = true := by decide +kernel

/-- tests/ieee.rs:1046 `from_string_specials`. -/
def t_from_string_specials_57 : M Unit := do
  let t1883 ← (parse ("SNaN1125899906842624".toList) : M Double)
  let t1885 ← ApiFloat.is_signaling t1883
  check (decide (true = t1885))
  let t1886 ← ApiFloat.is_negative t1883
  check (decide (false = t1886))
  let t1887 ← ApiFloat.to_bits t1883
  check (decide (1125899906842624 = (t1887 &&& 2251799813685247)))
  let t1888 ← (parse ("SNaN0x4000000000000".toList) : M Double)
  let t1889 ← is_nan t1888
  check t1889
  let t1890 ← ApiFloat.is_signaling t1888
  check (decide (true = t1890))
  let t1891 ← ApiFloat.is_negative t1888
  check (decide (false = t1891))
  let t1892 ← ApiFloat.to_bits t1888
  check (decide (1125899906842624 = (t1892 &&& 2251799813685247)))
  let t1893 ← (parse ("SNaN(1125899906842624)".toList) : M Double)
  let t1894 ← is_nan t1893
  check t1894
  let t1895 ← ApiFloat.is_signaling t1893
  check (decide (true = t1895))
  let t1896 ← ApiFloat.is_negative t1893
  check (decide (false = t1896))
  let t1897 ← ApiFloat.to_bits t1893
  check (decide (1125899906842624 = (t1897 &&& 2251799813685247)))
  let t1898 ← (parse ("SNaN(0x4000000000000)".toList) : M Double)
  let t1899 ← is_nan t1898
  check t1899
  let t1900 ← ApiFloat.is_signaling t1898
  check (decide (true = t1900))
  let t1901 ← ApiFloat.is_negative t1898
  check (decide (false = t1901))
  let t1902 ← ApiFloat.to_bits t1898
  check (decide (1125899906842624 = (t1902 &&& 2251799813685247)))
  let t1903 ← (parse ("-SNaN1125899906842624".toList) : M Double)
  let t1904 ← is_nan t1903
  check t1904
  let t1905 ← ApiFloat.is_signaling t1903
  check (decide (true = t1905))
  let t1906 ← ApiFloat.is_negative t1903
  check (decide (true = t1906))
  let t1907 ← ApiFloat.to_bits t1903
  check (decide (1125899906842624 = (t1907 &&& 2251799813685247)))
  let t1908 ← (parse ("-SNaN0x4000000000000".toList) : M Double)
  let t1909 ← is_nan t1908
  check t1909
  let t1910 ← ApiFloat.is_signaling t1908
  check (decide (true = t1910))
  let t1911 ← ApiFloat.is_negative t1908
  check (decide (true = t1911))
  let t1912 ← ApiFloat.to_bits t1908
  check (decide (1125899906842624 = (t1912 &&& 2251799813685247)))
  let t1913 ← (parse ("-SNaN(1125899906842624)".toList) : M Double)
  let t1914 ← is_nan t1913
  check t1914
  let t1915 ← ApiFloat.is_signaling t1913
  check (decide (true = t1915))
  let t1916 ← ApiFloat.is_negative t1913
  check (decide (true = t1916))
  let t1917 ← ApiFloat.to_bits t1913
  check (decide (1125899906842624 = (t1917 &&& 2251799813685247)))

example : passes t_from_string_specials_57 = true := by decide +kernel

/-- tests/ieee.rs:1046 `from_string_specials`. -/
def t_from_string_specials_58 : M Unit := do
  let t1918 ← (parse ("-SNaN(0x4000000000000)".toList) : M Double)
  let t1919 ← is_nan t1918
  check t1919
  let t1920 ← ApiFloat.is_signaling t1918
  check (decide (true = t1920))
  let t1921 ← ApiFloat.is_negative t1918
  check (decide (true = t1921))
  let t1922 ← ApiFloat.to_bits t1918
  check (decide (1125899906842624 = (t1922 &&& 2251799813685247)))
  let t1923 ← (parse ("SNaN562949953421312".toList) : M Double)
  let t1924 ← is_nan t1923
  check t1924
  let t1925 ← ApiFloat.is_signaling t1923
  check (decide (true = t1925))
  let t1926 ← ApiFloat.is_negative t1923
  check (decide (false = t1926))
  let t1927 ← ApiFloat.to_bits t1923
  check (decide (562949953421312 = (t1927 &&& 2251799813685247)))
  let t1928 ← (parse ("SNaN0x2000000000000".toList) : M Double)
  let t1929 ← is_nan t1928
  check t1929
  let t1930 ← ApiFloat.is_signaling t1928
  check (decide (true = t1930))
  let t1931 ← ApiFloat.is_negative t1928
  check (decide (false = t1931))
  let t1932 ← ApiFloat.to_bits t1928
  check (decide (562949953421312 = (t1932 &&& 2251799813685247)))
  let t1933 ← (parse ("SNaN(562949953421312)".toList) : M Double)
  let t1934 ← is_nan t1933
  check t1934
  let t1935 ← ApiFloat.is_signaling t1933
  check (decide (true = t1935))
  let t1936 ← ApiFloat.is_negative t1933
  check (decide (false = t1936))
  let t1937 ← ApiFloat.to_bits t1933
  check (decide (562949953421312 = (t1937 &&& 2251799813685247)))
  let t1938 ← (parse ("SNaN(0x2000000000000)".toList) : M Double)
  let t1939 ← is_nan t1938
  check t1939
  let t1940 ← ApiFloat.is_signaling t1938
  check (decide (true = t1940))
  let t1941 ← ApiFloat.is_negative t1938
  check (decide (false = t1941))
  let t1942 ← ApiFloat.to_bits t1938
  check (decide (562949953421312 = (t1942 &&& 2251799813685247)))
  let t1943 ← (parse ("-SNaN562949953421312".toList) : M Double)
  let t1944 ← is_nan t1943
  check t1944
  let t1945 ← ApiFloat.is_signaling t1943
  check (decide (true = t1945))
  let t1946 ← ApiFloat.is_negative t1943
  check (decide (true = t1946))
  let t1947 ← ApiFloat.to_bits t1943
  check (decide (562949953421312 = (t1947 &&& 2251799813685247)))
  let t1948 ← (parse ("-SNaN0x2000000000000".toList) : M Double)
  let t1949 ← is_nan t1948
  check t1949
  let t1950 ← ApiFloat.is_signaling t1948
  check (decide (true = t1950))
  let t1951 ← ApiFloat.is_negative t1948
  check (decide (true = t1951))

example : passes t_from_string_specials_58 = true := by decide +kernel

/-- tests/ieee.rs:1046 `from_string_specials`. -/
def t_from_string_specials_59 : M Unit := do
  let t1948 ← (parse ("-SNaN0x2000000000000".toList) : M Double)
  let t1952 ← ApiFloat.to_bits t1948
  check (decide (562949953421312 = (t1952 &&& 2251799813685247)))
  let t1953 ← (parse ("-SNaN(562949953421312)".toList) : M Double)
  let t1954 ← is_nan t1953
  check t1954
  let t1955 ← ApiFloat.is_signaling t1953
  check (decide (true = t1955))
  let t1956 ← ApiFloat.is_negative t1953
  check (decide (true = t1956))
  let t1957 ← ApiFloat.to_bits t1953
  check (decide (562949953421312 = (t1957 &&& 2251799813685247)))
  let t1958 ← (parse ("-SNaN(0x2000000000000)".toList) : M Double)
  let t1959 ← is_nan t1958
  check t1959
  let t1960 ← ApiFloat.is_signaling t1958
  check (decide (true = t1960))
  let t1961 ← ApiFloat.is_negative t1958
  check (decide (true = t1961))
  let t1962 ← ApiFloat.to_bits t1958
  check (decide (562949953421312 = (t1962 &&& 2251799813685247)))
  let t1963 ← (parse ("inf".toList) : M Double)
  let t1964 ← is_infinite t1963
  check t1964
  let t1965 ← ApiFloat.is_negative t1963
  check (decide (false = t1965))
  let t1966 ← ApiFloat.to_bits t1963
  check (decide (0 = (t1966 &&& 2251799813685247)))
  let t1967 ← (parse ("INFINITY".toList) : M Double)
  let t1968 ← is_infinite t1967
  check t1968
  let t1969 ← ApiFloat.is_negative t1967
  check (decide (false = t1969))
  let t1970 ← ApiFloat.to_bits t1967
  check (decide (0 = (t1970 &&& 2251799813685247)))
  let t1971 ← (parse ("+Inf".toList) : M Double)
  let t1972 ← is_infinite t1971
  check t1972
  let t1973 ← ApiFloat.is_negative t1971
  check (decide (false = t1973))
  let t1974 ← ApiFloat.to_bits t1971
  check (decide (0 = (t1974 &&& 2251799813685247)))
  let t1975 ← (parse ("-inf".toList) : M Double)
  let t1976 ← is_infinite t1975
  check t1976
  let t1977 ← ApiFloat.is_negative t1975
  check (decide (true = t1977))
  let t1978 ← ApiFloat.to_bits t1975
  check (decide (0 = (t1978 &&& 2251799813685247)))
  let t1979 ← (parse ("-INFINITY".toList) : M Double)
  let t1980 ← is_infinite t1979
  check t1980
  let t1981 ← ApiFloat.is_negative t1979
  check (decide (true = t1981))
  let t1982 ← ApiFloat.to_bits t1979
  check (decide (0 = (t1982 &&& 2251799813685247)))
  let t1983 ← (parse ("-Inf".toList) : M Double)
  let t1984 ← is_infinite t1983
  check t1984
  let t1985 ← ApiFloat.is_negative t1983
  check (decide (true = t1985))

example : passes t_from_string_specials_59 = true := by decide +kernel

/-- tests/ieee.rs:1046 `from_string_specials`. -/
def t_from_string_specials_60 : M Unit := do
  let t1983 ← (parse ("-Inf".toList) : M Double)
  let t1986 ← ApiFloat.to_bits t1983
  check (decide (0 = (t1986 &&& 2251799813685247)))

example : passes t_from_string_specials_60 = true := by decide +kernel

end Apf.Conformance.Ieee1
