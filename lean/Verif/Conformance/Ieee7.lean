import Verif.Conformance.Support
/-! Generated by tools/tests_to_lean.py from tests/ieee.rs. -/

namespace Apf.Conformance.Ieee7
set_option maxRecDepth 100000
set_option linter.all false

/-- tests/ieee.rs:4566 `f8_to_string`. -/
def t_f8_to_string_1 : M Unit := do
  let t1 ← (ApiFloat.from_bits 0 : M Float8E5M2)
  let t2 ← ApiFloat.fmt t1 none none false
  let t3 ← is_nan t1
  check (!t3 || decide (t2 = ("NaN".toList)))
  let t4 ← (parse t2 : M Float8E5M2)
  let t5 ← ApiFloat.bitwise_eq t1 t4
  check (t3 || t5)
  let t6 ← (ApiFloat.from_bits 1 : M Float8E5M2)
  let t7 ← ApiFloat.fmt t6 none none false
  let t8 ← is_nan t6
  check (!t8 || decide (t7 = ("NaN".toList)))
  let t9 ← (parse t7 : M Float8E5M2)
  let t10 ← ApiFloat.bitwise_eq t6 t9
  check (t8 || t10)
  let t11 ← (ApiFloat.from_bits 2 : M Float8E5M2)
  let t12 ← ApiFloat.fmt t11 none none false
  let t13 ← is_nan t11
  check (!t13 || decide (t12 = ("NaN".toList)))
  let t14 ← (parse t12 : M Float8E5M2)
  let t15 ← ApiFloat.bitwise_eq t11 t14
  check (t13 || t15)
  let t16 ← (ApiFloat.from_bits 3 : M Float8E5M2)
  let t17 ← ApiFloat.fmt t16 none none false
  let t18 ← is_nan t16
  check (!t18 || decide (t17 = ("NaN".toList)))
  let t19 ← (parse t17 : M Float8E5M2)
  let t20 ← ApiFloat.bitwise_eq t16 t19
  check (t18 || t20)
  let t21 ← (ApiFloat.from_bits 4 : M Float8E5M2)
  let t22 ← ApiFloat.fmt t21 none none false
  let t23 ← is_nan t21
  check (!t23 || decide (t22 = ("NaN".toList)))
  let t24 ← (parse t22 : M Float8E5M2)
  let t25 ← ApiFloat.bitwise_eq t21 t24
  check (t23 || t25)
  let t26 ← (ApiFloat.from_bits 5 : M Float8E5M2)
  let t27 ← ApiFloat.fmt t26 none none false
  let t28 ← is_nan t26
  check (!t28 || decide (t27 = ("NaN".toList)))
  let t29 ← (parse t27 : M Float8E5M2)
  let t30 ← ApiFloat.bitwise_eq t26 t29
  check (t28 || t30)
  let t31 ← (ApiFloat.from_bits 6 : M Float8E5M2)
  let t32 ← ApiFloat.fmt t31 none none false
  let t33 ← is_nan t31
  check (!t33 || decide (t32 = ("NaN".toList)))
  let t34 ← (parse t32 : M Float8E5M2)
  let t35 ← ApiFloat.bitwise_eq t31 t34
  check (t33 || t35)
  let t36 ← (ApiFloat.from_bits 7 : M Float8E5M2)
  let t37 ← ApiFloat.fmt t36 none none false
  let t38 ← is_nan t36
  check (!t38 || decide (t37 = ("NaN".toList)))
  let t39 ← (parse t37 : M Float8E5M2)
  let t40 ← ApiFloat.bitwise_eq t36 t39
  check (t38 || t40)
  let t41 ← (ApiFloat.from_bits 8 : M Float8E5M2)
  let t42 ← ApiFloat.fmt t41 none none false
  let t43 ← is_nan t41
  check (!t43 || decide (t42 = ("NaN".toList)))

example : passes t_f8_to_string_1 = true := by decide +kernel

/-- tests/ieee.rs:4566 `f8_to_string`. -/
def t_f8_to_string_2 : M Unit := do
  let t41 ← (ApiFloat.from_bits 8 : M Float8E5M2)
  let t42 ← ApiFloat.fmt t41 none none false
  let t43 ← is_nan t41
  let t44 ← (parse t42 : M Float8E5M2)
  let t45 ← ApiFloat.bitwise_eq t41 t44
  check (t43 || t45)
  let t46 ← (ApiFloat.from_bits 9 : M Float8E5M2)
  let t47 ← ApiFloat.fmt t46 none none false
  let t48 ← is_nan t46
  check (!t48 || decide (t47 = ("NaN".toList)))
  let t49 ← (parse t47 : M Float8E5M2)
  let t50 ← ApiFloat.bitwise_eq t46 t49
  check (t48 || t50)
  let t51 ← (ApiFloat.from_bits 10 : M Float8E5M2)
  let t52 ← ApiFloat.fmt t51 none none false
  let t53 ← is_nan t51
  check (!t53 || decide (t52 = ("NaN".toList)))
  let t54 ← (parse t52 : M Float8E5M2)
  let t55 ← ApiFloat.bitwise_eq t51 t54
  check (t53 || t55)
  let t56 ← (ApiFloat.from_bits 11 : M Float8E5M2)
  let t57 ← ApiFloat.fmt t56 none none false
  let t58 ← is_nan t56
  check (!t58 || decide (t57 = ("NaN".toList)))
  let t59 ← (parse t57 : M Float8E5M2)
  let t60 ← ApiFloat.bitwise_eq t56 t59
  check (t58 || t60)
  let t61 ← (ApiFloat.from_bits 12 : M Float8E5M2)
  let t62 ← ApiFloat.fmt t61 none none false
  let t63 ← is_nan t61
  check (!t63 || decide (t62 = ("NaN".toList)))
  let t64 ← (parse t62 : M Float8E5M2)
  let t65 ← ApiFloat.bitwise_eq t61 t64
  check (t63 || t65)
  let t66 ← (ApiFloat.from_bits 13 : M Float8E5M2)
  let t67 ← ApiFloat.fmt t66 none none false
  let t68 ← is_nan t66
  check (!t68 || decide (t67 = ("NaN".toList)))
  let t69 ← (parse t67 : M Float8E5M2)
  let t70 ← ApiFloat.bitwise_eq t66 t69
  check (t68 || t70)
  let t71 ← (ApiFloat.from_bits 14 : M Float8E5M2)
  let t72 ← ApiFloat.fmt t71 none none false
  let t73 ← is_nan t71
  check (!t73 || decide (t72 = ("NaN".toList)))
  let t74 ← (parse t72 : M Float8E5M2)
  let t75 ← ApiFloat.bitwise_eq t71 t74
  check (t73 || t75)
  let t76 ← (ApiFloat.from_bits 15 : M Float8E5M2)
  let t77 ← ApiFloat.fmt t76 none none false
  let t78 ← is_nan t76
  check (!t78 || decide (t77 = ("NaN".toList)))
  let t79 ← (parse t77 : M Float8E5M2)
  let t80 ← ApiFloat.bitwise_eq t76 t79
  check (t78 || t80)
  let t81 ← (ApiFloat.from_bits 16 : M Float8E5M2)
  let t82 ← ApiFloat.fmt t81 none none false
  let t83 ← is_nan t81
  check (!t83 || decide (t82 = ("NaN".toList)))
  let t84 ← (parse t82 : M Float8E5M2)
  let t85 ← ApiFloat.bitwise_eq t81 t84
  check (t83 || t85)
  let t86 ← (ApiFloat.from_bits 17 : M Float8E5M2)
  let t87 ← ApiFloat.fmt t86 none none false
  let t88 ← is_nan t86
  check (!t88 || decide (t87 = ("NaN".toList)))

example : passes t_f8_to_string_2 = true := by decide +kernel

/-- tests/ieee.rs:4566 `f8_to_string`. -/
def t_f8_to_string_3 : M Unit := do
  let t86 ← (ApiFloat.from_bits 17 : M Float8E5M2)
  let t87 ← ApiFloat.fmt t86 none none false
  let t88 ← is_nan t86
  let t89 ← (parse t87 : M Float8E5M2)
  let t90 ← ApiFloat.bitwise_eq t86 t89
  check (t88 || t90)
  let t91 ← (ApiFloat.from_bits 18 : M Float8E5M2)
  let t92 ← ApiFloat.fmt t91 none none false
  let t93 ← is_nan t91
  check (!t93 || decide (t92 = ("NaN".toList)))
  let t94 ← (parse t92 : M Float8E5M2)
  let t95 ← ApiFloat.bitwise_eq t91 t94
  check (t93 || t95)
  let t96 ← (ApiFloat.from_bits 19 : M Float8E5M2)
  let t97 ← ApiFloat.fmt t96 none none false
  let t98 ← is_nan t96
  check (!t98 || decide (t97 = ("NaN".toList)))
  let t99 ← (parse t97 : M Float8E5M2)
  let t100 ← ApiFloat.bitwise_eq t96 t99
  check (t98 || t100)
  let t101 ← (ApiFloat.from_bits 20 : M Float8E5M2)
  let t102 ← ApiFloat.fmt t101 none none false
  let t103 ← is_nan t101
  check (!t103 || decide (t102 = ("NaN".toList)))
  let t104 ← (parse t102 : M Float8E5M2)
  let t105 ← ApiFloat.bitwise_eq t101 t104
  check (t103 || t105)
  let t106 ← (ApiFloat.from_bits 21 : M Float8E5M2)
  let t107 ← ApiFloat.fmt t106 none none false
  let t108 ← is_nan t106
  check (!t108 || decide (t107 = ("NaN".toList)))
  let t109 ← (parse t107 : M Float8E5M2)
  let t110 ← ApiFloat.bitwise_eq t106 t109
  check (t108 || t110)
  let t111 ← (ApiFloat.from_bits 22 : M Float8E5M2)
  let t112 ← ApiFloat.fmt t111 none none false
  let t113 ← is_nan t111
  check (!t113 || decide (t112 = ("NaN".toList)))
  let t114 ← (parse t112 : M Float8E5M2)
  let t115 ← ApiFloat.bitwise_eq t111 t114
  check (t113 || t115)
  let t116 ← (ApiFloat.from_bits 23 : M Float8E5M2)
  let t117 ← ApiFloat.fmt t116 none none false
  let t118 ← is_nan t116
  check (!t118 || decide (t117 = ("NaN".toList)))
  let t119 ← (parse t117 : M Float8E5M2)
  let t120 ← ApiFloat.bitwise_eq t116 t119
  check (t118 || t120)
  let t121 ← (ApiFloat.from_bits 24 : M Float8E5M2)
  let t122 ← ApiFloat.fmt t121 none none false
  let t123 ← is_nan t121
  check (!t123 || decide (t122 = ("NaN".toList)))
  let t124 ← (parse t122 : M Float8E5M2)
  let t125 ← ApiFloat.bitwise_eq t121 t124
  check (t123 || t125)
  let t126 ← (ApiFloat.from_bits 25 : M Float8E5M2)
  let t127 ← ApiFloat.fmt t126 none none false
  let t128 ← is_nan t126
  check (!t128 || decide (t127 = ("NaN".toList)))
  let t129 ← (parse t127 : M Float8E5M2)
  let t130 ← ApiFloat.bitwise_eq t126 t129
  check (t128 || t130)
  let t131 ← (ApiFloat.from_bits 26 : M Float8E5M2)
  let t132 ← ApiFloat.fmt t131 none none false
  let t133 ← is_nan t131
  check (!t133 || decide (t132 = ("NaN".toList)))

example : passes t_f8_to_string_3 = true := by decide +kernel

/-- tests/ieee.rs:4566 `f8_to_string`. -/
def t_f8_to_string_4 : M Unit := do
  let t131 ← (ApiFloat.from_bits 26 : M Float8E5M2)
  let t132 ← ApiFloat.fmt t131 none none false
  let t133 ← is_nan t131
  let t134 ← (parse t132 : M Float8E5M2)
  let t135 ← ApiFloat.bitwise_eq t131 t134
  check (t133 || t135)
  let t136 ← (ApiFloat.from_bits 27 : M Float8E5M2)
  let t137 ← ApiFloat.fmt t136 none none false
  let t138 ← is_nan t136
  check (!t138 || decide (t137 = ("NaN".toList)))
  let t139 ← (parse t137 : M Float8E5M2)
  let t140 ← ApiFloat.bitwise_eq t136 t139
  check (t138 || t140)
  let t141 ← (ApiFloat.from_bits 28 : M Float8E5M2)
  let t142 ← ApiFloat.fmt t141 none none false
  let t143 ← is_nan t141
  check (!t143 || decide (t142 = ("NaN".toList)))
  let t144 ← (parse t142 : M Float8E5M2)
  let t145 ← ApiFloat.bitwise_eq t141 t144
  check (t143 || t145)
  let t146 ← (ApiFloat.from_bits 29 : M Float8E5M2)
  let t147 ← ApiFloat.fmt t146 none none false
  let t148 ← is_nan t146
  check (!t148 || decide (t147 = ("NaN".toList)))
  let t149 ← (parse t147 : M Float8E5M2)
  let t150 ← ApiFloat.bitwise_eq t146 t149
  check (t148 || t150)
  let t151 ← (ApiFloat.from_bits 30 : M Float8E5M2)
  let t152 ← ApiFloat.fmt t151 none none false
  let t153 ← is_nan t151
  check (!t153 || decide (t152 = ("NaN".toList)))
  let t154 ← (parse t152 : M Float8E5M2)
  let t155 ← ApiFloat.bitwise_eq t151 t154
  check (t153 || t155)
  let t156 ← (ApiFloat.from_bits 31 : M Float8E5M2)
  let t157 ← ApiFloat.fmt t156 none none false
  let t158 ← is_nan t156
  check (!t158 || decide (t157 = ("NaN".toList)))
  let t159 ← (parse t157 : M Float8E5M2)
  let t160 ← ApiFloat.bitwise_eq t156 t159
  check (t158 || t160)
  let t161 ← (ApiFloat.from_bits 32 : M Float8E5M2)
  let t162 ← ApiFloat.fmt t161 none none false
  let t163 ← is_nan t161
  check (!t163 || decide (t162 = ("NaN".toList)))
  let t164 ← (parse t162 : M Float8E5M2)
  let t165 ← ApiFloat.bitwise_eq t161 t164
  check (t163 || t165)
  let t166 ← (ApiFloat.from_bits 33 : M Float8E5M2)
  let t167 ← ApiFloat.fmt t166 none none false
  let t168 ← is_nan t166
  check (!t168 || decide (t167 = ("NaN".toList)))
  let t169 ← (parse t167 : M Float8E5M2)
  let t170 ← ApiFloat.bitwise_eq t166 t169
  check (t168 || t170)
  let t171 ← (ApiFloat.from_bits 34 : M Float8E5M2)
  let t172 ← ApiFloat.fmt t171 none none false
  let t173 ← is_nan t171
  check (!t173 || decide (t172 = ("NaN".toList)))
  let t174 ← (parse t172 : M Float8E5M2)
  let t175 ← ApiFloat.bitwise_eq t171 t174
  check (t173 || t175)
  let t176 ← (ApiFloat.from_bits 35 : M Float8E5M2)
  let t177 ← ApiFloat.fmt t176 none none false
  let t178 ← is_nan t176
  check (!t178 || decide (t177 = ("NaN".toList)))

example : passes t_f8_to_string_4 = true := by decide +kernel

/-- tests/ieee.rs:4566 `f8_to_string`. -/
def t_f8_to_string_5 : M Unit := do
  let t176 ← (ApiFloat.from_bits 35 : M Float8E5M2)
  let t177 ← ApiFloat.fmt t176 none none false
  let t178 ← is_nan t176
  let t179 ← (parse t177 : M Float8E5M2)
  let t180 ← ApiFloat.bitwise_eq t176 t179
  check (t178 || t180)
  let t181 ← (ApiFloat.from_bits 36 : M Float8E5M2)
  let t182 ← ApiFloat.fmt t181 none none false
  let t183 ← is_nan t181
  check (!t183 || decide (t182 = ("NaN".toList)))
  let t184 ← (parse t182 : M Float8E5M2)
  let t185 ← ApiFloat.bitwise_eq t181 t184
  check (t183 || t185)
  let t186 ← (ApiFloat.from_bits 37 : M Float8E5M2)
  let t187 ← ApiFloat.fmt t186 none none false
  let t188 ← is_nan t186
  check (!t188 || decide (t187 = ("NaN".toList)))
  let t189 ← (parse t187 : M Float8E5M2)
  let t190 ← ApiFloat.bitwise_eq t186 t189
  check (t188 || t190)
  let t191 ← (ApiFloat.from_bits 38 : M Float8E5M2)
  let t192 ← ApiFloat.fmt t191 none none false
  let t193 ← is_nan t191
  check (!t193 || decide (t192 = ("NaN".toList)))
  let t194 ← (parse t192 : M Float8E5M2)
  let t195 ← ApiFloat.bitwise_eq t191 t194
  check (t193 || t195)
  let t196 ← (ApiFloat.from_bits 39 : M Float8E5M2)
  let t197 ← ApiFloat.fmt t196 none none false
  let t198 ← is_nan t196
  check (!t198 || decide (t197 = ("NaN".toList)))
  let t199 ← (parse t197 : M Float8E5M2)
  let t200 ← ApiFloat.bitwise_eq t196 t199
  check (t198 || t200)
  let t201 ← (ApiFloat.from_bits 40 : M Float8E5M2)
  let t202 ← ApiFloat.fmt t201 none none false
  let t203 ← is_nan t201
  check (!t203 || decide (t202 = ("NaN".toList)))
  let t204 ← (parse t202 : M Float8E5M2)
  let t205 ← ApiFloat.bitwise_eq t201 t204
  check (t203 || t205)
  let t206 ← (ApiFloat.from_bits 41 : M Float8E5M2)
  let t207 ← ApiFloat.fmt t206 none none false
  let t208 ← is_nan t206
  check (!t208 || decide (t207 = ("NaN".toList)))
  let t209 ← (parse t207 : M Float8E5M2)
  let t210 ← ApiFloat.bitwise_eq t206 t209
  check (t208 || t210)
  let t211 ← (ApiFloat.from_bits 42 : M Float8E5M2)
  let t212 ← ApiFloat.fmt t211 none none false
  let t213 ← is_nan t211
  check (!t213 || decide (t212 = ("NaN".toList)))
  let t214 ← (parse t212 : M Float8E5M2)
  let t215 ← ApiFloat.bitwise_eq t211 t214
  check (t213 || t215)
  let t216 ← (ApiFloat.from_bits 43 : M Float8E5M2)
  let t217 ← ApiFloat.fmt t216 none none false
  let t218 ← is_nan t216
  check (!t218 || decide (t217 = ("NaN".toList)))
  let t219 ← (parse t217 : M Float8E5M2)
  let t220 ← ApiFloat.bitwise_eq t216 t219
  check (t218 || t220)
  let t221 ← (ApiFloat.from_bits 44 : M Float8E5M2)
  let t222 ← ApiFloat.fmt t221 none none false
  let t223 ← is_nan t221
  check (!t223 || decide (t222 = ("NaN".toList)))

example : passes t_f8_to_string_5 = true := by decide +kernel

/-- tests/ieee.rs:4566 `f8_to_string`. -/
def t_f8_to_string_6 : M Unit := do
  let t221 ← (ApiFloat.from_bits 44 : M Float8E5M2)
  let t222 ← ApiFloat.fmt t221 none none false
  let t223 ← is_nan t221
  let t224 ← (parse t222 : M Float8E5M2)
  let t225 ← ApiFloat.bitwise_eq t221 t224
  check (t223 || t225)
  let t226 ← (ApiFloat.from_bits 45 : M Float8E5M2)
  let t227 ← ApiFloat.fmt t226 none none false
  let t228 ← is_nan t226
  check (!t228 || decide (t227 = ("NaN".toList)))
  let t229 ← (parse t227 : M Float8E5M2)
  let t230 ← ApiFloat.bitwise_eq t226 t229
  check (t228 || t230)
  let t231 ← (ApiFloat.from_bits 46 : M Float8E5M2)
  let t232 ← ApiFloat.fmt t231 none none false
  let t233 ← is_nan t231
  check (!t233 || decide (t232 = ("NaN".toList)))
  let t234 ← (parse t232 : M Float8E5M2)
  let t235 ← ApiFloat.bitwise_eq t231 t234
  check (t233 || t235)
  let t236 ← (ApiFloat.from_bits 47 : M Float8E5M2)
  let t237 ← ApiFloat.fmt t236 none none false
  let t238 ← is_nan t236
  check (!t238 || decide (t237 = ("NaN".toList)))
  let t239 ← (parse t237 : M Float8E5M2)
  let t240 ← ApiFloat.bitwise_eq t236 t239
  check (t238 || t240)
  let t241 ← (ApiFloat.from_bits 48 : M Float8E5M2)
  let t242 ← ApiFloat.fmt t241 none none false
  let t243 ← is_nan t241
  check (!t243 || decide (t242 = ("NaN".toList)))
  let t244 ← (parse t242 : M Float8E5M2)
  let t245 ← ApiFloat.bitwise_eq t241 t244
  check (t243 || t245)
  let t246 ← (ApiFloat.from_bits 49 : M Float8E5M2)
  let t247 ← ApiFloat.fmt t246 none none false
  let t248 ← is_nan t246
  check (!t248 || decide (t247 = ("NaN".toList)))
  let t249 ← (parse t247 : M Float8E5M2)
  let t250 ← ApiFloat.bitwise_eq t246 t249
  check (t248 || t250)
  let t251 ← (ApiFloat.from_bits 50 : M Float8E5M2)
  let t252 ← ApiFloat.fmt t251 none none false
  let t253 ← is_nan t251
  check (!t253 || decide (t252 = ("NaN".toList)))
  let t254 ← (parse t252 : M Float8E5M2)
  let t255 ← ApiFloat.bitwise_eq t251 t254
  check (t253 || t255)
  let t256 ← (ApiFloat.from_bits 51 : M Float8E5M2)
  let t257 ← ApiFloat.fmt t256 none none false
  let t258 ← is_nan t256
  check (!t258 || decide (t257 = ("NaN".toList)))
  let t259 ← (parse t257 : M Float8E5M2)
  let t260 ← ApiFloat.bitwise_eq t256 t259
  check (t258 || t260)
  let t261 ← (ApiFloat.from_bits 52 : M Float8E5M2)
  let t262 ← ApiFloat.fmt t261 none none false
  let t263 ← is_nan t261
  check (!t263 || decide (t262 = ("NaN".toList)))
  let t264 ← (parse t262 : M Float8E5M2)
  let t265 ← ApiFloat.bitwise_eq t261 t264
  check (t263 || t265)
  let t266 ← (ApiFloat.from_bits 53 : M Float8E5M2)
  let t267 ← ApiFloat.fmt t266 none none false
  let t268 ← is_nan t266
  check (!t268 || decide (t267 = ("NaN".toList)))

example : passes t_f8_to_string_6 = true := by decide +kernel

/-- tests/ieee.rs:4566 `f8_to_string`. -/
def t_f8_to_string_7 : M Unit := do
  let t266 ← (ApiFloat.from_bits 53 : M Float8E5M2)
  let t267 ← ApiFloat.fmt t266 none none false
  let t268 ← is_nan t266
  let t269 ← (parse t267 : M Float8E5M2)
  let t270 ← ApiFloat.bitwise_eq t266 t269
  check (t268 || t270)
  let t271 ← (ApiFloat.from_bits 54 : M Float8E5M2)
  let t272 ← ApiFloat.fmt t271 none none false
  let t273 ← is_nan t271
  check (!t273 || decide (t272 = ("NaN".toList)))
  let t274 ← (parse t272 : M Float8E5M2)
  let t275 ← ApiFloat.bitwise_eq t271 t274
  check (t273 || t275)
  let t276 ← (ApiFloat.from_bits 55 : M Float8E5M2)
  let t277 ← ApiFloat.fmt t276 none none false
  let t278 ← is_nan t276
  check (!t278 || decide (t277 = ("NaN".toList)))
  let t279 ← (parse t277 : M Float8E5M2)
  let t280 ← ApiFloat.bitwise_eq t276 t279
  check (t278 || t280)
  let t281 ← (ApiFloat.from_bits 56 : M Float8E5M2)
  let t282 ← ApiFloat.fmt t281 none none false
  let t283 ← is_nan t281
  check (!t283 || decide (t282 = ("NaN".toList)))
  let t284 ← (parse t282 : M Float8E5M2)
  let t285 ← ApiFloat.bitwise_eq t281 t284
  check (t283 || t285)
  let t286 ← (ApiFloat.from_bits 57 : M Float8E5M2)
  let t287 ← ApiFloat.fmt t286 none none false
  let t288 ← is_nan t286
  check (!t288 || decide (t287 = ("NaN".toList)))
  let t289 ← (parse t287 : M Float8E5M2)
  let t290 ← ApiFloat.bitwise_eq t286 t289
  check (t288 || t290)
  let t291 ← (ApiFloat.from_bits 58 : M Float8E5M2)
  let t292 ← ApiFloat.fmt t291 none none false
  let t293 ← is_nan t291
  check (!t293 || decide (t292 = ("NaN".toList)))
  let t294 ← (parse t292 : M Float8E5M2)
  let t295 ← ApiFloat.bitwise_eq t291 t294
  check (t293 || t295)
  let t296 ← (ApiFloat.from_bits 59 : M Float8E5M2)
  let t297 ← ApiFloat.fmt t296 none none false
  let t298 ← is_nan t296
  check (!t298 || decide (t297 = ("NaN".toList)))
  let t299 ← (parse t297 : M Float8E5M2)
  let t300 ← ApiFloat.bitwise_eq t296 t299
  check (t298 || t300)
  let t301 ← (ApiFloat.from_bits 60 : M Float8E5M2)
  let t302 ← ApiFloat.fmt t301 none none false
  let t303 ← is_nan t301
  check (!t303 || decide (t302 = ("NaN".toList)))
  let t304 ← (parse t302 : M Float8E5M2)
  let t305 ← ApiFloat.bitwise_eq t301 t304
  check (t303 || t305)
  let t306 ← (ApiFloat.from_bits 61 : M Float8E5M2)
  let t307 ← ApiFloat.fmt t306 none none false
  let t308 ← is_nan t306
  check (!t308 || decide (t307 = ("NaN".toList)))
  let t309 ← (parse t307 : M Float8E5M2)
  let t310 ← ApiFloat.bitwise_eq t306 t309
  check (t308 || t310)
  let t311 ← (ApiFloat.from_bits 62 : M Float8E5M2)
  let t312 ← ApiFloat.fmt t311 none none false
  let t313 ← is_nan t311
  check (!t313 || decide (t312 = ("NaN".toList)))

example : passes t_f8_to_string_7 = true := by decide +kernel

/-- tests/ieee.rs:4566 `f8_to_string`. -/
def t_f8_to_string_8 : M Unit := do
  let t311 ← (ApiFloat.from_bits 62 : M Float8E5M2)
  let t312 ← ApiFloat.fmt t311 none none false
  let t313 ← is_nan t311
  let t314 ← (parse t312 : M Float8E5M2)
  let t315 ← ApiFloat.bitwise_eq t311 t314
  check (t313 || t315)
  let t316 ← (ApiFloat.from_bits 63 : M Float8E5M2)
  let t317 ← ApiFloat.fmt t316 none none false
  let t318 ← is_nan t316
  check (!t318 || decide (t317 = ("NaN".toList)))
  let t319 ← (parse t317 : M Float8E5M2)
  let t320 ← ApiFloat.bitwise_eq t316 t319
  check (t318 || t320)
  let t321 ← (ApiFloat.from_bits 64 : M Float8E5M2)
  let t322 ← ApiFloat.fmt t321 none none false
  let t323 ← is_nan t321
  check (!t323 || decide (t322 = ("NaN".toList)))
  let t324 ← (parse t322 : M Float8E5M2)
  let t325 ← ApiFloat.bitwise_eq t321 t324
  check (t323 || t325)
  let t326 ← (ApiFloat.from_bits 65 : M Float8E5M2)
  let t327 ← ApiFloat.fmt t326 none none false
  let t328 ← is_nan t326
  check (!t328 || decide (t327 = ("NaN".toList)))
  let t329 ← (parse t327 : M Float8E5M2)
  let t330 ← ApiFloat.bitwise_eq t326 t329
  check (t328 || t330)
  let t331 ← (ApiFloat.from_bits 66 : M Float8E5M2)
  let t332 ← ApiFloat.fmt t331 none none false
  let t333 ← is_nan t331
  check (!t333 || decide (t332 = ("NaN".toList)))
  let t334 ← (parse t332 : M Float8E5M2)
  let t335 ← ApiFloat.bitwise_eq t331 t334
  check (t333 || t335)
  let t336 ← (ApiFloat.from_bits 67 : M Float8E5M2)
  let t337 ← ApiFloat.fmt t336 none none false
  let t338 ← is_nan t336
  check (!t338 || decide (t337 = ("NaN".toList)))
  let t339 ← (parse t337 : M Float8E5M2)
  let t340 ← ApiFloat.bitwise_eq t336 t339
  check (t338 || t340)
  let t341 ← (ApiFloat.from_bits 68 : M Float8E5M2)
  let t342 ← ApiFloat.fmt t341 none none false
  let t343 ← is_nan t341
  check (!t343 || decide (t342 = ("NaN".toList)))
  let t344 ← (parse t342 : M Float8E5M2)
  let t345 ← ApiFloat.bitwise_eq t341 t344
  check (t343 || t345)
  let t346 ← (ApiFloat.from_bits 69 : M Float8E5M2)
  let t347 ← ApiFloat.fmt t346 none none false
  let t348 ← is_nan t346
  check (!t348 || decide (t347 = ("NaN".toList)))
  let t349 ← (parse t347 : M Float8E5M2)
  let t350 ← ApiFloat.bitwise_eq t346 t349
  check (t348 || t350)
  let t351 ← (ApiFloat.from_bits 70 : M Float8E5M2)
  let t352 ← ApiFloat.fmt t351 none none false
  let t353 ← is_nan t351
  check (!t353 || decide (t352 = ("NaN".toList)))
  let t354 ← (parse t352 : M Float8E5M2)
  let t355 ← ApiFloat.bitwise_eq t351 t354
  check (t353 || t355)
  let t356 ← (ApiFloat.from_bits 71 : M Float8E5M2)
  let t357 ← ApiFloat.fmt t356 none none false
  let t358 ← is_nan t356
  check (!t358 || decide (t357 = ("NaN".toList)))

example : passes t_f8_to_string_8 = true := by decide +kernel

/-- tests/ieee.rs:4566 `f8_to_string`. -/
def t_f8_to_string_9 : M Unit := do
  let t356 ← (ApiFloat.from_bits 71 : M Float8E5M2)
  let t357 ← ApiFloat.fmt t356 none none false
  let t358 ← is_nan t356
  let t359 ← (parse t357 : M Float8E5M2)
  let t360 ← ApiFloat.bitwise_eq t356 t359
  check (t358 || t360)
  let t361 ← (ApiFloat.from_bits 72 : M Float8E5M2)
  let t362 ← ApiFloat.fmt t361 none none false
  let t363 ← is_nan t361
  check (!t363 || decide (t362 = ("NaN".toList)))
  let t364 ← (parse t362 : M Float8E5M2)
  let t365 ← ApiFloat.bitwise_eq t361 t364
  check (t363 || t365)
  let t366 ← (ApiFloat.from_bits 73 : M Float8E5M2)
  let t367 ← ApiFloat.fmt t366 none none false
  let t368 ← is_nan t366
  check (!t368 || decide (t367 = ("NaN".toList)))
  let t369 ← (parse t367 : M Float8E5M2)
  let t370 ← ApiFloat.bitwise_eq t366 t369
  check (t368 || t370)
  let t371 ← (ApiFloat.from_bits 74 : M Float8E5M2)
  let t372 ← ApiFloat.fmt t371 none none false
  let t373 ← is_nan t371
  check (!t373 || decide (t372 = ("NaN".toList)))
  let t374 ← (parse t372 : M Float8E5M2)
  let t375 ← ApiFloat.bitwise_eq t371 t374
  check (t373 || t375)
  let t376 ← (ApiFloat.from_bits 75 : M Float8E5M2)
  let t377 ← ApiFloat.fmt t376 none none false
  let t378 ← is_nan t376
  check (!t378 || decide (t377 = ("NaN".toList)))
  let t379 ← (parse t377 : M Float8E5M2)
  let t380 ← ApiFloat.bitwise_eq t376 t379
  check (t378 || t380)
  let t381 ← (ApiFloat.from_bits 76 : M Float8E5M2)
  let t382 ← ApiFloat.fmt t381 none none false
  let t383 ← is_nan t381
  check (!t383 || decide (t382 = ("NaN".toList)))
  let t384 ← (parse t382 : M Float8E5M2)
  let t385 ← ApiFloat.bitwise_eq t381 t384
  check (t383 || t385)
  let t386 ← (ApiFloat.from_bits 77 : M Float8E5M2)
  let t387 ← ApiFloat.fmt t386 none none false
  let t388 ← is_nan t386
  check (!t388 || decide (t387 = ("NaN".toList)))
  let t389 ← (parse t387 : M Float8E5M2)
  let t390 ← ApiFloat.bitwise_eq t386 t389
  check (t388 || t390)
  let t391 ← (ApiFloat.from_bits 78 : M Float8E5M2)
  let t392 ← ApiFloat.fmt t391 none none false
  let t393 ← is_nan t391
  check (!t393 || decide (t392 = ("NaN".toList)))
  let t394 ← (parse t392 : M Float8E5M2)
  let t395 ← ApiFloat.bitwise_eq t391 t394
  check (t393 || t395)
  let t396 ← (ApiFloat.from_bits 79 : M Float8E5M2)
  let t397 ← ApiFloat.fmt t396 none none false
  let t398 ← is_nan t396
  check (!t398 || decide (t397 = ("NaN".toList)))
  let t399 ← (parse t397 : M Float8E5M2)
  let t400 ← ApiFloat.bitwise_eq t396 t399
  check (t398 || t400)
  let t401 ← (ApiFloat.from_bits 80 : M Float8E5M2)
  let t402 ← ApiFloat.fmt t401 none none false
  let t403 ← is_nan t401
  check (!t403 || decide (t402 = ("NaN".toList)))

example : passes t_f8_to_string_9 = true := by decide +kernel

/-- tests/ieee.rs:4566 `f8_to_string`. -/
def t_f8_to_string_10 : M Unit := do
  let t401 ← (ApiFloat.from_bits 80 : M Float8E5M2)
  let t402 ← ApiFloat.fmt t401 none none false
  let t403 ← is_nan t401
  let t404 ← (parse t402 : M Float8E5M2)
  let t405 ← ApiFloat.bitwise_eq t401 t404
  check (t403 || t405)
  let t406 ← (ApiFloat.from_bits 81 : M Float8E5M2)
  let t407 ← ApiFloat.fmt t406 none none false
  let t408 ← is_nan t406
  check (!t408 || decide (t407 = ("NaN".toList)))
  let t409 ← (parse t407 : M Float8E5M2)
  let t410 ← ApiFloat.bitwise_eq t406 t409
  check (t408 || t410)
  let t411 ← (ApiFloat.from_bits 82 : M Float8E5M2)
  let t412 ← ApiFloat.fmt t411 none none false
  let t413 ← is_nan t411
  check (!t413 || decide (t412 = ("NaN".toList)))
  let t414 ← (parse t412 : M Float8E5M2)
  let t415 ← ApiFloat.bitwise_eq t411 t414
  check (t413 || t415)
  let t416 ← (ApiFloat.from_bits 83 : M Float8E5M2)
  let t417 ← ApiFloat.fmt t416 none none false
  let t418 ← is_nan t416
  check (!t418 || decide (t417 = ("NaN".toList)))
  let t419 ← (parse t417 : M Float8E5M2)
  let t420 ← ApiFloat.bitwise_eq t416 t419
  check (t418 || t420)
  let t421 ← (ApiFloat.from_bits 84 : M Float8E5M2)
  let t422 ← ApiFloat.fmt t421 none none false
  let t423 ← is_nan t421
  check (!t423 || decide (t422 = ("NaN".toList)))
  let t424 ← (parse t422 : M Float8E5M2)
  let t425 ← ApiFloat.bitwise_eq t421 t424
  check (t423 || t425)
  let t426 ← (ApiFloat.from_bits 85 : M Float8E5M2)
  let t427 ← ApiFloat.fmt t426 none none false
  let t428 ← is_nan t426
  check (!t428 || decide (t427 = ("NaN".toList)))
  let t429 ← (parse t427 : M Float8E5M2)
  let t430 ← ApiFloat.bitwise_eq t426 t429
  check (t428 || t430)
  let t431 ← (ApiFloat.from_bits 86 : M Float8E5M2)
  let t432 ← ApiFloat.fmt t431 none none false
  let t433 ← is_nan t431
  check (!t433 || decide (t432 = ("NaN".toList)))
  let t434 ← (parse t432 : M Float8E5M2)
  let t435 ← ApiFloat.bitwise_eq t431 t434
  check (t433 || t435)
  let t436 ← (ApiFloat.from_bits 87 : M Float8E5M2)
  let t437 ← ApiFloat.fmt t436 none none false
  let t438 ← is_nan t436
  check (!t438 || decide (t437 = ("NaN".toList)))
  let t439 ← (parse t437 : M Float8E5M2)
  let t440 ← ApiFloat.bitwise_eq t436 t439
  check (t438 || t440)
  let t441 ← (ApiFloat.from_bits 88 : M Float8E5M2)
  let t442 ← ApiFloat.fmt t441 none none false
  let t443 ← is_nan t441
  check (!t443 || decide (t442 = ("NaN".toList)))
  let t444 ← (parse t442 : M Float8E5M2)
  let t445 ← ApiFloat.bitwise_eq t441 t444
  check (t443 || t445)
  let t446 ← (ApiFloat.from_bits 89 : M Float8E5M2)
  let t447 ← ApiFloat.fmt t446 none none false
  let t448 ← is_nan t446
  check (!t448 || decide (t447 = ("NaN".toList)))

example : passes t_f8_to_string_10 = true := by decide +kernel

/-- tests/ieee.rs:4566 `f8_to_string`. -/
def t_f8_to_string_11 : M Unit := do
  let t446 ← (ApiFloat.from_bits 89 : M Float8E5M2)
  let t447 ← ApiFloat.fmt t446 none none false
  let t448 ← is_nan t446
  let t449 ← (parse t447 : M Float8E5M2)
  let t450 ← ApiFloat.bitwise_eq t446 t449
  check (t448 || t450)
  let t451 ← (ApiFloat.from_bits 90 : M Float8E5M2)
  let t452 ← ApiFloat.fmt t451 none none false
  let t453 ← is_nan t451
  check (!t453 || decide (t452 = ("NaN".toList)))
  let t454 ← (parse t452 : M Float8E5M2)
  let t455 ← ApiFloat.bitwise_eq t451 t454
  check (t453 || t455)
  let t456 ← (ApiFloat.from_bits 91 : M Float8E5M2)
  let t457 ← ApiFloat.fmt t456 none none false
  let t458 ← is_nan t456
  check (!t458 || decide (t457 = ("NaN".toList)))
  let t459 ← (parse t457 : M Float8E5M2)
  let t460 ← ApiFloat.bitwise_eq t456 t459
  check (t458 || t460)
  let t461 ← (ApiFloat.from_bits 92 : M Float8E5M2)
  let t462 ← ApiFloat.fmt t461 none none false
  let t463 ← is_nan t461
  check (!t463 || decide (t462 = ("NaN".toList)))
  let t464 ← (parse t462 : M Float8E5M2)
  let t465 ← ApiFloat.bitwise_eq t461 t464
  check (t463 || t465)
  let t466 ← (ApiFloat.from_bits 93 : M Float8E5M2)
  let t467 ← ApiFloat.fmt t466 none none false
  let t468 ← is_nan t466
  check (!t468 || decide (t467 = ("NaN".toList)))
  let t469 ← (parse t467 : M Float8E5M2)
  let t470 ← ApiFloat.bitwise_eq t466 t469
  check (t468 || t470)
  let t471 ← (ApiFloat.from_bits 94 : M Float8E5M2)
  let t472 ← ApiFloat.fmt t471 none none false
  let t473 ← is_nan t471
  check (!t473 || decide (t472 = ("NaN".toList)))
  let t474 ← (parse t472 : M Float8E5M2)
  let t475 ← ApiFloat.bitwise_eq t471 t474
  check (t473 || t475)
  let t476 ← (ApiFloat.from_bits 95 : M Float8E5M2)
  let t477 ← ApiFloat.fmt t476 none none false
  let t478 ← is_nan t476
  check (!t478 || decide (t477 = ("NaN".toList)))
  let t479 ← (parse t477 : M Float8E5M2)
  let t480 ← ApiFloat.bitwise_eq t476 t479
  check (t478 || t480)
  let t481 ← (ApiFloat.from_bits 96 : M Float8E5M2)
  let t482 ← ApiFloat.fmt t481 none none false
  let t483 ← is_nan t481
  check (!t483 || decide (t482 = ("NaN".toList)))
  let t484 ← (parse t482 : M Float8E5M2)
  let t485 ← ApiFloat.bitwise_eq t481 t484
  check (t483 || t485)
  let t486 ← (ApiFloat.from_bits 97 : M Float8E5M2)
  let t487 ← ApiFloat.fmt t486 none none false
  let t488 ← is_nan t486
  check (!t488 || decide (t487 = ("NaN".toList)))
  let t489 ← (parse t487 : M Float8E5M2)
  let t490 ← ApiFloat.bitwise_eq t486 t489
  check (t488 || t490)
  let t491 ← (ApiFloat.from_bits 98 : M Float8E5M2)
  let t492 ← ApiFloat.fmt t491 none none false
  let t493 ← is_nan t491
  check (!t493 || decide (t492 = ("NaN".toList)))

example : passes t_f8_to_string_11 = true := by decide +kernel

/-- tests/ieee.rs:4566 `f8_to_string`. -/
def t_f8_to_string_12 : M Unit := do
  let t491 ← (ApiFloat.from_bits 98 : M Float8E5M2)
  let t492 ← ApiFloat.fmt t491 none none false
  let t493 ← is_nan t491
  let t494 ← (parse t492 : M Float8E5M2)
  let t495 ← ApiFloat.bitwise_eq t491 t494
  check (t493 || t495)
  let t496 ← (ApiFloat.from_bits 99 : M Float8E5M2)
  let t497 ← ApiFloat.fmt t496 none none false
  let t498 ← is_nan t496
  check (!t498 || decide (t497 = ("NaN".toList)))
  let t499 ← (parse t497 : M Float8E5M2)
  let t500 ← ApiFloat.bitwise_eq t496 t499
  check (t498 || t500)
  let t501 ← (ApiFloat.from_bits 100 : M Float8E5M2)
  let t502 ← ApiFloat.fmt t501 none none false
  let t503 ← is_nan t501
  check (!t503 || decide (t502 = ("NaN".toList)))
  let t504 ← (parse t502 : M Float8E5M2)
  let t505 ← ApiFloat.bitwise_eq t501 t504
  check (t503 || t505)
  let t506 ← (ApiFloat.from_bits 101 : M Float8E5M2)
  let t507 ← ApiFloat.fmt t506 none none false
  let t508 ← is_nan t506
  check (!t508 || decide (t507 = ("NaN".toList)))
  let t509 ← (parse t507 : M Float8E5M2)
  let t510 ← ApiFloat.bitwise_eq t506 t509
  check (t508 || t510)
  let t511 ← (ApiFloat.from_bits 102 : M Float8E5M2)
  let t512 ← ApiFloat.fmt t511 none none false
  let t513 ← is_nan t511
  check (!t513 || decide (t512 = ("NaN".toList)))
  let t514 ← (parse t512 : M Float8E5M2)
  let t515 ← ApiFloat.bitwise_eq t511 t514
  check (t513 || t515)
  let t516 ← (ApiFloat.from_bits 103 : M Float8E5M2)
  let t517 ← ApiFloat.fmt t516 none none false
  let t518 ← is_nan t516
  check (!t518 || decide (t517 = ("NaN".toList)))
  let t519 ← (parse t517 : M Float8E5M2)
  let t520 ← ApiFloat.bitwise_eq t516 t519
  check (t518 || t520)
  let t521 ← (ApiFloat.from_bits 104 : M Float8E5M2)
  let t522 ← ApiFloat.fmt t521 none none false
  let t523 ← is_nan t521
  check (!t523 || decide (t522 = ("NaN".toList)))
  let t524 ← (parse t522 : M Float8E5M2)
  let t525 ← ApiFloat.bitwise_eq t521 t524
  check (t523 || t525)
  let t526 ← (ApiFloat.from_bits 105 : M Float8E5M2)
  let t527 ← ApiFloat.fmt t526 none none false
  let t528 ← is_nan t526
  check (!t528 || decide (t527 = ("NaN".toList)))
  let t529 ← (parse t527 : M Float8E5M2)
  let t530 ← ApiFloat.bitwise_eq t526 t529
  check (t528 || t530)
  let t531 ← (ApiFloat.from_bits 106 : M Float8E5M2)
  let t532 ← ApiFloat.fmt t531 none none false
  let t533 ← is_nan t531
  check (!t533 || decide (t532 = ("NaN".toList)))
  let t534 ← (parse t532 : M Float8E5M2)
  let t535 ← ApiFloat.bitwise_eq t531 t534
  check (t533 || t535)
  let t536 ← (ApiFloat.from_bits 107 : M Float8E5M2)
  let t537 ← ApiFloat.fmt t536 none none false
  let t538 ← is_nan t536
  check (!t538 || decide (t537 = ("NaN".toList)))

example : passes t_f8_to_string_12 = true := by decide +kernel

/-- tests/ieee.rs:4566 `f8_to_string`. -/
def t_f8_to_string_13 : M Unit := do
  let t536 ← (ApiFloat.from_bits 107 : M Float8E5M2)
  let t537 ← ApiFloat.fmt t536 none none false
  let t538 ← is_nan t536
  let t539 ← (parse t537 : M Float8E5M2)
  let t540 ← ApiFloat.bitwise_eq t536 t539
  check (t538 || t540)
  let t541 ← (ApiFloat.from_bits 108 : M Float8E5M2)
  let t542 ← ApiFloat.fmt t541 none none false
  let t543 ← is_nan t541
  check (!t543 || decide (t542 = ("NaN".toList)))
  let t544 ← (parse t542 : M Float8E5M2)
  let t545 ← ApiFloat.bitwise_eq t541 t544
  check (t543 || t545)
  let t546 ← (ApiFloat.from_bits 109 : M Float8E5M2)
  let t547 ← ApiFloat.fmt t546 none none false
  let t548 ← is_nan t546
  check (!t548 || decide (t547 = ("NaN".toList)))
  let t549 ← (parse t547 : M Float8E5M2)
  let t550 ← ApiFloat.bitwise_eq t546 t549
  check (t548 || t550)
  let t551 ← (ApiFloat.from_bits 110 : M Float8E5M2)
  let t552 ← ApiFloat.fmt t551 none none false
  let t553 ← is_nan t551
  check (!t553 || decide (t552 = ("NaN".toList)))
  let t554 ← (parse t552 : M Float8E5M2)
  let t555 ← ApiFloat.bitwise_eq t551 t554
  check (t553 || t555)
  let t556 ← (ApiFloat.from_bits 111 : M Float8E5M2)
  let t557 ← ApiFloat.fmt t556 none none false
  let t558 ← is_nan t556
  check (!t558 || decide (t557 = ("NaN".toList)))
  let t559 ← (parse t557 : M Float8E5M2)
  let t560 ← ApiFloat.bitwise_eq t556 t559
  check (t558 || t560)
  let t561 ← (ApiFloat.from_bits 112 : M Float8E5M2)
  let t562 ← ApiFloat.fmt t561 none none false
  let t563 ← is_nan t561
  check (!t563 || decide (t562 = ("NaN".toList)))
  let t564 ← (parse t562 : M Float8E5M2)
  let t565 ← ApiFloat.bitwise_eq t561 t564
  check (t563 || t565)
  let t566 ← (ApiFloat.from_bits 113 : M Float8E5M2)
  let t567 ← ApiFloat.fmt t566 none none false
  let t568 ← is_nan t566
  check (!t568 || decide (t567 = ("NaN".toList)))
  let t569 ← (parse t567 : M Float8E5M2)
  let t570 ← ApiFloat.bitwise_eq t566 t569
  check (t568 || t570)
  let t571 ← (ApiFloat.from_bits 114 : M Float8E5M2)
  let t572 ← ApiFloat.fmt t571 none none false
  let t573 ← is_nan t571
  check (!t573 || decide (t572 = ("NaN".toList)))
  let t574 ← (parse t572 : M Float8E5M2)
  let t575 ← ApiFloat.bitwise_eq t571 t574
  check (t573 || t575)
  let t576 ← (ApiFloat.from_bits 115 : M Float8E5M2)
  let t577 ← ApiFloat.fmt t576 none none false
  let t578 ← is_nan t576
  check (!t578 || decide (t577 = ("NaN".toList)))
  let t579 ← (parse t577 : M Float8E5M2)
  let t580 ← ApiFloat.bitwise_eq t576 t579
  check (t578 || t580)
  let t581 ← (ApiFloat.from_bits 116 : M Float8E5M2)
  let t582 ← ApiFloat.fmt t581 none none false
  let t583 ← is_nan t581
  check (!t583 || decide (t582 = ("NaN".toList)))

example : passes t_f8_to_string_13 = true := by decide +kernel

/-- tests/ieee.rs:4566 `f8_to_string`. -/
def t_f8_to_string_14 : M Unit := do
  let t581 ← (ApiFloat.from_bits 116 : M Float8E5M2)
  let t582 ← ApiFloat.fmt t581 none none false
  let t583 ← is_nan t581
  let t584 ← (parse t582 : M Float8E5M2)
  let t585 ← ApiFloat.bitwise_eq t581 t584
  check (t583 || t585)
  let t586 ← (ApiFloat.from_bits 117 : M Float8E5M2)
  let t587 ← ApiFloat.fmt t586 none none false
  let t588 ← is_nan t586
  check (!t588 || decide (t587 = ("NaN".toList)))
  let t589 ← (parse t587 : M Float8E5M2)
  let t590 ← ApiFloat.bitwise_eq t586 t589
  check (t588 || t590)
  let t591 ← (ApiFloat.from_bits 118 : M Float8E5M2)
  let t592 ← ApiFloat.fmt t591 none none false
  let t593 ← is_nan t591
  check (!t593 || decide (t592 = ("NaN".toList)))
  let t594 ← (parse t592 : M Float8E5M2)
  let t595 ← ApiFloat.bitwise_eq t591 t594
  check (t593 || t595)
  let t596 ← (ApiFloat.from_bits 119 : M Float8E5M2)
  let t597 ← ApiFloat.fmt t596 none none false
  let t598 ← is_nan t596
  check (!t598 || decide (t597 = ("NaN".toList)))
  let t599 ← (parse t597 : M Float8E5M2)
  let t600 ← ApiFloat.bitwise_eq t596 t599
  check (t598 || t600)
  let t601 ← (ApiFloat.from_bits 120 : M Float8E5M2)
  let t602 ← ApiFloat.fmt t601 none none false
  let t603 ← is_nan t601
  check (!t603 || decide (t602 = ("NaN".toList)))
  let t604 ← (parse t602 : M Float8E5M2)
  let t605 ← ApiFloat.bitwise_eq t601 t604
  check (t603 || t605)
  let t606 ← (ApiFloat.from_bits 121 : M Float8E5M2)
  let t607 ← ApiFloat.fmt t606 none none false
  let t608 ← is_nan t606
  check (!t608 || decide (t607 = ("NaN".toList)))
  let t609 ← (parse t607 : M Float8E5M2)
  let t610 ← ApiFloat.bitwise_eq t606 t609
  check (t608 || t610)
  let t611 ← (ApiFloat.from_bits 122 : M Float8E5M2)
  let t612 ← ApiFloat.fmt t611 none none false
  let t613 ← is_nan t611
  check (!t613 || decide (t612 = ("NaN".toList)))
  let t614 ← (parse t612 : M Float8E5M2)
  let t615 ← ApiFloat.bitwise_eq t611 t614
  check (t613 || t615)
  let t616 ← (ApiFloat.from_bits 123 : M Float8E5M2)
  let t617 ← ApiFloat.fmt t616 none none false
  let t618 ← is_nan t616
  check (!t618 || decide (t617 = ("NaN".toList)))
  let t619 ← (parse t617 : M Float8E5M2)
  let t620 ← ApiFloat.bitwise_eq t616 t619
  check (t618 || t620)
  let t621 ← (ApiFloat.from_bits 124 : M Float8E5M2)
  let t622 ← ApiFloat.fmt t621 none none false
  let t623 ← is_nan t621
  check (!t623 || decide (t622 = ("NaN".toList)))
  let t624 ← (parse t622 : M Float8E5M2)
  let t625 ← ApiFloat.bitwise_eq t621 t624
  check (t623 || t625)
  let t626 ← (ApiFloat.from_bits 125 : M Float8E5M2)
  let t627 ← ApiFloat.fmt t626 none none false
  let t628 ← is_nan t626
  check (!t628 || decide (t627 = ("NaN".toList)))

example : passes t_f8_to_string_14 = true := by decide +kernel

/-- tests/ieee.rs:4566 `f8_to_string`. -/
def t_f8_to_string_15 : M Unit := do
  let t626 ← (ApiFloat.from_bits 125 : M Float8E5M2)
  let t627 ← ApiFloat.fmt t626 none none false
  let t628 ← is_nan t626
  let t629 ← (parse t627 : M Float8E5M2)
  let t630 ← ApiFloat.bitwise_eq t626 t629
  check (t628 || t630)
  let t631 ← (ApiFloat.from_bits 126 : M Float8E5M2)
  let t632 ← ApiFloat.fmt t631 none none false
  let t633 ← is_nan t631
  check (!t633 || decide (t632 = ("NaN".toList)))
  let t634 ← (parse t632 : M Float8E5M2)
  let t635 ← ApiFloat.bitwise_eq t631 t634
  check (t633 || t635)
  let t636 ← (ApiFloat.from_bits 127 : M Float8E5M2)
  let t637 ← ApiFloat.fmt t636 none none false
  let t638 ← is_nan t636
  check (!t638 || decide (t637 = ("NaN".toList)))
  let t639 ← (parse t637 : M Float8E5M2)
  let t640 ← ApiFloat.bitwise_eq t636 t639
  check (t638 || t640)
  let t641 ← (ApiFloat.from_bits 128 : M Float8E5M2)
  let t642 ← ApiFloat.fmt t641 none none false
  let t643 ← is_nan t641
  check (!t643 || decide (t642 = ("NaN".toList)))
  let t644 ← (parse t642 : M Float8E5M2)
  let t645 ← ApiFloat.bitwise_eq t641 t644
  check (t643 || t645)
  let t646 ← (ApiFloat.from_bits 129 : M Float8E5M2)
  let t647 ← ApiFloat.fmt t646 none none false
  let t648 ← is_nan t646
  check (!t648 || decide (t647 = ("NaN".toList)))
  let t649 ← (parse t647 : M Float8E5M2)
  let t650 ← ApiFloat.bitwise_eq t646 t649
  check (t648 || t650)
  let t651 ← (ApiFloat.from_bits 130 : M Float8E5M2)
  let t652 ← ApiFloat.fmt t651 none none false
  let t653 ← is_nan t651
  check (!t653 || decide (t652 = ("NaN".toList)))
  let t654 ← (parse t652 : M Float8E5M2)
  let t655 ← ApiFloat.bitwise_eq t651 t654
  check (t653 || t655)
  let t656 ← (ApiFloat.from_bits 131 : M Float8E5M2)
  let t657 ← ApiFloat.fmt t656 none none false
  let t658 ← is_nan t656
  check (!t658 || decide (t657 = ("NaN".toList)))
  let t659 ← (parse t657 : M Float8E5M2)
  let t660 ← ApiFloat.bitwise_eq t656 t659
  check (t658 || t660)
  let t661 ← (ApiFloat.from_bits 132 : M Float8E5M2)
  let t662 ← ApiFloat.fmt t661 none none false
  let t663 ← is_nan t661
  check (!t663 || decide (t662 = ("NaN".toList)))
  let t664 ← (parse t662 : M Float8E5M2)
  let t665 ← ApiFloat.bitwise_eq t661 t664
  check (t663 || t665)
  let t666 ← (ApiFloat.from_bits 133 : M Float8E5M2)
  let t667 ← ApiFloat.fmt t666 none none false
  let t668 ← is_nan t666
  check (!t668 || decide (t667 = ("NaN".toList)))
  let t669 ← (parse t667 : M Float8E5M2)
  let t670 ← ApiFloat.bitwise_eq t666 t669
  check (t668 || t670)
  let t671 ← (ApiFloat.from_bits 134 : M Float8E5M2)
  let t672 ← ApiFloat.fmt t671 none none false
  let t673 ← is_nan t671
  check (!t673 || decide (t672 = ("NaN".toList)))

example : passes t_f8_to_string_15 = true := by decide +kernel

/-- tests/ieee.rs:4566 `f8_to_string`. -/
def t_f8_to_string_16 : M Unit := do
  let t671 ← (ApiFloat.from_bits 134 : M Float8E5M2)
  let t672 ← ApiFloat.fmt t671 none none false
  let t673 ← is_nan t671
  let t674 ← (parse t672 : M Float8E5M2)
  let t675 ← ApiFloat.bitwise_eq t671 t674
  check (t673 || t675)
  let t676 ← (ApiFloat.from_bits 135 : M Float8E5M2)
  let t677 ← ApiFloat.fmt t676 none none false
  let t678 ← is_nan t676
  check (!t678 || decide (t677 = ("NaN".toList)))
  let t679 ← (parse t677 : M Float8E5M2)
  let t680 ← ApiFloat.bitwise_eq t676 t679
  check (t678 || t680)
  let t681 ← (ApiFloat.from_bits 136 : M Float8E5M2)
  let t682 ← ApiFloat.fmt t681 none none false
  let t683 ← is_nan t681
  check (!t683 || decide (t682 = ("NaN".toList)))
  let t684 ← (parse t682 : M Float8E5M2)
  let t685 ← ApiFloat.bitwise_eq t681 t684
  check (t683 || t685)
  let t686 ← (ApiFloat.from_bits 137 : M Float8E5M2)
  let t687 ← ApiFloat.fmt t686 none none false
  let t688 ← is_nan t686
  check (!t688 || decide (t687 = ("NaN".toList)))
  let t689 ← (parse t687 : M Float8E5M2)
  let t690 ← ApiFloat.bitwise_eq t686 t689
  check (t688 || t690)
  let t691 ← (ApiFloat.from_bits 138 : M Float8E5M2)
  let t692 ← ApiFloat.fmt t691 none none false
  let t693 ← is_nan t691
  check (!t693 || decide (t692 = ("NaN".toList)))
  let t694 ← (parse t692 : M Float8E5M2)
  let t695 ← ApiFloat.bitwise_eq t691 t694
  check (t693 || t695)
  let t696 ← (ApiFloat.from_bits 139 : M Float8E5M2)
  let t697 ← ApiFloat.fmt t696 none none false
  let t698 ← is_nan t696
  check (!t698 || decide (t697 = ("NaN".toList)))
  let t699 ← (parse t697 : M Float8E5M2)
  let t700 ← ApiFloat.bitwise_eq t696 t699
  check (t698 || t700)
  let t701 ← (ApiFloat.from_bits 140 : M Float8E5M2)
  let t702 ← ApiFloat.fmt t701 none none false
  let t703 ← is_nan t701
  check (!t703 || decide (t702 = ("NaN".toList)))
  let t704 ← (parse t702 : M Float8E5M2)
  let t705 ← ApiFloat.bitwise_eq t701 t704
  check (t703 || t705)
  let t706 ← (ApiFloat.from_bits 141 : M Float8E5M2)
  let t707 ← ApiFloat.fmt t706 none none false
  let t708 ← is_nan t706
  check (!t708 || decide (t707 = ("NaN".toList)))
  let t709 ← (parse t707 : M Float8E5M2)
  let t710 ← ApiFloat.bitwise_eq t706 t709
  check (t708 || t710)
  let t711 ← (ApiFloat.from_bits 142 : M Float8E5M2)
  let t712 ← ApiFloat.fmt t711 none none false
  let t713 ← is_nan t711
  check (!t713 || decide (t712 = ("NaN".toList)))
  let t714 ← (parse t712 : M Float8E5M2)
  let t715 ← ApiFloat.bitwise_eq t711 t714
  check (t713 || t715)
  let t716 ← (ApiFloat.from_bits 143 : M Float8E5M2)
  let t717 ← ApiFloat.fmt t716 none none false
  let t718 ← is_nan t716
  check (!t718 || decide (t717 = ("NaN".toList)))

example : passes t_f8_to_string_16 = true := by decide +kernel

/-- tests/ieee.rs:4566 `f8_to_string`. -/
def t_f8_to_string_17 : M Unit := do
  let t716 ← (ApiFloat.from_bits 143 : M Float8E5M2)
  let t717 ← ApiFloat.fmt t716 none none false
  let t718 ← is_nan t716
  let t719 ← (parse t717 : M Float8E5M2)
  let t720 ← ApiFloat.bitwise_eq t716 t719
  check (t718 || t720)
  let t721 ← (ApiFloat.from_bits 144 : M Float8E5M2)
  let t722 ← ApiFloat.fmt t721 none none false
  let t723 ← is_nan t721
  check (!t723 || decide (t722 = ("NaN".toList)))
  let t724 ← (parse t722 : M Float8E5M2)
  let t725 ← ApiFloat.bitwise_eq t721 t724
  check (t723 || t725)
  let t726 ← (ApiFloat.from_bits 145 : M Float8E5M2)
  let t727 ← ApiFloat.fmt t726 none none false
  let t728 ← is_nan t726
  check (!t728 || decide (t727 = ("NaN".toList)))
  let t729 ← (parse t727 : M Float8E5M2)
  let t730 ← ApiFloat.bitwise_eq t726 t729
  check (t728 || t730)
  let t731 ← (ApiFloat.from_bits 146 : M Float8E5M2)
  let t732 ← ApiFloat.fmt t731 none none false
  let t733 ← is_nan t731
  check (!t733 || decide (t732 = ("NaN".toList)))
  let t734 ← (parse t732 : M Float8E5M2)
  let t735 ← ApiFloat.bitwise_eq t731 t734
  check (t733 || t735)
  let t736 ← (ApiFloat.from_bits 147 : M Float8E5M2)
  let t737 ← ApiFloat.fmt t736 none none false
  let t738 ← is_nan t736
  check (!t738 || decide (t737 = ("NaN".toList)))
  let t739 ← (parse t737 : M Float8E5M2)
  let t740 ← ApiFloat.bitwise_eq t736 t739
  check (t738 || t740)
  let t741 ← (ApiFloat.from_bits 148 : M Float8E5M2)
  let t742 ← ApiFloat.fmt t741 none none false
  let t743 ← is_nan t741
  check (!t743 || decide (t742 = ("NaN".toList)))
  let t744 ← (parse t742 : M Float8E5M2)
  let t745 ← ApiFloat.bitwise_eq t741 t744
  check (t743 || t745)
  let t746 ← (ApiFloat.from_bits 149 : M Float8E5M2)
  let t747 ← ApiFloat.fmt t746 none none false
  let t748 ← is_nan t746
  check (!t748 || decide (t747 = ("NaN".toList)))
  let t749 ← (parse t747 : M Float8E5M2)
  let t750 ← ApiFloat.bitwise_eq t746 t749
  check (t748 || t750)
  let t751 ← (ApiFloat.from_bits 150 : M Float8E5M2)
  let t752 ← ApiFloat.fmt t751 none none false
  let t753 ← is_nan t751
  check (!t753 || decide (t752 = ("NaN".toList)))
  let t754 ← (parse t752 : M Float8E5M2)
  let t755 ← ApiFloat.bitwise_eq t751 t754
  check (t753 || t755)
  let t756 ← (ApiFloat.from_bits 151 : M Float8E5M2)
  let t757 ← ApiFloat.fmt t756 none none false
  let t758 ← is_nan t756
  check (!t758 || decide (t757 = ("NaN".toList)))
  let t759 ← (parse t757 : M Float8E5M2)
  let t760 ← ApiFloat.bitwise_eq t756 t759
  check (t758 || t760)
  let t761 ← (ApiFloat.from_bits 152 : M Float8E5M2)
  let t762 ← ApiFloat.fmt t761 none none false
  let t763 ← is_nan t761
  check (!t763 || decide (t762 = ("NaN".toList)))

example : passes t_f8_to_string_17 = true := by decide +kernel

/-- tests/ieee.rs:4566 `f8_to_string`. -/
def t_f8_to_string_18 : M Unit := do
  let t761 ← (ApiFloat.from_bits 152 : M Float8E5M2)
  let t762 ← ApiFloat.fmt t761 none none false
  let t763 ← is_nan t761
  let t764 ← (parse t762 : M Float8E5M2)
  let t765 ← ApiFloat.bitwise_eq t761 t764
  check (t763 || t765)
  let t766 ← (ApiFloat.from_bits 153 : M Float8E5M2)
  let t767 ← ApiFloat.fmt t766 none none false
  let t768 ← is_nan t766
  check (!t768 || decide (t767 = ("NaN".toList)))
  let t769 ← (parse t767 : M Float8E5M2)
  let t770 ← ApiFloat.bitwise_eq t766 t769
  check (t768 || t770)
  let t771 ← (ApiFloat.from_bits 154 : M Float8E5M2)
  let t772 ← ApiFloat.fmt t771 none none false
  let t773 ← is_nan t771
  check (!t773 || decide (t772 = ("NaN".toList)))
  let t774 ← (parse t772 : M Float8E5M2)
  let t775 ← ApiFloat.bitwise_eq t771 t774
  check (t773 || t775)
  let t776 ← (ApiFloat.from_bits 155 : M Float8E5M2)
  let t777 ← ApiFloat.fmt t776 none none false
  let t778 ← is_nan t776
  check (!t778 || decide (t777 = ("NaN".toList)))
  let t779 ← (parse t777 : M Float8E5M2)
  let t780 ← ApiFloat.bitwise_eq t776 t779
  check (t778 || t780)
  let t781 ← (ApiFloat.from_bits 156 : M Float8E5M2)
  let t782 ← ApiFloat.fmt t781 none none false
  let t783 ← is_nan t781
  check (!t783 || decide (t782 = ("NaN".toList)))
  let t784 ← (parse t782 : M Float8E5M2)
  let t785 ← ApiFloat.bitwise_eq t781 t784
  check (t783 || t785)
  let t786 ← (ApiFloat.from_bits 157 : M Float8E5M2)
  let t787 ← ApiFloat.fmt t786 none none false
  let t788 ← is_nan t786
  check (!t788 || decide (t787 = ("NaN".toList)))
  let t789 ← (parse t787 : M Float8E5M2)
  let t790 ← ApiFloat.bitwise_eq t786 t789
  check (t788 || t790)
  let t791 ← (ApiFloat.from_bits 158 : M Float8E5M2)
  let t792 ← ApiFloat.fmt t791 none none false
  let t793 ← is_nan t791
  check (!t793 || decide (t792 = ("NaN".toList)))
  let t794 ← (parse t792 : M Float8E5M2)
  let t795 ← ApiFloat.bitwise_eq t791 t794
  check (t793 || t795)
  let t796 ← (ApiFloat.from_bits 159 : M Float8E5M2)
  let t797 ← ApiFloat.fmt t796 none none false
  let t798 ← is_nan t796
  check (!t798 || decide (t797 = ("NaN".toList)))
  let t799 ← (parse t797 : M Float8E5M2)
  let t800 ← ApiFloat.bitwise_eq t796 t799
  check (t798 || t800)
  let t801 ← (ApiFloat.from_bits 160 : M Float8E5M2)
  let t802 ← ApiFloat.fmt t801 none none false
  let t803 ← is_nan t801
  check (!t803 || decide (t802 = ("NaN".toList)))
  let t804 ← (parse t802 : M Float8E5M2)
  let t805 ← ApiFloat.bitwise_eq t801 t804
  check (t803 || t805)
  let t806 ← (ApiFloat.from_bits 161 : M Float8E5M2)
  let t807 ← ApiFloat.fmt t806 none none false
  let t808 ← is_nan t806
  check (!t808 || decide (t807 = ("NaN".toList)))

example : passes t_f8_to_string_18 = true := by decide +kernel

/-- tests/ieee.rs:4566 `f8_to_string`. -/
def t_f8_to_string_19 : M Unit := do
  let t806 ← (ApiFloat.from_bits 161 : M Float8E5M2)
  let t807 ← ApiFloat.fmt t806 none none false
  let t808 ← is_nan t806
  let t809 ← (parse t807 : M Float8E5M2)
  let t810 ← ApiFloat.bitwise_eq t806 t809
  check (t808 || t810)
  let t811 ← (ApiFloat.from_bits 162 : M Float8E5M2)
  let t812 ← ApiFloat.fmt t811 none none false
  let t813 ← is_nan t811
  check (!t813 || decide (t812 = ("NaN".toList)))
  let t814 ← (parse t812 : M Float8E5M2)
  let t815 ← ApiFloat.bitwise_eq t811 t814
  check (t813 || t815)
  let t816 ← (ApiFloat.from_bits 163 : M Float8E5M2)
  let t817 ← ApiFloat.fmt t816 none none false
  let t818 ← is_nan t816
  check (!t818 || decide (t817 = ("NaN".toList)))
  let t819 ← (parse t817 : M Float8E5M2)
  let t820 ← ApiFloat.bitwise_eq t816 t819
  check (t818 || t820)
  let t821 ← (ApiFloat.from_bits 164 : M Float8E5M2)
  let t822 ← ApiFloat.fmt t821 none none false
  let t823 ← is_nan t821
  check (!t823 || decide (t822 = ("NaN".toList)))
  let t824 ← (parse t822 : M Float8E5M2)
  let t825 ← ApiFloat.bitwise_eq t821 t824
  check (t823 || t825)
  let t826 ← (ApiFloat.from_bits 165 : M Float8E5M2)
  let t827 ← ApiFloat.fmt t826 none none false
  let t828 ← is_nan t826
  check (!t828 || decide (t827 = ("NaN".toList)))
  let t829 ← (parse t827 : M Float8E5M2)
  let t830 ← ApiFloat.bitwise_eq t826 t829
  check (t828 || t830)
  let t831 ← (ApiFloat.from_bits 166 : M Float8E5M2)
  let t832 ← ApiFloat.fmt t831 none none false
  let t833 ← is_nan t831
  check (!t833 || decide (t832 = ("NaN".toList)))
  let t834 ← (parse t832 : M Float8E5M2)
  let t835 ← ApiFloat.bitwise_eq t831 t834
  check (t833 || t835)
  let t836 ← (ApiFloat.from_bits 167 : M Float8E5M2)
  let t837 ← ApiFloat.fmt t836 none none false
  let t838 ← is_nan t836
  check (!t838 || decide (t837 = ("NaN".toList)))
  let t839 ← (parse t837 : M Float8E5M2)
  let t840 ← ApiFloat.bitwise_eq t836 t839
  check (t838 || t840)
  let t841 ← (ApiFloat.from_bits 168 : M Float8E5M2)
  let t842 ← ApiFloat.fmt t841 none none false
  let t843 ← is_nan t841
  check (!t843 || decide (t842 = ("NaN".toList)))
  let t844 ← (parse t842 : M Float8E5M2)
  let t845 ← ApiFloat.bitwise_eq t841 t844
  check (t843 || t845)
  let t846 ← (ApiFloat.from_bits 169 : M Float8E5M2)
  let t847 ← ApiFloat.fmt t846 none none false
  let t848 ← is_nan t846
  check (!t848 || decide (t847 = ("NaN".toList)))
  let t849 ← (parse t847 : M Float8E5M2)
  let t850 ← ApiFloat.bitwise_eq t846 t849
  check (t848 || t850)
  let t851 ← (ApiFloat.from_bits 170 : M Float8E5M2)
  let t852 ← ApiFloat.fmt t851 none none false
  let t853 ← is_nan t851
  check (!t853 || decide (t852 = ("NaN".toList)))

example : passes t_f8_to_string_19 = true := by decide +kernel

/-- tests/ieee.rs:4566 `f8_to_string`. -/
def t_f8_to_string_20 : M Unit := do
  let t851 ← (ApiFloat.from_bits 170 : M Float8E5M2)
  let t852 ← ApiFloat.fmt t851 none none false
  let t853 ← is_nan t851
  let t854 ← (parse t852 : M Float8E5M2)
  let t855 ← ApiFloat.bitwise_eq t851 t854
  check (t853 || t855)
  let t856 ← (ApiFloat.from_bits 171 : M Float8E5M2)
  let t857 ← ApiFloat.fmt t856 none none false
  let t858 ← is_nan t856
  check (!t858 || decide (t857 = ("NaN".toList)))
  let t859 ← (parse t857 : M Float8E5M2)
  let t860 ← ApiFloat.bitwise_eq t856 t859
  check (t858 || t860)
  let t861 ← (ApiFloat.from_bits 172 : M Float8E5M2)
  let t862 ← ApiFloat.fmt t861 none none false
  let t863 ← is_nan t861
  check (!t863 || decide (t862 = ("NaN".toList)))
  let t864 ← (parse t862 : M Float8E5M2)
  let t865 ← ApiFloat.bitwise_eq t861 t864
  check (t863 || t865)
  let t866 ← (ApiFloat.from_bits 173 : M Float8E5M2)
  let t867 ← ApiFloat.fmt t866 none none false
  let t868 ← is_nan t866
  check (!t868 || decide (t867 = ("NaN".toList)))
  let t869 ← (parse t867 : M Float8E5M2)
  let t870 ← ApiFloat.bitwise_eq t866 t869
  check (t868 || t870)
  let t871 ← (ApiFloat.from_bits 174 : M Float8E5M2)
  let t872 ← ApiFloat.fmt t871 none none false
  let t873 ← is_nan t871
  check (!t873 || decide (t872 = ("NaN".toList)))
  let t874 ← (parse t872 : M Float8E5M2)
  let t875 ← ApiFloat.bitwise_eq t871 t874
  check (t873 || t875)
  let t876 ← (ApiFloat.from_bits 175 : M Float8E5M2)
  let t877 ← ApiFloat.fmt t876 none none false
  let t878 ← is_nan t876
  check (!t878 || decide (t877 = ("NaN".toList)))
  let t879 ← (parse t877 : M Float8E5M2)
  let t880 ← ApiFloat.bitwise_eq t876 t879
  check (t878 || t880)
  let t881 ← (ApiFloat.from_bits 176 : M Float8E5M2)
  let t882 ← ApiFloat.fmt t881 none none false
  let t883 ← is_nan t881
  check (!t883 || decide (t882 = ("NaN".toList)))
  let t884 ← (parse t882 : M Float8E5M2)
  let t885 ← ApiFloat.bitwise_eq t881 t884
  check (t883 || t885)
  let t886 ← (ApiFloat.from_bits 177 : M Float8E5M2)
  let t887 ← ApiFloat.fmt t886 none none false
  let t888 ← is_nan t886
  check (!t888 || decide (t887 = ("NaN".toList)))
  let t889 ← (parse t887 : M Float8E5M2)
  let t890 ← ApiFloat.bitwise_eq t886 t889
  check (t888 || t890)
  let t891 ← (ApiFloat.from_bits 178 : M Float8E5M2)
  let t892 ← ApiFloat.fmt t891 none none false
  let t893 ← is_nan t891
  check (!t893 || decide (t892 = ("NaN".toList)))
  let t894 ← (parse t892 : M Float8E5M2)
  let t895 ← ApiFloat.bitwise_eq t891 t894
  check (t893 || t895)
  let t896 ← (ApiFloat.from_bits 179 : M Float8E5M2)
  let t897 ← ApiFloat.fmt t896 none none false
  let t898 ← is_nan t896
  check (!t898 || decide (t897 = ("NaN".toList)))

example : passes t_f8_to_string_20 = true := by decide +kernel

/-- tests/ieee.rs:4566 `f8_to_string`. -/
def t_f8_to_string_21 : M Unit := do
  let t896 ← (ApiFloat.from_bits 179 : M Float8E5M2)
  let t897 ← ApiFloat.fmt t896 none none false
  let t898 ← is_nan t896
  let t899 ← (parse t897 : M Float8E5M2)
  let t900 ← ApiFloat.bitwise_eq t896 t899
  check (t898 || t900)
  let t901 ← (ApiFloat.from_bits 180 : M Float8E5M2)
  let t902 ← ApiFloat.fmt t901 none none false
  let t903 ← is_nan t901
  check (!t903 || decide (t902 = ("NaN".toList)))
  let t904 ← (parse t902 : M Float8E5M2)
  let t905 ← ApiFloat.bitwise_eq t901 t904
  check (t903 || t905)
  let t906 ← (ApiFloat.from_bits 181 : M Float8E5M2)
  let t907 ← ApiFloat.fmt t906 none none false
  let t908 ← is_nan t906
  check (!t908 || decide (t907 = ("NaN".toList)))
  let t909 ← (parse t907 : M Float8E5M2)
  let t910 ← ApiFloat.bitwise_eq t906 t909
  check (t908 || t910)
  let t911 ← (ApiFloat.from_bits 182 : M Float8E5M2)
  let t912 ← ApiFloat.fmt t911 none none false
  let t913 ← is_nan t911
  check (!t913 || decide (t912 = ("NaN".toList)))
  let t914 ← (parse t912 : M Float8E5M2)
  let t915 ← ApiFloat.bitwise_eq t911 t914
  check (t913 || t915)
  let t916 ← (ApiFloat.from_bits 183 : M Float8E5M2)
  let t917 ← ApiFloat.fmt t916 none none false
  let t918 ← is_nan t916
  check (!t918 || decide (t917 = ("NaN".toList)))
  let t919 ← (parse t917 : M Float8E5M2)
  let t920 ← ApiFloat.bitwise_eq t916 t919
  check (t918 || t920)
  let t921 ← (ApiFloat.from_bits 184 : M Float8E5M2)
  let t922 ← ApiFloat.fmt t921 none none false
  let t923 ← is_nan t921
  check (!t923 || decide (t922 = ("NaN".toList)))
  let t924 ← (parse t922 : M Float8E5M2)
  let t925 ← ApiFloat.bitwise_eq t921 t924
  check (t923 || t925)
  let t926 ← (ApiFloat.from_bits 185 : M Float8E5M2)
  let t927 ← ApiFloat.fmt t926 none none false
  let t928 ← is_nan t926
  check (!t928 || decide (t927 = ("NaN".toList)))
  let t929 ← (parse t927 : M Float8E5M2)
  let t930 ← ApiFloat.bitwise_eq t926 t929
  check (t928 || t930)
  let t931 ← (ApiFloat.from_bits 186 : M Float8E5M2)
  let t932 ← ApiFloat.fmt t931 none none false
  let t933 ← is_nan t931
  check (!t933 || decide (t932 = ("NaN".toList)))
  let t934 ← (parse t932 : M Float8E5M2)
  let t935 ← ApiFloat.bitwise_eq t931 t934
  check (t933 || t935)
  let t936 ← (ApiFloat.from_bits 187 : M Float8E5M2)
  let t937 ← ApiFloat.fmt t936 none none false
  let t938 ← is_nan t936
  check (!t938 || decide (t937 = ("NaN".toList)))
  let t939 ← (parse t937 : M Float8E5M2)
  let t940 ← ApiFloat.bitwise_eq t936 t939
  check (t938 || t940)
  let t941 ← (ApiFloat.from_bits 188 : M Float8E5M2)
  let t942 ← ApiFloat.fmt t941 none none false
  let t943 ← is_nan t941
  check (!t943 || decide (t942 = ("NaN".toList)))

example : passes t_f8_to_string_21 = true := by decide +kernel

/-- tests/ieee.rs:4566 `f8_to_string`. -/
def t_f8_to_string_22 : M Unit := do
  let t941 ← (ApiFloat.from_bits 188 : M Float8E5M2)
  let t942 ← ApiFloat.fmt t941 none none false
  let t943 ← is_nan t941
  let t944 ← (parse t942 : M Float8E5M2)
  let t945 ← ApiFloat.bitwise_eq t941 t944
  check (t943 || t945)
  let t946 ← (ApiFloat.from_bits 189 : M Float8E5M2)
  let t947 ← ApiFloat.fmt t946 none none false
  let t948 ← is_nan t946
  check (!t948 || decide (t947 = ("NaN".toList)))
  let t949 ← (parse t947 : M Float8E5M2)
  let t950 ← ApiFloat.bitwise_eq t946 t949
  check (t948 || t950)
  let t951 ← (ApiFloat.from_bits 190 : M Float8E5M2)
  let t952 ← ApiFloat.fmt t951 none none false
  let t953 ← is_nan t951
  check (!t953 || decide (t952 = ("NaN".toList)))
  let t954 ← (parse t952 : M Float8E5M2)
  let t955 ← ApiFloat.bitwise_eq t951 t954
  check (t953 || t955)
  let t956 ← (ApiFloat.from_bits 191 : M Float8E5M2)
  let t957 ← ApiFloat.fmt t956 none none false
  let t958 ← is_nan t956
  check (!t958 || decide (t957 = ("NaN".toList)))
  let t959 ← (parse t957 : M Float8E5M2)
  let t960 ← ApiFloat.bitwise_eq t956 t959
  check (t958 || t960)
  let t961 ← (ApiFloat.from_bits 192 : M Float8E5M2)
  let t962 ← ApiFloat.fmt t961 none none false
  let t963 ← is_nan t961
  check (!t963 || decide (t962 = ("NaN".toList)))
  let t964 ← (parse t962 : M Float8E5M2)
  let t965 ← ApiFloat.bitwise_eq t961 t964
  check (t963 || t965)
  let t966 ← (ApiFloat.from_bits 193 : M Float8E5M2)
  let t967 ← ApiFloat.fmt t966 none none false
  let t968 ← is_nan t966
  check (!t968 || decide (t967 = ("NaN".toList)))
  let t969 ← (parse t967 : M Float8E5M2)
  let t970 ← ApiFloat.bitwise_eq t966 t969
  check (t968 || t970)
  let t971 ← (ApiFloat.from_bits 194 : M Float8E5M2)
  let t972 ← ApiFloat.fmt t971 none none false
  let t973 ← is_nan t971
  check (!t973 || decide (t972 = ("NaN".toList)))
  let t974 ← (parse t972 : M Float8E5M2)
  let t975 ← ApiFloat.bitwise_eq t971 t974
  check (t973 || t975)
  let t976 ← (ApiFloat.from_bits 195 : M Float8E5M2)
  let t977 ← ApiFloat.fmt t976 none none false
  let t978 ← is_nan t976
  check (!t978 || decide (t977 = ("NaN".toList)))
  let t979 ← (parse t977 : M Float8E5M2)
  let t980 ← ApiFloat.bitwise_eq t976 t979
  check (t978 || t980)
  let t981 ← (ApiFloat.from_bits 196 : M Float8E5M2)
  let t982 ← ApiFloat.fmt t981 none none false
  let t983 ← is_nan t981
  check (!t983 || decide (t982 = ("NaN".toList)))
  let t984 ← (parse t982 : M Float8E5M2)
  let t985 ← ApiFloat.bitwise_eq t981 t984
  check (t983 || t985)
  let t986 ← (ApiFloat.from_bits 197 : M Float8E5M2)
  let t987 ← ApiFloat.fmt t986 none none false
  let t988 ← is_nan t986
  check (!t988 || decide (t987 = ("NaN".toList)))

example : passes t_f8_to_string_22 = true := by decide +kernel

/-- tests/ieee.rs:4566 `f8_to_string`. -/
def t_f8_to_string_23 : M Unit := do
  let t986 ← (ApiFloat.from_bits 197 : M Float8E5M2)
  let t987 ← ApiFloat.fmt t986 none none false
  let t988 ← is_nan t986
  let t989 ← (parse t987 : M Float8E5M2)
  let t990 ← ApiFloat.bitwise_eq t986 t989
  check (t988 || t990)
  let t991 ← (ApiFloat.from_bits 198 : M Float8E5M2)
  let t992 ← ApiFloat.fmt t991 none none false
  let t993 ← is_nan t991
  check (!t993 || decide (t992 = ("NaN".toList)))
  let t994 ← (parse t992 : M Float8E5M2)
  let t995 ← ApiFloat.bitwise_eq t991 t994
  check (t993 || t995)
  let t996 ← (ApiFloat.from_bits 199 : M Float8E5M2)
  let t997 ← ApiFloat.fmt t996 none none false
  let t998 ← is_nan t996
  check (!t998 || decide (t997 = ("NaN".toList)))
  let t999 ← (parse t997 : M Float8E5M2)
  let t1000 ← ApiFloat.bitwise_eq t996 t999
  check (t998 || t1000)
  let t1001 ← (ApiFloat.from_bits 200 : M Float8E5M2)
  let t1002 ← ApiFloat.fmt t1001 none none false
  let t1003 ← is_nan t1001
  check (!t1003 || decide (t1002 = ("NaN".toList)))
  let t1004 ← (parse t1002 : M Float8E5M2)
  let t1005 ← ApiFloat.bitwise_eq t1001 t1004
  check (t1003 || t1005)
  let t1006 ← (ApiFloat.from_bits 201 : M Float8E5M2)
  let t1007 ← ApiFloat.fmt t1006 none none false
  let t1008 ← is_nan t1006
  check (!t1008 || decide (t1007 = ("NaN".toList)))
  let t1009 ← (parse t1007 : M Float8E5M2)
  let t1010 ← ApiFloat.bitwise_eq t1006 t1009
  check (t1008 || t1010)
  let t1011 ← (ApiFloat.from_bits 202 : M Float8E5M2)
  let t1012 ← ApiFloat.fmt t1011 none none false
  let t1013 ← is_nan t1011
  check (!t1013 || decide (t1012 = ("NaN".toList)))
  let t1014 ← (parse t1012 : M Float8E5M2)
  let t1015 ← ApiFloat.bitwise_eq t1011 t1014
  check (t1013 || t1015)
  let t1016 ← (ApiFloat.from_bits 203 : M Float8E5M2)
  let t1017 ← ApiFloat.fmt t1016 none none false
  let t1018 ← is_nan t1016
  check (!t1018 || decide (t1017 = ("NaN".toList)))
  let t1019 ← (parse t1017 : M Float8E5M2)
  let t1020 ← ApiFloat.bitwise_eq t1016 t1019
  check (t1018 || t1020)
  let t1021 ← (ApiFloat.from_bits 204 : M Float8E5M2)
  let t1022 ← ApiFloat.fmt t1021 none none false
  let t1023 ← is_nan t1021
  check (!t1023 || decide (t1022 = ("NaN".toList)))
  let t1024 ← (parse t1022 : M Float8E5M2)
  let t1025 ← ApiFloat.bitwise_eq t1021 t1024
  check (t1023 || t1025)
  let t1026 ← (ApiFloat.from_bits 205 : M Float8E5M2)
  let t1027 ← ApiFloat.fmt t1026 none none false
  let t1028 ← is_nan t1026
  check (!t1028 || decide (t1027 = ("NaN".toList)))
  let t1029 ← (parse t1027 : M Float8E5M2)
  let t1030 ← ApiFloat.bitwise_eq t1026 t1029
  check (t1028 || t1030)
  let t1031 ← (ApiFloat.from_bits 206 : M Float8E5M2)
  let t1032 ← ApiFloat.fmt t1031 none none false
  let t1033 ← is_nan t1031
  check (!t1033 || decide (t1032 = ("NaN".toList)))

example : passes t_f8_to_string_23 = true := by decide +kernel

/-- tests/ieee.rs:4566 `f8_to_string`. -/
def t_f8_to_string_24 : M Unit := do
  let t1031 ← (ApiFloat.from_bits 206 : M Float8E5M2)
  let t1032 ← ApiFloat.fmt t1031 none none false
  let t1033 ← is_nan t1031
  let t1034 ← (parse t1032 : M Float8E5M2)
  let t1035 ← ApiFloat.bitwise_eq t1031 t1034
  check (t1033 || t1035)
  let t1036 ← (ApiFloat.from_bits 207 : M Float8E5M2)
  let t1037 ← ApiFloat.fmt t1036 none none false
  let t1038 ← is_nan t1036
  check (!t1038 || decide (t1037 = ("NaN".toList)))
  let t1039 ← (parse t1037 : M Float8E5M2)
  let t1040 ← ApiFloat.bitwise_eq t1036 t1039
  check (t1038 || t1040)
  let t1041 ← (ApiFloat.from_bits 208 : M Float8E5M2)
  let t1042 ← ApiFloat.fmt t1041 none none false
  let t1043 ← is_nan t1041
  check (!t1043 || decide (t1042 = ("NaN".toList)))
  let t1044 ← (parse t1042 : M Float8E5M2)
  let t1045 ← ApiFloat.bitwise_eq t1041 t1044
  check (t1043 || t1045)
  let t1046 ← (ApiFloat.from_bits 209 : M Float8E5M2)
  let t1047 ← ApiFloat.fmt t1046 none none false
  let t1048 ← is_nan t1046
  check (!t1048 || decide (t1047 = ("NaN".toList)))
  let t1049 ← (parse t1047 : M Float8E5M2)
  let t1050 ← ApiFloat.bitwise_eq t1046 t1049
  check (t1048 || t1050)
  let t1051 ← (ApiFloat.from_bits 210 : M Float8E5M2)
  let t1052 ← ApiFloat.fmt t1051 none none false
  let t1053 ← is_nan t1051
  check (!t1053 || decide (t1052 = ("NaN".toList)))
  let t1054 ← (parse t1052 : M Float8E5M2)
  let t1055 ← ApiFloat.bitwise_eq t1051 t1054
  check (t1053 || t1055)
  let t1056 ← (ApiFloat.from_bits 211 : M Float8E5M2)
  let t1057 ← ApiFloat.fmt t1056 none none false
  let t1058 ← is_nan t1056
  check (!t1058 || decide (t1057 = ("NaN".toList)))
  let t1059 ← (parse t1057 : M Float8E5M2)
  let t1060 ← ApiFloat.bitwise_eq t1056 t1059
  check (t1058 || t1060)
  let t1061 ← (ApiFloat.from_bits 212 : M Float8E5M2)
  let t1062 ← ApiFloat.fmt t1061 none none false
  let t1063 ← is_nan t1061
  check (!t1063 || decide (t1062 = ("NaN".toList)))
  let t1064 ← (parse t1062 : M Float8E5M2)
  let t1065 ← ApiFloat.bitwise_eq t1061 t1064
  check (t1063 || t1065)
  let t1066 ← (ApiFloat.from_bits 213 : M Float8E5M2)
  let t1067 ← ApiFloat.fmt t1066 none none false
  let t1068 ← is_nan t1066
  check (!t1068 || decide (t1067 = ("NaN".toList)))
  let t1069 ← (parse t1067 : M Float8E5M2)
  let t1070 ← ApiFloat.bitwise_eq t1066 t1069
  check (t1068 || t1070)
  let t1071 ← (ApiFloat.from_bits 214 : M Float8E5M2)
  let t1072 ← ApiFloat.fmt t1071 none none false
  let t1073 ← is_nan t1071
  check (!t1073 || decide (t1072 = ("NaN".toList)))
  let t1074 ← (parse t1072 : M Float8E5M2)
  let t1075 ← ApiFloat.bitwise_eq t1071 t1074
  check (t1073 || t1075)
  let t1076 ← (ApiFloat.from_bits 215 : M Float8E5M2)
  let t1077 ← ApiFloat.fmt t1076 none none false
  let t1078 ← is_nan t1076
  check (!t1078 || decide (t1077 = ("NaN".toList)))

example : passes t_f8_to_string_24 = true := by decide +kernel

/-- tests/ieee.rs:4566 `f8_to_string`. -/
def t_f8_to_string_25 : M Unit := do
  let t1076 ← (ApiFloat.from_bits 215 : M Float8E5M2)
  let t1077 ← ApiFloat.fmt t1076 none none false
  let t1078 ← is_nan t1076
  let t1079 ← (parse t1077 : M Float8E5M2)
  let t1080 ← ApiFloat.bitwise_eq t1076 t1079
  check (t1078 || t1080)
  let t1081 ← (ApiFloat.from_bits 216 : M Float8E5M2)
  let t1082 ← ApiFloat.fmt t1081 none none false
  let t1083 ← is_nan t1081
  check (!t1083 || decide (t1082 = ("NaN".toList)))
  let t1084 ← (parse t1082 : M Float8E5M2)
  let t1085 ← ApiFloat.bitwise_eq t1081 t1084
  check (t1083 || t1085)
  let t1086 ← (ApiFloat.from_bits 217 : M Float8E5M2)
  let t1087 ← ApiFloat.fmt t1086 none none false
  let t1088 ← is_nan t1086
  check (!t1088 || decide (t1087 = ("NaN".toList)))
  let t1089 ← (parse t1087 : M Float8E5M2)
  let t1090 ← ApiFloat.bitwise_eq t1086 t1089
  check (t1088 || t1090)
  let t1091 ← (ApiFloat.from_bits 218 : M Float8E5M2)
  let t1092 ← ApiFloat.fmt t1091 none none false
  let t1093 ← is_nan t1091
  check (!t1093 || decide (t1092 = ("NaN".toList)))
  let t1094 ← (parse t1092 : M Float8E5M2)
  let t1095 ← ApiFloat.bitwise_eq t1091 t1094
  check (t1093 || t1095)
  let t1096 ← (ApiFloat.from_bits 219 : M Float8E5M2)
  let t1097 ← ApiFloat.fmt t1096 none none false
  let t1098 ← is_nan t1096
  check (!t1098 || decide (t1097 = ("NaN".toList)))
  let t1099 ← (parse t1097 : M Float8E5M2)
  let t1100 ← ApiFloat.bitwise_eq t1096 t1099
  check (t1098 || t1100)
  let t1101 ← (ApiFloat.from_bits 220 : M Float8E5M2)
  let t1102 ← ApiFloat.fmt t1101 none none false
  let t1103 ← is_nan t1101
  check (!t1103 || decide (t1102 = ("NaN".toList)))
  let t1104 ← (parse t1102 : M Float8E5M2)
  let t1105 ← ApiFloat.bitwise_eq t1101 t1104
  check (t1103 || t1105)
  let t1106 ← (ApiFloat.from_bits 221 : M Float8E5M2)
  let t1107 ← ApiFloat.fmt t1106 none none false
  let t1108 ← is_nan t1106
  check (!t1108 || decide (t1107 = ("NaN".toList)))
  let t1109 ← (parse t1107 : M Float8E5M2)
  let t1110 ← ApiFloat.bitwise_eq t1106 t1109
  check (t1108 || t1110)
  let t1111 ← (ApiFloat.from_bits 222 : M Float8E5M2)
  let t1112 ← ApiFloat.fmt t1111 none none false
  let t1113 ← is_nan t1111
  check (!t1113 || decide (t1112 = ("NaN".toList)))
  let t1114 ← (parse t1112 : M Float8E5M2)
  let t1115 ← ApiFloat.bitwise_eq t1111 t1114
  check (t1113 || t1115)
  let t1116 ← (ApiFloat.from_bits 223 : M Float8E5M2)
  let t1117 ← ApiFloat.fmt t1116 none none false
  let t1118 ← is_nan t1116
  check (!t1118 || decide (t1117 = ("NaN".toList)))
  let t1119 ← (parse t1117 : M Float8E5M2)
  let t1120 ← ApiFloat.bitwise_eq t1116 t1119
  check (t1118 || t1120)
  let t1121 ← (ApiFloat.from_bits 224 : M Float8E5M2)
  let t1122 ← ApiFloat.fmt t1121 none none false
  let t1123 ← is_nan t1121
  check (!t1123 || decide (t1122 = ("NaN".toList)))

example : passes t_f8_to_string_25 = true := by decide +kernel

/-- tests/ieee.rs:4566 `f8_to_string`. -/
def t_f8_to_string_26 : M Unit := do
  let t1121 ← (ApiFloat.from_bits 224 : M Float8E5M2)
  let t1122 ← ApiFloat.fmt t1121 none none false
  let t1123 ← is_nan t1121
  let t1124 ← (parse t1122 : M Float8E5M2)
  let t1125 ← ApiFloat.bitwise_eq t1121 t1124
  check (t1123 || t1125)
  let t1126 ← (ApiFloat.from_bits 225 : M Float8E5M2)
  let t1127 ← ApiFloat.fmt t1126 none none false
  let t1128 ← is_nan t1126
  check (!t1128 || decide (t1127 = ("NaN".toList)))
  let t1129 ← (parse t1127 : M Float8E5M2)
  let t1130 ← ApiFloat.bitwise_eq t1126 t1129
  check (t1128 || t1130)
  let t1131 ← (ApiFloat.from_bits 226 : M Float8E5M2)
  let t1132 ← ApiFloat.fmt t1131 none none false
  let t1133 ← is_nan t1131
  check (!t1133 || decide (t1132 = ("NaN".toList)))
  let t1134 ← (parse t1132 : M Float8E5M2)
  let t1135 ← ApiFloat.bitwise_eq t1131 t1134
  check (t1133 || t1135)
  let t1136 ← (ApiFloat.from_bits 227 : M Float8E5M2)
  let t1137 ← ApiFloat.fmt t1136 none none false
  let t1138 ← is_nan t1136
  check (!t1138 || decide (t1137 = ("NaN".toList)))
  let t1139 ← (parse t1137 : M Float8E5M2)
  let t1140 ← ApiFloat.bitwise_eq t1136 t1139
  check (t1138 || t1140)
  let t1141 ← (ApiFloat.from_bits 228 : M Float8E5M2)
  let t1142 ← ApiFloat.fmt t1141 none none false
  let t1143 ← is_nan t1141
  check (!t1143 || decide (t1142 = ("NaN".toList)))
  let t1144 ← (parse t1142 : M Float8E5M2)
  let t1145 ← ApiFloat.bitwise_eq t1141 t1144
  check (t1143 || t1145)
  let t1146 ← (ApiFloat.from_bits 229 : M Float8E5M2)
  let t1147 ← ApiFloat.fmt t1146 none none false
  let t1148 ← is_nan t1146
  check (!t1148 || decide (t1147 = ("NaN".toList)))
  let t1149 ← (parse t1147 : M Float8E5M2)
  let t1150 ← ApiFloat.bitwise_eq t1146 t1149
  check (t1148 || t1150)
  let t1151 ← (ApiFloat.from_bits 230 : M Float8E5M2)
  let t1152 ← ApiFloat.fmt t1151 none none false
  let t1153 ← is_nan t1151
  check (!t1153 || decide (t1152 = ("NaN".toList)))
  let t1154 ← (parse t1152 : M Float8E5M2)
  let t1155 ← ApiFloat.bitwise_eq t1151 t1154
  check (t1153 || t1155)
  let t1156 ← (ApiFloat.from_bits 231 : M Float8E5M2)
  let t1157 ← ApiFloat.fmt t1156 none none false
  let t1158 ← is_nan t1156
  check (!t1158 || decide (t1157 = ("NaN".toList)))
  let t1159 ← (parse t1157 : M Float8E5M2)
  let t1160 ← ApiFloat.bitwise_eq t1156 t1159
  check (t1158 || t1160)
  let t1161 ← (ApiFloat.from_bits 232 : M Float8E5M2)
  let t1162 ← ApiFloat.fmt t1161 none none false
  let t1163 ← is_nan t1161
  check (!t1163 || decide (t1162 = ("NaN".toList)))
  let t1164 ← (parse t1162 : M Float8E5M2)
  let t1165 ← ApiFloat.bitwise_eq t1161 t1164
  check (t1163 || t1165)
  let t1166 ← (ApiFloat.from_bits 233 : M Float8E5M2)
  let t1167 ← ApiFloat.fmt t1166 none none false
  let t1168 ← is_nan t1166
  check (!t1168 || decide (t1167 = ("NaN".toList)))

example : passes t_f8_to_string_26 = true := by decide +kernel

/-- tests/ieee.rs:4566 `f8_to_string`. -/
def t_f8_to_string_27 : M Unit := do
  let t1166 ← (ApiFloat.from_bits 233 : M Float8E5M2)
  let t1167 ← ApiFloat.fmt t1166 none none false
  let t1168 ← is_nan t1166
  let t1169 ← (parse t1167 : M Float8E5M2)
  let t1170 ← ApiFloat.bitwise_eq t1166 t1169
  check (t1168 || t1170)
  let t1171 ← (ApiFloat.from_bits 234 : M Float8E5M2)
  let t1172 ← ApiFloat.fmt t1171 none none false
  let t1173 ← is_nan t1171
  check (!t1173 || decide (t1172 = ("NaN".toList)))
  let t1174 ← (parse t1172 : M Float8E5M2)
  let t1175 ← ApiFloat.bitwise_eq t1171 t1174
  check (t1173 || t1175)
  let t1176 ← (ApiFloat.from_bits 235 : M Float8E5M2)
  let t1177 ← ApiFloat.fmt t1176 none none false
  let t1178 ← is_nan t1176
  check (!t1178 || decide (t1177 = ("NaN".toList)))
  let t1179 ← (parse t1177 : M Float8E5M2)
  let t1180 ← ApiFloat.bitwise_eq t1176 t1179
  check (t1178 || t1180)
  let t1181 ← (ApiFloat.from_bits 236 : M Float8E5M2)
  let t1182 ← ApiFloat.fmt t1181 none none false
  let t1183 ← is_nan t1181
  check (!t1183 || decide (t1182 = ("NaN".toList)))
  let t1184 ← (parse t1182 : M Float8E5M2)
  let t1185 ← ApiFloat.bitwise_eq t1181 t1184
  check (t1183 || t1185)
  let t1186 ← (ApiFloat.from_bits 237 : M Float8E5M2)
  let t1187 ← ApiFloat.fmt t1186 none none false
  let t1188 ← is_nan t1186
  check (!t1188 || decide (t1187 = ("NaN".toList)))
  let t1189 ← (parse t1187 : M Float8E5M2)
  let t1190 ← ApiFloat.bitwise_eq t1186 t1189
  check (t1188 || t1190)
  let t1191 ← (ApiFloat.from_bits 238 : M Float8E5M2)
  let t1192 ← ApiFloat.fmt t1191 none none false
  let t1193 ← is_nan t1191
  check (!t1193 || decide (t1192 = ("NaN".toList)))
  let t1194 ← (parse t1192 : M Float8E5M2)
  let t1195 ← ApiFloat.bitwise_eq t1191 t1194
  check (t1193 || t1195)
  let t1196 ← (ApiFloat.from_bits 239 : M Float8E5M2)
  let t1197 ← ApiFloat.fmt t1196 none none false
  let t1198 ← is_nan t1196
  check (!t1198 || decide (t1197 = ("NaN".toList)))
  let t1199 ← (parse t1197 : M Float8E5M2)
  let t1200 ← ApiFloat.bitwise_eq t1196 t1199
  check (t1198 || t1200)
  let t1201 ← (ApiFloat.from_bits 240 : M Float8E5M2)
  let t1202 ← ApiFloat.fmt t1201 none none false
  let t1203 ← is_nan t1201
  check (!t1203 || decide (t1202 = ("NaN".toList)))
  let t1204 ← (parse t1202 : M Float8E5M2)
  let t1205 ← ApiFloat.bitwise_eq t1201 t1204
  check (t1203 || t1205)
  let t1206 ← (ApiFloat.from_bits 241 : M Float8E5M2)
  let t1207 ← ApiFloat.fmt t1206 none none false
  let t1208 ← is_nan t1206
  check (!t1208 || decide (t1207 = ("NaN".toList)))
  let t1209 ← (parse t1207 : M Float8E5M2)
  let t1210 ← ApiFloat.bitwise_eq t1206 t1209
  check (t1208 || t1210)
  let t1211 ← (ApiFloat.from_bits 242 : M Float8E5M2)
  let t1212 ← ApiFloat.fmt t1211 none none false
  let t1213 ← is_nan t1211
  check (!t1213 || decide (t1212 = ("NaN".toList)))

example : passes t_f8_to_string_27 = true := by decide +kernel

/-- tests/ieee.rs:4566 `f8_to_string`. -/
def t_f8_to_string_28 : M Unit := do
  let t1211 ← (ApiFloat.from_bits 242 : M Float8E5M2)
  let t1212 ← ApiFloat.fmt t1211 none none false
  let t1213 ← is_nan t1211
  let t1214 ← (parse t1212 : M Float8E5M2)
  let t1215 ← ApiFloat.bitwise_eq t1211 t1214
  check (t1213 || t1215)
  let t1216 ← (ApiFloat.from_bits 243 : M Float8E5M2)
  let t1217 ← ApiFloat.fmt t1216 none none false
  let t1218 ← is_nan t1216
  check (!t1218 || decide (t1217 = ("NaN".toList)))
  let t1219 ← (parse t1217 : M Float8E5M2)
  let t1220 ← ApiFloat.bitwise_eq t1216 t1219
  check (t1218 || t1220)
  let t1221 ← (ApiFloat.from_bits 244 : M Float8E5M2)
  let t1222 ← ApiFloat.fmt t1221 none none false
  let t1223 ← is_nan t1221
  check (!t1223 || decide (t1222 = ("NaN".toList)))
  let t1224 ← (parse t1222 : M Float8E5M2)
  let t1225 ← ApiFloat.bitwise_eq t1221 t1224
  check (t1223 || t1225)
  let t1226 ← (ApiFloat.from_bits 245 : M Float8E5M2)
  let t1227 ← ApiFloat.fmt t1226 none none false
  let t1228 ← is_nan t1226
  check (!t1228 || decide (t1227 = ("NaN".toList)))
  let t1229 ← (parse t1227 : M Float8E5M2)
  let t1230 ← ApiFloat.bitwise_eq t1226 t1229
  check (t1228 || t1230)
  let t1231 ← (ApiFloat.from_bits 246 : M Float8E5M2)
  let t1232 ← ApiFloat.fmt t1231 none none false
  let t1233 ← is_nan t1231
  check (!t1233 || decide (t1232 = ("NaN".toList)))
  let t1234 ← (parse t1232 : M Float8E5M2)
  let t1235 ← ApiFloat.bitwise_eq t1231 t1234
  check (t1233 || t1235)
  let t1236 ← (ApiFloat.from_bits 247 : M Float8E5M2)
  let t1237 ← ApiFloat.fmt t1236 none none false
  let t1238 ← is_nan t1236
  check (!t1238 || decide (t1237 = ("NaN".toList)))
  let t1239 ← (parse t1237 : M Float8E5M2)
  let t1240 ← ApiFloat.bitwise_eq t1236 t1239
  check (t1238 || t1240)
  let t1241 ← (ApiFloat.from_bits 248 : M Float8E5M2)
  let t1242 ← ApiFloat.fmt t1241 none none false
  let t1243 ← is_nan t1241
  check (!t1243 || decide (t1242 = ("NaN".toList)))
  let t1244 ← (parse t1242 : M Float8E5M2)
  let t1245 ← ApiFloat.bitwise_eq t1241 t1244
  check (t1243 || t1245)
  let t1246 ← (ApiFloat.from_bits 249 : M Float8E5M2)
  let t1247 ← ApiFloat.fmt t1246 none none false
  let t1248 ← is_nan t1246
  check (!t1248 || decide (t1247 = ("NaN".toList)))
  let t1249 ← (parse t1247 : M Float8E5M2)
  let t1250 ← ApiFloat.bitwise_eq t1246 t1249
  check (t1248 || t1250)
  let t1251 ← (ApiFloat.from_bits 250 : M Float8E5M2)
  let t1252 ← ApiFloat.fmt t1251 none none false
  let t1253 ← is_nan t1251
  check (!t1253 || decide (t1252 = ("NaN".toList)))
  let t1254 ← (parse t1252 : M Float8E5M2)
  let t1255 ← ApiFloat.bitwise_eq t1251 t1254
  check (t1253 || t1255)
  let t1256 ← (ApiFloat.from_bits 251 : M Float8E5M2)
  let t1257 ← ApiFloat.fmt t1256 none none false
  let t1258 ← is_nan t1256
  check (!t1258 || decide (t1257 = ("NaN".toList)))

example : passes t_f8_to_string_28 = true := by decide +kernel

/-- tests/ieee.rs:4566 `f8_to_string`. -/
def t_f8_to_string_29 : M Unit := do
  let t1256 ← (ApiFloat.from_bits 251 : M Float8E5M2)
  let t1257 ← ApiFloat.fmt t1256 none none false
  let t1258 ← is_nan t1256
  let t1259 ← (parse t1257 : M Float8E5M2)
  let t1260 ← ApiFloat.bitwise_eq t1256 t1259
  check (t1258 || t1260)
  let t1261 ← (ApiFloat.from_bits 252 : M Float8E5M2)
  let t1262 ← ApiFloat.fmt t1261 none none false
  let t1263 ← is_nan t1261
  check (!t1263 || decide (t1262 = ("NaN".toList)))
  let t1264 ← (parse t1262 : M Float8E5M2)
  let t1265 ← ApiFloat.bitwise_eq t1261 t1264
  check (t1263 || t1265)
  let t1266 ← (ApiFloat.from_bits 253 : M Float8E5M2)
  let t1267 ← ApiFloat.fmt t1266 none none false
  let t1268 ← is_nan t1266
  check (!t1268 || decide (t1267 = ("NaN".toList)))
  let t1269 ← (parse t1267 : M Float8E5M2)
  let t1270 ← ApiFloat.bitwise_eq t1266 t1269
  check (t1268 || t1270)
  let t1271 ← (ApiFloat.from_bits 254 : M Float8E5M2)
  let t1272 ← ApiFloat.fmt t1271 none none false
  let t1273 ← is_nan t1271
  check (!t1273 || decide (t1272 = ("NaN".toList)))
  let t1274 ← (parse t1272 : M Float8E5M2)
  let t1275 ← ApiFloat.bitwise_eq t1271 t1274
  check (t1273 || t1275)
  let t1276 ← (ApiFloat.from_bits 255 : M Float8E5M2)
  let t1277 ← ApiFloat.fmt t1276 none none false
  let t1278 ← is_nan t1276
  check (!t1278 || decide (t1277 = ("NaN".toList)))
  let t1279 ← (parse t1277 : M Float8E5M2)
  let t1280 ← ApiFloat.bitwise_eq t1276 t1279
  check (t1278 || t1280)
  let t1281 ← (ApiFloat.from_bits 0 : M Float8E4M3FN)
  let t1282 ← ApiFloat.fmt t1281 none none false
  let t1283 ← is_nan t1281
  check (!t1283 || decide (t1282 = ("NaN".toList)))
  let t1284 ← (parse t1282 : M Float8E4M3FN)
  let t1285 ← ApiFloat.bitwise_eq t1281 t1284
  check (t1283 || t1285)
  let t1286 ← (ApiFloat.from_bits 1 : M Float8E4M3FN)
  let t1287 ← ApiFloat.fmt t1286 none none false
  let t1288 ← is_nan t1286
  check (!t1288 || decide (t1287 = ("NaN".toList)))
  let t1289 ← (parse t1287 : M Float8E4M3FN)
  let t1290 ← ApiFloat.bitwise_eq t1286 t1289
  check (t1288 || t1290)
  let t1291 ← (ApiFloat.from_bits 2 : M Float8E4M3FN)
  let t1292 ← ApiFloat.fmt t1291 none none false
  let t1293 ← is_nan t1291
  check (!t1293 || decide (t1292 = ("NaN".toList)))
  let t1294 ← (parse t1292 : M Float8E4M3FN)
  let t1295 ← ApiFloat.bitwise_eq t1291 t1294
  check (t1293 || t1295)
  let t1296 ← (ApiFloat.from_bits 3 : M Float8E4M3FN)
  let t1297 ← ApiFloat.fmt t1296 none none false
  let t1298 ← is_nan t1296
  check (!t1298 || decide (t1297 = ("NaN".toList)))
  let t1299 ← (parse t1297 : M Float8E4M3FN)
  let t1300 ← ApiFloat.bitwise_eq t1296 t1299
  check (t1298 || t1300)
  let t1301 ← (ApiFloat.from_bits 4 : M Float8E4M3FN)
  let t1302 ← ApiFloat.fmt t1301 none none false
  let t1303 ← is_nan t1301
  check (!t1303 || decide (t1302 = ("NaN".toList)))

example : passes t_f8_to_string_29 = true := by decide +kernel

/-- tests/ieee.rs:4566 `f8_to_string`. -/
def t_f8_to_string_30 : M Unit := do
  let t1301 ← (ApiFloat.from_bits 4 : M Float8E4M3FN)
  let t1302 ← ApiFloat.fmt t1301 none none false
  let t1303 ← is_nan t1301
  let t1304 ← (parse t1302 : M Float8E4M3FN)
  let t1305 ← ApiFloat.bitwise_eq t1301 t1304
  check (t1303 || t1305)
  let t1306 ← (ApiFloat.from_bits 5 : M Float8E4M3FN)
  let t1307 ← ApiFloat.fmt t1306 none none false
  let t1308 ← is_nan t1306
  check (!t1308 || decide (t1307 = ("NaN".toList)))
  let t1309 ← (parse t1307 : M Float8E4M3FN)
  let t1310 ← ApiFloat.bitwise_eq t1306 t1309
  check (t1308 || t1310)
  let t1311 ← (ApiFloat.from_bits 6 : M Float8E4M3FN)
  let t1312 ← ApiFloat.fmt t1311 none none false
  let t1313 ← is_nan t1311
  check (!t1313 || decide (t1312 = ("NaN".toList)))
  let t1314 ← (parse t1312 : M Float8E4M3FN)
  let t1315 ← ApiFloat.bitwise_eq t1311 t1314
  check (t1313 || t1315)
  let t1316 ← (ApiFloat.from_bits 7 : M Float8E4M3FN)
  let t1317 ← ApiFloat.fmt t1316 none none false
  let t1318 ← is_nan t1316
  check (!t1318 || decide (t1317 = ("NaN".toList)))
  let t1319 ← (parse t1317 : M Float8E4M3FN)
  let t1320 ← ApiFloat.bitwise_eq t1316 t1319
  check (t1318 || t1320)
  let t1321 ← (ApiFloat.from_bits 8 : M Float8E4M3FN)
  let t1322 ← ApiFloat.fmt t1321 none none false
  let t1323 ← is_nan t1321
  check (!t1323 || decide (t1322 = ("NaN".toList)))
  let t1324 ← (parse t1322 : M Float8E4M3FN)
  let t1325 ← ApiFloat.bitwise_eq t1321 t1324
  check (t1323 || t1325)
  let t1326 ← (ApiFloat.from_bits 9 : M Float8E4M3FN)
  let t1327 ← ApiFloat.fmt t1326 none none false
  let t1328 ← is_nan t1326
  check (!t1328 || decide (t1327 = ("NaN".toList)))
  let t1329 ← (parse t1327 : M Float8E4M3FN)
  let t1330 ← ApiFloat.bitwise_eq t1326 t1329
  check (t1328 || t1330)
  let t1331 ← (ApiFloat.from_bits 10 : M Float8E4M3FN)
  let t1332 ← ApiFloat.fmt t1331 none none false
  let t1333 ← is_nan t1331
  check (!t1333 || decide (t1332 = ("NaN".toList)))
  let t1334 ← (parse t1332 : M Float8E4M3FN)
  let t1335 ← ApiFloat.bitwise_eq t1331 t1334
  check (t1333 || t1335)
  let t1336 ← (ApiFloat.from_bits 11 : M Float8E4M3FN)
  let t1337 ← ApiFloat.fmt t1336 none none false
  let t1338 ← is_nan t1336
  check (!t1338 || decide (t1337 = ("NaN".toList)))
  let t1339 ← (parse t1337 : M Float8E4M3FN)
  let t1340 ← ApiFloat.bitwise_eq t1336 t1339
  check (t1338 || t1340)
  let t1341 ← (ApiFloat.from_bits 12 : M Float8E4M3FN)
  let t1342 ← ApiFloat.fmt t1341 none none false
  let t1343 ← is_nan t1341
  check (!t1343 || decide (t1342 = ("NaN".toList)))
  let t1344 ← (parse t1342 : M Float8E4M3FN)
  let t1345 ← ApiFloat.bitwise_eq t1341 t1344
  check (t1343 || t1345)
  let t1346 ← (ApiFloat.from_bits 13 : M Float8E4M3FN)
  let t1347 ← ApiFloat.fmt t1346 none none false
  let t1348 ← is_nan t1346
  check (!t1348 || decide (t1347 = ("NaN".toList)))

example : passes t_f8_to_string_30 = true := by decide +kernel

/-- tests/ieee.rs:4566 `f8_to_string`. -/
def t_f8_to_string_31 : M Unit := do
  let t1346 ← (ApiFloat.from_bits 13 : M Float8E4M3FN)
  let t1347 ← ApiFloat.fmt t1346 none none false
  let t1348 ← is_nan t1346
  let t1349 ← (parse t1347 : M Float8E4M3FN)
  let t1350 ← ApiFloat.bitwise_eq t1346 t1349
  check (t1348 || t1350)
  let t1351 ← (ApiFloat.from_bits 14 : M Float8E4M3FN)
  let t1352 ← ApiFloat.fmt t1351 none none false
  let t1353 ← is_nan t1351
  check (!t1353 || decide (t1352 = ("NaN".toList)))
  let t1354 ← (parse t1352 : M Float8E4M3FN)
  let t1355 ← ApiFloat.bitwise_eq t1351 t1354
  check (t1353 || t1355)
  let t1356 ← (ApiFloat.from_bits 15 : M Float8E4M3FN)
  let t1357 ← ApiFloat.fmt t1356 none none false
  let t1358 ← is_nan t1356
  check (!t1358 || decide (t1357 = ("NaN".toList)))
  let t1359 ← (parse t1357 : M Float8E4M3FN)
  let t1360 ← ApiFloat.bitwise_eq t1356 t1359
  check (t1358 || t1360)
  let t1361 ← (ApiFloat.from_bits 16 : M Float8E4M3FN)
  let t1362 ← ApiFloat.fmt t1361 none none false
  let t1363 ← is_nan t1361
  check (!t1363 || decide (t1362 = ("NaN".toList)))
  let t1364 ← (parse t1362 : M Float8E4M3FN)
  let t1365 ← ApiFloat.bitwise_eq t1361 t1364
  check (t1363 || t1365)
  let t1366 ← (ApiFloat.from_bits 17 : M Float8E4M3FN)
  let t1367 ← ApiFloat.fmt t1366 none none false
  let t1368 ← is_nan t1366
  check (!t1368 || decide (t1367 = ("NaN".toList)))
  let t1369 ← (parse t1367 : M Float8E4M3FN)
  let t1370 ← ApiFloat.bitwise_eq t1366 t1369
  check (t1368 || t1370)
  let t1371 ← (ApiFloat.from_bits 18 : M Float8E4M3FN)
  let t1372 ← ApiFloat.fmt t1371 none none false
  let t1373 ← is_nan t1371
  check (!t1373 || decide (t1372 = ("NaN".toList)))
  let t1374 ← (parse t1372 : M Float8E4M3FN)
  let t1375 ← ApiFloat.bitwise_eq t1371 t1374
  check (t1373 || t1375)
  let t1376 ← (ApiFloat.from_bits 19 : M Float8E4M3FN)
  let t1377 ← ApiFloat.fmt t1376 none none false
  let t1378 ← is_nan t1376
  check (!t1378 || decide (t1377 = ("NaN".toList)))
  let t1379 ← (parse t1377 : M Float8E4M3FN)
  let t1380 ← ApiFloat.bitwise_eq t1376 t1379
  check (t1378 || t1380)
  let t1381 ← (ApiFloat.from_bits 20 : M Float8E4M3FN)
  let t1382 ← ApiFloat.fmt t1381 none none false
  let t1383 ← is_nan t1381
  check (!t1383 || decide (t1382 = ("NaN".toList)))
  let t1384 ← (parse t1382 : M Float8E4M3FN)
  let t1385 ← ApiFloat.bitwise_eq t1381 t1384
  check (t1383 || t1385)
  let t1386 ← (ApiFloat.from_bits 21 : M Float8E4M3FN)
  let t1387 ← ApiFloat.fmt t1386 none none false
  let t1388 ← is_nan t1386
  check (!t1388 || decide (t1387 = ("NaN".toList)))
  let t1389 ← (parse t1387 : M Float8E4M3FN)
  let t1390 ← ApiFloat.bitwise_eq t1386 t1389
  check (t1388 || t1390)
  let t1391 ← (ApiFloat.from_bits 22 : M Float8E4M3FN)
  let t1392 ← ApiFloat.fmt t1391 none none false
  let t1393 ← is_nan t1391
  check (!t1393 || decide (t1392 = ("NaN".toList)))

example : passes t_f8_to_string_31 = true := by decide +kernel

/-- tests/ieee.rs:4566 `f8_to_string`. -/
def t_f8_to_string_32 : M Unit := do
  let t1391 ← (ApiFloat.from_bits 22 : M Float8E4M3FN)
  let t1392 ← ApiFloat.fmt t1391 none none false
  let t1393 ← is_nan t1391
  let t1394 ← (parse t1392 : M Float8E4M3FN)
  let t1395 ← ApiFloat.bitwise_eq t1391 t1394
  check (t1393 || t1395)
  let t1396 ← (ApiFloat.from_bits 23 : M Float8E4M3FN)
  let t1397 ← ApiFloat.fmt t1396 none none false
  let t1398 ← is_nan t1396
  check (!t1398 || decide (t1397 = ("NaN".toList)))
  let t1399 ← (parse t1397 : M Float8E4M3FN)
  let t1400 ← ApiFloat.bitwise_eq t1396 t1399
  check (t1398 || t1400)
  let t1401 ← (ApiFloat.from_bits 24 : M Float8E4M3FN)
  let t1402 ← ApiFloat.fmt t1401 none none false
  let t1403 ← is_nan t1401
  check (!t1403 || decide (t1402 = ("NaN".toList)))
  let t1404 ← (parse t1402 : M Float8E4M3FN)
  let t1405 ← ApiFloat.bitwise_eq t1401 t1404
  check (t1403 || t1405)
  let t1406 ← (ApiFloat.from_bits 25 : M Float8E4M3FN)
  let t1407 ← ApiFloat.fmt t1406 none none false
  let t1408 ← is_nan t1406
  check (!t1408 || decide (t1407 = ("NaN".toList)))
  let t1409 ← (parse t1407 : M Float8E4M3FN)
  let t1410 ← ApiFloat.bitwise_eq t1406 t1409
  check (t1408 || t1410)
  let t1411 ← (ApiFloat.from_bits 26 : M Float8E4M3FN)
  let t1412 ← ApiFloat.fmt t1411 none none false
  let t1413 ← is_nan t1411
  check (!t1413 || decide (t1412 = ("NaN".toList)))
  let t1414 ← (parse t1412 : M Float8E4M3FN)
  let t1415 ← ApiFloat.bitwise_eq t1411 t1414
  check (t1413 || t1415)
  let t1416 ← (ApiFloat.from_bits 27 : M Float8E4M3FN)
  let t1417 ← ApiFloat.fmt t1416 none none false
  let t1418 ← is_nan t1416
  check (!t1418 || decide (t1417 = ("NaN".toList)))
  let t1419 ← (parse t1417 : M Float8E4M3FN)
  let t1420 ← ApiFloat.bitwise_eq t1416 t1419
  check (t1418 || t1420)
  let t1421 ← (ApiFloat.from_bits 28 : M Float8E4M3FN)
  let t1422 ← ApiFloat.fmt t1421 none none false
  let t1423 ← is_nan t1421
  check (!t1423 || decide (t1422 = ("NaN".toList)))
  let t1424 ← (parse t1422 : M Float8E4M3FN)
  let t1425 ← ApiFloat.bitwise_eq t1421 t1424
  check (t1423 || t1425)
  let t1426 ← (ApiFloat.from_bits 29 : M Float8E4M3FN)
  let t1427 ← ApiFloat.fmt t1426 none none false
  let t1428 ← is_nan t1426
  check (!t1428 || decide (t1427 = ("NaN".toList)))
  let t1429 ← (parse t1427 : M Float8E4M3FN)
  let t1430 ← ApiFloat.bitwise_eq t1426 t1429
  check (t1428 || t1430)
  let t1431 ← (ApiFloat.from_bits 30 : M Float8E4M3FN)
  let t1432 ← ApiFloat.fmt t1431 none none false
  let t1433 ← is_nan t1431
  check (!t1433 || decide (t1432 = ("NaN".toList)))
  let t1434 ← (parse t1432 : M Float8E4M3FN)
  let t1435 ← ApiFloat.bitwise_eq t1431 t1434
  check (t1433 || t1435)
  let t1436 ← (ApiFloat.from_bits 31 : M Float8E4M3FN)
  let t1437 ← ApiFloat.fmt t1436 none none false
  let t1438 ← is_nan t1436
  check (!t1438 || decide (t1437 = ("NaN".toList)))

example : passes t_f8_to_string_32 = true := by decide +kernel

/-- tests/ieee.rs:4566 `f8_to_string`. -/
def t_f8_to_string_33 : M Unit := do
  let t1436 ← (ApiFloat.from_bits 31 : M Float8E4M3FN)
  let t1437 ← ApiFloat.fmt t1436 none none false
  let t1438 ← is_nan t1436
  let t1439 ← (parse t1437 : M Float8E4M3FN)
  let t1440 ← ApiFloat.bitwise_eq t1436 t1439
  check (t1438 || t1440)
  let t1441 ← (ApiFloat.from_bits 32 : M Float8E4M3FN)
  let t1442 ← ApiFloat.fmt t1441 none none false
  let t1443 ← is_nan t1441
  check (!t1443 || decide (t1442 = ("NaN".toList)))
  let t1444 ← (parse t1442 : M Float8E4M3FN)
  let t1445 ← ApiFloat.bitwise_eq t1441 t1444
  check (t1443 || t1445)
  let t1446 ← (ApiFloat.from_bits 33 : M Float8E4M3FN)
  let t1447 ← ApiFloat.fmt t1446 none none false
  let t1448 ← is_nan t1446
  check (!t1448 || decide (t1447 = ("NaN".toList)))
  let t1449 ← (parse t1447 : M Float8E4M3FN)
  let t1450 ← ApiFloat.bitwise_eq t1446 t1449
  check (t1448 || t1450)
  let t1451 ← (ApiFloat.from_bits 34 : M Float8E4M3FN)
  let t1452 ← ApiFloat.fmt t1451 none none false
  let t1453 ← is_nan t1451
  check (!t1453 || decide (t1452 = ("NaN".toList)))
  let t1454 ← (parse t1452 : M Float8E4M3FN)
  let t1455 ← ApiFloat.bitwise_eq t1451 t1454
  check (t1453 || t1455)
  let t1456 ← (ApiFloat.from_bits 35 : M Float8E4M3FN)
  let t1457 ← ApiFloat.fmt t1456 none none false
  let t1458 ← is_nan t1456
  check (!t1458 || decide (t1457 = ("NaN".toList)))
  let t1459 ← (parse t1457 : M Float8E4M3FN)
  let t1460 ← ApiFloat.bitwise_eq t1456 t1459
  check (t1458 || t1460)
  let t1461 ← (ApiFloat.from_bits 36 : M Float8E4M3FN)
  let t1462 ← ApiFloat.fmt t1461 none none false
  let t1463 ← is_nan t1461
  check (!t1463 || decide (t1462 = ("NaN".toList)))
  let t1464 ← (parse t1462 : M Float8E4M3FN)
  let t1465 ← ApiFloat.bitwise_eq t1461 t1464
  check (t1463 || t1465)
  let t1466 ← (ApiFloat.from_bits 37 : M Float8E4M3FN)
  let t1467 ← ApiFloat.fmt t1466 none none false
  let t1468 ← is_nan t1466
  check (!t1468 || decide (t1467 = ("NaN".toList)))
  let t1469 ← (parse t1467 : M Float8E4M3FN)
  let t1470 ← ApiFloat.bitwise_eq t1466 t1469
  check (t1468 || t1470)
  let t1471 ← (ApiFloat.from_bits 38 : M Float8E4M3FN)
  let t1472 ← ApiFloat.fmt t1471 none none false
  let t1473 ← is_nan t1471
  check (!t1473 || decide (t1472 = ("NaN".toList)))
  let t1474 ← (parse t1472 : M Float8E4M3FN)
  let t1475 ← ApiFloat.bitwise_eq t1471 t1474
  check (t1473 || t1475)
  let t1476 ← (ApiFloat.from_bits 39 : M Float8E4M3FN)
  let t1477 ← ApiFloat.fmt t1476 none none false
  let t1478 ← is_nan t1476
  check (!t1478 || decide (t1477 = ("NaN".toList)))
  let t1479 ← (parse t1477 : M Float8E4M3FN)
  let t1480 ← ApiFloat.bitwise_eq t1476 t1479
  check (t1478 || t1480)
  let t1481 ← (ApiFloat.from_bits 40 : M Float8E4M3FN)
  let t1482 ← ApiFloat.fmt t1481 none none false
  let t1483 ← is_nan t1481
  check (!t1483 || decide (t1482 = ("NaN".toList)))

example : passes t_f8_to_string_33 = true := by decide +kernel

/-- tests/ieee.rs:4566 `f8_to_string`. -/
def t_f8_to_string_34 : M Unit := do
  let t1481 ← (ApiFloat.from_bits 40 : M Float8E4M3FN)
  let t1482 ← ApiFloat.fmt t1481 none none false
  let t1483 ← is_nan t1481
  let t1484 ← (parse t1482 : M Float8E4M3FN)
  let t1485 ← ApiFloat.bitwise_eq t1481 t1484
  check (t1483 || t1485)
  let t1486 ← (ApiFloat.from_bits 41 : M Float8E4M3FN)
  let t1487 ← ApiFloat.fmt t1486 none none false
  let t1488 ← is_nan t1486
  check (!t1488 || decide (t1487 = ("NaN".toList)))
  let t1489 ← (parse t1487 : M Float8E4M3FN)
  let t1490 ← ApiFloat.bitwise_eq t1486 t1489
  check (t1488 || t1490)
  let t1491 ← (ApiFloat.from_bits 42 : M Float8E4M3FN)
  let t1492 ← ApiFloat.fmt t1491 none none false
  let t1493 ← is_nan t1491
  check (!t1493 || decide (t1492 = ("NaN".toList)))
  let t1494 ← (parse t1492 : M Float8E4M3FN)
  let t1495 ← ApiFloat.bitwise_eq t1491 t1494
  check (t1493 || t1495)
  let t1496 ← (ApiFloat.from_bits 43 : M Float8E4M3FN)
  let t1497 ← ApiFloat.fmt t1496 none none false
  let t1498 ← is_nan t1496
  check (!t1498 || decide (t1497 = ("NaN".toList)))
  let t1499 ← (parse t1497 : M Float8E4M3FN)
  let t1500 ← ApiFloat.bitwise_eq t1496 t1499
  check (t1498 || t1500)
  let t1501 ← (ApiFloat.from_bits 44 : M Float8E4M3FN)
  let t1502 ← ApiFloat.fmt t1501 none none false
  let t1503 ← is_nan t1501
  check (!t1503 || decide (t1502 = ("NaN".toList)))
  let t1504 ← (parse t1502 : M Float8E4M3FN)
  let t1505 ← ApiFloat.bitwise_eq t1501 t1504
  check (t1503 || t1505)
  let t1506 ← (ApiFloat.from_bits 45 : M Float8E4M3FN)
  let t1507 ← ApiFloat.fmt t1506 none none false
  let t1508 ← is_nan t1506
  check (!t1508 || decide (t1507 = ("NaN".toList)))
  let t1509 ← (parse t1507 : M Float8E4M3FN)
  let t1510 ← ApiFloat.bitwise_eq t1506 t1509
  check (t1508 || t1510)
  let t1511 ← (ApiFloat.from_bits 46 : M Float8E4M3FN)
  let t1512 ← ApiFloat.fmt t1511 none none false
  let t1513 ← is_nan t1511
  check (!t1513 || decide (t1512 = ("NaN".toList)))
  let t1514 ← (parse t1512 : M Float8E4M3FN)
  let t1515 ← ApiFloat.bitwise_eq t1511 t1514
  check (t1513 || t1515)
  let t1516 ← (ApiFloat.from_bits 47 : M Float8E4M3FN)
  let t1517 ← ApiFloat.fmt t1516 none none false
  let t1518 ← is_nan t1516
  check (!t1518 || decide (t1517 = ("NaN".toList)))
  let t1519 ← (parse t1517 : M Float8E4M3FN)
  let t1520 ← ApiFloat.bitwise_eq t1516 t1519
  check (t1518 || t1520)
  let t1521 ← (ApiFloat.from_bits 48 : M Float8E4M3FN)
  let t1522 ← ApiFloat.fmt t1521 none none false
  let t1523 ← is_nan t1521
  check (!t1523 || decide (t1522 = ("NaN".toList)))
  let t1524 ← (parse t1522 : M Float8E4M3FN)
  let t1525 ← ApiFloat.bitwise_eq t1521 t1524
  check (t1523 || t1525)
  let t1526 ← (ApiFloat.from_bits 49 : M Float8E4M3FN)
  let t1527 ← ApiFloat.fmt t1526 none none false
  let t1528 ← is_nan t1526
  check (!t1528 || decide (t1527 = ("NaN".toList)))

example : passes t_f8_to_string_34 = true := by decide +kernel

/-- tests/ieee.rs:4566 `f8_to_string`. -/
def t_f8_to_string_35 : M Unit := do
  let t1526 ← (ApiFloat.from_bits 49 : M Float8E4M3FN)
  let t1527 ← ApiFloat.fmt t1526 none none false
  let t1528 ← is_nan t1526
  let t1529 ← (parse t1527 : M Float8E4M3FN)
  let t1530 ← ApiFloat.bitwise_eq t1526 t1529
  check (t1528 || t1530)
  let t1531 ← (ApiFloat.from_bits 50 : M Float8E4M3FN)
  let t1532 ← ApiFloat.fmt t1531 none none false
  let t1533 ← is_nan t1531
  check (!t1533 || decide (t1532 = ("NaN".toList)))
  let t1534 ← (parse t1532 : M Float8E4M3FN)
  let t1535 ← ApiFloat.bitwise_eq t1531 t1534
  check (t1533 || t1535)
  let t1536 ← (ApiFloat.from_bits 51 : M Float8E4M3FN)
  let t1537 ← ApiFloat.fmt t1536 none none false
  let t1538 ← is_nan t1536
  check (!t1538 || decide (t1537 = ("NaN".toList)))
  let t1539 ← (parse t1537 : M Float8E4M3FN)
  let t1540 ← ApiFloat.bitwise_eq t1536 t1539
  check (t1538 || t1540)
  let t1541 ← (ApiFloat.from_bits 52 : M Float8E4M3FN)
  let t1542 ← ApiFloat.fmt t1541 none none false
  let t1543 ← is_nan t1541
  check (!t1543 || decide (t1542 = ("NaN".toList)))
  let t1544 ← (parse t1542 : M Float8E4M3FN)
  let t1545 ← ApiFloat.bitwise_eq t1541 t1544
  check (t1543 || t1545)
  let t1546 ← (ApiFloat.from_bits 53 : M Float8E4M3FN)
  let t1547 ← ApiFloat.fmt t1546 none none false
  let t1548 ← is_nan t1546
  check (!t1548 || decide (t1547 = ("NaN".toList)))
  let t1549 ← (parse t1547 : M Float8E4M3FN)
  let t1550 ← ApiFloat.bitwise_eq t1546 t1549
  check (t1548 || t1550)
  let t1551 ← (ApiFloat.from_bits 54 : M Float8E4M3FN)
  let t1552 ← ApiFloat.fmt t1551 none none false
  let t1553 ← is_nan t1551
  check (!t1553 || decide (t1552 = ("NaN".toList)))
  let t1554 ← (parse t1552 : M Float8E4M3FN)
  let t1555 ← ApiFloat.bitwise_eq t1551 t1554
  check (t1553 || t1555)
  let t1556 ← (ApiFloat.from_bits 55 : M Float8E4M3FN)
  let t1557 ← ApiFloat.fmt t1556 none none false
  let t1558 ← is_nan t1556
  check (!t1558 || decide (t1557 = ("NaN".toList)))
  let t1559 ← (parse t1557 : M Float8E4M3FN)
  let t1560 ← ApiFloat.bitwise_eq t1556 t1559
  check (t1558 || t1560)
  let t1561 ← (ApiFloat.from_bits 56 : M Float8E4M3FN)
  let t1562 ← ApiFloat.fmt t1561 none none false
  let t1563 ← is_nan t1561
  check (!t1563 || decide (t1562 = ("NaN".toList)))
  let t1564 ← (parse t1562 : M Float8E4M3FN)
  let t1565 ← ApiFloat.bitwise_eq t1561 t1564
  check (t1563 || t1565)
  let t1566 ← (ApiFloat.from_bits 57 : M Float8E4M3FN)
  let t1567 ← ApiFloat.fmt t1566 none none false
  let t1568 ← is_nan t1566
  check (!t1568 || decide (t1567 = ("NaN".toList)))
  let t1569 ← (parse t1567 : M Float8E4M3FN)
  let t1570 ← ApiFloat.bitwise_eq t1566 t1569
  check (t1568 || t1570)
  let t1571 ← (ApiFloat.from_bits 58 : M Float8E4M3FN)
  let t1572 ← ApiFloat.fmt t1571 none none false
  let t1573 ← is_nan t1571
  check (!t1573 || decide (t1572 = ("NaN".toList)))

example : passes t_f8_to_string_35 = true := by decide +kernel

/-- tests/ieee.rs:4566 `f8_to_string`. -/
def t_f8_to_string_36 : M Unit := do
  let t1571 ← (ApiFloat.from_bits 58 : M Float8E4M3FN)
  let t1572 ← ApiFloat.fmt t1571 none none false
  let t1573 ← is_nan t1571
  let t1574 ← (parse t1572 : M Float8E4M3FN)
  let t1575 ← ApiFloat.bitwise_eq t1571 t1574
  check (t1573 || t1575)
  let t1576 ← (ApiFloat.from_bits 59 : M Float8E4M3FN)
  let t1577 ← ApiFloat.fmt t1576 none none false
  let t1578 ← is_nan t1576
  check (!t1578 || decide (t1577 = ("NaN".toList)))
  let t1579 ← (parse t1577 : M Float8E4M3FN)
  let t1580 ← ApiFloat.bitwise_eq t1576 t1579
  check (t1578 || t1580)
  let t1581 ← (ApiFloat.from_bits 60 : M Float8E4M3FN)
  let t1582 ← ApiFloat.fmt t1581 none none false
  let t1583 ← is_nan t1581
  check (!t1583 || decide (t1582 = ("NaN".toList)))
  let t1584 ← (parse t1582 : M Float8E4M3FN)
  let t1585 ← ApiFloat.bitwise_eq t1581 t1584
  check (t1583 || t1585)
  let t1586 ← (ApiFloat.from_bits 61 : M Float8E4M3FN)
  let t1587 ← ApiFloat.fmt t1586 none none false
  let t1588 ← is_nan t1586
  check (!t1588 || decide (t1587 = ("NaN".toList)))
  let t1589 ← (parse t1587 : M Float8E4M3FN)
  let t1590 ← ApiFloat.bitwise_eq t1586 t1589
  check (t1588 || t1590)
  let t1591 ← (ApiFloat.from_bits 62 : M Float8E4M3FN)
  let t1592 ← ApiFloat.fmt t1591 none none false
  let t1593 ← is_nan t1591
  check (!t1593 || decide (t1592 = ("NaN".toList)))
  let t1594 ← (parse t1592 : M Float8E4M3FN)
  let t1595 ← ApiFloat.bitwise_eq t1591 t1594
  check (t1593 || t1595)
  let t1596 ← (ApiFloat.from_bits 63 : M Float8E4M3FN)
  let t1597 ← ApiFloat.fmt t1596 none none false
  let t1598 ← is_nan t1596
  check (!t1598 || decide (t1597 = ("NaN".toList)))
  let t1599 ← (parse t1597 : M Float8E4M3FN)
  let t1600 ← ApiFloat.bitwise_eq t1596 t1599
  check (t1598 || t1600)
  let t1601 ← (ApiFloat.from_bits 64 : M Float8E4M3FN)
  let t1602 ← ApiFloat.fmt t1601 none none false
  let t1603 ← is_nan t1601
  check (!t1603 || decide (t1602 = ("NaN".toList)))
  let t1604 ← (parse t1602 : M Float8E4M3FN)
  let t1605 ← ApiFloat.bitwise_eq t1601 t1604
  check (t1603 || t1605)
  let t1606 ← (ApiFloat.from_bits 65 : M Float8E4M3FN)
  let t1607 ← ApiFloat.fmt t1606 none none false
  let t1608 ← is_nan t1606
  check (!t1608 || decide (t1607 = ("NaN".toList)))
  let t1609 ← (parse t1607 : M Float8E4M3FN)
  let t1610 ← ApiFloat.bitwise_eq t1606 t1609
  check (t1608 || t1610)
  let t1611 ← (ApiFloat.from_bits 66 : M Float8E4M3FN)
  let t1612 ← ApiFloat.fmt t1611 none none false
  let t1613 ← is_nan t1611
  check (!t1613 || decide (t1612 = ("NaN".toList)))
  let t1614 ← (parse t1612 : M Float8E4M3FN)
  let t1615 ← ApiFloat.bitwise_eq t1611 t1614
  check (t1613 || t1615)
  let t1616 ← (ApiFloat.from_bits 67 : M Float8E4M3FN)
  let t1617 ← ApiFloat.fmt t1616 none none false
  let t1618 ← is_nan t1616
  check (!t1618 || decide (t1617 = ("NaN".toList)))

example : passes t_f8_to_string_36 = true := by decide +kernel

/-- tests/ieee.rs:4566 `f8_to_string`. -/
def t_f8_to_string_37 : M Unit := do
  let t1616 ← (ApiFloat.from_bits 67 : M Float8E4M3FN)
  let t1617 ← ApiFloat.fmt t1616 none none false
  let t1618 ← is_nan t1616
  let t1619 ← (parse t1617 : M Float8E4M3FN)
  let t1620 ← ApiFloat.bitwise_eq t1616 t1619
  check (t1618 || t1620)
  let t1621 ← (ApiFloat.from_bits 68 : M Float8E4M3FN)
  let t1622 ← ApiFloat.fmt t1621 none none false
  let t1623 ← is_nan t1621
  check (!t1623 || decide (t1622 = ("NaN".toList)))
  let t1624 ← (parse t1622 : M Float8E4M3FN)
  let t1625 ← ApiFloat.bitwise_eq t1621 t1624
  check (t1623 || t1625)
  let t1626 ← (ApiFloat.from_bits 69 : M Float8E4M3FN)
  let t1627 ← ApiFloat.fmt t1626 none none false
  let t1628 ← is_nan t1626
  check (!t1628 || decide (t1627 = ("NaN".toList)))
  let t1629 ← (parse t1627 : M Float8E4M3FN)
  let t1630 ← ApiFloat.bitwise_eq t1626 t1629
  check (t1628 || t1630)
  let t1631 ← (ApiFloat.from_bits 70 : M Float8E4M3FN)
  let t1632 ← ApiFloat.fmt t1631 none none false
  let t1633 ← is_nan t1631
  check (!t1633 || decide (t1632 = ("NaN".toList)))
  let t1634 ← (parse t1632 : M Float8E4M3FN)
  let t1635 ← ApiFloat.bitwise_eq t1631 t1634
  check (t1633 || t1635)
  let t1636 ← (ApiFloat.from_bits 71 : M Float8E4M3FN)
  let t1637 ← ApiFloat.fmt t1636 none none false
  let t1638 ← is_nan t1636
  check (!t1638 || decide (t1637 = ("NaN".toList)))
  let t1639 ← (parse t1637 : M Float8E4M3FN)
  let t1640 ← ApiFloat.bitwise_eq t1636 t1639
  check (t1638 || t1640)
  let t1641 ← (ApiFloat.from_bits 72 : M Float8E4M3FN)
  let t1642 ← ApiFloat.fmt t1641 none none false
  let t1643 ← is_nan t1641
  check (!t1643 || decide (t1642 = ("NaN".toList)))
  let t1644 ← (parse t1642 : M Float8E4M3FN)
  let t1645 ← ApiFloat.bitwise_eq t1641 t1644
  check (t1643 || t1645)
  let t1646 ← (ApiFloat.from_bits 73 : M Float8E4M3FN)
  let t1647 ← ApiFloat.fmt t1646 none none false
  let t1648 ← is_nan t1646
  check (!t1648 || decide (t1647 = ("NaN".toList)))
  let t1649 ← (parse t1647 : M Float8E4M3FN)
  let t1650 ← ApiFloat.bitwise_eq t1646 t1649
  check (t1648 || t1650)
  let t1651 ← (ApiFloat.from_bits 74 : M Float8E4M3FN)
  let t1652 ← ApiFloat.fmt t1651 none none false
  let t1653 ← is_nan t1651
  check (!t1653 || decide (t1652 = ("NaN".toList)))
  let t1654 ← (parse t1652 : M Float8E4M3FN)
  let t1655 ← ApiFloat.bitwise_eq t1651 t1654
  check (t1653 || t1655)
  let t1656 ← (ApiFloat.from_bits 75 : M Float8E4M3FN)
  let t1657 ← ApiFloat.fmt t1656 none none false
  let t1658 ← is_nan t1656
  check (!t1658 || decide (t1657 = ("NaN".toList)))
  let t1659 ← (parse t1657 : M Float8E4M3FN)
  let t1660 ← ApiFloat.bitwise_eq t1656 t1659
  check (t1658 || t1660)
  let t1661 ← (ApiFloat.from_bits 76 : M Float8E4M3FN)
  let t1662 ← ApiFloat.fmt t1661 none none false
  let t1663 ← is_nan t1661
  check (!t1663 || decide (t1662 = ("NaN".toList)))

example : passes t_f8_to_string_37 = true := by decide +kernel

/-- tests/ieee.rs:4566 `f8_to_string`. -/
def t_f8_to_string_38 : M Unit := do
  let t1661 ← (ApiFloat.from_bits 76 : M Float8E4M3FN)
  let t1662 ← ApiFloat.fmt t1661 none none false
  let t1663 ← is_nan t1661
  let t1664 ← (parse t1662 : M Float8E4M3FN)
  let t1665 ← ApiFloat.bitwise_eq t1661 t1664
  check (t1663 || t1665)
  let t1666 ← (ApiFloat.from_bits 77 : M Float8E4M3FN)
  let t1667 ← ApiFloat.fmt t1666 none none false
  let t1668 ← is_nan t1666
  check (!t1668 || decide (t1667 = ("NaN".toList)))
  let t1669 ← (parse t1667 : M Float8E4M3FN)
  let t1670 ← ApiFloat.bitwise_eq t1666 t1669
  check (t1668 || t1670)
  let t1671 ← (ApiFloat.from_bits 78 : M Float8E4M3FN)
  let t1672 ← ApiFloat.fmt t1671 none none false
  let t1673 ← is_nan t1671
  check (!t1673 || decide (t1672 = ("NaN".toList)))
  let t1674 ← (parse t1672 : M Float8E4M3FN)
  let t1675 ← ApiFloat.bitwise_eq t1671 t1674
  check (t1673 || t1675)
  let t1676 ← (ApiFloat.from_bits 79 : M Float8E4M3FN)
  let t1677 ← ApiFloat.fmt t1676 none none false
  let t1678 ← is_nan t1676
  check (!t1678 || decide (t1677 = ("NaN".toList)))
  let t1679 ← (parse t1677 : M Float8E4M3FN)
  let t1680 ← ApiFloat.bitwise_eq t1676 t1679
  check (t1678 || t1680)
  let t1681 ← (ApiFloat.from_bits 80 : M Float8E4M3FN)
  let t1682 ← ApiFloat.fmt t1681 none none false
  let t1683 ← is_nan t1681
  check (!t1683 || decide (t1682 = ("NaN".toList)))
  let t1684 ← (parse t1682 : M Float8E4M3FN)
  let t1685 ← ApiFloat.bitwise_eq t1681 t1684
  check (t1683 || t1685)
  let t1686 ← (ApiFloat.from_bits 81 : M Float8E4M3FN)
  let t1687 ← ApiFloat.fmt t1686 none none false
  let t1688 ← is_nan t1686
  check (!t1688 || decide (t1687 = ("NaN".toList)))
  let t1689 ← (parse t1687 : M Float8E4M3FN)
  let t1690 ← ApiFloat.bitwise_eq t1686 t1689
  check (t1688 || t1690)
  let t1691 ← (ApiFloat.from_bits 82 : M Float8E4M3FN)
  let t1692 ← ApiFloat.fmt t1691 none none false
  let t1693 ← is_nan t1691
  check (!t1693 || decide (t1692 = ("NaN".toList)))
  let t1694 ← (parse t1692 : M Float8E4M3FN)
  let t1695 ← ApiFloat.bitwise_eq t1691 t1694
  check (t1693 || t1695)
  let t1696 ← (ApiFloat.from_bits 83 : M Float8E4M3FN)
  let t1697 ← ApiFloat.fmt t1696 none none false
  let t1698 ← is_nan t1696
  check (!t1698 || decide (t1697 = ("NaN".toList)))
  let t1699 ← (parse t1697 : M Float8E4M3FN)
  let t1700 ← ApiFloat.bitwise_eq t1696 t1699
  check (t1698 || t1700)
  let t1701 ← (ApiFloat.from_bits 84 : M Float8E4M3FN)
  let t1702 ← ApiFloat.fmt t1701 none none false
  let t1703 ← is_nan t1701
  check (!t1703 || decide (t1702 = ("NaN".toList)))
  let t1704 ← (parse t1702 : M Float8E4M3FN)
  let t1705 ← ApiFloat.bitwise_eq t1701 t1704
  check (t1703 || t1705)
  let t1706 ← (ApiFloat.from_bits 85 : M Float8E4M3FN)
  let t1707 ← ApiFloat.fmt t1706 none none false
  let t1708 ← is_nan t1706
  check (!t1708 || decide (t1707 = ("NaN".toList)))

example : passes t_f8_to_string_38 = true := by decide +kernel

/-- tests/ieee.rs:4566 `f8_to_string`. -/
def t_f8_to_string_39 : M Unit := do
  let t1706 ← (ApiFloat.from_bits 85 : M Float8E4M3FN)
  let t1707 ← ApiFloat.fmt t1706 none none false
  let t1708 ← is_nan t1706
  let t1709 ← (parse t1707 : M Float8E4M3FN)
  let t1710 ← ApiFloat.bitwise_eq t1706 t1709
  check (t1708 || t1710)
  let t1711 ← (ApiFloat.from_bits 86 : M Float8E4M3FN)
  let t1712 ← ApiFloat.fmt t1711 none none false
  let t1713 ← is_nan t1711
  check (!t1713 || decide (t1712 = ("NaN".toList)))
  let t1714 ← (parse t1712 : M Float8E4M3FN)
  let t1715 ← ApiFloat.bitwise_eq t1711 t1714
  check (t1713 || t1715)
  let t1716 ← (ApiFloat.from_bits 87 : M Float8E4M3FN)
  let t1717 ← ApiFloat.fmt t1716 none none false
  let t1718 ← is_nan t1716
  check (!t1718 || decide (t1717 = ("NaN".toList)))
  let t1719 ← (parse t1717 : M Float8E4M3FN)
  let t1720 ← ApiFloat.bitwise_eq t1716 t1719
  check (t1718 || t1720)
  let t1721 ← (ApiFloat.from_bits 88 : M Float8E4M3FN)
  let t1722 ← ApiFloat.fmt t1721 none none false
  let t1723 ← is_nan t1721
  check (!t1723 || decide (t1722 = ("NaN".toList)))
  let t1724 ← (parse t1722 : M Float8E4M3FN)
  let t1725 ← ApiFloat.bitwise_eq t1721 t1724
  check (t1723 || t1725)
  let t1726 ← (ApiFloat.from_bits 89 : M Float8E4M3FN)
  let t1727 ← ApiFloat.fmt t1726 none none false
  let t1728 ← is_nan t1726
  check (!t1728 || decide (t1727 = ("NaN".toList)))
  let t1729 ← (parse t1727 : M Float8E4M3FN)
  let t1730 ← ApiFloat.bitwise_eq t1726 t1729
  check (t1728 || t1730)
  let t1731 ← (ApiFloat.from_bits 90 : M Float8E4M3FN)
  let t1732 ← ApiFloat.fmt t1731 none none false
  let t1733 ← is_nan t1731
  check (!t1733 || decide (t1732 = ("NaN".toList)))
  let t1734 ← (parse t1732 : M Float8E4M3FN)
  let t1735 ← ApiFloat.bitwise_eq t1731 t1734
  check (t1733 || t1735)
  let t1736 ← (ApiFloat.from_bits 91 : M Float8E4M3FN)
  let t1737 ← ApiFloat.fmt t1736 none none false
  let t1738 ← is_nan t1736
  check (!t1738 || decide (t1737 = ("NaN".toList)))
  let t1739 ← (parse t1737 : M Float8E4M3FN)
  let t1740 ← ApiFloat.bitwise_eq t1736 t1739
  check (t1738 || t1740)
  let t1741 ← (ApiFloat.from_bits 92 : M Float8E4M3FN)
  let t1742 ← ApiFloat.fmt t1741 none none false
  let t1743 ← is_nan t1741
  check (!t1743 || decide (t1742 = ("NaN".toList)))
  let t1744 ← (parse t1742 : M Float8E4M3FN)
  let t1745 ← ApiFloat.bitwise_eq t1741 t1744
  check (t1743 || t1745)
  let t1746 ← (ApiFloat.from_bits 93 : M Float8E4M3FN)
  let t1747 ← ApiFloat.fmt t1746 none none false
  let t1748 ← is_nan t1746
  check (!t1748 || decide (t1747 = ("NaN".toList)))
  let t1749 ← (parse t1747 : M Float8E4M3FN)
  let t1750 ← ApiFloat.bitwise_eq t1746 t1749
  check (t1748 || t1750)
  let t1751 ← (ApiFloat.from_bits 94 : M Float8E4M3FN)
  let t1752 ← ApiFloat.fmt t1751 none none false
  let t1753 ← is_nan t1751
  check (!t1753 || decide (t1752 = ("NaN".toList)))

example : passes t_f8_to_string_39 = true := by decide +kernel

/-- tests/ieee.rs:4566 `f8_to_string`. -/
def t_f8_to_string_40 : M Unit := do
  let t1751 ← (ApiFloat.from_bits 94 : M Float8E4M3FN)
  let t1752 ← ApiFloat.fmt t1751 none none false
  let t1753 ← is_nan t1751
  let t1754 ← (parse t1752 : M Float8E4M3FN)
  let t1755 ← ApiFloat.bitwise_eq t1751 t1754
  check (t1753 || t1755)
  let t1756 ← (ApiFloat.from_bits 95 : M Float8E4M3FN)
  let t1757 ← ApiFloat.fmt t1756 none none false
  let t1758 ← is_nan t1756
  check (!t1758 || decide (t1757 = ("NaN".toList)))
  let t1759 ← (parse t1757 : M Float8E4M3FN)
  let t1760 ← ApiFloat.bitwise_eq t1756 t1759
  check (t1758 || t1760)
  let t1761 ← (ApiFloat.from_bits 96 : M Float8E4M3FN)
  let t1762 ← ApiFloat.fmt t1761 none none false
  let t1763 ← is_nan t1761
  check (!t1763 || decide (t1762 = ("NaN".toList)))
  let t1764 ← (parse t1762 : M Float8E4M3FN)
  let t1765 ← ApiFloat.bitwise_eq t1761 t1764
  check (t1763 || t1765)
  let t1766 ← (ApiFloat.from_bits 97 : M Float8E4M3FN)
  let t1767 ← ApiFloat.fmt t1766 none none false
  let t1768 ← is_nan t1766
  check (!t1768 || decide (t1767 = ("NaN".toList)))
  let t1769 ← (parse t1767 : M Float8E4M3FN)
  let t1770 ← ApiFloat.bitwise_eq t1766 t1769
  check (t1768 || t1770)
  let t1771 ← (ApiFloat.from_bits 98 : M Float8E4M3FN)
  let t1772 ← ApiFloat.fmt t1771 none none false
  let t1773 ← is_nan t1771
  check (!t1773 || decide (t1772 = ("NaN".toList)))
  let t1774 ← (parse t1772 : M Float8E4M3FN)
  let t1775 ← ApiFloat.bitwise_eq t1771 t1774
  check (t1773 || t1775)
  let t1776 ← (ApiFloat.from_bits 99 : M Float8E4M3FN)
  let t1777 ← ApiFloat.fmt t1776 none none false
  let t1778 ← is_nan t1776
  check (!t1778 || decide (t1777 = ("NaN".toList)))
  let t1779 ← (parse t1777 : M Float8E4M3FN)
  let t1780 ← ApiFloat.bitwise_eq t1776 t1779
  check (t1778 || t1780)
  let t1781 ← (ApiFloat.from_bits 100 : M Float8E4M3FN)
  let t1782 ← ApiFloat.fmt t1781 none none false
  let t1783 ← is_nan t1781
  check (!t1783 || decide (t1782 = ("NaN".toList)))
  let t1784 ← (parse t1782 : M Float8E4M3FN)
  let t1785 ← ApiFloat.bitwise_eq t1781 t1784
  check (t1783 || t1785)
  let t1786 ← (ApiFloat.from_bits 101 : M Float8E4M3FN)
  let t1787 ← ApiFloat.fmt t1786 none none false
  let t1788 ← is_nan t1786
  check (!t1788 || decide (t1787 = ("NaN".toList)))
  let t1789 ← (parse t1787 : M Float8E4M3FN)
  let t1790 ← ApiFloat.bitwise_eq t1786 t1789
  check (t1788 || t1790)
  let t1791 ← (ApiFloat.from_bits 102 : M Float8E4M3FN)
  let t1792 ← ApiFloat.fmt t1791 none none false
  let t1793 ← is_nan t1791
  check (!t1793 || decide (t1792 = ("NaN".toList)))
  let t1794 ← (parse t1792 : M Float8E4M3FN)
  let t1795 ← ApiFloat.bitwise_eq t1791 t1794
  check (t1793 || t1795)
  let t1796 ← (ApiFloat.from_bits 103 : M Float8E4M3FN)
  let t1797 ← ApiFloat.fmt t1796 none none false
  let t1798 ← is_nan t1796
  check (!t1798 || decide (t1797 = ("NaN".toList)))

example : passes t_f8_to_string_40 = true := by decide +kernel

/-- tests/ieee.rs:4566 `f8_to_string`. -/
def t_f8_to_string_41 : M Unit := do
  let t1796 ← (ApiFloat.from_bits 103 : M Float8E4M3FN)
  let t1797 ← ApiFloat.fmt t1796 none none false
  let t1798 ← is_nan t1796
  let t1799 ← (parse t1797 : M Float8E4M3FN)
  let t1800 ← ApiFloat.bitwise_eq t1796 t1799
  check (t1798 || t1800)
  let t1801 ← (ApiFloat.from_bits 104 : M Float8E4M3FN)
  let t1802 ← ApiFloat.fmt t1801 none none false
  let t1803 ← is_nan t1801
  check (!t1803 || decide (t1802 = ("NaN".toList)))
  let t1804 ← (parse t1802 : M Float8E4M3FN)
  let t1805 ← ApiFloat.bitwise_eq t1801 t1804
  check (t1803 || t1805)
  let t1806 ← (ApiFloat.from_bits 105 : M Float8E4M3FN)
  let t1807 ← ApiFloat.fmt t1806 none none false
  let t1808 ← is_nan t1806
  check (!t1808 || decide (t1807 = ("NaN".toList)))
  let t1809 ← (parse t1807 : M Float8E4M3FN)
  let t1810 ← ApiFloat.bitwise_eq t1806 t1809
  check (t1808 || t1810)
  let t1811 ← (ApiFloat.from_bits 106 : M Float8E4M3FN)
  let t1812 ← ApiFloat.fmt t1811 none none false
  let t1813 ← is_nan t1811
  check (!t1813 || decide (t1812 = ("NaN".toList)))
  let t1814 ← (parse t1812 : M Float8E4M3FN)
  let t1815 ← ApiFloat.bitwise_eq t1811 t1814
  check (t1813 || t1815)
  let t1816 ← (ApiFloat.from_bits 107 : M Float8E4M3FN)
  let t1817 ← ApiFloat.fmt t1816 none none false
  let t1818 ← is_nan t1816
  check (!t1818 || decide (t1817 = ("NaN".toList)))
  let t1819 ← (parse t1817 : M Float8E4M3FN)
  let t1820 ← ApiFloat.bitwise_eq t1816 t1819
  check (t1818 || t1820)
  let t1821 ← (ApiFloat.from_bits 108 : M Float8E4M3FN)
  let t1822 ← ApiFloat.fmt t1821 none none false
  let t1823 ← is_nan t1821
  check (!t1823 || decide (t1822 = ("NaN".toList)))
  let t1824 ← (parse t1822 : M Float8E4M3FN)
  let t1825 ← ApiFloat.bitwise_eq t1821 t1824
  check (t1823 || t1825)
  let t1826 ← (ApiFloat.from_bits 109 : M Float8E4M3FN)
  let t1827 ← ApiFloat.fmt t1826 none none false
  let t1828 ← is_nan t1826
  check (!t1828 || decide (t1827 = ("NaN".toList)))
  let t1829 ← (parse t1827 : M Float8E4M3FN)
  let t1830 ← ApiFloat.bitwise_eq t1826 t1829
  check (t1828 || t1830)
  let t1831 ← (ApiFloat.from_bits 110 : M Float8E4M3FN)
  let t1832 ← ApiFloat.fmt t1831 none none false
  let t1833 ← is_nan t1831
  check (!t1833 || decide (t1832 = ("NaN".toList)))
  let t1834 ← (parse t1832 : M Float8E4M3FN)
  let t1835 ← ApiFloat.bitwise_eq t1831 t1834
  check (t1833 || t1835)
  let t1836 ← (ApiFloat.from_bits 111 : M Float8E4M3FN)
  let t1837 ← ApiFloat.fmt t1836 none none false
  let t1838 ← is_nan t1836
  check (!t1838 || decide (t1837 = ("NaN".toList)))
  let t1839 ← (parse t1837 : M Float8E4M3FN)
  let t1840 ← ApiFloat.bitwise_eq t1836 t1839
  check (t1838 || t1840)
  let t1841 ← (ApiFloat.from_bits 112 : M Float8E4M3FN)
  let t1842 ← ApiFloat.fmt t1841 none none false
  let t1843 ← is_nan t1841
  check (!t1843 || decide (t1842 = ("NaN".toList)))

example : passes t_f8_to_string_41 = true := by decide +kernel

/-- tests/ieee.rs:4566 `f8_to_string`. -/
def t_f8_to_string_42 : M Unit := do
  let t1841 ← (ApiFloat.from_bits 112 : M Float8E4M3FN)
  let t1842 ← ApiFloat.fmt t1841 none none false
  let t1843 ← is_nan t1841
  let t1844 ← (parse t1842 : M Float8E4M3FN)
  let t1845 ← ApiFloat.bitwise_eq t1841 t1844
  check (t1843 || t1845)
  let t1846 ← (ApiFloat.from_bits 113 : M Float8E4M3FN)
  let t1847 ← ApiFloat.fmt t1846 none none false
  let t1848 ← is_nan t1846
  check (!t1848 || decide (t1847 = ("NaN".toList)))
  let t1849 ← (parse t1847 : M Float8E4M3FN)
  let t1850 ← ApiFloat.bitwise_eq t1846 t1849
  check (t1848 || t1850)
  let t1851 ← (ApiFloat.from_bits 114 : M Float8E4M3FN)
  let t1852 ← ApiFloat.fmt t1851 none none false
  let t1853 ← is_nan t1851
  check (!t1853 || decide (t1852 = ("NaN".toList)))
  let t1854 ← (parse t1852 : M Float8E4M3FN)
  let t1855 ← ApiFloat.bitwise_eq t1851 t1854
  check (t1853 || t1855)
  let t1856 ← (ApiFloat.from_bits 115 : M Float8E4M3FN)
  let t1857 ← ApiFloat.fmt t1856 none none false
  let t1858 ← is_nan t1856
  check (!t1858 || decide (t1857 = ("NaN".toList)))
  let t1859 ← (parse t1857 : M Float8E4M3FN)
  let t1860 ← ApiFloat.bitwise_eq t1856 t1859
  check (t1858 || t1860)
  let t1861 ← (ApiFloat.from_bits 116 : M Float8E4M3FN)
  let t1862 ← ApiFloat.fmt t1861 none none false
  let t1863 ← is_nan t1861
  check (!t1863 || decide (t1862 = ("NaN".toList)))
  let t1864 ← (parse t1862 : M Float8E4M3FN)
  let t1865 ← ApiFloat.bitwise_eq t1861 t1864
  check (t1863 || t1865)
  let t1866 ← (ApiFloat.from_bits 117 : M Float8E4M3FN)
  let t1867 ← ApiFloat.fmt t1866 none none false
  let t1868 ← is_nan t1866
  check (!t1868 || decide (t1867 = ("NaN".toList)))
  let t1869 ← (parse t1867 : M Float8E4M3FN)
  let t1870 ← ApiFloat.bitwise_eq t1866 t1869
  check (t1868 || t1870)
  let t1871 ← (ApiFloat.from_bits 118 : M Float8E4M3FN)
  let t1872 ← ApiFloat.fmt t1871 none none false
  let t1873 ← is_nan t1871
  check (!t1873 || decide (t1872 = ("NaN".toList)))
  let t1874 ← (parse t1872 : M Float8E4M3FN)
  let t1875 ← ApiFloat.bitwise_eq t1871 t1874
  check (t1873 || t1875)
  let t1876 ← (ApiFloat.from_bits 119 : M Float8E4M3FN)
  let t1877 ← ApiFloat.fmt t1876 none none false
  let t1878 ← is_nan t1876
  check (!t1878 || decide (t1877 = ("NaN".toList)))
  let t1879 ← (parse t1877 : M Float8E4M3FN)
  let t1880 ← ApiFloat.bitwise_eq t1876 t1879
  check (t1878 || t1880)
  let t1881 ← (ApiFloat.from_bits 120 : M Float8E4M3FN)
  let t1882 ← ApiFloat.fmt t1881 none none false
  let t1883 ← is_nan t1881
  check (!t1883 || decide (t1882 = ("NaN".toList)))
  let t1884 ← (parse t1882 : M Float8E4M3FN)
  let t1885 ← ApiFloat.bitwise_eq t1881 t1884
  check (t1883 || t1885)
  let t1886 ← (ApiFloat.from_bits 121 : M Float8E4M3FN)
  let t1887 ← ApiFloat.fmt t1886 none none false
  let t1888 ← is_nan t1886
  check (!t1888 || decide (t1887 = ("NaN".toList)))

example : passes t_f8_to_string_42 = true := by decide +kernel

/-- tests/ieee.rs:4566 `f8_to_string`. -/
def t_f8_to_string_43 : M Unit := do
  let t1886 ← (ApiFloat.from_bits 121 : M Float8E4M3FN)
  let t1887 ← ApiFloat.fmt t1886 none none false
  let t1888 ← is_nan t1886
  let t1889 ← (parse t1887 : M Float8E4M3FN)
  let t1890 ← ApiFloat.bitwise_eq t1886 t1889
  check (t1888 || t1890)
  let t1891 ← (ApiFloat.from_bits 122 : M Float8E4M3FN)
  let t1892 ← ApiFloat.fmt t1891 none none false
  let t1893 ← is_nan t1891
  check (!t1893 || decide (t1892 = ("NaN".toList)))
  let t1894 ← (parse t1892 : M Float8E4M3FN)
  let t1895 ← ApiFloat.bitwise_eq t1891 t1894
  check (t1893 || t1895)
  let t1896 ← (ApiFloat.from_bits 123 : M Float8E4M3FN)
  let t1897 ← ApiFloat.fmt t1896 none none false
  let t1898 ← is_nan t1896
  check (!t1898 || decide (t1897 = ("NaN".toList)))
  let t1899 ← (parse t1897 : M Float8E4M3FN)
  let t1900 ← ApiFloat.bitwise_eq t1896 t1899
  check (t1898 || t1900)
  let t1901 ← (ApiFloat.from_bits 124 : M Float8E4M3FN)
  let t1902 ← ApiFloat.fmt t1901 none none false
  let t1903 ← is_nan t1901
  check (!t1903 || decide (t1902 = ("NaN".toList)))
  let t1904 ← (parse t1902 : M Float8E4M3FN)
  let t1905 ← ApiFloat.bitwise_eq t1901 t1904
  check (t1903 || t1905)
  let t1906 ← (ApiFloat.from_bits 125 : M Float8E4M3FN)
  let t1907 ← ApiFloat.fmt t1906 none none false
  let t1908 ← is_nan t1906
  check (!t1908 || decide (t1907 = ("NaN".toList)))
  let t1909 ← (parse t1907 : M Float8E4M3FN)
  let t1910 ← ApiFloat.bitwise_eq t1906 t1909
  check (t1908 || t1910)
  let t1911 ← (ApiFloat.from_bits 126 : M Float8E4M3FN)
  let t1912 ← ApiFloat.fmt t1911 none none false
  let t1913 ← is_nan t1911
  check (!t1913 || decide (t1912 = ("NaN".toList)))
  let t1914 ← (parse t1912 : M Float8E4M3FN)
  let t1915 ← ApiFloat.bitwise_eq t1911 t1914
  check (t1913 || t1915)
  let t1916 ← (ApiFloat.from_bits 127 : M Float8E4M3FN)
  let t1917 ← ApiFloat.fmt t1916 none none false
  let t1918 ← is_nan t1916
  check (!t1918 || decide (t1917 = ("NaN".toList)))
  let t1919 ← (parse t1917 : M Float8E4M3FN)
  let t1920 ← ApiFloat.bitwise_eq t1916 t1919
  check (t1918 || t1920)
  let t1921 ← (ApiFloat.from_bits 128 : M Float8E4M3FN)
  let t1922 ← ApiFloat.fmt t1921 none none false
  let t1923 ← is_nan t1921
  check (!t1923 || decide (t1922 = ("NaN".toList)))
  let t1924 ← (parse t1922 : M Float8E4M3FN)
  let t1925 ← ApiFloat.bitwise_eq t1921 t1924
  check (t1923 || t1925)
  let t1926 ← (ApiFloat.from_bits 129 : M Float8E4M3FN)
  let t1927 ← ApiFloat.fmt t1926 none none false
  let t1928 ← is_nan t1926
  check (!t1928 || decide (t1927 = ("NaN".toList)))
  let t1929 ← (parse t1927 : M Float8E4M3FN)
  let t1930 ← ApiFloat.bitwise_eq t1926 t1929
  check (t1928 || t1930)
  let t1931 ← (ApiFloat.from_bits 130 : M Float8E4M3FN)
  let t1932 ← ApiFloat.fmt t1931 none none false
  let t1933 ← is_nan t1931
  check (!t1933 || decide (t1932 = ("NaN".toList)))

example : passes t_f8_to_string_43 = true := by decide +kernel

/-- tests/ieee.rs:4566 `f8_to_string`. -/
def t_f8_to_string_44 : M Unit := do
  let t1931 ← (ApiFloat.from_bits 130 : M Float8E4M3FN)
  let t1932 ← ApiFloat.fmt t1931 none none false
  let t1933 ← is_nan t1931
  let t1934 ← (parse t1932 : M Float8E4M3FN)
  let t1935 ← ApiFloat.bitwise_eq t1931 t1934
  check (t1933 || t1935)
  let t1936 ← (ApiFloat.from_bits 131 : M Float8E4M3FN)
  let t1937 ← ApiFloat.fmt t1936 none none false
  let t1938 ← is_nan t1936
  check (!t1938 || decide (t1937 = ("NaN".toList)))
  let t1939 ← (parse t1937 : M Float8E4M3FN)
  let t1940 ← ApiFloat.bitwise_eq t1936 t1939
  check (t1938 || t1940)
  let t1941 ← (ApiFloat.from_bits 132 : M Float8E4M3FN)
  let t1942 ← ApiFloat.fmt t1941 none none false
  let t1943 ← is_nan t1941
  check (!t1943 || decide (t1942 = ("NaN".toList)))
  let t1944 ← (parse t1942 : M Float8E4M3FN)
  let t1945 ← ApiFloat.bitwise_eq t1941 t1944
  check (t1943 || t1945)
  let t1946 ← (ApiFloat.from_bits 133 : M Float8E4M3FN)
  let t1947 ← ApiFloat.fmt t1946 none none false
  let t1948 ← is_nan t1946
  check (!t1948 || decide (t1947 = ("NaN".toList)))
  let t1949 ← (parse t1947 : M Float8E4M3FN)
  let t1950 ← ApiFloat.bitwise_eq t1946 t1949
  check (t1948 || t1950)
  let t1951 ← (ApiFloat.from_bits 134 : M Float8E4M3FN)
  let t1952 ← ApiFloat.fmt t1951 none none false
  let t1953 ← is_nan t1951
  check (!t1953 || decide (t1952 = ("NaN".toList)))
  let t1954 ← (parse t1952 : M Float8E4M3FN)
  let t1955 ← ApiFloat.bitwise_eq t1951 t1954
  check (t1953 || t1955)
  let t1956 ← (ApiFloat.from_bits 135 : M Float8E4M3FN)
  let t1957 ← ApiFloat.fmt t1956 none none false
  let t1958 ← is_nan t1956
  check (!t1958 || decide (t1957 = ("NaN".toList)))
  let t1959 ← (parse t1957 : M Float8E4M3FN)
  let t1960 ← ApiFloat.bitwise_eq t1956 t1959
  check (t1958 || t1960)
  let t1961 ← (ApiFloat.from_bits 136 : M Float8E4M3FN)
  let t1962 ← ApiFloat.fmt t1961 none none false
  let t1963 ← is_nan t1961
  check (!t1963 || decide (t1962 = ("NaN".toList)))
  let t1964 ← (parse t1962 : M Float8E4M3FN)
  let t1965 ← ApiFloat.bitwise_eq t1961 t1964
  check (t1963 || t1965)
  let t1966 ← (ApiFloat.from_bits 137 : M Float8E4M3FN)
  let t1967 ← ApiFloat.fmt t1966 none none false
  let t1968 ← is_nan t1966
  check (!t1968 || decide (t1967 = ("NaN".toList)))
  let t1969 ← (parse t1967 : M Float8E4M3FN)
  let t1970 ← ApiFloat.bitwise_eq t1966 t1969
  check (t1968 || t1970)
  let t1971 ← (ApiFloat.from_bits 138 : M Float8E4M3FN)
  let t1972 ← ApiFloat.fmt t1971 none none false
  let t1973 ← is_nan t1971
  check (!t1973 || decide (t1972 = ("NaN".toList)))
  let t1974 ← (parse t1972 : M Float8E4M3FN)
  let t1975 ← ApiFloat.bitwise_eq t1971 t1974
  check (t1973 || t1975)
  let t1976 ← (ApiFloat.from_bits 139 : M Float8E4M3FN)
  let t1977 ← ApiFloat.fmt t1976 none none false
  let t1978 ← is_nan t1976
  check (!t1978 || decide (t1977 = ("NaN".toList)))

example : passes t_f8_to_string_44 = true := by decide +kernel

/-- tests/ieee.rs:4566 `f8_to_string`. -/
def t_f8_to_string_45 : M Unit := do
  let t1976 ← (ApiFloat.from_bits 139 : M Float8E4M3FN)
  let t1977 ← ApiFloat.fmt t1976 none none false
  let t1978 ← is_nan t1976
  let t1979 ← (parse t1977 : M Float8E4M3FN)
  let t1980 ← ApiFloat.bitwise_eq t1976 t1979
  check (t1978 || t1980)
  let t1981 ← (ApiFloat.from_bits 140 : M Float8E4M3FN)
  let t1982 ← ApiFloat.fmt t1981 none none false
  let t1983 ← is_nan t1981
  check (!t1983 || decide (t1982 = ("NaN".toList)))
  let t1984 ← (parse t1982 : M Float8E4M3FN)
  let t1985 ← ApiFloat.bitwise_eq t1981 t1984
  check (t1983 || t1985)
  let t1986 ← (ApiFloat.from_bits 141 : M Float8E4M3FN)
  let t1987 ← ApiFloat.fmt t1986 none none false
  let t1988 ← is_nan t1986
  check (!t1988 || decide (t1987 = ("NaN".toList)))
  let t1989 ← (parse t1987 : M Float8E4M3FN)
  let t1990 ← ApiFloat.bitwise_eq t1986 t1989
  check (t1988 || t1990)
  let t1991 ← (ApiFloat.from_bits 142 : M Float8E4M3FN)
  let t1992 ← ApiFloat.fmt t1991 none none false
  let t1993 ← is_nan t1991
  check (!t1993 || decide (t1992 = ("NaN".toList)))
  let t1994 ← (parse t1992 : M Float8E4M3FN)
  let t1995 ← ApiFloat.bitwise_eq t1991 t1994
  check (t1993 || t1995)
  let t1996 ← (ApiFloat.from_bits 143 : M Float8E4M3FN)
  let t1997 ← ApiFloat.fmt t1996 none none false
  let t1998 ← is_nan t1996
  check (!t1998 || decide (t1997 = ("NaN".toList)))
  let t1999 ← (parse t1997 : M Float8E4M3FN)
  let t2000 ← ApiFloat.bitwise_eq t1996 t1999
  check (t1998 || t2000)
  let t2001 ← (ApiFloat.from_bits 144 : M Float8E4M3FN)
  let t2002 ← ApiFloat.fmt t2001 none none false
  let t2003 ← is_nan t2001
  check (!t2003 || decide (t2002 = ("NaN".toList)))
  let t2004 ← (parse t2002 : M Float8E4M3FN)
  let t2005 ← ApiFloat.bitwise_eq t2001 t2004
  check (t2003 || t2005)
  let t2006 ← (ApiFloat.from_bits 145 : M Float8E4M3FN)
  let t2007 ← ApiFloat.fmt t2006 none none false
  let t2008 ← is_nan t2006
  check (!t2008 || decide (t2007 = ("NaN".toList)))
  let t2009 ← (parse t2007 : M Float8E4M3FN)
  let t2010 ← ApiFloat.bitwise_eq t2006 t2009
  check (t2008 || t2010)
  let t2011 ← (ApiFloat.from_bits 146 : M Float8E4M3FN)
  let t2012 ← ApiFloat.fmt t2011 none none false
  let t2013 ← is_nan t2011
  check (!t2013 || decide (t2012 = ("NaN".toList)))
  let t2014 ← (parse t2012 : M Float8E4M3FN)
  let t2015 ← ApiFloat.bitwise_eq t2011 t2014
  check (t2013 || t2015)
  let t2016 ← (ApiFloat.from_bits 147 : M Float8E4M3FN)
  let t2017 ← ApiFloat.fmt t2016 none none false
  let t2018 ← is_nan t2016
  check (!t2018 || decide (t2017 = ("NaN".toList)))
  let t2019 ← (parse t2017 : M Float8E4M3FN)
  let t2020 ← ApiFloat.bitwise_eq t2016 t2019
  check (t2018 || t2020)
  let t2021 ← (ApiFloat.from_bits 148 : M Float8E4M3FN)
  let t2022 ← ApiFloat.fmt t2021 none none false
  let t2023 ← is_nan t2021
  check (!t2023 || decide (t2022 = ("NaN".toList)))

example : passes t_f8_to_string_45 = true := by decide +kernel

/-- tests/ieee.rs:4566 `f8_to_string`. -/
def t_f8_to_string_46 : M Unit := do
  let t2021 ← (ApiFloat.from_bits 148 : M Float8E4M3FN)
  let t2022 ← ApiFloat.fmt t2021 none none false
  let t2023 ← is_nan t2021
  let t2024 ← (parse t2022 : M Float8E4M3FN)
  let t2025 ← ApiFloat.bitwise_eq t2021 t2024
  check (t2023 || t2025)
  let t2026 ← (ApiFloat.from_bits 149 : M Float8E4M3FN)
  let t2027 ← ApiFloat.fmt t2026 none none false
  let t2028 ← is_nan t2026
  check (!t2028 || decide (t2027 = ("NaN".toList)))
  let t2029 ← (parse t2027 : M Float8E4M3FN)
  let t2030 ← ApiFloat.bitwise_eq t2026 t2029
  check (t2028 || t2030)
  let t2031 ← (ApiFloat.from_bits 150 : M Float8E4M3FN)
  let t2032 ← ApiFloat.fmt t2031 none none false
  let t2033 ← is_nan t2031
  check (!t2033 || decide (t2032 = ("NaN".toList)))
  let t2034 ← (parse t2032 : M Float8E4M3FN)
  let t2035 ← ApiFloat.bitwise_eq t2031 t2034
  check (t2033 || t2035)
  let t2036 ← (ApiFloat.from_bits 151 : M Float8E4M3FN)
  let t2037 ← ApiFloat.fmt t2036 none none false
  let t2038 ← is_nan t2036
  check (!t2038 || decide (t2037 = ("NaN".toList)))
  let t2039 ← (parse t2037 : M Float8E4M3FN)
  let t2040 ← ApiFloat.bitwise_eq t2036 t2039
  check (t2038 || t2040)
  let t2041 ← (ApiFloat.from_bits 152 : M Float8E4M3FN)
  let t2042 ← ApiFloat.fmt t2041 none none false
  let t2043 ← is_nan t2041
  check (!t2043 || decide (t2042 = ("NaN".toList)))
  let t2044 ← (parse t2042 : M Float8E4M3FN)
  let t2045 ← ApiFloat.bitwise_eq t2041 t2044
  check (t2043 || t2045)
  let t2046 ← (ApiFloat.from_bits 153 : M Float8E4M3FN)
  let t2047 ← ApiFloat.fmt t2046 none none false
  let t2048 ← is_nan t2046
  check (!t2048 || decide (t2047 = ("NaN".toList)))
  let t2049 ← (parse t2047 : M Float8E4M3FN)
  let t2050 ← ApiFloat.bitwise_eq t2046 t2049
  check (t2048 || t2050)
  let t2051 ← (ApiFloat.from_bits 154 : M Float8E4M3FN)
  let t2052 ← ApiFloat.fmt t2051 none none false
  let t2053 ← is_nan t2051
  check (!t2053 || decide (t2052 = ("NaN".toList)))
  let t2054 ← (parse t2052 : M Float8E4M3FN)
  let t2055 ← ApiFloat.bitwise_eq t2051 t2054
  check (t2053 || t2055)
  let t2056 ← (ApiFloat.from_bits 155 : M Float8E4M3FN)
  let t2057 ← ApiFloat.fmt t2056 none none false
  let t2058 ← is_nan t2056
  check (!t2058 || decide (t2057 = ("NaN".toList)))
  let t2059 ← (parse t2057 : M Float8E4M3FN)
  let t2060 ← ApiFloat.bitwise_eq t2056 t2059
  check (t2058 || t2060)
  let t2061 ← (ApiFloat.from_bits 156 : M Float8E4M3FN)
  let t2062 ← ApiFloat.fmt t2061 none none false
  let t2063 ← is_nan t2061
  check (!t2063 || decide (t2062 = ("NaN".toList)))
  let t2064 ← (parse t2062 : M Float8E4M3FN)
  let t2065 ← ApiFloat.bitwise_eq t2061 t2064
  check (t2063 || t2065)
  let t2066 ← (ApiFloat.from_bits 157 : M Float8E4M3FN)
  let t2067 ← ApiFloat.fmt t2066 none none false
  let t2068 ← is_nan t2066
  check (!t2068 || decide (t2067 = ("NaN".toList)))

example : passes t_f8_to_string_46 = true := by decide +kernel

/-- tests/ieee.rs:4566 `f8_to_string`. -/
def t_f8_to_string_47 : M Unit := do
  let t2066 ← (ApiFloat.from_bits 157 : M Float8E4M3FN)
  let t2067 ← ApiFloat.fmt t2066 none none false
  let t2068 ← is_nan t2066
  let t2069 ← (parse t2067 : M Float8E4M3FN)
  let t2070 ← ApiFloat.bitwise_eq t2066 t2069
  check (t2068 || t2070)
  let t2071 ← (ApiFloat.from_bits 158 : M Float8E4M3FN)
  let t2072 ← ApiFloat.fmt t2071 none none false
  let t2073 ← is_nan t2071
  check (!t2073 || decide (t2072 = ("NaN".toList)))
  let t2074 ← (parse t2072 : M Float8E4M3FN)
  let t2075 ← ApiFloat.bitwise_eq t2071 t2074
  check (t2073 || t2075)
  let t2076 ← (ApiFloat.from_bits 159 : M Float8E4M3FN)
  let t2077 ← ApiFloat.fmt t2076 none none false
  let t2078 ← is_nan t2076
  check (!t2078 || decide (t2077 = ("NaN".toList)))
  let t2079 ← (parse t2077 : M Float8E4M3FN)
  let t2080 ← ApiFloat.bitwise_eq t2076 t2079
  check (t2078 || t2080)
  let t2081 ← (ApiFloat.from_bits 160 : M Float8E4M3FN)
  let t2082 ← ApiFloat.fmt t2081 none none false
  let t2083 ← is_nan t2081
  check (!t2083 || decide (t2082 = ("NaN".toList)))
  let t2084 ← (parse t2082 : M Float8E4M3FN)
  let t2085 ← ApiFloat.bitwise_eq t2081 t2084
  check (t2083 || t2085)
  let t2086 ← (ApiFloat.from_bits 161 : M Float8E4M3FN)
  let t2087 ← ApiFloat.fmt t2086 none none false
  let t2088 ← is_nan t2086
  check (!t2088 || decide (t2087 = ("NaN".toList)))
  let t2089 ← (parse t2087 : M Float8E4M3FN)
  let t2090 ← ApiFloat.bitwise_eq t2086 t2089
  check (t2088 || t2090)
  let t2091 ← (ApiFloat.from_bits 162 : M Float8E4M3FN)
  let t2092 ← ApiFloat.fmt t2091 none none false
  let t2093 ← is_nan t2091
  check (!t2093 || decide (t2092 = ("NaN".toList)))
  let t2094 ← (parse t2092 : M Float8E4M3FN)
  let t2095 ← ApiFloat.bitwise_eq t2091 t2094
  check (t2093 || t2095)
  let t2096 ← (ApiFloat.from_bits 163 : M Float8E4M3FN)
  let t2097 ← ApiFloat.fmt t2096 none none false
  let t2098 ← is_nan t2096
  check (!t2098 || decide (t2097 = ("NaN".toList)))
  let t2099 ← (parse t2097 : M Float8E4M3FN)
  let t2100 ← ApiFloat.bitwise_eq t2096 t2099
  check (t2098 || t2100)
  let t2101 ← (ApiFloat.from_bits 164 : M Float8E4M3FN)
  let t2102 ← ApiFloat.fmt t2101 none none false
  let t2103 ← is_nan t2101
  check (!t2103 || decide (t2102 = ("NaN".toList)))
  let t2104 ← (parse t2102 : M Float8E4M3FN)
  let t2105 ← ApiFloat.bitwise_eq t2101 t2104
  check (t2103 || t2105)
  let t2106 ← (ApiFloat.from_bits 165 : M Float8E4M3FN)
  let t2107 ← ApiFloat.fmt t2106 none none false
  let t2108 ← is_nan t2106
  check (!t2108 || decide (t2107 = ("NaN".toList)))
  let t2109 ← (parse t2107 : M Float8E4M3FN)
  let t2110 ← ApiFloat.bitwise_eq t2106 t2109
  check (t2108 || t2110)
  let t2111 ← (ApiFloat.from_bits 166 : M Float8E4M3FN)
  let t2112 ← ApiFloat.fmt t2111 none none false
  let t2113 ← is_nan t2111
  check (!t2113 || decide (t2112 = ("NaN".toList)))

example : passes t_f8_to_string_47 = true := by decide +kernel

/-- tests/ieee.rs:4566 `f8_to_string`. -/
def t_f8_to_string_48 : M Unit := do
  let t2111 ← (ApiFloat.from_bits 166 : M Float8E4M3FN)
  let t2112 ← ApiFloat.fmt t2111 none none false
  let t2113 ← is_nan t2111
  let t2114 ← (parse t2112 : M Float8E4M3FN)
  let t2115 ← ApiFloat.bitwise_eq t2111 t2114
  check (t2113 || t2115)
  let t2116 ← (ApiFloat.from_bits 167 : M Float8E4M3FN)
  let t2117 ← ApiFloat.fmt t2116 none none false
  let t2118 ← is_nan t2116
  check (!t2118 || decide (t2117 = ("NaN".toList)))
  let t2119 ← (parse t2117 : M Float8E4M3FN)
  let t2120 ← ApiFloat.bitwise_eq t2116 t2119
  check (t2118 || t2120)
  let t2121 ← (ApiFloat.from_bits 168 : M Float8E4M3FN)
  let t2122 ← ApiFloat.fmt t2121 none none false
  let t2123 ← is_nan t2121
  check (!t2123 || decide (t2122 = ("NaN".toList)))
  let t2124 ← (parse t2122 : M Float8E4M3FN)
  let t2125 ← ApiFloat.bitwise_eq t2121 t2124
  check (t2123 || t2125)
  let t2126 ← (ApiFloat.from_bits 169 : M Float8E4M3FN)
  let t2127 ← ApiFloat.fmt t2126 none none false
  let t2128 ← is_nan t2126
  check (!t2128 || decide (t2127 = ("NaN".toList)))
  let t2129 ← (parse t2127 : M Float8E4M3FN)
  let t2130 ← ApiFloat.bitwise_eq t2126 t2129
  check (t2128 || t2130)
  let t2131 ← (ApiFloat.from_bits 170 : M Float8E4M3FN)
  let t2132 ← ApiFloat.fmt t2131 none none false
  let t2133 ← is_nan t2131
  check (!t2133 || decide (t2132 = ("NaN".toList)))
  let t2134 ← (parse t2132 : M Float8E4M3FN)
  let t2135 ← ApiFloat.bitwise_eq t2131 t2134
  check (t2133 || t2135)
  let t2136 ← (ApiFloat.from_bits 171 : M Float8E4M3FN)
  let t2137 ← ApiFloat.fmt t2136 none none false
  let t2138 ← is_nan t2136
  check (!t2138 || decide (t2137 = ("NaN".toList)))
  let t2139 ← (parse t2137 : M Float8E4M3FN)
  let t2140 ← ApiFloat.bitwise_eq t2136 t2139
  check (t2138 || t2140)
  let t2141 ← (ApiFloat.from_bits 172 : M Float8E4M3FN)
  let t2142 ← ApiFloat.fmt t2141 none none false
  let t2143 ← is_nan t2141
  check (!t2143 || decide (t2142 = ("NaN".toList)))
  let t2144 ← (parse t2142 : M Float8E4M3FN)
  let t2145 ← ApiFloat.bitwise_eq t2141 t2144
  check (t2143 || t2145)
  let t2146 ← (ApiFloat.from_bits 173 : M Float8E4M3FN)
  let t2147 ← ApiFloat.fmt t2146 none none false
  let t2148 ← is_nan t2146
  check (!t2148 || decide (t2147 = ("NaN".toList)))
  let t2149 ← (parse t2147 : M Float8E4M3FN)
  let t2150 ← ApiFloat.bitwise_eq t2146 t2149
  check (t2148 || t2150)
  let t2151 ← (ApiFloat.from_bits 174 : M Float8E4M3FN)
  let t2152 ← ApiFloat.fmt t2151 none none false
  let t2153 ← is_nan t2151
  check (!t2153 || decide (t2152 = ("NaN".toList)))
  let t2154 ← (parse t2152 : M Float8E4M3FN)
  let t2155 ← ApiFloat.bitwise_eq t2151 t2154
  check (t2153 || t2155)
  let t2156 ← (ApiFloat.from_bits 175 : M Float8E4M3FN)
  let t2157 ← ApiFloat.fmt t2156 none none false
  let t2158 ← is_nan t2156
  check (!t2158 || decide (t2157 = ("NaN".toList)))

example : passes t_f8_to_string_48 = true := by decide +kernel

/-- tests/ieee.rs:4566 `f8_to_string`. -/
def t_f8_to_string_49 : M Unit := do
  let t2156 ← (ApiFloat.from_bits 175 : M Float8E4M3FN)
  let t2157 ← ApiFloat.fmt t2156 none none false
  let t2158 ← is_nan t2156
  let t2159 ← (parse t2157 : M Float8E4M3FN)
  let t2160 ← ApiFloat.bitwise_eq t2156 t2159
  check (t2158 || t2160)
  let t2161 ← (ApiFloat.from_bits 176 : M Float8E4M3FN)
  let t2162 ← ApiFloat.fmt t2161 none none false
  let t2163 ← is_nan t2161
  check (!t2163 || decide (t2162 = ("NaN".toList)))
  let t2164 ← (parse t2162 : M Float8E4M3FN)
  let t2165 ← ApiFloat.bitwise_eq t2161 t2164
  check (t2163 || t2165)
  let t2166 ← (ApiFloat.from_bits 177 : M Float8E4M3FN)
  let t2167 ← ApiFloat.fmt t2166 none none false
  let t2168 ← is_nan t2166
  check (!t2168 || decide (t2167 = ("NaN".toList)))
  let t2169 ← (parse t2167 : M Float8E4M3FN)
  let t2170 ← ApiFloat.bitwise_eq t2166 t2169
  check (t2168 || t2170)
  let t2171 ← (ApiFloat.from_bits 178 : M Float8E4M3FN)
  let t2172 ← ApiFloat.fmt t2171 none none false
  let t2173 ← is_nan t2171
  check (!t2173 || decide (t2172 = ("NaN".toList)))
  let t2174 ← (parse t2172 : M Float8E4M3FN)
  let t2175 ← ApiFloat.bitwise_eq t2171 t2174
  check (t2173 || t2175)
  let t2176 ← (ApiFloat.from_bits 179 : M Float8E4M3FN)
  let t2177 ← ApiFloat.fmt t2176 none none false
  let t2178 ← is_nan t2176
  check (!t2178 || decide (t2177 = ("NaN".toList)))
  let t2179 ← (parse t2177 : M Float8E4M3FN)
  let t2180 ← ApiFloat.bitwise_eq t2176 t2179
  check (t2178 || t2180)
  let t2181 ← (ApiFloat.from_bits 180 : M Float8E4M3FN)
  let t2182 ← ApiFloat.fmt t2181 none none false
  let t2183 ← is_nan t2181
  check (!t2183 || decide (t2182 = ("NaN".toList)))
  let t2184 ← (parse t2182 : M Float8E4M3FN)
  let t2185 ← ApiFloat.bitwise_eq t2181 t2184
  check (t2183 || t2185)
  let t2186 ← (ApiFloat.from_bits 181 : M Float8E4M3FN)
  let t2187 ← ApiFloat.fmt t2186 none none false
  let t2188 ← is_nan t2186
  check (!t2188 || decide (t2187 = ("NaN".toList)))
  let t2189 ← (parse t2187 : M Float8E4M3FN)
  let t2190 ← ApiFloat.bitwise_eq t2186 t2189
  check (t2188 || t2190)
  let t2191 ← (ApiFloat.from_bits 182 : M Float8E4M3FN)
  let t2192 ← ApiFloat.fmt t2191 none none false
  let t2193 ← is_nan t2191
  check (!t2193 || decide (t2192 = ("NaN".toList)))
  let t2194 ← (parse t2192 : M Float8E4M3FN)
  let t2195 ← ApiFloat.bitwise_eq t2191 t2194
  check (t2193 || t2195)
  let t2196 ← (ApiFloat.from_bits 183 : M Float8E4M3FN)
  let t2197 ← ApiFloat.fmt t2196 none none false
  let t2198 ← is_nan t2196
  check (!t2198 || decide (t2197 = ("NaN".toList)))
  let t2199 ← (parse t2197 : M Float8E4M3FN)
  let t2200 ← ApiFloat.bitwise_eq t2196 t2199
  check (t2198 || t2200)
  let t2201 ← (ApiFloat.from_bits 184 : M Float8E4M3FN)
  let t2202 ← ApiFloat.fmt t2201 none none false
  let t2203 ← is_nan t2201
  check (!t2203 || decide (t2202 = ("NaN".toList)))

example : passes t_f8_to_string_49 = true := by decide +kernel

/-- tests/ieee.rs:4566 `f8_to_string`. -/
def t_f8_to_string_50 : M Unit := do
  let t2201 ← (ApiFloat.from_bits 184 : M Float8E4M3FN)
  let t2202 ← ApiFloat.fmt t2201 none none false
  let t2203 ← is_nan t2201
  let t2204 ← (parse t2202 : M Float8E4M3FN)
  let t2205 ← ApiFloat.bitwise_eq t2201 t2204
  check (t2203 || t2205)
  let t2206 ← (ApiFloat.from_bits 185 : M Float8E4M3FN)
  let t2207 ← ApiFloat.fmt t2206 none none false
  let t2208 ← is_nan t2206
  check (!t2208 || decide (t2207 = ("NaN".toList)))
  let t2209 ← (parse t2207 : M Float8E4M3FN)
  let t2210 ← ApiFloat.bitwise_eq t2206 t2209
  check (t2208 || t2210)
  let t2211 ← (ApiFloat.from_bits 186 : M Float8E4M3FN)
  let t2212 ← ApiFloat.fmt t2211 none none false
  let t2213 ← is_nan t2211
  check (!t2213 || decide (t2212 = ("NaN".toList)))
  let t2214 ← (parse t2212 : M Float8E4M3FN)
  let t2215 ← ApiFloat.bitwise_eq t2211 t2214
  check (t2213 || t2215)
  let t2216 ← (ApiFloat.from_bits 187 : M Float8E4M3FN)
  let t2217 ← ApiFloat.fmt t2216 none none false
  let t2218 ← is_nan t2216
  check (!t2218 || decide (t2217 = ("NaN".toList)))
  let t2219 ← (parse t2217 : M Float8E4M3FN)
  let t2220 ← ApiFloat.bitwise_eq t2216 t2219
  check (t2218 || t2220)
  let t2221 ← (ApiFloat.from_bits 188 : M Float8E4M3FN)
  let t2222 ← ApiFloat.fmt t2221 none none false
  let t2223 ← is_nan t2221
  check (!t2223 || decide (t2222 = ("NaN".toList)))
  let t2224 ← (parse t2222 : M Float8E4M3FN)
  let t2225 ← ApiFloat.bitwise_eq t2221 t2224
  check (t2223 || t2225)
  let t2226 ← (ApiFloat.from_bits 189 : M Float8E4M3FN)
  let t2227 ← ApiFloat.fmt t2226 none none false
  let t2228 ← is_nan t2226
  check (!t2228 || decide (t2227 = ("NaN".toList)))
  let t2229 ← (parse t2227 : M Float8E4M3FN)
  let t2230 ← ApiFloat.bitwise_eq t2226 t2229
  check (t2228 || t2230)
  let t2231 ← (ApiFloat.from_bits 190 : M Float8E4M3FN)
  let t2232 ← ApiFloat.fmt t2231 none none false
  let t2233 ← is_nan t2231
  check (!t2233 || decide (t2232 = ("NaN".toList)))
  let t2234 ← (parse t2232 : M Float8E4M3FN)
  let t2235 ← ApiFloat.bitwise_eq t2231 t2234
  check (t2233 || t2235)
  let t2236 ← (ApiFloat.from_bits 191 : M Float8E4M3FN)
  let t2237 ← ApiFloat.fmt t2236 none none false
  let t2238 ← is_nan t2236
  check (!t2238 || decide (t2237 = ("NaN".toList)))
  let t2239 ← (parse t2237 : M Float8E4M3FN)
  let t2240 ← ApiFloat.bitwise_eq t2236 t2239
  check (t2238 || t2240)
  let t2241 ← (ApiFloat.from_bits 192 : M Float8E4M3FN)
  let t2242 ← ApiFloat.fmt t2241 none none false
  let t2243 ← is_nan t2241
  check (!t2243 || decide (t2242 = ("NaN".toList)))
  let t2244 ← (parse t2242 : M Float8E4M3FN)
  let t2245 ← ApiFloat.bitwise_eq t2241 t2244
  check (t2243 || t2245)
  let t2246 ← (ApiFloat.from_bits 193 : M Float8E4M3FN)
  let t2247 ← ApiFloat.fmt t2246 none none false
  let t2248 ← is_nan t2246
  check (!t2248 || decide (t2247 = ("NaN".toList)))

example : passes t_f8_to_string_50 = true := by decide +kernel

/-- tests/ieee.rs:4566 `f8_to_string`. -/
def t_f8_to_string_51 : M Unit := do
  let t2246 ← (ApiFloat.from_bits 193 : M Float8E4M3FN)
  let t2247 ← ApiFloat.fmt t2246 none none false
  let t2248 ← is_nan t2246
  let t2249 ← (parse t2247 : M Float8E4M3FN)
  let t2250 ← ApiFloat.bitwise_eq t2246 t2249
  check (t2248 || t2250)
  let t2251 ← (ApiFloat.from_bits 194 : M Float8E4M3FN)
  let t2252 ← ApiFloat.fmt t2251 none none false
  let t2253 ← is_nan t2251
  check (!t2253 || decide (t2252 = ("NaN".toList)))
  let t2254 ← (parse t2252 : M Float8E4M3FN)
  let t2255 ← ApiFloat.bitwise_eq t2251 t2254
  check (t2253 || t2255)
  let t2256 ← (ApiFloat.from_bits 195 : M Float8E4M3FN)
  let t2257 ← ApiFloat.fmt t2256 none none false
  let t2258 ← is_nan t2256
  check (!t2258 || decide (t2257 = ("NaN".toList)))
  let t2259 ← (parse t2257 : M Float8E4M3FN)
  let t2260 ← ApiFloat.bitwise_eq t2256 t2259
  check (t2258 || t2260)
  let t2261 ← (ApiFloat.from_bits 196 : M Float8E4M3FN)
  let t2262 ← ApiFloat.fmt t2261 none none false
  let t2263 ← is_nan t2261
  check (!t2263 || decide (t2262 = ("NaN".toList)))
  let t2264 ← (parse t2262 : M Float8E4M3FN)
  let t2265 ← ApiFloat.bitwise_eq t2261 t2264
  check (t2263 || t2265)
  let t2266 ← (ApiFloat.from_bits 197 : M Float8E4M3FN)
  let t2267 ← ApiFloat.fmt t2266 none none false
  let t2268 ← is_nan t2266
  check (!t2268 || decide (t2267 = ("NaN".toList)))
  let t2269 ← (parse t2267 : M Float8E4M3FN)
  let t2270 ← ApiFloat.bitwise_eq t2266 t2269
  check (t2268 || t2270)
  let t2271 ← (ApiFloat.from_bits 198 : M Float8E4M3FN)
  let t2272 ← ApiFloat.fmt t2271 none none false
  let t2273 ← is_nan t2271
  check (!t2273 || decide (t2272 = ("NaN".toList)))
  let t2274 ← (parse t2272 : M Float8E4M3FN)
  let t2275 ← ApiFloat.bitwise_eq t2271 t2274
  check (t2273 || t2275)
  let t2276 ← (ApiFloat.from_bits 199 : M Float8E4M3FN)
  let t2277 ← ApiFloat.fmt t2276 none none false
  let t2278 ← is_nan t2276
  check (!t2278 || decide (t2277 = ("NaN".toList)))
  let t2279 ← (parse t2277 : M Float8E4M3FN)
  let t2280 ← ApiFloat.bitwise_eq t2276 t2279
  check (t2278 || t2280)
  let t2281 ← (ApiFloat.from_bits 200 : M Float8E4M3FN)
  let t2282 ← ApiFloat.fmt t2281 none none false
  let t2283 ← is_nan t2281
  check (!t2283 || decide (t2282 = ("NaN".toList)))
  let t2284 ← (parse t2282 : M Float8E4M3FN)
  let t2285 ← ApiFloat.bitwise_eq t2281 t2284
  check (t2283 || t2285)
  let t2286 ← (ApiFloat.from_bits 201 : M Float8E4M3FN)
  let t2287 ← ApiFloat.fmt t2286 none none false
  let t2288 ← is_nan t2286
  check (!t2288 || decide (t2287 = ("NaN".toList)))
  let t2289 ← (parse t2287 : M Float8E4M3FN)
  let t2290 ← ApiFloat.bitwise_eq t2286 t2289
  check (t2288 || t2290)
  let t2291 ← (ApiFloat.from_bits 202 : M Float8E4M3FN)
  let t2292 ← ApiFloat.fmt t2291 none none false
  let t2293 ← is_nan t2291
  check (!t2293 || decide (t2292 = ("NaN".toList)))

example : passes t_f8_to_string_51 = true := by decide +kernel

/-- tests/ieee.rs:4566 `f8_to_string`. -/
def t_f8_to_string_52 : M Unit := do
  let t2291 ← (ApiFloat.from_bits 202 : M Float8E4M3FN)
  let t2292 ← ApiFloat.fmt t2291 none none false
  let t2293 ← is_nan t2291
  let t2294 ← (parse t2292 : M Float8E4M3FN)
  let t2295 ← ApiFloat.bitwise_eq t2291 t2294
  check (t2293 || t2295)
  let t2296 ← (ApiFloat.from_bits 203 : M Float8E4M3FN)
  let t2297 ← ApiFloat.fmt t2296 none none false
  let t2298 ← is_nan t2296
  check (!t2298 || decide (t2297 = ("NaN".toList)))
  let t2299 ← (parse t2297 : M Float8E4M3FN)
  let t2300 ← ApiFloat.bitwise_eq t2296 t2299
  check (t2298 || t2300)
  let t2301 ← (ApiFloat.from_bits 204 : M Float8E4M3FN)
  let t2302 ← ApiFloat.fmt t2301 none none false
  let t2303 ← is_nan t2301
  check (!t2303 || decide (t2302 = ("NaN".toList)))
  let t2304 ← (parse t2302 : M Float8E4M3FN)
  let t2305 ← ApiFloat.bitwise_eq t2301 t2304
  check (t2303 || t2305)
  let t2306 ← (ApiFloat.from_bits 205 : M Float8E4M3FN)
  let t2307 ← ApiFloat.fmt t2306 none none false
  let t2308 ← is_nan t2306
  check (!t2308 || decide (t2307 = ("NaN".toList)))
  let t2309 ← (parse t2307 : M Float8E4M3FN)
  let t2310 ← ApiFloat.bitwise_eq t2306 t2309
  check (t2308 || t2310)
  let t2311 ← (ApiFloat.from_bits 206 : M Float8E4M3FN)
  let t2312 ← ApiFloat.fmt t2311 none none false
  let t2313 ← is_nan t2311
  check (!t2313 || decide (t2312 = ("NaN".toList)))
  let t2314 ← (parse t2312 : M Float8E4M3FN)
  let t2315 ← ApiFloat.bitwise_eq t2311 t2314
  check (t2313 || t2315)
  let t2316 ← (ApiFloat.from_bits 207 : M Float8E4M3FN)
  let t2317 ← ApiFloat.fmt t2316 none none false
  let t2318 ← is_nan t2316
  check (!t2318 || decide (t2317 = ("NaN".toList)))
  let t2319 ← (parse t2317 : M Float8E4M3FN)
  let t2320 ← ApiFloat.bitwise_eq t2316 t2319
  check (t2318 || t2320)
  let t2321 ← (ApiFloat.from_bits 208 : M Float8E4M3FN)
  let t2322 ← ApiFloat.fmt t2321 none none false
  let t2323 ← is_nan t2321
  check (!t2323 || decide (t2322 = ("NaN".toList)))
  let t2324 ← (parse t2322 : M Float8E4M3FN)
  let t2325 ← ApiFloat.bitwise_eq t2321 t2324
  check (t2323 || t2325)
  let t2326 ← (ApiFloat.from_bits 209 : M Float8E4M3FN)
  let t2327 ← ApiFloat.fmt t2326 none none false
  let t2328 ← is_nan t2326
  check (!t2328 || decide (t2327 = ("NaN".toList)))
  let t2329 ← (parse t2327 : M Float8E4M3FN)
  let t2330 ← ApiFloat.bitwise_eq t2326 t2329
  check (t2328 || t2330)
  let t2331 ← (ApiFloat.from_bits 210 : M Float8E4M3FN)
  let t2332 ← ApiFloat.fmt t2331 none none false
  let t2333 ← is_nan t2331
  check (!t2333 || decide (t2332 = ("NaN".toList)))
  let t2334 ← (parse t2332 : M Float8E4M3FN)
  let t2335 ← ApiFloat.bitwise_eq t2331 t2334
  check (t2333 || t2335)
  let t2336 ← (ApiFloat.from_bits 211 : M Float8E4M3FN)
  let t2337 ← ApiFloat.fmt t2336 none none false
  let t2338 ← is_nan t2336
  check (!t2338 || decide (t2337 = ("NaN".toList)))

example : passes t_f8_to_string_52 = true := by decide +kernel

/-- tests/ieee.rs:4566 `f8_to_string`. -/
def t_f8_to_string_53 : M Unit := do
  let t2336 ← (ApiFloat.from_bits 211 : M Float8E4M3FN)
  let t2337 ← ApiFloat.fmt t2336 none none false
  let t2338 ← is_nan t2336
  let t2339 ← (parse t2337 : M Float8E4M3FN)
  let t2340 ← ApiFloat.bitwise_eq t2336 t2339
  check (t2338 || t2340)
  let t2341 ← (ApiFloat.from_bits 212 : M Float8E4M3FN)
  let t2342 ← ApiFloat.fmt t2341 none none false
  let t2343 ← is_nan t2341
  check (!t2343 || decide (t2342 = ("NaN".toList)))
  let t2344 ← (parse t2342 : M Float8E4M3FN)
  let t2345 ← ApiFloat.bitwise_eq t2341 t2344
  check (t2343 || t2345)
  let t2346 ← (ApiFloat.from_bits 213 : M Float8E4M3FN)
  let t2347 ← ApiFloat.fmt t2346 none none false
  let t2348 ← is_nan t2346
  check (!t2348 || decide (t2347 = ("NaN".toList)))
  let t2349 ← (parse t2347 : M Float8E4M3FN)
  let t2350 ← ApiFloat.bitwise_eq t2346 t2349
  check (t2348 || t2350)
  let t2351 ← (ApiFloat.from_bits 214 : M Float8E4M3FN)
  let t2352 ← ApiFloat.fmt t2351 none none false
  let t2353 ← is_nan t2351
  check (!t2353 || decide (t2352 = ("NaN".toList)))
  let t2354 ← (parse t2352 : M Float8E4M3FN)
  let t2355 ← ApiFloat.bitwise_eq t2351 t2354
  check (t2353 || t2355)
  let t2356 ← (ApiFloat.from_bits 215 : M Float8E4M3FN)
  let t2357 ← ApiFloat.fmt t2356 none none false
  let t2358 ← is_nan t2356
  check (!t2358 || decide (t2357 = ("NaN".toList)))
  let t2359 ← (parse t2357 : M Float8E4M3FN)
  let t2360 ← ApiFloat.bitwise_eq t2356 t2359
  check (t2358 || t2360)
  let t2361 ← (ApiFloat.from_bits 216 : M Float8E4M3FN)
  let t2362 ← ApiFloat.fmt t2361 none none false
  let t2363 ← is_nan t2361
  check (!t2363 || decide (t2362 = ("NaN".toList)))
  let t2364 ← (parse t2362 : M Float8E4M3FN)
  let t2365 ← ApiFloat.bitwise_eq t2361 t2364
  check (t2363 || t2365)
  let t2366 ← (ApiFloat.from_bits 217 : M Float8E4M3FN)
  let t2367 ← ApiFloat.fmt t2366 none none false
  let t2368 ← is_nan t2366
  check (!t2368 || decide (t2367 = ("NaN".toList)))
  let t2369 ← (parse t2367 : M Float8E4M3FN)
  let t2370 ← ApiFloat.bitwise_eq t2366 t2369
  check (t2368 || t2370)
  let t2371 ← (ApiFloat.from_bits 218 : M Float8E4M3FN)
  let t2372 ← ApiFloat.fmt t2371 none none false
  let t2373 ← is_nan t2371
  check (!t2373 || decide (t2372 = ("NaN".toList)))
  let t2374 ← (parse t2372 : M Float8E4M3FN)
  let t2375 ← ApiFloat.bitwise_eq t2371 t2374
  check (t2373 || t2375)
  let t2376 ← (ApiFloat.from_bits 219 : M Float8E4M3FN)
  let t2377 ← ApiFloat.fmt t2376 none none false
  let t2378 ← is_nan t2376
  check (!t2378 || decide (t2377 = ("NaN".toList)))
  let t2379 ← (parse t2377 : M Float8E4M3FN)
  let t2380 ← ApiFloat.bitwise_eq t2376 t2379
  check (t2378 || t2380)
  let t2381 ← (ApiFloat.from_bits 220 : M Float8E4M3FN)
  let t2382 ← ApiFloat.fmt t2381 none none false
  let t2383 ← is_nan t2381
  check (!t2383 || decide (t2382 = ("NaN".toList)))

example : passes t_f8_to_string_53 = true := by decide +kernel

/-- tests/ieee.rs:4566 `f8_to_string`. -/
def t_f8_to_string_54 : M Unit := do
  let t2381 ← (ApiFloat.from_bits 220 : M Float8E4M3FN)
  let t2382 ← ApiFloat.fmt t2381 none none false
  let t2383 ← is_nan t2381
  let t2384 ← (parse t2382 : M Float8E4M3FN)
  let t2385 ← ApiFloat.bitwise_eq t2381 t2384
  check (t2383 || t2385)
  let t2386 ← (ApiFloat.from_bits 221 : M Float8E4M3FN)
  let t2387 ← ApiFloat.fmt t2386 none none false
  let t2388 ← is_nan t2386
  check (!t2388 || decide (t2387 = ("NaN".toList)))
  let t2389 ← (parse t2387 : M Float8E4M3FN)
  let t2390 ← ApiFloat.bitwise_eq t2386 t2389
  check (t2388 || t2390)
  let t2391 ← (ApiFloat.from_bits 222 : M Float8E4M3FN)
  let t2392 ← ApiFloat.fmt t2391 none none false
  let t2393 ← is_nan t2391
  check (!t2393 || decide (t2392 = ("NaN".toList)))
  let t2394 ← (parse t2392 : M Float8E4M3FN)
  let t2395 ← ApiFloat.bitwise_eq t2391 t2394
  check (t2393 || t2395)
  let t2396 ← (ApiFloat.from_bits 223 : M Float8E4M3FN)
  let t2397 ← ApiFloat.fmt t2396 none none false
  let t2398 ← is_nan t2396
  check (!t2398 || decide (t2397 = ("NaN".toList)))
  let t2399 ← (parse t2397 : M Float8E4M3FN)
  let t2400 ← ApiFloat.bitwise_eq t2396 t2399
  check (t2398 || t2400)
  let t2401 ← (ApiFloat.from_bits 224 : M Float8E4M3FN)
  let t2402 ← ApiFloat.fmt t2401 none none false
  let t2403 ← is_nan t2401
  check (!t2403 || decide (t2402 = ("NaN".toList)))
  let t2404 ← (parse t2402 : M Float8E4M3FN)
  let t2405 ← ApiFloat.bitwise_eq t2401 t2404
  check (t2403 || t2405)
  let t2406 ← (ApiFloat.from_bits 225 : M Float8E4M3FN)
  let t2407 ← ApiFloat.fmt t2406 none none false
  let t2408 ← is_nan t2406
  check (!t2408 || decide (t2407 = ("NaN".toList)))
  let t2409 ← (parse t2407 : M Float8E4M3FN)
  let t2410 ← ApiFloat.bitwise_eq t2406 t2409
  check (t2408 || t2410)
  let t2411 ← (ApiFloat.from_bits 226 : M Float8E4M3FN)
  let t2412 ← ApiFloat.fmt t2411 none none false
  let t2413 ← is_nan t2411
  check (!t2413 || decide (t2412 = ("NaN".toList)))
  let t2414 ← (parse t2412 : M Float8E4M3FN)
  let t2415 ← ApiFloat.bitwise_eq t2411 t2414
  check (t2413 || t2415)
  let t2416 ← (ApiFloat.from_bits 227 : M Float8E4M3FN)
  let t2417 ← ApiFloat.fmt t2416 none none false
  let t2418 ← is_nan t2416
  check (!t2418 || decide (t2417 = ("NaN".toList)))
  let t2419 ← (parse t2417 : M Float8E4M3FN)
  let t2420 ← ApiFloat.bitwise_eq t2416 t2419
  check (t2418 || t2420)
  let t2421 ← (ApiFloat.from_bits 228 : M Float8E4M3FN)
  let t2422 ← ApiFloat.fmt t2421 none none false
  let t2423 ← is_nan t2421
  check (!t2423 || decide (t2422 = ("NaN".toList)))
  let t2424 ← (parse t2422 : M Float8E4M3FN)
  let t2425 ← ApiFloat.bitwise_eq t2421 t2424
  check (t2423 || t2425)
  let t2426 ← (ApiFloat.from_bits 229 : M Float8E4M3FN)
  let t2427 ← ApiFloat.fmt t2426 none none false
  let t2428 ← is_nan t2426
  check (!t2428 || decide (t2427 = ("NaN".toList)))

example : passes t_f8_to_string_54 = true := by decide +kernel

/-- tests/ieee.rs:4566 `f8_to_string`. -/
def t_f8_to_string_55 : M Unit := do
  let t2426 ← (ApiFloat.from_bits 229 : M Float8E4M3FN)
  let t2427 ← ApiFloat.fmt t2426 none none false
  let t2428 ← is_nan t2426
  let t2429 ← (parse t2427 : M Float8E4M3FN)
  let t2430 ← ApiFloat.bitwise_eq t2426 t2429
  check (t2428 || t2430)
  let t2431 ← (ApiFloat.from_bits 230 : M Float8E4M3FN)
  let t2432 ← ApiFloat.fmt t2431 none none false
  let t2433 ← is_nan t2431
  check (!t2433 || decide (t2432 = ("NaN".toList)))
  let t2434 ← (parse t2432 : M Float8E4M3FN)
  let t2435 ← ApiFloat.bitwise_eq t2431 t2434
  check (t2433 || t2435)
  let t2436 ← (ApiFloat.from_bits 231 : M Float8E4M3FN)
  let t2437 ← ApiFloat.fmt t2436 none none false
  let t2438 ← is_nan t2436
  check (!t2438 || decide (t2437 = ("NaN".toList)))
  let t2439 ← (parse t2437 : M Float8E4M3FN)
  let t2440 ← ApiFloat.bitwise_eq t2436 t2439
  check (t2438 || t2440)
  let t2441 ← (ApiFloat.from_bits 232 : M Float8E4M3FN)
  let t2442 ← ApiFloat.fmt t2441 none none false
  let t2443 ← is_nan t2441
  check (!t2443 || decide (t2442 = ("NaN".toList)))
  let t2444 ← (parse t2442 : M Float8E4M3FN)
  let t2445 ← ApiFloat.bitwise_eq t2441 t2444
  check (t2443 || t2445)
  let t2446 ← (ApiFloat.from_bits 233 : M Float8E4M3FN)
  let t2447 ← ApiFloat.fmt t2446 none none false
  let t2448 ← is_nan t2446
  check (!t2448 || decide (t2447 = ("NaN".toList)))
  let t2449 ← (parse t2447 : M Float8E4M3FN)
  let t2450 ← ApiFloat.bitwise_eq t2446 t2449
  check (t2448 || t2450)
  let t2451 ← (ApiFloat.from_bits 234 : M Float8E4M3FN)
  let t2452 ← ApiFloat.fmt t2451 none none false
  let t2453 ← is_nan t2451
  check (!t2453 || decide (t2452 = ("NaN".toList)))
  let t2454 ← (parse t2452 : M Float8E4M3FN)
  let t2455 ← ApiFloat.bitwise_eq t2451 t2454
  check (t2453 || t2455)
  let t2456 ← (ApiFloat.from_bits 235 : M Float8E4M3FN)
  let t2457 ← ApiFloat.fmt t2456 none none false
  let t2458 ← is_nan t2456
  check (!t2458 || decide (t2457 = ("NaN".toList)))
  let t2459 ← (parse t2457 : M Float8E4M3FN)
  let t2460 ← ApiFloat.bitwise_eq t2456 t2459
  check (t2458 || t2460)
  let t2461 ← (ApiFloat.from_bits 236 : M Float8E4M3FN)
  let t2462 ← ApiFloat.fmt t2461 none none false
  let t2463 ← is_nan t2461
  check (!t2463 || decide (t2462 = ("NaN".toList)))
  let t2464 ← (parse t2462 : M Float8E4M3FN)
  let t2465 ← ApiFloat.bitwise_eq t2461 t2464
  check (t2463 || t2465)
  let t2466 ← (ApiFloat.from_bits 237 : M Float8E4M3FN)
  let t2467 ← ApiFloat.fmt t2466 none none false
  let t2468 ← is_nan t2466
  check (!t2468 || decide (t2467 = ("NaN".toList)))
  let t2469 ← (parse t2467 : M Float8E4M3FN)
  let t2470 ← ApiFloat.bitwise_eq t2466 t2469
  check (t2468 || t2470)
  let t2471 ← (ApiFloat.from_bits 238 : M Float8E4M3FN)
  let t2472 ← ApiFloat.fmt t2471 none none false
  let t2473 ← is_nan t2471
  check (!t2473 || decide (t2472 = ("NaN".toList)))

example : passes t_f8_to_string_55 = true := by decide +kernel

/-- tests/ieee.rs:4566 `f8_to_string`. -/
def t_f8_to_string_56 : M Unit := do
  let t2471 ← (ApiFloat.from_bits 238 : M Float8E4M3FN)
  let t2472 ← ApiFloat.fmt t2471 none none false
  let t2473 ← is_nan t2471
  let t2474 ← (parse t2472 : M Float8E4M3FN)
  let t2475 ← ApiFloat.bitwise_eq t2471 t2474
  check (t2473 || t2475)
  let t2476 ← (ApiFloat.from_bits 239 : M Float8E4M3FN)
  let t2477 ← ApiFloat.fmt t2476 none none false
  let t2478 ← is_nan t2476
  check (!t2478 || decide (t2477 = ("NaN".toList)))
  let t2479 ← (parse t2477 : M Float8E4M3FN)
  let t2480 ← ApiFloat.bitwise_eq t2476 t2479
  check (t2478 || t2480)
  let t2481 ← (ApiFloat.from_bits 240 : M Float8E4M3FN)
  let t2482 ← ApiFloat.fmt t2481 none none false
  let t2483 ← is_nan t2481
  check (!t2483 || decide (t2482 = ("NaN".toList)))
  let t2484 ← (parse t2482 : M Float8E4M3FN)
  let t2485 ← ApiFloat.bitwise_eq t2481 t2484
  check (t2483 || t2485)
  let t2486 ← (ApiFloat.from_bits 241 : M Float8E4M3FN)
  let t2487 ← ApiFloat.fmt t2486 none none false
  let t2488 ← is_nan t2486
  check (!t2488 || decide (t2487 = ("NaN".toList)))
  let t2489 ← (parse t2487 : M Float8E4M3FN)
  let t2490 ← ApiFloat.bitwise_eq t2486 t2489
  check (t2488 || t2490)
  let t2491 ← (ApiFloat.from_bits 242 : M Float8E4M3FN)
  let t2492 ← ApiFloat.fmt t2491 none none false
  let t2493 ← is_nan t2491
  check (!t2493 || decide (t2492 = ("NaN".toList)))
  let t2494 ← (parse t2492 : M Float8E4M3FN)
  let t2495 ← ApiFloat.bitwise_eq t2491 t2494
  check (t2493 || t2495)
  let t2496 ← (ApiFloat.from_bits 243 : M Float8E4M3FN)
  let t2497 ← ApiFloat.fmt t2496 none none false
  let t2498 ← is_nan t2496
  check (!t2498 || decide (t2497 = ("NaN".toList)))
  let t2499 ← (parse t2497 : M Float8E4M3FN)
  let t2500 ← ApiFloat.bitwise_eq t2496 t2499
  check (t2498 || t2500)
  let t2501 ← (ApiFloat.from_bits 244 : M Float8E4M3FN)
  let t2502 ← ApiFloat.fmt t2501 none none false
  let t2503 ← is_nan t2501
  check (!t2503 || decide (t2502 = ("NaN".toList)))
  let t2504 ← (parse t2502 : M Float8E4M3FN)
  let t2505 ← ApiFloat.bitwise_eq t2501 t2504
  check (t2503 || t2505)
  let t2506 ← (ApiFloat.from_bits 245 : M Float8E4M3FN)
  let t2507 ← ApiFloat.fmt t2506 none none false
  let t2508 ← is_nan t2506
  check (!t2508 || decide (t2507 = ("NaN".toList)))
  let t2509 ← (parse t2507 : M Float8E4M3FN)
  let t2510 ← ApiFloat.bitwise_eq t2506 t2509
  check (t2508 || t2510)
  let t2511 ← (ApiFloat.from_bits 246 : M Float8E4M3FN)
  let t2512 ← ApiFloat.fmt t2511 none none false
  let t2513 ← is_nan t2511
  check (!t2513 || decide (t2512 = ("NaN".toList)))
  let t2514 ← (parse t2512 : M Float8E4M3FN)
  let t2515 ← ApiFloat.bitwise_eq t2511 t2514
  check (t2513 || t2515)
  let t2516 ← (ApiFloat.from_bits 247 : M Float8E4M3FN)
  let t2517 ← ApiFloat.fmt t2516 none none false
  let t2518 ← is_nan t2516
  check (!t2518 || decide (t2517 = ("NaN".toList)))

example : passes t_f8_to_string_56 = true := by decide +kernel

/-- tests/ieee.rs:4566 `f8_to_string`. -/
def t_f8_to_string_57 : M Unit := do
  let t2516 ← (ApiFloat.from_bits 247 : M Float8E4M3FN)
  let t2517 ← ApiFloat.fmt t2516 none none false
  let t2518 ← is_nan t2516
  let t2519 ← (parse t2517 : M Float8E4M3FN)
  let t2520 ← ApiFloat.bitwise_eq t2516 t2519
  check (t2518 || t2520)
  let t2521 ← (ApiFloat.from_bits 248 : M Float8E4M3FN)
  let t2522 ← ApiFloat.fmt t2521 none none false
  let t2523 ← is_nan t2521
  check (!t2523 || decide (t2522 = ("NaN".toList)))
  let t2524 ← (parse t2522 : M Float8E4M3FN)
  let t2525 ← ApiFloat.bitwise_eq t2521 t2524
  check (t2523 || t2525)
  let t2526 ← (ApiFloat.from_bits 249 : M Float8E4M3FN)
  let t2527 ← ApiFloat.fmt t2526 none none false
  let t2528 ← is_nan t2526
  check (!t2528 || decide (t2527 = ("NaN".toList)))
  let t2529 ← (parse t2527 : M Float8E4M3FN)
  let t2530 ← ApiFloat.bitwise_eq t2526 t2529
  check (t2528 || t2530)
  let t2531 ← (ApiFloat.from_bits 250 : M Float8E4M3FN)
  let t2532 ← ApiFloat.fmt t2531 none none false
  let t2533 ← is_nan t2531
  check (!t2533 || decide (t2532 = ("NaN".toList)))
  let t2534 ← (parse t2532 : M Float8E4M3FN)
  let t2535 ← ApiFloat.bitwise_eq t2531 t2534
  check (t2533 || t2535)
  let t2536 ← (ApiFloat.from_bits 251 : M Float8E4M3FN)
  let t2537 ← ApiFloat.fmt t2536 none none false
  let t2538 ← is_nan t2536
  check (!t2538 || decide (t2537 = ("NaN".toList)))
  let t2539 ← (parse t2537 : M Float8E4M3FN)
  let t2540 ← ApiFloat.bitwise_eq t2536 t2539
  check (t2538 || t2540)
  let t2541 ← (ApiFloat.from_bits 252 : M Float8E4M3FN)
  let t2542 ← ApiFloat.fmt t2541 none none false
  let t2543 ← is_nan t2541
  check (!t2543 || decide (t2542 = ("NaN".toList)))
  let t2544 ← (parse t2542 : M Float8E4M3FN)
  let t2545 ← ApiFloat.bitwise_eq t2541 t2544
  check (t2543 || t2545)
  let t2546 ← (ApiFloat.from_bits 253 : M Float8E4M3FN)
  let t2547 ← ApiFloat.fmt t2546 none none false
  let t2548 ← is_nan t2546
  check (!t2548 || decide (t2547 = ("NaN".toList)))
  let t2549 ← (parse t2547 : M Float8E4M3FN)
  let t2550 ← ApiFloat.bitwise_eq t2546 t2549
  check (t2548 || t2550)
  let t2551 ← (ApiFloat.from_bits 254 : M Float8E4M3FN)
  let t2552 ← ApiFloat.fmt t2551 none none false
  let t2553 ← is_nan t2551
  check (!t2553 || decide (t2552 = ("NaN".toList)))
  let t2554 ← (parse t2552 : M Float8E4M3FN)
  let t2555 ← ApiFloat.bitwise_eq t2551 t2554
  check (t2553 || t2555)
  let t2556 ← (ApiFloat.from_bits 255 : M Float8E4M3FN)
  let t2557 ← ApiFloat.fmt t2556 none none false
  let t2558 ← is_nan t2556
  check (!t2558 || decide (t2557 = ("NaN".toList)))
  let t2559 ← (parse t2557 : M Float8E4M3FN)
  let t2560 ← ApiFloat.bitwise_eq t2556 t2559
  check (t2558 || t2560)

example : passes t_f8_to_string_57 = true := by decide +kernel

end Apf.Conformance.Ieee7
