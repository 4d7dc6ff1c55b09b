import Verif.Conformance.Support
/-! Generated by tools/tests_to_lean.py from tests/downstream.rs. -/

namespace Apf.Conformance.Downstream
set_option maxRecDepth 100000
set_option linter.all false

/-- tests/downstream.rs:27 `fuzz_roundtrip_through_i128`. -/
def t_fuzz_roundtrip_through_i128 : M Unit := do
  let t1 ← (ApiFloat.from_bits 4278190080 : M Single)
  let t2 ← Api.to_i128 t1 128
  let t3 ← (Api.from_i128 (t2).value : M (StatusAnd Single))
  let t4 ← ApiFloat.to_bits (t3).value
  check (decide (t4 = 4278190080))
  let t5 ← (ApiFloat.from_bits 4278247939 : M Single)
  let t6 ← Api.to_i128 t5 128
  let t7 ← (Api.from_i128 (t6).value : M (StatusAnd Single))
  let t8 ← ApiFloat.to_bits (t7).value
  check (decide (t8 = 4278190080))
  let t9 ← (ApiFloat.from_bits 4278249728 : M Single)
  let t10 ← Api.to_i128 t9 128
  let t11 ← (Api.from_i128 (t10).value : M (StatusAnd Single))
  let t12 ← ApiFloat.to_bits (t11).value
  check (decide (t12 = 4278190080))
  let t13 ← (ApiFloat.from_bits 4286578687 : M Single)
  let t14 ← Api.to_i128 t13 128
  let t15 ← (Api.from_i128 (t14).value : M (StatusAnd Single))
  let t16 ← ApiFloat.to_bits (t15).value
  check (decide (t16 = 4278190080))
  let t17 ← (ApiFloat.from_bits 4286578688 : M Single)
  let t18 ← Api.to_i128 t17 128
  let t19 ← (Api.from_i128 (t18).value : M (StatusAnd Single))
  let t20 ← ApiFloat.to_bits (t19).value
  check (decide (t20 = 4278190080))
  let t21 ← (ApiFloat.from_bits 14404153729500573183 : M Double)
  let t22 ← Api.to_i128 t21 128
  let t23 ← (Api.from_i128 (t22).value : M (StatusAnd Double))
  let t24 ← ApiFloat.to_bits (t23).value
  check (decide (t24 = 14402511608330846208))
  let t25 ← (ApiFloat.from_bits 14404763403832721152 : M Double)
  let t26 ← Api.to_i128 t25 128
  let t27 ← (Api.from_i128 (t26).value : M (StatusAnd Double))
  let t28 ← ApiFloat.to_bits (t27).value
  check (decide (t28 = 14402511608330846208))
  let t29 ← (ApiFloat.from_bits 14404766706686047798 : M Double)
  let t30 ← Api.to_i128 t29 128
  let t31 ← (Api.from_i128 (t30).value : M (StatusAnd Double))
  let t32 ← ApiFloat.to_bits (t31).value
  check (decide (t32 = 14402511608330846208))
  let t33 ← (ApiFloat.from_bits 16876397252717117447 : M Double)
  let t34 ← Api.to_i128 t33 128
  let t35 ← (Api.from_i128 (t34).value : M (StatusAnd Double))
  let t36 ← ApiFloat.to_bits (t35).value
  check (decide (t36 = 14402511608330846208))
  let t37 ← (ApiFloat.from_bits 17581778208175425024 : M Double)
  let t38 ← Api.to_i128 t37 128
  let t39 ← (Api.from_i128 (t38).value : M (StatusAnd Double))
  let t40 ← ApiFloat.to_bits (t39).value
  check (decide (t40 = 14402511608330846208))
  let t41 ← (ApiFloat.from_bits 18431273413168387327 : M Double)
  let t42 ← Api.to_i128 t41 128
  let t43 ← (Api.from_i128 (t42).value : M (StatusAnd Double))
  let t44 ← ApiFloat.to_bits (t43).value
  check (decide (t44 = 14402511608330846208))
  let t45 ← (ApiFloat.from_bits 18442240474082181120 : M Double)
  let t46 ← Api.to_i128 t45 128
  let t47 ← (Api.from_i128 (t46).value : M (StatusAnd Double))
  let t48 ← ApiFloat.to_bits (t47).value
  check (decide (t48 = 14402511608330846208))

example : passes t_fuzz_roundtrip_through_i128 = true := by decide +kernel

/-- tests/downstream.rs:376 `fuzz_fma_with_expected_outputs`. -/
def t_fuzz_fma_with_expected_outputs_1 : M Unit := do
  let t1 ← (ApiFloat.from_bits 4096 : M Single)
  let t2 ← (ApiFloat.from_bits 26 : M Single)
  let t3 ← (ApiFloat.from_bits 4294908416 : M Single)
  let t4 ← Api.mul_add t1 t2 t3
  let t5 ← ApiFloat.to_bits (t4).value
  check (decide (t5 = 4294908416))
  let t6 ← (ApiFloat.from_bits 32938 : M Single)
  let t7 ← (ApiFloat.from_bits 2868838400 : M Single)
  let t8 ← (ApiFloat.from_bits 4288544895 : M Single)
  let t9 ← Api.mul_add t6 t7 t8
  let t10 ← ApiFloat.to_bits (t9).value
  check (decide (t10 = 4292739199))
  let t11 ← (ApiFloat.from_bits 33855 : M Single)
  let t12 ← (ApiFloat.from_bits 8716160 : M Single)
  let t13 ← (ApiFloat.from_bits 4294934528 : M Single)
  let t14 ← Api.mul_add t11 t12 t13
  let t15 ← ApiFloat.to_bits (t14).value
  check (decide (t15 = 4294934528))
  let t16 ← (ApiFloat.from_bits 40618 : M Single)
  let t17 ← (ApiFloat.from_bits 538803998 : M Single)
  let t18 ← (ApiFloat.from_bits 4294901761 : M Single)
  let t19 ← Api.mul_add t16 t17 t18
  let t20 ← ApiFloat.to_bits (t19).value
  check (decide (t20 = 4294901761))
  let t21 ← (ApiFloat.from_bits 33816831 : M Single)
  let t22 ← (ApiFloat.from_bits 2139038208 : M Single)
  let t23 ← (ApiFloat.from_bits 4294967295 : M Single)
  let t24 ← Api.mul_add t21 t22 t23
  let t25 ← ApiFloat.to_bits (t24).value
  check (decide (t25 = 4294967295))
  let t26 ← (ApiFloat.from_bits 33948448 : M Single)
  let t27 ← (ApiFloat.from_bits 536880417 : M Single)
  let t28 ← (ApiFloat.from_bits 2139095040 : M Single)
  let t29 ← Api.mul_add t26 t27 t28
  let t30 ← ApiFloat.to_bits (t29).value
  check (decide (t30 = 2139095040))
  let t31 ← (ApiFloat.from_bits 67108992 : M Single)
  let t32 ← (ApiFloat.from_bits 4286578432 : M Single)
  let t33 ← (ApiFloat.from_bits 4286578688 : M Single)
  let t34 ← Api.mul_add t31 t32 t33
  let t35 ← ApiFloat.to_bits (t34).value
  check (decide (t35 = 4286578688))
  let t36 ← (ApiFloat.from_bits 67141546 : M Single)
  let t37 ← (ApiFloat.from_bits 4280287232 : M Single)
  let t38 ← (ApiFloat.from_bits 4294901760 : M Single)
  let t39 ← Api.mul_add t36 t37 t38
  let t40 ← ApiFloat.to_bits (t39).value
  check (decide (t40 = 4294901760))
  let t41 ← (ApiFloat.from_bits 503710719 : M Single)
  let t42 ← (ApiFloat.from_bits 1048576 : M Single)
  let t43 ← (ApiFloat.from_bits 4294967119 : M Single)
  let t44 ← Api.mul_add t41 t42 t43
  let t45 ← ApiFloat.to_bits (t44).value
  check (decide (t45 = 4294967119))
  let t46 ← (ApiFloat.from_bits 536872106 : M Single)
  let t47 ← (ApiFloat.from_bits 2105376 : M Single)
  let t48 ← (ApiFloat.from_bits 2147418367 : M Single)
  let t49 ← Api.mul_add t46 t47 t48
  let t50 ← ApiFloat.to_bits (t49).value
  check (decide (t50 = 2147418367))

example : passes t_fuzz_fma_with_expected_outputs_1 = true := by decide +kernel

/-- tests/downstream.rs:376 `fuzz_fma_with_expected_outputs`. -/
def t_fuzz_fma_with_expected_outputs_2 : M Unit := do
  let t51 ← (ApiFloat.from_bits 536895146 : M Single)
  let t52 ← (ApiFloat.from_bits 2661195322 : M Single)
  let t53 ← (ApiFloat.from_bits 4288544926 : M Single)
  let t54 ← Api.mul_add t51 t52 t53
  let t55 ← ApiFloat.to_bits (t54).value
  check (decide (t55 = 4292739230))
  let t56 ← (ApiFloat.from_bits 536903594 : M Single)
  let t57 ← (ApiFloat.from_bits 2650824990 : M Single)
  let t58 ← (ApiFloat.from_bits 2141849088 : M Single)
  let t59 ← Api.mul_add t56 t57 t58
  let t60 ← ApiFloat.to_bits (t59).value
  check (decide (t60 = 2146043392))
  let t61 ← (ApiFloat.from_bits 536903594 : M Single)
  let t62 ← (ApiFloat.from_bits 2852560414 : M Single)
  let t63 ← (ApiFloat.from_bits 4294962431 : M Single)
  let t64 ← Api.mul_add t61 t62 t63
  let t65 ← ApiFloat.to_bits (t64).value
  check (decide (t65 = 4294962431))
  let t66 ← (ApiFloat.from_bits 537026218 : M Single)
  let t67 ← (ApiFloat.from_bits 2650866490 : M Single)
  let t68 ← (ApiFloat.from_bits 4288544926 : M Single)
  let t69 ← Api.mul_add t66 t67 t68
  let t70 ← ApiFloat.to_bits (t69).value
  check (decide (t70 = 4292739230))
  let t71 ← (ApiFloat.from_bits 857011200 : M Single)
  let t72 ← (ApiFloat.from_bits 16742659 : M Single)
  let t73 ← (ApiFloat.from_bits 4294967259 : M Single)
  let t74 ← Api.mul_add t71 t72 t73
  let t75 ← ApiFloat.to_bits (t74).value
  check (decide (t75 = 4294967259))
  let t76 ← (ApiFloat.from_bits 857011200 : M Single)
  let t77 ← (ApiFloat.from_bits 16742659 : M Single)
  let t78 ← (ApiFloat.from_bits 4294967286 : M Single)
  let t79 ← Api.mul_add t76 t77 t78
  let t80 ← ApiFloat.to_bits (t79).value
  check (decide (t80 = 4294967286))
  let t81 ← (ApiFloat.from_bits 975274613 : M Single)
  let t82 ← (ApiFloat.from_bits 976894522 : M Single)
  let t83 ← (ApiFloat.from_bits 2139751994 : M Single)
  let t84 ← Api.mul_add t81 t82 t83
  let t85 ← ApiFloat.to_bits (t84).value
  check (decide (t85 = 2143946298))
  let t86 ← (ApiFloat.from_bits 1073741825 : M Single)
  let t87 ← (ApiFloat.from_bits 4278190078 : M Single)
  let t88 ← (ApiFloat.from_bits 4294852863 : M Single)
  let t89 ← Api.mul_add t86 t87 t88
  let t90 ← ApiFloat.to_bits (t89).value
  check (decide (t90 = 4294852863))
  let t91 ← (ApiFloat.from_bits 1342209962 : M Single)
  let t92 ← (ApiFloat.from_bits 4603 : M Single)
  let t93 ← (ApiFloat.from_bits 4286578688 : M Single)
  let t94 ← Api.mul_add t91 t92 t93
  let t95 ← ApiFloat.to_bits (t94).value
  check (decide (t95 = 4286578688))
  let t96 ← (ApiFloat.from_bits 1677754251 : M Single)
  let t97 ← (ApiFloat.from_bits 4204431106 : M Single)
  let t98 ← (ApiFloat.from_bits 4286709760 : M Single)
  let t99 ← Api.mul_add t96 t97 t98
  let t100 ← ApiFloat.to_bits (t99).value
  check (decide (t100 = 4290904064))

example : passes t_fuzz_fma_with_expected_outputs_2 = true := by decide +kernel

/-- tests/downstream.rs:376 `fuzz_fma_with_expected_outputs`. -/
def t_fuzz_fma_with_expected_outputs_3 : M Unit := do
  let t101 ← (ApiFloat.from_bits 1778483114 : M Single)
  let t102 ← (ApiFloat.from_bits 112 : M Single)
  let t103 ← (ApiFloat.from_bits 4286634755 : M Single)
  let t104 ← Api.mul_add t101 t102 t103
  let t105 ← ApiFloat.to_bits (t104).value
  check (decide (t105 = 4290829059))
  let t106 ← (ApiFloat.from_bits 1778483114 : M Single)
  let t107 ← (ApiFloat.from_bits 112 : M Single)
  let t108 ← (ApiFloat.from_bits 4286634787 : M Single)
  let t109 ← Api.mul_add t106 t107 t108
  let t110 ← ApiFloat.to_bits (t109).value
  check (decide (t110 = 4290829091))
  let t111 ← (ApiFloat.from_bits 1845493760 : M Single)
  let t112 ← (ApiFloat.from_bits 3741351936 : M Single)
  let t113 ← (ApiFloat.from_bits 2139095040 : M Single)
  let t114 ← Api.mul_add t111 t112 t113
  let t115 ← ApiFloat.to_bits (t114).value
  check (decide (t115 = 2139095040))
  let t116 ← (ApiFloat.from_bits 2139094784 : M Single)
  let t117 ← (ApiFloat.from_bits 33554560 : M Single)
  let t118 ← (ApiFloat.from_bits 2143289344 : M Single)
  let t119 ← Api.mul_add t116 t117 t118
  let t120 ← ApiFloat.to_bits (t119).value
  check (decide (t120 = 2143289344))
  let t121 ← (ApiFloat.from_bits 3018522879 : M Single)
  let t122 ← (ApiFloat.from_bits 16773090 : M Single)
  let t123 ← (ApiFloat.from_bits 4294967017 : M Single)
  let t124 ← Api.mul_add t121 t122 t123
  let t125 ← ApiFloat.to_bits (t124).value
  check (decide (t125 = 4294967017))
  let t126 ← (ApiFloat.from_bits 3741713407 : M Single)
  let t127 ← (ApiFloat.from_bits 2155872511 : M Single)
  let t128 ← (ApiFloat.from_bits 4288348160 : M Single)
  let t129 ← Api.mul_add t126 t127 t128
  let t130 ← ApiFloat.to_bits (t129).value
  check (decide (t130 = 4292542464))
  let t131 ← (ApiFloat.from_bits 4043313409 : M Single)
  let t132 ← (ApiFloat.from_bits 2134900736 : M Single)
  let t133 ← (ApiFloat.from_bits 2139095040 : M Single)
  let t134 ← Api.mul_add t131 t132 t133
  let t135 ← ApiFloat.to_bits (t134).value
  check (decide (t135 = 2139095040))
  let t136 ← (ApiFloat.from_bits 4110418048 : M Single)
  let t137 ← (ApiFloat.from_bits 3388997376 : M Single)
  let t138 ← (ApiFloat.from_bits 4294934527 : M Single)
  let t139 ← Api.mul_add t136 t137 t138
  let t140 ← ApiFloat.to_bits (t139).value
  check (decide (t140 = 4294934527))
  let t141 ← (ApiFloat.from_bits 4127195135 : M Single)
  let t142 ← (ApiFloat.from_bits 4278192905 : M Single)
  let t143 ← (ApiFloat.from_bits 4286578688 : M Single)
  let t144 ← Api.mul_add t141 t142 t143
  let t145 ← ApiFloat.to_bits (t144).value
  check (decide (t145 = 4286578688))
  let t146 ← (ApiFloat.from_bits 4143983080 : M Single)
  let t147 ← (ApiFloat.from_bits 4160749439 : M Single)
  let t148 ← (ApiFloat.from_bits 4294934527 : M Single)
  let t149 ← Api.mul_add t146 t147 t148
  let t150 ← ApiFloat.to_bits (t149).value
  check (decide (t150 = 4294934527))

example : passes t_fuzz_fma_with_expected_outputs_3 = true := by decide +kernel

/-- tests/downstream.rs:376 `fuzz_fma_with_expected_outputs`. -/
def t_fuzz_fma_with_expected_outputs_4 : M Unit := do
  let t151 ← (ApiFloat.from_bits 4278222762 : M Single)
  let t152 ← (ApiFloat.from_bits 3556748517 : M Single)
  let t153 ← (ApiFloat.from_bits 4294934272 : M Single)
  let t154 ← Api.mul_add t151 t152 t153
  let t155 ← ApiFloat.to_bits (t154).value
  check (decide (t155 = 4294934272))
  let t156 ← (ApiFloat.from_bits 4280287232 : M Single)
  let t157 ← (ApiFloat.from_bits 3816882175 : M Single)
  let t158 ← (ApiFloat.from_bits 4286578688 : M Single)
  let t159 ← Api.mul_add t156 t157 t158
  let t160 ← ApiFloat.to_bits (t159).value
  check (decide (t160 = 4286578688))
  let t161 ← (ApiFloat.from_bits 4285333504 : M Single)
  let t162 ← (ApiFloat.from_bits 3240101375 : M Single)
  let t163 ← (ApiFloat.from_bits 4286578688 : M Single)
  let t164 ← Api.mul_add t161 t162 t163
  let t165 ← ApiFloat.to_bits (t164).value
  check (decide (t165 = 4286578688))
  let t166 ← (ApiFloat.from_bits 30 : M Double)
  let t167 ← (ApiFloat.from_bits 4292804608 : M Double)
  let t168 ← (ApiFloat.from_bits 18446743523953737728 : M Double)
  let t169 ← Api.mul_add t166 t167 t168
  let t170 ← ApiFloat.to_bits (t169).value
  check (decide (t170 = 18446743523953737728))
  let t171 ← (ApiFloat.from_bits 2147483647 : M Double)
  let t172 ← (ApiFloat.from_bits 18374686479673720832 : M Double)
  let t173 ← (ApiFloat.from_bits 18445899648779419881 : M Double)
  let t174 ← Api.mul_add t171 t172 t173
  let t175 ← ApiFloat.to_bits (t174).value
  check (decide (t175 = 18445899648779419881))
  let t176 ← (ApiFloat.from_bits 2199038132224 : M Double)
  let t177 ← (ApiFloat.from_bits 18374686479956836352 : M Double)
  let t178 ← (ApiFloat.from_bits 18445899648779477225 : M Double)
  let t179 ← Api.mul_add t176 t177 t178
  let t180 ← ApiFloat.to_bits (t179).value
  check (decide (t180 = 18445899648779477225))
  let t181 ← (ApiFloat.from_bits 4398046536704 : M Double)
  let t182 ← (ApiFloat.from_bits 987825700864 : M Double)
  let t183 ← (ApiFloat.from_bits 18446743949155500032 : M Double)
  let t184 ← Api.mul_add t181 t182 t183
  let t185 ← ApiFloat.to_bits (t184).value
  check (decide (t185 = 18446743949155500032))
  let t186 ← (ApiFloat.from_bits 116548232544256 : M Double)
  let t187 ← (ApiFloat.from_bits 22541087882672625 : M Double)
  let t188 ← (ApiFloat.from_bits 9223371890825887744 : M Double)
  let t189 ← Api.mul_add t186 t187 t188
  let t190 ← ApiFloat.to_bits (t189).value
  check (decide (t190 = 9223371890825887744))
  let t191 ← (ApiFloat.from_bits 140711735329651 : M Double)
  let t192 ← (ApiFloat.from_bits 1407374900269183 : M Double)
  let t193 ← (ApiFloat.from_bits 18446744069414584325 : M Double)
  let t194 ← Api.mul_add t191 t192 t193
  let t195 ← ApiFloat.to_bits (t194).value
  check (decide (t195 = 18446744069414584325))
  let t196 ← (ApiFloat.from_bits 280925220896768 : M Double)
  let t197 ← (ApiFloat.from_bits 16777216 : M Double)
  let t198 ← (ApiFloat.from_bits 18442240474082181120 : M Double)
  let t199 ← Api.mul_add t196 t197 t198
  let t200 ← ApiFloat.to_bits (t199).value
  check (decide (t200 = 18442240474082181120))

example : passes t_fuzz_fma_with_expected_outputs_4 = true := by decide +kernel

/-- tests/downstream.rs:376 `fuzz_fma_with_expected_outputs`. -/
def t_fuzz_fma_with_expected_outputs_5 : M Unit := do
  let t201 ← (ApiFloat.from_bits 738875943747584 : M Double)
  let t202 ← (ApiFloat.from_bits 4611708008609611776 : M Double)
  let t203 ← (ApiFloat.from_bits 18446178924749626111 : M Double)
  let t204 ← Api.mul_add t201 t202 t203
  let t205 ← ApiFloat.to_bits (t204).value
  check (decide (t205 = 18446178924749626111))
  let t206 ← (ApiFloat.from_bits 1688849860269824 : M Double)
  let t207 ← (ApiFloat.from_bits 15636497909888319488 : M Double)
  let t208 ← (ApiFloat.from_bits 18446742858233807101 : M Double)
  let t209 ← Api.mul_add t206 t207 t208
  let t210 ← ApiFloat.to_bits (t209).value
  check (decide (t210 = 18446742858233807101))
  let t211 ← (ApiFloat.from_bits 1688850934005779 : M Double)
  let t212 ← (ApiFloat.from_bits 18085896885893468416 : M Double)
  let t213 ← (ApiFloat.from_bits 18446603331926233105 : M Double)
  let t214 ← Api.mul_add t211 t212 t213
  let t215 ← ApiFloat.to_bits (t214).value
  check (decide (t215 = 18446603331926233105))
  let t216 ← (ApiFloat.from_bits 67835469393821696 : M Double)
  let t217 ← (ApiFloat.from_bits 18439426128042000384 : M Double)
  let t218 ← (ApiFloat.from_bits 18445900129815756800 : M Double)
  let t219 ← Api.mul_add t216 t217 t218
  let t220 ← ApiFloat.to_bits (t219).value
  check (decide (t220 = 18445900129815756800))
  let t221 ← (ApiFloat.from_bits 369358943282988307 : M Double)
  let t222 ← (ApiFloat.from_bits 17942340915444119551 : M Double)
  let t223 ← (ApiFloat.from_bits 18442240474082181120 : M Double)
  let t224 ← Api.mul_add t221 t222 t223
  let t225 ← ApiFloat.to_bits (t224).value
  check (decide (t225 = 18442240474082181120))
  let t226 ← (ApiFloat.from_bits 378372737460077843 : M Double)
  let t227 ← (ApiFloat.from_bits 17151135673474875648 : M Double)
  let t228 ← (ApiFloat.from_bits 9223090562146826753 : M Double)
  let t229 ← Api.mul_add t226 t227 t228
  let t230 ← ApiFloat.to_bits (t229).value
  check (decide (t230 = 9223090562146826753))
  let t231 ← (ApiFloat.from_bits 378372737460077843 : M Double)
  let t232 ← (ApiFloat.from_bits 18435485074641125376 : M Double)
  let t233 ← (ApiFloat.from_bits 18442240542801657856 : M Double)
  let t234 ← Api.mul_add t231 t232 t233
  let t235 ← ApiFloat.to_bits (t234).value
  check (decide (t235 = 18444492342615343104))
  let t236 ← (ApiFloat.from_bits 378372737460134419 : M Double)
  let t237 ← (ApiFloat.from_bits 18147254698489413632 : M Double)
  let t238 ← (ApiFloat.from_bits 18442520918266740736 : M Double)
  let t239 ← Api.mul_add t236 t237 t238
  let t240 ← ApiFloat.to_bits (t239).value
  check (decide (t240 = 18444772718080425984))
  let t241 ← (ApiFloat.from_bits 432345564227632900 : M Double)
  let t242 ← (ApiFloat.from_bits 141733856774 : M Double)
  let t243 ← (ApiFloat.from_bits 18446743927680668416 : M Double)
  let t244 ← Api.mul_add t241 t242 t243
  let t245 ← ApiFloat.to_bits (t244).value
  check (decide (t245 = 18446743927680668416))
  let t246 ← (ApiFloat.from_bits 1370853505341850899 : M Double)
  let t247 ← (ApiFloat.from_bits 17613560475141 : M Double)
  let t248 ← (ApiFloat.from_bits 18445759976442920959 : M Double)
  let t249 ← Api.mul_add t246 t247 t248
  let t250 ← ApiFloat.to_bits (t249).value
  check (decide (t250 = 18445759976442920959))

example : passes t_fuzz_fma_with_expected_outputs_5 = true := by decide +kernel

/-- tests/downstream.rs:376 `fuzz_fma_with_expected_outputs`. -/
def t_fuzz_fma_with_expected_outputs_6 : M Unit := do
  let t251 ← (ApiFloat.from_bits 1370853505341850899 : M Double)
  let t252 ← (ApiFloat.from_bits 11889520629818453509 : M Double)
  let t253 ← (ApiFloat.from_bits 18445197026474557439 : M Double)
  let t254 ← Api.mul_add t251 t252 t253
  let t255 ← ApiFloat.to_bits (t254).value
  check (decide (t255 = 18445197026474557439))
  let t256 ← (ApiFloat.from_bits 4613445237116961024 : M Double)
  let t257 ← (ApiFloat.from_bits 280650342989824 : M Double)
  let t258 ← (ApiFloat.from_bits 9223371952062727243 : M Double)
  let t259 ← Api.mul_add t256 t257 t258
  let t260 ← ApiFloat.to_bits (t259).value
  check (decide (t260 = 9223371952062727243))
  let t261 ← (ApiFloat.from_bits 4683743612482093056 : M Double)
  let t262 ← (ApiFloat.from_bits 281474975662080 : M Double)
  let t263 ← (ApiFloat.from_bits 18446741874686312703 : M Double)
  let t264 ← Api.mul_add t261 t262 t263
  let t265 ← ApiFloat.to_bits (t264).value
  check (decide (t265 = 18446741874686312703))
  let t266 ← (ApiFloat.from_bits 8825501086245322752 : M Double)
  let t267 ← (ApiFloat.from_bits 18409161093289769594 : M Double)
  let t268 ← (ApiFloat.from_bits 18445900129831419904 : M Double)
  let t269 ← Api.mul_add t266 t267 t268
  let t270 ← ApiFloat.to_bits (t269).value
  check (decide (t270 = 18445900129831419904))
  let t271 ← (ApiFloat.from_bits 9151314520134643728 : M Double)
  let t272 ← (ApiFloat.from_bits 9151314520135823376 : M Double)
  let t273 ← (ApiFloat.from_bits 18442240474082181120 : M Double)
  let t274 ← Api.mul_add t271 t272 t273
  let t275 ← ApiFloat.to_bits (t274).value
  check (decide (t275 = 18442240474082181120))
  let t276 ← (ApiFloat.from_bits 9151351826388353270 : M Double)
  let t277 ← (ApiFloat.from_bits 18374945959860765440 : M Double)
  let t278 ← (ApiFloat.from_bits 9218868437227405312 : M Double)
  let t279 ← Api.mul_add t276 t277 t278
  let t280 ← ApiFloat.to_bits (t279).value
  check (decide (t280 = 9218868437227405312))
  let t281 ← (ApiFloat.from_bits 9153073661438067987 : M Double)
  let t282 ← (ApiFloat.from_bits 18374704093257594879 : M Double)
  let t283 ← (ApiFloat.from_bits 18445057345648328703 : M Double)
  let t284 ← Api.mul_add t281 t282 t283
  let t285 ← ApiFloat.to_bits (t284).value
  check (decide (t285 = 18445057345648328703))
  let t286 ← (ApiFloat.from_bits 13527612059889435923 : M Double)
  let t287 ← (ApiFloat.from_bits 72264009020849083 : M Double)
  let t288 ← (ApiFloat.from_bits 18446743249075847168 : M Double)
  let t289 ← Api.mul_add t286 t287 t288
  let t290 ← ApiFloat.to_bits (t289).value
  check (decide (t290 = 18446743249075847168))
  let t291 ← (ApiFloat.from_bits 13546827679134646272 : M Double)
  let t292 ← (ApiFloat.from_bits 52917295621619712 : M Double)
  let t293 ← (ApiFloat.from_bits 18442240474096992256 : M Double)
  let t294 ← Api.mul_add t291 t292 t293
  let t295 ← ApiFloat.to_bits (t294).value
  check (decide (t295 = 18444492273910677504))
  let t296 ← (ApiFloat.from_bits 15996504401510400000 : M Double)
  let t297 ← (ApiFloat.from_bits 18374686479671623680 : M Double)
  let t298 ← (ApiFloat.from_bits 18446742974197923840 : M Double)
  let t299 ← Api.mul_add t296 t297 t298
  let t300 ← ApiFloat.to_bits (t299).value
  check (decide (t300 = 18446742974197923840))

example : passes t_fuzz_fma_with_expected_outputs_6 = true := by decide +kernel

/-- tests/downstream.rs:376 `fuzz_fma_with_expected_outputs`. -/
def t_fuzz_fma_with_expected_outputs_7 : M Unit := do
  let t301 ← (ApiFloat.from_bits 16212964272157492499 : M Double)
  let t302 ← (ApiFloat.from_bits 18158212453165842704 : M Double)
  let t303 ← (ApiFloat.from_bits 18446603194487279620 : M Double)
  let t304 ← Api.mul_add t301 t302 t303
  let t305 ← ApiFloat.to_bits (t304).value
  check (decide (t305 = 18446603194487279620))
  let t306 ← (ApiFloat.from_bits 17293822569111089168 : M Double)
  let t307 ← (ApiFloat.from_bits 9153004426550050816 : M Double)
  let t308 ← (ApiFloat.from_bits 9218868437227405312 : M Double)
  let t309 ← Api.mul_add t306 t307 t308
  let t310 ← ApiFloat.to_bits (t309).value
  check (decide (t310 = 9218868437227405312))
  let t311 ← (ApiFloat.from_bits 17654109461291040018 : M Double)
  let t312 ← (ApiFloat.from_bits 18235074895115649024 : M Double)
  let t313 ← (ApiFloat.from_bits 18442240474082181120 : M Double)
  let t314 ← Api.mul_add t311 t312 t313
  let t315 ← ApiFloat.to_bits (t314).value
  check (decide (t315 = 18442240474082181120))
  let t316 ← (ApiFloat.from_bits 18374687578921041921 : M Double)
  let t317 ← (ApiFloat.from_bits 18374687578923204608 : M Double)
  let t318 ← (ApiFloat.from_bits 18442240474082181120 : M Double)
  let t319 ← Api.mul_add t316 t317 t318
  let t320 ← ApiFloat.to_bits (t319).value
  check (decide (t320 = 18442240474082181120))

example : passes t_fuzz_fma_with_expected_outputs_7 = true := by decide +kernel

/-- tests/downstream.rs:406 `fuzz_x87_f80_neg_with_expected_outputs`. -/
def t_fuzz_x87_f80_neg_with_expected_outputs : M Unit := do
  let t1 ← (ApiFloat.from_bits 4740885567116175998976 : M X87DoubleExtended)
  let t2 ← ApiFloat.neg t1
  let t3 ← ApiFloat.to_bits t2
  check (decide (t3 = 1208907445210728286388224))
  let t4 ← (ApiFloat.from_bits 18410472288899039232 : M X87DoubleExtended)
  let t5 ← ApiFloat.neg t4
  let t6 ← ApiFloat.to_bits t5
  check (decide (t6 = 604499767023677195943936))
  let t7 ← (ApiFloat.from_bits 9223372036854775808 : M X87DoubleExtended)
  let t8 ← ApiFloat.neg t7
  let t9 ← ApiFloat.to_bits t8
  check (decide (t9 = 604490579923425151680512))

example : passes t_fuzz_x87_f80_neg_with_expected_outputs = true := by decide +kernel

end Apf.Conformance.Downstream
