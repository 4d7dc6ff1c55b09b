import Verif.Conformance.Support
/-! Generated by tools/tests_to_lean.py from tests/ppc.rs. -/

namespace Apf.Conformance.Ppc
set_option maxRecDepth 100000
set_option linter.all false

/-- tests/ppc.rs:7 `ppc_double_double`. -/
def t_ppc_double_double : M Unit := do
  let t1 ← (ApiFloat.ZERO : M DoubleDouble)
  let t2 ← (parse ("0x0p+0".toList) : M DoubleDouble)
  let t3 ← is_zero t1
  check t3
  let t4 ← ApiFloat.is_negative t1
  check (!t4)
  let t5 ← ApiFloat.bitwise_eq t1 t2
  check t5
  let t6 ← ApiFloat.to_bits t1
  check (decide (0 = t6))
  let t7 ← (ApiFloat.ZERO : M DoubleDouble)
  let t8 ← ApiFloat.neg t7
  let t9 ← (parse ("-0x0p+0".toList) : M DoubleDouble)
  let t10 ← is_zero t8
  check t10
  let t11 ← ApiFloat.is_negative t8
  check t11
  let t12 ← ApiFloat.bitwise_eq t8 t9
  check t12
  let t13 ← ApiFloat.to_bits t8
  check (decide (9223372036854775808 = t13))
  let t14 ← (parse ("1.0".toList) : M DoubleDouble)
  let t15 ← ApiFloat.to_bits t14
  check (decide (4607182418800017408 = t15))
  let t16 ← (parse ("1.79769313486231580793728971405301e+308".toList) : M DoubleDouble)
  let t17 ← ApiFloat.to_bits t16
  check (decide (165571962224958583390905847235978723327 = t17))
  let t18 ← (parse ("2.00416836000897277799610805135016e-292".toList) : M DoubleDouble)
  let t19 ← ApiFloat.to_bits t18
  check (decide (243194379878006784 = t19))

example : passes t_ppc_double_double = true := by decide +kernel

/-- tests/ppc.rs:39 `ppc_double_double_add_special`. -/
def t_ppc_double_double_add_special : M Unit := do
  let t1 ← (ApiFloat.from_bits 4607182418800017408 : M DoubleDouble)
  let t2 ← (ApiFloat.from_bits 13830554455654793216 : M DoubleDouble)
  let t3 ← ApiFloat.add_r t1 t2 Round.nearestTiesToEven
  let t4 ← ApiFloat.category (t3).value
  check (decide (Category.zero = t4))
  let t5 ← (ApiFloat.from_bits 4607182418800017408 : M DoubleDouble)
  let t6 ← (ApiFloat.from_bits 13830554455654793216 : M DoubleDouble)
  let t7 ← ApiFloat.add_r t6 t5 Round.nearestTiesToEven
  let t8 ← ApiFloat.category (t7).value
  check (decide (Category.zero = t8))
  let t9 ← (ApiFloat.from_bits 165571962224958583390905847235978723327 : M DoubleDouble)
  let t10 ← (ApiFloat.from_bits 8739235076912447488 : M DoubleDouble)
  let t11 ← ApiFloat.add_r t9 t10 Round.nearestTiesToEven
  let t12 ← ApiFloat.category (t11).value
  check (decide (Category.infinity = t12))
  let t13 ← (ApiFloat.from_bits 165571962224958583390905847235978723327 : M DoubleDouble)
  let t14 ← (ApiFloat.from_bits 8739235076912447488 : M DoubleDouble)
  let t15 ← ApiFloat.add_r t14 t13 Round.nearestTiesToEven
  let t16 ← ApiFloat.category (t15).value
  check (decide (Category.infinity = t16))
  let t17 ← (ApiFloat.from_bits 165571962224958583390905847235978723327 : M DoubleDouble)
  let t18 ← (ApiFloat.from_bits 156765826752883515732438492101306482687 : M DoubleDouble)
  let t19 ← ApiFloat.add_r t17 t18 Round.nearestTiesToEven
  let t20 ← ApiFloat.category (t19).value
  check (decide (Category.normal = t20))
  let t21 ← (ApiFloat.from_bits 165571962224958583390905847235978723327 : M DoubleDouble)
  let t22 ← (ApiFloat.from_bits 156765826752883515732438492101306482687 : M DoubleDouble)
  let t23 ← ApiFloat.add_r t22 t21 Round.nearestTiesToEven
  let t24 ← ApiFloat.category (t23).value
  check (decide (Category.normal = t24))
  let t25 ← (ApiFloat.from_bits 165571962224958583390905847235978723327 : M DoubleDouble)
  let t26 ← (ApiFloat.from_bits 165571962224958583390905847235978723327 : M DoubleDouble)
  let t27 ← ApiFloat.add_r t25 t26 Round.nearestTiesToEven
  let t28 ← ApiFloat.category (t27).value
  check (decide (Category.infinity = t28))
  let t29 ← (ApiFloat.from_bits 165571962224958583390905847235978723327 : M DoubleDouble)
  let t30 ← (ApiFloat.from_bits 165571962224958583390905847235978723327 : M DoubleDouble)
  let t31 ← ApiFloat.add_r t30 t29 Round.nearestTiesToEven
  let t32 ← ApiFloat.category (t31).value
  check (decide (Category.infinity = t32))
  let t33 ← (ApiFloat.from_bits 9221120237041090560 : M DoubleDouble)
  let t34 ← (ApiFloat.from_bits 4607182418800017408 : M DoubleDouble)
  let t35 ← ApiFloat.add_r t33 t34 Round.nearestTiesToEven
  let t36 ← ApiFloat.category (t35).value
  check (decide (Category.nan = t36))
  let t37 ← (ApiFloat.from_bits 9221120237041090560 : M DoubleDouble)
  let t38 ← (ApiFloat.from_bits 4607182418800017408 : M DoubleDouble)
  let t39 ← ApiFloat.add_r t38 t37 Round.nearestTiesToEven
  let t40 ← ApiFloat.category (t39).value
  check (decide (Category.nan = t40))

example : passes t_ppc_double_double_add_special = true := by decide +kernel

/-- tests/ppc.rs:85 `ppc_double_double_add`. -/
def t_ppc_double_double_add : M Unit := do
  let t1 ← (ApiFloat.from_bits 4607182418800017408 : M DoubleDouble)
  let t2 ← (ApiFloat.from_bits 4134304457926115328 : M DoubleDouble)
  let t3 ← ApiFloat.add_r t1 t2 Round.nearestTiesToEven
  let t4 ← ApiFloat.to_bits (t3).value
  check (decide (76264456258159548212463112502384787456 = t4))
  let t5 ← (ApiFloat.from_bits 4607182418800017408 : M DoubleDouble)
  let t6 ← (ApiFloat.from_bits 4134304457926115328 : M DoubleDouble)
  let t7 ← ApiFloat.add_r t6 t5 Round.nearestTiesToEven
  let t8 ← ApiFloat.to_bits (t7).value
  check (decide (76264456258159548212463112502384787456 = t8))
  let t9 ← (ApiFloat.from_bits 4607182418800017408 : M DoubleDouble)
  let t10 ← (ApiFloat.from_bits 4129800858298744832 : M DoubleDouble)
  let t11 ← ApiFloat.add_r t9 t10 Round.nearestTiesToEven
  let t12 ← ApiFloat.to_bits (t11).value
  check (decide (76181379508422990970406624561117265920 = t12))
  let t13 ← (ApiFloat.from_bits 4607182418800017408 : M DoubleDouble)
  let t14 ← (ApiFloat.from_bits 4129800858298744832 : M DoubleDouble)
  let t15 ← ApiFloat.add_r t14 t13 Round.nearestTiesToEven
  let t16 ← ApiFloat.to_bits (t15).value
  check (decide (76181379508422990970406624561117265920 = t16))
  let t17 ← (ApiFloat.from_bits 76181379508422990970406624561117265920 : M DoubleDouble)
  let t18 ← (ApiFloat.from_bits 4129800858298744832 : M DoubleDouble)
  let t19 ← ApiFloat.add_r t17 t18 Round.nearestTiesToEven
  let t20 ← ApiFloat.to_bits (t19).value
  check (decide (76264456258159548212463112502384787456 = t20))
  let t21 ← (ApiFloat.from_bits 76181379508422990970406624561117265920 : M DoubleDouble)
  let t22 ← (ApiFloat.from_bits 4129800858298744832 : M DoubleDouble)
  let t23 ← ApiFloat.add_r t22 t21 Round.nearestTiesToEven
  let t24 ← ApiFloat.to_bits (t23).value
  check (decide (76264456258159548212463112502384787456 = t24))
  let t25 ← (ApiFloat.from_bits 4607182418800017408 : M DoubleDouble)
  let t26 ← (ApiFloat.from_bits 1 : M DoubleDouble)
  let t27 ← ApiFloat.add_r t25 t26 Round.nearestTiesToEven
  let t28 ← ApiFloat.to_bits (t27).value
  check (decide (23053926492509569024 = t28))
  let t29 ← (ApiFloat.from_bits 4607182418800017408 : M DoubleDouble)
  let t30 ← (ApiFloat.from_bits 1 : M DoubleDouble)
  let t31 ← ApiFloat.add_r t30 t29 Round.nearestTiesToEven
  let t32 ← ApiFloat.to_bits (t31).value
  check (decide (23053926492509569024 = t32))
  let t33 ← (ApiFloat.from_bits 331393154699126838572549266153370812415 : M DoubleDouble)
  let t34 ← (ApiFloat.from_bits 8975674057349398528 : M DoubleDouble)
  let t35 ← ApiFloat.add_r t33 t34 Round.nearestTiesToEven
  let t36 ← ApiFloat.to_bits (t35).value
  check (decide (165571962224958583390905847235978723327 = t36))
  let t37 ← (ApiFloat.from_bits 331393154699126838572549266153370812415 : M DoubleDouble)
  let t38 ← (ApiFloat.from_bits 8975674057349398528 : M DoubleDouble)
  let t39 ← ApiFloat.add_r t38 t37 Round.nearestTiesToEven
  let t40 ← ApiFloat.to_bits (t39).value
  check (decide (165571962224958583390905847235978723327 = t40))
  let t41 ← (ApiFloat.from_bits 8975674057349398528 : M DoubleDouble)
  let t42 ← (ApiFloat.from_bits 331393154699126838572549266153370812415 : M DoubleDouble)
  let t43 ← ApiFloat.add_r t41 t42 Round.nearestTiesToEven
  let t44 ← ApiFloat.to_bits (t43).value
  check (decide (165571962224958583390905847235978723327 = t44))
  let t45 ← (ApiFloat.from_bits 8975674057349398528 : M DoubleDouble)
  let t46 ← (ApiFloat.from_bits 331393154699126838572549266153370812415 : M DoubleDouble)
  let t47 ← ApiFloat.add_r t46 t45 Round.nearestTiesToEven
  let t48 ← ApiFloat.to_bits (t47).value
  check (decide (165571962224958583390905847235978723327 = t48))

example : passes t_ppc_double_double_add = true := by decide +kernel

/-- tests/ppc.rs:141 `ppc_double_double_subtract`. -/
def t_ppc_double_double_subtract : M Unit := do
  let t1 ← (ApiFloat.from_bits 4607182418800017408 : M DoubleDouble)
  let t2 ← (ApiFloat.from_bits 13357676494780891136 : M DoubleDouble)
  let t3 ← ApiFloat.sub_r t1 t2 Round.nearestTiesToEven
  let t4 ← ApiFloat.to_bits (t3).value
  check (decide (76264456258159548212463112502384787456 = t4))
  let t5 ← (ApiFloat.from_bits 4607182418800017408 : M DoubleDouble)
  let t6 ← (ApiFloat.from_bits 13353172895153520640 : M DoubleDouble)
  let t7 ← ApiFloat.sub_r t5 t6 Round.nearestTiesToEven
  let t8 ← ApiFloat.to_bits (t7).value
  check (decide (76181379508422990970406624561117265920 = t8))

example : passes t_ppc_double_double_subtract = true := by decide +kernel

/-- tests/ppc.rs:159 `ppc_double_double_multiply_special`. -/
def t_ppc_double_double_multiply_special_1 : M Unit := do
  let t1 ← (ApiFloat.from_bits 9221120237041090560 : M DoubleDouble)
  let t2 ← (ApiFloat.from_bits 9221120237041090560 : M DoubleDouble)
  let t3 ← ApiFloat.mul_r t1 t2 Round.nearestTiesToEven
  let t4 ← ApiFloat.category (t3).value
  check (decide (Category.nan = t4))
  let t5 ← (ApiFloat.from_bits 9221120237041090560 : M DoubleDouble)
  let t6 ← (ApiFloat.from_bits 9221120237041090560 : M DoubleDouble)
  let t7 ← ApiFloat.mul_r t6 t5 Round.nearestTiesToEven
  let t8 ← ApiFloat.category (t7).value
  check (decide (Category.nan = t8))
  let t9 ← (ApiFloat.from_bits 9221120237041090560 : M DoubleDouble)
  let t10 ← (ApiFloat.from_bits 0 : M DoubleDouble)
  let t11 ← ApiFloat.mul_r t9 t10 Round.nearestTiesToEven
  let t12 ← ApiFloat.category (t11).value
  check (decide (Category.nan = t12))
  let t13 ← (ApiFloat.from_bits 9221120237041090560 : M DoubleDouble)
  let t14 ← (ApiFloat.from_bits 0 : M DoubleDouble)
  let t15 ← ApiFloat.mul_r t14 t13 Round.nearestTiesToEven
  let t16 ← ApiFloat.category (t15).value
  check (decide (Category.nan = t16))
  let t17 ← (ApiFloat.from_bits 9221120237041090560 : M DoubleDouble)
  let t18 ← (ApiFloat.from_bits 9218868437227405312 : M DoubleDouble)
  let t19 ← ApiFloat.mul_r t17 t18 Round.nearestTiesToEven
  let t20 ← ApiFloat.category (t19).value
  check (decide (Category.nan = t20))
  let t21 ← (ApiFloat.from_bits 9221120237041090560 : M DoubleDouble)
  let t22 ← (ApiFloat.from_bits 9218868437227405312 : M DoubleDouble)
  let t23 ← ApiFloat.mul_r t22 t21 Round.nearestTiesToEven
  let t24 ← ApiFloat.category (t23).value
  check (decide (Category.nan = t24))
  let t25 ← (ApiFloat.from_bits 9221120237041090560 : M DoubleDouble)
  let t26 ← (ApiFloat.from_bits 4607182418800017408 : M DoubleDouble)
  let t27 ← ApiFloat.mul_r t25 t26 Round.nearestTiesToEven
  let t28 ← ApiFloat.category (t27).value
  check (decide (Category.nan = t28))
  let t29 ← (ApiFloat.from_bits 9221120237041090560 : M DoubleDouble)
  let t30 ← (ApiFloat.from_bits 4607182418800017408 : M DoubleDouble)
  let t31 ← ApiFloat.mul_r t30 t29 Round.nearestTiesToEven
  let t32 ← ApiFloat.category (t31).value
  check (decide (Category.nan = t32))
  let t33 ← (ApiFloat.from_bits 9218868437227405312 : M DoubleDouble)
  let t34 ← (ApiFloat.from_bits 9218868437227405312 : M DoubleDouble)
  let t35 ← ApiFloat.mul_r t33 t34 Round.nearestTiesToEven
  let t36 ← ApiFloat.category (t35).value
  check (decide (Category.infinity = t36))
  let t37 ← (ApiFloat.from_bits 9218868437227405312 : M DoubleDouble)
  let t38 ← (ApiFloat.from_bits 9218868437227405312 : M DoubleDouble)
  let t39 ← ApiFloat.mul_r t38 t37 Round.nearestTiesToEven
  let t40 ← ApiFloat.category (t39).value
  check (decide (Category.infinity = t40))
  let t41 ← (ApiFloat.from_bits 9218868437227405312 : M DoubleDouble)
  let t42 ← (ApiFloat.from_bits 0 : M DoubleDouble)
  let t43 ← ApiFloat.mul_r t41 t42 Round.nearestTiesToEven
  let t44 ← ApiFloat.category (t43).value
  check (decide (Category.nan = t44))
  let t45 ← (ApiFloat.from_bits 9218868437227405312 : M DoubleDouble)
  let t46 ← (ApiFloat.from_bits 0 : M DoubleDouble)
  let t47 ← ApiFloat.mul_r t46 t45 Round.nearestTiesToEven
  let t48 ← ApiFloat.category (t47).value
  check (decide (Category.nan = t48))

example : passes t_ppc_double_double_multiply_special_1 = true := by decide +kernel

/-- tests/ppc.rs:159 `ppc_double_double_multiply_special`. -/
def t_ppc_double_double_multiply_special_2 : M Unit := do
  let t49 ← (ApiFloat.from_bits 9218868437227405312 : M DoubleDouble)
  let t50 ← (ApiFloat.from_bits 4607182418800017408 : M DoubleDouble)
  let t51 ← ApiFloat.mul_r t49 t50 Round.nearestTiesToEven
  let t52 ← ApiFloat.category (t51).value
  check (decide (Category.infinity = t52))
  let t53 ← (ApiFloat.from_bits 9218868437227405312 : M DoubleDouble)
  let t54 ← (ApiFloat.from_bits 4607182418800017408 : M DoubleDouble)
  let t55 ← ApiFloat.mul_r t54 t53 Round.nearestTiesToEven
  let t56 ← ApiFloat.category (t55).value
  check (decide (Category.infinity = t56))
  let t57 ← (ApiFloat.from_bits 0 : M DoubleDouble)
  let t58 ← (ApiFloat.from_bits 0 : M DoubleDouble)
  let t59 ← ApiFloat.mul_r t57 t58 Round.nearestTiesToEven
  let t60 ← ApiFloat.category (t59).value
  check (decide (Category.zero = t60))
  let t61 ← (ApiFloat.from_bits 0 : M DoubleDouble)
  let t62 ← (ApiFloat.from_bits 0 : M DoubleDouble)
  let t63 ← ApiFloat.mul_r t62 t61 Round.nearestTiesToEven
  let t64 ← ApiFloat.category (t63).value
  check (decide (Category.zero = t64))
  let t65 ← (ApiFloat.from_bits 0 : M DoubleDouble)
  let t66 ← (ApiFloat.from_bits 4607182418800017408 : M DoubleDouble)
  let t67 ← ApiFloat.mul_r t65 t66 Round.nearestTiesToEven
  let t68 ← ApiFloat.category (t67).value
  check (decide (Category.zero = t68))
  let t69 ← (ApiFloat.from_bits 0 : M DoubleDouble)
  let t70 ← (ApiFloat.from_bits 4607182418800017408 : M DoubleDouble)
  let t71 ← ApiFloat.mul_r t70 t69 Round.nearestTiesToEven
  let t72 ← ApiFloat.category (t71).value
  check (decide (Category.zero = t72))

example : passes t_ppc_double_double_multiply_special_2 = true := by decide +kernel

/-- tests/ppc.rs:200 `ppc_double_double_multiply`. -/
def t_ppc_double_double_multiply_1 : M Unit := do
  let t1 ← (ApiFloat.from_bits 80362909245163038832873507654676600149 : M DoubleDouble)
  let t2 ← (ApiFloat.from_bits 4613937818241073152 : M DoubleDouble)
  let t3 ← ApiFloat.mul_r t1 t2 Round.nearestTiesToEven
  let t4 ← ApiFloat.to_bits (t3).value
  check (decide (4607182418800017408 = t4))
  let t5 ← (ApiFloat.from_bits 80362909245163038832873507654676600149 : M DoubleDouble)
  let t6 ← (ApiFloat.from_bits 4613937818241073152 : M DoubleDouble)
  let t7 ← ApiFloat.mul_r t6 t5 Round.nearestTiesToEven
  let t8 ← ApiFloat.to_bits (t7).value
  check (decide (4607182418800017408 = t8))
  let t9 ← (ApiFloat.from_bits 23053926492509569024 : M DoubleDouble)
  let t10 ← (ApiFloat.from_bits 4607182418800017408 : M DoubleDouble)
  let t11 ← ApiFloat.mul_r t9 t10 Round.nearestTiesToEven
  let t12 ← ApiFloat.to_bits (t11).value
  check (decide (23053926492509569024 = t12))
  let t13 ← (ApiFloat.from_bits 23053926492509569024 : M DoubleDouble)
  let t14 ← (ApiFloat.from_bits 4607182418800017408 : M DoubleDouble)
  let t15 ← ApiFloat.mul_r t14 t13 Round.nearestTiesToEven
  let t16 ← ApiFloat.to_bits (t15).value
  check (decide (23053926492509569024 = t16))
  let t17 ← (ApiFloat.from_bits 23053926492509569024 : M DoubleDouble)
  let t18 ← (ApiFloat.from_bits 23053926492509569024 : M DoubleDouble)
  let t19 ← ApiFloat.mul_r t17 t18 Round.nearestTiesToEven
  let t20 ← ApiFloat.to_bits (t19).value
  check (decide (41500670566219120640 = t20))
  let t21 ← (ApiFloat.from_bits 23053926492509569024 : M DoubleDouble)
  let t22 ← (ApiFloat.from_bits 23053926492509569024 : M DoubleDouble)
  let t23 ← ApiFloat.mul_r t22 t21 Round.nearestTiesToEven
  let t24 ← ApiFloat.to_bits (t23).value
  check (decide (41500670566219120640 = t24))
  let t25 ← (ApiFloat.from_bits 32277298529364344832 : M DoubleDouble)
  let t26 ← (ApiFloat.from_bits 23053926492509569024 : M DoubleDouble)
  let t27 ← ApiFloat.mul_r t25 t26 Round.nearestTiesToEven
  let t28 ← ApiFloat.to_bits (t27).value
  check (decide (13830554455654793216 = t28))
  let t29 ← (ApiFloat.from_bits 32277298529364344832 : M DoubleDouble)
  let t30 ← (ApiFloat.from_bits 23053926492509569024 : M DoubleDouble)
  let t31 ← ApiFloat.mul_r t30 t29 Round.nearestTiesToEven
  let t32 ← ApiFloat.to_bits (t31).value
  check (decide (13830554455654793216 = t32))
  let t33 ← (ApiFloat.from_bits 4602678819172646912 : M DoubleDouble)
  let t34 ← (ApiFloat.from_bits 41500670566219120640 : M DoubleDouble)
  let t35 ← ApiFloat.mul_r t33 t34 Round.nearestTiesToEven
  let t36 ← ApiFloat.to_bits (t35).value
  check (decide (23049422892882198528 = t36))
  let t37 ← (ApiFloat.from_bits 4602678819172646912 : M DoubleDouble)
  let t38 ← (ApiFloat.from_bits 41500670566219120640 : M DoubleDouble)
  let t39 ← ApiFloat.mul_r t38 t37 Round.nearestTiesToEven
  let t40 ← ApiFloat.to_bits (t39).value
  check (decide (23049422892882198528 = t40))
  let t41 ← (ApiFloat.from_bits 4602678819172646912 : M DoubleDouble)
  let t42 ← (ApiFloat.from_bits 23053926492509569024 : M DoubleDouble)
  let t43 ← ApiFloat.mul_r t41 t42 Round.nearestTiesToEven
  let t44 ← ApiFloat.to_bits (t43).value
  check (decide (4602678819172646912 = t44))
  let t45 ← (ApiFloat.from_bits 4602678819172646912 : M DoubleDouble)
  let t46 ← (ApiFloat.from_bits 23053926492509569024 : M DoubleDouble)
  let t47 ← ApiFloat.mul_r t46 t45 Round.nearestTiesToEven
  let t48 ← ApiFloat.to_bits (t47).value
  check (decide (4602678819172646912 = t48))

example : passes t_ppc_double_double_multiply_1 = true := by decide +kernel

/-- tests/ppc.rs:200 `ppc_double_double_multiply`. -/
def t_ppc_double_double_multiply_2 : M Unit := do
  let t49 ← (ApiFloat.from_bits 165571962224958583390905847235978723327 : M DoubleDouble)
  let t50 ← (ApiFloat.from_bits 76181379508422990970406624561117265920 : M DoubleDouble)
  let t51 ← ApiFloat.mul_r t49 t50 Round.nearestTiesToEven
  let t52 ← ApiFloat.to_bits (t51).value
  check (decide (9218868437227405312 = t52))
  let t53 ← (ApiFloat.from_bits 165571962224958583390905847235978723327 : M DoubleDouble)
  let t54 ← (ApiFloat.from_bits 76181379508422990970406624561117265920 : M DoubleDouble)
  let t55 ← ApiFloat.mul_r t54 t53 Round.nearestTiesToEven
  let t56 ← ApiFloat.to_bits (t55).value
  check (decide (9218868437227405312 = t56))
  let t57 ← (ApiFloat.from_bits 165571962224958583390905847235978723327 : M DoubleDouble)
  let t58 ← (ApiFloat.from_bits 76098302758686433728350136619849744384 : M DoubleDouble)
  let t59 ← ApiFloat.mul_r t57 t58 Round.nearestTiesToEven
  let t60 ← ApiFloat.to_bits (t59).value
  check (decide (165571962224958583409352591309688274943 = t60))
  let t61 ← (ApiFloat.from_bits 165571962224958583390905847235978723327 : M DoubleDouble)
  let t62 ← (ApiFloat.from_bits 76098302758686433728350136619849744384 : M DoubleDouble)
  let t63 ← ApiFloat.mul_r t62 t61 Round.nearestTiesToEven
  let t64 ← ApiFloat.to_bits (t63).value
  check (decide (165571962224958583409352591309688274943 = t64))
  let t65 ← (ApiFloat.from_bits 165571962224958583390905847235978723327 : M DoubleDouble)
  let t66 ← (ApiFloat.from_bits 76015226008949876486293648678582222848 : M DoubleDouble)
  let t67 ← ApiFloat.mul_r t65 t66 Round.nearestTiesToEven
  let t68 ← ApiFloat.to_bits (t67).value
  check (decide (165571962224958583390905847235978723327 = t68))
  let t69 ← (ApiFloat.from_bits 165571962224958583390905847235978723327 : M DoubleDouble)
  let t70 ← (ApiFloat.from_bits 76015226008949876486293648678582222848 : M DoubleDouble)
  let t71 ← ApiFloat.mul_r t70 t69 Round.nearestTiesToEven
  let t72 ← ApiFloat.to_bits (t71).value
  check (decide (165571962224958583390905847235978723327 = t72))

example : passes t_ppc_double_double_multiply_2 = true := by decide +kernel

/-- tests/ppc.rs:276 `ppc_double_double_divide`. -/
def t_ppc_double_double_divide : M Unit := do
  let t1 ← (ApiFloat.from_bits 4607182418800017408 : M DoubleDouble)
  let t2 ← (ApiFloat.from_bits 4613937818241073152 : M DoubleDouble)
  let t3 ← ApiFloat.div_r t1 t2 Round.nearestTiesToEven
  let t4 ← ApiFloat.to_bits (t3).value
  check (decide (80362909245163038832873507654676600149 = t4))

example : passes t_ppc_double_double_divide = true := by decide +kernel

/-- tests/ppc.rs:294 `ppc_double_double_remainder`. -/
def t_ppc_double_double_remainder : M Unit := do
  let t1 ← (ApiFloat.from_bits 80709062369065360662491972759638245376 : M DoubleDouble)
  let t2 ← (ApiFloat.from_bits 80605216431894664109915733333519630336 : M DoubleDouble)
  let t3 ← ApiFloat.ieee_rem t1 t2
  let t4 ← ApiFloat.to_bits (t3).value
  check (decide (80501370494723967557339493907401015296 = t4))
  let t5 ← (ApiFloat.from_bits 80709062369065360662491972759638245376 : M DoubleDouble)
  let t6 ← (ApiFloat.from_bits 80646754806762942730946229103967076352 : M DoubleDouble)
  let t7 ← ApiFloat.ieee_rem t5 t6
  let t8 ← ApiFloat.to_bits (t7).value
  check (decide (250642553955193199298250169660139896832 = t8))

example : passes t_ppc_double_double_remainder = true := by decide +kernel

/-- tests/ppc.rs:312 `ppc_double_double_mod`. -/
def t_ppc_double_double_mod : M Unit := do
  let t1 ← (ApiFloat.from_bits 80709062369065360662491972759638245376 : M DoubleDouble)
  let t2 ← (ApiFloat.from_bits 80605216431894664109915733333519630336 : M DoubleDouble)
  let t3 ← Api.rem t1 t2
  let t4 ← ApiFloat.to_bits (t3).value
  check (decide (80501370494723967557339493907401015296 = t4))
  let t5 ← (ApiFloat.from_bits 80709062369065360662491972759638245376 : M DoubleDouble)
  let t6 ← (ApiFloat.from_bits 80646754806762942730946229103967076352 : M DoubleDouble)
  let t7 ← Api.rem t5 t6
  let t8 ← ApiFloat.to_bits (t7).value
  check (decide (250684092330061477910060671093453094913 = t8))

example : passes t_ppc_double_double_mod = true := by decide +kernel

/-- tests/ppc.rs:332 `ppc_double_double_fma`. -/
def t_ppc_double_double_fma : M Unit := do
  let t1 ← (parse ("2".toList) : M DoubleDouble)
  let t2 ← (parse ("3".toList) : M DoubleDouble)
  let t3 ← (parse ("4".toList) : M DoubleDouble)
  let t4 ← Api.mul_add t1 t2 t3
  let t5 ← (parse ("10".toList) : M DoubleDouble)
  let t6 ← ApiFloat.partial_cmp t5 (t4).value
  check (decide ((some Ordering.eq) = t6))

example : passes t_ppc_double_double_fma = true := by decide +kernel

/-- tests/ppc.rs:342 `ppc_double_double_round_to_integral`. -/
def t_ppc_double_double_round_to_integral : M Unit := do
  let t1 ← (parse ("1.5".toList) : M DoubleDouble)
  let t2 ← ApiFloat.round_to_integral t1 Round.nearestTiesToEven
  let t3 ← (parse ("2".toList) : M DoubleDouble)
  let t4 ← ApiFloat.partial_cmp t3 (t2).value
  check (decide ((some Ordering.eq) = t4))
  let t5 ← (parse ("2.5".toList) : M DoubleDouble)
  let t6 ← ApiFloat.round_to_integral t5 Round.nearestTiesToEven
  let t7 ← (parse ("2".toList) : M DoubleDouble)
  let t8 ← ApiFloat.partial_cmp t7 (t6).value
  check (decide ((some Ordering.eq) = t8))

example : passes t_ppc_double_double_round_to_integral = true := by decide +kernel

/-- tests/ppc.rs:356 `ppc_double_double_compare`. -/
def t_ppc_double_double_compare : M Unit := do
  let t1 ← (ApiFloat.from_bits 4607182418800017408 : M DoubleDouble)
  let t2 ← (ApiFloat.from_bits 4607182418800017408 : M DoubleDouble)
  let t3 ← ApiFloat.partial_cmp t1 t2
  check (decide ((some Ordering.eq) = t3))
  let t4 ← (ApiFloat.from_bits 4607182418800017408 : M DoubleDouble)
  let t5 ← (ApiFloat.from_bits 4607182418800017409 : M DoubleDouble)
  let t6 ← ApiFloat.partial_cmp t4 t5
  check (decide ((some Ordering.lt) = t6))
  let t7 ← (ApiFloat.from_bits 4607182418800017409 : M DoubleDouble)
  let t8 ← (ApiFloat.from_bits 4607182418800017408 : M DoubleDouble)
  let t9 ← ApiFloat.partial_cmp t7 t8
  check (decide ((some Ordering.gt) = t9))
  let t10 ← (ApiFloat.from_bits 4607182418800017408 : M DoubleDouble)
  let t11 ← (ApiFloat.from_bits 23053926492509569025 : M DoubleDouble)
  let t12 ← ApiFloat.partial_cmp t10 t11
  check (decide ((some Ordering.lt) = t12))
  let t13 ← (ApiFloat.from_bits 9221120237041090560 : M DoubleDouble)
  let t14 ← (ApiFloat.from_bits 9221120237041090560 : M DoubleDouble)
  let t15 ← ApiFloat.partial_cmp t13 t14
  check (decide ((none : Option Ordering) = t15))
  let t16 ← (ApiFloat.from_bits 4607182418800017408 : M DoubleDouble)
  let t17 ← (ApiFloat.from_bits 9221120237041090560 : M DoubleDouble)
  let t18 ← ApiFloat.partial_cmp t16 t17
  check (decide ((none : Option Ordering) = t18))
  let t19 ← (ApiFloat.from_bits 9218868437227405312 : M DoubleDouble)
  let t20 ← (ApiFloat.from_bits 9218868437227405312 : M DoubleDouble)
  let t21 ← ApiFloat.partial_cmp t19 t20
  check (decide ((some Ordering.eq) = t21))

example : passes t_ppc_double_double_compare = true := by decide +kernel

/-- tests/ppc.rs:382 `ppc_double_double_bitwise_eq`. -/
def t_ppc_double_double_bitwise_eq : M Unit := do
  let t1 ← (ApiFloat.from_bits 4607182418800017408 : M DoubleDouble)
  let t2 ← (ApiFloat.from_bits 4607182418800017408 : M DoubleDouble)
  let t3 ← ApiFloat.bitwise_eq t1 t2
  check (decide (true = t3))
  let t4 ← (ApiFloat.from_bits 4607182418800017408 : M DoubleDouble)
  let t5 ← (ApiFloat.from_bits 4607182418800017409 : M DoubleDouble)
  let t6 ← ApiFloat.bitwise_eq t4 t5
  check (decide (false = t6))
  let t7 ← (ApiFloat.from_bits 9221120237041090560 : M DoubleDouble)
  let t8 ← (ApiFloat.from_bits 9221120237041090560 : M DoubleDouble)
  let t9 ← ApiFloat.bitwise_eq t7 t8
  check (decide (true = t9))
  let t10 ← (ApiFloat.from_bits 9221120237041090560 : M DoubleDouble)
  let t11 ← (ApiFloat.from_bits 84987514980498058633008284153715621888 : M DoubleDouble)
  let t12 ← ApiFloat.bitwise_eq t10 t11
  check (decide (false = t12))
  let t13 ← (ApiFloat.from_bits 9218868437227405312 : M DoubleDouble)
  let t14 ← (ApiFloat.from_bits 9218868437227405312 : M DoubleDouble)
  let t15 ← ApiFloat.bitwise_eq t13 t14
  check (decide (true = t15))

example : passes t_ppc_double_double_bitwise_eq = true := by decide +kernel

/-- tests/ppc.rs:404 `ppc_double_double_change_sign`. -/
def t_ppc_double_double_change_sign : M Unit := do
  let t1 ← (ApiFloat.from_bits 250808707454666313773153002829725564928 : M DoubleDouble)
  let t2 ← (parse ("1".toList) : M DoubleDouble)
  let t3 ← ApiFloat.copy_sign t1 t2
  let t4 ← ApiFloat.to_bits t3
  check (decide (250808707454666313773153002829725564928 = t4))
  let t5 ← (parse ("-1".toList) : M DoubleDouble)
  let t6 ← ApiFloat.copy_sign t1 t5
  let t7 ← ApiFloat.to_bits t6
  check (decide (80667523994197082050689071150696235008 = t7))

example : passes t_ppc_double_double_change_sign = true := by decide +kernel

/-- tests/ppc.rs:417 `ppc_double_double_factories`. -/
def t_ppc_double_double_factories : M Unit := do
  let t1 ← (ApiFloat.ZERO : M DoubleDouble)
  let t2 ← ApiFloat.to_bits t1
  check (decide (0 = t2))
  let t3 ← (ApiFloat.largest : M DoubleDouble)
  let t4 ← ApiFloat.to_bits t3
  check (decide (165571962224958583390905847235978723327 = t4))
  let t5 ← (ApiFloat.SMALLEST : M DoubleDouble)
  let t6 ← ApiFloat.to_bits t5
  check (decide (1 = t6))
  let t7 ← (ApiFloat.smallest_normalized : M DoubleDouble)
  let t8 ← ApiFloat.to_bits t7
  check (decide (243194379878006784 = t8))
  let t9 ← (ApiFloat.ZERO : M DoubleDouble)
  let t10 ← ApiFloat.neg t9
  let t11 ← ApiFloat.to_bits t10
  check (decide (9223372036854775808 = t11))
  let t12 ← (ApiFloat.largest : M DoubleDouble)
  let t13 ← ApiFloat.neg t12
  let t14 ← ApiFloat.to_bits t13
  check (decide (335713145685427815131816522988717604863 = t14))
  let t15 ← (ApiFloat.SMALLEST : M DoubleDouble)
  let t16 ← ApiFloat.neg t15
  let t17 ← ApiFloat.to_bits t16
  check (decide (9223372036854775809 = t17))
  let t18 ← (ApiFloat.smallest_normalized : M DoubleDouble)
  let t19 ← ApiFloat.neg t18
  let t20 ← ApiFloat.to_bits t19
  check (decide (9466566416732782592 = t20))
  let t21 ← (ApiFloat.SMALLEST : M DoubleDouble)
  let t22 ← ApiFloat.is_smallest t21
  check t22
  let t23 ← (ApiFloat.largest : M DoubleDouble)
  let t24 ← ApiFloat.is_largest t23
  check t24

example : passes t_ppc_double_double_factories = true := by decide +kernel

/-- tests/ppc.rs:431 `ppc_double_double_is_denormal`. -/
def t_ppc_double_double_is_denormal : M Unit := do
  let t1 ← (ApiFloat.SMALLEST : M DoubleDouble)
  let t2 ← ApiFloat.is_denormal t1
  check t2
  let t3 ← (ApiFloat.largest : M DoubleDouble)
  let t4 ← ApiFloat.is_denormal t3
  check (!t4)
  let t5 ← (ApiFloat.smallest_normalized : M DoubleDouble)
  let t6 ← ApiFloat.is_denormal t5
  check (!t6)
  let t7 ← (ApiFloat.from_bits 85112130105102894491488085446630572032 : M DoubleDouble)
  let t8 ← ApiFloat.is_denormal t7
  check t8

example : passes t_ppc_double_double_is_denormal = true := by decide +kernel

/-- tests/ppc.rs:443 `ppc_double_double_exact_inverse`. -/
def t_ppc_double_double_exact_inverse : M Unit := do
  let t1 ← (parse ("2.0".toList) : M DoubleDouble)
  let t2 ← ApiFloat.get_exact_inverse t1
  let t3 ← unwrap t2
  let t4 ← (parse ("0.5".toList) : M DoubleDouble)
  let t5 ← ApiFloat.bitwise_eq t3 t4
  check t5

example : passes t_ppc_double_double_exact_inverse = true := by decide +kernel

/-- tests/ppc.rs:453 `ppc_double_double_scalbn`. -/
def t_ppc_double_double_scalbn : M Unit := do
  let t1 ← (ApiFloat.from_bits 80709062369065360662491972759638245376 : M DoubleDouble)
  let t2 ← Api.scalbn t1 1
  let t3 ← ApiFloat.to_bits t2
  check (decide (80792139118801917904552964300533137408 = t3))

example : passes t_ppc_double_double_scalbn = true := by decide +kernel

/-- tests/ppc.rs:462 `ppc_double_double_frexp`. -/
def t_ppc_double_double_frexp : M Unit := do
  let t1 ← (ApiFloat.from_bits 80709062369065360662491972759638245376 : M DoubleDouble)
  let t2 ← Api.frexp t1
  check (decide (2 = (t2).2))
  let t3 ← ApiFloat.to_bits (t2).1
  check (decide (80542908869592246178369989677848461312 = t3))

example : passes t_ppc_double_double_frexp = true := by decide +kernel

end Apf.Conformance.Ppc
