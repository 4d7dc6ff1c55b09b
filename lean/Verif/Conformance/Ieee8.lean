import Verif.Conformance.Support
/-! Generated by tools/tests_to_lean.py from tests/ieee.rs. -/

namespace Apf.Conformance.Ieee8
set_option maxRecDepth 100000
set_option linter.all false

/-- tests/ieee.rs:4601 `double_to_f64`. -/
def t_double_to_f64_1 : M Unit := do
  let t1 ← (f64_lit 0x0 : M Double)
  let t2 ← from_f64 t1
  let t3 ← to_f64 t2
  let t4 ← from_f64 t3
  let t5 ← is_pos_zero t4
  check t5
  let t6 ← (f64_lit 0x8000000000000000 : M Double)
  let t7 ← from_f64 t6
  let t8 ← to_f64 t7
  let t9 ← from_f64 t8
  let t10 ← is_neg_zero t9
  check t10
  let t11 ← (f64_lit 0x3ff0000000000000 : M Double)
  let t12 ← from_f64 t11
  let t13 ← to_f64 t12
  let t14 ← IeeeFloat.eq t11 t13
  check t14
  let t15 ← (ApiFloat.largest : M Double)
  let t16 ← to_f64 t15
  let t17 ← (f64_lit 0x7fefffffffffffff : M Double)
  let t18 ← IeeeFloat.eq t17 t16
  check t18
  let t19 ← (ApiFloat.largest : M Double)
  let t20 ← ApiFloat.neg t19
  let t21 ← to_f64 t20
  let t22 ← (f64_lit 0xffefffffffffffff : M Double)
  let t23 ← IeeeFloat.eq t22 t21
  check t23
  let t24 ← (ApiFloat.smallest_normalized : M Double)
  let t25 ← to_f64 t24
  let t26 ← (f64_lit 0x10000000000000 : M Double)
  let t27 ← IeeeFloat.eq t26 t25
  check t27
  let t28 ← (ApiFloat.smallest_normalized : M Double)
  let t29 ← ApiFloat.neg t28
  let t30 ← to_f64 t29
  let t31 ← (f64_lit 0x8010000000000000 : M Double)
  let t32 ← IeeeFloat.eq t31 t30
  check t32
  let t33 ← (ApiFloat.SMALLEST : M Double)
  let t34 ← to_f64 t33
  let t35 ← (f64_lit 0x1 : M Double)
  let t36 ← IeeeFloat.eq t35 t34
  check t36
  let t37 ← (parse ("0x0.FFFFFFFFFFFFFp-1022".toList) : M Double)
  let t38 ← to_f64 t37
  let t39 ← (f64_lit 0xfffffffffffff : M Double)
  let t40 ← IeeeFloat.eq t39 t38
  check t40
  let t41 ← (ApiFloat.INFINITY : M Double)
  let t42 ← to_f64 t41
  let t43 ← (f64_lit 0x7ff0000000000000 : M Double)
  let t44 ← IeeeFloat.eq t43 t42
  check t44
  let t45 ← (ApiFloat.INFINITY : M Double)
  let t46 ← ApiFloat.neg t45
  let t47 ← to_f64 t46
  let t48 ← (f64_lit 0xfff0000000000000 : M Double)
  let t49 ← IeeeFloat.eq t48 t47
  check t49

example : passes t_double_to_f64_1 = true := by decide +kernel

/-- tests/ieee.rs:4601 `double_to_f64`. -/
def t_double_to_f64_2 : M Unit := do
  let t50 ← (ApiFloat.qnan none : M Double)
  let t51 ← to_f64 t50
  let t52 ← is_nan t51
  check t52

example : passes t_double_to_f64_2 = true := by decide +kernel

/-- tests/ieee.rs:4632 `single_to_f64`. -/
def t_single_to_f64_1 : M Unit := do
  let t1 ← (f32_lit 0x0 : M Single)
  let t2 ← from_f32 t1
  let t3 ← to_f64 t2
  let t4 ← from_f64 t3
  let t5 ← is_pos_zero t4
  check t5
  let t6 ← (f32_lit 0x80000000 : M Single)
  let t7 ← from_f32 t6
  let t8 ← to_f64 t7
  let t9 ← from_f64 t8
  let t10 ← is_neg_zero t9
  check t10
  let t11 ← (f32_lit 0x3f800000 : M Single)
  let t12 ← from_f32 t11
  let t13 ← to_f64 t12
  let t14 ← (f64_lit 0x3ff0000000000000 : M Double)
  let t15 ← IeeeFloat.eq t14 t13
  check t15
  let t16 ← (ApiFloat.largest : M Single)
  let t17 ← to_f64 t16
  let t18 ← (f64_lit 0x47efffffe0000000 : M Double)
  let t19 ← IeeeFloat.eq t18 t17
  check t19
  let t20 ← (ApiFloat.largest : M Single)
  let t21 ← ApiFloat.neg t20
  let t22 ← to_f64 t21
  let t23 ← (f64_lit 0xc7efffffe0000000 : M Double)
  let t24 ← IeeeFloat.eq t23 t22
  check t24
  let t25 ← (ApiFloat.smallest_normalized : M Single)
  let t26 ← to_f64 t25
  let t27 ← (f64_lit 0x3810000000000000 : M Double)
  let t28 ← IeeeFloat.eq t27 t26
  check t28
  let t29 ← (ApiFloat.smallest_normalized : M Single)
  let t30 ← ApiFloat.neg t29
  let t31 ← to_f64 t30
  let t32 ← (f64_lit 0xb810000000000000 : M Double)
  let t33 ← IeeeFloat.eq t32 t31
  check t33
  let t34 ← (ApiFloat.SMALLEST : M Single)
  let t35 ← to_f64 t34
  let t36 ← (f64_lit 0x36a0000000000000 : M Double)
  let t37 ← IeeeFloat.eq t36 t35
  check t37
  let t38 ← (parse ("0x0.FFFFFEp-126".toList) : M Double)
  let t39 ← to_f64 t38
  let t40 ← (f64_lit 0x380fffffc0000000 : M Double)
  let t41 ← IeeeFloat.eq t40 t39
  check t41
  let t42 ← (ApiFloat.INFINITY : M Single)
  let t43 ← to_f64 t42
  let t44 ← (f64_lit 0x7ff0000000000000 : M Double)
  let t45 ← IeeeFloat.eq t44 t43
  check t45
  let t46 ← (ApiFloat.INFINITY : M Single)
  let t47 ← ApiFloat.neg t46
  let t48 ← to_f64 t47
  let t49 ← (f64_lit 0xfff0000000000000 : M Double)
  let t50 ← IeeeFloat.eq t49 t48
  check t50

example : passes t_single_to_f64_1 = true := by decide +kernel

/-- tests/ieee.rs:4632 `single_to_f64`. -/
def t_single_to_f64_2 : M Unit := do
  let t51 ← (ApiFloat.qnan none : M Single)
  let t52 ← to_f64 t51
  let t53 ← is_nan t52
  check t53
  let t54 ← (ApiFloat.ZERO : M Half)
  let t55 ← to_f64 t54
  let t56 ← from_f64 t55
  let t57 ← is_pos_zero t56
  check t57
  let t58 ← (ApiFloat.ZERO : M Half)
  let t59 ← ApiFloat.neg t58
  let t60 ← to_f64 t59
  let t61 ← from_f64 t60
  let t62 ← is_neg_zero t61
  check t62

example : passes t_single_to_f64_2 = true := by decide +kernel

/-- tests/ieee.rs:4668 `half_to_f64`. -/
def t_half_to_f64 : M Unit := do
  let t1 ← (parse ("1.0".toList) : M Half)
  let t2 ← to_f64 t1
  let t3 ← (f64_lit 0x3ff0000000000000 : M Double)
  let t4 ← IeeeFloat.eq t3 t2
  check t4
  let t5 ← (ApiFloat.largest : M Half)
  let t6 ← to_f64 t5
  let t7 ← (f64_lit 0x40effc0000000000 : M Double)
  let t8 ← IeeeFloat.eq t7 t6
  check t8
  let t9 ← (ApiFloat.largest : M Half)
  let t10 ← ApiFloat.neg t9
  let t11 ← to_f64 t10
  let t12 ← (f64_lit 0xc0effc0000000000 : M Double)
  let t13 ← IeeeFloat.eq t12 t11
  check t13
  let t14 ← (ApiFloat.smallest_normalized : M Half)
  let t15 ← to_f64 t14
  let t16 ← (f64_lit 0x3f10000000000000 : M Double)
  let t17 ← IeeeFloat.eq t16 t15
  check t17
  let t18 ← (ApiFloat.smallest_normalized : M Half)
  let t19 ← ApiFloat.neg t18
  let t20 ← to_f64 t19
  let t21 ← (f64_lit 0xbf10000000000000 : M Double)
  let t22 ← IeeeFloat.eq t21 t20
  check t22
  let t23 ← (ApiFloat.SMALLEST : M Half)
  let t24 ← to_f64 t23
  let t25 ← (f64_lit 0x3e70000000000000 : M Double)
  let t26 ← IeeeFloat.eq t25 t24
  check t26
  let t27 ← (parse ("0x1.FFCp-14".toList) : M Half)
  let t28 ← to_f64 t27
  let t29 ← (f64_lit 0x3f1ffc0000000000 : M Double)
  let t30 ← IeeeFloat.eq t29 t28
  check t30
  let t31 ← (ApiFloat.INFINITY : M Half)
  let t32 ← to_f64 t31
  let t33 ← (f64_lit 0x7ff0000000000000 : M Double)
  let t34 ← IeeeFloat.eq t33 t32
  check t34
  let t35 ← (ApiFloat.INFINITY : M Half)
  let t36 ← ApiFloat.neg t35
  let t37 ← to_f64 t36
  let t38 ← (f64_lit 0xfff0000000000000 : M Double)
  let t39 ← IeeeFloat.eq t38 t37
  check t39
  let t40 ← (ApiFloat.qnan none : M Half)
  let t41 ← to_f64 t40
  let t42 ← is_nan t41
  check t42

example : passes t_half_to_f64 = true := by decide +kernel

/-- tests/ieee.rs:4694 `bfloat_to_f64`. -/
def t_bfloat_to_f64 : M Unit := do
  let t1 ← (ApiFloat.ZERO : M Half)
  let t2 ← to_f64 t1
  let t3 ← from_f64 t2
  let t4 ← is_pos_zero t3
  check t4
  let t5 ← (ApiFloat.ZERO : M Half)
  let t6 ← ApiFloat.neg t5
  let t7 ← to_f64 t6
  let t8 ← from_f64 t7
  let t9 ← is_neg_zero t8
  check t9
  let t10 ← (parse ("1.0".toList) : M BFloat)
  let t11 ← to_f64 t10
  let t12 ← (f64_lit 0x3ff0000000000000 : M Double)
  let t13 ← IeeeFloat.eq t12 t11
  check t13
  let t14 ← (ApiFloat.largest : M BFloat)
  let t15 ← to_f64 t14
  let t16 ← (f64_lit 0x47efe00000000000 : M Double)
  let t17 ← IeeeFloat.eq t16 t15
  check t17
  let t18 ← (ApiFloat.largest : M BFloat)
  let t19 ← ApiFloat.neg t18
  let t20 ← to_f64 t19
  let t21 ← (f64_lit 0xc7efe00000000000 : M Double)
  let t22 ← IeeeFloat.eq t21 t20
  check t22
  let t23 ← (ApiFloat.smallest_normalized : M BFloat)
  let t24 ← to_f64 t23
  let t25 ← (f64_lit 0x3810000000000000 : M Double)
  let t26 ← IeeeFloat.eq t25 t24
  check t26
  let t27 ← (ApiFloat.smallest_normalized : M BFloat)
  let t28 ← ApiFloat.neg t27
  let t29 ← to_f64 t28
  let t30 ← (f64_lit 0xb810000000000000 : M Double)
  let t31 ← IeeeFloat.eq t30 t29
  check t31
  let t32 ← (ApiFloat.SMALLEST : M BFloat)
  let t33 ← to_f64 t32
  let t34 ← (f64_lit 0x37a0000000000000 : M Double)
  let t35 ← IeeeFloat.eq t34 t33
  check t35
  let t36 ← (parse ("0x1.FCp-127".toList) : M BFloat)
  let t37 ← to_f64 t36
  let t38 ← (f64_lit 0x380fc00000000000 : M Double)
  let t39 ← IeeeFloat.eq t38 t37
  check t39
  let t40 ← (ApiFloat.INFINITY : M BFloat)
  let t41 ← to_f64 t40
  let t42 ← (f64_lit 0x7ff0000000000000 : M Double)
  let t43 ← IeeeFloat.eq t42 t41
  check t43
  let t44 ← (ApiFloat.INFINITY : M BFloat)
  let t45 ← ApiFloat.neg t44
  let t46 ← to_f64 t45
  let t47 ← (f64_lit 0xfff0000000000000 : M Double)
  let t48 ← IeeeFloat.eq t47 t46
  check t48
  let t49 ← (ApiFloat.qnan none : M BFloat)
  let t50 ← to_f64 t49
  let t51 ← is_nan t50
  check t51

example : passes t_bfloat_to_f64 = true := by decide +kernel

/-- tests/ieee.rs:4725 `float8e5m2_to_f64`. -/
def t_float8e5m2_to_f64 : M Unit := do
  let t1 ← (parse ("1.0".toList) : M Float8E5M2)
  let t2 ← to_f64 t1
  let t3 ← (f64_lit 0x3ff0000000000000 : M Double)
  let t4 ← IeeeFloat.eq t3 t2
  check t4
  let t5 ← (parse ("2.0".toList) : M Float8E5M2)
  let t6 ← to_f64 t5
  let t7 ← (f64_lit 0x4000000000000000 : M Double)
  let t8 ← IeeeFloat.eq t7 t6
  check t8
  let t9 ← (ApiFloat.largest : M Float8E5M2)
  let t10 ← to_f64 t9
  let t11 ← (f64_lit 0x40ec000000000000 : M Double)
  let t12 ← IeeeFloat.eq t11 t10
  check t12
  let t13 ← (ApiFloat.largest : M Float8E5M2)
  let t14 ← ApiFloat.neg t13
  let t15 ← to_f64 t14
  let t16 ← (f64_lit 0xc0ec000000000000 : M Double)
  let t17 ← IeeeFloat.eq t16 t15
  check t17
  let t18 ← (ApiFloat.smallest_normalized : M Float8E5M2)
  let t19 ← to_f64 t18
  let t20 ← (f64_lit 0x3f10000000000000 : M Double)
  let t21 ← IeeeFloat.eq t20 t19
  check t21
  let t22 ← (ApiFloat.smallest_normalized : M Float8E5M2)
  let t23 ← ApiFloat.neg t22
  let t24 ← to_f64 t23
  let t25 ← (f64_lit 0xbf10000000000000 : M Double)
  let t26 ← IeeeFloat.eq t25 t24
  check t26
  let t27 ← (ApiFloat.SMALLEST : M Float8E5M2)
  let t28 ← ApiFloat.is_denormal t27
  check t28
  let t29 ← to_f64 t27
  let t30 ← (f64_lit 0x3ef0000000000000 : M Double)
  let t31 ← IeeeFloat.eq t30 t29
  check t31
  let t32 ← (ApiFloat.INFINITY : M Float8E5M2)
  let t33 ← to_f64 t32
  let t34 ← (f64_lit 0x7ff0000000000000 : M Double)
  let t35 ← IeeeFloat.eq t34 t33
  check t35
  let t36 ← (ApiFloat.INFINITY : M Float8E5M2)
  let t37 ← ApiFloat.neg t36
  let t38 ← to_f64 t37
  let t39 ← (f64_lit 0xfff0000000000000 : M Double)
  let t40 ← IeeeFloat.eq t39 t38
  check t40
  let t41 ← (ApiFloat.qnan none : M Float8E5M2)
  let t42 ← to_f64 t41
  let t43 ← is_nan t42
  check t43

example : passes t_float8e5m2_to_f64 = true := by decide +kernel

/-- tests/ieee.rs:4752 `float8e4m3fn_to_f64`. -/
def t_float8e4m3fn_to_f64 : M Unit := do
  let t1 ← (parse ("1.0".toList) : M Float8E4M3FN)
  let t2 ← to_f64 t1
  let t3 ← (f64_lit 0x3ff0000000000000 : M Double)
  let t4 ← IeeeFloat.eq t3 t2
  check t4
  let t5 ← (parse ("2.0".toList) : M Float8E4M3FN)
  let t6 ← to_f64 t5
  let t7 ← (f64_lit 0x4000000000000000 : M Double)
  let t8 ← IeeeFloat.eq t7 t6
  check t8
  let t9 ← (ApiFloat.largest : M Float8E4M3FN)
  let t10 ← to_f64 t9
  let t11 ← (f64_lit 0x407c000000000000 : M Double)
  let t12 ← IeeeFloat.eq t11 t10
  check t12
  let t13 ← (ApiFloat.largest : M Float8E4M3FN)
  let t14 ← ApiFloat.neg t13
  let t15 ← to_f64 t14
  let t16 ← (f64_lit 0xc07c000000000000 : M Double)
  let t17 ← IeeeFloat.eq t16 t15
  check t17
  let t18 ← (ApiFloat.smallest_normalized : M Float8E4M3FN)
  let t19 ← to_f64 t18
  let t20 ← (f64_lit 0x3f90000000000000 : M Double)
  let t21 ← IeeeFloat.eq t20 t19
  check t21
  let t22 ← (ApiFloat.smallest_normalized : M Float8E4M3FN)
  let t23 ← ApiFloat.neg t22
  let t24 ← to_f64 t23
  let t25 ← (f64_lit 0xbf90000000000000 : M Double)
  let t26 ← IeeeFloat.eq t25 t24
  check t26
  let t27 ← (ApiFloat.SMALLEST : M Float8E4M3FN)
  let t28 ← ApiFloat.is_denormal t27
  check t28
  let t29 ← to_f64 t27
  let t30 ← (f64_lit 0x3f60000000000000 : M Double)
  let t31 ← IeeeFloat.eq t30 t29
  check t31
  let t32 ← (ApiFloat.qnan none : M Float8E4M3FN)
  let t33 ← to_f64 t32
  let t34 ← is_nan t33
  check t34

example : passes t_float8e4m3fn_to_f64 = true := by decide +kernel

/-- tests/ieee.rs:4775 `single_to_f32`. -/
def t_single_to_f32_1 : M Unit := do
  let t1 ← (f32_lit 0x0 : M Single)
  let t2 ← from_f32 t1
  let t3 ← to_f32 t2
  let t4 ← from_f32 t3
  let t5 ← is_pos_zero t4
  check t5
  let t6 ← (f32_lit 0x80000000 : M Single)
  let t7 ← from_f32 t6
  let t8 ← to_f32 t7
  let t9 ← from_f32 t8
  let t10 ← is_neg_zero t9
  check t10
  let t11 ← (f32_lit 0x3f800000 : M Single)
  let t12 ← from_f32 t11
  let t13 ← to_f32 t12
  let t14 ← IeeeFloat.eq t11 t13
  check t14
  let t15 ← (ApiFloat.largest : M Single)
  let t16 ← to_f32 t15
  let t17 ← (f32_lit 0x7f7fffff : M Single)
  let t18 ← IeeeFloat.eq t17 t16
  check t18
  let t19 ← (ApiFloat.largest : M Single)
  let t20 ← ApiFloat.neg t19
  let t21 ← to_f32 t20
  let t22 ← (f32_lit 0xff7fffff : M Single)
  let t23 ← IeeeFloat.eq t22 t21
  check t23
  let t24 ← (ApiFloat.smallest_normalized : M Single)
  let t25 ← to_f32 t24
  let t26 ← (f32_lit 0x800000 : M Single)
  let t27 ← IeeeFloat.eq t26 t25
  check t27
  let t28 ← (ApiFloat.smallest_normalized : M Single)
  let t29 ← ApiFloat.neg t28
  let t30 ← to_f32 t29
  let t31 ← (f32_lit 0x80800000 : M Single)
  let t32 ← IeeeFloat.eq t31 t30
  check t32
  let t33 ← (ApiFloat.SMALLEST : M Single)
  let t34 ← to_f32 t33
  let t35 ← (f32_lit 0x1 : M Single)
  let t36 ← IeeeFloat.eq t35 t34
  check t36
  let t37 ← (parse ("0x1.FFFFFEp-126".toList) : M Single)
  let t38 ← to_f32 t37
  let t39 ← (f32_lit 0xffffff : M Single)
  let t40 ← IeeeFloat.eq t39 t38
  check t40
  let t41 ← (ApiFloat.INFINITY : M Single)
  let t42 ← to_f32 t41
  let t43 ← (f32_lit 0x7f800000 : M Single)
  let t44 ← IeeeFloat.eq t43 t42
  check t44
  let t45 ← (ApiFloat.INFINITY : M Single)
  let t46 ← ApiFloat.neg t45
  let t47 ← to_f32 t46
  let t48 ← (f32_lit 0xff800000 : M Single)
  let t49 ← IeeeFloat.eq t48 t47
  check t49

example : passes t_single_to_f32_1 = true := by decide +kernel

/-- tests/ieee.rs:4775 `single_to_f32`. -/
def t_single_to_f32_2 : M Unit := do
  let t50 ← (ApiFloat.qnan none : M Single)
  let t51 ← to_f32 t50
  let t52 ← is_nan t51
  check t52

example : passes t_single_to_f32_2 = true := by decide +kernel

/-- tests/ieee.rs:4806 `half_to_f32`. -/
def t_half_to_f32 : M Unit := do
  let t1 ← (ApiFloat.ZERO : M Half)
  let t2 ← to_f32 t1
  let t3 ← from_f32 t2
  let t4 ← is_pos_zero t3
  check t4
  let t5 ← (ApiFloat.ZERO : M Half)
  let t6 ← ApiFloat.neg t5
  let t7 ← to_f32 t6
  let t8 ← from_f32 t7
  let t9 ← is_neg_zero t8
  check t9
  let t10 ← (parse ("1.0".toList) : M Half)
  let t11 ← to_f32 t10
  let t12 ← (f32_lit 0x3f800000 : M Single)
  let t13 ← IeeeFloat.eq t12 t11
  check t13
  let t14 ← (ApiFloat.largest : M Half)
  let t15 ← to_f32 t14
  let t16 ← (f32_lit 0x477fe000 : M Single)
  let t17 ← IeeeFloat.eq t16 t15
  check t17
  let t18 ← (ApiFloat.largest : M Half)
  let t19 ← ApiFloat.neg t18
  let t20 ← to_f32 t19
  let t21 ← (f32_lit 0xc77fe000 : M Single)
  let t22 ← IeeeFloat.eq t21 t20
  check t22
  let t23 ← (ApiFloat.smallest_normalized : M Half)
  let t24 ← to_f32 t23
  let t25 ← (f32_lit 0x38800000 : M Single)
  let t26 ← IeeeFloat.eq t25 t24
  check t26
  let t27 ← (ApiFloat.smallest_normalized : M Half)
  let t28 ← ApiFloat.neg t27
  let t29 ← to_f32 t28
  let t30 ← (f32_lit 0xb8800000 : M Single)
  let t31 ← IeeeFloat.eq t30 t29
  check t31
  let t32 ← (ApiFloat.SMALLEST : M Half)
  let t33 ← to_f32 t32
  let t34 ← (f32_lit 0x33800000 : M Single)
  let t35 ← IeeeFloat.eq t34 t33
  check t35
  let t36 ← (parse ("0x1.FFCp-14".toList) : M Half)
  let t37 ← to_f32 t36
  let t38 ← (f32_lit 0x38ffe000 : M Single)
  let t39 ← IeeeFloat.eq t38 t37
  check t39
  let t40 ← (ApiFloat.INFINITY : M Half)
  let t41 ← to_f32 t40
  let t42 ← (f32_lit 0x7f800000 : M Single)
  let t43 ← IeeeFloat.eq t42 t41
  check t43
  let t44 ← (ApiFloat.INFINITY : M Half)
  let t45 ← ApiFloat.neg t44
  let t46 ← to_f32 t45
  let t47 ← (f32_lit 0xff800000 : M Single)
  let t48 ← IeeeFloat.eq t47 t46
  check t48
  let t49 ← (ApiFloat.qnan none : M Half)
  let t50 ← to_f32 t49
  let t51 ← is_nan t50
  check t51

example : passes t_half_to_f32 = true := by decide +kernel

/-- tests/ieee.rs:4837 `bfloat_to_f32`. -/
def t_bfloat_to_f32 : M Unit := do
  let t1 ← (ApiFloat.ZERO : M BFloat)
  let t2 ← to_f32 t1
  let t3 ← from_f32 t2
  let t4 ← is_pos_zero t3
  check t4
  let t5 ← (ApiFloat.ZERO : M BFloat)
  let t6 ← ApiFloat.neg t5
  let t7 ← to_f32 t6
  let t8 ← from_f32 t7
  let t9 ← is_neg_zero t8
  check t9
  let t10 ← (parse ("1.0".toList) : M BFloat)
  let t11 ← to_f32 t10
  let t12 ← (f32_lit 0x3f800000 : M Single)
  let t13 ← IeeeFloat.eq t12 t11
  check t13
  let t14 ← (ApiFloat.largest : M BFloat)
  let t15 ← to_f32 t14
  let t16 ← (f32_lit 0x7f7f0000 : M Single)
  let t17 ← IeeeFloat.eq t16 t15
  check t17
  let t18 ← (ApiFloat.largest : M BFloat)
  let t19 ← ApiFloat.neg t18
  let t20 ← to_f32 t19
  let t21 ← (f32_lit 0xff7f0000 : M Single)
  let t22 ← IeeeFloat.eq t21 t20
  check t22
  let t23 ← (ApiFloat.smallest_normalized : M BFloat)
  let t24 ← to_f32 t23
  let t25 ← (f32_lit 0x800000 : M Single)
  let t26 ← IeeeFloat.eq t25 t24
  check t26
  let t27 ← (ApiFloat.smallest_normalized : M BFloat)
  let t28 ← ApiFloat.neg t27
  let t29 ← to_f32 t28
  let t30 ← (f32_lit 0x80800000 : M Single)
  let t31 ← IeeeFloat.eq t30 t29
  check t31
  let t32 ← (ApiFloat.SMALLEST : M BFloat)
  let t33 ← to_f32 t32
  let t34 ← (f32_lit 0x10000 : M Single)
  let t35 ← IeeeFloat.eq t34 t33
  check t35
  let t36 ← (parse ("0x1.FCp-127".toList) : M BFloat)
  let t37 ← to_f32 t36
  let t38 ← (f32_lit 0x7f0000 : M Single)
  let t39 ← IeeeFloat.eq t38 t37
  check t39
  let t40 ← (ApiFloat.INFINITY : M BFloat)
  let t41 ← to_f32 t40
  let t42 ← (f32_lit 0x7f800000 : M Single)
  let t43 ← IeeeFloat.eq t42 t41
  check t43
  let t44 ← (ApiFloat.INFINITY : M BFloat)
  let t45 ← ApiFloat.neg t44
  let t46 ← to_f32 t45
  let t47 ← (f32_lit 0xff800000 : M Single)
  let t48 ← IeeeFloat.eq t47 t46
  check t48
  let t49 ← (ApiFloat.qnan none : M BFloat)
  let t50 ← to_f32 t49
  let t51 ← is_nan t50
  check t51

example : passes t_bfloat_to_f32 = true := by decide +kernel

/-- tests/ieee.rs:4868 `float8e5m2_to_f32`. -/
def t_float8e5m2_to_f32_1 : M Unit := do
  let t1 ← (ApiFloat.ZERO : M Float8E5M2)
  let t2 ← to_f32 t1
  let t3 ← from_f32 t2
  let t4 ← is_pos_zero t3
  check t4
  let t5 ← (ApiFloat.ZERO : M Float8E5M2)
  let t6 ← ApiFloat.neg t5
  let t7 ← to_f32 t6
  let t8 ← from_f32 t7
  let t9 ← is_neg_zero t8
  check t9
  let t10 ← (parse ("1.0".toList) : M Float8E5M2)
  let t11 ← to_f32 t10
  let t12 ← (f32_lit 0x3f800000 : M Single)
  let t13 ← IeeeFloat.eq t12 t11
  check t13
  let t14 ← (parse ("2.0".toList) : M Float8E5M2)
  let t15 ← to_f32 t14
  let t16 ← (f32_lit 0x40000000 : M Single)
  let t17 ← IeeeFloat.eq t16 t15
  check t17
  let t18 ← (ApiFloat.largest : M Float8E5M2)
  let t19 ← to_f32 t18
  let t20 ← (f32_lit 0x47600000 : M Single)
  let t21 ← IeeeFloat.eq t20 t19
  check t21
  let t22 ← (ApiFloat.largest : M Float8E5M2)
  let t23 ← ApiFloat.neg t22
  let t24 ← to_f32 t23
  let t25 ← (f32_lit 0xc7600000 : M Single)
  let t26 ← IeeeFloat.eq t25 t24
  check t26
  let t27 ← (ApiFloat.smallest_normalized : M Float8E5M2)
  let t28 ← to_f32 t27
  let t29 ← (f32_lit 0x38800000 : M Single)
  let t30 ← IeeeFloat.eq t29 t28
  check t30
  let t31 ← (ApiFloat.smallest_normalized : M Float8E5M2)
  let t32 ← ApiFloat.neg t31
  let t33 ← to_f32 t32
  let t34 ← (f32_lit 0xb8800000 : M Single)
  let t35 ← IeeeFloat.eq t34 t33
  check t35
  let t36 ← (ApiFloat.SMALLEST : M Float8E5M2)
  let t37 ← ApiFloat.is_denormal t36
  check t37
  let t38 ← to_f32 t36
  let t39 ← (f32_lit 0x37800000 : M Single)
  let t40 ← IeeeFloat.eq t39 t38
  check t40
  let t41 ← (ApiFloat.INFINITY : M Float8E5M2)
  let t42 ← to_f32 t41
  let t43 ← (f32_lit 0x7f800000 : M Single)
  let t44 ← IeeeFloat.eq t43 t42
  check t44
  let t45 ← (ApiFloat.INFINITY : M Float8E5M2)
  let t46 ← ApiFloat.neg t45
  let t47 ← to_f32 t46
  let t48 ← (f32_lit 0xff800000 : M Single)
  let t49 ← IeeeFloat.eq t48 t47
  check t49

example : passes t_float8e5m2_to_f32_1 = true := by decide +kernel

/-- tests/ieee.rs:4868 `float8e5m2_to_f32`. -/
def t_float8e5m2_to_f32_2 : M Unit := do
  let t50 ← (ApiFloat.qnan none : M Float8E5M2)
  let t51 ← to_f32 t50
  let t52 ← is_nan t51
  check t52

example : passes t_float8e5m2_to_f32_2 = true := by decide +kernel

/-- tests/ieee.rs:4901 `float8e4m3fn_to_f32`. -/
def t_float8e4m3fn_to_f32 : M Unit := do
  let t1 ← (ApiFloat.ZERO : M Float8E4M3FN)
  let t2 ← to_f32 t1
  let t3 ← from_f32 t2
  let t4 ← is_pos_zero t3
  check t4
  let t5 ← (ApiFloat.ZERO : M Float8E4M3FN)
  let t6 ← ApiFloat.neg t5
  let t7 ← to_f32 t6
  let t8 ← from_f32 t7
  let t9 ← is_neg_zero t8
  check t9
  let t10 ← (parse ("1.0".toList) : M Float8E4M3FN)
  let t11 ← to_f32 t10
  let t12 ← (f32_lit 0x3f800000 : M Single)
  let t13 ← IeeeFloat.eq t12 t11
  check t13
  let t14 ← (parse ("2.0".toList) : M Float8E4M3FN)
  let t15 ← to_f32 t14
  let t16 ← (f32_lit 0x40000000 : M Single)
  let t17 ← IeeeFloat.eq t16 t15
  check t17
  let t18 ← (ApiFloat.largest : M Float8E4M3FN)
  let t19 ← to_f32 t18
  let t20 ← (f32_lit 0x43e00000 : M Single)
  let t21 ← IeeeFloat.eq t20 t19
  check t21
  let t22 ← (ApiFloat.largest : M Float8E4M3FN)
  let t23 ← ApiFloat.neg t22
  let t24 ← to_f32 t23
  let t25 ← (f32_lit 0xc3e00000 : M Single)
  let t26 ← IeeeFloat.eq t25 t24
  check t26
  let t27 ← (ApiFloat.smallest_normalized : M Float8E4M3FN)
  let t28 ← to_f32 t27
  let t29 ← (f32_lit 0x3c800000 : M Single)
  let t30 ← IeeeFloat.eq t29 t28
  check t30
  let t31 ← (ApiFloat.smallest_normalized : M Float8E4M3FN)
  let t32 ← ApiFloat.neg t31
  let t33 ← to_f32 t32
  let t34 ← (f32_lit 0xbc800000 : M Single)
  let t35 ← IeeeFloat.eq t34 t33
  check t35
  let t36 ← (ApiFloat.SMALLEST : M Float8E4M3FN)
  let t37 ← ApiFloat.is_denormal t36
  check t37
  let t38 ← to_f32 t36
  let t39 ← (f32_lit 0x3b000000 : M Single)
  let t40 ← IeeeFloat.eq t39 t38
  check t40
  let t41 ← (ApiFloat.qnan none : M Float8E4M3FN)
  let t42 ← to_f32 t41
  let t43 ← is_nan t42
  check t43

example : passes t_float8e4m3fn_to_f32 = true := by decide +kernel

end Apf.Conformance.Ieee8
