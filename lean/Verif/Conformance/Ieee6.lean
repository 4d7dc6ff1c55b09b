import Verif.Conformance.Support
/-! Generated by tools/tests_to_lean.py from tests/ieee.rs. -/

namespace Apf.Conformance.Ieee6
set_option maxRecDepth 100000
set_option linter.all false

/-- tests/ieee.rs:4204 `x87_largest`. -/
def t_x87_largest : M Unit := do
  let t1 ← (ApiFloat.largest : M X87DoubleExtended)
  let t2 ← ApiFloat.is_largest t1
  check t2

example : passes t_x87_largest = true := by decide +kernel

/-- tests/ieee.rs:4209 `x87_next`. -/
def t_x87_next : M Unit := do
  let t1 ← (parse ("-1.0".toList) : M X87DoubleExtended)
  let t2 ← ApiFloat.next_up t1
  let t3 ← ApiFloat.ilogb (t2).value
  check (decide (t3 = (-1 : Int)))

example : passes t_x87_next = true := by decide +kernel

/-- tests/ieee.rs:4214 `convert_e4m3fn_to_e5m2`. -/
def t_convert_e4m3fn_to_e5m2 : M Unit := do
  let t1 ← (parse ("1.0".toList) : M Float8E4M3FN)
  let t2 ← IeeeFloat.convertR float8E4M3FNS float8E5M2S t1 Round.nearestTiesToEven
  let t3 ← to_f32 ((⟨(t2).status, (t2).value⟩ : StatusAnd Float8E5M2)).value
  let t4 ← (f32_lit 0x3f800000 : M Single)
  let t5 ← IeeeFloat.eq t4 t3
  check t5
  check (!(t2).losesInfo)
  check (decide (((⟨(t2).status, (t2).value⟩ : StatusAnd Float8E5M2)).status = Status.OK))
  let t6 ← (parse ("0.0".toList) : M Float8E4M3FN)
  let t7 ← IeeeFloat.convertR float8E4M3FNS float8E5M2S t6 Round.nearestTiesToEven
  let t8 ← to_f32 ((⟨(t7).status, (t7).value⟩ : StatusAnd Float8E5M2)).value
  let t9 ← (f32_lit 0x0 : M Single)
  let t10 ← IeeeFloat.eq t9 t8
  check t10
  check (!(t7).losesInfo)
  check (decide (((⟨(t7).status, (t7).value⟩ : StatusAnd Float8E5M2)).status = Status.OK))
  let t11 ← (parse ("0x1.2p0".toList) : M Float8E4M3FN)
  let t12 ← IeeeFloat.convertR float8E4M3FNS float8E5M2S t11 Round.nearestTiesToEven
  let t13 ← to_f32 ((⟨(t12).status, (t12).value⟩ : StatusAnd Float8E5M2)).value
  let t14 ← IeeeFloat.eq t4 t13
  check t14
  check (t12).losesInfo
  check (decide (((⟨(t12).status, (t12).value⟩ : StatusAnd Float8E5M2)).status = ({ inexact := true } : Status)))
  let t15 ← (parse ("0x1.6p0".toList) : M Float8E4M3FN)
  let t16 ← IeeeFloat.convertR float8E4M3FNS float8E5M2S t15 Round.nearestTiesToEven
  let t17 ← to_f32 ((⟨(t16).status, (t16).value⟩ : StatusAnd Float8E5M2)).value
  let t18 ← (f32_lit 0x3fc00000 : M Single)
  let t19 ← IeeeFloat.eq t18 t17
  check t19
  check (t16).losesInfo
  check (decide (((⟨(t16).status, (t16).value⟩ : StatusAnd Float8E5M2)).status = ({ inexact := true } : Status)))
  let t20 ← (parse ("0x1.Cp-7".toList) : M Float8E4M3FN)
  let t21 ← IeeeFloat.convertR float8E4M3FNS float8E5M2S t20 Round.nearestTiesToEven
  let t22 ← to_f32 ((⟨(t21).status, (t21).value⟩ : StatusAnd Float8E5M2)).value
  let t23 ← (f32_lit 0x3c600000 : M Single)
  let t24 ← IeeeFloat.eq t23 t22
  check t24
  check (!(t21).losesInfo)
  check (decide (((⟨(t21).status, (t21).value⟩ : StatusAnd Float8E5M2)).status = Status.OK))
  let t25 ← (parse ("nan".toList) : M Float8E4M3FN)
  let t26 ← IeeeFloat.convertR float8E4M3FNS float8E5M2S t25 Round.nearestTiesToEven
  let t27 ← to_f32 ((⟨(t26).status, (t26).value⟩ : StatusAnd Float8E5M2)).value
  let t28 ← is_nan t27
  check t28
  check (!(t26).losesInfo)
  check (decide (((⟨(t26).status, (t26).value⟩ : StatusAnd Float8E5M2)).status = Status.OK))

example : passes t_convert_e4m3fn_to_e5m2 = true := by decide +kernel

/-- tests/ieee.rs:4259 `convert_e5m2_to_e4m3fn`. -/
def t_convert_e5m2_to_e4m3fn_1 : M Unit := do
  let t1 ← (parse ("1.0".toList) : M Float8E5M2)
  let t2 ← IeeeFloat.convertR float8E5M2S float8E4M3FNS t1 Round.nearestTiesToEven
  let t3 ← to_f32 ((⟨(t2).status, (t2).value⟩ : StatusAnd Float8E4M3FN)).value
  let t4 ← (f32_lit 0x3f800000 : M Single)
  let t5 ← IeeeFloat.eq t4 t3
  check t5
  check (!(t2).losesInfo)
  check (decide (((⟨(t2).status, (t2).value⟩ : StatusAnd Float8E4M3FN)).status = Status.OK))
  let t6 ← (parse ("0.0".toList) : M Float8E5M2)
  let t7 ← IeeeFloat.convertR float8E5M2S float8E4M3FNS t6 Round.nearestTiesToEven
  let t8 ← to_f32 ((⟨(t7).status, (t7).value⟩ : StatusAnd Float8E4M3FN)).value
  let t9 ← (f32_lit 0x0 : M Single)
  let t10 ← IeeeFloat.eq t9 t8
  check t10
  check (!(t7).losesInfo)
  check (decide (((⟨(t7).status, (t7).value⟩ : StatusAnd Float8E4M3FN)).status = Status.OK))
  let t11 ← (parse ("0x1.Cp8".toList) : M Float8E5M2)
  let t12 ← IeeeFloat.convertR float8E5M2S float8E4M3FNS t11 Round.nearestTiesToEven
  let t13 ← to_f32 ((⟨(t12).status, (t12).value⟩ : StatusAnd Float8E4M3FN)).value
  let t14 ← (f32_lit 0x43e00000 : M Single)
  let t15 ← IeeeFloat.eq t14 t13
  check t15
  check (!(t12).losesInfo)
  check (decide (((⟨(t12).status, (t12).value⟩ : StatusAnd Float8E4M3FN)).status = Status.OK))
  let t16 ← (parse ("0x1.0p9".toList) : M Float8E5M2)
  let t17 ← IeeeFloat.convertR float8E5M2S float8E4M3FNS t16 Round.nearestTiesToEven
  let t18 ← to_f32 ((⟨(t17).status, (t17).value⟩ : StatusAnd Float8E4M3FN)).value
  let t19 ← is_nan t18
  check t19
  check (t17).losesInfo
  check (decide (((⟨(t17).status, (t17).value⟩ : StatusAnd Float8E4M3FN)).status = ({ overflow := true, inexact := true } : Status)))
  let t20 ← (parse ("0x1.0p-10".toList) : M Float8E5M2)
  let t21 ← IeeeFloat.convertR float8E5M2S float8E4M3FNS t20 Round.nearestTiesToEven
  let t22 ← to_f32 ((⟨(t21).status, (t21).value⟩ : StatusAnd Float8E4M3FN)).value
  let t23 ← IeeeFloat.eq t9 t22
  check t23
  check (t21).losesInfo
  check (decide (((⟨(t21).status, (t21).value⟩ : StatusAnd Float8E4M3FN)).status = ({ underflow := true, inexact := true } : Status)))
  let t24 ← (parse ("0x1.8p-10".toList) : M Float8E5M2)
  let t25 ← IeeeFloat.convertR float8E5M2S float8E4M3FNS t24 Round.nearestTiesToEven
  let t26 ← to_f32 ((⟨(t25).status, (t25).value⟩ : StatusAnd Float8E4M3FN)).value
  let t27 ← (f32_lit 0x3b000000 : M Single)
  let t28 ← IeeeFloat.eq t27 t26
  check t28
  check (t25).losesInfo
  check (decide (((⟨(t25).status, (t25).value⟩ : StatusAnd Float8E4M3FN)).status = ({ underflow := true, inexact := true } : Status)))
  let t29 ← (parse ("0x1.8p-9".toList) : M Float8E5M2)
  let t30 ← IeeeFloat.convertR float8E5M2S float8E4M3FNS t29 Round.nearestTiesToEven
  let t31 ← to_f32 ((⟨(t30).status, (t30).value⟩ : StatusAnd Float8E4M3FN)).value
  let t32 ← (f32_lit 0x3b800000 : M Single)
  let t33 ← IeeeFloat.eq t32 t31
  check t33
  check (t30).losesInfo
  check (decide (((⟨(t30).status, (t30).value⟩ : StatusAnd Float8E4M3FN)).status = ({ underflow := true, inexact := true } : Status)))
  let _ ← (parse ("nan".toList) : M Float8E4M3FN)
  let t35 ← (parse ("inf".toList) : M Float8E5M2)
  let t36 ← IeeeFloat.convertR float8E5M2S float8E4M3FNS t35 Round.nearestTiesToEven
  let t37 ← to_f32 ((⟨(t36).status, (t36).value⟩ : StatusAnd Float8E4M3FN)).value
  let t38 ← is_nan t37
  check t38

example : passes t_convert_e5m2_to_e4m3fn_1 = true := by decide +kernel

/-- tests/ieee.rs:4259 `convert_e5m2_to_e4m3fn`. -/
def t_convert_e5m2_to_e4m3fn_2 : M Unit := do
  let t34 ← (parse ("nan".toList) : M Float8E4M3FN)
  let t35 ← (parse ("inf".toList) : M Float8E5M2)
  let t36 ← IeeeFloat.convertR float8E5M2S float8E4M3FNS t35 Round.nearestTiesToEven
  check (t36).losesInfo
  check (decide (((⟨(t36).status, (t36).value⟩ : StatusAnd Float8E4M3FN)).status = ({ inexact := true } : Status)))
  let t39 ← ApiFloat.bitwise_eq ((⟨(t36).status, (t36).value⟩ : StatusAnd Float8E4M3FN)).value t34
  check t39
  let t40 ← (parse ("nan".toList) : M Float8E5M2)
  let t41 ← IeeeFloat.convertR float8E5M2S float8E4M3FNS t40 Round.nearestTiesToEven
  let t42 ← to_f32 ((⟨(t41).status, (t41).value⟩ : StatusAnd Float8E4M3FN)).value
  let t43 ← is_nan t42
  check t43
  check (t41).losesInfo
  check (decide (((⟨(t41).status, (t41).value⟩ : StatusAnd Float8E4M3FN)).status = Status.OK))
  let t44 ← ApiFloat.bitwise_eq ((⟨(t41).status, (t41).value⟩ : StatusAnd Float8E4M3FN)).value t34
  check t44
  let t45 ← (parse ("snan".toList) : M Float8E5M2)
  let t46 ← IeeeFloat.convertR float8E5M2S float8E4M3FNS t45 Round.nearestTiesToEven
  let t47 ← to_f32 ((⟨(t46).status, (t46).value⟩ : StatusAnd Float8E4M3FN)).value
  let t48 ← is_nan t47
  check t48
  check (t46).losesInfo
  check (decide (((⟨(t46).status, (t46).value⟩ : StatusAnd Float8E4M3FN)).status = ({ invalidOp := true } : Status)))
  let t49 ← ApiFloat.bitwise_eq ((⟨(t46).status, (t46).value⟩ : StatusAnd Float8E4M3FN)).value t34
  check t49

example : passes t_convert_e5m2_to_e4m3fn_2 = true := by decide +kernel

/-- tests/ieee.rs:4337 `float8e4m3fn_infinity`. -/
def t_float8e4m3fn_infinity : M Unit := do
  let t1 ← (ApiFloat.INFINITY : M Float8E4M3FN)
  let t2 ← is_nan t1
  check t2
  let t3 ← is_infinite t1
  check (!t3)

example : passes t_float8e4m3fn_infinity = true := by decide +kernel

/-- tests/ieee.rs:4344 `float8e4m3fn_from_string`. -/
def t_float8e4m3fn_from_string : M Unit := do
  let t1 ← (parse ("448".toList) : M Float8E4M3FN)
  let t2 ← to_f64 t1
  let t3 ← (f64_lit 0x407c000000000000 : M Double)
  let t4 ← IeeeFloat.eq t3 t2
  check t4
  let t5 ← (parse ("464".toList) : M Float8E4M3FN)
  let t6 ← to_f64 t5
  let t7 ← IeeeFloat.eq t3 t6
  check t7
  let t8 ← (parse ("465".toList) : M Float8E4M3FN)
  let t9 ← is_nan t8
  check t9
  let t10 ← (parse ("480".toList) : M Float8E4M3FN)
  let t11 ← is_nan t10
  check t11
  let t12 ← (parse ("inf".toList) : M Float8E4M3FN)
  let t13 ← is_nan t12
  check t13
  let t14 ← (parse ("nan".toList) : M Float8E4M3FN)
  let t15 ← is_nan t14
  check t15

example : passes t_float8e4m3fn_from_string = true := by decide +kernel

/-- tests/ieee.rs:4360 `float8e4m3fn_add`. -/
def t_float8e4m3fn_add_1 : M Unit := do
  let t1 ← (ApiFloat.NAN : M Float8E4M3FN)
  let t2 ← (parse ("448".toList) : M Float8E4M3FN)
  let t3 ← (parse ("16".toList) : M Float8E4M3FN)
  let t4 ← (parse ("448".toList) : M Float8E4M3FN)
  let t5 ← (parse ("18".toList) : M Float8E4M3FN)
  let t6 ← (parse ("448".toList) : M Float8E4M3FN)
  let t7 ← (parse ("32".toList) : M Float8E4M3FN)
  let t8 ← (parse ("-448".toList) : M Float8E4M3FN)
  let t9 ← (parse ("-32".toList) : M Float8E4M3FN)
  let t10 ← (parse ("-448".toList) : M Float8E4M3FN)
  let t11 ← (parse ("448".toList) : M Float8E4M3FN)
  let t12 ← (parse ("-32".toList) : M Float8E4M3FN)
  let _ ← (parse ("448".toList) : M Float8E4M3FN)
  let _ ← (parse ("0".toList) : M Float8E4M3FN)
  let _ ← (parse ("448".toList) : M Float8E4M3FN)
  let _ ← (parse ("32".toList) : M Float8E4M3FN)
  let _ ← (parse ("448".toList) : M Float8E4M3FN)
  let _ ← (parse ("448".toList) : M Float8E4M3FN)
  let t19 ← ApiFloat.add_r t2 t3 Round.nearestTiesToEven
  check (decide (({ inexact := true } : Status) = (t19).status))
  let t20 ← ApiFloat.category (t19).value
  check (decide (Category.normal = t20))
  let t21 ← (parse ("448".toList) : M Float8E4M3FN)
  let t22 ← ApiFloat.bitwise_eq (t19).value t21
  check t22
  let t23 ← ApiFloat.add_r t4 t5 Round.nearestTiesToEven
  check (decide (({ overflow := true, inexact := true } : Status) = (t23).status))
  let t24 ← ApiFloat.category (t23).value
  check (decide (Category.nan = t24))
  let t25 ← (parse ("NaN".toList) : M Float8E4M3FN)
  let t26 ← ApiFloat.bitwise_eq (t23).value t25
  check t26
  let t27 ← ApiFloat.add_r t6 t7 Round.nearestTiesToEven
  check (decide (({ overflow := true, inexact := true } : Status) = (t27).status))
  let t28 ← ApiFloat.category (t27).value
  check (decide (Category.nan = t28))
  let t29 ← (parse ("NaN".toList) : M Float8E4M3FN)
  let t30 ← ApiFloat.bitwise_eq (t27).value t29
  check t30
  let t31 ← ApiFloat.add_r t8 t9 Round.nearestTiesToEven
  check (decide (({ overflow := true, inexact := true } : Status) = (t31).status))
  let t32 ← ApiFloat.category (t31).value
  check (decide (Category.nan = t32))
  let t33 ← (parse ("-NaN".toList) : M Float8E4M3FN)
  let t34 ← ApiFloat.bitwise_eq (t31).value t33
  check t34
  let t35 ← ApiFloat.add_r t1 t10 Round.nearestTiesToEven
  check (decide (Status.OK = (t35).status))
  let t36 ← ApiFloat.category (t35).value
  check (decide (Category.nan = t36))
  let t37 ← (parse ("NaN".toList) : M Float8E4M3FN)
  let t38 ← ApiFloat.bitwise_eq (t35).value t37
  check t38
  let t39 ← ApiFloat.add_r t11 t12 Round.nearestTiesToEven
  check (decide (Status.OK = (t39).status))
  let t40 ← ApiFloat.category (t39).value
  check (decide (Category.normal = t40))
  let t41 ← (parse ("416".toList) : M Float8E4M3FN)
  let t42 ← ApiFloat.bitwise_eq (t39).value t41
  check t42

example : passes t_float8e4m3fn_add_1 = true := by decide +kernel

/-- tests/ieee.rs:4360 `float8e4m3fn_add`. -/
def t_float8e4m3fn_add_2 : M Unit := do
  let t13 ← (parse ("448".toList) : M Float8E4M3FN)
  let t14 ← (parse ("0".toList) : M Float8E4M3FN)
  let t15 ← (parse ("448".toList) : M Float8E4M3FN)
  let t16 ← (parse ("32".toList) : M Float8E4M3FN)
  let t17 ← (parse ("448".toList) : M Float8E4M3FN)
  let t18 ← (parse ("448".toList) : M Float8E4M3FN)
  let t43 ← ApiFloat.add_r t13 t14 Round.nearestTiesToEven
  check (decide (Status.OK = (t43).status))
  let t44 ← ApiFloat.category (t43).value
  check (decide (Category.normal = t44))
  let t45 ← (parse ("448".toList) : M Float8E4M3FN)
  let t46 ← ApiFloat.bitwise_eq (t43).value t45
  check t46
  let t47 ← ApiFloat.add_r t15 t16 Round.towardZero
  check (decide (({ inexact := true } : Status) = (t47).status))
  let t48 ← ApiFloat.category (t47).value
  check (decide (Category.normal = t48))
  let t49 ← (parse ("448".toList) : M Float8E4M3FN)
  let t50 ← ApiFloat.bitwise_eq (t47).value t49
  check t50
  let t51 ← ApiFloat.add_r t17 t18 Round.towardZero
  check (decide (({ inexact := true } : Status) = (t51).status))
  let t52 ← ApiFloat.category (t51).value
  check (decide (Category.normal = t52))
  let t53 ← (parse ("448".toList) : M Float8E4M3FN)
  let t54 ← ApiFloat.bitwise_eq (t51).value t53
  check t54

example : passes t_float8e4m3fn_add_2 = true := by decide +kernel

/-- tests/ieee.rs:4410 `float8e4m3fn_divide_by_zero`. -/
def t_float8e4m3fn_divide_by_zero : M Unit := do
  let t1 ← (parse ("1".toList) : M Float8E4M3FN)
  let t2 ← (parse ("0".toList) : M Float8E4M3FN)
  let t3 ← Api.div t1 t2
  let t4 ← is_nan (t3).value
  check t4
  check (decide ((t3).status = ({ divByZero := true } : Status)))

example : passes t_float8e4m3fn_divide_by_zero = true := by decide +kernel

/-- tests/ieee.rs:4419 `float8e4m3fn_next`. -/
def t_float8e4m3fn_next_1 : M Unit := do
  let t1 ← (ApiFloat.from_bits 0 : M Float8E4M3FN)
  let t2 ← (ApiFloat.from_bits 1 : M Float8E4M3FN)
  let t3 ← ApiFloat.next_up t1
  let t4 ← ApiFloat.bitwise_eq (t3).value t2
  check t4
  check (decide ((t3).status = Status.OK))
  let t5 ← (ApiFloat.from_bits 1 : M Float8E4M3FN)
  let t6 ← (ApiFloat.from_bits 2 : M Float8E4M3FN)
  let t7 ← ApiFloat.next_up t5
  let t8 ← ApiFloat.bitwise_eq (t7).value t6
  check t8
  check (decide ((t7).status = Status.OK))
  let t9 ← (ApiFloat.from_bits 2 : M Float8E4M3FN)
  let t10 ← (ApiFloat.from_bits 3 : M Float8E4M3FN)
  let t11 ← ApiFloat.next_up t9
  let t12 ← ApiFloat.bitwise_eq (t11).value t10
  check t12
  check (decide ((t11).status = Status.OK))
  let t13 ← (ApiFloat.from_bits 3 : M Float8E4M3FN)
  let t14 ← (ApiFloat.from_bits 4 : M Float8E4M3FN)
  let t15 ← ApiFloat.next_up t13
  let t16 ← ApiFloat.bitwise_eq (t15).value t14
  check t16
  check (decide ((t15).status = Status.OK))
  let t17 ← (ApiFloat.from_bits 4 : M Float8E4M3FN)
  let t18 ← (ApiFloat.from_bits 5 : M Float8E4M3FN)
  let t19 ← ApiFloat.next_up t17
  let t20 ← ApiFloat.bitwise_eq (t19).value t18
  check t20
  check (decide ((t19).status = Status.OK))
  let t21 ← (ApiFloat.from_bits 5 : M Float8E4M3FN)
  let t22 ← (ApiFloat.from_bits 6 : M Float8E4M3FN)
  let t23 ← ApiFloat.next_up t21
  let t24 ← ApiFloat.bitwise_eq (t23).value t22
  check t24
  check (decide ((t23).status = Status.OK))
  let t25 ← (ApiFloat.from_bits 6 : M Float8E4M3FN)
  let t26 ← (ApiFloat.from_bits 7 : M Float8E4M3FN)
  let t27 ← ApiFloat.next_up t25
  let t28 ← ApiFloat.bitwise_eq (t27).value t26
  check t28
  check (decide ((t27).status = Status.OK))
  let t29 ← (ApiFloat.from_bits 7 : M Float8E4M3FN)
  let t30 ← (ApiFloat.from_bits 8 : M Float8E4M3FN)
  let t31 ← ApiFloat.next_up t29
  let t32 ← ApiFloat.bitwise_eq (t31).value t30
  check t32
  check (decide ((t31).status = Status.OK))
  let t33 ← (ApiFloat.from_bits 8 : M Float8E4M3FN)
  let t34 ← (ApiFloat.from_bits 9 : M Float8E4M3FN)
  let t35 ← ApiFloat.next_up t33
  let t36 ← ApiFloat.bitwise_eq (t35).value t34
  check t36
  check (decide ((t35).status = Status.OK))
  let t37 ← (ApiFloat.from_bits 9 : M Float8E4M3FN)
  let t38 ← (ApiFloat.from_bits 10 : M Float8E4M3FN)
  let t39 ← ApiFloat.next_up t37
  let t40 ← ApiFloat.bitwise_eq (t39).value t38
  check t40
  check (decide ((t39).status = Status.OK))

example : passes t_float8e4m3fn_next_1 = true := by decide +kernel

/-- tests/ieee.rs:4419 `float8e4m3fn_next`. -/
def t_float8e4m3fn_next_2 : M Unit := do
  let t41 ← (ApiFloat.from_bits 10 : M Float8E4M3FN)
  let t42 ← (ApiFloat.from_bits 11 : M Float8E4M3FN)
  let t43 ← ApiFloat.next_up t41
  let t44 ← ApiFloat.bitwise_eq (t43).value t42
  check t44
  check (decide ((t43).status = Status.OK))
  let t45 ← (ApiFloat.from_bits 11 : M Float8E4M3FN)
  let t46 ← (ApiFloat.from_bits 12 : M Float8E4M3FN)
  let t47 ← ApiFloat.next_up t45
  let t48 ← ApiFloat.bitwise_eq (t47).value t46
  check t48
  check (decide ((t47).status = Status.OK))
  let t49 ← (ApiFloat.from_bits 12 : M Float8E4M3FN)
  let t50 ← (ApiFloat.from_bits 13 : M Float8E4M3FN)
  let t51 ← ApiFloat.next_up t49
  let t52 ← ApiFloat.bitwise_eq (t51).value t50
  check t52
  check (decide ((t51).status = Status.OK))
  let t53 ← (ApiFloat.from_bits 13 : M Float8E4M3FN)
  let t54 ← (ApiFloat.from_bits 14 : M Float8E4M3FN)
  let t55 ← ApiFloat.next_up t53
  let t56 ← ApiFloat.bitwise_eq (t55).value t54
  check t56
  check (decide ((t55).status = Status.OK))
  let t57 ← (ApiFloat.from_bits 14 : M Float8E4M3FN)
  let t58 ← (ApiFloat.from_bits 15 : M Float8E4M3FN)
  let t59 ← ApiFloat.next_up t57
  let t60 ← ApiFloat.bitwise_eq (t59).value t58
  check t60
  check (decide ((t59).status = Status.OK))
  let t61 ← (ApiFloat.from_bits 15 : M Float8E4M3FN)
  let t62 ← (ApiFloat.from_bits 16 : M Float8E4M3FN)
  let t63 ← ApiFloat.next_up t61
  let t64 ← ApiFloat.bitwise_eq (t63).value t62
  check t64
  check (decide ((t63).status = Status.OK))
  let t65 ← (ApiFloat.from_bits 16 : M Float8E4M3FN)
  let t66 ← (ApiFloat.from_bits 17 : M Float8E4M3FN)
  let t67 ← ApiFloat.next_up t65
  let t68 ← ApiFloat.bitwise_eq (t67).value t66
  check t68
  check (decide ((t67).status = Status.OK))
  let t69 ← (ApiFloat.from_bits 17 : M Float8E4M3FN)
  let t70 ← (ApiFloat.from_bits 18 : M Float8E4M3FN)
  let t71 ← ApiFloat.next_up t69
  let t72 ← ApiFloat.bitwise_eq (t71).value t70
  check t72
  check (decide ((t71).status = Status.OK))
  let t73 ← (ApiFloat.from_bits 18 : M Float8E4M3FN)
  let t74 ← (ApiFloat.from_bits 19 : M Float8E4M3FN)
  let t75 ← ApiFloat.next_up t73
  let t76 ← ApiFloat.bitwise_eq (t75).value t74
  check t76
  check (decide ((t75).status = Status.OK))
  let t77 ← (ApiFloat.from_bits 19 : M Float8E4M3FN)
  let t78 ← (ApiFloat.from_bits 20 : M Float8E4M3FN)
  let t79 ← ApiFloat.next_up t77
  let t80 ← ApiFloat.bitwise_eq (t79).value t78
  check t80
  check (decide ((t79).status = Status.OK))

example : passes t_float8e4m3fn_next_2 = true := by decide +kernel

/-- tests/ieee.rs:4419 `float8e4m3fn_next`. -/
def t_float8e4m3fn_next_3 : M Unit := do
  let t81 ← (ApiFloat.from_bits 20 : M Float8E4M3FN)
  let t82 ← (ApiFloat.from_bits 21 : M Float8E4M3FN)
  let t83 ← ApiFloat.next_up t81
  let t84 ← ApiFloat.bitwise_eq (t83).value t82
  check t84
  check (decide ((t83).status = Status.OK))
  let t85 ← (ApiFloat.from_bits 21 : M Float8E4M3FN)
  let t86 ← (ApiFloat.from_bits 22 : M Float8E4M3FN)
  let t87 ← ApiFloat.next_up t85
  let t88 ← ApiFloat.bitwise_eq (t87).value t86
  check t88
  check (decide ((t87).status = Status.OK))
  let t89 ← (ApiFloat.from_bits 22 : M Float8E4M3FN)
  let t90 ← (ApiFloat.from_bits 23 : M Float8E4M3FN)
  let t91 ← ApiFloat.next_up t89
  let t92 ← ApiFloat.bitwise_eq (t91).value t90
  check t92
  check (decide ((t91).status = Status.OK))
  let t93 ← (ApiFloat.from_bits 23 : M Float8E4M3FN)
  let t94 ← (ApiFloat.from_bits 24 : M Float8E4M3FN)
  let t95 ← ApiFloat.next_up t93
  let t96 ← ApiFloat.bitwise_eq (t95).value t94
  check t96
  check (decide ((t95).status = Status.OK))
  let t97 ← (ApiFloat.from_bits 24 : M Float8E4M3FN)
  let t98 ← (ApiFloat.from_bits 25 : M Float8E4M3FN)
  let t99 ← ApiFloat.next_up t97
  let t100 ← ApiFloat.bitwise_eq (t99).value t98
  check t100
  check (decide ((t99).status = Status.OK))
  let t101 ← (ApiFloat.from_bits 25 : M Float8E4M3FN)
  let t102 ← (ApiFloat.from_bits 26 : M Float8E4M3FN)
  let t103 ← ApiFloat.next_up t101
  let t104 ← ApiFloat.bitwise_eq (t103).value t102
  check t104
  check (decide ((t103).status = Status.OK))
  let t105 ← (ApiFloat.from_bits 26 : M Float8E4M3FN)
  let t106 ← (ApiFloat.from_bits 27 : M Float8E4M3FN)
  let t107 ← ApiFloat.next_up t105
  let t108 ← ApiFloat.bitwise_eq (t107).value t106
  check t108
  check (decide ((t107).status = Status.OK))
  let t109 ← (ApiFloat.from_bits 27 : M Float8E4M3FN)
  let t110 ← (ApiFloat.from_bits 28 : M Float8E4M3FN)
  let t111 ← ApiFloat.next_up t109
  let t112 ← ApiFloat.bitwise_eq (t111).value t110
  check t112
  check (decide ((t111).status = Status.OK))
  let t113 ← (ApiFloat.from_bits 28 : M Float8E4M3FN)
  let t114 ← (ApiFloat.from_bits 29 : M Float8E4M3FN)
  let t115 ← ApiFloat.next_up t113
  let t116 ← ApiFloat.bitwise_eq (t115).value t114
  check t116
  check (decide ((t115).status = Status.OK))
  let t117 ← (ApiFloat.from_bits 29 : M Float8E4M3FN)
  let t118 ← (ApiFloat.from_bits 30 : M Float8E4M3FN)
  let t119 ← ApiFloat.next_up t117
  let t120 ← ApiFloat.bitwise_eq (t119).value t118
  check t120
  check (decide ((t119).status = Status.OK))

example : passes t_float8e4m3fn_next_3 = true := by decide +kernel

/-- tests/ieee.rs:4419 `float8e4m3fn_next`. -/
def t_float8e4m3fn_next_4 : M Unit := do
  let t121 ← (ApiFloat.from_bits 30 : M Float8E4M3FN)
  let t122 ← (ApiFloat.from_bits 31 : M Float8E4M3FN)
  let t123 ← ApiFloat.next_up t121
  let t124 ← ApiFloat.bitwise_eq (t123).value t122
  check t124
  check (decide ((t123).status = Status.OK))
  let t125 ← (ApiFloat.from_bits 31 : M Float8E4M3FN)
  let t126 ← (ApiFloat.from_bits 32 : M Float8E4M3FN)
  let t127 ← ApiFloat.next_up t125
  let t128 ← ApiFloat.bitwise_eq (t127).value t126
  check t128
  check (decide ((t127).status = Status.OK))
  let t129 ← (ApiFloat.from_bits 32 : M Float8E4M3FN)
  let t130 ← (ApiFloat.from_bits 33 : M Float8E4M3FN)
  let t131 ← ApiFloat.next_up t129
  let t132 ← ApiFloat.bitwise_eq (t131).value t130
  check t132
  check (decide ((t131).status = Status.OK))
  let t133 ← (ApiFloat.from_bits 33 : M Float8E4M3FN)
  let t134 ← (ApiFloat.from_bits 34 : M Float8E4M3FN)
  let t135 ← ApiFloat.next_up t133
  let t136 ← ApiFloat.bitwise_eq (t135).value t134
  check t136
  check (decide ((t135).status = Status.OK))
  let t137 ← (ApiFloat.from_bits 34 : M Float8E4M3FN)
  let t138 ← (ApiFloat.from_bits 35 : M Float8E4M3FN)
  let t139 ← ApiFloat.next_up t137
  let t140 ← ApiFloat.bitwise_eq (t139).value t138
  check t140
  check (decide ((t139).status = Status.OK))
  let t141 ← (ApiFloat.from_bits 35 : M Float8E4M3FN)
  let t142 ← (ApiFloat.from_bits 36 : M Float8E4M3FN)
  let t143 ← ApiFloat.next_up t141
  let t144 ← ApiFloat.bitwise_eq (t143).value t142
  check t144
  check (decide ((t143).status = Status.OK))
  let t145 ← (ApiFloat.from_bits 36 : M Float8E4M3FN)
  let t146 ← (ApiFloat.from_bits 37 : M Float8E4M3FN)
  let t147 ← ApiFloat.next_up t145
  let t148 ← ApiFloat.bitwise_eq (t147).value t146
  check t148
  check (decide ((t147).status = Status.OK))
  let t149 ← (ApiFloat.from_bits 37 : M Float8E4M3FN)
  let t150 ← (ApiFloat.from_bits 38 : M Float8E4M3FN)
  let t151 ← ApiFloat.next_up t149
  let t152 ← ApiFloat.bitwise_eq (t151).value t150
  check t152
  check (decide ((t151).status = Status.OK))
  let t153 ← (ApiFloat.from_bits 38 : M Float8E4M3FN)
  let t154 ← (ApiFloat.from_bits 39 : M Float8E4M3FN)
  let t155 ← ApiFloat.next_up t153
  let t156 ← ApiFloat.bitwise_eq (t155).value t154
  check t156
  check (decide ((t155).status = Status.OK))
  let t157 ← (ApiFloat.from_bits 39 : M Float8E4M3FN)
  let t158 ← (ApiFloat.from_bits 40 : M Float8E4M3FN)
  let t159 ← ApiFloat.next_up t157
  let t160 ← ApiFloat.bitwise_eq (t159).value t158
  check t160
  check (decide ((t159).status = Status.OK))

example : passes t_float8e4m3fn_next_4 = true := by decide +kernel

/-- tests/ieee.rs:4419 `float8e4m3fn_next`. -/
def t_float8e4m3fn_next_5 : M Unit := do
  let t161 ← (ApiFloat.from_bits 40 : M Float8E4M3FN)
  let t162 ← (ApiFloat.from_bits 41 : M Float8E4M3FN)
  let t163 ← ApiFloat.next_up t161
  let t164 ← ApiFloat.bitwise_eq (t163).value t162
  check t164
  check (decide ((t163).status = Status.OK))
  let t165 ← (ApiFloat.from_bits 41 : M Float8E4M3FN)
  let t166 ← (ApiFloat.from_bits 42 : M Float8E4M3FN)
  let t167 ← ApiFloat.next_up t165
  let t168 ← ApiFloat.bitwise_eq (t167).value t166
  check t168
  check (decide ((t167).status = Status.OK))
  let t169 ← (ApiFloat.from_bits 42 : M Float8E4M3FN)
  let t170 ← (ApiFloat.from_bits 43 : M Float8E4M3FN)
  let t171 ← ApiFloat.next_up t169
  let t172 ← ApiFloat.bitwise_eq (t171).value t170
  check t172
  check (decide ((t171).status = Status.OK))
  let t173 ← (ApiFloat.from_bits 43 : M Float8E4M3FN)
  let t174 ← (ApiFloat.from_bits 44 : M Float8E4M3FN)
  let t175 ← ApiFloat.next_up t173
  let t176 ← ApiFloat.bitwise_eq (t175).value t174
  check t176
  check (decide ((t175).status = Status.OK))
  let t177 ← (ApiFloat.from_bits 44 : M Float8E4M3FN)
  let t178 ← (ApiFloat.from_bits 45 : M Float8E4M3FN)
  let t179 ← ApiFloat.next_up t177
  let t180 ← ApiFloat.bitwise_eq (t179).value t178
  check t180
  check (decide ((t179).status = Status.OK))
  let t181 ← (ApiFloat.from_bits 45 : M Float8E4M3FN)
  let t182 ← (ApiFloat.from_bits 46 : M Float8E4M3FN)
  let t183 ← ApiFloat.next_up t181
  let t184 ← ApiFloat.bitwise_eq (t183).value t182
  check t184
  check (decide ((t183).status = Status.OK))
  let t185 ← (ApiFloat.from_bits 46 : M Float8E4M3FN)
  let t186 ← (ApiFloat.from_bits 47 : M Float8E4M3FN)
  let t187 ← ApiFloat.next_up t185
  let t188 ← ApiFloat.bitwise_eq (t187).value t186
  check t188
  check (decide ((t187).status = Status.OK))
  let t189 ← (ApiFloat.from_bits 47 : M Float8E4M3FN)
  let t190 ← (ApiFloat.from_bits 48 : M Float8E4M3FN)
  let t191 ← ApiFloat.next_up t189
  let t192 ← ApiFloat.bitwise_eq (t191).value t190
  check t192
  check (decide ((t191).status = Status.OK))
  let t193 ← (ApiFloat.from_bits 48 : M Float8E4M3FN)
  let t194 ← (ApiFloat.from_bits 49 : M Float8E4M3FN)
  let t195 ← ApiFloat.next_up t193
  let t196 ← ApiFloat.bitwise_eq (t195).value t194
  check t196
  check (decide ((t195).status = Status.OK))
  let t197 ← (ApiFloat.from_bits 49 : M Float8E4M3FN)
  let t198 ← (ApiFloat.from_bits 50 : M Float8E4M3FN)
  let t199 ← ApiFloat.next_up t197
  let t200 ← ApiFloat.bitwise_eq (t199).value t198
  check t200
  check (decide ((t199).status = Status.OK))

example : passes t_float8e4m3fn_next_5 = true := by decide +kernel

/-- tests/ieee.rs:4419 `float8e4m3fn_next`. -/
def t_float8e4m3fn_next_6 : M Unit := do
  let t201 ← (ApiFloat.from_bits 50 : M Float8E4M3FN)
  let t202 ← (ApiFloat.from_bits 51 : M Float8E4M3FN)
  let t203 ← ApiFloat.next_up t201
  let t204 ← ApiFloat.bitwise_eq (t203).value t202
  check t204
  check (decide ((t203).status = Status.OK))
  let t205 ← (ApiFloat.from_bits 51 : M Float8E4M3FN)
  let t206 ← (ApiFloat.from_bits 52 : M Float8E4M3FN)
  let t207 ← ApiFloat.next_up t205
  let t208 ← ApiFloat.bitwise_eq (t207).value t206
  check t208
  check (decide ((t207).status = Status.OK))
  let t209 ← (ApiFloat.from_bits 52 : M Float8E4M3FN)
  let t210 ← (ApiFloat.from_bits 53 : M Float8E4M3FN)
  let t211 ← ApiFloat.next_up t209
  let t212 ← ApiFloat.bitwise_eq (t211).value t210
  check t212
  check (decide ((t211).status = Status.OK))
  let t213 ← (ApiFloat.from_bits 53 : M Float8E4M3FN)
  let t214 ← (ApiFloat.from_bits 54 : M Float8E4M3FN)
  let t215 ← ApiFloat.next_up t213
  let t216 ← ApiFloat.bitwise_eq (t215).value t214
  check t216
  check (decide ((t215).status = Status.OK))
  let t217 ← (ApiFloat.from_bits 54 : M Float8E4M3FN)
  let t218 ← (ApiFloat.from_bits 55 : M Float8E4M3FN)
  let t219 ← ApiFloat.next_up t217
  let t220 ← ApiFloat.bitwise_eq (t219).value t218
  check t220
  check (decide ((t219).status = Status.OK))
  let t221 ← (ApiFloat.from_bits 55 : M Float8E4M3FN)
  let t222 ← (ApiFloat.from_bits 56 : M Float8E4M3FN)
  let t223 ← ApiFloat.next_up t221
  let t224 ← ApiFloat.bitwise_eq (t223).value t222
  check t224
  check (decide ((t223).status = Status.OK))
  let t225 ← (ApiFloat.from_bits 56 : M Float8E4M3FN)
  let t226 ← (ApiFloat.from_bits 57 : M Float8E4M3FN)
  let t227 ← ApiFloat.next_up t225
  let t228 ← ApiFloat.bitwise_eq (t227).value t226
  check t228
  check (decide ((t227).status = Status.OK))
  let t229 ← (ApiFloat.from_bits 57 : M Float8E4M3FN)
  let t230 ← (ApiFloat.from_bits 58 : M Float8E4M3FN)
  let t231 ← ApiFloat.next_up t229
  let t232 ← ApiFloat.bitwise_eq (t231).value t230
  check t232
  check (decide ((t231).status = Status.OK))
  let t233 ← (ApiFloat.from_bits 58 : M Float8E4M3FN)
  let t234 ← (ApiFloat.from_bits 59 : M Float8E4M3FN)
  let t235 ← ApiFloat.next_up t233
  let t236 ← ApiFloat.bitwise_eq (t235).value t234
  check t236
  check (decide ((t235).status = Status.OK))
  let t237 ← (ApiFloat.from_bits 59 : M Float8E4M3FN)
  let t238 ← (ApiFloat.from_bits 60 : M Float8E4M3FN)
  let t239 ← ApiFloat.next_up t237
  let t240 ← ApiFloat.bitwise_eq (t239).value t238
  check t240
  check (decide ((t239).status = Status.OK))

example : passes t_float8e4m3fn_next_6 = true := by decide +kernel

/-- tests/ieee.rs:4419 `float8e4m3fn_next`. -/
def t_float8e4m3fn_next_7 : M Unit := do
  let t241 ← (ApiFloat.from_bits 60 : M Float8E4M3FN)
  let t242 ← (ApiFloat.from_bits 61 : M Float8E4M3FN)
  let t243 ← ApiFloat.next_up t241
  let t244 ← ApiFloat.bitwise_eq (t243).value t242
  check t244
  check (decide ((t243).status = Status.OK))
  let t245 ← (ApiFloat.from_bits 61 : M Float8E4M3FN)
  let t246 ← (ApiFloat.from_bits 62 : M Float8E4M3FN)
  let t247 ← ApiFloat.next_up t245
  let t248 ← ApiFloat.bitwise_eq (t247).value t246
  check t248
  check (decide ((t247).status = Status.OK))
  let t249 ← (ApiFloat.from_bits 62 : M Float8E4M3FN)
  let t250 ← (ApiFloat.from_bits 63 : M Float8E4M3FN)
  let t251 ← ApiFloat.next_up t249
  let t252 ← ApiFloat.bitwise_eq (t251).value t250
  check t252
  check (decide ((t251).status = Status.OK))
  let t253 ← (ApiFloat.from_bits 63 : M Float8E4M3FN)
  let t254 ← (ApiFloat.from_bits 64 : M Float8E4M3FN)
  let t255 ← ApiFloat.next_up t253
  let t256 ← ApiFloat.bitwise_eq (t255).value t254
  check t256
  check (decide ((t255).status = Status.OK))
  let t257 ← (ApiFloat.from_bits 64 : M Float8E4M3FN)
  let t258 ← (ApiFloat.from_bits 65 : M Float8E4M3FN)
  let t259 ← ApiFloat.next_up t257
  let t260 ← ApiFloat.bitwise_eq (t259).value t258
  check t260
  check (decide ((t259).status = Status.OK))
  let t261 ← (ApiFloat.from_bits 65 : M Float8E4M3FN)
  let t262 ← (ApiFloat.from_bits 66 : M Float8E4M3FN)
  let t263 ← ApiFloat.next_up t261
  let t264 ← ApiFloat.bitwise_eq (t263).value t262
  check t264
  check (decide ((t263).status = Status.OK))
  let t265 ← (ApiFloat.from_bits 66 : M Float8E4M3FN)
  let t266 ← (ApiFloat.from_bits 67 : M Float8E4M3FN)
  let t267 ← ApiFloat.next_up t265
  let t268 ← ApiFloat.bitwise_eq (t267).value t266
  check t268
  check (decide ((t267).status = Status.OK))
  let t269 ← (ApiFloat.from_bits 67 : M Float8E4M3FN)
  let t270 ← (ApiFloat.from_bits 68 : M Float8E4M3FN)
  let t271 ← ApiFloat.next_up t269
  let t272 ← ApiFloat.bitwise_eq (t271).value t270
  check t272
  check (decide ((t271).status = Status.OK))
  let t273 ← (ApiFloat.from_bits 68 : M Float8E4M3FN)
  let t274 ← (ApiFloat.from_bits 69 : M Float8E4M3FN)
  let t275 ← ApiFloat.next_up t273
  let t276 ← ApiFloat.bitwise_eq (t275).value t274
  check t276
  check (decide ((t275).status = Status.OK))
  let t277 ← (ApiFloat.from_bits 69 : M Float8E4M3FN)
  let t278 ← (ApiFloat.from_bits 70 : M Float8E4M3FN)
  let t279 ← ApiFloat.next_up t277
  let t280 ← ApiFloat.bitwise_eq (t279).value t278
  check t280
  check (decide ((t279).status = Status.OK))

example : passes t_float8e4m3fn_next_7 = true := by decide +kernel

/-- tests/ieee.rs:4419 `float8e4m3fn_next`. -/
def t_float8e4m3fn_next_8 : M Unit := do
  let t281 ← (ApiFloat.from_bits 70 : M Float8E4M3FN)
  let t282 ← (ApiFloat.from_bits 71 : M Float8E4M3FN)
  let t283 ← ApiFloat.next_up t281
  let t284 ← ApiFloat.bitwise_eq (t283).value t282
  check t284
  check (decide ((t283).status = Status.OK))
  let t285 ← (ApiFloat.from_bits 71 : M Float8E4M3FN)
  let t286 ← (ApiFloat.from_bits 72 : M Float8E4M3FN)
  let t287 ← ApiFloat.next_up t285
  let t288 ← ApiFloat.bitwise_eq (t287).value t286
  check t288
  check (decide ((t287).status = Status.OK))
  let t289 ← (ApiFloat.from_bits 72 : M Float8E4M3FN)
  let t290 ← (ApiFloat.from_bits 73 : M Float8E4M3FN)
  let t291 ← ApiFloat.next_up t289
  let t292 ← ApiFloat.bitwise_eq (t291).value t290
  check t292
  check (decide ((t291).status = Status.OK))
  let t293 ← (ApiFloat.from_bits 73 : M Float8E4M3FN)
  let t294 ← (ApiFloat.from_bits 74 : M Float8E4M3FN)
  let t295 ← ApiFloat.next_up t293
  let t296 ← ApiFloat.bitwise_eq (t295).value t294
  check t296
  check (decide ((t295).status = Status.OK))
  let t297 ← (ApiFloat.from_bits 74 : M Float8E4M3FN)
  let t298 ← (ApiFloat.from_bits 75 : M Float8E4M3FN)
  let t299 ← ApiFloat.next_up t297
  let t300 ← ApiFloat.bitwise_eq (t299).value t298
  check t300
  check (decide ((t299).status = Status.OK))
  let t301 ← (ApiFloat.from_bits 75 : M Float8E4M3FN)
  let t302 ← (ApiFloat.from_bits 76 : M Float8E4M3FN)
  let t303 ← ApiFloat.next_up t301
  let t304 ← ApiFloat.bitwise_eq (t303).value t302
  check t304
  check (decide ((t303).status = Status.OK))
  let t305 ← (ApiFloat.from_bits 76 : M Float8E4M3FN)
  let t306 ← (ApiFloat.from_bits 77 : M Float8E4M3FN)
  let t307 ← ApiFloat.next_up t305
  let t308 ← ApiFloat.bitwise_eq (t307).value t306
  check t308
  check (decide ((t307).status = Status.OK))
  let t309 ← (ApiFloat.from_bits 77 : M Float8E4M3FN)
  let t310 ← (ApiFloat.from_bits 78 : M Float8E4M3FN)
  let t311 ← ApiFloat.next_up t309
  let t312 ← ApiFloat.bitwise_eq (t311).value t310
  check t312
  check (decide ((t311).status = Status.OK))
  let t313 ← (ApiFloat.from_bits 78 : M Float8E4M3FN)
  let t314 ← (ApiFloat.from_bits 79 : M Float8E4M3FN)
  let t315 ← ApiFloat.next_up t313
  let t316 ← ApiFloat.bitwise_eq (t315).value t314
  check t316
  check (decide ((t315).status = Status.OK))
  let t317 ← (ApiFloat.from_bits 79 : M Float8E4M3FN)
  let t318 ← (ApiFloat.from_bits 80 : M Float8E4M3FN)
  let t319 ← ApiFloat.next_up t317
  let t320 ← ApiFloat.bitwise_eq (t319).value t318
  check t320
  check (decide ((t319).status = Status.OK))

example : passes t_float8e4m3fn_next_8 = true := by decide +kernel

/-- tests/ieee.rs:4419 `float8e4m3fn_next`. -/
def t_float8e4m3fn_next_9 : M Unit := do
  let t321 ← (ApiFloat.from_bits 80 : M Float8E4M3FN)
  let t322 ← (ApiFloat.from_bits 81 : M Float8E4M3FN)
  let t323 ← ApiFloat.next_up t321
  let t324 ← ApiFloat.bitwise_eq (t323).value t322
  check t324
  check (decide ((t323).status = Status.OK))
  let t325 ← (ApiFloat.from_bits 81 : M Float8E4M3FN)
  let t326 ← (ApiFloat.from_bits 82 : M Float8E4M3FN)
  let t327 ← ApiFloat.next_up t325
  let t328 ← ApiFloat.bitwise_eq (t327).value t326
  check t328
  check (decide ((t327).status = Status.OK))
  let t329 ← (ApiFloat.from_bits 82 : M Float8E4M3FN)
  let t330 ← (ApiFloat.from_bits 83 : M Float8E4M3FN)
  let t331 ← ApiFloat.next_up t329
  let t332 ← ApiFloat.bitwise_eq (t331).value t330
  check t332
  check (decide ((t331).status = Status.OK))
  let t333 ← (ApiFloat.from_bits 83 : M Float8E4M3FN)
  let t334 ← (ApiFloat.from_bits 84 : M Float8E4M3FN)
  let t335 ← ApiFloat.next_up t333
  let t336 ← ApiFloat.bitwise_eq (t335).value t334
  check t336
  check (decide ((t335).status = Status.OK))
  let t337 ← (ApiFloat.from_bits 84 : M Float8E4M3FN)
  let t338 ← (ApiFloat.from_bits 85 : M Float8E4M3FN)
  let t339 ← ApiFloat.next_up t337
  let t340 ← ApiFloat.bitwise_eq (t339).value t338
  check t340
  check (decide ((t339).status = Status.OK))
  let t341 ← (ApiFloat.from_bits 85 : M Float8E4M3FN)
  let t342 ← (ApiFloat.from_bits 86 : M Float8E4M3FN)
  let t343 ← ApiFloat.next_up t341
  let t344 ← ApiFloat.bitwise_eq (t343).value t342
  check t344
  check (decide ((t343).status = Status.OK))
  let t345 ← (ApiFloat.from_bits 86 : M Float8E4M3FN)
  let t346 ← (ApiFloat.from_bits 87 : M Float8E4M3FN)
  let t347 ← ApiFloat.next_up t345
  let t348 ← ApiFloat.bitwise_eq (t347).value t346
  check t348
  check (decide ((t347).status = Status.OK))
  let t349 ← (ApiFloat.from_bits 87 : M Float8E4M3FN)
  let t350 ← (ApiFloat.from_bits 88 : M Float8E4M3FN)
  let t351 ← ApiFloat.next_up t349
  let t352 ← ApiFloat.bitwise_eq (t351).value t350
  check t352
  check (decide ((t351).status = Status.OK))
  let t353 ← (ApiFloat.from_bits 88 : M Float8E4M3FN)
  let t354 ← (ApiFloat.from_bits 89 : M Float8E4M3FN)
  let t355 ← ApiFloat.next_up t353
  let t356 ← ApiFloat.bitwise_eq (t355).value t354
  check t356
  check (decide ((t355).status = Status.OK))
  let t357 ← (ApiFloat.from_bits 89 : M Float8E4M3FN)
  let t358 ← (ApiFloat.from_bits 90 : M Float8E4M3FN)
  let t359 ← ApiFloat.next_up t357
  let t360 ← ApiFloat.bitwise_eq (t359).value t358
  check t360
  check (decide ((t359).status = Status.OK))

example : passes t_float8e4m3fn_next_9 = true := by decide +kernel

/-- tests/ieee.rs:4419 `float8e4m3fn_next`. -/
def t_float8e4m3fn_next_10 : M Unit := do
  let t361 ← (ApiFloat.from_bits 90 : M Float8E4M3FN)
  let t362 ← (ApiFloat.from_bits 91 : M Float8E4M3FN)
  let t363 ← ApiFloat.next_up t361
  let t364 ← ApiFloat.bitwise_eq (t363).value t362
  check t364
  check (decide ((t363).status = Status.OK))
  let t365 ← (ApiFloat.from_bits 91 : M Float8E4M3FN)
  let t366 ← (ApiFloat.from_bits 92 : M Float8E4M3FN)
  let t367 ← ApiFloat.next_up t365
  let t368 ← ApiFloat.bitwise_eq (t367).value t366
  check t368
  check (decide ((t367).status = Status.OK))
  let t369 ← (ApiFloat.from_bits 92 : M Float8E4M3FN)
  let t370 ← (ApiFloat.from_bits 93 : M Float8E4M3FN)
  let t371 ← ApiFloat.next_up t369
  let t372 ← ApiFloat.bitwise_eq (t371).value t370
  check t372
  check (decide ((t371).status = Status.OK))
  let t373 ← (ApiFloat.from_bits 93 : M Float8E4M3FN)
  let t374 ← (ApiFloat.from_bits 94 : M Float8E4M3FN)
  let t375 ← ApiFloat.next_up t373
  let t376 ← ApiFloat.bitwise_eq (t375).value t374
  check t376
  check (decide ((t375).status = Status.OK))
  let t377 ← (ApiFloat.from_bits 94 : M Float8E4M3FN)
  let t378 ← (ApiFloat.from_bits 95 : M Float8E4M3FN)
  let t379 ← ApiFloat.next_up t377
  let t380 ← ApiFloat.bitwise_eq (t379).value t378
  check t380
  check (decide ((t379).status = Status.OK))
  let t381 ← (ApiFloat.from_bits 95 : M Float8E4M3FN)
  let t382 ← (ApiFloat.from_bits 96 : M Float8E4M3FN)
  let t383 ← ApiFloat.next_up t381
  let t384 ← ApiFloat.bitwise_eq (t383).value t382
  check t384
  check (decide ((t383).status = Status.OK))
  let t385 ← (ApiFloat.from_bits 96 : M Float8E4M3FN)
  let t386 ← (ApiFloat.from_bits 97 : M Float8E4M3FN)
  let t387 ← ApiFloat.next_up t385
  let t388 ← ApiFloat.bitwise_eq (t387).value t386
  check t388
  check (decide ((t387).status = Status.OK))
  let t389 ← (ApiFloat.from_bits 97 : M Float8E4M3FN)
  let t390 ← (ApiFloat.from_bits 98 : M Float8E4M3FN)
  let t391 ← ApiFloat.next_up t389
  let t392 ← ApiFloat.bitwise_eq (t391).value t390
  check t392
  check (decide ((t391).status = Status.OK))
  let t393 ← (ApiFloat.from_bits 98 : M Float8E4M3FN)
  let t394 ← (ApiFloat.from_bits 99 : M Float8E4M3FN)
  let t395 ← ApiFloat.next_up t393
  let t396 ← ApiFloat.bitwise_eq (t395).value t394
  check t396
  check (decide ((t395).status = Status.OK))
  let t397 ← (ApiFloat.from_bits 99 : M Float8E4M3FN)
  let t398 ← (ApiFloat.from_bits 100 : M Float8E4M3FN)
  let t399 ← ApiFloat.next_up t397
  let t400 ← ApiFloat.bitwise_eq (t399).value t398
  check t400
  check (decide ((t399).status = Status.OK))

example : passes t_float8e4m3fn_next_10 = true := by decide +kernel

/-- tests/ieee.rs:4419 `float8e4m3fn_next`. -/
def t_float8e4m3fn_next_11 : M Unit := do
  let t401 ← (ApiFloat.from_bits 100 : M Float8E4M3FN)
  let t402 ← (ApiFloat.from_bits 101 : M Float8E4M3FN)
  let t403 ← ApiFloat.next_up t401
  let t404 ← ApiFloat.bitwise_eq (t403).value t402
  check t404
  check (decide ((t403).status = Status.OK))
  let t405 ← (ApiFloat.from_bits 101 : M Float8E4M3FN)
  let t406 ← (ApiFloat.from_bits 102 : M Float8E4M3FN)
  let t407 ← ApiFloat.next_up t405
  let t408 ← ApiFloat.bitwise_eq (t407).value t406
  check t408
  check (decide ((t407).status = Status.OK))
  let t409 ← (ApiFloat.from_bits 102 : M Float8E4M3FN)
  let t410 ← (ApiFloat.from_bits 103 : M Float8E4M3FN)
  let t411 ← ApiFloat.next_up t409
  let t412 ← ApiFloat.bitwise_eq (t411).value t410
  check t412
  check (decide ((t411).status = Status.OK))
  let t413 ← (ApiFloat.from_bits 103 : M Float8E4M3FN)
  let t414 ← (ApiFloat.from_bits 104 : M Float8E4M3FN)
  let t415 ← ApiFloat.next_up t413
  let t416 ← ApiFloat.bitwise_eq (t415).value t414
  check t416
  check (decide ((t415).status = Status.OK))
  let t417 ← (ApiFloat.from_bits 104 : M Float8E4M3FN)
  let t418 ← (ApiFloat.from_bits 105 : M Float8E4M3FN)
  let t419 ← ApiFloat.next_up t417
  let t420 ← ApiFloat.bitwise_eq (t419).value t418
  check t420
  check (decide ((t419).status = Status.OK))
  let t421 ← (ApiFloat.from_bits 105 : M Float8E4M3FN)
  let t422 ← (ApiFloat.from_bits 106 : M Float8E4M3FN)
  let t423 ← ApiFloat.next_up t421
  let t424 ← ApiFloat.bitwise_eq (t423).value t422
  check t424
  check (decide ((t423).status = Status.OK))
  let t425 ← (ApiFloat.from_bits 106 : M Float8E4M3FN)
  let t426 ← (ApiFloat.from_bits 107 : M Float8E4M3FN)
  let t427 ← ApiFloat.next_up t425
  let t428 ← ApiFloat.bitwise_eq (t427).value t426
  check t428
  check (decide ((t427).status = Status.OK))
  let t429 ← (ApiFloat.from_bits 107 : M Float8E4M3FN)
  let t430 ← (ApiFloat.from_bits 108 : M Float8E4M3FN)
  let t431 ← ApiFloat.next_up t429
  let t432 ← ApiFloat.bitwise_eq (t431).value t430
  check t432
  check (decide ((t431).status = Status.OK))
  let t433 ← (ApiFloat.from_bits 108 : M Float8E4M3FN)
  let t434 ← (ApiFloat.from_bits 109 : M Float8E4M3FN)
  let t435 ← ApiFloat.next_up t433
  let t436 ← ApiFloat.bitwise_eq (t435).value t434
  check t436
  check (decide ((t435).status = Status.OK))
  let t437 ← (ApiFloat.from_bits 109 : M Float8E4M3FN)
  let t438 ← (ApiFloat.from_bits 110 : M Float8E4M3FN)
  let t439 ← ApiFloat.next_up t437
  let t440 ← ApiFloat.bitwise_eq (t439).value t438
  check t440
  check (decide ((t439).status = Status.OK))

example : passes t_float8e4m3fn_next_11 = true := by decide +kernel

/-- tests/ieee.rs:4419 `float8e4m3fn_next`. -/
def t_float8e4m3fn_next_12 : M Unit := do
  let t441 ← (ApiFloat.from_bits 110 : M Float8E4M3FN)
  let t442 ← (ApiFloat.from_bits 111 : M Float8E4M3FN)
  let t443 ← ApiFloat.next_up t441
  let t444 ← ApiFloat.bitwise_eq (t443).value t442
  check t444
  check (decide ((t443).status = Status.OK))
  let t445 ← (ApiFloat.from_bits 111 : M Float8E4M3FN)
  let t446 ← (ApiFloat.from_bits 112 : M Float8E4M3FN)
  let t447 ← ApiFloat.next_up t445
  let t448 ← ApiFloat.bitwise_eq (t447).value t446
  check t448
  check (decide ((t447).status = Status.OK))
  let t449 ← (ApiFloat.from_bits 112 : M Float8E4M3FN)
  let t450 ← (ApiFloat.from_bits 113 : M Float8E4M3FN)
  let t451 ← ApiFloat.next_up t449
  let t452 ← ApiFloat.bitwise_eq (t451).value t450
  check t452
  check (decide ((t451).status = Status.OK))
  let t453 ← (ApiFloat.from_bits 113 : M Float8E4M3FN)
  let t454 ← (ApiFloat.from_bits 114 : M Float8E4M3FN)
  let t455 ← ApiFloat.next_up t453
  let t456 ← ApiFloat.bitwise_eq (t455).value t454
  check t456
  check (decide ((t455).status = Status.OK))
  let t457 ← (ApiFloat.from_bits 114 : M Float8E4M3FN)
  let t458 ← (ApiFloat.from_bits 115 : M Float8E4M3FN)
  let t459 ← ApiFloat.next_up t457
  let t460 ← ApiFloat.bitwise_eq (t459).value t458
  check t460
  check (decide ((t459).status = Status.OK))
  let t461 ← (ApiFloat.from_bits 115 : M Float8E4M3FN)
  let t462 ← (ApiFloat.from_bits 116 : M Float8E4M3FN)
  let t463 ← ApiFloat.next_up t461
  let t464 ← ApiFloat.bitwise_eq (t463).value t462
  check t464
  check (decide ((t463).status = Status.OK))
  let t465 ← (ApiFloat.from_bits 116 : M Float8E4M3FN)
  let t466 ← (ApiFloat.from_bits 117 : M Float8E4M3FN)
  let t467 ← ApiFloat.next_up t465
  let t468 ← ApiFloat.bitwise_eq (t467).value t466
  check t468
  check (decide ((t467).status = Status.OK))
  let t469 ← (ApiFloat.from_bits 117 : M Float8E4M3FN)
  let t470 ← (ApiFloat.from_bits 118 : M Float8E4M3FN)
  let t471 ← ApiFloat.next_up t469
  let t472 ← ApiFloat.bitwise_eq (t471).value t470
  check t472
  check (decide ((t471).status = Status.OK))
  let t473 ← (ApiFloat.from_bits 118 : M Float8E4M3FN)
  let t474 ← (ApiFloat.from_bits 119 : M Float8E4M3FN)
  let t475 ← ApiFloat.next_up t473
  let t476 ← ApiFloat.bitwise_eq (t475).value t474
  check t476
  check (decide ((t475).status = Status.OK))
  let t477 ← (ApiFloat.from_bits 119 : M Float8E4M3FN)
  let t478 ← (ApiFloat.from_bits 120 : M Float8E4M3FN)
  let t479 ← ApiFloat.next_up t477
  let t480 ← ApiFloat.bitwise_eq (t479).value t478
  check t480
  check (decide ((t479).status = Status.OK))

example : passes t_float8e4m3fn_next_12 = true := by decide +kernel

/-- tests/ieee.rs:4419 `float8e4m3fn_next`. -/
def t_float8e4m3fn_next_13 : M Unit := do
  let t481 ← (ApiFloat.from_bits 120 : M Float8E4M3FN)
  let t482 ← (ApiFloat.from_bits 121 : M Float8E4M3FN)
  let t483 ← ApiFloat.next_up t481
  let t484 ← ApiFloat.bitwise_eq (t483).value t482
  check t484
  check (decide ((t483).status = Status.OK))
  let t485 ← (ApiFloat.from_bits 121 : M Float8E4M3FN)
  let t486 ← (ApiFloat.from_bits 122 : M Float8E4M3FN)
  let t487 ← ApiFloat.next_up t485
  let t488 ← ApiFloat.bitwise_eq (t487).value t486
  check t488
  check (decide ((t487).status = Status.OK))
  let t489 ← (ApiFloat.from_bits 122 : M Float8E4M3FN)
  let t490 ← (ApiFloat.from_bits 123 : M Float8E4M3FN)
  let t491 ← ApiFloat.next_up t489
  let t492 ← ApiFloat.bitwise_eq (t491).value t490
  check t492
  check (decide ((t491).status = Status.OK))
  let t493 ← (ApiFloat.from_bits 123 : M Float8E4M3FN)
  let t494 ← (ApiFloat.from_bits 124 : M Float8E4M3FN)
  let t495 ← ApiFloat.next_up t493
  let t496 ← ApiFloat.bitwise_eq (t495).value t494
  check t496
  check (decide ((t495).status = Status.OK))
  let t497 ← (ApiFloat.from_bits 124 : M Float8E4M3FN)
  let t498 ← (ApiFloat.from_bits 125 : M Float8E4M3FN)
  let t499 ← ApiFloat.next_up t497
  let t500 ← ApiFloat.bitwise_eq (t499).value t498
  check t500
  check (decide ((t499).status = Status.OK))
  let t501 ← (ApiFloat.from_bits 125 : M Float8E4M3FN)
  let t502 ← (ApiFloat.from_bits 126 : M Float8E4M3FN)
  let t503 ← ApiFloat.next_up t501
  let t504 ← ApiFloat.bitwise_eq (t503).value t502
  check t504
  check (decide ((t503).status = Status.OK))
  let t505 ← (ApiFloat.from_bits 126 : M Float8E4M3FN)
  let t506 ← (ApiFloat.from_bits 127 : M Float8E4M3FN)
  let t507 ← ApiFloat.next_up t505
  let t508 ← ApiFloat.bitwise_eq (t507).value t506
  check t508
  check (decide ((t507).status = Status.OK))
  let t509 ← (ApiFloat.ZERO : M Float8E4M3FN)
  let t510 ← ApiFloat.neg t509
  let t511 ← (ApiFloat.SMALLEST : M Float8E4M3FN)
  let t512 ← ApiFloat.next_up t510
  let t513 ← ApiFloat.bitwise_eq (t512).value t511
  check t513
  check (decide ((t512).status = Status.OK))
  let t514 ← (ApiFloat.from_bits 129 : M Float8E4M3FN)
  let t515 ← (ApiFloat.from_bits 128 : M Float8E4M3FN)
  let t516 ← ApiFloat.next_up t514
  let t517 ← ApiFloat.bitwise_eq (t516).value t515
  check t517
  check (decide ((t516).status = Status.OK))
  let t518 ← (ApiFloat.from_bits 130 : M Float8E4M3FN)
  let t519 ← (ApiFloat.from_bits 129 : M Float8E4M3FN)
  let t520 ← ApiFloat.next_up t518
  let t521 ← ApiFloat.bitwise_eq (t520).value t519
  check t521

example : passes t_float8e4m3fn_next_13 = true := by decide +kernel

/-- tests/ieee.rs:4419 `float8e4m3fn_next`. -/
def t_float8e4m3fn_next_14 : M Unit := do
  let t518 ← (ApiFloat.from_bits 130 : M Float8E4M3FN)
  let t520 ← ApiFloat.next_up t518
  check (decide ((t520).status = Status.OK))
  let t522 ← (ApiFloat.from_bits 131 : M Float8E4M3FN)
  let t523 ← (ApiFloat.from_bits 130 : M Float8E4M3FN)
  let t524 ← ApiFloat.next_up t522
  let t525 ← ApiFloat.bitwise_eq (t524).value t523
  check t525
  check (decide ((t524).status = Status.OK))
  let t526 ← (ApiFloat.from_bits 132 : M Float8E4M3FN)
  let t527 ← (ApiFloat.from_bits 131 : M Float8E4M3FN)
  let t528 ← ApiFloat.next_up t526
  let t529 ← ApiFloat.bitwise_eq (t528).value t527
  check t529
  check (decide ((t528).status = Status.OK))
  let t530 ← (ApiFloat.from_bits 133 : M Float8E4M3FN)
  let t531 ← (ApiFloat.from_bits 132 : M Float8E4M3FN)
  let t532 ← ApiFloat.next_up t530
  let t533 ← ApiFloat.bitwise_eq (t532).value t531
  check t533
  check (decide ((t532).status = Status.OK))
  let t534 ← (ApiFloat.from_bits 134 : M Float8E4M3FN)
  let t535 ← (ApiFloat.from_bits 133 : M Float8E4M3FN)
  let t536 ← ApiFloat.next_up t534
  let t537 ← ApiFloat.bitwise_eq (t536).value t535
  check t537
  check (decide ((t536).status = Status.OK))
  let t538 ← (ApiFloat.from_bits 135 : M Float8E4M3FN)
  let t539 ← (ApiFloat.from_bits 134 : M Float8E4M3FN)
  let t540 ← ApiFloat.next_up t538
  let t541 ← ApiFloat.bitwise_eq (t540).value t539
  check t541
  check (decide ((t540).status = Status.OK))
  let t542 ← (ApiFloat.from_bits 136 : M Float8E4M3FN)
  let t543 ← (ApiFloat.from_bits 135 : M Float8E4M3FN)
  let t544 ← ApiFloat.next_up t542
  let t545 ← ApiFloat.bitwise_eq (t544).value t543
  check t545
  check (decide ((t544).status = Status.OK))
  let t546 ← (ApiFloat.from_bits 137 : M Float8E4M3FN)
  let t547 ← (ApiFloat.from_bits 136 : M Float8E4M3FN)
  let t548 ← ApiFloat.next_up t546
  let t549 ← ApiFloat.bitwise_eq (t548).value t547
  check t549
  check (decide ((t548).status = Status.OK))
  let t550 ← (ApiFloat.from_bits 138 : M Float8E4M3FN)
  let t551 ← (ApiFloat.from_bits 137 : M Float8E4M3FN)
  let t552 ← ApiFloat.next_up t550
  let t553 ← ApiFloat.bitwise_eq (t552).value t551
  check t553
  check (decide ((t552).status = Status.OK))
  let t554 ← (ApiFloat.from_bits 139 : M Float8E4M3FN)
  let t555 ← (ApiFloat.from_bits 138 : M Float8E4M3FN)
  let t556 ← ApiFloat.next_up t554
  let t557 ← ApiFloat.bitwise_eq (t556).value t555
  check t557
  check (decide ((t556).status = Status.OK))
  let t558 ← (ApiFloat.from_bits 140 : M Float8E4M3FN)
  let t559 ← (ApiFloat.from_bits 139 : M Float8E4M3FN)
  let t560 ← ApiFloat.next_up t558
  let t561 ← ApiFloat.bitwise_eq (t560).value t559
  check t561

example : passes t_float8e4m3fn_next_14 = true := by decide +kernel

/-- tests/ieee.rs:4419 `float8e4m3fn_next`. -/
def t_float8e4m3fn_next_15 : M Unit := do
  let t558 ← (ApiFloat.from_bits 140 : M Float8E4M3FN)
  let t560 ← ApiFloat.next_up t558
  check (decide ((t560).status = Status.OK))
  let t562 ← (ApiFloat.from_bits 141 : M Float8E4M3FN)
  let t563 ← (ApiFloat.from_bits 140 : M Float8E4M3FN)
  let t564 ← ApiFloat.next_up t562
  let t565 ← ApiFloat.bitwise_eq (t564).value t563
  check t565
  check (decide ((t564).status = Status.OK))
  let t566 ← (ApiFloat.from_bits 142 : M Float8E4M3FN)
  let t567 ← (ApiFloat.from_bits 141 : M Float8E4M3FN)
  let t568 ← ApiFloat.next_up t566
  let t569 ← ApiFloat.bitwise_eq (t568).value t567
  check t569
  check (decide ((t568).status = Status.OK))
  let t570 ← (ApiFloat.from_bits 143 : M Float8E4M3FN)
  let t571 ← (ApiFloat.from_bits 142 : M Float8E4M3FN)
  let t572 ← ApiFloat.next_up t570
  let t573 ← ApiFloat.bitwise_eq (t572).value t571
  check t573
  check (decide ((t572).status = Status.OK))
  let t574 ← (ApiFloat.from_bits 144 : M Float8E4M3FN)
  let t575 ← (ApiFloat.from_bits 143 : M Float8E4M3FN)
  let t576 ← ApiFloat.next_up t574
  let t577 ← ApiFloat.bitwise_eq (t576).value t575
  check t577
  check (decide ((t576).status = Status.OK))
  let t578 ← (ApiFloat.from_bits 145 : M Float8E4M3FN)
  let t579 ← (ApiFloat.from_bits 144 : M Float8E4M3FN)
  let t580 ← ApiFloat.next_up t578
  let t581 ← ApiFloat.bitwise_eq (t580).value t579
  check t581
  check (decide ((t580).status = Status.OK))
  let t582 ← (ApiFloat.from_bits 146 : M Float8E4M3FN)
  let t583 ← (ApiFloat.from_bits 145 : M Float8E4M3FN)
  let t584 ← ApiFloat.next_up t582
  let t585 ← ApiFloat.bitwise_eq (t584).value t583
  check t585
  check (decide ((t584).status = Status.OK))
  let t586 ← (ApiFloat.from_bits 147 : M Float8E4M3FN)
  let t587 ← (ApiFloat.from_bits 146 : M Float8E4M3FN)
  let t588 ← ApiFloat.next_up t586
  let t589 ← ApiFloat.bitwise_eq (t588).value t587
  check t589
  check (decide ((t588).status = Status.OK))
  let t590 ← (ApiFloat.from_bits 148 : M Float8E4M3FN)
  let t591 ← (ApiFloat.from_bits 147 : M Float8E4M3FN)
  let t592 ← ApiFloat.next_up t590
  let t593 ← ApiFloat.bitwise_eq (t592).value t591
  check t593
  check (decide ((t592).status = Status.OK))
  let t594 ← (ApiFloat.from_bits 149 : M Float8E4M3FN)
  let t595 ← (ApiFloat.from_bits 148 : M Float8E4M3FN)
  let t596 ← ApiFloat.next_up t594
  let t597 ← ApiFloat.bitwise_eq (t596).value t595
  check t597
  check (decide ((t596).status = Status.OK))
  let t598 ← (ApiFloat.from_bits 150 : M Float8E4M3FN)
  let t599 ← (ApiFloat.from_bits 149 : M Float8E4M3FN)
  let t600 ← ApiFloat.next_up t598
  let t601 ← ApiFloat.bitwise_eq (t600).value t599
  check t601

example : passes t_float8e4m3fn_next_15 = true := by decide +kernel

/-- tests/ieee.rs:4419 `float8e4m3fn_next`. -/
def t_float8e4m3fn_next_16 : M Unit := do
  let t598 ← (ApiFloat.from_bits 150 : M Float8E4M3FN)
  let t600 ← ApiFloat.next_up t598
  check (decide ((t600).status = Status.OK))
  let t602 ← (ApiFloat.from_bits 151 : M Float8E4M3FN)
  let t603 ← (ApiFloat.from_bits 150 : M Float8E4M3FN)
  let t604 ← ApiFloat.next_up t602
  let t605 ← ApiFloat.bitwise_eq (t604).value t603
  check t605
  check (decide ((t604).status = Status.OK))
  let t606 ← (ApiFloat.from_bits 152 : M Float8E4M3FN)
  let t607 ← (ApiFloat.from_bits 151 : M Float8E4M3FN)
  let t608 ← ApiFloat.next_up t606
  let t609 ← ApiFloat.bitwise_eq (t608).value t607
  check t609
  check (decide ((t608).status = Status.OK))
  let t610 ← (ApiFloat.from_bits 153 : M Float8E4M3FN)
  let t611 ← (ApiFloat.from_bits 152 : M Float8E4M3FN)
  let t612 ← ApiFloat.next_up t610
  let t613 ← ApiFloat.bitwise_eq (t612).value t611
  check t613
  check (decide ((t612).status = Status.OK))
  let t614 ← (ApiFloat.from_bits 154 : M Float8E4M3FN)
  let t615 ← (ApiFloat.from_bits 153 : M Float8E4M3FN)
  let t616 ← ApiFloat.next_up t614
  let t617 ← ApiFloat.bitwise_eq (t616).value t615
  check t617
  check (decide ((t616).status = Status.OK))
  let t618 ← (ApiFloat.from_bits 155 : M Float8E4M3FN)
  let t619 ← (ApiFloat.from_bits 154 : M Float8E4M3FN)
  let t620 ← ApiFloat.next_up t618
  let t621 ← ApiFloat.bitwise_eq (t620).value t619
  check t621
  check (decide ((t620).status = Status.OK))
  let t622 ← (ApiFloat.from_bits 156 : M Float8E4M3FN)
  let t623 ← (ApiFloat.from_bits 155 : M Float8E4M3FN)
  let t624 ← ApiFloat.next_up t622
  let t625 ← ApiFloat.bitwise_eq (t624).value t623
  check t625
  check (decide ((t624).status = Status.OK))
  let t626 ← (ApiFloat.from_bits 157 : M Float8E4M3FN)
  let t627 ← (ApiFloat.from_bits 156 : M Float8E4M3FN)
  let t628 ← ApiFloat.next_up t626
  let t629 ← ApiFloat.bitwise_eq (t628).value t627
  check t629
  check (decide ((t628).status = Status.OK))
  let t630 ← (ApiFloat.from_bits 158 : M Float8E4M3FN)
  let t631 ← (ApiFloat.from_bits 157 : M Float8E4M3FN)
  let t632 ← ApiFloat.next_up t630
  let t633 ← ApiFloat.bitwise_eq (t632).value t631
  check t633
  check (decide ((t632).status = Status.OK))
  let t634 ← (ApiFloat.from_bits 159 : M Float8E4M3FN)
  let t635 ← (ApiFloat.from_bits 158 : M Float8E4M3FN)
  let t636 ← ApiFloat.next_up t634
  let t637 ← ApiFloat.bitwise_eq (t636).value t635
  check t637
  check (decide ((t636).status = Status.OK))
  let t638 ← (ApiFloat.from_bits 160 : M Float8E4M3FN)
  let t639 ← (ApiFloat.from_bits 159 : M Float8E4M3FN)
  let t640 ← ApiFloat.next_up t638
  let t641 ← ApiFloat.bitwise_eq (t640).value t639
  check t641

example : passes t_float8e4m3fn_next_16 = true := by decide +kernel

/-- tests/ieee.rs:4419 `float8e4m3fn_next`. -/
def t_float8e4m3fn_next_17 : M Unit := do
  let t638 ← (ApiFloat.from_bits 160 : M Float8E4M3FN)
  let t640 ← ApiFloat.next_up t638
  check (decide ((t640).status = Status.OK))
  let t642 ← (ApiFloat.from_bits 161 : M Float8E4M3FN)
  let t643 ← (ApiFloat.from_bits 160 : M Float8E4M3FN)
  let t644 ← ApiFloat.next_up t642
  let t645 ← ApiFloat.bitwise_eq (t644).value t643
  check t645
  check (decide ((t644).status = Status.OK))
  let t646 ← (ApiFloat.from_bits 162 : M Float8E4M3FN)
  let t647 ← (ApiFloat.from_bits 161 : M Float8E4M3FN)
  let t648 ← ApiFloat.next_up t646
  let t649 ← ApiFloat.bitwise_eq (t648).value t647
  check t649
  check (decide ((t648).status = Status.OK))
  let t650 ← (ApiFloat.from_bits 163 : M Float8E4M3FN)
  let t651 ← (ApiFloat.from_bits 162 : M Float8E4M3FN)
  let t652 ← ApiFloat.next_up t650
  let t653 ← ApiFloat.bitwise_eq (t652).value t651
  check t653
  check (decide ((t652).status = Status.OK))
  let t654 ← (ApiFloat.from_bits 164 : M Float8E4M3FN)
  let t655 ← (ApiFloat.from_bits 163 : M Float8E4M3FN)
  let t656 ← ApiFloat.next_up t654
  let t657 ← ApiFloat.bitwise_eq (t656).value t655
  check t657
  check (decide ((t656).status = Status.OK))
  let t658 ← (ApiFloat.from_bits 165 : M Float8E4M3FN)
  let t659 ← (ApiFloat.from_bits 164 : M Float8E4M3FN)
  let t660 ← ApiFloat.next_up t658
  let t661 ← ApiFloat.bitwise_eq (t660).value t659
  check t661
  check (decide ((t660).status = Status.OK))
  let t662 ← (ApiFloat.from_bits 166 : M Float8E4M3FN)
  let t663 ← (ApiFloat.from_bits 165 : M Float8E4M3FN)
  let t664 ← ApiFloat.next_up t662
  let t665 ← ApiFloat.bitwise_eq (t664).value t663
  check t665
  check (decide ((t664).status = Status.OK))
  let t666 ← (ApiFloat.from_bits 167 : M Float8E4M3FN)
  let t667 ← (ApiFloat.from_bits 166 : M Float8E4M3FN)
  let t668 ← ApiFloat.next_up t666
  let t669 ← ApiFloat.bitwise_eq (t668).value t667
  check t669
  check (decide ((t668).status = Status.OK))
  let t670 ← (ApiFloat.from_bits 168 : M Float8E4M3FN)
  let t671 ← (ApiFloat.from_bits 167 : M Float8E4M3FN)
  let t672 ← ApiFloat.next_up t670
  let t673 ← ApiFloat.bitwise_eq (t672).value t671
  check t673
  check (decide ((t672).status = Status.OK))
  let t674 ← (ApiFloat.from_bits 169 : M Float8E4M3FN)
  let t675 ← (ApiFloat.from_bits 168 : M Float8E4M3FN)
  let t676 ← ApiFloat.next_up t674
  let t677 ← ApiFloat.bitwise_eq (t676).value t675
  check t677
  check (decide ((t676).status = Status.OK))
  let t678 ← (ApiFloat.from_bits 170 : M Float8E4M3FN)
  let t679 ← (ApiFloat.from_bits 169 : M Float8E4M3FN)
  let t680 ← ApiFloat.next_up t678
  let t681 ← ApiFloat.bitwise_eq (t680).value t679
  check t681

example : passes t_float8e4m3fn_next_17 = true := by decide +kernel

/-- tests/ieee.rs:4419 `float8e4m3fn_next`. -/
def t_float8e4m3fn_next_18 : M Unit := do
  let t678 ← (ApiFloat.from_bits 170 : M Float8E4M3FN)
  let t680 ← ApiFloat.next_up t678
  check (decide ((t680).status = Status.OK))
  let t682 ← (ApiFloat.from_bits 171 : M Float8E4M3FN)
  let t683 ← (ApiFloat.from_bits 170 : M Float8E4M3FN)
  let t684 ← ApiFloat.next_up t682
  let t685 ← ApiFloat.bitwise_eq (t684).value t683
  check t685
  check (decide ((t684).status = Status.OK))
  let t686 ← (ApiFloat.from_bits 172 : M Float8E4M3FN)
  let t687 ← (ApiFloat.from_bits 171 : M Float8E4M3FN)
  let t688 ← ApiFloat.next_up t686
  let t689 ← ApiFloat.bitwise_eq (t688).value t687
  check t689
  check (decide ((t688).status = Status.OK))
  let t690 ← (ApiFloat.from_bits 173 : M Float8E4M3FN)
  let t691 ← (ApiFloat.from_bits 172 : M Float8E4M3FN)
  let t692 ← ApiFloat.next_up t690
  let t693 ← ApiFloat.bitwise_eq (t692).value t691
  check t693
  check (decide ((t692).status = Status.OK))
  let t694 ← (ApiFloat.from_bits 174 : M Float8E4M3FN)
  let t695 ← (ApiFloat.from_bits 173 : M Float8E4M3FN)
  let t696 ← ApiFloat.next_up t694
  let t697 ← ApiFloat.bitwise_eq (t696).value t695
  check t697
  check (decide ((t696).status = Status.OK))
  let t698 ← (ApiFloat.from_bits 175 : M Float8E4M3FN)
  let t699 ← (ApiFloat.from_bits 174 : M Float8E4M3FN)
  let t700 ← ApiFloat.next_up t698
  let t701 ← ApiFloat.bitwise_eq (t700).value t699
  check t701
  check (decide ((t700).status = Status.OK))
  let t702 ← (ApiFloat.from_bits 176 : M Float8E4M3FN)
  let t703 ← (ApiFloat.from_bits 175 : M Float8E4M3FN)
  let t704 ← ApiFloat.next_up t702
  let t705 ← ApiFloat.bitwise_eq (t704).value t703
  check t705
  check (decide ((t704).status = Status.OK))
  let t706 ← (ApiFloat.from_bits 177 : M Float8E4M3FN)
  let t707 ← (ApiFloat.from_bits 176 : M Float8E4M3FN)
  let t708 ← ApiFloat.next_up t706
  let t709 ← ApiFloat.bitwise_eq (t708).value t707
  check t709
  check (decide ((t708).status = Status.OK))
  let t710 ← (ApiFloat.from_bits 178 : M Float8E4M3FN)
  let t711 ← (ApiFloat.from_bits 177 : M Float8E4M3FN)
  let t712 ← ApiFloat.next_up t710
  let t713 ← ApiFloat.bitwise_eq (t712).value t711
  check t713
  check (decide ((t712).status = Status.OK))
  let t714 ← (ApiFloat.from_bits 179 : M Float8E4M3FN)
  let t715 ← (ApiFloat.from_bits 178 : M Float8E4M3FN)
  let t716 ← ApiFloat.next_up t714
  let t717 ← ApiFloat.bitwise_eq (t716).value t715
  check t717
  check (decide ((t716).status = Status.OK))
  let t718 ← (ApiFloat.from_bits 180 : M Float8E4M3FN)
  let t719 ← (ApiFloat.from_bits 179 : M Float8E4M3FN)
  let t720 ← ApiFloat.next_up t718
  let t721 ← ApiFloat.bitwise_eq (t720).value t719
  check t721

example : passes t_float8e4m3fn_next_18 = true := by decide +kernel

/-- tests/ieee.rs:4419 `float8e4m3fn_next`. -/
def t_float8e4m3fn_next_19 : M Unit := do
  let t718 ← (ApiFloat.from_bits 180 : M Float8E4M3FN)
  let t720 ← ApiFloat.next_up t718
  check (decide ((t720).status = Status.OK))
  let t722 ← (ApiFloat.from_bits 181 : M Float8E4M3FN)
  let t723 ← (ApiFloat.from_bits 180 : M Float8E4M3FN)
  let t724 ← ApiFloat.next_up t722
  let t725 ← ApiFloat.bitwise_eq (t724).value t723
  check t725
  check (decide ((t724).status = Status.OK))
  let t726 ← (ApiFloat.from_bits 182 : M Float8E4M3FN)
  let t727 ← (ApiFloat.from_bits 181 : M Float8E4M3FN)
  let t728 ← ApiFloat.next_up t726
  let t729 ← ApiFloat.bitwise_eq (t728).value t727
  check t729
  check (decide ((t728).status = Status.OK))
  let t730 ← (ApiFloat.from_bits 183 : M Float8E4M3FN)
  let t731 ← (ApiFloat.from_bits 182 : M Float8E4M3FN)
  let t732 ← ApiFloat.next_up t730
  let t733 ← ApiFloat.bitwise_eq (t732).value t731
  check t733
  check (decide ((t732).status = Status.OK))
  let t734 ← (ApiFloat.from_bits 184 : M Float8E4M3FN)
  let t735 ← (ApiFloat.from_bits 183 : M Float8E4M3FN)
  let t736 ← ApiFloat.next_up t734
  let t737 ← ApiFloat.bitwise_eq (t736).value t735
  check t737
  check (decide ((t736).status = Status.OK))
  let t738 ← (ApiFloat.from_bits 185 : M Float8E4M3FN)
  let t739 ← (ApiFloat.from_bits 184 : M Float8E4M3FN)
  let t740 ← ApiFloat.next_up t738
  let t741 ← ApiFloat.bitwise_eq (t740).value t739
  check t741
  check (decide ((t740).status = Status.OK))
  let t742 ← (ApiFloat.from_bits 186 : M Float8E4M3FN)
  let t743 ← (ApiFloat.from_bits 185 : M Float8E4M3FN)
  let t744 ← ApiFloat.next_up t742
  let t745 ← ApiFloat.bitwise_eq (t744).value t743
  check t745
  check (decide ((t744).status = Status.OK))
  let t746 ← (ApiFloat.from_bits 187 : M Float8E4M3FN)
  let t747 ← (ApiFloat.from_bits 186 : M Float8E4M3FN)
  let t748 ← ApiFloat.next_up t746
  let t749 ← ApiFloat.bitwise_eq (t748).value t747
  check t749
  check (decide ((t748).status = Status.OK))
  let t750 ← (ApiFloat.from_bits 188 : M Float8E4M3FN)
  let t751 ← (ApiFloat.from_bits 187 : M Float8E4M3FN)
  let t752 ← ApiFloat.next_up t750
  let t753 ← ApiFloat.bitwise_eq (t752).value t751
  check t753
  check (decide ((t752).status = Status.OK))
  let t754 ← (ApiFloat.from_bits 189 : M Float8E4M3FN)
  let t755 ← (ApiFloat.from_bits 188 : M Float8E4M3FN)
  let t756 ← ApiFloat.next_up t754
  let t757 ← ApiFloat.bitwise_eq (t756).value t755
  check t757
  check (decide ((t756).status = Status.OK))
  let t758 ← (ApiFloat.from_bits 190 : M Float8E4M3FN)
  let t759 ← (ApiFloat.from_bits 189 : M Float8E4M3FN)
  let t760 ← ApiFloat.next_up t758
  let t761 ← ApiFloat.bitwise_eq (t760).value t759
  check t761

example : passes t_float8e4m3fn_next_19 = true := by decide +kernel

/-- tests/ieee.rs:4419 `float8e4m3fn_next`. -/
def t_float8e4m3fn_next_20 : M Unit := do
  let t758 ← (ApiFloat.from_bits 190 : M Float8E4M3FN)
  let t760 ← ApiFloat.next_up t758
  check (decide ((t760).status = Status.OK))
  let t762 ← (ApiFloat.from_bits 191 : M Float8E4M3FN)
  let t763 ← (ApiFloat.from_bits 190 : M Float8E4M3FN)
  let t764 ← ApiFloat.next_up t762
  let t765 ← ApiFloat.bitwise_eq (t764).value t763
  check t765
  check (decide ((t764).status = Status.OK))
  let t766 ← (ApiFloat.from_bits 192 : M Float8E4M3FN)
  let t767 ← (ApiFloat.from_bits 191 : M Float8E4M3FN)
  let t768 ← ApiFloat.next_up t766
  let t769 ← ApiFloat.bitwise_eq (t768).value t767
  check t769
  check (decide ((t768).status = Status.OK))
  let t770 ← (ApiFloat.from_bits 193 : M Float8E4M3FN)
  let t771 ← (ApiFloat.from_bits 192 : M Float8E4M3FN)
  let t772 ← ApiFloat.next_up t770
  let t773 ← ApiFloat.bitwise_eq (t772).value t771
  check t773
  check (decide ((t772).status = Status.OK))
  let t774 ← (ApiFloat.from_bits 194 : M Float8E4M3FN)
  let t775 ← (ApiFloat.from_bits 193 : M Float8E4M3FN)
  let t776 ← ApiFloat.next_up t774
  let t777 ← ApiFloat.bitwise_eq (t776).value t775
  check t777
  check (decide ((t776).status = Status.OK))
  let t778 ← (ApiFloat.from_bits 195 : M Float8E4M3FN)
  let t779 ← (ApiFloat.from_bits 194 : M Float8E4M3FN)
  let t780 ← ApiFloat.next_up t778
  let t781 ← ApiFloat.bitwise_eq (t780).value t779
  check t781
  check (decide ((t780).status = Status.OK))
  let t782 ← (ApiFloat.from_bits 196 : M Float8E4M3FN)
  let t783 ← (ApiFloat.from_bits 195 : M Float8E4M3FN)
  let t784 ← ApiFloat.next_up t782
  let t785 ← ApiFloat.bitwise_eq (t784).value t783
  check t785
  check (decide ((t784).status = Status.OK))
  let t786 ← (ApiFloat.from_bits 197 : M Float8E4M3FN)
  let t787 ← (ApiFloat.from_bits 196 : M Float8E4M3FN)
  let t788 ← ApiFloat.next_up t786
  let t789 ← ApiFloat.bitwise_eq (t788).value t787
  check t789
  check (decide ((t788).status = Status.OK))
  let t790 ← (ApiFloat.from_bits 198 : M Float8E4M3FN)
  let t791 ← (ApiFloat.from_bits 197 : M Float8E4M3FN)
  let t792 ← ApiFloat.next_up t790
  let t793 ← ApiFloat.bitwise_eq (t792).value t791
  check t793
  check (decide ((t792).status = Status.OK))
  let t794 ← (ApiFloat.from_bits 199 : M Float8E4M3FN)
  let t795 ← (ApiFloat.from_bits 198 : M Float8E4M3FN)
  let t796 ← ApiFloat.next_up t794
  let t797 ← ApiFloat.bitwise_eq (t796).value t795
  check t797
  check (decide ((t796).status = Status.OK))
  let t798 ← (ApiFloat.from_bits 200 : M Float8E4M3FN)
  let t799 ← (ApiFloat.from_bits 199 : M Float8E4M3FN)
  let t800 ← ApiFloat.next_up t798
  let t801 ← ApiFloat.bitwise_eq (t800).value t799
  check t801

example : passes t_float8e4m3fn_next_20 = true := by decide +kernel

/-- tests/ieee.rs:4419 `float8e4m3fn_next`. -/
def t_float8e4m3fn_next_21 : M Unit := do
  let t798 ← (ApiFloat.from_bits 200 : M Float8E4M3FN)
  let t800 ← ApiFloat.next_up t798
  check (decide ((t800).status = Status.OK))
  let t802 ← (ApiFloat.from_bits 201 : M Float8E4M3FN)
  let t803 ← (ApiFloat.from_bits 200 : M Float8E4M3FN)
  let t804 ← ApiFloat.next_up t802
  let t805 ← ApiFloat.bitwise_eq (t804).value t803
  check t805
  check (decide ((t804).status = Status.OK))
  let t806 ← (ApiFloat.from_bits 202 : M Float8E4M3FN)
  let t807 ← (ApiFloat.from_bits 201 : M Float8E4M3FN)
  let t808 ← ApiFloat.next_up t806
  let t809 ← ApiFloat.bitwise_eq (t808).value t807
  check t809
  check (decide ((t808).status = Status.OK))
  let t810 ← (ApiFloat.from_bits 203 : M Float8E4M3FN)
  let t811 ← (ApiFloat.from_bits 202 : M Float8E4M3FN)
  let t812 ← ApiFloat.next_up t810
  let t813 ← ApiFloat.bitwise_eq (t812).value t811
  check t813
  check (decide ((t812).status = Status.OK))
  let t814 ← (ApiFloat.from_bits 204 : M Float8E4M3FN)
  let t815 ← (ApiFloat.from_bits 203 : M Float8E4M3FN)
  let t816 ← ApiFloat.next_up t814
  let t817 ← ApiFloat.bitwise_eq (t816).value t815
  check t817
  check (decide ((t816).status = Status.OK))
  let t818 ← (ApiFloat.from_bits 205 : M Float8E4M3FN)
  let t819 ← (ApiFloat.from_bits 204 : M Float8E4M3FN)
  let t820 ← ApiFloat.next_up t818
  let t821 ← ApiFloat.bitwise_eq (t820).value t819
  check t821
  check (decide ((t820).status = Status.OK))
  let t822 ← (ApiFloat.from_bits 206 : M Float8E4M3FN)
  let t823 ← (ApiFloat.from_bits 205 : M Float8E4M3FN)
  let t824 ← ApiFloat.next_up t822
  let t825 ← ApiFloat.bitwise_eq (t824).value t823
  check t825
  check (decide ((t824).status = Status.OK))
  let t826 ← (ApiFloat.from_bits 207 : M Float8E4M3FN)
  let t827 ← (ApiFloat.from_bits 206 : M Float8E4M3FN)
  let t828 ← ApiFloat.next_up t826
  let t829 ← ApiFloat.bitwise_eq (t828).value t827
  check t829
  check (decide ((t828).status = Status.OK))
  let t830 ← (ApiFloat.from_bits 208 : M Float8E4M3FN)
  let t831 ← (ApiFloat.from_bits 207 : M Float8E4M3FN)
  let t832 ← ApiFloat.next_up t830
  let t833 ← ApiFloat.bitwise_eq (t832).value t831
  check t833
  check (decide ((t832).status = Status.OK))
  let t834 ← (ApiFloat.from_bits 209 : M Float8E4M3FN)
  let t835 ← (ApiFloat.from_bits 208 : M Float8E4M3FN)
  let t836 ← ApiFloat.next_up t834
  let t837 ← ApiFloat.bitwise_eq (t836).value t835
  check t837
  check (decide ((t836).status = Status.OK))
  let t838 ← (ApiFloat.from_bits 210 : M Float8E4M3FN)
  let t839 ← (ApiFloat.from_bits 209 : M Float8E4M3FN)
  let t840 ← ApiFloat.next_up t838
  let t841 ← ApiFloat.bitwise_eq (t840).value t839
  check t841

example : passes t_float8e4m3fn_next_21 = true := by decide +kernel

/-- tests/ieee.rs:4419 `float8e4m3fn_next`. -/
def t_float8e4m3fn_next_22 : M Unit := do
  let t838 ← (ApiFloat.from_bits 210 : M Float8E4M3FN)
  let t840 ← ApiFloat.next_up t838
  check (decide ((t840).status = Status.OK))
  let t842 ← (ApiFloat.from_bits 211 : M Float8E4M3FN)
  let t843 ← (ApiFloat.from_bits 210 : M Float8E4M3FN)
  let t844 ← ApiFloat.next_up t842
  let t845 ← ApiFloat.bitwise_eq (t844).value t843
  check t845
  check (decide ((t844).status = Status.OK))
  let t846 ← (ApiFloat.from_bits 212 : M Float8E4M3FN)
  let t847 ← (ApiFloat.from_bits 211 : M Float8E4M3FN)
  let t848 ← ApiFloat.next_up t846
  let t849 ← ApiFloat.bitwise_eq (t848).value t847
  check t849
  check (decide ((t848).status = Status.OK))
  let t850 ← (ApiFloat.from_bits 213 : M Float8E4M3FN)
  let t851 ← (ApiFloat.from_bits 212 : M Float8E4M3FN)
  let t852 ← ApiFloat.next_up t850
  let t853 ← ApiFloat.bitwise_eq (t852).value t851
  check t853
  check (decide ((t852).status = Status.OK))
  let t854 ← (ApiFloat.from_bits 214 : M Float8E4M3FN)
  let t855 ← (ApiFloat.from_bits 213 : M Float8E4M3FN)
  let t856 ← ApiFloat.next_up t854
  let t857 ← ApiFloat.bitwise_eq (t856).value t855
  check t857
  check (decide ((t856).status = Status.OK))
  let t858 ← (ApiFloat.from_bits 215 : M Float8E4M3FN)
  let t859 ← (ApiFloat.from_bits 214 : M Float8E4M3FN)
  let t860 ← ApiFloat.next_up t858
  let t861 ← ApiFloat.bitwise_eq (t860).value t859
  check t861
  check (decide ((t860).status = Status.OK))
  let t862 ← (ApiFloat.from_bits 216 : M Float8E4M3FN)
  let t863 ← (ApiFloat.from_bits 215 : M Float8E4M3FN)
  let t864 ← ApiFloat.next_up t862
  let t865 ← ApiFloat.bitwise_eq (t864).value t863
  check t865
  check (decide ((t864).status = Status.OK))
  let t866 ← (ApiFloat.from_bits 217 : M Float8E4M3FN)
  let t867 ← (ApiFloat.from_bits 216 : M Float8E4M3FN)
  let t868 ← ApiFloat.next_up t866
  let t869 ← ApiFloat.bitwise_eq (t868).value t867
  check t869
  check (decide ((t868).status = Status.OK))
  let t870 ← (ApiFloat.from_bits 218 : M Float8E4M3FN)
  let t871 ← (ApiFloat.from_bits 217 : M Float8E4M3FN)
  let t872 ← ApiFloat.next_up t870
  let t873 ← ApiFloat.bitwise_eq (t872).value t871
  check t873
  check (decide ((t872).status = Status.OK))
  let t874 ← (ApiFloat.from_bits 219 : M Float8E4M3FN)
  let t875 ← (ApiFloat.from_bits 218 : M Float8E4M3FN)
  let t876 ← ApiFloat.next_up t874
  let t877 ← ApiFloat.bitwise_eq (t876).value t875
  check t877
  check (decide ((t876).status = Status.OK))
  let t878 ← (ApiFloat.from_bits 220 : M Float8E4M3FN)
  let t879 ← (ApiFloat.from_bits 219 : M Float8E4M3FN)
  let t880 ← ApiFloat.next_up t878
  let t881 ← ApiFloat.bitwise_eq (t880).value t879
  check t881

example : passes t_float8e4m3fn_next_22 = true := by decide +kernel

/-- tests/ieee.rs:4419 `float8e4m3fn_next`. -/
def t_float8e4m3fn_next_23 : M Unit := do
  let t878 ← (ApiFloat.from_bits 220 : M Float8E4M3FN)
  let t880 ← ApiFloat.next_up t878
  check (decide ((t880).status = Status.OK))
  let t882 ← (ApiFloat.from_bits 221 : M Float8E4M3FN)
  let t883 ← (ApiFloat.from_bits 220 : M Float8E4M3FN)
  let t884 ← ApiFloat.next_up t882
  let t885 ← ApiFloat.bitwise_eq (t884).value t883
  check t885
  check (decide ((t884).status = Status.OK))
  let t886 ← (ApiFloat.from_bits 222 : M Float8E4M3FN)
  let t887 ← (ApiFloat.from_bits 221 : M Float8E4M3FN)
  let t888 ← ApiFloat.next_up t886
  let t889 ← ApiFloat.bitwise_eq (t888).value t887
  check t889
  check (decide ((t888).status = Status.OK))
  let t890 ← (ApiFloat.from_bits 223 : M Float8E4M3FN)
  let t891 ← (ApiFloat.from_bits 222 : M Float8E4M3FN)
  let t892 ← ApiFloat.next_up t890
  let t893 ← ApiFloat.bitwise_eq (t892).value t891
  check t893
  check (decide ((t892).status = Status.OK))
  let t894 ← (ApiFloat.from_bits 224 : M Float8E4M3FN)
  let t895 ← (ApiFloat.from_bits 223 : M Float8E4M3FN)
  let t896 ← ApiFloat.next_up t894
  let t897 ← ApiFloat.bitwise_eq (t896).value t895
  check t897
  check (decide ((t896).status = Status.OK))
  let t898 ← (ApiFloat.from_bits 225 : M Float8E4M3FN)
  let t899 ← (ApiFloat.from_bits 224 : M Float8E4M3FN)
  let t900 ← ApiFloat.next_up t898
  let t901 ← ApiFloat.bitwise_eq (t900).value t899
  check t901
  check (decide ((t900).status = Status.OK))
  let t902 ← (ApiFloat.from_bits 226 : M Float8E4M3FN)
  let t903 ← (ApiFloat.from_bits 225 : M Float8E4M3FN)
  let t904 ← ApiFloat.next_up t902
  let t905 ← ApiFloat.bitwise_eq (t904).value t903
  check t905
  check (decide ((t904).status = Status.OK))
  let t906 ← (ApiFloat.from_bits 227 : M Float8E4M3FN)
  let t907 ← (ApiFloat.from_bits 226 : M Float8E4M3FN)
  let t908 ← ApiFloat.next_up t906
  let t909 ← ApiFloat.bitwise_eq (t908).value t907
  check t909
  check (decide ((t908).status = Status.OK))
  let t910 ← (ApiFloat.from_bits 228 : M Float8E4M3FN)
  let t911 ← (ApiFloat.from_bits 227 : M Float8E4M3FN)
  let t912 ← ApiFloat.next_up t910
  let t913 ← ApiFloat.bitwise_eq (t912).value t911
  check t913
  check (decide ((t912).status = Status.OK))
  let t914 ← (ApiFloat.from_bits 229 : M Float8E4M3FN)
  let t915 ← (ApiFloat.from_bits 228 : M Float8E4M3FN)
  let t916 ← ApiFloat.next_up t914
  let t917 ← ApiFloat.bitwise_eq (t916).value t915
  check t917
  check (decide ((t916).status = Status.OK))
  let t918 ← (ApiFloat.from_bits 230 : M Float8E4M3FN)
  let t919 ← (ApiFloat.from_bits 229 : M Float8E4M3FN)
  let t920 ← ApiFloat.next_up t918
  let t921 ← ApiFloat.bitwise_eq (t920).value t919
  check t921

example : passes t_float8e4m3fn_next_23 = true := by decide +kernel

/-- tests/ieee.rs:4419 `float8e4m3fn_next`. -/
def t_float8e4m3fn_next_24 : M Unit := do
  let t918 ← (ApiFloat.from_bits 230 : M Float8E4M3FN)
  let t920 ← ApiFloat.next_up t918
  check (decide ((t920).status = Status.OK))
  let t922 ← (ApiFloat.from_bits 231 : M Float8E4M3FN)
  let t923 ← (ApiFloat.from_bits 230 : M Float8E4M3FN)
  let t924 ← ApiFloat.next_up t922
  let t925 ← ApiFloat.bitwise_eq (t924).value t923
  check t925
  check (decide ((t924).status = Status.OK))
  let t926 ← (ApiFloat.from_bits 232 : M Float8E4M3FN)
  let t927 ← (ApiFloat.from_bits 231 : M Float8E4M3FN)
  let t928 ← ApiFloat.next_up t926
  let t929 ← ApiFloat.bitwise_eq (t928).value t927
  check t929
  check (decide ((t928).status = Status.OK))
  let t930 ← (ApiFloat.from_bits 233 : M Float8E4M3FN)
  let t931 ← (ApiFloat.from_bits 232 : M Float8E4M3FN)
  let t932 ← ApiFloat.next_up t930
  let t933 ← ApiFloat.bitwise_eq (t932).value t931
  check t933
  check (decide ((t932).status = Status.OK))
  let t934 ← (ApiFloat.from_bits 234 : M Float8E4M3FN)
  let t935 ← (ApiFloat.from_bits 233 : M Float8E4M3FN)
  let t936 ← ApiFloat.next_up t934
  let t937 ← ApiFloat.bitwise_eq (t936).value t935
  check t937
  check (decide ((t936).status = Status.OK))
  let t938 ← (ApiFloat.from_bits 235 : M Float8E4M3FN)
  let t939 ← (ApiFloat.from_bits 234 : M Float8E4M3FN)
  let t940 ← ApiFloat.next_up t938
  let t941 ← ApiFloat.bitwise_eq (t940).value t939
  check t941
  check (decide ((t940).status = Status.OK))
  let t942 ← (ApiFloat.from_bits 236 : M Float8E4M3FN)
  let t943 ← (ApiFloat.from_bits 235 : M Float8E4M3FN)
  let t944 ← ApiFloat.next_up t942
  let t945 ← ApiFloat.bitwise_eq (t944).value t943
  check t945
  check (decide ((t944).status = Status.OK))
  let t946 ← (ApiFloat.from_bits 237 : M Float8E4M3FN)
  let t947 ← (ApiFloat.from_bits 236 : M Float8E4M3FN)
  let t948 ← ApiFloat.next_up t946
  let t949 ← ApiFloat.bitwise_eq (t948).value t947
  check t949
  check (decide ((t948).status = Status.OK))
  let t950 ← (ApiFloat.from_bits 238 : M Float8E4M3FN)
  let t951 ← (ApiFloat.from_bits 237 : M Float8E4M3FN)
  let t952 ← ApiFloat.next_up t950
  let t953 ← ApiFloat.bitwise_eq (t952).value t951
  check t953
  check (decide ((t952).status = Status.OK))
  let t954 ← (ApiFloat.from_bits 239 : M Float8E4M3FN)
  let t955 ← (ApiFloat.from_bits 238 : M Float8E4M3FN)
  let t956 ← ApiFloat.next_up t954
  let t957 ← ApiFloat.bitwise_eq (t956).value t955
  check t957
  check (decide ((t956).status = Status.OK))
  let t958 ← (ApiFloat.from_bits 240 : M Float8E4M3FN)
  let t959 ← (ApiFloat.from_bits 239 : M Float8E4M3FN)
  let t960 ← ApiFloat.next_up t958
  let t961 ← ApiFloat.bitwise_eq (t960).value t959
  check t961

example : passes t_float8e4m3fn_next_24 = true := by decide +kernel

/-- tests/ieee.rs:4419 `float8e4m3fn_next`. -/
def t_float8e4m3fn_next_25 : M Unit := do
  let t958 ← (ApiFloat.from_bits 240 : M Float8E4M3FN)
  let t960 ← ApiFloat.next_up t958
  check (decide ((t960).status = Status.OK))
  let t962 ← (ApiFloat.from_bits 241 : M Float8E4M3FN)
  let t963 ← (ApiFloat.from_bits 240 : M Float8E4M3FN)
  let t964 ← ApiFloat.next_up t962
  let t965 ← ApiFloat.bitwise_eq (t964).value t963
  check t965
  check (decide ((t964).status = Status.OK))
  let t966 ← (ApiFloat.from_bits 242 : M Float8E4M3FN)
  let t967 ← (ApiFloat.from_bits 241 : M Float8E4M3FN)
  let t968 ← ApiFloat.next_up t966
  let t969 ← ApiFloat.bitwise_eq (t968).value t967
  check t969
  check (decide ((t968).status = Status.OK))
  let t970 ← (ApiFloat.from_bits 243 : M Float8E4M3FN)
  let t971 ← (ApiFloat.from_bits 242 : M Float8E4M3FN)
  let t972 ← ApiFloat.next_up t970
  let t973 ← ApiFloat.bitwise_eq (t972).value t971
  check t973
  check (decide ((t972).status = Status.OK))
  let t974 ← (ApiFloat.from_bits 244 : M Float8E4M3FN)
  let t975 ← (ApiFloat.from_bits 243 : M Float8E4M3FN)
  let t976 ← ApiFloat.next_up t974
  let t977 ← ApiFloat.bitwise_eq (t976).value t975
  check t977
  check (decide ((t976).status = Status.OK))
  let t978 ← (ApiFloat.from_bits 245 : M Float8E4M3FN)
  let t979 ← (ApiFloat.from_bits 244 : M Float8E4M3FN)
  let t980 ← ApiFloat.next_up t978
  let t981 ← ApiFloat.bitwise_eq (t980).value t979
  check t981
  check (decide ((t980).status = Status.OK))
  let t982 ← (ApiFloat.from_bits 246 : M Float8E4M3FN)
  let t983 ← (ApiFloat.from_bits 245 : M Float8E4M3FN)
  let t984 ← ApiFloat.next_up t982
  let t985 ← ApiFloat.bitwise_eq (t984).value t983
  check t985
  check (decide ((t984).status = Status.OK))
  let t986 ← (ApiFloat.from_bits 247 : M Float8E4M3FN)
  let t987 ← (ApiFloat.from_bits 246 : M Float8E4M3FN)
  let t988 ← ApiFloat.next_up t986
  let t989 ← ApiFloat.bitwise_eq (t988).value t987
  check t989
  check (decide ((t988).status = Status.OK))
  let t990 ← (ApiFloat.from_bits 248 : M Float8E4M3FN)
  let t991 ← (ApiFloat.from_bits 247 : M Float8E4M3FN)
  let t992 ← ApiFloat.next_up t990
  let t993 ← ApiFloat.bitwise_eq (t992).value t991
  check t993
  check (decide ((t992).status = Status.OK))
  let t994 ← (ApiFloat.from_bits 249 : M Float8E4M3FN)
  let t995 ← (ApiFloat.from_bits 248 : M Float8E4M3FN)
  let t996 ← ApiFloat.next_up t994
  let t997 ← ApiFloat.bitwise_eq (t996).value t995
  check t997
  check (decide ((t996).status = Status.OK))
  let t998 ← (ApiFloat.from_bits 250 : M Float8E4M3FN)
  let t999 ← (ApiFloat.from_bits 249 : M Float8E4M3FN)
  let t1000 ← ApiFloat.next_up t998
  let t1001 ← ApiFloat.bitwise_eq (t1000).value t999
  check t1001

example : passes t_float8e4m3fn_next_25 = true := by decide +kernel

/-- tests/ieee.rs:4419 `float8e4m3fn_next`. -/
def t_float8e4m3fn_next_26 : M Unit := do
  let t998 ← (ApiFloat.from_bits 250 : M Float8E4M3FN)
  let t1000 ← ApiFloat.next_up t998
  check (decide ((t1000).status = Status.OK))
  let t1002 ← (ApiFloat.from_bits 251 : M Float8E4M3FN)
  let t1003 ← (ApiFloat.from_bits 250 : M Float8E4M3FN)
  let t1004 ← ApiFloat.next_up t1002
  let t1005 ← ApiFloat.bitwise_eq (t1004).value t1003
  check t1005
  check (decide ((t1004).status = Status.OK))
  let t1006 ← (ApiFloat.from_bits 252 : M Float8E4M3FN)
  let t1007 ← (ApiFloat.from_bits 251 : M Float8E4M3FN)
  let t1008 ← ApiFloat.next_up t1006
  let t1009 ← ApiFloat.bitwise_eq (t1008).value t1007
  check t1009
  check (decide ((t1008).status = Status.OK))
  let t1010 ← (ApiFloat.from_bits 253 : M Float8E4M3FN)
  let t1011 ← (ApiFloat.from_bits 252 : M Float8E4M3FN)
  let t1012 ← ApiFloat.next_up t1010
  let t1013 ← ApiFloat.bitwise_eq (t1012).value t1011
  check t1013
  check (decide ((t1012).status = Status.OK))
  let t1014 ← (ApiFloat.from_bits 254 : M Float8E4M3FN)
  let t1015 ← (ApiFloat.from_bits 253 : M Float8E4M3FN)
  let t1016 ← ApiFloat.next_up t1014
  let t1017 ← ApiFloat.bitwise_eq (t1016).value t1015
  check t1017
  check (decide ((t1016).status = Status.OK))
  let t1018 ← (ApiFloat.qnan none : M Float8E4M3FN)
  let t1019 ← (ApiFloat.qnan none : M Float8E4M3FN)
  let t1020 ← ApiFloat.next_up t1018
  let t1021 ← ApiFloat.bitwise_eq (t1020).value t1019
  check t1021
  check (decide ((t1020).status = Status.OK))
  let t1022 ← (ApiFloat.from_bits 1 : M Float8E4M3FN)
  let t1023 ← (ApiFloat.from_bits 0 : M Float8E4M3FN)
  let t1024 ← ApiFloat.next_down t1022
  let t1025 ← ApiFloat.bitwise_eq (t1024).value t1023
  check t1025
  check (decide ((t1024).status = Status.OK))
  let t1026 ← (ApiFloat.from_bits 2 : M Float8E4M3FN)
  let t1027 ← (ApiFloat.from_bits 1 : M Float8E4M3FN)
  let t1028 ← ApiFloat.next_down t1026
  let t1029 ← ApiFloat.bitwise_eq (t1028).value t1027
  check t1029
  check (decide ((t1028).status = Status.OK))
  let t1030 ← (ApiFloat.from_bits 3 : M Float8E4M3FN)
  let t1031 ← (ApiFloat.from_bits 2 : M Float8E4M3FN)
  let t1032 ← ApiFloat.next_down t1030
  let t1033 ← ApiFloat.bitwise_eq (t1032).value t1031
  check t1033
  check (decide ((t1032).status = Status.OK))
  let t1034 ← (ApiFloat.from_bits 4 : M Float8E4M3FN)
  let t1035 ← (ApiFloat.from_bits 3 : M Float8E4M3FN)
  let t1036 ← ApiFloat.next_down t1034
  let t1037 ← ApiFloat.bitwise_eq (t1036).value t1035
  check t1037
  check (decide ((t1036).status = Status.OK))
  let t1038 ← (ApiFloat.from_bits 5 : M Float8E4M3FN)
  let t1039 ← (ApiFloat.from_bits 4 : M Float8E4M3FN)
  let t1040 ← ApiFloat.next_down t1038
  let t1041 ← ApiFloat.bitwise_eq (t1040).value t1039
  check t1041

example : passes t_float8e4m3fn_next_26 = true := by decide +kernel

/-- tests/ieee.rs:4419 `float8e4m3fn_next`. -/
def t_float8e4m3fn_next_27 : M Unit := do
  let t1038 ← (ApiFloat.from_bits 5 : M Float8E4M3FN)
  let t1040 ← ApiFloat.next_down t1038
  check (decide ((t1040).status = Status.OK))
  let t1042 ← (ApiFloat.from_bits 6 : M Float8E4M3FN)
  let t1043 ← (ApiFloat.from_bits 5 : M Float8E4M3FN)
  let t1044 ← ApiFloat.next_down t1042
  let t1045 ← ApiFloat.bitwise_eq (t1044).value t1043
  check t1045
  check (decide ((t1044).status = Status.OK))
  let t1046 ← (ApiFloat.from_bits 7 : M Float8E4M3FN)
  let t1047 ← (ApiFloat.from_bits 6 : M Float8E4M3FN)
  let t1048 ← ApiFloat.next_down t1046
  let t1049 ← ApiFloat.bitwise_eq (t1048).value t1047
  check t1049
  check (decide ((t1048).status = Status.OK))
  let t1050 ← (ApiFloat.from_bits 8 : M Float8E4M3FN)
  let t1051 ← (ApiFloat.from_bits 7 : M Float8E4M3FN)
  let t1052 ← ApiFloat.next_down t1050
  let t1053 ← ApiFloat.bitwise_eq (t1052).value t1051
  check t1053
  check (decide ((t1052).status = Status.OK))
  let t1054 ← (ApiFloat.from_bits 9 : M Float8E4M3FN)
  let t1055 ← (ApiFloat.from_bits 8 : M Float8E4M3FN)
  let t1056 ← ApiFloat.next_down t1054
  let t1057 ← ApiFloat.bitwise_eq (t1056).value t1055
  check t1057
  check (decide ((t1056).status = Status.OK))
  let t1058 ← (ApiFloat.from_bits 10 : M Float8E4M3FN)
  let t1059 ← (ApiFloat.from_bits 9 : M Float8E4M3FN)
  let t1060 ← ApiFloat.next_down t1058
  let t1061 ← ApiFloat.bitwise_eq (t1060).value t1059
  check t1061
  check (decide ((t1060).status = Status.OK))
  let t1062 ← (ApiFloat.from_bits 11 : M Float8E4M3FN)
  let t1063 ← (ApiFloat.from_bits 10 : M Float8E4M3FN)
  let t1064 ← ApiFloat.next_down t1062
  let t1065 ← ApiFloat.bitwise_eq (t1064).value t1063
  check t1065
  check (decide ((t1064).status = Status.OK))
  let t1066 ← (ApiFloat.from_bits 12 : M Float8E4M3FN)
  let t1067 ← (ApiFloat.from_bits 11 : M Float8E4M3FN)
  let t1068 ← ApiFloat.next_down t1066
  let t1069 ← ApiFloat.bitwise_eq (t1068).value t1067
  check t1069
  check (decide ((t1068).status = Status.OK))
  let t1070 ← (ApiFloat.from_bits 13 : M Float8E4M3FN)
  let t1071 ← (ApiFloat.from_bits 12 : M Float8E4M3FN)
  let t1072 ← ApiFloat.next_down t1070
  let t1073 ← ApiFloat.bitwise_eq (t1072).value t1071
  check t1073
  check (decide ((t1072).status = Status.OK))
  let t1074 ← (ApiFloat.from_bits 14 : M Float8E4M3FN)
  let t1075 ← (ApiFloat.from_bits 13 : M Float8E4M3FN)
  let t1076 ← ApiFloat.next_down t1074
  let t1077 ← ApiFloat.bitwise_eq (t1076).value t1075
  check t1077
  check (decide ((t1076).status = Status.OK))
  let t1078 ← (ApiFloat.from_bits 15 : M Float8E4M3FN)
  let t1079 ← (ApiFloat.from_bits 14 : M Float8E4M3FN)
  let t1080 ← ApiFloat.next_down t1078
  let t1081 ← ApiFloat.bitwise_eq (t1080).value t1079
  check t1081

example : passes t_float8e4m3fn_next_27 = true := by decide +kernel

/-- tests/ieee.rs:4419 `float8e4m3fn_next`. -/
def t_float8e4m3fn_next_28 : M Unit := do
  let t1078 ← (ApiFloat.from_bits 15 : M Float8E4M3FN)
  let t1080 ← ApiFloat.next_down t1078
  check (decide ((t1080).status = Status.OK))
  let t1082 ← (ApiFloat.from_bits 16 : M Float8E4M3FN)
  let t1083 ← (ApiFloat.from_bits 15 : M Float8E4M3FN)
  let t1084 ← ApiFloat.next_down t1082
  let t1085 ← ApiFloat.bitwise_eq (t1084).value t1083
  check t1085
  check (decide ((t1084).status = Status.OK))
  let t1086 ← (ApiFloat.from_bits 17 : M Float8E4M3FN)
  let t1087 ← (ApiFloat.from_bits 16 : M Float8E4M3FN)
  let t1088 ← ApiFloat.next_down t1086
  let t1089 ← ApiFloat.bitwise_eq (t1088).value t1087
  check t1089
  check (decide ((t1088).status = Status.OK))
  let t1090 ← (ApiFloat.from_bits 18 : M Float8E4M3FN)
  let t1091 ← (ApiFloat.from_bits 17 : M Float8E4M3FN)
  let t1092 ← ApiFloat.next_down t1090
  let t1093 ← ApiFloat.bitwise_eq (t1092).value t1091
  check t1093
  check (decide ((t1092).status = Status.OK))
  let t1094 ← (ApiFloat.from_bits 19 : M Float8E4M3FN)
  let t1095 ← (ApiFloat.from_bits 18 : M Float8E4M3FN)
  let t1096 ← ApiFloat.next_down t1094
  let t1097 ← ApiFloat.bitwise_eq (t1096).value t1095
  check t1097
  check (decide ((t1096).status = Status.OK))
  let t1098 ← (ApiFloat.from_bits 20 : M Float8E4M3FN)
  let t1099 ← (ApiFloat.from_bits 19 : M Float8E4M3FN)
  let t1100 ← ApiFloat.next_down t1098
  let t1101 ← ApiFloat.bitwise_eq (t1100).value t1099
  check t1101
  check (decide ((t1100).status = Status.OK))
  let t1102 ← (ApiFloat.from_bits 21 : M Float8E4M3FN)
  let t1103 ← (ApiFloat.from_bits 20 : M Float8E4M3FN)
  let t1104 ← ApiFloat.next_down t1102
  let t1105 ← ApiFloat.bitwise_eq (t1104).value t1103
  check t1105
  check (decide ((t1104).status = Status.OK))
  let t1106 ← (ApiFloat.from_bits 22 : M Float8E4M3FN)
  let t1107 ← (ApiFloat.from_bits 21 : M Float8E4M3FN)
  let t1108 ← ApiFloat.next_down t1106
  let t1109 ← ApiFloat.bitwise_eq (t1108).value t1107
  check t1109
  check (decide ((t1108).status = Status.OK))
  let t1110 ← (ApiFloat.from_bits 23 : M Float8E4M3FN)
  let t1111 ← (ApiFloat.from_bits 22 : M Float8E4M3FN)
  let t1112 ← ApiFloat.next_down t1110
  let t1113 ← ApiFloat.bitwise_eq (t1112).value t1111
  check t1113
  check (decide ((t1112).status = Status.OK))
  let t1114 ← (ApiFloat.from_bits 24 : M Float8E4M3FN)
  let t1115 ← (ApiFloat.from_bits 23 : M Float8E4M3FN)
  let t1116 ← ApiFloat.next_down t1114
  let t1117 ← ApiFloat.bitwise_eq (t1116).value t1115
  check t1117
  check (decide ((t1116).status = Status.OK))
  let t1118 ← (ApiFloat.from_bits 25 : M Float8E4M3FN)
  let t1119 ← (ApiFloat.from_bits 24 : M Float8E4M3FN)
  let t1120 ← ApiFloat.next_down t1118
  let t1121 ← ApiFloat.bitwise_eq (t1120).value t1119
  check t1121

example : passes t_float8e4m3fn_next_28 = true := by decide +kernel

/-- tests/ieee.rs:4419 `float8e4m3fn_next`. -/
def t_float8e4m3fn_next_29 : M Unit := do
  let t1118 ← (ApiFloat.from_bits 25 : M Float8E4M3FN)
  let t1120 ← ApiFloat.next_down t1118
  check (decide ((t1120).status = Status.OK))
  let t1122 ← (ApiFloat.from_bits 26 : M Float8E4M3FN)
  let t1123 ← (ApiFloat.from_bits 25 : M Float8E4M3FN)
  let t1124 ← ApiFloat.next_down t1122
  let t1125 ← ApiFloat.bitwise_eq (t1124).value t1123
  check t1125
  check (decide ((t1124).status = Status.OK))
  let t1126 ← (ApiFloat.from_bits 27 : M Float8E4M3FN)
  let t1127 ← (ApiFloat.from_bits 26 : M Float8E4M3FN)
  let t1128 ← ApiFloat.next_down t1126
  let t1129 ← ApiFloat.bitwise_eq (t1128).value t1127
  check t1129
  check (decide ((t1128).status = Status.OK))
  let t1130 ← (ApiFloat.from_bits 28 : M Float8E4M3FN)
  let t1131 ← (ApiFloat.from_bits 27 : M Float8E4M3FN)
  let t1132 ← ApiFloat.next_down t1130
  let t1133 ← ApiFloat.bitwise_eq (t1132).value t1131
  check t1133
  check (decide ((t1132).status = Status.OK))
  let t1134 ← (ApiFloat.from_bits 29 : M Float8E4M3FN)
  let t1135 ← (ApiFloat.from_bits 28 : M Float8E4M3FN)
  let t1136 ← ApiFloat.next_down t1134
  let t1137 ← ApiFloat.bitwise_eq (t1136).value t1135
  check t1137
  check (decide ((t1136).status = Status.OK))
  let t1138 ← (ApiFloat.from_bits 30 : M Float8E4M3FN)
  let t1139 ← (ApiFloat.from_bits 29 : M Float8E4M3FN)
  let t1140 ← ApiFloat.next_down t1138
  let t1141 ← ApiFloat.bitwise_eq (t1140).value t1139
  check t1141
  check (decide ((t1140).status = Status.OK))
  let t1142 ← (ApiFloat.from_bits 31 : M Float8E4M3FN)
  let t1143 ← (ApiFloat.from_bits 30 : M Float8E4M3FN)
  let t1144 ← ApiFloat.next_down t1142
  let t1145 ← ApiFloat.bitwise_eq (t1144).value t1143
  check t1145
  check (decide ((t1144).status = Status.OK))
  let t1146 ← (ApiFloat.from_bits 32 : M Float8E4M3FN)
  let t1147 ← (ApiFloat.from_bits 31 : M Float8E4M3FN)
  let t1148 ← ApiFloat.next_down t1146
  let t1149 ← ApiFloat.bitwise_eq (t1148).value t1147
  check t1149
  check (decide ((t1148).status = Status.OK))
  let t1150 ← (ApiFloat.from_bits 33 : M Float8E4M3FN)
  let t1151 ← (ApiFloat.from_bits 32 : M Float8E4M3FN)
  let t1152 ← ApiFloat.next_down t1150
  let t1153 ← ApiFloat.bitwise_eq (t1152).value t1151
  check t1153
  check (decide ((t1152).status = Status.OK))
  let t1154 ← (ApiFloat.from_bits 34 : M Float8E4M3FN)
  let t1155 ← (ApiFloat.from_bits 33 : M Float8E4M3FN)
  let t1156 ← ApiFloat.next_down t1154
  let t1157 ← ApiFloat.bitwise_eq (t1156).value t1155
  check t1157
  check (decide ((t1156).status = Status.OK))
  let t1158 ← (ApiFloat.from_bits 35 : M Float8E4M3FN)
  let t1159 ← (ApiFloat.from_bits 34 : M Float8E4M3FN)
  let t1160 ← ApiFloat.next_down t1158
  let t1161 ← ApiFloat.bitwise_eq (t1160).value t1159
  check t1161

example : passes t_float8e4m3fn_next_29 = true := by decide +kernel

/-- tests/ieee.rs:4419 `float8e4m3fn_next`. -/
def t_float8e4m3fn_next_30 : M Unit := do
  let t1158 ← (ApiFloat.from_bits 35 : M Float8E4M3FN)
  let t1160 ← ApiFloat.next_down t1158
  check (decide ((t1160).status = Status.OK))
  let t1162 ← (ApiFloat.from_bits 36 : M Float8E4M3FN)
  let t1163 ← (ApiFloat.from_bits 35 : M Float8E4M3FN)
  let t1164 ← ApiFloat.next_down t1162
  let t1165 ← ApiFloat.bitwise_eq (t1164).value t1163
  check t1165
  check (decide ((t1164).status = Status.OK))
  let t1166 ← (ApiFloat.from_bits 37 : M Float8E4M3FN)
  let t1167 ← (ApiFloat.from_bits 36 : M Float8E4M3FN)
  let t1168 ← ApiFloat.next_down t1166
  let t1169 ← ApiFloat.bitwise_eq (t1168).value t1167
  check t1169
  check (decide ((t1168).status = Status.OK))
  let t1170 ← (ApiFloat.from_bits 38 : M Float8E4M3FN)
  let t1171 ← (ApiFloat.from_bits 37 : M Float8E4M3FN)
  let t1172 ← ApiFloat.next_down t1170
  let t1173 ← ApiFloat.bitwise_eq (t1172).value t1171
  check t1173
  check (decide ((t1172).status = Status.OK))
  let t1174 ← (ApiFloat.from_bits 39 : M Float8E4M3FN)
  let t1175 ← (ApiFloat.from_bits 38 : M Float8E4M3FN)
  let t1176 ← ApiFloat.next_down t1174
  let t1177 ← ApiFloat.bitwise_eq (t1176).value t1175
  check t1177
  check (decide ((t1176).status = Status.OK))
  let t1178 ← (ApiFloat.from_bits 40 : M Float8E4M3FN)
  let t1179 ← (ApiFloat.from_bits 39 : M Float8E4M3FN)
  let t1180 ← ApiFloat.next_down t1178
  let t1181 ← ApiFloat.bitwise_eq (t1180).value t1179
  check t1181
  check (decide ((t1180).status = Status.OK))
  let t1182 ← (ApiFloat.from_bits 41 : M Float8E4M3FN)
  let t1183 ← (ApiFloat.from_bits 40 : M Float8E4M3FN)
  let t1184 ← ApiFloat.next_down t1182
  let t1185 ← ApiFloat.bitwise_eq (t1184).value t1183
  check t1185
  check (decide ((t1184).status = Status.OK))
  let t1186 ← (ApiFloat.from_bits 42 : M Float8E4M3FN)
  let t1187 ← (ApiFloat.from_bits 41 : M Float8E4M3FN)
  let t1188 ← ApiFloat.next_down t1186
  let t1189 ← ApiFloat.bitwise_eq (t1188).value t1187
  check t1189
  check (decide ((t1188).status = Status.OK))
  let t1190 ← (ApiFloat.from_bits 43 : M Float8E4M3FN)
  let t1191 ← (ApiFloat.from_bits 42 : M Float8E4M3FN)
  let t1192 ← ApiFloat.next_down t1190
  let t1193 ← ApiFloat.bitwise_eq (t1192).value t1191
  check t1193
  check (decide ((t1192).status = Status.OK))
  let t1194 ← (ApiFloat.from_bits 44 : M Float8E4M3FN)
  let t1195 ← (ApiFloat.from_bits 43 : M Float8E4M3FN)
  let t1196 ← ApiFloat.next_down t1194
  let t1197 ← ApiFloat.bitwise_eq (t1196).value t1195
  check t1197
  check (decide ((t1196).status = Status.OK))
  let t1198 ← (ApiFloat.from_bits 45 : M Float8E4M3FN)
  let t1199 ← (ApiFloat.from_bits 44 : M Float8E4M3FN)
  let t1200 ← ApiFloat.next_down t1198
  let t1201 ← ApiFloat.bitwise_eq (t1200).value t1199
  check t1201

example : passes t_float8e4m3fn_next_30 = true := by decide +kernel

/-- tests/ieee.rs:4419 `float8e4m3fn_next`. -/
def t_float8e4m3fn_next_31 : M Unit := do
  let t1198 ← (ApiFloat.from_bits 45 : M Float8E4M3FN)
  let t1200 ← ApiFloat.next_down t1198
  check (decide ((t1200).status = Status.OK))
  let t1202 ← (ApiFloat.from_bits 46 : M Float8E4M3FN)
  let t1203 ← (ApiFloat.from_bits 45 : M Float8E4M3FN)
  let t1204 ← ApiFloat.next_down t1202
  let t1205 ← ApiFloat.bitwise_eq (t1204).value t1203
  check t1205
  check (decide ((t1204).status = Status.OK))
  let t1206 ← (ApiFloat.from_bits 47 : M Float8E4M3FN)
  let t1207 ← (ApiFloat.from_bits 46 : M Float8E4M3FN)
  let t1208 ← ApiFloat.next_down t1206
  let t1209 ← ApiFloat.bitwise_eq (t1208).value t1207
  check t1209
  check (decide ((t1208).status = Status.OK))
  let t1210 ← (ApiFloat.from_bits 48 : M Float8E4M3FN)
  let t1211 ← (ApiFloat.from_bits 47 : M Float8E4M3FN)
  let t1212 ← ApiFloat.next_down t1210
  let t1213 ← ApiFloat.bitwise_eq (t1212).value t1211
  check t1213
  check (decide ((t1212).status = Status.OK))
  let t1214 ← (ApiFloat.from_bits 49 : M Float8E4M3FN)
  let t1215 ← (ApiFloat.from_bits 48 : M Float8E4M3FN)
  let t1216 ← ApiFloat.next_down t1214
  let t1217 ← ApiFloat.bitwise_eq (t1216).value t1215
  check t1217
  check (decide ((t1216).status = Status.OK))
  let t1218 ← (ApiFloat.from_bits 50 : M Float8E4M3FN)
  let t1219 ← (ApiFloat.from_bits 49 : M Float8E4M3FN)
  let t1220 ← ApiFloat.next_down t1218
  let t1221 ← ApiFloat.bitwise_eq (t1220).value t1219
  check t1221
  check (decide ((t1220).status = Status.OK))
  let t1222 ← (ApiFloat.from_bits 51 : M Float8E4M3FN)
  let t1223 ← (ApiFloat.from_bits 50 : M Float8E4M3FN)
  let t1224 ← ApiFloat.next_down t1222
  let t1225 ← ApiFloat.bitwise_eq (t1224).value t1223
  check t1225
  check (decide ((t1224).status = Status.OK))
  let t1226 ← (ApiFloat.from_bits 52 : M Float8E4M3FN)
  let t1227 ← (ApiFloat.from_bits 51 : M Float8E4M3FN)
  let t1228 ← ApiFloat.next_down t1226
  let t1229 ← ApiFloat.bitwise_eq (t1228).value t1227
  check t1229
  check (decide ((t1228).status = Status.OK))
  let t1230 ← (ApiFloat.from_bits 53 : M Float8E4M3FN)
  let t1231 ← (ApiFloat.from_bits 52 : M Float8E4M3FN)
  let t1232 ← ApiFloat.next_down t1230
  let t1233 ← ApiFloat.bitwise_eq (t1232).value t1231
  check t1233
  check (decide ((t1232).status = Status.OK))
  let t1234 ← (ApiFloat.from_bits 54 : M Float8E4M3FN)
  let t1235 ← (ApiFloat.from_bits 53 : M Float8E4M3FN)
  let t1236 ← ApiFloat.next_down t1234
  let t1237 ← ApiFloat.bitwise_eq (t1236).value t1235
  check t1237
  check (decide ((t1236).status = Status.OK))
  let t1238 ← (ApiFloat.from_bits 55 : M Float8E4M3FN)
  let t1239 ← (ApiFloat.from_bits 54 : M Float8E4M3FN)
  let t1240 ← ApiFloat.next_down t1238
  let t1241 ← ApiFloat.bitwise_eq (t1240).value t1239
  check t1241

example : passes t_float8e4m3fn_next_31 = true := by decide +kernel

/-- tests/ieee.rs:4419 `float8e4m3fn_next`. -/
def t_float8e4m3fn_next_32 : M Unit := do
  let t1238 ← (ApiFloat.from_bits 55 : M Float8E4M3FN)
  let t1240 ← ApiFloat.next_down t1238
  check (decide ((t1240).status = Status.OK))
  let t1242 ← (ApiFloat.from_bits 56 : M Float8E4M3FN)
  let t1243 ← (ApiFloat.from_bits 55 : M Float8E4M3FN)
  let t1244 ← ApiFloat.next_down t1242
  let t1245 ← ApiFloat.bitwise_eq (t1244).value t1243
  check t1245
  check (decide ((t1244).status = Status.OK))
  let t1246 ← (ApiFloat.from_bits 57 : M Float8E4M3FN)
  let t1247 ← (ApiFloat.from_bits 56 : M Float8E4M3FN)
  let t1248 ← ApiFloat.next_down t1246
  let t1249 ← ApiFloat.bitwise_eq (t1248).value t1247
  check t1249
  check (decide ((t1248).status = Status.OK))
  let t1250 ← (ApiFloat.from_bits 58 : M Float8E4M3FN)
  let t1251 ← (ApiFloat.from_bits 57 : M Float8E4M3FN)
  let t1252 ← ApiFloat.next_down t1250
  let t1253 ← ApiFloat.bitwise_eq (t1252).value t1251
  check t1253
  check (decide ((t1252).status = Status.OK))
  let t1254 ← (ApiFloat.from_bits 59 : M Float8E4M3FN)
  let t1255 ← (ApiFloat.from_bits 58 : M Float8E4M3FN)
  let t1256 ← ApiFloat.next_down t1254
  let t1257 ← ApiFloat.bitwise_eq (t1256).value t1255
  check t1257
  check (decide ((t1256).status = Status.OK))
  let t1258 ← (ApiFloat.from_bits 60 : M Float8E4M3FN)
  let t1259 ← (ApiFloat.from_bits 59 : M Float8E4M3FN)
  let t1260 ← ApiFloat.next_down t1258
  let t1261 ← ApiFloat.bitwise_eq (t1260).value t1259
  check t1261
  check (decide ((t1260).status = Status.OK))
  let t1262 ← (ApiFloat.from_bits 61 : M Float8E4M3FN)
  let t1263 ← (ApiFloat.from_bits 60 : M Float8E4M3FN)
  let t1264 ← ApiFloat.next_down t1262
  let t1265 ← ApiFloat.bitwise_eq (t1264).value t1263
  check t1265
  check (decide ((t1264).status = Status.OK))
  let t1266 ← (ApiFloat.from_bits 62 : M Float8E4M3FN)
  let t1267 ← (ApiFloat.from_bits 61 : M Float8E4M3FN)
  let t1268 ← ApiFloat.next_down t1266
  let t1269 ← ApiFloat.bitwise_eq (t1268).value t1267
  check t1269
  check (decide ((t1268).status = Status.OK))
  let t1270 ← (ApiFloat.from_bits 63 : M Float8E4M3FN)
  let t1271 ← (ApiFloat.from_bits 62 : M Float8E4M3FN)
  let t1272 ← ApiFloat.next_down t1270
  let t1273 ← ApiFloat.bitwise_eq (t1272).value t1271
  check t1273
  check (decide ((t1272).status = Status.OK))
  let t1274 ← (ApiFloat.from_bits 64 : M Float8E4M3FN)
  let t1275 ← (ApiFloat.from_bits 63 : M Float8E4M3FN)
  let t1276 ← ApiFloat.next_down t1274
  let t1277 ← ApiFloat.bitwise_eq (t1276).value t1275
  check t1277
  check (decide ((t1276).status = Status.OK))
  let t1278 ← (ApiFloat.from_bits 65 : M Float8E4M3FN)
  let t1279 ← (ApiFloat.from_bits 64 : M Float8E4M3FN)
  let t1280 ← ApiFloat.next_down t1278
  let t1281 ← ApiFloat.bitwise_eq (t1280).value t1279
  check t1281

example : passes t_float8e4m3fn_next_32 = true := by decide +kernel

/-- tests/ieee.rs:4419 `float8e4m3fn_next`. -/
def t_float8e4m3fn_next_33 : M Unit := do
  let t1278 ← (ApiFloat.from_bits 65 : M Float8E4M3FN)
  let t1280 ← ApiFloat.next_down t1278
  check (decide ((t1280).status = Status.OK))
  let t1282 ← (ApiFloat.from_bits 66 : M Float8E4M3FN)
  let t1283 ← (ApiFloat.from_bits 65 : M Float8E4M3FN)
  let t1284 ← ApiFloat.next_down t1282
  let t1285 ← ApiFloat.bitwise_eq (t1284).value t1283
  check t1285
  check (decide ((t1284).status = Status.OK))
  let t1286 ← (ApiFloat.from_bits 67 : M Float8E4M3FN)
  let t1287 ← (ApiFloat.from_bits 66 : M Float8E4M3FN)
  let t1288 ← ApiFloat.next_down t1286
  let t1289 ← ApiFloat.bitwise_eq (t1288).value t1287
  check t1289
  check (decide ((t1288).status = Status.OK))
  let t1290 ← (ApiFloat.from_bits 68 : M Float8E4M3FN)
  let t1291 ← (ApiFloat.from_bits 67 : M Float8E4M3FN)
  let t1292 ← ApiFloat.next_down t1290
  let t1293 ← ApiFloat.bitwise_eq (t1292).value t1291
  check t1293
  check (decide ((t1292).status = Status.OK))
  let t1294 ← (ApiFloat.from_bits 69 : M Float8E4M3FN)
  let t1295 ← (ApiFloat.from_bits 68 : M Float8E4M3FN)
  let t1296 ← ApiFloat.next_down t1294
  let t1297 ← ApiFloat.bitwise_eq (t1296).value t1295
  check t1297
  check (decide ((t1296).status = Status.OK))
  let t1298 ← (ApiFloat.from_bits 70 : M Float8E4M3FN)
  let t1299 ← (ApiFloat.from_bits 69 : M Float8E4M3FN)
  let t1300 ← ApiFloat.next_down t1298
  let t1301 ← ApiFloat.bitwise_eq (t1300).value t1299
  check t1301
  check (decide ((t1300).status = Status.OK))
  let t1302 ← (ApiFloat.from_bits 71 : M Float8E4M3FN)
  let t1303 ← (ApiFloat.from_bits 70 : M Float8E4M3FN)
  let t1304 ← ApiFloat.next_down t1302
  let t1305 ← ApiFloat.bitwise_eq (t1304).value t1303
  check t1305
  check (decide ((t1304).status = Status.OK))
  let t1306 ← (ApiFloat.from_bits 72 : M Float8E4M3FN)
  let t1307 ← (ApiFloat.from_bits 71 : M Float8E4M3FN)
  let t1308 ← ApiFloat.next_down t1306
  let t1309 ← ApiFloat.bitwise_eq (t1308).value t1307
  check t1309
  check (decide ((t1308).status = Status.OK))
  let t1310 ← (ApiFloat.from_bits 73 : M Float8E4M3FN)
  let t1311 ← (ApiFloat.from_bits 72 : M Float8E4M3FN)
  let t1312 ← ApiFloat.next_down t1310
  let t1313 ← ApiFloat.bitwise_eq (t1312).value t1311
  check t1313
  check (decide ((t1312).status = Status.OK))
  let t1314 ← (ApiFloat.from_bits 74 : M Float8E4M3FN)
  let t1315 ← (ApiFloat.from_bits 73 : M Float8E4M3FN)
  let t1316 ← ApiFloat.next_down t1314
  let t1317 ← ApiFloat.bitwise_eq (t1316).value t1315
  check t1317
  check (decide ((t1316).status = Status.OK))
  let t1318 ← (ApiFloat.from_bits 75 : M Float8E4M3FN)
  let t1319 ← (ApiFloat.from_bits 74 : M Float8E4M3FN)
  let t1320 ← ApiFloat.next_down t1318
  let t1321 ← ApiFloat.bitwise_eq (t1320).value t1319
  check t1321

example : passes t_float8e4m3fn_next_33 = true := by decide +kernel

/-- tests/ieee.rs:4419 `float8e4m3fn_next`. -/
def t_float8e4m3fn_next_34 : M Unit := do
  let t1318 ← (ApiFloat.from_bits 75 : M Float8E4M3FN)
  let t1320 ← ApiFloat.next_down t1318
  check (decide ((t1320).status = Status.OK))
  let t1322 ← (ApiFloat.from_bits 76 : M Float8E4M3FN)
  let t1323 ← (ApiFloat.from_bits 75 : M Float8E4M3FN)
  let t1324 ← ApiFloat.next_down t1322
  let t1325 ← ApiFloat.bitwise_eq (t1324).value t1323
  check t1325
  check (decide ((t1324).status = Status.OK))
  let t1326 ← (ApiFloat.from_bits 77 : M Float8E4M3FN)
  let t1327 ← (ApiFloat.from_bits 76 : M Float8E4M3FN)
  let t1328 ← ApiFloat.next_down t1326
  let t1329 ← ApiFloat.bitwise_eq (t1328).value t1327
  check t1329
  check (decide ((t1328).status = Status.OK))
  let t1330 ← (ApiFloat.from_bits 78 : M Float8E4M3FN)
  let t1331 ← (ApiFloat.from_bits 77 : M Float8E4M3FN)
  let t1332 ← ApiFloat.next_down t1330
  let t1333 ← ApiFloat.bitwise_eq (t1332).value t1331
  check t1333
  check (decide ((t1332).status = Status.OK))
  let t1334 ← (ApiFloat.from_bits 79 : M Float8E4M3FN)
  let t1335 ← (ApiFloat.from_bits 78 : M Float8E4M3FN)
  let t1336 ← ApiFloat.next_down t1334
  let t1337 ← ApiFloat.bitwise_eq (t1336).value t1335
  check t1337
  check (decide ((t1336).status = Status.OK))
  let t1338 ← (ApiFloat.from_bits 80 : M Float8E4M3FN)
  let t1339 ← (ApiFloat.from_bits 79 : M Float8E4M3FN)
  let t1340 ← ApiFloat.next_down t1338
  let t1341 ← ApiFloat.bitwise_eq (t1340).value t1339
  check t1341
  check (decide ((t1340).status = Status.OK))
  let t1342 ← (ApiFloat.from_bits 81 : M Float8E4M3FN)
  let t1343 ← (ApiFloat.from_bits 80 : M Float8E4M3FN)
  let t1344 ← ApiFloat.next_down t1342
  let t1345 ← ApiFloat.bitwise_eq (t1344).value t1343
  check t1345
  check (decide ((t1344).status = Status.OK))
  let t1346 ← (ApiFloat.from_bits 82 : M Float8E4M3FN)
  let t1347 ← (ApiFloat.from_bits 81 : M Float8E4M3FN)
  let t1348 ← ApiFloat.next_down t1346
  let t1349 ← ApiFloat.bitwise_eq (t1348).value t1347
  check t1349
  check (decide ((t1348).status = Status.OK))
  let t1350 ← (ApiFloat.from_bits 83 : M Float8E4M3FN)
  let t1351 ← (ApiFloat.from_bits 82 : M Float8E4M3FN)
  let t1352 ← ApiFloat.next_down t1350
  let t1353 ← ApiFloat.bitwise_eq (t1352).value t1351
  check t1353
  check (decide ((t1352).status = Status.OK))
  let t1354 ← (ApiFloat.from_bits 84 : M Float8E4M3FN)
  let t1355 ← (ApiFloat.from_bits 83 : M Float8E4M3FN)
  let t1356 ← ApiFloat.next_down t1354
  let t1357 ← ApiFloat.bitwise_eq (t1356).value t1355
  check t1357
  check (decide ((t1356).status = Status.OK))
  let t1358 ← (ApiFloat.from_bits 85 : M Float8E4M3FN)
  let t1359 ← (ApiFloat.from_bits 84 : M Float8E4M3FN)
  let t1360 ← ApiFloat.next_down t1358
  let t1361 ← ApiFloat.bitwise_eq (t1360).value t1359
  check t1361

example : passes t_float8e4m3fn_next_34 = true := by decide +kernel

/-- tests/ieee.rs:4419 `float8e4m3fn_next`. -/
def t_float8e4m3fn_next_35 : M Unit := do
  let t1358 ← (ApiFloat.from_bits 85 : M Float8E4M3FN)
  let t1360 ← ApiFloat.next_down t1358
  check (decide ((t1360).status = Status.OK))
  let t1362 ← (ApiFloat.from_bits 86 : M Float8E4M3FN)
  let t1363 ← (ApiFloat.from_bits 85 : M Float8E4M3FN)
  let t1364 ← ApiFloat.next_down t1362
  let t1365 ← ApiFloat.bitwise_eq (t1364).value t1363
  check t1365
  check (decide ((t1364).status = Status.OK))
  let t1366 ← (ApiFloat.from_bits 87 : M Float8E4M3FN)
  let t1367 ← (ApiFloat.from_bits 86 : M Float8E4M3FN)
  let t1368 ← ApiFloat.next_down t1366
  let t1369 ← ApiFloat.bitwise_eq (t1368).value t1367
  check t1369
  check (decide ((t1368).status = Status.OK))
  let t1370 ← (ApiFloat.from_bits 88 : M Float8E4M3FN)
  let t1371 ← (ApiFloat.from_bits 87 : M Float8E4M3FN)
  let t1372 ← ApiFloat.next_down t1370
  let t1373 ← ApiFloat.bitwise_eq (t1372).value t1371
  check t1373
  check (decide ((t1372).status = Status.OK))
  let t1374 ← (ApiFloat.from_bits 89 : M Float8E4M3FN)
  let t1375 ← (ApiFloat.from_bits 88 : M Float8E4M3FN)
  let t1376 ← ApiFloat.next_down t1374
  let t1377 ← ApiFloat.bitwise_eq (t1376).value t1375
  check t1377
  check (decide ((t1376).status = Status.OK))
  let t1378 ← (ApiFloat.from_bits 90 : M Float8E4M3FN)
  let t1379 ← (ApiFloat.from_bits 89 : M Float8E4M3FN)
  let t1380 ← ApiFloat.next_down t1378
  let t1381 ← ApiFloat.bitwise_eq (t1380).value t1379
  check t1381
  check (decide ((t1380).status = Status.OK))
  let t1382 ← (ApiFloat.from_bits 91 : M Float8E4M3FN)
  let t1383 ← (ApiFloat.from_bits 90 : M Float8E4M3FN)
  let t1384 ← ApiFloat.next_down t1382
  let t1385 ← ApiFloat.bitwise_eq (t1384).value t1383
  check t1385
  check (decide ((t1384).status = Status.OK))
  let t1386 ← (ApiFloat.from_bits 92 : M Float8E4M3FN)
  let t1387 ← (ApiFloat.from_bits 91 : M Float8E4M3FN)
  let t1388 ← ApiFloat.next_down t1386
  let t1389 ← ApiFloat.bitwise_eq (t1388).value t1387
  check t1389
  check (decide ((t1388).status = Status.OK))
  let t1390 ← (ApiFloat.from_bits 93 : M Float8E4M3FN)
  let t1391 ← (ApiFloat.from_bits 92 : M Float8E4M3FN)
  let t1392 ← ApiFloat.next_down t1390
  let t1393 ← ApiFloat.bitwise_eq (t1392).value t1391
  check t1393
  check (decide ((t1392).status = Status.OK))
  let t1394 ← (ApiFloat.from_bits 94 : M Float8E4M3FN)
  let t1395 ← (ApiFloat.from_bits 93 : M Float8E4M3FN)
  let t1396 ← ApiFloat.next_down t1394
  let t1397 ← ApiFloat.bitwise_eq (t1396).value t1395
  check t1397
  check (decide ((t1396).status = Status.OK))
  let t1398 ← (ApiFloat.from_bits 95 : M Float8E4M3FN)
  let t1399 ← (ApiFloat.from_bits 94 : M Float8E4M3FN)
  let t1400 ← ApiFloat.next_down t1398
  let t1401 ← ApiFloat.bitwise_eq (t1400).value t1399
  check t1401

example : passes t_float8e4m3fn_next_35 = true := by decide +kernel

/-- tests/ieee.rs:4419 `float8e4m3fn_next`. -/
def t_float8e4m3fn_next_36 : M Unit := do
  let t1398 ← (ApiFloat.from_bits 95 : M Float8E4M3FN)
  let t1400 ← ApiFloat.next_down t1398
  check (decide ((t1400).status = Status.OK))
  let t1402 ← (ApiFloat.from_bits 96 : M Float8E4M3FN)
  let t1403 ← (ApiFloat.from_bits 95 : M Float8E4M3FN)
  let t1404 ← ApiFloat.next_down t1402
  let t1405 ← ApiFloat.bitwise_eq (t1404).value t1403
  check t1405
  check (decide ((t1404).status = Status.OK))
  let t1406 ← (ApiFloat.from_bits 97 : M Float8E4M3FN)
  let t1407 ← (ApiFloat.from_bits 96 : M Float8E4M3FN)
  let t1408 ← ApiFloat.next_down t1406
  let t1409 ← ApiFloat.bitwise_eq (t1408).value t1407
  check t1409
  check (decide ((t1408).status = Status.OK))
  let t1410 ← (ApiFloat.from_bits 98 : M Float8E4M3FN)
  let t1411 ← (ApiFloat.from_bits 97 : M Float8E4M3FN)
  let t1412 ← ApiFloat.next_down t1410
  let t1413 ← ApiFloat.bitwise_eq (t1412).value t1411
  check t1413
  check (decide ((t1412).status = Status.OK))
  let t1414 ← (ApiFloat.from_bits 99 : M Float8E4M3FN)
  let t1415 ← (ApiFloat.from_bits 98 : M Float8E4M3FN)
  let t1416 ← ApiFloat.next_down t1414
  let t1417 ← ApiFloat.bitwise_eq (t1416).value t1415
  check t1417
  check (decide ((t1416).status = Status.OK))
  let t1418 ← (ApiFloat.from_bits 100 : M Float8E4M3FN)
  let t1419 ← (ApiFloat.from_bits 99 : M Float8E4M3FN)
  let t1420 ← ApiFloat.next_down t1418
  let t1421 ← ApiFloat.bitwise_eq (t1420).value t1419
  check t1421
  check (decide ((t1420).status = Status.OK))
  let t1422 ← (ApiFloat.from_bits 101 : M Float8E4M3FN)
  let t1423 ← (ApiFloat.from_bits 100 : M Float8E4M3FN)
  let t1424 ← ApiFloat.next_down t1422
  let t1425 ← ApiFloat.bitwise_eq (t1424).value t1423
  check t1425
  check (decide ((t1424).status = Status.OK))
  let t1426 ← (ApiFloat.from_bits 102 : M Float8E4M3FN)
  let t1427 ← (ApiFloat.from_bits 101 : M Float8E4M3FN)
  let t1428 ← ApiFloat.next_down t1426
  let t1429 ← ApiFloat.bitwise_eq (t1428).value t1427
  check t1429
  check (decide ((t1428).status = Status.OK))
  let t1430 ← (ApiFloat.from_bits 103 : M Float8E4M3FN)
  let t1431 ← (ApiFloat.from_bits 102 : M Float8E4M3FN)
  let t1432 ← ApiFloat.next_down t1430
  let t1433 ← ApiFloat.bitwise_eq (t1432).value t1431
  check t1433
  check (decide ((t1432).status = Status.OK))
  let t1434 ← (ApiFloat.from_bits 104 : M Float8E4M3FN)
  let t1435 ← (ApiFloat.from_bits 103 : M Float8E4M3FN)
  let t1436 ← ApiFloat.next_down t1434
  let t1437 ← ApiFloat.bitwise_eq (t1436).value t1435
  check t1437
  check (decide ((t1436).status = Status.OK))
  let t1438 ← (ApiFloat.from_bits 105 : M Float8E4M3FN)
  let t1439 ← (ApiFloat.from_bits 104 : M Float8E4M3FN)
  let t1440 ← ApiFloat.next_down t1438
  let t1441 ← ApiFloat.bitwise_eq (t1440).value t1439
  check t1441

example : passes t_float8e4m3fn_next_36 = true := by decide +kernel

/-- tests/ieee.rs:4419 `float8e4m3fn_next`. -/
def t_float8e4m3fn_next_37 : M Unit := do
  let t1438 ← (ApiFloat.from_bits 105 : M Float8E4M3FN)
  let t1440 ← ApiFloat.next_down t1438
  check (decide ((t1440).status = Status.OK))
  let t1442 ← (ApiFloat.from_bits 106 : M Float8E4M3FN)
  let t1443 ← (ApiFloat.from_bits 105 : M Float8E4M3FN)
  let t1444 ← ApiFloat.next_down t1442
  let t1445 ← ApiFloat.bitwise_eq (t1444).value t1443
  check t1445
  check (decide ((t1444).status = Status.OK))
  let t1446 ← (ApiFloat.from_bits 107 : M Float8E4M3FN)
  let t1447 ← (ApiFloat.from_bits 106 : M Float8E4M3FN)
  let t1448 ← ApiFloat.next_down t1446
  let t1449 ← ApiFloat.bitwise_eq (t1448).value t1447
  check t1449
  check (decide ((t1448).status = Status.OK))
  let t1450 ← (ApiFloat.from_bits 108 : M Float8E4M3FN)
  let t1451 ← (ApiFloat.from_bits 107 : M Float8E4M3FN)
  let t1452 ← ApiFloat.next_down t1450
  let t1453 ← ApiFloat.bitwise_eq (t1452).value t1451
  check t1453
  check (decide ((t1452).status = Status.OK))
  let t1454 ← (ApiFloat.from_bits 109 : M Float8E4M3FN)
  let t1455 ← (ApiFloat.from_bits 108 : M Float8E4M3FN)
  let t1456 ← ApiFloat.next_down t1454
  let t1457 ← ApiFloat.bitwise_eq (t1456).value t1455
  check t1457
  check (decide ((t1456).status = Status.OK))
  let t1458 ← (ApiFloat.from_bits 110 : M Float8E4M3FN)
  let t1459 ← (ApiFloat.from_bits 109 : M Float8E4M3FN)
  let t1460 ← ApiFloat.next_down t1458
  let t1461 ← ApiFloat.bitwise_eq (t1460).value t1459
  check t1461
  check (decide ((t1460).status = Status.OK))
  let t1462 ← (ApiFloat.from_bits 111 : M Float8E4M3FN)
  let t1463 ← (ApiFloat.from_bits 110 : M Float8E4M3FN)
  let t1464 ← ApiFloat.next_down t1462
  let t1465 ← ApiFloat.bitwise_eq (t1464).value t1463
  check t1465
  check (decide ((t1464).status = Status.OK))
  let t1466 ← (ApiFloat.from_bits 112 : M Float8E4M3FN)
  let t1467 ← (ApiFloat.from_bits 111 : M Float8E4M3FN)
  let t1468 ← ApiFloat.next_down t1466
  let t1469 ← ApiFloat.bitwise_eq (t1468).value t1467
  check t1469
  check (decide ((t1468).status = Status.OK))
  let t1470 ← (ApiFloat.from_bits 113 : M Float8E4M3FN)
  let t1471 ← (ApiFloat.from_bits 112 : M Float8E4M3FN)
  let t1472 ← ApiFloat.next_down t1470
  let t1473 ← ApiFloat.bitwise_eq (t1472).value t1471
  check t1473
  check (decide ((t1472).status = Status.OK))
  let t1474 ← (ApiFloat.from_bits 114 : M Float8E4M3FN)
  let t1475 ← (ApiFloat.from_bits 113 : M Float8E4M3FN)
  let t1476 ← ApiFloat.next_down t1474
  let t1477 ← ApiFloat.bitwise_eq (t1476).value t1475
  check t1477
  check (decide ((t1476).status = Status.OK))
  let t1478 ← (ApiFloat.from_bits 115 : M Float8E4M3FN)
  let t1479 ← (ApiFloat.from_bits 114 : M Float8E4M3FN)
  let t1480 ← ApiFloat.next_down t1478
  let t1481 ← ApiFloat.bitwise_eq (t1480).value t1479
  check t1481

example : passes t_float8e4m3fn_next_37 = true := by decide +kernel

/-- tests/ieee.rs:4419 `float8e4m3fn_next`. -/
def t_float8e4m3fn_next_38 : M Unit := do
  let t1478 ← (ApiFloat.from_bits 115 : M Float8E4M3FN)
  let t1480 ← ApiFloat.next_down t1478
  check (decide ((t1480).status = Status.OK))
  let t1482 ← (ApiFloat.from_bits 116 : M Float8E4M3FN)
  let t1483 ← (ApiFloat.from_bits 115 : M Float8E4M3FN)
  let t1484 ← ApiFloat.next_down t1482
  let t1485 ← ApiFloat.bitwise_eq (t1484).value t1483
  check t1485
  check (decide ((t1484).status = Status.OK))
  let t1486 ← (ApiFloat.from_bits 117 : M Float8E4M3FN)
  let t1487 ← (ApiFloat.from_bits 116 : M Float8E4M3FN)
  let t1488 ← ApiFloat.next_down t1486
  let t1489 ← ApiFloat.bitwise_eq (t1488).value t1487
  check t1489
  check (decide ((t1488).status = Status.OK))
  let t1490 ← (ApiFloat.from_bits 118 : M Float8E4M3FN)
  let t1491 ← (ApiFloat.from_bits 117 : M Float8E4M3FN)
  let t1492 ← ApiFloat.next_down t1490
  let t1493 ← ApiFloat.bitwise_eq (t1492).value t1491
  check t1493
  check (decide ((t1492).status = Status.OK))
  let t1494 ← (ApiFloat.from_bits 119 : M Float8E4M3FN)
  let t1495 ← (ApiFloat.from_bits 118 : M Float8E4M3FN)
  let t1496 ← ApiFloat.next_down t1494
  let t1497 ← ApiFloat.bitwise_eq (t1496).value t1495
  check t1497
  check (decide ((t1496).status = Status.OK))
  let t1498 ← (ApiFloat.from_bits 120 : M Float8E4M3FN)
  let t1499 ← (ApiFloat.from_bits 119 : M Float8E4M3FN)
  let t1500 ← ApiFloat.next_down t1498
  let t1501 ← ApiFloat.bitwise_eq (t1500).value t1499
  check t1501
  check (decide ((t1500).status = Status.OK))
  let t1502 ← (ApiFloat.from_bits 121 : M Float8E4M3FN)
  let t1503 ← (ApiFloat.from_bits 120 : M Float8E4M3FN)
  let t1504 ← ApiFloat.next_down t1502
  let t1505 ← ApiFloat.bitwise_eq (t1504).value t1503
  check t1505
  check (decide ((t1504).status = Status.OK))
  let t1506 ← (ApiFloat.from_bits 122 : M Float8E4M3FN)
  let t1507 ← (ApiFloat.from_bits 121 : M Float8E4M3FN)
  let t1508 ← ApiFloat.next_down t1506
  let t1509 ← ApiFloat.bitwise_eq (t1508).value t1507
  check t1509
  check (decide ((t1508).status = Status.OK))
  let t1510 ← (ApiFloat.from_bits 123 : M Float8E4M3FN)
  let t1511 ← (ApiFloat.from_bits 122 : M Float8E4M3FN)
  let t1512 ← ApiFloat.next_down t1510
  let t1513 ← ApiFloat.bitwise_eq (t1512).value t1511
  check t1513
  check (decide ((t1512).status = Status.OK))
  let t1514 ← (ApiFloat.from_bits 124 : M Float8E4M3FN)
  let t1515 ← (ApiFloat.from_bits 123 : M Float8E4M3FN)
  let t1516 ← ApiFloat.next_down t1514
  let t1517 ← ApiFloat.bitwise_eq (t1516).value t1515
  check t1517
  check (decide ((t1516).status = Status.OK))
  let t1518 ← (ApiFloat.from_bits 125 : M Float8E4M3FN)
  let t1519 ← (ApiFloat.from_bits 124 : M Float8E4M3FN)
  let t1520 ← ApiFloat.next_down t1518
  let t1521 ← ApiFloat.bitwise_eq (t1520).value t1519
  check t1521

example : passes t_float8e4m3fn_next_38 = true := by decide +kernel

/-- tests/ieee.rs:4419 `float8e4m3fn_next`. -/
def t_float8e4m3fn_next_39 : M Unit := do
  let t1518 ← (ApiFloat.from_bits 125 : M Float8E4M3FN)
  let t1520 ← ApiFloat.next_down t1518
  check (decide ((t1520).status = Status.OK))
  let t1522 ← (ApiFloat.from_bits 126 : M Float8E4M3FN)
  let t1523 ← (ApiFloat.from_bits 125 : M Float8E4M3FN)
  let t1524 ← ApiFloat.next_down t1522
  let t1525 ← ApiFloat.bitwise_eq (t1524).value t1523
  check t1525
  check (decide ((t1524).status = Status.OK))
  let t1526 ← (ApiFloat.ZERO : M Float8E4M3FN)
  let t1527 ← ApiFloat.neg t1526
  let t1528 ← (ApiFloat.SMALLEST : M Float8E4M3FN)
  let t1529 ← ApiFloat.neg t1528
  let t1530 ← ApiFloat.next_down t1527
  let t1531 ← ApiFloat.bitwise_eq (t1530).value t1529
  check t1531
  check (decide ((t1530).status = Status.OK))
  let t1532 ← (ApiFloat.from_bits 128 : M Float8E4M3FN)
  let t1533 ← (ApiFloat.from_bits 129 : M Float8E4M3FN)
  let t1534 ← ApiFloat.next_down t1532
  let t1535 ← ApiFloat.bitwise_eq (t1534).value t1533
  check t1535
  check (decide ((t1534).status = Status.OK))
  let t1536 ← (ApiFloat.from_bits 129 : M Float8E4M3FN)
  let t1537 ← (ApiFloat.from_bits 130 : M Float8E4M3FN)
  let t1538 ← ApiFloat.next_down t1536
  let t1539 ← ApiFloat.bitwise_eq (t1538).value t1537
  check t1539
  check (decide ((t1538).status = Status.OK))
  let t1540 ← (ApiFloat.from_bits 130 : M Float8E4M3FN)
  let t1541 ← (ApiFloat.from_bits 131 : M Float8E4M3FN)
  let t1542 ← ApiFloat.next_down t1540
  let t1543 ← ApiFloat.bitwise_eq (t1542).value t1541
  check t1543
  check (decide ((t1542).status = Status.OK))
  let t1544 ← (ApiFloat.from_bits 131 : M Float8E4M3FN)
  let t1545 ← (ApiFloat.from_bits 132 : M Float8E4M3FN)
  let t1546 ← ApiFloat.next_down t1544
  let t1547 ← ApiFloat.bitwise_eq (t1546).value t1545
  check t1547
  check (decide ((t1546).status = Status.OK))
  let t1548 ← (ApiFloat.from_bits 132 : M Float8E4M3FN)
  let t1549 ← (ApiFloat.from_bits 133 : M Float8E4M3FN)
  let t1550 ← ApiFloat.next_down t1548
  let t1551 ← ApiFloat.bitwise_eq (t1550).value t1549
  check t1551
  check (decide ((t1550).status = Status.OK))
  let t1552 ← (ApiFloat.from_bits 133 : M Float8E4M3FN)
  let t1553 ← (ApiFloat.from_bits 134 : M Float8E4M3FN)
  let t1554 ← ApiFloat.next_down t1552
  let t1555 ← ApiFloat.bitwise_eq (t1554).value t1553
  check t1555
  check (decide ((t1554).status = Status.OK))
  let t1556 ← (ApiFloat.from_bits 134 : M Float8E4M3FN)
  let t1557 ← (ApiFloat.from_bits 135 : M Float8E4M3FN)
  let t1558 ← ApiFloat.next_down t1556
  let t1559 ← ApiFloat.bitwise_eq (t1558).value t1557
  check t1559
  check (decide ((t1558).status = Status.OK))
  let t1560 ← (ApiFloat.from_bits 135 : M Float8E4M3FN)
  let t1561 ← (ApiFloat.from_bits 136 : M Float8E4M3FN)
  let t1562 ← ApiFloat.next_down t1560
  let t1563 ← ApiFloat.bitwise_eq (t1562).value t1561
  check t1563

example : passes t_float8e4m3fn_next_39 = true := by decide +kernel

/-- tests/ieee.rs:4419 `float8e4m3fn_next`. -/
def t_float8e4m3fn_next_40 : M Unit := do
  let t1560 ← (ApiFloat.from_bits 135 : M Float8E4M3FN)
  let t1562 ← ApiFloat.next_down t1560
  check (decide ((t1562).status = Status.OK))
  let t1564 ← (ApiFloat.from_bits 136 : M Float8E4M3FN)
  let t1565 ← (ApiFloat.from_bits 137 : M Float8E4M3FN)
  let t1566 ← ApiFloat.next_down t1564
  let t1567 ← ApiFloat.bitwise_eq (t1566).value t1565
  check t1567
  check (decide ((t1566).status = Status.OK))
  let t1568 ← (ApiFloat.from_bits 137 : M Float8E4M3FN)
  let t1569 ← (ApiFloat.from_bits 138 : M Float8E4M3FN)
  let t1570 ← ApiFloat.next_down t1568
  let t1571 ← ApiFloat.bitwise_eq (t1570).value t1569
  check t1571
  check (decide ((t1570).status = Status.OK))
  let t1572 ← (ApiFloat.from_bits 138 : M Float8E4M3FN)
  let t1573 ← (ApiFloat.from_bits 139 : M Float8E4M3FN)
  let t1574 ← ApiFloat.next_down t1572
  let t1575 ← ApiFloat.bitwise_eq (t1574).value t1573
  check t1575
  check (decide ((t1574).status = Status.OK))
  let t1576 ← (ApiFloat.from_bits 139 : M Float8E4M3FN)
  let t1577 ← (ApiFloat.from_bits 140 : M Float8E4M3FN)
  let t1578 ← ApiFloat.next_down t1576
  let t1579 ← ApiFloat.bitwise_eq (t1578).value t1577
  check t1579
  check (decide ((t1578).status = Status.OK))
  let t1580 ← (ApiFloat.from_bits 140 : M Float8E4M3FN)
  let t1581 ← (ApiFloat.from_bits 141 : M Float8E4M3FN)
  let t1582 ← ApiFloat.next_down t1580
  let t1583 ← ApiFloat.bitwise_eq (t1582).value t1581
  check t1583
  check (decide ((t1582).status = Status.OK))
  let t1584 ← (ApiFloat.from_bits 141 : M Float8E4M3FN)
  let t1585 ← (ApiFloat.from_bits 142 : M Float8E4M3FN)
  let t1586 ← ApiFloat.next_down t1584
  let t1587 ← ApiFloat.bitwise_eq (t1586).value t1585
  check t1587
  check (decide ((t1586).status = Status.OK))
  let t1588 ← (ApiFloat.from_bits 142 : M Float8E4M3FN)
  let t1589 ← (ApiFloat.from_bits 143 : M Float8E4M3FN)
  let t1590 ← ApiFloat.next_down t1588
  let t1591 ← ApiFloat.bitwise_eq (t1590).value t1589
  check t1591
  check (decide ((t1590).status = Status.OK))
  let t1592 ← (ApiFloat.from_bits 143 : M Float8E4M3FN)
  let t1593 ← (ApiFloat.from_bits 144 : M Float8E4M3FN)
  let t1594 ← ApiFloat.next_down t1592
  let t1595 ← ApiFloat.bitwise_eq (t1594).value t1593
  check t1595
  check (decide ((t1594).status = Status.OK))
  let t1596 ← (ApiFloat.from_bits 144 : M Float8E4M3FN)
  let t1597 ← (ApiFloat.from_bits 145 : M Float8E4M3FN)
  let t1598 ← ApiFloat.next_down t1596
  let t1599 ← ApiFloat.bitwise_eq (t1598).value t1597
  check t1599
  check (decide ((t1598).status = Status.OK))
  let t1600 ← (ApiFloat.from_bits 145 : M Float8E4M3FN)
  let t1601 ← (ApiFloat.from_bits 146 : M Float8E4M3FN)
  let t1602 ← ApiFloat.next_down t1600
  let t1603 ← ApiFloat.bitwise_eq (t1602).value t1601
  check t1603

example : passes t_float8e4m3fn_next_40 = true := by decide +kernel

/-- tests/ieee.rs:4419 `float8e4m3fn_next`. -/
def t_float8e4m3fn_next_41 : M Unit := do
  let t1600 ← (ApiFloat.from_bits 145 : M Float8E4M3FN)
  let t1602 ← ApiFloat.next_down t1600
  check (decide ((t1602).status = Status.OK))
  let t1604 ← (ApiFloat.from_bits 146 : M Float8E4M3FN)
  let t1605 ← (ApiFloat.from_bits 147 : M Float8E4M3FN)
  let t1606 ← ApiFloat.next_down t1604
  let t1607 ← ApiFloat.bitwise_eq (t1606).value t1605
  check t1607
  check (decide ((t1606).status = Status.OK))
  let t1608 ← (ApiFloat.from_bits 147 : M Float8E4M3FN)
  let t1609 ← (ApiFloat.from_bits 148 : M Float8E4M3FN)
  let t1610 ← ApiFloat.next_down t1608
  let t1611 ← ApiFloat.bitwise_eq (t1610).value t1609
  check t1611
  check (decide ((t1610).status = Status.OK))
  let t1612 ← (ApiFloat.from_bits 148 : M Float8E4M3FN)
  let t1613 ← (ApiFloat.from_bits 149 : M Float8E4M3FN)
  let t1614 ← ApiFloat.next_down t1612
  let t1615 ← ApiFloat.bitwise_eq (t1614).value t1613
  check t1615
  check (decide ((t1614).status = Status.OK))
  let t1616 ← (ApiFloat.from_bits 149 : M Float8E4M3FN)
  let t1617 ← (ApiFloat.from_bits 150 : M Float8E4M3FN)
  let t1618 ← ApiFloat.next_down t1616
  let t1619 ← ApiFloat.bitwise_eq (t1618).value t1617
  check t1619
  check (decide ((t1618).status = Status.OK))
  let t1620 ← (ApiFloat.from_bits 150 : M Float8E4M3FN)
  let t1621 ← (ApiFloat.from_bits 151 : M Float8E4M3FN)
  let t1622 ← ApiFloat.next_down t1620
  let t1623 ← ApiFloat.bitwise_eq (t1622).value t1621
  check t1623
  check (decide ((t1622).status = Status.OK))
  let t1624 ← (ApiFloat.from_bits 151 : M Float8E4M3FN)
  let t1625 ← (ApiFloat.from_bits 152 : M Float8E4M3FN)
  let t1626 ← ApiFloat.next_down t1624
  let t1627 ← ApiFloat.bitwise_eq (t1626).value t1625
  check t1627
  check (decide ((t1626).status = Status.OK))
  let t1628 ← (ApiFloat.from_bits 152 : M Float8E4M3FN)
  let t1629 ← (ApiFloat.from_bits 153 : M Float8E4M3FN)
  let t1630 ← ApiFloat.next_down t1628
  let t1631 ← ApiFloat.bitwise_eq (t1630).value t1629
  check t1631
  check (decide ((t1630).status = Status.OK))
  let t1632 ← (ApiFloat.from_bits 153 : M Float8E4M3FN)
  let t1633 ← (ApiFloat.from_bits 154 : M Float8E4M3FN)
  let t1634 ← ApiFloat.next_down t1632
  let t1635 ← ApiFloat.bitwise_eq (t1634).value t1633
  check t1635
  check (decide ((t1634).status = Status.OK))
  let t1636 ← (ApiFloat.from_bits 154 : M Float8E4M3FN)
  let t1637 ← (ApiFloat.from_bits 155 : M Float8E4M3FN)
  let t1638 ← ApiFloat.next_down t1636
  let t1639 ← ApiFloat.bitwise_eq (t1638).value t1637
  check t1639
  check (decide ((t1638).status = Status.OK))
  let t1640 ← (ApiFloat.from_bits 155 : M Float8E4M3FN)
  let t1641 ← (ApiFloat.from_bits 156 : M Float8E4M3FN)
  let t1642 ← ApiFloat.next_down t1640
  let t1643 ← ApiFloat.bitwise_eq (t1642).value t1641
  check t1643

example : passes t_float8e4m3fn_next_41 = true := by decide +kernel

/-- tests/ieee.rs:4419 `float8e4m3fn_next`. -/
def t_float8e4m3fn_next_42 : M Unit := do
  let t1640 ← (ApiFloat.from_bits 155 : M Float8E4M3FN)
  let t1642 ← ApiFloat.next_down t1640
  check (decide ((t1642).status = Status.OK))
  let t1644 ← (ApiFloat.from_bits 156 : M Float8E4M3FN)
  let t1645 ← (ApiFloat.from_bits 157 : M Float8E4M3FN)
  let t1646 ← ApiFloat.next_down t1644
  let t1647 ← ApiFloat.bitwise_eq (t1646).value t1645
  check t1647
  check (decide ((t1646).status = Status.OK))
  let t1648 ← (ApiFloat.from_bits 157 : M Float8E4M3FN)
  let t1649 ← (ApiFloat.from_bits 158 : M Float8E4M3FN)
  let t1650 ← ApiFloat.next_down t1648
  let t1651 ← ApiFloat.bitwise_eq (t1650).value t1649
  check t1651
  check (decide ((t1650).status = Status.OK))
  let t1652 ← (ApiFloat.from_bits 158 : M Float8E4M3FN)
  let t1653 ← (ApiFloat.from_bits 159 : M Float8E4M3FN)
  let t1654 ← ApiFloat.next_down t1652
  let t1655 ← ApiFloat.bitwise_eq (t1654).value t1653
  check t1655
  check (decide ((t1654).status = Status.OK))
  let t1656 ← (ApiFloat.from_bits 159 : M Float8E4M3FN)
  let t1657 ← (ApiFloat.from_bits 160 : M Float8E4M3FN)
  let t1658 ← ApiFloat.next_down t1656
  let t1659 ← ApiFloat.bitwise_eq (t1658).value t1657
  check t1659
  check (decide ((t1658).status = Status.OK))
  let t1660 ← (ApiFloat.from_bits 160 : M Float8E4M3FN)
  let t1661 ← (ApiFloat.from_bits 161 : M Float8E4M3FN)
  let t1662 ← ApiFloat.next_down t1660
  let t1663 ← ApiFloat.bitwise_eq (t1662).value t1661
  check t1663
  check (decide ((t1662).status = Status.OK))
  let t1664 ← (ApiFloat.from_bits 161 : M Float8E4M3FN)
  let t1665 ← (ApiFloat.from_bits 162 : M Float8E4M3FN)
  let t1666 ← ApiFloat.next_down t1664
  let t1667 ← ApiFloat.bitwise_eq (t1666).value t1665
  check t1667
  check (decide ((t1666).status = Status.OK))
  let t1668 ← (ApiFloat.from_bits 162 : M Float8E4M3FN)
  let t1669 ← (ApiFloat.from_bits 163 : M Float8E4M3FN)
  let t1670 ← ApiFloat.next_down t1668
  let t1671 ← ApiFloat.bitwise_eq (t1670).value t1669
  check t1671
  check (decide ((t1670).status = Status.OK))
  let t1672 ← (ApiFloat.from_bits 163 : M Float8E4M3FN)
  let t1673 ← (ApiFloat.from_bits 164 : M Float8E4M3FN)
  let t1674 ← ApiFloat.next_down t1672
  let t1675 ← ApiFloat.bitwise_eq (t1674).value t1673
  check t1675
  check (decide ((t1674).status = Status.OK))
  let t1676 ← (ApiFloat.from_bits 164 : M Float8E4M3FN)
  let t1677 ← (ApiFloat.from_bits 165 : M Float8E4M3FN)
  let t1678 ← ApiFloat.next_down t1676
  let t1679 ← ApiFloat.bitwise_eq (t1678).value t1677
  check t1679
  check (decide ((t1678).status = Status.OK))
  let t1680 ← (ApiFloat.from_bits 165 : M Float8E4M3FN)
  let t1681 ← (ApiFloat.from_bits 166 : M Float8E4M3FN)
  let t1682 ← ApiFloat.next_down t1680
  let t1683 ← ApiFloat.bitwise_eq (t1682).value t1681
  check t1683

example : passes t_float8e4m3fn_next_42 = true := by decide +kernel

/-- tests/ieee.rs:4419 `float8e4m3fn_next`. -/
def t_float8e4m3fn_next_43 : M Unit := do
  let t1680 ← (ApiFloat.from_bits 165 : M Float8E4M3FN)
  let t1682 ← ApiFloat.next_down t1680
  check (decide ((t1682).status = Status.OK))
  let t1684 ← (ApiFloat.from_bits 166 : M Float8E4M3FN)
  let t1685 ← (ApiFloat.from_bits 167 : M Float8E4M3FN)
  let t1686 ← ApiFloat.next_down t1684
  let t1687 ← ApiFloat.bitwise_eq (t1686).value t1685
  check t1687
  check (decide ((t1686).status = Status.OK))
  let t1688 ← (ApiFloat.from_bits 167 : M Float8E4M3FN)
  let t1689 ← (ApiFloat.from_bits 168 : M Float8E4M3FN)
  let t1690 ← ApiFloat.next_down t1688
  let t1691 ← ApiFloat.bitwise_eq (t1690).value t1689
  check t1691
  check (decide ((t1690).status = Status.OK))
  let t1692 ← (ApiFloat.from_bits 168 : M Float8E4M3FN)
  let t1693 ← (ApiFloat.from_bits 169 : M Float8E4M3FN)
  let t1694 ← ApiFloat.next_down t1692
  let t1695 ← ApiFloat.bitwise_eq (t1694).value t1693
  check t1695
  check (decide ((t1694).status = Status.OK))
  let t1696 ← (ApiFloat.from_bits 169 : M Float8E4M3FN)
  let t1697 ← (ApiFloat.from_bits 170 : M Float8E4M3FN)
  let t1698 ← ApiFloat.next_down t1696
  let t1699 ← ApiFloat.bitwise_eq (t1698).value t1697
  check t1699
  check (decide ((t1698).status = Status.OK))
  let t1700 ← (ApiFloat.from_bits 170 : M Float8E4M3FN)
  let t1701 ← (ApiFloat.from_bits 171 : M Float8E4M3FN)
  let t1702 ← ApiFloat.next_down t1700
  let t1703 ← ApiFloat.bitwise_eq (t1702).value t1701
  check t1703
  check (decide ((t1702).status = Status.OK))
  let t1704 ← (ApiFloat.from_bits 171 : M Float8E4M3FN)
  let t1705 ← (ApiFloat.from_bits 172 : M Float8E4M3FN)
  let t1706 ← ApiFloat.next_down t1704
  let t1707 ← ApiFloat.bitwise_eq (t1706).value t1705
  check t1707
  check (decide ((t1706).status = Status.OK))
  let t1708 ← (ApiFloat.from_bits 172 : M Float8E4M3FN)
  let t1709 ← (ApiFloat.from_bits 173 : M Float8E4M3FN)
  let t1710 ← ApiFloat.next_down t1708
  let t1711 ← ApiFloat.bitwise_eq (t1710).value t1709
  check t1711
  check (decide ((t1710).status = Status.OK))
  let t1712 ← (ApiFloat.from_bits 173 : M Float8E4M3FN)
  let t1713 ← (ApiFloat.from_bits 174 : M Float8E4M3FN)
  let t1714 ← ApiFloat.next_down t1712
  let t1715 ← ApiFloat.bitwise_eq (t1714).value t1713
  check t1715
  check (decide ((t1714).status = Status.OK))
  let t1716 ← (ApiFloat.from_bits 174 : M Float8E4M3FN)
  let t1717 ← (ApiFloat.from_bits 175 : M Float8E4M3FN)
  let t1718 ← ApiFloat.next_down t1716
  let t1719 ← ApiFloat.bitwise_eq (t1718).value t1717
  check t1719
  check (decide ((t1718).status = Status.OK))
  let t1720 ← (ApiFloat.from_bits 175 : M Float8E4M3FN)
  let t1721 ← (ApiFloat.from_bits 176 : M Float8E4M3FN)
  let t1722 ← ApiFloat.next_down t1720
  let t1723 ← ApiFloat.bitwise_eq (t1722).value t1721
  check t1723

example : passes t_float8e4m3fn_next_43 = true := by decide +kernel

/-- tests/ieee.rs:4419 `float8e4m3fn_next`. -/
def t_float8e4m3fn_next_44 : M Unit := do
  let t1720 ← (ApiFloat.from_bits 175 : M Float8E4M3FN)
  let t1722 ← ApiFloat.next_down t1720
  check (decide ((t1722).status = Status.OK))
  let t1724 ← (ApiFloat.from_bits 176 : M Float8E4M3FN)
  let t1725 ← (ApiFloat.from_bits 177 : M Float8E4M3FN)
  let t1726 ← ApiFloat.next_down t1724
  let t1727 ← ApiFloat.bitwise_eq (t1726).value t1725
  check t1727
  check (decide ((t1726).status = Status.OK))
  let t1728 ← (ApiFloat.from_bits 177 : M Float8E4M3FN)
  let t1729 ← (ApiFloat.from_bits 178 : M Float8E4M3FN)
  let t1730 ← ApiFloat.next_down t1728
  let t1731 ← ApiFloat.bitwise_eq (t1730).value t1729
  check t1731
  check (decide ((t1730).status = Status.OK))
  let t1732 ← (ApiFloat.from_bits 178 : M Float8E4M3FN)
  let t1733 ← (ApiFloat.from_bits 179 : M Float8E4M3FN)
  let t1734 ← ApiFloat.next_down t1732
  let t1735 ← ApiFloat.bitwise_eq (t1734).value t1733
  check t1735
  check (decide ((t1734).status = Status.OK))
  let t1736 ← (ApiFloat.from_bits 179 : M Float8E4M3FN)
  let t1737 ← (ApiFloat.from_bits 180 : M Float8E4M3FN)
  let t1738 ← ApiFloat.next_down t1736
  let t1739 ← ApiFloat.bitwise_eq (t1738).value t1737
  check t1739
  check (decide ((t1738).status = Status.OK))
  let t1740 ← (ApiFloat.from_bits 180 : M Float8E4M3FN)
  let t1741 ← (ApiFloat.from_bits 181 : M Float8E4M3FN)
  let t1742 ← ApiFloat.next_down t1740
  let t1743 ← ApiFloat.bitwise_eq (t1742).value t1741
  check t1743
  check (decide ((t1742).status = Status.OK))
  let t1744 ← (ApiFloat.from_bits 181 : M Float8E4M3FN)
  let t1745 ← (ApiFloat.from_bits 182 : M Float8E4M3FN)
  let t1746 ← ApiFloat.next_down t1744
  let t1747 ← ApiFloat.bitwise_eq (t1746).value t1745
  check t1747
  check (decide ((t1746).status = Status.OK))
  let t1748 ← (ApiFloat.from_bits 182 : M Float8E4M3FN)
  let t1749 ← (ApiFloat.from_bits 183 : M Float8E4M3FN)
  let t1750 ← ApiFloat.next_down t1748
  let t1751 ← ApiFloat.bitwise_eq (t1750).value t1749
  check t1751
  check (decide ((t1750).status = Status.OK))
  let t1752 ← (ApiFloat.from_bits 183 : M Float8E4M3FN)
  let t1753 ← (ApiFloat.from_bits 184 : M Float8E4M3FN)
  let t1754 ← ApiFloat.next_down t1752
  let t1755 ← ApiFloat.bitwise_eq (t1754).value t1753
  check t1755
  check (decide ((t1754).status = Status.OK))
  let t1756 ← (ApiFloat.from_bits 184 : M Float8E4M3FN)
  let t1757 ← (ApiFloat.from_bits 185 : M Float8E4M3FN)
  let t1758 ← ApiFloat.next_down t1756
  let t1759 ← ApiFloat.bitwise_eq (t1758).value t1757
  check t1759
  check (decide ((t1758).status = Status.OK))
  let t1760 ← (ApiFloat.from_bits 185 : M Float8E4M3FN)
  let t1761 ← (ApiFloat.from_bits 186 : M Float8E4M3FN)
  let t1762 ← ApiFloat.next_down t1760
  let t1763 ← ApiFloat.bitwise_eq (t1762).value t1761
  check t1763

example : passes t_float8e4m3fn_next_44 = true := by decide +kernel

/-- tests/ieee.rs:4419 `float8e4m3fn_next`. -/
def t_float8e4m3fn_next_45 : M Unit := do
  let t1760 ← (ApiFloat.from_bits 185 : M Float8E4M3FN)
  let t1762 ← ApiFloat.next_down t1760
  check (decide ((t1762).status = Status.OK))
  let t1764 ← (ApiFloat.from_bits 186 : M Float8E4M3FN)
  let t1765 ← (ApiFloat.from_bits 187 : M Float8E4M3FN)
  let t1766 ← ApiFloat.next_down t1764
  let t1767 ← ApiFloat.bitwise_eq (t1766).value t1765
  check t1767
  check (decide ((t1766).status = Status.OK))
  let t1768 ← (ApiFloat.from_bits 187 : M Float8E4M3FN)
  let t1769 ← (ApiFloat.from_bits 188 : M Float8E4M3FN)
  let t1770 ← ApiFloat.next_down t1768
  let t1771 ← ApiFloat.bitwise_eq (t1770).value t1769
  check t1771
  check (decide ((t1770).status = Status.OK))
  let t1772 ← (ApiFloat.from_bits 188 : M Float8E4M3FN)
  let t1773 ← (ApiFloat.from_bits 189 : M Float8E4M3FN)
  let t1774 ← ApiFloat.next_down t1772
  let t1775 ← ApiFloat.bitwise_eq (t1774).value t1773
  check t1775
  check (decide ((t1774).status = Status.OK))
  let t1776 ← (ApiFloat.from_bits 189 : M Float8E4M3FN)
  let t1777 ← (ApiFloat.from_bits 190 : M Float8E4M3FN)
  let t1778 ← ApiFloat.next_down t1776
  let t1779 ← ApiFloat.bitwise_eq (t1778).value t1777
  check t1779
  check (decide ((t1778).status = Status.OK))
  let t1780 ← (ApiFloat.from_bits 190 : M Float8E4M3FN)
  let t1781 ← (ApiFloat.from_bits 191 : M Float8E4M3FN)
  let t1782 ← ApiFloat.next_down t1780
  let t1783 ← ApiFloat.bitwise_eq (t1782).value t1781
  check t1783
  check (decide ((t1782).status = Status.OK))
  let t1784 ← (ApiFloat.from_bits 191 : M Float8E4M3FN)
  let t1785 ← (ApiFloat.from_bits 192 : M Float8E4M3FN)
  let t1786 ← ApiFloat.next_down t1784
  let t1787 ← ApiFloat.bitwise_eq (t1786).value t1785
  check t1787
  check (decide ((t1786).status = Status.OK))
  let t1788 ← (ApiFloat.from_bits 192 : M Float8E4M3FN)
  let t1789 ← (ApiFloat.from_bits 193 : M Float8E4M3FN)
  let t1790 ← ApiFloat.next_down t1788
  let t1791 ← ApiFloat.bitwise_eq (t1790).value t1789
  check t1791
  check (decide ((t1790).status = Status.OK))
  let t1792 ← (ApiFloat.from_bits 193 : M Float8E4M3FN)
  let t1793 ← (ApiFloat.from_bits 194 : M Float8E4M3FN)
  let t1794 ← ApiFloat.next_down t1792
  let t1795 ← ApiFloat.bitwise_eq (t1794).value t1793
  check t1795
  check (decide ((t1794).status = Status.OK))
  let t1796 ← (ApiFloat.from_bits 194 : M Float8E4M3FN)
  let t1797 ← (ApiFloat.from_bits 195 : M Float8E4M3FN)
  let t1798 ← ApiFloat.next_down t1796
  let t1799 ← ApiFloat.bitwise_eq (t1798).value t1797
  check t1799
  check (decide ((t1798).status = Status.OK))
  let t1800 ← (ApiFloat.from_bits 195 : M Float8E4M3FN)
  let t1801 ← (ApiFloat.from_bits 196 : M Float8E4M3FN)
  let t1802 ← ApiFloat.next_down t1800
  let t1803 ← ApiFloat.bitwise_eq (t1802).value t1801
  check t1803

example : passes t_float8e4m3fn_next_45 = true := by decide +kernel

/-- tests/ieee.rs:4419 `float8e4m3fn_next`. -/
def t_float8e4m3fn_next_46 : M Unit := do
  let t1800 ← (ApiFloat.from_bits 195 : M Float8E4M3FN)
  let t1802 ← ApiFloat.next_down t1800
  check (decide ((t1802).status = Status.OK))
  let t1804 ← (ApiFloat.from_bits 196 : M Float8E4M3FN)
  let t1805 ← (ApiFloat.from_bits 197 : M Float8E4M3FN)
  let t1806 ← ApiFloat.next_down t1804
  let t1807 ← ApiFloat.bitwise_eq (t1806).value t1805
  check t1807
  check (decide ((t1806).status = Status.OK))
  let t1808 ← (ApiFloat.from_bits 197 : M Float8E4M3FN)
  let t1809 ← (ApiFloat.from_bits 198 : M Float8E4M3FN)
  let t1810 ← ApiFloat.next_down t1808
  let t1811 ← ApiFloat.bitwise_eq (t1810).value t1809
  check t1811
  check (decide ((t1810).status = Status.OK))
  let t1812 ← (ApiFloat.from_bits 198 : M Float8E4M3FN)
  let t1813 ← (ApiFloat.from_bits 199 : M Float8E4M3FN)
  let t1814 ← ApiFloat.next_down t1812
  let t1815 ← ApiFloat.bitwise_eq (t1814).value t1813
  check t1815
  check (decide ((t1814).status = Status.OK))
  let t1816 ← (ApiFloat.from_bits 199 : M Float8E4M3FN)
  let t1817 ← (ApiFloat.from_bits 200 : M Float8E4M3FN)
  let t1818 ← ApiFloat.next_down t1816
  let t1819 ← ApiFloat.bitwise_eq (t1818).value t1817
  check t1819
  check (decide ((t1818).status = Status.OK))
  let t1820 ← (ApiFloat.from_bits 200 : M Float8E4M3FN)
  let t1821 ← (ApiFloat.from_bits 201 : M Float8E4M3FN)
  let t1822 ← ApiFloat.next_down t1820
  let t1823 ← ApiFloat.bitwise_eq (t1822).value t1821
  check t1823
  check (decide ((t1822).status = Status.OK))
  let t1824 ← (ApiFloat.from_bits 201 : M Float8E4M3FN)
  let t1825 ← (ApiFloat.from_bits 202 : M Float8E4M3FN)
  let t1826 ← ApiFloat.next_down t1824
  let t1827 ← ApiFloat.bitwise_eq (t1826).value t1825
  check t1827
  check (decide ((t1826).status = Status.OK))
  let t1828 ← (ApiFloat.from_bits 202 : M Float8E4M3FN)
  let t1829 ← (ApiFloat.from_bits 203 : M Float8E4M3FN)
  let t1830 ← ApiFloat.next_down t1828
  let t1831 ← ApiFloat.bitwise_eq (t1830).value t1829
  check t1831
  check (decide ((t1830).status = Status.OK))
  let t1832 ← (ApiFloat.from_bits 203 : M Float8E4M3FN)
  let t1833 ← (ApiFloat.from_bits 204 : M Float8E4M3FN)
  let t1834 ← ApiFloat.next_down t1832
  let t1835 ← ApiFloat.bitwise_eq (t1834).value t1833
  check t1835
  check (decide ((t1834).status = Status.OK))
  let t1836 ← (ApiFloat.from_bits 204 : M Float8E4M3FN)
  let t1837 ← (ApiFloat.from_bits 205 : M Float8E4M3FN)
  let t1838 ← ApiFloat.next_down t1836
  let t1839 ← ApiFloat.bitwise_eq (t1838).value t1837
  check t1839
  check (decide ((t1838).status = Status.OK))
  let t1840 ← (ApiFloat.from_bits 205 : M Float8E4M3FN)
  let t1841 ← (ApiFloat.from_bits 206 : M Float8E4M3FN)
  let t1842 ← ApiFloat.next_down t1840
  let t1843 ← ApiFloat.bitwise_eq (t1842).value t1841
  check t1843

example : passes t_float8e4m3fn_next_46 = true := by decide +kernel

/-- tests/ieee.rs:4419 `float8e4m3fn_next`. -/
def t_float8e4m3fn_next_47 : M Unit := do
  let t1840 ← (ApiFloat.from_bits 205 : M Float8E4M3FN)
  let t1842 ← ApiFloat.next_down t1840
  check (decide ((t1842).status = Status.OK))
  let t1844 ← (ApiFloat.from_bits 206 : M Float8E4M3FN)
  let t1845 ← (ApiFloat.from_bits 207 : M Float8E4M3FN)
  let t1846 ← ApiFloat.next_down t1844
  let t1847 ← ApiFloat.bitwise_eq (t1846).value t1845
  check t1847
  check (decide ((t1846).status = Status.OK))
  let t1848 ← (ApiFloat.from_bits 207 : M Float8E4M3FN)
  let t1849 ← (ApiFloat.from_bits 208 : M Float8E4M3FN)
  let t1850 ← ApiFloat.next_down t1848
  let t1851 ← ApiFloat.bitwise_eq (t1850).value t1849
  check t1851
  check (decide ((t1850).status = Status.OK))
  let t1852 ← (ApiFloat.from_bits 208 : M Float8E4M3FN)
  let t1853 ← (ApiFloat.from_bits 209 : M Float8E4M3FN)
  let t1854 ← ApiFloat.next_down t1852
  let t1855 ← ApiFloat.bitwise_eq (t1854).value t1853
  check t1855
  check (decide ((t1854).status = Status.OK))
  let t1856 ← (ApiFloat.from_bits 209 : M Float8E4M3FN)
  let t1857 ← (ApiFloat.from_bits 210 : M Float8E4M3FN)
  let t1858 ← ApiFloat.next_down t1856
  let t1859 ← ApiFloat.bitwise_eq (t1858).value t1857
  check t1859
  check (decide ((t1858).status = Status.OK))
  let t1860 ← (ApiFloat.from_bits 210 : M Float8E4M3FN)
  let t1861 ← (ApiFloat.from_bits 211 : M Float8E4M3FN)
  let t1862 ← ApiFloat.next_down t1860
  let t1863 ← ApiFloat.bitwise_eq (t1862).value t1861
  check t1863
  check (decide ((t1862).status = Status.OK))
  let t1864 ← (ApiFloat.from_bits 211 : M Float8E4M3FN)
  let t1865 ← (ApiFloat.from_bits 212 : M Float8E4M3FN)
  let t1866 ← ApiFloat.next_down t1864
  let t1867 ← ApiFloat.bitwise_eq (t1866).value t1865
  check t1867
  check (decide ((t1866).status = Status.OK))
  let t1868 ← (ApiFloat.from_bits 212 : M Float8E4M3FN)
  let t1869 ← (ApiFloat.from_bits 213 : M Float8E4M3FN)
  let t1870 ← ApiFloat.next_down t1868
  let t1871 ← ApiFloat.bitwise_eq (t1870).value t1869
  check t1871
  check (decide ((t1870).status = Status.OK))
  let t1872 ← (ApiFloat.from_bits 213 : M Float8E4M3FN)
  let t1873 ← (ApiFloat.from_bits 214 : M Float8E4M3FN)
  let t1874 ← ApiFloat.next_down t1872
  let t1875 ← ApiFloat.bitwise_eq (t1874).value t1873
  check t1875
  check (decide ((t1874).status = Status.OK))
  let t1876 ← (ApiFloat.from_bits 214 : M Float8E4M3FN)
  let t1877 ← (ApiFloat.from_bits 215 : M Float8E4M3FN)
  let t1878 ← ApiFloat.next_down t1876
  let t1879 ← ApiFloat.bitwise_eq (t1878).value t1877
  check t1879
  check (decide ((t1878).status = Status.OK))
  let t1880 ← (ApiFloat.from_bits 215 : M Float8E4M3FN)
  let t1881 ← (ApiFloat.from_bits 216 : M Float8E4M3FN)
  let t1882 ← ApiFloat.next_down t1880
  let t1883 ← ApiFloat.bitwise_eq (t1882).value t1881
  check t1883

example : passes t_float8e4m3fn_next_47 = true := by decide +kernel

/-- tests/ieee.rs:4419 `float8e4m3fn_next`. -/
def t_float8e4m3fn_next_48 : M Unit := do
  let t1880 ← (ApiFloat.from_bits 215 : M Float8E4M3FN)
  let t1882 ← ApiFloat.next_down t1880
  check (decide ((t1882).status = Status.OK))
  let t1884 ← (ApiFloat.from_bits 216 : M Float8E4M3FN)
  let t1885 ← (ApiFloat.from_bits 217 : M Float8E4M3FN)
  let t1886 ← ApiFloat.next_down t1884
  let t1887 ← ApiFloat.bitwise_eq (t1886).value t1885
  check t1887
  check (decide ((t1886).status = Status.OK))
  let t1888 ← (ApiFloat.from_bits 217 : M Float8E4M3FN)
  let t1889 ← (ApiFloat.from_bits 218 : M Float8E4M3FN)
  let t1890 ← ApiFloat.next_down t1888
  let t1891 ← ApiFloat.bitwise_eq (t1890).value t1889
  check t1891
  check (decide ((t1890).status = Status.OK))
  let t1892 ← (ApiFloat.from_bits 218 : M Float8E4M3FN)
  let t1893 ← (ApiFloat.from_bits 219 : M Float8E4M3FN)
  let t1894 ← ApiFloat.next_down t1892
  let t1895 ← ApiFloat.bitwise_eq (t1894).value t1893
  check t1895
  check (decide ((t1894).status = Status.OK))
  let t1896 ← (ApiFloat.from_bits 219 : M Float8E4M3FN)
  let t1897 ← (ApiFloat.from_bits 220 : M Float8E4M3FN)
  let t1898 ← ApiFloat.next_down t1896
  let t1899 ← ApiFloat.bitwise_eq (t1898).value t1897
  check t1899
  check (decide ((t1898).status = Status.OK))
  let t1900 ← (ApiFloat.from_bits 220 : M Float8E4M3FN)
  let t1901 ← (ApiFloat.from_bits 221 : M Float8E4M3FN)
  let t1902 ← ApiFloat.next_down t1900
  let t1903 ← ApiFloat.bitwise_eq (t1902).value t1901
  check t1903
  check (decide ((t1902).status = Status.OK))
  let t1904 ← (ApiFloat.from_bits 221 : M Float8E4M3FN)
  let t1905 ← (ApiFloat.from_bits 222 : M Float8E4M3FN)
  let t1906 ← ApiFloat.next_down t1904
  let t1907 ← ApiFloat.bitwise_eq (t1906).value t1905
  check t1907
  check (decide ((t1906).status = Status.OK))
  let t1908 ← (ApiFloat.from_bits 222 : M Float8E4M3FN)
  let t1909 ← (ApiFloat.from_bits 223 : M Float8E4M3FN)
  let t1910 ← ApiFloat.next_down t1908
  let t1911 ← ApiFloat.bitwise_eq (t1910).value t1909
  check t1911
  check (decide ((t1910).status = Status.OK))
  let t1912 ← (ApiFloat.from_bits 223 : M Float8E4M3FN)
  let t1913 ← (ApiFloat.from_bits 224 : M Float8E4M3FN)
  let t1914 ← ApiFloat.next_down t1912
  let t1915 ← ApiFloat.bitwise_eq (t1914).value t1913
  check t1915
  check (decide ((t1914).status = Status.OK))
  let t1916 ← (ApiFloat.from_bits 224 : M Float8E4M3FN)
  let t1917 ← (ApiFloat.from_bits 225 : M Float8E4M3FN)
  let t1918 ← ApiFloat.next_down t1916
  let t1919 ← ApiFloat.bitwise_eq (t1918).value t1917
  check t1919
  check (decide ((t1918).status = Status.OK))
  let t1920 ← (ApiFloat.from_bits 225 : M Float8E4M3FN)
  let t1921 ← (ApiFloat.from_bits 226 : M Float8E4M3FN)
  let t1922 ← ApiFloat.next_down t1920
  let t1923 ← ApiFloat.bitwise_eq (t1922).value t1921
  check t1923

example : passes t_float8e4m3fn_next_48 = true := by decide +kernel

/-- tests/ieee.rs:4419 `float8e4m3fn_next`. -/
def t_float8e4m3fn_next_49 : M Unit := do
  let t1920 ← (ApiFloat.from_bits 225 : M Float8E4M3FN)
  let t1922 ← ApiFloat.next_down t1920
  check (decide ((t1922).status = Status.OK))
  let t1924 ← (ApiFloat.from_bits 226 : M Float8E4M3FN)
  let t1925 ← (ApiFloat.from_bits 227 : M Float8E4M3FN)
  let t1926 ← ApiFloat.next_down t1924
  let t1927 ← ApiFloat.bitwise_eq (t1926).value t1925
  check t1927
  check (decide ((t1926).status = Status.OK))
  let t1928 ← (ApiFloat.from_bits 227 : M Float8E4M3FN)
  let t1929 ← (ApiFloat.from_bits 228 : M Float8E4M3FN)
  let t1930 ← ApiFloat.next_down t1928
  let t1931 ← ApiFloat.bitwise_eq (t1930).value t1929
  check t1931
  check (decide ((t1930).status = Status.OK))
  let t1932 ← (ApiFloat.from_bits 228 : M Float8E4M3FN)
  let t1933 ← (ApiFloat.from_bits 229 : M Float8E4M3FN)
  let t1934 ← ApiFloat.next_down t1932
  let t1935 ← ApiFloat.bitwise_eq (t1934).value t1933
  check t1935
  check (decide ((t1934).status = Status.OK))
  let t1936 ← (ApiFloat.from_bits 229 : M Float8E4M3FN)
  let t1937 ← (ApiFloat.from_bits 230 : M Float8E4M3FN)
  let t1938 ← ApiFloat.next_down t1936
  let t1939 ← ApiFloat.bitwise_eq (t1938).value t1937
  check t1939
  check (decide ((t1938).status = Status.OK))
  let t1940 ← (ApiFloat.from_bits 230 : M Float8E4M3FN)
  let t1941 ← (ApiFloat.from_bits 231 : M Float8E4M3FN)
  let t1942 ← ApiFloat.next_down t1940
  let t1943 ← ApiFloat.bitwise_eq (t1942).value t1941
  check t1943
  check (decide ((t1942).status = Status.OK))
  let t1944 ← (ApiFloat.from_bits 231 : M Float8E4M3FN)
  let t1945 ← (ApiFloat.from_bits 232 : M Float8E4M3FN)
  let t1946 ← ApiFloat.next_down t1944
  let t1947 ← ApiFloat.bitwise_eq (t1946).value t1945
  check t1947
  check (decide ((t1946).status = Status.OK))
  let t1948 ← (ApiFloat.from_bits 232 : M Float8E4M3FN)
  let t1949 ← (ApiFloat.from_bits 233 : M Float8E4M3FN)
  let t1950 ← ApiFloat.next_down t1948
  let t1951 ← ApiFloat.bitwise_eq (t1950).value t1949
  check t1951
  check (decide ((t1950).status = Status.OK))
  let t1952 ← (ApiFloat.from_bits 233 : M Float8E4M3FN)
  let t1953 ← (ApiFloat.from_bits 234 : M Float8E4M3FN)
  let t1954 ← ApiFloat.next_down t1952
  let t1955 ← ApiFloat.bitwise_eq (t1954).value t1953
  check t1955
  check (decide ((t1954).status = Status.OK))
  let t1956 ← (ApiFloat.from_bits 234 : M Float8E4M3FN)
  let t1957 ← (ApiFloat.from_bits 235 : M Float8E4M3FN)
  let t1958 ← ApiFloat.next_down t1956
  let t1959 ← ApiFloat.bitwise_eq (t1958).value t1957
  check t1959
  check (decide ((t1958).status = Status.OK))
  let t1960 ← (ApiFloat.from_bits 235 : M Float8E4M3FN)
  let t1961 ← (ApiFloat.from_bits 236 : M Float8E4M3FN)
  let t1962 ← ApiFloat.next_down t1960
  let t1963 ← ApiFloat.bitwise_eq (t1962).value t1961
  check t1963

example : passes t_float8e4m3fn_next_49 = true := by decide +kernel

/-- tests/ieee.rs:4419 `float8e4m3fn_next`. -/
def t_float8e4m3fn_next_50 : M Unit := do
  let t1960 ← (ApiFloat.from_bits 235 : M Float8E4M3FN)
  let t1962 ← ApiFloat.next_down t1960
  check (decide ((t1962).status = Status.OK))
  let t1964 ← (ApiFloat.from_bits 236 : M Float8E4M3FN)
  let t1965 ← (ApiFloat.from_bits 237 : M Float8E4M3FN)
  let t1966 ← ApiFloat.next_down t1964
  let t1967 ← ApiFloat.bitwise_eq (t1966).value t1965
  check t1967
  check (decide ((t1966).status = Status.OK))
  let t1968 ← (ApiFloat.from_bits 237 : M Float8E4M3FN)
  let t1969 ← (ApiFloat.from_bits 238 : M Float8E4M3FN)
  let t1970 ← ApiFloat.next_down t1968
  let t1971 ← ApiFloat.bitwise_eq (t1970).value t1969
  check t1971
  check (decide ((t1970).status = Status.OK))
  let t1972 ← (ApiFloat.from_bits 238 : M Float8E4M3FN)
  let t1973 ← (ApiFloat.from_bits 239 : M Float8E4M3FN)
  let t1974 ← ApiFloat.next_down t1972
  let t1975 ← ApiFloat.bitwise_eq (t1974).value t1973
  check t1975
  check (decide ((t1974).status = Status.OK))
  let t1976 ← (ApiFloat.from_bits 239 : M Float8E4M3FN)
  let t1977 ← (ApiFloat.from_bits 240 : M Float8E4M3FN)
  let t1978 ← ApiFloat.next_down t1976
  let t1979 ← ApiFloat.bitwise_eq (t1978).value t1977
  check t1979
  check (decide ((t1978).status = Status.OK))
  let t1980 ← (ApiFloat.from_bits 240 : M Float8E4M3FN)
  let t1981 ← (ApiFloat.from_bits 241 : M Float8E4M3FN)
  let t1982 ← ApiFloat.next_down t1980
  let t1983 ← ApiFloat.bitwise_eq (t1982).value t1981
  check t1983
  check (decide ((t1982).status = Status.OK))
  let t1984 ← (ApiFloat.from_bits 241 : M Float8E4M3FN)
  let t1985 ← (ApiFloat.from_bits 242 : M Float8E4M3FN)
  let t1986 ← ApiFloat.next_down t1984
  let t1987 ← ApiFloat.bitwise_eq (t1986).value t1985
  check t1987
  check (decide ((t1986).status = Status.OK))
  let t1988 ← (ApiFloat.from_bits 242 : M Float8E4M3FN)
  let t1989 ← (ApiFloat.from_bits 243 : M Float8E4M3FN)
  let t1990 ← ApiFloat.next_down t1988
  let t1991 ← ApiFloat.bitwise_eq (t1990).value t1989
  check t1991
  check (decide ((t1990).status = Status.OK))
  let t1992 ← (ApiFloat.from_bits 243 : M Float8E4M3FN)
  let t1993 ← (ApiFloat.from_bits 244 : M Float8E4M3FN)
  let t1994 ← ApiFloat.next_down t1992
  let t1995 ← ApiFloat.bitwise_eq (t1994).value t1993
  check t1995
  check (decide ((t1994).status = Status.OK))
  let t1996 ← (ApiFloat.from_bits 244 : M Float8E4M3FN)
  let t1997 ← (ApiFloat.from_bits 245 : M Float8E4M3FN)
  let t1998 ← ApiFloat.next_down t1996
  let t1999 ← ApiFloat.bitwise_eq (t1998).value t1997
  check t1999
  check (decide ((t1998).status = Status.OK))
  let t2000 ← (ApiFloat.from_bits 245 : M Float8E4M3FN)
  let t2001 ← (ApiFloat.from_bits 246 : M Float8E4M3FN)
  let t2002 ← ApiFloat.next_down t2000
  let t2003 ← ApiFloat.bitwise_eq (t2002).value t2001
  check t2003

example : passes t_float8e4m3fn_next_50 = true := by decide +kernel

/-- tests/ieee.rs:4419 `float8e4m3fn_next`. -/
def t_float8e4m3fn_next_51 : M Unit := do
  let t2000 ← (ApiFloat.from_bits 245 : M Float8E4M3FN)
  let t2002 ← ApiFloat.next_down t2000
  check (decide ((t2002).status = Status.OK))
  let t2004 ← (ApiFloat.from_bits 246 : M Float8E4M3FN)
  let t2005 ← (ApiFloat.from_bits 247 : M Float8E4M3FN)
  let t2006 ← ApiFloat.next_down t2004
  let t2007 ← ApiFloat.bitwise_eq (t2006).value t2005
  check t2007
  check (decide ((t2006).status = Status.OK))
  let t2008 ← (ApiFloat.from_bits 247 : M Float8E4M3FN)
  let t2009 ← (ApiFloat.from_bits 248 : M Float8E4M3FN)
  let t2010 ← ApiFloat.next_down t2008
  let t2011 ← ApiFloat.bitwise_eq (t2010).value t2009
  check t2011
  check (decide ((t2010).status = Status.OK))
  let t2012 ← (ApiFloat.from_bits 248 : M Float8E4M3FN)
  let t2013 ← (ApiFloat.from_bits 249 : M Float8E4M3FN)
  let t2014 ← ApiFloat.next_down t2012
  let t2015 ← ApiFloat.bitwise_eq (t2014).value t2013
  check t2015
  check (decide ((t2014).status = Status.OK))
  let t2016 ← (ApiFloat.from_bits 249 : M Float8E4M3FN)
  let t2017 ← (ApiFloat.from_bits 250 : M Float8E4M3FN)
  let t2018 ← ApiFloat.next_down t2016
  let t2019 ← ApiFloat.bitwise_eq (t2018).value t2017
  check t2019
  check (decide ((t2018).status = Status.OK))
  let t2020 ← (ApiFloat.from_bits 250 : M Float8E4M3FN)
  let t2021 ← (ApiFloat.from_bits 251 : M Float8E4M3FN)
  let t2022 ← ApiFloat.next_down t2020
  let t2023 ← ApiFloat.bitwise_eq (t2022).value t2021
  check t2023
  check (decide ((t2022).status = Status.OK))
  let t2024 ← (ApiFloat.from_bits 251 : M Float8E4M3FN)
  let t2025 ← (ApiFloat.from_bits 252 : M Float8E4M3FN)
  let t2026 ← ApiFloat.next_down t2024
  let t2027 ← ApiFloat.bitwise_eq (t2026).value t2025
  check t2027
  check (decide ((t2026).status = Status.OK))
  let t2028 ← (ApiFloat.from_bits 252 : M Float8E4M3FN)
  let t2029 ← (ApiFloat.from_bits 253 : M Float8E4M3FN)
  let t2030 ← ApiFloat.next_down t2028
  let t2031 ← ApiFloat.bitwise_eq (t2030).value t2029
  check t2031
  check (decide ((t2030).status = Status.OK))
  let t2032 ← (ApiFloat.from_bits 253 : M Float8E4M3FN)
  let t2033 ← (ApiFloat.from_bits 254 : M Float8E4M3FN)
  let t2034 ← ApiFloat.next_down t2032
  let t2035 ← ApiFloat.bitwise_eq (t2034).value t2033
  check t2035
  check (decide ((t2034).status = Status.OK))
  let t2036 ← (ApiFloat.from_bits 254 : M Float8E4M3FN)
  let t2037 ← (ApiFloat.from_bits 255 : M Float8E4M3FN)
  let t2038 ← ApiFloat.next_down t2036
  let t2039 ← ApiFloat.bitwise_eq (t2038).value t2037
  check t2039
  check (decide ((t2038).status = Status.OK))
  let t2040 ← (ApiFloat.qnan none : M Float8E4M3FN)
  let t2041 ← (ApiFloat.qnan none : M Float8E4M3FN)
  let t2042 ← ApiFloat.next_down t2040
  let t2043 ← ApiFloat.bitwise_eq (t2042).value t2041
  check t2043

example : passes t_float8e4m3fn_next_51 = true := by decide +kernel

/-- tests/ieee.rs:4419 `float8e4m3fn_next`. -/
def t_float8e4m3fn_next_52 : M Unit := do
  let t2040 ← (ApiFloat.qnan none : M Float8E4M3FN)
  let t2042 ← ApiFloat.next_down t2040
  check (decide ((t2042).status = Status.OK))

example : passes t_float8e4m3fn_next_52 = true := by decide +kernel

/-- tests/ieee.rs:4480 `float8e4m3fn_exhaustive`. -/
def t_float8e4m3fn_exhaustive_1 : M Unit := do
  let t1 ← (ApiFloat.from_bits 0 : M Float8E4M3FN)
  let t2 ← ApiFloat.is_largest t1
  check (!t2)
  let t3 ← ApiFloat.is_smallest t1
  check (!t3)
  let t4 ← IeeeFloat.convertR float8E4M3FNS bfloatS t1 Round.nearestTiesToEven
  check (decide (((⟨(t4).status, (t4).value⟩ : StatusAnd BFloat)).status = Status.OK))
  check (!(t4).losesInfo)
  let t5 ← to_f32 t1
  let t6 ← to_f32 ((⟨(t4).status, (t4).value⟩ : StatusAnd BFloat)).value
  let t7 ← IeeeFloat.eq t5 t6
  check t7
  let t8 ← ApiFloat.to_bits t1
  check (decide (0 = t8))
  let t9 ← (ApiFloat.from_bits 1 : M Float8E4M3FN)
  let t10 ← ApiFloat.is_largest t9
  check (!t10)
  let t11 ← ApiFloat.is_smallest t9
  check t11
  let t12 ← ApiFloat.abs t9
  let t13 ← to_f64 t12
  let t14 ← (f64_lit 0x3f60000000000000 : M Double)
  let t15 ← IeeeFloat.eq t13 t14
  check t15
  let t16 ← IeeeFloat.convertR float8E4M3FNS bfloatS t9 Round.nearestTiesToEven
  check (decide (((⟨(t16).status, (t16).value⟩ : StatusAnd BFloat)).status = Status.OK))
  check (!(t16).losesInfo)
  let t17 ← to_f32 t9
  let t18 ← to_f32 ((⟨(t16).status, (t16).value⟩ : StatusAnd BFloat)).value
  let t19 ← IeeeFloat.eq t17 t18
  check t19
  let t20 ← ApiFloat.to_bits t9
  check (decide (1 = t20))
  let t21 ← (ApiFloat.from_bits 2 : M Float8E4M3FN)
  let t22 ← ApiFloat.is_largest t21
  check (!t22)
  let t23 ← ApiFloat.is_smallest t21
  check (!t23)
  let t24 ← IeeeFloat.convertR float8E4M3FNS bfloatS t21 Round.nearestTiesToEven
  check (decide (((⟨(t24).status, (t24).value⟩ : StatusAnd BFloat)).status = Status.OK))
  check (!(t24).losesInfo)
  let t25 ← to_f32 t21
  let t26 ← to_f32 ((⟨(t24).status, (t24).value⟩ : StatusAnd BFloat)).value
  let t27 ← IeeeFloat.eq t25 t26
  check t27
  let t28 ← ApiFloat.to_bits t21
  check (decide (2 = t28))
  let t29 ← (ApiFloat.from_bits 3 : M Float8E4M3FN)
  let t30 ← ApiFloat.is_largest t29
  check (!t30)
  let t31 ← ApiFloat.is_smallest t29
  check (!t31)
  let t32 ← IeeeFloat.convertR float8E4M3FNS bfloatS t29 Round.nearestTiesToEven
  check (decide (((⟨(t32).status, (t32).value⟩ : StatusAnd BFloat)).status = Status.OK))
  check (!(t32).losesInfo)
  let t33 ← to_f32 t29
  let t34 ← to_f32 ((⟨(t32).status, (t32).value⟩ : StatusAnd BFloat)).value
  let t35 ← IeeeFloat.eq t33 t34
  check t35
  let t36 ← ApiFloat.to_bits t29
  check (decide (3 = t36))

example : passes t_float8e4m3fn_exhaustive_1 = true := by decide +kernel

/-- tests/ieee.rs:4480 `float8e4m3fn_exhaustive`. -/
def t_float8e4m3fn_exhaustive_2 : M Unit := do
  let t37 ← (ApiFloat.from_bits 4 : M Float8E4M3FN)
  let t38 ← ApiFloat.is_largest t37
  check (!t38)
  let t39 ← ApiFloat.is_smallest t37
  check (!t39)
  let t40 ← IeeeFloat.convertR float8E4M3FNS bfloatS t37 Round.nearestTiesToEven
  check (decide (((⟨(t40).status, (t40).value⟩ : StatusAnd BFloat)).status = Status.OK))
  check (!(t40).losesInfo)
  let t41 ← to_f32 t37
  let t42 ← to_f32 ((⟨(t40).status, (t40).value⟩ : StatusAnd BFloat)).value
  let t43 ← IeeeFloat.eq t41 t42
  check t43
  let t44 ← ApiFloat.to_bits t37
  check (decide (4 = t44))
  let t45 ← (ApiFloat.from_bits 5 : M Float8E4M3FN)
  let t46 ← ApiFloat.is_largest t45
  check (!t46)
  let t47 ← ApiFloat.is_smallest t45
  check (!t47)
  let t48 ← IeeeFloat.convertR float8E4M3FNS bfloatS t45 Round.nearestTiesToEven
  check (decide (((⟨(t48).status, (t48).value⟩ : StatusAnd BFloat)).status = Status.OK))
  check (!(t48).losesInfo)
  let t49 ← to_f32 t45
  let t50 ← to_f32 ((⟨(t48).status, (t48).value⟩ : StatusAnd BFloat)).value
  let t51 ← IeeeFloat.eq t49 t50
  check t51
  let t52 ← ApiFloat.to_bits t45
  check (decide (5 = t52))
  let t53 ← (ApiFloat.from_bits 6 : M Float8E4M3FN)
  let t54 ← ApiFloat.is_largest t53
  check (!t54)
  let t55 ← ApiFloat.is_smallest t53
  check (!t55)
  let t56 ← IeeeFloat.convertR float8E4M3FNS bfloatS t53 Round.nearestTiesToEven
  check (decide (((⟨(t56).status, (t56).value⟩ : StatusAnd BFloat)).status = Status.OK))
  check (!(t56).losesInfo)
  let t57 ← to_f32 t53
  let t58 ← to_f32 ((⟨(t56).status, (t56).value⟩ : StatusAnd BFloat)).value
  let t59 ← IeeeFloat.eq t57 t58
  check t59
  let t60 ← ApiFloat.to_bits t53
  check (decide (6 = t60))
  let t61 ← (ApiFloat.from_bits 7 : M Float8E4M3FN)
  let t62 ← ApiFloat.is_largest t61
  check (!t62)
  let t63 ← ApiFloat.is_smallest t61
  check (!t63)
  let t64 ← IeeeFloat.convertR float8E4M3FNS bfloatS t61 Round.nearestTiesToEven
  check (decide (((⟨(t64).status, (t64).value⟩ : StatusAnd BFloat)).status = Status.OK))
  check (!(t64).losesInfo)
  let t65 ← to_f32 t61
  let t66 ← to_f32 ((⟨(t64).status, (t64).value⟩ : StatusAnd BFloat)).value
  let t67 ← IeeeFloat.eq t65 t66
  check t67
  let t68 ← ApiFloat.to_bits t61
  check (decide (7 = t68))
  let t69 ← (ApiFloat.from_bits 8 : M Float8E4M3FN)
  let t70 ← ApiFloat.is_largest t69
  check (!t70)
  let t71 ← ApiFloat.is_smallest t69
  check (!t71)

example : passes t_float8e4m3fn_exhaustive_2 = true := by decide +kernel

/-- tests/ieee.rs:4480 `float8e4m3fn_exhaustive`. -/
def t_float8e4m3fn_exhaustive_3 : M Unit := do
  let t69 ← (ApiFloat.from_bits 8 : M Float8E4M3FN)
  let t72 ← IeeeFloat.convertR float8E4M3FNS bfloatS t69 Round.nearestTiesToEven
  check (decide (((⟨(t72).status, (t72).value⟩ : StatusAnd BFloat)).status = Status.OK))
  check (!(t72).losesInfo)
  let t73 ← to_f32 t69
  let t74 ← to_f32 ((⟨(t72).status, (t72).value⟩ : StatusAnd BFloat)).value
  let t75 ← IeeeFloat.eq t73 t74
  check t75
  let t76 ← ApiFloat.to_bits t69
  check (decide (8 = t76))
  let t77 ← (ApiFloat.from_bits 9 : M Float8E4M3FN)
  let t78 ← ApiFloat.is_largest t77
  check (!t78)
  let t79 ← ApiFloat.is_smallest t77
  check (!t79)
  let t80 ← IeeeFloat.convertR float8E4M3FNS bfloatS t77 Round.nearestTiesToEven
  check (decide (((⟨(t80).status, (t80).value⟩ : StatusAnd BFloat)).status = Status.OK))
  check (!(t80).losesInfo)
  let t81 ← to_f32 t77
  let t82 ← to_f32 ((⟨(t80).status, (t80).value⟩ : StatusAnd BFloat)).value
  let t83 ← IeeeFloat.eq t81 t82
  check t83
  let t84 ← ApiFloat.to_bits t77
  check (decide (9 = t84))
  let t85 ← (ApiFloat.from_bits 10 : M Float8E4M3FN)
  let t86 ← ApiFloat.is_largest t85
  check (!t86)
  let t87 ← ApiFloat.is_smallest t85
  check (!t87)
  let t88 ← IeeeFloat.convertR float8E4M3FNS bfloatS t85 Round.nearestTiesToEven
  check (decide (((⟨(t88).status, (t88).value⟩ : StatusAnd BFloat)).status = Status.OK))
  check (!(t88).losesInfo)
  let t89 ← to_f32 t85
  let t90 ← to_f32 ((⟨(t88).status, (t88).value⟩ : StatusAnd BFloat)).value
  let t91 ← IeeeFloat.eq t89 t90
  check t91
  let t92 ← ApiFloat.to_bits t85
  check (decide (10 = t92))
  let t93 ← (ApiFloat.from_bits 11 : M Float8E4M3FN)
  let t94 ← ApiFloat.is_largest t93
  check (!t94)
  let t95 ← ApiFloat.is_smallest t93
  check (!t95)
  let t96 ← IeeeFloat.convertR float8E4M3FNS bfloatS t93 Round.nearestTiesToEven
  check (decide (((⟨(t96).status, (t96).value⟩ : StatusAnd BFloat)).status = Status.OK))
  check (!(t96).losesInfo)
  let t97 ← to_f32 t93
  let t98 ← to_f32 ((⟨(t96).status, (t96).value⟩ : StatusAnd BFloat)).value
  let t99 ← IeeeFloat.eq t97 t98
  check t99
  let t100 ← ApiFloat.to_bits t93
  check (decide (11 = t100))
  let t101 ← (ApiFloat.from_bits 12 : M Float8E4M3FN)
  let t102 ← ApiFloat.is_largest t101
  check (!t102)
  let t103 ← ApiFloat.is_smallest t101
  check (!t103)
  let t104 ← IeeeFloat.convertR float8E4M3FNS bfloatS t101 Round.nearestTiesToEven
  check (decide (((⟨(t104).status, (t104).value⟩ : StatusAnd BFloat)).status = Status.OK))
  check (!(t104).losesInfo)
  let t105 ← to_f32 t101
  let t106 ← to_f32 ((⟨(t104).status, (t104).value⟩ : StatusAnd BFloat)).value
  let t107 ← IeeeFloat.eq t105 t106
  check t107

example : passes t_float8e4m3fn_exhaustive_3 = true := by decide +kernel

/-- tests/ieee.rs:4480 `float8e4m3fn_exhaustive`. -/
def t_float8e4m3fn_exhaustive_4 : M Unit := do
  let t101 ← (ApiFloat.from_bits 12 : M Float8E4M3FN)
  let t108 ← ApiFloat.to_bits t101
  check (decide (12 = t108))
  let t109 ← (ApiFloat.from_bits 13 : M Float8E4M3FN)
  let t110 ← ApiFloat.is_largest t109
  check (!t110)
  let t111 ← ApiFloat.is_smallest t109
  check (!t111)
  let t112 ← IeeeFloat.convertR float8E4M3FNS bfloatS t109 Round.nearestTiesToEven
  check (decide (((⟨(t112).status, (t112).value⟩ : StatusAnd BFloat)).status = Status.OK))
  check (!(t112).losesInfo)
  let t113 ← to_f32 t109
  let t114 ← to_f32 ((⟨(t112).status, (t112).value⟩ : StatusAnd BFloat)).value
  let t115 ← IeeeFloat.eq t113 t114
  check t115
  let t116 ← ApiFloat.to_bits t109
  check (decide (13 = t116))
  let t117 ← (ApiFloat.from_bits 14 : M Float8E4M3FN)
  let t118 ← ApiFloat.is_largest t117
  check (!t118)
  let t119 ← ApiFloat.is_smallest t117
  check (!t119)
  let t120 ← IeeeFloat.convertR float8E4M3FNS bfloatS t117 Round.nearestTiesToEven
  check (decide (((⟨(t120).status, (t120).value⟩ : StatusAnd BFloat)).status = Status.OK))
  check (!(t120).losesInfo)
  let t121 ← to_f32 t117
  let t122 ← to_f32 ((⟨(t120).status, (t120).value⟩ : StatusAnd BFloat)).value
  let t123 ← IeeeFloat.eq t121 t122
  check t123
  let t124 ← ApiFloat.to_bits t117
  check (decide (14 = t124))
  let t125 ← (ApiFloat.from_bits 15 : M Float8E4M3FN)
  let t126 ← ApiFloat.is_largest t125
  check (!t126)
  let t127 ← ApiFloat.is_smallest t125
  check (!t127)
  let t128 ← IeeeFloat.convertR float8E4M3FNS bfloatS t125 Round.nearestTiesToEven
  check (decide (((⟨(t128).status, (t128).value⟩ : StatusAnd BFloat)).status = Status.OK))
  check (!(t128).losesInfo)
  let t129 ← to_f32 t125
  let t130 ← to_f32 ((⟨(t128).status, (t128).value⟩ : StatusAnd BFloat)).value
  let t131 ← IeeeFloat.eq t129 t130
  check t131
  let t132 ← ApiFloat.to_bits t125
  check (decide (15 = t132))
  let t133 ← (ApiFloat.from_bits 16 : M Float8E4M3FN)
  let t134 ← ApiFloat.is_largest t133
  check (!t134)
  let t135 ← ApiFloat.is_smallest t133
  check (!t135)
  let t136 ← IeeeFloat.convertR float8E4M3FNS bfloatS t133 Round.nearestTiesToEven
  check (decide (((⟨(t136).status, (t136).value⟩ : StatusAnd BFloat)).status = Status.OK))
  check (!(t136).losesInfo)
  let t137 ← to_f32 t133
  let t138 ← to_f32 ((⟨(t136).status, (t136).value⟩ : StatusAnd BFloat)).value
  let t139 ← IeeeFloat.eq t137 t138
  check t139
  let t140 ← ApiFloat.to_bits t133
  check (decide (16 = t140))
  let t141 ← (ApiFloat.from_bits 17 : M Float8E4M3FN)
  let t142 ← ApiFloat.is_largest t141
  check (!t142)

example : passes t_float8e4m3fn_exhaustive_4 = true := by decide +kernel

/-- tests/ieee.rs:4480 `float8e4m3fn_exhaustive`. -/
def t_float8e4m3fn_exhaustive_5 : M Unit := do
  let t141 ← (ApiFloat.from_bits 17 : M Float8E4M3FN)
  let t143 ← ApiFloat.is_smallest t141
  check (!t143)
  let t144 ← IeeeFloat.convertR float8E4M3FNS bfloatS t141 Round.nearestTiesToEven
  check (decide (((⟨(t144).status, (t144).value⟩ : StatusAnd BFloat)).status = Status.OK))
  check (!(t144).losesInfo)
  let t145 ← to_f32 t141
  let t146 ← to_f32 ((⟨(t144).status, (t144).value⟩ : StatusAnd BFloat)).value
  let t147 ← IeeeFloat.eq t145 t146
  check t147
  let t148 ← ApiFloat.to_bits t141
  check (decide (17 = t148))
  let t149 ← (ApiFloat.from_bits 18 : M Float8E4M3FN)
  let t150 ← ApiFloat.is_largest t149
  check (!t150)
  let t151 ← ApiFloat.is_smallest t149
  check (!t151)
  let t152 ← IeeeFloat.convertR float8E4M3FNS bfloatS t149 Round.nearestTiesToEven
  check (decide (((⟨(t152).status, (t152).value⟩ : StatusAnd BFloat)).status = Status.OK))
  check (!(t152).losesInfo)
  let t153 ← to_f32 t149
  let t154 ← to_f32 ((⟨(t152).status, (t152).value⟩ : StatusAnd BFloat)).value
  let t155 ← IeeeFloat.eq t153 t154
  check t155
  let t156 ← ApiFloat.to_bits t149
  check (decide (18 = t156))
  let t157 ← (ApiFloat.from_bits 19 : M Float8E4M3FN)
  let t158 ← ApiFloat.is_largest t157
  check (!t158)
  let t159 ← ApiFloat.is_smallest t157
  check (!t159)
  let t160 ← IeeeFloat.convertR float8E4M3FNS bfloatS t157 Round.nearestTiesToEven
  check (decide (((⟨(t160).status, (t160).value⟩ : StatusAnd BFloat)).status = Status.OK))
  check (!(t160).losesInfo)
  let t161 ← to_f32 t157
  let t162 ← to_f32 ((⟨(t160).status, (t160).value⟩ : StatusAnd BFloat)).value
  let t163 ← IeeeFloat.eq t161 t162
  check t163
  let t164 ← ApiFloat.to_bits t157
  check (decide (19 = t164))
  let t165 ← (ApiFloat.from_bits 20 : M Float8E4M3FN)
  let t166 ← ApiFloat.is_largest t165
  check (!t166)
  let t167 ← ApiFloat.is_smallest t165
  check (!t167)
  let t168 ← IeeeFloat.convertR float8E4M3FNS bfloatS t165 Round.nearestTiesToEven
  check (decide (((⟨(t168).status, (t168).value⟩ : StatusAnd BFloat)).status = Status.OK))
  check (!(t168).losesInfo)
  let t169 ← to_f32 t165
  let t170 ← to_f32 ((⟨(t168).status, (t168).value⟩ : StatusAnd BFloat)).value
  let t171 ← IeeeFloat.eq t169 t170
  check t171
  let t172 ← ApiFloat.to_bits t165
  check (decide (20 = t172))
  let t173 ← (ApiFloat.from_bits 21 : M Float8E4M3FN)
  let t174 ← ApiFloat.is_largest t173
  check (!t174)
  let t175 ← ApiFloat.is_smallest t173
  check (!t175)
  let t176 ← IeeeFloat.convertR float8E4M3FNS bfloatS t173 Round.nearestTiesToEven
  check (decide (((⟨(t176).status, (t176).value⟩ : StatusAnd BFloat)).status = Status.OK))

example : passes t_float8e4m3fn_exhaustive_5 = true := by decide +kernel

/-- tests/ieee.rs:4480 `float8e4m3fn_exhaustive`. -/
def t_float8e4m3fn_exhaustive_6 : M Unit := do
  let t173 ← (ApiFloat.from_bits 21 : M Float8E4M3FN)
  let t176 ← IeeeFloat.convertR float8E4M3FNS bfloatS t173 Round.nearestTiesToEven
  check (!(t176).losesInfo)
  let t177 ← to_f32 t173
  let t178 ← to_f32 ((⟨(t176).status, (t176).value⟩ : StatusAnd BFloat)).value
  let t179 ← IeeeFloat.eq t177 t178
  check t179
  let t180 ← ApiFloat.to_bits t173
  check (decide (21 = t180))
  let t181 ← (ApiFloat.from_bits 22 : M Float8E4M3FN)
  let t182 ← ApiFloat.is_largest t181
  check (!t182)
  let t183 ← ApiFloat.is_smallest t181
  check (!t183)
  let t184 ← IeeeFloat.convertR float8E4M3FNS bfloatS t181 Round.nearestTiesToEven
  check (decide (((⟨(t184).status, (t184).value⟩ : StatusAnd BFloat)).status = Status.OK))
  check (!(t184).losesInfo)
  let t185 ← to_f32 t181
  let t186 ← to_f32 ((⟨(t184).status, (t184).value⟩ : StatusAnd BFloat)).value
  let t187 ← IeeeFloat.eq t185 t186
  check t187
  let t188 ← ApiFloat.to_bits t181
  check (decide (22 = t188))
  let t189 ← (ApiFloat.from_bits 23 : M Float8E4M3FN)
  let t190 ← ApiFloat.is_largest t189
  check (!t190)
  let t191 ← ApiFloat.is_smallest t189
  check (!t191)
  let t192 ← IeeeFloat.convertR float8E4M3FNS bfloatS t189 Round.nearestTiesToEven
  check (decide (((⟨(t192).status, (t192).value⟩ : StatusAnd BFloat)).status = Status.OK))
  check (!(t192).losesInfo)
  let t193 ← to_f32 t189
  let t194 ← to_f32 ((⟨(t192).status, (t192).value⟩ : StatusAnd BFloat)).value
  let t195 ← IeeeFloat.eq t193 t194
  check t195
  let t196 ← ApiFloat.to_bits t189
  check (decide (23 = t196))
  let t197 ← (ApiFloat.from_bits 24 : M Float8E4M3FN)
  let t198 ← ApiFloat.is_largest t197
  check (!t198)
  let t199 ← ApiFloat.is_smallest t197
  check (!t199)
  let t200 ← IeeeFloat.convertR float8E4M3FNS bfloatS t197 Round.nearestTiesToEven
  check (decide (((⟨(t200).status, (t200).value⟩ : StatusAnd BFloat)).status = Status.OK))
  check (!(t200).losesInfo)
  let t201 ← to_f32 t197
  let t202 ← to_f32 ((⟨(t200).status, (t200).value⟩ : StatusAnd BFloat)).value
  let t203 ← IeeeFloat.eq t201 t202
  check t203
  let t204 ← ApiFloat.to_bits t197
  check (decide (24 = t204))
  let t205 ← (ApiFloat.from_bits 25 : M Float8E4M3FN)
  let t206 ← ApiFloat.is_largest t205
  check (!t206)
  let t207 ← ApiFloat.is_smallest t205
  check (!t207)
  let t208 ← IeeeFloat.convertR float8E4M3FNS bfloatS t205 Round.nearestTiesToEven
  check (decide (((⟨(t208).status, (t208).value⟩ : StatusAnd BFloat)).status = Status.OK))
  check (!(t208).losesInfo)
  let t209 ← to_f32 t205
  let t210 ← to_f32 ((⟨(t208).status, (t208).value⟩ : StatusAnd BFloat)).value
  let t211 ← IeeeFloat.eq t209 t210
  check t211

example : passes t_float8e4m3fn_exhaustive_6 = true := by decide +kernel

/-- tests/ieee.rs:4480 `float8e4m3fn_exhaustive`. -/
def t_float8e4m3fn_exhaustive_7 : M Unit := do
  let t205 ← (ApiFloat.from_bits 25 : M Float8E4M3FN)
  let t212 ← ApiFloat.to_bits t205
  check (decide (25 = t212))
  let t213 ← (ApiFloat.from_bits 26 : M Float8E4M3FN)
  let t214 ← ApiFloat.is_largest t213
  check (!t214)
  let t215 ← ApiFloat.is_smallest t213
  check (!t215)
  let t216 ← IeeeFloat.convertR float8E4M3FNS bfloatS t213 Round.nearestTiesToEven
  check (decide (((⟨(t216).status, (t216).value⟩ : StatusAnd BFloat)).status = Status.OK))
  check (!(t216).losesInfo)
  let t217 ← to_f32 t213
  let t218 ← to_f32 ((⟨(t216).status, (t216).value⟩ : StatusAnd BFloat)).value
  let t219 ← IeeeFloat.eq t217 t218
  check t219
  let t220 ← ApiFloat.to_bits t213
  check (decide (26 = t220))
  let t221 ← (ApiFloat.from_bits 27 : M Float8E4M3FN)
  let t222 ← ApiFloat.is_largest t221
  check (!t222)
  let t223 ← ApiFloat.is_smallest t221
  check (!t223)
  let t224 ← IeeeFloat.convertR float8E4M3FNS bfloatS t221 Round.nearestTiesToEven
  check (decide (((⟨(t224).status, (t224).value⟩ : StatusAnd BFloat)).status = Status.OK))
  check (!(t224).losesInfo)
  let t225 ← to_f32 t221
  let t226 ← to_f32 ((⟨(t224).status, (t224).value⟩ : StatusAnd BFloat)).value
  let t227 ← IeeeFloat.eq t225 t226
  check t227
  let t228 ← ApiFloat.to_bits t221
  check (decide (27 = t228))
  let t229 ← (ApiFloat.from_bits 28 : M Float8E4M3FN)
  let t230 ← ApiFloat.is_largest t229
  check (!t230)
  let t231 ← ApiFloat.is_smallest t229
  check (!t231)
  let t232 ← IeeeFloat.convertR float8E4M3FNS bfloatS t229 Round.nearestTiesToEven
  check (decide (((⟨(t232).status, (t232).value⟩ : StatusAnd BFloat)).status = Status.OK))
  check (!(t232).losesInfo)
  let t233 ← to_f32 t229
  let t234 ← to_f32 ((⟨(t232).status, (t232).value⟩ : StatusAnd BFloat)).value
  let t235 ← IeeeFloat.eq t233 t234
  check t235
  let t236 ← ApiFloat.to_bits t229
  check (decide (28 = t236))
  let t237 ← (ApiFloat.from_bits 29 : M Float8E4M3FN)
  let t238 ← ApiFloat.is_largest t237
  check (!t238)
  let t239 ← ApiFloat.is_smallest t237
  check (!t239)
  let t240 ← IeeeFloat.convertR float8E4M3FNS bfloatS t237 Round.nearestTiesToEven
  check (decide (((⟨(t240).status, (t240).value⟩ : StatusAnd BFloat)).status = Status.OK))
  check (!(t240).losesInfo)
  let t241 ← to_f32 t237
  let t242 ← to_f32 ((⟨(t240).status, (t240).value⟩ : StatusAnd BFloat)).value
  let t243 ← IeeeFloat.eq t241 t242
  check t243
  let t244 ← ApiFloat.to_bits t237
  check (decide (29 = t244))
  let t245 ← (ApiFloat.from_bits 30 : M Float8E4M3FN)
  let t246 ← ApiFloat.is_largest t245
  check (!t246)

example : passes t_float8e4m3fn_exhaustive_7 = true := by decide +kernel

/-- tests/ieee.rs:4480 `float8e4m3fn_exhaustive`. -/
def t_float8e4m3fn_exhaustive_8 : M Unit := do
  let t245 ← (ApiFloat.from_bits 30 : M Float8E4M3FN)
  let t247 ← ApiFloat.is_smallest t245
  check (!t247)
  let t248 ← IeeeFloat.convertR float8E4M3FNS bfloatS t245 Round.nearestTiesToEven
  check (decide (((⟨(t248).status, (t248).value⟩ : StatusAnd BFloat)).status = Status.OK))
  check (!(t248).losesInfo)
  let t249 ← to_f32 t245
  let t250 ← to_f32 ((⟨(t248).status, (t248).value⟩ : StatusAnd BFloat)).value
  let t251 ← IeeeFloat.eq t249 t250
  check t251
  let t252 ← ApiFloat.to_bits t245
  check (decide (30 = t252))
  let t253 ← (ApiFloat.from_bits 31 : M Float8E4M3FN)
  let t254 ← ApiFloat.is_largest t253
  check (!t254)
  let t255 ← ApiFloat.is_smallest t253
  check (!t255)
  let t256 ← IeeeFloat.convertR float8E4M3FNS bfloatS t253 Round.nearestTiesToEven
  check (decide (((⟨(t256).status, (t256).value⟩ : StatusAnd BFloat)).status = Status.OK))
  check (!(t256).losesInfo)
  let t257 ← to_f32 t253
  let t258 ← to_f32 ((⟨(t256).status, (t256).value⟩ : StatusAnd BFloat)).value
  let t259 ← IeeeFloat.eq t257 t258
  check t259
  let t260 ← ApiFloat.to_bits t253
  check (decide (31 = t260))
  let t261 ← (ApiFloat.from_bits 32 : M Float8E4M3FN)
  let t262 ← ApiFloat.is_largest t261
  check (!t262)
  let t263 ← ApiFloat.is_smallest t261
  check (!t263)
  let t264 ← IeeeFloat.convertR float8E4M3FNS bfloatS t261 Round.nearestTiesToEven
  check (decide (((⟨(t264).status, (t264).value⟩ : StatusAnd BFloat)).status = Status.OK))
  check (!(t264).losesInfo)
  let t265 ← to_f32 t261
  let t266 ← to_f32 ((⟨(t264).status, (t264).value⟩ : StatusAnd BFloat)).value
  let t267 ← IeeeFloat.eq t265 t266
  check t267
  let t268 ← ApiFloat.to_bits t261
  check (decide (32 = t268))
  let t269 ← (ApiFloat.from_bits 33 : M Float8E4M3FN)
  let t270 ← ApiFloat.is_largest t269
  check (!t270)
  let t271 ← ApiFloat.is_smallest t269
  check (!t271)
  let t272 ← IeeeFloat.convertR float8E4M3FNS bfloatS t269 Round.nearestTiesToEven
  check (decide (((⟨(t272).status, (t272).value⟩ : StatusAnd BFloat)).status = Status.OK))
  check (!(t272).losesInfo)
  let t273 ← to_f32 t269
  let t274 ← to_f32 ((⟨(t272).status, (t272).value⟩ : StatusAnd BFloat)).value
  let t275 ← IeeeFloat.eq t273 t274
  check t275
  let t276 ← ApiFloat.to_bits t269
  check (decide (33 = t276))
  let t277 ← (ApiFloat.from_bits 34 : M Float8E4M3FN)
  let t278 ← ApiFloat.is_largest t277
  check (!t278)
  let t279 ← ApiFloat.is_smallest t277
  check (!t279)
  let t280 ← IeeeFloat.convertR float8E4M3FNS bfloatS t277 Round.nearestTiesToEven
  check (decide (((⟨(t280).status, (t280).value⟩ : StatusAnd BFloat)).status = Status.OK))

example : passes t_float8e4m3fn_exhaustive_8 = true := by decide +kernel

/-- tests/ieee.rs:4480 `float8e4m3fn_exhaustive`. -/
def t_float8e4m3fn_exhaustive_9 : M Unit := do
  let t277 ← (ApiFloat.from_bits 34 : M Float8E4M3FN)
  let t280 ← IeeeFloat.convertR float8E4M3FNS bfloatS t277 Round.nearestTiesToEven
  check (!(t280).losesInfo)
  let t281 ← to_f32 t277
  let t282 ← to_f32 ((⟨(t280).status, (t280).value⟩ : StatusAnd BFloat)).value
  let t283 ← IeeeFloat.eq t281 t282
  check t283
  let t284 ← ApiFloat.to_bits t277
  check (decide (34 = t284))
  let t285 ← (ApiFloat.from_bits 35 : M Float8E4M3FN)
  let t286 ← ApiFloat.is_largest t285
  check (!t286)
  let t287 ← ApiFloat.is_smallest t285
  check (!t287)
  let t288 ← IeeeFloat.convertR float8E4M3FNS bfloatS t285 Round.nearestTiesToEven
  check (decide (((⟨(t288).status, (t288).value⟩ : StatusAnd BFloat)).status = Status.OK))
  check (!(t288).losesInfo)
  let t289 ← to_f32 t285
  let t290 ← to_f32 ((⟨(t288).status, (t288).value⟩ : StatusAnd BFloat)).value
  let t291 ← IeeeFloat.eq t289 t290
  check t291
  let t292 ← ApiFloat.to_bits t285
  check (decide (35 = t292))
  let t293 ← (ApiFloat.from_bits 36 : M Float8E4M3FN)
  let t294 ← ApiFloat.is_largest t293
  check (!t294)
  let t295 ← ApiFloat.is_smallest t293
  check (!t295)
  let t296 ← IeeeFloat.convertR float8E4M3FNS bfloatS t293 Round.nearestTiesToEven
  check (decide (((⟨(t296).status, (t296).value⟩ : StatusAnd BFloat)).status = Status.OK))
  check (!(t296).losesInfo)
  let t297 ← to_f32 t293
  let t298 ← to_f32 ((⟨(t296).status, (t296).value⟩ : StatusAnd BFloat)).value
  let t299 ← IeeeFloat.eq t297 t298
  check t299
  let t300 ← ApiFloat.to_bits t293
  check (decide (36 = t300))
  let t301 ← (ApiFloat.from_bits 37 : M Float8E4M3FN)
  let t302 ← ApiFloat.is_largest t301
  check (!t302)
  let t303 ← ApiFloat.is_smallest t301
  check (!t303)
  let t304 ← IeeeFloat.convertR float8E4M3FNS bfloatS t301 Round.nearestTiesToEven
  check (decide (((⟨(t304).status, (t304).value⟩ : StatusAnd BFloat)).status = Status.OK))
  check (!(t304).losesInfo)
  let t305 ← to_f32 t301
  let t306 ← to_f32 ((⟨(t304).status, (t304).value⟩ : StatusAnd BFloat)).value
  let t307 ← IeeeFloat.eq t305 t306
  check t307
  let t308 ← ApiFloat.to_bits t301
  check (decide (37 = t308))
  let t309 ← (ApiFloat.from_bits 38 : M Float8E4M3FN)
  let t310 ← ApiFloat.is_largest t309
  check (!t310)
  let t311 ← ApiFloat.is_smallest t309
  check (!t311)
  let t312 ← IeeeFloat.convertR float8E4M3FNS bfloatS t309 Round.nearestTiesToEven
  check (decide (((⟨(t312).status, (t312).value⟩ : StatusAnd BFloat)).status = Status.OK))
  check (!(t312).losesInfo)
  let t313 ← to_f32 t309
  let t314 ← to_f32 ((⟨(t312).status, (t312).value⟩ : StatusAnd BFloat)).value
  let t315 ← IeeeFloat.eq t313 t314
  check t315

example : passes t_float8e4m3fn_exhaustive_9 = true := by decide +kernel

/-- tests/ieee.rs:4480 `float8e4m3fn_exhaustive`. -/
def t_float8e4m3fn_exhaustive_10 : M Unit := do
  let t309 ← (ApiFloat.from_bits 38 : M Float8E4M3FN)
  let t316 ← ApiFloat.to_bits t309
  check (decide (38 = t316))
  let t317 ← (ApiFloat.from_bits 39 : M Float8E4M3FN)
  let t318 ← ApiFloat.is_largest t317
  check (!t318)
  let t319 ← ApiFloat.is_smallest t317
  check (!t319)
  let t320 ← IeeeFloat.convertR float8E4M3FNS bfloatS t317 Round.nearestTiesToEven
  check (decide (((⟨(t320).status, (t320).value⟩ : StatusAnd BFloat)).status = Status.OK))
  check (!(t320).losesInfo)
  let t321 ← to_f32 t317
  let t322 ← to_f32 ((⟨(t320).status, (t320).value⟩ : StatusAnd BFloat)).value
  let t323 ← IeeeFloat.eq t321 t322
  check t323
  let t324 ← ApiFloat.to_bits t317
  check (decide (39 = t324))
  let t325 ← (ApiFloat.from_bits 40 : M Float8E4M3FN)
  let t326 ← ApiFloat.is_largest t325
  check (!t326)
  let t327 ← ApiFloat.is_smallest t325
  check (!t327)
  let t328 ← IeeeFloat.convertR float8E4M3FNS bfloatS t325 Round.nearestTiesToEven
  check (decide (((⟨(t328).status, (t328).value⟩ : StatusAnd BFloat)).status = Status.OK))
  check (!(t328).losesInfo)
  let t329 ← to_f32 t325
  let t330 ← to_f32 ((⟨(t328).status, (t328).value⟩ : StatusAnd BFloat)).value
  let t331 ← IeeeFloat.eq t329 t330
  check t331
  let t332 ← ApiFloat.to_bits t325
  check (decide (40 = t332))
  let t333 ← (ApiFloat.from_bits 41 : M Float8E4M3FN)
  let t334 ← ApiFloat.is_largest t333
  check (!t334)
  let t335 ← ApiFloat.is_smallest t333
  check (!t335)
  let t336 ← IeeeFloat.convertR float8E4M3FNS bfloatS t333 Round.nearestTiesToEven
  check (decide (((⟨(t336).status, (t336).value⟩ : StatusAnd BFloat)).status = Status.OK))
  check (!(t336).losesInfo)
  let t337 ← to_f32 t333
  let t338 ← to_f32 ((⟨(t336).status, (t336).value⟩ : StatusAnd BFloat)).value
  let t339 ← IeeeFloat.eq t337 t338
  check t339
  let t340 ← ApiFloat.to_bits t333
  check (decide (41 = t340))
  let t341 ← (ApiFloat.from_bits 42 : M Float8E4M3FN)
  let t342 ← ApiFloat.is_largest t341
  check (!t342)
  let t343 ← ApiFloat.is_smallest t341
  check (!t343)
  let t344 ← IeeeFloat.convertR float8E4M3FNS bfloatS t341 Round.nearestTiesToEven
  check (decide (((⟨(t344).status, (t344).value⟩ : StatusAnd BFloat)).status = Status.OK))
  check (!(t344).losesInfo)
  let t345 ← to_f32 t341
  let t346 ← to_f32 ((⟨(t344).status, (t344).value⟩ : StatusAnd BFloat)).value
  let t347 ← IeeeFloat.eq t345 t346
  check t347
  let t348 ← ApiFloat.to_bits t341
  check (decide (42 = t348))
  let t349 ← (ApiFloat.from_bits 43 : M Float8E4M3FN)
  let t350 ← ApiFloat.is_largest t349
  check (!t350)

example : passes t_float8e4m3fn_exhaustive_10 = true := by decide +kernel

/-- tests/ieee.rs:4480 `float8e4m3fn_exhaustive`. -/
def t_float8e4m3fn_exhaustive_11 : M Unit := do
  let t349 ← (ApiFloat.from_bits 43 : M Float8E4M3FN)
  let t351 ← ApiFloat.is_smallest t349
  check (!t351)
  let t352 ← IeeeFloat.convertR float8E4M3FNS bfloatS t349 Round.nearestTiesToEven
  check (decide (((⟨(t352).status, (t352).value⟩ : StatusAnd BFloat)).status = Status.OK))
  check (!(t352).losesInfo)
  let t353 ← to_f32 t349
  let t354 ← to_f32 ((⟨(t352).status, (t352).value⟩ : StatusAnd BFloat)).value
  let t355 ← IeeeFloat.eq t353 t354
  check t355
  let t356 ← ApiFloat.to_bits t349
  check (decide (43 = t356))
  let t357 ← (ApiFloat.from_bits 44 : M Float8E4M3FN)
  let t358 ← ApiFloat.is_largest t357
  check (!t358)
  let t359 ← ApiFloat.is_smallest t357
  check (!t359)
  let t360 ← IeeeFloat.convertR float8E4M3FNS bfloatS t357 Round.nearestTiesToEven
  check (decide (((⟨(t360).status, (t360).value⟩ : StatusAnd BFloat)).status = Status.OK))
  check (!(t360).losesInfo)
  let t361 ← to_f32 t357
  let t362 ← to_f32 ((⟨(t360).status, (t360).value⟩ : StatusAnd BFloat)).value
  let t363 ← IeeeFloat.eq t361 t362
  check t363
  let t364 ← ApiFloat.to_bits t357
  check (decide (44 = t364))
  let t365 ← (ApiFloat.from_bits 45 : M Float8E4M3FN)
  let t366 ← ApiFloat.is_largest t365
  check (!t366)
  let t367 ← ApiFloat.is_smallest t365
  check (!t367)
  let t368 ← IeeeFloat.convertR float8E4M3FNS bfloatS t365 Round.nearestTiesToEven
  check (decide (((⟨(t368).status, (t368).value⟩ : StatusAnd BFloat)).status = Status.OK))
  check (!(t368).losesInfo)
  let t369 ← to_f32 t365
  let t370 ← to_f32 ((⟨(t368).status, (t368).value⟩ : StatusAnd BFloat)).value
  let t371 ← IeeeFloat.eq t369 t370
  check t371
  let t372 ← ApiFloat.to_bits t365
  check (decide (45 = t372))
  let t373 ← (ApiFloat.from_bits 46 : M Float8E4M3FN)
  let t374 ← ApiFloat.is_largest t373
  check (!t374)
  let t375 ← ApiFloat.is_smallest t373
  check (!t375)
  let t376 ← IeeeFloat.convertR float8E4M3FNS bfloatS t373 Round.nearestTiesToEven
  check (decide (((⟨(t376).status, (t376).value⟩ : StatusAnd BFloat)).status = Status.OK))
  check (!(t376).losesInfo)
  let t377 ← to_f32 t373
  let t378 ← to_f32 ((⟨(t376).status, (t376).value⟩ : StatusAnd BFloat)).value
  let t379 ← IeeeFloat.eq t377 t378
  check t379
  let t380 ← ApiFloat.to_bits t373
  check (decide (46 = t380))
  let t381 ← (ApiFloat.from_bits 47 : M Float8E4M3FN)
  let t382 ← ApiFloat.is_largest t381
  check (!t382)
  let t383 ← ApiFloat.is_smallest t381
  check (!t383)
  let t384 ← IeeeFloat.convertR float8E4M3FNS bfloatS t381 Round.nearestTiesToEven
  check (decide (((⟨(t384).status, (t384).value⟩ : StatusAnd BFloat)).status = Status.OK))

example : passes t_float8e4m3fn_exhaustive_11 = true := by decide +kernel

/-- tests/ieee.rs:4480 `float8e4m3fn_exhaustive`. -/
def t_float8e4m3fn_exhaustive_12 : M Unit := do
  let t381 ← (ApiFloat.from_bits 47 : M Float8E4M3FN)
  let t384 ← IeeeFloat.convertR float8E4M3FNS bfloatS t381 Round.nearestTiesToEven
  check (!(t384).losesInfo)
  let t385 ← to_f32 t381
  let t386 ← to_f32 ((⟨(t384).status, (t384).value⟩ : StatusAnd BFloat)).value
  let t387 ← IeeeFloat.eq t385 t386
  check t387
  let t388 ← ApiFloat.to_bits t381
  check (decide (47 = t388))
  let t389 ← (ApiFloat.from_bits 48 : M Float8E4M3FN)
  let t390 ← ApiFloat.is_largest t389
  check (!t390)
  let t391 ← ApiFloat.is_smallest t389
  check (!t391)
  let t392 ← IeeeFloat.convertR float8E4M3FNS bfloatS t389 Round.nearestTiesToEven
  check (decide (((⟨(t392).status, (t392).value⟩ : StatusAnd BFloat)).status = Status.OK))
  check (!(t392).losesInfo)
  let t393 ← to_f32 t389
  let t394 ← to_f32 ((⟨(t392).status, (t392).value⟩ : StatusAnd BFloat)).value
  let t395 ← IeeeFloat.eq t393 t394
  check t395
  let t396 ← ApiFloat.to_bits t389
  check (decide (48 = t396))
  let t397 ← (ApiFloat.from_bits 49 : M Float8E4M3FN)
  let t398 ← ApiFloat.is_largest t397
  check (!t398)
  let t399 ← ApiFloat.is_smallest t397
  check (!t399)
  let t400 ← IeeeFloat.convertR float8E4M3FNS bfloatS t397 Round.nearestTiesToEven
  check (decide (((⟨(t400).status, (t400).value⟩ : StatusAnd BFloat)).status = Status.OK))
  check (!(t400).losesInfo)
  let t401 ← to_f32 t397
  let t402 ← to_f32 ((⟨(t400).status, (t400).value⟩ : StatusAnd BFloat)).value
  let t403 ← IeeeFloat.eq t401 t402
  check t403
  let t404 ← ApiFloat.to_bits t397
  check (decide (49 = t404))
  let t405 ← (ApiFloat.from_bits 50 : M Float8E4M3FN)
  let t406 ← ApiFloat.is_largest t405
  check (!t406)
  let t407 ← ApiFloat.is_smallest t405
  check (!t407)
  let t408 ← IeeeFloat.convertR float8E4M3FNS bfloatS t405 Round.nearestTiesToEven
  check (decide (((⟨(t408).status, (t408).value⟩ : StatusAnd BFloat)).status = Status.OK))
  check (!(t408).losesInfo)
  let t409 ← to_f32 t405
  let t410 ← to_f32 ((⟨(t408).status, (t408).value⟩ : StatusAnd BFloat)).value
  let t411 ← IeeeFloat.eq t409 t410
  check t411
  let t412 ← ApiFloat.to_bits t405
  check (decide (50 = t412))
  let t413 ← (ApiFloat.from_bits 51 : M Float8E4M3FN)
  let t414 ← ApiFloat.is_largest t413
  check (!t414)
  let t415 ← ApiFloat.is_smallest t413
  check (!t415)
  let t416 ← IeeeFloat.convertR float8E4M3FNS bfloatS t413 Round.nearestTiesToEven
  check (decide (((⟨(t416).status, (t416).value⟩ : StatusAnd BFloat)).status = Status.OK))
  check (!(t416).losesInfo)
  let t417 ← to_f32 t413
  let t418 ← to_f32 ((⟨(t416).status, (t416).value⟩ : StatusAnd BFloat)).value
  let t419 ← IeeeFloat.eq t417 t418
  check t419

example : passes t_float8e4m3fn_exhaustive_12 = true := by decide +kernel

/-- tests/ieee.rs:4480 `float8e4m3fn_exhaustive`. -/
def t_float8e4m3fn_exhaustive_13 : M Unit := do
  let t413 ← (ApiFloat.from_bits 51 : M Float8E4M3FN)
  let t420 ← ApiFloat.to_bits t413
  check (decide (51 = t420))
  let t421 ← (ApiFloat.from_bits 52 : M Float8E4M3FN)
  let t422 ← ApiFloat.is_largest t421
  check (!t422)
  let t423 ← ApiFloat.is_smallest t421
  check (!t423)
  let t424 ← IeeeFloat.convertR float8E4M3FNS bfloatS t421 Round.nearestTiesToEven
  check (decide (((⟨(t424).status, (t424).value⟩ : StatusAnd BFloat)).status = Status.OK))
  check (!(t424).losesInfo)
  let t425 ← to_f32 t421
  let t426 ← to_f32 ((⟨(t424).status, (t424).value⟩ : StatusAnd BFloat)).value
  let t427 ← IeeeFloat.eq t425 t426
  check t427
  let t428 ← ApiFloat.to_bits t421
  check (decide (52 = t428))
  let t429 ← (ApiFloat.from_bits 53 : M Float8E4M3FN)
  let t430 ← ApiFloat.is_largest t429
  check (!t430)
  let t431 ← ApiFloat.is_smallest t429
  check (!t431)
  let t432 ← IeeeFloat.convertR float8E4M3FNS bfloatS t429 Round.nearestTiesToEven
  check (decide (((⟨(t432).status, (t432).value⟩ : StatusAnd BFloat)).status = Status.OK))
  check (!(t432).losesInfo)
  let t433 ← to_f32 t429
  let t434 ← to_f32 ((⟨(t432).status, (t432).value⟩ : StatusAnd BFloat)).value
  let t435 ← IeeeFloat.eq t433 t434
  check t435
  let t436 ← ApiFloat.to_bits t429
  check (decide (53 = t436))
  let t437 ← (ApiFloat.from_bits 54 : M Float8E4M3FN)
  let t438 ← ApiFloat.is_largest t437
  check (!t438)
  let t439 ← ApiFloat.is_smallest t437
  check (!t439)
  let t440 ← IeeeFloat.convertR float8E4M3FNS bfloatS t437 Round.nearestTiesToEven
  check (decide (((⟨(t440).status, (t440).value⟩ : StatusAnd BFloat)).status = Status.OK))
  check (!(t440).losesInfo)
  let t441 ← to_f32 t437
  let t442 ← to_f32 ((⟨(t440).status, (t440).value⟩ : StatusAnd BFloat)).value
  let t443 ← IeeeFloat.eq t441 t442
  check t443
  let t444 ← ApiFloat.to_bits t437
  check (decide (54 = t444))
  let t445 ← (ApiFloat.from_bits 55 : M Float8E4M3FN)
  let t446 ← ApiFloat.is_largest t445
  check (!t446)
  let t447 ← ApiFloat.is_smallest t445
  check (!t447)
  let t448 ← IeeeFloat.convertR float8E4M3FNS bfloatS t445 Round.nearestTiesToEven
  check (decide (((⟨(t448).status, (t448).value⟩ : StatusAnd BFloat)).status = Status.OK))
  check (!(t448).losesInfo)
  let t449 ← to_f32 t445
  let t450 ← to_f32 ((⟨(t448).status, (t448).value⟩ : StatusAnd BFloat)).value
  let t451 ← IeeeFloat.eq t449 t450
  check t451
  let t452 ← ApiFloat.to_bits t445
  check (decide (55 = t452))
  let t453 ← (ApiFloat.from_bits 56 : M Float8E4M3FN)
  let t454 ← ApiFloat.is_largest t453
  check (!t454)

example : passes t_float8e4m3fn_exhaustive_13 = true := by decide +kernel

/-- tests/ieee.rs:4480 `float8e4m3fn_exhaustive`. -/
def t_float8e4m3fn_exhaustive_14 : M Unit := do
  let t453 ← (ApiFloat.from_bits 56 : M Float8E4M3FN)
  let t455 ← ApiFloat.is_smallest t453
  check (!t455)
  let t456 ← IeeeFloat.convertR float8E4M3FNS bfloatS t453 Round.nearestTiesToEven
  check (decide (((⟨(t456).status, (t456).value⟩ : StatusAnd BFloat)).status = Status.OK))
  check (!(t456).losesInfo)
  let t457 ← to_f32 t453
  let t458 ← to_f32 ((⟨(t456).status, (t456).value⟩ : StatusAnd BFloat)).value
  let t459 ← IeeeFloat.eq t457 t458
  check t459
  let t460 ← ApiFloat.to_bits t453
  check (decide (56 = t460))
  let t461 ← (ApiFloat.from_bits 57 : M Float8E4M3FN)
  let t462 ← ApiFloat.is_largest t461
  check (!t462)
  let t463 ← ApiFloat.is_smallest t461
  check (!t463)
  let t464 ← IeeeFloat.convertR float8E4M3FNS bfloatS t461 Round.nearestTiesToEven
  check (decide (((⟨(t464).status, (t464).value⟩ : StatusAnd BFloat)).status = Status.OK))
  check (!(t464).losesInfo)
  let t465 ← to_f32 t461
  let t466 ← to_f32 ((⟨(t464).status, (t464).value⟩ : StatusAnd BFloat)).value
  let t467 ← IeeeFloat.eq t465 t466
  check t467
  let t468 ← ApiFloat.to_bits t461
  check (decide (57 = t468))
  let t469 ← (ApiFloat.from_bits 58 : M Float8E4M3FN)
  let t470 ← ApiFloat.is_largest t469
  check (!t470)
  let t471 ← ApiFloat.is_smallest t469
  check (!t471)
  let t472 ← IeeeFloat.convertR float8E4M3FNS bfloatS t469 Round.nearestTiesToEven
  check (decide (((⟨(t472).status, (t472).value⟩ : StatusAnd BFloat)).status = Status.OK))
  check (!(t472).losesInfo)
  let t473 ← to_f32 t469
  let t474 ← to_f32 ((⟨(t472).status, (t472).value⟩ : StatusAnd BFloat)).value
  let t475 ← IeeeFloat.eq t473 t474
  check t475
  let t476 ← ApiFloat.to_bits t469
  check (decide (58 = t476))
  let t477 ← (ApiFloat.from_bits 59 : M Float8E4M3FN)
  let t478 ← ApiFloat.is_largest t477
  check (!t478)
  let t479 ← ApiFloat.is_smallest t477
  check (!t479)
  let t480 ← IeeeFloat.convertR float8E4M3FNS bfloatS t477 Round.nearestTiesToEven
  check (decide (((⟨(t480).status, (t480).value⟩ : StatusAnd BFloat)).status = Status.OK))
  check (!(t480).losesInfo)
  let t481 ← to_f32 t477
  let t482 ← to_f32 ((⟨(t480).status, (t480).value⟩ : StatusAnd BFloat)).value
  let t483 ← IeeeFloat.eq t481 t482
  check t483
  let t484 ← ApiFloat.to_bits t477
  check (decide (59 = t484))
  let t485 ← (ApiFloat.from_bits 60 : M Float8E4M3FN)
  let t486 ← ApiFloat.is_largest t485
  check (!t486)
  let t487 ← ApiFloat.is_smallest t485
  check (!t487)
  let t488 ← IeeeFloat.convertR float8E4M3FNS bfloatS t485 Round.nearestTiesToEven
  check (decide (((⟨(t488).status, (t488).value⟩ : StatusAnd BFloat)).status = Status.OK))

example : passes t_float8e4m3fn_exhaustive_14 = true := by decide +kernel

/-- tests/ieee.rs:4480 `float8e4m3fn_exhaustive`. -/
def t_float8e4m3fn_exhaustive_15 : M Unit := do
  let t485 ← (ApiFloat.from_bits 60 : M Float8E4M3FN)
  let t488 ← IeeeFloat.convertR float8E4M3FNS bfloatS t485 Round.nearestTiesToEven
  check (!(t488).losesInfo)
  let t489 ← to_f32 t485
  let t490 ← to_f32 ((⟨(t488).status, (t488).value⟩ : StatusAnd BFloat)).value
  let t491 ← IeeeFloat.eq t489 t490
  check t491
  let t492 ← ApiFloat.to_bits t485
  check (decide (60 = t492))
  let t493 ← (ApiFloat.from_bits 61 : M Float8E4M3FN)
  let t494 ← ApiFloat.is_largest t493
  check (!t494)
  let t495 ← ApiFloat.is_smallest t493
  check (!t495)
  let t496 ← IeeeFloat.convertR float8E4M3FNS bfloatS t493 Round.nearestTiesToEven
  check (decide (((⟨(t496).status, (t496).value⟩ : StatusAnd BFloat)).status = Status.OK))
  check (!(t496).losesInfo)
  let t497 ← to_f32 t493
  let t498 ← to_f32 ((⟨(t496).status, (t496).value⟩ : StatusAnd BFloat)).value
  let t499 ← IeeeFloat.eq t497 t498
  check t499
  let t500 ← ApiFloat.to_bits t493
  check (decide (61 = t500))
  let t501 ← (ApiFloat.from_bits 62 : M Float8E4M3FN)
  let t502 ← ApiFloat.is_largest t501
  check (!t502)
  let t503 ← ApiFloat.is_smallest t501
  check (!t503)
  let t504 ← IeeeFloat.convertR float8E4M3FNS bfloatS t501 Round.nearestTiesToEven
  check (decide (((⟨(t504).status, (t504).value⟩ : StatusAnd BFloat)).status = Status.OK))
  check (!(t504).losesInfo)
  let t505 ← to_f32 t501
  let t506 ← to_f32 ((⟨(t504).status, (t504).value⟩ : StatusAnd BFloat)).value
  let t507 ← IeeeFloat.eq t505 t506
  check t507
  let t508 ← ApiFloat.to_bits t501
  check (decide (62 = t508))
  let t509 ← (ApiFloat.from_bits 63 : M Float8E4M3FN)
  let t510 ← ApiFloat.is_largest t509
  check (!t510)
  let t511 ← ApiFloat.is_smallest t509
  check (!t511)
  let t512 ← IeeeFloat.convertR float8E4M3FNS bfloatS t509 Round.nearestTiesToEven
  check (decide (((⟨(t512).status, (t512).value⟩ : StatusAnd BFloat)).status = Status.OK))
  check (!(t512).losesInfo)
  let t513 ← to_f32 t509
  let t514 ← to_f32 ((⟨(t512).status, (t512).value⟩ : StatusAnd BFloat)).value
  let t515 ← IeeeFloat.eq t513 t514
  check t515
  let t516 ← ApiFloat.to_bits t509
  check (decide (63 = t516))
  let t517 ← (ApiFloat.from_bits 64 : M Float8E4M3FN)
  let t518 ← ApiFloat.is_largest t517
  check (!t518)
  let t519 ← ApiFloat.is_smallest t517
  check (!t519)
  let t520 ← IeeeFloat.convertR float8E4M3FNS bfloatS t517 Round.nearestTiesToEven
  check (decide (((⟨(t520).status, (t520).value⟩ : StatusAnd BFloat)).status = Status.OK))
  check (!(t520).losesInfo)
  let t521 ← to_f32 t517
  let t522 ← to_f32 ((⟨(t520).status, (t520).value⟩ : StatusAnd BFloat)).value
  let t523 ← IeeeFloat.eq t521 t522
  check t523

example : passes t_float8e4m3fn_exhaustive_15 = true := by decide +kernel

/-- tests/ieee.rs:4480 `float8e4m3fn_exhaustive`. -/
def t_float8e4m3fn_exhaustive_16 : M Unit := do
  let t517 ← (ApiFloat.from_bits 64 : M Float8E4M3FN)
  let t524 ← ApiFloat.to_bits t517
  check (decide (64 = t524))
  let t525 ← (ApiFloat.from_bits 65 : M Float8E4M3FN)
  let t526 ← ApiFloat.is_largest t525
  check (!t526)
  let t527 ← ApiFloat.is_smallest t525
  check (!t527)
  let t528 ← IeeeFloat.convertR float8E4M3FNS bfloatS t525 Round.nearestTiesToEven
  check (decide (((⟨(t528).status, (t528).value⟩ : StatusAnd BFloat)).status = Status.OK))
  check (!(t528).losesInfo)
  let t529 ← to_f32 t525
  let t530 ← to_f32 ((⟨(t528).status, (t528).value⟩ : StatusAnd BFloat)).value
  let t531 ← IeeeFloat.eq t529 t530
  check t531
  let t532 ← ApiFloat.to_bits t525
  check (decide (65 = t532))
  let t533 ← (ApiFloat.from_bits 66 : M Float8E4M3FN)
  let t534 ← ApiFloat.is_largest t533
  check (!t534)
  let t535 ← ApiFloat.is_smallest t533
  check (!t535)
  let t536 ← IeeeFloat.convertR float8E4M3FNS bfloatS t533 Round.nearestTiesToEven
  check (decide (((⟨(t536).status, (t536).value⟩ : StatusAnd BFloat)).status = Status.OK))
  check (!(t536).losesInfo)
  let t537 ← to_f32 t533
  let t538 ← to_f32 ((⟨(t536).status, (t536).value⟩ : StatusAnd BFloat)).value
  let t539 ← IeeeFloat.eq t537 t538
  check t539
  let t540 ← ApiFloat.to_bits t533
  check (decide (66 = t540))
  let t541 ← (ApiFloat.from_bits 67 : M Float8E4M3FN)
  let t542 ← ApiFloat.is_largest t541
  check (!t542)
  let t543 ← ApiFloat.is_smallest t541
  check (!t543)
  let t544 ← IeeeFloat.convertR float8E4M3FNS bfloatS t541 Round.nearestTiesToEven
  check (decide (((⟨(t544).status, (t544).value⟩ : StatusAnd BFloat)).status = Status.OK))
  check (!(t544).losesInfo)
  let t545 ← to_f32 t541
  let t546 ← to_f32 ((⟨(t544).status, (t544).value⟩ : StatusAnd BFloat)).value
  let t547 ← IeeeFloat.eq t545 t546
  check t547
  let t548 ← ApiFloat.to_bits t541
  check (decide (67 = t548))
  let t549 ← (ApiFloat.from_bits 68 : M Float8E4M3FN)
  let t550 ← ApiFloat.is_largest t549
  check (!t550)
  let t551 ← ApiFloat.is_smallest t549
  check (!t551)
  let t552 ← IeeeFloat.convertR float8E4M3FNS bfloatS t549 Round.nearestTiesToEven
  check (decide (((⟨(t552).status, (t552).value⟩ : StatusAnd BFloat)).status = Status.OK))
  check (!(t552).losesInfo)
  let t553 ← to_f32 t549
  let t554 ← to_f32 ((⟨(t552).status, (t552).value⟩ : StatusAnd BFloat)).value
  let t555 ← IeeeFloat.eq t553 t554
  check t555
  let t556 ← ApiFloat.to_bits t549
  check (decide (68 = t556))
  let t557 ← (ApiFloat.from_bits 69 : M Float8E4M3FN)
  let t558 ← ApiFloat.is_largest t557
  check (!t558)

example : passes t_float8e4m3fn_exhaustive_16 = true := by decide +kernel

/-- tests/ieee.rs:4480 `float8e4m3fn_exhaustive`. -/
def t_float8e4m3fn_exhaustive_17 : M Unit := do
  let t557 ← (ApiFloat.from_bits 69 : M Float8E4M3FN)
  let t559 ← ApiFloat.is_smallest t557
  check (!t559)
  let t560 ← IeeeFloat.convertR float8E4M3FNS bfloatS t557 Round.nearestTiesToEven
  check (decide (((⟨(t560).status, (t560).value⟩ : StatusAnd BFloat)).status = Status.OK))
  check (!(t560).losesInfo)
  let t561 ← to_f32 t557
  let t562 ← to_f32 ((⟨(t560).status, (t560).value⟩ : StatusAnd BFloat)).value
  let t563 ← IeeeFloat.eq t561 t562
  check t563
  let t564 ← ApiFloat.to_bits t557
  check (decide (69 = t564))
  let t565 ← (ApiFloat.from_bits 70 : M Float8E4M3FN)
  let t566 ← ApiFloat.is_largest t565
  check (!t566)
  let t567 ← ApiFloat.is_smallest t565
  check (!t567)
  let t568 ← IeeeFloat.convertR float8E4M3FNS bfloatS t565 Round.nearestTiesToEven
  check (decide (((⟨(t568).status, (t568).value⟩ : StatusAnd BFloat)).status = Status.OK))
  check (!(t568).losesInfo)
  let t569 ← to_f32 t565
  let t570 ← to_f32 ((⟨(t568).status, (t568).value⟩ : StatusAnd BFloat)).value
  let t571 ← IeeeFloat.eq t569 t570
  check t571
  let t572 ← ApiFloat.to_bits t565
  check (decide (70 = t572))
  let t573 ← (ApiFloat.from_bits 71 : M Float8E4M3FN)
  let t574 ← ApiFloat.is_largest t573
  check (!t574)
  let t575 ← ApiFloat.is_smallest t573
  check (!t575)
  let t576 ← IeeeFloat.convertR float8E4M3FNS bfloatS t573 Round.nearestTiesToEven
  check (decide (((⟨(t576).status, (t576).value⟩ : StatusAnd BFloat)).status = Status.OK))
  check (!(t576).losesInfo)
  let t577 ← to_f32 t573
  let t578 ← to_f32 ((⟨(t576).status, (t576).value⟩ : StatusAnd BFloat)).value
  let t579 ← IeeeFloat.eq t577 t578
  check t579
  let t580 ← ApiFloat.to_bits t573
  check (decide (71 = t580))
  let t581 ← (ApiFloat.from_bits 72 : M Float8E4M3FN)
  let t582 ← ApiFloat.is_largest t581
  check (!t582)
  let t583 ← ApiFloat.is_smallest t581
  check (!t583)
  let t584 ← IeeeFloat.convertR float8E4M3FNS bfloatS t581 Round.nearestTiesToEven
  check (decide (((⟨(t584).status, (t584).value⟩ : StatusAnd BFloat)).status = Status.OK))
  check (!(t584).losesInfo)
  let t585 ← to_f32 t581
  let t586 ← to_f32 ((⟨(t584).status, (t584).value⟩ : StatusAnd BFloat)).value
  let t587 ← IeeeFloat.eq t585 t586
  check t587
  let t588 ← ApiFloat.to_bits t581
  check (decide (72 = t588))
  let t589 ← (ApiFloat.from_bits 73 : M Float8E4M3FN)
  let t590 ← ApiFloat.is_largest t589
  check (!t590)
  let t591 ← ApiFloat.is_smallest t589
  check (!t591)
  let t592 ← IeeeFloat.convertR float8E4M3FNS bfloatS t589 Round.nearestTiesToEven
  check (decide (((⟨(t592).status, (t592).value⟩ : StatusAnd BFloat)).status = Status.OK))

example : passes t_float8e4m3fn_exhaustive_17 = true := by decide +kernel

/-- tests/ieee.rs:4480 `float8e4m3fn_exhaustive`. -/
def t_float8e4m3fn_exhaustive_18 : M Unit := do
  let t589 ← (ApiFloat.from_bits 73 : M Float8E4M3FN)
  let t592 ← IeeeFloat.convertR float8E4M3FNS bfloatS t589 Round.nearestTiesToEven
  check (!(t592).losesInfo)
  let t593 ← to_f32 t589
  let t594 ← to_f32 ((⟨(t592).status, (t592).value⟩ : StatusAnd BFloat)).value
  let t595 ← IeeeFloat.eq t593 t594
  check t595
  let t596 ← ApiFloat.to_bits t589
  check (decide (73 = t596))
  let t597 ← (ApiFloat.from_bits 74 : M Float8E4M3FN)
  let t598 ← ApiFloat.is_largest t597
  check (!t598)
  let t599 ← ApiFloat.is_smallest t597
  check (!t599)
  let t600 ← IeeeFloat.convertR float8E4M3FNS bfloatS t597 Round.nearestTiesToEven
  check (decide (((⟨(t600).status, (t600).value⟩ : StatusAnd BFloat)).status = Status.OK))
  check (!(t600).losesInfo)
  let t601 ← to_f32 t597
  let t602 ← to_f32 ((⟨(t600).status, (t600).value⟩ : StatusAnd BFloat)).value
  let t603 ← IeeeFloat.eq t601 t602
  check t603
  let t604 ← ApiFloat.to_bits t597
  check (decide (74 = t604))
  let t605 ← (ApiFloat.from_bits 75 : M Float8E4M3FN)
  let t606 ← ApiFloat.is_largest t605
  check (!t606)
  let t607 ← ApiFloat.is_smallest t605
  check (!t607)
  let t608 ← IeeeFloat.convertR float8E4M3FNS bfloatS t605 Round.nearestTiesToEven
  check (decide (((⟨(t608).status, (t608).value⟩ : StatusAnd BFloat)).status = Status.OK))
  check (!(t608).losesInfo)
  let t609 ← to_f32 t605
  let t610 ← to_f32 ((⟨(t608).status, (t608).value⟩ : StatusAnd BFloat)).value
  let t611 ← IeeeFloat.eq t609 t610
  check t611
  let t612 ← ApiFloat.to_bits t605
  check (decide (75 = t612))
  let t613 ← (ApiFloat.from_bits 76 : M Float8E4M3FN)
  let t614 ← ApiFloat.is_largest t613
  check (!t614)
  let t615 ← ApiFloat.is_smallest t613
  check (!t615)
  let t616 ← IeeeFloat.convertR float8E4M3FNS bfloatS t613 Round.nearestTiesToEven
  check (decide (((⟨(t616).status, (t616).value⟩ : StatusAnd BFloat)).status = Status.OK))
  check (!(t616).losesInfo)
  let t617 ← to_f32 t613
  let t618 ← to_f32 ((⟨(t616).status, (t616).value⟩ : StatusAnd BFloat)).value
  let t619 ← IeeeFloat.eq t617 t618
  check t619
  let t620 ← ApiFloat.to_bits t613
  check (decide (76 = t620))
  let t621 ← (ApiFloat.from_bits 77 : M Float8E4M3FN)
  let t622 ← ApiFloat.is_largest t621
  check (!t622)
  let t623 ← ApiFloat.is_smallest t621
  check (!t623)
  let t624 ← IeeeFloat.convertR float8E4M3FNS bfloatS t621 Round.nearestTiesToEven
  check (decide (((⟨(t624).status, (t624).value⟩ : StatusAnd BFloat)).status = Status.OK))
  check (!(t624).losesInfo)
  let t625 ← to_f32 t621
  let t626 ← to_f32 ((⟨(t624).status, (t624).value⟩ : StatusAnd BFloat)).value
  let t627 ← IeeeFloat.eq t625 t626
  check t627

example : passes t_float8e4m3fn_exhaustive_18 = true := by decide +kernel

/-- tests/ieee.rs:4480 `float8e4m3fn_exhaustive`. -/
def t_float8e4m3fn_exhaustive_19 : M Unit := do
  let t621 ← (ApiFloat.from_bits 77 : M Float8E4M3FN)
  let t628 ← ApiFloat.to_bits t621
  check (decide (77 = t628))
  let t629 ← (ApiFloat.from_bits 78 : M Float8E4M3FN)
  let t630 ← ApiFloat.is_largest t629
  check (!t630)
  let t631 ← ApiFloat.is_smallest t629
  check (!t631)
  let t632 ← IeeeFloat.convertR float8E4M3FNS bfloatS t629 Round.nearestTiesToEven
  check (decide (((⟨(t632).status, (t632).value⟩ : StatusAnd BFloat)).status = Status.OK))
  check (!(t632).losesInfo)
  let t633 ← to_f32 t629
  let t634 ← to_f32 ((⟨(t632).status, (t632).value⟩ : StatusAnd BFloat)).value
  let t635 ← IeeeFloat.eq t633 t634
  check t635
  let t636 ← ApiFloat.to_bits t629
  check (decide (78 = t636))
  let t637 ← (ApiFloat.from_bits 79 : M Float8E4M3FN)
  let t638 ← ApiFloat.is_largest t637
  check (!t638)
  let t639 ← ApiFloat.is_smallest t637
  check (!t639)
  let t640 ← IeeeFloat.convertR float8E4M3FNS bfloatS t637 Round.nearestTiesToEven
  check (decide (((⟨(t640).status, (t640).value⟩ : StatusAnd BFloat)).status = Status.OK))
  check (!(t640).losesInfo)
  let t641 ← to_f32 t637
  let t642 ← to_f32 ((⟨(t640).status, (t640).value⟩ : StatusAnd BFloat)).value
  let t643 ← IeeeFloat.eq t641 t642
  check t643
  let t644 ← ApiFloat.to_bits t637
  check (decide (79 = t644))
  let t645 ← (ApiFloat.from_bits 80 : M Float8E4M3FN)
  let t646 ← ApiFloat.is_largest t645
  check (!t646)
  let t647 ← ApiFloat.is_smallest t645
  check (!t647)
  let t648 ← IeeeFloat.convertR float8E4M3FNS bfloatS t645 Round.nearestTiesToEven
  check (decide (((⟨(t648).status, (t648).value⟩ : StatusAnd BFloat)).status = Status.OK))
  check (!(t648).losesInfo)
  let t649 ← to_f32 t645
  let t650 ← to_f32 ((⟨(t648).status, (t648).value⟩ : StatusAnd BFloat)).value
  let t651 ← IeeeFloat.eq t649 t650
  check t651
  let t652 ← ApiFloat.to_bits t645
  check (decide (80 = t652))
  let t653 ← (ApiFloat.from_bits 81 : M Float8E4M3FN)
  let t654 ← ApiFloat.is_largest t653
  check (!t654)
  let t655 ← ApiFloat.is_smallest t653
  check (!t655)
  let t656 ← IeeeFloat.convertR float8E4M3FNS bfloatS t653 Round.nearestTiesToEven
  check (decide (((⟨(t656).status, (t656).value⟩ : StatusAnd BFloat)).status = Status.OK))
  check (!(t656).losesInfo)
  let t657 ← to_f32 t653
  let t658 ← to_f32 ((⟨(t656).status, (t656).value⟩ : StatusAnd BFloat)).value
  let t659 ← IeeeFloat.eq t657 t658
  check t659
  let t660 ← ApiFloat.to_bits t653
  check (decide (81 = t660))
  let t661 ← (ApiFloat.from_bits 82 : M Float8E4M3FN)
  let t662 ← ApiFloat.is_largest t661
  check (!t662)

example : passes t_float8e4m3fn_exhaustive_19 = true := by decide +kernel

/-- tests/ieee.rs:4480 `float8e4m3fn_exhaustive`. -/
def t_float8e4m3fn_exhaustive_20 : M Unit := do
  let t661 ← (ApiFloat.from_bits 82 : M Float8E4M3FN)
  let t663 ← ApiFloat.is_smallest t661
  check (!t663)
  let t664 ← IeeeFloat.convertR float8E4M3FNS bfloatS t661 Round.nearestTiesToEven
  check (decide (((⟨(t664).status, (t664).value⟩ : StatusAnd BFloat)).status = Status.OK))
  check (!(t664).losesInfo)
  let t665 ← to_f32 t661
  let t666 ← to_f32 ((⟨(t664).status, (t664).value⟩ : StatusAnd BFloat)).value
  let t667 ← IeeeFloat.eq t665 t666
  check t667
  let t668 ← ApiFloat.to_bits t661
  check (decide (82 = t668))
  let t669 ← (ApiFloat.from_bits 83 : M Float8E4M3FN)
  let t670 ← ApiFloat.is_largest t669
  check (!t670)
  let t671 ← ApiFloat.is_smallest t669
  check (!t671)
  let t672 ← IeeeFloat.convertR float8E4M3FNS bfloatS t669 Round.nearestTiesToEven
  check (decide (((⟨(t672).status, (t672).value⟩ : StatusAnd BFloat)).status = Status.OK))
  check (!(t672).losesInfo)
  let t673 ← to_f32 t669
  let t674 ← to_f32 ((⟨(t672).status, (t672).value⟩ : StatusAnd BFloat)).value
  let t675 ← IeeeFloat.eq t673 t674
  check t675
  let t676 ← ApiFloat.to_bits t669
  check (decide (83 = t676))
  let t677 ← (ApiFloat.from_bits 84 : M Float8E4M3FN)
  let t678 ← ApiFloat.is_largest t677
  check (!t678)
  let t679 ← ApiFloat.is_smallest t677
  check (!t679)
  let t680 ← IeeeFloat.convertR float8E4M3FNS bfloatS t677 Round.nearestTiesToEven
  check (decide (((⟨(t680).status, (t680).value⟩ : StatusAnd BFloat)).status = Status.OK))
  check (!(t680).losesInfo)
  let t681 ← to_f32 t677
  let t682 ← to_f32 ((⟨(t680).status, (t680).value⟩ : StatusAnd BFloat)).value
  let t683 ← IeeeFloat.eq t681 t682
  check t683
  let t684 ← ApiFloat.to_bits t677
  check (decide (84 = t684))
  let t685 ← (ApiFloat.from_bits 85 : M Float8E4M3FN)
  let t686 ← ApiFloat.is_largest t685
  check (!t686)
  let t687 ← ApiFloat.is_smallest t685
  check (!t687)
  let t688 ← IeeeFloat.convertR float8E4M3FNS bfloatS t685 Round.nearestTiesToEven
  check (decide (((⟨(t688).status, (t688).value⟩ : StatusAnd BFloat)).status = Status.OK))
  check (!(t688).losesInfo)
  let t689 ← to_f32 t685
  let t690 ← to_f32 ((⟨(t688).status, (t688).value⟩ : StatusAnd BFloat)).value
  let t691 ← IeeeFloat.eq t689 t690
  check t691
  let t692 ← ApiFloat.to_bits t685
  check (decide (85 = t692))
  let t693 ← (ApiFloat.from_bits 86 : M Float8E4M3FN)
  let t694 ← ApiFloat.is_largest t693
  check (!t694)
  let t695 ← ApiFloat.is_smallest t693
  check (!t695)
  let t696 ← IeeeFloat.convertR float8E4M3FNS bfloatS t693 Round.nearestTiesToEven
  check (decide (((⟨(t696).status, (t696).value⟩ : StatusAnd BFloat)).status = Status.OK))

example : passes t_float8e4m3fn_exhaustive_20 = true := by decide +kernel

/-- tests/ieee.rs:4480 `float8e4m3fn_exhaustive`. -/
def t_float8e4m3fn_exhaustive_21 : M Unit := do
  let t693 ← (ApiFloat.from_bits 86 : M Float8E4M3FN)
  let t696 ← IeeeFloat.convertR float8E4M3FNS bfloatS t693 Round.nearestTiesToEven
  check (!(t696).losesInfo)
  let t697 ← to_f32 t693
  let t698 ← to_f32 ((⟨(t696).status, (t696).value⟩ : StatusAnd BFloat)).value
  let t699 ← IeeeFloat.eq t697 t698
  check t699
  let t700 ← ApiFloat.to_bits t693
  check (decide (86 = t700))
  let t701 ← (ApiFloat.from_bits 87 : M Float8E4M3FN)
  let t702 ← ApiFloat.is_largest t701
  check (!t702)
  let t703 ← ApiFloat.is_smallest t701
  check (!t703)
  let t704 ← IeeeFloat.convertR float8E4M3FNS bfloatS t701 Round.nearestTiesToEven
  check (decide (((⟨(t704).status, (t704).value⟩ : StatusAnd BFloat)).status = Status.OK))
  check (!(t704).losesInfo)
  let t705 ← to_f32 t701
  let t706 ← to_f32 ((⟨(t704).status, (t704).value⟩ : StatusAnd BFloat)).value
  let t707 ← IeeeFloat.eq t705 t706
  check t707
  let t708 ← ApiFloat.to_bits t701
  check (decide (87 = t708))
  let t709 ← (ApiFloat.from_bits 88 : M Float8E4M3FN)
  let t710 ← ApiFloat.is_largest t709
  check (!t710)
  let t711 ← ApiFloat.is_smallest t709
  check (!t711)
  let t712 ← IeeeFloat.convertR float8E4M3FNS bfloatS t709 Round.nearestTiesToEven
  check (decide (((⟨(t712).status, (t712).value⟩ : StatusAnd BFloat)).status = Status.OK))
  check (!(t712).losesInfo)
  let t713 ← to_f32 t709
  let t714 ← to_f32 ((⟨(t712).status, (t712).value⟩ : StatusAnd BFloat)).value
  let t715 ← IeeeFloat.eq t713 t714
  check t715
  let t716 ← ApiFloat.to_bits t709
  check (decide (88 = t716))
  let t717 ← (ApiFloat.from_bits 89 : M Float8E4M3FN)
  let t718 ← ApiFloat.is_largest t717
  check (!t718)
  let t719 ← ApiFloat.is_smallest t717
  check (!t719)
  let t720 ← IeeeFloat.convertR float8E4M3FNS bfloatS t717 Round.nearestTiesToEven
  check (decide (((⟨(t720).status, (t720).value⟩ : StatusAnd BFloat)).status = Status.OK))
  check (!(t720).losesInfo)
  let t721 ← to_f32 t717
  let t722 ← to_f32 ((⟨(t720).status, (t720).value⟩ : StatusAnd BFloat)).value
  let t723 ← IeeeFloat.eq t721 t722
  check t723
  let t724 ← ApiFloat.to_bits t717
  check (decide (89 = t724))
  let t725 ← (ApiFloat.from_bits 90 : M Float8E4M3FN)
  let t726 ← ApiFloat.is_largest t725
  check (!t726)
  let t727 ← ApiFloat.is_smallest t725
  check (!t727)
  let t728 ← IeeeFloat.convertR float8E4M3FNS bfloatS t725 Round.nearestTiesToEven
  check (decide (((⟨(t728).status, (t728).value⟩ : StatusAnd BFloat)).status = Status.OK))
  check (!(t728).losesInfo)
  let t729 ← to_f32 t725
  let t730 ← to_f32 ((⟨(t728).status, (t728).value⟩ : StatusAnd BFloat)).value
  let t731 ← IeeeFloat.eq t729 t730
  check t731

example : passes t_float8e4m3fn_exhaustive_21 = true := by decide +kernel

/-- tests/ieee.rs:4480 `float8e4m3fn_exhaustive`. -/
def t_float8e4m3fn_exhaustive_22 : M Unit := do
  let t725 ← (ApiFloat.from_bits 90 : M Float8E4M3FN)
  let t732 ← ApiFloat.to_bits t725
  check (decide (90 = t732))
  let t733 ← (ApiFloat.from_bits 91 : M Float8E4M3FN)
  let t734 ← ApiFloat.is_largest t733
  check (!t734)
  let t735 ← ApiFloat.is_smallest t733
  check (!t735)
  let t736 ← IeeeFloat.convertR float8E4M3FNS bfloatS t733 Round.nearestTiesToEven
  check (decide (((⟨(t736).status, (t736).value⟩ : StatusAnd BFloat)).status = Status.OK))
  check (!(t736).losesInfo)
  let t737 ← to_f32 t733
  let t738 ← to_f32 ((⟨(t736).status, (t736).value⟩ : StatusAnd BFloat)).value
  let t739 ← IeeeFloat.eq t737 t738
  check t739
  let t740 ← ApiFloat.to_bits t733
  check (decide (91 = t740))
  let t741 ← (ApiFloat.from_bits 92 : M Float8E4M3FN)
  let t742 ← ApiFloat.is_largest t741
  check (!t742)
  let t743 ← ApiFloat.is_smallest t741
  check (!t743)
  let t744 ← IeeeFloat.convertR float8E4M3FNS bfloatS t741 Round.nearestTiesToEven
  check (decide (((⟨(t744).status, (t744).value⟩ : StatusAnd BFloat)).status = Status.OK))
  check (!(t744).losesInfo)
  let t745 ← to_f32 t741
  let t746 ← to_f32 ((⟨(t744).status, (t744).value⟩ : StatusAnd BFloat)).value
  let t747 ← IeeeFloat.eq t745 t746
  check t747
  let t748 ← ApiFloat.to_bits t741
  check (decide (92 = t748))
  let t749 ← (ApiFloat.from_bits 93 : M Float8E4M3FN)
  let t750 ← ApiFloat.is_largest t749
  check (!t750)
  let t751 ← ApiFloat.is_smallest t749
  check (!t751)
  let t752 ← IeeeFloat.convertR float8E4M3FNS bfloatS t749 Round.nearestTiesToEven
  check (decide (((⟨(t752).status, (t752).value⟩ : StatusAnd BFloat)).status = Status.OK))
  check (!(t752).losesInfo)
  let t753 ← to_f32 t749
  let t754 ← to_f32 ((⟨(t752).status, (t752).value⟩ : StatusAnd BFloat)).value
  let t755 ← IeeeFloat.eq t753 t754
  check t755
  let t756 ← ApiFloat.to_bits t749
  check (decide (93 = t756))
  let t757 ← (ApiFloat.from_bits 94 : M Float8E4M3FN)
  let t758 ← ApiFloat.is_largest t757
  check (!t758)
  let t759 ← ApiFloat.is_smallest t757
  check (!t759)
  let t760 ← IeeeFloat.convertR float8E4M3FNS bfloatS t757 Round.nearestTiesToEven
  check (decide (((⟨(t760).status, (t760).value⟩ : StatusAnd BFloat)).status = Status.OK))
  check (!(t760).losesInfo)
  let t761 ← to_f32 t757
  let t762 ← to_f32 ((⟨(t760).status, (t760).value⟩ : StatusAnd BFloat)).value
  let t763 ← IeeeFloat.eq t761 t762
  check t763
  let t764 ← ApiFloat.to_bits t757
  check (decide (94 = t764))
  let t765 ← (ApiFloat.from_bits 95 : M Float8E4M3FN)
  let t766 ← ApiFloat.is_largest t765
  check (!t766)

example : passes t_float8e4m3fn_exhaustive_22 = true := by decide +kernel

/-- tests/ieee.rs:4480 `float8e4m3fn_exhaustive`. -/
def t_float8e4m3fn_exhaustive_23 : M Unit := do
  let t765 ← (ApiFloat.from_bits 95 : M Float8E4M3FN)
  let t767 ← ApiFloat.is_smallest t765
  check (!t767)
  let t768 ← IeeeFloat.convertR float8E4M3FNS bfloatS t765 Round.nearestTiesToEven
  check (decide (((⟨(t768).status, (t768).value⟩ : StatusAnd BFloat)).status = Status.OK))
  check (!(t768).losesInfo)
  let t769 ← to_f32 t765
  let t770 ← to_f32 ((⟨(t768).status, (t768).value⟩ : StatusAnd BFloat)).value
  let t771 ← IeeeFloat.eq t769 t770
  check t771
  let t772 ← ApiFloat.to_bits t765
  check (decide (95 = t772))
  let t773 ← (ApiFloat.from_bits 96 : M Float8E4M3FN)
  let t774 ← ApiFloat.is_largest t773
  check (!t774)
  let t775 ← ApiFloat.is_smallest t773
  check (!t775)
  let t776 ← IeeeFloat.convertR float8E4M3FNS bfloatS t773 Round.nearestTiesToEven
  check (decide (((⟨(t776).status, (t776).value⟩ : StatusAnd BFloat)).status = Status.OK))
  check (!(t776).losesInfo)
  let t777 ← to_f32 t773
  let t778 ← to_f32 ((⟨(t776).status, (t776).value⟩ : StatusAnd BFloat)).value
  let t779 ← IeeeFloat.eq t777 t778
  check t779
  let t780 ← ApiFloat.to_bits t773
  check (decide (96 = t780))
  let t781 ← (ApiFloat.from_bits 97 : M Float8E4M3FN)
  let t782 ← ApiFloat.is_largest t781
  check (!t782)
  let t783 ← ApiFloat.is_smallest t781
  check (!t783)
  let t784 ← IeeeFloat.convertR float8E4M3FNS bfloatS t781 Round.nearestTiesToEven
  check (decide (((⟨(t784).status, (t784).value⟩ : StatusAnd BFloat)).status = Status.OK))
  check (!(t784).losesInfo)
  let t785 ← to_f32 t781
  let t786 ← to_f32 ((⟨(t784).status, (t784).value⟩ : StatusAnd BFloat)).value
  let t787 ← IeeeFloat.eq t785 t786
  check t787
  let t788 ← ApiFloat.to_bits t781
  check (decide (97 = t788))
  let t789 ← (ApiFloat.from_bits 98 : M Float8E4M3FN)
  let t790 ← ApiFloat.is_largest t789
  check (!t790)
  let t791 ← ApiFloat.is_smallest t789
  check (!t791)
  let t792 ← IeeeFloat.convertR float8E4M3FNS bfloatS t789 Round.nearestTiesToEven
  check (decide (((⟨(t792).status, (t792).value⟩ : StatusAnd BFloat)).status = Status.OK))
  check (!(t792).losesInfo)
  let t793 ← to_f32 t789
  let t794 ← to_f32 ((⟨(t792).status, (t792).value⟩ : StatusAnd BFloat)).value
  let t795 ← IeeeFloat.eq t793 t794
  check t795
  let t796 ← ApiFloat.to_bits t789
  check (decide (98 = t796))
  let t797 ← (ApiFloat.from_bits 99 : M Float8E4M3FN)
  let t798 ← ApiFloat.is_largest t797
  check (!t798)
  let t799 ← ApiFloat.is_smallest t797
  check (!t799)
  let t800 ← IeeeFloat.convertR float8E4M3FNS bfloatS t797 Round.nearestTiesToEven
  check (decide (((⟨(t800).status, (t800).value⟩ : StatusAnd BFloat)).status = Status.OK))

example : passes t_float8e4m3fn_exhaustive_23 = true := by decide +kernel

/-- tests/ieee.rs:4480 `float8e4m3fn_exhaustive`. -/
def t_float8e4m3fn_exhaustive_24 : M Unit := do
  let t797 ← (ApiFloat.from_bits 99 : M Float8E4M3FN)
  let t800 ← IeeeFloat.convertR float8E4M3FNS bfloatS t797 Round.nearestTiesToEven
  check (!(t800).losesInfo)
  let t801 ← to_f32 t797
  let t802 ← to_f32 ((⟨(t800).status, (t800).value⟩ : StatusAnd BFloat)).value
  let t803 ← IeeeFloat.eq t801 t802
  check t803
  let t804 ← ApiFloat.to_bits t797
  check (decide (99 = t804))
  let t805 ← (ApiFloat.from_bits 100 : M Float8E4M3FN)
  let t806 ← ApiFloat.is_largest t805
  check (!t806)
  let t807 ← ApiFloat.is_smallest t805
  check (!t807)
  let t808 ← IeeeFloat.convertR float8E4M3FNS bfloatS t805 Round.nearestTiesToEven
  check (decide (((⟨(t808).status, (t808).value⟩ : StatusAnd BFloat)).status = Status.OK))
  check (!(t808).losesInfo)
  let t809 ← to_f32 t805
  let t810 ← to_f32 ((⟨(t808).status, (t808).value⟩ : StatusAnd BFloat)).value
  let t811 ← IeeeFloat.eq t809 t810
  check t811
  let t812 ← ApiFloat.to_bits t805
  check (decide (100 = t812))
  let t813 ← (ApiFloat.from_bits 101 : M Float8E4M3FN)
  let t814 ← ApiFloat.is_largest t813
  check (!t814)
  let t815 ← ApiFloat.is_smallest t813
  check (!t815)
  let t816 ← IeeeFloat.convertR float8E4M3FNS bfloatS t813 Round.nearestTiesToEven
  check (decide (((⟨(t816).status, (t816).value⟩ : StatusAnd BFloat)).status = Status.OK))
  check (!(t816).losesInfo)
  let t817 ← to_f32 t813
  let t818 ← to_f32 ((⟨(t816).status, (t816).value⟩ : StatusAnd BFloat)).value
  let t819 ← IeeeFloat.eq t817 t818
  check t819
  let t820 ← ApiFloat.to_bits t813
  check (decide (101 = t820))
  let t821 ← (ApiFloat.from_bits 102 : M Float8E4M3FN)
  let t822 ← ApiFloat.is_largest t821
  check (!t822)
  let t823 ← ApiFloat.is_smallest t821
  check (!t823)
  let t824 ← IeeeFloat.convertR float8E4M3FNS bfloatS t821 Round.nearestTiesToEven
  check (decide (((⟨(t824).status, (t824).value⟩ : StatusAnd BFloat)).status = Status.OK))
  check (!(t824).losesInfo)
  let t825 ← to_f32 t821
  let t826 ← to_f32 ((⟨(t824).status, (t824).value⟩ : StatusAnd BFloat)).value
  let t827 ← IeeeFloat.eq t825 t826
  check t827
  let t828 ← ApiFloat.to_bits t821
  check (decide (102 = t828))
  let t829 ← (ApiFloat.from_bits 103 : M Float8E4M3FN)
  let t830 ← ApiFloat.is_largest t829
  check (!t830)
  let t831 ← ApiFloat.is_smallest t829
  check (!t831)
  let t832 ← IeeeFloat.convertR float8E4M3FNS bfloatS t829 Round.nearestTiesToEven
  check (decide (((⟨(t832).status, (t832).value⟩ : StatusAnd BFloat)).status = Status.OK))
  check (!(t832).losesInfo)
  let t833 ← to_f32 t829
  let t834 ← to_f32 ((⟨(t832).status, (t832).value⟩ : StatusAnd BFloat)).value
  let t835 ← IeeeFloat.eq t833 t834
  check t835

example : passes t_float8e4m3fn_exhaustive_24 = true := by decide +kernel

/-- tests/ieee.rs:4480 `float8e4m3fn_exhaustive`. -/
def t_float8e4m3fn_exhaustive_25 : M Unit := do
  let t829 ← (ApiFloat.from_bits 103 : M Float8E4M3FN)
  let t836 ← ApiFloat.to_bits t829
  check (decide (103 = t836))
  let t837 ← (ApiFloat.from_bits 104 : M Float8E4M3FN)
  let t838 ← ApiFloat.is_largest t837
  check (!t838)
  let t839 ← ApiFloat.is_smallest t837
  check (!t839)
  let t840 ← IeeeFloat.convertR float8E4M3FNS bfloatS t837 Round.nearestTiesToEven
  check (decide (((⟨(t840).status, (t840).value⟩ : StatusAnd BFloat)).status = Status.OK))
  check (!(t840).losesInfo)
  let t841 ← to_f32 t837
  let t842 ← to_f32 ((⟨(t840).status, (t840).value⟩ : StatusAnd BFloat)).value
  let t843 ← IeeeFloat.eq t841 t842
  check t843
  let t844 ← ApiFloat.to_bits t837
  check (decide (104 = t844))
  let t845 ← (ApiFloat.from_bits 105 : M Float8E4M3FN)
  let t846 ← ApiFloat.is_largest t845
  check (!t846)
  let t847 ← ApiFloat.is_smallest t845
  check (!t847)
  let t848 ← IeeeFloat.convertR float8E4M3FNS bfloatS t845 Round.nearestTiesToEven
  check (decide (((⟨(t848).status, (t848).value⟩ : StatusAnd BFloat)).status = Status.OK))
  check (!(t848).losesInfo)
  let t849 ← to_f32 t845
  let t850 ← to_f32 ((⟨(t848).status, (t848).value⟩ : StatusAnd BFloat)).value
  let t851 ← IeeeFloat.eq t849 t850
  check t851
  let t852 ← ApiFloat.to_bits t845
  check (decide (105 = t852))
  let t853 ← (ApiFloat.from_bits 106 : M Float8E4M3FN)
  let t854 ← ApiFloat.is_largest t853
  check (!t854)
  let t855 ← ApiFloat.is_smallest t853
  check (!t855)
  let t856 ← IeeeFloat.convertR float8E4M3FNS bfloatS t853 Round.nearestTiesToEven
  check (decide (((⟨(t856).status, (t856).value⟩ : StatusAnd BFloat)).status = Status.OK))
  check (!(t856).losesInfo)
  let t857 ← to_f32 t853
  let t858 ← to_f32 ((⟨(t856).status, (t856).value⟩ : StatusAnd BFloat)).value
  let t859 ← IeeeFloat.eq t857 t858
  check t859
  let t860 ← ApiFloat.to_bits t853
  check (decide (106 = t860))
  let t861 ← (ApiFloat.from_bits 107 : M Float8E4M3FN)
  let t862 ← ApiFloat.is_largest t861
  check (!t862)
  let t863 ← ApiFloat.is_smallest t861
  check (!t863)
  let t864 ← IeeeFloat.convertR float8E4M3FNS bfloatS t861 Round.nearestTiesToEven
  check (decide (((⟨(t864).status, (t864).value⟩ : StatusAnd BFloat)).status = Status.OK))
  check (!(t864).losesInfo)
  let t865 ← to_f32 t861
  let t866 ← to_f32 ((⟨(t864).status, (t864).value⟩ : StatusAnd BFloat)).value
  let t867 ← IeeeFloat.eq t865 t866
  check t867
  let t868 ← ApiFloat.to_bits t861
  check (decide (107 = t868))
  let t869 ← (ApiFloat.from_bits 108 : M Float8E4M3FN)
  let t870 ← ApiFloat.is_largest t869
  check (!t870)

example : passes t_float8e4m3fn_exhaustive_25 = true := by decide +kernel

/-- tests/ieee.rs:4480 `float8e4m3fn_exhaustive`. -/
def t_float8e4m3fn_exhaustive_26 : M Unit := do
  let t869 ← (ApiFloat.from_bits 108 : M Float8E4M3FN)
  let t871 ← ApiFloat.is_smallest t869
  check (!t871)
  let t872 ← IeeeFloat.convertR float8E4M3FNS bfloatS t869 Round.nearestTiesToEven
  check (decide (((⟨(t872).status, (t872).value⟩ : StatusAnd BFloat)).status = Status.OK))
  check (!(t872).losesInfo)
  let t873 ← to_f32 t869
  let t874 ← to_f32 ((⟨(t872).status, (t872).value⟩ : StatusAnd BFloat)).value
  let t875 ← IeeeFloat.eq t873 t874
  check t875
  let t876 ← ApiFloat.to_bits t869
  check (decide (108 = t876))
  let t877 ← (ApiFloat.from_bits 109 : M Float8E4M3FN)
  let t878 ← ApiFloat.is_largest t877
  check (!t878)
  let t879 ← ApiFloat.is_smallest t877
  check (!t879)
  let t880 ← IeeeFloat.convertR float8E4M3FNS bfloatS t877 Round.nearestTiesToEven
  check (decide (((⟨(t880).status, (t880).value⟩ : StatusAnd BFloat)).status = Status.OK))
  check (!(t880).losesInfo)
  let t881 ← to_f32 t877
  let t882 ← to_f32 ((⟨(t880).status, (t880).value⟩ : StatusAnd BFloat)).value
  let t883 ← IeeeFloat.eq t881 t882
  check t883
  let t884 ← ApiFloat.to_bits t877
  check (decide (109 = t884))
  let t885 ← (ApiFloat.from_bits 110 : M Float8E4M3FN)
  let t886 ← ApiFloat.is_largest t885
  check (!t886)
  let t887 ← ApiFloat.is_smallest t885
  check (!t887)
  let t888 ← IeeeFloat.convertR float8E4M3FNS bfloatS t885 Round.nearestTiesToEven
  check (decide (((⟨(t888).status, (t888).value⟩ : StatusAnd BFloat)).status = Status.OK))
  check (!(t888).losesInfo)
  let t889 ← to_f32 t885
  let t890 ← to_f32 ((⟨(t888).status, (t888).value⟩ : StatusAnd BFloat)).value
  let t891 ← IeeeFloat.eq t889 t890
  check t891
  let t892 ← ApiFloat.to_bits t885
  check (decide (110 = t892))
  let t893 ← (ApiFloat.from_bits 111 : M Float8E4M3FN)
  let t894 ← ApiFloat.is_largest t893
  check (!t894)
  let t895 ← ApiFloat.is_smallest t893
  check (!t895)
  let t896 ← IeeeFloat.convertR float8E4M3FNS bfloatS t893 Round.nearestTiesToEven
  check (decide (((⟨(t896).status, (t896).value⟩ : StatusAnd BFloat)).status = Status.OK))
  check (!(t896).losesInfo)
  let t897 ← to_f32 t893
  let t898 ← to_f32 ((⟨(t896).status, (t896).value⟩ : StatusAnd BFloat)).value
  let t899 ← IeeeFloat.eq t897 t898
  check t899
  let t900 ← ApiFloat.to_bits t893
  check (decide (111 = t900))
  let t901 ← (ApiFloat.from_bits 112 : M Float8E4M3FN)
  let t902 ← ApiFloat.is_largest t901
  check (!t902)
  let t903 ← ApiFloat.is_smallest t901
  check (!t903)
  let t904 ← IeeeFloat.convertR float8E4M3FNS bfloatS t901 Round.nearestTiesToEven
  check (decide (((⟨(t904).status, (t904).value⟩ : StatusAnd BFloat)).status = Status.OK))

example : passes t_float8e4m3fn_exhaustive_26 = true := by decide +kernel

/-- tests/ieee.rs:4480 `float8e4m3fn_exhaustive`. -/
def t_float8e4m3fn_exhaustive_27 : M Unit := do
  let t901 ← (ApiFloat.from_bits 112 : M Float8E4M3FN)
  let t904 ← IeeeFloat.convertR float8E4M3FNS bfloatS t901 Round.nearestTiesToEven
  check (!(t904).losesInfo)
  let t905 ← to_f32 t901
  let t906 ← to_f32 ((⟨(t904).status, (t904).value⟩ : StatusAnd BFloat)).value
  let t907 ← IeeeFloat.eq t905 t906
  check t907
  let t908 ← ApiFloat.to_bits t901
  check (decide (112 = t908))
  let t909 ← (ApiFloat.from_bits 113 : M Float8E4M3FN)
  let t910 ← ApiFloat.is_largest t909
  check (!t910)
  let t911 ← ApiFloat.is_smallest t909
  check (!t911)
  let t912 ← IeeeFloat.convertR float8E4M3FNS bfloatS t909 Round.nearestTiesToEven
  check (decide (((⟨(t912).status, (t912).value⟩ : StatusAnd BFloat)).status = Status.OK))
  check (!(t912).losesInfo)
  let t913 ← to_f32 t909
  let t914 ← to_f32 ((⟨(t912).status, (t912).value⟩ : StatusAnd BFloat)).value
  let t915 ← IeeeFloat.eq t913 t914
  check t915
  let t916 ← ApiFloat.to_bits t909
  check (decide (113 = t916))
  let t917 ← (ApiFloat.from_bits 114 : M Float8E4M3FN)
  let t918 ← ApiFloat.is_largest t917
  check (!t918)
  let t919 ← ApiFloat.is_smallest t917
  check (!t919)
  let t920 ← IeeeFloat.convertR float8E4M3FNS bfloatS t917 Round.nearestTiesToEven
  check (decide (((⟨(t920).status, (t920).value⟩ : StatusAnd BFloat)).status = Status.OK))
  check (!(t920).losesInfo)
  let t921 ← to_f32 t917
  let t922 ← to_f32 ((⟨(t920).status, (t920).value⟩ : StatusAnd BFloat)).value
  let t923 ← IeeeFloat.eq t921 t922
  check t923
  let t924 ← ApiFloat.to_bits t917
  check (decide (114 = t924))
  let t925 ← (ApiFloat.from_bits 115 : M Float8E4M3FN)
  let t926 ← ApiFloat.is_largest t925
  check (!t926)
  let t927 ← ApiFloat.is_smallest t925
  check (!t927)
  let t928 ← IeeeFloat.convertR float8E4M3FNS bfloatS t925 Round.nearestTiesToEven
  check (decide (((⟨(t928).status, (t928).value⟩ : StatusAnd BFloat)).status = Status.OK))
  check (!(t928).losesInfo)
  let t929 ← to_f32 t925
  let t930 ← to_f32 ((⟨(t928).status, (t928).value⟩ : StatusAnd BFloat)).value
  let t931 ← IeeeFloat.eq t929 t930
  check t931
  let t932 ← ApiFloat.to_bits t925
  check (decide (115 = t932))
  let t933 ← (ApiFloat.from_bits 116 : M Float8E4M3FN)
  let t934 ← ApiFloat.is_largest t933
  check (!t934)
  let t935 ← ApiFloat.is_smallest t933
  check (!t935)
  let t936 ← IeeeFloat.convertR float8E4M3FNS bfloatS t933 Round.nearestTiesToEven
  check (decide (((⟨(t936).status, (t936).value⟩ : StatusAnd BFloat)).status = Status.OK))
  check (!(t936).losesInfo)
  let t937 ← to_f32 t933
  let t938 ← to_f32 ((⟨(t936).status, (t936).value⟩ : StatusAnd BFloat)).value
  let t939 ← IeeeFloat.eq t937 t938
  check t939

example : passes t_float8e4m3fn_exhaustive_27 = true := by decide +kernel

/-- tests/ieee.rs:4480 `float8e4m3fn_exhaustive`. -/
def t_float8e4m3fn_exhaustive_28 : M Unit := do
  let t933 ← (ApiFloat.from_bits 116 : M Float8E4M3FN)
  let t940 ← ApiFloat.to_bits t933
  check (decide (116 = t940))
  let t941 ← (ApiFloat.from_bits 117 : M Float8E4M3FN)
  let t942 ← ApiFloat.is_largest t941
  check (!t942)
  let t943 ← ApiFloat.is_smallest t941
  check (!t943)
  let t944 ← IeeeFloat.convertR float8E4M3FNS bfloatS t941 Round.nearestTiesToEven
  check (decide (((⟨(t944).status, (t944).value⟩ : StatusAnd BFloat)).status = Status.OK))
  check (!(t944).losesInfo)
  let t945 ← to_f32 t941
  let t946 ← to_f32 ((⟨(t944).status, (t944).value⟩ : StatusAnd BFloat)).value
  let t947 ← IeeeFloat.eq t945 t946
  check t947
  let t948 ← ApiFloat.to_bits t941
  check (decide (117 = t948))
  let t949 ← (ApiFloat.from_bits 118 : M Float8E4M3FN)
  let t950 ← ApiFloat.is_largest t949
  check (!t950)
  let t951 ← ApiFloat.is_smallest t949
  check (!t951)
  let t952 ← IeeeFloat.convertR float8E4M3FNS bfloatS t949 Round.nearestTiesToEven
  check (decide (((⟨(t952).status, (t952).value⟩ : StatusAnd BFloat)).status = Status.OK))
  check (!(t952).losesInfo)
  let t953 ← to_f32 t949
  let t954 ← to_f32 ((⟨(t952).status, (t952).value⟩ : StatusAnd BFloat)).value
  let t955 ← IeeeFloat.eq t953 t954
  check t955
  let t956 ← ApiFloat.to_bits t949
  check (decide (118 = t956))
  let t957 ← (ApiFloat.from_bits 119 : M Float8E4M3FN)
  let t958 ← ApiFloat.is_largest t957
  check (!t958)
  let t959 ← ApiFloat.is_smallest t957
  check (!t959)
  let t960 ← IeeeFloat.convertR float8E4M3FNS bfloatS t957 Round.nearestTiesToEven
  check (decide (((⟨(t960).status, (t960).value⟩ : StatusAnd BFloat)).status = Status.OK))
  check (!(t960).losesInfo)
  let t961 ← to_f32 t957
  let t962 ← to_f32 ((⟨(t960).status, (t960).value⟩ : StatusAnd BFloat)).value
  let t963 ← IeeeFloat.eq t961 t962
  check t963
  let t964 ← ApiFloat.to_bits t957
  check (decide (119 = t964))
  let t965 ← (ApiFloat.from_bits 120 : M Float8E4M3FN)
  let t966 ← ApiFloat.is_largest t965
  check (!t966)
  let t967 ← ApiFloat.is_smallest t965
  check (!t967)
  let t968 ← IeeeFloat.convertR float8E4M3FNS bfloatS t965 Round.nearestTiesToEven
  check (decide (((⟨(t968).status, (t968).value⟩ : StatusAnd BFloat)).status = Status.OK))
  check (!(t968).losesInfo)
  let t969 ← to_f32 t965
  let t970 ← to_f32 ((⟨(t968).status, (t968).value⟩ : StatusAnd BFloat)).value
  let t971 ← IeeeFloat.eq t969 t970
  check t971
  let t972 ← ApiFloat.to_bits t965
  check (decide (120 = t972))
  let t973 ← (ApiFloat.from_bits 121 : M Float8E4M3FN)
  let t974 ← ApiFloat.is_largest t973
  check (!t974)

example : passes t_float8e4m3fn_exhaustive_28 = true := by decide +kernel

/-- tests/ieee.rs:4480 `float8e4m3fn_exhaustive`. -/
def t_float8e4m3fn_exhaustive_29 : M Unit := do
  let t973 ← (ApiFloat.from_bits 121 : M Float8E4M3FN)
  let t975 ← ApiFloat.is_smallest t973
  check (!t975)
  let t976 ← IeeeFloat.convertR float8E4M3FNS bfloatS t973 Round.nearestTiesToEven
  check (decide (((⟨(t976).status, (t976).value⟩ : StatusAnd BFloat)).status = Status.OK))
  check (!(t976).losesInfo)
  let t977 ← to_f32 t973
  let t978 ← to_f32 ((⟨(t976).status, (t976).value⟩ : StatusAnd BFloat)).value
  let t979 ← IeeeFloat.eq t977 t978
  check t979
  let t980 ← ApiFloat.to_bits t973
  check (decide (121 = t980))
  let t981 ← (ApiFloat.from_bits 122 : M Float8E4M3FN)
  let t982 ← ApiFloat.is_largest t981
  check (!t982)
  let t983 ← ApiFloat.is_smallest t981
  check (!t983)
  let t984 ← IeeeFloat.convertR float8E4M3FNS bfloatS t981 Round.nearestTiesToEven
  check (decide (((⟨(t984).status, (t984).value⟩ : StatusAnd BFloat)).status = Status.OK))
  check (!(t984).losesInfo)
  let t985 ← to_f32 t981
  let t986 ← to_f32 ((⟨(t984).status, (t984).value⟩ : StatusAnd BFloat)).value
  let t987 ← IeeeFloat.eq t985 t986
  check t987
  let t988 ← ApiFloat.to_bits t981
  check (decide (122 = t988))
  let t989 ← (ApiFloat.from_bits 123 : M Float8E4M3FN)
  let t990 ← ApiFloat.is_largest t989
  check (!t990)
  let t991 ← ApiFloat.is_smallest t989
  check (!t991)
  let t992 ← IeeeFloat.convertR float8E4M3FNS bfloatS t989 Round.nearestTiesToEven
  check (decide (((⟨(t992).status, (t992).value⟩ : StatusAnd BFloat)).status = Status.OK))
  check (!(t992).losesInfo)
  let t993 ← to_f32 t989
  let t994 ← to_f32 ((⟨(t992).status, (t992).value⟩ : StatusAnd BFloat)).value
  let t995 ← IeeeFloat.eq t993 t994
  check t995
  let t996 ← ApiFloat.to_bits t989
  check (decide (123 = t996))
  let t997 ← (ApiFloat.from_bits 124 : M Float8E4M3FN)
  let t998 ← ApiFloat.is_largest t997
  check (!t998)
  let t999 ← ApiFloat.is_smallest t997
  check (!t999)
  let t1000 ← IeeeFloat.convertR float8E4M3FNS bfloatS t997 Round.nearestTiesToEven
  check (decide (((⟨(t1000).status, (t1000).value⟩ : StatusAnd BFloat)).status = Status.OK))
  check (!(t1000).losesInfo)
  let t1001 ← to_f32 t997
  let t1002 ← to_f32 ((⟨(t1000).status, (t1000).value⟩ : StatusAnd BFloat)).value
  let t1003 ← IeeeFloat.eq t1001 t1002
  check t1003
  let t1004 ← ApiFloat.to_bits t997
  check (decide (124 = t1004))
  let t1005 ← (ApiFloat.from_bits 125 : M Float8E4M3FN)
  let t1006 ← ApiFloat.is_largest t1005
  check (!t1006)
  let t1007 ← ApiFloat.is_smallest t1005
  check (!t1007)
  let t1008 ← IeeeFloat.convertR float8E4M3FNS bfloatS t1005 Round.nearestTiesToEven
  check (decide (((⟨(t1008).status, (t1008).value⟩ : StatusAnd BFloat)).status = Status.OK))

example : passes t_float8e4m3fn_exhaustive_29 = true := by decide +kernel

/-- tests/ieee.rs:4480 `float8e4m3fn_exhaustive`. -/
def t_float8e4m3fn_exhaustive_30 : M Unit := do
  let t14 ← (f64_lit 0x3f60000000000000 : M Double)
  let t1005 ← (ApiFloat.from_bits 125 : M Float8E4M3FN)
  let t1008 ← IeeeFloat.convertR float8E4M3FNS bfloatS t1005 Round.nearestTiesToEven
  check (!(t1008).losesInfo)
  let t1009 ← to_f32 t1005
  let t1010 ← to_f32 ((⟨(t1008).status, (t1008).value⟩ : StatusAnd BFloat)).value
  let t1011 ← IeeeFloat.eq t1009 t1010
  check t1011
  let t1012 ← ApiFloat.to_bits t1005
  check (decide (125 = t1012))
  let t1013 ← (ApiFloat.from_bits 126 : M Float8E4M3FN)
  let t1014 ← ApiFloat.is_largest t1013
  check t1014
  let t1015 ← ApiFloat.abs t1013
  let t1016 ← to_f64 t1015
  let t1017 ← (f64_lit 0x407c000000000000 : M Double)
  let t1018 ← IeeeFloat.eq t1016 t1017
  check t1018
  let t1019 ← ApiFloat.is_smallest t1013
  check (!t1019)
  let t1020 ← IeeeFloat.convertR float8E4M3FNS bfloatS t1013 Round.nearestTiesToEven
  check (decide (((⟨(t1020).status, (t1020).value⟩ : StatusAnd BFloat)).status = Status.OK))
  check (!(t1020).losesInfo)
  let t1021 ← to_f32 t1013
  let t1022 ← to_f32 ((⟨(t1020).status, (t1020).value⟩ : StatusAnd BFloat)).value
  let t1023 ← IeeeFloat.eq t1021 t1022
  check t1023
  let t1024 ← ApiFloat.to_bits t1013
  check (decide (126 = t1024))
  let t1025 ← (ApiFloat.from_bits 127 : M Float8E4M3FN)
  let t1026 ← ApiFloat.is_largest t1025
  check (!t1026)
  let t1027 ← ApiFloat.is_smallest t1025
  check (!t1027)
  let t1028 ← IeeeFloat.convertR float8E4M3FNS bfloatS t1025 Round.nearestTiesToEven
  check (decide (((⟨(t1028).status, (t1028).value⟩ : StatusAnd BFloat)).status = Status.OK))
  check (!(t1028).losesInfo)
  let t1029 ← is_nan ((⟨(t1028).status, (t1028).value⟩ : StatusAnd BFloat)).value
  check t1029
  let t1030 ← ApiFloat.to_bits t1025
  check (decide (127 = t1030))
  let t1031 ← (ApiFloat.from_bits 128 : M Float8E4M3FN)
  let t1032 ← ApiFloat.is_largest t1031
  check (!t1032)
  let t1033 ← ApiFloat.is_smallest t1031
  check (!t1033)
  let t1034 ← IeeeFloat.convertR float8E4M3FNS bfloatS t1031 Round.nearestTiesToEven
  check (decide (((⟨(t1034).status, (t1034).value⟩ : StatusAnd BFloat)).status = Status.OK))
  check (!(t1034).losesInfo)
  let t1035 ← to_f32 t1031
  let t1036 ← to_f32 ((⟨(t1034).status, (t1034).value⟩ : StatusAnd BFloat)).value
  let t1037 ← IeeeFloat.eq t1035 t1036
  check t1037
  let t1038 ← ApiFloat.to_bits t1031
  check (decide (128 = t1038))
  let t1039 ← (ApiFloat.from_bits 129 : M Float8E4M3FN)
  let t1040 ← ApiFloat.is_largest t1039
  check (!t1040)
  let t1041 ← ApiFloat.is_smallest t1039
  check t1041
  let t1042 ← ApiFloat.abs t1039
  let t1043 ← to_f64 t1042
  let t1044 ← IeeeFloat.eq t1043 t14
  check t1044

example : passes t_float8e4m3fn_exhaustive_30 = true := by decide +kernel

/-- tests/ieee.rs:4480 `float8e4m3fn_exhaustive`. -/
def t_float8e4m3fn_exhaustive_31 : M Unit := do
  let t1039 ← (ApiFloat.from_bits 129 : M Float8E4M3FN)
  let t1045 ← IeeeFloat.convertR float8E4M3FNS bfloatS t1039 Round.nearestTiesToEven
  check (decide (((⟨(t1045).status, (t1045).value⟩ : StatusAnd BFloat)).status = Status.OK))
  check (!(t1045).losesInfo)
  let t1046 ← to_f32 t1039
  let t1047 ← to_f32 ((⟨(t1045).status, (t1045).value⟩ : StatusAnd BFloat)).value
  let t1048 ← IeeeFloat.eq t1046 t1047
  check t1048
  let t1049 ← ApiFloat.to_bits t1039
  check (decide (129 = t1049))
  let t1050 ← (ApiFloat.from_bits 130 : M Float8E4M3FN)
  let t1051 ← ApiFloat.is_largest t1050
  check (!t1051)
  let t1052 ← ApiFloat.is_smallest t1050
  check (!t1052)
  let t1053 ← IeeeFloat.convertR float8E4M3FNS bfloatS t1050 Round.nearestTiesToEven
  check (decide (((⟨(t1053).status, (t1053).value⟩ : StatusAnd BFloat)).status = Status.OK))
  check (!(t1053).losesInfo)
  let t1054 ← to_f32 t1050
  let t1055 ← to_f32 ((⟨(t1053).status, (t1053).value⟩ : StatusAnd BFloat)).value
  let t1056 ← IeeeFloat.eq t1054 t1055
  check t1056
  let t1057 ← ApiFloat.to_bits t1050
  check (decide (130 = t1057))
  let t1058 ← (ApiFloat.from_bits 131 : M Float8E4M3FN)
  let t1059 ← ApiFloat.is_largest t1058
  check (!t1059)
  let t1060 ← ApiFloat.is_smallest t1058
  check (!t1060)
  let t1061 ← IeeeFloat.convertR float8E4M3FNS bfloatS t1058 Round.nearestTiesToEven
  check (decide (((⟨(t1061).status, (t1061).value⟩ : StatusAnd BFloat)).status = Status.OK))
  check (!(t1061).losesInfo)
  let t1062 ← to_f32 t1058
  let t1063 ← to_f32 ((⟨(t1061).status, (t1061).value⟩ : StatusAnd BFloat)).value
  let t1064 ← IeeeFloat.eq t1062 t1063
  check t1064
  let t1065 ← ApiFloat.to_bits t1058
  check (decide (131 = t1065))
  let t1066 ← (ApiFloat.from_bits 132 : M Float8E4M3FN)
  let t1067 ← ApiFloat.is_largest t1066
  check (!t1067)
  let t1068 ← ApiFloat.is_smallest t1066
  check (!t1068)
  let t1069 ← IeeeFloat.convertR float8E4M3FNS bfloatS t1066 Round.nearestTiesToEven
  check (decide (((⟨(t1069).status, (t1069).value⟩ : StatusAnd BFloat)).status = Status.OK))
  check (!(t1069).losesInfo)
  let t1070 ← to_f32 t1066
  let t1071 ← to_f32 ((⟨(t1069).status, (t1069).value⟩ : StatusAnd BFloat)).value
  let t1072 ← IeeeFloat.eq t1070 t1071
  check t1072
  let t1073 ← ApiFloat.to_bits t1066
  check (decide (132 = t1073))
  let t1074 ← (ApiFloat.from_bits 133 : M Float8E4M3FN)
  let t1075 ← ApiFloat.is_largest t1074
  check (!t1075)
  let t1076 ← ApiFloat.is_smallest t1074
  check (!t1076)
  let t1077 ← IeeeFloat.convertR float8E4M3FNS bfloatS t1074 Round.nearestTiesToEven
  check (decide (((⟨(t1077).status, (t1077).value⟩ : StatusAnd BFloat)).status = Status.OK))
  check (!(t1077).losesInfo)
  let t1078 ← to_f32 t1074
  let t1079 ← to_f32 ((⟨(t1077).status, (t1077).value⟩ : StatusAnd BFloat)).value
  let t1080 ← IeeeFloat.eq t1078 t1079
  check t1080

example : passes t_float8e4m3fn_exhaustive_31 = true := by decide +kernel

/-- tests/ieee.rs:4480 `float8e4m3fn_exhaustive`. -/
def t_float8e4m3fn_exhaustive_32 : M Unit := do
  let t1074 ← (ApiFloat.from_bits 133 : M Float8E4M3FN)
  let t1081 ← ApiFloat.to_bits t1074
  check (decide (133 = t1081))
  let t1082 ← (ApiFloat.from_bits 134 : M Float8E4M3FN)
  let t1083 ← ApiFloat.is_largest t1082
  check (!t1083)
  let t1084 ← ApiFloat.is_smallest t1082
  check (!t1084)
  let t1085 ← IeeeFloat.convertR float8E4M3FNS bfloatS t1082 Round.nearestTiesToEven
  check (decide (((⟨(t1085).status, (t1085).value⟩ : StatusAnd BFloat)).status = Status.OK))
  check (!(t1085).losesInfo)
  let t1086 ← to_f32 t1082
  let t1087 ← to_f32 ((⟨(t1085).status, (t1085).value⟩ : StatusAnd BFloat)).value
  let t1088 ← IeeeFloat.eq t1086 t1087
  check t1088
  let t1089 ← ApiFloat.to_bits t1082
  check (decide (134 = t1089))
  let t1090 ← (ApiFloat.from_bits 135 : M Float8E4M3FN)
  let t1091 ← ApiFloat.is_largest t1090
  check (!t1091)
  let t1092 ← ApiFloat.is_smallest t1090
  check (!t1092)
  let t1093 ← IeeeFloat.convertR float8E4M3FNS bfloatS t1090 Round.nearestTiesToEven
  check (decide (((⟨(t1093).status, (t1093).value⟩ : StatusAnd BFloat)).status = Status.OK))
  check (!(t1093).losesInfo)
  let t1094 ← to_f32 t1090
  let t1095 ← to_f32 ((⟨(t1093).status, (t1093).value⟩ : StatusAnd BFloat)).value
  let t1096 ← IeeeFloat.eq t1094 t1095
  check t1096
  let t1097 ← ApiFloat.to_bits t1090
  check (decide (135 = t1097))
  let t1098 ← (ApiFloat.from_bits 136 : M Float8E4M3FN)
  let t1099 ← ApiFloat.is_largest t1098
  check (!t1099)
  let t1100 ← ApiFloat.is_smallest t1098
  check (!t1100)
  let t1101 ← IeeeFloat.convertR float8E4M3FNS bfloatS t1098 Round.nearestTiesToEven
  check (decide (((⟨(t1101).status, (t1101).value⟩ : StatusAnd BFloat)).status = Status.OK))
  check (!(t1101).losesInfo)
  let t1102 ← to_f32 t1098
  let t1103 ← to_f32 ((⟨(t1101).status, (t1101).value⟩ : StatusAnd BFloat)).value
  let t1104 ← IeeeFloat.eq t1102 t1103
  check t1104
  let t1105 ← ApiFloat.to_bits t1098
  check (decide (136 = t1105))
  let t1106 ← (ApiFloat.from_bits 137 : M Float8E4M3FN)
  let t1107 ← ApiFloat.is_largest t1106
  check (!t1107)
  let t1108 ← ApiFloat.is_smallest t1106
  check (!t1108)
  let t1109 ← IeeeFloat.convertR float8E4M3FNS bfloatS t1106 Round.nearestTiesToEven
  check (decide (((⟨(t1109).status, (t1109).value⟩ : StatusAnd BFloat)).status = Status.OK))
  check (!(t1109).losesInfo)
  let t1110 ← to_f32 t1106
  let t1111 ← to_f32 ((⟨(t1109).status, (t1109).value⟩ : StatusAnd BFloat)).value
  let t1112 ← IeeeFloat.eq t1110 t1111
  check t1112
  let t1113 ← ApiFloat.to_bits t1106
  check (decide (137 = t1113))
  let t1114 ← (ApiFloat.from_bits 138 : M Float8E4M3FN)
  let t1115 ← ApiFloat.is_largest t1114
  check (!t1115)

example : passes t_float8e4m3fn_exhaustive_32 = true := by decide +kernel

/-- tests/ieee.rs:4480 `float8e4m3fn_exhaustive`. -/
def t_float8e4m3fn_exhaustive_33 : M Unit := do
  let t1114 ← (ApiFloat.from_bits 138 : M Float8E4M3FN)
  let t1116 ← ApiFloat.is_smallest t1114
  check (!t1116)
  let t1117 ← IeeeFloat.convertR float8E4M3FNS bfloatS t1114 Round.nearestTiesToEven
  check (decide (((⟨(t1117).status, (t1117).value⟩ : StatusAnd BFloat)).status = Status.OK))
  check (!(t1117).losesInfo)
  let t1118 ← to_f32 t1114
  let t1119 ← to_f32 ((⟨(t1117).status, (t1117).value⟩ : StatusAnd BFloat)).value
  let t1120 ← IeeeFloat.eq t1118 t1119
  check t1120
  let t1121 ← ApiFloat.to_bits t1114
  check (decide (138 = t1121))
  let t1122 ← (ApiFloat.from_bits 139 : M Float8E4M3FN)
  let t1123 ← ApiFloat.is_largest t1122
  check (!t1123)
  let t1124 ← ApiFloat.is_smallest t1122
  check (!t1124)
  let t1125 ← IeeeFloat.convertR float8E4M3FNS bfloatS t1122 Round.nearestTiesToEven
  check (decide (((⟨(t1125).status, (t1125).value⟩ : StatusAnd BFloat)).status = Status.OK))
  check (!(t1125).losesInfo)
  let t1126 ← to_f32 t1122
  let t1127 ← to_f32 ((⟨(t1125).status, (t1125).value⟩ : StatusAnd BFloat)).value
  let t1128 ← IeeeFloat.eq t1126 t1127
  check t1128
  let t1129 ← ApiFloat.to_bits t1122
  check (decide (139 = t1129))
  let t1130 ← (ApiFloat.from_bits 140 : M Float8E4M3FN)
  let t1131 ← ApiFloat.is_largest t1130
  check (!t1131)
  let t1132 ← ApiFloat.is_smallest t1130
  check (!t1132)
  let t1133 ← IeeeFloat.convertR float8E4M3FNS bfloatS t1130 Round.nearestTiesToEven
  check (decide (((⟨(t1133).status, (t1133).value⟩ : StatusAnd BFloat)).status = Status.OK))
  check (!(t1133).losesInfo)
  let t1134 ← to_f32 t1130
  let t1135 ← to_f32 ((⟨(t1133).status, (t1133).value⟩ : StatusAnd BFloat)).value
  let t1136 ← IeeeFloat.eq t1134 t1135
  check t1136
  let t1137 ← ApiFloat.to_bits t1130
  check (decide (140 = t1137))
  let t1138 ← (ApiFloat.from_bits 141 : M Float8E4M3FN)
  let t1139 ← ApiFloat.is_largest t1138
  check (!t1139)
  let t1140 ← ApiFloat.is_smallest t1138
  check (!t1140)
  let t1141 ← IeeeFloat.convertR float8E4M3FNS bfloatS t1138 Round.nearestTiesToEven
  check (decide (((⟨(t1141).status, (t1141).value⟩ : StatusAnd BFloat)).status = Status.OK))
  check (!(t1141).losesInfo)
  let t1142 ← to_f32 t1138
  let t1143 ← to_f32 ((⟨(t1141).status, (t1141).value⟩ : StatusAnd BFloat)).value
  let t1144 ← IeeeFloat.eq t1142 t1143
  check t1144
  let t1145 ← ApiFloat.to_bits t1138
  check (decide (141 = t1145))
  let t1146 ← (ApiFloat.from_bits 142 : M Float8E4M3FN)
  let t1147 ← ApiFloat.is_largest t1146
  check (!t1147)
  let t1148 ← ApiFloat.is_smallest t1146
  check (!t1148)
  let t1149 ← IeeeFloat.convertR float8E4M3FNS bfloatS t1146 Round.nearestTiesToEven
  check (decide (((⟨(t1149).status, (t1149).value⟩ : StatusAnd BFloat)).status = Status.OK))

example : passes t_float8e4m3fn_exhaustive_33 = true := by decide +kernel

/-- tests/ieee.rs:4480 `float8e4m3fn_exhaustive`. -/
def t_float8e4m3fn_exhaustive_34 : M Unit := do
  let t1146 ← (ApiFloat.from_bits 142 : M Float8E4M3FN)
  let t1149 ← IeeeFloat.convertR float8E4M3FNS bfloatS t1146 Round.nearestTiesToEven
  check (!(t1149).losesInfo)
  let t1150 ← to_f32 t1146
  let t1151 ← to_f32 ((⟨(t1149).status, (t1149).value⟩ : StatusAnd BFloat)).value
  let t1152 ← IeeeFloat.eq t1150 t1151
  check t1152
  let t1153 ← ApiFloat.to_bits t1146
  check (decide (142 = t1153))
  let t1154 ← (ApiFloat.from_bits 143 : M Float8E4M3FN)
  let t1155 ← ApiFloat.is_largest t1154
  check (!t1155)
  let t1156 ← ApiFloat.is_smallest t1154
  check (!t1156)
  let t1157 ← IeeeFloat.convertR float8E4M3FNS bfloatS t1154 Round.nearestTiesToEven
  check (decide (((⟨(t1157).status, (t1157).value⟩ : StatusAnd BFloat)).status = Status.OK))
  check (!(t1157).losesInfo)
  let t1158 ← to_f32 t1154
  let t1159 ← to_f32 ((⟨(t1157).status, (t1157).value⟩ : StatusAnd BFloat)).value
  let t1160 ← IeeeFloat.eq t1158 t1159
  check t1160
  let t1161 ← ApiFloat.to_bits t1154
  check (decide (143 = t1161))
  let t1162 ← (ApiFloat.from_bits 144 : M Float8E4M3FN)
  let t1163 ← ApiFloat.is_largest t1162
  check (!t1163)
  let t1164 ← ApiFloat.is_smallest t1162
  check (!t1164)
  let t1165 ← IeeeFloat.convertR float8E4M3FNS bfloatS t1162 Round.nearestTiesToEven
  check (decide (((⟨(t1165).status, (t1165).value⟩ : StatusAnd BFloat)).status = Status.OK))
  check (!(t1165).losesInfo)
  let t1166 ← to_f32 t1162
  let t1167 ← to_f32 ((⟨(t1165).status, (t1165).value⟩ : StatusAnd BFloat)).value
  let t1168 ← IeeeFloat.eq t1166 t1167
  check t1168
  let t1169 ← ApiFloat.to_bits t1162
  check (decide (144 = t1169))
  let t1170 ← (ApiFloat.from_bits 145 : M Float8E4M3FN)
  let t1171 ← ApiFloat.is_largest t1170
  check (!t1171)
  let t1172 ← ApiFloat.is_smallest t1170
  check (!t1172)
  let t1173 ← IeeeFloat.convertR float8E4M3FNS bfloatS t1170 Round.nearestTiesToEven
  check (decide (((⟨(t1173).status, (t1173).value⟩ : StatusAnd BFloat)).status = Status.OK))
  check (!(t1173).losesInfo)
  let t1174 ← to_f32 t1170
  let t1175 ← to_f32 ((⟨(t1173).status, (t1173).value⟩ : StatusAnd BFloat)).value
  let t1176 ← IeeeFloat.eq t1174 t1175
  check t1176
  let t1177 ← ApiFloat.to_bits t1170
  check (decide (145 = t1177))
  let t1178 ← (ApiFloat.from_bits 146 : M Float8E4M3FN)
  let t1179 ← ApiFloat.is_largest t1178
  check (!t1179)
  let t1180 ← ApiFloat.is_smallest t1178
  check (!t1180)
  let t1181 ← IeeeFloat.convertR float8E4M3FNS bfloatS t1178 Round.nearestTiesToEven
  check (decide (((⟨(t1181).status, (t1181).value⟩ : StatusAnd BFloat)).status = Status.OK))
  check (!(t1181).losesInfo)
  let t1182 ← to_f32 t1178
  let t1183 ← to_f32 ((⟨(t1181).status, (t1181).value⟩ : StatusAnd BFloat)).value
  let t1184 ← IeeeFloat.eq t1182 t1183
  check t1184

example : passes t_float8e4m3fn_exhaustive_34 = true := by decide +kernel

/-- tests/ieee.rs:4480 `float8e4m3fn_exhaustive`. -/
def t_float8e4m3fn_exhaustive_35 : M Unit := do
  let t1178 ← (ApiFloat.from_bits 146 : M Float8E4M3FN)
  let t1185 ← ApiFloat.to_bits t1178
  check (decide (146 = t1185))
  let t1186 ← (ApiFloat.from_bits 147 : M Float8E4M3FN)
  let t1187 ← ApiFloat.is_largest t1186
  check (!t1187)
  let t1188 ← ApiFloat.is_smallest t1186
  check (!t1188)
  let t1189 ← IeeeFloat.convertR float8E4M3FNS bfloatS t1186 Round.nearestTiesToEven
  check (decide (((⟨(t1189).status, (t1189).value⟩ : StatusAnd BFloat)).status = Status.OK))
  check (!(t1189).losesInfo)
  let t1190 ← to_f32 t1186
  let t1191 ← to_f32 ((⟨(t1189).status, (t1189).value⟩ : StatusAnd BFloat)).value
  let t1192 ← IeeeFloat.eq t1190 t1191
  check t1192
  let t1193 ← ApiFloat.to_bits t1186
  check (decide (147 = t1193))
  let t1194 ← (ApiFloat.from_bits 148 : M Float8E4M3FN)
  let t1195 ← ApiFloat.is_largest t1194
  check (!t1195)
  let t1196 ← ApiFloat.is_smallest t1194
  check (!t1196)
  let t1197 ← IeeeFloat.convertR float8E4M3FNS bfloatS t1194 Round.nearestTiesToEven
  check (decide (((⟨(t1197).status, (t1197).value⟩ : StatusAnd BFloat)).status = Status.OK))
  check (!(t1197).losesInfo)
  let t1198 ← to_f32 t1194
  let t1199 ← to_f32 ((⟨(t1197).status, (t1197).value⟩ : StatusAnd BFloat)).value
  let t1200 ← IeeeFloat.eq t1198 t1199
  check t1200
  let t1201 ← ApiFloat.to_bits t1194
  check (decide (148 = t1201))
  let t1202 ← (ApiFloat.from_bits 149 : M Float8E4M3FN)
  let t1203 ← ApiFloat.is_largest t1202
  check (!t1203)
  let t1204 ← ApiFloat.is_smallest t1202
  check (!t1204)
  let t1205 ← IeeeFloat.convertR float8E4M3FNS bfloatS t1202 Round.nearestTiesToEven
  check (decide (((⟨(t1205).status, (t1205).value⟩ : StatusAnd BFloat)).status = Status.OK))
  check (!(t1205).losesInfo)
  let t1206 ← to_f32 t1202
  let t1207 ← to_f32 ((⟨(t1205).status, (t1205).value⟩ : StatusAnd BFloat)).value
  let t1208 ← IeeeFloat.eq t1206 t1207
  check t1208
  let t1209 ← ApiFloat.to_bits t1202
  check (decide (149 = t1209))
  let t1210 ← (ApiFloat.from_bits 150 : M Float8E4M3FN)
  let t1211 ← ApiFloat.is_largest t1210
  check (!t1211)
  let t1212 ← ApiFloat.is_smallest t1210
  check (!t1212)
  let t1213 ← IeeeFloat.convertR float8E4M3FNS bfloatS t1210 Round.nearestTiesToEven
  check (decide (((⟨(t1213).status, (t1213).value⟩ : StatusAnd BFloat)).status = Status.OK))
  check (!(t1213).losesInfo)
  let t1214 ← to_f32 t1210
  let t1215 ← to_f32 ((⟨(t1213).status, (t1213).value⟩ : StatusAnd BFloat)).value
  let t1216 ← IeeeFloat.eq t1214 t1215
  check t1216
  let t1217 ← ApiFloat.to_bits t1210
  check (decide (150 = t1217))
  let t1218 ← (ApiFloat.from_bits 151 : M Float8E4M3FN)
  let t1219 ← ApiFloat.is_largest t1218
  check (!t1219)

example : passes t_float8e4m3fn_exhaustive_35 = true := by decide +kernel

/-- tests/ieee.rs:4480 `float8e4m3fn_exhaustive`. -/
def t_float8e4m3fn_exhaustive_36 : M Unit := do
  let t1218 ← (ApiFloat.from_bits 151 : M Float8E4M3FN)
  let t1220 ← ApiFloat.is_smallest t1218
  check (!t1220)
  let t1221 ← IeeeFloat.convertR float8E4M3FNS bfloatS t1218 Round.nearestTiesToEven
  check (decide (((⟨(t1221).status, (t1221).value⟩ : StatusAnd BFloat)).status = Status.OK))
  check (!(t1221).losesInfo)
  let t1222 ← to_f32 t1218
  let t1223 ← to_f32 ((⟨(t1221).status, (t1221).value⟩ : StatusAnd BFloat)).value
  let t1224 ← IeeeFloat.eq t1222 t1223
  check t1224
  let t1225 ← ApiFloat.to_bits t1218
  check (decide (151 = t1225))
  let t1226 ← (ApiFloat.from_bits 152 : M Float8E4M3FN)
  let t1227 ← ApiFloat.is_largest t1226
  check (!t1227)
  let t1228 ← ApiFloat.is_smallest t1226
  check (!t1228)
  let t1229 ← IeeeFloat.convertR float8E4M3FNS bfloatS t1226 Round.nearestTiesToEven
  check (decide (((⟨(t1229).status, (t1229).value⟩ : StatusAnd BFloat)).status = Status.OK))
  check (!(t1229).losesInfo)
  let t1230 ← to_f32 t1226
  let t1231 ← to_f32 ((⟨(t1229).status, (t1229).value⟩ : StatusAnd BFloat)).value
  let t1232 ← IeeeFloat.eq t1230 t1231
  check t1232
  let t1233 ← ApiFloat.to_bits t1226
  check (decide (152 = t1233))
  let t1234 ← (ApiFloat.from_bits 153 : M Float8E4M3FN)
  let t1235 ← ApiFloat.is_largest t1234
  check (!t1235)
  let t1236 ← ApiFloat.is_smallest t1234
  check (!t1236)
  let t1237 ← IeeeFloat.convertR float8E4M3FNS bfloatS t1234 Round.nearestTiesToEven
  check (decide (((⟨(t1237).status, (t1237).value⟩ : StatusAnd BFloat)).status = Status.OK))
  check (!(t1237).losesInfo)
  let t1238 ← to_f32 t1234
  let t1239 ← to_f32 ((⟨(t1237).status, (t1237).value⟩ : StatusAnd BFloat)).value
  let t1240 ← IeeeFloat.eq t1238 t1239
  check t1240
  let t1241 ← ApiFloat.to_bits t1234
  check (decide (153 = t1241))
  let t1242 ← (ApiFloat.from_bits 154 : M Float8E4M3FN)
  let t1243 ← ApiFloat.is_largest t1242
  check (!t1243)
  let t1244 ← ApiFloat.is_smallest t1242
  check (!t1244)
  let t1245 ← IeeeFloat.convertR float8E4M3FNS bfloatS t1242 Round.nearestTiesToEven
  check (decide (((⟨(t1245).status, (t1245).value⟩ : StatusAnd BFloat)).status = Status.OK))
  check (!(t1245).losesInfo)
  let t1246 ← to_f32 t1242
  let t1247 ← to_f32 ((⟨(t1245).status, (t1245).value⟩ : StatusAnd BFloat)).value
  let t1248 ← IeeeFloat.eq t1246 t1247
  check t1248
  let t1249 ← ApiFloat.to_bits t1242
  check (decide (154 = t1249))
  let t1250 ← (ApiFloat.from_bits 155 : M Float8E4M3FN)
  let t1251 ← ApiFloat.is_largest t1250
  check (!t1251)
  let t1252 ← ApiFloat.is_smallest t1250
  check (!t1252)
  let t1253 ← IeeeFloat.convertR float8E4M3FNS bfloatS t1250 Round.nearestTiesToEven
  check (decide (((⟨(t1253).status, (t1253).value⟩ : StatusAnd BFloat)).status = Status.OK))

example : passes t_float8e4m3fn_exhaustive_36 = true := by decide +kernel

/-- tests/ieee.rs:4480 `float8e4m3fn_exhaustive`. -/
def t_float8e4m3fn_exhaustive_37 : M Unit := do
  let t1250 ← (ApiFloat.from_bits 155 : M Float8E4M3FN)
  let t1253 ← IeeeFloat.convertR float8E4M3FNS bfloatS t1250 Round.nearestTiesToEven
  check (!(t1253).losesInfo)
  let t1254 ← to_f32 t1250
  let t1255 ← to_f32 ((⟨(t1253).status, (t1253).value⟩ : StatusAnd BFloat)).value
  let t1256 ← IeeeFloat.eq t1254 t1255
  check t1256
  let t1257 ← ApiFloat.to_bits t1250
  check (decide (155 = t1257))
  let t1258 ← (ApiFloat.from_bits 156 : M Float8E4M3FN)
  let t1259 ← ApiFloat.is_largest t1258
  check (!t1259)
  let t1260 ← ApiFloat.is_smallest t1258
  check (!t1260)
  let t1261 ← IeeeFloat.convertR float8E4M3FNS bfloatS t1258 Round.nearestTiesToEven
  check (decide (((⟨(t1261).status, (t1261).value⟩ : StatusAnd BFloat)).status = Status.OK))
  check (!(t1261).losesInfo)
  let t1262 ← to_f32 t1258
  let t1263 ← to_f32 ((⟨(t1261).status, (t1261).value⟩ : StatusAnd BFloat)).value
  let t1264 ← IeeeFloat.eq t1262 t1263
  check t1264
  let t1265 ← ApiFloat.to_bits t1258
  check (decide (156 = t1265))
  let t1266 ← (ApiFloat.from_bits 157 : M Float8E4M3FN)
  let t1267 ← ApiFloat.is_largest t1266
  check (!t1267)
  let t1268 ← ApiFloat.is_smallest t1266
  check (!t1268)
  let t1269 ← IeeeFloat.convertR float8E4M3FNS bfloatS t1266 Round.nearestTiesToEven
  check (decide (((⟨(t1269).status, (t1269).value⟩ : StatusAnd BFloat)).status = Status.OK))
  check (!(t1269).losesInfo)
  let t1270 ← to_f32 t1266
  let t1271 ← to_f32 ((⟨(t1269).status, (t1269).value⟩ : StatusAnd BFloat)).value
  let t1272 ← IeeeFloat.eq t1270 t1271
  check t1272
  let t1273 ← ApiFloat.to_bits t1266
  check (decide (157 = t1273))
  let t1274 ← (ApiFloat.from_bits 158 : M Float8E4M3FN)
  let t1275 ← ApiFloat.is_largest t1274
  check (!t1275)
  let t1276 ← ApiFloat.is_smallest t1274
  check (!t1276)
  let t1277 ← IeeeFloat.convertR float8E4M3FNS bfloatS t1274 Round.nearestTiesToEven
  check (decide (((⟨(t1277).status, (t1277).value⟩ : StatusAnd BFloat)).status = Status.OK))
  check (!(t1277).losesInfo)
  let t1278 ← to_f32 t1274
  let t1279 ← to_f32 ((⟨(t1277).status, (t1277).value⟩ : StatusAnd BFloat)).value
  let t1280 ← IeeeFloat.eq t1278 t1279
  check t1280
  let t1281 ← ApiFloat.to_bits t1274
  check (decide (158 = t1281))
  let t1282 ← (ApiFloat.from_bits 159 : M Float8E4M3FN)
  let t1283 ← ApiFloat.is_largest t1282
  check (!t1283)
  let t1284 ← ApiFloat.is_smallest t1282
  check (!t1284)
  let t1285 ← IeeeFloat.convertR float8E4M3FNS bfloatS t1282 Round.nearestTiesToEven
  check (decide (((⟨(t1285).status, (t1285).value⟩ : StatusAnd BFloat)).status = Status.OK))
  check (!(t1285).losesInfo)
  let t1286 ← to_f32 t1282
  let t1287 ← to_f32 ((⟨(t1285).status, (t1285).value⟩ : StatusAnd BFloat)).value
  let t1288 ← IeeeFloat.eq t1286 t1287
  check t1288

example : passes t_float8e4m3fn_exhaustive_37 = true := by decide +kernel

/-- tests/ieee.rs:4480 `float8e4m3fn_exhaustive`. -/
def t_float8e4m3fn_exhaustive_38 : M Unit := do
  let t1282 ← (ApiFloat.from_bits 159 : M Float8E4M3FN)
  let t1289 ← ApiFloat.to_bits t1282
  check (decide (159 = t1289))
  let t1290 ← (ApiFloat.from_bits 160 : M Float8E4M3FN)
  let t1291 ← ApiFloat.is_largest t1290
  check (!t1291)
  let t1292 ← ApiFloat.is_smallest t1290
  check (!t1292)
  let t1293 ← IeeeFloat.convertR float8E4M3FNS bfloatS t1290 Round.nearestTiesToEven
  check (decide (((⟨(t1293).status, (t1293).value⟩ : StatusAnd BFloat)).status = Status.OK))
  check (!(t1293).losesInfo)
  let t1294 ← to_f32 t1290
  let t1295 ← to_f32 ((⟨(t1293).status, (t1293).value⟩ : StatusAnd BFloat)).value
  let t1296 ← IeeeFloat.eq t1294 t1295
  check t1296
  let t1297 ← ApiFloat.to_bits t1290
  check (decide (160 = t1297))
  let t1298 ← (ApiFloat.from_bits 161 : M Float8E4M3FN)
  let t1299 ← ApiFloat.is_largest t1298
  check (!t1299)
  let t1300 ← ApiFloat.is_smallest t1298
  check (!t1300)
  let t1301 ← IeeeFloat.convertR float8E4M3FNS bfloatS t1298 Round.nearestTiesToEven
  check (decide (((⟨(t1301).status, (t1301).value⟩ : StatusAnd BFloat)).status = Status.OK))
  check (!(t1301).losesInfo)
  let t1302 ← to_f32 t1298
  let t1303 ← to_f32 ((⟨(t1301).status, (t1301).value⟩ : StatusAnd BFloat)).value
  let t1304 ← IeeeFloat.eq t1302 t1303
  check t1304
  let t1305 ← ApiFloat.to_bits t1298
  check (decide (161 = t1305))
  let t1306 ← (ApiFloat.from_bits 162 : M Float8E4M3FN)
  let t1307 ← ApiFloat.is_largest t1306
  check (!t1307)
  let t1308 ← ApiFloat.is_smallest t1306
  check (!t1308)
  let t1309 ← IeeeFloat.convertR float8E4M3FNS bfloatS t1306 Round.nearestTiesToEven
  check (decide (((⟨(t1309).status, (t1309).value⟩ : StatusAnd BFloat)).status = Status.OK))
  check (!(t1309).losesInfo)
  let t1310 ← to_f32 t1306
  let t1311 ← to_f32 ((⟨(t1309).status, (t1309).value⟩ : StatusAnd BFloat)).value
  let t1312 ← IeeeFloat.eq t1310 t1311
  check t1312
  let t1313 ← ApiFloat.to_bits t1306
  check (decide (162 = t1313))
  let t1314 ← (ApiFloat.from_bits 163 : M Float8E4M3FN)
  let t1315 ← ApiFloat.is_largest t1314
  check (!t1315)
  let t1316 ← ApiFloat.is_smallest t1314
  check (!t1316)
  let t1317 ← IeeeFloat.convertR float8E4M3FNS bfloatS t1314 Round.nearestTiesToEven
  check (decide (((⟨(t1317).status, (t1317).value⟩ : StatusAnd BFloat)).status = Status.OK))
  check (!(t1317).losesInfo)
  let t1318 ← to_f32 t1314
  let t1319 ← to_f32 ((⟨(t1317).status, (t1317).value⟩ : StatusAnd BFloat)).value
  let t1320 ← IeeeFloat.eq t1318 t1319
  check t1320
  let t1321 ← ApiFloat.to_bits t1314
  check (decide (163 = t1321))
  let t1322 ← (ApiFloat.from_bits 164 : M Float8E4M3FN)
  let t1323 ← ApiFloat.is_largest t1322
  check (!t1323)

example : passes t_float8e4m3fn_exhaustive_38 = true := by decide +kernel

/-- tests/ieee.rs:4480 `float8e4m3fn_exhaustive`. -/
def t_float8e4m3fn_exhaustive_39 : M Unit := do
  let t1322 ← (ApiFloat.from_bits 164 : M Float8E4M3FN)
  let t1324 ← ApiFloat.is_smallest t1322
  check (!t1324)
  let t1325 ← IeeeFloat.convertR float8E4M3FNS bfloatS t1322 Round.nearestTiesToEven
  check (decide (((⟨(t1325).status, (t1325).value⟩ : StatusAnd BFloat)).status = Status.OK))
  check (!(t1325).losesInfo)
  let t1326 ← to_f32 t1322
  let t1327 ← to_f32 ((⟨(t1325).status, (t1325).value⟩ : StatusAnd BFloat)).value
  let t1328 ← IeeeFloat.eq t1326 t1327
  check t1328
  let t1329 ← ApiFloat.to_bits t1322
  check (decide (164 = t1329))
  let t1330 ← (ApiFloat.from_bits 165 : M Float8E4M3FN)
  let t1331 ← ApiFloat.is_largest t1330
  check (!t1331)
  let t1332 ← ApiFloat.is_smallest t1330
  check (!t1332)
  let t1333 ← IeeeFloat.convertR float8E4M3FNS bfloatS t1330 Round.nearestTiesToEven
  check (decide (((⟨(t1333).status, (t1333).value⟩ : StatusAnd BFloat)).status = Status.OK))
  check (!(t1333).losesInfo)
  let t1334 ← to_f32 t1330
  let t1335 ← to_f32 ((⟨(t1333).status, (t1333).value⟩ : StatusAnd BFloat)).value
  let t1336 ← IeeeFloat.eq t1334 t1335
  check t1336
  let t1337 ← ApiFloat.to_bits t1330
  check (decide (165 = t1337))
  let t1338 ← (ApiFloat.from_bits 166 : M Float8E4M3FN)
  let t1339 ← ApiFloat.is_largest t1338
  check (!t1339)
  let t1340 ← ApiFloat.is_smallest t1338
  check (!t1340)
  let t1341 ← IeeeFloat.convertR float8E4M3FNS bfloatS t1338 Round.nearestTiesToEven
  check (decide (((⟨(t1341).status, (t1341).value⟩ : StatusAnd BFloat)).status = Status.OK))
  check (!(t1341).losesInfo)
  let t1342 ← to_f32 t1338
  let t1343 ← to_f32 ((⟨(t1341).status, (t1341).value⟩ : StatusAnd BFloat)).value
  let t1344 ← IeeeFloat.eq t1342 t1343
  check t1344
  let t1345 ← ApiFloat.to_bits t1338
  check (decide (166 = t1345))
  let t1346 ← (ApiFloat.from_bits 167 : M Float8E4M3FN)
  let t1347 ← ApiFloat.is_largest t1346
  check (!t1347)
  let t1348 ← ApiFloat.is_smallest t1346
  check (!t1348)
  let t1349 ← IeeeFloat.convertR float8E4M3FNS bfloatS t1346 Round.nearestTiesToEven
  check (decide (((⟨(t1349).status, (t1349).value⟩ : StatusAnd BFloat)).status = Status.OK))
  check (!(t1349).losesInfo)
  let t1350 ← to_f32 t1346
  let t1351 ← to_f32 ((⟨(t1349).status, (t1349).value⟩ : StatusAnd BFloat)).value
  let t1352 ← IeeeFloat.eq t1350 t1351
  check t1352
  let t1353 ← ApiFloat.to_bits t1346
  check (decide (167 = t1353))
  let t1354 ← (ApiFloat.from_bits 168 : M Float8E4M3FN)
  let t1355 ← ApiFloat.is_largest t1354
  check (!t1355)
  let t1356 ← ApiFloat.is_smallest t1354
  check (!t1356)
  let t1357 ← IeeeFloat.convertR float8E4M3FNS bfloatS t1354 Round.nearestTiesToEven
  check (decide (((⟨(t1357).status, (t1357).value⟩ : StatusAnd BFloat)).status = Status.OK))

example : passes t_float8e4m3fn_exhaustive_39 = true := by decide +kernel

/-- tests/ieee.rs:4480 `float8e4m3fn_exhaustive`. -/
def t_float8e4m3fn_exhaustive_40 : M Unit := do
  let t1354 ← (ApiFloat.from_bits 168 : M Float8E4M3FN)
  let t1357 ← IeeeFloat.convertR float8E4M3FNS bfloatS t1354 Round.nearestTiesToEven
  check (!(t1357).losesInfo)
  let t1358 ← to_f32 t1354
  let t1359 ← to_f32 ((⟨(t1357).status, (t1357).value⟩ : StatusAnd BFloat)).value
  let t1360 ← IeeeFloat.eq t1358 t1359
  check t1360
  let t1361 ← ApiFloat.to_bits t1354
  check (decide (168 = t1361))
  let t1362 ← (ApiFloat.from_bits 169 : M Float8E4M3FN)
  let t1363 ← ApiFloat.is_largest t1362
  check (!t1363)
  let t1364 ← ApiFloat.is_smallest t1362
  check (!t1364)
  let t1365 ← IeeeFloat.convertR float8E4M3FNS bfloatS t1362 Round.nearestTiesToEven
  check (decide (((⟨(t1365).status, (t1365).value⟩ : StatusAnd BFloat)).status = Status.OK))
  check (!(t1365).losesInfo)
  let t1366 ← to_f32 t1362
  let t1367 ← to_f32 ((⟨(t1365).status, (t1365).value⟩ : StatusAnd BFloat)).value
  let t1368 ← IeeeFloat.eq t1366 t1367
  check t1368
  let t1369 ← ApiFloat.to_bits t1362
  check (decide (169 = t1369))
  let t1370 ← (ApiFloat.from_bits 170 : M Float8E4M3FN)
  let t1371 ← ApiFloat.is_largest t1370
  check (!t1371)
  let t1372 ← ApiFloat.is_smallest t1370
  check (!t1372)
  let t1373 ← IeeeFloat.convertR float8E4M3FNS bfloatS t1370 Round.nearestTiesToEven
  check (decide (((⟨(t1373).status, (t1373).value⟩ : StatusAnd BFloat)).status = Status.OK))
  check (!(t1373).losesInfo)
  let t1374 ← to_f32 t1370
  let t1375 ← to_f32 ((⟨(t1373).status, (t1373).value⟩ : StatusAnd BFloat)).value
  let t1376 ← IeeeFloat.eq t1374 t1375
  check t1376
  let t1377 ← ApiFloat.to_bits t1370
  check (decide (170 = t1377))
  let t1378 ← (ApiFloat.from_bits 171 : M Float8E4M3FN)
  let t1379 ← ApiFloat.is_largest t1378
  check (!t1379)
  let t1380 ← ApiFloat.is_smallest t1378
  check (!t1380)
  let t1381 ← IeeeFloat.convertR float8E4M3FNS bfloatS t1378 Round.nearestTiesToEven
  check (decide (((⟨(t1381).status, (t1381).value⟩ : StatusAnd BFloat)).status = Status.OK))
  check (!(t1381).losesInfo)
  let t1382 ← to_f32 t1378
  let t1383 ← to_f32 ((⟨(t1381).status, (t1381).value⟩ : StatusAnd BFloat)).value
  let t1384 ← IeeeFloat.eq t1382 t1383
  check t1384
  let t1385 ← ApiFloat.to_bits t1378
  check (decide (171 = t1385))
  let t1386 ← (ApiFloat.from_bits 172 : M Float8E4M3FN)
  let t1387 ← ApiFloat.is_largest t1386
  check (!t1387)
  let t1388 ← ApiFloat.is_smallest t1386
  check (!t1388)
  let t1389 ← IeeeFloat.convertR float8E4M3FNS bfloatS t1386 Round.nearestTiesToEven
  check (decide (((⟨(t1389).status, (t1389).value⟩ : StatusAnd BFloat)).status = Status.OK))
  check (!(t1389).losesInfo)
  let t1390 ← to_f32 t1386
  let t1391 ← to_f32 ((⟨(t1389).status, (t1389).value⟩ : StatusAnd BFloat)).value
  let t1392 ← IeeeFloat.eq t1390 t1391
  check t1392

example : passes t_float8e4m3fn_exhaustive_40 = true := by decide +kernel

/-- tests/ieee.rs:4480 `float8e4m3fn_exhaustive`. -/
def t_float8e4m3fn_exhaustive_41 : M Unit := do
  let t1386 ← (ApiFloat.from_bits 172 : M Float8E4M3FN)
  let t1393 ← ApiFloat.to_bits t1386
  check (decide (172 = t1393))
  let t1394 ← (ApiFloat.from_bits 173 : M Float8E4M3FN)
  let t1395 ← ApiFloat.is_largest t1394
  check (!t1395)
  let t1396 ← ApiFloat.is_smallest t1394
  check (!t1396)
  let t1397 ← IeeeFloat.convertR float8E4M3FNS bfloatS t1394 Round.nearestTiesToEven
  check (decide (((⟨(t1397).status, (t1397).value⟩ : StatusAnd BFloat)).status = Status.OK))
  check (!(t1397).losesInfo)
  let t1398 ← to_f32 t1394
  let t1399 ← to_f32 ((⟨(t1397).status, (t1397).value⟩ : StatusAnd BFloat)).value
  let t1400 ← IeeeFloat.eq t1398 t1399
  check t1400
  let t1401 ← ApiFloat.to_bits t1394
  check (decide (173 = t1401))
  let t1402 ← (ApiFloat.from_bits 174 : M Float8E4M3FN)
  let t1403 ← ApiFloat.is_largest t1402
  check (!t1403)
  let t1404 ← ApiFloat.is_smallest t1402
  check (!t1404)
  let t1405 ← IeeeFloat.convertR float8E4M3FNS bfloatS t1402 Round.nearestTiesToEven
  check (decide (((⟨(t1405).status, (t1405).value⟩ : StatusAnd BFloat)).status = Status.OK))
  check (!(t1405).losesInfo)
  let t1406 ← to_f32 t1402
  let t1407 ← to_f32 ((⟨(t1405).status, (t1405).value⟩ : StatusAnd BFloat)).value
  let t1408 ← IeeeFloat.eq t1406 t1407
  check t1408
  let t1409 ← ApiFloat.to_bits t1402
  check (decide (174 = t1409))
  let t1410 ← (ApiFloat.from_bits 175 : M Float8E4M3FN)
  let t1411 ← ApiFloat.is_largest t1410
  check (!t1411)
  let t1412 ← ApiFloat.is_smallest t1410
  check (!t1412)
  let t1413 ← IeeeFloat.convertR float8E4M3FNS bfloatS t1410 Round.nearestTiesToEven
  check (decide (((⟨(t1413).status, (t1413).value⟩ : StatusAnd BFloat)).status = Status.OK))
  check (!(t1413).losesInfo)
  let t1414 ← to_f32 t1410
  let t1415 ← to_f32 ((⟨(t1413).status, (t1413).value⟩ : StatusAnd BFloat)).value
  let t1416 ← IeeeFloat.eq t1414 t1415
  check t1416
  let t1417 ← ApiFloat.to_bits t1410
  check (decide (175 = t1417))
  let t1418 ← (ApiFloat.from_bits 176 : M Float8E4M3FN)
  let t1419 ← ApiFloat.is_largest t1418
  check (!t1419)
  let t1420 ← ApiFloat.is_smallest t1418
  check (!t1420)
  let t1421 ← IeeeFloat.convertR float8E4M3FNS bfloatS t1418 Round.nearestTiesToEven
  check (decide (((⟨(t1421).status, (t1421).value⟩ : StatusAnd BFloat)).status = Status.OK))
  check (!(t1421).losesInfo)
  let t1422 ← to_f32 t1418
  let t1423 ← to_f32 ((⟨(t1421).status, (t1421).value⟩ : StatusAnd BFloat)).value
  let t1424 ← IeeeFloat.eq t1422 t1423
  check t1424
  let t1425 ← ApiFloat.to_bits t1418
  check (decide (176 = t1425))
  let t1426 ← (ApiFloat.from_bits 177 : M Float8E4M3FN)
  let t1427 ← ApiFloat.is_largest t1426
  check (!t1427)

example : passes t_float8e4m3fn_exhaustive_41 = true := by decide +kernel

/-- tests/ieee.rs:4480 `float8e4m3fn_exhaustive`. -/
def t_float8e4m3fn_exhaustive_42 : M Unit := do
  let t1426 ← (ApiFloat.from_bits 177 : M Float8E4M3FN)
  let t1428 ← ApiFloat.is_smallest t1426
  check (!t1428)
  let t1429 ← IeeeFloat.convertR float8E4M3FNS bfloatS t1426 Round.nearestTiesToEven
  check (decide (((⟨(t1429).status, (t1429).value⟩ : StatusAnd BFloat)).status = Status.OK))
  check (!(t1429).losesInfo)
  let t1430 ← to_f32 t1426
  let t1431 ← to_f32 ((⟨(t1429).status, (t1429).value⟩ : StatusAnd BFloat)).value
  let t1432 ← IeeeFloat.eq t1430 t1431
  check t1432
  let t1433 ← ApiFloat.to_bits t1426
  check (decide (177 = t1433))
  let t1434 ← (ApiFloat.from_bits 178 : M Float8E4M3FN)
  let t1435 ← ApiFloat.is_largest t1434
  check (!t1435)
  let t1436 ← ApiFloat.is_smallest t1434
  check (!t1436)
  let t1437 ← IeeeFloat.convertR float8E4M3FNS bfloatS t1434 Round.nearestTiesToEven
  check (decide (((⟨(t1437).status, (t1437).value⟩ : StatusAnd BFloat)).status = Status.OK))
  check (!(t1437).losesInfo)
  let t1438 ← to_f32 t1434
  let t1439 ← to_f32 ((⟨(t1437).status, (t1437).value⟩ : StatusAnd BFloat)).value
  let t1440 ← IeeeFloat.eq t1438 t1439
  check t1440
  let t1441 ← ApiFloat.to_bits t1434
  check (decide (178 = t1441))
  let t1442 ← (ApiFloat.from_bits 179 : M Float8E4M3FN)
  let t1443 ← ApiFloat.is_largest t1442
  check (!t1443)
  let t1444 ← ApiFloat.is_smallest t1442
  check (!t1444)
  let t1445 ← IeeeFloat.convertR float8E4M3FNS bfloatS t1442 Round.nearestTiesToEven
  check (decide (((⟨(t1445).status, (t1445).value⟩ : StatusAnd BFloat)).status = Status.OK))
  check (!(t1445).losesInfo)
  let t1446 ← to_f32 t1442
  let t1447 ← to_f32 ((⟨(t1445).status, (t1445).value⟩ : StatusAnd BFloat)).value
  let t1448 ← IeeeFloat.eq t1446 t1447
  check t1448
  let t1449 ← ApiFloat.to_bits t1442
  check (decide (179 = t1449))
  let t1450 ← (ApiFloat.from_bits 180 : M Float8E4M3FN)
  let t1451 ← ApiFloat.is_largest t1450
  check (!t1451)
  let t1452 ← ApiFloat.is_smallest t1450
  check (!t1452)
  let t1453 ← IeeeFloat.convertR float8E4M3FNS bfloatS t1450 Round.nearestTiesToEven
  check (decide (((⟨(t1453).status, (t1453).value⟩ : StatusAnd BFloat)).status = Status.OK))
  check (!(t1453).losesInfo)
  let t1454 ← to_f32 t1450
  let t1455 ← to_f32 ((⟨(t1453).status, (t1453).value⟩ : StatusAnd BFloat)).value
  let t1456 ← IeeeFloat.eq t1454 t1455
  check t1456
  let t1457 ← ApiFloat.to_bits t1450
  check (decide (180 = t1457))
  let t1458 ← (ApiFloat.from_bits 181 : M Float8E4M3FN)
  let t1459 ← ApiFloat.is_largest t1458
  check (!t1459)
  let t1460 ← ApiFloat.is_smallest t1458
  check (!t1460)
  let t1461 ← IeeeFloat.convertR float8E4M3FNS bfloatS t1458 Round.nearestTiesToEven
  check (decide (((⟨(t1461).status, (t1461).value⟩ : StatusAnd BFloat)).status = Status.OK))

example : passes t_float8e4m3fn_exhaustive_42 = true := by decide +kernel

/-- tests/ieee.rs:4480 `float8e4m3fn_exhaustive`. -/
def t_float8e4m3fn_exhaustive_43 : M Unit := do
  let t1458 ← (ApiFloat.from_bits 181 : M Float8E4M3FN)
  let t1461 ← IeeeFloat.convertR float8E4M3FNS bfloatS t1458 Round.nearestTiesToEven
  check (!(t1461).losesInfo)
  let t1462 ← to_f32 t1458
  let t1463 ← to_f32 ((⟨(t1461).status, (t1461).value⟩ : StatusAnd BFloat)).value
  let t1464 ← IeeeFloat.eq t1462 t1463
  check t1464
  let t1465 ← ApiFloat.to_bits t1458
  check (decide (181 = t1465))
  let t1466 ← (ApiFloat.from_bits 182 : M Float8E4M3FN)
  let t1467 ← ApiFloat.is_largest t1466
  check (!t1467)
  let t1468 ← ApiFloat.is_smallest t1466
  check (!t1468)
  let t1469 ← IeeeFloat.convertR float8E4M3FNS bfloatS t1466 Round.nearestTiesToEven
  check (decide (((⟨(t1469).status, (t1469).value⟩ : StatusAnd BFloat)).status = Status.OK))
  check (!(t1469).losesInfo)
  let t1470 ← to_f32 t1466
  let t1471 ← to_f32 ((⟨(t1469).status, (t1469).value⟩ : StatusAnd BFloat)).value
  let t1472 ← IeeeFloat.eq t1470 t1471
  check t1472
  let t1473 ← ApiFloat.to_bits t1466
  check (decide (182 = t1473))
  let t1474 ← (ApiFloat.from_bits 183 : M Float8E4M3FN)
  let t1475 ← ApiFloat.is_largest t1474
  check (!t1475)
  let t1476 ← ApiFloat.is_smallest t1474
  check (!t1476)
  let t1477 ← IeeeFloat.convertR float8E4M3FNS bfloatS t1474 Round.nearestTiesToEven
  check (decide (((⟨(t1477).status, (t1477).value⟩ : StatusAnd BFloat)).status = Status.OK))
  check (!(t1477).losesInfo)
  let t1478 ← to_f32 t1474
  let t1479 ← to_f32 ((⟨(t1477).status, (t1477).value⟩ : StatusAnd BFloat)).value
  let t1480 ← IeeeFloat.eq t1478 t1479
  check t1480
  let t1481 ← ApiFloat.to_bits t1474
  check (decide (183 = t1481))
  let t1482 ← (ApiFloat.from_bits 184 : M Float8E4M3FN)
  let t1483 ← ApiFloat.is_largest t1482
  check (!t1483)
  let t1484 ← ApiFloat.is_smallest t1482
  check (!t1484)
  let t1485 ← IeeeFloat.convertR float8E4M3FNS bfloatS t1482 Round.nearestTiesToEven
  check (decide (((⟨(t1485).status, (t1485).value⟩ : StatusAnd BFloat)).status = Status.OK))
  check (!(t1485).losesInfo)
  let t1486 ← to_f32 t1482
  let t1487 ← to_f32 ((⟨(t1485).status, (t1485).value⟩ : StatusAnd BFloat)).value
  let t1488 ← IeeeFloat.eq t1486 t1487
  check t1488
  let t1489 ← ApiFloat.to_bits t1482
  check (decide (184 = t1489))
  let t1490 ← (ApiFloat.from_bits 185 : M Float8E4M3FN)
  let t1491 ← ApiFloat.is_largest t1490
  check (!t1491)
  let t1492 ← ApiFloat.is_smallest t1490
  check (!t1492)
  let t1493 ← IeeeFloat.convertR float8E4M3FNS bfloatS t1490 Round.nearestTiesToEven
  check (decide (((⟨(t1493).status, (t1493).value⟩ : StatusAnd BFloat)).status = Status.OK))
  check (!(t1493).losesInfo)
  let t1494 ← to_f32 t1490
  let t1495 ← to_f32 ((⟨(t1493).status, (t1493).value⟩ : StatusAnd BFloat)).value
  let t1496 ← IeeeFloat.eq t1494 t1495
  check t1496

example : passes t_float8e4m3fn_exhaustive_43 = true := by decide +kernel

/-- tests/ieee.rs:4480 `float8e4m3fn_exhaustive`. -/
def t_float8e4m3fn_exhaustive_44 : M Unit := do
  let t1490 ← (ApiFloat.from_bits 185 : M Float8E4M3FN)
  let t1497 ← ApiFloat.to_bits t1490
  check (decide (185 = t1497))
  let t1498 ← (ApiFloat.from_bits 186 : M Float8E4M3FN)
  let t1499 ← ApiFloat.is_largest t1498
  check (!t1499)
  let t1500 ← ApiFloat.is_smallest t1498
  check (!t1500)
  let t1501 ← IeeeFloat.convertR float8E4M3FNS bfloatS t1498 Round.nearestTiesToEven
  check (decide (((⟨(t1501).status, (t1501).value⟩ : StatusAnd BFloat)).status = Status.OK))
  check (!(t1501).losesInfo)
  let t1502 ← to_f32 t1498
  let t1503 ← to_f32 ((⟨(t1501).status, (t1501).value⟩ : StatusAnd BFloat)).value
  let t1504 ← IeeeFloat.eq t1502 t1503
  check t1504
  let t1505 ← ApiFloat.to_bits t1498
  check (decide (186 = t1505))
  let t1506 ← (ApiFloat.from_bits 187 : M Float8E4M3FN)
  let t1507 ← ApiFloat.is_largest t1506
  check (!t1507)
  let t1508 ← ApiFloat.is_smallest t1506
  check (!t1508)
  let t1509 ← IeeeFloat.convertR float8E4M3FNS bfloatS t1506 Round.nearestTiesToEven
  check (decide (((⟨(t1509).status, (t1509).value⟩ : StatusAnd BFloat)).status = Status.OK))
  check (!(t1509).losesInfo)
  let t1510 ← to_f32 t1506
  let t1511 ← to_f32 ((⟨(t1509).status, (t1509).value⟩ : StatusAnd BFloat)).value
  let t1512 ← IeeeFloat.eq t1510 t1511
  check t1512
  let t1513 ← ApiFloat.to_bits t1506
  check (decide (187 = t1513))
  let t1514 ← (ApiFloat.from_bits 188 : M Float8E4M3FN)
  let t1515 ← ApiFloat.is_largest t1514
  check (!t1515)
  let t1516 ← ApiFloat.is_smallest t1514
  check (!t1516)
  let t1517 ← IeeeFloat.convertR float8E4M3FNS bfloatS t1514 Round.nearestTiesToEven
  check (decide (((⟨(t1517).status, (t1517).value⟩ : StatusAnd BFloat)).status = Status.OK))
  check (!(t1517).losesInfo)
  let t1518 ← to_f32 t1514
  let t1519 ← to_f32 ((⟨(t1517).status, (t1517).value⟩ : StatusAnd BFloat)).value
  let t1520 ← IeeeFloat.eq t1518 t1519
  check t1520
  let t1521 ← ApiFloat.to_bits t1514
  check (decide (188 = t1521))
  let t1522 ← (ApiFloat.from_bits 189 : M Float8E4M3FN)
  let t1523 ← ApiFloat.is_largest t1522
  check (!t1523)
  let t1524 ← ApiFloat.is_smallest t1522
  check (!t1524)
  let t1525 ← IeeeFloat.convertR float8E4M3FNS bfloatS t1522 Round.nearestTiesToEven
  check (decide (((⟨(t1525).status, (t1525).value⟩ : StatusAnd BFloat)).status = Status.OK))
  check (!(t1525).losesInfo)
  let t1526 ← to_f32 t1522
  let t1527 ← to_f32 ((⟨(t1525).status, (t1525).value⟩ : StatusAnd BFloat)).value
  let t1528 ← IeeeFloat.eq t1526 t1527
  check t1528
  let t1529 ← ApiFloat.to_bits t1522
  check (decide (189 = t1529))
  let t1530 ← (ApiFloat.from_bits 190 : M Float8E4M3FN)
  let t1531 ← ApiFloat.is_largest t1530
  check (!t1531)

example : passes t_float8e4m3fn_exhaustive_44 = true := by decide +kernel

/-- tests/ieee.rs:4480 `float8e4m3fn_exhaustive`. -/
def t_float8e4m3fn_exhaustive_45 : M Unit := do
  let t1530 ← (ApiFloat.from_bits 190 : M Float8E4M3FN)
  let t1532 ← ApiFloat.is_smallest t1530
  check (!t1532)
  let t1533 ← IeeeFloat.convertR float8E4M3FNS bfloatS t1530 Round.nearestTiesToEven
  check (decide (((⟨(t1533).status, (t1533).value⟩ : StatusAnd BFloat)).status = Status.OK))
  check (!(t1533).losesInfo)
  let t1534 ← to_f32 t1530
  let t1535 ← to_f32 ((⟨(t1533).status, (t1533).value⟩ : StatusAnd BFloat)).value
  let t1536 ← IeeeFloat.eq t1534 t1535
  check t1536
  let t1537 ← ApiFloat.to_bits t1530
  check (decide (190 = t1537))
  let t1538 ← (ApiFloat.from_bits 191 : M Float8E4M3FN)
  let t1539 ← ApiFloat.is_largest t1538
  check (!t1539)
  let t1540 ← ApiFloat.is_smallest t1538
  check (!t1540)
  let t1541 ← IeeeFloat.convertR float8E4M3FNS bfloatS t1538 Round.nearestTiesToEven
  check (decide (((⟨(t1541).status, (t1541).value⟩ : StatusAnd BFloat)).status = Status.OK))
  check (!(t1541).losesInfo)
  let t1542 ← to_f32 t1538
  let t1543 ← to_f32 ((⟨(t1541).status, (t1541).value⟩ : StatusAnd BFloat)).value
  let t1544 ← IeeeFloat.eq t1542 t1543
  check t1544
  let t1545 ← ApiFloat.to_bits t1538
  check (decide (191 = t1545))
  let t1546 ← (ApiFloat.from_bits 192 : M Float8E4M3FN)
  let t1547 ← ApiFloat.is_largest t1546
  check (!t1547)
  let t1548 ← ApiFloat.is_smallest t1546
  check (!t1548)
  let t1549 ← IeeeFloat.convertR float8E4M3FNS bfloatS t1546 Round.nearestTiesToEven
  check (decide (((⟨(t1549).status, (t1549).value⟩ : StatusAnd BFloat)).status = Status.OK))
  check (!(t1549).losesInfo)
  let t1550 ← to_f32 t1546
  let t1551 ← to_f32 ((⟨(t1549).status, (t1549).value⟩ : StatusAnd BFloat)).value
  let t1552 ← IeeeFloat.eq t1550 t1551
  check t1552
  let t1553 ← ApiFloat.to_bits t1546
  check (decide (192 = t1553))
  let t1554 ← (ApiFloat.from_bits 193 : M Float8E4M3FN)
  let t1555 ← ApiFloat.is_largest t1554
  check (!t1555)
  let t1556 ← ApiFloat.is_smallest t1554
  check (!t1556)
  let t1557 ← IeeeFloat.convertR float8E4M3FNS bfloatS t1554 Round.nearestTiesToEven
  check (decide (((⟨(t1557).status, (t1557).value⟩ : StatusAnd BFloat)).status = Status.OK))
  check (!(t1557).losesInfo)
  let t1558 ← to_f32 t1554
  let t1559 ← to_f32 ((⟨(t1557).status, (t1557).value⟩ : StatusAnd BFloat)).value
  let t1560 ← IeeeFloat.eq t1558 t1559
  check t1560
  let t1561 ← ApiFloat.to_bits t1554
  check (decide (193 = t1561))
  let t1562 ← (ApiFloat.from_bits 194 : M Float8E4M3FN)
  let t1563 ← ApiFloat.is_largest t1562
  check (!t1563)
  let t1564 ← ApiFloat.is_smallest t1562
  check (!t1564)
  let t1565 ← IeeeFloat.convertR float8E4M3FNS bfloatS t1562 Round.nearestTiesToEven
  check (decide (((⟨(t1565).status, (t1565).value⟩ : StatusAnd BFloat)).status = Status.OK))

example : passes t_float8e4m3fn_exhaustive_45 = true := by decide +kernel

/-- tests/ieee.rs:4480 `float8e4m3fn_exhaustive`. -/
def t_float8e4m3fn_exhaustive_46 : M Unit := do
  let t1562 ← (ApiFloat.from_bits 194 : M Float8E4M3FN)
  let t1565 ← IeeeFloat.convertR float8E4M3FNS bfloatS t1562 Round.nearestTiesToEven
  check (!(t1565).losesInfo)
  let t1566 ← to_f32 t1562
  let t1567 ← to_f32 ((⟨(t1565).status, (t1565).value⟩ : StatusAnd BFloat)).value
  let t1568 ← IeeeFloat.eq t1566 t1567
  check t1568
  let t1569 ← ApiFloat.to_bits t1562
  check (decide (194 = t1569))
  let t1570 ← (ApiFloat.from_bits 195 : M Float8E4M3FN)
  let t1571 ← ApiFloat.is_largest t1570
  check (!t1571)
  let t1572 ← ApiFloat.is_smallest t1570
  check (!t1572)
  let t1573 ← IeeeFloat.convertR float8E4M3FNS bfloatS t1570 Round.nearestTiesToEven
  check (decide (((⟨(t1573).status, (t1573).value⟩ : StatusAnd BFloat)).status = Status.OK))
  check (!(t1573).losesInfo)
  let t1574 ← to_f32 t1570
  let t1575 ← to_f32 ((⟨(t1573).status, (t1573).value⟩ : StatusAnd BFloat)).value
  let t1576 ← IeeeFloat.eq t1574 t1575
  check t1576
  let t1577 ← ApiFloat.to_bits t1570
  check (decide (195 = t1577))
  let t1578 ← (ApiFloat.from_bits 196 : M Float8E4M3FN)
  let t1579 ← ApiFloat.is_largest t1578
  check (!t1579)
  let t1580 ← ApiFloat.is_smallest t1578
  check (!t1580)
  let t1581 ← IeeeFloat.convertR float8E4M3FNS bfloatS t1578 Round.nearestTiesToEven
  check (decide (((⟨(t1581).status, (t1581).value⟩ : StatusAnd BFloat)).status = Status.OK))
  check (!(t1581).losesInfo)
  let t1582 ← to_f32 t1578
  let t1583 ← to_f32 ((⟨(t1581).status, (t1581).value⟩ : StatusAnd BFloat)).value
  let t1584 ← IeeeFloat.eq t1582 t1583
  check t1584
  let t1585 ← ApiFloat.to_bits t1578
  check (decide (196 = t1585))
  let t1586 ← (ApiFloat.from_bits 197 : M Float8E4M3FN)
  let t1587 ← ApiFloat.is_largest t1586
  check (!t1587)
  let t1588 ← ApiFloat.is_smallest t1586
  check (!t1588)
  let t1589 ← IeeeFloat.convertR float8E4M3FNS bfloatS t1586 Round.nearestTiesToEven
  check (decide (((⟨(t1589).status, (t1589).value⟩ : StatusAnd BFloat)).status = Status.OK))
  check (!(t1589).losesInfo)
  let t1590 ← to_f32 t1586
  let t1591 ← to_f32 ((⟨(t1589).status, (t1589).value⟩ : StatusAnd BFloat)).value
  let t1592 ← IeeeFloat.eq t1590 t1591
  check t1592
  let t1593 ← ApiFloat.to_bits t1586
  check (decide (197 = t1593))
  let t1594 ← (ApiFloat.from_bits 198 : M Float8E4M3FN)
  let t1595 ← ApiFloat.is_largest t1594
  check (!t1595)
  let t1596 ← ApiFloat.is_smallest t1594
  check (!t1596)
  let t1597 ← IeeeFloat.convertR float8E4M3FNS bfloatS t1594 Round.nearestTiesToEven
  check (decide (((⟨(t1597).status, (t1597).value⟩ : StatusAnd BFloat)).status = Status.OK))
  check (!(t1597).losesInfo)
  let t1598 ← to_f32 t1594
  let t1599 ← to_f32 ((⟨(t1597).status, (t1597).value⟩ : StatusAnd BFloat)).value
  let t1600 ← IeeeFloat.eq t1598 t1599
  check t1600

example : passes t_float8e4m3fn_exhaustive_46 = true := by decide +kernel

/-- tests/ieee.rs:4480 `float8e4m3fn_exhaustive`. -/
def t_float8e4m3fn_exhaustive_47 : M Unit := do
  let t1594 ← (ApiFloat.from_bits 198 : M Float8E4M3FN)
  let t1601 ← ApiFloat.to_bits t1594
  check (decide (198 = t1601))
  let t1602 ← (ApiFloat.from_bits 199 : M Float8E4M3FN)
  let t1603 ← ApiFloat.is_largest t1602
  check (!t1603)
  let t1604 ← ApiFloat.is_smallest t1602
  check (!t1604)
  let t1605 ← IeeeFloat.convertR float8E4M3FNS bfloatS t1602 Round.nearestTiesToEven
  check (decide (((⟨(t1605).status, (t1605).value⟩ : StatusAnd BFloat)).status = Status.OK))
  check (!(t1605).losesInfo)
  let t1606 ← to_f32 t1602
  let t1607 ← to_f32 ((⟨(t1605).status, (t1605).value⟩ : StatusAnd BFloat)).value
  let t1608 ← IeeeFloat.eq t1606 t1607
  check t1608
  let t1609 ← ApiFloat.to_bits t1602
  check (decide (199 = t1609))
  let t1610 ← (ApiFloat.from_bits 200 : M Float8E4M3FN)
  let t1611 ← ApiFloat.is_largest t1610
  check (!t1611)
  let t1612 ← ApiFloat.is_smallest t1610
  check (!t1612)
  let t1613 ← IeeeFloat.convertR float8E4M3FNS bfloatS t1610 Round.nearestTiesToEven
  check (decide (((⟨(t1613).status, (t1613).value⟩ : StatusAnd BFloat)).status = Status.OK))
  check (!(t1613).losesInfo)
  let t1614 ← to_f32 t1610
  let t1615 ← to_f32 ((⟨(t1613).status, (t1613).value⟩ : StatusAnd BFloat)).value
  let t1616 ← IeeeFloat.eq t1614 t1615
  check t1616
  let t1617 ← ApiFloat.to_bits t1610
  check (decide (200 = t1617))
  let t1618 ← (ApiFloat.from_bits 201 : M Float8E4M3FN)
  let t1619 ← ApiFloat.is_largest t1618
  check (!t1619)
  let t1620 ← ApiFloat.is_smallest t1618
  check (!t1620)
  let t1621 ← IeeeFloat.convertR float8E4M3FNS bfloatS t1618 Round.nearestTiesToEven
  check (decide (((⟨(t1621).status, (t1621).value⟩ : StatusAnd BFloat)).status = Status.OK))
  check (!(t1621).losesInfo)
  let t1622 ← to_f32 t1618
  let t1623 ← to_f32 ((⟨(t1621).status, (t1621).value⟩ : StatusAnd BFloat)).value
  let t1624 ← IeeeFloat.eq t1622 t1623
  check t1624
  let t1625 ← ApiFloat.to_bits t1618
  check (decide (201 = t1625))
  let t1626 ← (ApiFloat.from_bits 202 : M Float8E4M3FN)
  let t1627 ← ApiFloat.is_largest t1626
  check (!t1627)
  let t1628 ← ApiFloat.is_smallest t1626
  check (!t1628)
  let t1629 ← IeeeFloat.convertR float8E4M3FNS bfloatS t1626 Round.nearestTiesToEven
  check (decide (((⟨(t1629).status, (t1629).value⟩ : StatusAnd BFloat)).status = Status.OK))
  check (!(t1629).losesInfo)
  let t1630 ← to_f32 t1626
  let t1631 ← to_f32 ((⟨(t1629).status, (t1629).value⟩ : StatusAnd BFloat)).value
  let t1632 ← IeeeFloat.eq t1630 t1631
  check t1632
  let t1633 ← ApiFloat.to_bits t1626
  check (decide (202 = t1633))
  let t1634 ← (ApiFloat.from_bits 203 : M Float8E4M3FN)
  let t1635 ← ApiFloat.is_largest t1634
  check (!t1635)

example : passes t_float8e4m3fn_exhaustive_47 = true := by decide +kernel

/-- tests/ieee.rs:4480 `float8e4m3fn_exhaustive`. -/
def t_float8e4m3fn_exhaustive_48 : M Unit := do
  let t1634 ← (ApiFloat.from_bits 203 : M Float8E4M3FN)
  let t1636 ← ApiFloat.is_smallest t1634
  check (!t1636)
  let t1637 ← IeeeFloat.convertR float8E4M3FNS bfloatS t1634 Round.nearestTiesToEven
  check (decide (((⟨(t1637).status, (t1637).value⟩ : StatusAnd BFloat)).status = Status.OK))
  check (!(t1637).losesInfo)
  let t1638 ← to_f32 t1634
  let t1639 ← to_f32 ((⟨(t1637).status, (t1637).value⟩ : StatusAnd BFloat)).value
  let t1640 ← IeeeFloat.eq t1638 t1639
  check t1640
  let t1641 ← ApiFloat.to_bits t1634
  check (decide (203 = t1641))
  let t1642 ← (ApiFloat.from_bits 204 : M Float8E4M3FN)
  let t1643 ← ApiFloat.is_largest t1642
  check (!t1643)
  let t1644 ← ApiFloat.is_smallest t1642
  check (!t1644)
  let t1645 ← IeeeFloat.convertR float8E4M3FNS bfloatS t1642 Round.nearestTiesToEven
  check (decide (((⟨(t1645).status, (t1645).value⟩ : StatusAnd BFloat)).status = Status.OK))
  check (!(t1645).losesInfo)
  let t1646 ← to_f32 t1642
  let t1647 ← to_f32 ((⟨(t1645).status, (t1645).value⟩ : StatusAnd BFloat)).value
  let t1648 ← IeeeFloat.eq t1646 t1647
  check t1648
  let t1649 ← ApiFloat.to_bits t1642
  check (decide (204 = t1649))
  let t1650 ← (ApiFloat.from_bits 205 : M Float8E4M3FN)
  let t1651 ← ApiFloat.is_largest t1650
  check (!t1651)
  let t1652 ← ApiFloat.is_smallest t1650
  check (!t1652)
  let t1653 ← IeeeFloat.convertR float8E4M3FNS bfloatS t1650 Round.nearestTiesToEven
  check (decide (((⟨(t1653).status, (t1653).value⟩ : StatusAnd BFloat)).status = Status.OK))
  check (!(t1653).losesInfo)
  let t1654 ← to_f32 t1650
  let t1655 ← to_f32 ((⟨(t1653).status, (t1653).value⟩ : StatusAnd BFloat)).value
  let t1656 ← IeeeFloat.eq t1654 t1655
  check t1656
  let t1657 ← ApiFloat.to_bits t1650
  check (decide (205 = t1657))
  let t1658 ← (ApiFloat.from_bits 206 : M Float8E4M3FN)
  let t1659 ← ApiFloat.is_largest t1658
  check (!t1659)
  let t1660 ← ApiFloat.is_smallest t1658
  check (!t1660)
  let t1661 ← IeeeFloat.convertR float8E4M3FNS bfloatS t1658 Round.nearestTiesToEven
  check (decide (((⟨(t1661).status, (t1661).value⟩ : StatusAnd BFloat)).status = Status.OK))
  check (!(t1661).losesInfo)
  let t1662 ← to_f32 t1658
  let t1663 ← to_f32 ((⟨(t1661).status, (t1661).value⟩ : StatusAnd BFloat)).value
  let t1664 ← IeeeFloat.eq t1662 t1663
  check t1664
  let t1665 ← ApiFloat.to_bits t1658
  check (decide (206 = t1665))
  let t1666 ← (ApiFloat.from_bits 207 : M Float8E4M3FN)
  let t1667 ← ApiFloat.is_largest t1666
  check (!t1667)
  let t1668 ← ApiFloat.is_smallest t1666
  check (!t1668)
  let t1669 ← IeeeFloat.convertR float8E4M3FNS bfloatS t1666 Round.nearestTiesToEven
  check (decide (((⟨(t1669).status, (t1669).value⟩ : StatusAnd BFloat)).status = Status.OK))

example : passes t_float8e4m3fn_exhaustive_48 = true := by decide +kernel

/-- tests/ieee.rs:4480 `float8e4m3fn_exhaustive`. -/
def t_float8e4m3fn_exhaustive_49 : M Unit := do
  let t1666 ← (ApiFloat.from_bits 207 : M Float8E4M3FN)
  let t1669 ← IeeeFloat.convertR float8E4M3FNS bfloatS t1666 Round.nearestTiesToEven
  check (!(t1669).losesInfo)
  let t1670 ← to_f32 t1666
  let t1671 ← to_f32 ((⟨(t1669).status, (t1669).value⟩ : StatusAnd BFloat)).value
  let t1672 ← IeeeFloat.eq t1670 t1671
  check t1672
  let t1673 ← ApiFloat.to_bits t1666
  check (decide (207 = t1673))
  let t1674 ← (ApiFloat.from_bits 208 : M Float8E4M3FN)
  let t1675 ← ApiFloat.is_largest t1674
  check (!t1675)
  let t1676 ← ApiFloat.is_smallest t1674
  check (!t1676)
  let t1677 ← IeeeFloat.convertR float8E4M3FNS bfloatS t1674 Round.nearestTiesToEven
  check (decide (((⟨(t1677).status, (t1677).value⟩ : StatusAnd BFloat)).status = Status.OK))
  check (!(t1677).losesInfo)
  let t1678 ← to_f32 t1674
  let t1679 ← to_f32 ((⟨(t1677).status, (t1677).value⟩ : StatusAnd BFloat)).value
  let t1680 ← IeeeFloat.eq t1678 t1679
  check t1680
  let t1681 ← ApiFloat.to_bits t1674
  check (decide (208 = t1681))
  let t1682 ← (ApiFloat.from_bits 209 : M Float8E4M3FN)
  let t1683 ← ApiFloat.is_largest t1682
  check (!t1683)
  let t1684 ← ApiFloat.is_smallest t1682
  check (!t1684)
  let t1685 ← IeeeFloat.convertR float8E4M3FNS bfloatS t1682 Round.nearestTiesToEven
  check (decide (((⟨(t1685).status, (t1685).value⟩ : StatusAnd BFloat)).status = Status.OK))
  check (!(t1685).losesInfo)
  let t1686 ← to_f32 t1682
  let t1687 ← to_f32 ((⟨(t1685).status, (t1685).value⟩ : StatusAnd BFloat)).value
  let t1688 ← IeeeFloat.eq t1686 t1687
  check t1688
  let t1689 ← ApiFloat.to_bits t1682
  check (decide (209 = t1689))
  let t1690 ← (ApiFloat.from_bits 210 : M Float8E4M3FN)
  let t1691 ← ApiFloat.is_largest t1690
  check (!t1691)
  let t1692 ← ApiFloat.is_smallest t1690
  check (!t1692)
  let t1693 ← IeeeFloat.convertR float8E4M3FNS bfloatS t1690 Round.nearestTiesToEven
  check (decide (((⟨(t1693).status, (t1693).value⟩ : StatusAnd BFloat)).status = Status.OK))
  check (!(t1693).losesInfo)
  let t1694 ← to_f32 t1690
  let t1695 ← to_f32 ((⟨(t1693).status, (t1693).value⟩ : StatusAnd BFloat)).value
  let t1696 ← IeeeFloat.eq t1694 t1695
  check t1696
  let t1697 ← ApiFloat.to_bits t1690
  check (decide (210 = t1697))
  let t1698 ← (ApiFloat.from_bits 211 : M Float8E4M3FN)
  let t1699 ← ApiFloat.is_largest t1698
  check (!t1699)
  let t1700 ← ApiFloat.is_smallest t1698
  check (!t1700)
  let t1701 ← IeeeFloat.convertR float8E4M3FNS bfloatS t1698 Round.nearestTiesToEven
  check (decide (((⟨(t1701).status, (t1701).value⟩ : StatusAnd BFloat)).status = Status.OK))
  check (!(t1701).losesInfo)
  let t1702 ← to_f32 t1698
  let t1703 ← to_f32 ((⟨(t1701).status, (t1701).value⟩ : StatusAnd BFloat)).value
  let t1704 ← IeeeFloat.eq t1702 t1703
  check t1704

example : passes t_float8e4m3fn_exhaustive_49 = true := by decide +kernel

/-- tests/ieee.rs:4480 `float8e4m3fn_exhaustive`. -/
def t_float8e4m3fn_exhaustive_50 : M Unit := do
  let t1698 ← (ApiFloat.from_bits 211 : M Float8E4M3FN)
  let t1705 ← ApiFloat.to_bits t1698
  check (decide (211 = t1705))
  let t1706 ← (ApiFloat.from_bits 212 : M Float8E4M3FN)
  let t1707 ← ApiFloat.is_largest t1706
  check (!t1707)
  let t1708 ← ApiFloat.is_smallest t1706
  check (!t1708)
  let t1709 ← IeeeFloat.convertR float8E4M3FNS bfloatS t1706 Round.nearestTiesToEven
  check (decide (((⟨(t1709).status, (t1709).value⟩ : StatusAnd BFloat)).status = Status.OK))
  check (!(t1709).losesInfo)
  let t1710 ← to_f32 t1706
  let t1711 ← to_f32 ((⟨(t1709).status, (t1709).value⟩ : StatusAnd BFloat)).value
  let t1712 ← IeeeFloat.eq t1710 t1711
  check t1712
  let t1713 ← ApiFloat.to_bits t1706
  check (decide (212 = t1713))
  let t1714 ← (ApiFloat.from_bits 213 : M Float8E4M3FN)
  let t1715 ← ApiFloat.is_largest t1714
  check (!t1715)
  let t1716 ← ApiFloat.is_smallest t1714
  check (!t1716)
  let t1717 ← IeeeFloat.convertR float8E4M3FNS bfloatS t1714 Round.nearestTiesToEven
  check (decide (((⟨(t1717).status, (t1717).value⟩ : StatusAnd BFloat)).status = Status.OK))
  check (!(t1717).losesInfo)
  let t1718 ← to_f32 t1714
  let t1719 ← to_f32 ((⟨(t1717).status, (t1717).value⟩ : StatusAnd BFloat)).value
  let t1720 ← IeeeFloat.eq t1718 t1719
  check t1720
  let t1721 ← ApiFloat.to_bits t1714
  check (decide (213 = t1721))
  let t1722 ← (ApiFloat.from_bits 214 : M Float8E4M3FN)
  let t1723 ← ApiFloat.is_largest t1722
  check (!t1723)
  let t1724 ← ApiFloat.is_smallest t1722
  check (!t1724)
  let t1725 ← IeeeFloat.convertR float8E4M3FNS bfloatS t1722 Round.nearestTiesToEven
  check (decide (((⟨(t1725).status, (t1725).value⟩ : StatusAnd BFloat)).status = Status.OK))
  check (!(t1725).losesInfo)
  let t1726 ← to_f32 t1722
  let t1727 ← to_f32 ((⟨(t1725).status, (t1725).value⟩ : StatusAnd BFloat)).value
  let t1728 ← IeeeFloat.eq t1726 t1727
  check t1728
  let t1729 ← ApiFloat.to_bits t1722
  check (decide (214 = t1729))
  let t1730 ← (ApiFloat.from_bits 215 : M Float8E4M3FN)
  let t1731 ← ApiFloat.is_largest t1730
  check (!t1731)
  let t1732 ← ApiFloat.is_smallest t1730
  check (!t1732)
  let t1733 ← IeeeFloat.convertR float8E4M3FNS bfloatS t1730 Round.nearestTiesToEven
  check (decide (((⟨(t1733).status, (t1733).value⟩ : StatusAnd BFloat)).status = Status.OK))
  check (!(t1733).losesInfo)
  let t1734 ← to_f32 t1730
  let t1735 ← to_f32 ((⟨(t1733).status, (t1733).value⟩ : StatusAnd BFloat)).value
  let t1736 ← IeeeFloat.eq t1734 t1735
  check t1736
  let t1737 ← ApiFloat.to_bits t1730
  check (decide (215 = t1737))
  let t1738 ← (ApiFloat.from_bits 216 : M Float8E4M3FN)
  let t1739 ← ApiFloat.is_largest t1738
  check (!t1739)

example : passes t_float8e4m3fn_exhaustive_50 = true := by decide +kernel

/-- tests/ieee.rs:4480 `float8e4m3fn_exhaustive`. -/
def t_float8e4m3fn_exhaustive_51 : M Unit := do
  let t1738 ← (ApiFloat.from_bits 216 : M Float8E4M3FN)
  let t1740 ← ApiFloat.is_smallest t1738
  check (!t1740)
  let t1741 ← IeeeFloat.convertR float8E4M3FNS bfloatS t1738 Round.nearestTiesToEven
  check (decide (((⟨(t1741).status, (t1741).value⟩ : StatusAnd BFloat)).status = Status.OK))
  check (!(t1741).losesInfo)
  let t1742 ← to_f32 t1738
  let t1743 ← to_f32 ((⟨(t1741).status, (t1741).value⟩ : StatusAnd BFloat)).value
  let t1744 ← IeeeFloat.eq t1742 t1743
  check t1744
  let t1745 ← ApiFloat.to_bits t1738
  check (decide (216 = t1745))
  let t1746 ← (ApiFloat.from_bits 217 : M Float8E4M3FN)
  let t1747 ← ApiFloat.is_largest t1746
  check (!t1747)
  let t1748 ← ApiFloat.is_smallest t1746
  check (!t1748)
  let t1749 ← IeeeFloat.convertR float8E4M3FNS bfloatS t1746 Round.nearestTiesToEven
  check (decide (((⟨(t1749).status, (t1749).value⟩ : StatusAnd BFloat)).status = Status.OK))
  check (!(t1749).losesInfo)
  let t1750 ← to_f32 t1746
  let t1751 ← to_f32 ((⟨(t1749).status, (t1749).value⟩ : StatusAnd BFloat)).value
  let t1752 ← IeeeFloat.eq t1750 t1751
  check t1752
  let t1753 ← ApiFloat.to_bits t1746
  check (decide (217 = t1753))
  let t1754 ← (ApiFloat.from_bits 218 : M Float8E4M3FN)
  let t1755 ← ApiFloat.is_largest t1754
  check (!t1755)
  let t1756 ← ApiFloat.is_smallest t1754
  check (!t1756)
  let t1757 ← IeeeFloat.convertR float8E4M3FNS bfloatS t1754 Round.nearestTiesToEven
  check (decide (((⟨(t1757).status, (t1757).value⟩ : StatusAnd BFloat)).status = Status.OK))
  check (!(t1757).losesInfo)
  let t1758 ← to_f32 t1754
  let t1759 ← to_f32 ((⟨(t1757).status, (t1757).value⟩ : StatusAnd BFloat)).value
  let t1760 ← IeeeFloat.eq t1758 t1759
  check t1760
  let t1761 ← ApiFloat.to_bits t1754
  check (decide (218 = t1761))
  let t1762 ← (ApiFloat.from_bits 219 : M Float8E4M3FN)
  let t1763 ← ApiFloat.is_largest t1762
  check (!t1763)
  let t1764 ← ApiFloat.is_smallest t1762
  check (!t1764)
  let t1765 ← IeeeFloat.convertR float8E4M3FNS bfloatS t1762 Round.nearestTiesToEven
  check (decide (((⟨(t1765).status, (t1765).value⟩ : StatusAnd BFloat)).status = Status.OK))
  check (!(t1765).losesInfo)
  let t1766 ← to_f32 t1762
  let t1767 ← to_f32 ((⟨(t1765).status, (t1765).value⟩ : StatusAnd BFloat)).value
  let t1768 ← IeeeFloat.eq t1766 t1767
  check t1768
  let t1769 ← ApiFloat.to_bits t1762
  check (decide (219 = t1769))
  let t1770 ← (ApiFloat.from_bits 220 : M Float8E4M3FN)
  let t1771 ← ApiFloat.is_largest t1770
  check (!t1771)
  let t1772 ← ApiFloat.is_smallest t1770
  check (!t1772)
  let t1773 ← IeeeFloat.convertR float8E4M3FNS bfloatS t1770 Round.nearestTiesToEven
  check (decide (((⟨(t1773).status, (t1773).value⟩ : StatusAnd BFloat)).status = Status.OK))

example : passes t_float8e4m3fn_exhaustive_51 = true := by decide +kernel

/-- tests/ieee.rs:4480 `float8e4m3fn_exhaustive`. -/
def t_float8e4m3fn_exhaustive_52 : M Unit := do
  let t1770 ← (ApiFloat.from_bits 220 : M Float8E4M3FN)
  let t1773 ← IeeeFloat.convertR float8E4M3FNS bfloatS t1770 Round.nearestTiesToEven
  check (!(t1773).losesInfo)
  let t1774 ← to_f32 t1770
  let t1775 ← to_f32 ((⟨(t1773).status, (t1773).value⟩ : StatusAnd BFloat)).value
  let t1776 ← IeeeFloat.eq t1774 t1775
  check t1776
  let t1777 ← ApiFloat.to_bits t1770
  check (decide (220 = t1777))
  let t1778 ← (ApiFloat.from_bits 221 : M Float8E4M3FN)
  let t1779 ← ApiFloat.is_largest t1778
  check (!t1779)
  let t1780 ← ApiFloat.is_smallest t1778
  check (!t1780)
  let t1781 ← IeeeFloat.convertR float8E4M3FNS bfloatS t1778 Round.nearestTiesToEven
  check (decide (((⟨(t1781).status, (t1781).value⟩ : StatusAnd BFloat)).status = Status.OK))
  check (!(t1781).losesInfo)
  let t1782 ← to_f32 t1778
  let t1783 ← to_f32 ((⟨(t1781).status, (t1781).value⟩ : StatusAnd BFloat)).value
  let t1784 ← IeeeFloat.eq t1782 t1783
  check t1784
  let t1785 ← ApiFloat.to_bits t1778
  check (decide (221 = t1785))
  let t1786 ← (ApiFloat.from_bits 222 : M Float8E4M3FN)
  let t1787 ← ApiFloat.is_largest t1786
  check (!t1787)
  let t1788 ← ApiFloat.is_smallest t1786
  check (!t1788)
  let t1789 ← IeeeFloat.convertR float8E4M3FNS bfloatS t1786 Round.nearestTiesToEven
  check (decide (((⟨(t1789).status, (t1789).value⟩ : StatusAnd BFloat)).status = Status.OK))
  check (!(t1789).losesInfo)
  let t1790 ← to_f32 t1786
  let t1791 ← to_f32 ((⟨(t1789).status, (t1789).value⟩ : StatusAnd BFloat)).value
  let t1792 ← IeeeFloat.eq t1790 t1791
  check t1792
  let t1793 ← ApiFloat.to_bits t1786
  check (decide (222 = t1793))
  let t1794 ← (ApiFloat.from_bits 223 : M Float8E4M3FN)
  let t1795 ← ApiFloat.is_largest t1794
  check (!t1795)
  let t1796 ← ApiFloat.is_smallest t1794
  check (!t1796)
  let t1797 ← IeeeFloat.convertR float8E4M3FNS bfloatS t1794 Round.nearestTiesToEven
  check (decide (((⟨(t1797).status, (t1797).value⟩ : StatusAnd BFloat)).status = Status.OK))
  check (!(t1797).losesInfo)
  let t1798 ← to_f32 t1794
  let t1799 ← to_f32 ((⟨(t1797).status, (t1797).value⟩ : StatusAnd BFloat)).value
  let t1800 ← IeeeFloat.eq t1798 t1799
  check t1800
  let t1801 ← ApiFloat.to_bits t1794
  check (decide (223 = t1801))
  let t1802 ← (ApiFloat.from_bits 224 : M Float8E4M3FN)
  let t1803 ← ApiFloat.is_largest t1802
  check (!t1803)
  let t1804 ← ApiFloat.is_smallest t1802
  check (!t1804)
  let t1805 ← IeeeFloat.convertR float8E4M3FNS bfloatS t1802 Round.nearestTiesToEven
  check (decide (((⟨(t1805).status, (t1805).value⟩ : StatusAnd BFloat)).status = Status.OK))
  check (!(t1805).losesInfo)
  let t1806 ← to_f32 t1802
  let t1807 ← to_f32 ((⟨(t1805).status, (t1805).value⟩ : StatusAnd BFloat)).value
  let t1808 ← IeeeFloat.eq t1806 t1807
  check t1808

example : passes t_float8e4m3fn_exhaustive_52 = true := by decide +kernel

/-- tests/ieee.rs:4480 `float8e4m3fn_exhaustive`. -/
def t_float8e4m3fn_exhaustive_53 : M Unit := do
  let t1802 ← (ApiFloat.from_bits 224 : M Float8E4M3FN)
  let t1809 ← ApiFloat.to_bits t1802
  check (decide (224 = t1809))
  let t1810 ← (ApiFloat.from_bits 225 : M Float8E4M3FN)
  let t1811 ← ApiFloat.is_largest t1810
  check (!t1811)
  let t1812 ← ApiFloat.is_smallest t1810
  check (!t1812)
  let t1813 ← IeeeFloat.convertR float8E4M3FNS bfloatS t1810 Round.nearestTiesToEven
  check (decide (((⟨(t1813).status, (t1813).value⟩ : StatusAnd BFloat)).status = Status.OK))
  check (!(t1813).losesInfo)
  let t1814 ← to_f32 t1810
  let t1815 ← to_f32 ((⟨(t1813).status, (t1813).value⟩ : StatusAnd BFloat)).value
  let t1816 ← IeeeFloat.eq t1814 t1815
  check t1816
  let t1817 ← ApiFloat.to_bits t1810
  check (decide (225 = t1817))
  let t1818 ← (ApiFloat.from_bits 226 : M Float8E4M3FN)
  let t1819 ← ApiFloat.is_largest t1818
  check (!t1819)
  let t1820 ← ApiFloat.is_smallest t1818
  check (!t1820)
  let t1821 ← IeeeFloat.convertR float8E4M3FNS bfloatS t1818 Round.nearestTiesToEven
  check (decide (((⟨(t1821).status, (t1821).value⟩ : StatusAnd BFloat)).status = Status.OK))
  check (!(t1821).losesInfo)
  let t1822 ← to_f32 t1818
  let t1823 ← to_f32 ((⟨(t1821).status, (t1821).value⟩ : StatusAnd BFloat)).value
  let t1824 ← IeeeFloat.eq t1822 t1823
  check t1824
  let t1825 ← ApiFloat.to_bits t1818
  check (decide (226 = t1825))
  let t1826 ← (ApiFloat.from_bits 227 : M Float8E4M3FN)
  let t1827 ← ApiFloat.is_largest t1826
  check (!t1827)
  let t1828 ← ApiFloat.is_smallest t1826
  check (!t1828)
  let t1829 ← IeeeFloat.convertR float8E4M3FNS bfloatS t1826 Round.nearestTiesToEven
  check (decide (((⟨(t1829).status, (t1829).value⟩ : StatusAnd BFloat)).status = Status.OK))
  check (!(t1829).losesInfo)
  let t1830 ← to_f32 t1826
  let t1831 ← to_f32 ((⟨(t1829).status, (t1829).value⟩ : StatusAnd BFloat)).value
  let t1832 ← IeeeFloat.eq t1830 t1831
  check t1832
  let t1833 ← ApiFloat.to_bits t1826
  check (decide (227 = t1833))
  let t1834 ← (ApiFloat.from_bits 228 : M Float8E4M3FN)
  let t1835 ← ApiFloat.is_largest t1834
  check (!t1835)
  let t1836 ← ApiFloat.is_smallest t1834
  check (!t1836)
  let t1837 ← IeeeFloat.convertR float8E4M3FNS bfloatS t1834 Round.nearestTiesToEven
  check (decide (((⟨(t1837).status, (t1837).value⟩ : StatusAnd BFloat)).status = Status.OK))
  check (!(t1837).losesInfo)
  let t1838 ← to_f32 t1834
  let t1839 ← to_f32 ((⟨(t1837).status, (t1837).value⟩ : StatusAnd BFloat)).value
  let t1840 ← IeeeFloat.eq t1838 t1839
  check t1840
  let t1841 ← ApiFloat.to_bits t1834
  check (decide (228 = t1841))
  let t1842 ← (ApiFloat.from_bits 229 : M Float8E4M3FN)
  let t1843 ← ApiFloat.is_largest t1842
  check (!t1843)

example : passes t_float8e4m3fn_exhaustive_53 = true := by decide +kernel

/-- tests/ieee.rs:4480 `float8e4m3fn_exhaustive`. -/
def t_float8e4m3fn_exhaustive_54 : M Unit := do
  let t1842 ← (ApiFloat.from_bits 229 : M Float8E4M3FN)
  let t1844 ← ApiFloat.is_smallest t1842
  check (!t1844)
  let t1845 ← IeeeFloat.convertR float8E4M3FNS bfloatS t1842 Round.nearestTiesToEven
  check (decide (((⟨(t1845).status, (t1845).value⟩ : StatusAnd BFloat)).status = Status.OK))
  check (!(t1845).losesInfo)
  let t1846 ← to_f32 t1842
  let t1847 ← to_f32 ((⟨(t1845).status, (t1845).value⟩ : StatusAnd BFloat)).value
  let t1848 ← IeeeFloat.eq t1846 t1847
  check t1848
  let t1849 ← ApiFloat.to_bits t1842
  check (decide (229 = t1849))
  let t1850 ← (ApiFloat.from_bits 230 : M Float8E4M3FN)
  let t1851 ← ApiFloat.is_largest t1850
  check (!t1851)
  let t1852 ← ApiFloat.is_smallest t1850
  check (!t1852)
  let t1853 ← IeeeFloat.convertR float8E4M3FNS bfloatS t1850 Round.nearestTiesToEven
  check (decide (((⟨(t1853).status, (t1853).value⟩ : StatusAnd BFloat)).status = Status.OK))
  check (!(t1853).losesInfo)
  let t1854 ← to_f32 t1850
  let t1855 ← to_f32 ((⟨(t1853).status, (t1853).value⟩ : StatusAnd BFloat)).value
  let t1856 ← IeeeFloat.eq t1854 t1855
  check t1856
  let t1857 ← ApiFloat.to_bits t1850
  check (decide (230 = t1857))
  let t1858 ← (ApiFloat.from_bits 231 : M Float8E4M3FN)
  let t1859 ← ApiFloat.is_largest t1858
  check (!t1859)
  let t1860 ← ApiFloat.is_smallest t1858
  check (!t1860)
  let t1861 ← IeeeFloat.convertR float8E4M3FNS bfloatS t1858 Round.nearestTiesToEven
  check (decide (((⟨(t1861).status, (t1861).value⟩ : StatusAnd BFloat)).status = Status.OK))
  check (!(t1861).losesInfo)
  let t1862 ← to_f32 t1858
  let t1863 ← to_f32 ((⟨(t1861).status, (t1861).value⟩ : StatusAnd BFloat)).value
  let t1864 ← IeeeFloat.eq t1862 t1863
  check t1864
  let t1865 ← ApiFloat.to_bits t1858
  check (decide (231 = t1865))
  let t1866 ← (ApiFloat.from_bits 232 : M Float8E4M3FN)
  let t1867 ← ApiFloat.is_largest t1866
  check (!t1867)
  let t1868 ← ApiFloat.is_smallest t1866
  check (!t1868)
  let t1869 ← IeeeFloat.convertR float8E4M3FNS bfloatS t1866 Round.nearestTiesToEven
  check (decide (((⟨(t1869).status, (t1869).value⟩ : StatusAnd BFloat)).status = Status.OK))
  check (!(t1869).losesInfo)
  let t1870 ← to_f32 t1866
  let t1871 ← to_f32 ((⟨(t1869).status, (t1869).value⟩ : StatusAnd BFloat)).value
  let t1872 ← IeeeFloat.eq t1870 t1871
  check t1872
  let t1873 ← ApiFloat.to_bits t1866
  check (decide (232 = t1873))
  let t1874 ← (ApiFloat.from_bits 233 : M Float8E4M3FN)
  let t1875 ← ApiFloat.is_largest t1874
  check (!t1875)
  let t1876 ← ApiFloat.is_smallest t1874
  check (!t1876)
  let t1877 ← IeeeFloat.convertR float8E4M3FNS bfloatS t1874 Round.nearestTiesToEven
  check (decide (((⟨(t1877).status, (t1877).value⟩ : StatusAnd BFloat)).status = Status.OK))

example : passes t_float8e4m3fn_exhaustive_54 = true := by decide +kernel

/-- tests/ieee.rs:4480 `float8e4m3fn_exhaustive`. -/
def t_float8e4m3fn_exhaustive_55 : M Unit := do
  let t1874 ← (ApiFloat.from_bits 233 : M Float8E4M3FN)
  let t1877 ← IeeeFloat.convertR float8E4M3FNS bfloatS t1874 Round.nearestTiesToEven
  check (!(t1877).losesInfo)
  let t1878 ← to_f32 t1874
  let t1879 ← to_f32 ((⟨(t1877).status, (t1877).value⟩ : StatusAnd BFloat)).value
  let t1880 ← IeeeFloat.eq t1878 t1879
  check t1880
  let t1881 ← ApiFloat.to_bits t1874
  check (decide (233 = t1881))
  let t1882 ← (ApiFloat.from_bits 234 : M Float8E4M3FN)
  let t1883 ← ApiFloat.is_largest t1882
  check (!t1883)
  let t1884 ← ApiFloat.is_smallest t1882
  check (!t1884)
  let t1885 ← IeeeFloat.convertR float8E4M3FNS bfloatS t1882 Round.nearestTiesToEven
  check (decide (((⟨(t1885).status, (t1885).value⟩ : StatusAnd BFloat)).status = Status.OK))
  check (!(t1885).losesInfo)
  let t1886 ← to_f32 t1882
  let t1887 ← to_f32 ((⟨(t1885).status, (t1885).value⟩ : StatusAnd BFloat)).value
  let t1888 ← IeeeFloat.eq t1886 t1887
  check t1888
  let t1889 ← ApiFloat.to_bits t1882
  check (decide (234 = t1889))
  let t1890 ← (ApiFloat.from_bits 235 : M Float8E4M3FN)
  let t1891 ← ApiFloat.is_largest t1890
  check (!t1891)
  let t1892 ← ApiFloat.is_smallest t1890
  check (!t1892)
  let t1893 ← IeeeFloat.convertR float8E4M3FNS bfloatS t1890 Round.nearestTiesToEven
  check (decide (((⟨(t1893).status, (t1893).value⟩ : StatusAnd BFloat)).status = Status.OK))
  check (!(t1893).losesInfo)
  let t1894 ← to_f32 t1890
  let t1895 ← to_f32 ((⟨(t1893).status, (t1893).value⟩ : StatusAnd BFloat)).value
  let t1896 ← IeeeFloat.eq t1894 t1895
  check t1896
  let t1897 ← ApiFloat.to_bits t1890
  check (decide (235 = t1897))
  let t1898 ← (ApiFloat.from_bits 236 : M Float8E4M3FN)
  let t1899 ← ApiFloat.is_largest t1898
  check (!t1899)
  let t1900 ← ApiFloat.is_smallest t1898
  check (!t1900)
  let t1901 ← IeeeFloat.convertR float8E4M3FNS bfloatS t1898 Round.nearestTiesToEven
  check (decide (((⟨(t1901).status, (t1901).value⟩ : StatusAnd BFloat)).status = Status.OK))
  check (!(t1901).losesInfo)
  let t1902 ← to_f32 t1898
  let t1903 ← to_f32 ((⟨(t1901).status, (t1901).value⟩ : StatusAnd BFloat)).value
  let t1904 ← IeeeFloat.eq t1902 t1903
  check t1904
  let t1905 ← ApiFloat.to_bits t1898
  check (decide (236 = t1905))
  let t1906 ← (ApiFloat.from_bits 237 : M Float8E4M3FN)
  let t1907 ← ApiFloat.is_largest t1906
  check (!t1907)
  let t1908 ← ApiFloat.is_smallest t1906
  check (!t1908)
  let t1909 ← IeeeFloat.convertR float8E4M3FNS bfloatS t1906 Round.nearestTiesToEven
  check (decide (((⟨(t1909).status, (t1909).value⟩ : StatusAnd BFloat)).status = Status.OK))
  check (!(t1909).losesInfo)
  let t1910 ← to_f32 t1906
  let t1911 ← to_f32 ((⟨(t1909).status, (t1909).value⟩ : StatusAnd BFloat)).value
  let t1912 ← IeeeFloat.eq t1910 t1911
  check t1912

example : passes t_float8e4m3fn_exhaustive_55 = true := by decide +kernel

/-- tests/ieee.rs:4480 `float8e4m3fn_exhaustive`. -/
def t_float8e4m3fn_exhaustive_56 : M Unit := do
  let t1906 ← (ApiFloat.from_bits 237 : M Float8E4M3FN)
  let t1913 ← ApiFloat.to_bits t1906
  check (decide (237 = t1913))
  let t1914 ← (ApiFloat.from_bits 238 : M Float8E4M3FN)
  let t1915 ← ApiFloat.is_largest t1914
  check (!t1915)
  let t1916 ← ApiFloat.is_smallest t1914
  check (!t1916)
  let t1917 ← IeeeFloat.convertR float8E4M3FNS bfloatS t1914 Round.nearestTiesToEven
  check (decide (((⟨(t1917).status, (t1917).value⟩ : StatusAnd BFloat)).status = Status.OK))
  check (!(t1917).losesInfo)
  let t1918 ← to_f32 t1914
  let t1919 ← to_f32 ((⟨(t1917).status, (t1917).value⟩ : StatusAnd BFloat)).value
  let t1920 ← IeeeFloat.eq t1918 t1919
  check t1920
  let t1921 ← ApiFloat.to_bits t1914
  check (decide (238 = t1921))
  let t1922 ← (ApiFloat.from_bits 239 : M Float8E4M3FN)
  let t1923 ← ApiFloat.is_largest t1922
  check (!t1923)
  let t1924 ← ApiFloat.is_smallest t1922
  check (!t1924)
  let t1925 ← IeeeFloat.convertR float8E4M3FNS bfloatS t1922 Round.nearestTiesToEven
  check (decide (((⟨(t1925).status, (t1925).value⟩ : StatusAnd BFloat)).status = Status.OK))
  check (!(t1925).losesInfo)
  let t1926 ← to_f32 t1922
  let t1927 ← to_f32 ((⟨(t1925).status, (t1925).value⟩ : StatusAnd BFloat)).value
  let t1928 ← IeeeFloat.eq t1926 t1927
  check t1928
  let t1929 ← ApiFloat.to_bits t1922
  check (decide (239 = t1929))
  let t1930 ← (ApiFloat.from_bits 240 : M Float8E4M3FN)
  let t1931 ← ApiFloat.is_largest t1930
  check (!t1931)
  let t1932 ← ApiFloat.is_smallest t1930
  check (!t1932)
  let t1933 ← IeeeFloat.convertR float8E4M3FNS bfloatS t1930 Round.nearestTiesToEven
  check (decide (((⟨(t1933).status, (t1933).value⟩ : StatusAnd BFloat)).status = Status.OK))
  check (!(t1933).losesInfo)
  let t1934 ← to_f32 t1930
  let t1935 ← to_f32 ((⟨(t1933).status, (t1933).value⟩ : StatusAnd BFloat)).value
  let t1936 ← IeeeFloat.eq t1934 t1935
  check t1936
  let t1937 ← ApiFloat.to_bits t1930
  check (decide (240 = t1937))
  let t1938 ← (ApiFloat.from_bits 241 : M Float8E4M3FN)
  let t1939 ← ApiFloat.is_largest t1938
  check (!t1939)
  let t1940 ← ApiFloat.is_smallest t1938
  check (!t1940)
  let t1941 ← IeeeFloat.convertR float8E4M3FNS bfloatS t1938 Round.nearestTiesToEven
  check (decide (((⟨(t1941).status, (t1941).value⟩ : StatusAnd BFloat)).status = Status.OK))
  check (!(t1941).losesInfo)
  let t1942 ← to_f32 t1938
  let t1943 ← to_f32 ((⟨(t1941).status, (t1941).value⟩ : StatusAnd BFloat)).value
  let t1944 ← IeeeFloat.eq t1942 t1943
  check t1944
  let t1945 ← ApiFloat.to_bits t1938
  check (decide (241 = t1945))
  let t1946 ← (ApiFloat.from_bits 242 : M Float8E4M3FN)
  let t1947 ← ApiFloat.is_largest t1946
  check (!t1947)

example : passes t_float8e4m3fn_exhaustive_56 = true := by decide +kernel

/-- tests/ieee.rs:4480 `float8e4m3fn_exhaustive`. -/
def t_float8e4m3fn_exhaustive_57 : M Unit := do
  let t1946 ← (ApiFloat.from_bits 242 : M Float8E4M3FN)
  let t1948 ← ApiFloat.is_smallest t1946
  check (!t1948)
  let t1949 ← IeeeFloat.convertR float8E4M3FNS bfloatS t1946 Round.nearestTiesToEven
  check (decide (((⟨(t1949).status, (t1949).value⟩ : StatusAnd BFloat)).status = Status.OK))
  check (!(t1949).losesInfo)
  let t1950 ← to_f32 t1946
  let t1951 ← to_f32 ((⟨(t1949).status, (t1949).value⟩ : StatusAnd BFloat)).value
  let t1952 ← IeeeFloat.eq t1950 t1951
  check t1952
  let t1953 ← ApiFloat.to_bits t1946
  check (decide (242 = t1953))
  let t1954 ← (ApiFloat.from_bits 243 : M Float8E4M3FN)
  let t1955 ← ApiFloat.is_largest t1954
  check (!t1955)
  let t1956 ← ApiFloat.is_smallest t1954
  check (!t1956)
  let t1957 ← IeeeFloat.convertR float8E4M3FNS bfloatS t1954 Round.nearestTiesToEven
  check (decide (((⟨(t1957).status, (t1957).value⟩ : StatusAnd BFloat)).status = Status.OK))
  check (!(t1957).losesInfo)
  let t1958 ← to_f32 t1954
  let t1959 ← to_f32 ((⟨(t1957).status, (t1957).value⟩ : StatusAnd BFloat)).value
  let t1960 ← IeeeFloat.eq t1958 t1959
  check t1960
  let t1961 ← ApiFloat.to_bits t1954
  check (decide (243 = t1961))
  let t1962 ← (ApiFloat.from_bits 244 : M Float8E4M3FN)
  let t1963 ← ApiFloat.is_largest t1962
  check (!t1963)
  let t1964 ← ApiFloat.is_smallest t1962
  check (!t1964)
  let t1965 ← IeeeFloat.convertR float8E4M3FNS bfloatS t1962 Round.nearestTiesToEven
  check (decide (((⟨(t1965).status, (t1965).value⟩ : StatusAnd BFloat)).status = Status.OK))
  check (!(t1965).losesInfo)
  let t1966 ← to_f32 t1962
  let t1967 ← to_f32 ((⟨(t1965).status, (t1965).value⟩ : StatusAnd BFloat)).value
  let t1968 ← IeeeFloat.eq t1966 t1967
  check t1968
  let t1969 ← ApiFloat.to_bits t1962
  check (decide (244 = t1969))
  let t1970 ← (ApiFloat.from_bits 245 : M Float8E4M3FN)
  let t1971 ← ApiFloat.is_largest t1970
  check (!t1971)
  let t1972 ← ApiFloat.is_smallest t1970
  check (!t1972)
  let t1973 ← IeeeFloat.convertR float8E4M3FNS bfloatS t1970 Round.nearestTiesToEven
  check (decide (((⟨(t1973).status, (t1973).value⟩ : StatusAnd BFloat)).status = Status.OK))
  check (!(t1973).losesInfo)
  let t1974 ← to_f32 t1970
  let t1975 ← to_f32 ((⟨(t1973).status, (t1973).value⟩ : StatusAnd BFloat)).value
  let t1976 ← IeeeFloat.eq t1974 t1975
  check t1976
  let t1977 ← ApiFloat.to_bits t1970
  check (decide (245 = t1977))
  let t1978 ← (ApiFloat.from_bits 246 : M Float8E4M3FN)
  let t1979 ← ApiFloat.is_largest t1978
  check (!t1979)
  let t1980 ← ApiFloat.is_smallest t1978
  check (!t1980)
  let t1981 ← IeeeFloat.convertR float8E4M3FNS bfloatS t1978 Round.nearestTiesToEven
  check (decide (((⟨(t1981).status, (t1981).value⟩ : StatusAnd BFloat)).status = Status.OK))

example : passes t_float8e4m3fn_exhaustive_57 = true := by decide +kernel

/-- tests/ieee.rs:4480 `float8e4m3fn_exhaustive`. -/
def t_float8e4m3fn_exhaustive_58 : M Unit := do
  let t1978 ← (ApiFloat.from_bits 246 : M Float8E4M3FN)
  let t1981 ← IeeeFloat.convertR float8E4M3FNS bfloatS t1978 Round.nearestTiesToEven
  check (!(t1981).losesInfo)
  let t1982 ← to_f32 t1978
  let t1983 ← to_f32 ((⟨(t1981).status, (t1981).value⟩ : StatusAnd BFloat)).value
  let t1984 ← IeeeFloat.eq t1982 t1983
  check t1984
  let t1985 ← ApiFloat.to_bits t1978
  check (decide (246 = t1985))
  let t1986 ← (ApiFloat.from_bits 247 : M Float8E4M3FN)
  let t1987 ← ApiFloat.is_largest t1986
  check (!t1987)
  let t1988 ← ApiFloat.is_smallest t1986
  check (!t1988)
  let t1989 ← IeeeFloat.convertR float8E4M3FNS bfloatS t1986 Round.nearestTiesToEven
  check (decide (((⟨(t1989).status, (t1989).value⟩ : StatusAnd BFloat)).status = Status.OK))
  check (!(t1989).losesInfo)
  let t1990 ← to_f32 t1986
  let t1991 ← to_f32 ((⟨(t1989).status, (t1989).value⟩ : StatusAnd BFloat)).value
  let t1992 ← IeeeFloat.eq t1990 t1991
  check t1992
  let t1993 ← ApiFloat.to_bits t1986
  check (decide (247 = t1993))
  let t1994 ← (ApiFloat.from_bits 248 : M Float8E4M3FN)
  let t1995 ← ApiFloat.is_largest t1994
  check (!t1995)
  let t1996 ← ApiFloat.is_smallest t1994
  check (!t1996)
  let t1997 ← IeeeFloat.convertR float8E4M3FNS bfloatS t1994 Round.nearestTiesToEven
  check (decide (((⟨(t1997).status, (t1997).value⟩ : StatusAnd BFloat)).status = Status.OK))
  check (!(t1997).losesInfo)
  let t1998 ← to_f32 t1994
  let t1999 ← to_f32 ((⟨(t1997).status, (t1997).value⟩ : StatusAnd BFloat)).value
  let t2000 ← IeeeFloat.eq t1998 t1999
  check t2000
  let t2001 ← ApiFloat.to_bits t1994
  check (decide (248 = t2001))
  let t2002 ← (ApiFloat.from_bits 249 : M Float8E4M3FN)
  let t2003 ← ApiFloat.is_largest t2002
  check (!t2003)
  let t2004 ← ApiFloat.is_smallest t2002
  check (!t2004)
  let t2005 ← IeeeFloat.convertR float8E4M3FNS bfloatS t2002 Round.nearestTiesToEven
  check (decide (((⟨(t2005).status, (t2005).value⟩ : StatusAnd BFloat)).status = Status.OK))
  check (!(t2005).losesInfo)
  let t2006 ← to_f32 t2002
  let t2007 ← to_f32 ((⟨(t2005).status, (t2005).value⟩ : StatusAnd BFloat)).value
  let t2008 ← IeeeFloat.eq t2006 t2007
  check t2008
  let t2009 ← ApiFloat.to_bits t2002
  check (decide (249 = t2009))
  let t2010 ← (ApiFloat.from_bits 250 : M Float8E4M3FN)
  let t2011 ← ApiFloat.is_largest t2010
  check (!t2011)
  let t2012 ← ApiFloat.is_smallest t2010
  check (!t2012)
  let t2013 ← IeeeFloat.convertR float8E4M3FNS bfloatS t2010 Round.nearestTiesToEven
  check (decide (((⟨(t2013).status, (t2013).value⟩ : StatusAnd BFloat)).status = Status.OK))
  check (!(t2013).losesInfo)
  let t2014 ← to_f32 t2010
  let t2015 ← to_f32 ((⟨(t2013).status, (t2013).value⟩ : StatusAnd BFloat)).value
  let t2016 ← IeeeFloat.eq t2014 t2015
  check t2016

example : passes t_float8e4m3fn_exhaustive_58 = true := by decide +kernel

/-- tests/ieee.rs:4480 `float8e4m3fn_exhaustive`. -/
def t_float8e4m3fn_exhaustive_59 : M Unit := do
  let t1017 ← (f64_lit 0x407c000000000000 : M Double)
  let t2010 ← (ApiFloat.from_bits 250 : M Float8E4M3FN)
  let t2017 ← ApiFloat.to_bits t2010
  check (decide (250 = t2017))
  let t2018 ← (ApiFloat.from_bits 251 : M Float8E4M3FN)
  let t2019 ← ApiFloat.is_largest t2018
  check (!t2019)
  let t2020 ← ApiFloat.is_smallest t2018
  check (!t2020)
  let t2021 ← IeeeFloat.convertR float8E4M3FNS bfloatS t2018 Round.nearestTiesToEven
  check (decide (((⟨(t2021).status, (t2021).value⟩ : StatusAnd BFloat)).status = Status.OK))
  check (!(t2021).losesInfo)
  let t2022 ← to_f32 t2018
  let t2023 ← to_f32 ((⟨(t2021).status, (t2021).value⟩ : StatusAnd BFloat)).value
  let t2024 ← IeeeFloat.eq t2022 t2023
  check t2024
  let t2025 ← ApiFloat.to_bits t2018
  check (decide (251 = t2025))
  let t2026 ← (ApiFloat.from_bits 252 : M Float8E4M3FN)
  let t2027 ← ApiFloat.is_largest t2026
  check (!t2027)
  let t2028 ← ApiFloat.is_smallest t2026
  check (!t2028)
  let t2029 ← IeeeFloat.convertR float8E4M3FNS bfloatS t2026 Round.nearestTiesToEven
  check (decide (((⟨(t2029).status, (t2029).value⟩ : StatusAnd BFloat)).status = Status.OK))
  check (!(t2029).losesInfo)
  let t2030 ← to_f32 t2026
  let t2031 ← to_f32 ((⟨(t2029).status, (t2029).value⟩ : StatusAnd BFloat)).value
  let t2032 ← IeeeFloat.eq t2030 t2031
  check t2032
  let t2033 ← ApiFloat.to_bits t2026
  check (decide (252 = t2033))
  let t2034 ← (ApiFloat.from_bits 253 : M Float8E4M3FN)
  let t2035 ← ApiFloat.is_largest t2034
  check (!t2035)
  let t2036 ← ApiFloat.is_smallest t2034
  check (!t2036)
  let t2037 ← IeeeFloat.convertR float8E4M3FNS bfloatS t2034 Round.nearestTiesToEven
  check (decide (((⟨(t2037).status, (t2037).value⟩ : StatusAnd BFloat)).status = Status.OK))
  check (!(t2037).losesInfo)
  let t2038 ← to_f32 t2034
  let t2039 ← to_f32 ((⟨(t2037).status, (t2037).value⟩ : StatusAnd BFloat)).value
  let t2040 ← IeeeFloat.eq t2038 t2039
  check t2040
  let t2041 ← ApiFloat.to_bits t2034
  check (decide (253 = t2041))
  let t2042 ← (ApiFloat.from_bits 254 : M Float8E4M3FN)
  let t2043 ← ApiFloat.is_largest t2042
  check t2043
  let t2044 ← ApiFloat.abs t2042
  let t2045 ← to_f64 t2044
  let t2046 ← IeeeFloat.eq t2045 t1017
  check t2046
  let t2047 ← ApiFloat.is_smallest t2042
  check (!t2047)
  let t2048 ← IeeeFloat.convertR float8E4M3FNS bfloatS t2042 Round.nearestTiesToEven
  check (decide (((⟨(t2048).status, (t2048).value⟩ : StatusAnd BFloat)).status = Status.OK))
  check (!(t2048).losesInfo)
  let t2049 ← to_f32 t2042
  let t2050 ← to_f32 ((⟨(t2048).status, (t2048).value⟩ : StatusAnd BFloat)).value
  let t2051 ← IeeeFloat.eq t2049 t2050
  check t2051

example : passes t_float8e4m3fn_exhaustive_59 = true := by decide +kernel

/-- tests/ieee.rs:4480 `float8e4m3fn_exhaustive`. -/
def t_float8e4m3fn_exhaustive_60 : M Unit := do
  let t2042 ← (ApiFloat.from_bits 254 : M Float8E4M3FN)
  let t2052 ← ApiFloat.to_bits t2042
  check (decide (254 = t2052))
  let t2053 ← (ApiFloat.from_bits 255 : M Float8E4M3FN)
  let t2054 ← ApiFloat.is_largest t2053
  check (!t2054)
  let t2055 ← ApiFloat.is_smallest t2053
  check (!t2055)
  let t2056 ← IeeeFloat.convertR float8E4M3FNS bfloatS t2053 Round.nearestTiesToEven
  check (decide (((⟨(t2056).status, (t2056).value⟩ : StatusAnd BFloat)).status = Status.OK))
  check (!(t2056).losesInfo)
  let t2057 ← is_nan ((⟨(t2056).status, (t2056).value⟩ : StatusAnd BFloat)).value
  check t2057
  let t2058 ← ApiFloat.to_bits t2053
  check (decide (255 = t2058))

example : passes t_float8e4m3fn_exhaustive_60 = true := by decide +kernel

end Apf.Conformance.Ieee6
