import Verif.Props.Spelling
import Verif.Props.DecimalClose
import Verif.Props.DecimalTrip
import Verif.Props.Monotone
import Verif.Props.FmaExact
import Verif.Props.NanBits
import Verif.Props.NanOrigin
import Verif.Props.Quiet
import Verif.Props.Rem
import Verif.Props.Ints
import Verif.Props.Ppc
import Verif.Props.PpcOps
import Verif.Props.PpcOrder
import Verif.Props.PpcModes
import Verif.Props.PpcMono
import Verif.Props.PpcRange
import Verif.Props.PpcScale
import Verif.Props.PpcMul
import Verif.Props.PpcMulAll
import Verif.Props.PpcTotal
import Verif.Props.PpcWidths
import Verif.Props.Widths
import Verif.Props.FuzzEval
import Verif.Props.Everyday
import Verif.Props.Determinant
import Verif.Props.DoubleRounding
import Verif.Props.Accumulate
import Verif.Props.Interval

/-!
# Concrete cases

Applications of theorems to particular operands, showing that their hypotheses can be met: for the theorems that do not have one beside
them.  No definition is made here.
-/

namespace Apf
open Spec IeeeFloat

/-! ## Literals -/

/-- `12.5e-1` is five quarters. -/
theorem case_dec : IsDec "12.5e-1".toList (5 / 4) := by
  refine ⟨"12.5".toList, "12".toList, "5".toList, by unfold IsSignificand; exact ⟨by decide, by decide, by decide, Or.inr rfl⟩,
    Or.inr ⟨"-1".toList, "1".toList, -1, ⟨by decide, Or.inr (Or.inr ⟨rfl, by decide⟩)⟩, Or.inl rfl, ?_⟩⟩
  rw [significandValue, show number 10 ("12".toList ++ "5".toList) = 125 by decide, show "5".toList.length = 1 by decide]
  norm_num

/-- `1.25` is five quarters. -/
theorem case_dec' : IsDec "1.25".toList (5 / 4) := by
  refine ⟨"1.25".toList, "1".toList, "25".toList, by unfold IsSignificand; exact ⟨by decide, by decide, by decide, Or.inr rfl⟩, Or.inl ⟨rfl, ?_⟩⟩
  rw [significandValue, show number 10 ("1".toList ++ "25".toList) = 125 by decide, show "25".toList.length = 2 by decide]
  norm_num

/-- `1.4p0`, after the hexadecimal prefix, is five quarters. -/
theorem case_hex : IsHex "1.4p0".toList (5 / 4) := by
  refine ⟨"1.4".toList, "1".toList, "4".toList, "0".toList, "0".toList, 0, by unfold IsSignificand; exact ⟨by decide, by decide, by decide, Or.inr rfl⟩,
      ⟨by decide, Or.inl ⟨rfl, by decide⟩⟩, by decide, Or.inl rfl, ?_⟩
  rw [significandValue, show number 16 ("1".toList ++ "4".toList) = 20 by decide, show "4".toList.length = 1 by decide]
  norm_num

example := C30_hex singleS_ok (by decide) 0 .minus (Or.inl rfl) (t := "1.4p0".toList) (by decide) case_hex .towardPositive
example := C31_nearest singleS_ok (by decide) (le_refl 23) .minus (t := "12.5e-1".toList) (by decide) case_dec (Or.inl rfl)
example := C91_decimal singleS_ok 23 .none .plus rfl (t := "12.5e-1".toList) (t' := "1.25".toList) (by decide) (by decide) case_dec case_dec' .towardZero
example := C91_decimal_pair (doubleS_pair.fb) 23 .none .plus rfl (t := "12.5e-1".toList) (t' := "1.25".toList) (by decide) (by decide) case_dec case_dec' .towardZero
example := C91_hex singleS_ok (by decide) 23 .none .plus rfl (Or.inl rfl) (Or.inr rfl) (t := "1.4p0".toList) (t' := "1.4p0".toList) (by decide) (by decide) case_hex case_hex .towardZero
example := C55_decimal doubleS_pair (by decide) (le_refl 23) .minus (t := "12.5e-1".toList) (v := 5 / 4) (by decide) case_dec (by decide +kernel) (Or.inr rfl)
example := C55_hex doubleS_pair (by decide) 0 .minus (Or.inr rfl) (t := "1.4p0".toList) (v := 5 / 4) (by decide) case_hex (by decide +kernel) .towardZero
example := C93_decimal doubleS_pair (by decide) (le_refl 23) (sg := .minus) (sg' := .none) (t := "12.5e-1".toList) (t' := "1.25".toList) (v := 5 / 4) (v' := 5 / 4) (by decide) (by decide) case_dec case_dec' (by decide +kernel)
  (by decide +kernel) (Or.inl rfl) (by decide +kernel)

example := C46_directed_partial singleS_ok (le_refl 23) .minus (t := "12.5e-1".toList) (by decide) case_dec (Or.inr ⟨125, -2, by norm_num, by norm_num, by norm_num, by norm_num⟩)
  (Or.inl rfl)
example := C32_decimal singleS_ok (le_refl 23) (s := "-12.5e-1".toList) (by decide) (sg := .minus) rfl case_dec .towardZero
example := C32_rounds singleS_ok (by decide) (fuel := 40) (by decide) (s := "-12.5e-1".toList) (by decide) .towardZero
example := C80_close singleS_ok (le_refl 23) .minus (t := "12.5e-1".toList) (by decide) case_dec .towardZero
example := C121_point singleS_ok (by decide) (le_refl 23) .minus (ip := "12".toList) (fp := "75".toList) (by decide) (by decide) (by decide) (by decide) (by decide) .towardZero

/-! ## Operations of one format -/

example := C71_mul_add singleS_ok rfl (x := ⟨3 * 2 ^ 22, 0, .normal, false⟩) (m := ⟨3 * 2 ^ 22, 0, .normal, false⟩) (z := ⟨3 * 2 ^ 22, 0, .normal, false⟩)
  (z' := ⟨3 * 2 ^ 22, 1, .normal, false⟩) (by decide) (by decide) (by decide) (by decide) rfl rfl rfl rfl .towardPositive
  (fun e => absurd e.1.1 (by decide +kernel)) (fun e => absurd e.1.1 (by decide +kernel)) (by decide +kernel)
example := C74_mul_add singleS_ok (x := ⟨5, 128, .nan, true⟩) (m := ⟨3 * 2 ^ 22, 0, .normal, false⟩) (z := ⟨1, -126, .normal, false⟩) (by decide) (by decide) (by decide)
  (by unfold Regular; decide) (by unfold Regular; decide) (by unfold Regular; decide) .towardZero (fun e => absurd e.1 (by decide))
example := (C10_rem_special (x := (⟨3 * 2 ^ 22, 0, .normal, false⟩ : IeeeFloat singleS)) (y := ZERO singleS)).1 rfl rfl (Or.inr rfl)
example := (C10_rem_special (x := (⟨3 * 2 ^ 22, 0, .normal, false⟩ : IeeeFloat singleS)) (y := INFINITY singleS)).2 rfl rfl
example := (C18_to_u128_specials (x := INFINITY singleS) (w := 20) (by decide) (by decide) .towardZero).2.2.2 rfl rfl
example := (C19_to_i128_specials (x := INFINITY singleS) (w := 20) (by decide) (by decide) .towardZero).2.2 rfl rfl

example := (C10_add_inf_finite (x := INFINITY singleS) (y := ⟨1, -126, .normal, true⟩) .towardZero).1 rfl rfl
example := (C34_special (INFINITY singleS) none (some 3) true).1 rfl
example := C12_mul_add singleS_ok (x := ⟨3 * 2 ^ 22, 0, .normal, false⟩) (m := ⟨3 * 2 ^ 22, 0, .normal, false⟩) (z := ⟨3 * 2 ^ 22, 0, .normal, false⟩)
  (by decide) (by decide) (by decide) rfl rfl rfl .towardPositive (fun e => absurd e.1.1 (by decide +kernel))
example := C85_sharp singleS_ok (x := ⟨2 ^ 23, 24, .normal, false⟩) (y := ⟨2 ^ 23, 0, .normal, false⟩) (by decide) (by decide) rfl rfl (by decide +kernel) (by decide +kernel)
  .towardPositive
example := C11_nan_bits singleS_enc (x := ⟨5, 128, .nan, true⟩) (y := ⟨3 * 2 ^ 22, 0, .normal, false⟩) (by decide) (by decide) .towardZero (a := 0xff800005) (b := 0x3fc00000)
  (by decide +kernel) (by decide +kernel) (Or.inl rfl)
example := C11_rem_nan_bits singleS_enc (x := ⟨3 * 2 ^ 22, 0, .normal, false⟩) (y := ⟨5, 128, .nan, true⟩) (by decide) (by decide) (a := 0x3fc00000) (b := 0xff800005)
  (by decide +kernel) (by decide +kernel) (Or.inr rfl)

example := C69_add_mul half_via_single (x := ⟨1025, 3, .normal, false⟩) (y := ⟨1, -14, .normal, true⟩) (by decide) (by decide) rfl rfl (mode := .nearestTiesToEven)
  (by unfold ModeOK; decide) .towardZero .towardPositive
example := C122_difference singleS_ok rfl (by decide) (a := ⟨3 * 2 ^ 22, 0, .normal, false⟩) (b := ⟨3 * 2 ^ 22, 1, .normal, false⟩) (c := ⟨5 * 2 ^ 21, 2, .normal, false⟩)
  (d := ⟨3 * 2 ^ 22, 0, .normal, true⟩) (by decide) (by decide) (by decide) (by decide) rfl rfl rfl rfl ⟨9 * 2 ^ 148, by decide +kernel⟩ ⟨-15 * 2 ^ 148, by decide +kernel⟩
  (by decide +kernel) (by decide +kernel) .towardZero
example := C122_in_range singleS_ok rfl (by decide) (a := ⟨3 * 2 ^ 22, 0, .normal, false⟩) (b := ⟨3 * 2 ^ 22, 1, .normal, false⟩) (c := ⟨5 * 2 ^ 21, 2, .normal, false⟩)
  (d := ⟨3 * 2 ^ 22, 0, .normal, true⟩) (by decide) (by decide) (by decide) (by decide) rfl rfl rfl rfl (Or.inr (by decide +kernel)) (Or.inr (by decide +kernel))
  (by decide +kernel) (by decide +kernel) .towardZero

/-- Operands of the defect C08: in the 8-bit format, `5 · 2^-9` times `13 · 2^-6` less `2^-9`, for which the fused multiply-add panics. -/
theorem case_excluded : FmaExcluded float8E4M3FNS ((⟨5, -6, .normal, false⟩ : IeeeFloat float8E4M3FNS).toRat * (⟨13, -3, .normal, false⟩ : IeeeFloat float8E4M3FNS).toRat)
    (⟨1, -6, .normal, true⟩ : IeeeFloat float8E4M3FNS).toRat := by
  refine ⟨by decide +kernel, by decide +kernel, by decide +kernel, ?_⟩
  rintro ⟨k, hk⟩
  have e : (⟨5, -6, .normal, false⟩ : IeeeFloat float8E4M3FNS).toRat * (⟨13, -3, .normal, false⟩ : IeeeFloat float8E4M3FNS).toRat = 65 / 2 ^ 15 := by decide +kernel
  rw [e, show (2 : ℚ) ^ (float8E4M3FNS.minExp - 2 * float8E4M3FNS.precision) = 1 / 2 ^ 14 by decide +kernel] at hk
  have : (65 : ℤ) = 2 * k := by
    have : (65 : ℚ) = 2 * k := by linarith
    exact_mod_cast this
  omega

/-- And `5 · 2^-9` times `15 · 2^-6` less `2^-9`, for which it returns. -/
theorem case_excluded' : FmaExcluded float8E4M3FNS ((⟨5, -6, .normal, false⟩ : IeeeFloat float8E4M3FNS).toRat * (⟨15, -3, .normal, false⟩ : IeeeFloat float8E4M3FNS).toRat)
    (⟨1, -6, .normal, true⟩ : IeeeFloat float8E4M3FNS).toRat := by
  refine ⟨by decide +kernel, by decide +kernel, by decide +kernel, ?_⟩
  rintro ⟨k, hk⟩
  have e : (⟨5, -6, .normal, false⟩ : IeeeFloat float8E4M3FNS).toRat * (⟨15, -3, .normal, false⟩ : IeeeFloat float8E4M3FNS).toRat = 75 / 2 ^ 15 := by decide +kernel
  rw [e, show (2 : ℚ) ^ (float8E4M3FNS.minExp - 2 * float8E4M3FNS.precision) = 1 / 2 ^ 14 by decide +kernel] at hk
  have : (75 : ℤ) = 2 * k := by
    have : (75 : ℚ) = 2 * k := by linarith
    exact_mod_cast this
  omega

example : mulAddR (⟨5, -6, .normal, false⟩ : IeeeFloat float8E4M3FNS) ⟨13, -3, .normal, false⟩ ⟨1, -6, .normal, true⟩ .nearestTiesToEven = .error .assert :=
  (C76_excluded float8E4M3FNS_ok (by decide) (by decide) (by decide) rfl rfl rfl .nearestTiesToEven case_excluded).1 (by decide +kernel)
example := (C76_excluded float8E4M3FNS_ok (by decide) (by decide) (by decide) rfl rfl rfl .nearestTiesToEven case_excluded').2 (by decide +kernel)
example := C76_close float8E4M3FNS_ok (by decide) (by decide) (by decide) rfl rfl rfl .nearestTiesToEven case_excluded' (r := ⟨⟨false, false, false, true, true⟩, ⟨0, -7, .zero, false⟩⟩) (by decide +kernel)

/-! ## Programs -/

theorem case_program : ∀ c ∈ sampleProgram, c.InRange := by
  intro c hc
  simp only [sampleProgram, List.mem_cons, List.not_mem_nil, or_false] at hc
  rcases hc with rfl | rfl | rfl | rfl | rfl | rfl | rfl | rfl | rfl | rfl | rfl | rfl | rfl | rfl <;> simp [Call.InRange, Format.sem] <;> decide

theorem case_pairs : (∀ c ∈ samplePairs, c.InRange) ∧ (∀ c ∈ samplePairs, c.Direct) := by
  constructor <;> intro c hc <;> simp only [samplePairs, List.mem_cons, List.not_mem_nil, or_false] at hc <;>
    rcases hc with rfl | rfl | rfl | rfl | rfl | rfl | rfl | rfl | rfl | rfl | rfl | rfl | rfl | rfl <;> simp [PCall.InRange, PCall.Direct] <;> decide

example := C29_histories_partial sampleProgram case_program
example := C29_without_mul_add_partial sampleProgram case_program (by intro f d a b c mode hc; simp [sampleProgram] at hc)
  (by intro f a w alt hc; simp [sampleProgram] at hc) (by intro f a b hc; simp [sampleProgram] at hc)
example := C75_histories samplePairs case_pairs.1
example := C75_direct_histories samplePairs case_pairs.1 case_pairs.2

/-! ## Pairs -/

example := C43_copy_sign (x := (⟨⟨2 ^ 52, 0, .normal, false⟩, ⟨2 ^ 52, -60, .normal, true⟩⟩ : DoubleDouble)) (y := ⟨⟨3 * 2 ^ 51, 0, .normal, true⟩, ZERO doubleS⟩) (by decide)
example := C43_neg (x := (⟨⟨2 ^ 52, 0, .normal, false⟩, ⟨2 ^ 52, -60, .normal, true⟩⟩ : DoubleDouble)) (by decide)
example := (C43_add_special (x := DoubleFloat.INFINITY doubleS) (y := (DoubleFloat.INFINITY doubleS).neg) .towardZero).2.2.2.1 rfl rfl (by decide)
example := (C43_mul_special (x := DoubleFloat.INFINITY doubleS) (y := DoubleFloat.ZERO doubleS) .towardZero).2.2.1 (Or.inr ⟨rfl, rfl⟩)
example := C93_mul_add doubleS_pair fits_example.1 fits_three_halves.1 fits_three_halves.1 fits_three_halves.1 fits_example.1 fits_three_halves.1 .towardZero
  (fun e => absurd e.1.1 (by decide +kernel)) (fun e => absurd e.1.1 (by decide +kernel)) (by decide +kernel) (by decide +kernel)
example := C51_mul_add_partial doubleS_pair fits_example.1 fits_three_halves.1 fits_example.1 .towardPositive (fun e => absurd e.1.1 (by decide +kernel))
example := C81_add doubleS_pair (by decide) .towardZero (x := ⟨⟨2 ^ 52, 0, .normal, false⟩, ⟨2 ^ 52, -60, .normal, true⟩⟩)
  (y := ⟨⟨3 * 2 ^ 51, 0, .normal, false⟩, ZERO doubleS⟩) (by decide +kernel) ⟨by decide, by decide +kernel⟩ (by decide +kernel) ⟨by decide, by decide +kernel⟩
  (by decide +kernel) (by decide +kernel)
example := (C61_ilogb_specials (x := DoubleFloat.ZERO doubleS)).2.1 rfl
example := C49_cmp_abs_normal_partial doubleS_ok fits_example.1.1 fits_example.1.1 fits_example.1.2.1 fits_example.1.2.1 rfl rfl rfl rfl (fun _ _ => rfl)
example := (C42_round_trip doubleS_pair).2 fits_example.1
example := C63_scalbn_grid_partial doubleS_pair fits_three_halves.1.1 fits_three_halves.1.2.1 (n := 3)
  ⟨3, 2, by decide, by decide, by decide +kernel⟩ ⟨0, 0, by decide, by decide, by decide +kernel⟩ (by decide +kernel) .towardZero
example := C89_values doubleS_ok ⟨fits_example.1.1, Or.inl fits_example.1.2.1⟩ (y := DoubleFloat.INFINITY doubleS) ⟨by decide +kernel, Or.inr ⟨rfl, by decide +kernel, rfl⟩⟩
example := C44_order doubleS_ok ⟨fits_example.1.1, Or.inl fits_example.1.2.1⟩ ⟨fits_three_halves.1.1, Or.inl fits_three_halves.1.2.1⟩
example := C44_min_max doubleS_ok ⟨fits_example.1.1, Or.inl fits_example.1.2.1⟩ ⟨fits_three_halves.1.1, Or.inl fits_three_halves.1.2.1⟩
example := C44_minimum_maximum doubleS_ok ⟨fits_example.1.1, Or.inl fits_example.1.2.1⟩ ⟨fits_three_halves.1.1, Or.inl fits_three_halves.1.2.1⟩
example := C44_eq (x := (⟨⟨2 ^ 52, 0, .normal, false⟩, ⟨2 ^ 52, -60, .normal, true⟩⟩ : DoubleDouble)) (y := ⟨⟨3 * 2 ^ 51, 0, .normal, false⟩, ZERO doubleS⟩) (o := some .lt)
  (by decide +kernel)

/-! ## The fuzzer -/

theorem case_one : ({ sem := halfS, reprBytes := 2, tag := 16 } : Fuzz.FloatRepr).denotes 0x3c00 = .num false 1 := by
  simp only [Fuzz.FloatRepr.denotes, show halfS.style = .hidden from rfl, show halfS.expBits = 5 from rfl, show halfS.sigBits = 10 from rfl, Spec.decode]
  norm_num [Spec.exponentField, Spec.sigField, Spec.signField, Spec.bias, Spec.signed]
theorem case_three : ({ sem := halfS, reprBytes := 2, tag := 16 } : Fuzz.FloatRepr).denotes 0xc200 = .num true (-3) := by
  simp only [Fuzz.FloatRepr.denotes, show halfS.style = .hidden from rfl, show halfS.expBits = 5 from rfl, show halfS.sigBits = 10 from rfl, Spec.decode]
  norm_num [Spec.exponentField, Spec.sigField, Spec.signField, Spec.bias, Spec.signed]

example := C106_arith (R := { sem := halfS, reprBytes := 2, tag := 16 }) (by simp [Fuzz.reprs]) (.div 0x3c00 0xc200) (by decide) (by decide) case_one case_three
  (fun _ => by norm_num)
example := C106_rem (R := { sem := halfS, reprBytes := 2, tag := 16 }) (by simp [Fuzz.reprs]) (a := 0x3c00) (b := 0xc200) (by decide) (by decide) case_one case_three
  (by norm_num)
example := C106_neg (R := { sem := halfS, reprBytes := 2, tag := 16 }) (by simp [Fuzz.reprs]) (a := 0x3c00) (by decide) (fun e => absurd e.1 (by decide))
example := C106_mul_add (R := { sem := halfS, reprBytes := 2, tag := 16 }) (by simp [Fuzz.reprs]) (a := 0x3c00) (b := 0xc200) (c := 0xc200) (by decide) (by decide) (by decide)
  case_one case_three case_three (fun e => absurd e.1.1 (by norm_num))
example := C106_via_int (R := { sem := halfS, reprBytes := 2, tag := 16 }) (by simp [Fuzz.reprs]) (a := 0xbe00) (by decide)

end Apf
