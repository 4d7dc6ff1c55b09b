import Verif.Props.DisplayLayout
import Verif.Props.Everyday
import Verif.Props.Accumulate
/-! # C123: numbers of few digits are printed exactly -/

namespace Apf
open Spec IeeeFloat
variable {S : Sem}

/-- **C123.** A number of at most `P` significant digits is printed with exactly those digits, at precision `P` (by default `2 + p * 59 / 196`). -/
theorem C123_exact (h : S.OK) {x : IeeeFloat S} (hx : x.Valid) (hf' : x.isFinite = true) {prec : Option ℕ} {P : ℕ}
    (hP : P = prec.getD (2 + S.precision * 59 / 196)) (hP2 : P * 196 + 58 < 2 ^ 64) {N : ℕ} {E : ℤ} (hN : ¬ 10 ∣ N) (hNP : N < 10 ^ P)
    (hv : |x.toRat| = N * 10 ^ E) (width : Option ℕ) (alt : Bool) :
    x.display width prec alt = .ok (signText x.sign ++ layout (width.getD 3) P alt N E) := by
  have hN0 : 0 < N := by
    rcases Nat.eq_zero_or_pos N with rfl | c
    · simp at hN
    · exact c
  have hP1 : 1 ≤ P := by
    rcases Nat.eq_zero_or_pos P with rfl | c
    · simp at hNP; omega
    · exact c
  have hvpos : 0 < |x.toRat| := by rw [hv]; have : (0 : ℚ) < N := by exact_mod_cast hN0
                                   positivity
  have hz : x.isZero = false := by
    cases c : x.isZero with
    | false => rfl
    | true =>
      exfalso
      have : x.category = .zero := by cases c' : x.category <;> simp_all [isZero]
      rw [toRat_zero this] at hvpos; simp at hvpos
  obtain ⟨N', E', n1, -, n3, n4⟩ := C59_layout h hx hf' hz hP hP1 hP2
  obtain ⟨d, ⟨d1, -⟩, -, d3, -⟩ := n3
  have hd : d + 1 - P ≤ E := by
    rw [hv] at d1
    have h1 : (10 : ℚ) ^ d < 10 ^ ((P : ℤ) + E) := by
      refine lt_of_le_of_lt d1 ?_
      rw [zpow_add₀ (by norm_num), zpow_natCast]
      exact mul_lt_mul_of_pos_right (by exact_mod_cast hNP) (by positivity)
    have := (zpow_lt_zpow_iff_right₀ (by norm_num : (1 : ℚ) < 10)).1 h1
    omega
  have hw := d3 ⟨N * 10 ^ (E - (d + 1 - P)).toNat, by
    rw [hv]
    push_cast
    rw [mul_assoc, ← zpow_natCast, ← zpow_add₀ (by norm_num)]
    congr 2; omega⟩
  rw [hv] at hw
  obtain ⟨rfl, rfl⟩ := dec_repr_unique n1 hN hw
  exact n4 width alt

theorem toDigits_append_zeros {N : ℕ} (hN : 0 < N) (j : ℕ) : Nat.toDigits 10 N ++ List.replicate j '0' = Nat.toDigits 10 (N * 10 ^ j) := by
  rw [toDigits_eq hN, toDigits_eq (by positivity), mul_comm, Nat.digits_base_pow_mul (by norm_num) hN]
  simp only [List.reverse_append, List.map_append, List.reverse_replicate, List.map_replicate]
  rfl

/-- **C123.** An integer of at most `P` digits that ends in at most `width` zeros (by default 3) is printed as an integer. -/
theorem C123_integer (h : S.OK) {x : IeeeFloat S} (hx : x.Valid) (hf' : x.isFinite = true) {prec : Option ℕ} {P : ℕ}
    (hP : P = prec.getD (2 + S.precision * 59 / 196)) (hP2 : P * 196 + 58 < 2 ^ 64) {n : ℕ} (hn : 0 < n) (hnP : n < 10 ^ P) (hv : |x.toRat| = n)
    {width : Option ℕ} (hw0 : 0 < width.getD 3) (hw : ¬ 10 ^ (width.getD 3 + 1) ∣ n) (alt : Bool) :
    x.display width prec alt = .ok (signText x.sign ++ Nat.toDigits 10 n) := by
  obtain ⟨N, j, rfl, hN⟩ := strip_zeros hn
  have hN0 : 0 < N := Nat.pos_of_mul_pos_right hn
  have hj : j ≤ width.getD 3 := by
    by_contra c
    push Not at c
    exact hw (Dvd.dvd.mul_left (pow_dvd_pow 10 (by omega)) N)
  rw [C123_exact h hx hf' hP hP2 (N := N) (E := j) hN (lt_of_le_of_lt (Nat.le_mul_of_pos_right _ (by positivity)) hnP)
    (by rw [hv]; push_cast; rw [zpow_natCast]) width alt]
  have hl : digitCount N + j ≤ P := by
    have e : digitCount N + j = (Nat.toDigits 10 (N * 10 ^ j)).length := by
      rw [← toDigits_append_zeros hN0, List.length_append, List.length_replicate]; rfl
    rw [e, toDigits_length (by positivity), Nat.digits_length_le_iff (by norm_num)]
    exact hnP
  unfold layout
  rw [if_pos ⟨by omega, fun _ => ⟨by omega, by omega⟩, fun c => by omega⟩]
  unfold positionalText
  dsimp only
  rw [if_pos (by omega), Int.toNat_natCast, toDigits_append_zeros hN0]

/-- **C123.** Integers up to `2^p`: converting one is exact in every mode; printing the result writes the decimal digits of the integer, unless it ends in more
than `width` zeros; and parsing those digits gives the same float, bit for bit, with no flag, in every mode. -/
theorem C123_integer_trip (h : S.OK) (hp : S.precision ≤ 120) {fuel : ℕ} (hfuel : 23 ≤ fuel) {n : ℕ} (hn : 0 < n) (hn2 : n ≤ 2 ^ S.precision)
    {width : Option ℕ} (hw0 : 0 < width.getD 3) (hw : ¬ 10 ^ (width.getD 3 + 1) ∣ n) (alt : Bool) (m1 m2 : Round) :
    ∃ x r, fromU128R S n m1 = .ok ⟨Status.OK, x⟩ ∧ x.display width none alt = .ok (Nat.toDigits 10 n) ∧
      fromStrR S fuel (Nat.toDigits 10 n) m2 = .ok (.ok ⟨Status.OK, r⟩) ∧ r.bitwiseEq x = true := by
  have hlt : n < 2 ^ 127 := lt_of_le_of_lt hn2 (Nat.pow_lt_pow_right (by norm_num) (by omega))
  have hn3 : |((n : ℤ) : ℚ)| ≤ 2 ^ S.precision := by
    rw [Int.cast_natCast, abs_of_nonneg (by positivity)]; exact_mod_cast hn2
  have hg : S.fmt.Grid (n : ℚ) := by exact_mod_cast grid_intq h hn3
  have hl : |(n : ℚ)| ≤ S.fmt.largest := by
    have := hn3.trans (pow_le_largest h)
    exact_mod_cast this
  have hpos : (0 : ℚ) < n := by exact_mod_cast hn
  obtain ⟨⟨st, x⟩, x1, x2, x3⟩ := C17_from_u128 h (lt_trans hlt (by norm_num)) m1
  obtain ⟨rfl, x4, x5⟩ := Rounds.exact x3 hg hl
  have xs : x.sign = false := x3.2.1 hpos
  obtain ⟨⟨st', r⟩, r1, r2, r3, r4⟩ := C121_literal h hp hfuel .none (toDigits_short hlt) (toDigits_isDec n) ⟨n, 0, Or.inl ⟨by simp, by simpa using hlt⟩⟩ m2
  obtain ⟨rfl, r5, r6⟩ := Rounds.exact (v := (n : ℚ)) r3 hg hl
  refine ⟨x, r, x1, ?_, by simpa [LitSign.chars] using r1, ?_⟩
  · have := C123_integer h x2 x4 (prec := none) rfl (by have := h.p_le; rw [Option.getD_none]; omega) hn ?_ ?_ hw0 hw alt
    · rw [this, xs]; rfl
    · rw [Option.getD_none]
      have h1 := default_digits h.p_le
      have h2 : 10 ^ (2 + S.precision * 59 / 196 - 1) ≤ 10 ^ (2 + S.precision * 59 / 196) := Nat.pow_le_pow_right (by norm_num) (by omega)
      omega
    · rw [x5, abs_of_pos hpos]
  · have hd : r.datum = x.datum := by
      rw [datum_finite r5, datum_finite x4, x5, r6, r4]
      rw [xs]; rfl
    rw [C03_bitwise_eq_iff_datum h r2 x2]
    · exact hd
    · rw [not_nan_iff, hd, datum_finite x4]; simp

/-- `299792458` in the double format, and what is printed for `1000000`, `1000` and `0.125`. -/
example := C123_integer_trip doubleS_ok (by decide) (le_refl 23) (n := 299792458) (by decide) (by decide) (width := none) (by decide) (by decide) false .towardZero .towardPositive
example : ((fromU128R doubleS 1000 .towardZero).toOption.map fun r => r.value.display none none false) = some (.ok "1000".toList) ∧
    ((fromU128R doubleS 1000000 .towardZero).toOption.map fun r => r.value.display none none false) = some (.ok "1.0E+6".toList) := by decide +kernel
example : layout 3 17 false 125 (-3) = "0.125".toList := by decide +kernel

end Apf
