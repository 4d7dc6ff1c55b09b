import Verif.Props.Debug
import Verif.Props.Compose
/-! # C98: what `is_exact` promises -/

namespace Apf
open Spec IeeeFloat
variable {S : Sem}

theorem datum_finite_iff {x y : IeeeFloat S} (hx : x.isFinite = true) (e : x.datum = y.datum) : y.isFinite = true ∧ y.sign = x.sign ∧ y.toRat = x.toRat := by
  rw [datum_finite hx] at e
  have hy : y.isFinite = true := by
    unfold datum at e
    unfold isFinite isNan isInfinite
    cases hc : y.category <;> simp_all
  rw [datum_finite hy] at e
  injection e with e1 e2
  exact ⟨hy, e1.symm, e2.symm⟩

/-- The way back from an integer. -/
theorem back_iff (h : S.OK) {x : IeeeFloat S} (hx : x.Valid) {m : Round} {n : ℤ} {b : StatusAnd (IeeeFloat S)} (hb : b.value.Valid)
    (hr : Rounds S m n false b) :
    (b.status = Status.OK ∧ b.value.bitwiseEq x = true) ↔ (x.isFinite = true ∧ x.toRat = n ∧ (n = 0 → x.sign = false)) := by
  obtain ⟨h1, h2⟩ := delivers_ok h hr
  constructor
  · rintro ⟨hs, he⟩
    obtain ⟨b1, b2⟩ := h2 (h1.1 hs)
    rw [C03_bitwise_eq_iff_datum h hb hx (not_nan_of_finite b1)] at he
    obtain ⟨a1, a2, a3⟩ := datum_finite_iff b1 he
    refine ⟨a1, by rw [a3, b2], fun hn => ?_⟩
    rw [a2]
    exact hr.2.2.2 (by rw [hn]; norm_num)
  · rintro ⟨fx, ex, hz⟩
    have hf : S.fmt.Finite (n : ℚ) := by rw [← ex]; exact ⟨grid_toRat h hx fx, abs_toRat_le h hx fx⟩
    obtain ⟨b1, b2⟩ := h2 hf
    refine ⟨h1.2 hf, same_bits h hb hx b1 fx ?_ (by rw [b2, ex])⟩
    by_cases hn : n = 0
    · rw [hz hn]
      exact hr.2.2.2 (by rw [hn]; norm_num)
    · exact sign_eq_of_scaled hb hx b1 fx (by rw [b2]; exact_mod_cast hn) one_pos (by rw [b2, ex, mul_one])

theorem exact_iff_of_converts {lo hi : ℤ} (h0 : lo ≤ hi) {mode : Round} {v : ℚ} {st : Status} {k : ℤ} {e : Bool} (hc : ConvertsToInt lo hi mode v st k e) :
    lo ≤ k ∧ k ≤ hi ∧ (e = true ↔ v = k) := by
  obtain ⟨n, h1, ⟨a1, a2, rfl, a4, -⟩ | ⟨a1, rfl, a3, -⟩ | ⟨a1, rfl, a3, -⟩⟩ := hc
  · exact ⟨a1, a2, a4.trans eq_comm⟩
  · refine ⟨le_refl _, h0, by simp [a3], fun q => ?_⟩
    rw [q] at h1
    have := h1.of_int
    omega
  · refine ⟨h0, le_refl _, by simp [a3], fun q => ?_⟩
    rw [q] at h1
    have := h1.of_int
    omega

theorem sign_of_not_neg_zero (h : S.OK) {x : IeeeFloat S} (hx : x.Valid) (fx : x.isFinite = true) (hz : ¬ (x.isZero = true ∧ x.sign = true)) (h0 : x.toRat = 0) :
    x.sign = false := by
  rcases isFinite_iff.1 fx with c | c
  · exact absurd h0 (toRat_ne_zero hx c)
  · cases hs : x.sign
    · rfl
    · exact absurd ⟨by simp [isZero, c], hs⟩ hz

/-- **C98.** `is_exact` of a conversion to an unsigned integer, of any value in any mode: it is set exactly when converting the integer back, in any mode,
succeeds without a flag and gives the original float, bit for bit. -/
theorem C98_to_u128 (h : S.OK) {x : IeeeFloat S} (hx : x.Valid) {w : ℕ} (w1 : 1 ≤ w) (w2 : w ≤ 128) (mode mode' : Round) :
    ∃ r b, toU128R x w mode = .ok r ∧ fromU128R S r.value mode' = .ok b ∧
      (r.isExact = true ↔ b.status = Status.OK ∧ b.value.bitwiseEq x = true) := by
  have hw : (2 : ℕ) ^ w ≤ 2 ^ 128 := Nat.pow_le_pow_right (by norm_num) w2
  have hw1 : (1 : ℕ) ≤ 2 ^ w := Nat.one_le_two_pow
  obtain ⟨s1, s2, s3, s4⟩ := C18_to_u128_specials (x := x) w1 w2 mode
  have key : ∀ (r : IntOut ℕ), toU128R x w mode = .ok r → r.value < 2 ^ 128 → (r.isExact = true ↔ (x.isFinite = true ∧ x.toRat = (r.value : ℤ) ∧
      ((r.value : ℤ) = 0 → x.sign = false))) → ∃ r b, toU128R x w mode = .ok r ∧ fromU128R S r.value mode' = .ok b ∧
      (r.isExact = true ↔ b.status = Status.OK ∧ b.value.bitwiseEq x = true) := by
    intro r hr hlt hiff
    obtain ⟨b, b1, b2, b3⟩ := C17_from_u128 h hlt mode'
    exact ⟨r, b, hr, b1, hiff.trans (back_iff h hx (n := (r.value : ℤ)) b2 (by simpa using b3)).symm⟩
  have hwz : (2 : ℤ) ^ w ≤ 2 ^ 128 := by exact_mod_cast hw
  have hwz1 : (1 : ℤ) ≤ 2 ^ w := by exact_mod_cast hw1
  by_cases fx : x.isFinite = true
  · by_cases hz : x.isZero = true ∧ x.sign = true
    · exact key _ (s1 hz.1 hz.2) (by norm_num) (by simp [hz.2])
    · obtain ⟨r, r1, r2⟩ := C18_to_u128 h hx fx hz w1 w2 mode
      obtain ⟨k1, k2, k3⟩ := exact_iff_of_converts (by omega) r2
      refine key r r1 (by omega) (k3.trans ⟨fun q => ⟨fx, q, fun q0 => ?_⟩, fun q => q.2.1⟩)
      exact sign_of_not_neg_zero h hx fx hz (by rw [q, q0]; norm_num)
  · by_cases hn : x.isNan = true
    · exact key _ (s2 hn) (by norm_num) (by simp [fx])
    · have hi : x.isInfinite = true := by simp [isFinite, hn] at fx; exact fx
      cases hs : x.sign
      · exact key _ (s4 hi hs) (by show 2 ^ w - 1 < 2 ^ 128; omega) (by simp [fx])
      · exact key _ (s3 hi hs) (by norm_num) (by simp [fx])

/-- **C98.** The same for signed integers, except for negative zero. -/
theorem C98_to_i128_partial (h : S.OK) {x : IeeeFloat S} (hx : x.Valid) (hz : ¬ (x.isZero = true ∧ x.sign = true)) {w : ℕ} (w1 : 2 ≤ w) (w2 : w ≤ 128)
    (mode mode' : Round) :
    ∃ r b, toI128R x w mode = .ok r ∧ fromI128R S r.value mode' = .ok b ∧
      (r.isExact = true ↔ b.status = Status.OK ∧ b.value.bitwiseEq x = true) := by
  have hw : (2 : ℤ) ^ (w - 1) ≤ 2 ^ 127 := pow_le_pow_right₀ (by norm_num) (by omega)
  have hw1 : (1 : ℤ) ≤ 2 ^ (w - 1) := one_le_pow₀ (by norm_num)
  obtain ⟨s2, s3, s4⟩ := C19_to_i128_specials (x := x) w1 w2 mode
  have key : ∀ (r : IntOut ℤ), toI128R x w mode = .ok r → -2 ^ (w - 1) ≤ r.value → r.value ≤ 2 ^ (w - 1) - 1 → (r.isExact = true ↔ (x.isFinite = true ∧
      x.toRat = r.value ∧ (r.value = 0 → x.sign = false))) → ∃ r b, toI128R x w mode = .ok r ∧ fromI128R S r.value mode' = .ok b ∧
      (r.isExact = true ↔ b.status = Status.OK ∧ b.value.bitwiseEq x = true) := by
    intro r hr l1 l2 hiff
    obtain ⟨b, b1, b2, b3⟩ := C17_from_i128 h (n := r.value) (by omega) (by omega) mode'
    exact ⟨r, b, hr, b1, hiff.trans (back_iff h hx b2 b3).symm⟩
  by_cases fx : x.isFinite = true
  · obtain ⟨r, r1, r2⟩ := C19_to_i128 h hx fx w1 w2 mode
    obtain ⟨k1, k2, k3⟩ := exact_iff_of_converts (by omega) r2
    refine key r r1 k1 k2 (k3.trans ⟨fun q => ⟨fx, q, fun q0 => ?_⟩, fun q => q.2.1⟩)
    exact sign_of_not_neg_zero h hx fx hz (by rw [q, q0]; norm_num)
  · by_cases hn : x.isNan = true
    · exact key _ (s2 hn) (by show _ ≤ (0 : ℤ); omega) (by show (0 : ℤ) ≤ _; omega) (by simp [fx])
    · have hi : x.isInfinite = true := by simp [isFinite, hn] at fx; exact fx
      cases hs : x.sign
      · exact key _ (s4 hi hs) (by show _ ≤ (2 : ℤ) ^ (w - 1) - 1; omega) (le_refl _) (by simp [fx])
      · exact key _ (s3 hi hs) (le_refl _) (by show -(2 : ℤ) ^ (w - 1) ≤ _; omega) (by simp [fx])

/-- Negative zero: `is_exact` is set although the way back gives positive zero (in every format, width and mode). -/
theorem C98_to_i128_neg_zero (h : S.OK) {x : IeeeFloat S} (hx : x.Valid) (hz : x.isZero = true) (hs : x.sign = true) {w : ℕ} (w1 : 2 ≤ w) (w2 : w ≤ 128)
    (mode mode' : Round) :
    toI128R x w mode = .ok ⟨Status.OK, 0, true⟩ ∧ ∃ b, fromI128R S 0 mode' = .ok ⟨Status.OK, b⟩ ∧ b.isZero = true ∧ b.sign = false := by
  have c : x.category = .zero := by simpa [isZero] using hz
  have fx : x.isFinite = true := isFinite_iff.2 (Or.inr c)
  have hw1 : (1 : ℤ) ≤ 2 ^ (w - 1) := one_le_pow₀ (by norm_num)
  constructor
  · obtain ⟨r, r1, n, r2, r3⟩ := C19_to_i128 h hx fx w1 w2 mode
    rw [toRat_zero c] at r2 r3
    have e : n = 0 := Spec.RoundsToInt.of_int (n := 0) (by simpa using r2)
    subst e
    rcases r3 with ⟨-, -, a3, a4, a5⟩ | ⟨a1, -⟩ | ⟨a1, -⟩
    · rw [r1]
      obtain ⟨st, v, ex⟩ := r
      simp only at a3 a4 a5
      rw [a3, a4.2 (by norm_num), a5]
      simp [Status.OK]
    · omega
    · omega
  · obtain ⟨b, b1, b2, b3⟩ := C17_from_i128 h (n := 0) (by norm_num) (by norm_num) mode'
    obtain ⟨h1, h2⟩ := delivers_ok h b3
    have hf : S.fmt.Finite ((0 : ℤ) : ℚ) := by
      have := abs_toRat_le h (zero_valid (S := S)) rfl
      exact ⟨by simpa using grid_zero, by simpa [ZERO, toRat] using this⟩
    obtain ⟨f1, f2⟩ := h2 hf
    refine ⟨b.value, by rw [b1]; congr 1; rw [← h1.2 hf], ?_, b3.2.2.2 (by norm_num)⟩
    rcases isFinite_iff.1 f1 with q | q
    · exact absurd (by rw [f2]; norm_num) (toRat_ne_zero b2 q)
    · simp [isZero, q]

/-- Without the flag of the way back `is_exact` would not be what the documentation says: `2^127` in `Single` saturates in 127 bits, and the saturated integer rounds back
to `2^127`, with `INEXACT`. -/
theorem C98_saturated_trip : ∃ x : IeeeFloat singleS, x.Valid ∧ toU128R x 127 .towardZero = .ok ⟨Status.INVALID_OP, 2 ^ 127 - 1, false⟩ ∧
    fromU128R singleS (2 ^ 127 - 1) .nearestTiesToEven = .ok ⟨Status.INEXACT, x⟩ :=
  ⟨⟨2 ^ 23, 127, .normal, false⟩, by decide, by decide +kernel, by decide +kernel⟩

example := C98_to_u128 singleS_ok ex15_valid (w := 8) (by norm_num) (by norm_num) .towardZero .towardZero
example : ∃ r b, toU128R ex15 8 .towardZero = .ok r ∧ fromU128R singleS r.value .towardZero = .ok b ∧ r.isExact = false ∧ b.status = Status.OK ∧
    b.value.bitwiseEq ex15 = false := ⟨⟨Status.INEXACT, 1, false⟩, ⟨Status.OK, ⟨2 ^ 23, 0, .normal, false⟩⟩, by decide +kernel, by decide +kernel, rfl, rfl, rfl⟩
example := C98_to_i128_partial singleS_ok exM3_valid (by decide) (w := 8) (by norm_num) (by norm_num) .towardZero .towardPositive
example : ∃ r b, toI128R exM3 8 .towardZero = .ok r ∧ fromI128R singleS r.value .towardZero = .ok b ∧ r.isExact = true ∧ b.status = Status.OK ∧
    b.value.bitwiseEq exM3 = true := ⟨⟨Status.OK, -3, true⟩, ⟨Status.OK, exM3⟩, by decide +kernel, by decide +kernel, rfl, rfl, rfl⟩
example := C98_to_i128_neg_zero singleS_ok (x := (ZERO singleS).neg) (by decide) rfl rfl (w := 32) (by norm_num) (by norm_num) .towardZero .towardZero

end Apf
