import Verif.Spec.EuclidPair
import Verif.Props.Euclid
import Verif.Props.PpcOps
/-!
# C143: Euclid's algorithm with DoubleDouble values
-/

namespace Apf
open Spec
variable {S : Sem}

theorem pair_isZero_iff (h : S.OK) {x : DoubleFloat S} (hx : x.Fits) : x.isZero = true ↔ x.toRat = 0 := by
  rw [← Canonical.hi_zero_iff h hx.1 hx.2.1]
  exact isZero_iff_nat hx.1.1 hx.2.1.1.1

/-- **C143.** On DoubleDouble integers of at most 106 significant bits, too. -/
theorem C143_gcd_pair (h : S.Pair) : ∀ (n a b : ℕ) (x y : DoubleFloat S), x.Fits → y.Fits → x.toRat = a → y.toRat = b → b < n →
    ∃ g, euclidPair n x y = .ok (some g) ∧ g.Fits ∧ g.toRat = ((Nat.gcd a b : ℕ) : ℚ)
  | 0, _, _, _, _, _, _, _, _, hn => absurd hn (by omega)
  | n + 1, a, b, x, y, vx, vy, ex, ey, hn => by
    rw [euclidPair]
    by_cases z : y.isZero = true
    · have := (pair_isZero_iff h.ok vy).1 z
      rw [ey] at this
      obtain rfl : b = 0 := by exact_mod_cast this
      exact ⟨x, by rw [if_pos z], vx, by rw [ex, Nat.gcd_zero_right]⟩
    · have b0 : b ≠ 0 := fun c => z ((pair_isZero_iff h.ok vy).2 (by rw [ey, c]; simp))
      have b0' : (b : ℤ) ≠ 0 := by omega
      obtain ⟨r, r1, r2, -, k, r5, r6⟩ := C52_c_fmod h vx vy (by rw [ey]; exact_mod_cast b0)
      have r7 : r.toRat = ((a % b : ℕ) : ℚ) := by
        rw [ex, ey] at r5 r6
        have := r5.unique (by simpa using rounds_tdiv (a := a) (b := b) b0')
        subst this
        rw [r6, sub_eq_iff_eq_add]
        have e := Nat.mod_add_div a b
        have t : (((a : ℤ) / b : ℤ) : ℚ) = ((a / b : ℕ) : ℚ) := by norm_cast
        rw [t, mul_comm]
        exact_mod_cast e.symm
      have lt := Nat.mod_lt a (Nat.pos_of_ne_zero b0)
      obtain ⟨g, g1, g2, g4⟩ := C143_gcd_pair h n b (a % b) y r vy r2 ey r7 (by omega)
      refine ⟨g, by rw [if_neg z, r1, M.ok_bind]; exact g1, g2, ?_⟩
      rw [g4, Nat.gcd_comm b, ← Nat.gcd_rec, Nat.gcd_comm]

theorem doubleS_below {v : ℚ} (h : v ≤ 2 ^ 100) : v < doubleS.fmt.overflowAt := by
  show v < (2 : ℚ) ^ ((1023 : ℤ) + 1) - 2 ^ ((1023 : ℤ) - 53)
  rw [show ((1023 : ℤ) + 1) = 54 + 970 by norm_num, show ((1023 : ℤ) - 53) = 970 by norm_num, two_zpow_add 54 970]
  have : (2 : ℚ) ^ 100 < 2 ^ (970 : ℤ) := by
    rw [← zpow_natCast]
    exact (zpow_lt_zpow_iff_right₀ (by norm_num)).2 (by norm_num)
  have w0 := two_zpow_pos 970
  generalize (2 : ℚ) ^ (970 : ℤ) = w at *
  generalize (2 : ℚ) ^ 100 = u at *
  have : (0 : ℚ) < 2 ^ (54 : ℤ) - 2 := by norm_num
  nlinarith

/-! `2^60 - 1` (the pair of `2^60` and `-1`) and `3 * 2^10`. -/

theorem fits_mersenne : (⟨⟨2 ^ 52, 60, .normal, false⟩, ⟨2 ^ 52, 0, .normal, true⟩⟩ : DoubleDouble).Fits ∧
    (⟨⟨2 ^ 52, 60, .normal, false⟩, ⟨2 ^ 52, 0, .normal, true⟩⟩ : DoubleDouble).toRat = ((2 ^ 60 - 1 : ℕ) : ℚ) := by
  obtain ⟨d, d1, d2, d3, -⟩ := ofFallback_fits doubleS_pair (x := ⟨2 ^ 106 - 2 ^ 46, 59, .normal, false⟩) (by decide +kernel) rfl (by
    apply doubleS_below
    norm_num [IeeeFloat.toRat, signed, fallbackS, doubleS, Sem.default])
  have e : d = ⟨⟨2 ^ 52, 60, .normal, false⟩, ⟨2 ^ 52, 0, .normal, true⟩⟩ := by
    have : DoubleFloat.ofFallback (S := doubleS) ⟨2 ^ 106 - 2 ^ 46, 59, .normal, false⟩ =
        .ok ⟨⟨2 ^ 52, 60, .normal, false⟩, ⟨2 ^ 52, 0, .normal, true⟩⟩ := by decide +kernel
    rw [this] at d1; cases d1; rfl
  subst e
  refine ⟨d2, ?_⟩
  rw [d3]
  norm_num [IeeeFloat.toRat, signed, fallbackS, doubleS, Sem.default]

theorem fits_3072 : (⟨⟨3 * 2 ^ 51, 11, .normal, false⟩, IeeeFloat.ZERO doubleS⟩ : DoubleDouble).Fits ∧
    (⟨⟨3 * 2 ^ 51, 11, .normal, false⟩, IeeeFloat.ZERO doubleS⟩ : DoubleDouble).toRat = ((3072 : ℕ) : ℚ) := by
  obtain ⟨d, d1, d2, d3, -⟩ := ofFallback_fits doubleS_pair (x := ⟨3 * 2 ^ 104, 11, .normal, false⟩) (by decide +kernel) rfl (by
    apply doubleS_below
    norm_num [IeeeFloat.toRat, signed, fallbackS, doubleS, Sem.default])
  have e : d = ⟨⟨3 * 2 ^ 51, 11, .normal, false⟩, IeeeFloat.ZERO doubleS⟩ := by
    have : DoubleFloat.ofFallback (S := doubleS) ⟨3 * 2 ^ 104, 11, .normal, false⟩ =
        .ok ⟨⟨3 * 2 ^ 51, 11, .normal, false⟩, IeeeFloat.ZERO doubleS⟩ := by decide +kernel
    rw [this] at d1; cases d1; rfl
  subst e
  refine ⟨d2, ?_⟩
  rw [d3]
  norm_num [IeeeFloat.toRat, signed, fallbackS, doubleS, Sem.default]

example := C143_gcd_pair doubleS_pair 3073 (2 ^ 60 - 1) 3072 _ _ fits_mersenne.1 fits_3072.1 fits_mersenne.2 fits_3072.2 (by omega)

end Apf
