import Verif.Proof.OverflowSum
import Verif.Props.Accumulate
/-!
# C137: what can be added to one
-/

namespace Apf
open Spec IeeeFloat
variable {F : Fmt} {S : Sem}

/-- The number after one is `1 + 2^(1-p)`. -/
theorem grid_above_one {g : ℚ} (hg : F.Grid g) (hc : 1 < g) : 1 + (2 : ℚ) ^ (1 - (F.p : ℤ)) ≤ g := by
  obtain ⟨n, hn⟩ := mult_of_grid_ge hg (k := 1 - F.p) (by
    rw [show (F.p : ℤ) - 1 + (1 - F.p) = 0 by ring, zpow_zero, abs_of_pos (by linarith)]; exact hc.le)
  have u0 : (0 : ℚ) < 2 ^ (1 - (F.p : ℤ)) := by positivity
  by_cases hp : 1 ≤ F.p
  · obtain ⟨j, hj⟩ := Nat.exists_eq_add_of_le hp
    have e : (1 : ℚ) = ((2 ^ j : ℤ) : ℚ) * 2 ^ (1 - (F.p : ℤ)) := by
      push_cast
      rw [← zpow_natCast, ← two_zpow_add, show ((j : ℕ) : ℤ) + (1 - (F.p : ℤ)) = 0 by omega, zpow_zero]
    have : (2 ^ j : ℤ) < n := by
      by_contra c
      have c' : (n : ℚ) ≤ ((2 ^ j : ℤ) : ℚ) := by exact_mod_cast not_lt.1 c
      have := mul_le_mul_of_nonneg_right c' u0.le
      linarith
    have c' : ((2 ^ j : ℤ) : ℚ) + 1 ≤ n := by exact_mod_cast this
    have := mul_le_mul_of_nonneg_right c' u0.le
    rw [add_mul, one_mul, ← e, ← hn] at this
    exact this
  · exfalso
    obtain ⟨m, k, h1, -, h3⟩ := hg
    have : F.p = 0 := by omega
    rw [this, pow_zero] at h1
    have m0 : m = 0 := Int.abs_lt_one_iff.1 h1
    rw [m0] at h3
    simp at h3
    linarith

/-- The sum of one and `y` is rounded to something above one exactly when `y` is large enough for the mode. -/
theorem epsilon_rounded (hp : 2 ≤ F.p) (hm : F.emin ≤ 0) {mode : Round} {y g : ℚ} (y0 : 0 < y) (hg : IsRounded F mode (1 + y) g) :
    1 ≤ g ∧ (1 < g ↔ match mode with
      | .nearestTiesToEven => (2 : ℚ) ^ (-(F.p : ℤ)) < y
      | .nearestTiesToAway => (2 : ℚ) ^ (-(F.p : ℤ)) ≤ y
      | .towardPositive => True
      | .towardNegative | .towardZero => (2 : ℚ) ^ (1 - (F.p : ℤ)) ≤ y) := by
  have gone : F.Grid 1 := by simpa using grid_two_pow (F := F) (k := 0) (by omega) (by omega)
  have g1 : 1 ≤ g := hg.ge_of_grid gone (by linarith)
  obtain ⟨j, hj⟩ := Nat.exists_eq_add_of_le hp
  have hu : (2 : ℚ) ^ (1 - (F.p : ℤ)) = 2 * 2 ^ (-(F.p : ℤ)) := by rw [sub_eq_add_neg, zpow_add₀ (by norm_num), zpow_one]
  have w0 : (0 : ℚ) < 2 ^ (-(F.p : ℤ)) := by positivity
  have eu : 1 + (2 : ℚ) ^ (1 - (F.p : ℤ)) = ((2 ^ (F.p - 1) + 1 : ℤ) : ℚ) * 2 ^ (1 - (F.p : ℤ)) := by
    push_cast
    rw [add_mul, one_mul, ← zpow_natCast, ← two_zpow_add, show ((F.p - 1 : ℕ) : ℤ) + (1 - (F.p : ℤ)) = 0 by omega, zpow_zero]
  have gu : F.Grid (1 + (2 : ℚ) ^ (1 - (F.p : ℤ))) := by
    refine ⟨2 ^ (F.p - 1) + 1, 1 - F.p, ?_, by omega, eu⟩
    rw [abs_of_pos (by positivity), hj, show 2 + j - 1 = j + 1 by omega, show 2 + j = j + 2 by omega, pow_succ, pow_add]
    have : (1 : ℤ) ≤ 2 ^ j := by exact_mod_cast Nat.one_le_two_pow
    linarith
  have ne : ¬ F.EvenGrid (1 + (2 : ℚ) ^ (1 - (F.p : ℤ))) := by
    rw [eu]
    refine not_even ?_ ?_ (by omega)
    · rw [hj, show 2 + j - 1 = j + 1 by omega, pow_succ]; omega
    · rw [abs_of_pos (by positivity)]; omega
  rw [hu] at gu ne ⊢
  have up : 1 < g → 1 + 2 * (2 : ℚ) ^ (-(F.p : ℤ)) ≤ g := fun c => by rw [← hu]; exact grid_above_one hg.1 c
  generalize (2 : ℚ) ^ (-(F.p : ℤ)) = w at *
  refine ⟨g1, ?_⟩
  obtain ⟨gg, hr⟩ := hg
  have one_or : ¬ 1 < g → g = 1 := fun c => le_antisymm (not_lt.1 c) g1
  have near : ∀ (_ : ∀ t, F.Grid t → |1 + y - g| ≤ |1 + y - t|), (1 < g → w ≤ y) ∧ (w < y → 1 < g) := fun hn => by
    refine ⟨fun c => ?_, fun c => ?_⟩
    · have a := hn 1 gone
      have b := up c
      rw [show 1 + y - 1 = y by ring, abs_of_pos y0] at a
      have := neg_abs_le (1 + y - g)
      linarith
    · by_contra d
      have a := hn _ gu
      rw [one_or d, show 1 + y - 1 = y by ring, abs_of_pos y0] at a
      have : |1 + y - (1 + 2 * w)| < y := by rw [abs_lt]; constructor <;> linarith
      linarith
  cases mode with
  | towardPositive => exact ⟨fun _ => trivial, fun _ => by have := hr.1; linarith⟩
  | towardNegative => exact ⟨fun c => by have := up c; have := hr.1; linarith, fun c => by have := hr.2 _ gu (by linarith); linarith⟩
  | towardZero =>
    have hr := hr.1 (by linarith)
    exact ⟨fun c => by have := up c; have := hr.1; linarith, fun c => by have := hr.2 _ gu (by linarith); linarith⟩
  | nearestTiesToEven =>
    obtain ⟨n1, n2⟩ := near hr.1
    refine ⟨fun c => lt_of_le_of_ne (n1 c) fun e => ne ?_, n2⟩
    have a := hr.1 1 gone
    have b := up c
    rw [show 1 + y - 1 = y by ring, abs_of_pos y0] at a
    have d := neg_abs_le (1 + y - g)
    have eg : g = 1 + 2 * w := by linarith
    rw [← eg]
    refine hr.2 1 gone (by linarith) ?_
    rw [show 1 + y - 1 = y by ring, abs_of_pos y0, eg, show 1 + y - (1 + 2 * w) = -y by linarith, abs_neg, abs_of_pos y0]
  | nearestTiesToAway =>
    obtain ⟨n1, n2⟩ := near hr.1
    refine ⟨n1, fun c => ?_⟩
    rcases lt_or_eq_of_le c with c | c
    · exact n2 c
    · by_contra d
      have e := one_or d
      have := hr.2 _ gu (by rw [e]; linarith) (by rw [e, show 1 + y - 1 = y by ring, show 1 + y - (1 + 2 * w) = -y by linarith, abs_neg])
      rw [e, abs_one, abs_of_pos (by linarith)] at this
      linarith

/-- **C137.** Which positive numbers, up to one, make a difference when added to one, as comparing the sum with one shows: those above `2^-p` (ties to even), from `2^-p` on
(ties away from zero), from `2^(1-p)` on (toward zero or down), all (up). -/
theorem C137_epsilon (h : S.OK) {one y : IeeeFloat S} (h1 : one.Valid) (f1 : one.isFinite = true) (e1 : one.toRat = 1) (hy : y.Valid) (fy : y.isFinite = true)
    (y0 : 0 < y.toRat) (y1 : y.toRat ≤ 1) (mode : Round) :
    ∃ r, addR one y mode = .ok r ∧ (partialCmp r.value one = .ok (some .gt) ∨ partialCmp r.value one = .ok (some .eq)) ∧
      (partialCmp r.value one = .ok (some .gt) ↔ match mode with
        | .nearestTiesToEven => (2 : ℚ) ^ (-(S.precision : ℤ)) < y.toRat
        | .nearestTiesToAway => (2 : ℚ) ^ (-(S.precision : ℤ)) ≤ y.toRat
        | .towardPositive => True
        | .towardNegative | .towardZero => (2 : ℚ) ^ (1 - (S.precision : ℤ)) ≤ y.toRat) := by
  have hp := h.p_ge
  have bl : |1 + y.toRat| ≤ S.fmt.largest := by
    have := pow_le_largest' h
    have : (0 : ℚ) < 2 ^ S.precision := by positivity
    rw [abs_of_pos (by linarith)]
    linarith
  obtain ⟨r, r1, r2, r3⟩ := addR_finite h h1 hy f1 fy mode (directedOK_of_ge h _ (by rw [e1]; exact (_root_.abs_le.1 bl).1))
  rw [e1] at r3
  obtain ⟨x1, x2, -⟩ := rounds_fine h r3 bl
  obtain ⟨a, b⟩ := epsilon_rounded (F := S.fmt) (by rw [fmt_p]; omega) (by rw [fmt_emin]; exact h.min_lt.le) y0 x2
  have c : partialCmp r.value one = .ok (some .gt) ↔ 1 < r.value.toRat := by
    rw [partialCmp_finite h r2 h1 x1 f1, e1]
    constructor
    · intro z; injection z with z; injection z with z; exact compare_gt_iff_gt.1 z
    · intro z; rw [compare_gt_iff_gt.2 z]
  refine ⟨r, r1, ?_, c.trans (b.trans (by cases mode <;> exact Iff.rfl))⟩
  rcases lt_or_eq_of_le a with d | d
  · exact Or.inl (c.2 d)
  · right; rw [partialCmp_finite h r2 h1 x1 f1, e1, ← d, compare_eq_iff_eq.2 rfl]

/-! In single precision: the number after `2^-24`, and `2^-24`. -/
example := C137_epsilon singleS_ok (one := ⟨2 ^ 23, 0, .normal, false⟩) (y := ⟨2 ^ 23 + 1, -24, .normal, false⟩) (by decide) rfl (by decide +kernel) (by decide) rfl
  (by decide +kernel) (by decide +kernel) .nearestTiesToEven
example : ∃ r, addR (⟨2 ^ 23, 0, .normal, false⟩ : IeeeFloat singleS) ⟨2 ^ 23, -24, .normal, false⟩ .nearestTiesToAway = .ok r ∧
    partialCmp r.value ⟨2 ^ 23, 0, .normal, false⟩ = .ok (some .gt) := by
  obtain ⟨r, r1, -, r2⟩ := C137_epsilon singleS_ok (one := ⟨2 ^ 23, 0, .normal, false⟩) (y := ⟨2 ^ 23, -24, .normal, false⟩) (by decide) rfl (by decide +kernel) (by decide) rfl
    (by decide +kernel) (by decide +kernel) .nearestTiesToAway
  exact ⟨r, r1, r2.2 (by decide +kernel)⟩

end Apf
