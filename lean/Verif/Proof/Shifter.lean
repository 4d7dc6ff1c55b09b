import Verif.Proof.TwoSum
import Verif.Spec.Int
/-!
# Adding a large constant rounds to a multiple of its unit
-/

namespace Apf
open Spec
variable {F : Fmt}

/-- The rounding of `v`, of magnitude from `2^(p-1)` to `2^p` units `2^k`, is a multiple of the unit, and which one. -/
theorem round_unit (hp : 3 ≤ F.p) {k : ℤ} (hk : F.emin - F.p + 1 ≤ k) {mode : Round} {v g : ℚ} (lo : 2 ^ ((F.p : ℤ) - 1 + k) ≤ v)
    (hi : v ≤ 2 ^ ((F.p : ℤ) + k)) (hg : IsRounded F mode v g) :
    ∃ N : ℤ, g = N * 2 ^ k ∧ 2 ^ ((F.p : ℤ) - 1 + k) ≤ g ∧ g ≤ 2 ^ ((F.p : ℤ) + k) ∧
      match mode with
      | .towardNegative => g ≤ v ∧ v < g + 2 ^ k
      | .towardPositive => g - 2 ^ k < v ∧ v ≤ g
      | .towardZero => g ≤ v ∧ v < g + 2 ^ k
      | .nearestTiesToEven => 2 * |v - g| ≤ 2 ^ k ∧ (2 * |v - g| = 2 ^ k → N % 2 = 0)
      | .nearestTiesToAway => 2 * |v - g| ≤ 2 ^ k ∧ (2 * |v - g| = 2 ^ k → v < g) := by
  have u0 : (0 : ℚ) < 2 ^ k := by positivity
  have l0 : (0 : ℚ) < 2 ^ ((F.p : ℤ) - 1 + k) := by positivity
  have g1 : 2 ^ ((F.p : ℤ) - 1 + k) ≤ g := hg.ge_of_grid (grid_two_pow (by omega) (by omega)) lo
  have g2 : g ≤ 2 ^ ((F.p : ℤ) + k) := hg.le_of_grid (grid_two_pow (by omega) (by omega)) hi
  have gm : Mult k g := mult_of_grid_ge hg.1 (by rw [abs_of_pos (l0.trans_le g1)]; exact g1)
  obtain ⟨N, hN⟩ := gm
  have um : Mult k ((2 : ℚ) ^ k) := ⟨1, by simp⟩
  have ul : (2 : ℚ) ^ k ≤ 2 ^ ((F.p : ℤ) - 1 + k) := zpow_le_zpow_right₀ (by norm_num) (by omega)
  have up : g + 2 ^ k ≤ 2 ^ ((F.p : ℤ) + k) → F.Grid (g + 2 ^ k) := fun c =>
    grid_of_mult (by omega) (Mult.add ⟨N, hN⟩ um) hk (by rw [abs_of_pos (by linarith)]; exact c)
  have dn : F.Grid (g - 2 ^ k) :=
    grid_of_mult (by omega) (Mult.sub ⟨N, hN⟩ um) hk (by rw [abs_of_nonneg (by linarith)]; linarith)
  have up' : g < v → F.Grid (g + 2 ^ k) := fun c => up (by
    have := Mult.lt_iff (j := (F.p : ℤ) + k) ⟨N, hN⟩ (by omega) (by rw [abs_of_pos (by linarith)]; linarith)
    rw [abs_of_pos (by linarith)] at this
    linarith)
  have near : (∀ g', F.Grid g' → |v - g| ≤ |v - g'|) → 2 * |v - g| ≤ 2 ^ k := fun c => by
    rcases lt_trichotomy g v with d | d | d
    · have := c _ (up' d)
      rw [abs_of_pos (by linarith : 0 < v - g)] at this ⊢
      rcases abs_cases (v - (g + 2 ^ k)) with e | e <;> linarith
    · rw [d]; simp [u0.le]
    · have := c _ dn
      rw [abs_of_neg (by linarith : v - g < 0)] at this ⊢
      rcases abs_cases (v - (g - 2 ^ k)) with e | e <;> linarith
  have other : 2 * |v - g| = 2 ^ k → ∃ g', F.Grid g' ∧ g' ≠ g ∧ |v - g'| = |v - g| ∧ (v < g ∨ g < g') := fun c => by
    rcases lt_trichotomy g v with d | d | d
    · rw [abs_of_pos (by linarith : 0 < v - g)] at c ⊢
      refine ⟨_, up' d, by linarith [u0] |> fun (_ : (0:ℚ) < 2 ^ k) => by intro e; linarith, ?_, Or.inr (by linarith)⟩
      rw [abs_of_neg (by linarith)]; linarith
    · rw [d] at c; simp at c; exact absurd c.symm u0.ne'
    · rw [abs_of_neg (by linarith : v - g < 0)] at c ⊢
      refine ⟨_, dn, by intro e; linarith, ?_, Or.inl d⟩
      rw [abs_of_pos (by linarith)]; linarith
  refine ⟨N, hN, g1, g2, ?_⟩
  cases mode with
  | towardNegative =>
    refine ⟨hg.2.1, lt_of_not_ge fun c => ?_⟩
    have := hg.2.2 _ (up (c.trans hi)) c
    linarith
  | towardPositive =>
    refine ⟨lt_of_not_ge fun c => ?_, hg.2.1⟩
    have := hg.2.2 _ dn c
    linarith
  | towardZero =>
    obtain ⟨a, b⟩ := hg.2.1 (by linarith)
    refine ⟨a, lt_of_not_ge fun c => ?_⟩
    have := b _ (up (c.trans hi)) c
    linarith
  | nearestTiesToEven =>
    refine ⟨near hg.2.1, fun c => ?_⟩
    obtain ⟨g', a1, a2, a3, -⟩ := other c
    obtain ⟨m, j, b1, b2, b3⟩ := hg.2.2 _ a1 a2 a3
    have hj : k ≤ j := by
      by_contra hc
      have h1 : |g| < 2 ^ ((F.p : ℤ) + j) := by
        rw [b3, abs_mul, abs_of_pos (by positivity : (0:ℚ) < 2 ^ j), two_zpow_add (F.p : ℤ) j]
        refine mul_lt_mul_of_pos_right ?_ (by positivity)
        have : ((|2 * m| : ℤ) : ℚ) < ((2 ^ F.p : ℤ) : ℚ) := by exact_mod_cast b1
        push_cast at this
        rw [zpow_natCast]; exact this
      have h2 : (2 : ℚ) ^ ((F.p : ℤ) + j) ≤ 2 ^ ((F.p : ℤ) - 1 + k) := zpow_le_zpow_right₀ (by norm_num) (by omega)
      rw [abs_of_pos (by linarith)] at h1
      linarith
    obtain ⟨i, rfl⟩ : ∃ i : ℕ, j = i + k := ⟨(j - k).toNat, by omega⟩
    have : (N : ℚ) = ((2 * m * 2 ^ i : ℤ) : ℚ) := by
      have := hN.symm.trans b3
      rw [two_zpow_add (i : ℤ) k, zpow_natCast, ← mul_assoc] at this
      push_cast
      exact mul_right_cancel₀ u0.ne' this
    have : N = 2 * (m * 2 ^ i) := by rw [← mul_assoc]; exact_mod_cast this
    omega
  | nearestTiesToAway =>
    refine ⟨near hg.2.1, fun c => ?_⟩
    obtain ⟨g', a1, a2, a3, a4⟩ := other c
    have := hg.2.2 _ a1 a2 a3
    refine a4.resolve_right fun e => ?_
    rw [abs_of_pos (by linarith), abs_of_pos (by linarith)] at this
    linarith

end Apf
