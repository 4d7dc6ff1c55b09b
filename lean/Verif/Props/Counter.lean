import Verif.Spec.Counter
import Verif.Props.Absorb
import Verif.Props.Accumulate
/-!
# C134: a counter kept in a float
-/

namespace Apf
open Spec IeeeFloat
variable {F : Fmt} {S : Sem}

/-- Above `2^p` the numbers of the format are even. -/
theorem grid_above_pow (hp : 1 ≤ F.p) {g : ℚ} (hg : F.Grid g) (hc : (2 : ℚ) ^ F.p < g) : (2 : ℚ) ^ F.p + 2 ≤ g := by
  have g0 : 0 < g := lt_trans (by positivity) hc
  obtain ⟨n, hn⟩ := mult_of_grid_ge hg (k := 1) (by rw [abs_of_pos g0, sub_add_cancel, zpow_natCast]; exact hc.le)
  obtain ⟨j, hj⟩ := Nat.exists_eq_add_of_le hp
  rw [zpow_one] at hn
  have e : (2 : ℚ) ^ F.p = 2 * ((2 ^ j : ℤ) : ℚ) := by rw [hj, pow_add]; push_cast; ring
  rw [e, hn] at hc ⊢
  have : (2 ^ j : ℤ) < n := by
    have : ((2 ^ j : ℤ) : ℚ) < n := by linarith
    exact_mod_cast this
  have : ((2 ^ j : ℤ) : ℚ) + 1 ≤ n := by exact_mod_cast this
  linarith

theorem grid_pow (hp : 2 ≤ F.p) (hm : F.emin ≤ 0) : F.EvenGrid ((2 : ℚ) ^ F.p) := by
  refine ⟨1, F.p - 1, ?_, by omega, ?_⟩
  · calc |2 * (1 : ℤ)| = 2 := by norm_num
      _ < 2 ^ 2 := by norm_num
      _ ≤ 2 ^ F.p := by gcongr; norm_num
  · rw [show (2 : ℚ) ^ F.p = 2 ^ ((F.p : ℤ) - 1 + 1) by rw [sub_add_cancel, zpow_natCast], zpow_add₀ (by norm_num)]
    push_cast; ring

/-- `2^p + 1` is rounded back to `2^p`, except upwards and with ties away from zero. -/
theorem rounded_succ (hp : 2 ≤ F.p) (hm : F.emin ≤ 0) {mode : Round} (h1 : mode ≠ .towardPositive) (h2 : mode ≠ .nearestTiesToAway) :
    IsRounded F mode ((2 : ℚ) ^ F.p + 1) (2 ^ F.p) := by
  have ge := grid_pow hp hm
  have v0 : (0 : ℚ) < 2 ^ F.p := by positivity
  have low : ∀ g, F.Grid g → g ≤ 2 ^ F.p + 1 → g ≤ 2 ^ F.p := fun g hg hv => by
    by_contra c
    have := grid_above_pow (by omega) hg (not_le.1 c)
    linarith
  refine ⟨ge.grid, ?_⟩
  cases mode with
  | towardPositive => exact absurd rfl h1
  | nearestTiesToAway => exact absurd rfl h2
  | towardNegative => exact ⟨by linarith, low⟩
  | towardZero => exact ⟨fun _ => ⟨by linarith, low⟩, fun c => by linarith⟩
  | nearestTiesToEven =>
    refine ⟨fun g hg => ?_, fun _ _ _ _ => ge⟩
    rw [add_sub_cancel_left, abs_one]
    by_cases c : g ≤ 2 ^ F.p
    · rw [abs_of_nonneg (by linarith)]; linarith
    · have := grid_above_pow (by omega) hg (not_le.1 c)
      rw [abs_of_nonpos (by linarith)]; linarith

/-- Upwards, and with ties away from zero, `2^p + 1` is rounded to `2^p + 2`. -/
theorem rounded_succ_up (hp : 2 ≤ F.p) (hm : F.emin ≤ 0) {mode : Round} (h : mode = .towardPositive ∨ mode = .nearestTiesToAway) :
    IsRounded F mode ((2 : ℚ) ^ F.p + 1) (2 ^ F.p + 2) := by
  have v0 : (0 : ℚ) < 2 ^ F.p := by positivity
  have g2 : F.Grid ((2 : ℚ) ^ F.p + 2) := by
    refine ⟨2 ^ (F.p - 1) + 1, 1, ?_, by omega, ?_⟩
    · rw [abs_of_pos (by positivity)]
      obtain ⟨j, hj⟩ := Nat.exists_eq_add_of_le hp
      rw [hj, show 2 + j - 1 = j + 1 by omega, show 2 + j = j + 2 by omega, pow_succ, pow_add]
      have : (1 : ℤ) ≤ 2 ^ j := by exact_mod_cast Nat.one_le_two_pow
      linarith
    · obtain ⟨j, hj⟩ := Nat.exists_eq_add_of_le hp
      rw [hj, show 2 + j - 1 = j + 1 by omega, pow_add, zpow_one]
      push_cast; ring
  refine ⟨g2, ?_⟩
  rcases h with rfl | rfl
  · exact ⟨by linarith, fun g hg hv => grid_above_pow (by omega) hg (by linarith)⟩
  · refine ⟨fun g hg => ?_, fun g hg gn he => ?_⟩
    · rw [show (2 : ℚ) ^ F.p + 1 - (2 ^ F.p + 2) = -1 by ring, abs_neg, abs_one]
      by_cases c : g ≤ 2 ^ F.p
      · rw [abs_of_nonneg (by linarith)]; linarith
      · have := grid_above_pow (by omega) hg (not_le.1 c)
        rw [abs_of_nonpos (by linarith)]; linarith
    · rw [show (2 : ℚ) ^ F.p + 1 - (2 ^ F.p + 2) = -1 by ring, abs_neg, abs_one] at he
      rcases (_root_.abs_eq (by norm_num : (0 : ℚ) ≤ 1)).1 he with e | e
      · rw [show g = 2 ^ F.p by linarith, abs_of_pos v0, abs_of_pos (by linarith)]; linarith
      · exact absurd (by linarith) gn

variable {one : IeeeFloat S}

/-- **C134.** Adding one up to `2^p` times, in any rounding modes, counts exactly, and no flag is raised. -/
theorem C134_exact (h : S.OK) (h1 : one.Valid) (f1 : one.isFinite = true) (e1 : one.toRat = 1) (modes : ℕ → Round) : ∀ n : ℕ, n ≤ 2 ^ S.precision →
    ∃ c, counted one modes n = .ok c ∧ c.Valid ∧ c.isFinite = true ∧ c.toRat = n ∧
      (n < 2 ^ S.precision → ∃ r, addR c one (modes n) = .ok r ∧ r.status = Status.OK) := by
  have step : ∀ (n : ℕ) (c : IeeeFloat S), n < 2 ^ S.precision → c.Valid → c.isFinite = true → c.toRat = n →
      ∃ r, addR c one (modes n) = .ok r ∧ r.value.Valid ∧ r.value.isFinite = true ∧ r.value.toRat = n + 1 ∧ r.status = Status.OK := by
    intro n c hn hv hf hc
    have b : |((n + 1 : ℤ) : ℚ)| ≤ 2 ^ S.precision := by
      rw [abs_of_nonneg (by positivity)]
      have : n + 1 ≤ 2 ^ S.precision := hn
      push_cast
      exact_mod_cast this
    have bl := le_trans b (pow_le_largest h)
    have e : c.toRat + one.toRat = ((n + 1 : ℤ) : ℚ) := by rw [hc, e1]; push_cast; rfl
    obtain ⟨r, r1, r2, r3⟩ := addR_finite h hv h1 hf f1 (modes n) (directedOK_of_ge h _ (by rw [e]; exact (_root_.abs_le.1 bl).1))
    rw [e] at r3
    obtain ⟨x1, x2, x3⟩ := exact_step h r3 (grid_intq h b) bl
    exact ⟨r, r1, r2, x1, by rw [x2]; push_cast; rfl, x3⟩
  intro n
  induction n with
  | zero =>
    intro _
    refine ⟨ZERO S, rfl, zero_valid, rfl, by rw [toRat_zero rfl]; simp, fun hn => ?_⟩
    obtain ⟨r, r1, -, -, -, r5⟩ := step 0 (ZERO S) hn zero_valid rfl (by rw [toRat_zero rfl]; simp)
    exact ⟨r, r1, r5⟩
  | succ n ih =>
    intro hn
    obtain ⟨c, c1, c2, c3, c4, -⟩ := ih (by omega)
    obtain ⟨r, r1, r2, r3, r4, -⟩ := step n c (by omega) c2 c3 c4
    refine ⟨r.value, by rw [counted, c1, M.ok_bind, r1, M.ok_bind]; rfl, r2, r3, by rw [r4]; push_cast; rfl, fun hn' => ?_⟩
    obtain ⟨t, t1, -, -, -, t5⟩ := step (n + 1) r.value hn' r2 r3 (by rw [r4]; push_cast; rfl)
    exact ⟨t, t1, t5⟩

/-- **C134.** Then it stops: except rounding up or with ties away from zero, the counter stays at `2^p` however often one is added, and every addition raises `INEXACT`. -/
theorem C134_stuck (h : S.OK) (h1 : one.Valid) (f1 : one.isFinite = true) (e1 : one.toRat = 1) {modes : ℕ → Round}
    (hm : ∀ i, 2 ^ S.precision ≤ i → modes i ≠ .towardPositive ∧ modes i ≠ .nearestTiesToAway) (n : ℕ) :
    ∃ c r, counted one modes n = .ok c ∧ c.isFinite = true ∧ c.toRat = ((min n (2 ^ S.precision) : ℕ) : ℚ) ∧ addR c one (modes n) = .ok r ∧
      r.status = if n < 2 ^ S.precision then Status.OK else Status.INEXACT := by
  have hp := h.p_ge
  have p2 : 2 ≤ S.fmt.p := by rw [fmt_p]; omega
  have hmin : S.fmt.emin ≤ 0 := by rw [fmt_emin]; exact h.min_lt.le
  have sn : S.fmt.smallestNormal ≤ (2 : ℚ) ^ S.precision := by
    rw [Fmt.smallestNormal, ← zpow_natCast]
    exact two_zpow_le (by omega)
  have step : ∀ (i : ℕ) (c : IeeeFloat S), 2 ^ S.precision ≤ i → c.Valid → c.isFinite = true → c.toRat = 2 ^ S.precision →
      ∃ r, addR c one (modes i) = .ok r ∧ r.value.Valid ∧ r.value.isFinite = true ∧ r.value.toRat = 2 ^ S.precision ∧ r.status = Status.INEXACT := by
    intro i c hi hv hf hc
    have e : c.toRat + one.toRat = 2 ^ S.precision + 1 := by rw [hc, e1]
    have bl : |(2 : ℚ) ^ S.precision + 1| ≤ S.fmt.largest := by
      rw [abs_of_nonneg (by positivity)]
      have := pow_le_largest' h
      linarith
    obtain ⟨r, r1, r2, r3⟩ := addR_finite h hv h1 hf f1 (modes i) (directedOK_of_ge h _ (by rw [e]; exact (_root_.abs_le.1 bl).1))
    rw [e] at r3
    obtain ⟨x1, x2, x3⟩ := rounds_fine h r3 bl
    have x4 : r.value.toRat = 2 ^ S.precision := IsRounded.unique x2 (rounded_succ p2 hmin (hm i hi).1 (hm i hi).2)
    refine ⟨r, r1, r2, x1, x4, ?_⟩
    rw [x3, x4, abs_of_pos (by positivity : (0 : ℚ) < 2 ^ S.precision)]
    simp [Status.INEXACT, not_lt.2 sn]
  have main : ∀ k : ℕ, ∃ c, counted one modes (2 ^ S.precision + k) = .ok c ∧ c.Valid ∧ c.isFinite = true ∧ c.toRat = 2 ^ S.precision := by
    intro k
    induction k with
    | zero =>
      obtain ⟨c, c1, c2, c3, c4, -⟩ := C134_exact h h1 f1 e1 modes (2 ^ S.precision) le_rfl
      exact ⟨c, c1, c2, c3, by rw [c4]; push_cast; rfl⟩
    | succ k ih =>
      obtain ⟨c, c1, c2, c3, c4⟩ := ih
      obtain ⟨r, r1, r2, r3, r4, -⟩ := step _ c (Nat.le_add_right _ k) c2 c3 c4
      exact ⟨r.value, by rw [← Nat.add_assoc, counted, c1, M.ok_bind, r1, M.ok_bind]; rfl, r2, r3, r4⟩
  rcases lt_or_ge n (2 ^ S.precision) with c | c
  · obtain ⟨x, x1, -, x3, x4, x5⟩ := C134_exact h h1 f1 e1 modes n c.le
    obtain ⟨r, r1, r2⟩ := x5 c
    refine ⟨x, r, x1, x3, ?_, r1, by rw [if_pos c]; exact r2⟩
    rw [x4, min_eq_left c.le]
  · obtain ⟨k, rfl⟩ := Nat.exists_eq_add_of_le c
    obtain ⟨x, x1, x2, x3, x4⟩ := main k
    obtain ⟨r, r1, -, -, -, r5⟩ := step _ x c x2 x3 x4
    refine ⟨x, r, x1, x3, ?_, r1, by rw [if_neg (by omega)]; exact r5⟩
    rw [x4, min_eq_right c]; push_cast; rfl

/-- **C134.** Rounding up, or with ties away from zero, it counts wrong instead: after `2^p + 1` additions it is at `2^p + 2`. -/
theorem C134_skips (h : S.OK) (h1 : one.Valid) (f1 : one.isFinite = true) (e1 : one.toRat = 1) {modes : ℕ → Round}
    (hm : modes (2 ^ S.precision) = .towardPositive ∨ modes (2 ^ S.precision) = .nearestTiesToAway) :
    ∃ c, counted one modes (2 ^ S.precision + 1) = .ok c ∧ c.isFinite = true ∧ c.toRat = 2 ^ S.precision + 2 := by
  have hp := h.p_ge
  obtain ⟨c, c1, c2, c3, c4, -⟩ := C134_exact h h1 f1 e1 modes (2 ^ S.precision) le_rfl
  have e : c.toRat + one.toRat = 2 ^ S.precision + 1 := by rw [c4, e1]; push_cast; rfl
  have bl : |(2 : ℚ) ^ S.precision + 1| ≤ S.fmt.largest := by
    rw [abs_of_nonneg (by positivity)]
    have := pow_le_largest' h
    linarith
  obtain ⟨r, r1, r2, r3⟩ := addR_finite h c2 h1 c3 f1 (modes (2 ^ S.precision)) (directedOK_of_ge h _ (by rw [e]; exact (_root_.abs_le.1 bl).1))
  rw [e] at r3
  obtain ⟨x1, x2, -⟩ := rounds_fine h r3 bl
  exact ⟨r.value, by rw [counted, c1, M.ok_bind, r1, M.ok_bind]; rfl, x1,
    IsRounded.unique x2 (rounded_succ_up (by rw [fmt_p]; omega) (by rw [fmt_emin]; exact h.min_lt.le) hm)⟩

/-! In single precision `c += 1.0` stops at 16777216. -/
example := C134_exact singleS_ok (one := ⟨2 ^ 23, 0, .normal, false⟩) (by decide) rfl (by decide +kernel) (fun _ => .towardPositive) 16777216 (by decide)
example := C134_stuck singleS_ok (one := ⟨2 ^ 23, 0, .normal, false⟩) (by decide) rfl (by decide +kernel) (modes := fun _ => .nearestTiesToEven) (fun _ _ => ⟨by decide, by decide⟩)
  100000000
example := C134_skips singleS_ok (one := ⟨2 ^ 23, 0, .normal, false⟩) (by decide) rfl (by decide +kernel) (modes := fun _ => .nearestTiesToAway) (Or.inr rfl)

end Apf
