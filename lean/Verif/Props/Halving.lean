import Verif.Spec.Halving
import Verif.Props.Accumulate
import Verif.Props.Shares
/-!
# C135: repeated halving
-/

namespace Apf
open Spec IeeeFloat
variable {F : Fmt} {S : Sem}

/-- A positive number of the format is at least the smallest one. -/
theorem grid_pos_ge {g : ℚ} (hg : F.Grid g) (g0 : 0 < g) : (2 : ℚ) ^ (F.emin - F.p + 1) ≤ g := by
  obtain ⟨n, hn⟩ := mult_of_grid hg
  have u0 : (0 : ℚ) < 2 ^ (F.emin - F.p + 1) := by positivity
  rw [hn] at g0 ⊢
  have : (0 : ℚ) < n := by by_contra c; nlinarith [not_lt.1 c]
  have : (1 : ℚ) ≤ n := by exact_mod_cast (by exact_mod_cast this : (0 : ℤ) < n)
  nlinarith

/-- Half of the smallest number is rounded to zero, except upwards and with ties away from zero: then it is rounded to the smallest number. -/
theorem rounded_half_smallest (hp : 1 ≤ F.p) {mode : Round} {v : ℚ} (hv : 2 * v = 2 ^ (F.emin - F.p + 1)) :
    (mode ≠ .towardPositive → mode ≠ .nearestTiesToAway → IsRounded F mode v 0) ∧
    (mode = .towardPositive ∨ mode = .nearestTiesToAway → IsRounded F mode v (2 * v)) := by
  have u0 : (0 : ℚ) < 2 ^ (F.emin - F.p + 1) := by positivity
  have v0 : 0 < v := by linarith
  have low : ∀ g, F.Grid g → g ≤ v → g ≤ 0 := fun g hg c => by
    by_contra d
    have := grid_pos_ge hg (not_le.1 d)
    linarith
  have near : ∀ g, F.Grid g → v ≤ |v - g| := fun g hg => by
    by_cases c : g ≤ 0
    · rw [abs_of_nonneg (by linarith)]; linarith
    · have := grid_pos_ge hg (not_le.1 c)
      rw [abs_of_nonpos (by linarith)]; linarith
  refine ⟨fun h1 h2 => ⟨grid_zero, ?_⟩, fun h => ⟨by rw [hv]; exact grid_two_pow hp le_rfl, ?_⟩⟩
  · cases mode with
    | towardPositive => exact absurd rfl h1
    | nearestTiesToAway => exact absurd rfl h2
    | towardNegative => exact ⟨v0.le, low⟩
    | towardZero => exact ⟨fun _ => ⟨v0.le, low⟩, fun c => by linarith⟩
    | nearestTiesToEven =>
      refine ⟨fun g hg => ?_, fun _ _ _ _ => ⟨0, F.emin - F.p + 1, by simp, le_rfl, by simp⟩⟩
      rw [sub_zero, abs_of_pos v0]
      exact near g hg
  · rcases h with rfl | rfl
    · exact ⟨by linarith, fun g hg c => by rw [hv]; exact grid_pos_ge hg (by linarith)⟩
    · have e : |v - 2 * v| = v := by rw [show v - 2 * v = -v by ring, abs_neg, abs_of_pos v0]
      refine ⟨fun g hg => by rw [e]; exact near g hg, fun g hg gn he => ?_⟩
      rw [e] at he
      rcases (_root_.abs_eq v0.le).1 he with c | c
      · rw [show g = 0 by linarith, abs_zero]; exact abs_pos.2 (by linarith)
      · exact absurd (by linarith) gn

variable {one two : IeeeFloat S} {b : ℕ}

theorem half_step (h : S.OK) (h2 : two.Valid) (f2 : two.isFinite = true) (e2 : two.toRat = 2) (mode : Round) {c : IeeeFloat S} (hv : c.Valid) (hf : c.isFinite = true)
    (c0 : 0 ≤ c.toRat) (c1 : c.toRat ≤ 1) :
    ∃ r, divR c two mode = .ok r ∧ r.value.Valid ∧ r.value.isFinite = true ∧ IsRounded S.fmt mode (c.toRat / 2) r.value.toRat ∧
      r.status = { inexact := decide (r.value.toRat ≠ c.toRat / 2), underflow := decide (r.value.toRat ≠ c.toRat / 2 ∧ |r.value.toRat| < S.fmt.smallestNormal) } := by
  have bl : |c.toRat / 2| ≤ S.fmt.largest := by
    have := one_le_largest h
    rw [abs_of_nonneg (by linarith)]
    linarith
  obtain ⟨r, r1, r2, r3⟩ := divR_finite h hv h2 hf f2 (by rw [e2]; norm_num) mode (directedOK_of_ge h _ (by rw [e2]; exact (_root_.abs_le.1 bl).1))
  rw [e2] at r3
  obtain ⟨x1, x2, x3⟩ := rounds_fine h r3 bl
  exact ⟨r, r1, r2, x1, x2, x3⟩

/-- **C135.** One halved `n` times is `2^-n` exactly, and no flag is raised, until the smallest positive number `2^-b` is reached; in any rounding modes. -/
theorem C135_exact (h : S.OK) (h1 : one.Valid) (f1 : one.isFinite = true) (e1 : one.toRat = 1) (h2 : two.Valid) (f2 : two.isFinite = true) (e2 : two.toRat = 2)
    (hb : (SMALLEST S).toRat = 2 ^ (-(b : ℤ))) (modes : ℕ → Round) : ∀ n : ℕ, n ≤ b →
    ∃ c, halved one two modes n = .ok c ∧ c.Valid ∧ c.isFinite = true ∧ c.toRat = 2 ^ (-(n : ℤ)) ∧
      (n < b → ∃ r, divR c two (modes n) = .ok r ∧ r.status = Status.OK) := by
  have hp := h.p_ge
  rw [toRat_smallest] at hb
  have hb' : S.minExp - S.precision + 1 = -(b : ℤ) := zpow_right_injective₀ (by norm_num : (0 : ℚ) < 2) (by norm_num) hb
  have step : ∀ (n : ℕ) (c : IeeeFloat S), n < b → c.Valid → c.isFinite = true → c.toRat = 2 ^ (-(n : ℤ)) →
      ∃ r, divR c two (modes n) = .ok r ∧ r.value.Valid ∧ r.value.isFinite = true ∧ r.value.toRat = 2 ^ (-((n + 1 : ℕ) : ℤ)) ∧ r.status = Status.OK := by
    intro n c hn hv hf hc
    obtain ⟨r, r1, r2, r3, r4, r5⟩ := half_step h h2 f2 e2 (modes n) hv hf (by rw [hc]; positivity) (by rw [hc]; exact zpow_le_one_of_nonpos₀ (by norm_num) (by omega))
    have e : c.toRat / 2 = 2 ^ (-((n + 1 : ℕ) : ℤ)) := by
      rw [hc, show -((n + 1 : ℕ) : ℤ) = -(n : ℤ) - 1 by push_cast; ring, zpow_sub_one₀ (by norm_num)]; rfl
    have x : r.value.toRat = c.toRat / 2 := (Faith.of_rounded r4).exact (by rw [e]; exact grid_two_pow (by rw [fmt_p]; omega) (by rw [fmt_p, fmt_emin]; omega))
    exact ⟨r, r1, r2, r3, by rw [x, e], by rw [r5]; simp [x, Status.OK]⟩
  intro n
  induction n with
  | zero =>
    intro _
    refine ⟨one, rfl, h1, f1, by rw [e1]; simp, fun hn => ?_⟩
    obtain ⟨r, r1, -, -, -, r5⟩ := step 0 one hn h1 f1 (by rw [e1]; simp)
    exact ⟨r, r1, r5⟩
  | succ n ih =>
    intro hn
    obtain ⟨c, c1, c2, c3, c4, -⟩ := ih (by omega)
    obtain ⟨r, r1, r2, r3, r4, -⟩ := step n c (by omega) c2 c3 c4
    refine ⟨r.value, by rw [halved, c1, M.ok_bind, r1, M.ok_bind]; rfl, r2, r3, r4, fun hn' => ?_⟩
    obtain ⟨t, t1, -, -, -, t5⟩ := step (n + 1) r.value hn' r2 r3 r4
    exact ⟨t, t1, t5⟩

/-- **C135.** The next halving gives zero, except rounding up or with ties away from zero, and raises `UNDERFLOW | INEXACT`; the value then stays zero, with no flag. -/
theorem C135_zero (h : S.OK) (h1 : one.Valid) (f1 : one.isFinite = true) (e1 : one.toRat = 1) (h2 : two.Valid) (f2 : two.isFinite = true) (e2 : two.toRat = 2)
    (hb : (SMALLEST S).toRat = 2 ^ (-(b : ℤ))) {modes : ℕ → Round} (hm : modes b ≠ .towardPositive ∧ modes b ≠ .nearestTiesToAway) :
    (∃ c r, halved one two modes b = .ok c ∧ divR c two (modes b) = .ok r ∧ r.status = Status.UNDERFLOW ||| Status.INEXACT) ∧
    ∀ n, b < n → ∃ c r, halved one two modes n = .ok c ∧ c.isZero = true ∧ divR c two (modes n) = .ok r ∧ r.status = Status.OK := by
  have hp := h.p_ge
  have hs := hb
  rw [toRat_smallest] at hs
  obtain ⟨c, c1, c2, c3, c4, -⟩ := C135_exact h h1 f1 e1 h2 f2 e2 hb modes b le_rfl
  obtain ⟨r, r1, r2, r3, r4, r5⟩ := half_step h h2 f2 e2 (modes b) c2 c3 (by rw [c4]; positivity) (by rw [c4]; exact zpow_le_one_of_nonpos₀ (by norm_num) (by omega))
  have c0 : 0 < c.toRat := by rw [c4]; positivity
  have x : r.value.toRat = 0 := IsRounded.unique r4 ((rounded_half_smallest (F := S.fmt) (by rw [fmt_p]; omega) (by rw [c4, fmt_emin, fmt_p, hs]; ring)).1 hm.1 hm.2)
  have sn : (0 : ℚ) < S.fmt.smallestNormal := by unfold Fmt.smallestNormal; positivity
  refine ⟨⟨c, r, c1, r1, ?_⟩, ?_⟩
  · rw [r5, x]
    have : (0 : ℚ) ≠ c.toRat / 2 := by linarith
    simp [this, sn]; rfl
  have step : ∀ (i : ℕ) (d : IeeeFloat S), d.Valid → d.isFinite = true → d.toRat = 0 →
      ∃ t, divR d two (modes i) = .ok t ∧ t.value.Valid ∧ t.value.isFinite = true ∧ t.value.toRat = 0 ∧ t.status = Status.OK := by
    intro i d hv hf hd
    obtain ⟨t, t1, t2, t3, t4, t5⟩ := half_step h h2 f2 e2 (modes i) hv hf hd.ge (by rw [hd]; norm_num)
    rw [hd, zero_div] at t4
    have y : t.value.toRat = 0 := (Faith.of_rounded t4).exact grid_zero
    exact ⟨t, t1, t2, t3, y, by rw [t5]; simp [y, hd, Status.OK]⟩
  have main : ∀ k : ℕ, ∃ d, halved one two modes (b + 1 + k) = .ok d ∧ d.Valid ∧ d.isFinite = true ∧ d.toRat = 0 := by
    intro k
    induction k with
    | zero => exact ⟨r.value, by rw [Nat.add_zero, halved, c1, M.ok_bind, r1, M.ok_bind]; rfl, r2, r3, x⟩
    | succ k ih =>
      obtain ⟨d, d1, d2, d3, d4⟩ := ih
      obtain ⟨t, t1, t2, t3, t4, -⟩ := step _ d d2 d3 d4
      exact ⟨t.value, by rw [← Nat.add_assoc, halved, d1, M.ok_bind, t1, M.ok_bind]; rfl, t2, t3, t4⟩
  intro n hn
  obtain ⟨k, rfl⟩ := Nat.exists_eq_add_of_le (show b + 1 ≤ n from hn)
  obtain ⟨d, d1, d2, d3, d4⟩ := main k
  obtain ⟨t, t1, -, -, -, t5⟩ := step (b + 1 + k) d d2 d3 d4
  refine ⟨d, t, d1, ?_, t1, t5⟩
  rcases isFinite_iff.1 d3 with z | z
  · exact absurd d4 (toRat_ne_zero d2 z)
  · unfold isZero; rw [z]; rfl

/-- **C135.** Rounding up, or with ties away from zero, it never becomes zero: it stays at the smallest positive number for ever. -/
theorem C135_never_zero (h : S.OK) (h1 : one.Valid) (f1 : one.isFinite = true) (e1 : one.toRat = 1) (h2 : two.Valid) (f2 : two.isFinite = true) (e2 : two.toRat = 2)
    (hb : (SMALLEST S).toRat = 2 ^ (-(b : ℤ))) {modes : ℕ → Round} (hm : ∀ i, b ≤ i → modes i = .towardPositive ∨ modes i = .nearestTiesToAway) (n : ℕ) :
    ∃ c, halved one two modes n = .ok c ∧ c.isFinite = true ∧ c.toRat = 2 ^ (-((min n b : ℕ) : ℤ)) := by
  have hp := h.p_ge
  have hs := hb
  rw [toRat_smallest] at hs
  rcases le_total n b with hn | hn
  · obtain ⟨c, c1, -, c3, c4, -⟩ := C135_exact h h1 f1 e1 h2 f2 e2 hb modes n hn
    exact ⟨c, c1, c3, by rw [c4, min_eq_left hn]⟩
  have main : ∀ k : ℕ, ∃ d, halved one two modes (b + k) = .ok d ∧ d.Valid ∧ d.isFinite = true ∧ d.toRat = 2 ^ (-(b : ℤ)) := by
    intro k
    induction k with
    | zero =>
      obtain ⟨c, c1, c2, c3, c4, -⟩ := C135_exact h h1 f1 e1 h2 f2 e2 hb modes b le_rfl
      exact ⟨c, c1, c2, c3, c4⟩
    | succ k ih =>
      obtain ⟨d, d1, d2, d3, d4⟩ := ih
      obtain ⟨t, t1, t2, t3, t4, -⟩ := half_step h h2 f2 e2 (modes (b + k)) d2 d3 (by rw [d4]; positivity) (by rw [d4]; exact zpow_le_one_of_nonpos₀ (by norm_num) (by omega))
      have x := IsRounded.unique t4 ((rounded_half_smallest (F := S.fmt) (by rw [fmt_p]; omega) (by rw [d4, fmt_emin, fmt_p, hs]; ring)).2 (hm _ (Nat.le_add_right _ _)))
      exact ⟨t.value, by rw [← Nat.add_assoc, halved, d1, M.ok_bind, t1, M.ok_bind]; rfl, t2, t3, by rw [x, d4]; ring⟩
  obtain ⟨k, rfl⟩ := Nat.exists_eq_add_of_le hn
  obtain ⟨d, d1, -, d3, d4⟩ := main k
  exact ⟨d, d1, d3, by rw [d4, min_eq_right hn]⟩

/-! In single precision the smallest positive number is `2^-149`. -/
example := C135_exact singleS_ok (one := ⟨2 ^ 23, 0, .normal, false⟩) (two := ⟨2 ^ 23, 1, .normal, false⟩) (by decide) rfl (by decide +kernel) (by decide) rfl (by decide +kernel)
  (b := 149) (by decide +kernel) (fun _ => .towardPositive) 100 (by decide)
example := C135_zero singleS_ok (one := ⟨2 ^ 23, 0, .normal, false⟩) (two := ⟨2 ^ 23, 1, .normal, false⟩) (by decide) rfl (by decide +kernel) (by decide) rfl (by decide +kernel)
  (b := 149) (by decide +kernel) (modes := fun _ => .nearestTiesToEven) ⟨by decide, by decide⟩
example := C135_never_zero singleS_ok (one := ⟨2 ^ 23, 0, .normal, false⟩) (two := ⟨2 ^ 23, 1, .normal, false⟩) (by decide) rfl (by decide +kernel) (by decide) rfl (by decide +kernel)
  (b := 149) (by decide +kernel) (modes := fun _ => .nearestTiesToAway) (fun _ _ => Or.inr rfl) 1000000

end Apf
