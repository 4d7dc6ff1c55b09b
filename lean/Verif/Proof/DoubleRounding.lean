import Verif.Proof.TwoSum
/-! # Rounding first to a wide and then to a narrow format -/

namespace Apf
open Spec
variable {F G : Fmt}

/-- The format with one more bit: it contains the midpoints of neighbours of `F`. -/
def midFmt (F : Fmt) : Fmt := { F with p := F.p + 1 }

/-- What is required of the wide format `G`: more than twice the precision, and a range that contains products and quotients. -/
structure Wide (F G : Fmt) : Prop where
  p : 2 ≤ F.p
  prec : 2 * F.p + 2 ≤ G.p
  neg : F.emin ≤ 0
  unit : G.emin - G.p + 1 ≤ 2 * (F.emin - F.p + 1)
  low : G.emin < F.emin - F.p

theorem Wide.unit_le (hW : Wide F G) : G.emin - G.p + 1 ≤ F.emin - F.p := by
  have := hW.low; have := hW.prec; omega

theorem Wide.grid (hW : Wide F G) {v : ℚ} (h : F.Grid v) : G.Grid v := by
  obtain ⟨m, k, h1, h2, h3⟩ := h
  have := hW.unit_le; have := hW.prec
  exact ⟨m, k, h1.trans_le (pow_le_pow_right₀ (by norm_num) (by omega)), by omega, h3⟩

theorem Wide.mid (hW : Wide F G) {v : ℚ} (h : (midFmt F).Grid v) : G.Grid v := by
  obtain ⟨m, k, h1, h2, h3⟩ := h
  have := hW.unit_le; have := hW.prec
  have e : (midFmt F).p = F.p + 1 := rfl
  have e2 : (midFmt F).emin = F.emin := rfl
  rw [e] at h1 h2
  rw [e2] at h2
  push_cast at h2
  exact ⟨m, k, h1.trans_le (pow_le_pow_right₀ (by norm_num) (by omega)), by omega, h3⟩

/-- Double rounding in a directed mode is harmless whenever the narrow format is part of the wide one. -/
theorem double_directed (hsub : ∀ g, F.Grid g → G.Grid g) {mode : Round} (hm : mode ≠ .nearestTiesToEven) (hm' : mode ≠ .nearestTiesToAway)
    {v w r : ℚ} (hw : IsRounded G mode v w) (hr : IsRounded F mode w r) : IsRounded F mode v r := by
  obtain ⟨gr, hr⟩ := hr
  have w0 : ∀ c, F.Grid c → c ≤ v → c ≤ w := fun c hc h => hw.ge_of_grid (hsub c hc) h
  have w1 : ∀ c, F.Grid c → v ≤ c → w ≤ c := fun c hc h => hw.le_of_grid (hsub c hc) h
  have w2 := w0 0 grid_zero
  have w3 := w1 0 grid_zero
  obtain ⟨gw, hw⟩ := hw
  refine ⟨gr, ?_⟩
  cases mode with
  | nearestTiesToEven => exact absurd rfl hm
  | nearestTiesToAway => exact absurd rfl hm'
  | towardNegative => exact ⟨hr.1.trans hw.1, fun g hg h => hr.2 g hg (w0 g hg h)⟩
  | towardPositive => exact ⟨hw.1.trans hr.1, fun g hg h => hr.2 g hg (w1 g hg h)⟩
  | towardZero =>
    refine ⟨fun h0 => ?_, fun h0 => ?_⟩
    · have a := hr.1 (w2 h0)
      exact ⟨a.1.trans (hw.1 h0).1, fun g hg h => a.2 g hg (w0 g hg h)⟩
    · have a := hr.2 (w3 h0)
      exact ⟨(hw.2 h0).1.trans a.1, fun g hg h => a.2 g hg (w1 g hg h)⟩

/-- Double rounding to nearest is harmless if the first rounding does not hit a midpoint of the narrow format from outside. -/
theorem double_nearest (hW : Wide F G) {mode : Round} (hm : mode = .nearestTiesToEven ∨ mode = .nearestTiesToAway) {v w r : ℚ}
    (hw : IsRounded G mode v w) (hr : IsRounded F mode w r) (hmid : (midFmt F).Grid w → F.Grid w ∨ w = v) : IsRounded F mode v r := by
  have hp := hW.p
  -- reduce to non-negative values
  have pos : ∀ {mode : Round} {v w r : ℚ}, (mode = .nearestTiesToEven ∨ mode = .nearestTiesToAway) → 0 ≤ v → IsRounded G mode v w →
      IsRounded F mode w r → ((midFmt F).Grid w → F.Grid w ∨ w = v) → IsRounded F mode v r := by
    intro mode v w r hm v0 hw hr hmid
    obtain ⟨n, e, h1, h2, h3, h4, h5⟩ := exists_canonical (F := F) (by omega) v0
    have hn := neighbours_mk (F := F) (by omega) h1 h2 h3
    have mid : (midFmt F).Grid (((n : ℚ) * 2 ^ (e - F.p + 1) + ((n + 1 : ℕ) : ℚ) * 2 ^ (e - F.p + 1)) / 2) := by
      refine ⟨2 * n + 1, e - F.p, ?_, ?_, ?_⟩
      · show |2 * (n : ℤ) + 1| < 2 ^ (F.p + 1)
        rw [abs_of_nonneg (by positivity), pow_succ]
        have : (n : ℤ) < 2 ^ F.p := by exact_mod_cast h1
        omega
      · show F.emin - ((F.p + 1 : ℕ) : ℤ) + 1 ≤ e - F.p
        push_cast; omega
      · rw [two_zpow_add (e - F.p) 1]; push_cast; ring
    have h0 : (0 : ℚ) ≤ (n : ℚ) * 2 ^ (e - F.p + 1) := by positivity
    generalize (n : ℚ) * 2 ^ (e - F.p + 1) = lo at *
    generalize ((n + 1 : ℕ) : ℚ) * 2 ^ (e - F.p + 1) = hi at *
    have wl := hw.ge_of_grid (hW.grid hn.glo) h4
    have wh := hw.le_of_grid (hW.grid hn.ghi) h5.le
    have gm := hW.mid mid
    have hlt := hn.lt
    -- the first rounding stays on the same side of the midpoint
    have side : w = (lo + hi) / 2 → w = v := by
      intro hw2
      rcases hmid (hw2 ▸ mid) with c | c
      · exfalso
        rcases hn.gap w c with d | d <;> linarith
      · exact c
    rcases lt_trichotomy v ((lo + hi) / 2) with c | c | c
    · have wm : w < (lo + hi) / 2 := by
        rcases lt_or_eq_of_le (hw.le_of_grid gm c.le) with d | d
        · exact d
        · have := side d; linarith
      have := hr.unique (isRounded_lo hn h0 wl (by linarith) (Or.inr (Or.inr (Or.inr (Or.inl ⟨hm, by linarith⟩)))))
      rw [this]
      exact isRounded_lo hn h0 h4 h5 (Or.inr (Or.inr (Or.inr (Or.inl ⟨hm, by linarith⟩))))
    · have : w = v := (hw.unique (isRounded_self mode (c ▸ gm)))
      rw [← this]; exact hr
    · have wm : (lo + hi) / 2 < w := by
        rcases lt_or_eq_of_le (hw.ge_of_grid gm c.le) with d | d
        · exact d
        · have := side d.symm; linarith
      have e1 : r = hi := by
        rcases lt_or_eq_of_le wh with d | d
        · exact hr.unique (isRounded_hi hn h0 (by linarith) d (Or.inr (Or.inl ⟨hm, by linarith⟩)))
        · rw [d] at hr; exact hr.unique (isRounded_self mode hn.ghi)
      rw [e1]
      exact isRounded_hi hn h0 (by linarith) h5 (Or.inr (Or.inl ⟨hm, by linarith⟩))
  rcases le_total 0 v with c | c
  · exact pos hm c hw hr hmid
  · have e : mode.neg = mode := by rcases hm with rfl | rfl <;> rfl
    have hw' := hw.neg
    have hr' := hr.neg
    rw [e] at hw' hr'
    have := pos hm (by linarith) hw' hr' (fun hg => by
      rcases hmid (by have := hg.neg; rwa [neg_neg] at this) with d | d
      · exact Or.inl d.neg
      · exact Or.inr (by rw [d]))
    have := this.neg
    rwa [e, neg_neg, neg_neg] at this

theorem nearest_dist {mode : Round} (hm : mode = .nearestTiesToEven ∨ mode = .nearestTiesToAway) {v w : ℚ} (hw : IsRounded G mode v w)
    {g : ℚ} (hg : G.Grid g) : |v - w| ≤ |v - g| := by
  rcases hm with rfl | rfl
  · exact hw.2.1 g hg
  · exact hw.2.1 g hg

/-- Products of narrow numbers are wide numbers. -/
theorem wide_mul (hW : Wide F G) {x y : ℚ} (hx : F.Grid x) (hy : F.Grid y) : G.Grid (x * y) := by
  obtain ⟨a, j, a1, a2, rfl⟩ := hx
  obtain ⟨b, k, b1, b2, rfl⟩ := hy
  have := hW.unit; have := hW.prec
  refine ⟨a * b, j + k, ?_, by omega, by rw [two_zpow_add]; push_cast; ring⟩
  rw [abs_mul]
  have : |a| * |b| < 2 ^ F.p * 2 ^ F.p := mul_lt_mul'' a1 b1 (abs_nonneg _) (abs_nonneg _)
  rw [← pow_add] at this
  exact this.trans_le (pow_le_pow_right₀ (by norm_num) (by omega))

/-- A sum of narrow numbers does not round to a midpoint that it is not. -/
theorem wide_add (hW : Wide F G) {mode : Round} (hm : mode = .nearestTiesToEven ∨ mode = .nearestTiesToAway) {x y w : ℚ} (hx : F.Grid x)
    (hy : F.Grid y) (hw : IsRounded G mode (x + y) w) (hg : (midFmt F).Grid w) : F.Grid w ∨ w = x + y := by
  have key : ∀ {x y : ℚ}, F.Grid x → F.Grid y → |y| ≤ |x| → IsRounded G mode (x + y) w → F.Grid w ∨ w = x + y := by
    intro x y hx hy hyx hw
    have hp := hW.p; have hP := hW.prec; have hu := hW.unit_le
    obtain ⟨j, j1, j2, j3, j4⟩ := exists_unit (by omega) hy
    obtain ⟨k, k1, k2, k3, k4⟩ := exists_unit (by omega) hx
    have mx := mult_of_unit j4 hx hyx
    have mv := mx.add j2
    rcases le_or_gt |x + y| (2 ^ (G.p + j)) with c | c
    · exact Or.inr (hw.unique (isRounded_self mode (grid_of_mult (by omega) mv (by omega) c)))
    -- the operands are far apart
    have far : G.p - F.p + 1 + j ≤ k := by
      by_contra hc
      push Not at hc
      apply absurd c
      push Not
      rcases lt_or_ge k (G.p - F.p + j) with d | d
      · have : |x| ≤ 2 ^ (G.p + j - 1) := k3.le.trans (two_zpow_le (by omega))
        have e : (2 : ℚ) ^ (G.p + j) = 2 ^ (G.p + j - 1) * 2 := by rw [← zpow_add_one₀ (by norm_num)]; congr 1; ring
        rw [e]
        exact (abs_add_le _ _).trans (by linarith)
      · have ek : k = G.p - F.p + j := by omega
        have b1 := k2.lt_iff (show k ≤ F.p + k by omega) k3
        have b2 : |y| ≤ 2 ^ k := j3.le.trans (two_zpow_le (by omega))
        have e : (G.p : ℤ) + j = F.p + k := by omega
        rw [e]
        exact (abs_add_le _ _).trans (by linarith)
    have b : |y| < 2 ^ (k - 3) := j3.trans_le (two_zpow_le (by omega))
    have e3 : (2 : ℚ) ^ (k - 2) = 2 ^ (k - 3) * 2 := by rw [← zpow_add_one₀ (by norm_num)]; congr 1; ring
    have d := nearest_dist hm hw (hW.grid hx)
    rw [add_sub_cancel_left] at d
    have wx : |w - x| < 2 ^ (k - 2) := by
      have : w - x = y - (x + y - w) := by ring
      rw [this]
      exact (abs_sub _ _).trans_lt (by rw [e3]; linarith)
    have kx : (2 : ℚ) ^ (F.p - 1 + k) ≤ |x| := by
      rcases k4 with e | e
      · omega
      · exact e
    have mw : Mult (k - 2) w := by
      refine mult_of_grid_ge hg ?_
      have ep : ((midFmt F).p : ℤ) = F.p + 1 := by simp [midFmt]
      rw [ep, show (F.p : ℤ) + 1 - 1 + (k - 2) = F.p - 1 + k - 1 by ring]
      have e4 : (2 : ℚ) ^ ((F.p : ℤ) - 1 + k) = 2 ^ ((F.p : ℤ) - 1 + k - 1) * 2 := by rw [← zpow_add_one₀ (by norm_num)]; congr 1; ring
      have e5 : (2 : ℚ) ^ (k - 2) ≤ 2 ^ ((F.p : ℤ) - 1 + k - 1) := two_zpow_le (by omega)
      have := abs_sub_abs_le_abs_sub x w
      rw [abs_sub_comm] at this
      linarith
    have m := (mw.sub (k2.mono (show k - 2 ≤ k by omega)))
    have : |w - x| ≤ 2 ^ (k - 2) - 2 ^ (k - 2) := m.lt_iff (le_refl _) wx
    rw [sub_self] at this
    have := abs_nonpos_iff.1 this
    left
    rw [sub_eq_zero.1 this]
    exact hx
  rcases le_total |y| |x| with c | c
  · exact key hx hy c hw
  · rw [add_comm] at hw ⊢
    exact key hy hx c hw

/-- The binade of a non-zero number. -/
theorem exists_log {v : ℚ} (h : v ≠ 0) (p : ℕ) : ∃ k : ℤ, (2 : ℚ) ^ ((p : ℤ) - 1 + k) ≤ |v| ∧ |v| < 2 ^ ((p : ℤ) + k) := by
  have hpos : 0 < |v| := abs_pos.2 h
  have l1 : (2 : ℚ) ^ (Int.log 2 |v|) ≤ |v| := by exact_mod_cast Int.zpow_log_le_self (b := 2) (by norm_num) hpos
  have l2 : |v| < (2 : ℚ) ^ (Int.log 2 |v| + 1) := by exact_mod_cast Int.lt_zpow_succ_log_self (b := 2) (by norm_num) |v|
  refine ⟨Int.log 2 |v| - (p - 1), ?_, ?_⟩
  · rw [show (p : ℤ) - 1 + (Int.log 2 |v| - (p - 1)) = Int.log 2 |v| by ring]; exact l1
  · rw [show (p : ℤ) + (Int.log 2 |v| - (p - 1)) = Int.log 2 |v| + 1 by ring]; exact l2

theorem Mult.ge {k : ℤ} {v : ℚ} (h : Mult k v) (h0 : v ≠ 0) : 2 ^ k ≤ |v| := by
  obtain ⟨n, rfl⟩ := h
  have n0 : n ≠ 0 := by rintro rfl; simp at h0
  rw [abs_mul, abs_of_pos (two_zpow_pos k)]
  have : (1 : ℚ) ≤ |(n : ℚ)| := by exact_mod_cast Int.one_le_abs n0
  have := two_zpow_pos k
  nlinarith

/-- Neither does a quotient. -/
theorem wide_div (hW : Wide F G) {mode : Round} (hm : mode = .nearestTiesToEven ∨ mode = .nearestTiesToAway) {x y w : ℚ} (hx : F.Grid x)
    (hy : F.Grid y) (y0 : y ≠ 0) (hw : IsRounded G mode (x / y) w) (hg : (midFmt F).Grid w) : F.Grid w ∨ w = x / y := by
  have hp := hW.p; have hP := hW.prec; have hl := hW.low
  by_cases x0 : x = 0
  · right; rw [x0, zero_div] at hw ⊢; exact hw.unique (isRounded_self mode grid_zero)
  by_cases w0 : w = 0
  · left; rw [w0]; exact grid_zero
  by_contra hcon
  push Not at hcon
  have ne : x - w * y ≠ 0 := by
    intro h
    exact hcon.2 (by rw [eq_div_iff y0]; linarith)
  have v0 : x / y ≠ 0 := div_ne_zero x0 y0
  -- the quotient is a normal number of the wide format
  have hwlo : (2 : ℚ) ^ (F.emin - F.p) ≤ |w| := by
    have := (mult_of_grid hg).ge w0
    have e : (midFmt F).emin - ((midFmt F).p : ℤ) + 1 = F.emin - F.p := by simp [midFmt]; ring
    rwa [e] at this
  have hvlo : (2 : ℚ) ^ G.emin ≤ |x / y| := by
    by_contra c
    push Not at c
    have g := grid_two_pow (F := G) (by omega) (k := G.emin) (by omega)
    have : |w| ≤ 2 ^ G.emin := by
      rw [abs_lt] at c
      rw [abs_le]
      exact ⟨hw.ge_of_grid g.neg c.1.le, hw.le_of_grid g c.2.le⟩
    have := two_zpow_lt hl
    linarith
  obtain ⟨k, k1, k2⟩ := exists_log v0 G.p
  have hk : G.emin - G.p + 1 ≤ k := by
    have := zpow_two_lt_iff (hvlo.trans_lt k2)
    omega
  have half : |x / y - w| ≤ 2 ^ (k - 1) := by
    obtain ⟨g, hg⟩ := exists_rounded (F := G) (by omega) .nearestTiesToEven (x / y)
    exact (nearest_dist hm hw hg.1).trans (RN.half_unit (by omega) hg hk k2.le)
  obtain ⟨a, a1, a2⟩ := exists_log x0 F.p
  obtain ⟨b, b1, b2⟩ := exists_log y0 F.p
  obtain ⟨c, c1, c2⟩ := exists_log w0 (F.p + 1)
  have ma : Mult a x := mult_of_grid_ge hx a1
  have mb : Mult b y := mult_of_grid_ge hy b1
  have mc : Mult c w := mult_of_grid_ge hg (by have e : (midFmt F).p = F.p + 1 := rfl; rw [e]; exact c1)
  have mwy : Mult (b + c) (w * y) := by
    obtain ⟨m, hm⟩ := mb
    obtain ⟨n, hn⟩ := mc
    exact ⟨n * m, by rw [hm, hn, two_zpow_add]; push_cast; ring⟩
  -- upper bound
  have up : |x - w * y| < 2 ^ (F.p + a - G.p) := by
    have e : x - w * y = (x / y - w) * y := by rw [sub_mul, div_mul_cancel₀ x y0]
    have h1 : (2 : ℚ) ^ (k - 1) ≤ 2 ^ (-(G.p : ℤ)) * |x / y| := by
      have : (2 : ℚ) ^ (k - 1) = 2 ^ (-(G.p : ℤ)) * 2 ^ ((G.p : ℤ) - 1 + k) := by rw [← two_zpow_add]; congr 1; ring
      rw [this]
      exact mul_le_mul_of_nonneg_left k1 (two_zpow_pos _).le
    rw [e, abs_mul]
    calc |x / y - w| * |y| ≤ 2 ^ (-(G.p : ℤ)) * |x / y| * |y| := mul_le_mul_of_nonneg_right (half.trans h1) (abs_nonneg _)
      _ = 2 ^ (-(G.p : ℤ)) * |x| := by rw [mul_assoc, ← abs_mul, div_mul_cancel₀ x y0]
      _ < 2 ^ (-(G.p : ℤ)) * 2 ^ ((F.p : ℤ) + a) := mul_lt_mul_of_pos_left a2 (two_zpow_pos _)
      _ = 2 ^ (F.p + a - G.p) := by rw [← two_zpow_add]; congr 1; ring
  have up' : |x - w * y| < 2 ^ (a - F.p - 2) := up.trans_le (two_zpow_le (by omega))
  -- lower bound
  have bc : a - F.p - 2 ≤ b + c := by
    by_contra hlt
    push Not at hlt
    have h1 : |w * y| < 2 ^ ((F.p : ℤ) + a - 2) := by
      rw [abs_mul]
      have : |w| * |y| < 2 ^ (((F.p + 1 : ℕ) : ℤ) + c) * 2 ^ ((F.p : ℤ) + b) := mul_lt_mul'' c2 b2 (abs_nonneg _) (abs_nonneg _)
      refine this.trans_le ?_
      rw [← two_zpow_add]
      exact two_zpow_le (by push_cast; omega)
    have h2 : |x| ≤ |x - w * y| + |w * y| := by
      have := abs_add_le (x - w * y) (w * y)
      rwa [sub_add_cancel] at this
    have h3 : (2 : ℚ) ^ ((F.p : ℤ) - 1 + a) = 2 ^ ((F.p : ℤ) + a - 2) + 2 ^ ((F.p : ℤ) + a - 2) := by
      rw [← two_mul, mul_comm, ← zpow_add_one₀ (by norm_num)]; congr 1; ring
    have h4 : (2 : ℚ) ^ (a - F.p - 2) ≤ 2 ^ ((F.p : ℤ) + a - 2) := two_zpow_le (by omega)
    linarith
  have m : Mult (a - F.p - 2) (x - w * y) := (ma.mono (by omega)).sub (mwy.mono bc)
  have := m.ge ne
  linarith

end Apf
