import Verif.Spec.Markstein
import Verif.Proof.TwoSum
import Verif.Props.Accumulate
/-! # Markstein's correction of a quotient, on the numbers -/

namespace Apf
open Spec
variable {F : Fmt}

theorem Spec.Fmt.NextTo.neg {v q : ℚ} (h : F.NextTo v q) : F.NextTo (-v) (-q) :=
  ⟨h.grid.neg, fun z gz c => h.above (-z) gz.neg ⟨by linarith [c.2], by linarith [c.1]⟩,
    fun z gz c => h.below (-z) gz.neg ⟨by linarith [c.2], by linarith [c.1]⟩,
    fun g => by rw [h.exact (by simpa using g.neg)]⟩

theorem exists_place {y : ℚ} (p : ℕ) (hy : 0 < y) : ∃ j : ℤ, 2 ^ ((p : ℤ) - 1 + j) ≤ y ∧ y < 2 ^ ((p : ℤ) + j) := by
  have l1 : (2 : ℚ) ^ (Int.log 2 y) ≤ y := by exact_mod_cast Int.zpow_log_le_self (b := 2) (by norm_num) hy
  have l2 : y < (2 : ℚ) ^ (Int.log 2 y + 1) := by exact_mod_cast Int.lt_zpow_succ_log_self (b := 2) (by norm_num) y
  obtain ⟨j, hj⟩ : ∃ j : ℤ, Int.log 2 y = p - 1 + j := ⟨Int.log 2 y - (p - 1), by ring⟩
  rw [hj] at l1 l2
  rw [show (p : ℤ) - 1 + j + 1 = p + j by ring] at l2
  exact ⟨j, l1, l2⟩

/-- Error of a rounded reciprocal. -/
theorem recip_err (hp : 2 ≤ F.p) {y r : ℚ} (hy : 0 < y) {mode : Round} (hm : mode = .nearestTiesToEven ∨ mode = .nearestTiesToAway)
    (hr : IsRounded F mode (1 / y) r) (hlo : 2 ^ F.emin ≤ 1 / y) {j : ℤ} (j1 : 2 ^ ((F.p : ℤ) - 1 + j) ≤ y) :
    |r - 1 / y| ≤ 2 ^ (-j - 2 * F.p) := by
  have h1 : 1 / y ≤ 2 ^ (1 - (F.p : ℤ) - j) := by
    rw [show 1 - (F.p : ℤ) - j = -((F.p : ℤ) - 1 + j) by ring, zpow_neg, one_div]
    exact inv_anti₀ (two_zpow_pos _) j1
  have h2 := (zpow_le_zpow_iff_right₀ (by norm_num : (1 : ℚ) < 2)).1 (hlo.trans h1)
  rcases lt_or_eq_of_le h2 with c | c
  · have key : ∀ {g}, RN F (1 / y) g → |1 / y - g| ≤ 2 ^ (-j - 2 * F.p) := by
      intro g hg
      have := hg.half_unit (k := 1 - 2 * F.p - j) (by omega) (by omega) (by
        rw [abs_of_pos (by positivity)]; refine h1.trans (two_zpow_le (by omega)))
      rwa [show (1 : ℤ) - 2 * F.p - j - 1 = -j - 2 * F.p by ring] at this
    rw [abs_sub_comm]
    rcases hm with rfl | rfl
    · exact key hr
    · obtain ⟨g', h', hl⟩ := away_le hp hr
      exact hl.trans (key h')
  · have e : 1 / y = 2 ^ F.emin := le_antisymm (by rw [c]; exact h1) hlo
    have : r = 1 / y := by
      rw [e] at hr ⊢
      exact hr.unique (isRounded_self _ (grid_two_pow (by omega) (by omega)))
    rw [this, sub_self, abs_zero]; exact (two_zpow_pos _).le

theorem mult_gap {k : ℤ} {v : ℚ} (h : Mult k v) (h0 : v ≠ 0) : 2 ^ k ≤ |v| := by
  obtain ⟨n, rfl⟩ := h
  have hk := two_zpow_pos k
  rw [abs_mul, abs_of_pos hk]
  have : n ≠ 0 := by rintro rfl; simp at h0
  have : (1 : ℚ) ≤ |(n : ℚ)| := by exact_mod_cast Int.one_le_abs this
  nlinarith

theorem no_cross {a c y D P u : ℚ} (hD : 0 < D) (hP : 1 ≤ P) (hu : 0 < u) (y0 : 0 < y) (hy : y ≤ (P - 1) * D) (hc : c * (D * P ^ 2) ≤ u * y)
    (ha : u * D ≤ a * y) : c < a := by
  by_contra h
  push Not at h
  have e1 : a * (D * P ^ 2) ≤ u * y := (mul_le_mul_of_nonneg_right h (by positivity)).trans hc
  have e2 := mul_le_mul_of_nonneg_right e1 y0.le
  have e3 := mul_le_mul_of_nonneg_right ha (show 0 ≤ D * P ^ 2 by positivity)
  have e4 : y * y ≤ (P - 1) * D * ((P - 1) * D) := mul_le_mul hy hy y0.le (y0.le.trans hy)
  have e5 := mul_le_mul_of_nonneg_left e4 hu.le
  have e6 : 0 < u * (D * D) := by positivity
  have e7 : u * (D * D) * (2 * P - 1) ≤ 0 := by linarith
  have e8 : 0 < u * (D * D) * (2 * P - 1) := mul_pos e6 (by linarith)
  linarith

theorem no_cross_mid {d c y D P u : ℚ} (hD : 0 < D) (hP : 1 ≤ P) (hu : 0 < u) (y0 : 0 < y) (hy : y ≤ (P - 1) * D) (hc : c * (D * P ^ 2) ≤ (u / 2 + d) * y)
    (hd : u * D / 2 ≤ d * y) : c < d := by
  by_contra h
  push Not at h
  have e1 : d * (D * P ^ 2) ≤ (u / 2 + d) * y := (mul_le_mul_of_nonneg_right h (by positivity)).trans hc
  have e2 := mul_le_mul_of_nonneg_right e1 y0.le
  have hP2 : P - 1 < P ^ 2 := by nlinarith
  have e0 : 0 < D * P ^ 2 - y := by
    have := mul_lt_mul_of_pos_right hP2 hD
    linarith
  have e3 := mul_le_mul_of_nonneg_right hd e0.le
  have e4 : y * y ≤ (P - 1) * D * ((P - 1) * D) := mul_le_mul hy hy y0.le (y0.le.trans hy)
  have e5 := mul_le_mul_of_nonneg_left e4 hu.le
  have e6 := mul_le_mul_of_nonneg_left hy (show 0 ≤ u * D by positivity)
  have e7 : 0 < u * (D * D) * P := by positivity
  linarith

/-- The correction, for positive operands. -/
theorem markstein_pos (hp : 2 ≤ F.p) {x y r q g : ℚ} (gx : F.Grid x) (gy : F.Grid y) (y0 : 0 < y) (hv : 2 ^ F.emin ≤ x / y)
    (hlo : 2 ^ (F.emin + F.p + 1) ≤ x) (hq : F.NextTo (x / y) q) {m₀ mode : Round} (hm₀ : m₀ = .nearestTiesToEven ∨ m₀ = .nearestTiesToAway)
    (hm : mode = .nearestTiesToEven ∨ mode = .nearestTiesToAway) (hr : IsRounded F m₀ (1 / y) r) (hy : 2 ^ F.emin ≤ 1 / y)
    (hg : IsRounded F mode (x / y) g) (hmid : ∀ n : ℕ, ∀ k : ℤ, 2 ^ F.p ≤ 2 * n + 1 → x / y ≠ (2 * n + 1 : ℕ) * 2 ^ k) :
    F.Grid (x - q * y) ∧ |x - q * y| ≤ x ∧ 2 ^ F.emin ≤ q ∧ 0 < q + (x - q * y) * r ∧ IsRounded F mode (q + (x - q * y) * r) g ∧
      (g = q + (x - q * y) * r ↔ g = x / y) := by
  have v0 : 0 ≤ x / y := (two_zpow_pos F.emin).le.trans hv
  obtain ⟨n, e, h1, h2, h3, h4, h5⟩ := exists_canonical (F := F) (by omega) v0
  have hn := neighbours_mk (F := F) (by omega) h1 h2 h3
  have hn' : 2 ^ (F.p - 1) ≤ n := by
    rcases h3 with c | c
    · exact c
    · subst c
      by_contra hc
      have : n + 1 ≤ 2 ^ (F.p - 1) := by omega
      have : ((n + 1 : ℕ) : ℚ) ≤ 2 ^ (F.p - 1) := by exact_mod_cast this
      have := mul_le_mul_of_nonneg_right this (two_zpow_pos (F.emin - F.p + 1)).le
      rw [← zpow_natCast, ← two_zpow_add, show ((F.p - 1 : ℕ) : ℤ) + (F.emin - F.p + 1) = F.emin by omega] at this
      linarith
  obtain ⟨j, j1, j2⟩ := exists_place F.p y0
  have hδ := recip_err hp y0 hm₀ hr hy j1
  have my : Mult j y := mult_of_grid_ge gy (by rwa [abs_of_pos y0])
  have hxv : x = x / y * y := (div_mul_cancel₀ x y0.ne').symm
  have hu : (0 : ℚ) < 2 ^ (e - F.p + 1) := two_zpow_pos _
  have hD : (0 : ℚ) < 2 ^ j := two_zpow_pos _
  -- the places of the operands
  have le1 : (2 : ℚ) ^ e ≤ n * 2 ^ (e - F.p + 1) := by
    have : (2 : ℚ) ^ (F.p - 1) ≤ n := by exact_mod_cast hn'
    have := mul_le_mul_of_nonneg_right this hu.le
    rwa [← zpow_natCast, ← two_zpow_add, show ((F.p - 1 : ℕ) : ℤ) + (e - F.p + 1) = e by omega] at this
  have x0 : 0 < x := (two_zpow_pos _).trans_le hlo
  have hxlo : (2 : ℚ) ^ ((F.p : ℤ) - 1 + (e + j)) ≤ |x| := by
    rw [abs_of_pos x0, hxv, show (F.p : ℤ) - 1 + (e + j) = e + (F.p - 1 + j) by ring, two_zpow_add]
    exact mul_le_mul (le1.trans h4) j1 (two_zpow_pos _).le v0
  have mx : Mult (e + j) x := mult_of_grid_ge gx hxlo
  have hxhi : x < 2 ^ (e + 1 + (F.p + j)) := by
    rw [hxv, two_zpow_add]
    have : ((n + 1 : ℕ) : ℚ) * 2 ^ (e - F.p + 1) ≤ 2 ^ (e + 1) := by
      have : ((n + 1 : ℕ) : ℚ) ≤ 2 ^ F.p := by exact_mod_cast h1
      have := mul_le_mul_of_nonneg_right this hu.le
      rwa [← zpow_natCast, ← two_zpow_add, show ((F.p : ℕ) : ℤ) + (e - F.p + 1) = e + 1 by ring] at this
    have hvv : 0 < x / y := by positivity
    exact mul_lt_mul'' (h5.trans_le this) j2 v0 y0.le
  have hej : F.emin + 1 ≤ e + j := by
    have := zpow_two_lt_iff (hlo.trans_lt hxhi)
    omega
  -- where `q` is
  have hqc : q = n * 2 ^ (e - F.p + 1) ∨ (q = ((n + 1 : ℕ) : ℚ) * 2 ^ (e - F.p + 1) ∧ (n : ℚ) * 2 ^ (e - F.p + 1) < x / y) := by
    rcases hn.gap q hq.grid with c | c
    · left
      rcases lt_or_eq_of_le c with d | d
      · rcases lt_or_eq_of_le h4 with f | f
        · exact absurd ⟨d, f⟩ (hq.below _ hn.glo)
        · rw [f]; exact hq.exact (f ▸ hn.glo)
      · exact d
    · right
      have qe : q = ((n + 1 : ℕ) : ℚ) * 2 ^ (e - F.p + 1) := by
        rcases lt_or_eq_of_le c with d | d
        · exact absurd ⟨h5, d⟩ (hq.above _ hn.ghi)
        · exact d.symm
      refine ⟨qe, lt_of_le_of_ne h4 (fun f => ?_)⟩
      have := hq.exact (f ▸ hn.glo)
      linarith
  have mq : ∀ a : ℤ, Mult (e - F.p + 1 + j) (a * 2 ^ (e - F.p + 1) * y) := by
    intro a
    obtain ⟨b, hb⟩ := my
    exact ⟨a * b, by rw [hb, two_zpow_add (e - F.p + 1) j]; push_cast; ring⟩
  have mx1 : Mult (e - F.p + 1 + j) x := mx.mono (by omega)
  have hlo_u : (n : ℚ) * 2 ^ (e - F.p + 1) + 2 ^ (e - F.p + 1) = ((n + 1 : ℕ) : ℚ) * 2 ^ (e - F.p + 1) := by push_cast; ring
  have hqv : |x / y - q| ≤ 2 ^ (e - F.p + 1) := by
    rcases hqc with c | ⟨c, -⟩
    · rw [c, abs_of_nonneg (by linarith)]; linarith
    · rw [c, abs_of_nonpos (by linarith)]; linarith
  have hρ : x - q * y = (x / y - q) * y := by rw [sub_mul, div_mul_cancel₀ x y0.ne']
  have hρa : |x - q * y| ≤ 2 ^ (e - F.p + 1) * y := by
    rw [hρ, abs_mul, abs_of_pos y0]
    exact mul_le_mul_of_nonneg_right hqv y0.le
  have hu_lo : (2 : ℚ) ^ (e - F.p + 1) ≤ n * 2 ^ (e - F.p + 1) := by
    have : (1 : ℚ) ≤ n := by
      have : 1 ≤ n := le_trans Nat.one_le_two_pow hn'
      exact_mod_cast this
    nlinarith
  have gρ : F.Grid (x - q * y) := by
    have mqy : Mult (e - F.p + 1 + j) (q * y) := by
      rcases hqc with c | ⟨c, -⟩
      · rw [c]; exact_mod_cast mq n
      · rw [c]; exact_mod_cast mq (n + 1 : ℕ)
    refine grid_of_mult (by omega) (mx1.sub mqy) (by omega) (hρa.trans ?_)
    rw [show (F.p : ℤ) + (e - F.p + 1 + j) = (e - F.p + 1) + (F.p + j) by ring, two_zpow_add (e - F.p + 1) (F.p + j)]
    exact mul_le_mul_of_nonneg_left j2.le hu.le
  have hρx : |x - q * y| ≤ x := by
    refine hρa.trans ?_
    rw [hxv]
    have := mul_le_mul_of_nonneg_right (hu_lo.trans h4) y0.le
    rwa [div_mul_cancel₀ x y0.ne'] at this ⊢
  have hqlo : (2 : ℚ) ^ F.emin ≤ q := by
    have : (2 : ℚ) ^ F.emin ≤ 2 ^ e := two_zpow_le h2
    rcases hqc with c | ⟨c, -⟩ <;> linarith
  -- how far the correction is off
  have hw : q + (x - q * y) * r - x / y = (x / y - q) * y * (r - 1 / y) := by
    field_simp; ring
  have hyD : y ≤ (2 ^ F.p - 1) * 2 ^ j := by
    obtain ⟨b, hb⟩ := my
    rw [hb, two_zpow_add, zpow_natCast] at j2
    have := lt_of_mul_lt_mul_right j2 hD.le
    have : b < 2 ^ F.p := by exact_mod_cast this
    have : b ≤ 2 ^ F.p - 1 := by omega
    have : (b : ℚ) ≤ 2 ^ F.p - 1 := by exact_mod_cast this
    rw [hb]
    exact mul_le_mul_of_nonneg_right this hD.le
  have hP1 : (1 : ℚ) ≤ 2 ^ F.p := one_le_pow₀ (by norm_num)
  have hδ' : |r - 1 / y| * (2 ^ j * (2 ^ F.p) ^ 2) ≤ 1 := by
    have := mul_le_mul_of_nonneg_right hδ (show (0 : ℚ) ≤ 2 ^ j * (2 ^ F.p) ^ 2 by positivity)
    refine this.trans (le_of_eq ?_)
    rw [← zpow_natCast, ← zpow_natCast, ← zpow_mul, ← two_zpow_add, ← two_zpow_add]
    rw [show -j - 2 * (F.p : ℤ) + (j + F.p * (2 : ℕ)) = 0 by push_cast; ring, zpow_zero]
  have hwa : |q + (x - q * y) * r - x / y| * (2 ^ j * (2 ^ F.p) ^ 2) ≤ |x / y - q| * y := by
    rw [hw, abs_mul, abs_mul, abs_of_pos y0, mul_assoc]
    have := mul_le_mul_of_nonneg_left hδ' (show 0 ≤ |x / y - q| * y by positivity)
    rwa [mul_one] at this
  have gaplo : (n : ℚ) * 2 ^ (e - F.p + 1) ≠ x / y → 2 ^ (e - F.p + 1) * 2 ^ j ≤ (x / y - n * 2 ^ (e - F.p + 1)) * y := by
    intro hne
    have m1 : Mult (e - F.p + 1 + j) (x - (n : ℤ) * 2 ^ (e - F.p + 1) * y) := mx1.sub (mq n)
    have e1 : x - (n : ℤ) * 2 ^ (e - F.p + 1) * y = (x / y - n * 2 ^ (e - F.p + 1)) * y := by
      rw [sub_mul, div_mul_cancel₀ x y0.ne']; push_cast; ring
    rw [e1] at m1
    have := mult_gap m1 (mul_ne_zero (sub_ne_zero.2 hne.symm) y0.ne')
    rwa [two_zpow_add (e - F.p + 1) j, abs_of_nonneg (mul_nonneg (by linarith) y0.le)] at this
  have gaphi : 2 ^ (e - F.p + 1) * 2 ^ j ≤ (((n + 1 : ℕ) : ℚ) * 2 ^ (e - F.p + 1) - x / y) * y := by
    have m1 : Mult (e - F.p + 1 + j) (x - ((n + 1 : ℕ) : ℤ) * 2 ^ (e - F.p + 1) * y) := mx1.sub (mq (n + 1 : ℕ))
    have e1 : x - ((n + 1 : ℕ) : ℤ) * 2 ^ (e - F.p + 1) * y = -((((n + 1 : ℕ) : ℚ) * 2 ^ (e - F.p + 1) - x / y) * y) := by
      rw [sub_mul, div_mul_cancel₀ x y0.ne']; push_cast; ring
    rw [e1] at m1
    have := mult_gap m1 (neg_ne_zero.2 (mul_ne_zero (sub_ne_zero.2 h5.ne') y0.ne'))
    rwa [abs_neg, two_zpow_add (e - F.p + 1) j, abs_of_nonneg (mul_nonneg (by linarith) y0.le)] at this
  have half : (2 : ℚ) ^ (e - F.p + 1) = 2 * 2 ^ (e - F.p) := by rw [two_zpow_add]; ring
  have gapmid : 2 ^ (e - F.p + 1) * 2 ^ j / 2 ≤ |x / y - (n * 2 ^ (e - F.p + 1) + 2 ^ (e - F.p + 1) / 2)| * y := by
    have hne : x / y ≠ n * 2 ^ (e - F.p + 1) + 2 ^ (e - F.p + 1) / 2 := by
      have hP : 2 ^ F.p ≤ 2 * n + 1 := by
        have : 2 ^ F.p = 2 * 2 ^ (F.p - 1) := by rw [← pow_succ']; congr 1; omega
        omega
      have := hmid n (e - F.p) hP
      intro c
      apply this
      rw [c, half]; push_cast; ring
    have m1 : Mult (e - F.p + j) ((x / y - (n * 2 ^ (e - F.p + 1) + 2 ^ (e - F.p + 1) / 2)) * y) := by
      obtain ⟨b, hb⟩ := my
      have mx2 : Mult (e - F.p + j) x := mx.mono (by omega)
      have e1 : (x / y - (n * 2 ^ (e - F.p + 1) + 2 ^ (e - F.p + 1) / 2)) * y = x - (2 * n + 1) * 2 ^ (e - F.p) * y := by
        rw [sub_mul, div_mul_cancel₀ x y0.ne', half]; ring
      rw [e1]
      refine mx2.sub ⟨(2 * n + 1) * b, ?_⟩
      rw [two_zpow_add (e - F.p) j]
      conv_lhs => rw [hb]
      push_cast; ring
    have := mult_gap m1 (mul_ne_zero (sub_ne_zero.2 hne) y0.ne')
    rw [abs_mul, abs_of_pos y0, two_zpow_add (e - F.p) j] at this
    rw [half] at this ⊢
    linarith
  have hq2 : |x / y - q| ≤ 2 ^ (e - F.p + 1) / 2 + |x / y - (n * 2 ^ (e - F.p + 1) + 2 ^ (e - F.p + 1) / 2)| := by
    have t1 := le_abs_self (x / y - (n * 2 ^ (e - F.p + 1) + 2 ^ (e - F.p + 1) / 2))
    have t2 := neg_abs_le (x / y - (n * 2 ^ (e - F.p + 1) + 2 ^ (e - F.p + 1) / 2))
    rcases hqc with c | ⟨c, -⟩
    · rw [c, abs_of_nonneg (by linarith)]; linarith
    · rw [c, abs_of_nonpos (by linarith)]; linarith
  have cmid := no_cross_mid hD hP1 hu y0 hyD (hwa.trans (mul_le_mul_of_nonneg_right hq2 y0.le)) gapmid
  have chi := no_cross hD hP1 hu y0 hyD (hwa.trans (mul_le_mul_of_nonneg_right hqv y0.le)) gaphi
  have hlo0 : (0 : ℚ) < n * 2 ^ (e - F.p + 1) := hu.trans_le hu_lo
  refine ⟨gρ, hρx, hqlo, ?_⟩
  rcases eq_or_lt_of_le h4 with c | c
  · have : q = x / y := hq.exact (c ▸ hn.glo)
    have hw0 : q + (x - q * y) * r = x / y := by
      rw [hρ, this]; ring
    rw [hw0]
    exact ⟨by linarith, hg, Iff.rfl⟩
  have clo := no_cross hD hP1 hu y0 hyD (hwa.trans (mul_le_mul_of_nonneg_right hqv y0.le)) (gaplo c.ne)
  have hn1 := hn
  clear hwa gaplo gaphi gapmid hqv hρa hqc mq hw hxhi hxlo le1
  generalize q + (x - q * y) * r = w at *
  rw [← hlo_u] at chi h5 hn1
  generalize (n : ℚ) * 2 ^ (e - F.p + 1) = lo at *
  generalize (2 : ℚ) ^ (e - F.p + 1) = u at *
  generalize x / y = v at *
  have w1 := neg_abs_le (w - v)
  have w2 := le_abs_self (w - v)
  rcases lt_or_ge v (lo + u / 2) with d | d
  · rw [abs_of_neg (show v - (lo + u / 2) < 0 by linarith)] at cmid
    have ge : g = lo := hg.unique (isRounded_lo hn1 hlo0.le h4 h5 (Or.inr (Or.inr (Or.inr (Or.inl ⟨hm, by linarith⟩)))))
    refine ⟨by linarith, ?_, ?_⟩
    · rw [ge]; exact isRounded_lo hn1 hlo0.le (by linarith) (by linarith) (Or.inr (Or.inr (Or.inr (Or.inl ⟨hm, by linarith⟩))))
    · rw [ge]; constructor <;> intro <;> linarith
  · rw [abs_of_nonneg (show 0 ≤ v - (lo + u / 2) by linarith)] at cmid
    have d' : 0 < v - (lo + u / 2) := (abs_nonneg _).trans_lt cmid
    have ge : g = lo + u := hg.unique (isRounded_hi hn1 hlo0.le c h5 (Or.inr (Or.inl ⟨hm, by linarith⟩)))
    refine ⟨by linarith, ?_, ?_⟩
    · rw [ge]; exact isRounded_hi hn1 hlo0.le (by linarith) (by linarith) (Or.inr (Or.inl ⟨hm, by linarith⟩))
    · rw [ge]; constructor <;> intro <;> linarith

end Apf
