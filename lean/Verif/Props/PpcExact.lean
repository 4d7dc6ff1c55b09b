import Verif.Props.PpcScale
import Verif.Props.FmaExact
/-! # C77, C78: exactly what `cmp_abs_normal`, `ilogb` and `scalbn` deliver for DoubleDouble -/

namespace Apf
open Spec IeeeFloat
variable {S : Sem}

/-- The cases in which `cmp_abs_normal` of two finite pairs stops: the high parts are equal in magnitude, and a low part is zero. -/
def CmpAbsPanics (x y : DoubleFloat S) : Prop := |x.hi.toRat| = |y.hi.toRat| ∧ (x.lo.toRat = 0 ∨ y.lo.toRat = 0)

/-- The cases in which it takes different magnitudes for equal: both parts agree in magnitude, and the low parts point in different directions. -/
def CmpAbsWrong (x y : DoubleFloat S) : Prop :=
  |x.hi.toRat| = |y.hi.toRat| ∧ |x.lo.toRat| = |y.lo.toRat| ∧ |x.toRat| ≠ |y.toRat|

theorem cmpAbs_zero_panics {x y : IeeeFloat S} (fx : x.isFinite = true) (fy : y.isFinite = true) (hx : x.Valid) (hy : y.Valid)
    (h0 : x.toRat = 0 ∨ y.toRat = 0) : IeeeFloat.cmpAbsNormal x y = .error .assert := by
  have key : ∀ {z : IeeeFloat S}, z.isFinite = true → z.Valid → z.toRat = 0 → z.isFiniteNonZero = false := by
    intro z fz hz e
    rcases isFinite_iff.1 fz with c | c
    · exact absurd e (toRat_ne_zero hz c)
    · simp [isFiniteNonZero, isZero, c]
  unfold IeeeFloat.cmpAbsNormal
  rcases h0 with e | e
  · rw [massert_neg (by simp [key fx hx e])]; rfl
  · cases hc : x.isFiniteNonZero
    · rw [massert_neg (by simp)]; rfl
    · rw [massert_pos rfl, M.ok_bind, massert_neg (by simp [key fy hy e])]; rfl

/-- **C77.** For finite non-zero canonical pairs, `cmp_abs_normal` panics iff `CmpAbsPanics`; otherwise it returns `Equal` if `CmpAbsWrong`, and the order of
the magnitudes of the represented numbers if not. -/
theorem C77_cmp_abs_normal (h : S.OK) {x y : DoubleFloat S} (hx : x.Valid) (hy : y.Valid) (cx : x.Canonical) (cy : y.Canonical)
    (n1 : x.hi.toRat ≠ 0) (n3 : y.hi.toRat ≠ 0) :
    (CmpAbsPanics x y → x.cmpAbsNormal y = .error .assert) ∧
    (¬ CmpAbsPanics x y → CmpAbsWrong x y → x.cmpAbsNormal y = .ok .eq) ∧
    (¬ CmpAbsPanics x y → ¬ CmpAbsWrong x y → x.cmpAbsNormal y = .ok (compare |x.toRat| |y.toRat|)) := by
  have nrm : ∀ {z : IeeeFloat S}, z.isFinite = true → z.toRat ≠ 0 → z.category = .normal := by
    intro z fz hz
    exact (isFinite_iff.1 fz).resolve_right fun c => hz (toRat_zero c)
  have k1 := nrm cx.1.1 n1
  have k3 := nrm cy.1.1 n3
  refine ⟨fun ⟨e, e0⟩ => ?_, fun hp ⟨e1, e2, e3⟩ => ?_, fun hp hw => ?_⟩
  · unfold DoubleFloat.cmpAbsNormal
    rw [cmpAbsNormal_eq h hx.1 hy.1 k1 k3, M.ok_bind, compare_eq_iff_eq.2 e]
    dsimp only
    rw [cmpAbs_zero_panics cx.1.2 cy.1.2 hx.2 hy.2 e0]
    rfl
  · have hl : ¬ (x.lo.toRat = 0 ∨ y.lo.toRat = 0) := fun e => hp ⟨e1, e⟩
    push Not at hl
    unfold DoubleFloat.cmpAbsNormal
    rw [cmpAbsNormal_eq h hx.1 hy.1 k1 k3, M.ok_bind, compare_eq_iff_eq.2 e1]
    dsimp only
    rw [cmpAbsNormal_eq h hx.2 hy.2 (nrm cx.1.2 hl.1) (nrm cy.1.2 hl.2), M.ok_bind, compare_eq_iff_eq.2 e2]
    rfl
  · by_cases hl : x.lo.toRat = 0 ∨ y.lo.toRat = 0
    · have hne : |x.hi.toRat| ≠ |y.hi.toRat| := fun e => hp ⟨e, hl⟩
      have rx := abs_rounded cx.2
      have ry := abs_rounded cy.2
      unfold DoubleFloat.cmpAbsNormal
      rw [cmpAbsNormal_eq h hx.1 hy.1 k1 k3, M.ok_bind]
      rcases lt_or_gt_of_ne hne with c | c
      · have : |x.toRat| < |y.toRat| := by
          by_contra hc
          exact absurd (ry.mono rx (not_lt.1 hc)) (not_le.2 c)
        rw [compare_lt_iff_lt.2 c, compare_lt_iff_lt.2 this]
      · have : |x.toRat| > |y.toRat| := by
          by_contra hc
          exact absurd (rx.mono ry (not_lt.1 hc)) (not_le.2 c)
        rw [compare_gt_iff_gt.2 c, compare_gt_iff_gt.2 this]
    · push Not at hl
      refine C49_cmp_abs_normal_partial h hx hy cx cy k1 (nrm cx.1.2 hl.1) k3 (nrm cy.1.2 hl.2) fun a b => ?_
      by_contra hc
      exact hw ⟨a, b, hc⟩

/-- All three cases occur among canonical pairs: 1 with itself; 1 ± 2^-60; 1 + 2^-60 with 2. -/
example : ∃ o x y : DoubleDouble, CmpAbsPanics o o ∧ (¬ CmpAbsPanics x y ∧ CmpAbsWrong x y) ∧
    o.cmpAbsNormal o = .error .assert ∧ x.cmpAbsNormal y = .ok .eq := by
  refine ⟨⟨⟨2 ^ 52, 0, .normal, false⟩, ZERO doubleS⟩, ⟨⟨2 ^ 52, 0, .normal, false⟩, ⟨2 ^ 52, -60, .normal, false⟩⟩,
    ⟨⟨2 ^ 52, 0, .normal, false⟩, ⟨2 ^ 52, -60, .normal, true⟩⟩, ⟨rfl, Or.inl (toRat_zero rfl)⟩, ⟨?_, ?_⟩, by decide +kernel, by decide +kernel⟩
  · rintro ⟨-, e | e⟩ <;> norm_num [toRat, signed, doubleS, Sem.default] at e
  · refine ⟨rfl, ?_, ?_⟩ <;> norm_num [DoubleFloat.toRat, toRat, signed, doubleS, Sem.default, abs_div, abs_of_pos]

/-! ## C78 -/

/-- Rounding to nearest moves a value below the normal range by at most half the smallest subnormal number. -/
theorem IsRounded.dist_sub_nearest {F : Fmt} (hp : 2 ≤ F.p) {mode : Round} (hm : mode = .nearestTiesToEven ∨ mode = .nearestTiesToAway) {v g : ℚ}
    (hg : IsRounded F mode v g) (hv : |v| < 2 ^ F.emin) : |g - v| ≤ 2 ^ (F.emin - F.p + 1) / 2 := by
  obtain ⟨d, hd⟩ := exists_rounded (F := F) (by omega) .towardNegative v
  obtain ⟨u, hu⟩ := exists_rounded (F := F) (by omega) .towardPositive v
  have near : ∀ w, F.Grid w → |v - g| ≤ |v - w| := by
    rcases hm with rfl | rfl <;> exact hg.2.1
  have h1 := IsRounded.dist_sub hp hd hv
  have n1 := near d hd.1
  have n2 := near u hu.1
  have hdv : d ≤ v := hd.2.1
  have hvu : v ≤ u := hu.2.1
  -- the next grid number above `d` is at most one unit away
  have hud : u ≤ d + 2 ^ (F.emin - F.p + 1) := by
    by_contra hc
    have hη := two_zpow_pos (F.emin - F.p + 1)
    obtain ⟨k, hk⟩ : ∃ k, ⌈v / 2 ^ (F.emin - F.p + 1)⌉ = k := ⟨_, rfl⟩
    have k1 : v / 2 ^ (F.emin - F.p + 1) ≤ k := by rw [← hk]; exact Int.le_ceil _
    have k2 : (k : ℚ) < v / 2 ^ (F.emin - F.p + 1) + 1 := by rw [← hk]; exact Int.ceil_lt_add_one _
    rw [div_le_iff₀ hη] at k1
    have k2' : ((k : ℚ) - 1) * 2 ^ (F.emin - F.p + 1) < v := by
      have : (k : ℚ) - 1 < v / 2 ^ (F.emin - F.p + 1) := by linarith
      rwa [lt_div_iff₀ hη] at this
    have hB : (2 : ℚ) ^ F.emin = ((2 ^ (F.p - 1) : ℤ) : ℚ) * 2 ^ (F.emin - F.p + 1) := by
      push_cast
      rw [← zpow_natCast, ← two_zpow_add]; congr 1; omega
    have hP : (2 : ℤ) ^ (F.p - 1) * 2 = 2 ^ F.p := by rw [← pow_succ]; congr 1; omega
    have hP1 : (2 : ℤ) ≤ 2 ^ (F.p - 1) := by
      calc (2 : ℤ) = 2 ^ 1 := by norm_num
        _ ≤ _ := pow_le_pow_right₀ (by norm_num) (by omega)
    rw [hB, abs_lt] at hv
    have b1 : -(2 ^ (F.p - 1) : ℤ) < k := by
      have : ((-(2 ^ (F.p - 1) : ℤ) : ℤ) : ℚ) * 2 ^ (F.emin - F.p + 1) < (k : ℚ) * 2 ^ (F.emin - F.p + 1) := by
        push_cast at hv ⊢; linarith [hv.1]
      exact_mod_cast lt_of_mul_lt_mul_right this hη.le
    have b2 : k - 1 < (2 ^ (F.p - 1) : ℤ) := by
      have : ((k - 1 : ℤ) : ℚ) * 2 ^ (F.emin - F.p + 1) < ((2 ^ (F.p - 1) : ℤ) : ℚ) * 2 ^ (F.emin - F.p + 1) := by
        push_cast at hv ⊢; linarith [hv.2]
      exact_mod_cast lt_of_mul_lt_mul_right this hη.le
    have g1 : F.Grid ((k : ℚ) * 2 ^ (F.emin - F.p + 1)) := ⟨k, _, by rw [abs_lt]; omega, le_refl _, rfl⟩
    have g2 : F.Grid (((k - 1 : ℤ) : ℚ) * 2 ^ (F.emin - F.p + 1)) := ⟨k - 1, _, by rw [abs_lt]; omega, le_refl _, rfl⟩
    have c1 : u ≤ _ := hu.2.2 _ g1 k1
    have c2 : _ ≤ d := hd.2.2 _ g2 (by push_cast; linarith)
    push_cast at c2
    linarith
  rw [abs_sub_comm]
  rw [abs_of_nonneg (by linarith : 0 ≤ v - d)] at n1
  rw [abs_of_nonpos (by linarith : v - u ≤ 0)] at n2
  linarith

/-- Scaling one part. -/
theorem scalbn_close (h : S.OK) (hS : S.nonfinite = .ieee754) {x : IeeeFloat S} (hx : x.Valid) (fx : x.isFinite = true) (n : ℤ) (mode : Round)
    (hl : |x.toRat * 2 ^ n| ≤ S.fmt.largest) :
    ∃ r, scalbnR x n mode = .ok r ∧ r.Valid ∧ r.isFinite = true ∧ r.sign = x.sign ∧ |r.toRat - x.toRat * 2 ^ n| ≤ 2 ^ (S.minExp - S.precision + 1) ∧
      ((mode = .nearestTiesToEven ∨ mode = .nearestTiesToAway) → |r.toRat - x.toRat * 2 ^ n| ≤ 2 ^ (S.minExp - S.precision + 1) / 2) ∧
      (S.fmt.Grid (x.toRat * 2 ^ n) → r.toRat = x.toRat * 2 ^ n) := by
  have hp := h.p_ge
  obtain ⟨r, st, r1, r2, r3, r4⟩ := C25_scalbn h hx fx n mode (directedOK_of_ieee hS _ _)
  have hη := two_zpow_pos (S.minExp - S.precision + 1)
  by_cases hg : S.fmt.Grid (x.toRat * 2 ^ n)
  · obtain ⟨-, f, e⟩ := r4.exact hg hl
    dsimp only at f e
    refine ⟨r, r1, r2, f, r3, ?_, fun _ => ?_, fun _ => e⟩ <;> rw [e, sub_self, abs_zero] <;> linarith
  · have hlt : |x.toRat * 2 ^ n| < 2 ^ S.minExp := by
      by_contra hc
      exact hg (grid_scale (grid_toRat h hx fx) (not_lt.1 hc))
    obtain ⟨⟨y, y1, y2⟩, -⟩ := r4
    have hy' : |y| ≤ S.fmt.largest := by
      have hg' : S.fmt.Grid (2 ^ S.minExp) := ⟨1, S.minExp, by
        rw [abs_one]
        exact one_lt_pow₀ (by norm_num) (by show S.precision ≠ 0; omega), by show S.minExp - S.precision + 1 ≤ _; omega, by simp⟩
      have a1 := y1.le_of_grid hg' (abs_lt.1 hlt).2.le
      have a2 := y1.ge_of_grid (Fmt.Grid.neg hg') (abs_lt.1 hlt).1.le
      have : (2 : ℚ) ^ S.minExp ≤ S.fmt.largest := smallestNormal_le_largest h
      rw [abs_le']
      constructor <;> linarith
    rcases y2 with ⟨-, d1, -⟩ | ⟨d1, -⟩
    · dsimp only at d1
      have hfin : r.isFinite = true := by
        unfold datum at d1
        rw [isFinite_iff]
        cases c : r.category <;> rw [c] at d1 <;> simp at d1 ⊢
      rw [datum_finite hfin] at d1
      injection d1 with _ d1
      refine ⟨r, r1, r2, hfin, r3, ?_, fun hm => ?_, fun e => absurd e hg⟩
      · rw [d1]; exact IsRounded.dist_sub (F := S.fmt) (by show 2 ≤ S.precision; omega) y1 hlt
      · rw [d1]; exact IsRounded.dist_sub_nearest (F := S.fmt) (by show 2 ≤ S.precision; omega) hm y1 hlt
    · exact absurd hy' (not_le.2 d1)

/-- **C78** (`scalbn`).  For every pair of finite parts (canonical or not), every exponent and mode: as long as no part leaves the range, the result is a pair of
finite parts with the signs of the operand's, which differs from `x * 2^n` by at most two smallest subnormal numbers (one, when rounding to nearest), and
is exact when both scaled parts are representable; if the high part leaves the range, the high part of the result is the overflow
result of the mode. -/
theorem C78_scalbn (h : S.Pair) {x : DoubleFloat S} (hx : x.Valid) (fx : x.Finite) (n : ℤ) (mode : Round) :
    (|x.hi.toRat * 2 ^ n| ≤ S.fmt.largest → |x.lo.toRat * 2 ^ n| ≤ S.fmt.largest →
      ∃ r, x.scalbnR n mode = .ok r ∧ r.Valid ∧ r.Finite ∧ r.hi.sign = x.hi.sign ∧ r.lo.sign = x.lo.sign ∧
        |r.toRat - x.toRat * 2 ^ n| ≤ 2 * 2 ^ (S.minExp - S.precision + 1) ∧
        ((mode = .nearestTiesToEven ∨ mode = .nearestTiesToAway) → |r.toRat - x.toRat * 2 ^ n| ≤ 2 ^ (S.minExp - S.precision + 1)) ∧
        (S.fmt.Grid (x.hi.toRat * 2 ^ n) → S.fmt.Grid (x.lo.toRat * 2 ^ n) → r.toRat = x.toRat * 2 ^ n)) ∧
    (S.fmt.largest < |x.hi.toRat * 2 ^ n| →
      ∃ r, x.scalbnR n mode = .ok r ∧ r.Valid ∧ r.hi.datum = (overflowed S.fmt mode x.hi.sign).1) := by
  constructor
  · intro l1 l2
    obtain ⟨a, a1, a2, a3, a4, a5, a6, a7⟩ := scalbn_close h.ok h.ieee hx.1 fx.1 n mode l1
    obtain ⟨b, b1, b2, b3, b4, b5, b6, b7⟩ := scalbn_close h.ok h.ieee hx.2 fx.2 n mode l2
    have e : (⟨a, b⟩ : DoubleFloat S).toRat - x.toRat * 2 ^ n = (a.toRat - x.hi.toRat * 2 ^ n) + (b.toRat - x.lo.toRat * 2 ^ n) := by
      unfold DoubleFloat.toRat; ring
    refine ⟨⟨a, b⟩, by unfold DoubleFloat.scalbnR; rw [a1, M.ok_bind, b1]; rfl, ⟨a2, b2⟩, ⟨a3, b3⟩, a4, b4, ?_, fun hm => ?_, fun g1 g2 => ?_⟩
    · rw [e]
      have := abs_add_le (a.toRat - x.hi.toRat * 2 ^ n) (b.toRat - x.lo.toRat * 2 ^ n)
      linarith
    · rw [e]
      have := abs_add_le (a.toRat - x.hi.toRat * 2 ^ n) (b.toRat - x.lo.toRat * 2 ^ n)
      linarith [a6 hm, b6 hm]
    · show a.toRat + b.toRat = (x.hi.toRat + x.lo.toRat) * 2 ^ n
      rw [a7 g1, b7 g2]; ring
  · intro l1
    obtain ⟨a, st, a1, a2, a3, ⟨y, y1, y2⟩, -⟩ := C25_scalbn h.ok hx.1 fx.1 n mode (directedOK_of_ieee h.ieee _ _)
    obtain ⟨b, st', b1, b2, -⟩ := C25_scalbn h.ok hx.2 fx.2 n mode (directedOK_of_ieee h.ieee _ _)
    refine ⟨⟨a, b⟩, by unfold DoubleFloat.scalbnR; rw [a1, M.ok_bind, b1]; rfl, ⟨a2, b2⟩, ?_⟩
    have hg : S.fmt.Grid (x.hi.toRat * 2 ^ n) := grid_scale (grid_toRat h.ok hx.1 fx.1) ((smallestNormal_le_largest h.ok).trans l1.le)
    have e : y = x.hi.toRat * 2 ^ n := y1.unique (isRounded_self mode hg)
    subst e
    rcases y2 with ⟨d, -⟩ | ⟨-, d⟩
    · exact absurd l1 (not_lt.2 d)
    · rw [← a3]; exact (Prod.ext_iff.1 d).1

example := C78_scalbn doubleS_pair fits_example.1.1 (by decide) 7 .towardZero

/-- **C78** (`ilogb`).  For non-zero finite canonical pairs `ilogb` is the exponent `e` of the high part; it is the exponent of the number, `2^e ≤ |x| < 2^(e+1)`,
if and only if not both: the high part is the power of two itself, and the low part has the opposite sign. -/
theorem C78_ilogb (h : S.Pair) {x : DoubleFloat S} (hx : x.Valid) (cx : x.Canonical) (h0 : x.toRat ≠ 0) :
    ∃ e, x.ilogb = .ok e ∧ (2 : ℚ) ^ e ≤ |x.hi.toRat| ∧ |x.toRat| < 2 ^ (e + 1) ∧
      (2 ^ e ≤ |x.toRat| ↔ ¬ (|x.hi.toRat| = 2 ^ e ∧ x.hi.toRat * x.lo.toRat < 0)) := by
  have hh0 : x.hi.toRat ≠ 0 := fun q => h0 ((Canonical.hi_zero_iff h.ok hx cx).1 q)
  obtain ⟨e, e1, e2, e3⟩ := C61_ilogb_partial h hx cx h0
  obtain ⟨e', f1, f2, f3⟩ := C26_ilogb h.ok hx.1 cx.1.1 hh0
  have : e' = e := by
    have : x.ilogb = .ok e' := f1
    rw [e1] at this
    injection this with this
    exact this.symm
  subst this
  refine ⟨e', e1, f2, e2, ?_⟩
  have key : x.hi.toRat * x.lo.toRat < 0 → |x.toRat| < |x.hi.toRat| := by
    intro hs
    have rx := cx.2
    unfold DoubleFloat.toRat at *
    rcases lt_or_gt_of_ne hh0 with c | c
    · have hl : 0 < x.lo.toRat := by nlinarith
      have : x.hi.toRat + x.lo.toRat ≤ 0 := by
        by_contra hc
        have := rx.nonneg (not_le.1 hc).le
        linarith
      rw [abs_of_nonpos this, abs_of_neg c]; linarith
    · have hl : x.lo.toRat < 0 := by nlinarith
      have : 0 ≤ x.hi.toRat + x.lo.toRat := by
        by_contra hc
        have := IsRounded.nonpos' rx (not_le.1 hc).le
        linarith
      rw [abs_of_nonneg this, abs_of_pos c]; linarith
  have key' : 0 ≤ x.hi.toRat * x.lo.toRat → |x.hi.toRat| ≤ |x.toRat| := by
    intro hs
    unfold DoubleFloat.toRat
    rcases lt_or_gt_of_ne hh0 with c | c
    · have hl : x.lo.toRat ≤ 0 := by nlinarith
      rw [abs_of_neg c, abs_of_nonpos (by linarith)]; linarith
    · have hl : 0 ≤ x.lo.toRat := by nlinarith
      rw [abs_of_pos c, abs_of_nonneg (by linarith)]; linarith
  constructor
  · rintro hle ⟨a, b⟩
    linarith [key b]
  · intro hn
    rcases e3 with d | ⟨d, -⟩
    · exact d
    · by_cases hs : x.hi.toRat * x.lo.toRat < 0
      · exact absurd ⟨d, hs⟩ hn
      · linarith [key' (not_lt.1 hs)]

/-- The hypotheses are met by `1 - 2^-60`, on which `ilogb` is wrong, and by halving it, which is exact, or scaling it into the subnormals. -/
example : ∃ x : DoubleDouble, x.Valid ∧ x.Canonical ∧ x.Finite ∧ x.toRat ≠ 0 := by
  obtain ⟨f, v⟩ := fits_example
  exact ⟨_, f.1, f.2.1, f.2.1.1, by rw [v]; norm_num⟩

end Apf
