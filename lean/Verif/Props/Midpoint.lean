import Verif.Props.IntDiv
import Mathlib.Algebra.Order.Archimedean.Basic
/-! # C96: midpoints and bisection -/

namespace Apf
open Spec IeeeFloat
variable {S : Sem}

theorem Spec.Fmt.Grid.double {F : Fmt} {v : ℚ} (h : F.Grid v) : F.Grid (2 * v) := by
  obtain ⟨m, k, h1, h2, rfl⟩ := h
  exact ⟨m, k + 1, h1, by omega, by rw [two_zpow_add, zpow_one]; ring⟩

theorem Spec.Fmt.Grid.half {F : Fmt} {v : ℚ} (h : F.Grid v) (hv : 2 ^ (F.emin + 1) ≤ |v|) : F.Grid (v / 2) := by
  obtain ⟨m, k, h1, h2, rfl⟩ := h
  have hk : F.emin - F.p + 1 ≤ k - 1 := by
    by_contra hc
    have e : k = F.emin - F.p + 1 := by omega
    rw [abs_mul, abs_of_pos (two_zpow_pos k), e, show F.emin + 1 = (F.p : ℤ) + (F.emin - F.p + 1) by ring, two_zpow_add, zpow_natCast] at hv
    have := le_of_mul_le_mul_right hv (two_zpow_pos _)
    have h1' : |(m : ℚ)| < 2 ^ F.p := by exact_mod_cast h1
    linarith
  exact ⟨m, k - 1, h1, hk, by rw [zpow_sub₀ (by norm_num), zpow_one]; ring⟩

theorem Spec.Fmt.Grid.mult {F : Fmt} {v : ℚ} (h : F.Grid v) : Mult (F.emin - F.p + 1) v := by
  obtain ⟨m, k, -, h2, rfl⟩ := h
  exact Mult.mono (k := k) ⟨m, rfl⟩ h2

/-- Multiples of the smallest positive number below twice the normal range are representable. -/
theorem grid_small {F : Fmt} (hp : 1 ≤ F.p) {v : ℚ} (h : Mult (F.emin - F.p + 1) v) (hv : |v| ≤ 2 ^ (F.emin + 1)) : F.Grid v :=
  grid_of_mult hp h (le_refl _) (by rw [show (F.p : ℤ) + (F.emin - F.p + 1) = F.emin + 1 by ring]; exact hv)

theorem Mult.lt_step {k : ℤ} {v w : ℚ} (hv : Mult k v) (hw : Mult k w) (h : v < w) : v + 2 ^ k ≤ w := by
  obtain ⟨n, rfl⟩ := hv
  obtain ⟨m, rfl⟩ := hw
  have hk := two_zpow_pos k
  have h1 : (n : ℚ) < m := lt_of_mul_lt_mul_right h hk.le
  have h2 : (n : ℚ) + 1 ≤ m := by exact_mod_cast h1
  nlinarith

/-- A rounded sum in the lower part of the range is exact. -/
theorem small_exact {F : Fmt} (hp : 1 ≤ F.p) {mode : Round} {v g : ℚ} (hm : Mult (F.emin - F.p + 1) v) (hg : IsRounded F mode v g)
    (hlt : |g| < 2 ^ (F.emin + 1)) : g = v := by
  have gp : F.Grid ((2 : ℚ) ^ (F.emin + 1)) :=
    grid_small hp (Mult.mono (k := F.emin + 1) ⟨1, by simp⟩ (by omega)) (by rw [abs_of_pos (two_zpow_pos _)])
  have : |v| ≤ 2 ^ (F.emin + 1) := by
    by_contra hc
    push Not at hc
    rcases lt_abs.1 hc with c | c
    · have := hg.ge_of_grid gp c.le
      linarith [le_abs_self g]
    · have := hg.le_of_grid gp.neg (by linarith)
      linarith [neg_abs_le g]
  exact hg.unique (isRounded_self mode (grid_small hp hm this))

/-- Halving what a sum or difference was rounded to. -/
theorem half_rounded {F : Fmt} (hp : 1 ≤ F.p) {m1 m2 : Round} {v s r : ℚ} (hm : Mult (F.emin - F.p + 1) v) (hs : IsRounded F m1 v s)
    (hr : IsRounded F m2 (s / 2) r) : r = s / 2 ∨ (s = v ∧ F.Grid ((s - 2 ^ (F.emin - F.p + 1)) / 2) ∧ F.Grid ((s + 2 ^ (F.emin - F.p + 1)) / 2)) := by
  rcases le_or_gt (2 ^ (F.emin + 1)) |s| with c | c
  · exact .inl (hr.unique (isRounded_self m2 (hs.1.half c)))
  · have e := small_exact hp hm hs c
    obtain ⟨n, hn⟩ := hs.1.mult
    have ek : (2 : ℚ) ^ (F.emin + 1) = 2 ^ F.p * 2 ^ (F.emin - F.p + 1) := by rw [← zpow_natCast, ← two_zpow_add]; congr 1; ring
    have hk := two_zpow_pos (F.emin - F.p + 1)
    obtain ⟨q, hq⟩ : ∃ q : ℕ, F.p = q + 1 := ⟨F.p - 1, by omega⟩
    have hn' : |n| < 2 ^ F.p := by
      rw [hn, abs_mul, abs_of_pos hk, ek] at c
      have := lt_of_mul_lt_mul_right c hk.le
      exact_mod_cast this
    have small : ∀ j : ℤ, |j| ≤ 2 ^ (F.p - 1) → F.Grid (j * 2 ^ (F.emin - F.p + 1)) := by
      intro j hj
      refine grid_small hp ⟨j, rfl⟩ ?_
      rw [abs_mul, abs_of_pos hk, ek]
      have : |(j : ℚ)| ≤ 2 ^ (F.p - 1) := by exact_mod_cast hj
      exact mul_le_mul_of_nonneg_right (this.trans (pow_le_pow_right₀ (by norm_num) (by omega))) hk.le
    rw [hq, pow_succ] at hn'
    have hq' : F.p - 1 = q := by omega
    rw [hq'] at small
    have hb := abs_lt.1 hn'
    rcases Int.even_or_odd' n with ⟨j, hj | hj⟩
    · left
      refine hr.unique (isRounded_self m2 ?_)
      have : s / 2 = j * 2 ^ (F.emin - F.p + 1) := by rw [hn, hj]; push_cast; ring
      rw [this]
      exact small j (abs_le.2 ⟨by omega, by omega⟩)
    · right
      refine ⟨e, ?_, ?_⟩
      · have : (s - 2 ^ (F.emin - F.p + 1)) / 2 = j * 2 ^ (F.emin - F.p + 1) := by rw [hn, hj]; push_cast; ring
        rw [this]
        exact small j (abs_le.2 ⟨by omega, by omega⟩)
      · have : (s + 2 ^ (F.emin - F.p + 1)) / 2 = ((j + 1 : ℤ) : ℚ) * 2 ^ (F.emin - F.p + 1) := by rw [hn, hj]; push_cast; ring
        rw [this]
        exact small (j + 1) (abs_le.2 ⟨by omega, by omega⟩)

/-- **C96.** `(x + y) / 2` lies between `x` and `y`, in any rounding modes, when the sum is in range; when the sum is rounded to nearest and some
representable number lies strictly between `x` and `y`, so does the computed midpoint. -/
theorem C96_midpoint (h : S.OK) {x y two : IeeeFloat S} (hx : x.Valid) (hy : y.Valid) (h2 : two.Valid) (fx : x.isFinite = true)
    (fy : y.isFinite = true) (f2 : two.isFinite = true) (htwo : two.toRat = 2) (hxy : x.toRat ≤ y.toRat) (hv : |x.toRat + y.toRat| ≤ S.fmt.largest)
    (m1 m2 : Round) :
    ∃ s r, addR x y m1 = .ok s ∧ divR s.value two m2 = .ok r ∧ r.value.Valid ∧ r.value.isFinite = true ∧
      x.toRat ≤ r.value.toRat ∧ r.value.toRat ≤ y.toRat ∧
      ((m1 = .nearestTiesToEven ∨ m1 = .nearestTiesToAway) →
        (∃ z : IeeeFloat S, z.Valid ∧ z.isFinite = true ∧ x.toRat < z.toRat ∧ z.toRat < y.toRat) →
        x.toRat < r.value.toRat ∧ r.value.toRat < y.toRat) := by
  have hp : 1 ≤ S.fmt.p := by have := h.p_ge; show 1 ≤ S.precision; omega
  have gx := grid_toRat h hx fx
  have gy := grid_toRat h hy fy
  obtain ⟨s, s1, s2, s3⟩ := addR_finite h hx hy fx fy m1 (directedOK_of_ge h m1 (_root_.abs_le.1 hv).1)
  obtain ⟨sf, si, -⟩ := rounds_fine h s3 hv
  have b1 := si.ge_of_grid gx.double (by linarith)
  have b2 := si.le_of_grid gy.double (by linarith)
  have sl : |s.value.toRat| ≤ S.fmt.largest := abs_toRat_le h s2 sf
  have hv2 : |s.value.toRat / two.toRat| ≤ S.fmt.largest := by
    rw [htwo, abs_div, show |(2 : ℚ)| = 2 by norm_num]
    linarith [abs_nonneg s.value.toRat]
  obtain ⟨r, r1, r2, r3⟩ := divR_finite h s2 h2 sf f2 (by rw [htwo]; norm_num) m2 (directedOK_of_ge h m2 (_root_.abs_le.1 hv2).1)
  obtain ⟨rf, ri, -⟩ := rounds_fine h r3 hv2
  rw [htwo] at ri
  refine ⟨s, r, s1, r1, r2, rf, ri.ge_of_grid gx (by linarith), ri.le_of_grid gy (by linarith), ?_⟩
  rintro hm ⟨z, hz, fz, z1, z2⟩
  have gz := grid_toRat h hz fz
  have near : |x.toRat + y.toRat - s.value.toRat| ≤ |x.toRat + y.toRat - 2 * z.toRat| := by
    rcases hm with rfl | rfl
    · exact si.2.1 _ gz.double
    · exact si.2.1 _ gz.double
  have lt : |x.toRat + y.toRat - 2 * z.toRat| < y.toRat - x.toRat := abs_lt.2 ⟨by linarith, by linarith⟩
  obtain ⟨c1, c2⟩ := abs_lt.1 (near.trans_lt lt)
  rcases half_rounded hp (gx.mult.add gy.mult) si ri with e | ⟨e, g1, g2⟩
  · rw [e]; constructor <;> linarith
  · have t1 := gx.mult.lt_step gz.mult z1
    have t2 := gz.mult.lt_step gy.mult z2
    have hk := two_zpow_pos (S.fmt.emin - S.fmt.p + 1)
    have d1 := ri.ge_of_grid g1 (by linarith)
    have d2 := ri.le_of_grid g2 (by linarith)
    constructor <;> linarith

/-- **C96.** `x + (y - x) / 2` lies between `x` and `y`, in any rounding modes, when the difference is in range. -/
theorem C96_offset (h : S.OK) {x y two : IeeeFloat S} (hx : x.Valid) (hy : y.Valid) (h2 : two.Valid) (fx : x.isFinite = true)
    (fy : y.isFinite = true) (f2 : two.isFinite = true) (htwo : two.toRat = 2) (hxy : x.toRat ≤ y.toRat) (hv : y.toRat - x.toRat ≤ S.fmt.largest)
    (m1 m2 m3 : Round) :
    ∃ d k r, subR y x m1 = .ok d ∧ divR d.value two m2 = .ok k ∧ addR x k.value m3 = .ok r ∧ r.value.Valid ∧ r.value.isFinite = true ∧
      x.toRat ≤ r.value.toRat ∧ r.value.toRat ≤ y.toRat := by
  have hp : 1 ≤ S.fmt.p := by have := h.p_ge; show 1 ≤ S.precision; omega
  have gx := grid_toRat h hx fx
  have gy := grid_toRat h hy fy
  have hd0 : 0 ≤ y.toRat - x.toRat := by linarith
  have hv' : |y.toRat - x.toRat| ≤ S.fmt.largest := by rwa [abs_of_nonneg hd0]
  obtain ⟨d, d1, d2, d3⟩ := subR_finite h hy hx fy fx m1 (directedOK_of_ge h m1 (_root_.abs_le.1 hv').1)
  obtain ⟨df, di, -⟩ := rounds_fine h d3 hv'
  have dn := di.nonneg hd0
  have dl : |d.value.toRat| ≤ S.fmt.largest := abs_toRat_le h d2 df
  have hv2 : |d.value.toRat / two.toRat| ≤ S.fmt.largest := by
    rw [htwo, abs_div, show |(2 : ℚ)| = 2 by norm_num]
    linarith [abs_nonneg d.value.toRat]
  obtain ⟨k, k1, k2, k3⟩ := divR_finite h d2 h2 df f2 (by rw [htwo]; norm_num) m2 (directedOK_of_ge h m2 (_root_.abs_le.1 hv2).1)
  obtain ⟨kf, ki, -⟩ := rounds_fine h k3 hv2
  rw [htwo] at ki
  have kn := ki.nonneg (by linarith)
  have kd : k.value.toRat ≤ y.toRat - x.toRat := by
    rcases half_rounded hp (gy.mult.sub gx.mult) di ki with e | ⟨e, g1, g2⟩
    · rw [e]
      by_cases gd : S.fmt.Grid (y.toRat - x.toRat)
      · have := di.unique (isRounded_self m1 gd)
        linarith
      · -- a power of two `c ≤ y - x < 2 c`
        have hpos : 0 < y.toRat - x.toRat := lt_of_le_of_ne hd0 (fun hc => gd (by rw [← hc]; exact grid_int h (n := 0) (by simp)))
        have hbig : 2 ^ (S.fmt.emin + 1) ≤ y.toRat - x.toRat := by
          by_contra hc
          exact gd (grid_small hp (gy.mult.sub gx.mult) (by rw [abs_of_nonneg hd0]; linarith))
        obtain ⟨j, j1, j2⟩ := exists_mem_Ico_zpow hpos (show (1 : ℚ) < 2 by norm_num)
        have hj : S.fmt.emin - S.fmt.p + 1 ≤ j + 1 := by
          have : (2 : ℚ) ^ (S.fmt.emin + 1) < 2 ^ (j + 1) := lt_of_le_of_lt hbig j2
          have := (zpow_lt_zpow_iff_right₀ (by norm_num : (1 : ℚ) < 2)).1 this
          omega
        have gj : S.fmt.Grid ((2 : ℚ) ^ (j + 1)) := ⟨1, j + 1, by
          rw [abs_one]; exact one_lt_pow₀ (by norm_num) (by omega), hj, by simp⟩
        have := di.le_of_grid gj j2.le
        rw [two_zpow_add, zpow_one] at this
        linarith
    · have hmul : d.value.toRat = 0 ∨ 2 ^ (S.fmt.emin - S.fmt.p + 1) ≤ d.value.toRat := by
        rcases dn.lt_or_eq with c | c
        · right
          have := Mult.lt_step (k := S.fmt.emin - S.fmt.p + 1) ⟨0, by simp⟩ di.1.mult c
          linarith
        · exact .inl c.symm
      rcases hmul with c | c
      · have := ki.unique (isRounded_self m2 (by rw [c]; simpa using grid_int h (n := 0) (by simp)))
        rw [this]; linarith
      · have := ki.le_of_grid g2 (by linarith [two_zpow_pos (S.fmt.emin - S.fmt.p + 1)])
        linarith
  have hs : |x.toRat + k.value.toRat| ≤ S.fmt.largest := by
    have lx := _root_.abs_le.1 (abs_toRat_le h hx fx)
    have ly := _root_.abs_le.1 (abs_toRat_le h hy fy)
    exact abs_le.2 ⟨by linarith, by linarith⟩
  obtain ⟨r, r1, r2, r3⟩ := addR_finite h hx k2 fx kf m3 (directedOK_of_ge h m3 (_root_.abs_le.1 hs).1)
  obtain ⟨rf, ri, -⟩ := rounds_fine h r3 hs
  exact ⟨d, k, r, d1, k1, r1, r2, rf, ri.ge_of_grid gx (by linarith), ri.le_of_grid gy (by linarith)⟩

/-- **C96.** Rounding the sum in a directed mode can stop a bisection early: the midpoint of `-(1 + 2u)` and `-(1 - u)` is the lower bound, although `-1` lies
strictly between (`Half`, `u = 2^-11`). -/
theorem C96_directed_stuck :
    ∃ s r : StatusAnd (IeeeFloat halfS), addR ⟨1025, 0, .normal, true⟩ ⟨2047, -1, .normal, true⟩ .towardNegative = .ok s ∧
      divR s.value ⟨1024, 1, .normal, false⟩ .nearestTiesToEven = .ok r ∧ r.value = ⟨1025, 0, .normal, true⟩ ∧
      (⟨1025, 0, .normal, true⟩ : IeeeFloat halfS).toRat < (⟨1024, 0, .normal, true⟩ : IeeeFloat halfS).toRat ∧
      (⟨1024, 0, .normal, true⟩ : IeeeFloat halfS).toRat < (⟨2047, -1, .normal, true⟩ : IeeeFloat halfS).toRat :=
  ⟨_, _, rfl, rfl, rfl, by decide +kernel, by decide +kernel⟩

example := C96_midpoint singleS_ok (x := ⟨3 * 2 ^ 22, 1, .normal, true⟩) (y := ⟨3 * 2 ^ 22, 0, .normal, false⟩) (two := ⟨2 ^ 23, 1, .normal, false⟩)
  (by decide) (by decide) (by decide) rfl rfl rfl (by decide +kernel) (by decide +kernel) (by decide +kernel) .nearestTiesToEven .towardZero
example := C96_offset singleS_ok (x := ⟨3 * 2 ^ 22, 1, .normal, true⟩) (y := ⟨3 * 2 ^ 22, 0, .normal, false⟩) (two := ⟨2 ^ 23, 1, .normal, false⟩)
  (by decide) (by decide) (by decide) rfl rfl rfl (by decide +kernel) (by decide +kernel) (by decide +kernel) .towardPositive .towardZero .towardNegative

end Apf
