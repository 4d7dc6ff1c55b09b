import Verif.Props.Identities
import Verif.Props.Rem
import Verif.Props.PpcMul
/-!
# C68: error-free transformations

Programs that compute with floating point numbers recover what an operation lost: the rounding error of a sum, of a product and of a
division is itself a number of the format and the usual sequences of calls compute it exactly.
-/

namespace Apf
open Spec IeeeFloat
variable {S : Sem}

/-- **C68.** (Sterbenz) Subtracting numbers within a factor of two of each other is exact, in every rounding mode. -/
theorem C68_sterbenz (h : S.OK) {x y : IeeeFloat S} (hx : x.Valid) (hy : y.Valid) (fx : x.isFinite = true) (fy : y.isFinite = true)
    (h1 : y.toRat ≤ 2 * x.toRat) (h2 : x.toRat ≤ 2 * y.toRat) (mode : Round) :
    ∃ r, subR x y mode = .ok r ∧ r.value.Valid ∧ r.status = Status.OK ∧ r.value.isFinite = true ∧ r.value.toRat = x.toRat - y.toRat := by
  have gx := grid_toRat h hx fx
  have gy := grid_toRat h hy fy
  have lx := abs_le.1 (abs_toRat_le h hx fx)
  have ly := abs_le.1 (abs_toRat_le h hy fy)
  have hl : |x.toRat - y.toRat| ≤ S.fmt.largest := by
    rw [abs_le]; constructor <;> linarith
  have hg : S.fmt.Grid (x.toRat - y.toRat) := by
    rcases le_total y.toRat x.toRat with c | c
    · exact sterbenz gx gy c h2
    · have := (sterbenz gy gx c h1).neg
      rwa [neg_sub] at this
  obtain ⟨r, r1, r2, r3⟩ := subR_finite h hx hy fx fy mode (directedOK_of_ge h mode (abs_le.1 hl).1)
  obtain ⟨a, b, c⟩ := r3.exact hg hl
  exact ⟨r, r1, r2, a, b, c⟩

/-- A call whose exact result is a number of the format. -/
theorem addR_representable (h : S.OK) (hS : S.nonfinite = .ieee754) {x y : IeeeFloat S} (hx : x.Valid) (fx : x.isFinite = true) (hy : y.Valid)
    (fy : y.isFinite = true) (mode : Round) {v : ℚ} (hv : x.toRat + y.toRat = v) (hg : S.fmt.Grid v) (hl : |v| ≤ S.fmt.largest) :
    ∃ r, addR x y mode = .ok r ∧ r.value.Valid ∧ r.status = Status.OK ∧ r.value.isFinite = true ∧ r.value.toRat = v := by
  subst hv
  obtain ⟨r, r1, r2, r3⟩ := addR_finite h hx hy fx fy mode (directedOK_of_ieee hS _ _)
  exact ⟨r, r1, r2, r3.exact hg hl⟩

theorem subR_representable (h : S.OK) (hS : S.nonfinite = .ieee754) {x y : IeeeFloat S} (hx : x.Valid) (fx : x.isFinite = true) (hy : y.Valid)
    (fy : y.isFinite = true) (mode : Round) {v : ℚ} (hv : x.toRat - y.toRat = v) (hg : S.fmt.Grid v) (hl : |v| ≤ S.fmt.largest) :
    ∃ r, subR x y mode = .ok r ∧ r.value.Valid ∧ r.status = Status.OK ∧ r.value.isFinite = true ∧ r.value.toRat = v := by
  subst hv
  obtain ⟨r, r1, r2, r3⟩ := subR_finite h hx hy fx fy mode (directedOK_of_ieee hS _ _)
  exact ⟨r, r1, r2, r3.exact hg hl⟩

section
variable (h : S.OK) (hS : S.nonfinite = .ieee754)
include h hS

theorem quarter_bounds : ∃ m : ℚ, 0 < m ∧ (2 : ℚ) ^ (S.maxExp - 2) = m ∧ S.fmt.Grid m ∧ S.fmt.Grid (2 * m) ∧ S.fmt.Grid (4 * m) ∧
    (∀ v : ℚ, S.fmt.Grid v → |v| < 8 * m → |v| ≤ S.fmt.largest) := by
  have hpm := h.p_max; have hmin := h.min_lt; have h3 := h.p_ge
  have hfp : S.fmt.p = S.precision := rfl
  have hfe : S.fmt.emin = S.minExp := rfl
  have gp : ∀ j : ℕ, S.fmt.Grid (2 ^ (S.maxExp - 2 + j)) := fun j => grid_two_pow (by omega) (by rw [hfp, hfe]; omega)
  have pow : ∀ j : ℕ, (2 : ℚ) ^ (S.maxExp - 2 + j) = 2 ^ j * 2 ^ (S.maxExp - 2) := by
    intro j; rw [two_zpow_add, zpow_natCast, mul_comm]
  have g0 := gp 0
  have g1 := gp 1
  have g2 := gp 2
  rw [pow] at g0 g1 g2
  norm_num at g0 g1 g2
  refine ⟨2 ^ (S.maxExp - 2), two_zpow_pos _, rfl, g0, g1, g2, fun v hv hlt => ?_⟩
  apply grid_le_largest h hS hv
  rw [show S.maxExp + 1 = S.maxExp - 2 + (3 : ℕ) by push_cast; ring, pow 3]
  norm_num
  exact hlt

/-- **C68.** (TwoSum) Six calls split the sum of two numbers, in any order of magnitude, into the rounded sum and its exact error.
The last four are exact whatever their rounding modes. -/
theorem C68_two_sum {x y : IeeeFloat S} (hx : x.Valid) (hy : y.Valid) (fx : x.isFinite = true) (fy : y.isFinite = true)
    (bx : |x.toRat| ≤ 2 ^ (S.maxExp - 2)) (bb : |y.toRat| ≤ 2 ^ (S.maxExp - 2)) (m1 m2 m3 m4 : Round) :
    ∃ s q t u v e, addR x y .nearestTiesToEven = .ok s ∧ subR x s.value .nearestTiesToEven = .ok q ∧ addR q.value y m1 = .ok t ∧
      addR q.value s.value m2 = .ok u ∧ subR x u.value m3 = .ok v ∧ addR t.value v.value m4 = .ok e ∧
      s.value.isFinite = true ∧ e.value.isFinite = true ∧ e.status = Status.OK ∧ s.value.toRat + e.value.toRat = x.toRat + y.toRat ∧
      s.value.Valid ∧ e.value.Valid := by
  have h3 := h.p_ge
  obtain ⟨m, m0, hm, gm1, gm2, gm4, lim⟩ := quarter_bounds h hS
  rw [hm] at bx bb
  have l4 : 4 * m ≤ S.fmt.largest := by
    have := lim _ gm4 (by rw [abs_of_pos (by linarith)]; linarith)
    rwa [abs_of_pos (by linarith)] at this
  have gx := grid_toRat h hx fx
  have gy := grid_toRat h hy fy
  have hp : 3 ≤ S.fmt.p := h3
  obtain ⟨s, s1, s2, s3, s4⟩ := add_step h hx fx hy fy gm2 (by linarith) ((abs_add_le _ _).trans (by linarith))
  have bs : |s.value.toRat| ≤ 2 * m := RN.abs_le s4 gm2 ((abs_add_le _ _).trans (by linarith))
  obtain ⟨q, q1, q2, q3, q4⟩ := sub_step h hx fx s2 s3 gm4 l4 ((abs_sub _ _).trans (by linarith))
  have bq : |q.value.toRat| ≤ 4 * m := RN.abs_le q4 gm4 ((abs_sub _ _).trans (by linarith))
  obtain ⟨g1, g2, g3, g4⟩ := two_sum hp gx gy s4 q4
  obtain ⟨t, t1, t2, -, t3, t4⟩ := addR_representable h hS q2 q3 hy fy m1 rfl g1 (lim _ g1 ((abs_add_le _ _).trans_lt (by linarith)))
  obtain ⟨u, u1, u2, -, u3, u4⟩ := addR_representable h hS q2 q3 s2 s3 m2 rfl g2 (lim _ g2 ((abs_add_le _ _).trans_lt (by linarith)))
  have g3' := g3.neg
  rw [neg_sub] at g3'
  obtain ⟨v, v1, v2, -, v3, v4⟩ := subR_representable h hS hx fx u2 u3 m3 (by rw [u4]) g3' (lim _ g3'
    ((abs_sub _ _).trans_lt (by have := abs_add_le q.value.toRat s.value.toRat; linarith)))
  obtain ⟨e, e1, ev, e2, e3, e4⟩ := addR_representable h hS t2 t3 v2 v3 m4 (v := x.toRat + y.toRat - s.value.toRat) (by rw [t4, v4]; ring) g4
    (lim _ g4 ((abs_sub _ _).trans_lt (by have := abs_add_le x.toRat y.toRat; linarith)))
  exact ⟨s, q, t, u, v, e, s1, q1, t1, u1, v1, e1, s3, e3, e2, by rw [e4]; ring, s2, ev⟩

/-- **C68.** (Fast2Sum) When the first operand is the larger in magnitude three calls are enough. -/
theorem C68_fast_two_sum {x y : IeeeFloat S} (hx : x.Valid) (hy : y.Valid) (fx : x.isFinite = true) (fy : y.isFinite = true)
    (hxy : |y.toRat| ≤ |x.toRat|) (bx : |x.toRat| ≤ 2 ^ (S.maxExp - 2)) (m1 m2 : Round) :
    ∃ s d e, addR x y .nearestTiesToEven = .ok s ∧ subR x s.value m1 = .ok d ∧ addR d.value y m2 = .ok e ∧
      s.value.isFinite = true ∧ d.status = Status.OK ∧ e.value.isFinite = true ∧ e.status = Status.OK ∧
      s.value.toRat + e.value.toRat = x.toRat + y.toRat := by
  have h3 := h.p_ge
  obtain ⟨m, m0, hm, gm1, gm2, gm4, lim⟩ := quarter_bounds h hS
  rw [hm] at bx
  have l2 : 2 * m ≤ S.fmt.largest := by
    have := lim _ gm2 (by rw [abs_of_pos (by linarith)]; linarith)
    rwa [abs_of_pos (by linarith)] at this
  have gx := grid_toRat h hx fx
  have gy := grid_toRat h hy fy
  have hp : 1 ≤ S.fmt.p := by have : S.fmt.p = S.precision := rfl; omega
  obtain ⟨s, s1, s2, s3, s4⟩ := add_step h hx fx hy fy gm2 l2 ((abs_add_le _ _).trans (by linarith))
  have bs : |s.value.toRat| ≤ 2 * m := RN.abs_le s4 gm2 ((abs_add_le _ _).trans (by linarith))
  have g1 := fast_sum hp gx gy (Or.inr hxy) s4
  have g2 := sum_residual hp gx gy s4
  obtain ⟨d, d1, d2, d3, d4, d5⟩ := subR_representable h hS hx fx s2 s3 m1 rfl g1 (lim _ g1 ((abs_sub _ _).trans_lt (by linarith)))
  obtain ⟨e, e1, -, e2, e3, e4⟩ := addR_representable h hS d2 d4 hy fy m2 (v := x.toRat + y.toRat - s.value.toRat) (by rw [d5]; ring) g2
    (lim _ g2 ((abs_sub _ _).trans_lt (by have := abs_add_le x.toRat y.toRat; linarith)))
  exact ⟨s, d, e, s1, d1, e1, s3, d3, e3, e2, by rw [e4]; ring⟩

/-- **C68.** (Error of a product) A fused multiply-add computes exactly what a product lost, if the product is at least
`2^(minExp + precision + 1)`, in any rounding mode. -/
theorem C68_two_product (hp : 4 ≤ S.precision) {x y : IeeeFloat S} (hx : x.Valid) (hy : y.Valid) (fx : x.isFinite = true)
    (fy : y.isFinite = true) (hlo : 2 ^ (S.minExp + S.precision + 1) ≤ |x.toRat * y.toRat|) (hhi : |x.toRat * y.toRat| ≤ S.fmt.largest)
    (m1 : Round) :
    ∃ p e, mulR x y .nearestTiesToEven = .ok p ∧ mulAddR x y p.value.neg m1 = .ok e ∧ p.value.isFinite = true ∧
      e.value.isFinite = true ∧ e.status = Status.OK ∧ p.value.toRat + e.value.toRat = x.toRat * y.toRat := by
  have gx := grid_toRat h hx fx
  have gy := grid_toRat h hy fy
  have hfp : S.fmt.p = S.precision := rfl
  have hfe : S.fmt.emin = S.minExp := rfl
  obtain ⟨p, p1, p2, p3, p4⟩ := mul_step h hx fx hy fy (grid_largest h) (le_refl _) hhi
  have z0 : RN S.fmt (x.toRat * 0) 0 := by rw [mul_zero]; exact isRounded_self _ grid_zero
  have z1 : RN S.fmt (0 * y.toRat) 0 := by rw [zero_mul]; exact isRounded_self _ grid_zero
  obtain ⟨w', hw'⟩ := exists_rounded (F := S.fmt) (by omega) .nearestTiesToEven (x.toRat * y.toRat - p.value.toRat + 0)
  have g := (prod_error (by omega) gx grid_zero gy grid_zero (by rw [add_zero]; exact isRounded_self _ gx)
    (by rw [add_zero]; exact isRounded_self _ gy) p4 z0 z1 (by rw [add_zero]; exact isRounded_self _ grid_zero) hw' hlo).1
  have hpm : (2 : ℚ) ^ S.minExp ≤ |p.value.toRat| := RN.le_abs p4 (grid_two_pow (by omega) (by rw [hfp, hfe]; omega))
    ((two_zpow_le (by omega)).trans hlo)
  obtain ⟨e, e1, e2, e3⟩ := mulAddR_eff h hx hy (neg_valid p2) fx fy (by rw [neg_finite]; exact p3) m1 (.of (directedOK_of_ieee hS _ _))
    (fma_not_excluded (Or.inr (by rw [neg_toRat, abs_neg]; exact hpm)))
  rw [neg_toRat, ← sub_eq_add_neg] at e3
  have hl : |x.toRat * y.toRat - p.value.toRat| ≤ S.fmt.largest := by
    have := p4.2.1 0 grid_zero
    rw [sub_zero] at this
    exact this.trans hhi
  obtain ⟨a, b, c⟩ := e3.exact g hl
  exact ⟨p, e, p1, e1, p3, b, a, by rw [c]; ring⟩

example := C68_two_product singleS_ok rfl (by decide) (x := ex15) (y := exM3) ex15_valid exM3_valid rfl rfl (by decide +kernel) (by decide +kernel) .towardZero

/-- What a division loses, `x - q * y`, is a number of the format. -/
theorem quotient_residual (hp : 3 ≤ S.precision) {x y q : ℚ} (gx : S.fmt.Grid x) (gy : S.fmt.Grid y) (y0 : y ≠ 0) (hq : RN S.fmt (x / y) q)
    (hlo : 2 ^ (S.minExp + S.precision + 1) ≤ |x|) (hqlo : 2 ^ S.minExp ≤ |x / y|) : S.fmt.Grid (x - q * y) := by
  have hfp : S.fmt.p = S.precision := rfl
  have hfe : S.fmt.emin = S.minExp := rfl
  have ypos : 0 < |y| := abs_pos.2 y0
  -- the unit of the quotient
  obtain ⟨k, k1, k2, k3, k4⟩ := exists_unit (by omega) hq.1
  have q1 : (2 : ℚ) ^ S.minExp ≤ |q| := RN.le_abs hq (grid_two_pow (by omega) (by rw [hfp, hfe]; omega)) hqlo
  have k4 : (2 : ℚ) ^ (S.fmt.p - 1 + k) ≤ |q| := by
    rcases k4 with e | e
    · refine le_trans (le_of_eq ?_) q1; congr 1; rw [e, hfp, hfe]; ring
    · exact e
  have qv : |x / y| ≤ 2 ^ (S.fmt.p + k) := by
    by_contra c
    push Not at c
    have := RN.le_abs hq (grid_two_pow (by omega) (k := S.fmt.p + k) (by omega)) c.le
    exact absurd k3 (not_lt.2 this)
  have hu := hq.half_unit (by omega) k1 qv
  -- a unit of the divisor, not limited by the format
  have l1 : (2 : ℚ) ^ (Int.log 2 |y|) ≤ |y| := by exact_mod_cast Int.zpow_log_le_self (b := 2) (by norm_num) ypos
  have l2 : |y| < (2 : ℚ) ^ (Int.log 2 |y| + 1) := by exact_mod_cast Int.lt_zpow_succ_log_self (b := 2) (by norm_num) |y|
  obtain ⟨j, hj⟩ : ∃ j : ℤ, Int.log 2 |y| = S.fmt.p - 1 + j := ⟨Int.log 2 |y| - (S.fmt.p - 1), by ring⟩
  rw [hj] at l1 l2
  rw [show (S.fmt.p : ℤ) - 1 + j + 1 = S.fmt.p + j by ring] at l2
  have my : Mult j y := mult_of_grid_ge gy l1
  have ex : x - q * y = (x / y - q) * y := by rw [sub_mul, div_mul_cancel₀ x y0]
  have hr : |x - q * y| ≤ 2 ^ (k - 1) * 2 ^ (S.fmt.p + j) := by
    rw [ex, abs_mul]
    exact mul_le_mul hu l2.le ypos.le (two_zpow_pos _).le
  have hx1 : |x| = |x / y| * |y| := by rw [← abs_mul, div_mul_cancel₀ x y0]
  -- the unit is one of the format
  have hkj : S.fmt.emin - S.fmt.p + 1 ≤ k + j := by
    have : |x| < 2 ^ (S.fmt.p + k) * 2 ^ (S.fmt.p + j) := by
      rw [hx1]
      exact (mul_le_mul_of_nonneg_right qv ypos.le).trans_lt (mul_lt_mul_of_pos_left l2 (two_zpow_pos _))
    rw [← two_zpow_add] at this
    have := zpow_two_lt_iff (hlo.trans_lt this)
    rw [hfp] at this
    rw [hfp, hfe]
    omega
  have mq : Mult (k + j) (q * y) := by
    obtain ⟨a, ha⟩ := k2
    obtain ⟨b, hb⟩ := my
    exact ⟨a * b, by rw [ha, hb, two_zpow_add]; push_cast; ring⟩
  have mx : Mult (k + j) x := by
    apply mult_of_grid_ge gx
    have : (2 : ℚ) ^ (S.fmt.p - 1 + k) / 2 * 2 ^ (S.fmt.p - 1 + j) ≤ |x| := by
      rw [hx1]
      refine mul_le_mul ?_ l1 (two_zpow_pos _).le (abs_nonneg _)
      have t1 := abs_sub_abs_le_abs_sub q (x / y)
      rw [abs_sub_comm] at t1
      have t2 : (2 : ℚ) ^ (k - 1) ≤ 2 ^ (S.fmt.p - 1 + k) / 2 := by
        rw [show (S.fmt.p : ℤ) - 1 + k = (S.fmt.p - 1 + k - 1) + 1 by ring, two_zpow_add _ 1, zpow_one, mul_div_cancel_right₀ _ (by norm_num)]
        exact two_zpow_le (by omega)
      linarith
    refine le_trans ?_ this
    rw [show (2 : ℚ) ^ ((S.fmt.p : ℤ) - 1 + k) = 2 ^ ((S.fmt.p : ℤ) - 1 + k - 1) * 2 by
      rw [← zpow_add_one₀ (by norm_num)]; congr 1; ring]
    rw [mul_div_cancel_right₀ _ (by norm_num), ← two_zpow_add]
    exact two_zpow_le (by omega)
  refine grid_of_mult (by omega) (mx.sub mq) hkj (hr.trans ?_)
  rw [← two_zpow_add]
  exact two_zpow_le (by omega)

/-- **C68.** (Remainder of a division) A fused multiply-add computes exactly what a division lost, if neither the dividend nor the quotient
is too small, in any rounding mode. -/
theorem C68_division_residual {x y : IeeeFloat S} (hx : x.Valid) (hy : y.Valid) (fx : x.isFinite = true) (fy : y.isFinite = true)
    (y0 : y.toRat ≠ 0) (hlo : 2 ^ (S.minExp + S.precision + 1) ≤ |x.toRat|) (hqlo : 2 ^ S.minExp ≤ |x.toRat / y.toRat|)
    (hqhi : |x.toRat / y.toRat| ≤ S.fmt.largest) (m1 : Round) :
    ∃ q e, divR x y .nearestTiesToEven = .ok q ∧ mulAddR q.value.neg y x m1 = .ok e ∧ q.value.isFinite = true ∧
      e.value.isFinite = true ∧ e.status = Status.OK ∧ q.value.toRat * y.toRat + e.value.toRat = x.toRat := by
  have h3 := h.p_ge
  have gx := grid_toRat h hx fx
  have gy := grid_toRat h hy fy
  obtain ⟨q, q1, q2, q3⟩ := divR_finite h hx hy fx fy y0 .nearestTiesToEven (directedOK_of_mode _ (by decide) (by decide) _)
  obtain ⟨q4, q5⟩ := q3.in_range (grid_largest h) (le_refl _) hqhi
  have g := quotient_residual h hS h3 gx gy y0 q5 hlo hqlo
  obtain ⟨e, e1, e2, e3⟩ := mulAddR_eff h (neg_valid q2) hy hx (by rw [neg_finite]; exact q4) fy fx m1 (.of (directedOK_of_ieee hS _ _))
    (fma_not_excluded (Or.inr ((two_zpow_le (by omega)).trans hlo)))
  have ev : q.value.neg.toRat * y.toRat + x.toRat = x.toRat - q.value.toRat * y.toRat := by rw [neg_toRat]; ring
  rw [ev] at e3
  have hl : |x.toRat - q.value.toRat * y.toRat| ≤ S.fmt.largest := by
    have t := q5.2.1 0 grid_zero
    rw [sub_zero] at t
    have ex : x.toRat - q.value.toRat * y.toRat = (x.toRat / y.toRat - q.value.toRat) * y.toRat := by rw [sub_mul, div_mul_cancel₀ _ y0]
    have : |x.toRat - q.value.toRat * y.toRat| ≤ |x.toRat| := by
      rw [ex, abs_mul]
      refine (mul_le_mul_of_nonneg_right t (abs_nonneg _)).trans (le_of_eq ?_)
      rw [← abs_mul, div_mul_cancel₀ _ y0]
    exact this.trans (abs_toRat_le h hx fx)
  obtain ⟨a, b, c⟩ := e3.exact g hl
  exact ⟨q, e, q1, e1, q4, b, a, by rw [c]; ring⟩

end

theorem ex15_toRat : ex15.toRat = 3 / 2 := by rw [toRat_normal rfl]; norm_num [ex15, signed, singleS, Sem.default]
theorem exM3_toRat : exM3.toRat = -3 := by rw [toRat_normal rfl]; norm_num [exM3, signed, singleS, Sem.default]
theorem single_maxExp : singleS.maxExp = 127 := rfl

/-- `1.5` and a tiny number: the sum loses the tiny number and the error is the tiny number. -/
def tiny32 : IeeeFloat singleS := ⟨2 ^ 23, -100, .normal, false⟩
theorem tiny32_toRat : tiny32.toRat = 2 ^ (-100 : ℤ) := by rw [toRat_normal rfl]; norm_num [tiny32, signed, singleS, Sem.default]

example : ∃ s q t u v e, addR tiny32 ex15 .nearestTiesToEven = .ok s ∧ subR tiny32 s.value .nearestTiesToEven = .ok q ∧
    addR q.value ex15 .towardZero = .ok t ∧ addR q.value s.value .towardZero = .ok u ∧ subR tiny32 u.value .towardZero = .ok v ∧
    addR t.value v.value .towardZero = .ok e ∧ s.value.isFinite = true ∧ e.value.isFinite = true ∧ e.status = Status.OK ∧
    s.value.toRat + e.value.toRat = tiny32.toRat + ex15.toRat ∧ s.value.Valid ∧ e.value.Valid :=
  C68_two_sum singleS_ok rfl (by decide) ex15_valid rfl rfl (by rw [tiny32_toRat, single_maxExp]; norm_num)
    (by rw [ex15_toRat, single_maxExp]; norm_num) _ _ _ _
example : ∃ r, subR two32 ex15 .towardPositive = .ok r ∧ r.value.Valid ∧ r.status = Status.OK ∧ r.value.isFinite = true ∧
    r.value.toRat = two32.toRat - ex15.toRat :=
  C68_sterbenz singleS_ok (by decide) ex15_valid rfl rfl (by rw [ex15_toRat, two32_toRat]; norm_num) (by rw [ex15_toRat, two32_toRat]; norm_num) _
example : ∃ q e, divR ex15 exM3 .nearestTiesToEven = .ok q ∧ mulAddR q.value.neg exM3 ex15 .towardZero = .ok e ∧ q.value.isFinite = true ∧
      e.value.isFinite = true ∧ e.status = Status.OK ∧ q.value.toRat * exM3.toRat + e.value.toRat = ex15.toRat := by
  have hl : |ex15.toRat / exM3.toRat| ≤ singleS.fmt.largest := by
    rw [ex15_toRat, exM3_toRat]; norm_num [Fmt.largest, Sem.fmt, singleS, Sem.default, ieeeMinExp]
  exact C68_division_residual singleS_ok rfl ex15_valid exM3_valid rfl rfl (toRat_ne_zero exM3_valid rfl)
    (by rw [ex15_toRat]; norm_num [singleS, Sem.default, ieeeMinExp]) (by rw [ex15_toRat, exM3_toRat]; norm_num [singleS, Sem.default, ieeeMinExp]) hl _

/-! `C68_fast_two_sum`: the hypotheses hold of a concrete case. -/
example := C68_fast_two_sum singleS_ok rfl (x := ex15) (y := tiny32) ex15_valid (by decide) rfl rfl (by decide +kernel)
  (by decide +kernel) .towardZero .towardPositive

end Apf
