import Verif.Proof.OverflowSum
import Verif.Props.PpcAdd
import Verif.Props.Total
/-! # `DoubleFloat` addition over the whole range -/

namespace Apf
open Spec IeeeFloat
variable {S : Sem}

/-- The outcome of an addition of exact value `v` that is out of range: the infinity of the right sign, flagged as overflow, and `v`
really is at the end of the range. -/
def PairOverflow (S : Sem) (v : ℚ) (r : StatusAnd (DoubleFloat S)) : Prop :=
  r.value.hi.category = .infinity ∧ r.value.hi.sign = decide (v < 0) ∧ r.value.lo = ZERO S ∧
    r.status.overflow = true ∧ r.status.inexact = true ∧ S.fmt.largest ≤ |v|

theorem or_overflow (a b : Status) : (a ||| b).overflow = (a.overflow || b.overflow) := rfl
theorem or_inexact (a b : Status) : (a ||| b).inexact = (a.inexact || b.inexact) := rfl
theorem or_invalidOp (a b : Status) : (a ||| b).invalidOp = (a.invalidOp || b.invalidOp) := rfl
theorem ok_overflow : Status.OK.overflow = false := rfl
theorem ok_invalidOp : Status.OK.invalidOp = false := rfl

/-- An addition of two finite numbers, in range or not. -/
theorem add_cases (h : S.Pair) {x y : IeeeFloat S} (hx : x.Valid) (fx : x.isFinite = true) (hy : y.Valid) (fy : y.isFinite = true) :
    ∃ r, addR x y .nearestTiesToEven = .ok r ∧ r.value.Valid ∧ r.status.invalidOp = false ∧
      ((|x.toRat + y.toRat| < S.fmt.overflowAt ∧ r.value.isFinite = true ∧ RN S.fmt (x.toRat + y.toRat) r.value.toRat ∧ r.status.overflow = false) ∨
       (S.fmt.overflowAt ≤ |x.toRat + y.toRat| ∧ r.value.category = .infinity ∧ r.value.sign = decide (x.toRat + y.toRat < 0) ∧
        r.status = { overflow := true, inexact := true })) := by
  obtain ⟨r, r1, r2, ⟨g, g1, g2⟩, r4⟩ := addR_finite h.ok hx hy fx fy .nearestTiesToEven (directedOK_of_mode _ (by decide) (by decide) _)
  have hr := rounded_in_range h.ok h.ieee g1
  rcases g2 with ⟨k, g2, g3⟩ | ⟨k, g2⟩
  · have hf : r.value.isFinite = true := by
      rw [isFinite_iff]
      unfold datum at g2
      cases c : r.value.category <;> rw [c] at g2 <;> simp_all
    rw [datum_finite hf] at g2
    injection g2 with _ g2
    subst g2
    exact ⟨r, r1, r2, by rw [g3], Or.inl ⟨hr.1 k, hf, g1, by rw [g3]⟩⟩
  · have hge : S.fmt.overflowAt ≤ |x.toRat + y.toRat| := by
      by_contra hcon
      push Not at hcon
      have := hr.2 hcon
      linarith
    have hi : S.fmt.hasInf = true := by simp [Sem.fmt, h.ieee]
    simp only [overflowed, hi, if_true, Prod.mk.injEq] at g2
    have ci : r.value.category = .infinity := by
      have := g2.1
      unfold datum at this
      cases c : r.value.category <;> rw [c] at this <;> simp_all
    have hL := largest_lt_overflowAt h
    have hLp := largest_pos h.ok
    have hv : x.toRat + y.toRat ≠ 0 := by
      intro e; rw [e, abs_zero] at hge; linarith
    refine ⟨r, r1, r2, by rw [g2.2], Or.inr ⟨hge, ci, ?_, g2.2⟩⟩
    rcases lt_or_gt_of_ne hv with c | c
    · rw [r4.2.1 c]; simp [c]
    · rw [r4.1 c]; simp [not_lt.2 c.le]

theorem grid_lt_top (h : S.Pair) {g : ℚ} (hg : g ≤ S.fmt.largest) : g < 2 ^ (S.maxExp + 1) := by
  rw [largest_ieee h.ieee] at hg
  have := two_zpow_pos (S.maxExp - S.precision + 1)
  linarith

/-- The low part of a canonical pair is at most half a unit of the largest exponent. -/
theorem low_half (h : S.Pair) (hp : 4 ≤ S.precision) {a aa : IeeeFloat S} (va : a.Valid) (fa : a.isFinite = true) (vaa : aa.Valid) (faa : aa.isFinite = true)
    (h1 : RN S.fmt (a.toRat + aa.toRat) a.toRat) : |aa.toRat| ≤ 2 ^ (S.maxExp - S.precision) := by
  have hok := h.ok
  have hpm := hok.p_max; have hmin := hok.min_lt
  have hfp : S.fmt.p = S.precision := rfl
  have hfe : S.fmt.emin = S.minExp := rfl
  obtain ⟨k, k1, k2, k3, k4⟩ := exists_unit (by omega) (grid_toRat hok va fa)
  refine ((low_part (by omega) (grid_toRat hok va fa) (grid_toRat hok vaa faa) h1 k1 k3 k4).1).trans ?_
  apply two_zpow_le
  rcases k4 with k4 | k4
  · omega
  · have := zpow_two_lt_iff (k4.trans_lt (grid_lt_top h (abs_toRat_le hok va fa)))
    omega

set_option maxHeartbeats 1000000 in
/-- The sum when the sum of the leading parts overflows. -/
theorem addOverflowed_ok (h : S.Pair) (hp : 4 ≤ S.precision) {a aa c cc : IeeeFloat S}
    (va : a.Valid) (fa : a.isFinite = true) (vaa : aa.Valid) (faa : aa.isFinite = true)
    (vc : c.Valid) (fc : c.isFinite = true) (vcc : cc.Valid) (fcc : cc.isFinite = true)
    (ca : a.category = .normal) (cc' : c.category = .normal)
    (h1 : RN S.fmt (a.toRat + aa.toRat) a.toRat) (h2 : RN S.fmt (c.toRat + cc.toRat) c.toRat)
    (ho : S.fmt.overflowAt ≤ |a.toRat + c.toRat|) :
    ∃ r, DoubleFloat.addOverflowed a aa c cc .nearestTiesToEven = .ok r ∧ r.value.Valid ∧
      (PairOverflow S (a.toRat + aa.toRat + (c.toRat + cc.toRat)) r ∨
       (r.value.Canonical ∧ r.status.overflow = false ∧ r.status.invalidOp = false ∧ ¬ (aa.toRat = 0 ∧ cc.toRat = 0) ∧
        |r.value.toRat - (a.toRat + aa.toRat + (c.toRat + cc.toRat))| ≤
          5 * 2 ^ (-2 * (S.precision : ℤ)) * |a.toRat + aa.toRat + (c.toRat + cc.toRat)|)) := by
  have hok := h.ok
  have hpm := hok.p_max; have hmin := hok.min_lt
  have hfp : S.fmt.p = S.precision := rfl
  have hfe : S.fmt.emin = S.minExp := rfl
  have hov : S.fmt.overflowAt = 2 ^ (S.maxExp + 1) - 2 ^ (S.maxExp - S.precision) := rfl
  have hlar := largest_ieee h.ieee
  have la := low_half h hp va fa vaa faa h1
  have lc := low_half h hp vc fc vcc fcc h2
  have hlim : ∀ {k : ℤ}, k ≤ S.maxExp → (2 : ℚ) ^ k ≤ S.fmt.largest := by
    intro k hk
    rw [hlar]
    have t1 : (2 : ℚ) ^ k ≤ 2 ^ S.maxExp := two_zpow_le hk
    have t2 : (2 : ℚ) ^ (S.maxExp - S.precision + 1) ≤ 2 ^ S.maxExp := two_zpow_le (by omega)
    have t3 : (2 : ℚ) ^ (S.maxExp + 1) = 2 * 2 ^ S.maxExp := by rw [two_zpow_add S.maxExp 1, zpow_one]; ring
    linarith
  have gpow : ∀ {k : ℤ}, S.maxExp - 2 * S.precision ≤ k → S.fmt.Grid (2 ^ k) := by
    intro k hk; exact grid_two_pow (by omega) (by rw [hfp, hfe]; omega)
  unfold DoubleFloat.addOverflowed
  rw [cmpAbsNormal_eq hok va vc ca cc', M.ok_bind]
  -- the sum of the low parts
  have eU : (2 : ℚ) ^ (S.maxExp - S.precision + 1) = 2 * 2 ^ (S.maxExp - S.precision) := by
    rw [two_zpow_add (S.maxExp - S.precision) 1, zpow_one]; ring
  have blow : |aa.toRat + cc.toRat| ≤ 2 ^ (S.maxExp - S.precision + 1) := (abs_add_le _ _).trans (by rw [eU]; linarith)
  have inr : ∀ {v : ℚ} {k : ℤ}, k ≤ S.maxExp → |v| ≤ 2 ^ k → |v| < S.fmt.overflowAt := fun hk hv =>
    (hv.trans (hlim hk)).trans_lt (largest_lt_overflowAt h)
  obtain ⟨t, t1, t2, t3, t4⟩ := add_cases h vcc fcc vaa faa
  rcases t4 with ⟨-, t4, t5, t6⟩ | ⟨t4, -⟩
  swap
  · rw [add_comm] at t4
    have := inr (by omega) blow
    linarith
  obtain ⟨t', t1', t2', t3', t4'⟩ := add_cases h vaa faa vcc fcc
  rcases t4' with ⟨-, t4', t5', t6'⟩ | ⟨t4', -⟩
  swap
  · have := inr (by omega) blow
    linarith
  have ett : t'.value.toRat = t.value.toRat := by
    rw [add_comm] at t5'
    exact t5'.unique t5
  rw [t1, M.ok_bind]
  try dsimp only
  -- the order of the leading parts
  obtain ⟨p, pp, q, qq, hpq, vp, fp, vq, fq, hord, hrp, hrq, gpp, lp, lq, hsum, hsum2, hsum3⟩ :
      ∃ p pp q qq : IeeeFloat S, (if compare |a.toRat| |c.toRat| = .gt then (c, a) else (a, c)) = (p, q) ∧
        p.Valid ∧ p.isFinite = true ∧ q.Valid ∧ q.isFinite = true ∧ |p.toRat| ≤ |q.toRat| ∧
        RN S.fmt (p.toRat + pp.toRat) p.toRat ∧ RN S.fmt (q.toRat + qq.toRat) q.toRat ∧ S.fmt.Grid pp.toRat ∧
        |pp.toRat| ≤ 2 ^ (S.maxExp - S.precision) ∧ |qq.toRat| ≤ 2 ^ (S.maxExp - S.precision) ∧
        p.toRat + q.toRat = a.toRat + c.toRat ∧ pp.toRat + qq.toRat = cc.toRat + aa.toRat ∧
        p.toRat + q.toRat + pp.toRat + qq.toRat = a.toRat + aa.toRat + (c.toRat + cc.toRat) := by
    by_cases hgt : compare |a.toRat| |c.toRat| = .gt
    · exact ⟨c, cc, a, aa, by rw [if_pos hgt], vc, fc, va, fa, (compare_gt_iff_gt.1 hgt).le, h2, h1, grid_toRat hok vcc fcc, lc, la, by ring, by ring, by ring⟩
    · refine ⟨a, aa, c, cc, by rw [if_neg hgt], va, fa, vc, fc, ?_, h1, h2, grid_toRat hok vaa faa, la, lc, by ring, by ring, by ring⟩
      by_contra hcon
      push Not at hcon
      exact hgt (compare_gt_iff_gt.2 hcon)
  rw [hpq]
  try dsimp only
  rw [← hsum] at ho
  rw [← hsum2] at t5
  rw [← hsum3]
  have gp := grid_toRat hok vp fp
  have gq := grid_toRat hok vq fq
  have hq := grid_lt_top h (abs_toRat_le hok vq fq)
  have he : S.fmt.emin + S.fmt.p < S.maxExp := by rw [hfe, hfp]; omega
  rw [hov] at ho
  -- the sum with the smaller leading part
  obtain ⟨u0, hu0⟩ := exists_rounded (F := S.fmt) (by omega) .nearestTiesToEven (t.value.toRat + p.toRat)
  obtain ⟨o1, o2, o3⟩ := overflow_sum_abs (by omega) he gp gq hord hq ho lp lq t5 hu0
  have hout : ∀ {v g : ℚ}, RN S.fmt v g → S.fmt.overflowAt ≤ |v| → 2 ^ (S.maxExp + 1) ≤ |g| := by
    intro v g hg hv
    by_contra hcon
    push Not at hcon
    have := (rounded_in_range hok h.ieee hg).1 (grid_le_largest hok h.ieee hg.1 hcon)
    linarith
  obtain ⟨u, u1, u2, u3, u4⟩ := add_cases h t2 t4 vp fp
  rw [u1, M.ok_bind]
  try dsimp only
  rcases u4 with ⟨-, u4, u5, u6⟩ | ⟨u4, u5, u6, u7⟩
  swap
  · obtain ⟨w1, w2⟩ := o2 (hout hu0 u4)
    rw [(C10_add_inf_finite .nearestTiesToEven).1 u5 fq, M.ok_bind]
    try dsimp only
    rw [if_pos (by simp [isFinite, isNan, isInfinite, u5])]
    refine ⟨_, rfl, ⟨u2, rfl⟩, Or.inl ⟨u5, ?_, rfl, ?_, ?_, ?_⟩⟩
    · show u.value.sign = _
      rw [u6]
      exact decide_eq_decide.2 w2
    · simp [Status.and, or_overflow, u7]
    · simp [Status.and, or_inexact, u7]
    · rw [hlar]; exact w1
  have eu := u5.unique hu0
  rw [← eu] at o2 o3 hu0
  obtain ⟨z, z1, z2, z3, z4⟩ := add_cases h u2 u4 vq fq
  obtain ⟨z0, hz0⟩ := exists_rounded (F := S.fmt) (by omega) .nearestTiesToEven (u.value.toRat + q.toRat)
  obtain ⟨o4, o5⟩ := o3 z0 hz0
  rw [z1, M.ok_bind]
  try dsimp only
  rcases z4 with ⟨z3', z4, z5, z6⟩ | ⟨z4, z5, z6, z7⟩
  swap
  · obtain ⟨w1, w2⟩ := o4 (hout hz0 z4)
    rw [if_pos (by simp [isFinite, isNan, isInfinite, z5])]
    refine ⟨_, rfl, ⟨z2, rfl⟩, Or.inl ⟨z5, ?_, rfl, ?_, ?_, ?_⟩⟩
    · show z.value.sign = _
      rw [z6]
      exact decide_eq_decide.2 w2
    · simp [Status.and, or_overflow, z7]
    · simp [Status.and, or_inexact, z7]
    · rw [hlar]; exact w1
  have ez := z5.unique hz0
  rw [← ez] at o4 o5 hz0
  have hzE := grid_lt_top h (abs_toRat_le hok z2 z4)
  obtain ⟨y1, y2, y3, y4⟩ := o5 hzE
  obtain ⟨x1, x2⟩ := overflow_finite_abs (by omega) he gp gq gpp hord hq ho lp lq hrp hrq t5 hu0 hz0 hzE
  rw [if_neg (by rw [z4]; decide), t1', M.ok_bind]
  try dsimp only
  obtain ⟨l1, a1, a2, a3, a4, a5⟩ : ∃ r, subR q z.value .nearestTiesToEven = .ok r ∧ r.value.Valid ∧ (r.value.isFinite = true ∧ r.value.toRat = q.toRat - z.value.toRat) ∧
      r.status.overflow = false ∧ r.status.invalidOp = false := by
    have := add_cases h vq fq (neg_valid z2) (by rw [neg_finite]; exact z4)
    rw [← subR_eq (not_nan_of_finite fq) (not_nan_of_finite z4), neg_toRat, ← sub_eq_add_neg] at this
    obtain ⟨r, r1, r2, r3, r4⟩ := this
    have hlt := (grid_le_largest hok h.ieee y1 y2).trans_lt (largest_lt_overflowAt h)
    rcases r4 with ⟨-, r4, r5, r6⟩ | ⟨r4, -⟩
    · exact ⟨r, r1, r2, ⟨r4, RN.exact r5 y1⟩, r6, r3⟩
    · linarith
  rw [a1, M.ok_bind]
  try dsimp only
  obtain ⟨l2, b1, b2, b3, b4⟩ := add_cases h a2 a3.1 vp fp
  rw [a3.2] at b4
  rcases b4 with ⟨-, b4, b5, b6⟩ | ⟨b4, -⟩
  swap
  · have := inr (by rw [hfp]; omega) y3
    linarith
  have el2 := RN.exact b5 x1
  obtain ⟨y5, y6⟩ := y4 _ b5
  rw [b1, M.ok_bind]
  try dsimp only
  obtain ⟨l, d1, d2, d3, d4⟩ := add_cases h b2 b4 t2' t4'
  rw [ett] at d4
  rcases d4 with ⟨-, d4, d5, d6⟩ | ⟨d4, -⟩
  swap
  · have := inr (by rw [hfp]; omega) y5
    linarith
  have y7 := y6 _ d5
  rw [el2] at d5
  rw [d1, M.ok_bind]
  refine ⟨_, rfl, ⟨z2, d2⟩, Or.inr ⟨⟨⟨z4, d4⟩, x2 _ d5⟩, ?_, ?_, ?_, ?_⟩⟩
  · simp only [Status.and, or_overflow, t6, u6, z6, t6', a4, b6, d6]; rfl
  · simp only [Status.and, or_invalidOp, t3, u3, z3, t3', a5, b3, d3]; rfl
  · rintro ⟨w1, w2⟩
    have e0 : pp.toRat + qq.toRat = 0 := by rw [hsum2, w1, w2, add_zero]
    rw [e0] at t5
    have et := RN.exact t5 grid_zero
    rw [et, zero_add] at hu0
    rw [RN.exact hu0 gp, hov] at z3'
    linarith
  · show |z.value.toRat + l.value.toRat - _| ≤ _
    refine y7.trans ?_
    have e6 : (2 : ℚ) ^ (S.maxExp - 2 * S.fmt.p + 1) = 2 ^ (-2 * (S.precision : ℤ)) * 2 ^ (S.maxExp + 1) := by
      rw [← two_zpow_add, hfp]; congr 1; ring
    rw [e6]
    have u2 : (0 : ℚ) < 2 ^ (-2 * (S.precision : ℤ)) := two_zpow_pos _
    have e7 := two_zpow_pos (S.maxExp + 1)
    nlinarith

/-- The subtraction, in range or not. -/
theorem sub_cases (h : S.Pair) {x y : IeeeFloat S} (hx : x.Valid) (fx : x.isFinite = true) (hy : y.Valid) (fy : y.isFinite = true) :
    ∃ r, subR x y .nearestTiesToEven = .ok r ∧ r.value.Valid ∧ r.status.invalidOp = false ∧
      ((|x.toRat - y.toRat| < S.fmt.overflowAt ∧ r.value.isFinite = true ∧ RN S.fmt (x.toRat - y.toRat) r.value.toRat ∧ r.status.overflow = false) ∨
       (S.fmt.overflowAt ≤ |x.toRat - y.toRat| ∧ r.value.category = .infinity ∧ r.value.sign = decide (x.toRat - y.toRat < 0) ∧
        r.status = { overflow := true, inexact := true })) := by
  have := add_cases h hx fx (neg_valid hy) (by rw [neg_finite]; exact fy)
  rwa [← subR_eq (not_nan_of_finite fx) (not_nan_of_finite fy), neg_toRat, ← sub_eq_add_neg] at this

/-- Exact additions and subtractions. -/
theorem add_cases_exact (h : S.Pair) {x y : IeeeFloat S} (hx : x.Valid) (fx : x.isFinite = true) (hy : y.Valid) (fy : y.isFinite = true)
    (hg : S.fmt.Grid (x.toRat + y.toRat)) (hl : |x.toRat + y.toRat| < 2 ^ (S.maxExp + 1)) :
    ∃ r, addR x y .nearestTiesToEven = .ok r ∧ r.value.Valid ∧ r.status.invalidOp = false ∧ r.status.overflow = false ∧
      r.value.isFinite = true ∧ r.value.toRat = x.toRat + y.toRat := by
  obtain ⟨r, r1, r2, r3, r4⟩ := add_cases h hx fx hy fy
  have hlt := (grid_le_largest h.ok h.ieee hg hl).trans_lt (largest_lt_overflowAt h)
  rcases r4 with ⟨-, r4, r5, r6⟩ | ⟨r4, -⟩
  · exact ⟨r, r1, r2, r3, r6, r4, RN.exact r5 hg⟩
  · linarith

theorem sub_cases_exact (h : S.Pair) {x y : IeeeFloat S} (hx : x.Valid) (fx : x.isFinite = true) (hy : y.Valid) (fy : y.isFinite = true)
    (hg : S.fmt.Grid (x.toRat - y.toRat)) (hl : |x.toRat - y.toRat| < 2 ^ (S.maxExp + 1)) :
    ∃ r, subR x y .nearestTiesToEven = .ok r ∧ r.value.Valid ∧ r.status.invalidOp = false ∧ r.status.overflow = false ∧
      r.value.isFinite = true ∧ r.value.toRat = x.toRat - y.toRat := by
  obtain ⟨r, r1, r2, r3, r4⟩ := sub_cases h hx fx hy fy
  have hlt := (grid_le_largest h.ok h.ieee hg hl).trans_lt (largest_lt_overflowAt h)
  rcases r4 with ⟨-, r4, r5, r6⟩ | ⟨r4, -⟩
  · exact ⟨r, r1, r2, r3, r6, r4, RN.exact r5 hg⟩
  · linarith

set_option maxHeartbeats 1000000 in
/-- The sum when the sum of the leading parts is finite, and so is what the first step of the error-free sum computes. -/
theorem addFinite_range (h : S.Pair) (hp : 4 ≤ S.precision) {a aa c cc z : IeeeFloat S} {st : Status} (sto : st.overflow = false) (sti : st.invalidOp = false)
    (va : a.Valid) (fa : a.isFinite = true) (vaa : aa.Valid) (faa : aa.isFinite = true)
    (vc : c.Valid) (fc : c.isFinite = true) (vcc : cc.Valid) (fcc : cc.isFinite = true) (vz : z.Valid) (fz : z.isFinite = true)
    (h1 : RN S.fmt (a.toRat + aa.toRat) a.toRat) (h2 : RN S.fmt (c.toRat + cc.toRat) c.toRat) (h3 : RN S.fmt (a.toRat + c.toRat) z.toRat)
    (hq : |a.toRat - z.toRat| < S.fmt.overflowAt) :
    ∃ r, DoubleFloat.addFinite a aa c cc z st .nearestTiesToEven = .ok r ∧ r.value.Valid ∧
      (PairOverflow S (a.toRat + aa.toRat + (c.toRat + cc.toRat)) r ∨
       (r.value.Canonical ∧ r.status.overflow = false ∧ r.status.invalidOp = false ∧
        ∃ w zz, RN S.fmt (a.toRat + c.toRat - z.toRat + aa.toRat) w ∧ RN S.fmt (w + cc.toRat) zz ∧ r.value.toRat = z.toRat + zz)) := by
  have hok := h.ok
  have hpm := hok.p_max; have hmin := hok.min_lt
  have hfp : S.fmt.p = S.precision := rfl
  have hfe : S.fmt.emin = S.minExp := rfl
  have hov : S.fmt.overflowAt = 2 ^ (S.maxExp + 1) - 2 ^ (S.maxExp - S.precision) := rfl
  have hlar := largest_ieee h.ieee
  have la := low_half h hp va fa vaa faa h1
  have lc := low_half h hp vc fc vcc fcc h2
  obtain ⟨H, hH⟩ : ∃ H : ℚ, H = 2 ^ (S.maxExp - S.precision) := ⟨_, rfl⟩
  obtain ⟨E, hE⟩ : ∃ E : ℚ, E = 2 ^ S.maxExp := ⟨_, rfl⟩
  obtain ⟨W, hW⟩ : ∃ W : ℚ, W = 2 ^ (S.maxExp - 2 * S.precision) := ⟨_, rfl⟩
  have H0 : 0 < H := hH ▸ two_zpow_pos _
  have E0 : 0 < E := hE ▸ two_zpow_pos _
  have W0 : 0 < W := hW ▸ two_zpow_pos _
  have e1 : (2 : ℚ) ^ (S.maxExp + 1) = 2 * E := by rw [two_zpow_add S.maxExp 1, zpow_one, hE]; ring
  have e2 : (2 : ℚ) ^ (S.maxExp - S.precision + 1) = 2 * H := by rw [two_zpow_add (S.maxExp - S.precision) 1, zpow_one, hH]; ring
  have e3 : (2 : ℚ) ^ (S.maxExp - S.precision + 2) = 4 * H := by rw [two_zpow_add (S.maxExp - S.precision) 2, hH]; norm_num; ring
  have hHE : H ≤ E / 16 := by
    have : (2 : ℚ) ^ (S.maxExp - S.precision) ≤ 2 ^ (S.maxExp + (-4)) := two_zpow_le (by omega)
    rw [two_zpow_add S.maxExp (-4)] at this
    rw [hH, hE]; norm_num at this ⊢; linarith
  have hWH : W ≤ H / 16 := by
    have : (2 : ℚ) ^ (S.maxExp - 2 * S.precision) ≤ 2 ^ (S.maxExp - S.precision + (-4)) := two_zpow_le (by omega)
    rw [two_zpow_add (S.maxExp - S.precision) (-4)] at this
    rw [hW, hH]; norm_num at this ⊢; linarith
  have g2H : S.fmt.Grid (2 * H) := by rw [← e2]; exact grid_two_pow (by omega) (by rw [hfp, hfe]; omega)
  have g4H : S.fmt.Grid (4 * H) := by rw [← e3]; exact grid_two_pow (by omega) (by rw [hfp, hfe]; omega)
  have g1 := grid_toRat hok va fa
  have g2 := grid_toRat hok vaa faa
  have g3 := grid_toRat hok vc fc
  have g4 := grid_toRat hok vcc fcc
  have g5 := grid_toRat hok vz fz
  rw [← hH] at la lc
  have ba := abs_toRat_le hok va fa
  have bz := abs_toRat_le hok vz fz
  rw [hlar, e1, e2] at ba bz
  -- the error of the sum of the leading parts
  have hin := (rounded_in_range hok h.ieee h3).1 (abs_toRat_le hok vz fz)
  have top : (S.fmt.p : ℤ) + (S.maxExp - S.precision + 1) = S.maxExp + 1 := by rw [hfp]; ring
  have top' : S.maxExp - (S.precision : ℤ) + 1 - 1 = S.maxExp - S.precision := by ring
  have half : ∀ {v g : ℚ}, RN S.fmt v g → |v| < S.fmt.overflowAt → |v - g| ≤ H := by
    intro v g hg hv
    have := RN.half_unit (by omega) hg (k := S.maxExp - S.precision + 1) (by rw [hfp, hfe]; omega) (by
      rw [top]
      rw [hov] at hv
      have := two_zpow_pos (S.maxExp - S.precision)
      linarith)
    rwa [top', ← hH] at this
  have berr := half h3 hin
  rw [hov, e1, ← hH] at hin
  unfold DoubleFloat.addFinite
  -- q = a - z
  obtain ⟨q, q1, q2, q3, q4⟩ := sub_cases h va fa vz fz
  rcases q4 with ⟨-, q4, q5, q6⟩ | ⟨q4, -⟩
  swap
  · linarith
  have hqe := half q5 hq
  obtain ⟨t1, t2, t3, t4⟩ := two_sum (by omega) g1 g3 h3 q5
  rw [q1, M.ok_bind]
  try dsimp only
  obtain ⟨d, d1, d2, d3, d4, d5, d6⟩ := add_cases_exact h q2 q4 vc fc t1 (by
    rw [show q.value.toRat + c.toRat = (a.toRat + c.toRat - z.toRat) - (a.toRat - z.toRat - q.value.toRat) by ring, e1]
    exact (abs_sub _ _).trans_lt (by linarith))
  rw [d1, M.ok_bind]
  try dsimp only
  obtain ⟨q', p1, p2, p3, p4, p5, p6⟩ := add_cases_exact h q2 q4 vz fz t2 (by
    rw [show q.value.toRat + z.toRat = a.toRat - (a.toRat - z.toRat - q.value.toRat) by ring, e1]
    exact (abs_sub _ _).trans_lt (by linarith))
  rw [p1, M.ok_bind]
  try dsimp only
  obtain ⟨f, f1, f2, f3, f4, f5, f6⟩ := sub_cases_exact h p2 p5 va fa (by rw [p6]; exact t3) (by
    rw [p6, show q.value.toRat + z.toRat - a.toRat = -(a.toRat - z.toRat - q.value.toRat) by ring, e1, abs_neg]
    linarith)
  rw [f1, M.ok_bind]
  try dsimp only
  have ev : d.value.toRat + f.value.neg.toRat = a.toRat + c.toRat - z.toRat := by
    rw [neg_toRat, d6, f6, p6]; ring
  obtain ⟨i, i1, i2, i3, i4, i5, i6⟩ := add_cases_exact h d2 d5 (neg_valid f2) (by rw [neg_finite]; exact f5) (by rw [ev]; exact t4)
    (by rw [ev, e1]; linarith)
  rw [ev] at i6
  rw [i1, M.ok_bind]
  try dsimp only
  have inr : ∀ {v : ℚ}, |v| ≤ 4 * H → |v| < S.fmt.overflowAt := by
    intro v hv; rw [hov, e1, ← hH]; linarith
  obtain ⟨w, w1, w2, w3, w4⟩ := add_cases h i2 i5 vaa faa
  have bw0 : |i.value.toRat + aa.toRat| ≤ 2 * H := by rw [i6]; exact (abs_add_le _ _).trans (by linarith)
  rcases w4 with ⟨-, w4, w5, w6⟩ | ⟨w4, -⟩
  swap
  · have := inr (v := i.value.toRat + aa.toRat) (by linarith); linarith
  have bw := RN.abs_le w5 g2H bw0
  rw [w1, M.ok_bind]
  try dsimp only
  obtain ⟨zz, z1, z2, z3, z4⟩ := add_cases h w2 w4 vcc fcc
  have bz0 : |w.value.toRat + cc.toRat| ≤ 4 * H := (abs_add_le _ _).trans (by linarith)
  rcases z4 with ⟨-, z4, z5, z6⟩ | ⟨z4, -⟩
  swap
  · have := inr bz0; linarith
  have bzz := RN.abs_le z5 g4H bz0
  rw [z1, M.ok_bind]
  try dsimp only
  -- how far the computed low part is from the exact one
  have err1 : |i.value.toRat + aa.toRat - w.value.toRat| ≤ W := by
    have := RN.half_unit (by omega) w5 (k := S.maxExp - 2 * S.precision + 1) (by rw [hfp, hfe]; omega) (by
      rw [show (S.fmt.p : ℤ) + (S.maxExp - 2 * S.precision + 1) = S.maxExp - S.precision + 1 by rw [hfp]; ring, e2]; exact bw0)
    rwa [show S.maxExp - 2 * (S.precision : ℤ) + 1 - 1 = S.maxExp - 2 * S.precision by ring, ← hW] at this
  have err2 : |w.value.toRat + cc.toRat - zz.value.toRat| ≤ 2 * W := by
    have := RN.half_unit (by omega) z5 (k := S.maxExp - 2 * S.precision + 2) (by rw [hfp, hfe]; omega) (by
      rw [show (S.fmt.p : ℤ) + (S.maxExp - 2 * S.precision + 2) = S.maxExp - S.precision + 2 by rw [hfp]; ring, e3]; exact bz0)
    rwa [show S.maxExp - 2 * (S.precision : ℤ) + 2 - 1 = S.maxExp - 2 * S.precision + 1 by ring, two_zpow_add (S.maxExp - 2 * S.precision) 1, zpow_one,
      ← hW, mul_comm] at this
  rw [i6] at w5 err1
  by_cases hz0 : (zz.value.isZero && !zz.value.isNegative) = true
  · rw [if_pos hz0]
    have c0 : zz.value.category = .zero := by
      simp only [Bool.and_eq_true] at hz0
      simpa [isZero] using hz0.1
    have v0 : zz.value.toRat = 0 := toRat_zero c0
    have vv : (⟨z, IeeeFloat.ZERO S⟩ : DoubleFloat S).toRat = z.toRat := by
      unfold DoubleFloat.toRat
      rw [toRat_zero (x := IeeeFloat.ZERO S) rfl, add_zero]
    refine ⟨_, rfl, ⟨vz, rfl⟩, Or.inr ⟨⟨⟨fz, rfl⟩, ?_⟩, rfl, rfl, w.value.toRat, zz.value.toRat, w5, z5, ?_⟩⟩
    · show IsRounded S.fmt .nearestTiesToEven (⟨z, IeeeFloat.ZERO S⟩ : DoubleFloat S).toRat z.toRat
      rw [vv]; exact isRounded_self _ g5
    · show (⟨z, IeeeFloat.ZERO S⟩ : DoubleFloat S).toRat = _
      rw [vv, v0, add_zero]
  · rw [if_neg hz0]
    obtain ⟨s, a1, a2, a3, a4⟩ := add_cases h vz fz z2 z4
    rw [a1, M.ok_bind]
    try dsimp only
    rcases a4 with ⟨a3', a4, a5, a6⟩ | ⟨a4, a5, a6, a7⟩
    swap
    · rw [if_pos (by simp [isFinite, isNan, isInfinite, a5])]
      have hv : z.toRat + zz.value.toRat - (a.toRat + aa.toRat + (c.toRat + cc.toRat)) =
          -((a.toRat + c.toRat - z.toRat + aa.toRat - w.value.toRat) + (w.value.toRat + cc.toRat - zz.value.toRat)) := by ring
      have hd : |z.toRat + zz.value.toRat - (a.toRat + aa.toRat + (c.toRat + cc.toRat))| ≤ 3 * W := by
        rw [hv, abs_neg]; exact (abs_add_le _ _).trans (by linarith)
      have hd' := abs_le.1 hd
      rw [hov, e1, ← hH] at a4
      refine ⟨_, rfl, ⟨a2, rfl⟩, Or.inl ⟨a5, ?_, rfl, ?_, ?_, ?_⟩⟩
      · show s.value.sign = _
        rw [a6]
        apply decide_eq_decide.2
        rcases abs_cases (z.toRat + zz.value.toRat) with ⟨k, -⟩ | ⟨k, -⟩ <;> rw [k] at a4 <;> constructor <;> intro <;> linarith
      · simp [Status.and, or_overflow, a7]
      · simp [Status.and, or_inexact, a7]
      · rw [hlar, e1, e2]
        rcases abs_cases (z.toRat + zz.value.toRat) with ⟨k, -⟩ | ⟨k, -⟩ <;> rw [k] at a4
        · exact le_trans (by linarith) (le_abs_self _)
        · exact le_trans (by linarith) (neg_le_abs _)
    rw [if_neg (by rw [a4]; decide)]
    have gz := grid_toRat hok z2 z4
    have cond := sum_of_units (by omega) g1 g2 g3 g4 h1 h2 h3 w5 z5
    have k1 := fast_sum (by omega) g5 gz cond a5
    have k2 := sum_residual (by omega) g5 gz a5
    have bs := half a5 a3'
    obtain ⟨l, l1, l2, l3, l4, l5, l6⟩ := sub_cases_exact h vz fz a2 a4 k1 (by
      rw [show z.toRat - s.value.toRat = (z.toRat + zz.value.toRat - s.value.toRat) - zz.value.toRat by ring, e1]
      exact (abs_sub _ _).trans_lt (by linarith))
    rw [l1, M.ok_bind]
    try dsimp only
    have lv : l.value.toRat + zz.value.toRat = z.toRat + zz.value.toRat - s.value.toRat := by rw [l6]; ring
    obtain ⟨l', j1, j2, j3, j4, j5, j6⟩ := add_cases_exact h l2 l5 z2 z4 (by rw [lv]; exact k2) (by rw [lv, e1]; linarith)
    rw [j1, M.ok_bind]
    have vv : (⟨s.value, l'.value⟩ : DoubleFloat S).toRat = z.toRat + zz.value.toRat := by
      unfold DoubleFloat.toRat
      rw [j6, lv]; ring
    refine ⟨_, rfl, ⟨a2, j2⟩, Or.inr ⟨⟨⟨a4, j5⟩, ?_⟩, ?_, ?_, w.value.toRat, zz.value.toRat, w5, z5, vv⟩⟩
    · show IsRounded S.fmt .nearestTiesToEven (⟨s.value, l'.value⟩ : DoubleFloat S).toRat s.value.toRat
      rw [vv]
      exact a5
    · simp only [Status.and, or_overflow, sto, q6, d4, p4, f4, i4, w6, z6, a6, l4, j4]; rfl
    · simp only [Status.and, or_invalidOp, sti, q3, d3, p3, f3, i3, w3, z3, a3, l3, j3]; rfl

/-- **C57.** In the default rounding mode, over the whole range: unless the difference of the first leading part and the rounded sum of
the leading parts overflows, the sum of canonical pairs is a canonical pair whose error, relative to the sum of the magnitudes, is at
most five times the unit `2^(-2p)`, or — only when the exact sum is at least the largest number of the format of the parts — the
infinity of its sign, flagged. -/
theorem C57_add_range_partial (h : S.Pair) (hp : 4 ≤ S.precision) {x y : DoubleFloat S} (hx : x.Valid) (cx : x.Canonical) (hy : y.Valid) (cy : y.Canonical)
    (hl : ∀ z, IsRounded S.fmt .nearestTiesToEven (x.hi.toRat + y.hi.toRat) z → |z| ≤ S.fmt.largest → |x.hi.toRat - z| < S.fmt.overflowAt) :
    ∃ r, x.addR y .nearestTiesToEven = .ok r ∧ r.value.Valid ∧
      (PairOverflow S (x.toRat + y.toRat) r ∨
       (r.value.Canonical ∧ r.status.overflow = false ∧ r.status.invalidOp = false ∧
        |r.value.toRat - (x.toRat + y.toRat)| ≤ 5 * 2 ^ (-2 * (S.precision : ℤ)) * (|x.toRat| + |y.toRat|) ∧
        (x.lo.toRat = 0 → y.lo.toRat = 0 → r.value.toRat = x.toRat + y.toRat))) := by
  have hok := h.ok
  have hfp : S.fmt.p = S.precision := rfl
  have u2 : (0 : ℚ) < 2 ^ (-2 * (S.precision : ℤ)) := two_zpow_pos _
  have triv : (0 : ℚ) ≤ 5 * 2 ^ (-2 * (S.precision : ℤ)) * (|x.toRat| + |y.toRat|) := by positivity
  have zero : ∀ {x : DoubleFloat S}, x.Valid → x.Canonical → x.hi.category = .zero → x.toRat = 0 := by
    intro x hx cx c
    have h0 := toRat_zero c
    unfold DoubleFloat.toRat
    rw [h0, Canonical.low_zero hok hx cx h0, add_zero]
  have zy : y.hi.category = .zero → x.addR y .nearestTiesToEven = .ok (Status.OK.and x) := by
    intro c2
    unfold DoubleFloat.addR DoubleFloat.category
    rcases isFinite_iff.1 cx.1.1 with c1 | c1 <;> simp only [c1, c2]
  rcases isFinite_iff.1 cy.1.1 with c2 | c2
  swap
  · have e := zero hy cy c2
    refine ⟨_, zy c2, hx, Or.inr ⟨cx, rfl, rfl, ?_, ?_⟩⟩
    · show |x.toRat - (x.toRat + y.toRat)| ≤ _
      rw [show x.toRat - (x.toRat + y.toRat) = 0 by rw [e]; ring, abs_zero]; exact triv
    · intro _ _; show x.toRat = _; rw [e, add_zero]
  rcases isFinite_iff.1 cx.1.1 with c1 | c1
  swap
  · have e := zero hx cx c1
    refine ⟨Status.OK.and y, ?_, hy, Or.inr ⟨cy, rfl, rfl, ?_, ?_⟩⟩
    · unfold DoubleFloat.addR DoubleFloat.category; simp only [c1, c2]
    · show |y.toRat - (x.toRat + y.toRat)| ≤ _
      rw [show y.toRat - (x.toRat + y.toRat) = 0 by rw [e]; ring, abs_zero]; exact triv
    · intro _ _; show y.toRat = _; rw [e, zero_add]
  have g1 := grid_toRat hok hx.1 cx.1.1
  have g2 := grid_toRat hok hx.2 cx.1.2
  have g3 := grid_toRat hok hy.1 cy.1.1
  have g4 := grid_toRat hok hy.2 cy.1.2
  obtain ⟨z, z1, z2, z3, z4⟩ := add_cases h hx.1 cx.1.1 hy.1 cy.1.1
  have hun : x.addR y .nearestTiesToEven =
      if !z.value.isFinite then
        if !z.value.isInfinite then .ok ((Status.OK ||| z.status).and ⟨z.value, IeeeFloat.ZERO S⟩)
        else DoubleFloat.addOverflowed x.hi x.lo y.hi y.lo .nearestTiesToEven
      else DoubleFloat.addFinite x.hi x.lo y.hi y.lo z.value (Status.OK ||| z.status) .nearestTiesToEven := by
    unfold DoubleFloat.addR DoubleFloat.category
    simp only [c1, c2]
    rw [z1, M.ok_bind]
  have ev : x.hi.toRat + x.lo.toRat + (y.hi.toRat + y.lo.toRat) = x.toRat + y.toRat := rfl
  rcases z4 with ⟨-, z4, z5, z6⟩ | ⟨z4, z5, z6, z7⟩
  · rw [if_neg (by rw [z4]; decide)] at hun
    obtain ⟨r, r1, r2, r3⟩ := addFinite_range h hp (st := Status.OK ||| z.status) (by rw [or_overflow, z6]; rfl) (by rw [or_invalidOp, z3]; rfl)
      hx.1 cx.1.1 hx.2 cx.1.2 hy.1 cy.1.1 hy.2 cy.1.2 z2 z4 cx.2 cy.2 z5 (hl _ z5 (abs_toRat_le hok z2 z4))
    rw [ev] at r3
    refine ⟨r, by rw [hun]; exact r1, r2, ?_⟩
    rcases r3 with r3 | ⟨r3, r4, r5, w, zz, r6, r7, r8⟩
    · exact Or.inl r3
    · refine Or.inr ⟨r3, r4, r5, ?_, ?_⟩
      · have := (sum_error (by omega) g1 g2 g3 g4 cx.2 cy.2 z5 r6 r7).2.2.2
        rw [r8]
        refine this.trans (le_of_eq ?_)
        have : ((2 : ℚ) ^ (-(S.fmt.p : ℤ))) ^ 2 = 2 ^ (-2 * (S.precision : ℤ)) := by
          rw [← zpow_natCast, ← zpow_mul, hfp]; congr 1; push_cast; ring
        rw [this]
        rfl
      · intro l1 l2
        have hr := sum_residual (by omega) g1 g3 z5
        rw [l1, add_zero] at r6
        have e1 := RN.exact r6 hr
        rw [l2, add_zero, e1] at r7
        have e2 := RN.exact r7 hr
        rw [r8, e2]
        unfold DoubleFloat.toRat
        rw [l1, l2]; ring
  · rw [if_pos (by simp [isFinite, isNan, isInfinite, z5]), if_neg (by simp [isInfinite, z5])] at hun
    obtain ⟨r, r1, r2, r3⟩ := addOverflowed_ok h hp hx.1 cx.1.1 hx.2 cx.1.2 hy.1 cy.1.1 hy.2 cy.1.2 c1 c2 cx.2 cy.2 z4
    rw [ev] at r3
    refine ⟨r, by rw [hun]; exact r1, r2, ?_⟩
    rcases r3 with r3 | ⟨r3, r4, r5, r6, r7⟩
    · exact Or.inl r3
    · refine Or.inr ⟨r3, r4, r5, r7.trans ?_, fun l1 l2 => absurd ⟨l1, l2⟩ r6⟩
      exact mul_le_mul_of_nonneg_left (abs_add_le _ _) (by positivity)

theorem add_nan (h : S.OK) {x y : IeeeFloat S} (hx : x.Valid) (hy : y.Valid) (hn : x.category = .nan ∨ y.category = .nan) :
    ∃ r, addR x y .nearestTiesToEven = .ok r ∧ r.value.Valid ∧ r.value.category = .nan := by
  obtain ⟨r, ⟨r1, -⟩, r2, r3, -⟩ := C11_nan_propagation h hx hy .nearestTiesToEven hn
  exact ⟨r, r1, r2, r3.1⟩

/-- **C57.** And when that difference does overflow — although the sum of the leading parts is in range — the sum is NaN, flagged as
invalid. -/
theorem C57_add_range_nan (h : S.Pair) {x y : DoubleFloat S} (hx : x.Valid) (cx : x.Canonical) (hy : y.Valid) (cy : y.Canonical)
    {z : ℚ} (hz : IsRounded S.fmt .nearestTiesToEven (x.hi.toRat + y.hi.toRat) z) (zl : |z| ≤ S.fmt.largest)
    (ho : S.fmt.overflowAt ≤ |x.hi.toRat - z|) :
    ∃ r, x.addR y .nearestTiesToEven = .ok r ∧ r.value.isNan = true ∧ r.status.invalidOp = true := by
  have hok := h.ok
  have hL := largest_lt_overflowAt h
  -- neither leading part is zero
  have c1 : x.hi.category = .normal := by
    apply isFiniteNonZero_of_ne cx.1.1
    intro e
    rw [e, zero_sub, abs_neg] at ho
    linarith
  have c2 : y.hi.category = .normal := by
    apply isFiniteNonZero_of_ne cy.1.1
    intro e
    rw [e, add_zero] at hz
    rw [RN.exact hz (grid_toRat hok hx.1 cx.1.1), sub_self, abs_zero] at ho
    have := largest_pos hok
    linarith
  obtain ⟨w, w1, w2, w3, w4⟩ := add_cases h hx.1 cx.1.1 hy.1 cy.1.1
  have hin := (rounded_in_range hok h.ieee hz).1 zl
  rcases w4 with ⟨-, w4, w5, w6⟩ | ⟨w4, -⟩
  swap
  · linarith
  have ew := w5.unique hz
  rw [← ew] at ho
  unfold DoubleFloat.addR DoubleFloat.category
  simp only [c1, c2]
  rw [w1, M.ok_bind]
  rw [if_neg (by rw [w4]; decide)]
  unfold DoubleFloat.addFinite
  obtain ⟨q, q1, q2, q3, q4⟩ := sub_cases h hx.1 cx.1.1 w2 w4
  rcases q4 with ⟨q4, -⟩ | ⟨-, q4, -, -⟩
  · linarith
  rw [q1, M.ok_bind]
  try dsimp only
  rw [(C10_add_inf_finite .nearestTiesToEven).1 q4 cy.1.1, M.ok_bind]
  try dsimp only
  rw [(C10_add_inf_finite .nearestTiesToEven).1 q4 w4, M.ok_bind]
  try dsimp only
  rw [subR_eq (by simp [isNan, q4]) (not_nan_of_finite cx.1.1), (C10_add_inf_finite .nearestTiesToEven).1 q4 (by rw [neg_finite]; exact cx.1.1), M.ok_bind]
  try dsimp only
  obtain ⟨d, d1, d2, -⟩ := C10_add_inf_inf (x := q.value) (y := q.value.neg) q4 q4 .nearestTiesToEven
  obtain ⟨d3, d4, -⟩ := d2 (by simp [IeeeFloat.neg, isNegative])
  have vd : d.value.Valid := by
    obtain ⟨r, r1, r2⟩ := total_add hok q2 (neg_valid q2) .nearestTiesToEven
    rw [d1] at r1
    cases r1
    exact r2
  rw [d1, M.ok_bind]
  try dsimp only
  obtain ⟨f, f1, f2, f3⟩ := add_nan hok vd hx.2 (Or.inl d4)
  rw [f1, M.ok_bind]
  try dsimp only
  obtain ⟨g, g1, g2, g3⟩ := add_nan hok f2 hy.2 (Or.inl f3)
  rw [g1, M.ok_bind]
  try dsimp only
  rw [if_neg (by simp [isZero, g3])]
  obtain ⟨i, i1, i2, i3⟩ := add_nan hok w2 g2 (Or.inr g3)
  rw [i1, M.ok_bind]
  try dsimp only
  rw [if_pos (by simp [isFinite, isNan, i3])]
  exact ⟨_, rfl, by simp [DoubleFloat.isNan, DoubleFloat.category, i3, Status.and], by simp [Status.and, or_invalidOp, d3, Status.INVALID_OP]⟩

/-- The difference does not overflow unless the second leading part is the largest number of the format of the parts or its opposite. -/
theorem no_overflow_of_lt (h : S.Pair) {x y : DoubleFloat S} (hx : x.Valid) (cx : x.Canonical) (hy : y.Valid) (cy : y.Canonical)
    (hl : |y.hi.toRat| < S.fmt.largest) {z : ℚ} (hz : IsRounded S.fmt .nearestTiesToEven (x.hi.toRat + y.hi.toRat) z) (zl : |z| ≤ S.fmt.largest) :
    |x.hi.toRat - z| < S.fmt.overflowAt := by
  have hok := h.ok
  have hpm := hok.p_max; have hmin := hok.min_lt; have hp3 := hok.p_ge
  have hfp : S.fmt.p = S.precision := rfl
  have hfe : S.fmt.emin = S.minExp := rfl
  have hov := overflowAt_eq h.ieee
  have hin := (rounded_in_range hok h.ieee hz).1 zl
  have := RN.half_unit (by omega) hz (k := S.maxExp - S.precision + 1) (by rw [hfp, hfe]; omega) (by
      rw [hfp, show (S.precision : ℤ) + (S.maxExp - S.precision + 1) = S.maxExp + 1 by ring]
      have e : S.fmt.overflowAt = 2 ^ (S.maxExp + 1) - 2 ^ (S.maxExp - S.precision) := rfl
      rw [e] at hin
      have := two_zpow_pos (S.maxExp - S.precision)
      linarith)
  rw [show S.maxExp - (S.precision : ℤ) + 1 - 1 = S.maxExp - S.precision by ring] at this
  rw [show x.hi.toRat - z = (x.hi.toRat + y.hi.toRat - z) - y.hi.toRat by ring]
  refine (abs_sub _ _).trans_lt ?_
  linarith

/-- **C57.** So the sum is as described whenever the second operand's leading part is not the largest number. -/
theorem C57_add_below_largest_partial (h : S.Pair) (hp : 4 ≤ S.precision) {x y : DoubleFloat S} (hx : x.Valid) (cx : x.Canonical) (hy : y.Valid)
    (cy : y.Canonical) (hl : |y.hi.toRat| < S.fmt.largest) :
    ∃ r, x.addR y .nearestTiesToEven = .ok r ∧ r.value.Valid ∧
      (PairOverflow S (x.toRat + y.toRat) r ∨
       (r.value.Canonical ∧ r.status.overflow = false ∧ r.status.invalidOp = false ∧
        |r.value.toRat - (x.toRat + y.toRat)| ≤ 5 * 2 ^ (-2 * (S.precision : ℤ)) * (|x.toRat| + |y.toRat|) ∧
        (x.lo.toRat = 0 → y.lo.toRat = 0 → r.value.toRat = x.toRat + y.toRat))) :=
  C57_add_range_partial h hp hx cx hy cy fun _ hz zl => no_overflow_of_lt h hx cx hy cy hl hz zl

/-- **C57.** Subtraction likewise. -/
theorem C57_sub_below_largest_partial (h : S.Pair) (hp : 4 ≤ S.precision) {x y : DoubleFloat S} (hx : x.Valid) (cx : x.Canonical) (hy : y.Valid)
    (cy : y.Canonical) (hl : |y.hi.toRat| < S.fmt.largest) :
    ∃ r, x.subR y .nearestTiesToEven = .ok r ∧ r.value.Valid ∧
      (PairOverflow S (x.toRat - y.toRat) r ∨
       (r.value.Canonical ∧ r.status.overflow = false ∧ r.status.invalidOp = false ∧
        |r.value.toRat - (x.toRat - y.toRat)| ≤ 5 * 2 ^ (-2 * (S.precision : ℤ)) * (|x.toRat| + |y.toRat|) ∧
        (x.lo.toRat = 0 → y.lo.toRat = 0 → r.value.toRat = x.toRat - y.toRat))) := by
  obtain ⟨n1, n2⟩ := neg_canonical hy cy
  obtain ⟨m1, -⟩ := C43_neg cy.1
  have hs : y.neg.hi = y.hi.neg := by unfold DoubleFloat.neg; split_ifs <;> rfl
  have hlo : y.lo.toRat = 0 → y.neg.lo.toRat = 0 := by
    intro l2
    unfold DoubleFloat.neg
    split_ifs
    · rw [neg_toRat, l2, neg_zero]
    · exact l2
  obtain ⟨r, r1, r2, r3⟩ := C57_add_below_largest_partial h hp hx cx n1 n2 (by rw [hs, neg_toRat, abs_neg]; exact hl)
  rw [m1, abs_neg, ← sub_eq_add_neg] at r3
  refine ⟨r, r1, r2, ?_⟩
  rcases r3 with r3 | ⟨r3, r4, r5, r6, r7⟩
  · exact Or.inl r3
  · exact Or.inr ⟨r3, r4, r5, r6, fun l1 l2 => r7 l1 (hlo l2)⟩

example := C57_sub_below_largest_partial doubleS_pair (by decide) fits_example.1.1 fits_example.1.2.1 fits_three_halves.1.1 fits_three_halves.1.2.1
  (by decide +kernel)

/-- A pair is canonical when adding its parts gives back the leading one. -/
theorem canonical_of_add (h : S.Pair) {d : DoubleFloat S} (hv : d.Valid) (hf : d.Finite) {st : Status}
    (ha : IeeeFloat.addR d.hi d.lo .nearestTiesToEven = .ok ⟨st, d.hi⟩) : d.Canonical := by
  obtain ⟨r, r1, -, -, r4⟩ := add_cases h hv.1 hf.1 hv.2 hf.2
  rw [ha] at r1
  cases r1
  refine ⟨hf, ?_⟩
  rcases r4 with ⟨-, -, r5, -⟩ | ⟨-, r5, -⟩
  · exact r5
  · have := hf.1
    simp [isFinite, isNan, isInfinite] at this
    exact absurd r5 this.2

/-- The largest double less `2^969`, plus `2^970`: the leading parts overflow, the sum is in range and exact. -/
example : let x : DoubleDouble := ⟨largest doubleS, ⟨2 ^ 52, 969, .normal, true⟩⟩
    let y : DoubleDouble := ⟨⟨2 ^ 52, 970, .normal, false⟩, ZERO doubleS⟩
    (∃ r, x.addR y .nearestTiesToEven = .ok r ∧ r.value.Canonical ∧ r.value.hi = largest doubleS ∧ r.value.lo = ⟨2 ^ 52, 969, .normal, false⟩) ∧
    (∃ r, y.addR x .nearestTiesToEven = .ok r ∧ r.value.Canonical) ∧
    (∃ r, x.addR x .nearestTiesToEven = .ok r ∧ r.value.hi.isInfinite = true) := by
  intro x y
  have hx : x.Valid := by decide +kernel
  have hy : y.Valid := by decide +kernel
  have cx : x.Canonical := canonical_of_add doubleS_pair hx (by decide) (st := { inexact := true }) (by decide +kernel)
  have cy : y.Canonical := canonical_of_add doubleS_pair hy (by decide) (st := Status.OK) (by decide +kernel)
  have e1 : x.addR y .nearestTiesToEven = .ok ⟨{ inexact := true }, ⟨largest doubleS, ⟨2 ^ 52, 969, .normal, false⟩⟩⟩ := by decide +kernel
  have e2 : y.addR x .nearestTiesToEven = .ok ⟨{ inexact := true }, ⟨largest doubleS, ⟨2 ^ 52, 969, .normal, false⟩⟩⟩ := by decide +kernel
  have hl : |y.hi.toRat| < doubleS.fmt.largest := by
    rw [largest_ieee rfl]
    have t1 : y.hi.toRat = 2 ^ (970 : ℤ) := by
      show signed false (((2 ^ 52 : ℕ) : ℚ) * 2 ^ ((970 : ℤ) - doubleS.precision + 1)) = _
      rw [signed, if_neg (by decide), show ((2 ^ 52 : ℕ) : ℚ) = 2 ^ (52 : ℤ) by norm_num, ← two_zpow_add]
      rfl
    rw [t1, abs_of_pos (two_zpow_pos _)]
    have t2 : (2 : ℚ) ^ (970 : ℤ) < 2 ^ (1023 : ℤ) := two_zpow_lt (by norm_num)
    have t3 : (2 : ℚ) ^ (doubleS.maxExp + 1) = 2 * 2 ^ (1023 : ℤ) := by
      rw [show doubleS.maxExp + 1 = 1023 + 1 from rfl, two_zpow_add 1023 1, zpow_one, mul_comm]
    have t4 : (2 : ℚ) ^ (doubleS.maxExp - doubleS.precision + 1) ≤ 2 ^ (1023 : ℤ) := two_zpow_le (by decide)
    rw [t3, two_mul]
    exact lt_of_lt_of_le t2 (le_sub_iff_add_le.2 (add_le_add (le_refl _) t4))
  refine ⟨?_, ?_, ?_⟩
  · obtain ⟨r, r1, -, r3⟩ := C57_add_below_largest_partial doubleS_pair (by decide) hx cx hy cy hl
    have e := r1
    rw [e1] at e
    cases e
    rcases r3 with ⟨c, -⟩ | r3
    · exact absurd c (by decide)
    · exact ⟨_, r1, r3.1, rfl, rfl⟩
  · obtain ⟨r, r1, -, r3⟩ := C57_add_below_largest_partial doubleS_pair (by decide) hx cx hy cy hl
    have e := r1
    rw [e1] at e
    cases e
    rcases r3 with ⟨c, -⟩ | r3
    · exact absurd c (by decide)
    · exact ⟨_, e2, r3.1⟩
  · exact ⟨⟨{ overflow := true, inexact := true }, ⟨INFINITY doubleS, ZERO doubleS⟩⟩, by decide +kernel, rfl⟩

/-- The operands of `C57_add_nan` meet the hypotheses of `C57_add_range_nan`: the sum of the leading parts is in range, their difference
is not. -/
example : let x : DoubleDouble := ⟨⟨3 * 2 ^ 51, 971, .normal, true⟩, ZERO doubleS⟩
    let y : DoubleDouble := ⟨⟨2 ^ 53 - 1, 1023, .normal, false⟩, ZERO doubleS⟩
    x.Canonical ∧ y.Canonical ∧ ∃ z, IsRounded doubleS.fmt .nearestTiesToEven (x.hi.toRat + y.hi.toRat) z ∧ |z| ≤ doubleS.fmt.largest ∧
      doubleS.fmt.overflowAt ≤ |x.hi.toRat - z| := by
  intro x y
  have hx : x.Valid := by decide +kernel
  have hy : y.Valid := by decide +kernel
  have cx : x.Canonical := canonical_of_add doubleS_pair hx (by decide) (st := Status.OK) (by decide +kernel)
  have cy : y.Canonical := canonical_of_add doubleS_pair hy (by decide) (st := Status.OK) (by decide +kernel)
  obtain ⟨r, r1, r2, -, r4⟩ := add_cases doubleS_pair hx.1 cx.1.1 hy.1 cy.1.1
  have e1 : IeeeFloat.addR x.hi y.hi .nearestTiesToEven = .ok ⟨{ inexact := true }, ⟨2 ^ 53 - 2, 1023, .normal, false⟩⟩ := by decide +kernel
  rw [e1] at r1
  cases r1
  rcases r4 with ⟨-, r4, r5, -⟩ | ⟨-, r5, -⟩
  · refine ⟨cx, cy, _, r5, abs_toRat_le doubleS_ok r2 r4, ?_⟩
    obtain ⟨q, q1, -, -, q4⟩ := sub_cases doubleS_pair hx.1 cx.1.1 r2 r4
    have e2 : IeeeFloat.subR x.hi (⟨2 ^ 53 - 2, 1023, .normal, false⟩ : IeeeFloat doubleS) .nearestTiesToEven =
      .ok ⟨{ overflow := true, inexact := true }, ⟨0, 1024, .infinity, true⟩⟩ := by decide +kernel
    rw [e2] at q1
    cases q1
    rcases q4 with ⟨-, q4, -⟩ | ⟨q4, -⟩
    · exact absurd q4 (by decide)
    · exact q4
  · exact absurd r5 (by decide)

end Apf
