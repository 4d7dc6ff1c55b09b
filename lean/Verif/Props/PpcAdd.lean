import Verif.Proof.TwoSum
import Verif.Props.PpcOps
/-! # `DoubleFloat`: addition, subtraction and multiplication -/

namespace Apf
open Spec IeeeFloat
variable {S : Sem}

theorem Rounds.in_range {v : ℚ} {zs : Bool} {r : StatusAnd (IeeeFloat S)} (hr : Rounds S .nearestTiesToEven v zs r) {B : ℚ} (hB : S.fmt.Grid B)
    (hl : B ≤ S.fmt.largest) (hv : |v| ≤ B) : r.value.isFinite = true ∧ RN S.fmt v r.value.toRat := by
  obtain ⟨⟨g, g1, g2⟩, -⟩ := hr
  have hb := RN.abs_le g1 hB hv
  rcases g2 with ⟨-, g2, -⟩ | ⟨g2, -⟩
  · have hf : r.value.isFinite = true := by
      rw [isFinite_iff]
      unfold datum at g2
      cases c : r.value.category <;> rw [c] at g2 <;> simp_all
    rw [datum_finite hf] at g2
    cases g2
    exact ⟨hf, g1⟩
  · linarith

theorem add_step (h : S.OK) {x y : IeeeFloat S} (hx : x.Valid) (fx : x.isFinite = true) (hy : y.Valid) (fy : y.isFinite = true)
    {B : ℚ} (hB : S.fmt.Grid B) (hl : B ≤ S.fmt.largest) (hv : |x.toRat + y.toRat| ≤ B) :
    ∃ r, addR x y .nearestTiesToEven = .ok r ∧ r.value.Valid ∧ r.value.isFinite = true ∧ RN S.fmt (x.toRat + y.toRat) r.value.toRat := by
  obtain ⟨r, r1, r2, r3⟩ := addR_finite h hx hy fx fy .nearestTiesToEven (directedOK_of_mode _ (by decide) (by decide) _)
  exact ⟨r, r1, r2, Rounds.in_range r3 hB hl hv⟩

theorem sub_step (h : S.OK) {x y : IeeeFloat S} (hx : x.Valid) (fx : x.isFinite = true) (hy : y.Valid) (fy : y.isFinite = true)
    {B : ℚ} (hB : S.fmt.Grid B) (hl : B ≤ S.fmt.largest) (hv : |x.toRat - y.toRat| ≤ B) :
    ∃ r, subR x y .nearestTiesToEven = .ok r ∧ r.value.Valid ∧ r.value.isFinite = true ∧ RN S.fmt (x.toRat - y.toRat) r.value.toRat := by
  obtain ⟨r, r1, r2, r3⟩ := subR_finite h hx hy fx fy .nearestTiesToEven (directedOK_of_mode _ (by decide) (by decide) _)
  exact ⟨r, r1, r2, Rounds.in_range r3 hB hl hv⟩

theorem mul_step (h : S.OK) {x y : IeeeFloat S} (hx : x.Valid) (fx : x.isFinite = true) (hy : y.Valid) (fy : y.isFinite = true)
    {B : ℚ} (hB : S.fmt.Grid B) (hl : B ≤ S.fmt.largest) (hv : |x.toRat * y.toRat| ≤ B) :
    ∃ r, mulR x y .nearestTiesToEven = .ok r ∧ r.value.Valid ∧ r.value.isFinite = true ∧ RN S.fmt (x.toRat * y.toRat) r.value.toRat := by
  obtain ⟨r, r1, r2, r3⟩ := mulR_finite h hx hy fx fy .nearestTiesToEven (directedOK_of_mode _ (by decide) (by decide) _)
  exact ⟨r, r1, r2, Rounds.in_range r3 hB hl hv⟩

/-- Exact steps. -/
theorem add_step_exact (h : S.OK) {x y : IeeeFloat S} (hx : x.Valid) (fx : x.isFinite = true) (hy : y.Valid) (fy : y.isFinite = true)
    (hg : S.fmt.Grid (x.toRat + y.toRat)) (hl : |x.toRat + y.toRat| ≤ S.fmt.largest) :
    ∃ r, addR x y .nearestTiesToEven = .ok r ∧ r.value.Valid ∧ r.value.isFinite = true ∧ r.value.toRat = x.toRat + y.toRat := by
  obtain ⟨r, r1, r2, r3⟩ := addR_finite h hx hy fx fy .nearestTiesToEven (directedOK_of_mode _ (by decide) (by decide) _)
  exact ⟨r, r1, r2, (r3.exact hg hl).2⟩

theorem sub_step_exact (h : S.OK) {x y : IeeeFloat S} (hx : x.Valid) (fx : x.isFinite = true) (hy : y.Valid) (fy : y.isFinite = true)
    (hg : S.fmt.Grid (x.toRat - y.toRat)) (hl : |x.toRat - y.toRat| ≤ S.fmt.largest) :
    ∃ r, subR x y .nearestTiesToEven = .ok r ∧ r.value.Valid ∧ r.value.isFinite = true ∧ r.value.toRat = x.toRat - y.toRat := by
  obtain ⟨r, r1, r2, r3⟩ := subR_finite h hx hy fx fy .nearestTiesToEven (directedOK_of_mode _ (by decide) (by decide) _)
  exact ⟨r, r1, r2, (r3.exact hg hl).2⟩

/-- The sum of the leading parts and of what it loses, plus the low parts. -/
theorem addFinite_ok (h : S.Pair) (hp : 4 ≤ S.precision) {a aa c cc z : IeeeFloat S} (st : Status)
    (va : a.Valid) (fa : a.isFinite = true) (vaa : aa.Valid) (faa : aa.isFinite = true)
    (vc : c.Valid) (fc : c.isFinite = true) (vcc : cc.Valid) (fcc : cc.isFinite = true) (vz : z.Valid) (fz : z.isFinite = true)
    (h1 : RN S.fmt (a.toRat + aa.toRat) a.toRat) (h2 : RN S.fmt (c.toRat + cc.toRat) c.toRat) (h3 : RN S.fmt (a.toRat + c.toRat) z.toRat)
    (ba : |a.toRat| ≤ 2 ^ (S.maxExp - 2)) (bc : |c.toRat| ≤ 2 ^ (S.maxExp - 2)) :
    ∃ r, DoubleFloat.addFinite a aa c cc z st .nearestTiesToEven = .ok r ∧ r.value.Valid ∧ r.value.Canonical ∧
      ∃ w zz, RN S.fmt (a.toRat + c.toRat - z.toRat + aa.toRat) w ∧ RN S.fmt (w + cc.toRat) zz ∧ r.value.toRat = z.toRat + zz := by
  have hok := h.ok
  have hpm := hok.p_max; have hmin := hok.min_lt
  have hmax := S.maxExp
  have g1 := grid_toRat hok va fa
  have g2 := grid_toRat hok vaa faa
  have g3 := grid_toRat hok vc fc
  have g4 := grid_toRat hok vcc fcc
  have g5 := grid_toRat hok vz fz
  have hfp : S.fmt.p = S.precision := rfl
  have hfe : S.fmt.emin = S.minExp := rfl
  set m : ℚ := 2 ^ (S.maxExp - 2) with hm
  have m0 : 0 < m := two_zpow_pos _
  have pow : ∀ j : ℕ, (2 : ℚ) ^ (S.maxExp - 2 + j) = 2 ^ j * m := by
    intro j; rw [two_zpow_add, zpow_natCast, mul_comm]
  have gp : ∀ j : ℕ, S.fmt.Grid (2 ^ j * m) := by
    intro j
    rw [← pow j]
    exact grid_two_pow (by omega) (by rw [hfp, hfe]; omega)
  have lim : ∀ v : ℚ, S.fmt.Grid v → |v| < 8 * m → |v| ≤ S.fmt.largest := by
    intro v hv hlt
    apply grid_le_largest hok h.ieee hv
    rw [show S.maxExp + 1 = S.maxExp - 2 + (3 : ℕ) by push_cast; ring, pow 3]
    linarith
  have lim4 : 4 * m ≤ S.fmt.largest := by
    have := lim (2 ^ 2 * m) (gp 2) (by rw [abs_of_pos (by positivity)]; linarith)
    rw [abs_of_pos (by positivity)] at this
    linarith
  have gp4 : S.fmt.Grid (4 * m) := by have := gp 2; norm_num at this; exact this
  have gp2 : S.fmt.Grid (2 * m) := by have := gp 1; norm_num at this; exact this
  have gp1 : S.fmt.Grid m := by have := gp 0; norm_num at this; exact this
  have bz : |z.toRat| ≤ 2 * m := RN.abs_le h3 gp2 ((abs_add_le _ _).trans (by linarith))
  unfold DoubleFloat.addFinite
  -- q = a - z
  obtain ⟨q, q1, q2, q3, q4⟩ := sub_step hok va fa vz fz gp4 lim4 ((abs_sub _ _).trans (by linarith))
  have bq := RN.abs_le q4 gp4 ((abs_sub _ _).trans (by linarith))
  obtain ⟨t1, t2, t3, t4⟩ := two_sum (by omega) g1 g3 h3 q4
  have gq := grid_toRat hok q2 q3
  rw [q1, M.ok_bind]
  try dsimp only
  -- zz = q + c
  obtain ⟨d, d1, d2, d3, d4⟩ := add_step_exact hok q2 q3 vc fc t1 (lim _ t1 ((abs_add_le _ _).trans_lt (by linarith)))
  rw [d1, M.ok_bind]
  try dsimp only
  obtain ⟨q', p1, p2, p3, p4⟩ := add_step_exact hok q2 q3 vz fz t2 (lim _ t2 ((abs_add_le _ _).trans_lt (by linarith)))
  rw [p1, M.ok_bind]
  try dsimp only
  obtain ⟨e, e1, e2, e3, e4⟩ := sub_step_exact hok p2 p3 va fa (by rw [p4]; exact t3)
    (by rw [p4]; exact lim _ t3 ((abs_sub _ _).trans_lt (by have := abs_add_le q.value.toRat z.toRat; linarith)))
  rw [e1, M.ok_bind]
  try dsimp only
  have ev : d.value.toRat + e.value.neg.toRat = a.toRat + c.toRat - z.toRat := by
    rw [neg_toRat, d4, e4, p4]; ring
  obtain ⟨f, f1, f2, f3, f4⟩ := add_step_exact hok d2 d3 (neg_valid e2) (by rw [neg_finite]; exact e3) (by rw [ev]; exact t4)
    (by rw [ev]; exact lim _ t4 ((abs_sub _ _).trans_lt (by have := abs_add_le a.toRat c.toRat; linarith)))
  rw [ev] at f4
  rw [f1, M.ok_bind]
  try dsimp only
  -- the low parts
  have u1 : (2 : ℚ) ^ (-(S.fmt.p : ℤ)) ≤ 1 / 16 := by
    have : (2 : ℚ) ^ (-(S.fmt.p : ℤ)) ≤ 2 ^ (-4 : ℤ) := two_zpow_le (by rw [hfp]; omega)
    norm_num at this ⊢
    exact this
  have u0 := two_zpow_pos (-(S.fmt.p : ℤ))
  obtain ⟨w0, hw0⟩ := exists_rounded (F := S.fmt) (by omega) .nearestTiesToEven (a.toRat + c.toRat - z.toRat + aa.toRat)
  obtain ⟨zz0, hzz0⟩ := exists_rounded (F := S.fmt) (by omega) .nearestTiesToEven (w0 + cc.toRat)
  obtain ⟨s1, s2, s3, -⟩ := sum_error (by omega) g1 g2 g3 g4 h1 h2 h3 hw0 hzz0
  have b1 : |a.toRat + c.toRat - z.toRat| ≤ 1 / 8 * m := by
    have := abs_add_le a.toRat c.toRat
    have h0 := abs_nonneg (a.toRat + c.toRat)
    nlinarith
  have b2 : |aa.toRat| ≤ 1 / 16 * m := by have h0 := abs_nonneg a.toRat; nlinarith
  have b3 : |cc.toRat| ≤ 1 / 16 * m := by have h0 := abs_nonneg c.toRat; nlinarith
  have bm : m ≤ S.fmt.largest := by linarith
  obtain ⟨w, w1, w2, w3, w4⟩ := add_step hok f2 f3 vaa faa gp1 bm (by rw [f4]; exact (abs_add_le _ _).trans (by linarith))
  have bw : |w.value.toRat| ≤ m := RN.abs_le w4 gp1 (by rw [f4]; exact (abs_add_le _ _).trans (by linarith))
  rw [f4] at w4
  rw [w1, M.ok_bind]
  try dsimp only
  obtain ⟨zz, z1, z2, z3, z4⟩ := add_step hok w2 w3 vcc fcc gp2 (by linarith) ((abs_add_le _ _).trans (by linarith))
  have bzz : |zz.value.toRat| ≤ 2 * m := RN.abs_le z4 gp2 ((abs_add_le _ _).trans (by linarith))
  rw [z1, M.ok_bind]
  try dsimp only
  have cond := sum_of_units (by omega) g1 g2 g3 g4 h1 h2 h3 w4 z4
  by_cases hz0 : (zz.value.isZero && !zz.value.isNegative) = true
  · rw [if_pos hz0]
    have c0 : zz.value.category = .zero := by
      simp only [Bool.and_eq_true] at hz0
      simpa [isZero] using hz0.1
    have v0 : zz.value.toRat = 0 := toRat_zero c0
    have vv : (⟨z, IeeeFloat.ZERO S⟩ : DoubleFloat S).toRat = z.toRat := by
      unfold DoubleFloat.toRat
      rw [toRat_zero (x := IeeeFloat.ZERO S) rfl, add_zero]
    refine ⟨_, rfl, ⟨vz, rfl⟩, ⟨⟨fz, rfl⟩, ?_⟩, w.value.toRat, zz.value.toRat, w4, z4, ?_⟩
    · show IsRounded S.fmt .nearestTiesToEven (⟨z, IeeeFloat.ZERO S⟩ : DoubleFloat S).toRat z.toRat
      rw [vv]; exact isRounded_self _ g5
    · show (⟨z, IeeeFloat.ZERO S⟩ : DoubleFloat S).toRat = _
      rw [vv, v0, add_zero]
  · rw [if_neg hz0]
    obtain ⟨s, a1, a2, a3, a4⟩ := add_step hok vz fz z2 z3 gp4 lim4 ((abs_add_le _ _).trans (by linarith))
    have bs : |s.value.toRat| ≤ 4 * m := RN.abs_le a4 gp4 ((abs_add_le _ _).trans (by linarith))
    rw [a1, M.ok_bind]
    try dsimp only
    rw [if_neg (by rw [a3]; decide)]
    have gz := grid_toRat hok z2 z3
    have k1 := fast_sum (by omega) g5 gz cond a4
    have k2 := sum_residual (by omega) g5 gz a4
    obtain ⟨l, l1, l2, l3, l4⟩ := sub_step_exact hok vz fz a2 a3 k1 (lim _ k1 ((abs_sub _ _).trans_lt (by linarith)))
    rw [l1, M.ok_bind]
    try dsimp only
    have lv : l.value.toRat + zz.value.toRat = z.toRat + zz.value.toRat - s.value.toRat := by rw [l4]; ring
    have bk2 : |z.toRat + zz.value.toRat - s.value.toRat| < 8 * m := by
      have h0 := a4.2.1 z.toRat g5
      rw [add_sub_cancel_left] at h0
      linarith
    obtain ⟨l', j1, j2, j3, j4⟩ := add_step_exact hok l2 l3 z2 z3 (by rw [lv]; exact k2) (by rw [lv]; exact lim _ k2 bk2)
    rw [j1, M.ok_bind]
    have vv : (⟨s.value, l'.value⟩ : DoubleFloat S).toRat = z.toRat + zz.value.toRat := by
      unfold DoubleFloat.toRat
      rw [j4, lv]; ring
    refine ⟨_, rfl, ⟨a2, j2⟩, ⟨⟨a3, j3⟩, ?_⟩, w.value.toRat, zz.value.toRat, w4, z4, vv⟩
    show IsRounded S.fmt .nearestTiesToEven (⟨s.value, l'.value⟩ : DoubleFloat S).toRat s.value.toRat
    rw [vv]
    exact a4
theorem Canonical.low_zero (h : S.OK) {x : DoubleFloat S} (hx : x.Valid) (cx : x.Canonical) (h0 : x.hi.toRat = 0) : x.lo.toRat = 0 := by
  have g := grid_toRat h hx.2 cx.1.2
  have := cx.2
  unfold DoubleFloat.toRat at this
  rw [h0, zero_add] at this
  exact (RN.exact this g).symm

/-- **C57.** In the default rounding mode and away from the ends of the range, the sum of canonical pairs is a canonical pair whose
relative error, with respect to the sum of the magnitudes, is at most five times the unit `2^(-2p)`. -/
theorem C57_add_partial (h : S.Pair) (hp : 4 ≤ S.precision) {x y : DoubleFloat S} (hx : x.Valid) (cx : x.Canonical) (hy : y.Valid) (cy : y.Canonical)
    (bx : |x.toRat| ≤ 2 ^ (S.maxExp - 2)) (bY : |y.toRat| ≤ 2 ^ (S.maxExp - 2)) :
    ∃ r, x.addR y .nearestTiesToEven = .ok r ∧ r.value.Valid ∧ r.value.Canonical ∧
      |r.value.toRat - (x.toRat + y.toRat)| ≤ 5 * 2 ^ (-2 * (S.precision : ℤ)) * (|x.toRat| + |y.toRat|) ∧
      (x.lo.toRat = 0 → y.lo.toRat = 0 → r.value.toRat = x.toRat + y.toRat) := by
  have hok := h.ok
  have hpm := hok.p_max; have hmin := hok.min_lt
  have hfp : S.fmt.p = S.precision := rfl
  have hfe : S.fmt.emin = S.minExp := rfl
  have hB : S.fmt.Grid (2 ^ (S.maxExp - 2)) := grid_two_pow (by omega) (by rw [hfp, hfe]; omega)
  have u2 : (0 : ℚ) < 2 ^ (-2 * (S.precision : ℤ)) := two_zpow_pos _
  have triv : (0 : ℚ) ≤ 5 * 2 ^ (-2 * (S.precision : ℤ)) * (|x.toRat| + |y.toRat|) := by positivity
  have zero : ∀ {x : DoubleFloat S}, x.Valid → x.Canonical → x.hi.category = .zero → x.toRat = 0 := by
    intro x hx cx c
    have h0 := toRat_zero c
    unfold DoubleFloat.toRat
    rw [h0, Canonical.low_zero hok hx cx h0, add_zero]
  rcases isFinite_iff.1 cx.1.1 with c1 | c1 <;> rcases isFinite_iff.1 cy.1.1 with c2 | c2
  · have ba := RN.abs_le cx.2 hB bx
    have bc := RN.abs_le cy.2 hB bY
    have e4 : (2 : ℚ) ^ (S.maxExp - 2) * 2 = 2 ^ (S.maxExp - 2 + 1) := by rw [two_zpow_add (S.maxExp - 2) 1, zpow_one]
    have gB : S.fmt.Grid (2 ^ (S.maxExp - 2 + 1)) := grid_two_pow (by omega) (by rw [hfp, hfe]; omega)
    obtain ⟨z, z1, z2, z3, z4⟩ := add_step hok hx.1 cx.1.1 hy.1 cy.1.1 gB (by
        have := grid_le_largest hok h.ieee gB (by rw [abs_of_pos (two_zpow_pos _)]; exact two_zpow_lt (by omega))
        rwa [abs_of_pos (two_zpow_pos _)] at this) ((abs_add_le _ _).trans (by linarith))
    obtain ⟨r, r1, r2, r3, w, zz, r4, r5, r6⟩ := addFinite_ok h hp (Status.OK ||| z.status) hx.1 cx.1.1 hx.2 cx.1.2 hy.1 cy.1.1 hy.2 cy.1.2 z2 z3 cx.2 cy.2 z4 ba bc
    have g1 := grid_toRat hok hx.1 cx.1.1
    have g2 := grid_toRat hok hx.2 cx.1.2
    have g3 := grid_toRat hok hy.1 cy.1.1
    have g4 := grid_toRat hok hy.2 cy.1.2
    refine ⟨r, ?_, r2, r3, ?_, ?_⟩
    · unfold DoubleFloat.addR DoubleFloat.category
      simp only [c1, c2]
      rw [z1, M.ok_bind]
      rw [if_neg (by rw [z3]; decide)]
      exact r1
    · have := (sum_error (by omega) g1 g2 g3 g4 cx.2 cy.2 z4 r4 r5).2.2.2
      rw [r6]
      refine this.trans (le_of_eq ?_)
      have : ((2 : ℚ) ^ (-(S.fmt.p : ℤ))) ^ 2 = 2 ^ (-2 * (S.precision : ℤ)) := by
        rw [← zpow_natCast, ← zpow_mul, hfp]; congr 1; push_cast; ring
      rw [this]
      rfl
    · intro l1 l2
      have hr := sum_residual (by omega) g1 g3 z4
      rw [l1, add_zero] at r4
      have e1 := RN.exact r4 hr
      rw [l2, add_zero, e1] at r5
      have e2 := RN.exact r5 hr
      rw [r6, e2]
      unfold DoubleFloat.toRat
      rw [l1, l2]; ring
  · have e := zero hy cy c2
    refine ⟨Status.OK.and x, ?_, hx, cx, ?_, ?_⟩
    · unfold DoubleFloat.addR DoubleFloat.category; simp only [c1, c2]
    · show |x.toRat - (x.toRat + y.toRat)| ≤ _
      rw [show x.toRat - (x.toRat + y.toRat) = 0 by rw [e]; ring, abs_zero]; exact triv
    · intro _ _; show x.toRat = _; rw [e, add_zero]
  · have e := zero hx cx c1
    refine ⟨Status.OK.and y, ?_, hy, cy, ?_, ?_⟩
    · unfold DoubleFloat.addR DoubleFloat.category; simp only [c1, c2]
    · show |y.toRat - (x.toRat + y.toRat)| ≤ _
      rw [show y.toRat - (x.toRat + y.toRat) = 0 by rw [e]; ring, abs_zero]; exact triv
    · intro _ _; show y.toRat = _; rw [e, zero_add]
  · have e := zero hy cy c2
    refine ⟨Status.OK.and x, ?_, hx, cx, ?_, ?_⟩
    · unfold DoubleFloat.addR DoubleFloat.category; simp only [c1, c2]
    · show |x.toRat - (x.toRat + y.toRat)| ≤ _
      rw [show x.toRat - (x.toRat + y.toRat) = 0 by rw [e]; ring, abs_zero]; exact triv
    · intro _ _; show x.toRat = _; rw [e, add_zero]

theorem neg_canonical {x : DoubleFloat S} (hx : x.Valid) (hc : x.Canonical) : x.neg.Valid ∧ x.neg.Canonical := by
  have hs : x.neg.hi = x.hi.neg := by unfold DoubleFloat.neg; split_ifs <;> rfl
  obtain ⟨n1, -⟩ := C43_neg hc.1
  have hl : x.neg.lo = x.lo.neg ∨ x.neg.lo = x.lo := by unfold DoubleFloat.neg; split_ifs <;> simp
  refine ⟨⟨by rw [hs]; exact neg_valid hx.1, ?_⟩, ⟨⟨by rw [hs, neg_finite]; exact hc.1.1, ?_⟩, ?_⟩⟩
  · rcases hl with e | e <;> rw [e]
    · exact neg_valid hx.2
    · exact hx.2
  · rcases hl with e | e <;> rw [e]
    · rw [neg_finite]; exact hc.1.2
    · exact hc.1.2
  · rw [n1, hs, neg_toRat]; exact RN.neg hc.2

/-- **C57.** Subtraction likewise. -/
theorem C57_sub_partial (h : S.Pair) (hp : 4 ≤ S.precision) {x y : DoubleFloat S} (hx : x.Valid) (cx : x.Canonical) (hy : y.Valid) (cy : y.Canonical)
    (bx : |x.toRat| ≤ 2 ^ (S.maxExp - 2)) (bY : |y.toRat| ≤ 2 ^ (S.maxExp - 2)) :
    ∃ r, x.subR y .nearestTiesToEven = .ok r ∧ r.value.Valid ∧ r.value.Canonical ∧
      |r.value.toRat - (x.toRat - y.toRat)| ≤ 5 * 2 ^ (-2 * (S.precision : ℤ)) * (|x.toRat| + |y.toRat|) ∧
      (x.lo.toRat = 0 → y.lo.toRat = 0 → r.value.toRat = x.toRat - y.toRat) := by
  obtain ⟨n1, n2⟩ := neg_canonical hy cy
  obtain ⟨m1, -⟩ := C43_neg cy.1
  obtain ⟨r, r1, r2, r3, r4, r5⟩ := C57_add_partial h hp hx cx n1 n2 bx (by rw [m1, abs_neg]; exact bY)
  rw [m1, abs_neg, ← sub_eq_add_neg] at r4
  refine ⟨r, r1, r2, r3, r4, fun l1 l2 => ?_⟩
  rw [r5 l1 ?_, m1, sub_eq_add_neg]
  unfold DoubleFloat.neg
  split_ifs
  · rw [neg_toRat, l2, neg_zero]
  · exact l2

example := C57_sub_partial doubleS_pair (by decide) fits_example.1.1 fits_example.1.2.1 fits_three_halves.1.1 fits_three_halves.1.2.1 (by decide +kernel)
  (by decide +kernel)

/-- Why away from the end of the range: the sum of two finite numbers, in range, is NaN — in one order of the operands. -/
theorem C57_add_nan : ∃ x y : DoubleDouble, x.Valid ∧ y.Valid ∧ x.Finite ∧ y.Finite ∧ x.lo.toRat = 0 ∧ y.lo.toRat = 0 ∧
    (∃ r, x.addR y .nearestTiesToEven = .ok r ∧ r.value.isNan = true ∧ r.status.invalidOp = true) ∧
    (∃ r, y.addR x .nearestTiesToEven = .ok r ∧ r.value.Finite) := by
  refine ⟨⟨⟨3 * 2 ^ 51, 971, .normal, true⟩, ZERO doubleS⟩, ⟨⟨2 ^ 53 - 1, 1023, .normal, false⟩, ZERO doubleS⟩,
    by decide +kernel, by decide +kernel, by decide, by decide, toRat_zero (x := ZERO doubleS) rfl, toRat_zero (x := ZERO doubleS) rfl, ?_, ?_⟩
  · exact ⟨⟨{ invalidOp := true, overflow := true, inexact := true }, DoubleFloat.NAN doubleS⟩, by decide +kernel, rfl, rfl⟩
  · exact ⟨⟨{ inexact := true }, ⟨⟨2 ^ 53 - 2, 1023, .normal, false⟩, ⟨2 ^ 52, 970, .normal, true⟩⟩⟩, by decide +kernel, by decide⟩

/-- The status says nothing about exactness: `(2^-54 + 2^-150) + (1 - 2^-54)` gives 1 with status OK, and the sum in the other order
gives the exact `1 + 2^-150` with INEXACT. -/
theorem C57_status_wrong : ∃ x y : DoubleDouble, x.Valid ∧ y.Valid ∧ x.Finite ∧ y.Finite ∧
    (∃ r, x.addR y .nearestTiesToEven = .ok ⟨Status.OK, r⟩ ∧ r.toRat ≠ x.toRat + y.toRat) ∧
    (∃ r, y.addR x .nearestTiesToEven = .ok ⟨{ inexact := true }, r⟩ ∧ r.toRat = x.toRat + y.toRat) := by
  refine ⟨⟨⟨2 ^ 52, -54, .normal, false⟩, ⟨2 ^ 52, -150, .normal, false⟩⟩, ⟨⟨2 ^ 52, 0, .normal, false⟩, ⟨2 ^ 52, -54, .normal, true⟩⟩,
    by decide +kernel, by decide +kernel, by decide, by decide, ?_, ?_⟩
  · refine ⟨⟨⟨2 ^ 52, 0, .normal, false⟩, ZERO doubleS⟩, by decide +kernel, ?_⟩
    norm_num [DoubleFloat.toRat, toRat, signed, doubleS, Sem.default, ZERO]
  · refine ⟨⟨⟨2 ^ 52, 0, .normal, false⟩, ⟨2 ^ 52, -150, .normal, false⟩⟩, by decide +kernel, ?_⟩
    norm_num [DoubleFloat.toRat, toRat, signed, doubleS, Sem.default, ZERO]

/-- Rounding toward zero, the sum of the largest pair with itself is not canonical. -/
theorem C57_toward_zero : ∃ x y : DoubleDouble, DoubleFloat.largest doubleS = .ok x ∧ x.addR x .towardZero = .ok ⟨{ inexact := true }, y⟩ ∧
    y.hi = largest doubleS ∧ y.lo = largest doubleS :=
  ⟨⟨⟨2 ^ 53 - 1, 1023, .normal, false⟩, ⟨2 ^ 53 - 2, 969, .normal, false⟩⟩, ⟨largest doubleS, largest doubleS⟩, by decide +kernel, by decide +kernel, rfl, rfl⟩
/-! ## C58: multiplication -/

theorem low_sixteenth (h : S.OK) (hp : 4 ≤ S.precision) {x : DoubleFloat S} (hx : x.Valid) (cx : x.Canonical) : |x.lo.toRat| ≤ |x.hi.toRat| / 16 := by
  have hfp : S.fmt.p = S.precision := rfl
  have g1 := grid_toRat h hx.1 cx.1.1
  have g2 := grid_toRat h hx.2 cx.1.2
  obtain ⟨k, k1, k2, k3, k4⟩ := exists_unit (by omega) g1
  have := (low_part (by omega) g1 g2 cx.2 k1 k3 k4).2
  have u1 : (2 : ℚ) ^ (-(S.fmt.p : ℤ)) ≤ 1 / 16 := by
    have : (2 : ℚ) ^ (-(S.fmt.p : ℤ)) ≤ 2 ^ (-4 : ℤ) := two_zpow_le (by omega)
    norm_num at this ⊢
    exact this
  have h0 := abs_nonneg x.hi.toRat
  nlinarith

theorem isFiniteNonZero_of_ne {x : IeeeFloat S} (fx : x.isFinite = true) (h0 : x.toRat ≠ 0) : x.category = .normal := by
  rcases isFinite_iff.1 fx with c | c
  · exact c
  · exact absurd (toRat_zero c) h0

set_option maxHeartbeats 1000000 in
/-- **C58.** In the default rounding mode and away from the ends of the range, the product of canonical pairs is a canonical pair
whose relative error is at most ten times the unit `2^(-2p)`. -/
theorem C58_mul_partial (h : S.Pair) (hp : 4 ≤ S.precision) {x y : DoubleFloat S} (hx : x.Valid) (cx : x.Canonical) (hy : y.Valid) (cy : y.Canonical)
    (b1 : 2 ^ (S.minExp + S.precision + 2) ≤ |x.toRat * y.toRat|) (b2 : |x.toRat * y.toRat| ≤ 2 ^ (S.maxExp - 2)) :
    ∃ r, x.mulR y .nearestTiesToEven = .ok r ∧ r.value.Valid ∧ r.value.Canonical ∧
      |r.value.toRat - x.toRat * y.toRat| ≤ 10 * 2 ^ (-2 * (S.precision : ℤ)) * |x.toRat * y.toRat| ∧
      (x.lo.toRat = 0 → y.lo.toRat = 0 → r.value.toRat = x.toRat * y.toRat) := by
  have hok := h.ok
  have hpm := hok.p_max; have hmin := hok.min_lt
  have hfp : S.fmt.p = S.precision := rfl
  have hfe : S.fmt.emin = S.minExp := rfl
  have g1 := grid_toRat hok hx.1 cx.1.1
  have g2 := grid_toRat hok hx.2 cx.1.2
  have g3 := grid_toRat hok hy.1 cy.1.1
  have g4 := grid_toRat hok hy.2 cy.1.2
  have lx := low_sixteenth hok hp hx cx
  have ly := low_sixteenth hok hp hy cy
  -- the product of the leading parts
  have hP : (2 : ℚ) ^ (S.minExp + S.precision + 1) ≤ |x.hi.toRat * y.hi.toRat| := by
    have t1 : |x.toRat| ≤ 17 / 16 * |x.hi.toRat| := (abs_add_le _ _).trans (by linarith)
    have t2 : |y.toRat| ≤ 17 / 16 * |y.hi.toRat| := (abs_add_le _ _).trans (by linarith)
    have t3 : |x.toRat| * |y.toRat| ≤ (17 / 16 * |x.hi.toRat|) * (17 / 16 * |y.hi.toRat|) := mul_le_mul t1 t2 (abs_nonneg _) (by positivity)
    have t4 : (2 : ℚ) ^ (S.minExp + S.precision + 2) = 2 * 2 ^ (S.minExp + S.precision + 1) := by
      rw [show S.minExp + (S.precision : ℤ) + 2 = 1 + (S.minExp + S.precision + 1) by ring, two_zpow_add, zpow_one]
    have t5 : 0 ≤ |x.hi.toRat| * |y.hi.toRat| := by positivity
    rw [abs_mul] at b1 ⊢
    linarith
  have hP0 := (two_zpow_pos _).trans_le hP
  have hx0 : x.hi.toRat ≠ 0 := by
    intro e; rw [e, zero_mul, abs_zero] at hP0; exact lt_irrefl _ hP0
  have hy0 : y.hi.toRat ≠ 0 := by
    intro e; rw [e, mul_zero, abs_zero] at hP0; exact lt_irrefl _ hP0
  have c1 := isFiniteNonZero_of_ne cx.1.1 hx0
  have c2 := isFiniteNonZero_of_ne cy.1.1 hy0
  -- the rounded values of the steps
  obtain ⟨t0, ht0⟩ := exists_rounded (F := S.fmt) (by omega) .nearestTiesToEven (x.hi.toRat * y.hi.toRat)
  obtain ⟨v10, hv10⟩ := exists_rounded (F := S.fmt) (by omega) .nearestTiesToEven (x.hi.toRat * y.lo.toRat)
  obtain ⟨v20, hv20⟩ := exists_rounded (F := S.fmt) (by omega) .nearestTiesToEven (x.lo.toRat * y.hi.toRat)
  obtain ⟨v0, hv0⟩ := exists_rounded (F := S.fmt) (by omega) .nearestTiesToEven (v10 + v20)
  obtain ⟨w0, hw0⟩ := exists_rounded (F := S.fmt) (by omega) .nearestTiesToEven (x.hi.toRat * y.hi.toRat - t0 + v0)
  obtain ⟨p1, p2, p3, p4, p5, p6, p7, p8, p9, p10, p11, p12, p13, p14⟩ :=
    prod_error (by omega) g1 g2 g3 g4 cx.2 cy.2 ht0 hv10 hv20 hv0 hw0 (by rw [hfe, hfp]; exact hP)
  have exy : (x.hi.toRat + x.lo.toRat) * (y.hi.toRat + y.lo.toRat) = x.toRat * y.toRat := rfl
  rw [exy] at p12 p13 p14
  set P := |x.hi.toRat * y.hi.toRat| with hPdef
  -- bounds
  set m : ℚ := 2 ^ (S.maxExp - 2) with hm
  have m0 : 0 < m := two_zpow_pos _
  have hPm : P ≤ 2 * m := by linarith
  have pow : ∀ j : ℕ, (2 : ℚ) ^ (S.maxExp - 2 + j) = 2 ^ j * m := by
    intro j; rw [two_zpow_add, zpow_natCast, mul_comm]
  have gp4 : S.fmt.Grid (4 * m) := by
    have : S.fmt.Grid (2 ^ (S.maxExp - 2 + (2 : ℕ))) := grid_two_pow (by omega) (by rw [hfp, hfe]; push_cast; omega)
    rw [pow 2] at this
    norm_num at this; exact this
  have lim : ∀ v : ℚ, S.fmt.Grid v → |v| < 8 * m → |v| ≤ S.fmt.largest := by
    intro v hv hlt
    apply grid_le_largest hok h.ieee hv
    rw [show S.maxExp + 1 = S.maxExp - 2 + (3 : ℕ) by push_cast; ring, pow 3]
    linarith
  have lim4 : 4 * m ≤ S.fmt.largest := by
    have := lim (4 * m) gp4 (by rw [abs_of_pos (by positivity)]; linarith)
    rwa [abs_of_pos (by positivity)] at this
  unfold DoubleFloat.mulR DoubleFloat.category
  simp only [c1, c2]
  -- t = a * c
  obtain ⟨t, t1, t2, t3, t4⟩ := mul_step hok hx.1 cx.1.1 hy.1 cy.1.1 gp4 lim4 (by linarith)
  have et := t4.unique ht0
  have ct : t.value.category = .normal := isFiniteNonZero_of_ne t3 (by
    intro e; rw [← et, e, abs_zero] at p2; linarith)
  rw [t1, M.ok_bind]
  try dsimp only
  rw [if_neg (by rw [(isFiniteNonZero_iff _).2 ct]; decide)]
  -- tau
  have hE : ¬ FmaExcluded S (x.hi.toRat * y.hi.toRat) t.value.neg.toRat := by
    rintro ⟨-, hlt, -⟩
    rw [neg_toRat, abs_neg, et] at hlt
    have h1 : (2 : ℚ) ^ S.minExp * 2 ≤ 2 ^ (S.minExp + S.precision + 1) := by
      rw [← zpow_one (2 : ℚ), ← zpow_mul, one_mul, ← two_zpow_add]; exact two_zpow_le (by omega)
    have := two_zpow_pos S.minExp
    linarith
  obtain ⟨tau, f1, f2, f3⟩ := C08_mul_add_partial hok hx.1 hy.1 (neg_valid t2) cx.1.1 cy.1.1 (by rw [neg_finite]; exact t3) .nearestTiesToEven
    (directedOK_of_mode _ (by decide) (by decide) _) hE
  have ev : x.hi.toRat * y.hi.toRat + t.value.neg.toRat = x.hi.toRat * y.hi.toRat - t0 := by rw [neg_toRat, et]; ring
  obtain ⟨-, f4, f5⟩ := f3.exact (by rw [ev]; exact p1) (by rw [ev]; exact lim _ p1 (by linarith))
  rw [ev] at f5
  rw [f1, M.ok_bind]
  try dsimp only
  -- v, w
  obtain ⟨v1, q1, q2, q3, q4⟩ := mul_step hok hx.1 cx.1.1 hy.2 cy.1.2 gp4 lim4 (by linarith)
  have e1 := q4.unique hv10
  rw [q1, M.ok_bind]
  try dsimp only
  obtain ⟨v2, r1, r2, r3, r4⟩ := mul_step hok hx.2 cx.1.2 hy.1 cy.1.1 gp4 lim4 (by linarith)
  have e2 := r4.unique hv20
  rw [r1, M.ok_bind]
  try dsimp only
  obtain ⟨v, s1, s2, s3, s4⟩ := add_step hok q2 q3 r2 r3 gp4 lim4 (by rw [e1, e2]; exact (abs_add_le _ _).trans (by linarith))
  rw [e1, e2] at s4
  have e3 := s4.unique hv0
  rw [s1, M.ok_bind]
  try dsimp only
  obtain ⟨w, w1, w2, w3, w4⟩ := add_step hok f2 f4 s2 s3 gp4 lim4 (by rw [f5, e3]; exact (abs_add_le _ _).trans (by linarith))
  rw [f5, e3] at w4
  have e4 := w4.unique hw0
  rw [w1, M.ok_bind]
  try dsimp only
  obtain ⟨s, a1, a2, a3, a4⟩ := add_step hok t2 t3 w2 w3 gp4 lim4 (by rw [et, e4]; exact (abs_add_le _ _).trans (by linarith))
  have bs : |s.value.toRat| ≤ 4 * m := RN.abs_le a4 gp4 (by rw [et, e4]; exact (abs_add_le _ _).trans (by linarith))
  rw [a1, M.ok_bind]
  try dsimp only
  rw [if_neg (by rw [a3]; decide)]
  have gt := grid_toRat hok t2 t3
  have gw := grid_toRat hok w2 w3
  have k1 := fast_sum (by omega) gt gw (Or.inr (by rw [et, e4]; exact p10)) a4
  have k2 := sum_residual (by omega) gt gw a4
  obtain ⟨l, l1, l2, l3, l4⟩ := sub_step_exact hok t2 t3 a2 a3 k1 (lim _ k1 ((abs_sub _ _).trans_lt (by rw [et]; linarith)))
  rw [l1, M.ok_bind]
  try dsimp only
  have lv : l.value.toRat + w.value.toRat = t.value.toRat + w.value.toRat - s.value.toRat := by rw [l4]; ring
  have bk2 : |t.value.toRat + w.value.toRat - s.value.toRat| < 8 * m := by
    have h0 := a4.2.1 t.value.toRat gt
    rw [add_sub_cancel_left, e4] at h0
    rw [e4]
    linarith
  obtain ⟨l', j1, j2, j3, j4⟩ := add_step_exact hok l2 l3 w2 w3 (by rw [lv]; exact k2) (by rw [lv]; exact lim _ k2 bk2)
  rw [j1, M.ok_bind]
  have vv : (⟨s.value, l'.value⟩ : DoubleFloat S).toRat = t0 + w0 := by
    unfold DoubleFloat.toRat
    rw [j4, lv, ← et, ← e4]; ring
  refine ⟨_, rfl, ⟨a2, j2⟩, ⟨⟨a3, j3⟩, ?_⟩, ?_, ?_⟩
  · show IsRounded S.fmt .nearestTiesToEven (⟨s.value, l'.value⟩ : DoubleFloat S).toRat s.value.toRat
    rw [vv, ← et, ← e4]
    exact a4
  · show |(⟨s.value, l'.value⟩ : DoubleFloat S).toRat - _| ≤ _
    rw [vv]
    refine p14.trans (le_of_eq ?_)
    have : ((2 : ℚ) ^ (-(S.fmt.p : ℤ))) ^ 2 = 2 ^ (-2 * (S.precision : ℤ)) := by
      rw [← zpow_natCast, ← zpow_mul, hfp]; congr 1; push_cast; ring
    rw [this]
  · intro z1 z2
    show (⟨s.value, l'.value⟩ : DoubleFloat S).toRat = _
    rw [vv]
    rw [z2, mul_zero] at hv10
    rw [z1, zero_mul] at hv20
    have y1 := RN.exact hv10 grid_zero
    have y2 := RN.exact hv20 grid_zero
    rw [y1, y2, add_zero] at hv0
    rw [RN.exact hv0 grid_zero, add_zero] at hw0
    rw [RN.exact hw0 p1]
    unfold DoubleFloat.toRat
    rw [z1, z2]; ring
/-- Rounding toward zero, the product of the largest pair with itself is not canonical. -/
theorem C58_toward_zero : ∃ x y : DoubleDouble, DoubleFloat.largest doubleS = .ok x ∧ x.mulR x .towardZero = .ok ⟨{ inexact := true }, y⟩ ∧
    y.hi = largest doubleS ∧ y.lo = largest doubleS :=
  ⟨⟨⟨2 ^ 53 - 1, 1023, .normal, false⟩, ⟨2 ^ 53 - 2, 969, .normal, false⟩⟩, ⟨largest doubleS, largest doubleS⟩, by decide +kernel, by decide +kernel, rfl, rfl⟩

theorem doubleS_range {v : ℚ} (h : v ≤ 2) : v ≤ 2 ^ (doubleS.maxExp - 2) := by
  refine h.trans ?_
  have : (2 : ℚ) ^ (1 : ℤ) ≤ 2 ^ (doubleS.maxExp - 2) := two_zpow_le (by decide)
  simpa using this

/-- The sum and the product of `1 - 2^-60` and 1.5. -/
example : let x : DoubleDouble := ⟨⟨2 ^ 52, 0, .normal, false⟩, ⟨2 ^ 52, -60, .normal, true⟩⟩
    let y : DoubleDouble := ⟨⟨3 * 2 ^ 51, 0, .normal, false⟩, ZERO doubleS⟩
    (∃ r, x.addR y .nearestTiesToEven = .ok r ∧ |r.value.toRat - (1 - 1 / 2 ^ 60 + 3 / 2)| ≤ 5 * 2 ^ (-2 * (53 : ℤ)) * (5 / 2)) ∧
    (∃ r, x.mulR y .nearestTiesToEven = .ok r ∧ |r.value.toRat - (1 - 1 / 2 ^ 60) * (3 / 2)| ≤ 10 * 2 ^ (-2 * (53 : ℤ)) * (3 / 2)) := by
  intro x y
  have hx : x.toRat = 1 - 1 / 2 ^ 60 := fits_example.2
  have hy : y.toRat = 3 / 2 := fits_three_halves.2
  constructor
  · obtain ⟨r, r1, -, -, r2, -⟩ := C57_add_partial doubleS_pair (by decide) fits_example.1.1 fits_example.1.2.1 fits_three_halves.1.1 fits_three_halves.1.2.1
      (doubleS_range (by rw [show (_ : DoubleDouble).toRat = _ from hx]; norm_num [abs_of_pos])) (doubleS_range (by rw [show (_ : DoubleDouble).toRat = _ from hy]; norm_num [abs_of_pos]))
    refine ⟨r, r1, ?_⟩
    rw [show (_ : DoubleDouble).toRat = _ from hx, show (_ : DoubleDouble).toRat = _ from hy] at r2
    refine r2.trans (mul_le_mul_of_nonneg_left ?_ (by positivity))
    norm_num [abs_of_pos]
  · obtain ⟨r, r1, -, -, r2, -⟩ := C58_mul_partial doubleS_pair (by decide) fits_example.1.1 fits_example.1.2.1 fits_three_halves.1.1 fits_three_halves.1.2.1
      (by
        rw [show (_ : DoubleDouble).toRat = _ from hx, show (_ : DoubleDouble).toRat = _ from hy]
        have : (2 : ℚ) ^ (doubleS.minExp + doubleS.precision + 2) ≤ 2 ^ (0 : ℤ) := two_zpow_le (by decide)
        refine this.trans ?_
        norm_num [abs_of_pos])
      (doubleS_range (by rw [show (_ : DoubleDouble).toRat = _ from hx, show (_ : DoubleDouble).toRat = _ from hy]; norm_num [abs_of_pos]))
    refine ⟨r, r1, ?_⟩
    rw [show (_ : DoubleDouble).toRat = _ from hx, show (_ : DoubleDouble).toRat = _ from hy] at r2
    refine r2.trans (mul_le_mul_of_nonneg_left ?_ (by positivity))
    norm_num [abs_of_pos]

end Apf
