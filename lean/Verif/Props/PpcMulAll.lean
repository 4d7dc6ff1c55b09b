import Verif.Props.PpcMul
import Verif.Props.FmaExact
import Verif.Props.PpcOps
/-! # C58: the product of two pairs for all canonical operands, those of the fused multiply-add's defect included (ppc.rs:276-340) -/

namespace Apf
open Spec IeeeFloat

variable {S : Sem}

/-- A value below half the smallest subnormal number is rounded to zero. -/
theorem rn_tiny {F : Fmt} {v g : ℚ} (h : RN F v g) (hv : |v| < 2 ^ (F.emin - F.p)) : g = 0 := by
  obtain ⟨n, hn⟩ := mult_of_grid h.1
  have h1 := h.2.1 0 grid_zero
  rw [sub_zero] at h1
  have h2 : |g| < 2 ^ (F.emin - F.p + 1) := by
    have : g = v - (v - g) := by ring
    rw [this, two_zpow_add (F.emin - F.p) 1, zpow_one]
    exact (abs_sub _ _).trans_lt (by linarith)
  have hη := two_zpow_pos (F.emin - F.p + 1)
  rw [hn, abs_mul, abs_of_pos hη, mul_lt_iff_lt_one_left hη] at h2
  have h3 : |n| < 1 := by exact_mod_cast h2
  rw [hn, Int.abs_lt_one_iff.1 h3]; simp

/-- The low part of a canonical pair is at most half a unit in the last place of the high part. -/
theorem low_unit (h : S.OK) {x : DoubleFloat S} (hx : x.Valid) (cx : x.Canonical) : |x.lo.toRat| ≤ 2 ^ (-(S.precision : ℤ)) * |x.hi.toRat| := by
  have hp := h.p_ge
  have hfp : S.fmt.p = S.precision := rfl
  have g1 := grid_toRat h hx.1 cx.1.1
  have g2 := grid_toRat h hx.2 cx.1.2
  obtain ⟨k, k1, k2, k3, k4⟩ := exists_unit (by omega) g1
  exact (low_part (by omega) g1 g2 cx.2 k1 k3 k4).2

set_option maxHeartbeats 1000000 in
/-- **C58** (the operands of the defect).  Where the product of the leading parts and its rounding are among the operands the fused
multiply-add handles wrongly, the multiplication panics iff that one does; otherwise it delivers a canonical pair with low part zero, which is
off by less than four times the smallest subnormal number, flagged INEXACT. -/
theorem C58_mul_defect (h : S.Pair) (hp : 4 ≤ S.precision) {x y : DoubleFloat S} (hx : x.Valid) (cx : x.Canonical) (hy : y.Valid) (cy : y.Canonical)
    {t : ℚ} (ht : IsRounded S.fmt .nearestTiesToEven (x.hi.toRat * y.hi.toRat) t) (hE : FmaExcluded S (x.hi.toRat * y.hi.toRat) (-t)) :
    (fmaGap S (x.hi.toRat * y.hi.toRat) (-t) = 0 → x.mulR y .nearestTiesToEven = .error .assert) ∧
    (fmaGap S (x.hi.toRat * y.hi.toRat) (-t) ≠ 0 → ∃ r, x.mulR y .nearestTiesToEven = .ok r ∧ r.value.Valid ∧ r.value.Canonical ∧
      r.value.lo.toRat = 0 ∧ r.status.overflow = false ∧ r.status.invalidOp = false ∧ r.status.inexact = true ∧
      |r.value.toRat - x.toRat * y.toRat| < 4 * 2 ^ (S.minExp - S.precision + 1)) := by
  have hok := h.ok
  have hpm := hok.p_max; have hmin := hok.min_lt
  have hfp : S.fmt.p = S.precision := rfl
  have hfe : S.fmt.emin = S.minExp := rfl
  have dir : ∀ v, DirectedOK S .nearestTiesToEven v := fun v => directedOK_of_mode _ (by decide) (by decide) _
  obtain ⟨c1, c2⟩ := normal_of_excluded cx.1.1 cy.1.1 hE
  have g1 := grid_toRat hok hx.1 cx.1.1
  have g2 := grid_toRat hok hx.2 cx.1.2
  have g3 := grid_toRat hok hy.1 cy.1.1
  have g4 := grid_toRat hok hy.2 cy.1.2
  have gmin : S.fmt.Grid (2 ^ S.minExp) := grid_two_pow (by omega) (by omega)
  have htlt : |t| < 2 ^ S.minExp := by have := hE.2.1; rwa [abs_neg] at this
  have hPle : |x.hi.toRat * y.hi.toRat| < 2 ^ S.minExp := by
    by_contra hc
    push Not at hc
    have := RN.le_abs ht gmin hc
    linarith
  have ht0 : t ≠ 0 := by
    intro e
    have := hE.1
    rw [e] at this; simp at this
  have hL := smallestNormal_le_largest hok
  have hη := two_zpow_pos (S.minExp - S.precision + 1)
  obtain ⟨u, hu⟩ : ∃ u : ℚ, u = 2 ^ (-(S.precision : ℤ)) := ⟨_, rfl⟩
  have u0 : 0 < u := hu ▸ two_zpow_pos _
  have u1 : u ≤ 1 / 16 := by
    have : (2 : ℚ) ^ (-(S.precision : ℤ)) ≤ 2 ^ (-4 : ℤ) := two_zpow_le (by omega)
    rw [hu]; norm_num at this ⊢
    exact this
  have hηp : u * (2 : ℚ) ^ S.minExp = 2 ^ (S.minExp - S.precision) := by
    rw [hu, ← two_zpow_add]; congr 1; ring
  have hη2 : (2 : ℚ) ^ (S.minExp - S.precision + 1) = 2 * 2 ^ (S.minExp - S.precision) := by
    rw [two_zpow_add _ 1, zpow_one]; ring
  have hηmin : 8 * (2 : ℚ) ^ (S.minExp - S.precision + 1) ≤ 2 ^ S.minExp := by
    rw [show (8 : ℚ) = 2 ^ (3 : ℤ) by norm_num, ← two_zpow_add]
    exact two_zpow_le (by omega)
  have hmax : (2 : ℚ) ^ S.minExp * 2 ≤ 2 ^ (S.maxExp + 1) := by
    have : (2 : ℚ) ^ (S.minExp + 1) ≤ 2 ^ (S.maxExp + 1) := two_zpow_le (by omega)
    rwa [two_zpow_add S.minExp 1, zpow_one] at this
  -- the cross products vanish
  have lx := low_unit hok hx cx
  have ly := low_unit hok hy cy
  rw [← hu] at lx ly
  have uP : u * |x.hi.toRat * y.hi.toRat| < 2 ^ (S.minExp - S.precision) := by
    rw [← hηp]; exact mul_lt_mul_of_pos_left hPle u0
  have had : |x.hi.toRat * y.lo.toRat| ≤ u * |x.hi.toRat * y.hi.toRat| := by
    rw [abs_mul, abs_mul]
    have := mul_le_mul_of_nonneg_left ly (abs_nonneg x.hi.toRat)
    linarith
  have hbc : |x.lo.toRat * y.hi.toRat| ≤ u * |x.hi.toRat * y.hi.toRat| := by
    rw [abs_mul, abs_mul]
    have := mul_le_mul_of_nonneg_right lx (abs_nonneg y.hi.toRat)
    linarith
  have hbd : |x.lo.toRat * y.lo.toRat| ≤ 1 / 16 * (u * |x.hi.toRat * y.hi.toRat|) := by
    have h1 : |x.lo.toRat * y.lo.toRat| ≤ (u * |x.hi.toRat|) * (u * |y.hi.toRat|) := by
      rw [abs_mul]; exact mul_le_mul lx ly (abs_nonneg _) (by positivity)
    have h2 := mul_le_mul_of_nonneg_right u1 (show 0 ≤ u * |x.hi.toRat * y.hi.toRat| by positivity)
    rw [abs_mul x.hi.toRat] at h2 ⊢
    linarith
  have sm : (2 : ℚ) ^ (S.minExp - S.precision) ≤ S.fmt.largest := by linarith
  unfold DoubleFloat.mulR DoubleFloat.category
  simp only [c1, c2]
  -- t = a * c
  obtain ⟨t', t1, t2, t3⟩ := mulR_finite hok hx.1 hy.1 cx.1.1 cy.1.1 .nearestTiesToEven (dir _)
  obtain ⟨tf, tr, ti, tov, tx⟩ := rounds_small h t3 (by linarith)
  have et := tr.unique ht
  rw [t1, M.ok_bind]
  try dsimp only
  have ct : t'.value.category = .normal := by
    rcases isFinite_iff.1 tf with c | c
    · exact c
    · exact absurd (et.symm.trans (toRat_zero c)) ht0
  rw [if_neg (by rw [(isFiniteNonZero_iff _).2 ct]; decide)]
  have fn : t'.value.neg.isFinite = true := by rw [neg_finite]; exact tf
  have en : t'.value.neg.toRat = -t := by rw [neg_toRat, et]
  rw [← en] at hE ⊢
  obtain ⟨k1, k2⟩ := C76_excluded hok hx.1 hy.1 (neg_valid t2) cx.1.1 cy.1.1 fn .nearestTiesToEven hE
  refine ⟨fun hg => ?_, fun hg => ?_⟩
  · rw [k1 hg]; rfl
  obtain ⟨tau, f1, f2, f3, -⟩ := k2 hg
  obtain ⟨f4, f5⟩ := C76_close hok hx.1 hy.1 (neg_valid t2) cx.1.1 cy.1.1 fn .nearestTiesToEven hE f1
  obtain ⟨f6, ⟨-, -, -, f7, -⟩ | ⟨-, f7, -⟩⟩ := rounds_cases h f3
  swap
  · rw [isFinite_iff, f7] at f4; simp at f4
  rw [f1, M.ok_bind]
  try dsimp only
  -- v, w
  obtain ⟨v1, q1, q2, q3⟩ := mulR_finite hok hx.1 hy.2 cx.1.1 cy.1.2 .nearestTiesToEven (dir _)
  obtain ⟨q4, q5, q6, q7, -⟩ := rounds_small h q3 (by linarith)
  have e1 := rn_tiny q5 (by rw [hfe, hfp]; linarith)
  rw [q1, M.ok_bind]
  try dsimp only
  obtain ⟨v2, r1, r2, r3⟩ := mulR_finite hok hx.2 hy.1 cx.1.2 cy.1.1 .nearestTiesToEven (dir _)
  obtain ⟨r4, r5, r6, r7, -⟩ := rounds_small h r3 (by linarith)
  have e2 := rn_tiny r5 (by rw [hfe, hfp]; linarith)
  rw [r1, M.ok_bind]
  try dsimp only
  obtain ⟨v, s1, s2, s6, s7, s4, s5⟩ := add_cases_exact h q2 q4 r2 r4 (by rw [e1, e2, add_zero]; exact grid_zero)
    (by rw [e1, e2, add_zero, abs_zero]; exact two_zpow_pos _)
  rw [e1, e2, add_zero] at s5
  rw [s1, M.ok_bind]
  try dsimp only
  have gtau := grid_toRat hok f2 f4
  have gt := grid_toRat hok t2 tf
  rw [en] at f5
  have dP : |x.hi.toRat * y.hi.toRat - t| ≤ 2 ^ (S.minExp - S.precision) := by
    have := RN.half_unit (by omega) ht (k := S.minExp - S.precision + 1) (by omega) (by
      rw [hfp, show (S.precision : ℤ) + (S.minExp - S.precision + 1) = S.minExp + 1 by ring]
      exact hPle.le.trans (two_zpow_le (by omega)))
    rwa [show S.minExp - (S.precision : ℤ) + 1 - 1 = S.minExp - S.precision by ring] at this
  have btau : |tau.value.toRat| ≤ 2 ^ S.minExp := by
    have : tau.value.toRat = (tau.value.toRat - (x.hi.toRat * y.hi.toRat + -t)) + (x.hi.toRat * y.hi.toRat - t) := by ring
    rw [this]
    exact (abs_add_le _ _).trans (by linarith)
  obtain ⟨w, w1, w2, w6, w7, w4, w5⟩ := add_cases_exact h f2 f4 s2 s4 (by rw [s5, add_zero]; exact gtau)
    (by rw [s5, add_zero]; linarith [two_zpow_pos S.minExp])
  rw [s5, add_zero] at w5
  rw [w1, M.ok_bind]
  try dsimp only
  have gsum : S.fmt.Grid (t'.value.toRat + w.value.toRat) := by
    rw [w5]
    apply sum_small (by omega) gt gtau
    rw [show (S.fmt.p : ℤ) + (S.fmt.emin - S.fmt.p + 1) = S.fmt.emin + 1 by ring, two_zpow_add, zpow_one, et, hfe]
    refine (abs_add_le _ _).trans ?_
    linarith
  obtain ⟨s, a1, a2, a6, a7, a4, a5⟩ := add_cases_exact h t2 tf w2 w4 gsum (by
    rw [w5, et]
    refine (abs_add_le _ _).trans_lt ?_
    linarith)
  rw [a1, M.ok_bind]
  try dsimp only
  rw [if_neg (by rw [a4]; decide)]
  have dts : t'.value.toRat - s.value.toRat = -tau.value.toRat := by rw [a5, w5]; ring
  obtain ⟨l, l1, l2, l6, l7, l3, l4⟩ := sub_cases_exact h t2 tf a2 a4 (by rw [dts]; exact gtau.neg) (by
    rw [dts, abs_neg]; linarith [two_zpow_pos S.minExp])
  rw [dts] at l4
  rw [l1, M.ok_bind]
  try dsimp only
  have lw : l.value.toRat + w.value.toRat = 0 := by rw [l4, w5]; ring
  obtain ⟨l', j1, j2, j6, j7, j3, j4⟩ := add_cases_exact h l2 l3 w2 w4 (by rw [lw]; exact grid_zero)
    (by rw [lw, abs_zero]; exact two_zpow_pos _)
  rw [lw] at j4
  rw [j1, M.ok_bind]
  have vv : (⟨s.value, l'.value⟩ : DoubleFloat S).toRat = t + tau.value.toRat := by
    unfold DoubleFloat.toRat
    rw [j4, a5, w5, et]; ring
  refine ⟨_, rfl, ⟨a2, j2⟩, ⟨⟨a4, j3⟩, ?_⟩, j4, ?_, ?_, ?_, ?_⟩
  · show IsRounded S.fmt .nearestTiesToEven (s.value.toRat + l'.value.toRat) s.value.toRat
    rw [j4, add_zero]
    exact isRounded_self _ (grid_toRat hok a2 a4)
  · simp [Status.and, or_overflow, ok_overflow, tov, f7, q7, r7, s7, w7, a7, l7, j7]
  · simp [Status.and, or_invalidOp, ok_invalidOp, ti, f6, q6, r6, s6, w6, a6, l6, j6]
  · have : t'.status.inexact = true := by
      by_contra hc
      simp only [Bool.not_eq_true] at hc
      have hP := (tx hc).symm
      apply hE.2.2.2
      obtain ⟨n, hn⟩ := mult_of_grid gt
      refine ⟨n * 2 ^ (S.precision + 1), ?_⟩
      rw [hP, hn, hfe, hfp]
      push_cast
      rw [mul_assoc, ← zpow_natCast, ← two_zpow_add]; congr 2; push_cast; ring
    simp [Status.and, or_inexact, this]
  · show |(⟨s.value, l'.value⟩ : DoubleFloat S).toRat - _| < _
    rw [vv]
    have e : t + tau.value.toRat - x.toRat * y.toRat = (tau.value.toRat - (x.hi.toRat * y.hi.toRat + -t)) -
        (x.hi.toRat * y.lo.toRat + (x.lo.toRat * y.hi.toRat + x.lo.toRat * y.lo.toRat)) := by
      unfold DoubleFloat.toRat; ring
    rw [e]
    refine (abs_sub _ _).trans_lt ?_
    have h1 := abs_add_le (x.hi.toRat * y.lo.toRat) (x.lo.toRat * y.hi.toRat + x.lo.toRat * y.lo.toRat)
    have h2 := abs_add_le (x.lo.toRat * y.hi.toRat) (x.lo.toRat * y.lo.toRat)
    linarith

/-- **C58**, for all canonical operands.  In the default rounding mode the product of canonical pairs panics iff the fused multiply-add of
the leading parts and of their rounded product does (`FmaPanics`).  In every other case it is a canonical pair whose error is at most ten times the
relative unit `2^(-2p)` plus four units of the smallest subnormal, or — only when the exact product is at the end of the range — the
infinity of its sign, flagged.  A product of plain numbers that is a multiple of the smallest subnormal is exact; a product
without INEXACT flag is exact up to the product of the low parts, which the code neglects. -/
theorem C58_mul_all_partial (h : S.Pair) (hp : 4 ≤ S.precision) {x y : DoubleFloat S} (hx : x.Valid) (cx : x.Canonical) (hy : y.Valid) (cy : y.Canonical) :
    ((∃ t, IsRounded S.fmt .nearestTiesToEven (x.hi.toRat * y.hi.toRat) t ∧ FmaPanics S (x.hi.toRat * y.hi.toRat) (-t)) ∧
      x.mulR y .nearestTiesToEven = .error .assert) ∨
    ((∀ t, IsRounded S.fmt .nearestTiesToEven (x.hi.toRat * y.hi.toRat) t → ¬ FmaPanics S (x.hi.toRat * y.hi.toRat) (-t)) ∧
      ∃ r, x.mulR y .nearestTiesToEven = .ok r ∧ r.value.Valid ∧
        (PairProductOverflow S (x.toRat * y.toRat) r ∨
         (r.value.Canonical ∧ r.status.overflow = false ∧ r.status.invalidOp = false ∧
          |r.value.toRat - x.toRat * y.toRat| ≤ 10 * 2 ^ (-2 * (S.precision : ℤ)) * |x.toRat * y.toRat| + 4 * 2 ^ (S.minExp - S.precision + 1) ∧
          (x.lo.toRat = 0 → y.lo.toRat = 0 → (∃ n : ℤ, x.toRat * y.toRat = n * 2 ^ (S.minExp - S.precision + 1)) → r.value.toRat = x.toRat * y.toRat) ∧
          (r.status.inexact = false → r.value.toRat = x.toRat * y.toRat - x.lo.toRat * y.lo.toRat)))) := by
  have hη := two_zpow_pos (S.minExp - S.precision + 1)
  obtain ⟨t, ht⟩ := exists_rounded (F := S.fmt) (by show 2 ≤ S.precision; omega) .nearestTiesToEven (x.hi.toRat * y.hi.toRat)
  by_cases hE : FmaExcluded S (x.hi.toRat * y.hi.toRat) (-t)
  · obtain ⟨h1, h2⟩ := C58_mul_defect h hp hx cx hy cy ht hE
    by_cases hg : fmaGap S (x.hi.toRat * y.hi.toRat) (-t) = 0
    · exact Or.inl ⟨⟨t, ht, hE, hg⟩, h1 hg⟩
    · refine Or.inr ⟨fun t' ht' hh => hg (by rw [ht.unique ht']; exact hh.2), ?_⟩
      obtain ⟨r, r1, r2, r3, r4, r5, r6, r7, r8⟩ := h2 hg
      refine ⟨r, r1, r2, Or.inr ⟨r3, r5, r6, ?_, ?_, ?_⟩⟩
      · have : 0 ≤ 10 * (2 : ℚ) ^ (-2 * (S.precision : ℤ)) * |x.toRat * y.toRat| := by
          have := two_zpow_pos (-2 * (S.precision : ℤ)); positivity
        linarith
      · rintro z1 z2 ⟨n, hn⟩
        have e : x.toRat * y.toRat = x.hi.toRat * y.hi.toRat := by
          unfold DoubleFloat.toRat; rw [z1, z2, add_zero, add_zero]
        rw [e] at hn
        refine absurd ⟨n * 2 ^ (S.precision + 1), ?_⟩ hE.2.2.2
        rw [hn]
        push_cast
        rw [mul_assoc, ← zpow_natCast, ← two_zpow_add]; congr 2; push_cast; ring
      · intro hh
        rw [r7] at hh; cases hh
  · refine Or.inr ⟨fun t' ht' hh => hE (by rw [ht.unique ht']; exact hh.1), ?_⟩
    obtain ⟨r, r1, r2, r3⟩ := C58_mul_range_partial h hp hx cx hy cy (fun t' ht' hh => hE (by rw [ht.unique ht']; exact hh.1))
    refine ⟨r, r1, r2, r3.imp_right ?_⟩
    rintro ⟨a1, a2, a3, a4, a5, a6⟩
    exact ⟨a1, a2, a3, by linarith, a5, a6⟩

/-- Each outcome occurs: the panic (`C58_mul_panics`), the wrong result (`C58_mul_wrong`), and the two of `C58_mul_range_partial`. -/
example : ∃ x y : DoubleDouble, x.Valid ∧ y.Valid ∧ x.Canonical ∧ y.Canonical ∧
    ∃ t, IsRounded doubleS.fmt .nearestTiesToEven (x.hi.toRat * y.hi.toRat) t ∧ FmaPanics doubleS (x.hi.toRat * y.hi.toRat) (-t) := by
  obtain ⟨x, y, hx, hy, cx, cy, hp⟩ := C58_mul_panics
  refine ⟨x, y, hx, hy, cx, cy, ?_⟩
  rcases C58_mul_all_partial doubleS_pair (by decide) hx cx hy cy with h | ⟨-, r, hr, -⟩
  · exact h.1
  · rw [hp] at hr; cases hr
/-! ## C51: the operands of the defect -/

/-- The product of excluded operands is below the normal range. -/
theorem excluded_product_small (h : S.OK) {x m z : IeeeFloat S} (hx : x.Valid) (hm : m.Valid) (hz : z.Valid)
    (fx : x.isFinite = true) (fm : m.isFinite = true) (fz : z.isFinite = true) (hE : FmaExcluded S (x.toRat * m.toRat) z.toRat) :
    |x.toRat * m.toRat| < 2 ^ S.minExp := by
  obtain ⟨cx, cm⟩ := normal_of_excluded fx fm hE
  obtain ⟨⟨q, x2, g, s, g0, g1, hq, hP, hz', hle⟩, -⟩ := fmaNormals_excluded h hx hm hz cx cm fz .nearestTiesToEven hE
  have hu := fmaUnit_pos S
  have hmin : (2 : ℚ) ^ S.minExp = 2 ^ (2 * S.precision) * fmaUnit S := by
    unfold fmaUnit
    rw [← zpow_natCast, ← two_zpow_add]; congr 1; push_cast; ring
  rw [hP, abs_signed _ (by positivity), hmin]
  apply mul_lt_mul_of_pos_right _ hu
  have : (q : ℚ) + 1 ≤ 2 ^ (2 * S.precision) := by exact_mod_cast hq
  linarith

/-- **C51** (the operands of the defect).  On operands that the fused multiply-add of the 106-bit format handles wrongly, `mul_add` panics iff that
one does, and otherwise delivers a canonical pair that is off by less than twice the smallest subnormal number. -/
theorem C51_mul_add_defect (h : S.Pair) {x m z : DoubleFloat S} (hx : x.Fits) (hm : m.Fits) (hz : z.Fits) (mode : Round)
    (hE : FmaExcluded (fallbackS S) (x.toRat * m.toRat) z.toRat) :
    (fmaGap (fallbackS S) (x.toRat * m.toRat) z.toRat = 0 → x.mulAddR m z mode = .error .assert) ∧
    (fmaGap (fallbackS S) (x.toRat * m.toRat) z.toRat ≠ 0 → ∃ r, x.mulAddR m z mode = .ok r ∧ r.value.Fits ∧
      |r.value.toRat - (x.toRat * m.toRat + z.toRat)| < 2 * 2 ^ (S.minExp - S.precision + 1)) := by
  have hpm := h.ok.p_max; have hmin := h.fb.min_lt; have hp := h.ok.p_ge
  change S.minExp + (S.precision : ℤ) < 0 at hmin
  obtain ⟨u, u1, u2, u3, u4, u5⟩ := toFallback_fits h hx
  obtain ⟨w, w1, w2, w3, w4, w5⟩ := toFallback_fits h hm
  obtain ⟨t, t1, t2, t3, t4, t5⟩ := toFallback_fits h hz
  rw [← u4, ← w4, ← t4] at hE ⊢
  obtain ⟨k1, k2⟩ := C76_excluded h.fb u2 w2 t2 u3 w3 t3 mode hE
  unfold DoubleFloat.mulAddR
  rw [u1, w1, t1]
  simp only [M.ok_bind]
  refine ⟨fun hg => by rw [k1 hg]; rfl, fun hg => ?_⟩
  obtain ⟨r, r1, r2, -⟩ := k2 hg
  obtain ⟨r3, r4⟩ := C76_close h.fb u2 w2 t2 u3 w3 t3 mode hE r1
  rw [r1]
  simp only [M.ok_bind]
  have e : (fallbackS S).minExp - ((fallbackS S).precision : ℤ) + 1 = S.minExp - S.precision + 1 := by
    show S.minExp + (S.precision : ℤ) - ((S.precision * 2 : ℕ) : ℤ) + 1 = _
    push_cast; ring
  rw [e] at r4
  have hl : |r.value.toRat| < S.fmt.overflowAt := by
    have b1 := excluded_product_small h.fb u2 w2 t2 u3 w3 t3 hE
    have b2 := hE.2.1
    have b3 : (2 : ℚ) ^ (fallbackS S).minExp ≤ 2 ^ (-1 : ℤ) := two_zpow_le (by show S.minExp + (S.precision : ℤ) ≤ _; omega)
    have b4 : (2 : ℚ) ^ (S.minExp - S.precision + 1) ≤ 2 ^ (-1 : ℤ) := two_zpow_le (by omega)
    have b5 : |u.toRat * w.toRat + t.toRat| ≤ |u.toRat * w.toRat| + |t.toRat| := abs_add_le _ _
    have b6 : |r.value.toRat| ≤ |r.value.toRat - (u.toRat * w.toRat + t.toRat)| + |u.toRat * w.toRat + t.toRat| := by
      have := abs_add_le (r.value.toRat - (u.toRat * w.toRat + t.toRat)) (u.toRat * w.toRat + t.toRat)
      rwa [sub_add_cancel] at this
    have b7 : (2 : ℚ) ^ (1 : ℤ) ≤ 2 ^ S.maxExp := two_zpow_le (by omega)
    have b8 : S.fmt.overflowAt = 2 ^ (S.maxExp + 1) - 2 ^ (S.maxExp - S.precision) := rfl
    have b9 : (2 : ℚ) ^ (S.maxExp - S.precision) ≤ 2 ^ S.maxExp := two_zpow_le (by omega)
    rw [two_zpow_add S.maxExp 1] at b8
    norm_num at b3 b4 b7 b8
    linarith
  obtain ⟨d, d1, d2, d3, -⟩ := mapFrom_exact h (st := r.status) r2 r3 hl
  exact ⟨_, d1, d2, by rw [d3]; exact r4⟩

/-- Together with `C51_mul_add_partial`: on finite operands of 106 bits, `mul_add` returns a result within twice the smallest subnormal number
of a correct one, or panics because of the defect or because the result is too large. -/
theorem C51_mul_add_all (h : S.Pair) {x m z : DoubleFloat S} (hx : x.Fits) (hm : m.Fits) (hz : z.Fits) (mode : Round) :
    PairOutcome S mode (x.toRat * m.toRat + z.toRat) (zeroSum mode (xor x.isNegative m.isNegative) z.isNegative) (x.mulAddR m z mode) ∨
    (FmaPanics (fallbackS S) (x.toRat * m.toRat) z.toRat ∧ x.mulAddR m z mode = .error .assert) ∨
    (FmaWrong (fallbackS S) mode (x.toRat * m.toRat) z.toRat ∧ ∃ r, x.mulAddR m z mode = .ok r ∧ r.value.Fits ∧
      |r.value.toRat - (x.toRat * m.toRat + z.toRat)| < 2 * 2 ^ (S.minExp - S.precision + 1)) := by
  by_cases hE : FmaWrong (fallbackS S) mode (x.toRat * m.toRat) z.toRat
  · obtain ⟨k1, k2⟩ := C51_mul_add_defect h hx hm hz mode hE.1
    by_cases hg : fmaGap (fallbackS S) (x.toRat * m.toRat) z.toRat = 0
    · exact Or.inr (Or.inl ⟨⟨hE.1, hg⟩, k1 hg⟩)
    · exact Or.inr (Or.inr ⟨hE, k2 hg⟩)
  · exact Or.inl (C51_mul_add_partial h hx hm hz mode hE)

example := C51_mul_add_all doubleS_pair fits_example.1 fits_example.1 fits_example.1 .towardZero

/-- The defect is reached: with `x = 56112104671810545010790703105605 · 2^-642`, `m = 58650609060040137622883548930557 · 2^-643` and
`z` the negative smallest subnormal, numbers of 106 bits, `mul_add` panics. -/
theorem C51_mul_add_panics : ∃ x m z : DoubleDouble, x.Fits ∧ m.Fits ∧ z.Fits ∧ x.mulAddR m z .nearestTiesToEven = .error .assert := by
  have r1 : (⟨⟨6229695056682088, -537, .normal, false⟩, ⟨8011184301351552, -597, .normal, false⟩⟩ : DoubleDouble).toRat =
      56112104671810545010790703105605 * 2 ^ (-642 : ℤ) := by
    unfold DoubleFloat.toRat
    show signed false (((6229695056682088 : ℕ) : ℚ) * 2 ^ (-589 : ℤ)) + signed false (((8011184301351552 : ℕ) : ℚ) * 2 ^ (-649 : ℤ)) = _
    rw [signed, signed, if_neg (by decide), if_neg (by decide), show (-589 : ℤ) = -649 + 60 by norm_num, show (-642 : ℤ) = -649 + 7 by norm_num,
      two_zpow_add, two_zpow_add]
    norm_num; ring
  have r2 : (⟨⟨6511525658674537, -538, .normal, false⟩, ⟨7254524707278824, -594, .normal, false⟩⟩ : DoubleDouble).toRat =
      58650609060040137622883548930557 * 2 ^ (-643 : ℤ) := by
    unfold DoubleFloat.toRat
    show signed false (((6511525658674537 : ℕ) : ℚ) * 2 ^ (-590 : ℤ)) + signed false (((7254524707278824 : ℕ) : ℚ) * 2 ^ (-646 : ℤ)) = _
    rw [signed, signed, if_neg (by decide), if_neg (by decide), show (-590 : ℤ) = -646 + 56 by norm_num, show (-643 : ℤ) = -646 + 3 by norm_num,
      two_zpow_add, two_zpow_add]
    norm_num; ring
  have r3 : (⟨⟨1, -1022, .normal, true⟩, ZERO doubleS⟩ : DoubleDouble).toRat = ((-1 : ℤ) : ℚ) * 2 ^ (-1074 : ℤ) := by
    unfold DoubleFloat.toRat
    rw [toRat_zero (x := ZERO doubleS) rfl, add_zero]
    show signed true (((1 : ℕ) : ℚ) * 2 ^ (-1074 : ℤ)) = _
    rw [signed, if_pos rfl]
    push_cast; ring
  refine ⟨⟨⟨6229695056682088, -537, .normal, false⟩, ⟨8011184301351552, -597, .normal, false⟩⟩,
    ⟨⟨6511525658674537, -538, .normal, false⟩, ⟨7254524707278824, -594, .normal, false⟩⟩, ⟨⟨1, -1022, .normal, true⟩, ZERO doubleS⟩,
    ⟨by decide +kernel, canonical_of_add doubleS_pair (by decide +kernel) (by decide) (st := { inexact := true }) (by decide +kernel), ?_⟩,
    ⟨by decide +kernel, canonical_of_add doubleS_pair (by decide +kernel) (by decide) (st := { inexact := true }) (by decide +kernel), ?_⟩,
    ⟨by decide +kernel, canonical_of_add doubleS_pair (by decide +kernel) (by decide) (st := Status.OK) (by decide +kernel), ?_⟩, by decide +kernel⟩
  · exact ⟨56112104671810545010790703105605, -642, by rw [show doubleS.fmt.doubled.p = 106 from rfl]; norm_num,
      by rw [show doubleS.fmt.doubled.emin = -969 from rfl, show doubleS.fmt.doubled.p = 106 from rfl]; norm_num, by rw [r1]; push_cast; rfl⟩
  · exact ⟨58650609060040137622883548930557, -643, by rw [show doubleS.fmt.doubled.p = 106 from rfl]; norm_num,
      by rw [show doubleS.fmt.doubled.emin = -969 from rfl, show doubleS.fmt.doubled.p = 106 from rfl]; norm_num, by rw [r2]; push_cast; rfl⟩
  · exact ⟨-1, -1074, by rw [show doubleS.fmt.doubled.p = 106 from rfl]; norm_num,
      by rw [show doubleS.fmt.doubled.emin = -969 from rfl, show doubleS.fmt.doubled.p = 106 from rfl]; norm_num, by rw [r3]⟩

end Apf
