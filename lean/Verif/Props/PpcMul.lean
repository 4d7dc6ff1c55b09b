import Verif.Props.PpcRange
import Verif.Proof.PairProduct
/-! # C58: the product of two pairs over the whole range (ppc.rs:276-340) -/

namespace Apf
open Spec IeeeFloat

/-- The multiplication uses the fused multiply-add of the underlying format and inherits its defect: the product of the doubles
`4503599750827286 · 2^-589` and `9007199007827419 · 2^-590`, slightly above the smallest subnormal, panics. -/
theorem C58_mul_panics : ∃ x y : DoubleDouble, x.Valid ∧ y.Valid ∧ x.Canonical ∧ y.Canonical ∧
    x.mulR y .nearestTiesToEven = .error .assert := by
  refine ⟨⟨⟨4503599750827286, -537, .normal, false⟩, ZERO doubleS⟩, ⟨⟨9007199007827419, -538, .normal, false⟩, ZERO doubleS⟩,
    by decide +kernel, by decide +kernel, ?_, ?_, by decide +kernel⟩
  · exact canonical_of_add doubleS_pair (by decide +kernel) (by decide) (st := Status.OK) (by decide +kernel)
  · exact canonical_of_add doubleS_pair (by decide +kernel) (by decide) (st := Status.OK) (by decide +kernel)

/-- Where it does not panic it can be wrong by a factor two: the product of `4503600121197653 · 2^-589` and
`9007198267086787 · 2^-590` is the smallest subnormal up to one part in `2^50`, and the code delivers twice that. -/
theorem C58_mul_wrong : ∃ x y : DoubleDouble, x.Valid ∧ y.Valid ∧ x.Canonical ∧ y.Canonical ∧
    2 ^ (-1074 : ℤ) ≤ x.toRat * y.toRat ∧ x.toRat * y.toRat ≤ (1 + 1 / 2 ^ 50) * 2 ^ (-1074 : ℤ) ∧
    ∃ r, x.mulR y .nearestTiesToEven = .ok r ∧ r.value.toRat = 2 * 2 ^ (-1074 : ℤ) := by
  have e : (⟨⟨4503600121197653, -537, .normal, false⟩, ZERO doubleS⟩ : DoubleDouble).toRat *
      (⟨⟨9007198267086787, -538, .normal, false⟩, ZERO doubleS⟩ : DoubleDouble).toRat =
      (4503600121197653 * 9007198267086787 : ℚ) / 2 ^ 105 * 2 ^ (-1074 : ℤ) := by
    have t1 : (⟨⟨4503600121197653, -537, .normal, false⟩, ZERO doubleS⟩ : DoubleDouble).toRat = 4503600121197653 * 2 ^ (-589 : ℤ) := by
      unfold DoubleFloat.toRat
      rw [toRat_zero (x := ZERO doubleS) rfl, add_zero]
      show signed false (((4503600121197653 : ℕ) : ℚ) * 2 ^ ((-537 : ℤ) - doubleS.precision + 1)) = _
      rw [signed, if_neg (by decide)]
      rfl
    have t2 : (⟨⟨9007198267086787, -538, .normal, false⟩, ZERO doubleS⟩ : DoubleDouble).toRat = 9007198267086787 * 2 ^ (-590 : ℤ) := by
      unfold DoubleFloat.toRat
      rw [toRat_zero (x := ZERO doubleS) rfl, add_zero]
      show signed false (((9007198267086787 : ℕ) : ℚ) * 2 ^ ((-538 : ℤ) - doubleS.precision + 1)) = _
      rw [signed, if_neg (by decide)]
      rfl
    have t3 : (2 : ℚ) ^ (-1074 : ℤ) = 2 ^ 105 * (2 ^ (-589 : ℤ) * 2 ^ (-590 : ℤ)) := by
      rw [← two_zpow_add, show (2 : ℚ) ^ 105 = 2 ^ (105 : ℤ) by norm_cast, ← two_zpow_add]
      rfl
    rw [t1, t2, t3]
    ring
  have hpos := two_zpow_pos (-1074)
  refine ⟨⟨⟨4503600121197653, -537, .normal, false⟩, ZERO doubleS⟩, ⟨⟨9007198267086787, -538, .normal, false⟩, ZERO doubleS⟩,
    by decide +kernel, by decide +kernel, ?_, ?_, ?_, ?_, ⟨{ underflow := true, inexact := true }, ⟨⟨2, -1022, .normal, false⟩, ZERO doubleS⟩⟩,
    by decide +kernel, ?_⟩
  · exact canonical_of_add doubleS_pair (by decide +kernel) (by decide) (st := Status.OK) (by decide +kernel)
  · exact canonical_of_add doubleS_pair (by decide +kernel) (by decide) (st := Status.OK) (by decide +kernel)
  · rw [e]
    exact le_mul_of_one_le_left hpos.le (by norm_num)
  · rw [e]
    exact mul_le_mul_of_nonneg_right (by norm_num) hpos.le
  · unfold DoubleFloat.toRat
    rw [toRat_zero (x := ZERO doubleS) rfl, add_zero]
    show signed false (((2 : ℕ) : ℚ) * 2 ^ ((-1022 : ℤ) - doubleS.precision + 1)) = _
    rw [signed, if_neg (by decide)]
    rfl

variable {S : Sem}

/-- A correctly rounded result of a step, in range or not. -/
theorem rounds_cases (h : S.Pair) {v : ℚ} {zs : Bool} {r : StatusAnd (IeeeFloat S)} (hr : Rounds S .nearestTiesToEven v zs r) :
    r.status.invalidOp = false ∧
      ((|v| < S.fmt.overflowAt ∧ r.value.isFinite = true ∧ RN S.fmt v r.value.toRat ∧ r.status.overflow = false ∧
        (r.status.inexact = false → r.value.toRat = v)) ∨
       (S.fmt.overflowAt ≤ |v| ∧ r.value.category = .infinity ∧ r.value.sign = decide (v < 0) ∧
        r.status = { overflow := true, inexact := true })) := by
  obtain ⟨⟨g, g1, g2⟩, r4⟩ := hr
  have hr := rounded_in_range h.ok h.ieee g1
  rcases g2 with ⟨k, g2, g3⟩ | ⟨k, g2⟩
  · have hf : r.value.isFinite = true := by
      rw [isFinite_iff]
      unfold datum at g2
      cases c : r.value.category <;> rw [c] at g2 <;> simp_all
    rw [datum_finite hf] at g2
    injection g2 with _ g2
    subst g2
    refine ⟨by rw [g3], Or.inl ⟨hr.1 k, hf, g1, by rw [g3], fun hh => ?_⟩⟩
    rw [g3] at hh
    simpa using hh
  · have hge : S.fmt.overflowAt ≤ |v| := by
      by_contra hcon
      push Not at hcon
      have := hr.2 hcon
      linarith
    have hi : S.fmt.hasInf = true := by simp [Sem.fmt, h.ieee]
    simp only [overflowed, hi, if_true, Prod.mk.injEq] at g2
    have ci : r.value.category = .infinity := by
      have := g2.1
      unfold datum at this
      cases c : r.value.category <;> rw [c] at this <;> simp_all
    have hL := largest_lt_overflowAt h
    have hLp := largest_pos h.ok
    have hv : v ≠ 0 := by
      intro e; rw [e, abs_zero] at hge; linarith
    refine ⟨by rw [g2.2], Or.inr ⟨hge, ci, ?_, g2.2⟩⟩
    rcases lt_or_gt_of_ne hv with c | c
    · rw [r4.2.1 c]; simp [c]
    · rw [r4.1 c]; simp [not_lt.2 c.le]

/-- A step whose exact value is below the overflow threshold. -/
theorem rounds_small (h : S.Pair) {v : ℚ} {zs : Bool} {r : StatusAnd (IeeeFloat S)} (hr : Rounds S .nearestTiesToEven v zs r) (hv : |v| ≤ S.fmt.largest) :
    r.value.isFinite = true ∧ RN S.fmt v r.value.toRat ∧ r.status.invalidOp = false ∧ r.status.overflow = false ∧
      (r.status.inexact = false → r.value.toRat = v) := by
  obtain ⟨r1, r2 | ⟨r2, -⟩⟩ := rounds_cases h hr
  · exact ⟨r2.2.1, r2.2.2.1, r1, r2.2.2.2⟩
  · have := largest_lt_overflowAt h
    linarith

theorem sign_eq_of_close {v v' : ℚ} (h : |v - v'| < |v|) : decide (v < 0) = decide (v' < 0) := by
  rcases lt_trichotomy v 0 with c | c | c
  · rw [abs_of_neg c] at h
    have := (abs_lt.1 h).1
    simp only [c, decide_true]; symm; simp; linarith
  · rw [c, abs_zero] at h; exact absurd h (not_lt.2 (abs_nonneg _))
  · rw [abs_of_pos c] at h
    have := (abs_lt.1 h).2
    have h1 : ¬ v < 0 := not_lt.2 c.le
    have h2 : ¬ v' < 0 := by linarith
    simp [h1, h2]

/-- The outcome of a product of exact value `v` that overflows: the infinity of the right sign, flagged, and `v` is within two units in
the last place of the largest number of the format of the parts, or above it. -/
def PairProductOverflow (S : Sem) (v : ℚ) (r : StatusAnd (DoubleFloat S)) : Prop :=
  r.value.hi.category = .infinity ∧ r.value.hi.sign = decide (v < 0) ∧ r.value.lo = ZERO S ∧
    r.status.overflow = true ∧ r.status.inexact = true ∧ S.fmt.largest * (1 - 2 * 2 ^ (-(S.precision : ℤ))) ≤ |v|

set_option maxHeartbeats 2000000 in
/-- **C58.** In the default rounding mode, over the whole range: unless the operands run into the defect of the fused multiply-add, the
product of canonical pairs is a canonical pair whose error is at most ten times the relative unit `2^(-2p)` plus two units of the
smallest subnormal, or — only when the exact product is at the end of the range — the infinity of its sign, flagged.  The product of two
plain numbers is exact whenever it is a multiple of the smallest subnormal, and so is every product without INEXACT flag up to
the product of the low parts, which the code neglects. -/
theorem C58_mul_range_partial (h : S.Pair) (hp : 4 ≤ S.precision) {x y : DoubleFloat S} (hx : x.Valid) (cx : x.Canonical) (hy : y.Valid) (cy : y.Canonical)
    (hE : ∀ t, IsRounded S.fmt .nearestTiesToEven (x.hi.toRat * y.hi.toRat) t → ¬ FmaWrong S .nearestTiesToEven (x.hi.toRat * y.hi.toRat) (-t)) :
    ∃ r, x.mulR y .nearestTiesToEven = .ok r ∧ r.value.Valid ∧
      (PairProductOverflow S (x.toRat * y.toRat) r ∨
       (r.value.Canonical ∧ r.status.overflow = false ∧ r.status.invalidOp = false ∧
        |r.value.toRat - x.toRat * y.toRat| ≤ 10 * 2 ^ (-2 * (S.precision : ℤ)) * |x.toRat * y.toRat| + 2 * 2 ^ (S.minExp - S.precision + 1) ∧
        (x.lo.toRat = 0 → y.lo.toRat = 0 → (∃ n : ℤ, x.toRat * y.toRat = n * 2 ^ (S.minExp - S.precision + 1)) → r.value.toRat = x.toRat * y.toRat) ∧
        (r.status.inexact = false → r.value.toRat = x.toRat * y.toRat - x.lo.toRat * y.lo.toRat))) := by
  have hok := h.ok
  have hpm := hok.p_max; have hmin := hok.min_lt
  have hfp : S.fmt.p = S.precision := rfl
  have hfe : S.fmt.emin = S.minExp := rfl
  have dir : ∀ v, DirectedOK S .nearestTiesToEven v := fun v => directedOK_of_mode _ (by decide) (by decide) _
  have zero : ∀ {x : DoubleFloat S}, x.Valid → x.Canonical → x.hi.category = .zero → x.toRat = 0 ∧ x.lo.toRat = 0 := by
    intro x hx cx c
    have h0 := toRat_zero c
    have h1 := Canonical.low_zero hok hx cx h0
    refine ⟨?_, h1⟩
    unfold DoubleFloat.toRat
    rw [h0, h1, add_zero]
  have η0 := two_zpow_pos (S.minExp - S.precision + 1)
  have triv : ∀ v : ℚ, 0 ≤ 10 * 2 ^ (-2 * (S.precision : ℤ)) * |v| + 2 * 2 ^ (S.minExp - S.precision + 1) := by
    intro v; have := two_zpow_pos (-2 * (S.precision : ℤ)); positivity
  rcases isFinite_iff.1 cx.1.1 with c1 | c1
  swap
  · obtain ⟨e1, e2⟩ := zero hx cx c1
    refine ⟨Status.OK.and x, ?_, hx, Or.inr ⟨cx, rfl, rfl, ?_, ?_, ?_⟩⟩
    · unfold DoubleFloat.mulR DoubleFloat.category
      rcases isFinite_iff.1 cy.1.1 with c2 | c2 <;> simp only [c1, c2]
    · show |x.toRat - _| ≤ _
      rw [e1, zero_mul, sub_self, abs_zero]; simpa using triv 0
    · intro _ _ _; show x.toRat = _; rw [e1, zero_mul]
    · intro _; show x.toRat = _; rw [e1, e2, zero_mul, zero_mul, sub_self]
  rcases isFinite_iff.1 cy.1.1 with c2 | c2
  swap
  · obtain ⟨e1, e2⟩ := zero hy cy c2
    refine ⟨Status.OK.and y, ?_, hy, Or.inr ⟨cy, rfl, rfl, ?_, ?_, ?_⟩⟩
    · unfold DoubleFloat.mulR DoubleFloat.category
      simp only [c1, c2]
    · show |y.toRat - _| ≤ _
      rw [e1, mul_zero, sub_self, abs_zero]; simpa using triv 0
    · intro _ _ _; show y.toRat = _; rw [e1, mul_zero]
    · intro _; show y.toRat = _; rw [e1, e2, mul_zero, mul_zero, sub_self]
  have g1 := grid_toRat hok hx.1 cx.1.1
  have g2 := grid_toRat hok hx.2 cx.1.2
  have g3 := grid_toRat hok hy.1 cy.1.1
  have g4 := grid_toRat hok hy.2 cy.1.2
  -- the rounded values of the steps
  obtain ⟨t0, ht0⟩ := exists_rounded (F := S.fmt) (by omega) .nearestTiesToEven (x.hi.toRat * y.hi.toRat)
  obtain ⟨tau0, htau0⟩ := exists_rounded (F := S.fmt) (by omega) .nearestTiesToEven (x.hi.toRat * y.hi.toRat - t0)
  obtain ⟨v10, hv10⟩ := exists_rounded (F := S.fmt) (by omega) .nearestTiesToEven (x.hi.toRat * y.lo.toRat)
  obtain ⟨v20, hv20⟩ := exists_rounded (F := S.fmt) (by omega) .nearestTiesToEven (x.lo.toRat * y.hi.toRat)
  obtain ⟨v0, hv0⟩ := exists_rounded (F := S.fmt) (by omega) .nearestTiesToEven (v10 + v20)
  obtain ⟨w0, hw0⟩ := exists_rounded (F := S.fmt) (by omega) .nearestTiesToEven (tau0 + v0)
  obtain ⟨B, hM⟩ : ∃ B : ℚ, B = max |x.hi.toRat * y.hi.toRat| (2 ^ S.minExp) := ⟨_, rfl⟩
  have hM1 : |x.hi.toRat * y.hi.toRat| ≤ B := hM ▸ le_max_left _ _
  have hM2 : 2 ^ S.minExp ≤ B := hM ▸ le_max_right _ _
  obtain ⟨p1, p2, p3, p4, p5, p6, p7, p8, p9, p10, p11⟩ :=
    pair_product (by omega) g1 g2 g3 g4 cx.2 cy.2 ht0 htau0 hv10 hv20 hv0 hw0 hM1 hM2
  have exy : (x.hi.toRat + x.lo.toRat) * (y.hi.toRat + y.lo.toRat) = x.toRat * y.toRat := rfl
  rw [exy] at p11
  have pd : |x.hi.toRat * y.hi.toRat - x.toRat * y.toRat| ≤ (2 + 1 / 16) * 2 ^ (-(S.fmt.p : ℤ)) * |x.hi.toRat * y.hi.toRat| := by
    have e : x.hi.toRat * y.hi.toRat - x.toRat * y.toRat = -(x.hi.toRat * y.lo.toRat + x.lo.toRat * y.hi.toRat + x.lo.toRat * y.lo.toRat) := by
      rw [← exy]; ring
    rw [e, abs_neg]
    exact ((abs_add_le _ _).trans (add_le_add_left (abs_add_le _ _) _)).trans p10
  -- the constants of the range
  obtain ⟨D, hD⟩ : ∃ D : ℚ, D = 2 ^ (S.maxExp + 1) := ⟨_, rfl⟩
  obtain ⟨u, hu⟩ : ∃ u : ℚ, u = 2 ^ (-(S.precision : ℤ)) := ⟨_, rfl⟩
  have D0 : 0 < D := hD ▸ two_zpow_pos _
  have u0 : 0 < u := hu ▸ two_zpow_pos _
  have u1 : u ≤ 1 / 16 := by
    have : (2 : ℚ) ^ (-(S.precision : ℤ)) ≤ 2 ^ (-4 : ℤ) := two_zpow_le (by omega)
    rw [hu]; norm_num at this ⊢
    exact this
  have hlar : S.fmt.largest = D * (1 - u) := by
    rw [largest_ieee h.ieee, hD, hu, mul_sub, mul_one, ← two_zpow_add]; congr 2; ring
  have hov : S.fmt.overflowAt = D * (1 - u / 2) := by
    have : S.fmt.overflowAt = 2 ^ (S.maxExp + 1) - 2 ^ (S.maxExp - S.precision) := rfl
    rw [this, hD, hu, mul_sub, mul_one]
    congr 1
    rw [show S.maxExp - (S.precision : ℤ) = (S.maxExp + 1 + -(S.precision : ℤ)) + (-1) by ring, two_zpow_add, two_zpow_add]
    norm_num; ring
  have hηD : 4 * (2 : ℚ) ^ (S.minExp - S.precision) ≤ u ^ 2 * D := by
    rw [hu, hD, show (4 : ℚ) = 2 ^ (2 : ℤ) by norm_num, ← two_zpow_add, ← zpow_natCast, ← zpow_mul, ← two_zpow_add]
    exact two_zpow_le (by push_cast; omega)
  have hminD : (2 : ℚ) ^ S.minExp ≤ D / 16 := by
    have : (2 : ℚ) ^ S.minExp ≤ 2 ^ (S.maxExp + 1 + (-4)) := two_zpow_le (by omega)
    rw [two_zpow_add (S.maxExp + 1) (-4), ← hD] at this
    norm_num at this ⊢; linarith
  have uD : u * D ≤ D / 16 := by
    have := mul_le_mul_of_nonneg_right u1 D0.le; linarith
  have hlarD : 15 / 16 * D ≤ S.fmt.largest := by rw [hlar]; linarith
  have u2 : u ^ 2 = 2 ^ (-2 * (S.precision : ℤ)) := by
    rw [hu, ← zpow_natCast, ← zpow_mul]; congr 1; push_cast; ring
  have hηη : 4 * (2 : ℚ) ^ (S.minExp - S.precision) = 2 * 2 ^ (S.minExp - S.precision + 1) := by
    rw [two_zpow_add (S.minExp - S.precision) 1, zpow_one]; ring
  rw [hfp, hfe, ← hu] at p11
  rw [hfp, ← hu] at pd
  unfold PairProductOverflow
  rw [← u2, ← hηη, ← hu]
  unfold DoubleFloat.mulR DoubleFloat.category
  simp only [c1, c2]
  -- t = a * c
  obtain ⟨t, t1, t2, t3⟩ := mulR_finite hok hx.1 hy.1 cx.1.1 cy.1.1 .nearestTiesToEven (dir _)
  obtain ⟨ti, ⟨tl, tf, tr, tov, tx⟩ | ⟨tl, tc, ts, tst⟩⟩ := rounds_cases h t3
  swap
  · -- the product of the leading parts overflows
    rw [t1, M.ok_bind]
    try dsimp only
    rw [if_pos (by simp [isFiniteNonZero, isFinite, isNan, isInfinite, tc])]
    refine ⟨_, rfl, ⟨t2, zero_valid⟩, Or.inl ⟨tc, ?_, rfl, ?_, ?_, ?_⟩⟩
    · show t.value.sign = _
      rw [ts]
      apply sign_eq_of_close
      refine pd.trans_lt ?_
      have hP : 0 < |x.hi.toRat * y.hi.toRat| := by
        refine lt_of_lt_of_le ?_ tl
        rw [hov]; exact mul_pos D0 (by linarith)
      have := mul_le_mul_of_nonneg_right u1 hP.le
      linarith
    · simp [Status.and, or_overflow, tst]
    · simp [Status.and, or_inexact, tst]
    · rw [hov] at tl
      rw [hlar]
      have h1 : |x.hi.toRat * y.hi.toRat| ≤ |x.toRat * y.toRat| + |x.hi.toRat * y.hi.toRat - x.toRat * y.toRat| := by
        have := abs_add_le (x.toRat * y.toRat) (x.hi.toRat * y.hi.toRat - x.toRat * y.toRat)
        rwa [add_sub_cancel] at this
      have h2 : |x.hi.toRat * y.hi.toRat| * (1 - (2 + 1 / 16) * u) ≤ |x.toRat * y.toRat| := by linarith
      have h3 : D * (1 - u / 2) * (1 - (2 + 1 / 16) * u) ≤ |x.hi.toRat * y.hi.toRat| * (1 - (2 + 1 / 16) * u) :=
        mul_le_mul_of_nonneg_right tl (by linarith)
      have h4 : D * (1 - u) * (1 - 2 * u) ≤ D * (1 - u / 2) * (1 - (2 + 1 / 16) * u) := by
        have : D * (1 - u / 2) * (1 - (2 + 1 / 16) * u) - D * (1 - u) * (1 - 2 * u) = D * u * (7 / 16 - 31 / 32 * u) := by ring
        have := mul_nonneg (mul_nonneg D0.le u0.le) (by linarith : (0 : ℚ) ≤ 7 / 16 - 31 / 32 * u)
        linarith
      linarith
  have et := tr.unique ht0
  rw [t1, M.ok_bind]
  try dsimp only
  rcases isFinite_iff.1 tf with ct | ct
  swap
  · -- it underflows to zero
    have tz := toRat_zero ct
    rw [if_pos (by simp [isFiniteNonZero, isFinite, isNan, isInfinite, isZero, ct])]
    have hne : x.hi.toRat * y.hi.toRat ≠ 0 := mul_ne_zero (toRat_ne_zero hx.1 c1) (toRat_ne_zero hy.1 c2)
    refine ⟨_, rfl, ⟨t2, zero_valid⟩, Or.inr ⟨⟨⟨tf, rfl⟩, ?_⟩, ?_, ?_, ?_, ?_, ?_⟩⟩
    · show RN S.fmt (t.value.toRat + (ZERO S).toRat) t.value.toRat
      rw [tz, toRat_zero (x := ZERO S) rfl, add_zero]
      exact isRounded_self _ grid_zero
    · simp [Status.and, or_overflow, tov, ok_overflow]
    · simp [Status.and, or_invalidOp, ti, ok_invalidOp]
    · show |t.value.toRat + (ZERO S).toRat - _| ≤ _
      rw [tz, toRat_zero (x := ZERO S) rfl, add_zero, zero_sub, abs_neg]
      have hη := two_zpow_pos (S.minExp - S.precision)
      have h1 : |x.toRat * y.toRat| ≤ |x.hi.toRat * y.hi.toRat| + |x.hi.toRat * y.hi.toRat - x.toRat * y.toRat| := by
        have := abs_sub (x.hi.toRat * y.hi.toRat) (x.hi.toRat * y.hi.toRat - x.toRat * y.toRat)
        rwa [sub_sub_cancel] at this
      have h2 := mul_le_mul_of_nonneg_right u1 (abs_nonneg (x.hi.toRat * y.hi.toRat))
      have h3 : 0 ≤ 10 * u ^ 2 * |x.toRat * y.toRat| := by positivity
      have h4 : |x.hi.toRat * y.hi.toRat| ≤ 2 ^ (S.minExp - S.precision) := by
        rcases tr.err (by omega) with e | e
        · rw [tz, sub_zero] at e; exact e
        · rw [tz, sub_zero, hfp, ← hu] at e
          have := abs_nonneg (x.hi.toRat * y.hi.toRat)
          linarith
      linarith
    · rintro z1 z2 ⟨n, hn⟩
      exfalso
      have e1 : x.toRat * y.toRat = x.hi.toRat * y.hi.toRat := by
        unfold DoubleFloat.toRat; rw [z1, z2, add_zero, add_zero]
      rw [e1] at hn
      have := RN.rel (by omega) tr ⟨n, hn⟩
      rw [tz, sub_zero, hfp, ← hu] at this
      have h2 := abs_pos.2 hne
      have := mul_le_mul_of_nonneg_right u1 h2.le
      linarith
    · intro hh
      simp only [Status.and, or_inexact, Bool.or_eq_false_iff] at hh
      exact absurd ((tx hh.2).symm.trans tz) hne
  rw [if_neg (by rw [(isFiniteNonZero_iff _).2 ct]; decide)]
  have hMD : B ≤ D := by
    rw [hM]
    refine max_le ?_ (by linarith)
    rw [hov] at tl
    have := mul_pos D0 u0
    linarith
  -- tau
  have hE' := hE t0 ht0
  rw [← et, ← neg_toRat] at hE'
  obtain ⟨tau, f1, f2, f3⟩ := mulAddR_exact hok hx.1 hy.1 (neg_valid t2) cx.1.1 cy.1.1 (by rw [neg_finite]; exact tf) .nearestTiesToEven (.of (dir _)) hE'
  have ev : x.hi.toRat * y.hi.toRat + t.value.neg.toRat = x.hi.toRat * y.hi.toRat - t0 := by rw [neg_toRat, et]; ring
  rw [ev] at f3
  obtain ⟨f4, f5, f6, f7, f8⟩ := rounds_small h f3 (by linarith)
  have e0 := f5.unique htau0
  rw [e0] at f8
  rw [f1, M.ok_bind]
  try dsimp only
  -- v, w
  obtain ⟨v1, q1, q2, q3⟩ := mulR_finite hok hx.1 hy.2 cx.1.1 cy.1.2 .nearestTiesToEven (dir _)
  obtain ⟨q4, q5, q6, q7, q8⟩ := rounds_small h q3 (by linarith)
  have e1 := q5.unique hv10
  rw [e1] at q8
  rw [q1, M.ok_bind]
  try dsimp only
  obtain ⟨v2, r1, r2, r3⟩ := mulR_finite hok hx.2 hy.1 cx.1.2 cy.1.1 .nearestTiesToEven (dir _)
  obtain ⟨r4, r5, r6, r7, r8⟩ := rounds_small h r3 (by linarith)
  have e2 := r5.unique hv20
  rw [e2] at r8
  rw [r1, M.ok_bind]
  try dsimp only
  obtain ⟨v, s1, s2, s3⟩ := addR_finite hok q2 r2 q4 r4 .nearestTiesToEven (dir _)
  rw [e1, e2] at s3
  obtain ⟨s4, s5, s6, s7, s8⟩ := rounds_small h s3 ((abs_add_le _ _).trans (by linarith))
  have e3 := s5.unique hv0
  rw [e3] at s8
  rw [s1, M.ok_bind]
  try dsimp only
  obtain ⟨w, w1, w2, w3⟩ := addR_finite hok f2 s2 f4 s4 .nearestTiesToEven (dir _)
  rw [e0, e3] at w3
  obtain ⟨w4, w5, w6, w7, w8⟩ := rounds_small h w3 ((abs_add_le _ _).trans (by linarith))
  have e4 := w5.unique hw0
  rw [e4] at w8
  rw [w1, M.ok_bind]
  try dsimp only
  obtain ⟨s, a1, a2, a3⟩ := addR_finite hok t2 w2 tf w4 .nearestTiesToEven (dir _)
  rw [a1, M.ok_bind]
  try dsimp only
  obtain ⟨si, ⟨sl, sf, sr, so, sx⟩ | ⟨sl, sc, ss, sst⟩⟩ := rounds_cases h a3
  swap
  · -- the final sum overflows
    rw [if_pos (by simp [isFinite, isNan, isInfinite, sc])]
    rw [et, e4] at sl ss
    rw [hov] at sl
    have h1 : |t0 + w0| ≤ |x.toRat * y.toRat| + |t0 + w0 - x.toRat * y.toRat| := by
      have := abs_add_le (x.toRat * y.toRat) (t0 + w0 - x.toRat * y.toRat)
      rwa [add_sub_cancel] at this
    have hX : D * (1 - u) * (1 - 2 * u) ≤ |x.toRat * y.toRat| := by
      by_contra hc
      push Not at hc
      have h2 : 10 * u ^ 2 * |x.toRat * y.toRat| ≤ 10 * u ^ 2 * (D * (1 - u) * (1 - 2 * u)) := mul_le_mul_of_nonneg_left hc.le (by positivity)
      have h3 : D * (1 - u / 2) - D * (1 - u) * (1 - 2 * u) - 10 * u ^ 2 * (D * (1 - u) * (1 - 2 * u)) - u ^ 2 * D =
          D * u * (5 / 2 - 13 * u + 30 * u ^ 2 - 20 * u ^ 3) := by ring
      have h4 : 0 ≤ D * u * (5 / 2 - 13 * u + 30 * u ^ 2 - 20 * u ^ 3) := by
        apply mul_nonneg (mul_nonneg D0.le u0.le)
        have : u ^ 3 ≤ u ^ 2 * (1 / 16) := by
          rw [pow_succ]; exact mul_le_mul_of_nonneg_left u1 (by positivity)
        have : 0 ≤ u ^ 2 := by positivity
        linarith
      linarith
    refine ⟨_, rfl, ⟨a2, zero_valid⟩, Or.inl ⟨sc, ?_, rfl, ?_, ?_, ?_⟩⟩
    · show s.value.sign = _
      rw [ss]
      symm
      apply sign_eq_of_close
      rw [abs_sub_comm]
      refine p11.trans_lt ?_
      have h5 : u ^ 2 ≤ 1 / 256 := by
        have := mul_le_mul u1 u1 u0.le (by norm_num)
        rw [sq]; linarith
      have h6 := mul_le_mul_of_nonneg_right h5 (abs_nonneg (x.toRat * y.toRat))
      have h7 := mul_le_mul_of_nonneg_right h5 D0.le
      have h8 : D * (15 / 16) * (14 / 16) ≤ D * (1 - u) * (1 - 2 * u) :=
        mul_le_mul (mul_le_mul_of_nonneg_left (by linarith) D0.le) (by linarith) (by norm_num) (mul_nonneg D0.le (by linarith))
      linarith
    · simp [Status.and, or_overflow, sst]
    · simp [Status.and, or_inexact, sst]
    · rw [hlar]; exact hX
  rw [if_neg (by rw [sf]; decide)]
  have gt := grid_toRat hok t2 tf
  have gw := grid_toRat hok w2 w4
  have gs := grid_toRat hok a2 sf
  have k1 : S.fmt.Grid (t.value.toRat - s.value.toRat) := by
    rcases le_or_gt (2 ^ S.fmt.emin) |x.hi.toRat * y.hi.toRat| with c | c
    · exact fast_sum (by omega) gt gw (Or.inr (by rw [et, e4]; exact p9 c)) sr
    · have hMe : B = 2 ^ S.fmt.emin := by rw [hM]; exact max_eq_right c.le
      have gx : S.fmt.Grid (t.value.toRat + w.value.toRat) := by
        apply sum_small (by omega) gt gw
        rw [show (S.fmt.p : ℤ) + (S.fmt.emin - S.fmt.p + 1) = S.fmt.emin + 1 by ring, two_zpow_add, zpow_one]
        refine (abs_add_le _ _).trans ?_
        have b1 : |t.value.toRat| ≤ 2 ^ S.fmt.emin := RN.abs_le tr (grid_two_pow (by omega) (by omega)) c.le
        have := two_zpow_pos S.fmt.emin
        rw [e4]
        rw [hMe] at p8
        linarith
      rw [sr.exact gx]
      rw [sub_add_cancel_left]
      exact gw.neg
  have k2 := sum_residual (by omega) gt gw sr
  have rs := sr.rel (by omega) ((mult_of_grid gt).add (mult_of_grid gw))
  rw [hfp, ← hu] at rs
  have btw : |t.value.toRat + w.value.toRat| ≤ 2 * D := by
    rw [hov] at sl
    have := mul_pos D0 u0
    linarith
  have rs2 : |t.value.toRat + w.value.toRat - s.value.toRat| ≤ D / 8 := by
    refine rs.trans ?_
    have := mul_le_mul u1 btw (abs_nonneg _) (by norm_num)
    linarith
  have ew : |w.value.toRat| ≤ 3 * B / 4 := by rw [e4]; exact p8
  obtain ⟨l, l1, l2, li, lo, l3, l4⟩ := sub_cases_exact h t2 tf a2 sf k1 (by
    rw [← hD]
    have : t.value.toRat - s.value.toRat = (t.value.toRat + w.value.toRat - s.value.toRat) - w.value.toRat := by ring
    rw [this]
    refine (abs_sub _ _).trans_lt ?_
    linarith)
  rw [l1, M.ok_bind]
  try dsimp only
  have lv : l.value.toRat + w.value.toRat = t.value.toRat + w.value.toRat - s.value.toRat := by rw [l4]; ring
  obtain ⟨l', j1, j2, ji, jo, j3, j4⟩ := add_cases_exact h l2 l3 w2 w4 (by rw [lv]; exact k2) (by rw [lv, ← hD]; linarith)
  rw [j1, M.ok_bind]
  have vv : (⟨s.value, l'.value⟩ : DoubleFloat S).toRat = t0 + w0 := by
    unfold DoubleFloat.toRat
    rw [j4, lv, ← et, ← e4]; ring
  refine ⟨_, rfl, ⟨a2, j2⟩, Or.inr ⟨⟨⟨sf, j3⟩, ?_⟩, ?_, ?_, ?_, ?_, ?_⟩⟩
  · show IsRounded S.fmt .nearestTiesToEven (⟨s.value, l'.value⟩ : DoubleFloat S).toRat s.value.toRat
    rw [vv, ← et, ← e4]
    exact sr
  · simp [Status.and, or_overflow, ok_overflow, tov, f7, q7, r7, s7, w7, so, lo, jo]
  · simp [Status.and, or_invalidOp, ok_invalidOp, ti, f6, q6, r6, s6, w6, si, li, ji]
  · show |(⟨s.value, l'.value⟩ : DoubleFloat S).toRat - _| ≤ _
    rw [vv]
    exact p11
  · rintro z1 z2 ⟨n, hn⟩
    show (⟨s.value, l'.value⟩ : DoubleFloat S).toRat = _
    have ex : x.toRat * y.toRat = x.hi.toRat * y.hi.toRat := by
      unfold DoubleFloat.toRat; rw [z1, z2, add_zero, add_zero]
    rw [ex] at hn
    rw [vv, ex]
    rw [z2, mul_zero] at hv10
    rw [z1, zero_mul] at hv20
    rw [RN.exact hv10 grid_zero, RN.exact hv20 grid_zero, add_zero] at hv0
    rw [RN.exact hv0 grid_zero, add_zero] at hw0
    rw [RN.exact hw0 htau0.1, RN.exact htau0 (product_residual (by omega) g1 g3 ht0 ⟨n, hn⟩)]
    ring
  · intro hh
    show (⟨s.value, l'.value⟩ : DoubleFloat S).toRat = _
    simp only [Status.and, or_inexact, Bool.or_eq_false_iff] at hh
    obtain ⟨⟨⟨⟨⟨⟨⟨⟨⟨-, b1⟩, b2⟩, b3⟩, b4⟩, b5⟩, b6⟩, -⟩, -⟩, -⟩ := hh
    have y1 := tx b1
    rw [et] at y1
    rw [vv, w8 b6, f8 b2, s8 b5, q8 b3, r8 b4, ← exy]
    ring

/-- **C58.** For a product in the normal range, clear of both ends, no defect and no overflow is possible. -/
theorem C58_mul_in_range_partial (h : S.Pair) (hp : 4 ≤ S.precision) {x y : DoubleFloat S} (hx : x.Valid) (cx : x.Canonical) (hy : y.Valid) (cy : y.Canonical)
    (b1 : 2 ^ (S.minExp + 1) ≤ |x.toRat * y.toRat|) (b2 : |x.toRat * y.toRat| < S.fmt.largest * (1 - 2 * 2 ^ (-(S.precision : ℤ)))) :
    ∃ r, x.mulR y .nearestTiesToEven = .ok r ∧ r.value.Valid ∧ r.value.Canonical ∧ r.status.overflow = false ∧ r.status.invalidOp = false ∧
      |r.value.toRat - x.toRat * y.toRat| ≤ 10 * 2 ^ (-2 * (S.precision : ℤ)) * |x.toRat * y.toRat| + 2 * 2 ^ (S.minExp - S.precision + 1) ∧
      (r.status.inexact = false → r.value.toRat = x.toRat * y.toRat - x.lo.toRat * y.lo.toRat) := by
  have hfp : S.fmt.p = S.precision := rfl
  have lx := low_sixteenth h.ok hp hx cx
  have ly := low_sixteenth h.ok hp hy cy
  have hP : (2 : ℚ) ^ S.minExp ≤ |x.hi.toRat * y.hi.toRat| := by
    have t1 : |x.toRat| ≤ 17 / 16 * |x.hi.toRat| := (abs_add_le _ _).trans (by linarith)
    have t2 : |y.toRat| ≤ 17 / 16 * |y.hi.toRat| := (abs_add_le _ _).trans (by linarith)
    have t3 : |x.toRat| * |y.toRat| ≤ (17 / 16 * |x.hi.toRat|) * (17 / 16 * |y.hi.toRat|) := mul_le_mul t1 t2 (abs_nonneg _) (by positivity)
    have t4 : (2 : ℚ) ^ (S.minExp + 1) = 2 * 2 ^ S.minExp := by rw [two_zpow_add S.minExp 1, zpow_one]; ring
    have t5 : 0 ≤ |x.hi.toRat| * |y.hi.toRat| := by positivity
    rw [abs_mul] at b1 ⊢
    linarith
  obtain ⟨r, r1, r2, r3⟩ := C58_mul_range_partial h hp hx cx hy cy (by
    intro t ht
    rintro ⟨⟨-, hlt, -⟩, -⟩
    rw [abs_neg] at hlt
    have := RN.le_abs ht (grid_two_pow (k := S.minExp) (by omega) (by show S.minExp - (S.precision : ℤ) + 1 ≤ S.minExp; omega)) hP
    linarith)
  rcases r3 with r3 | ⟨r3, r4, r5, r6, -, r7⟩
  · have := r3.2.2.2.2.2
    linarith
  · exact ⟨r, r1, r2, r3, r4, r5, r6, r7⟩

/-- Both outcomes occur: the square of the largest pair overflows; the product of 2^-1022 and -3·2^-41 is subnormal and exact. -/
example : ∃ r1 r2 x : DoubleDouble, DoubleFloat.largest doubleS = .ok x ∧
    x.mulR x .nearestTiesToEven = .ok ⟨{ overflow := true, inexact := true }, r1⟩ ∧ r1.hi = IeeeFloat.INFINITY doubleS ∧
    (⟨⟨2 ^ 52, -1022, .normal, false⟩, ZERO doubleS⟩ : DoubleDouble).mulR ⟨⟨3 * 2 ^ 51, -40, .normal, true⟩, ZERO doubleS⟩ .nearestTiesToEven =
      .ok ⟨Status.OK, r2⟩ ∧ r2.hi = ⟨3 * 2 ^ 11, -1022, .normal, true⟩ :=
  ⟨⟨INFINITY doubleS, ZERO doubleS⟩, ⟨⟨3 * 2 ^ 11, -1022, .normal, true⟩, ZERO doubleS⟩,
    ⟨⟨2 ^ 53 - 1, 1023, .normal, false⟩, ⟨2 ^ 53 - 2, 969, .normal, false⟩⟩, by decide +kernel, by decide +kernel, rfl, by decide +kernel, rfl⟩

/-- The status says nothing about exactness here either: `(1 + 2^-60) · (1 - 2^-60)` is delivered as 1 with status OK (the
product of the low parts is neglected), and `3 · (2^53 - 1)`, which is delivered exactly, is flagged INEXACT. -/
theorem C58_status_wrong : ∃ x x' y z : DoubleDouble, x.Valid ∧ x'.Valid ∧ y.Valid ∧ z.Valid ∧ x.Finite ∧ x'.Finite ∧ y.Finite ∧ z.Finite ∧
    (∃ r, x.mulR x' .nearestTiesToEven = .ok ⟨Status.OK, r⟩ ∧ r.toRat ≠ x.toRat * x'.toRat) ∧
    (∃ r, y.mulR z .nearestTiesToEven = .ok ⟨{ inexact := true }, r⟩ ∧ r.toRat = y.toRat * z.toRat) := by
  refine ⟨⟨⟨2 ^ 52, 0, .normal, false⟩, ⟨2 ^ 52, -60, .normal, false⟩⟩, ⟨⟨2 ^ 52, 0, .normal, false⟩, ⟨2 ^ 52, -60, .normal, true⟩⟩, ⟨⟨3 * 2 ^ 51, 1, .normal, false⟩, ZERO doubleS⟩,
    ⟨⟨2 ^ 53 - 1, 52, .normal, false⟩, ZERO doubleS⟩, by decide +kernel, by decide +kernel, by decide +kernel, by decide, by decide +kernel, by decide, by decide, by decide, ?_, ?_⟩
  · refine ⟨⟨⟨2 ^ 52, 0, .normal, false⟩, ZERO doubleS⟩, by decide +kernel, ?_⟩
    norm_num [DoubleFloat.toRat, toRat, signed, doubleS, Sem.default, ZERO]
  · refine ⟨⟨⟨3 * 2 ^ 51 - 1, 54, .normal, false⟩, ⟨2 ^ 52, 0, .normal, false⟩⟩, by decide +kernel, ?_⟩
    norm_num [DoubleFloat.toRat, toRat, signed, doubleS, Sem.default, ZERO]

end Apf
