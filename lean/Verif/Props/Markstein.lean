import Verif.Props.Ties
import Verif.Proof.Markstein
import Verif.Props.ErrorFree
/-!
# C127: quotients corrected with a fused multiply-add

From a quotient next to the exact one and the rounded reciprocal of the divisor, two fused multiply-adds give the correctly rounded quotient (Markstein).
-/

namespace Apf
open Spec IeeeFloat
variable {S : Sem} {F : Fmt}

/-- The correction, on the numbers. -/
theorem markstein (hp : 2 ≤ F.p) {x y r q g : ℚ} (gx : F.Grid x) (gy : F.Grid y) (y0 : y ≠ 0) (hv : 2 ^ F.emin ≤ |x / y|)
    (hlo : 2 ^ (F.emin + F.p + 1) ≤ |x|) (hq : F.NextTo (x / y) q) {m₀ mode : Round} (hm₀ : m₀ = .nearestTiesToEven ∨ m₀ = .nearestTiesToAway)
    (hm : mode = .nearestTiesToEven ∨ mode = .nearestTiesToAway) (hr : IsRounded F m₀ (1 / y) r) (hy : 2 ^ F.emin ≤ |1 / y|)
    (hg : IsRounded F mode (x / y) g) :
    F.Grid (x - q * y) ∧ |x - q * y| ≤ |x| ∧ 2 ^ F.emin ≤ |q| ∧ 0 < x / y * (q + (x - q * y) * r) ∧
      IsRounded F mode (q + (x - q * y) * r) g ∧ (g = q + (x - q * y) * r ↔ g = x / y) := by
  have em : mode.neg = mode := by rcases hm with rfl | rfl <;> rfl
  have em₀ : m₀.neg = m₀ := by rcases hm₀ with rfl | rfl <;> rfl
  wlog hyp : 0 < y generalizing x y r
  · have hr' := hr.neg
    rw [em₀] at hr'
    have := this (x := -x) (y := -y) (r := -r) gx.neg gy.neg (neg_ne_zero.2 y0) (by rwa [neg_div_neg_eq]) (by rwa [abs_neg])
      (by rwa [neg_div_neg_eq]) (by rw [div_neg]; exact hr') (by rwa [div_neg, abs_neg]) (by rwa [neg_div_neg_eq])
      (by rcases lt_or_gt_of_ne y0 with c | c
          · linarith
          · exact absurd c hyp)
    rw [neg_div_neg_eq, show -x - q * -y = -(x - q * y) by ring, abs_neg, abs_neg, show -(x - q * y) * -r = (x - q * y) * r by ring] at this
    exact ⟨by simpa using this.1.neg, this.2⟩
  wlog hxp : 0 < x generalizing x q g
  · have hg' := hg.neg
    rw [em] at hg'
    have x0 : x ≠ 0 := by
      rintro rfl
      rw [abs_zero] at hlo
      exact absurd (two_zpow_pos _) (not_lt.2 hlo)
    have := this (x := -x) (q := -q) (g := -g) gx.neg (by rwa [neg_div, abs_neg]) (by rwa [abs_neg]) (by rw [neg_div]; exact hq.neg)
      (by rw [neg_div]; exact hg')
      (by rcases lt_or_gt_of_ne x0 with c | c
          · linarith
          · exact absurd c hxp)
    rw [show -x - -q * y = -(x - q * y) by ring, show -q + -(x - q * y) * r = -(q + (x - q * y) * r) by ring, neg_div, abs_neg, abs_neg, abs_neg,
      neg_mul_neg, neg_inj, neg_inj] at this
    obtain ⟨a, b, c, d, f, k⟩ := this
    have f' := f.neg
    rw [em, neg_neg, neg_neg] at f'
    exact ⟨by simpa using a.neg, b, c, d, f', k⟩
  rw [abs_of_pos (div_pos hxp hyp)] at hv
  rw [abs_of_pos (div_pos one_pos hyp)] at hy
  rw [abs_of_pos hxp] at hlo
  obtain ⟨a, b, c, d, f, k⟩ := markstein_pos hp gx gy hyp hv hlo hq hm₀ hm hr hy hg (fun n k hn => quotient_ne_odd gx gy y0 hxp.ne' hn)
  refine ⟨a, by rwa [abs_of_pos hxp], c.trans (le_abs_self _), mul_pos (div_pos hxp hyp) d, f, k⟩

/-- A rounded quotient, in any mode, is next to the exact one. -/
theorem IsRounded.nextTo {mode : Round} {v q : ℚ} (h : IsRounded F mode v q) : F.NextTo v q := by
  refine ⟨h.1, fun z gz c => ?_, fun z gz c => ?_, fun g => h.unique (isRounded_self _ g)⟩
  · have := h.ge_of_grid gz c.2.le; linarith [c.1]
  · have := h.le_of_grid gz c.1.le; linarith [c.2]

/-- **C127.** Let `r` be the reciprocal of `y` rounded to nearest and `q` any number next to the exact quotient `x / y` (for instance the quotient rounded in
whatever mode).  Then `e = mul_add(-q, y, x)` is exactly what `q` lacks, and `mul_add(e, r, q)` is the quotient rounded to nearest, bit for bit and flag for flag
what the division delivers.  Dividend, quotient and reciprocal must not be too small. -/
theorem C127_corrected (h : S.OK) {one x y q : IeeeFloat S} (ho : one.Valid) (fo : one.isFinite = true) (o1 : one.toRat = 1)
    (hx : x.Valid) (hy : y.Valid) (hq : q.Valid) (fx : x.isFinite = true) (fy : y.isFinite = true) (fq : q.isFinite = true) (y0 : y.toRat ≠ 0)
    (hlo : 2 ^ (S.minExp + S.precision + 1) ≤ |x.toRat|) (hv : 2 ^ S.minExp ≤ |x.toRat / y.toRat|)
    (hr : 2 ^ S.minExp ≤ |1 / y.toRat|) (hrl : |1 / y.toRat| ≤ S.fmt.largest) (hqn : S.fmt.NextTo (x.toRat / y.toRat) q.toRat)
    {m₀ mode : Round} (hm₀ : m₀ = .nearestTiesToEven ∨ m₀ = .nearestTiesToAway) (hm : mode = .nearestTiesToEven ∨ mode = .nearestTiesToAway) (m₁ : Round)
    (hm₁ : ModeOK S m₁) :
    ∃ r e c d, divR one y m₀ = .ok r ∧ mulAddR q.neg y x m₁ = .ok e ∧ e.status = Status.OK ∧ q.toRat * y.toRat + e.value.toRat = x.toRat ∧
      mulAddR e.value r.value q mode = .ok c ∧ divR x y mode = .ok d ∧ c.value.Valid ∧ d.value.Valid ∧
      c.value.datum = d.value.datum ∧ c.value.sign = d.value.sign ∧ c.status = d.status := by
  have hdo : ∀ {m : Round} v, m = .nearestTiesToEven ∨ m = .nearestTiesToAway → DirectedOK S m v := fun v hm => by
    rcases hm with rfl | rfl <;> simp [DirectedOK]
  have h3 := h.p_ge
  have hp : 2 ≤ S.fmt.p := by show 2 ≤ S.precision; omega
  have gx := grid_toRat h hx fx
  have gy := grid_toRat h hy fy
  obtain ⟨r, r1, r2, ⟨⟨gr, gr1, gr2⟩, -⟩⟩ := C07_div_correctly_rounded h ho hy fo fy y0 m₀ (hdo _ hm₀)
  rw [o1] at gr1
  have gT := grid_largest h
  have hrl' := _root_.abs_le.1 hrl
  have grl : |gr| ≤ S.fmt.largest := _root_.abs_le.2 ⟨gr1.ge_of_grid gT.neg hrl'.1, gr1.le_of_grid gT hrl'.2⟩
  obtain ⟨-, rd, -⟩ := gr2.resolve_right (fun c => absurd grl (not_le.2 c.1))
  obtain ⟨fr, er⟩ := datum_num rd
  obtain ⟨d, d1, d2, ⟨⟨g, g1, g2⟩, gs⟩⟩ := C07_div_correctly_rounded h hx hy fx fy y0 mode (hdo _ hm)
  obtain ⟨a, b, c, f, k, l⟩ := markstein hp gx gy y0 hv hlo hqn hm₀ hm gr1 hr g1
  obtain ⟨e, e1, e2, e3⟩ := mulAddR_eff h (neg_valid hq) hy hx (by rw [neg_finite]; exact fq) fy fx m₁ (.of (ModeOK.directed hm₁ _))
    (fma_not_excluded (Or.inr ((two_zpow_le (by omega)).trans hlo)))
  have ev : q.neg.toRat * y.toRat + x.toRat = x.toRat - q.toRat * y.toRat := by rw [neg_toRat]; ring
  rw [ev] at e3
  obtain ⟨s1, s2, s3⟩ := Rounds.exact e3 a (b.trans (abs_toRat_le h hx fx))
  obtain ⟨w, w1, w2, ⟨⟨g', k1, k2⟩, ks⟩⟩ := mulAddR_eff h e2 r2 hq s2 fr fq mode (.of (hdo _ hm)) (fma_not_excluded (Or.inr c))
  rw [s3, er, add_comm] at k1 k2 ks
  have : g' = g := k1.unique k
  subst this
  have hs : w.value.sign = d.value.sign := by
    rcases lt_trichotomy (x.toRat / y.toRat) 0 with q' | q' | q'
    · rw [gs.2.1 q', ks.2.1 (by by_contra hc; push Not at hc; nlinarith)]
    · rw [q', zero_mul] at f; exact absurd f (lt_irrefl _)
    · rw [gs.1 q', ks.1 (by by_contra hc; push Not at hc; nlinarith)]
  have both : w.value.datum = d.value.datum ∧ w.status = d.status := by
    rw [hs] at k2
    rcases k2 with ⟨c, d, s⟩ | ⟨c, d⟩
    · rcases g2 with ⟨-, d', s'⟩ | ⟨c', -⟩
      · refine ⟨d.trans d'.symm, ?_⟩
        rw [s, s']
        simp only [ne_eq, l]
      · linarith
    · rcases g2 with ⟨c', -⟩ | ⟨-, d'⟩
      · linarith
      · rw [← d'] at d
        exact Prod.mk.inj d
  exact ⟨r, e, w, d, r1, e1, s1, by rw [s3]; ring, w1, d1, w2, d2, both.1, hs, both.2⟩
/-- **C127.** A division carried out in any rounding mode is corrected to the quotient rounded to nearest. -/
theorem C127_any_mode (h : S.OK) {one x y : IeeeFloat S} (ho : one.Valid) (fo : one.isFinite = true) (o1 : one.toRat = 1)
    (hx : x.Valid) (hy : y.Valid) (fx : x.isFinite = true) (fy : y.isFinite = true) (y0 : y.toRat ≠ 0)
    (hlo : 2 ^ (S.minExp + S.precision + 1) ≤ |x.toRat|) (hv : 2 ^ S.minExp ≤ |x.toRat / y.toRat|) (hvl : |x.toRat / y.toRat| ≤ S.fmt.largest)
    (hr : 2 ^ S.minExp ≤ |1 / y.toRat|) (hrl : |1 / y.toRat| ≤ S.fmt.largest)
    {m₀ mode m₁ m₂ : Round} (hm₀ : m₀ = .nearestTiesToEven ∨ m₀ = .nearestTiesToAway) (hm : mode = .nearestTiesToEven ∨ mode = .nearestTiesToAway)
    (hm₁ : ModeOK S m₁) (hm₂ : ModeOK S m₂) :
    ∃ r q e c d, divR one y m₀ = .ok r ∧ divR x y m₂ = .ok q ∧ mulAddR q.value.neg y x m₁ = .ok e ∧ e.status = Status.OK ∧
      q.value.toRat * y.toRat + e.value.toRat = x.toRat ∧ mulAddR e.value r.value q.value mode = .ok c ∧ divR x y mode = .ok d ∧
      c.value.Valid ∧ d.value.Valid ∧ c.value.datum = d.value.datum ∧ c.value.sign = d.value.sign ∧ c.status = d.status := by
  obtain ⟨q, q1, q2, ⟨⟨g, g1, g2⟩, -⟩⟩ := C07_div_correctly_rounded h hx hy fx fy y0 m₂ (ModeOK.directed hm₂ _)
  have gT := grid_largest h
  have hvl' := _root_.abs_le.1 hvl
  have gl : |g| ≤ S.fmt.largest := _root_.abs_le.2 ⟨g1.ge_of_grid gT.neg hvl'.1, g1.le_of_grid gT hvl'.2⟩
  obtain ⟨-, qd, -⟩ := g2.resolve_right (fun c => absurd gl (not_le.2 c.1))
  obtain ⟨fq, eq⟩ := datum_num qd
  obtain ⟨r, e, c, d, t⟩ := C127_corrected h ho fo o1 hx hy q2 fx fy fq y0 hlo hv hr hrl (by rw [eq]; exact IsRounded.nextTo g1) hm₀ hm m₁ hm₁
  exact ⟨r, q, e, c, d, t.1, q1, t.2⟩

/-! Non-vacuity: one third, the quotient 0.33333334 (rounded upwards) and the one below it. -/
example := C127_corrected singleS_ok (one := ⟨8388608, 0, .normal, false⟩) (x := ⟨8388608, 0, .normal, false⟩) (y := ⟨12582912, 1, .normal, false⟩)
  (q := ⟨11184811, -2, .normal, false⟩) (by decide) rfl (by decide +kernel) (by decide) (by decide) (by decide) rfl rfl rfl (by decide +kernel)
  (by decide +kernel) (by decide +kernel) (by decide +kernel) (by decide +kernel) 
  (by
    obtain ⟨q, q1, q2, ⟨⟨g, g1, g2⟩, -⟩⟩ := C07_div_correctly_rounded singleS_ok (x := ⟨8388608, 0, .normal, false⟩) (y := ⟨12582912, 1, .normal, false⟩)
      (by decide) (by decide) rfl rfl (by decide +kernel) .towardPositive (ModeOK.directed (by unfold ModeOK; decide) _)
    have hq : divR (S := singleS) ⟨8388608, 0, .normal, false⟩ ⟨12582912, 1, .normal, false⟩ .towardPositive =
      .ok ⟨{ inexact := true }, ⟨11184811, -2, .normal, false⟩⟩ := by decide +kernel
    cases q1.symm.trans hq
    obtain ⟨-, d, -⟩ := g2.resolve_right (fun c => absurd (congrArg Prod.fst c.2) (by simp only [overflowed, IeeeFloat.datum]; simp; split <;> simp))
    rw [(datum_num d).2]
    exact IsRounded.nextTo g1)
  (Or.inl rfl) (Or.inl rfl) .towardZero (by unfold ModeOK; decide)
example := C127_any_mode singleS_ok (one := ⟨8388608, 0, .normal, false⟩) (x := ⟨8388609, 5, .normal, true⟩) (y := ⟨12582912, 1, .normal, false⟩)
  (m₂ := .towardNegative) (m₁ := .towardZero) (by decide) rfl (by decide +kernel) (by decide) (by decide) rfl rfl (by decide +kernel)
  (by decide +kernel) (by decide +kernel) (by decide +kernel) (by decide +kernel) (by decide +kernel) (Or.inl rfl) (Or.inr rfl) (by unfold ModeOK; decide) (by unfold ModeOK; decide)

/-- **C127.** The dividend must not be too small: near the bottom of the range what the quotient lacks need not be a number, and the corrected quotient may
be the wrong neighbour of the exact one. -/
theorem C127_small_dividend : ∃ x y q e r c d : IeeeFloat halfS, x.Valid ∧ y.Valid ∧ 2 ^ halfS.minExp ≤ x.toRat / y.toRat ∧ 2 ^ halfS.minExp ≤ 1 / y.toRat ∧
    divR x y .towardPositive = .ok ⟨{ inexact := true }, q⟩ ∧ mulAddR q.neg y x .nearestTiesToEven = .ok ⟨{ inexact := true, underflow := true }, e⟩ ∧
    divR ⟨1024, 0, .normal, false⟩ y .nearestTiesToEven = .ok ⟨{ inexact := true }, r⟩ ∧
    mulAddR e r q .nearestTiesToEven = .ok ⟨{ inexact := true }, c⟩ ∧ divR x y .nearestTiesToEven = .ok ⟨{ inexact := true }, d⟩ ∧ c.toRat ≠ d.toRat := by
  refine ⟨⟨1496, -5, .normal, false⟩, ⟨1311, 3, .normal, false⟩, ⟨1169, -8, .normal, false⟩, ⟨328, -14, .normal, true⟩,
    ⟨1600, -4, .normal, false⟩, ⟨1168, -8, .normal, false⟩, ⟨1169, -8, .normal, false⟩, ?_⟩
  decide +kernel

end Apf
