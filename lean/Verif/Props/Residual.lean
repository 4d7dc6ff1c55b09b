import Verif.Props.Markstein
import Verif.Props.PpcOps
import Verif.Props.Next
/-!
# C128: which way an operation rounded, told by a fused multiply-add

The residual of a product or quotient is looked at only through its category, sign bit and status; from it the results of the directed modes are known.
-/

namespace Apf
open Spec IeeeFloat
variable {S : Sem}

/-- A rounded value is a zero without flags exactly when the exact one is zero, and otherwise its sign bit is that of the exact one. -/
theorem sign_of_rounded (h : S.OK) {mode : Round} {v : ℚ} {zs : Bool} {e : StatusAnd (IeeeFloat S)} (he : e.value.Valid) (hr : Rounds S mode v zs e) :
    (e.status = Status.OK ∧ e.value.isZero = true ↔ v = 0) ∧ (v ≠ 0 → e.value.sign = decide (v < 0)) := by
  refine ⟨⟨fun ⟨a, b⟩ => ?_, fun a => ?_⟩, fun a => ?_⟩
  · obtain ⟨-, k⟩ := Rounds.ok hr a
    rw [← k]
    have : e.value.category = .zero := by simpa [isZero] using b
    simp [toRat, this]
  · obtain ⟨k1, k2, k3⟩ := Rounds.exact hr (by rw [a]; exact grid_zero) (by rw [a, abs_zero]; exact (largest_pos h).le)
    refine ⟨k1, ?_⟩
    rcases isFinite_iff.1 k2 with c | c
    · exact absurd (k3.trans a) (toRat_ne_zero he c)
    · simp [isZero, c]
  · rcases lt_or_gt_of_ne a with c | c
    · rw [hr.2.2.1 c]; simp [c]
    · rw [hr.2.1 c]; simp [c.le]

/-- **C128.** `mul_add(x, y, -p)` compares a number `p` with the exact product: it is a zero without flags just when they are equal, and otherwise its sign bit
says which is larger, even where the difference is too small to be represented. -/
theorem C128_product (h : S.OK) {x y p : IeeeFloat S} (hx : x.Valid) (hy : y.Valid) (hp : p.Valid) (fx : x.isFinite = true) (fy : y.isFinite = true)
    (fp : p.isFinite = true) (hm : 2 ^ S.minExp ≤ |p.toRat| ∨ ∃ k : ℤ, x.toRat * y.toRat = k * 2 ^ (S.minExp - 2 * S.precision))
    {mode : Round} (hmode : ModeOK S mode) :
    ∃ e, mulAddR x y p.neg mode = .ok e ∧ (e.status = Status.OK ∧ e.value.isZero = true ↔ p.toRat = x.toRat * y.toRat) ∧
      (p.toRat ≠ x.toRat * y.toRat → e.value.sign = decide (x.toRat * y.toRat < p.toRat)) := by
  have hE : ¬ FmaExcluded S (x.toRat * y.toRat) p.neg.toRat := by
    rcases hm with c | c
    · exact fma_not_excluded (Or.inr (by rwa [neg_toRat, abs_neg]))
    · exact fun k => k.2.2.2 c
  obtain ⟨e, e1, e2, e3⟩ := mulAddR_eff h hx hy (neg_valid hp) fx fy (by rw [neg_finite]; exact fp) mode (.of (ModeOK.directed hmode _)) hE
  obtain ⟨a, b⟩ := sign_of_rounded h e2 e3
  have ev : x.toRat * y.toRat + p.neg.toRat = x.toRat * y.toRat - p.toRat := by rw [neg_toRat]; ring
  rw [ev] at a b
  refine ⟨e, e1, a.trans ⟨fun k => by linarith, fun k => by linarith⟩, fun k => ?_⟩
  rw [b (fun c => k (by linarith))]
  simp only [sub_neg]

example := C128_product singleS_ok (x := ⟨8388609, 0, .normal, true⟩) (y := ⟨8388611, 1, .normal, false⟩) (p := ⟨8388612, 1, .normal, true⟩) (by decide) (by decide)
  (by decide) rfl rfl rfl (Or.inl (by decide +kernel)) (mode := .towardZero) (by unfold ModeOK; decide)

/-- **C128.** `mul_add(-q, y, x)` compares a number `q` with the exact quotient `x / y` in the same way, up to the sign of `y`. -/
theorem C128_quotient (h : S.OK) {x y q : IeeeFloat S} (hx : x.Valid) (hy : y.Valid) (hq : q.Valid) (fx : x.isFinite = true) (fy : y.isFinite = true)
    (fq : q.isFinite = true) (y0 : y.toRat ≠ 0) (hm : 2 ^ S.minExp ≤ |x.toRat|) {mode : Round} (hmode : ModeOK S mode) :
    ∃ e, mulAddR q.neg y x mode = .ok e ∧ (e.status = Status.OK ∧ e.value.isZero = true ↔ q.toRat = x.toRat / y.toRat) ∧
      (q.toRat ≠ x.toRat / y.toRat → xor e.value.sign y.sign = decide (x.toRat / y.toRat < q.toRat)) := by
  obtain ⟨e, e1, e2, e3⟩ := mulAddR_eff h (neg_valid hq) hy hx (by rw [neg_finite]; exact fq) fy fx mode (.of (ModeOK.directed hmode _))
    (fma_not_excluded (Or.inr hm))
  obtain ⟨a, b⟩ := sign_of_rounded h e2 e3
  have ev : q.neg.toRat * y.toRat + x.toRat = (x.toRat / y.toRat - q.toRat) * y.toRat := by
    rw [neg_toRat]; field_simp; ring
  rw [ev] at a b
  refine ⟨e, e1, a.trans ⟨fun k => ?_, fun k => by rw [k]; ring⟩, fun k => ?_⟩
  · rcases mul_eq_zero.1 k with c | c
    · linarith
    · exact absurd c y0
  · have k' : x.toRat / y.toRat - q.toRat ≠ 0 := fun c => k (by linarith)
    rw [b (mul_ne_zero k' y0)]
    have ys : y.sign = decide (y.toRat < 0) := by
      have := signRule_self hy fy (zs := y.sign) (fun _ => rfl)
      rcases lt_or_gt_of_ne y0 with c | c
      · rw [this.2.1 c]; simp [c]
      · rw [this.1 c]; simp [c.le]
    rw [ys]
    rcases lt_or_gt_of_ne y0 with c | c <;> rcases lt_or_gt_of_ne k' with d | d
    · have := mul_pos_of_neg_of_neg d c
      simp [this.le, c, sub_neg.1 d]
    · have := mul_neg_of_pos_of_neg d c
      simp [this, c, (sub_pos.1 d).le]
    · have := mul_neg_of_neg_of_pos d c
      simp [this, c.le, sub_neg.1 d]
    · have := mul_pos d c
      rw [decide_eq_false (not_lt.2 this.le), decide_eq_false (not_lt.2 c.le), decide_eq_false (not_lt.2 (sub_pos.1 d).le)]
      rfl
example := C128_quotient singleS_ok (x := ⟨8388608, 0, .normal, false⟩) (y := ⟨12582912, 1, .normal, true⟩) (q := ⟨11184811, -2, .normal, true⟩) (by decide) (by decide)
  (by decide) rfl rfl rfl (by decide +kernel) (by decide +kernel) (mode := .towardZero) (by unfold ModeOK; decide)

theorem finite_of_rounds (h : S.OK) {mode : Round} {v : ℚ} {zs : Bool} {p : StatusAnd (IeeeFloat S)} (hr : Rounds S mode v zs p)
    (hv : |v| ≤ S.fmt.largest) : p.value.isFinite = true := by
  obtain ⟨⟨g, g1, g2⟩, -⟩ := hr
  have gT := grid_largest h
  have hv' := _root_.abs_le.1 hv
  have gl : |g| ≤ S.fmt.largest := _root_.abs_le.2 ⟨g1.ge_of_grid gT.neg hv'.1, g1.le_of_grid gT hv'.2⟩
  obtain ⟨-, pd, -⟩ := g2.resolve_right (fun c => absurd gl (not_le.2 c.1))
  exact (datum_num pd).1

theorem in_range_of_rounds (h : S.OK) {mode : Round} {v : ℚ} {zs : Bool} {p : StatusAnd (IeeeFloat S)} (hr : Rounds S mode v zs p)
    (hlo : 2 ^ S.minExp ≤ |v|) (hv : |v| ≤ S.fmt.largest) : p.value.isFinite = true ∧ 2 ^ S.minExp ≤ |p.value.toRat| := by
  refine ⟨finite_of_rounds h hr hv, ?_⟩
  obtain ⟨⟨g, g1, g2⟩, -⟩ := hr
  have gT := grid_largest h
  have hv' := _root_.abs_le.1 hv
  have gl : |g| ≤ S.fmt.largest := _root_.abs_le.2 ⟨g1.ge_of_grid gT.neg hv'.1, g1.le_of_grid gT hv'.2⟩
  obtain ⟨-, pd, -⟩ := g2.resolve_right (fun c => absurd gl (not_le.2 c.1))
  rw [(datum_num pd).2]
  have gm : S.fmt.Grid (2 ^ S.minExp) := grid_two_pow (by show 1 ≤ S.precision; have := h.p_ge; omega) (by show S.minExp - S.precision + 1 ≤ S.minExp; have := h.p_ge; omega)
  rcases le_abs.1 hlo with c | c
  · exact (g1.ge_of_grid gm c).trans (le_abs_self _)
  · have := g1.le_of_grid gm.neg (by linarith : v ≤ -2 ^ S.minExp)
    exact (by linarith : (2 : ℚ) ^ S.minExp ≤ -g).trans (neg_le_abs _)

/-- The result of rounding upwards, from the result `p` of rounding in some mode: `p` itself if it is not below the exact value, else its successor. -/
theorem upward_from (h : S.OK) {mode : Round} {v : ℚ} {zs : Bool} {p d : StatusAnd (IeeeFloat S)} (hp : p.value.Valid) (hv : |v| ≤ S.fmt.largest)
    (hr : Rounds S mode v zs p) (hd : Rounds S .towardPositive v zs d) :
    (v ≤ p.value.toRat → d.value.datum = p.value.datum) ∧
    ∃ u, nextUp p.value = .ok u ∧ u.status = Status.OK ∧ (p.value.toRat < v → d.value.datum = u.value.datum) := by
  have hs : d.value.sign = p.value.sign := hd.2.unique hr.2
  obtain ⟨⟨g, g1, g2⟩, sr⟩ := hr
  obtain ⟨⟨k, k1, k2⟩, sd⟩ := hd
  have gT := grid_largest h
  have hv' := _root_.abs_le.1 hv
  have gl : |g| ≤ S.fmt.largest := _root_.abs_le.2 ⟨g1.ge_of_grid gT.neg hv'.1, g1.le_of_grid gT hv'.2⟩
  have kl : |k| ≤ S.fmt.largest := _root_.abs_le.2 ⟨k1.ge_of_grid gT.neg hv'.1, k1.le_of_grid gT hv'.2⟩
  obtain ⟨-, pd, -⟩ := g2.resolve_right (fun c => absurd gl (not_le.2 c.1))
  obtain ⟨-, dd, -⟩ := k2.resolve_right (fun c => absurd kl (not_le.2 c.1))
  obtain ⟨fp, ep⟩ := datum_num pd
  rw [ep]
  refine ⟨fun c => ?_, ?_⟩
  · have : k = g := le_antisymm (k1.2.2 g g1.1 c) (g1.le_of_grid k1.1 k1.2.1)
    rw [dd, pd, hs, this]
  by_cases hl : p.value.toRat = (largest S).toRat
  · obtain ⟨u, u1, -⟩ := (C14_next_up_specials h hp).1 fp hl
    refine ⟨_, u1, rfl, fun c => ?_⟩
    rw [toRat_largest h, ep] at hl
    linarith [hv'.2]
  · obtain ⟨u, u1, u2, u3, ⟨u4, u5⟩, u6, u7⟩ := C14_next_up h hp fp hl
    refine ⟨_, u1, rfl, fun c => ?_⟩
    rw [ep] at u4 u5
    have gk : g < k := lt_of_lt_of_le c k1.2.1
    obtain ⟨y, y1, y2, y3⟩ := exists_of_grid h k1.1 kl
    have uk : u.toRat ≤ k := by rw [← y3]; exact u5 y y1 y2 (by rw [y3]; exact gk)
    have vu : v ≤ u.toRat := by
      by_contra hc
      push Not at hc
      have := g1.ge_of_grid (grid_toRat h u2 u3) hc.le
      linarith
    have : u.toRat = k := le_antisymm uk (k1.2.2 _ (grid_toRat h u2 u3) vu)
    rw [dd, datum_finite u3, this]
    congr 1
    rcases lt_trichotomy k 0 with c0 | c0 | c0
    · rw [u7 (by rw [this]; exact c0.ne), this, sd.2.1 (lt_of_le_of_lt k1.2.1 c0)]
      simp [c0]
    · have v0 : v < 0 ∨ v = 0 := by
        have := k1.2.1
        rw [c0] at this
        exact this.lt_or_eq
      rcases v0 with v0 | v0
      · rw [u6 (by rw [this]; exact c0), sd.2.1 v0]
      · have : g = v := g1.unique (isRounded_self _ (by rw [v0]; exact grid_zero))
        linarith
    · rw [u7 (by rw [this]; exact c0.ne'), this]
      have : 0 < v := by
        by_contra hc
        push Not at hc
        have := k1.2.2 0 grid_zero hc
        linarith
      rw [sd.1 this]
      simp [c0.le]

/-- The same downwards. -/
theorem downward_from (h : S.OK) {mode : Round} {v : ℚ} {zs : Bool} {p d : StatusAnd (IeeeFloat S)} (hp : p.value.Valid) (hv : |v| ≤ S.fmt.largest)
    (hr : Rounds S mode v zs p) (hd : Rounds S .towardNegative v zs d) :
    (p.value.toRat ≤ v → d.value.datum = p.value.datum) ∧
    ∃ u, nextDown p.value = .ok u ∧ u.status = Status.OK ∧ (v < p.value.toRat → d.value.datum = u.value.datum) := by
  have hs : d.value.sign = p.value.sign := hd.2.unique hr.2
  obtain ⟨⟨g, g1, g2⟩, sr⟩ := hr
  obtain ⟨⟨k, k1, k2⟩, sd⟩ := hd
  have gT := grid_largest h
  have hv' := _root_.abs_le.1 hv
  have gl : |g| ≤ S.fmt.largest := _root_.abs_le.2 ⟨g1.ge_of_grid gT.neg hv'.1, g1.le_of_grid gT hv'.2⟩
  have kl : |k| ≤ S.fmt.largest := _root_.abs_le.2 ⟨k1.ge_of_grid gT.neg hv'.1, k1.le_of_grid gT hv'.2⟩
  obtain ⟨-, pd, -⟩ := g2.resolve_right (fun c => absurd gl (not_le.2 c.1))
  obtain ⟨-, dd, -⟩ := k2.resolve_right (fun c => absurd kl (not_le.2 c.1))
  obtain ⟨fp, ep⟩ := datum_num pd
  rw [ep]
  refine ⟨fun c => ?_, ?_⟩
  · have : k = g := le_antisymm (g1.ge_of_grid k1.1 k1.2.1) (k1.2.2 g g1.1 c)
    rw [dd, pd, hs, this]
  by_cases hl : p.value.toRat = -(largest S).toRat
  · obtain ⟨u, u1, -⟩ := (C14_next_down_specials h hp).1 fp hl
    refine ⟨_, u1, rfl, fun c => ?_⟩
    rw [toRat_largest h, ep] at hl
    linarith [hv'.1]
  · obtain ⟨u, u1, u2, u3, ⟨u4, u5⟩, u6, u7⟩ := C14_next_down h hp fp hl
    refine ⟨_, u1, rfl, fun c => ?_⟩
    rw [ep] at u4 u5
    have gk : k < g := lt_of_le_of_lt k1.2.1 c
    obtain ⟨y, y1, y2, y3⟩ := exists_of_grid h k1.1 kl
    have uk : k ≤ u.toRat := by rw [← y3]; exact u5 y y1 y2 (by rw [y3]; exact gk)
    have vu : u.toRat ≤ v := by
      by_contra hc
      push Not at hc
      have := g1.le_of_grid (grid_toRat h u2 u3) hc.le
      linarith
    have : u.toRat = k := le_antisymm (k1.2.2 _ (grid_toRat h u2 u3) vu) uk
    rw [dd, datum_finite u3, this]
    congr 1
    rcases lt_trichotomy k 0 with c0 | c0 | c0
    · rw [u7 (by rw [this]; exact c0.ne), this]
      have : v < 0 := by
        by_contra hc
        push Not at hc
        have := k1.2.2 0 grid_zero hc
        linarith
      rw [sd.2.1 this]
      simp [c0]
    · have v0 : 0 < v ∨ 0 = v := by
        have := k1.2.1
        rw [c0] at this
        exact this.lt_or_eq
      rcases v0 with v0 | v0
      · rw [u6 (by rw [this]; exact c0), sd.1 v0]
      · have : g = v := g1.unique (isRounded_self _ (by rw [← v0]; exact grid_zero))
        linarith
    · rw [u7 (by rw [this]; exact c0.ne'), this, sd.1 (lt_of_lt_of_le c0 k1.2.1)]
      simp [c0.le]

/-- **C128.** From a product rounded in any mode and its residual, the products rounded upwards and downwards: the product or its neighbour. -/
theorem C128_directed_product (h : S.OK) (hS : S.nonfinite = .ieee754) {x y : IeeeFloat S} (hx : x.Valid) (hy : y.Valid) (fx : x.isFinite = true)
    (fy : y.isFinite = true) (hlo : 2 ^ S.minExp ≤ |x.toRat * y.toRat|) (hhi : |x.toRat * y.toRat| ≤ S.fmt.largest) (m₁ m₂ : Round) :
    ∃ p e u d hi lo, mulR x y m₁ = .ok p ∧ mulAddR x y p.value.neg m₂ = .ok e ∧ nextUp p.value = .ok u ∧ nextDown p.value = .ok d ∧
      mulR x y .towardPositive = .ok hi ∧ mulR x y .towardNegative = .ok lo ∧
      hi.value.datum = (if (e.status = Status.OK ∧ e.value.isZero = true) ∨ e.value.sign = true then p.value.datum else u.value.datum) ∧
      lo.value.datum = (if (e.status = Status.OK ∧ e.value.isZero = true) ∨ e.value.sign = false then p.value.datum else d.value.datum) := by
  obtain ⟨p, p1, p2, p3⟩ := C06_mul_correctly_rounded h hx hy fx fy m₁ (directedOK_of_ieee hS _ _)
  obtain ⟨a, a1, a2, a3⟩ := C06_mul_correctly_rounded h hx hy fx fy .towardPositive (directedOK_of_ieee hS _ _)
  obtain ⟨b, b1, b2, b3⟩ := C06_mul_correctly_rounded h hx hy fx fy .towardNegative (directedOK_of_ieee hS _ _)
  obtain ⟨fp, lp⟩ := in_range_of_rounds h p3 hlo hhi
  obtain ⟨e, e1, e2, e3⟩ := C128_product h hx hy p2 fx fy fp (Or.inl lp) (mode := m₂) (fun c => absurd (hS.symm.trans c) (by decide))
  obtain ⟨r1, u, r2, -, r3⟩ := upward_from h p2 hhi p3 a3
  obtain ⟨s1, d, s2, -, s3⟩ := downward_from h p2 hhi p3 b3
  refine ⟨p, e, u, d, a, b, p1, e1, r2, s2, a1, b1, ?_, ?_⟩
  · split_ifs with c <;> rw [e2] at c
    · refine r1 ?_
      rcases c with c | c
      · rw [c]
      · by_contra hc
        push Not at hc
        rw [e3 hc.ne] at c
        have := of_decide_eq_true c
        linarith
    · rw [not_or] at c
      refine r3 (lt_of_not_ge fun k => c.2 ?_)
      rw [e3 c.1]
      exact decide_eq_true (lt_of_le_of_ne k (Ne.symm c.1))
  · split_ifs with c <;> rw [e2] at c
    · refine s1 ?_
      rcases c with c | c
      · rw [c]
      · by_contra hc
        push Not at hc
        rw [e3 hc.ne'] at c
        exact of_decide_eq_false c hc
    · rw [not_or] at c
      refine s3 (lt_of_not_ge fun k => c.2 ?_)
      rw [e3 c.1]
      exact decide_eq_false (not_lt.2 k)

/-- **C128.** From a quotient rounded in any mode and its residual, the quotients rounded upwards and downwards. -/
theorem C128_directed_quotient (h : S.OK) (hS : S.nonfinite = .ieee754) {x y : IeeeFloat S} (hx : x.Valid) (hy : y.Valid) (fx : x.isFinite = true)
    (fy : y.isFinite = true) (y0 : y.toRat ≠ 0) (hlo : 2 ^ S.minExp ≤ |x.toRat|) (hhi : |x.toRat / y.toRat| ≤ S.fmt.largest) (m₁ m₂ : Round) :
    ∃ q e u d hi lo, divR x y m₁ = .ok q ∧ mulAddR q.value.neg y x m₂ = .ok e ∧ nextUp q.value = .ok u ∧ nextDown q.value = .ok d ∧
      divR x y .towardPositive = .ok hi ∧ divR x y .towardNegative = .ok lo ∧
      hi.value.datum = (if (e.status = Status.OK ∧ e.value.isZero = true) ∨ e.value.sign ≠ y.sign then q.value.datum else u.value.datum) ∧
      lo.value.datum = (if (e.status = Status.OK ∧ e.value.isZero = true) ∨ e.value.sign = y.sign then q.value.datum else d.value.datum) := by
  obtain ⟨p, p1, p2, p3⟩ := C07_div_correctly_rounded h hx hy fx fy y0 m₁ (directedOK_of_ieee hS _ _)
  obtain ⟨a, a1, a2, a3⟩ := C07_div_correctly_rounded h hx hy fx fy y0 .towardPositive (directedOK_of_ieee hS _ _)
  obtain ⟨b, b1, b2, b3⟩ := C07_div_correctly_rounded h hx hy fx fy y0 .towardNegative (directedOK_of_ieee hS _ _)
  have fp := finite_of_rounds h p3 hhi
  obtain ⟨e, e1, e2, e3⟩ := C128_quotient h hx hy p2 fx fy fp y0 hlo (mode := m₂) (fun c => absurd (hS.symm.trans c) (by decide))
  obtain ⟨r1, u, r2, -, r3⟩ := upward_from h p2 hhi p3 a3
  obtain ⟨s1, d, s2, -, s3⟩ := downward_from h p2 hhi p3 b3
  have e4 : p.value.toRat ≠ x.toRat / y.toRat → (e.value.sign ≠ y.sign ↔ x.toRat / y.toRat < p.value.toRat) := fun c => by
    have := e3 c
    rw [← @decide_eq_true_iff (x.toRat / y.toRat < p.value.toRat), ← this]
    cases e.value.sign <;> cases y.sign <;> decide
  refine ⟨p, e, u, d, a, b, p1, e1, r2, s2, a1, b1, ?_, ?_⟩
  · split_ifs with c <;> rw [e2] at c
    · refine r1 ?_
      rcases c with c | c
      · rw [c]
      · by_contra hc
        push Not at hc
        have := (e4 hc.ne).1 c
        linarith
    · rw [not_or] at c
      exact r3 (lt_of_not_ge fun k => c.2 ((e4 c.1).2 (lt_of_le_of_ne k (Ne.symm c.1))))
  · split_ifs with c <;> rw [e2] at c
    · refine s1 ?_
      rcases c with c | c
      · rw [c]
      · by_contra hc
        push Not at hc
        exact (e4 hc.ne').2 hc c
    · rw [not_or] at c
      exact s3 ((e4 c.1).1 c.2)

/-- A third in single precision, cut off: the residual is positive, so the quotient rounded upwards is the next number. -/
example : divR (S := singleS) ⟨8388608, 0, .normal, false⟩ ⟨12582912, 1, .normal, false⟩ .towardZero = .ok ⟨Status.INEXACT, ⟨11184810, -2, .normal, false⟩⟩ ∧
    mulAddR (S := singleS) ⟨11184810, -2, .normal, true⟩ ⟨12582912, 1, .normal, false⟩ ⟨8388608, 0, .normal, false⟩ .nearestTiesToEven =
      .ok ⟨Status.OK, ⟨8388608, -24, .normal, false⟩⟩ ∧
    divR (S := singleS) ⟨8388608, 0, .normal, false⟩ ⟨12582912, 1, .normal, false⟩ .towardPositive = .ok ⟨Status.INEXACT, ⟨11184811, -2, .normal, false⟩⟩ := by
  decide +kernel

example := C128_directed_quotient singleS_ok rfl (x := ⟨8388608, 0, .normal, false⟩) (y := ⟨12582912, 1, .normal, false⟩) (by decide) (by decide) rfl rfl
  (by decide +kernel) (by decide +kernel) (by decide +kernel) .towardZero .nearestTiesToEven

example := C128_directed_product singleS_ok rfl (x := ⟨8388609, 0, .normal, true⟩) (y := ⟨8388611, 1, .normal, false⟩) (by decide) (by decide) rfl rfl
  (by decide +kernel) (by decide +kernel) .nearestTiesToAway .towardNegative

end Apf
