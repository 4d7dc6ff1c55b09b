import Verif.Spec.Interval
import Verif.Props.Accumulate
import Verif.Props.Enclosure
import Verif.Props.Order
/-! # C90: interval evaluation of computations of any length -/

namespace Apf
open Spec IeeeFloat
variable {S : Sem}

/-- The float `r` bounds `v` from below (above). -/
def Low (r : IeeeFloat S) (v : ℚ) : Prop := r.Valid ∧ r.datum.le (.num false v)
def High (r : IeeeFloat S) (v : ℚ) : Prop := r.Valid ∧ (Datum.num false v).le r.datum

/-- The interval holds `v`. -/
def Interval.Holds (i : Interval S) (v : ℚ) : Prop := i.lo.toRat ≤ v ∧ v ≤ i.hi.toRat

/-- Both bounds are finite. -/
def Interval.Fine (i : Interval S) : Prop := i.lo.Valid ∧ i.lo.isFinite = true ∧ i.hi.Valid ∧ i.hi.isFinite = true

theorem Low.not_nan {r : IeeeFloat S} {v : ℚ} (hr : Low r v) : r.datum ≠ .nan := by
  intro e; have := hr.2; rw [e] at this; exact this

theorem High.not_nan {r : IeeeFloat S} {v : ℚ} (hr : High r v) : r.datum ≠ .nan := by
  intro e; have := hr.2; rw [e] at this; simp [Datum.le] at this

theorem Low.finite {r : IeeeFloat S} {v : ℚ} (hr : Low r v) (f : r.isFinite = true) : r.toRat ≤ v := by
  have := hr.2; rw [datum_finite f] at this; exact this

theorem High.finite {r : IeeeFloat S} {v : ℚ} (hr : High r v) (f : r.isFinite = true) : v ≤ r.toRat := by
  have := hr.2; rw [datum_finite f] at this; exact this

theorem low_of (h : S.OK) (hS : S.nonfinite = .ieee754) {v : ℚ} {zs : Bool} {r : StatusAnd (IeeeFloat S)} (hv : r.value.Valid)
    (hr : Rounds S .towardNegative v zs r) : Low r.value v := by
  refine ⟨hv, ?_⟩
  obtain ⟨g, g1, g2⟩ := hr.cases h hS
  have gv : g ≤ v := g1.2.1
  rcases g2 with ⟨-, e⟩ | ⟨e1, ⟨-, e⟩ | ⟨e, -⟩⟩ | ⟨e1, ⟨e, -⟩ | ⟨-, e⟩⟩ <;> first | exact absurd rfl e | rw [e]
  · exact gv
  · show S.fmt.largest ≤ v; linarith
  · trivial

theorem high_of (h : S.OK) (hS : S.nonfinite = .ieee754) {v : ℚ} {zs : Bool} {r : StatusAnd (IeeeFloat S)} (hv : r.value.Valid)
    (hr : Rounds S .towardPositive v zs r) : High r.value v := by
  refine ⟨hv, ?_⟩
  obtain ⟨g, g1, g2⟩ := hr.cases h hS
  have gv : v ≤ g := g1.2.1
  rcases g2 with ⟨-, e⟩ | ⟨e1, ⟨e, -⟩ | ⟨-, e⟩⟩ | ⟨e1, ⟨-, e⟩ | ⟨e, -⟩⟩ <;> first | exact absurd rfl e | rw [e]
  · exact gv
  · trivial
  · show v ≤ -S.fmt.largest; linarith

theorem min_low (h : S.OK) {x y : IeeeFloat S} {u v : ℚ} (hx : Low x u) (hy : Low y v) :
    ∃ r, IeeeFloat.min x y = .ok r ∧ Low r u ∧ Low r v := by
  obtain ⟨r, r1, r2, -, -, r3⟩ := C16_min h hx.1 hy.1
  obtain ⟨a, b⟩ := r3 hx.not_nan hy.not_nan
  have rv : r.Valid := by rcases r2 with e | e <;> rw [e]; exacts [hx.1, hy.1]
  exact ⟨r, r1, ⟨rv, Datum.le_trans a hx.2⟩, ⟨rv, Datum.le_trans b hy.2⟩⟩

theorem max_high (h : S.OK) {x y : IeeeFloat S} {u v : ℚ} (hx : High x u) (hy : High y v) :
    ∃ r, IeeeFloat.max x y = .ok r ∧ High r u ∧ High r v := by
  obtain ⟨r, r1, r2, -, -, r3⟩ := C16_max h hx.1 hy.1
  obtain ⟨a, b⟩ := r3 hx.not_nan hy.not_nan
  have rv : r.Valid := by rcases r2 with e | e <;> rw [e]; exacts [hx.1, hy.1]
  exact ⟨r, r1, ⟨rv, Datum.le_trans hx.2 a⟩, ⟨rv, Datum.le_trans hy.2 b⟩⟩

theorem Low.mono {r : IeeeFloat S} {u v : ℚ} (hr : Low r u) (huv : u ≤ v) : Low r v := ⟨hr.1, Datum.le_trans (b := .num false u) hr.2 huv⟩
theorem High.mono {r : IeeeFloat S} {u v : ℚ} (hr : High r u) (huv : v ≤ u) : High r v := ⟨hr.1, Datum.le_trans (b := .num false u) huv hr.2⟩

theorem check_some {lo hi : IeeeFloat S} {i : Interval S} (h : Interval.check lo hi = some i) : i = ⟨lo, hi⟩ ∧ lo.isFinite = true ∧ hi.isFinite = true := by
  unfold Interval.check at h
  split at h
  · rename_i c
    rw [Bool.and_eq_true] at c
    exact ⟨(Option.some.inj h).symm, c⟩
  · cases h

theorem Datum.zero_eq : (IeeeFloat.ZERO S).datum = .num false 0 := rfl

/-- A set of numbers bounded by floats. -/
def Bounds (o : Option (Interval S)) (P : ℚ → Prop) : Prop := ∀ i, o = some i → i.Fine ∧ ∀ v, P v → i.Holds v

theorem bounds_check {lo hi : IeeeFloat S} {P : ℚ → Prop} (hl : lo.Valid) (hh : hi.Valid) (h1 : ∀ v, P v → Low lo v) (h2 : ∀ v, P v → High hi v) :
    Bounds (Interval.check lo hi) P := by
  intro i hi'
  obtain ⟨rfl, f1, f2⟩ := check_some hi'
  exact ⟨⟨hl, f1, hh, f2⟩, fun v hv => ⟨(h1 v hv).finite f1, (h2 v hv).finite f2⟩⟩

theorem add_bounds (h : S.OK) (hS : S.nonfinite = .ieee754) {x y : Interval S} (hx : x.Fine) (hy : y.Fine) :
    ∃ o, Interval.add x y = .ok o ∧ Bounds o fun v => ∃ a b, x.Holds a ∧ y.Holds b ∧ v = a + b := by
  obtain ⟨l, l1, l2, l3⟩ := addR_finite h hx.1 hy.1 hx.2.1 hy.2.1 .towardNegative (directedOK_of_ieee hS _ _)
  obtain ⟨u, u1, u2, u3⟩ := addR_finite h hx.2.2.1 hy.2.2.1 hx.2.2.2 hy.2.2.2 .towardPositive (directedOK_of_ieee hS _ _)
  refine ⟨Interval.check l.value u.value, ?_, bounds_check l2 u2 ?_ ?_⟩
  · unfold Interval.add; rw [l1, M.ok_bind, u1, M.ok_bind]
  · rintro v ⟨a, b, ha, hb, rfl⟩
    exact (low_of h hS l2 l3).mono (add_le_add ha.1 hb.1)
  · rintro v ⟨a, b, ha, hb, rfl⟩
    exact (high_of h hS u2 u3).mono (add_le_add ha.2 hb.2)

theorem sub_bounds (h : S.OK) (hS : S.nonfinite = .ieee754) {x y : Interval S} (hx : x.Fine) (hy : y.Fine) :
    ∃ o, Interval.sub x y = .ok o ∧ Bounds o fun v => ∃ a b, x.Holds a ∧ y.Holds b ∧ v = a - b := by
  obtain ⟨l, l1, l2, l3⟩ := subR_finite h hx.1 hy.2.2.1 hx.2.1 hy.2.2.2 .towardNegative (directedOK_of_ieee hS _ _)
  obtain ⟨u, u1, u2, u3⟩ := subR_finite h hx.2.2.1 hy.1 hx.2.2.2 hy.2.1 .towardPositive (directedOK_of_ieee hS _ _)
  refine ⟨Interval.check l.value u.value, ?_, bounds_check l2 u2 ?_ ?_⟩
  · unfold Interval.sub; rw [l1, M.ok_bind, u1, M.ok_bind]
  · rintro v ⟨a, b, ha, hb, rfl⟩
    exact (low_of h hS l2 l3).mono (sub_le_sub ha.1 hb.2)
  · rintro v ⟨a, b, ha, hb, rfl⟩
    exact (high_of h hS u2 u3).mono (sub_le_sub ha.2 hb.1)

/-- A linear function on a segment is at least one of the end values, and at most one of them. -/
theorem seg_mul {a l u k : ℚ} (h1 : l ≤ a) (h2 : a ≤ u) : (l * k ≤ a * k ∨ u * k ≤ a * k) ∧ (a * k ≤ l * k ∨ a * k ≤ u * k) := by
  rcases le_total 0 k with c | c
  · exact ⟨Or.inl (mul_le_mul_of_nonneg_right h1 c), Or.inr (mul_le_mul_of_nonneg_right h2 c)⟩
  · exact ⟨Or.inr (mul_le_mul_of_nonpos_right h2 c), Or.inl (mul_le_mul_of_nonpos_right h1 c)⟩

theorem rect_mul {a b l u m w : ℚ} (h1 : l ≤ a) (h2 : a ≤ u) (h3 : m ≤ b) (h4 : b ≤ w) :
    (l * m ≤ a * b ∨ l * w ≤ a * b ∨ u * m ≤ a * b ∨ u * w ≤ a * b) ∧ (a * b ≤ l * m ∨ a * b ≤ l * w ∨ a * b ≤ u * m ∨ a * b ≤ u * w) := by
  obtain ⟨p, q⟩ := seg_mul (k := b) h1 h2
  obtain ⟨pl, ql⟩ := seg_mul (k := l) h3 h4
  obtain ⟨pu, qu⟩ := seg_mul (k := u) h3 h4
  simp only [mul_comm _ l, mul_comm _ u] at pl ql pu qu
  constructor
  · rcases p with p | p
    · rcases pl with r | r
      · exact Or.inl (r.trans p)
      · exact Or.inr (Or.inl (r.trans p))
    · rcases pu with r | r
      · exact Or.inr (Or.inr (Or.inl (r.trans p)))
      · exact Or.inr (Or.inr (Or.inr (r.trans p)))
  · rcases q with p | p
    · rcases ql with r | r
      · exact Or.inl (p.trans r)
      · exact Or.inr (Or.inl (p.trans r))
    · rcases qu with r | r
      · exact Or.inr (Or.inr (Or.inl (p.trans r)))
      · exact Or.inr (Or.inr (Or.inr (p.trans r)))

/-- The inverse of a number of a segment without zero lies between the inverses of the end points. -/
theorem inv_seg {b m w : ℚ} (h3 : m ≤ b) (h4 : b ≤ w) (h0 : 0 < m ∨ w < 0) : w⁻¹ ≤ b⁻¹ ∧ b⁻¹ ≤ m⁻¹ := by
  rcases h0 with c | c
  · exact ⟨inv_anti₀ (by linarith) h4, inv_anti₀ c h3⟩
  · exact ⟨(inv_le_inv_of_neg c (by linarith)).2 h4, (inv_le_inv_of_neg (by linarith) (by linarith)).2 h3⟩

theorem rect_div {a b l u m w : ℚ} (h1 : l ≤ a) (h2 : a ≤ u) (h3 : m ≤ b) (h4 : b ≤ w) (h0 : 0 < m ∨ w < 0) :
    (l / m ≤ a / b ∨ l / w ≤ a / b ∨ u / m ≤ a / b ∨ u / w ≤ a / b) ∧ (a / b ≤ l / m ∨ a / b ≤ l / w ∨ a / b ≤ u / m ∨ a / b ≤ u / w) := by
  obtain ⟨p, q⟩ := inv_seg h3 h4 h0
  simp only [div_eq_mul_inv]
  have := rect_mul h1 h2 p q
  tauto

theorem corners_bounds (h : S.OK) (hS : S.nonfinite = .ieee754) {op : IeeeFloat S → IeeeFloat S → Round → M (StatusAnd (IeeeFloat S))} {f : ℚ → ℚ → ℚ}
    {x y : Interval S} {P : ℚ → Prop}
    (hop : ∀ a b, a = x.lo ∨ a = x.hi → b = y.lo ∨ b = y.hi → ∀ mode, ∃ r zs, op a b mode = .ok r ∧ r.value.Valid ∧ Rounds S mode (f a.toRat b.toRat) zs r)
    (hP : ∀ v, P v → (f x.lo.toRat y.lo.toRat ≤ v ∨ f x.lo.toRat y.hi.toRat ≤ v ∨ f x.hi.toRat y.lo.toRat ≤ v ∨ f x.hi.toRat y.hi.toRat ≤ v) ∧
      (v ≤ f x.lo.toRat y.lo.toRat ∨ v ≤ f x.lo.toRat y.hi.toRat ∨ v ≤ f x.hi.toRat y.lo.toRat ∨ v ≤ f x.hi.toRat y.hi.toRat)) :
    ∃ o, Interval.corners op x y = .ok o ∧ Bounds o P := by
  obtain ⟨a, _, a1, a2, a3⟩ := hop x.lo y.lo (Or.inl rfl) (Or.inl rfl) .towardNegative
  obtain ⟨b, _, b1, b2, b3⟩ := hop x.lo y.hi (Or.inl rfl) (Or.inr rfl) .towardNegative
  obtain ⟨c, _, c1, c2, c3⟩ := hop x.hi y.lo (Or.inr rfl) (Or.inl rfl) .towardNegative
  obtain ⟨d, _, d1, d2, d3⟩ := hop x.hi y.hi (Or.inr rfl) (Or.inr rfl) .towardNegative
  obtain ⟨a', _, a1', a2', a3'⟩ := hop x.lo y.lo (Or.inl rfl) (Or.inl rfl) .towardPositive
  obtain ⟨b', _, b1', b2', b3'⟩ := hop x.lo y.hi (Or.inl rfl) (Or.inr rfl) .towardPositive
  obtain ⟨c', _, c1', c2', c3'⟩ := hop x.hi y.lo (Or.inr rfl) (Or.inl rfl) .towardPositive
  obtain ⟨d', _, d1', d2', d3'⟩ := hop x.hi y.hi (Or.inr rfl) (Or.inr rfl) .towardPositive
  obtain ⟨l1, e1, la, lb⟩ := min_low h (low_of h hS a2 a3) (low_of h hS b2 b3)
  obtain ⟨l2, e2, lc, ld⟩ := min_low h (low_of h hS c2 c3) (low_of h hS d2 d3)
  obtain ⟨l, e3, ma, mc⟩ := min_low h la lc
  obtain ⟨k, e3', mb, md⟩ := min_low h lb ld
  obtain rfl : l = k := by rw [e3] at e3'; exact Except.ok.inj e3'
  obtain ⟨h1, g1, ha, hb⟩ := max_high h (high_of h hS a2' a3') (high_of h hS b2' b3')
  obtain ⟨h2, g2, hc, hd⟩ := max_high h (high_of h hS c2' c3') (high_of h hS d2' d3')
  obtain ⟨u, g3, na, nc⟩ := max_high h ha hc
  obtain ⟨k', g3', nb, nd⟩ := max_high h hb hd
  obtain rfl : u = k' := by rw [g3] at g3'; exact Except.ok.inj g3'
  refine ⟨Interval.check l u, ?_, bounds_check ma.1 na.1 ?_ ?_⟩
  · unfold Interval.corners
    rw [a1, M.ok_bind, b1, M.ok_bind, c1, M.ok_bind, d1, M.ok_bind, e1, M.ok_bind, e2, M.ok_bind, e3, M.ok_bind, a1', M.ok_bind, b1', M.ok_bind,
      c1', M.ok_bind, d1', M.ok_bind, g1, M.ok_bind, g2, M.ok_bind, g3, M.ok_bind]
  · intro v hv
    rcases (hP v hv).1 with q | q | q | q
    exacts [ma.mono q, mb.mono q, mc.mono q, md.mono q]
  · intro v hv
    rcases (hP v hv).2 with q | q | q | q
    exacts [na.mono q, nb.mono q, nc.mono q, nd.mono q]

theorem mul_bounds (h : S.OK) (hS : S.nonfinite = .ieee754) {x y : Interval S} (hx : x.Fine) (hy : y.Fine) :
    ∃ o, Interval.corners mulR x y = .ok o ∧ Bounds o fun v => ∃ a b, x.Holds a ∧ y.Holds b ∧ v = a * b := by
  refine corners_bounds (f := fun a b => a * b) h hS (fun a b ha hb mode => ?_) ?_
  · have va : a.Valid ∧ a.isFinite = true := by rcases ha with e | e <;> rw [e]; exacts [⟨hx.1, hx.2.1⟩, hx.2.2]
    have vb : b.Valid ∧ b.isFinite = true := by rcases hb with e | e <;> rw [e]; exacts [⟨hy.1, hy.2.1⟩, hy.2.2]
    obtain ⟨r, r1, r2, r3⟩ := mulR_finite h va.1 vb.1 va.2 vb.2 mode (directedOK_of_ieee hS _ _)
    exact ⟨r, _, r1, r2, r3⟩
  · rintro v ⟨a, b, ha, hb, rfl⟩
    exact rect_mul ha.1 ha.2 hb.1 hb.2

theorem div_bounds (h : S.OK) (hS : S.nonfinite = .ieee754) {x y : Interval S} (hx : x.Fine) (hy : y.Fine) (ne : y.lo.toRat ≤ y.hi.toRat) :
    ∃ o, Interval.div x y = .ok o ∧ (Bounds o fun v => ∃ a b, x.Holds a ∧ y.Holds b ∧ v = a / b) ∧ ∀ i, o = some i → ∀ b, y.Holds b → b ≠ 0 := by
  have vz : (IeeeFloat.ZERO S).Valid := zero_valid
  obtain ⟨_, _, g, _, -, -, g1, -, -, -, g2, -⟩ := C15_operators h hy.1 vz
  obtain ⟨_, l, _, _, -, l1, -, -, -, l2, -, -⟩ := C15_operators h hy.2.2.1 vz
  rw [datum_finite hy.2.1] at g2
  rw [datum_finite hy.2.2.2] at l2
  have e : Interval.div x y = if g || l then Interval.corners divR x y else .ok none := by
    unfold Interval.div; rw [g1, M.ok_bind, l1, M.ok_bind]
  rw [e]
  by_cases c : (g || l) = true
  · rw [if_pos c]
    have h0 : 0 < y.lo.toRat ∨ y.hi.toRat < 0 := by
      rcases (Bool.or_eq_true _ _).mp c with c | c
      · left
        have := g2.1 c
        simp [Datum.lt, Datum.zero_eq, Datum.le] at this
        exact this.2
      · right
        have := l2.1 c
        simp [Datum.lt, Datum.zero_eq, Datum.le] at this
        exact this.2
    obtain ⟨o, o1, o2⟩ : ∃ o, Interval.corners divR x y = .ok o ∧ Bounds o fun v => ∃ a b, x.Holds a ∧ y.Holds b ∧ v = a / b := by
      refine corners_bounds (f := fun a b => a / b) h hS (fun a b ha hb mode => ?_) ?_
      · have va : a.Valid ∧ a.isFinite = true := by rcases ha with e | e <;> rw [e]; exacts [⟨hx.1, hx.2.1⟩, hx.2.2]
        have vb : b.Valid ∧ b.isFinite = true := by rcases hb with e | e <;> rw [e]; exacts [⟨hy.1, hy.2.1⟩, hy.2.2]
        have b0 : b.toRat ≠ 0 := by
          rcases hb with e | e <;> rw [e] <;> rcases h0 with k | k
          · exact k.ne'
          · exact (lt_of_le_of_lt ne k).ne
          · exact (lt_of_lt_of_le k ne).ne'
          · exact k.ne
        obtain ⟨r, r1, r2, r3⟩ := divR_finite h va.1 vb.1 va.2 vb.2 b0 mode (directedOK_of_ieee hS _ _)
        exact ⟨r, _, r1, r2, r3⟩
      · rintro v ⟨a, b, ha, hb, rfl⟩
        exact rect_div ha.1 ha.2 hb.1 hb.2 h0
    refine ⟨o, o1, o2, fun _ _ b hb => ?_⟩
    rcases h0 with k | k
    · exact (lt_of_lt_of_le k hb.1).ne'
    · exact (lt_of_le_of_lt hb.2 k).ne
  · rw [if_neg c]
    exact ⟨none, rfl, fun i hi => (Option.some_ne_none _ hi.symm).elim, fun i hi => (Option.some_ne_none _ hi.symm).elim⟩

/-- What the interval evaluation of `e` promises. -/
def Sound (e : Expr (IeeeFloat S)) (i : Interval S) : Prop :=
  i.Fine ∧ e.Defined toRat ∧ i.Holds (e.exact toRat) ∧
    ∃ r, e.eval = .ok r ∧ r.value.Valid ∧ r.value.isFinite = true ∧ i.Holds r.value.toRat ∧
      r.status.overflow = false ∧ r.status.invalidOp = false ∧ r.status.divByZero = false

theorem both_ok {f : Interval S → Interval S → M (Option (Interval S))} {a b : M (Option (Interval S))} {x y : Option (Interval S)} (ha : a = .ok x)
    (hb : b = .ok y) {P : Interval S → Prop} (hf : ∀ i j, x = some i → y = some j → ∃ o, f i j = .ok o ∧ ∀ k, o = some k → P k) :
    ∃ o, Interval.both f a b = .ok o ∧ ∀ k, o = some k → P k := by
  unfold Interval.both
  rw [ha, M.ok_bind, hb, M.ok_bind]
  cases x with
  | none => exact ⟨none, rfl, fun k hk => by cases hk⟩
  | some i =>
    cases y with
    | none => exact ⟨none, rfl, fun k hk => by cases hk⟩
    | some j => exact hf i j rfl rfl

/-- The ordinary evaluation of one operation stays in the interval. -/
theorem eval_step (h : S.OK) {mode : Round} {v : ℚ} {zs : Bool} {t : StatusAnd (IeeeFloat S)} {k : Interval S} (ht : Rounds S mode v zs t)
    (hk : k.Fine) (hv : k.Holds v) {p q : Status} (po : p.overflow = false ∧ p.invalidOp = false ∧ p.divByZero = false)
    (qo : q.overflow = false ∧ q.invalidOp = false ∧ q.divByZero = false) :
    t.value.isFinite = true ∧ k.Holds t.value.toRat ∧
      (p ||| q ||| t.status).overflow = false ∧ (p ||| q ||| t.status).invalidOp = false ∧ (p ||| q ||| t.status).divByZero = false := by
  obtain ⟨a, b, c, d⟩ := hk
  have vl : |v| ≤ S.fmt.largest := by
    have h1 := _root_.abs_le.1 (abs_toRat_le h a b)
    have h2 := _root_.abs_le.1 (abs_toRat_le h c d)
    exact _root_.abs_le.2 ⟨h1.1.trans hv.1, hv.2.trans h2.2⟩
  obtain ⟨f, g, st⟩ := rounds_fine h ht vl
  refine ⟨f, ⟨g.ge_of_grid (grid_toRat h a b) hv.1, g.le_of_grid (grid_toRat h c d) hv.2⟩, ?_⟩
  rw [st]
  simp only [Status.or_overflow, Status.or_invalidOp, Status.or_divByZero, po, qo, Bool.or_false, and_self]

/-- **C90.** Interval evaluation of a computation of any length and shape with the crate's directed modes, `min`, `max`, comparisons and `is_finite`: it
never panics, and when it does not give up, no divisor of the exact computation is zero, the interval contains the exact mathematical value, and it
contains the result of running the computation itself, every operation in whatever rounding mode, which neither panics nor overflows nor is invalid. -/
theorem C90_interval (h : S.OK) (hS : S.nonfinite = .ieee754) (e : Expr (IeeeFloat S)) (hl : e.All fun x => x.Valid) :
    ∃ o, e.interval = .ok o ∧ ∀ i, o = some i → Sound e i := by
  induction e with
  | lit x =>
    refine ⟨_, rfl, fun i hi => ?_⟩
    obtain ⟨rfl, f, -⟩ := check_some hi
    exact ⟨⟨hl, f, hl, f⟩, trivial, ⟨le_refl _, le_refl _⟩, ⟨Status.OK, x⟩, rfl, hl, f, ⟨le_refl _, le_refl _⟩, rfl, rfl, rfl⟩
  | neg a ih =>
    obtain ⟨o, o1, o2⟩ := ih hl
    refine ⟨o.map fun i => ⟨i.hi.neg, i.lo.neg⟩, ?_, fun i hi => ?_⟩
    · show (a.interval >>= fun x => _) = _
      rw [o1]; rfl
    · cases o with
      | none => cases hi
      | some j =>
        obtain ⟨f, d, k, r, r1, r2, r3, r4, r5⟩ := o2 j rfl
        cases hi
        refine ⟨⟨neg_valid f.2.2.1, f.2.2.2, neg_valid f.1, f.2.1⟩, d, ?_, ⟨r.status, r.value.neg⟩, ?_, neg_valid r2, r3, ?_, r5⟩
        · constructor
          · show j.hi.neg.toRat ≤ -a.exact toRat; rw [neg_toRat]; exact neg_le_neg k.2
          · show -a.exact toRat ≤ j.lo.neg.toRat; rw [neg_toRat]; exact neg_le_neg k.1
        · show (a.eval >>= fun x => _) = _
          rw [r1]; rfl
        · constructor
          · show j.hi.neg.toRat ≤ r.value.neg.toRat; rw [neg_toRat, neg_toRat]; exact neg_le_neg r4.2
          · show r.value.neg.toRat ≤ j.lo.neg.toRat; rw [neg_toRat, neg_toRat]; exact neg_le_neg r4.1
  | add m a b iha ihb =>
    obtain ⟨x, x1, x2⟩ := iha hl.1
    obtain ⟨y, y1, y2⟩ := ihb hl.2
    refine both_ok x1 y1 fun i j hi hj => ?_
    obtain ⟨fi, di, ki, r, r1, r2, r3, r4, r5⟩ := x2 i hi
    obtain ⟨fj, dj, kj, s, s1, s2, s3, s4, s5⟩ := y2 j hj
    obtain ⟨o, o1, o2⟩ := add_bounds h hS fi fj
    refine ⟨o, o1, fun k hk => ?_⟩
    obtain ⟨fk, kk⟩ := o2 k hk
    obtain ⟨t, t1, t2, t3⟩ := addR_finite h r2 s2 r3 s3 m (directedOK_of_ieee hS _ _)
    obtain ⟨e1, e2, e3⟩ := eval_step h t3 fk (kk _ ⟨_, _, r4, s4, rfl⟩) r5 s5
    refine ⟨fk, ⟨di, dj⟩, kk _ ⟨_, _, ki, kj, rfl⟩, ⟨r.status ||| s.status ||| t.status, t.value⟩, ?_, t2, e1, e2, e3⟩
    show (a.eval >>= fun x => _) = _
    rw [r1, M.ok_bind, s1, M.ok_bind]
    show (addR r.value s.value m >>= fun x => _) = _
    rw [t1]; rfl
  | sub m a b iha ihb =>
    obtain ⟨x, x1, x2⟩ := iha hl.1
    obtain ⟨y, y1, y2⟩ := ihb hl.2
    refine both_ok x1 y1 fun i j hi hj => ?_
    obtain ⟨fi, di, ki, r, r1, r2, r3, r4, r5⟩ := x2 i hi
    obtain ⟨fj, dj, kj, s, s1, s2, s3, s4, s5⟩ := y2 j hj
    obtain ⟨o, o1, o2⟩ := sub_bounds h hS fi fj
    refine ⟨o, o1, fun k hk => ?_⟩
    obtain ⟨fk, kk⟩ := o2 k hk
    obtain ⟨t, t1, t2, t3⟩ := subR_finite h r2 s2 r3 s3 m (directedOK_of_ieee hS _ _)
    obtain ⟨e1, e2, e3⟩ := eval_step h t3 fk (kk _ ⟨_, _, r4, s4, rfl⟩) r5 s5
    refine ⟨fk, ⟨di, dj⟩, kk _ ⟨_, _, ki, kj, rfl⟩, ⟨r.status ||| s.status ||| t.status, t.value⟩, ?_, t2, e1, e2, e3⟩
    show (a.eval >>= fun x => _) = _
    rw [r1, M.ok_bind, s1, M.ok_bind]
    show (subR r.value s.value m >>= fun x => _) = _
    rw [t1]; rfl
  | mul m a b iha ihb =>
    obtain ⟨x, x1, x2⟩ := iha hl.1
    obtain ⟨y, y1, y2⟩ := ihb hl.2
    refine both_ok x1 y1 fun i j hi hj => ?_
    obtain ⟨fi, di, ki, r, r1, r2, r3, r4, r5⟩ := x2 i hi
    obtain ⟨fj, dj, kj, s, s1, s2, s3, s4, s5⟩ := y2 j hj
    obtain ⟨o, o1, o2⟩ := mul_bounds h hS fi fj
    refine ⟨o, o1, fun k hk => ?_⟩
    obtain ⟨fk, kk⟩ := o2 k hk
    obtain ⟨t, t1, t2, t3⟩ := mulR_finite h r2 s2 r3 s3 m (directedOK_of_ieee hS _ _)
    obtain ⟨e1, e2, e3⟩ := eval_step h t3 fk (kk _ ⟨_, _, r4, s4, rfl⟩) r5 s5
    refine ⟨fk, ⟨di, dj⟩, kk _ ⟨_, _, ki, kj, rfl⟩, ⟨r.status ||| s.status ||| t.status, t.value⟩, ?_, t2, e1, e2, e3⟩
    show (a.eval >>= fun x => _) = _
    rw [r1, M.ok_bind, s1, M.ok_bind]
    show (mulR r.value s.value m >>= fun x => _) = _
    rw [t1]; rfl
  | div m a b iha ihb =>
    obtain ⟨x, x1, x2⟩ := iha hl.1
    obtain ⟨y, y1, y2⟩ := ihb hl.2
    refine both_ok x1 y1 fun i j hi hj => ?_
    obtain ⟨fi, di, ki, r, r1, r2, r3, r4, r5⟩ := x2 i hi
    obtain ⟨fj, dj, kj, s, s1, s2, s3, s4, s5⟩ := y2 j hj
    obtain ⟨o, o1, o2, o3⟩ := div_bounds h hS fi fj (kj.1.trans kj.2)
    refine ⟨o, o1, fun k hk => ?_⟩
    obtain ⟨fk, kk⟩ := o2 k hk
    obtain ⟨t, t1, t2, t3⟩ := divR_finite h r2 s2 r3 s3 (o3 k hk _ s4) m (directedOK_of_ieee hS _ _)
    obtain ⟨e1, e2, e3⟩ := eval_step h t3 fk (kk _ ⟨_, _, r4, s4, rfl⟩) r5 s5
    refine ⟨fk, ⟨di, dj, o3 k hk _ kj⟩, kk _ ⟨_, _, ki, kj, rfl⟩, ⟨r.status ||| s.status ||| t.status, t.value⟩, ?_, t2, e1, e2, e3⟩
    show (a.eval >>= fun x => _) = _
    rw [r1, M.ok_bind, s1, M.ok_bind]
    show (divR r.value s.value m >>= fun x => _) = _
    rw [t1]; rfl

/-! Non-vacuity: the interval of `(1.5 / -3) * 1.5 - 1.5`. -/
def exInterval : Expr (IeeeFloat singleS) := .sub .towardZero (.mul .nearestTiesToEven (.div .towardPositive (.lit ex15) (.lit exM3)) (.lit ex15)) (.lit ex15)

example : exInterval.All (fun x => x.Valid) ∧ ∃ i, exInterval.interval = .ok (some i) := by
  refine ⟨?_, ?_⟩
  · simp only [exInterval, Expr.All]; decide +kernel
  · have : (match exInterval.interval with | .ok (some _) => true | _ => false) = true := by decide +kernel
    revert this
    cases exInterval.interval with
    | error _ => intro q; cases q
    | ok o => cases o with
      | none => intro q; cases q
      | some i => intro _; exact ⟨i, rfl⟩

/-- The value `m * 2^(e - 3)` in the format without infinities. -/
def fnVal (sign : Bool) (m : ℕ) (e : ℤ) : IeeeFloat float8E4M3FNS := ⟨m, e, .normal, sign⟩

/-- `((1 / 3) * -448) * 3.25`. -/
def exFn : Expr (IeeeFloat float8E4M3FNS) :=
  .mul .nearestTiesToEven (.mul .nearestTiesToEven (.div .nearestTiesToEven (.lit (fnVal false 8 0)) (.lit (fnVal false 12 1))) (.lit (fnVal true 14 8)))
    (.lit (fnVal false 13 1))

/-- **C90, the missing part.** In the format without infinities the wrong directed overflow of negative results (C47) makes interval arithmetic unsound: the
interval of `((1 / 3) * -448) * 3.25 = -485.33...` has the finite lower bound `-448`. -/
theorem C90_counterexample : exFn.All (fun x => x.Valid) ∧ (∃ i, exFn.interval = .ok (some i) ∧ exFn.exact toRat < i.lo.toRat) := by
  refine ⟨?_, ?_⟩
  · simp only [exFn, Expr.All]; decide +kernel
  · have : (match exFn.interval with | .ok (some i) => decide (exFn.exact toRat < i.lo.toRat) | _ => false) = true := by decide +kernel
    revert this
    cases exFn.interval with
    | error _ => intro q; cases q
    | ok o => cases o with
      | none => intro q; cases q
      | some i => intro q; exact ⟨i, rfl, of_decide_eq_true q⟩

end Apf
