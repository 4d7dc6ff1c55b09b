import Verif.Props.Order
import Verif.Props.Ppc

/-! **C89**: the laws of the comparison operators on DoubleDouble pairs.  They hold of all pairs of well-formed parts,
canonical or not; on the pairs the library produces the operators also agree with the represented numbers. -/

namespace Apf
open Spec IeeeFloat
variable {S : Sem}

/-- What makes a three-way comparison (with `none` for unordered) consistent. -/
structure CmpLaws {α : Type} (V : α → Prop) (c : α → α → M (Option Ordering)) : Prop where
  total : ∀ {x y}, V x → V y → ∃ o, c x y = .ok o ∧ c y x = .ok (o.map Ordering.swap)
  congr : ∀ {x y z}, V x → V y → V z → c x y = .ok (some .eq) → c x z = c y z ∧ c z x = c z y
  trans : ∀ {x y z}, V x → V y → V z → c x y = .ok (some .lt) → c y z = .ok (some .lt) → c x z = .ok (some .lt)

theorem eq_of_cmp {x y : IeeeFloat S} (e : partialCmp x y = .ok (some .eq)) : IeeeFloat.eq x y = .ok true := by
  unfold IeeeFloat.eq; rw [e]; rfl

theorem lt_iff_cmp {x y : IeeeFloat S} {o : Option Ordering} (e : partialCmp x y = .ok o) :
    IeeeFloat.lt x y = .ok true ↔ o = some .lt := by
  unfold IeeeFloat.lt; rw [e]; simp [bind, Except.bind]

theorem cmpLaws_part (h : S.OK) : CmpLaws (fun x : IeeeFloat S => x.Valid) partialCmp where
  total hx hy := C73_swap h hx hy
  congr hx hy hz e := C73_congruence h hx hy hz (eq_of_cmp e)
  trans {x y z} hx hy hz e1 e2 := by
    obtain ⟨o, a, -⟩ := C73_swap h hx hz
    have := (C73_transitive h hx hy hz).1 ((lt_iff_cmp e1).2 rfl) ((lt_iff_cmp e2).2 rfl)
    rw [a, (lt_iff_cmp a).1 this]

theorem pairCmp_of {x y : DoubleFloat S} {o p : Option Ordering} (a : partialCmp x.hi y.hi = .ok o) (b : partialCmp x.lo y.lo = .ok p) :
    x.partialCmp y = .ok (if o = some .eq then p else o) := by
  unfold DoubleFloat.partialCmp
  rw [a, M.ok_bind]
  rcases o with _ | o
  · rfl
  · cases o <;> simp [b]

theorem cmpLaws_pair (h : S.OK) : CmpLaws (fun x : DoubleFloat S => x.Valid) DoubleFloat.partialCmp where
  total {x y} hx hy := by
    obtain ⟨o, a, b⟩ := C73_swap h hx.1 hy.1
    obtain ⟨p, c, d⟩ := C73_swap h hx.2 hy.2
    refine ⟨_, pairCmp_of a c, ?_⟩
    rw [pairCmp_of b d]
    rcases o with _ | o
    · rfl
    · cases o <;> simp
  congr {x y z} hx hy hz e := by
    have L := cmpLaws_part (S := S) h
    obtain ⟨o, a, -⟩ := L.total hx.1 hy.1
    obtain ⟨p, c, -⟩ := L.total hx.2 hy.2
    rw [pairCmp_of a c, Except.ok.injEq] at e
    have eo : o = some .eq := by by_contra q; rw [if_neg q] at e; exact q e
    rw [if_pos eo] at e
    subst eo e
    obtain ⟨k1, k2⟩ := L.congr hx.1 hy.1 hz.1 a
    obtain ⟨k3, k4⟩ := L.congr hx.2 hy.2 hz.2 c
    unfold DoubleFloat.partialCmp
    rw [k1, k2, k3, k4]
    exact ⟨rfl, rfl⟩
  trans {x y z} hx hy hz e1 e2 := by
    have L := cmpLaws_part (S := S) h
    obtain ⟨o, a, -⟩ := L.total hx.1 hy.1
    obtain ⟨p, c, -⟩ := L.total hx.2 hy.2
    obtain ⟨o', a', -⟩ := L.total hy.1 hz.1
    obtain ⟨p', c', -⟩ := L.total hy.2 hz.2
    obtain ⟨o'', a'', -⟩ := L.total hx.1 hz.1
    obtain ⟨p'', c'', -⟩ := L.total hx.2 hz.2
    rw [pairCmp_of a c, Except.ok.injEq] at e1
    rw [pairCmp_of a' c', Except.ok.injEq] at e2
    rw [pairCmp_of a'' c'', Except.ok.injEq]
    by_cases q : o = some .eq
    · subst q
      rw [if_pos rfl] at e1
      have k := (L.congr hx.1 hy.1 hz.1 a).1
      rw [a'', a', Except.ok.injEq] at k
      subst k
      by_cases q' : o'' = some .eq
      · rw [if_pos q'] at e2 ⊢
        subst e1 e2
        have := L.trans hx.2 hy.2 hz.2 c c'
        rw [c'', Except.ok.injEq] at this
        exact this
      · rw [if_neg q'] at e2 ⊢
        exact e2
    · rw [if_neg q] at e1
      subst e1
      by_cases q' : o' = some .eq
      · subst q'
        have k := (L.congr hy.1 hz.1 hx.1 a').2
        rw [a, a'', Except.ok.injEq] at k
        subst k
        rfl
      · rw [if_neg q'] at e2
        subst e2
        have := L.trans hx.1 hy.1 hz.1 a a'
        rw [a'', Except.ok.injEq] at this
        subst this
        rfl

/-- All five operators, from the answer of `partial_cmp`. -/
theorem pair_ops {x y : DoubleFloat S} {o : Option Ordering} (e : x.partialCmp y = .ok o) :
    x.eq y = .ok (decide (o = some .eq)) ∧ x.lt y = .ok (decide (o = some .lt)) ∧ x.gt y = .ok (decide (o = some .gt)) ∧
    x.le y = .ok (decide (o = some .lt ∨ o = some .eq)) ∧ x.ge y = .ok (decide (o = some .gt ∨ o = some .eq)) := by
  refine ⟨C44_eq e, ?_, ?_, ?_, ?_⟩
  · unfold DoubleFloat.lt; rw [e]; rfl
  · unfold DoubleFloat.gt; rw [e]; rfl
  · unfold DoubleFloat.le; rw [e]; rfl
  · unfold DoubleFloat.ge; rw [e]; rfl

/-- **C89.** Exchanging the operands reverses the answer, and exchanges `<` with `>` and `<=` with `>=`. -/
theorem C89_swap (h : S.OK) {x y : DoubleFloat S} (hx : x.Valid) (hy : y.Valid) :
    (∃ o, x.partialCmp y = .ok o ∧ y.partialCmp x = .ok (o.map Ordering.swap)) ∧
    x.eq y = y.eq x ∧ x.lt y = y.gt x ∧ x.le y = y.ge x := by
  obtain ⟨o, a, b⟩ := (cmpLaws_pair h).total hx hy
  obtain ⟨a1, a2, a3, a4, a5⟩ := pair_ops a
  obtain ⟨b1, b2, b3, b4, b5⟩ := pair_ops b
  refine ⟨⟨o, a, b⟩, ?_, ?_, ?_⟩
  · rw [a1, b1]; rcases o with _ | o
    · rfl
    · cases o <;> rfl
  · rw [a2, b3]; rcases o with _ | o
    · rfl
    · cases o <;> rfl
  · rw [a4, b5]; rcases o with _ | o
    · rfl
    · cases o <;> rfl

example := C89_swap doubleS_ok (x := ⟨⟨2 ^ 52, 0, .normal, false⟩, ⟨2 ^ 52, -60, .normal, true⟩⟩) (y := DoubleFloat.NAN doubleS) (by decide +kernel) (by decide +kernel)

/-- **C89.** At most one of `<`, `==`, `>` holds; exactly one, unless the comparison meets a NaN: in one of the high
parts, or in one of the low parts when the high parts are equal.  `<=` is `<` or `==`, `>=` is `>` or `==`. -/
theorem C89_trichotomy (h : S.OK) {x y : DoubleFloat S} (hx : x.Valid) (hy : y.Valid) :
    ∃ e l g le ge, x.eq y = .ok e ∧ x.lt y = .ok l ∧ x.gt y = .ok g ∧ x.le y = .ok le ∧ x.ge y = .ok ge ∧
      le = (l || e) ∧ ge = (g || e) ∧
      l.toNat + e.toNat + g.toNat =
        if x.hi.isNan ∨ y.hi.isNan ∨ IeeeFloat.eq x.hi y.hi = .ok true ∧ (x.lo.isNan ∨ y.lo.isNan) then 0 else 1 := by
  obtain ⟨o, a, p⟩ := C15_partial_cmp h hx.1 hy.1
  obtain ⟨o', a', p'⟩ := C15_partial_cmp h hx.2 hy.2
  have hn : ∀ z : IeeeFloat S, z.isNan = true ↔ z.datum = .nan := fun z => by
    have := not_nan_iff z
    cases q : z.isNan
    · simp [this.1 q]
    · simp only [true_iff]; by_contra r; rw [this.2 r] at q; exact absurd q (by decide)
  have heq : IeeeFloat.eq x.hi y.hi = .ok true ↔ o = some .eq := by
    unfold IeeeFloat.eq; rw [a]; simp [bind, Except.bind]
  obtain ⟨a1, a2, a3, a4, a5⟩ := pair_ops (pairCmp_of a a')
  refine ⟨_, _, _, _, _, a1, a2, a3, a4, a5, by simp, by simp, ?_⟩
  have key : (x.hi.isNan ∨ y.hi.isNan ∨ IeeeFloat.eq x.hi y.hi = .ok true ∧ (x.lo.isNan ∨ y.lo.isNan)) ↔
      (if o = some .eq then o' else o) = none := by
    rw [hn, hn, hn, hn, heq, ← p'.1, ← or_assoc, ← p.1]
    by_cases q : o = some .eq
    · subst q; simp
    · simp [q]
  simp only [key]
  generalize (if o = some Ordering.eq then o' else o) = r
  rcases r with _ | r
  · simp
  · cases r <;> simp

example := C89_trichotomy doubleS_ok (x := ⟨⟨2 ^ 52, 0, .normal, false⟩, ⟨2 ^ 52, -60, .normal, true⟩⟩) (y := DoubleFloat.NAN doubleS) (by decide +kernel) (by decide +kernel)

/-- **C89.** `==` is an equivalence on the pairs without NaN that matter to it, `<` and `>` are transitive, and so are
`<=` and `>=` and their combinations with `<` and `>`. -/
theorem C89_transitive (h : S.OK) {x y z : DoubleFloat S} (hx : x.Valid) (hy : y.Valid) (hz : z.Valid) :
    (x.eq y = .ok true → y.eq z = .ok true → x.eq z = .ok true) ∧
    (x.lt y = .ok true → y.lt z = .ok true → x.lt z = .ok true) ∧
    (x.le y = .ok true → y.le z = .ok true → x.le z = .ok true) ∧
    (x.lt y = .ok true → y.le z = .ok true → x.lt z = .ok true) ∧
    (x.le y = .ok true → y.lt z = .ok true → x.lt z = .ok true) := by
  have L := cmpLaws_pair (S := S) h
  obtain ⟨o, a, -⟩ := L.total hx hy
  obtain ⟨o', a', -⟩ := L.total hy hz
  obtain ⟨o'', a'', -⟩ := L.total hx hz
  obtain ⟨a1, a2, -, a4, -⟩ := pair_ops a
  obtain ⟨b1, b2, -, b4, -⟩ := pair_ops a'
  obtain ⟨c1, c2, -, c4, -⟩ := pair_ops a''
  have E1 : o = some .eq → o'' = o' := by
    rintro rfl; have := (L.congr hx hy hz a).1; rw [a', a'', Except.ok.injEq] at this; exact this
  have E2 : o' = some .eq → o'' = o := by
    rintro rfl; have := (L.congr hy hz hx a').2; rw [a, a'', Except.ok.injEq] at this; exact this.symm
  have T : o = some .lt → o' = some .lt → o'' = some .lt := by
    rintro rfl rfl; have := L.trans hx hy hz a a'; rw [a'', Except.ok.injEq] at this; exact this
  simp only [a1, a2, a4, b1, b2, b4, c1, c2, c4, Except.ok.injEq, decide_eq_true_iff]
  refine ⟨fun p q => (E1 p).trans q, T, ?_, ?_, ?_⟩
  · rintro (p | p) (q | q)
    · exact Or.inl (T p q)
    · exact Or.inl ((E2 q).trans p)
    · exact Or.inl ((E1 p).trans q)
    · exact Or.inr ((E1 p).trans q)
  · rintro p (q | q)
    · exact T p q
    · exact (E2 q).trans p
  · rintro (p | p) q
    · exact T p q
    · exact (E1 p).trans q

example := (C89_transitive doubleS_ok (x := ⟨⟨2 ^ 52, 0, .normal, false⟩, ⟨2 ^ 52, -60, .normal, true⟩⟩) (y := ⟨⟨2 ^ 52, 0, .normal, false⟩, ZERO doubleS⟩)
  (z := DoubleFloat.INFINITY doubleS) (by decide +kernel) (by decide +kernel) (by decide +kernel)).2.1 (by decide +kernel) (by decide +kernel)

/-- **C89.** Pairs that are `==` compare alike with everything. -/
theorem C89_congruence (h : S.OK) {x y z : DoubleFloat S} (hx : x.Valid) (hy : y.Valid) (hz : z.Valid)
    (hxy : x.eq y = .ok true) : x.partialCmp z = y.partialCmp z ∧ z.partialCmp x = z.partialCmp y := by
  have L := cmpLaws_pair (S := S) h
  obtain ⟨o, a, -⟩ := L.total hx hy
  have := (pair_ops a).1
  rw [hxy, Except.ok.injEq] at this
  have : o = some .eq := by simpa using this.symm
  subst this
  exact L.congr hx hy hz a

example := C89_congruence doubleS_ok (x := ⟨ZERO doubleS, ZERO doubleS⟩) (y := ⟨(ZERO doubleS).neg, ZERO doubleS⟩)
  (z := ⟨⟨2 ^ 52, 0, .normal, false⟩, ⟨2 ^ 52, -60, .normal, true⟩⟩) (by decide +kernel) (by decide +kernel) (by decide +kernel) (by decide +kernel)

/-- **C89.** On the pairs the library produces the operators compare the represented numbers. -/
theorem C89_values (h : S.OK) {x y : DoubleFloat S} (px : x.Proper) (py : y.Proper) :
    ∃ e l g le ge, x.eq y = .ok e ∧ x.lt y = .ok l ∧ x.gt y = .ok g ∧ x.le y = .ok le ∧ x.ge y = .ok ge ∧
      (e = true ↔ x.datum.le y.datum ∧ y.datum.le x.datum) ∧ (l = true ↔ x.datum.lt y.datum) ∧
      (g = true ↔ y.datum.lt x.datum) ∧ (le = true ↔ x.datum.le y.datum) ∧ (ge = true ↔ y.datum.le x.datum) := by
  obtain ⟨o, a, p1, p2, p3, p4⟩ := C44_order h px py
  obtain ⟨a1, a2, a3, a4, a5⟩ := pair_ops a
  refine ⟨_, _, _, _, _, a1, a2, a3, a4, a5, ?_, ?_, ?_, ?_, ?_⟩
  · rw [decide_eq_true_iff, p4]
  · rw [decide_eq_true_iff, p2]
  · rw [decide_eq_true_iff, p3]
  · rw [decide_eq_true_iff, p2, p4]; unfold Datum.lt
    constructor
    · rintro (c | c) <;> exact c.1
    · intro c; by_cases d : y.datum.le x.datum
      · exact Or.inr ⟨c, d⟩
      · exact Or.inl ⟨c, d⟩
  · rw [decide_eq_true_iff, p3, p4]; unfold Datum.lt
    constructor
    · rintro (c | c)
      · exact c.1
      · exact c.2
    · intro c; by_cases d : x.datum.le y.datum
      · exact Or.inr ⟨d, c⟩
      · exact Or.inl ⟨c, d⟩

/-- **C89.** On the numbers and infinities the library produces: `minimum` and `maximum`, and `min` and `max`, commute and
associate up to `==`, each is one of its operands, the minimum is not above the maximum, and together they are the two operands. -/
theorem C89_min_max (h : S.OK) {x y z : DoubleFloat S} (px : x.Proper) (py : y.Proper) (pz : z.Proper)
    (nx : x.isNan = false) (ny : y.isNan = false) (nz : z.isNan = false) :
    (∃ a b c d e f, x.minimum y = .ok a ∧ y.minimum x = .ok b ∧ a.minimum z = .ok c ∧ y.minimum z = .ok d ∧ x.minimum d = .ok e ∧
      x.maximum y = .ok f ∧ a.eq b = .ok true ∧ c.eq e = .ok true ∧ a.le f = .ok true ∧
      (a.eq x = .ok true ∧ f.eq y = .ok true ∨ a.eq y = .ok true ∧ f.eq x = .ok true)) ∧
    (∃ a b c d e, x.maximum y = .ok a ∧ y.maximum x = .ok b ∧ a.maximum z = .ok c ∧ y.maximum z = .ok d ∧ x.maximum d = .ok e ∧
      a.eq b = .ok true ∧ c.eq e = .ok true) ∧
    (∃ a b c d, x.min y = .ok a ∧ x.minimum y = .ok b ∧ x.max y = .ok c ∧ x.maximum y = .ok d ∧ a.eq b = .ok true ∧ c.eq d = .ok true) := by
  have eqI : ∀ {a b : DoubleFloat S}, a.Proper → b.Proper → a.datum.le b.datum → b.datum.le a.datum → a.eq b = .ok true := by
    intro a b ha hb p q
    obtain ⟨e, l, g, le, ge, h1, -, -, -, -, h5, -⟩ := C89_values h ha hb
    rw [h1, h5.2 ⟨p, q⟩]
  have leI : ∀ {a b : DoubleFloat S}, a.Proper → b.Proper → a.datum.le b.datum → a.le b = .ok true := by
    intro a b ha hb p
    obtain ⟨e, l, g, le, ge, -, -, -, h1, -, -, -, -, h5, -⟩ := C89_values h ha hb
    rw [h1, h5.2 p]
  have M : ∀ {a b : DoubleFloat S}, a.Proper → b.Proper → a.isNan = false → b.isNan = false →
      ∃ r t u v, a.minimum b = .ok r ∧ a.maximum b = .ok t ∧ a.min b = .ok u ∧ a.max b = .ok v ∧
        (r = a ∨ r = b) ∧ (t = a ∨ t = b) ∧ (u = a ∨ u = b) ∧ (v = a ∨ v = b) ∧
        r.datum.le a.datum ∧ r.datum.le b.datum ∧ a.datum.le t.datum ∧ b.datum.le t.datum ∧
        u.datum.le a.datum ∧ u.datum.le b.datum ∧ a.datum.le v.datum ∧ b.datum.le v.datum := by
    intro a b ha hb na nb
    obtain ⟨r, t, r1, r2, r3, r4, -, -, r5⟩ := C44_minimum_maximum h ha hb
    obtain ⟨u, v, u1, u2, u3, u4, -, -, u5⟩ := C44_min_max h ha hb
    obtain ⟨k1, k2, k3, k4⟩ := r5 ((pair_nan_iff a).1 na) ((pair_nan_iff b).1 nb)
    obtain ⟨l1, l2, l3, l4⟩ := u5 ((pair_nan_iff a).1 na) ((pair_nan_iff b).1 nb)
    exact ⟨r, t, u, v, r1, r2, u1, u2, r3, r4, u3, u4, k1.1, k2.1, k3.1, k4.1, l1, l2, l3, l4⟩
  have T := @Spec.Datum.le_trans
  have rx := Datum.le_refl ((pair_nan_iff x).1 nx)
  have ry := Datum.le_refl ((pair_nan_iff y).1 ny)
  have rz := Datum.le_refl ((pair_nan_iff z).1 nz)
  have ppr : ∀ {a b r : DoubleFloat S}, a.Proper → b.Proper → (r = a ∨ r = b) → r.Proper := by
    rintro a b r ha hb (rfl | rfl) <;> assumption
  have pn : ∀ {a b r : DoubleFloat S}, a.isNan = false → b.isNan = false → (r = a ∨ r = b) → r.isNan = false := by
    rintro a b r ha hb (rfl | rfl) <;> assumption
  have lo : ∀ {a b r w : DoubleFloat S}, (r = a ∨ r = b) → w.datum.le a.datum → w.datum.le b.datum → w.datum.le r.datum := by
    rintro a b r w (rfl | rfl) p q <;> assumption
  have up : ∀ {a b r w : DoubleFloat S}, (r = a ∨ r = b) → a.datum.le w.datum → b.datum.le w.datum → r.datum.le w.datum := by
    rintro a b r w (rfl | rfl) p q <;> assumption
  obtain ⟨r, t, u, v, m1, m2, m3, m4, w1, w2, w3, w4, a1, a2, a3, a4, a5, a6, a7, a8⟩ := M px py nx ny
  obtain ⟨r', t', u', v', m1', m2', m3', m4', w1', w2', w3', w4', b1, b2, b3, b4, b5, b6, b7, b8⟩ := M py px ny nx
  obtain ⟨r2, t2, u2, v2, n1, n2, n3, n4, x1, x2, x3, x4, c1, c2, c3, c4, c5, c6, c7, c8⟩ := M py pz ny nz
  have pr := ppr px py w1
  have pt := ppr px py w2
  have pu := ppr px py w3
  have pv := ppr px py w4
  have pr' := ppr py px w1'
  have pt' := ppr py px w2'
  have pr2 := ppr py pz x1
  have pt2 := ppr py pz x2
  obtain ⟨r3, -, -, -, q1, -, -, -, y1, -, -, -, d1, d2, -⟩ := M pr pz (pn nx ny w1) nz
  obtain ⟨r4, -, -, -, s1, -, -, -, z1, -, -, -, e1, e2, -⟩ := M px pr2 nx (pn ny nz x1)
  obtain ⟨-, t3, -, -, -, q2, -, -, -, y2, -, -, -, -, d3, d4, -⟩ := M pt pz (pn nx ny w2) nz
  obtain ⟨-, t4, -, -, -, s2, -, -, -, z2, -, -, -, -, e3, e4, -⟩ := M px pt2 nx (pn ny nz x2)
  have pr3 := ppr pr pz y1
  have pr4 := ppr px pr2 z1
  have pt3 := ppr pt pz y2
  have pt4 := ppr px pt2 z2
  refine ⟨⟨r, r', r3, r2, r4, t, m1, m1', q1, n1, s1, m2, eqI pr pr' (lo w1' a2 a1) (lo w1 b2 b1),
      eqI pr3 pr4 (lo z1 (T d1 a1) (lo x1 (T d1 a2) d2)) (lo y1 (lo w1 e1 (T e2 c1)) (T e2 c2)), leI pr pt (T a1 a3), ?_⟩,
    ⟨t, t', t3, t2, t4, m2, m2', q2, n2, s2, eqI pt pt' (up w2 b4 b3) (up w2' a4 a3),
      eqI pt3 pt4 (up y2 (up w2 e3 (T c3 e4)) (T c4 e4)) (up z2 (T a3 d3) (up x2 (T a4 d3) d4))⟩,
    ⟨u, r, v, t, m3, m1, m4, m2, eqI pu pr (lo w1 a5 a6) (lo w3 a1 a2), eqI pv pt (up w4 a3 a4) (up w2 a7 a8)⟩⟩
  rcases w1 with rfl | rfl
  · exact Or.inl ⟨eqI px px rx rx, eqI pt py (up w2 a2 ry) a4⟩
  · exact Or.inr ⟨eqI py py ry ry, eqI pt px (up w2 rx a1) a3⟩

/-- Pairs that meet the hypotheses: one and a little more, one and a little less, and a pair with a NaN low part. -/
example : ∃ x y z : DoubleDouble, x.Valid ∧ y.Valid ∧ z.Valid ∧ x.lt y = .ok true ∧ y.ge x = .ok true ∧ x.eq y = .ok false ∧
    z.eq z = .ok false ∧ z.le y = .ok false ∧ z.lt ⟨⟨2 ^ 52, 1, .normal, false⟩, ZERO doubleS⟩ = .ok true :=
  ⟨⟨⟨2 ^ 52, 0, .normal, false⟩, ⟨2 ^ 52, -60, .normal, true⟩⟩, ⟨⟨2 ^ 52, 0, .normal, false⟩, ⟨2 ^ 52, -60, .normal, false⟩⟩,
    ⟨⟨2 ^ 52, 0, .normal, false⟩, NAN doubleS⟩, by decide +kernel, by decide +kernel, by decide +kernel, by decide +kernel,
    by decide +kernel, by decide +kernel, by decide +kernel, by decide +kernel, by decide +kernel⟩

end Apf
