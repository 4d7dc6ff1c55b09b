import Verif.Props.Compare

/-! **C73**: the laws of the comparison operators and of the minimum and maximum functions. -/

namespace Apf
open Spec IeeeFloat
variable {S : Sem}

theorem Spec.Datum.le_trans : ∀ {a b c : Datum}, a.le b → b.le c → a.le c
  | .nan, _, _, h, _ => by simp [Datum.le] at h
  | .inf true, .nan, _, h, _ => by simp [Datum.le] at h
  | .inf false, .nan, _, h, _ => by simp [Datum.le] at h
  | .num _ _, .nan, _, h, _ => by simp [Datum.le] at h
  | .inf true, .inf false, .nan, _, h => by simp [Datum.le] at h
  | .inf true, .inf true, .nan, _, h => by simp [Datum.le] at h
  | .inf false, .inf false, .nan, _, h => by simp [Datum.le] at h
  | .inf false, .inf true, .nan, _, h => by simp [Datum.le] at h
  | .inf true, .num _ _, .nan, _, h => by simp [Datum.le] at h
  | .inf false, .num _ _, .nan, _, h => by simp [Datum.le] at h
  | .num _ _, .inf true, .nan, _, h => by simp [Datum.le] at h
  | .num _ _, .inf false, .nan, _, h => by simp [Datum.le] at h
  | .num _ _, .num _ _, .nan, _, h => by simp [Datum.le] at h
  | .inf true, _, .inf true, _, _ => trivial
  | .inf true, _, .inf false, _, _ => trivial
  | .inf true, _, .num _ _, _, _ => trivial
  | .inf false, .inf true, _, h, _ => by simp [Datum.le] at h
  | .inf false, .num _ _, _, h, _ => by simp [Datum.le] at h
  | .inf false, .inf false, _, _, h => h
  | .num _ _, .inf true, _, h, _ => by simp [Datum.le] at h
  | .num _ _, .inf false, .inf true, _, h => by simp [Datum.le] at h
  | .num _ _, .inf false, .num _ _, _, h => by simp [Datum.le] at h
  | .num _ _, .inf false, .inf false, _, _ => trivial
  | .num _ _, .num _ _, .inf true, _, h => by simp [Datum.le] at h
  | .num _ _, .num _ _, .inf false, _, _ => trivial
  | .num _ _, .num _ _, .num _ _, h1, h2 => _root_.le_trans (α := ℚ) h1 h2

theorem Spec.Datum.le_nan {a b : Datum} (h : a.le b) : a ≠ .nan ∧ b ≠ .nan := by
  constructor
  · rintro rfl; simp [Datum.le] at h
  · rintro rfl; revert h; cases a <;> simp [Datum.le]

/-- Every answer of `partial_cmp`, by the order of the operands. -/
theorem cmp_cases (h : S.OK) {x y : IeeeFloat S} (hx : x.Valid) (hy : y.Valid) :
    (partialCmp x y = .ok none ∧ (x.datum = .nan ∨ y.datum = .nan)) ∨
    (partialCmp x y = .ok (some .lt) ∧ x.datum.le y.datum ∧ ¬ y.datum.le x.datum) ∨
    (partialCmp x y = .ok (some .eq) ∧ x.datum.le y.datum ∧ y.datum.le x.datum) ∨
    (partialCmp x y = .ok (some .gt) ∧ ¬ x.datum.le y.datum ∧ y.datum.le x.datum) := by
  obtain ⟨o, h1, h2, h3, h4, h5⟩ := C15_partial_cmp h hx hy
  rw [h1]
  rcases o with _ | o
  · exact Or.inl ⟨rfl, h2.1 rfl⟩
  · cases o
    · exact Or.inr (Or.inl ⟨rfl, h3.1 rfl⟩)
    · exact Or.inr (Or.inr (Or.inl ⟨rfl, h5.1 rfl⟩))
    · exact Or.inr (Or.inr (Or.inr ⟨rfl, (h4.1 rfl).2, (h4.1 rfl).1⟩))

/-- **C73.** Exchanging the operands reverses the answer. -/
theorem C73_swap (h : S.OK) {x y : IeeeFloat S} (hx : x.Valid) (hy : y.Valid) :
    ∃ o, partialCmp x y = .ok o ∧ partialCmp y x = .ok (o.map Ordering.swap) := by
  rcases cmp_cases h hx hy with ⟨a, b⟩ | ⟨a, b, b'⟩ | ⟨a, b, b'⟩ | ⟨a, b, b'⟩ <;>
  rcases cmp_cases h hy hx with ⟨c, d⟩ | ⟨c, d, d'⟩ | ⟨c, d, d'⟩ | ⟨c, d, d'⟩ <;>
  first
    | exact ⟨_, a, c⟩
    | exact absurd d' (by assumption)
    | exact absurd d (by assumption)
    | exact absurd b (by assumption)
    | (exfalso; have e := Spec.Datum.le_nan (by assumption); tauto)

example := C73_swap singleS_ok (x := ⟨3 * 2 ^ 22, 0, .normal, false⟩) (y := ⟨5, 128, .nan, false⟩) (by decide) (by decide)

/-- **C73.** `==` is reflexive exactly on the values that are not NaN, symmetric and transitive. -/
theorem C73_eq (h : S.OK) {x y z : IeeeFloat S} (hx : x.Valid) (hy : y.Valid) (hz : z.Valid) :
    eq x x = .ok (!x.isNan) ∧ eq x y = eq y x ∧
    (eq x y = .ok true → eq y z = .ok true → eq x z = .ok true) := by
  have key : ∀ {a b : IeeeFloat S}, a.Valid → b.Valid → (∃ e, eq a b = .ok e ∧ (e = true ↔ a.datum.le b.datum ∧ b.datum.le a.datum)) := by
    intro a b ha hb
    obtain ⟨e, l, g, k, h1, -, -, -, h5, -⟩ := C15_operators h ha hb
    exact ⟨e, h1, h5⟩
  refine ⟨?_, ?_, ?_⟩
  · obtain ⟨e, h1, h2⟩ := key hx hx
    rw [h1]
    cases n : x.isNan
    · have := Datum.le_refl ((not_nan_iff x).1 n)
      rw [h2.2 ⟨this, this⟩]; rfl
    · cases e
      · rfl
      · have := (Spec.Datum.le_nan (h2.1 rfl).1).1
        rw [← not_nan_iff] at this; rw [this] at n; cases n
  · obtain ⟨e, h1, h2⟩ := key hx hy
    obtain ⟨e', h1', h2'⟩ := key hy hx
    rw [h1, h1']
    rw [and_comm] at h2'
    rw [Except.ok.injEq, Bool.eq_iff_iff, h2, h2']
  · intro p q
    obtain ⟨e, h1, h2⟩ := key hx hy
    obtain ⟨e', h1', h2'⟩ := key hy hz
    obtain ⟨e'', h1'', h2''⟩ := key hx hz
    rw [h1, Except.ok.injEq] at p
    rw [h1', Except.ok.injEq] at q
    rw [h1'', h2''.2 ⟨Spec.Datum.le_trans (h2.1 p).1 (h2'.1 q).1, Spec.Datum.le_trans (h2'.1 q).2 (h2.1 p).2⟩]

example := C73_eq singleS_ok (x := ZERO singleS) (y := (ZERO singleS).neg) (z := ZERO singleS) (by decide) (by decide) (by decide)

/-- **C73.** The strict and the weak order are transitive, also combined. -/
theorem C73_transitive (h : S.OK) {x y z : IeeeFloat S} (hx : x.Valid) (hy : y.Valid) (hz : z.Valid) :
    (lt x y = .ok true → lt y z = .ok true → lt x z = .ok true) ∧
    (gt x y = .ok true → gt y z = .ok true → gt x z = .ok true) ∧
    (ge x y = .ok true → ge y z = .ok true → ge x z = .ok true) ∧
    (gt x y = .ok true → ge y z = .ok true → gt x z = .ok true) ∧
    (ge x y = .ok true → gt y z = .ok true → gt x z = .ok true) := by
  obtain ⟨e, l, g, k, a1, a2, a3, a4, a5, a6, a7, a8⟩ := C15_operators h hx hy
  obtain ⟨e', l', g', k', b1, b2, b3, b4, b5, b6, b7, b8⟩ := C15_operators h hy hz
  obtain ⟨e'', l'', g'', k'', c1, c2, c3, c4, c5, c6, c7, c8⟩ := C15_operators h hx hz
  simp only [a2, b2, c2, a3, b3, c3, a4, b4, c4, Except.ok.injEq, a6, b6, c6, a7, b7, c7, a8, b8, c8, Spec.Datum.lt]
  have T := @Spec.Datum.le_trans
  refine ⟨fun p q => ⟨T p.1 q.1, fun r => p.2 (T q.1 r)⟩,
    fun p q => ⟨T q.1 p.1, fun r => p.2 (T r q.1)⟩,
    fun p q => T q p, fun p q => ⟨T q p.1, fun r => p.2 (T r q)⟩,
    fun p q => ⟨T q.1 p, fun r => q.2 (T p r)⟩⟩

example := (C73_transitive singleS_ok (x := ⟨3 * 2 ^ 22, 0, .normal, true⟩) (y := ZERO singleS) (z := INFINITY singleS) (by decide) (by decide) (by decide)).1
  (by decide +kernel) (by decide +kernel)

/-- **C73.** Exactly one of `<`, `==`, `>` holds between values that are not NaN, and none if one is. -/
theorem C73_trichotomy (h : S.OK) {x y : IeeeFloat S} (hx : x.Valid) (hy : y.Valid) :
    ∃ e l g, eq x y = .ok e ∧ lt x y = .ok l ∧ gt x y = .ok g ∧
      l.toNat + e.toNat + g.toNat = if x.isNan ∨ y.isNan then 0 else 1 := by
  obtain ⟨e, l, g, k, a1, a2, a3, a4, a5, a6, a7, a8⟩ := C15_operators h hx hy
  refine ⟨e, l, g, a1, a2, a3, ?_⟩
  rcases cmp_cases h hx hy with ⟨a, b⟩ | ⟨a, b, b'⟩ | ⟨a, b, b'⟩ | ⟨a, b, b'⟩ <;>
    unfold eq at a1 <;> unfold lt at a2 <;> unfold gt at a3 <;> rw [a, M.ok_bind, Except.ok.injEq] at a1 a2 a3 <;>
    subst a1 <;> subst a2 <;> subst a3
  · rw [if_pos]
    · decide
    · rcases b with b | b
      · left; by_contra c; exact (not_nan_iff x).1 (by simpa using c) b
      · right; by_contra c; exact (not_nan_iff y).1 (by simpa using c) b
  all_goals
    have := Spec.Datum.le_nan (by first | exact b | exact b')
    rw [if_neg]
    · decide
    · rintro (c | c)
      · have q := (not_nan_iff x).2 (by tauto); rw [q] at c; cases c
      · have q := (not_nan_iff y).2 (by tauto); rw [q] at c; cases c

example := C73_trichotomy singleS_ok (x := ⟨3 * 2 ^ 22, 0, .normal, false⟩) (y := ⟨5, 128, .nan, false⟩) (by decide) (by decide)

/-- **C73.** Values that compare equal compare alike with everything (the two zeros included). -/
theorem C73_congruence (h : S.OK) {x y z : IeeeFloat S} (hx : x.Valid) (hy : y.Valid) (hz : z.Valid)
    (hxy : eq x y = .ok true) : partialCmp x z = partialCmp y z ∧ partialCmp z x = partialCmp z y := by
  obtain ⟨e, l, g, k, a1, -, -, -, a5, -⟩ := C15_operators h hx hy
  rw [a1, Except.ok.injEq] at hxy
  obtain ⟨p, q⟩ := a5.1 hxy
  obtain ⟨p1, p2⟩ := Spec.Datum.le_nan p
  have i1 : x.datum.le z.datum ↔ y.datum.le z.datum := ⟨fun k => Spec.Datum.le_trans q k, fun k => Spec.Datum.le_trans p k⟩
  have i2 : z.datum.le x.datum ↔ z.datum.le y.datum := ⟨fun k => Spec.Datum.le_trans k p, fun k => Spec.Datum.le_trans k q⟩
  have i3 : x.datum = .nan ∨ z.datum = .nan ↔ y.datum = .nan ∨ z.datum = .nan := by simp [p1, p2]
  have key : partialCmp x z = partialCmp y z := by
    obtain ⟨o, h1, h2, h3, h4, h5⟩ := C15_partial_cmp h hx hz
    obtain ⟨o', h1', h2', h3', h4', h5'⟩ := C15_partial_cmp h hy hz
    unfold Spec.Datum.lt at h3 h4 h3' h4'
    rw [i3, ← h2'] at h2
    rw [i1, i2, ← h3'] at h3
    rw [i1, i2, ← h4'] at h4
    rw [i1, i2, ← h5'] at h5
    rw [h1, h1']
    rcases o' with _ | o'
    · rw [h2.2 rfl]
    · cases o'
      · rw [h3.2 rfl]
      · rw [h5.2 rfl]
      · rw [h4.2 rfl]
  refine ⟨key, ?_⟩
  obtain ⟨o, a, b⟩ := C73_swap h hx hz
  obtain ⟨o', a', b'⟩ := C73_swap h hy hz
  rw [b, b']
  rw [a, a'] at key
  cases key
  rfl

example := C73_congruence singleS_ok (x := ZERO singleS) (y := (ZERO singleS).neg) (z := INFINITY singleS) (by decide) (by decide) (by decide) (by decide +kernel)

/-! ### Minimum and maximum -/

theorem leZ_trans {a b c : Datum} (h1 : a.leZ b) (h2 : b.leZ c) : a.leZ c := by
  refine ⟨Spec.Datum.le_trans h1.1 h2.1, fun m n ha hc hn => ?_⟩
  have l1 := h1.1
  have l2 := h2.1
  rw [ha] at l1
  rw [hc] at l2
  cases hb : b with
  | nan => rw [hb] at l2; simp [Datum.le] at l2
  | inf s => rw [hb] at l1 l2; cases s <;> simp [Datum.le] at l1 l2
  | num k v =>
    rw [hb] at l1 l2
    have : v = 0 := le_antisymm l2 l1
    subst this
    exact h1.2 m k ha hb (h2.2 k n hb hc hn)

theorem leZ_antisymm {x y : IeeeFloat S} (hx : x.Valid) (hy : y.Valid) (h1 : x.datum.leZ y.datum) (h2 : y.datum.leZ x.datum) :
    x.datum = y.datum := by
  obtain ⟨n1, n2⟩ := Spec.Datum.le_nan h1.1
  have inf : ∀ {z : IeeeFloat S}, z.category = .infinity → z.datum = .inf z.sign := fun c => by simp [datum, c]
  have fin : ∀ {z : IeeeFloat S}, z.datum ≠ .nan → z.category = .infinity ∨ z.isFinite = true := by
    intro z hz; rw [← not_nan_iff] at hz
    unfold isFinite isNan isInfinite at *
    cases c : z.category <;> simp_all
  rcases fin n1 with cx | fx <;> rcases fin n2 with cy | fy
  · have l1 := h1.1; have l2 := h2.1
    rw [inf cx, inf cy] at l1 l2 ⊢
    cases p : x.sign <;> cases q : y.sign <;> rw [p, q] at l1 l2 <;> simp [Datum.le] at l1 l2 ⊢
  · have l1 := h1.1; have l2 := h2.1
    rw [inf cx, datum_finite fy] at l1 l2
    cases p : x.sign <;> rw [p] at l1 l2 <;> simp [Datum.le] at l1 l2
  · have l1 := h1.1; have l2 := h2.1
    rw [inf cy, datum_finite fx] at l1 l2
    cases p : y.sign <;> rw [p] at l1 l2 <;> simp [Datum.le] at l1 l2
  · have l1 := h1.1; have l2 := h2.1; have z1 := h1.2; have z2 := h2.2
    rw [datum_finite fx, datum_finite fy] at l1 l2 z1 z2 ⊢
    have e : x.toRat = y.toRat := le_antisymm (α := ℚ) l1 l2
    by_cases z : x.toRat = 0
    · rw [z] at e
      rw [z, ← e] at z1 z2
      have a := z1 _ _ rfl rfl
      have b := z2 _ _ rfl rfl
      rw [z, ← e, Datum.num.injEq]
      refine ⟨?_, rfl⟩
      cases p : x.sign <;> cases q : y.sign <;> simp_all
    · have cx : x.category = .normal := by
        rcases isFinite_iff.1 fx with c | c
        · exact c
        · exact absurd (toRat_zero c) z
      have cy : y.category = .normal := by
        rcases isFinite_iff.1 fy with c | c
        · exact c
        · exact absurd (toRat_zero c) (by rw [← e]; exact z)
      rw [e, Datum.num.injEq]
      refine ⟨?_, rfl⟩
      cases p : x.sign <;> cases q : y.sign <;> try rfl
      · have := (sign_pos hx cx p).1; have := (sign_neg hy cy q).1; linarith
      · have := (sign_neg hx cx p).1; have := (sign_pos hy cy q).1; linarith

/-- **C73.** `minimum` and `maximum` are commutative, associative and absorb each other, as functions of the values
(signed zeros included) that are not NaN. -/
theorem C73_minimum_maximum (h : S.OK) {x y z : IeeeFloat S} (hx : x.Valid) (hy : y.Valid) (hz : z.Valid)
    (nx : x.isNan = false) (ny : y.isNan = false) (nz : z.isNan = false) :
    (∃ a b, minimum x y = .ok a ∧ minimum y x = .ok b ∧ a.datum = b.datum) ∧
    (∃ a b, maximum x y = .ok a ∧ maximum y x = .ok b ∧ a.datum = b.datum) ∧
    (∃ a b c d, minimum x y = .ok a ∧ minimum a z = .ok b ∧ minimum y z = .ok c ∧ minimum x c = .ok d ∧
      b.datum = d.datum) ∧
    (∃ a b c d, maximum x y = .ok a ∧ maximum a z = .ok b ∧ maximum y z = .ok c ∧ maximum x c = .ok d ∧
      b.datum = d.datum) ∧
    (∃ a b c d, maximum x y = .ok a ∧ minimum x a = .ok b ∧ b.datum = x.datum ∧ minimum x y = .ok c ∧
      maximum x c = .ok d ∧ d.datum = x.datum) ∧
    (∃ a b, minimum x y = .ok a ∧ maximum x y = .ok b ∧
      (a.datum = x.datum ∧ b.datum = y.datum ∨ a.datum = y.datum ∧ b.datum = x.datum)) := by
  have mn : ∀ {x y : IeeeFloat S}, x.Valid → y.Valid → x.isNan = false → y.isNan = false →
      ∃ r, minimum x y = .ok r ∧ (r = x ∨ r = y) ∧ r.Valid ∧ r.isNan = false ∧ r.datum.leZ x.datum ∧ r.datum.leZ y.datum := by
    intro x y hx hy nx ny
    obtain ⟨r, h1, h2, -, -, h3⟩ := C16_minimum h hx hy
    obtain ⟨h3, h4⟩ := h3 ((not_nan_iff x).1 nx) ((not_nan_iff y).1 ny)
    refine ⟨r, h1, h2, ?_, ?_, h3, h4⟩ <;> rcases h2 with rfl | rfl <;> assumption
  have mx : ∀ {x y : IeeeFloat S}, x.Valid → y.Valid → x.isNan = false → y.isNan = false →
      ∃ r, maximum x y = .ok r ∧ (r = x ∨ r = y) ∧ r.Valid ∧ r.isNan = false ∧ x.datum.leZ r.datum ∧ y.datum.leZ r.datum := by
    intro x y hx hy nx ny
    obtain ⟨r, h1, h2, -, -, h3⟩ := C16_maximum h hx hy
    obtain ⟨h3, h4⟩ := h3 ((not_nan_iff x).1 nx) ((not_nan_iff y).1 ny)
    refine ⟨r, h1, h2, ?_, ?_, h3, h4⟩ <;> rcases h2 with rfl | rfl <;> assumption
  have rf : ∀ {x : IeeeFloat S}, x.isNan = false → x.datum.leZ x.datum := fun nx => leZ_refl ((not_nan_iff _).1 nx)
  have T := @leZ_trans
  obtain ⟨a, a1, a2, a3, a4, a5, a6⟩ := mn hx hy nx ny
  obtain ⟨b, b1, b2, b3, b4, b5, b6⟩ := mn hy hx ny nx
  obtain ⟨c, c1, c2, c3, c4, c5, c6⟩ := mx hx hy nx ny
  obtain ⟨d, d1, d2, d3, d4, d5, d6⟩ := mx hy hx ny nx
  refine ⟨⟨a, b, a1, b1, leZ_antisymm a3 b3 ?_ ?_⟩, ⟨c, d, c1, d1, leZ_antisymm c3 d3 ?_ ?_⟩, ?_, ?_, ?_, ?_⟩
  · rcases b2 with rfl | rfl <;> assumption
  · rcases a2 with rfl | rfl <;> assumption
  · rcases c2 with rfl | rfl <;> assumption
  · rcases d2 with rfl | rfl <;> assumption
  · obtain ⟨e, e1, e2, e3, e4, e5, e6⟩ := mn a3 hz a4 nz
    obtain ⟨f, f1, f2, f3, f4, f5, f6⟩ := mn hy hz ny nz
    obtain ⟨g, g1, g2, g3, g4, g5, g6⟩ := mn hx f3 nx f4
    refine ⟨a, e, f, g, a1, e1, f1, g1, leZ_antisymm e3 g3 ?_ ?_⟩
    · have p := T e5 a5
      have q := T e5 a6
      rcases g2 with rfl | rfl
      · exact p
      · rcases f2 with rfl | rfl
        · exact q
        · exact e6
    · have p := T g6 f5
      have q := T g6 f6
      rcases e2 with rfl | rfl
      · rcases a2 with rfl | rfl
        · exact g5
        · exact p
      · exact q
  · obtain ⟨e, e1, e2, e3, e4, e5, e6⟩ := mx c3 hz c4 nz
    obtain ⟨f, f1, f2, f3, f4, f5, f6⟩ := mx hy hz ny nz
    obtain ⟨g, g1, g2, g3, g4, g5, g6⟩ := mx hx f3 nx f4
    refine ⟨c, e, f, g, c1, e1, f1, g1, leZ_antisymm e3 g3 ?_ ?_⟩
    · have p := T f5 g6
      have q := T f6 g6
      rcases e2 with rfl | rfl
      · rcases c2 with rfl | rfl
        · exact g5
        · exact p
      · exact q
    · have p := T c5 e5
      have q := T c6 e5
      rcases g2 with rfl | rfl
      · exact p
      · rcases f2 with rfl | rfl
        · exact q
        · exact e6
  · obtain ⟨e, e1, e2, e3, e4, e5, e6⟩ := mn hx c3 nx c4
    obtain ⟨f, f1, f2, f3, f4, f5, f6⟩ := mx hx a3 nx a4
    refine ⟨c, e, a, f, c1, e1, leZ_antisymm e3 hx e5 ?_, a1, f1, leZ_antisymm f3 hx ?_ f5⟩
    · rcases e2 with rfl | rfl
      · exact rf nx
      · exact c5
    · rcases f2 with rfl | rfl
      · exact rf nx
      · exact a5
  · refine ⟨a, c, a1, c1, ?_⟩
    rcases a2 with rfl | rfl <;> rcases c2 with rfl | rfl
    · exact Or.inl ⟨rfl, leZ_antisymm c3 hy a6 c6⟩
    · exact Or.inl ⟨rfl, rfl⟩
    · exact Or.inr ⟨rfl, rfl⟩
    · exact Or.inl ⟨leZ_antisymm a3 hx a5 c5, rfl⟩

example := C73_minimum_maximum singleS_ok (x := ZERO singleS) (y := (ZERO singleS).neg) (z := INFINITY singleS) (by decide) (by decide) (by decide) rfl rfl rfl

/-- **C73.** `min` and `max` return the two operands between them when neither is NaN, are commutative up to `==`, and
with one NaN operand both return the other operand. -/
theorem C73_min_max (h : S.OK) {x y : IeeeFloat S} (hx : x.Valid) (hy : y.Valid) :
    (x.isNan = false → y.isNan = false → ∃ a b a' b', IeeeFloat.min x y = .ok a ∧ IeeeFloat.max x y = .ok b ∧
      IeeeFloat.min y x = .ok a' ∧ IeeeFloat.max y x = .ok b' ∧ eq a a' = .ok true ∧ eq b b' = .ok true ∧
      ge b a = .ok true ∧ (eq a x = .ok true ∧ eq b y = .ok true ∨ eq a y = .ok true ∧ eq b x = .ok true)) ∧
    (x.isNan = true → IeeeFloat.min x y = .ok y ∧ IeeeFloat.max x y = .ok y) ∧
    (x.isNan = false → y.isNan = true → IeeeFloat.min x y = .ok x ∧ IeeeFloat.max x y = .ok x) := by
  refine ⟨fun nx ny => ?_, fun nx => ?_, fun nx ny => ?_⟩
  · have nx' := (not_nan_iff x).1 nx
    have ny' := (not_nan_iff y).1 ny
    have eqI : ∀ {a b : IeeeFloat S}, a.Valid → b.Valid → a.datum.le b.datum → b.datum.le a.datum → eq a b = .ok true := by
      intro a b ha hb p q
      obtain ⟨e, l, g, k, h1, -, -, -, h5, -⟩ := C15_operators h ha hb
      rw [h1, h5.2 ⟨p, q⟩]
    have geI : ∀ {a b : IeeeFloat S}, a.Valid → b.Valid → b.datum.le a.datum → ge a b = .ok true := by
      intro a b ha hb p
      obtain ⟨e, l, g, k, -, -, -, h1, -, -, -, h5⟩ := C15_operators h ha hb
      rw [h1, h5.2 p]
    obtain ⟨a, a1, a2, -, -, a3⟩ := C16_min h hx hy
    obtain ⟨b, b1, b2, -, -, b3⟩ := C16_max h hx hy
    obtain ⟨c, c1, c2, -, -, c3⟩ := C16_min h hy hx
    obtain ⟨d, d1, d2, -, -, d3⟩ := C16_max h hy hx
    obtain ⟨a3, a4⟩ := a3 nx' ny'
    obtain ⟨b3, b4⟩ := b3 nx' ny'
    obtain ⟨c3, c4⟩ := c3 ny' nx'
    obtain ⟨d3, d4⟩ := d3 ny' nx'
    have va : a.Valid := by rcases a2 with rfl | rfl <;> assumption
    have vb : b.Valid := by rcases b2 with rfl | rfl <;> assumption
    have vc : c.Valid := by rcases c2 with rfl | rfl <;> assumption
    have vd : d.Valid := by rcases d2 with rfl | rfl <;> assumption
    have rx := Datum.le_refl nx'
    have ry := Datum.le_refl ny'
    refine ⟨a, b, c, d, a1, b1, c1, d1, eqI va vc ?_ ?_, eqI vb vd ?_ ?_, geI vb va (Spec.Datum.le_trans a3 b3), ?_⟩
    · rcases c2 with rfl | rfl <;> assumption
    · rcases a2 with rfl | rfl <;> assumption
    · rcases b2 with rfl | rfl <;> assumption
    · rcases d2 with rfl | rfl <;> assumption
    · rcases a2 with rfl | rfl <;> rcases b2 with rfl | rfl
      · exact Or.inl ⟨eqI va hx rx rx, eqI vb hy a4 b4⟩
      · exact Or.inl ⟨eqI va hx rx rx, eqI vb hy ry ry⟩
      · exact Or.inr ⟨eqI va hy ry ry, eqI vb hx rx rx⟩
      · exact Or.inl ⟨eqI va hx (by assumption) (by assumption), eqI vb hy ry ry⟩
  · unfold IeeeFloat.min IeeeFloat.max; simp [nx]
  · unfold IeeeFloat.min IeeeFloat.max; simp [nx, ny]

/-- The two zeros meet the hypotheses: they are equal for `==` and different data, and `minimum` picks `-0`. -/
example : (ZERO doubleS).Valid ∧ ((ZERO doubleS).neg).Valid ∧ eq (ZERO doubleS) (ZERO doubleS).neg = .ok true ∧
    minimum (ZERO doubleS) (ZERO doubleS).neg = .ok (ZERO doubleS).neg ∧
    minimum (ZERO doubleS).neg (ZERO doubleS) = .ok (ZERO doubleS).neg :=
  ⟨by decide +kernel, by decide +kernel, by decide +kernel, by decide +kernel, by decide +kernel⟩

/-- **C15.** `<=` agrees with the order of the operands; it is `<` or `==`, and `>=` with the operands exchanged. -/
theorem C15_le (h : S.OK) {x y : IeeeFloat S} (hx : x.Valid) (hy : y.Valid) :
    ∃ l, le x y = .ok l ∧ (l = true ↔ x.datum.le y.datum) ∧ ge y x = .ok l ∧
      ∃ a b, lt x y = .ok a ∧ eq x y = .ok b ∧ l = (a || b) := by
  obtain ⟨o, a, b⟩ := C73_swap h hx hy
  obtain ⟨o', a', -, p2, -, p4⟩ := C15_partial_cmp h hx hy
  rw [a, Except.ok.injEq] at a'
  subst a'
  unfold le ge lt eq
  rw [a, b]
  refine ⟨_, rfl, ?_, ?_, _, _, rfl, rfl, by simp⟩
  · rw [decide_eq_true_iff, p2, p4]
    unfold Datum.lt
    constructor
    · rintro (c | c) <;> exact c.1
    · intro c; by_cases d : y.datum.le x.datum
      · exact Or.inr ⟨c, d⟩
      · exact Or.inl ⟨c, d⟩
  · rcases o with _ | o
    · rfl
    · cases o <;> rfl

/-- NaN is not `<=` itself; the zeros are `<=` each other. -/
example : le (NAN doubleS) (NAN doubleS) = .ok false ∧ le (ZERO doubleS) (ZERO doubleS).neg = .ok true :=
  ⟨by decide +kernel, by decide +kernel⟩

/-- **C73.** `min` and `max` are associative and absorb each other, up to `==`, on values that are not NaN. -/
theorem C73_min_max_laws (h : S.OK) {x y z : IeeeFloat S} (hx : x.Valid) (hy : y.Valid) (hz : z.Valid)
    (nx : x.isNan = false) (ny : y.isNan = false) (nz : z.isNan = false) :
    (∃ a b c d, IeeeFloat.min x y = .ok a ∧ IeeeFloat.min a z = .ok b ∧ IeeeFloat.min y z = .ok c ∧ IeeeFloat.min x c = .ok d ∧
      eq b d = .ok true) ∧
    (∃ a b c d, IeeeFloat.max x y = .ok a ∧ IeeeFloat.max a z = .ok b ∧ IeeeFloat.max y z = .ok c ∧ IeeeFloat.max x c = .ok d ∧
      eq b d = .ok true) ∧
    (∃ a b c d, IeeeFloat.max x y = .ok a ∧ IeeeFloat.min x a = .ok b ∧ eq b x = .ok true ∧ IeeeFloat.min x y = .ok c ∧
      IeeeFloat.max x c = .ok d ∧ eq d x = .ok true) := by
  have eqI : ∀ {a b : IeeeFloat S}, a.Valid → b.Valid → a.datum.le b.datum → b.datum.le a.datum → eq a b = .ok true := by
    intro a b ha hb p q
    obtain ⟨e, l, g, k, h1, -, -, -, h5, -⟩ := C15_operators h ha hb
    rw [h1, h5.2 ⟨p, q⟩]
  -- what `min` and `max` give, as bounds
  have lo : ∀ {u v : IeeeFloat S}, u.Valid → v.Valid → u.isNan = false → v.isNan = false → ∃ a, IeeeFloat.min u v = .ok a ∧ a.Valid ∧ a.isNan = false ∧
      a.datum.le u.datum ∧ a.datum.le v.datum ∧ (∀ w : Datum, w.le u.datum → w.le v.datum → w.le a.datum) := by
    intro u v hu hv nu nv
    obtain ⟨a, a1, a2, -, -, a3⟩ := C16_min h hu hv
    obtain ⟨a3, a4⟩ := a3 ((not_nan_iff u).1 nu) ((not_nan_iff v).1 nv)
    refine ⟨a, a1, ?_, ?_, a3, a4, ?_⟩ <;> rcases a2 with rfl | rfl <;> first | assumption | (intro w p q; assumption)
  have up : ∀ {u v : IeeeFloat S}, u.Valid → v.Valid → u.isNan = false → v.isNan = false → ∃ a, IeeeFloat.max u v = .ok a ∧ a.Valid ∧ a.isNan = false ∧
      u.datum.le a.datum ∧ v.datum.le a.datum ∧ (∀ w : Datum, u.datum.le w → v.datum.le w → a.datum.le w) := by
    intro u v hu hv nu nv
    obtain ⟨a, a1, a2, -, -, a3⟩ := C16_max h hu hv
    obtain ⟨a3, a4⟩ := a3 ((not_nan_iff u).1 nu) ((not_nan_iff v).1 nv)
    refine ⟨a, a1, ?_, ?_, a3, a4, ?_⟩ <;> rcases a2 with rfl | rfl <;> first | assumption | (intro w p q; assumption)
  have rx := Datum.le_refl ((not_nan_iff x).1 nx)
  obtain ⟨a, a1, a2, a3, a4, a5, a6⟩ := lo hx hy nx ny
  obtain ⟨b, b1, b2, b3, b4, b5, b6⟩ := lo a2 hz a3 nz
  obtain ⟨c, c1, c2, c3, c4, c5, c6⟩ := lo hy hz ny nz
  obtain ⟨d, d1, d2, d3, d4, d5, d6⟩ := lo hx c2 nx c3
  obtain ⟨e, e1, e2, e3, e4, e5, e6⟩ := up hx hy nx ny
  obtain ⟨f, f1, f2, f3, f4, f5, f6⟩ := up e2 hz e3 nz
  obtain ⟨g, g1, g2, g3, g4, g5, g6⟩ := up hy hz ny nz
  obtain ⟨k, k1, k2, k3, k4, k5, k6⟩ := up hx g2 nx g3
  obtain ⟨l, l1, l2, l3, l4, l5, l6⟩ := lo hx e2 nx e3
  obtain ⟨m, m1, m2, m3, m4, m5, m6⟩ := up hx a2 nx a3
  have tr : ∀ {p q r : Datum}, p.le q → q.le r → p.le r := fun u v => Spec.Datum.le_trans u v
  refine ⟨⟨a, b, c, d, a1, b1, c1, d1, eqI b2 d2 ?_ ?_⟩, ⟨e, f, g, k, e1, f1, g1, k1, eqI f2 k2 ?_ ?_⟩,
    ⟨e, l, a, m, e1, l1, eqI l2 hx l4 (l6 _ rx e4), a1, m1, eqI m2 hx (m6 _ rx a4) m4⟩⟩
  · exact d6 _ (tr b4 a4) (c6 _ (tr b4 a5) b5)
  · exact b6 _ (a6 _ d4 (tr d5 c4)) (tr d5 c5)
  · exact f6 _ (e6 _ k4 (tr g4 k5)) (tr g5 k5)
  · exact k6 _ (tr e4 f4) (g6 _ (tr e5 f4) f5)

example := C73_min_max_laws doubleS_ok (x := ZERO doubleS) (y := (ZERO doubleS).neg) (z := largest doubleS) (by decide) (by decide) (by decide) rfl rfl rfl

end Apf
