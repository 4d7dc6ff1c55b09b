import Verif.Spec.Sticky
import Verif.Props.Accumulate
import Verif.Props.Quiet
import Verif.Props.Total

/-! # C116: what the accumulated flags of a computation tell -/

namespace Apf
open IeeeFloat Spec

variable {S : Sem}

/-- One operation on `x` and `y` with exact value `v`, defined if `ok`. -/
structure FlagStep (x y : IeeeFloat S) (ok : Prop) (v : ℚ) (t : StatusAnd (IeeeFloat S)) : Prop where
  valid : t.value.Valid
  exact : x.isFinite = true → y.isFinite = true → ok → (t.status = Status.OK ↔ S.fmt.Finite v)
  value : x.isFinite = true → y.isFinite = true → ok → t.status = Status.OK → t.value.isFinite = true ∧ t.value.toRat = v
  over : x.isFinite = true → y.isFinite = true → ok → t.value.isFinite = false → t.status.overflow = true
  bad : x.isFinite = true → y.isFinite = true → ¬ ok → t.status.divByZero = true ∨ t.status.invalidOp = true
  nan : t.value.isNan = true ↔ (x.isNan = true ∨ y.isNan = true ∨ (t.status.invalidOp = true ∧ x.isNan = false ∧ y.isNan = false) ∨
    (S.nonfinite = .nanOnly ∧ (t.status.overflow = true ∨ t.status.divByZero = true)))
  invalid : t.status.invalidOp = true → t.value.isNan = true
  under : t.status.underflow = true → t.status.inexact = true
  inexact : t.status.overflow = true → t.status.inexact = true

theorem finite_not_nan {x : IeeeFloat S} (f : x.isFinite = true) : x.isNan = false := by
  rcases isFinite_iff.1 f with c | c <;> simp [isNan, c]

theorem regular_of_not_nan {x : IeeeFloat S} (n : x.isNan = false) : x.Regular := fun _ k => by rw [n] at k; cases k

/-- The step from its parts. -/
theorem FlagStep.of (h : S.OK) {x y : IeeeFloat S} {ok : Prop} {v : ℚ} {t : StatusAnd (IeeeFloat S)} (hv : t.value.Valid)
    (hr : x.isFinite = true → y.isFinite = true → ok → ∃ om zs, Rounds S om v zs t)
    (hb : x.isFinite = true → y.isFinite = true → ¬ ok → t.status = Status.DIV_BY_ZERO ∨ t.status = Status.INVALID_OP)
    (hs : ¬ (x.isFinite = true ∧ y.isFinite = true) → t.status = Status.OK ∨ t.status = Status.INVALID_OP)
    (hn : x.isNan = false → y.isNan = false → NanRule (x.isNan = true ∨ y.isNan = true) t)
    (hn' : x.isNan = true ∨ y.isNan = true → t.value.isNan = true) : FlagStep x y ok v t := by
  have fl : (t.status.underflow = true → t.status.inexact = true) ∧ (t.status.overflow = true → t.status.inexact = true) := by
    by_cases hf : x.isFinite = true ∧ y.isFinite = true
    · by_cases ho : ok
      · obtain ⟨om, zs, k⟩ := hr hf.1 hf.2 ho
        exact ⟨(C12_status_discipline h k).2.1, (C12_status_discipline h k).1⟩
      · rcases hb hf.1 hf.2 ho with e | e <;> rw [e] <;> simp [Status.DIV_BY_ZERO, Status.INVALID_OP]
    · rcases hs hf with e | e <;> rw [e] <;> simp [Status.OK, Status.INVALID_OP]
  refine ⟨hv, fun fx fy ho => ?_, fun fx fy ho => ?_, fun fx fy ho e => ?_, fun fx fy ho => ?_, ?_, fun e => ?_, fl.1, fl.2⟩
  · obtain ⟨om, zs, k⟩ := hr fx fy ho
    refine ⟨fun e => ?_, fun e => (k.exact e.1 e.2).1⟩
    obtain ⟨f, q⟩ := (C12_status_discipline h k).2.2.2.2.1.1 e
    rw [← q]
    exact ⟨grid_toRat h hv f, abs_toRat_le h hv f⟩
  · obtain ⟨om, zs, k⟩ := hr fx fy ho
    exact (C12_status_discipline h k).2.2.2.2.1.1
  · obtain ⟨om, zs, k⟩ := hr fx fy ho
    exact (C12_status_discipline h k).2.2.2.2.2.1.2 e
  · rcases hb fx fy ho with e | e <;> rw [e] <;> simp [Status.DIV_BY_ZERO, Status.INVALID_OP]
  · cases nx : x.isNan
    · cases ny : y.isNan
      · rw [(hn nx ny).2]
        simp [nx, ny]
      · simp [hn' (Or.inr ny)]
    · simp [hn' (Or.inl nx)]
  · cases nx : x.isNan
    · cases ny : y.isNan
      · exact (hn nx ny).2.2 (Or.inr (Or.inl e))
      · exact hn' (Or.inr ny)
    · exact hn' (Or.inl nx)

theorem nan_of_quieted {x y : IeeeFloat S} (q : IsQuieted x y) : y.isNan = true := by simp [isNan, q.1]

theorem cat_of_not_finite {x : IeeeFloat S} (n : x.isNan = false) (f : ¬ x.isFinite = true) : x.category = .infinity := by
  rcases category_cases x with c | c | c
  · simp [isNan, c] at n
  · exact c
  · exact absurd c f

theorem cat_ne_nan {x : IeeeFloat S} (n : x.isNan = false) : x.category ≠ .nan := fun c => by simp [isNan, c] at n

theorem isNan_neg (x : IeeeFloat S) : x.neg.isNan = x.isNan := by rw [neg_eq]; rfl
theorem isFinite_neg' (x : IeeeFloat S) : x.neg.isFinite = x.isFinite := by rw [neg_eq]; rfl

theorem add_inf_status {x y : IeeeFloat S} (nx : x.isNan = false) (ny : y.isNan = false) (hf : ¬ (x.isFinite = true ∧ y.isFinite = true)) {mode : Round}
    {t : StatusAnd (IeeeFloat S)} (ht : addR x y mode = .ok t) : t.status = Status.OK ∨ t.status = Status.INVALID_OP := by
  by_cases fx : x.isFinite = true
  · have cy := cat_of_not_finite ny (fun k => hf ⟨fx, k⟩)
    rw [(C10_add_inf_finite mode).2 fx cy] at ht
    injection ht with ht
    exact Or.inl (by rw [← ht])
  · have cx := cat_of_not_finite nx fx
    by_cases fy : y.isFinite = true
    · rw [(C10_add_inf_finite mode).1 cx fy] at ht
      injection ht with ht
      exact Or.inl (by rw [← ht])
    · obtain ⟨r, r1, r2, r3⟩ := C10_add_inf_inf cx (cat_of_not_finite ny fy) mode
      rw [ht] at r1
      injection r1 with r1
      subst r1
      by_cases e : x.sign = y.sign
      · exact Or.inl (by rw [r3 e])
      · exact Or.inr (r2 e).1

theorem flag_add (h : S.OK) {x y : IeeeFloat S} (hx : x.Valid) (hy : y.Valid) (mode : Round) :
    ∃ t, addR x y mode = .ok t ∧ FlagStep x y True (x.toRat + y.toRat) t := by
  obtain ⟨t, t1, t2⟩ := total_add h hx hy mode
  refine ⟨t, t1, .of h t2 (fun fx fy _ => ?_) (fun _ _ k => absurd trivial k) (fun hf => ?_) (fun nx ny => ?_) (fun hn => ?_)⟩
  · obtain ⟨om, o⟩ := exists_effective S mode (x.toRat + y.toRat)
    obtain ⟨r, r1, -, r3⟩ := addR_eff h hx hy fx fy mode o
    rw [t1] at r1
    injection r1 with r1
    subst r1
    exact ⟨_, _, r3⟩
  · by_cases hn : x.category = .nan ∨ y.category = .nan
    · obtain ⟨r, ⟨r1, -⟩, -, -, r3⟩ := C11_nan_propagation h hx hy mode hn
      rw [t1] at r1
      injection r1 with r1
      subst r1
      rw [r3]
      split_ifs <;> simp
    · rw [not_or] at hn
      exact add_inf_status (by simp [isNan, hn.1]) (by simp [isNan, hn.2]) hf t1
  · obtain ⟨⟨r, r1, r2⟩, -⟩ := C74_binary h hx hy (regular_of_not_nan nx) (regular_of_not_nan ny) mode
    rw [t1] at r1
    injection r1 with r1
    exact r1 ▸ r2
  · obtain ⟨r, ⟨r1, -⟩, -, r2, -⟩ := C11_nan_propagation h hx hy mode (by simpa [isNan] using hn)
    rw [t1] at r1
    injection r1 with r1
    exact r1 ▸ nan_of_quieted r2

theorem flag_sub (h : S.OK) {x y : IeeeFloat S} (hx : x.Valid) (hy : y.Valid) (mode : Round) :
    ∃ t, subR x y mode = .ok t ∧ FlagStep x y True (x.toRat - y.toRat) t := by
  obtain ⟨t, t1, t2⟩ := total_sub h hx hy mode
  refine ⟨t, t1, .of h t2 (fun fx fy _ => ?_) (fun _ _ k => absurd trivial k) (fun hf => ?_) (fun nx ny => ?_) (fun hn => ?_)⟩
  · obtain ⟨om, o⟩ := exists_effective S mode (x.toRat - y.toRat)
    obtain ⟨r, r1, -, r3⟩ := subR_eff h hx hy fx fy mode o
    rw [t1] at r1
    injection r1 with r1
    subst r1
    exact ⟨_, _, r3⟩
  · by_cases hn : x.category = .nan ∨ y.category = .nan
    · obtain ⟨r, ⟨-, r1, -⟩, -, -, r3⟩ := C11_nan_propagation h hx hy mode hn
      rw [t1] at r1
      injection r1 with r1
      subst r1
      rw [r3]
      split_ifs <;> simp
    · rw [not_or] at hn
      rw [C10_sub hn.1 hn.2] at t1
      exact add_inf_status (by simp [isNan, hn.1]) (by rw [isNan_neg]; simp [isNan, hn.2]) (by rwa [isFinite_neg']) t1
  · obtain ⟨-, ⟨r, r1, r2⟩, -⟩ := C74_binary h hx hy (regular_of_not_nan nx) (regular_of_not_nan ny) mode
    rw [t1] at r1
    injection r1 with r1
    exact r1 ▸ r2
  · obtain ⟨r, ⟨-, r1, -⟩, -, r2, -⟩ := C11_nan_propagation h hx hy mode (by simpa [isNan] using hn)
    rw [t1] at r1
    injection r1 with r1
    exact r1 ▸ nan_of_quieted r2

theorem flag_mul (h : S.OK) {x y : IeeeFloat S} (hx : x.Valid) (hy : y.Valid) (mode : Round) :
    ∃ t, mulR x y mode = .ok t ∧ FlagStep x y True (x.toRat * y.toRat) t := by
  obtain ⟨t, t1, t2⟩ := total_mul h hx hy mode
  refine ⟨t, t1, .of h t2 (fun fx fy _ => ?_) (fun _ _ k => absurd trivial k) (fun hf => ?_) (fun nx ny => ?_) (fun hn => ?_)⟩
  · obtain ⟨om, o⟩ := exists_effective S mode (x.toRat * y.toRat)
    obtain ⟨r, r1, -, r3⟩ := mulR_eff h hx hy fx fy mode o
    rw [t1] at r1
    injection r1 with r1
    subst r1
    exact ⟨_, _, r3⟩
  · by_cases hn : x.category = .nan ∨ y.category = .nan
    · obtain ⟨r, ⟨-, -, r1, -⟩, -, -, r3⟩ := C11_nan_propagation h hx hy mode hn
      rw [t1] at r1
      injection r1 with r1
      subst r1
      rw [r3]
      split_ifs <;> simp
    · rw [not_or] at hn
      have hi : x.category = .infinity ∨ y.category = .infinity := by
        by_contra k
        rw [not_or] at k
        exact hf ⟨by rcases category_cases x with c | c | c; exacts [absurd c hn.1, absurd c k.1, c],
          by rcases category_cases y with c | c | c; exacts [absurd c hn.2, absurd c k.2, c]⟩
      obtain ⟨r, r1, r2, r3⟩ := C10_mul_inf hx hy mode hn.1 hn.2 hi
      rw [t1] at r1
      injection r1 with r1
      subst r1
      by_cases z : x.category = .zero ∨ y.category = .zero
      · exact Or.inr (r2 z).1
      · rw [not_or] at z
        exact Or.inl (r3 z.1 z.2).1
  · obtain ⟨-, -, ⟨r, r1, r2⟩, -⟩ := C74_binary h hx hy (regular_of_not_nan nx) (regular_of_not_nan ny) mode
    rw [t1] at r1
    injection r1 with r1
    exact r1 ▸ r2
  · obtain ⟨r, ⟨-, -, r1, -⟩, -, r2, -⟩ := C11_nan_propagation h hx hy mode (by simpa [isNan] using hn)
    rw [t1] at r1
    injection r1 with r1
    exact r1 ▸ nan_of_quieted r2

theorem flag_div (h : S.OK) {x y : IeeeFloat S} (hx : x.Valid) (hy : y.Valid) (mode : Round) :
    ∃ t, divR x y mode = .ok t ∧ FlagStep x y (y.toRat ≠ 0) (x.toRat / y.toRat) t := by
  obtain ⟨t, t1, t2⟩ := total_div h hx hy mode
  obtain ⟨d1, d2, d3, d4⟩ := C10_div_special (x := x) (y := y) mode
  refine ⟨t, t1, .of h t2 (fun fx fy y0 => ?_) (fun fx fy y0 => ?_) (fun hf => ?_) (fun nx ny => ?_) (fun hn => ?_)⟩
  · obtain ⟨om, o⟩ := exists_effective S mode (x.toRat / y.toRat)
    obtain ⟨r, r1, -, r3⟩ := divR_eff h hx hy fx fy y0 mode o
    rw [t1] at r1
    injection r1 with r1
    subst r1
    exact ⟨_, _, r3⟩
  · have cy : y.category = .zero := by
      rcases isFinite_iff.1 fy with c | c
      · exact absurd (fun e => (toRat_ne_zero hy c) e) y0
      · exact c
    rcases isFinite_iff.1 fx with c | c
    · obtain ⟨r, r1, r2, -⟩ := d2 c cy
      rw [t1] at r1
      injection r1 with r1
      exact Or.inl (r1 ▸ r2)
    · obtain ⟨r, r1, r2⟩ := d1 (Or.inr ⟨c, cy⟩)
      rw [t1] at r1
      injection r1 with r1
      exact Or.inr (r1 ▸ r2.1)
  · by_cases hn : x.category = .nan ∨ y.category = .nan
    · obtain ⟨r, ⟨-, -, -, r1⟩, -, -, r3⟩ := C11_nan_propagation h hx hy mode hn
      rw [t1] at r1
      injection r1 with r1
      subst r1
      rw [r3]
      split_ifs <;> simp
    · rw [not_or] at hn
      have fin : ∀ z : IeeeFloat S, z.category ≠ .nan → z.category ≠ .infinity → z.isFinite = true := fun z n k => by
        rcases category_cases z with c | c | c
        exacts [absurd c n, absurd c k, c]
      by_cases cx : x.category = .infinity
      · by_cases cy : y.category = .infinity
        · obtain ⟨r, r1, r2⟩ := d1 (Or.inl ⟨cx, cy⟩)
          rw [t1] at r1
          injection r1 with r1
          exact Or.inr (r1 ▸ r2.1)
        · obtain ⟨r, r1, r2, -⟩ := d3 cx (fin y hn.2 cy)
          rw [t1] at r1
          injection r1 with r1
          exact Or.inl (r1 ▸ r2)
      · have fx := fin x hn.1 cx
        have cy : y.category = .infinity := by
          by_contra cy
          exact hf ⟨fx, fin y hn.2 cy⟩
        obtain ⟨r, r1, r2, -⟩ := d4 fx cy
        rw [t1] at r1
        injection r1 with r1
        exact Or.inl (r1 ▸ r2)
  · obtain ⟨-, -, -, ⟨r, r1, r2⟩, -⟩ := C74_binary h hx hy (regular_of_not_nan nx) (regular_of_not_nan ny) mode
    rw [t1] at r1
    injection r1 with r1
    exact r1 ▸ r2
  · obtain ⟨r, ⟨-, -, -, r1⟩, -, r2, -⟩ := C11_nan_propagation h hx hy mode (by simpa [isNan] using hn)
    rw [t1] at r1
    injection r1 with r1
    exact r1 ▸ nan_of_quieted r2

/-- What the accumulated flags tell of a computation with the exact value `v`; `steps` says that the exact results of all steps are numbers of the format. -/
structure FlagsTell (steps : Prop) (v : ℚ) (r : StatusAnd (IeeeFloat S)) : Prop where
  valid : r.value.Valid
  /-- no flag: exactly if the exact results of all steps are numbers of the format -/
  ok_iff : r.status = Status.OK ↔ steps
  /-- and then the result is the exact value -/
  ok_value : r.status = Status.OK → r.value.isFinite = true ∧ r.value.toRat = v
  /-- a NaN: exactly if `INVALID_OP` was raised (in a format without infinities, also `OVERFLOW` or `DIV_BY_ZERO`) -/
  nan_iff : r.value.isNan = true ↔ r.status.invalidOp = true ∨ (S.nonfinite = .nanOnly ∧ (r.status.overflow = true ∨ r.status.divByZero = true))
  /-- not finite: only after one of the three -/
  not_finite : r.value.isFinite = false → r.status.overflow = true ∨ r.status.divByZero = true ∨ r.status.invalidOp = true
  /-- the flags `UNDERFLOW` and `OVERFLOW` come with `INEXACT` -/
  inexact : r.status.underflow = true ∨ r.status.overflow = true → r.status.inexact = true

@[simp] theorem Status.or_underflow (s t : Status) : (s ||| t).underflow = (s.underflow || t.underflow) := rfl

theorem status_or_ok {a b c : Status} : a ||| b ||| c = Status.OK ↔ a = Status.OK ∧ b = Status.OK ∧ c = Status.OK := by
  obtain ⟨a1, a2, a3, a4, a5⟩ := a
  obtain ⟨b1, b2, b3, b4, b5⟩ := b
  obtain ⟨c1, c2, c3, c4, c5⟩ := c
  simp only [Status.OK, HOr.hOr, OrOp.or, Status.or, Status.mk.injEq]
  cases a1 <;> cases a2 <;> cases a3 <;> cases a4 <;> cases a5 <;> simp <;> tauto

theorem FlagsTell.combine {A B ok okw : Prop} {va vb v w : ℚ} {r s t : StatusAnd (IeeeFloat S)} (hr : FlagsTell A va r) (hs : FlagsTell B vb s)
    (ht : FlagStep r.value s.value ok v t) (hw : r.value.toRat = va → s.value.toRat = vb → v = w ∧ (ok ↔ okw)) :
    FlagsTell (A ∧ B ∧ okw ∧ S.fmt.Finite w) w ⟨r.status ||| s.status ||| t.status, t.value⟩ := by
  refine ⟨ht.valid, ?_, ?_, ?_, ?_, ?_⟩
  · rw [status_or_ok]
    constructor
    · rintro ⟨e1, e2, e3⟩
      obtain ⟨f1, q1⟩ := hr.ok_value e1
      obtain ⟨f2, q2⟩ := hs.ok_value e2
      obtain ⟨rfl, k⟩ := hw q1 q2
      have ho : ok := by
        by_contra ho
        have := ht.bad f1 f2 ho
        rw [e3] at this
        simp [Status.OK] at this
      exact ⟨hr.ok_iff.1 e1, hs.ok_iff.1 e2, k.1 ho, (ht.exact f1 f2 ho).1 e3⟩
    · rintro ⟨e1, e2, e3, e4⟩
      have e1 := hr.ok_iff.2 e1
      have e2 := hs.ok_iff.2 e2
      obtain ⟨f1, q1⟩ := hr.ok_value e1
      obtain ⟨f2, q2⟩ := hs.ok_value e2
      obtain ⟨rfl, k⟩ := hw q1 q2
      exact ⟨e1, e2, (ht.exact f1 f2 (k.2 e3)).2 e4⟩
  · intro e
    obtain ⟨e1, e2, e3⟩ := status_or_ok.1 e
    obtain ⟨f1, q1⟩ := hr.ok_value e1
    obtain ⟨f2, q2⟩ := hs.ok_value e2
    obtain ⟨rfl, k⟩ := hw q1 q2
    have ho : ok := by
      by_contra ho
      have := ht.bad f1 f2 ho
      rw [e3] at this
      simp [Status.OK] at this
    exact ht.value f1 f2 ho e3
  · have h1 := hr.nan_iff
    have h2 := hs.nan_iff
    have h3 := ht.nan
    have h4 := ht.invalid
    simp only [Status.or_invalidOp, Status.or_overflow, Status.or_divByZero, Bool.or_eq_true]
    constructor
    · intro k
      rcases h3.1 k with k | k | k | ⟨n, k | k⟩
      · rcases h1.1 k with k | ⟨n, k | k⟩ <;> simp only [k, true_or, or_true, and_true] <;> exact Or.inr n
      · rcases h2.1 k with k | ⟨n, k | k⟩ <;> simp only [k, true_or, or_true, and_true] <;> exact Or.inr n
      · simp [k]
      · simp [k, n]
      · simp [k, n]
    · rintro (((k | k) | k) | ⟨n, ((k | k) | k) | ((k | k) | k)⟩)
      all_goals first
        | exact h4 k
        | exact h3.2 (Or.inl (h1.2 (Or.inl k)))
        | exact h3.2 (Or.inr (Or.inl (h2.2 (Or.inl k))))
        | exact h3.2 (Or.inl (h1.2 (Or.inr ⟨n, Or.inl k⟩)))
        | exact h3.2 (Or.inl (h1.2 (Or.inr ⟨n, Or.inr k⟩)))
        | exact h3.2 (Or.inr (Or.inl (h2.2 (Or.inr ⟨n, Or.inl k⟩))))
        | exact h3.2 (Or.inr (Or.inl (h2.2 (Or.inr ⟨n, Or.inr k⟩))))
        | exact h3.2 (Or.inr (Or.inr (Or.inr ⟨n, Or.inl k⟩)))
        | exact h3.2 (Or.inr (Or.inr (Or.inr ⟨n, Or.inr k⟩)))
  · intro f
    simp only [Status.or_invalidOp, Status.or_overflow, Status.or_divByZero, Bool.or_eq_true]
    by_cases f1 : r.value.isFinite = true
    · by_cases f2 : s.value.isFinite = true
      · by_cases ho : ok
        · exact Or.inl (Or.inr (ht.over f1 f2 ho f))
        · rcases ht.bad f1 f2 ho with k | k <;> simp [k]
      · rcases hs.not_finite (Bool.eq_false_iff.2 f2) with k | k | k <;> simp [k]
    · rcases hr.not_finite (Bool.eq_false_iff.2 f1) with k | k | k <;> simp [k]
  · have h1 := hr.inexact
    have h2 := hs.inexact
    have h3 := ht.under
    have h4 := ht.inexact
    simp only [Status.or_inexact, Status.or_overflow, Status.or_underflow, Bool.or_eq_true]
    rintro (((k | k) | k) | ((k | k) | k))
    · simp [h1 (Or.inl k)]
    · simp [h2 (Or.inl k)]
    · simp [h3 k]
    · simp [h1 (Or.inr k)]
    · simp [h2 (Or.inr k)]
    · simp [h4 k]

theorem FlagsTell.congr {A B : Prop} {v : ℚ} {r : StatusAnd (IeeeFloat S)} (hr : FlagsTell A v r) (e : A ↔ B) : FlagsTell B v r := propext e ▸ hr

/-- **C116.** Every computation on finite numbers, of any length and shape and with a rounding mode of its own for every operation, returns; and the
accumulated flags tell the following of it (`FlagsTell`): no flag was raised exactly if the exact results of all its steps are numbers of the format
(and no divisor is zero), and then the result is the exact value; the result is a NaN exactly if `INVALID_OP` was raised (in `Float8E4M3FN`, which has no
infinities, also after `OVERFLOW` or `DIV_BY_ZERO`); it is infinite only after `OVERFLOW` or `DIV_BY_ZERO`. -/
theorem C116_flags (h : S.OK) (e : Expr (IeeeFloat S)) (hl : e.All fun x => x.Valid ∧ x.isFinite = true) :
    ∃ r, e.eval = .ok r ∧ FlagsTell (e.Steps toRat S.fmt.Finite) (e.exact toRat) r := by
  induction e with
  | lit x =>
    have n := finite_not_nan hl.2
    exact ⟨_, rfl, hl.1, by simp [Expr.Steps], fun _ => ⟨hl.2, rfl⟩, by simp [n, Status.OK], by simp [hl.2], by simp [Status.OK]⟩
  | neg a ih =>
    obtain ⟨r, r1, r2⟩ := ih hl
    refine ⟨⟨r.status, r.value.neg⟩, ?_, neg_valid r2.valid, r2.ok_iff, fun k => ?_, ?_, ?_, r2.inexact⟩
    · show (a.eval >>= fun x => _) = _
      rw [r1]; rfl
    · obtain ⟨f, q⟩ := r2.ok_value k
      exact ⟨by rw [isFinite_neg']; exact f, by show r.value.neg.toRat = -(a.exact toRat); rw [neg_toRat, q]⟩
    · rw [isNan_neg]; exact r2.nan_iff
    · rw [isFinite_neg']; exact r2.not_finite
  | add m a b iha ihb =>
    obtain ⟨r, r1, r2⟩ := iha hl.1
    obtain ⟨s, s1, s2⟩ := ihb hl.2
    obtain ⟨t, t1, t2⟩ := flag_add h r2.valid s2.valid m
    refine ⟨_, ?_, (r2.combine s2 t2 (w := a.exact toRat + b.exact toRat) (okw := True) fun p q => ⟨by rw [p, q], Iff.rfl⟩).congr (by simp [Expr.Steps])⟩
    show (a.eval >>= fun x => _) = _
    rw [r1, M.ok_bind, s1, M.ok_bind]
    show (addR r.value s.value m >>= fun x => _) = _
    rw [t1]; rfl
  | sub m a b iha ihb =>
    obtain ⟨r, r1, r2⟩ := iha hl.1
    obtain ⟨s, s1, s2⟩ := ihb hl.2
    obtain ⟨t, t1, t2⟩ := flag_sub h r2.valid s2.valid m
    refine ⟨_, ?_, (r2.combine s2 t2 (w := a.exact toRat - b.exact toRat) (okw := True) fun p q => ⟨by rw [p, q], Iff.rfl⟩).congr (by simp [Expr.Steps])⟩
    show (a.eval >>= fun x => _) = _
    rw [r1, M.ok_bind, s1, M.ok_bind]
    show (subR r.value s.value m >>= fun x => _) = _
    rw [t1]; rfl
  | mul m a b iha ihb =>
    obtain ⟨r, r1, r2⟩ := iha hl.1
    obtain ⟨s, s1, s2⟩ := ihb hl.2
    obtain ⟨t, t1, t2⟩ := flag_mul h r2.valid s2.valid m
    refine ⟨_, ?_, (r2.combine s2 t2 (w := a.exact toRat * b.exact toRat) (okw := True) fun p q => ⟨by rw [p, q], Iff.rfl⟩).congr (by simp [Expr.Steps])⟩
    show (a.eval >>= fun x => _) = _
    rw [r1, M.ok_bind, s1, M.ok_bind]
    show (mulR r.value s.value m >>= fun x => _) = _
    rw [t1]; rfl
  | div m a b iha ihb =>
    obtain ⟨r, r1, r2⟩ := iha hl.1
    obtain ⟨s, s1, s2⟩ := ihb hl.2
    obtain ⟨t, t1, t2⟩ := flag_div h r2.valid s2.valid m
    refine ⟨_, ?_, r2.combine s2 t2 (w := a.exact toRat / b.exact toRat) (okw := b.exact toRat ≠ 0) fun p q => ⟨by rw [p, q], by rw [q]⟩⟩
    show (a.eval >>= fun x => _) = _
    rw [r1, M.ok_bind, s1, M.ok_bind]
    show (divR r.value s.value m >>= fun x => _) = _
    rw [t1]; rfl

namespace Expr
variable {F : Type}

theorem inMode_exact (v : F → ℚ) (mode : Round) (e : Expr F) : (e.inMode mode).exact v = e.exact v := by
  induction e <;> simp_all [inMode, exact]

theorem inMode_steps (v : F → ℚ) (P : ℚ → Prop) (mode : Round) (e : Expr F) : (e.inMode mode).Steps v P ↔ e.Steps v P := by
  induction e <;> simp_all [inMode, Steps, inMode_exact]

theorem inMode_all (P : F → Prop) (mode : Round) (e : Expr F) : (e.inMode mode).All P ↔ e.All P := by
  induction e <;> simp_all [inMode, All]

end Expr

/-- **C116.** Without flags the rounding modes do not matter: a computation raises no flag in some modes exactly if it raises none in any others, and then
the results are the same number. -/
theorem C116_modes (h : S.OK) (e e' : Expr (IeeeFloat S)) (he : e.inMode .towardZero = e'.inMode .towardZero)
    (hl : e.All fun x => x.Valid ∧ x.isFinite = true) :
    ∃ r r', e.eval = .ok r ∧ e'.eval = .ok r' ∧ (r.status = Status.OK ↔ r'.status = Status.OK) ∧
      (r.status = Status.OK → r.value.isFinite = true ∧ r'.value.isFinite = true ∧ r'.value.toRat = r.value.toRat) := by
  have hl' : e'.All fun x => x.Valid ∧ x.isFinite = true := by rw [← Expr.inMode_all _ .towardZero, ← he, Expr.inMode_all]; exact hl
  have hs : e.Steps toRat S.fmt.Finite ↔ e'.Steps toRat S.fmt.Finite := by
    rw [← Expr.inMode_steps _ _ .towardZero, he, Expr.inMode_steps]
  have hx : e.exact toRat = e'.exact toRat := by rw [← Expr.inMode_exact _ .towardZero, he, Expr.inMode_exact]
  obtain ⟨r, r1, r2⟩ := C116_flags h e hl
  obtain ⟨q, q1, q2⟩ := C116_flags h e' hl'
  have k : r.status = Status.OK ↔ q.status = Status.OK := by rw [r2.ok_iff, q2.ok_iff, hs]
  exact ⟨r, q, r1, q1, k, fun o => ⟨(r2.ok_value o).1, (q2.ok_value (k.1 o)).1, by rw [(q2.ok_value (k.1 o)).2, (r2.ok_value o).2, hx]⟩⟩

/-! ## Samples -/

/-- (1.5 - (-3)) * 1.5 / (-3), every operation in another mode: exact. -/
def exSticky : Expr (IeeeFloat singleS) := .div .towardPositive (.mul .towardNegative (.sub .towardZero (.lit ex15) (.lit exM3)) (.lit ex15)) (.lit exM3)

/-- 1.5 / 0 - 1.5 / 0: `DIV_BY_ZERO`, then `INVALID_OP`, and a NaN. -/
def exStickyNan : Expr (IeeeFloat singleS) :=
  .sub .towardZero (.div .towardZero (.lit ex15) (.lit (ZERO singleS))) (.div .towardZero (.lit ex15) (.lit (ZERO singleS)))

theorem C116_samples : exSticky.All (fun x => x.Valid ∧ x.isFinite = true) ∧ exStickyNan.All (fun x => x.Valid ∧ x.isFinite = true) ∧
    (∃ r, exSticky.eval = .ok r ∧ r.status = Status.OK) ∧
    (∃ r, exStickyNan.eval = .ok r ∧ r.status = { invalidOp := true, divByZero := true }) := by
  have key : (decide (exSticky.eval.map (·.status) = .ok Status.OK) && decide (exStickyNan.eval.map (·.status) = .ok { invalidOp := true, divByZero := true })) = true := by
    decide +kernel
  simp only [Bool.and_eq_true, decide_eq_true_eq] at key
  refine ⟨by simp only [exSticky, Expr.All]; decide +kernel, by simp only [exStickyNan, Expr.All]; decide +kernel, ?_, ?_⟩
  · have := key.1
    rcases he : exSticky.eval with _ | r <;> rw [he] at this
    · cases this
    · injection this with this; exact ⟨r, rfl, this⟩
  · have := key.2
    rcases he : exStickyNan.eval with _ | r <;> rw [he] at this
    · cases this
    · injection this with this; exact ⟨r, rfl, this⟩

example := C116_flags singleS_ok exSticky C116_samples.1
example := C116_flags singleS_ok exStickyNan C116_samples.2.1
example := C116_modes singleS_ok exSticky (exSticky.inMode .nearestTiesToAway) (by rfl) C116_samples.1

end Apf
