import Verif.Props.Total
/-! # C74: no operation delivers a signaling NaN, and a NaN never appears silently -/

namespace Apf
open Spec IeeeFloat

variable {S : Sem}

/-- Not one of the x87 pseudo-NaNs (whose explicit integer bit is 0).  Always true in the other formats. -/
def IeeeFloat.Regular (x : IeeeFloat S) : Prop := S.explicitIntBit = true → x.isNan = true → x.sig.testBit (S.precision - 1) = true

/-- IEEE 754's rules for a result: it is never a signaling NaN; and it is a NaN exactly if an operand is (`anyNan`) or `INVALID_OP` is
raised — or, in a format where NaN stands for infinity, `OVERFLOW` or `DIV_BY_ZERO`. -/
def NanRule (anyNan : Prop) (r : StatusAnd (IeeeFloat S)) : Prop :=
  r.value.isSignaling = false ∧
    (r.value.isNan = true ↔ anyNan ∨ r.status.invalidOp = true ∨
      (S.nonfinite = .nanOnly ∧ (r.status.overflow = true ∨ r.status.divByZero = true)))

theorem not_signaling_nanOnly (h : S.OK) (hN : S.nonfinite = .nanOnly) (x : IeeeFloat S) : x.isSignaling = false := by
  simp [isSignaling, (h.nanOnly hN).2.2.1]

theorem not_signaling_of_not_nan {x : IeeeFloat S} (hn : x.isNan = false) : x.isSignaling = false := by simp [isSignaling, hn]

theorem NanRule.of_quieted (h : S.OK) {A : Prop} (hA : A) {x : IeeeFloat S} {r : StatusAnd (IeeeFloat S)} (hx : x.Regular) (nx : x.isNan = true)
    (hq : IsQuieted x r.value) : NanRule A r :=
  ⟨hq.quiet h (fun e => hx e nx), ⟨fun _ => Or.inl hA, fun _ => by simp [isNan, hq.1]⟩⟩

theorem NanRule.of_invalid {A : Prop} {r : StatusAnd (IeeeFloat S)} (hr : IsInvalid r) : NanRule A r :=
  ⟨hr.2.2.1, ⟨fun _ => Or.inr (Or.inl (by rw [hr.1]; rfl)), fun _ => by simp [isNan, hr.2.1]⟩⟩

theorem NanRule.of_number {A : Prop} (hA : ¬ A) {r : StatusAnd (IeeeFloat S)} (hr : r.value.isNan = false) (hs : r.status.invalidOp = false)
    (ho : S.nonfinite = .nanOnly → r.status.overflow = false ∧ r.status.divByZero = false) : NanRule A r := by
  refine ⟨not_signaling_of_not_nan hr, ?_⟩
  rw [hr, hs]
  simp only [Bool.false_eq_true, hA, false_or, false_iff]
  rintro ⟨e, e'⟩
  rw [(ho e).1, (ho e).2] at e'
  simp at e'

theorem rounds_flags {mode : Round} {v : ℚ} {zs : Bool} {r : StatusAnd (IeeeFloat S)} (hr : Rounds S mode v zs r) :
    r.status.invalidOp = false ∧ r.status.divByZero = false ∧
      (S.nonfinite = .nanOnly → (r.value.isNan = true ↔ r.status.overflow = true)) := by
  obtain ⟨⟨g, -, ⟨-, e1, e⟩ | ⟨-, e⟩⟩, -⟩ := hr
  · refine ⟨by rw [e], by rw [e], fun _ => ?_⟩
    have hn : r.value.isNan = false := by
      cases hr : r.value.category <;> simp [datum, hr] at e1 <;> simp [isNan, hr]
    rw [hn, e]
  · have e1 : r.value.datum = (overflowed S.fmt mode r.value.sign).1 := by rw [← e]
    have e2 : r.status = (overflowed S.fmt mode r.value.sign).2 := by rw [← e]
    rw [e2]
    have en : r.value.isNan = true ↔ r.value.datum = .nan := by
      cases hr : r.value.category <;> simp [datum, hr, isNan]
    rw [en, e1]
    generalize r.value.sign = b
    have hF : S.nonfinite = .nanOnly → S.fmt.hasInf = false := fun e => by simp [Sem.fmt, e]
    refine ⟨?_, ?_, fun hN => ?_⟩
    · cases mode <;> cases b <;> rfl
    · cases mode <;> cases b <;> rfl
    · cases mode <;> cases b <;> simp [overflowed, hF hN]

theorem NanRule.of_rounds {A : Prop} (hA : ¬ A) {mode : Round} {v : ℚ} {zs : Bool} {r : StatusAnd (IeeeFloat S)}
    (h : S.OK) (hr : Rounds S mode v zs r) : NanRule A r := by
  obtain ⟨f1, f2, f3⟩ := rounds_flags hr
  cases hN : S.nonfinite with
  | ieee754 =>
    exact .of_number hA (by have := rounds_not_nan hN hr; simpa [isNan] using this) f1 (fun e => by rw [hN] at e; cases e)
  | nanOnly =>
    refine ⟨not_signaling_nanOnly h hN _, ?_⟩
    rw [f3 hN, f1, f2]
    simp [hA, hN]

theorem nan_iff_category {x : IeeeFloat S} : x.isNan = true ↔ x.category = .nan := by simp [isNan]

/-- The common part of the binary operations. -/
theorem nanRule_binary (h : S.OK) {x y : IeeeFloat S} (rx : x.Regular) (ry : y.Regular) {m : M (StatusAnd (IeeeFloat S))}
    (hn : (x.category = .nan ∨ y.category = .nan) → ∃ r, m = .ok r ∧ r.value.Valid ∧ IsQuieted (if x.category = .nan then x else y) r.value)
    (ho : x.category ≠ .nan → y.category ≠ .nan → ∃ r, m = .ok r ∧ NanRule False r) :
    ∃ r, m = .ok r ∧ NanRule (x.isNan = true ∨ y.isNan = true) r := by
  by_cases c : x.category = .nan ∨ y.category = .nan
  · obtain ⟨r, r1, r2, r3⟩ := hn c
    refine ⟨r, r1, ?_⟩
    by_cases cx : x.category = .nan
    · rw [if_pos cx] at r3
      exact .of_quieted h (Or.inl (isNan_of cx)) rx (isNan_of cx) r3
    · rw [if_neg cx] at r3
      have cy := c.resolve_left cx
      exact .of_quieted h (Or.inr (isNan_of cy)) ry (isNan_of cy) r3
  · push Not at c
    obtain ⟨r, r1, r2, r3⟩ := ho c.1 c.2
    refine ⟨r, r1, r2, ?_⟩
    rw [r3, nan_iff_category, nan_iff_category]
    simp [c.1, c.2]

theorem nanRule_add (h : S.OK) {x y : IeeeFloat S} (hx : x.Valid) (hy : y.Valid) (rx : x.Regular) (ry : y.Regular) (mode : Round) :
    ∃ r, addR x y mode = .ok r ∧ NanRule (x.isNan = true ∨ y.isNan = true) r := by
  refine nanRule_binary h rx ry (fun c => ?_) (fun nx ny => ?_)
  · obtain ⟨r, ⟨r1, -⟩, r2, r3, -⟩ := C11_nan_propagation h hx hy mode c
    exact ⟨r, r1, r2, r3⟩
  · rcases (category_cases x).resolve_left nx with cx | fx <;> rcases (category_cases y).resolve_left ny with cy | fy
    · obtain ⟨r, r1, r2, r3⟩ := C10_add_inf_inf cx cy mode
      refine ⟨r, r1, ?_⟩
      by_cases e : x.sign = y.sign
      · rw [r3 e]; exact .of_number (by simp) (by simp [isNan, cx]) rfl (fun _ => ⟨rfl, rfl⟩)
      · exact .of_invalid (r2 e)
    · exact ⟨_, (C10_add_inf_finite mode).1 cx fy, .of_number (by simp) (by simp [isNan, cx]) rfl (fun _ => ⟨rfl, rfl⟩)⟩
    · exact ⟨_, (C10_add_inf_finite mode).2 fx cy, .of_number (by simp) (by simp [isNan, cy]) rfl (fun _ => ⟨rfl, rfl⟩)⟩
    · obtain ⟨om, hO⟩ := exists_effective S mode (x.toRat + y.toRat)
      obtain ⟨r, r1, r2, r3⟩ := addR_eff h hx hy fx fy mode hO
      exact ⟨r, r1, .of_rounds (by simp) h r3⟩

theorem regular_neg {x : IeeeFloat S} (hx : x.Regular) : x.neg.Regular := by
  rw [neg_eq]; exact hx

theorem nanRule_sub (h : S.OK) {x y : IeeeFloat S} (hx : x.Valid) (hy : y.Valid) (rx : x.Regular) (ry : y.Regular) (mode : Round) :
    ∃ r, subR x y mode = .ok r ∧ NanRule (x.isNan = true ∨ y.isNan = true) r := by
  refine nanRule_binary h rx ry (fun c => ?_) (fun nx ny => ?_)
  · obtain ⟨r, ⟨-, r1, -⟩, r2, r3, -⟩ := C11_nan_propagation h hx hy mode c
    exact ⟨r, r1, r2, r3⟩
  · rw [C10_sub nx ny mode]
    obtain ⟨r, r1, r2, r3⟩ := nanRule_add h hx (neg_valid hy) rx (regular_neg ry) mode
    refine ⟨r, r1, r2, ?_⟩
    have en : y.neg.isNan = y.isNan := by rw [neg_eq]; rfl
    rw [r3, en, nan_iff_category, nan_iff_category]
    simp [nx, ny]

theorem nanRule_mul (h : S.OK) {x y : IeeeFloat S} (hx : x.Valid) (hy : y.Valid) (rx : x.Regular) (ry : y.Regular) (mode : Round) :
    ∃ r, mulR x y mode = .ok r ∧ NanRule (x.isNan = true ∨ y.isNan = true) r := by
  refine nanRule_binary h rx ry (fun c => ?_) (fun nx ny => ?_)
  · obtain ⟨r, ⟨-, -, r1, -⟩, r2, r3, -⟩ := C11_nan_propagation h hx hy mode c
    exact ⟨r, r1, r2, r3⟩
  · by_cases hf : x.isFinite = true ∧ y.isFinite = true
    · obtain ⟨om, hO⟩ := exists_effective S mode (x.toRat * y.toRat)
      obtain ⟨r, r1, r2, r3⟩ := mulR_eff h hx hy hf.1 hf.2 mode hO
      exact ⟨r, r1, .of_rounds (by simp) h r3⟩
    · have hi : x.category = .infinity ∨ y.category = .infinity := by
        rcases (category_cases x).resolve_left nx with cx | fx
        · exact Or.inl cx
        · rcases (category_cases y).resolve_left ny with cy | fy
          · exact Or.inr cy
          · exact absurd ⟨fx, fy⟩ hf
      obtain ⟨r, r1, r2, r3⟩ := C10_mul_inf hx hy mode nx ny hi
      refine ⟨r, r1, ?_⟩
      by_cases c : x.category = .zero ∨ y.category = .zero
      · exact .of_invalid (r2 c)
      · push Not at c
        obtain ⟨s1, s2, -⟩ := r3 c.1 c.2
        exact .of_number (by simp) (by simp [isNan, s2]) (by rw [s1]; rfl) (fun _ => by rw [s1]; exact ⟨rfl, rfl⟩)

theorem nanRule_div (h : S.OK) {x y : IeeeFloat S} (hx : x.Valid) (hy : y.Valid) (rx : x.Regular) (ry : y.Regular) (mode : Round) :
    ∃ r, divR x y mode = .ok r ∧ NanRule (x.isNan = true ∨ y.isNan = true) r := by
  refine nanRule_binary h rx ry (fun c => ?_) (fun nx ny => ?_)
  · obtain ⟨r, ⟨-, -, -, r1⟩, r2, r3, -⟩ := C11_nan_propagation h hx hy mode c
    exact ⟨r, r1, r2, r3⟩
  · obtain ⟨d1, d2, d3, d4⟩ := C10_div_special (x := x) (y := y) mode
    rcases (category_cases x).resolve_left nx with cx | fx <;> rcases (category_cases y).resolve_left ny with cy | fy
    · obtain ⟨r, r1, r2⟩ := d1 (Or.inl ⟨cx, cy⟩)
      exact ⟨r, r1, .of_invalid r2⟩
    · obtain ⟨r, r1, r2, r3, -⟩ := d3 cx fy
      exact ⟨r, r1, .of_number (by simp) (by simp [isNan, r3]) (by rw [r2]; rfl) (fun _ => by rw [r2]; exact ⟨rfl, rfl⟩)⟩
    · obtain ⟨r, r1, r2, r3, -⟩ := d4 fx cy
      exact ⟨r, r1, .of_number (by simp) (by simp [isNan, r3]) (by rw [r2]; rfl) (fun _ => by rw [r2]; exact ⟨rfl, rfl⟩)⟩
    · rcases isFinite_iff.1 fy with cy | cy
      · obtain ⟨om, hO⟩ := exists_effective S mode (x.toRat / y.toRat)
        obtain ⟨r, r1, r2, r3⟩ := divR_eff h hx hy fx fy (toRat_ne_zero hy cy) mode hO
        exact ⟨r, r1, .of_rounds (by simp) h r3⟩
      · rcases isFinite_iff.1 fx with cx | cx
        · obtain ⟨r, r1, r2, r3⟩ := d2 cx cy
          refine ⟨r, r1, ?_⟩
          cases hN : S.nonfinite with
          | ieee754 => exact .of_number (by simp) (by simp [isNan, r3.2.1 hN]) (by rw [r2]; rfl) (fun e => by rw [hN] at e; cases e)
          | nanOnly =>
            refine ⟨not_signaling_nanOnly h hN _, ?_⟩
            rw [r2, isNan_of (r3.2.2 hN)]
            simp [hN, Status.DIV_BY_ZERO]
        · obtain ⟨r, r1, r2⟩ := d1 (Or.inr ⟨cx, cy⟩)
          exact ⟨r, r1, .of_invalid r2⟩

theorem nanRule_rem (h : S.OK) {x y : IeeeFloat S} (hx : x.Valid) (hy : y.Valid) (rx : x.Regular) (ry : y.Regular) :
    (∃ r, cFmod x y = .ok r ∧ NanRule (x.isNan = true ∨ y.isNan = true) r) ∧
    (∃ r, ieeeRem x y = .ok r ∧ NanRule (x.isNan = true ∨ y.isNan = true) r) := by
  have key : x.category ≠ .nan → y.category ≠ .nan →
      (∃ r, cFmod x y = .ok r ∧ NanRule False r) ∧ (∃ r, ieeeRem x y = .ok r ∧ NanRule False r) := by
    intro n1 n2
    have nx : x.isNan = false := by simp [isNan, n1]
    have ny : y.isNan = false := by simp [isNan, n2]
    rcases (category_cases x).resolve_left n1 with cx | fx
    · obtain ⟨r1, r2⟩ := rem_invalid nx ny (Or.inl cx)
      exact ⟨⟨_, r1, .of_invalid isInvalid_nan⟩, ⟨_, r2, .of_invalid isInvalid_nan⟩⟩
    · rcases (category_cases y).resolve_left n2 with cy | fy
      · obtain ⟨r1, r2⟩ := C10_rem_special.2 fx cy
        exact ⟨⟨_, r1, .of_number (by simp) nx rfl (fun _ => ⟨rfl, rfl⟩)⟩, ⟨_, r2, .of_number (by simp) nx rfl (fun _ => ⟨rfl, rfl⟩)⟩⟩
      · rcases isFinite_iff.1 fy with cy | cy
        · obtain ⟨r, r1, r2, r3, -⟩ := C23_c_fmod h hx hy fx fy (toRat_ne_zero hy cy)
          obtain ⟨q, q1, q2, q3, -⟩ := C24_ieee_rem h hx hy fx fy (toRat_ne_zero hy cy)
          exact ⟨⟨_, r1, .of_number (by simp) (not_nan_of_finite r3) rfl (fun _ => ⟨rfl, rfl⟩)⟩, ⟨_, q1, .of_number (by simp) (not_nan_of_finite q3) rfl (fun _ => ⟨rfl, rfl⟩)⟩⟩
        · obtain ⟨r1, r2⟩ := rem_invalid nx ny (Or.inr cy)
          exact ⟨⟨_, r1, .of_invalid isInvalid_nan⟩, ⟨_, r2, .of_invalid isInvalid_nan⟩⟩
  constructor
  · refine nanRule_binary h rx ry (fun c => ?_) (fun nx ny => (key nx ny).1)
    obtain ⟨r, r1, -, r2, r3, -⟩ := C11_rem_nan h hx hy c
    exact ⟨r, r1, r2, r3⟩
  · refine nanRule_binary h rx ry (fun c => ?_) (fun nx ny => (key nx ny).2)
    obtain ⟨r, -, r1, r2, r3, -⟩ := C11_rem_nan h hx hy c
    exact ⟨r, r1, r2, r3⟩

theorem nanRule_mul_add (h : S.OK) {x m z : IeeeFloat S} (hx : x.Valid) (hm : m.Valid) (hz : z.Valid) (rx : x.Regular) (rm : m.Regular) (rz : z.Regular)
    (mode : Round) (hE : ¬ (x.isFinite = true ∧ m.isFinite = true ∧ z.isFinite = true ∧ FmaPanics S (x.toRat * m.toRat) z.toRat)) :
    ∃ r, mulAddR x m z mode = .ok r ∧ NanRule (x.isNan = true ∨ m.isNan = true ∨ z.isNan = true) r := by
  by_cases hi : x.category = .infinity ∧ m.category = .zero ∨ x.category = .zero ∧ m.category = .infinity
  · obtain ⟨r, r1, r2⟩ := (C10_mul_add_inf (z := z) h hx hm mode (by rcases hi with c | c <;> rw [c.1] <;> simp)
      (by rcases hi with c | c <;> rw [c.2] <;> simp)).1 hi
    exact ⟨r, r1, .of_invalid r2⟩
  by_cases hn : x.category = .nan ∨ m.category = .nan ∨ z.category = .nan
  · obtain ⟨r, r1, r2, r3, -⟩ := C11_mul_add_nan h hx hm hz mode hn hi
    have hA : x.isNan = true ∨ m.isNan = true ∨ z.isNan = true := by
      simpa only [nan_iff_category] using hn
    refine ⟨r, r1, ?_⟩
    split_ifs at r3 with c1 c2
    · exact .of_quieted h hA rx (isNan_of c1) r3
    · exact .of_quieted h hA rm (isNan_of c2) r3
    · exact .of_quieted h hA rz (isNan_of ((hn.resolve_left c1).resolve_left c2)) r3
  · have hA : ¬ (x.isNan = true ∨ m.isNan = true ∨ z.isNan = true) := by
      simpa only [nan_iff_category] using hn
    push Not at hn
    obtain ⟨nx, nm, nz⟩ := hn
    obtain ⟨-, i2, i3⟩ := C10_mul_add_inf (z := z) h hx hm mode nx nm
    by_cases hf : x.isFinite = true ∧ m.isFinite = true
    · rcases (category_cases z).resolve_left nz with cz | fz
      · exact ⟨_, i3 hf.1 hf.2 cz, .of_number hA (by simp [isNan, cz]) rfl (fun _ => ⟨rfl, rfl⟩)⟩
      · obtain ⟨om, hO⟩ := exists_effective S mode (x.toRat * m.toRat + z.toRat)
        by_cases hX : FmaExcluded S (x.toRat * m.toRat) z.toRat
        · obtain ⟨r, r1, -, r3, -⟩ := (C76_excluded h hx hm hz hf.1 hf.2 fz mode hX).2 (fun e => hE ⟨hf.1, hf.2, fz, hX, e⟩)
          exact ⟨r, r1, .of_rounds hA h r3⟩
        · obtain ⟨r, r1, r2, r3⟩ := mulAddR_eff h hx hm hz hf.1 hf.2 fz mode hO hX
          exact ⟨r, r1, .of_rounds hA h r3⟩
    · have hc : x.category = .infinity ∧ m.category ≠ .zero ∨ m.category = .infinity ∧ x.category ≠ .zero := by
        rcases (category_cases x).resolve_left nx with cx | fx
        · exact Or.inl ⟨cx, fun c => hi (Or.inl ⟨cx, c⟩)⟩
        · rcases (category_cases m).resolve_left nm with cm | fm
          · exact Or.inr ⟨cm, fun c => hi (Or.inr ⟨c, cm⟩)⟩
          · exact absurd ⟨fx, fm⟩ hf
      obtain ⟨r, r1, r2, r3⟩ := i2 hc nz
      refine ⟨r, r1, ?_⟩
      by_cases e : z.category = .infinity ∧ z.sign ≠ xor x.sign m.sign
      · exact .of_invalid (r2 e)
      · obtain ⟨s1, s2, -⟩ := r3 e
        exact .of_number hA (by simp [isNan, s2]) (by rw [s1]; rfl) (fun _ => by rw [s1]; exact ⟨rfl, rfl⟩)

/-- **C74** (operations with two operands).  In every format and rounding mode, for all operands (except, for x87, the pseudo-NaNs of
`C11_pseudo_nan_stays_signaling`): the result is never a signaling NaN; and it is a NaN exactly if an operand is a NaN or `INVALID_OP` is raised (or, in
`Float8E4M3FN`, where NaN stands for infinity, `OVERFLOW` or `DIV_BY_ZERO`). -/
theorem C74_binary (h : S.OK) {x y : IeeeFloat S} (hx : x.Valid) (hy : y.Valid) (rx : x.Regular) (ry : y.Regular) (mode : Round) :
    (∃ r, addR x y mode = .ok r ∧ NanRule (x.isNan = true ∨ y.isNan = true) r) ∧
    (∃ r, subR x y mode = .ok r ∧ NanRule (x.isNan = true ∨ y.isNan = true) r) ∧
    (∃ r, mulR x y mode = .ok r ∧ NanRule (x.isNan = true ∨ y.isNan = true) r) ∧
    (∃ r, divR x y mode = .ok r ∧ NanRule (x.isNan = true ∨ y.isNan = true) r) ∧
    (∃ r, cFmod x y = .ok r ∧ NanRule (x.isNan = true ∨ y.isNan = true) r) ∧
    (∃ r, ieeeRem x y = .ok r ∧ NanRule (x.isNan = true ∨ y.isNan = true) r) :=
  ⟨nanRule_add h hx hy rx ry mode, nanRule_sub h hx hy rx ry mode, nanRule_mul h hx hy rx ry mode, nanRule_div h hx hy rx ry mode,
    nanRule_rem h hx hy rx ry⟩

example := C74_binary singleS_ok (x := ⟨5, 128, .nan, true⟩) (y := ⟨3 * 2 ^ 22, 0, .normal, false⟩) (by decide) (by decide) (by unfold Regular; decide)
  (by unfold Regular; decide) .towardZero

/-- **C74** (fused multiply-add), wherever it returns: `FmaPanics` describes the operands on which it panics (C08). -/
theorem C74_mul_add (h : S.OK) {x m z : IeeeFloat S} (hx : x.Valid) (hm : m.Valid) (hz : z.Valid) (rx : x.Regular) (rm : m.Regular) (rz : z.Regular)
    (mode : Round) (hE : ¬ (x.isFinite = true ∧ m.isFinite = true ∧ z.isFinite = true ∧ FmaPanics S (x.toRat * m.toRat) z.toRat)) :
    ∃ r, mulAddR x m z mode = .ok r ∧ NanRule (x.isNan = true ∨ m.isNan = true ∨ z.isNan = true) r :=
  nanRule_mul_add h hx hm hz rx rm rz mode hE

/-- **C74** (operations with one operand).  `convert` needs no exclusion: it quiets the pseudo-NaNs as well, and so do the neighbours. -/
theorem C74_unary {T : Sem} (h : S.OK) (hT : T.OK) {x : IeeeFloat S} (hx : x.Valid) (n : ℤ) (mode : Round) :
    (x.Regular → ∃ r, roundToIntegral x mode = .ok r ∧ NanRule (x.isNan = true) r) ∧
    (∃ r, nextUp x = .ok r ∧ r.value.isSignaling = false ∧ (r.value.isNan = true ↔ x.isNan = true ∨
      (S.nonfinite = .nanOnly ∧ x.isFinite = true ∧ x.toRat = (largest S).toRat))) ∧
    (∃ r, nextDown x = .ok r ∧ r.value.isSignaling = false ∧ (r.value.isNan = true ↔ x.isNan = true ∨
      (S.nonfinite = .nanOnly ∧ x.isFinite = true ∧ x.toRat = -(largest S).toRat))) ∧
    (∃ c, convertR S T x mode = .ok c ∧ c.value.isSignaling = false ∧
      (T.nonfinite = .ieee754 → (c.value.isNan = true ↔ x.isNan = true))) ∧
    (x.Regular → ∃ r, scalbnR x n mode = .ok r ∧ r.isSignaling = false ∧
      (S.nonfinite = .ieee754 → (r.isNan = true ↔ x.isNan = true))) ∧
    (x.Regular → ∃ r e, frexpR x mode = .ok (r, e) ∧ r.isSignaling = false ∧ (r.isNan = true ↔ x.isNan = true)) := by
  refine ⟨fun rx => ?_, ?_, ?_, ?_, fun rx => ?_, fun rx => ?_⟩
  · rcases category_cases x with c | c | c
    · obtain ⟨r, r1, r2, r3⟩ := (C13_specials h hx mode).2 (isNan_of c)
      exact ⟨_, r1, .of_quieted h (isNan_of c) rx (isNan_of c) r3⟩
    · have nx : x.isNan = false := by simp [isNan, c]
      exact ⟨_, (C13_specials h hx mode).1 (isInfinite_of c), .of_number (by simp [nx]) nx rfl (fun _ => ⟨rfl, rfl⟩)⟩
    · obtain ⟨r, r1, r2, r3, -, k, -, -, r4⟩ := C13_round_to_integral h hx c mode
      exact ⟨r, r1, .of_number (by simp [not_nan_of_finite c]) (not_nan_of_finite r3) (by rw [r4]) (fun _ => by rw [r4]; exact ⟨rfl, rfl⟩)⟩
  · obtain ⟨s1, s2, s3, s4, s5⟩ := C14_next_up_specials h hx
    rcases category_cases x with c | c | c
    · cases hs : x.isSignaling
      · exact ⟨_, s4 (isNan_of c) hs, hs, by simp [isNan_of c]⟩
      · obtain ⟨r, r1, r2, r3, r4, -⟩ := s5 (isNan_of c) hs
        exact ⟨_, r1, r4, by simp [isNan_of c, r3]⟩
    · have nx : x.isNan = false := by simp [isNan, c]
      have fx : x.isFinite = false := by simp [isFinite, isInfinite, c]
      cases hs : x.sign
      · exact ⟨_, s2 (isInfinite_of c) hs, not_signaling_of_not_nan nx, by simp [Status.and, nx, fx]⟩
      · obtain ⟨r, r1, r2, r3, -⟩ := s3 (isInfinite_of c) hs
        exact ⟨_, r1, not_signaling_of_not_nan (not_nan_of_finite r3), by simp [not_nan_of_finite r3, nx, fx]⟩
    · by_cases hl : x.toRat = (largest S).toRat
      · obtain ⟨r, r1, r2, r3⟩ := s1 c hl
        cases hN : S.nonfinite with
        | ieee754 =>
          rw [if_pos (by simp [Sem.fmt, hN])] at r3
          have nr : r.isNan = false := by cases hr : r.category <;> simp [datum, hr] at r3 <;> simp [isNan, hr]
          exact ⟨_, r1, not_signaling_of_not_nan nr, by simp [nr, not_nan_of_finite c]⟩
        | nanOnly =>
          rw [if_neg (by simp [Sem.fmt, hN])] at r3
          have nr : r.isNan = true := by cases hr : r.category <;> simp [datum, hr] at r3 <;> simp [isNan, hr]
          exact ⟨_, r1, not_signaling_nanOnly h hN _, by simp [nr, c, hl]⟩
      · obtain ⟨r, r1, r2, r3, -⟩ := C14_next_up h hx c hl
        exact ⟨_, r1, not_signaling_of_not_nan (not_nan_of_finite r3), by simp [not_nan_of_finite r3, not_nan_of_finite c, hl]⟩
  · obtain ⟨s1, s2, s3, s4, s5⟩ := C14_next_down_specials h hx
    rcases category_cases x with c | c | c
    · cases hs : x.isSignaling
      · exact ⟨_, s4 (isNan_of c) hs, hs, by simp [isNan_of c]⟩
      · obtain ⟨r, r1, r2, r3, r4, -⟩ := s5 (isNan_of c) hs
        exact ⟨_, r1, r4, by simp [isNan_of c, r3]⟩
    · have nx : x.isNan = false := by simp [isNan, c]
      have fx : x.isFinite = false := by simp [isFinite, isInfinite, c]
      cases hs : x.sign
      · obtain ⟨r, r1, r2, r3, -⟩ := s3 (isInfinite_of c) hs
        exact ⟨_, r1, not_signaling_of_not_nan (not_nan_of_finite r3), by simp [not_nan_of_finite r3, nx, fx]⟩
      · exact ⟨_, s2 (isInfinite_of c) hs, not_signaling_of_not_nan nx, by simp [Status.and, nx, fx]⟩
    · by_cases hl : x.toRat = -(largest S).toRat
      · obtain ⟨r, r1, r2, r3⟩ := s1 c hl
        cases hN : S.nonfinite with
        | ieee754 =>
          rw [if_pos (by simp [Sem.fmt, hN])] at r3
          have nr : r.isNan = false := by cases hr : r.category <;> simp [datum, hr] at r3 <;> simp [isNan, hr]
          exact ⟨_, r1, not_signaling_of_not_nan nr, by simp [nr, not_nan_of_finite c]⟩
        | nanOnly =>
          rw [if_neg (by simp [Sem.fmt, hN])] at r3
          have nr : r.isNan = true := by cases hr : r.category <;> simp [datum, hr] at r3 <;> simp [isNan, hr]
          exact ⟨_, r1, not_signaling_nanOnly h hN _, by simp [nr, c, hl]⟩
      · obtain ⟨r, r1, r2, r3, -⟩ := C14_next_down h hx c hl
        exact ⟨_, r1, not_signaling_of_not_nan (not_nan_of_finite r3), by simp [not_nan_of_finite r3, not_nan_of_finite c, hl]⟩
  · rcases category_cases x with c | c | c
    · obtain ⟨r, r1, r2, r3, r4, -⟩ := C21_convert_nan h hT hx (isNan_of c) mode
      exact ⟨r, r1, r4, fun _ => by simp [r3, isNan_of c]⟩
    · rw [convertR_inf h hT c]
      have nx : x.isNan = false := by simp [isNan, c]
      split_ifs with hN
      · exact ⟨_, rfl, by simp [isSignaling, isNan, INFINITY, hN], fun _ => by simp [isNan, INFINITY, hN, c]⟩
      · refine ⟨_, rfl, not_signaling_nanOnly hT (by cases e : T.nonfinite <;> simp [e] at hN ⊢) _, fun e => absurd e hN⟩
    · obtain ⟨om, hO⟩ := exists_effective T mode x.toRat
      obtain ⟨r, r1, r2, r3, r4⟩ := convertR_eff h hT hx c mode hO
      have hR := NanRule.of_rounds (A := False) (by simp) hT r4
      have h2 := (rounds_flags r4).1
      obtain ⟨hR, h1⟩ := hR
      simp only at h1 h2 hR
      refine ⟨r, r1, hR, fun e => ?_⟩
      rw [h1, h2, e]; simp [not_nan_of_finite c]
  · rcases category_cases x with c | c | c
    · obtain ⟨r, r1, r2, r3⟩ := (C25_specials h hx n mode).2 (isNan_of c)
      exact ⟨r, r1, r3.quiet h (fun e => rx e (isNan_of c)), fun _ => by simp [isNan_of c, isNan_of r3.1]⟩
    · obtain ⟨r, r1, r2, r3⟩ := (C25_specials h hx n mode).1 (isInfinite_of c)
      have nx : x.isNan = false := by simp [isNan, c]
      have nr : r.isNan = false := by
        cases hr : r.category <;> simp [datum, hr, c] at r3 <;> simp [isNan, hr]
      exact ⟨r, r1, not_signaling_of_not_nan nr, fun _ => by simp [nx, nr]⟩
    · obtain ⟨om, hO⟩ := exists_effective S mode (x.toRat * 2 ^ n)
      obtain ⟨r, st, r1, r2, r3, r4⟩ := scalbnR_eff h hx c n mode hO
      have hR := NanRule.of_rounds (A := False) (by simp) h r4
      have h2 := (rounds_flags r4).1
      obtain ⟨hR, h1⟩ := hR
      simp only at h1 h2 hR
      refine ⟨r, r1, hR, fun e => ?_⟩
      rw [h1, h2, e]; simp [not_nan_of_finite c]
  · obtain ⟨s1, s2, s3⟩ := C27_specials h hx mode
    rcases category_cases x with c | c | c
    · obtain ⟨r, r1, r2, r3⟩ := s3 (isNan_of c)
      exact ⟨r, _, r1, r3.quiet h (fun e => rx e (isNan_of c)), by simp [isNan_of c, isNan_of r3.1]⟩
    · have nx : x.isNan = false := by simp [isNan, c]
      exact ⟨_, _, s2 (isInfinite_of c), not_signaling_of_not_nan nx, Iff.rfl⟩
    · rcases isFinite_iff.1 c with cx | cx
      · obtain ⟨f, e, r1, r2, r3, -⟩ := C27_frexp h hx c (toRat_ne_zero hx cx) mode
        have := not_nan_of_finite r3
        exact ⟨_, _, r1, not_signaling_of_not_nan this, by simp [this, not_nan_of_finite c]⟩
      · obtain ⟨r, r1, r2, r3⟩ := s1 (by simp [isZero, cx])
        have nr : r.isNan = false := by
          cases hr : r.category <;> simp [datum, hr, cx] at r3 <;> simp [isNan, hr]
        exact ⟨_, _, r1, not_signaling_of_not_nan nr, by simp [nr, not_nan_of_finite c]⟩

/-- Every value of a format other than x87 is regular, and so is every x87 NaN that is not a pseudo-NaN. -/
example : (snan halfS (some 5)).Valid ∧ (snan halfS (some 5)).Regular ∧ (snan x87S none).Valid ∧ (snan x87S none).Regular :=
  ⟨by decide +kernel, (fun e => by cases e), by decide +kernel, fun _ _ => by decide +kernel⟩

end Apf
