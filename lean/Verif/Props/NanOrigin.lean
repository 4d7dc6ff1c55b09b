import Verif.Spec.NanOrigin
import Verif.Props.Quiet
/-! # C114: no operation makes up a NaN payload -/

namespace Apf
open Spec IeeeFloat
variable {S : Sem}

/-- The NaN `r` is the NaN `x`, possibly with another sign or made quiet. -/
def SameNan (x r : IeeeFloat S) : Prop := x.isNan = true ∧ r.payload = x.payload ∧ (r.isSignaling = true → x.isSignaling = true)

/-- The NaN `r` is the default one up to its sign. -/
def Plain0 (r : IeeeFloat S) : Prop := r.payload = 0 ∧ r.isSignaling = false

theorem SameNan.of_quieted (hi : S.nonfinite = .ieee754) {x r : IeeeFloat S} (c : x.category = .nan) (hq : IsQuieted x r) : SameNan x r := by
  refine ⟨isNan_of c, ?_, fun hs => ?_⟩
  · unfold payload
    rw [hq.2.2, quietBit, if_pos hi, or_mod_pow]
  · by_contra hc
    rw [IsQuieted.signaling_of_quiet hq (by simpa using hc) c] at hs
    cases hs

theorem plain_nan (h : S.OK) (hi : S.nonfinite = .ieee754) : Plain0 (NAN S) := by
  obtain ⟨-, -, a, -, b⟩ := C40_qnan h none
  exact ⟨by have := (b hi).2; simp only [Option.getD_none, Nat.zero_mod] at this; exact this, a⟩

theorem plain_copySign {x y : IeeeFloat S} (hp : Plain0 x) : Plain0 (x.copySign y) := by
  rw [copySign_eq]; exact hp

/-- The NaN results of an operation with two operands. -/
def Origin2 (x y r : IeeeFloat S) : Prop := r.isNan = true → SameNan x r ∨ SameNan y r ∨ Plain0 r

theorem Origin2.of_not_nan {x y r : IeeeFloat S} (h : r.isNan = false) : Origin2 x y r := fun e => by rw [h] at e; cases e

theorem origin_nan (hi : S.nonfinite = .ieee754) {x y : IeeeFloat S} {r : IeeeFloat S} (c : x.category = .nan ∨ y.category = .nan)
    (hq : IsQuieted (if x.category = .nan then x else y) r) : Origin2 x y r := by
  intro _
  split_ifs at hq with cx
  · exact .inl (.of_quieted hi cx hq)
  · exact .inr (.inl (.of_quieted hi (c.resolve_left cx) hq))

theorem origin_invalid (h : S.OK) (hi : S.nonfinite = .ieee754) {x y : IeeeFloat S} {r : StatusAnd (IeeeFloat S)} (hr : IsInvalid r) : Origin2 x y r.value :=
  fun _ => .inr (.inr (by rw [hr.2.2.2]; exact plain_nan h hi))

theorem origin_rounds (hi : S.nonfinite = .ieee754) {x y : IeeeFloat S} {mode : Round} {v : ℚ} {zs : Bool} {r : StatusAnd (IeeeFloat S)} (hr : Rounds S mode v zs r) :
    Origin2 x y r.value := .of_not_nan (by have := rounds_not_nan hi hr; simpa [isNan] using this)

theorem origin_cat {x y r : IeeeFloat S} (c : r.category ≠ .nan) : Origin2 x y r := .of_not_nan (by simp [isNan, c])

theorem origin_add (h : S.OK) (hi : S.nonfinite = .ieee754) {x y : IeeeFloat S} (hx : x.Valid) (hy : y.Valid) (mode : Round) :
    ∃ r, addR x y mode = .ok r ∧ Origin2 x y r.value := by
  by_cases c : x.category = .nan ∨ y.category = .nan
  · obtain ⟨r, ⟨r1, -⟩, r2, r3, -⟩ := C11_nan_propagation h hx hy mode c
    exact ⟨r, r1, origin_nan hi c r3⟩
  · push Not at c
    rcases (category_cases x).resolve_left c.1 with cx | fx <;> rcases (category_cases y).resolve_left c.2 with cy | fy
    · obtain ⟨r, r1, r2, r3⟩ := C10_add_inf_inf cx cy mode
      refine ⟨r, r1, ?_⟩
      by_cases e : x.sign = y.sign
      · rw [r3 e]; exact origin_cat c.1
      · exact origin_invalid h hi (r2 e)
    · exact ⟨_, (C10_add_inf_finite mode).1 cx fy, origin_cat c.1⟩
    · exact ⟨_, (C10_add_inf_finite mode).2 fx cy, origin_cat c.2⟩
    · obtain ⟨om, hO⟩ := exists_effective S mode (x.toRat + y.toRat)
      obtain ⟨r, r1, r2, r3⟩ := addR_eff h hx hy fx fy mode hO
      exact ⟨r, r1, origin_rounds hi r3⟩

theorem sameNan_neg {y r : IeeeFloat S} (h : SameNan y.neg r) : SameNan y r := by
  rw [neg_eq] at h; exact h

theorem origin_sub (h : S.OK) (hi : S.nonfinite = .ieee754) {x y : IeeeFloat S} (hx : x.Valid) (hy : y.Valid) (mode : Round) :
    ∃ r, subR x y mode = .ok r ∧ Origin2 x y r.value := by
  by_cases c : x.category = .nan ∨ y.category = .nan
  · obtain ⟨r, ⟨-, r1, -⟩, r2, r3, -⟩ := C11_nan_propagation h hx hy mode c
    exact ⟨r, r1, origin_nan hi c r3⟩
  · push Not at c
    rw [C10_sub c.1 c.2 mode]
    obtain ⟨r, r1, r2⟩ := origin_add h hi hx (neg_valid hy) mode
    exact ⟨r, r1, fun e => (r2 e).imp_right (Or.imp_left sameNan_neg)⟩

theorem origin_mul (h : S.OK) (hi : S.nonfinite = .ieee754) {x y : IeeeFloat S} (hx : x.Valid) (hy : y.Valid) (mode : Round) :
    ∃ r, mulR x y mode = .ok r ∧ Origin2 x y r.value := by
  by_cases c : x.category = .nan ∨ y.category = .nan
  · obtain ⟨r, ⟨-, -, r1, -⟩, r2, r3, -⟩ := C11_nan_propagation h hx hy mode c
    exact ⟨r, r1, origin_nan hi c r3⟩
  · push Not at c
    by_cases hf : x.isFinite = true ∧ y.isFinite = true
    · obtain ⟨om, hO⟩ := exists_effective S mode (x.toRat * y.toRat)
      obtain ⟨r, r1, r2, r3⟩ := mulR_eff h hx hy hf.1 hf.2 mode hO
      exact ⟨r, r1, origin_rounds hi r3⟩
    · have hj : x.category = .infinity ∨ y.category = .infinity := by
        rcases (category_cases x).resolve_left c.1 with cx | fx
        · exact Or.inl cx
        · rcases (category_cases y).resolve_left c.2 with cy | fy
          · exact Or.inr cy
          · exact absurd ⟨fx, fy⟩ hf
      obtain ⟨r, r1, r2, r3⟩ := C10_mul_inf hx hy mode c.1 c.2 hj
      refine ⟨r, r1, ?_⟩
      by_cases d : x.category = .zero ∨ y.category = .zero
      · exact origin_invalid h hi (r2 d)
      · push Not at d
        exact origin_cat (by rw [(r3 d.1 d.2).2.1]; simp)

theorem origin_div (h : S.OK) (hi : S.nonfinite = .ieee754) {x y : IeeeFloat S} (hx : x.Valid) (hy : y.Valid) (mode : Round) :
    ∃ r, divR x y mode = .ok r ∧ Origin2 x y r.value := by
  by_cases c : x.category = .nan ∨ y.category = .nan
  · obtain ⟨r, ⟨-, -, -, r1⟩, r2, r3, -⟩ := C11_nan_propagation h hx hy mode c
    exact ⟨r, r1, origin_nan hi c r3⟩
  · push Not at c
    obtain ⟨d1, d2, d3, d4⟩ := C10_div_special (x := x) (y := y) mode
    rcases (category_cases x).resolve_left c.1 with cx | fx <;> rcases (category_cases y).resolve_left c.2 with cy | fy
    · obtain ⟨r, r1, r2⟩ := d1 (Or.inl ⟨cx, cy⟩)
      exact ⟨r, r1, origin_invalid h hi r2⟩
    · obtain ⟨r, r1, r2, r3, -⟩ := d3 cx fy
      exact ⟨r, r1, origin_cat (by rw [r3]; simp)⟩
    · obtain ⟨r, r1, r2, r3, -⟩ := d4 fx cy
      exact ⟨r, r1, origin_cat (by rw [r3]; simp)⟩
    · rcases isFinite_iff.1 fy with cy | cy
      · obtain ⟨om, hO⟩ := exists_effective S mode (x.toRat / y.toRat)
        obtain ⟨r, r1, r2, r3⟩ := divR_eff h hx hy fx fy (toRat_ne_zero hy cy) mode hO
        exact ⟨r, r1, origin_rounds hi r3⟩
      · rcases isFinite_iff.1 fx with cx | cx
        · obtain ⟨r, r1, r2, r3⟩ := d2 cx cy
          exact ⟨r, r1, origin_cat (by rw [r3.2.1 hi]; simp)⟩
        · obtain ⟨r, r1, r2⟩ := d1 (Or.inr ⟨cx, cy⟩)
          exact ⟨r, r1, origin_invalid h hi r2⟩

theorem origin_rem (h : S.OK) (hi : S.nonfinite = .ieee754) {x y : IeeeFloat S} (hx : x.Valid) (hy : y.Valid) :
    (∃ r, cFmod x y = .ok r ∧ Origin2 x y r.value) ∧ (∃ r, ieeeRem x y = .ok r ∧ Origin2 x y r.value) := by
  by_cases c : x.category = .nan ∨ y.category = .nan
  · obtain ⟨r, r0, r1, -, r3, -⟩ := C11_rem_nan h hx hy c
    exact ⟨⟨r, r0, origin_nan hi c r3⟩, ⟨r, r1, origin_nan hi c r3⟩⟩
  · push Not at c
    have nx : x.isNan = false := by simp [isNan, c.1]
    have ny : y.isNan = false := by simp [isNan, c.2]
    have inv : x.category = .infinity ∨ y.category = .zero →
        (∃ r, cFmod x y = .ok r ∧ Origin2 x y r.value) ∧ (∃ r, ieeeRem x y = .ok r ∧ Origin2 x y r.value) := fun d => by
      obtain ⟨r, r1, r2, r3⟩ := C10_rem_special.1 nx ny d
      exact ⟨⟨_, r1, origin_invalid h hi r3⟩, ⟨_, r2, origin_invalid h hi r3⟩⟩
    rcases (category_cases x).resolve_left c.1 with cx | fx
    · exact inv (.inl cx)
    · rcases (category_cases y).resolve_left c.2 with cy | fy
      · obtain ⟨r1, r2⟩ := C10_rem_special.2 fx cy
        exact ⟨⟨_, r1, origin_cat c.1⟩, ⟨_, r2, origin_cat c.1⟩⟩
      · rcases isFinite_iff.1 fy with cy | cy
        · obtain ⟨r, r1, r2, r3, -⟩ := C23_c_fmod h hx hy fx fy (toRat_ne_zero hy cy)
          obtain ⟨q, q1, q2, q3, -⟩ := C24_ieee_rem h hx hy fx fy (toRat_ne_zero hy cy)
          exact ⟨⟨_, r1, .of_not_nan (not_nan_of_finite r3)⟩, ⟨_, q1, .of_not_nan (not_nan_of_finite q3)⟩⟩
        · exact inv (.inr cy)

theorem origin_mul_add (h : S.OK) (hi : S.nonfinite = .ieee754) {x m z : IeeeFloat S} (hx : x.Valid) (hm : m.Valid) (hz : z.Valid) (mode : Round)
    {r : StatusAnd (IeeeFloat S)} (hr : mulAddR x m z mode = .ok r) (hn : r.value.isNan = true) :
    SameNan x r.value ∨ SameNan m r.value ∨ SameNan z r.value ∨ Plain0 r.value := by
  have uniq : ∀ {q : StatusAnd (IeeeFloat S)}, mulAddR x m z mode = .ok q → q = r := fun e => by
    rw [hr] at e; injection e with e; exact e.symm
  have inv : IsInvalid r → SameNan x r.value ∨ SameNan m r.value ∨ SameNan z r.value ∨ Plain0 r.value := fun e =>
    .inr (.inr (.inr (by rw [e.2.2.2]; exact plain_nan h hi)))
  have no : r.value.category ≠ .nan → SameNan x r.value ∨ SameNan m r.value ∨ SameNan z r.value ∨ Plain0 r.value := fun e =>
    absurd hn (by simp [isNan, e])
  by_cases hj : x.category = .infinity ∧ m.category = .zero ∨ x.category = .zero ∧ m.category = .infinity
  · obtain ⟨q, q1, q2⟩ := (C10_mul_add_inf (z := z) h hx hm mode (by rcases hj with c | c <;> rw [c.1] <;> simp)
      (by rcases hj with c | c <;> rw [c.2] <;> simp)).1 hj
    rw [uniq q1] at q2
    exact inv q2
  by_cases hc : x.category = .nan ∨ m.category = .nan ∨ z.category = .nan
  · obtain ⟨q, q1, q2, q3, -⟩ := C11_mul_add_nan h hx hm hz mode hc hj
    rw [uniq q1] at q3
    split_ifs at q3 with c1 c2
    · exact .inl (.of_quieted hi c1 q3)
    · exact .inr (.inl (.of_quieted hi c2 q3))
    · exact .inr (.inr (.inl (.of_quieted hi ((hc.resolve_left c1).resolve_left c2) q3)))
  · push Not at hc
    obtain ⟨nx, nm, nz⟩ := hc
    obtain ⟨-, i2, i3⟩ := C10_mul_add_inf (z := z) h hx hm mode nx nm
    by_cases hf : x.isFinite = true ∧ m.isFinite = true
    · rcases (category_cases z).resolve_left nz with cz | fz
      · have e := uniq (i3 hf.1 hf.2 cz)
        rw [← e] at no
        rw [← e]
        exact no nz
      · obtain ⟨om, hO⟩ := exists_effective S mode (x.toRat * m.toRat + z.toRat)
        by_cases hX : FmaExcluded S (x.toRat * m.toRat) z.toRat
        · by_cases hP : FmaPanics S (x.toRat * m.toRat) z.toRat
          · rw [(C76_panics_iff h hx hm hz hf.1 hf.2 fz mode).1 hP] at hr
            cases hr
          · obtain ⟨q, q1, -, q3, -⟩ := (C76_excluded h hx hm hz hf.1 hf.2 fz mode hX).2 (fun e => hP ⟨hX, e⟩)
            rw [uniq q1] at q3
            exact no (rounds_not_nan hi q3)
        · obtain ⟨q, q1, q2, q3⟩ := mulAddR_eff h hx hm hz hf.1 hf.2 fz mode hO hX
          rw [uniq q1] at q3
          exact no (rounds_not_nan hi q3)
    · have hc : x.category = .infinity ∧ m.category ≠ .zero ∨ m.category = .infinity ∧ x.category ≠ .zero := by
        rcases (category_cases x).resolve_left nx with cx | fx
        · exact Or.inl ⟨cx, fun c => hj (Or.inl ⟨cx, c⟩)⟩
        · rcases (category_cases m).resolve_left nm with cm | fm
          · exact Or.inr ⟨cm, fun c => hj (Or.inr ⟨c, cm⟩)⟩
          · exact absurd ⟨fx, fm⟩ hf
      obtain ⟨q, q1, q2, q3⟩ := i2 hc nz
      rw [uniq q1] at q2 q3
      by_cases e : z.category = .infinity ∧ z.sign ≠ xor x.sign m.sign
      · exact inv (q2 e)
      · exact no (by rw [(q3 e).2.1]; simp)

/-- The NaN results of an operation with one operand. -/
def Origin1 (x r : IeeeFloat S) : Prop := r.isNan = true → SameNan x r ∨ Plain0 r

theorem Origin1.of_not_nan {x r : IeeeFloat S} (h : r.isNan = false) : Origin1 x r := fun e => by rw [h] at e; cases e

theorem datum_not_nan' {r : IeeeFloat S} (h : r.datum ≠ .nan) : r.isNan = false := by
  cases c : r.category <;> simp [datum, c] at h <;> simp [isNan, c]

theorem origin_nextUp (h : S.OK) (hi : S.nonfinite = .ieee754) {x : IeeeFloat S} (hx : x.Valid) : ∃ r, nextUp x = .ok r ∧ Origin1 x r.value := by
  obtain ⟨s1, s2, s3, s4, s5⟩ := C14_next_up_specials h hx
  rcases category_cases x with c | c | c
  · cases hs : x.isSignaling
    · exact ⟨_, s4 (isNan_of c) hs, fun _ => .inl ⟨isNan_of c, rfl, fun e => e⟩⟩
    · refine ⟨Status.INVALID_OP.and ((NAN S).copySign x), ?_, fun _ => .inr (plain_copySign (plain_nan h hi))⟩
      unfold nextUp
      simp only [c, hs]
      rfl
  · have nx : x.isNan = false := by simp [isNan, c]
    cases hs : x.sign
    · exact ⟨_, s2 (isInfinite_of c) hs, .of_not_nan nx⟩
    · obtain ⟨r, r1, r2, r3, -⟩ := s3 (isInfinite_of c) hs
      exact ⟨_, r1, .of_not_nan (not_nan_of_finite r3)⟩
  · by_cases hl : x.toRat = (largest S).toRat
    · obtain ⟨r, r1, r2, r3⟩ := s1 c hl
      rw [if_pos (by simp [Sem.fmt, hi])] at r3
      exact ⟨_, r1, .of_not_nan (datum_not_nan' (by rw [r3]; simp))⟩
    · obtain ⟨r, r1, r2, r3, -⟩ := C14_next_up h hx c hl
      exact ⟨_, r1, .of_not_nan (not_nan_of_finite r3)⟩

theorem origin_nextDown (h : S.OK) (hi : S.nonfinite = .ieee754) {x : IeeeFloat S} (hx : x.Valid) : ∃ r, nextDown x = .ok r ∧ Origin1 x r.value := by
  obtain ⟨r, r1, r2⟩ := origin_nextUp h hi (neg_valid hx)
  refine ⟨r.map neg, ?_, fun hn => ?_⟩
  · unfold nextDown
    rw [r1, M.ok_bind]
  · have e : (r.map neg).value = { r.value with sign := !r.value.sign } := by
      show r.value.neg = _
      rw [neg_eq]
    rw [e] at hn ⊢
    rcases r2 hn with s | s
    · exact .inl (sameNan_neg s)
    · exact .inr s

theorem origin_roundToIntegral (h : S.OK) (hi : S.nonfinite = .ieee754) {x : IeeeFloat S} (hx : x.Valid) (mode : Round) :
    ∃ r, roundToIntegral x mode = .ok r ∧ Origin1 x r.value := by
  rcases category_cases x with c | c | c
  · obtain ⟨r, r1, r2, r3⟩ := (C13_specials h hx mode).2 (isNan_of c)
    exact ⟨_, r1, fun _ => .inl (.of_quieted hi c r3)⟩
  · exact ⟨_, (C13_specials h hx mode).1 (isInfinite_of c), .of_not_nan (by simp [isNan, c])⟩
  · obtain ⟨r, r1, r2, r3, -⟩ := C13_round_to_integral h hx c mode
    exact ⟨r, r1, .of_not_nan (not_nan_of_finite r3)⟩

theorem origin_scalbn (h : S.OK) (hi : S.nonfinite = .ieee754) {x : IeeeFloat S} (hx : x.Valid) (n : ℤ) (mode : Round) :
    ∃ r, scalbnR x n mode = .ok r ∧ Origin1 x r := by
  rcases category_cases x with c | c | c
  · obtain ⟨r, r1, r2, r3⟩ := (C25_specials h hx n mode).2 (isNan_of c)
    exact ⟨r, r1, fun _ => .inl (.of_quieted hi c r3)⟩
  · obtain ⟨r, r1, r2, r3⟩ := (C25_specials h hx n mode).1 (isInfinite_of c)
    exact ⟨r, r1, .of_not_nan (datum_not_nan' (by rw [r3]; simp [datum, c]))⟩
  · obtain ⟨om, hO⟩ := exists_effective S mode (x.toRat * 2 ^ n)
    obtain ⟨r, st, r1, r2, r3, r4⟩ := scalbnR_eff h hx c n mode hO
    have := rounds_not_nan hi r4
    exact ⟨r, r1, .of_not_nan (by simpa [isNan] using this)⟩

theorem origin_frexp (h : S.OK) (hi : S.nonfinite = .ieee754) {x : IeeeFloat S} (hx : x.Valid) (mode : Round) :
    ∃ r, frexpR x mode = .ok r ∧ Origin1 x r.1 := by
  obtain ⟨s1, s2, s3⟩ := C27_specials h hx mode
  rcases category_cases x with c | c | c
  · obtain ⟨r, r1, r2, r3⟩ := s3 (isNan_of c)
    exact ⟨_, r1, fun _ => .inl (.of_quieted hi c r3)⟩
  · exact ⟨_, s2 (isInfinite_of c), .of_not_nan (by simp [isNan, c])⟩
  · rcases isFinite_iff.1 c with cx | cx
    · obtain ⟨f, e, r1, r2, r3, -⟩ := C27_frexp h hx c (toRat_ne_zero hx cx) mode
      exact ⟨_, r1, .of_not_nan (not_nan_of_finite r3)⟩
    · obtain ⟨r, r1, r2, r3⟩ := s1 (by simp [isZero, cx])
      exact ⟨_, r1, .of_not_nan (datum_not_nan' (by rw [r3]; simp [datum, cx]))⟩

/-! ## One call -/

/-- Where the NaN `x`, to be written to a register of the format `f` by the call `c`, comes from. -/
def Stems (c : Call) (st : Store) (f : Format) (x : IeeeFloat f.sem) : Prop :=
  (∃ j, SameNan (st f j) x) ∨ (x.payload = f.plain ∧ x.isSignaling = false) ∨
  (∃ g d a mode, c = .convert g f d a mode ∧ (st g a).isNan = true ∧ x.payload = rescaled g f (st g a).payload ∧ x.isSignaling = false) ∨
  c.Gives f x.payload x.isSignaling

theorem Format.plain_ieee {f : Format} (hi : f.sem.nonfinite = .ieee754) : f.plain = 0 := by
  unfold Format.plain; rw [if_neg (by rw [hi]; simp)]

theorem Format.ok (f : Format) : f.sem.OK := f.enc.toOK

theorem Format.nanOnly_iff {f : Format} (hN : f.sem.nonfinite = .nanOnly) : f = .float8E4M3FN := by
  cases f <;> first | rfl | (exfalso; revert hN; decide)

/-- The significand of the only NaN of `Float8E4M3FN`. -/
theorem f8_nan {x : IeeeFloat float8E4M3FNS} (hx : x.Valid) (hn : x.isNan = true) : x.sig = 7 := by
  have c : x.category = .nan := by simpa [isNan] using hn
  unfold IeeeFloat.Valid at hx
  rw [c] at hx
  exact hx

theorem stems_nanOnly {f : Format} (hN : f.sem.nonfinite = .nanOnly) {x : IeeeFloat f.sem} (hx : x.Valid) (hn : x.isNan = true) :
    x.payload = f.plain ∧ x.isSignaling = false := by
  refine ⟨?_, not_signaling_nanOnly f.ok hN x⟩
  obtain rfl := Format.nanOnly_iff hN
  unfold payload
  rw [show x.sig = 7 from f8_nan hx hn]
  decide

theorem convert_exp {T : Sem} (sg : ℕ) (e e' : ℤ) (b : Bool) (mode : Round) :
    convertR S T ⟨sg, e, .nan, b⟩ mode = convertR S T ⟨sg, e', .nan, b⟩ mode := by
  unfold convertR resultFromNan
  rw [show (⟨sg, e, .nan, b⟩ : IeeeFloat S).isNan = true from rfl, show (⟨sg, e', .nan, b⟩ : IeeeFloat S).isNan = true from rfl,
    show (⟨sg, e', .nan, b⟩ : IeeeFloat S).isSignaling = (⟨sg, e, .nan, b⟩ : IeeeFloat S).isSignaling from rfl]
  cases (⟨sg, e, .nan, b⟩ : IeeeFloat S).isSignaling <;>
    simp only [if_true, massert_pos, Bool.false_eq_true, if_false, M.ok_bind, Status.and] <;>
    (refine congrArg _ (funext fun sh => ?_)
     simp only [show ∀ (s : ℕ) (e : ℤ), (⟨s, e, .nan, b⟩ : IeeeFloat S).isFiniteNonZero = false from fun _ _ => rfl, Bool.false_eq_true, and_false,
       if_false]
     rfl)

theorem convert_f8_all : ∀ (b : Bool) (mode : Round), ∀ g ∈ [Format.half, .single, .double, .quad, .bfloat, .float8E5M2, .x87DoubleExtended],
    (match convertR float8E4M3FNS g.sem ⟨7, 0, .nan, b⟩ mode with
      | .ok c => decide (c.value.payload = rescaled .float8E4M3FN g 3) | .error _ => false) = true := by
  intro b mode
  cases b <;> cases mode <;> decide +kernel

theorem convert_f8 (g : Format) (hi : g.sem.nonfinite = .ieee754) (e : ℤ) (b : Bool) (mode : Round) :
    ∃ c, convertR float8E4M3FNS g.sem ⟨7, e, .nan, b⟩ mode = .ok c ∧ c.value.payload = rescaled .float8E4M3FN g 3 := by
  rw [convert_exp 7 e 0]
  have key : ∀ m : M (ConvOut g.sem), (match m with | .ok c => decide (c.value.payload = rescaled .float8E4M3FN g 3) | .error _ => false) = true →
      ∃ c, m = .ok c ∧ c.value.payload = rescaled .float8E4M3FN g 3 := by
    intro m hm
    split at hm
    · exact ⟨_, rfl, of_decide_eq_true hm⟩
    · cases hm
  refine key _ (convert_f8_all b mode g ?_)
  cases g
  case float8E4M3FN => cases hi
  all_goals simp

theorem origin_convert {f g : Format} (hi : g.sem.nonfinite = .ieee754) {x : IeeeFloat f.sem} (hx : x.Valid) (mode : Round) :
    ∃ c, convertR f.sem g.sem x mode = .ok c ∧ (c.value.isNan = true →
      x.isNan = true ∧ c.value.payload = rescaled f g x.payload ∧ c.value.isSignaling = false) := by
  rcases category_cases x with c | c | c
  · obtain ⟨r, r1, r2, r3, r4, -, -, r5⟩ := C21_convert_nan f.ok g.ok hx (isNan_of c) mode
    refine ⟨r, r1, fun _ => ⟨isNan_of c, ?_, r4⟩⟩
    cases hN : f.sem.nonfinite with
    | ieee754 => exact (r5 hN hi).2
    | nanOnly =>
      obtain rfl := Format.nanOnly_iff hN
      have h7 : x.sig = 7 := f8_nan hx (isNan_of c)
      obtain ⟨q, q1, q2⟩ := convert_f8 g hi x.exp x.sign mode
      have ex : x = ⟨7, x.exp, .nan, x.sign⟩ := by
        obtain ⟨a, b, d, e⟩ := x
        simp only at h7 c
        subst h7 c
        rfl
      have hp : x.payload = 3 := by unfold payload; rw [h7]; decide
      rw [hp, ← q2]
      rw [ex] at r1
      have e : (Except.ok r : M _) = .ok q := r1.symm.trans q1
      injection e with e
      rw [e]
  · rw [convertR_inf f.ok g.ok c, if_pos hi]
    exact ⟨_, rfl, fun e => by simp [isNan, INFINITY, hi] at e⟩
  · obtain ⟨om, hO⟩ := exists_effective g.sem mode x.toRat
    obtain ⟨r, r1, r2, r3, r4⟩ := convertR_eff f.ok g.ok hx c mode hO
    have := rounds_not_nan hi r4
    exact ⟨r, r1, fun e => by simp [isNan] at e; exact absurd e this⟩

theorem stored_ok (f : Format) (hi : f.sem.nonfinite = .ieee754) (s : Bool) (p : Option ℕ) :
    (if s then snan f.sem p else qnan f.sem p).sig % 2 ^ (f.sem.precision - 2) = f.stored s p := by
  unfold Format.stored
  cases s
  · simpa using ((C40_qnan f.ok p).2.2.2.2 hi).2
  · simpa using ((C40_snan f.ok p).2.2.2.2 hi).2

theorem stems_fromStr {f : Format} {d fuel : ℕ} {t : List Char} {mode : Round} (hc : (Call.fromStr f d fuel t mode).InRange) (st : Store)
    (hi : f.sem.nonfinite = .ieee754) {r : StatusAnd (IeeeFloat f.sem)} (hr : fromStrR f.sem fuel t mode = .ok (.ok r)) (hn : r.value.isNan = true) :
    Stems (.fromStr f d fuel t mode) st f r.value := by
  have uniq : ∀ {q : StatusAnd (IeeeFloat f.sem)}, fromStrR f.sem fuel t mode = .ok (.ok q) → q = r := fun e => by
    rw [hr] at e; injection e with e; injection e with e; exact e.symm
  have no : ∀ {md : Round} {v : ℚ} {z : Bool}, Rounds f.sem md v z r → Stems (.fromStr f d fuel t mode) st f r.value := fun e => by
    have := rounds_not_nan hi e
    simp [isNan] at hn
    exact absurd hn this
  by_cases hd : ∃ l, Denotes t l
  · obtain ⟨l, hl⟩ := hd
    have hl' := hl
    cases hl with
    | hex sg c t v hx ht =>
      obtain ⟨q, q1, -, q3, -⟩ := C30_hex f.ok f.precision_le fuel sg hx (t := t) (by have := hc.2; simp at this; omega) ht mode
      rw [uniq q1] at q3
      exact no q3
    | dec sg t v ht =>
      obtain ⟨q, q1, -, -, -, -, -, w, -, -, q3⟩ := fromStrR_dec f.ok hc.1 sg (t := t) (by have := hc.2; simp at this; omega) ht mode
      rw [uniq q1] at q3
      exact no q3
    | signedInf sg h0 =>
      obtain ⟨q, q1, -, -, q2, -⟩ := C32_inf (S := f.sem) fuel hl' mode
      have := datum_not_nan' (r := q.value) (by rw [q2 hi]; simp)
      rw [uniq q1, hn] at this
      cases this
    | inf sg t h0 h1 =>
      obtain ⟨q, q1, -, -, q2, -⟩ := C32_inf (S := f.sem) fuel hl' mode
      have := datum_not_nan' (r := q.value) (by rw [q2 hi]; simp)
      rw [uniq q1, hn] at this
      cases this
    | nan sg t q p h0 h1 =>
      obtain ⟨u, u1, -, u3, u4, u5, u6, u7⟩ := C32_nan f.ok fuel hl' mode
      rw [uniq u1] at u6 u7
      refine .inr (.inr (.inr ⟨hi, rfl, sg == .minus, p, ?_, ?_⟩))
      · rw [u6, hi]
        simpa using hl'
      · unfold payload
        rw [u7, stored_ok f hi, u6, hi]
        simp
  · obtain ⟨e, he⟩ := C32_reject (S := f.sem) fuel hd mode
    rw [hr] at he
    injection he with he
    cases he

theorem and_pow_eq (a k : ℕ) : a &&& 2 ^ k = (a.testBit k).toNat * 2 ^ k := by
  apply Nat.eq_of_testBit_eq
  intro i
  rw [Nat.testBit_and, Nat.testBit_two_pow]
  by_cases e : k = i
  · subst e
    cases a.testBit k <;> simp
  · cases a.testBit k <;> simp [e, Nat.testBit_two_pow]

/-- A NaN is signaling if its quiet bit is 0 or, in x87, its integer bit. -/
theorem signaling_iff (h : S.OK) (hi : S.nonfinite = .ieee754) {x : IeeeFloat S} (hn : x.isNan = true) :
    x.isSignaling = true ↔ x.sig.testBit (S.precision - 2) = false ∨ S.explicitIntBit = true ∧ x.sig.testBit (S.precision - 1) = false := by
  unfold isSignaling
  rw [hn, Bool.true_and, bne_iff_ne]
  rcases (h.ieee hi).2.2 with ⟨a, b⟩ | ⟨a, b, c⟩
  · rw [a, b, and_pow_eq]
    have : 0 < 2 ^ (S.precision - 2) := by positivity
    cases x.sig.testBit (S.precision - 2) <;> simp <;> omega
  · rw [a, b, c, show 3 * 2 ^ 62 = 2 ^ 62 ||| 2 ^ 63 by decide, Nat.and_or_distrib_left, and_pow_eq, and_pow_eq]
    show _ ↔ x.sig.testBit 62 = false ∨ true = true ∧ x.sig.testBit 63 = false
    cases x.sig.testBit 62 <;> cases x.sig.testBit 63 <;> decide

theorem stems_fromBits {f : Format} {d b : ℕ} (hc : b < 2 ^ f.sem.bits) (st : Store)
    (hi : f.sem.nonfinite = .ieee754) {x : IeeeFloat f.sem} (hr : fromBits f.sem b = .ok x) (hn : x.isNan = true) :
    Stems (.fromBits f d b) st f x := by
  obtain ⟨y, y1, y2, y3, y4, y5⟩ := C02_from_bits_decodes f.enc hc
  rw [hr] at y1
  injection y1 with y1
  subst y1
  have c : x.category = .nan := by simpa [isNan] using hn
  have hs := y5 hn
  have hk : f.sem.precision - 2 ≤ f.sem.sigBits := by unfold Sem.sigBits; split_ifs <;> omega
  refine .inr (.inr (.inr ⟨hi, rfl, ?_, ?_, ?_⟩))
  · rw [← y3]; simp [datum, c]
  · unfold payload
    rw [hs, sigField, Nat.mod_mod_of_dvd _ (pow_dvd_pow 2 hk)]
  · rw [signaling_iff f.ok hi hn, hs, sigField]
    have p1 := f.ok.p_ge
    rw [Nat.testBit_mod_two_pow, decide_eq_true (by unfold Sem.sigBits; split_ifs <;> omega), Bool.true_and]
    refine or_congr Iff.rfl (and_congr_right fun e => ?_)
    rw [Nat.testBit_mod_two_pow, decide_eq_true (by unfold Sem.sigBits; rw [if_pos e]; omega), Bool.true_and]

theorem stems_set {c : Call} {st : Store} {f : Format} {d : ℕ} {x : IeeeFloat f.sem} (h : f.sem.nonfinite = .ieee754 → x.isNan = true → Stems c st f x) :
    ∀ g i, g.sem.nonfinite = .ieee754 → ((st.set f d x) g i).isNan = true → Stems c st g ((st.set f d x) g i) := by
  intro g i hi hn
  unfold Store.set at hn ⊢
  split_ifs at hn ⊢ with h1 h2
  · subst h1; exact h hi hn
  · exact .inl ⟨i, hn, rfl, id⟩
  · exact .inl ⟨i, hn, rfl, id⟩

/-- One call, formats with infinities. -/
theorem Call.run_stems {st st' : Store} (hst : st.WellFormed) {c : Call} (hc : c.InRange) (hr : c.run st = .ok st') :
    ∀ f i, f.sem.nonfinite = .ieee754 → (st' f i).isNan = true → Stems c st f (st' f i) := by
  have set1 : ∀ {f : Format} {d : ℕ} {x : IeeeFloat f.sem}, (Except.ok (st.set f d x) : M Store) = .ok st' →
      (f.sem.nonfinite = .ieee754 → x.isNan = true → Stems c st f x) →
      ∀ f i, f.sem.nonfinite = .ieee754 → (st' f i).isNan = true → Stems c st f (st' f i) := by
    intro f d x e h
    injection e with e
    subst e
    exact stems_set h
  have noNan : ∀ {f : Format} {x : IeeeFloat f.sem}, x.isNan = false → (f.sem.nonfinite = .ieee754 → x.isNan = true → Stems c st f x) :=
    fun e _ e' => by rw [e] at e'; cases e'
  have same : ∀ {f : Format} {x : IeeeFloat f.sem} (a : ℕ), (x.isNan = true → SameNan (st f a) x) →
      (f.sem.nonfinite = .ieee754 → x.isNan = true → Stems c st f x) := fun a h _ hn => .inl ⟨a, h hn⟩
  have fresh : ∀ {f : Format} {x : IeeeFloat f.sem}, f.sem.nonfinite = .ieee754 → Plain0 x → Stems c st f x :=
    fun hi h => .inr (.inl ⟨by rw [Format.plain_ieee hi]; exact h.1, h.2⟩)
  have bin : ∀ {f : Format} {d a b : ℕ} {m : M (StatusAnd (IeeeFloat f.sem))},
      (f.sem.nonfinite = .ieee754 → ∃ r, m = .ok r ∧ Origin2 (st f a) (st f b) r.value) →
      (do let r ← m; .ok (st.set f d r.value) : M Store) = .ok st' →
      ∀ f i, f.sem.nonfinite = .ieee754 → (st' f i).isNan = true → Stems c st f (st' f i) := by
    intro f d a b m h e
    obtain ⟨r, r1, r2⟩ := M.bind_ok e
    refine set1 r2 fun hi hn => ?_
    obtain ⟨q, q1, q2⟩ := h hi
    rw [r1] at q1
    injection q1 with q1
    subst q1
    rcases q2 hn with s | s | s
    · exact .inl ⟨_, s⟩
    · exact .inl ⟨_, s⟩
    · exact fresh hi s
  have un : ∀ {f : Format} {d a : ℕ} {α : Type} {k : α → IeeeFloat f.sem} {m : M α},
      (f.sem.nonfinite = .ieee754 → ∃ r, m = .ok r ∧ Origin1 (st f a) (k r)) →
      (do let r ← m; .ok (st.set f d (k r)) : M Store) = .ok st' →
      ∀ f i, f.sem.nonfinite = .ieee754 → (st' f i).isNan = true → Stems c st f (st' f i) := by
    intro f d a α k m h e
    obtain ⟨r, r1, r2⟩ := M.bind_ok e
    refine set1 r2 fun hi hn => ?_
    obtain ⟨q, q1, q2⟩ := h hi
    rw [r1] at q1
    injection q1 with q1
    subst q1
    rcases q2 hn with s | s
    · exact .inl ⟨_, s⟩
    · exact fresh hi s
  have pick : ∀ {f : Format} {d a b : ℕ} {m : M (IeeeFloat f.sem)}, (∃ r, m = .ok r ∧ (r = st f a ∨ r = st f b)) →
      (do let r ← m; .ok (st.set f d r) : M Store) = .ok st' →
      ∀ f i, f.sem.nonfinite = .ieee754 → (st' f i).isNan = true → Stems c st f (st' f i) := by
    rintro f d a b m ⟨q, q1, q2⟩ e
    obtain ⟨r, r1, r2⟩ := M.bind_ok e
    rw [r1] at q1
    injection q1 with q1
    subst q1
    rcases q2 with rfl | rfl
    · exact set1 r2 (same a fun h => ⟨h, rfl, id⟩)
    · exact set1 r2 (same b fun h => ⟨h, rfl, id⟩)
  have keep : st' = st → ∀ f i, f.sem.nonfinite = .ieee754 → (st' f i).isNan = true → Stems c st f (st' f i) := by
    rintro rfl f i _ hn
    exact .inl ⟨i, hn, rfl, id⟩
  have obs : ∀ {α : Type} {m : M α}, (do let _ ← m; .ok st : M Store) = .ok st' →
      ∀ f i, f.sem.nonfinite = .ieee754 → (st' f i).isNan = true → Stems c st f (st' f i) := by
    intro α m e
    obtain ⟨r, -, r2⟩ := M.bind_ok e
    injection r2 with r2
    exact keep r2.symm
  cases c
  case zero f d => exact set1 hr (noNan rfl)
  case infinity f d => exact set1 hr fun hi hn => by simp [isNan, INFINITY, hi] at hn
  case nan f d => exact set1 hr fun hi _ => fresh hi (plain_nan f.ok hi)
  case qnan f d p =>
    refine set1 hr fun hi _ => .inr (.inr (.inr ⟨hi, rfl, (C40_qnan f.ok p).2.2.1, ?_⟩))
    exact stored_ok f hi false p
  case snan f d p =>
    refine set1 hr fun hi _ => .inr (.inr (.inr ⟨hi, rfl, ?_, ?_⟩))
    · rw [(C40_snan f.ok p).2.2.1, hi]; rfl
    · exact stored_ok f hi true p
  case largest f d => exact set1 hr (noNan rfl)
  case smallest f d => exact set1 hr (noNan rfl)
  case smallestNormalized f d => exact set1 hr (noNan rfl)
  case fromBits f d b =>
    obtain ⟨x, x1, x2⟩ := M.bind_ok hr
    exact set1 x2 fun hi hn => stems_fromBits hc st hi x1 hn
  case fromU128 f d n mode =>
    obtain ⟨r, r1, r2, r3⟩ := C17_from_u128 f.ok hc mode
    exact un (a := 0) (fun hi => ⟨r, r1, .of_not_nan (by have := rounds_not_nan hi r3; simpa [isNan] using this)⟩) hr
  case fromI128 f d n mode =>
    obtain ⟨r, r1, r2, r3⟩ := C17_from_i128 f.ok hc.1 hc.2 mode
    exact un (a := 0) (fun hi => ⟨r, r1, .of_not_nan (by have := rounds_not_nan hi r3; simpa [isNan] using this)⟩) hr
  case fromStr f d fuel t mode =>
    obtain ⟨r, r1, r2⟩ := M.bind_ok hr
    cases r with
    | ok r => exact set1 r2 fun hi hn => stems_fromStr hc st hi r1 hn
    | error e =>
      injection r2 with r2
      exact keep r2.symm
  case neg f d a => exact set1 hr (same a fun h => by rw [neg_eq] at h ⊢; exact ⟨h, rfl, id⟩)
  case abs f d a => exact set1 hr (same a fun h => by rw [abs_eq] at h ⊢; exact ⟨h, rfl, id⟩)
  case copySign f d a b => exact set1 hr (same a fun h => by rw [copySign_eq] at h ⊢; exact ⟨h, rfl, id⟩)
  case add f d a b mode => exact bin (fun hi => origin_add f.ok hi (hst f a) (hst f b) mode) hr
  case sub f d a b mode => exact bin (fun hi => origin_sub f.ok hi (hst f a) (hst f b) mode) hr
  case mul f d a b mode => exact bin (fun hi => origin_mul f.ok hi (hst f a) (hst f b) mode) hr
  case div f d a b mode => exact bin (fun hi => origin_div f.ok hi (hst f a) (hst f b) mode) hr
  case mulAdd f d a b e mode =>
    obtain ⟨r, r1, r2⟩ := M.bind_ok hr
    refine set1 r2 fun hi hn => ?_
    rcases origin_mul_add f.ok hi (hst f a) (hst f b) (hst f e) mode r1 hn with s | s | s | s
    · exact .inl ⟨_, s⟩
    · exact .inl ⟨_, s⟩
    · exact .inl ⟨_, s⟩
    · exact fresh hi s
  case fmod f d a b => exact bin (fun hi => (origin_rem f.ok hi (hst f a) (hst f b)).1) hr
  case rem f d a b => exact bin (fun hi => (origin_rem f.ok hi (hst f a) (hst f b)).2) hr
  case roundToIntegral f d a mode => exact un (fun hi => origin_roundToIntegral f.ok hi (hst f a) mode) hr
  case nextUp f d a => exact un (fun hi => origin_nextUp f.ok hi (hst f a)) hr
  case nextDown f d a => exact un (fun hi => origin_nextDown f.ok hi (hst f a)) hr
  case scalbn f d a n mode => exact un (k := id) (fun hi => origin_scalbn f.ok hi (hst f a) n mode) hr
  case frexp f d a mode => exact un (k := fun r : IeeeFloat f.sem × ℤ => r.1) (fun hi => origin_frexp f.ok hi (hst f a) mode) hr
  case exactInverse f d a =>
    obtain ⟨o, o1, o2, -⟩ := C28_get_exact_inverse f.ok (hst f a)
    obtain ⟨r, r1, r2⟩ := M.bind_ok hr
    rw [o1] at r1
    injection r1 with r1
    subst r1
    cases o with
    | none =>
      injection r2 with r2
      exact keep r2.symm
    | some y =>
      refine set1 r2 (noNan ?_)
      have := (o2 y rfl).2.1
      simp [isNormal, isFiniteNonZero, isFinite] at this
      exact this.2.1.1
  case min f d a b => exact pick (by obtain ⟨r, r1, r2, -⟩ := C16_min f.ok (hst f a) (hst f b); exact ⟨r, r1, r2⟩) hr
  case max f d a b => exact pick (by obtain ⟨r, r1, r2, -⟩ := C16_max f.ok (hst f a) (hst f b); exact ⟨r, r1, r2⟩) hr
  case minimum f d a b => exact pick (by obtain ⟨r, r1, r2, -⟩ := C16_minimum f.ok (hst f a) (hst f b); exact ⟨r, r1, r2⟩) hr
  case maximum f d a b => exact pick (by obtain ⟨r, r1, r2, -⟩ := C16_maximum f.ok (hst f a) (hst f b); exact ⟨r, r1, r2⟩) hr
  case convert f g d a mode =>
    obtain ⟨r, r1, r2⟩ := M.bind_ok hr
    refine set1 r2 fun hi hn => ?_
    obtain ⟨q, q1, q2⟩ := origin_convert (f := f) hi (hst f a) mode
    rw [r1] at q1
    injection q1 with q1
    subst q1
    exact .inr (.inr (.inl ⟨f, d, a, mode, rfl, q2 hn⟩))
  case operators f a b =>
    obtain ⟨_, -, r⟩ := M.bind_ok hr
    obtain ⟨_, -, r⟩ := M.bind_ok r
    obtain ⟨_, -, r⟩ := M.bind_ok r
    obtain ⟨_, -, r⟩ := M.bind_ok r
    exact obs r
  all_goals exact obs hr

/-- One call, every format. -/
theorem Call.run_stems' {st st' : Store} (hst : st.WellFormed) {c : Call} (hc : c.InRange) (hr : c.run st = .ok st') :
    st'.WellFormed ∧ ∀ f i, (st' f i).isNan = true → Stems c st f (st' f i) := by
  have hw : st'.WellFormed := by
    rcases Call.run_total hst c hc with ⟨s, e, h⟩ | ⟨-, e⟩
    · rw [hr] at e; injection e with e; rw [e]; exact h
    · rw [hr] at e; cases e
  refine ⟨hw, fun f i hn => ?_⟩
  cases hN : f.sem.nonfinite with
  | ieee754 => exact Call.run_stems hst hc hr f i hN hn
  | nanOnly => exact .inr (.inl (stems_nanOnly hN (hw f i) hn))

/-! ## Programs -/

theorem NanFrom.step {c : Call} {cs : List Call} {st st1 : Store} (h : ∀ f i, (st1 f i).isNan = true → Stems c st f (st1 f i)) {f : Format} {n : ℕ}
    (hn : NanFrom cs st1 f n) : NanFrom (c :: cs) st f n := by
  induction hn with
  | register f i hi =>
    rcases h f i hi with ⟨j, s1, s2, -⟩ | ⟨s, -⟩ | ⟨g, d, a, mode, rfl, s1, s2, -⟩ | s
    · rw [s2]; exact .register f j s1
    · rw [s]; exact .plain f
    · rw [s2]; exact .converted List.mem_cons_self (.register g a s1)
    · exact .given List.mem_cons_self s
  | given hc hg => exact .given (List.mem_cons_of_mem _ hc) hg
  | plain f => exact .plain f
  | converted hc _ ih => exact .converted (List.mem_cons_of_mem _ hc) ih

/-- **C114.**  Whatever program is run on whatever registers: the payload of every NaN in a register at its end is the payload of a NaN that was there at the start, or one
that a call of the program names, or that of the default NaN, or what conversions among its calls make of such a payload.  No operation makes up a payload. -/
theorem C114_payloads (cs : List Call) : ∀ {st st' : Store}, st.WellFormed → (∀ c ∈ cs, c.InRange) → runAll cs st = .ok st' →
    ∀ f i, (st' f i).isNan = true → NanFrom cs st f (st' f i).payload := by
  induction cs with
  | nil =>
    intro st st' _ _ hr f i hn
    injection hr with hr
    subst hr
    exact .register f i hn
  | cons c cs ih =>
    intro st st' hst hc hr f i hn
    obtain ⟨st1, e1, e2⟩ := M.bind_ok hr
    obtain ⟨w, h⟩ := Call.run_stems' hst (hc c List.mem_cons_self) e1
    exact NanFrom.step h (ih w (fun c' h' => hc c' (List.mem_cons_of_mem _ h')) e2 f i hn)

/-- **C114** (signaling NaNs).  A signaling NaN in a register at the end of a program has the payload of a signaling NaN of that format that was there at the start, or
of one that a call of the program names: no operation, no conversion and no arithmetic makes a signaling NaN. -/
theorem C114_signaling (cs : List Call) : ∀ {st st' : Store}, st.WellFormed → (∀ c ∈ cs, c.InRange) → runAll cs st = .ok st' →
    ∀ f i, (st' f i).isSignaling = true →
      (∃ j, (st f j).isSignaling = true ∧ (st' f i).payload = (st f j).payload) ∨ ∃ c ∈ cs, c.Gives f (st' f i).payload true := by
  induction cs with
  | nil =>
    intro st st' _ _ hr f i hs
    injection hr with hr
    subst hr
    exact .inl ⟨i, hs, rfl⟩
  | cons c cs ih =>
    intro st st' hst hc hr f i hs
    obtain ⟨st1, e1, e2⟩ := M.bind_ok hr
    obtain ⟨w, h⟩ := Call.run_stems' hst (hc c List.mem_cons_self) e1
    rcases ih w (fun c' h' => hc c' (List.mem_cons_of_mem _ h')) e2 f i hs with ⟨j, s1, s2⟩ | ⟨c', s1, s2⟩
    · have nj : (st1 f j).isNan = true := by
        cases e : (st1 f j).isNan
        · rw [not_signaling_of_not_nan e] at s1; cases s1
        · rfl
      rcases h f j nj with ⟨k, t1, t2, t3⟩ | ⟨-, t⟩ | ⟨g, d, a, mode, -, -, -, t⟩ | t
      · exact .inl ⟨k, t3 s1, s2.trans t2⟩
      · rw [t] at s1; cases s1
      · rw [t] at s1; cases s1
      · rw [s1, ← s2] at t
        exact .inr ⟨c, List.mem_cons_self, t⟩
    · exact .inr ⟨c', List.mem_cons_of_mem _ s1, s2⟩

/-- **C114** (the default NaN).  If a program starts without NaNs, names none other than quiet ones with payload 0 and converts nothing from `Float8E4M3FN`, then every NaN it makes is the
default one of its format up to its sign. -/
theorem C114_default {cs : List Call} {st st' : Store} (hst : st.WellFormed) (hc : ∀ c ∈ cs, c.InRange) (hr : runAll cs st = .ok st')
    (h0 : ∀ f i, (st f i).isNan = false) (hg : ∀ c ∈ cs, ∀ f n s, c.Gives f n s → n = 0 ∧ s = false)
    (hv : ∀ g d a mode, Call.convert .float8E4M3FN g d a mode ∉ cs) (f : Format) (i : ℕ) (hn : (st' f i).isNan = true) :
    (st' f i).payload = f.plain ∧ (st' f i).isSignaling = false := by
  have hw : ∀ (cs : List Call) {st st' : Store}, st.WellFormed → (∀ c ∈ cs, c.InRange) → runAll cs st = .ok st' → st'.WellFormed := by
    intro cs
    induction cs with
    | nil => intro st st' w _ e; injection e with e; exact e ▸ w
    | cons c cs ih =>
      intro st st' w hc e
      obtain ⟨st1, e1, e2⟩ := M.bind_ok e
      exact ih (Call.run_stems' w (hc c List.mem_cons_self) e1).1 (fun c' h' => hc c' (List.mem_cons_of_mem _ h')) e2
  constructor
  · by_cases hf8 : f = .float8E4M3FN
    · subst hf8
      exact (stems_nanOnly rfl (hw cs hst hc hr _ i) hn).1
    have hF := C114_payloads cs hst hc hr f i hn
    generalize (st' f i).payload = n at hF
    have key : n = f.plain ∨ f = .float8E4M3FN := by
      clear hn hf8
      induction hF with
      | register f i e => rw [h0] at e; cases e
      | given a b => left; rw [(hg _ a _ _ _ b).1, Format.plain_ieee b.1]
      | plain f => exact .inl rfl
      | @converted f g n d a mode a1 _ ih =>
        by_cases e : g = .float8E4M3FN
        · exact .inr e
        · left
          have e' : f ≠ .float8E4M3FN := fun e => hv g d a mode (e ▸ a1)
          have pl : ∀ {f : Format}, f ≠ .float8E4M3FN → f.plain = 0 := fun {f} h => by
            unfold Format.plain
            rw [if_neg fun hN => h (Format.nanOnly_iff hN)]
          rw [ih.resolve_right e', pl e', pl e]
          unfold rescaled
          split_ifs <;> simp
    exact key.resolve_right hf8
  · by_contra hs
    rcases C114_signaling cs hst hc hr f i (by simpa using hs) with ⟨j, s, -⟩ | ⟨c, c1, c2⟩
    · rw [not_signaling_of_not_nan (h0 f j)] at s; cases s
    · exact absurd (hg c c1 f _ _ c2).2 (by simp)

/-- The payload in terms of the bit pattern: its lowest `precision - 2` bits. -/
theorem C114_payload_bits (h : S.Enc) {x : IeeeFloat S} (hx : x.Valid) (hn : x.isNan = true) :
    ∃ b, x.toBits = .ok b ∧ x.payload = b % 2 ^ (S.precision - 2) := by
  obtain ⟨b, y, b1, b2, b3, b4⟩ := C03_value_round_trip h hx
  refine ⟨b, b1, ?_⟩
  obtain ⟨z, z1, -, -, -, z5⟩ := C02_from_bits_decodes h b2
  rw [b3] at z1
  injection z1 with z1
  subst z1
  rw [bitwiseEq_iff] at b4
  have c : x.category = .nan := by simpa [isNan] using hn
  have cy : y.category = .nan := b4.1.trans c
  have hk : S.precision - 2 ≤ S.sigBits := by unfold Sem.sigBits; split_ifs <;> omega
  unfold payload
  rw [← b4.2.2.2 cy, z5 (isNan_of cy), sigField, Nat.mod_mod_of_dvd _ (pow_dvd_pow 2 hk)]

example := C114_payload_bits halfS_enc (x := ⟨0x205, 16, .nan, true⟩) (by decide) rfl

/-! A program in which infinity minus infinity makes a NaN that goes on to other operations and to another format. -/

def nanProgram : List Call :=
  [.infinity .single 0, .sub .single 1 0 0 .nearestTiesToEven, .neg .single 2 1, .zero .single 3, .mulAdd .single 4 3 2 0 .towardZero,
   .convert .single .half 0 4 .towardPositive]

/-- A signaling NaN with payload, which `convert` and `+` quiet; its payload goes on, the signal does not. -/
def snanProgram : List Call := [.snan .double 0 (some 5), .add .double 1 0 3 .towardZero, .convert .double .quad 0 1 .towardZero, .fromBits .half 0 0x7c05]

theorem C114_samples :
    (∀ c ∈ nanProgram, c.InRange) ∧ (∀ c ∈ snanProgram, c.InRange) ∧
    (∃ st, runAll nanProgram .start = .ok st ∧ (st .half 0).isNan = true ∧ (st .half 0).payload = 0) ∧
    (∃ st, runAll snanProgram .start = .ok st ∧ (st .double 0).isSignaling = true ∧ (st .double 0).payload = 5 ∧ (st .double 1).isSignaling = false ∧
      (st .double 1).payload = 5 ∧ (st .quad 0).payload = 5 * 2 ^ 60 ∧ (st .half 0).payload = 5) := by
  refine ⟨?_, ?_, ?_, ?_⟩
  · intro c hc
    simp only [nanProgram, List.mem_cons, List.not_mem_nil, or_false] at hc
    rcases hc with rfl | rfl | rfl | rfl | rfl | rfl <;> trivial
  · intro c hc
    simp only [snanProgram, List.mem_cons, List.not_mem_nil, or_false] at hc
    rcases hc with rfl | rfl | rfl | rfl <;> first | trivial | (show _ < _; decide)
  · have e : ∀ m : M Store, (match m with | .ok st => decide ((st .half 0).isNan = true ∧ (st .half 0).payload = 0) | _ => false) = true →
        ∃ st, m = .ok st ∧ (st .half 0).isNan = true ∧ (st .half 0).payload = 0 := by
      intro m hm
      split at hm
      · exact ⟨_, rfl, of_decide_eq_true hm⟩
      · cases hm
    apply e
    decide +kernel
  · have e : ∀ m : M Store, (match m with | .ok st => decide ((st .double 0).isSignaling = true ∧ (st .double 0).payload = 5 ∧ (st .double 1).isSignaling = false ∧
          (st .double 1).payload = 5 ∧ (st .quad 0).payload = 5 * 2 ^ 60 ∧ (st .half 0).payload = 5) | _ => false) = true →
        ∃ st, m = .ok st ∧ (st .double 0).isSignaling = true ∧ (st .double 0).payload = 5 ∧ (st .double 1).isSignaling = false ∧
          (st .double 1).payload = 5 ∧ (st .quad 0).payload = 5 * 2 ^ 60 ∧ (st .half 0).payload = 5 := by
      intro m hm
      split at hm
      · exact ⟨_, rfl, of_decide_eq_true hm⟩
      · cases hm
    apply e
    decide +kernel

/-- The hypotheses of `C114_default` hold of the first program. -/
example : (∀ f i, (Store.start f i).isNan = false) ∧ (∀ c ∈ nanProgram, ∀ f n s, c.Gives f n s → n = 0 ∧ s = false) ∧
    (∀ g d a mode, Call.convert .float8E4M3FN g d a mode ∉ nanProgram) := by
  refine ⟨fun _ _ => rfl, ?_, ?_⟩
  · intro c hc f n s hg
    simp only [nanProgram, List.mem_cons, List.not_mem_nil, or_false] at hc
    rcases hc with rfl | rfl | rfl | rfl | rfl | rfl <;> exact hg.2.elim
  · intro g d a mode hc
    simp [nanProgram] at hc

end Apf
