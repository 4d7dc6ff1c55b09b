import Verif.Model.Debug
import Verif.Proof.Total
import Verif.Props.Arith
import Verif.Props.Bits
import Verif.Props.Compare
import Verif.Props.Consts
import Verif.Props.Convert
import Verif.Props.Decimal
import Verif.Props.Display
import Verif.Props.DisplayZero
import Verif.Props.FmaExact
import Verif.Props.Integral
import Verif.Props.Ints
import Verif.Props.Next
import Verif.Props.Rem
import Verif.Props.Scale
/-! # C29: no API call panics, and every value produced is well formed

First one lemma per operation (`total_…`): on all well-formed operands — finite or not — and in every rounding mode, the call
returns a well-formed value.  Then the property itself, about arbitrary finite programs over registers of the eight formats. -/

namespace Apf
open Spec IeeeFloat

variable {S : Sem}

/-- `m` returns, and its value is well formed. -/
def Returns (m : M (StatusAnd (IeeeFloat S))) : Prop := ∃ r, m = .ok r ∧ r.value.Valid

theorem category_cases (x : IeeeFloat S) : x.category = .nan ∨ x.category = .infinity ∨ x.isFinite = true := by
  rw [isFinite_iff]
  cases x.category <;> simp

theorem fixZeroSign_valid {x y : IeeeFloat S} (hx : x.Valid) (mode : Round) : (fixZeroSign x y mode).Valid := by
  unfold fixZeroSign
  split_ifs
  · rw [withSign_eq, valid_sign]; exact hx
  · exact hx

theorem total_add (h : S.OK) {x y : IeeeFloat S} (hx : x.Valid) (hy : y.Valid) (mode : Round) : Returns (addR x y mode) := by
  by_cases hn : x.category = .nan ∨ y.category = .nan
  · obtain ⟨r, ⟨r1, -⟩, r2, -⟩ := C11_nan_propagation h hx hy mode hn
    exact ⟨r, r1, r2⟩
  · push Not at hn
    rcases (category_cases x).resolve_left hn.1 with cx | fx <;> rcases (category_cases y).resolve_left hn.2 with cy | fy
    · obtain ⟨r, r1, -⟩ := C10_add_inf_inf cx cy mode
      refine ⟨r, r1, ?_⟩
      unfold addR at r1
      rw [cx, cy] at r1
      dsimp only at r1
      split_ifs at r1
      all_goals
        injection r1 with r1
        subst r1
        first | exact nan_valid h | exact fixZeroSign_valid hx mode
    · exact ⟨_, (C10_add_inf_finite mode).1 cx fy, hx⟩
    · exact ⟨_, (C10_add_inf_finite mode).2 fx cy, hy⟩
    · obtain ⟨om, hO⟩ := exists_effective S mode (x.toRat + y.toRat)
      obtain ⟨r, r1, r2, -⟩ := addR_eff h hx hy fx fy mode hO
      exact ⟨r, r1, r2⟩

theorem total_sub (h : S.OK) {x y : IeeeFloat S} (hx : x.Valid) (hy : y.Valid) (mode : Round) : Returns (subR x y mode) := by
  by_cases hn : x.category = .nan ∨ y.category = .nan
  · obtain ⟨r, ⟨-, r1, -⟩, r2, -⟩ := C11_nan_propagation h hx hy mode hn
    exact ⟨r, r1, r2⟩
  · push Not at hn
    rw [C10_sub hn.1 hn.2 mode]
    exact total_add h hx (neg_valid hy) mode

theorem total_mul (h : S.OK) {x y : IeeeFloat S} (hx : x.Valid) (hy : y.Valid) (mode : Round) : Returns (mulR x y mode) := by
  by_cases hn : x.category = .nan ∨ y.category = .nan
  · obtain ⟨r, ⟨-, -, r1, -⟩, r2, -⟩ := C11_nan_propagation h hx hy mode hn
    exact ⟨r, r1, r2⟩
  · push Not at hn
    by_cases hf : x.isFinite = true ∧ y.isFinite = true
    · obtain ⟨om, hO⟩ := exists_effective S mode (x.toRat * y.toRat)
      obtain ⟨r, r1, r2, -⟩ := mulR_eff h hx hy hf.1 hf.2 mode hO
      exact ⟨r, r1, r2⟩
    · have hi : x.category = .infinity ∨ y.category = .infinity := by
        rcases (category_cases x).resolve_left hn.1 with cx | fx
        · exact Or.inl cx
        · rcases (category_cases y).resolve_left hn.2 with cy | fy
          · exact Or.inr cy
          · exact absurd ⟨fx, fy⟩ hf
      obtain ⟨r, r1, -⟩ := C10_mul_inf hx hy mode hn.1 hn.2 hi
      refine ⟨r, r1, ?_⟩
      have hcat : (x.negateIf y.isNegative).category = x.category := by rw [negateIf_eq]
      unfold mulR at r1
      simp only [hcat] at r1
      obtain ⟨n1, n2⟩ := hn
      revert r1 n1 n2 hi
      rcases x.category <;> rcases y.category <;> simp <;> intro e <;> subst e <;>
        first
        | exact nan_valid h
        | (simp only [Status.and, copySign_eq, valid_sign]; exact infinity_valid h)

theorem total_div (h : S.OK) {x y : IeeeFloat S} (hx : x.Valid) (hy : y.Valid) (mode : Round) : Returns (divR x y mode) := by
  by_cases hn : x.category = .nan ∨ y.category = .nan
  · obtain ⟨r, ⟨-, -, -, r1⟩, r2, -⟩ := C11_nan_propagation h hx hy mode hn
    exact ⟨r, r1, r2⟩
  · push Not at hn
    by_cases hf : x.category = .normal ∧ y.category = .normal
    · obtain ⟨om, hO⟩ := exists_effective S mode (x.toRat / y.toRat)
      obtain ⟨r, r1, r2, -⟩ := divR_eff h hx hy (isFinite_iff.2 (Or.inl hf.1)) (isFinite_iff.2 (Or.inl hf.2)) (toRat_ne_zero hy hf.2) mode hO
      exact ⟨r, r1, r2⟩
    · have hcat : (x.negateIf y.isNegative).category = x.category := by rw [negateIf_eq]
      have hval : (x.negateIf y.isNegative).Valid := by rw [negateIf_eq, valid_sign]; exact hx
      unfold Returns divR
      simp only [hcat]
      obtain ⟨n1, n2⟩ := hn
      revert n1 n2 hf
      rcases x.category <;> rcases y.category <;> simp
      all_goals first
        | exact nan_valid h
        | exact hval
        | (simp only [Status.and, copySign_eq, valid_sign]; first | exact zero_valid | exact infinity_valid h)

theorem total_mul_add (h : S.OK) {x m z : IeeeFloat S} (hx : x.Valid) (hm : m.Valid) (hz : z.Valid) (mode : Round) :
    Returns (mulAddR x m z mode) ∨
    (x.isFinite = true ∧ m.isFinite = true ∧ z.isFinite = true ∧ FmaPanics S (x.toRat * m.toRat) z.toRat ∧
      mulAddR x m z mode = .error .assert) := by
  by_cases hc : x.category = .normal ∧ m.category = .normal
  · obtain ⟨cx, cm⟩ := hc
    have fx := isFinite_iff.2 (Or.inl cx)
    have fm := isFinite_iff.2 (Or.inl cm)
    by_cases fz : z.isFinite = true
    · obtain ⟨h1, h2⟩ := C76_panics_iff h hx hm hz fx fm fz mode
      by_cases hE : FmaPanics S (x.toRat * m.toRat) z.toRat
      · exact Or.inr ⟨fx, fm, fz, hE, h1 hE⟩
      · exact Or.inl (h2 hE)
    · left
      unfold mulAddR
      have e1 : x.isFiniteNonZero = true := by simp [isFiniteNonZero, fx, isZero, cx]
      have e2 : m.isFiniteNonZero = true := by simp [isFiniteNonZero, fm, isZero, cm]
      have e3 : z.isFinite = false := by simpa using fz
      rw [e1, e2, e3]
      simp only [Bool.not_true, Bool.not_false, Bool.or_true, Bool.and_self, if_true]
      rw [massert_pos trivial, M.ok_bind]
      exact total_add h hx hz mode
  · left
    rw [mulAddR_special (by tauto) mode]
    obtain ⟨r, r1, r2⟩ := total_mul h hx hm mode
    rw [r1, M.ok_bind]
    split_ifs
    · exact total_add h r2 hz mode
    · exact ⟨r, rfl, r2⟩

theorem isNan_of {x : IeeeFloat S} (hc : x.category = .nan) : x.isNan = true := by simp [isNan, hc]
theorem isInfinite_of {x : IeeeFloat S} (hc : x.category = .infinity) : x.isInfinite = true := by simp [isInfinite, hc]

theorem rem_invalid {x y : IeeeFloat S} (nx : x.isNan = false) (ny : y.isNan = false) (hc : x.category = .infinity ∨ y.category = .zero) :
    cFmod x y = .ok (Status.INVALID_OP.and (NAN S)) ∧ ieeeRem x y = .ok (Status.INVALID_OP.and (NAN S)) := by
  constructor <;> unfold isNan at nx ny <;>
    (first | unfold cFmod cFmodFuel | unfold ieeeRem) <;>
    cases cx : x.category <;> cases cy : y.category <;> simp [cx, cy] at nx ny hc ⊢

theorem total_fmod (h : S.OK) {x y : IeeeFloat S} (hx : x.Valid) (hy : y.Valid) : Returns (cFmod x y) ∧ Returns (ieeeRem x y) := by
  by_cases hn : x.category = .nan ∨ y.category = .nan
  · obtain ⟨r, r1, r2, r3, -⟩ := C11_rem_nan h hx hy hn
    exact ⟨⟨r, r1, r3⟩, ⟨r, r2, r3⟩⟩
  · push Not at hn
    have nx : x.isNan = false := by simp [isNan, hn.1]
    have ny : y.isNan = false := by simp [isNan, hn.2]
    rcases (category_cases x).resolve_left hn.1 with cx | fx
    · obtain ⟨r1, r2⟩ := rem_invalid nx ny (Or.inl cx)
      exact ⟨⟨_, r1, nan_valid h⟩, ⟨_, r2, nan_valid h⟩⟩
    · rcases (category_cases y).resolve_left hn.2 with cy | fy
      · obtain ⟨r1, r2⟩ := C10_rem_special.2 fx cy
        exact ⟨⟨_, r1, hx⟩, ⟨_, r2, hx⟩⟩
      · rcases isFinite_iff.1 fy with cy | cy
        · obtain ⟨r, r1, r2, -⟩ := C23_c_fmod h hx hy fx fy (toRat_ne_zero hy cy)
          obtain ⟨q, q1, q2, -⟩ := C24_ieee_rem h hx hy fx fy (toRat_ne_zero hy cy)
          exact ⟨⟨_, r1, r2⟩, ⟨_, q1, q2⟩⟩
        · obtain ⟨r1, r2⟩ := rem_invalid nx ny (Or.inr cy)
          exact ⟨⟨_, r1, nan_valid h⟩, ⟨_, r2, nan_valid h⟩⟩

theorem total_round_to_integral (h : S.OK) {x : IeeeFloat S} (hx : x.Valid) (mode : Round) : Returns (roundToIntegral x mode) := by
  rcases category_cases x with c | c | c
  · obtain ⟨r, r1, r2, -⟩ := (C13_specials h hx mode).2 (isNan_of c)
    exact ⟨_, r1, r2⟩
  · exact ⟨_, (C13_specials h hx mode).1 (isInfinite_of c), hx⟩
  · obtain ⟨r, r1, r2, -⟩ := C13_round_to_integral h hx c mode
    exact ⟨r, r1, r2⟩

theorem total_next_up (h : S.OK) {x : IeeeFloat S} (hx : x.Valid) : Returns (nextUp x) := by
  obtain ⟨s1, s2, s3, s4, s5⟩ := C14_next_up_specials h hx
  rcases category_cases x with c | c | c
  · cases hs : x.isSignaling
    · exact ⟨_, s4 (isNan_of c) hs, hx⟩
    · obtain ⟨r, r1, r2, -⟩ := s5 (isNan_of c) hs
      exact ⟨_, r1, r2⟩
  · cases hs : x.sign
    · exact ⟨_, s2 (isInfinite_of c) hs, hx⟩
    · obtain ⟨r, r1, r2, -⟩ := s3 (isInfinite_of c) hs
      exact ⟨_, r1, r2⟩
  · by_cases hl : x.toRat = (largest S).toRat
    · obtain ⟨r, r1, r2, -⟩ := s1 c hl
      exact ⟨_, r1, r2⟩
    · obtain ⟨r, r1, r2, -⟩ := C14_next_up h hx c hl
      exact ⟨_, r1, r2⟩

theorem total_next_down (h : S.OK) {x : IeeeFloat S} (hx : x.Valid) : Returns (nextDown x) := by
  obtain ⟨s1, s2, s3, s4, s5⟩ := C14_next_down_specials h hx
  rcases category_cases x with c | c | c
  · cases hs : x.isSignaling
    · exact ⟨_, s4 (isNan_of c) hs, hx⟩
    · obtain ⟨r, r1, r2, -⟩ := s5 (isNan_of c) hs
      exact ⟨_, r1, r2⟩
  · cases hs : x.sign
    · obtain ⟨r, r1, r2, -⟩ := s3 (isInfinite_of c) hs
      exact ⟨_, r1, r2⟩
    · exact ⟨_, s2 (isInfinite_of c) hs, hx⟩
  · by_cases hl : x.toRat = -(largest S).toRat
    · obtain ⟨r, r1, r2, -⟩ := s1 c hl
      exact ⟨_, r1, r2⟩
    · obtain ⟨r, r1, r2, -⟩ := C14_next_down h hx c hl
      exact ⟨_, r1, r2⟩

theorem total_scalbn (h : S.OK) {x : IeeeFloat S} (hx : x.Valid) (n : ℤ) (mode : Round) :
    ∃ r, scalbnR x n mode = .ok r ∧ r.Valid := by
  rcases category_cases x with c | c | c
  · obtain ⟨r, r1, r2, -⟩ := (C25_specials h hx n mode).2 (isNan_of c)
    exact ⟨_, r1, r2⟩
  · obtain ⟨r, r1, r2, -⟩ := (C25_specials h hx n mode).1 (isInfinite_of c)
    exact ⟨_, r1, r2⟩
  · obtain ⟨om, hO⟩ := exists_effective S mode (x.toRat * 2 ^ n)
    obtain ⟨r, st, r1, r2, -⟩ := scalbnR_eff h hx c n mode hO
    exact ⟨r, r1, r2⟩

theorem total_frexp (h : S.OK) {x : IeeeFloat S} (hx : x.Valid) (mode : Round) :
    ∃ r e, frexpR x mode = .ok (r, e) ∧ r.Valid := by
  obtain ⟨s1, s2, s3⟩ := C27_specials h hx mode
  rcases category_cases x with c | c | c
  · obtain ⟨r, r1, r2, -⟩ := s3 (isNan_of c)
    exact ⟨_, _, r1, r2⟩
  · exact ⟨_, _, s2 (isInfinite_of c), hx⟩
  · rcases isFinite_iff.1 c with cx | cx
    · obtain ⟨f, e, r1, r2, -⟩ := C27_frexp h hx c (toRat_ne_zero hx cx) mode
      exact ⟨_, _, r1, r2⟩
    · obtain ⟨r, r1, r2, -⟩ := s1 (by simp [isZero, cx])
      exact ⟨_, _, r1, r2⟩

theorem total_ilogb (h : S.OK) {x : IeeeFloat S} (hx : x.Valid) : ∃ e, ilogb x = .ok e := by
  obtain ⟨s1, s2, s3⟩ := C26_specials (x := x)
  rcases category_cases x with c | c | c
  · exact ⟨_, s1 (isNan_of c)⟩
  · exact ⟨_, s3 (isInfinite_of c)⟩
  · rcases isFinite_iff.1 c with cx | cx
    · obtain ⟨e, r1, -⟩ := C26_ilogb h hx c (toRat_ne_zero hx cx)
      exact ⟨_, r1⟩
    · exact ⟨_, s2 (by simp [isZero, cx])⟩

theorem total_to_u128 (h : S.OK) {x : IeeeFloat S} (hx : x.Valid) {w : ℕ} (w1 : 1 ≤ w) (w2 : w ≤ 128) (mode : Round) :
    ∃ r, toU128R x w mode = .ok r := by
  obtain ⟨s1, s2, s3, s4⟩ := C18_to_u128_specials (x := x) w1 w2 mode
  rcases category_cases x with c | c | c
  · exact ⟨_, s2 (isNan_of c)⟩
  · cases hs : x.sign
    · exact ⟨_, s4 (isInfinite_of c) hs⟩
    · exact ⟨_, s3 (isInfinite_of c) hs⟩
  · by_cases hz : x.isZero = true ∧ x.sign = true
    · exact ⟨_, s1 hz.1 hz.2⟩
    · obtain ⟨r, r1, -⟩ := C18_to_u128 h hx c hz w1 w2 mode
      exact ⟨_, r1⟩

theorem total_to_i128 (h : S.OK) {x : IeeeFloat S} (hx : x.Valid) {w : ℕ} (w1 : 2 ≤ w) (w2 : w ≤ 128) (mode : Round) :
    ∃ r, toI128R x w mode = .ok r := by
  obtain ⟨s2, s3, s4⟩ := C19_to_i128_specials (x := x) w1 w2 mode
  rcases category_cases x with c | c | c
  · exact ⟨_, s2 (isNan_of c)⟩
  · cases hs : x.sign
    · exact ⟨_, s4 (isInfinite_of c) hs⟩
    · exact ⟨_, s3 (isInfinite_of c) hs⟩
  · obtain ⟨r, r1, -⟩ := C19_to_i128 h hx c w1 w2 mode
    exact ⟨_, r1⟩

theorem total_convert {T : Sem} (h : S.OK) (hT : T.OK) {x : IeeeFloat S} (hx : x.Valid) (mode : Round) :
    ∃ c, convertR S T x mode = .ok c ∧ c.value.Valid := by
  by_cases hn : x.isNan = true
  · obtain ⟨c, c1, c2, -⟩ := C21_convert_nan h hT hx hn mode
    exact ⟨c, c1, c2⟩
  · obtain ⟨c, c1, c2, -⟩ := C22_loses_info h hT hx (by simpa using hn) mode
    exact ⟨c, c1, c2⟩

/-! ## Programs -/

/-- The eight public formats (ieee.rs:311-369). -/
inductive Format where
  | half | single | double | quad | bfloat | float8E5M2 | float8E4M3FN | x87DoubleExtended
deriving DecidableEq

/-- The parameters of a format. -/
def Format.sem : Format → Sem
  | .half => halfS
  | .single => singleS
  | .double => doubleS
  | .quad => quadS
  | .bfloat => bfloatS
  | .float8E5M2 => float8E5M2S
  | .float8E4M3FN => float8E4M3FNS
  | .x87DoubleExtended => x87S

theorem Format.enc (f : Format) : f.sem.Enc := by
  cases f
  exacts [halfS_enc, singleS_enc, doubleS_enc, quadS_enc, bfloatS_enc, float8E5M2S_enc, float8E4M3FNS_enc, x87S_enc]

theorem Format.precision_le (f : Format) : f.sem.precision ≤ 125 := by
  cases f <;> decide

/-- The memory of a program: for each format, a register for every number. -/
def Store := (f : Format) → ℕ → IeeeFloat f.sem

/-- Every register holds a well-formed value. -/
def Store.WellFormed (st : Store) : Prop := ∀ f i, (st f i).Valid

/-- All registers are zero. -/
def Store.start : Store := fun f _ => ZERO f.sem

/-- Writes one register. -/
def Store.set (st : Store) (f : Format) (i : ℕ) (x : IeeeFloat f.sem) : Store := fun g j =>
  if h : f = g then if i = j then h ▸ x else st g j else st g j

/-- One call of the API.  `d` is the register the result is written to; `a`, `b`, `c` are the registers of the operands. -/
inductive Call where
  -- constants and constructors
  | zero (f : Format) (d : ℕ)
  | infinity (f : Format) (d : ℕ)
  | nan (f : Format) (d : ℕ)
  | qnan (f : Format) (d : ℕ) (payload : Option ℕ)
  | snan (f : Format) (d : ℕ) (payload : Option ℕ)
  | largest (f : Format) (d : ℕ)
  | smallest (f : Format) (d : ℕ)
  | smallestNormalized (f : Format) (d : ℕ)
  | fromBits (f : Format) (d : ℕ) (bits : ℕ)
  | fromU128 (f : Format) (d : ℕ) (n : ℕ) (mode : Round)
  | fromI128 (f : Format) (d : ℕ) (n : ℤ) (mode : Round)
  | fromStr (f : Format) (d : ℕ) (fuel : ℕ) (s : List Char) (mode : Round)
  -- sign operations
  | neg (f : Format) (d a : ℕ)
  | abs (f : Format) (d a : ℕ)
  | copySign (f : Format) (d a b : ℕ)
  -- arithmetic
  | add (f : Format) (d a b : ℕ) (mode : Round)
  | sub (f : Format) (d a b : ℕ) (mode : Round)
  | mul (f : Format) (d a b : ℕ) (mode : Round)
  | div (f : Format) (d a b : ℕ) (mode : Round)
  | mulAdd (f : Format) (d a b c : ℕ) (mode : Round)
  | fmod (f : Format) (d a b : ℕ)
  | rem (f : Format) (d a b : ℕ)
  | roundToIntegral (f : Format) (d a : ℕ) (mode : Round)
  | nextUp (f : Format) (d a : ℕ)
  | nextDown (f : Format) (d a : ℕ)
  | scalbn (f : Format) (d a : ℕ) (n : ℤ) (mode : Round)
  | frexp (f : Format) (d a : ℕ) (mode : Round)
  | exactInverse (f : Format) (d a : ℕ)
  | min (f : Format) (d a b : ℕ)
  | max (f : Format) (d a b : ℕ)
  | minimum (f : Format) (d a b : ℕ)
  | maximum (f : Format) (d a b : ℕ)
  | convert (f g : Format) (d a : ℕ) (mode : Round)
  -- observers: they return something, and change no register
  | toBits (f : Format) (a : ℕ)
  | toU128 (f : Format) (a : ℕ) (width : ℕ) (mode : Round)
  | toI128 (f : Format) (a : ℕ) (width : ℕ) (mode : Round)
  | ilogb (f : Format) (a : ℕ)
  | isInteger (f : Format) (a : ℕ)
  | partialCmp (f : Format) (a b : ℕ)
  | operators (f : Format) (a b : ℕ)
  | display (f : Format) (a : ℕ) (width prec : Option ℕ) (alt : Bool)
  | debug (f : Format) (a : ℕ)
  | cmpAbsNormal (f : Format) (a b : ℕ)

/-- The arguments are in their documented ranges.  (A bit pattern fits the format; integer arguments fit `u128` / `i128`, widths are
at most 128; the string is shorter than `2^27` characters.) -/
def Call.InRange : Call → Prop
  | .fromBits f _ b => b < 2 ^ f.sem.bits
  | .fromU128 _ _ n _ => n < 2 ^ 128
  | .fromI128 _ _ n _ => -2 ^ 127 ≤ n ∧ n < 2 ^ 127
  | .fromStr _ _ fuel s _ => 23 ≤ fuel ∧ s.length < 2 ^ 27
  | .toU128 _ _ w _ => 1 ≤ w ∧ w ≤ 128
  | .toI128 _ _ w _ => 2 ≤ w ∧ w ≤ 128
  | .display _ _ _ p _ => ∀ P, p = some P → P * 196 + 58 < 2 ^ 64
  | _ => True

/-- Executes one call. -/
def Call.run (st : Store) : Call → M Store
  | .zero f d => .ok (st.set f d (ZERO f.sem))
  | .infinity f d => .ok (st.set f d (INFINITY f.sem))
  | .nan f d => .ok (st.set f d (NAN f.sem))
  | .qnan f d p => .ok (st.set f d (IeeeFloat.qnan f.sem p))
  | .snan f d p => .ok (st.set f d (IeeeFloat.snan f.sem p))
  | .largest f d => .ok (st.set f d (IeeeFloat.largest f.sem))
  | .smallest f d => .ok (st.set f d (SMALLEST f.sem))
  | .smallestNormalized f d => .ok (st.set f d (IeeeFloat.smallestNormalized f.sem))
  | .fromBits f d b => do let x ← IeeeFloat.fromBits f.sem b; .ok (st.set f d x)
  | .fromU128 f d n mode => do let r ← fromU128R f.sem n mode; .ok (st.set f d r.value)
  | .fromI128 f d n mode => do let r ← fromI128R f.sem n mode; .ok (st.set f d r.value)
  | .fromStr f d fuel s mode => do
    let r ← fromStrR f.sem fuel s mode
    match r with
    | .ok r => .ok (st.set f d r.value)
    | .error _ => .ok st
  | .neg f d a => .ok (st.set f d (st f a).neg)
  | .abs f d a => .ok (st.set f d (st f a).abs)
  | .copySign f d a b => .ok (st.set f d ((st f a).copySign (st f b)))
  | .add f d a b mode => do let r ← addR (st f a) (st f b) mode; .ok (st.set f d r.value)
  | .sub f d a b mode => do let r ← subR (st f a) (st f b) mode; .ok (st.set f d r.value)
  | .mul f d a b mode => do let r ← mulR (st f a) (st f b) mode; .ok (st.set f d r.value)
  | .div f d a b mode => do let r ← divR (st f a) (st f b) mode; .ok (st.set f d r.value)
  | .mulAdd f d a b c mode => do let r ← mulAddR (st f a) (st f b) (st f c) mode; .ok (st.set f d r.value)
  | .fmod f d a b => do let r ← cFmod (st f a) (st f b); .ok (st.set f d r.value)
  | .rem f d a b => do let r ← ieeeRem (st f a) (st f b); .ok (st.set f d r.value)
  | .roundToIntegral f d a mode => do let r ← IeeeFloat.roundToIntegral (st f a) mode; .ok (st.set f d r.value)
  | .nextUp f d a => do let r ← IeeeFloat.nextUp (st f a); .ok (st.set f d r.value)
  | .nextDown f d a => do let r ← IeeeFloat.nextDown (st f a); .ok (st.set f d r.value)
  | .scalbn f d a n mode => do let r ← scalbnR (st f a) n mode; .ok (st.set f d r)
  | .frexp f d a mode => do let r ← frexpR (st f a) mode; .ok (st.set f d r.1)
  | .exactInverse f d a => do
    let r ← getExactInverse (st f a)
    match r with
    | some x => .ok (st.set f d x)
    | none => .ok st
  | .min f d a b => do let r ← IeeeFloat.min (st f a) (st f b); .ok (st.set f d r)
  | .max f d a b => do let r ← IeeeFloat.max (st f a) (st f b); .ok (st.set f d r)
  | .minimum f d a b => do let r ← IeeeFloat.minimum (st f a) (st f b); .ok (st.set f d r)
  | .maximum f d a b => do let r ← IeeeFloat.maximum (st f a) (st f b); .ok (st.set f d r)
  | .convert f g d a mode => do let r ← convertR f.sem g.sem (st f a) mode; .ok (st.set g d r.value)
  | .toBits f a => do let _ ← IeeeFloat.toBits (st f a); .ok st
  | .toU128 f a w mode => do let _ ← toU128R (st f a) w mode; .ok st
  | .toI128 f a w mode => do let _ ← toI128R (st f a) w mode; .ok st
  | .ilogb f a => do let _ ← IeeeFloat.ilogb (st f a); .ok st
  | .isInteger f a => do let _ ← IeeeFloat.isInteger (st f a); .ok st
  | .partialCmp f a b => do let _ ← IeeeFloat.partialCmp (st f a) (st f b); .ok st
  | .operators f a b => do
    let _ ← IeeeFloat.eq (st f a) (st f b)
    let _ ← IeeeFloat.lt (st f a) (st f b)
    let _ ← IeeeFloat.gt (st f a) (st f b)
    let _ ← IeeeFloat.ge (st f a) (st f b)
    let _ ← IeeeFloat.le (st f a) (st f b)
    .ok st
  | .display f a w p alt => do let _ ← IeeeFloat.display (st f a) w p alt; .ok st
  | .debug f a => do let _ ← IeeeFloat.debug (st f a); .ok st
  | .cmpAbsNormal f a b => do let _ ← IeeeFloat.cmpAbsNormal (st f a) (st f b); .ok st

/-- Executes a program. -/
def runAll : List Call → Store → M Store
  | [], st => .ok st
  | c :: cs, st => do
    let st ← c.run st
    runAll cs st

theorem Store.set_wellFormed {st : Store} (hst : st.WellFormed) {f : Format} (i : ℕ) {x : IeeeFloat f.sem} (hx : x.Valid) :
    (st.set f i x).WellFormed := by
  intro g j
  unfold Store.set
  split_ifs with h1 h2
  · subst h1; exact hx
  · exact hst g j
  · exact hst g j

theorem Store.start_wellFormed : Store.start.WellFormed := fun _ _ => zero_valid

/-- The call is a fused multiply-add on finite operands for which the product, cut off after its last kept bit, equals the addend in
magnitude (`FmaPanics`), or the formatting with precision 0 of a number all of whose digits it drops (`DisplayPanics`), or `cmp_abs_normal` on a
zero, an infinity or a NaN, which its contract excludes: a condition on the operands alone. -/
def Call.Stops (st : Store) : Call → Prop
  | .mulAdd f _ a b c _ => (st f a).isFinite = true ∧ (st f b).isFinite = true ∧ (st f c).isFinite = true ∧
      FmaPanics f.sem ((st f a).toRat * (st f b).toRat) (st f c).toRat
  | .display f a _ p _ => DisplayPanics (st f a) p
  | .cmpAbsNormal f a b => ¬ ((st f a).isFinite = true ∧ (st f a).isZero = false ∧ (st f b).isFinite = true ∧ (st f b).isZero = false)
  | _ => False

/-- `cmp_abs_normal` panics on exactly the operands its contract excludes. -/
theorem total_cmp_abs_normal {S : Sem} (h : S.OK) {x y : IeeeFloat S} (hx : x.Valid) (hy : y.Valid) :
    ((x.isFinite = true ∧ x.isZero = false ∧ y.isFinite = true ∧ y.isZero = false) → ∃ o, cmpAbsNormal x y = .ok o) ∧
    (¬ (x.isFinite = true ∧ x.isZero = false ∧ y.isFinite = true ∧ y.isZero = false) → cmpAbsNormal x y = .error .assert) := by
  have e : ∀ z : IeeeFloat S, (z.isFinite = true ∧ z.isZero = false) ↔ z.isFiniteNonZero = true := by
    intro z
    simp [isFiniteNonZero]
  rw [← and_assoc, e, e]
  constructor
  · rintro ⟨a, b⟩
    obtain ⟨o, o1, -⟩ := C15_cmp_abs_normal h hx hy a b
    exact ⟨o, o1⟩
  · intro n
    unfold cmpAbsNormal
    cases hc : x.isFiniteNonZero
    · rfl
    · rw [massert_pos rfl, M.ok_bind, show y.isFiniteNonZero = false by simpa [hc] using n]; rfl

/-- One call: it returns and keeps the registers well formed, or it is the known defect. -/
theorem Call.run_total {st : Store} (hst : st.WellFormed) (c : Call) (hc : c.InRange) :
    (∃ st', c.run st = .ok st' ∧ st'.WellFormed) ∨ (c.Stops st ∧ c.run st = .error .assert) := by
  have set1 : ∀ {f : Format} (d : ℕ) {x : IeeeFloat f.sem}, x.Valid →
      ∃ st', (.ok (st.set f d x) : M Store) = .ok st' ∧ st'.WellFormed := fun d _ hx => ⟨_, rfl, Store.set_wellFormed hst d hx⟩
  have ret : ∀ {f : Format} (d : ℕ) {m : M (StatusAnd (IeeeFloat f.sem))}, Returns m →
      ∃ st', (do let r ← m; .ok (st.set f d r.value) : M Store) = .ok st' ∧ st'.WellFormed := by
    rintro f d m ⟨r, rfl, hr⟩
    exact set1 d hr
  have obs : ∀ {α : Type} {m : M α}, (∃ r, m = .ok r) → ∃ st', (do let _ ← m; .ok st : M Store) = .ok st' ∧ st'.WellFormed := by
    rintro α m ⟨r, rfl⟩
    exact ⟨st, rfl, hst⟩
  have ok : ∀ f : Format, f.sem.OK := fun f => f.enc.toOK
  cases c
  case mulAdd f d a b c mode =>
    rcases total_mul_add (ok f) (hst f a) (hst f b) (hst f c) mode with h | h
    · exact Or.inl (ret d h)
    · refine Or.inr ⟨⟨h.1, h.2.1, h.2.2.1, h.2.2.2.1⟩, ?_⟩
      simp only [Call.run, h.2.2.2.2]
      rfl
  case display f a w p alt =>
    rcases C79_panics_iff (ok f) (hst f a) w p alt hc with ⟨h, e⟩ | ⟨-, h⟩
    · refine Or.inr ⟨h, ?_⟩
      simp only [Call.run, e]
      rfl
    · exact Or.inl (obs h)
  case cmpAbsNormal f a b =>
    obtain ⟨h1, h2⟩ := total_cmp_abs_normal (ok f) (hst f a) (hst f b)
    by_cases e : (st f a).isFinite = true ∧ (st f a).isZero = false ∧ (st f b).isFinite = true ∧ (st f b).isZero = false
    · exact Or.inl (obs (h1 e))
    · refine Or.inr ⟨e, ?_⟩
      simp only [Call.run, h2 e]
      rfl
  all_goals left
  case zero f d => exact set1 d zero_valid
  case infinity f d => exact set1 d (infinity_valid (ok f))
  case nan f d => exact set1 d (nan_valid (ok f))
  case qnan f d p => exact set1 d (C40_qnan (ok f) p).1
  case snan f d p => exact set1 d (C40_snan (ok f) p).1
  case largest f d => exact set1 d (largest_valid (ok f))
  case smallest f d => exact set1 d (smallest_valid (ok f))
  case smallestNormalized f d => exact set1 d (smallestNormalized_valid (ok f))
  case fromBits f d b =>
    obtain ⟨x, x1, x2, -⟩ := C02_from_bits_decodes f.enc hc
    simp only [Call.run, x1]
    exact set1 d x2
  case fromU128 f d n mode =>
    obtain ⟨r, r1, r2, -⟩ := C17_from_u128 (ok f) hc mode
    exact ret d ⟨r, r1, r2⟩
  case fromI128 f d n mode =>
    obtain ⟨r, r1, r2, -⟩ := C17_from_i128 (ok f) hc.1 hc.2 mode
    exact ret d ⟨r, r1, r2⟩
  case fromStr f d fuel s mode =>
    obtain ⟨h1, h2⟩ := C32_accepts_iff (ok f) f.precision_le hc.1 hc.2 mode
    by_cases hd : ∃ l, Denotes s l
    · obtain ⟨r, r1, r2⟩ := h1 hd
      simp only [Call.run, r1]
      exact set1 d r2
    · obtain ⟨e, r1⟩ := h2 hd
      simp only [Call.run, r1]
      exact ⟨st, rfl, hst⟩
  case neg f d a => exact set1 d ((C35_sign_ops (st f a) (st f a)).2.2.2.2.2.2.2.2.2.2.2.2.2.2 (hst f a)).1
  case abs f d a => exact set1 d ((C35_sign_ops (st f a) (st f a)).2.2.2.2.2.2.2.2.2.2.2.2.2.2 (hst f a)).2.1
  case copySign f d a b => exact set1 d ((C35_sign_ops (st f a) (st f b)).2.2.2.2.2.2.2.2.2.2.2.2.2.2 (hst f a)).2.2
  case add f d a b mode => exact ret d (total_add (ok f) (hst f a) (hst f b) mode)
  case sub f d a b mode => exact ret d (total_sub (ok f) (hst f a) (hst f b) mode)
  case mul f d a b mode => exact ret d (total_mul (ok f) (hst f a) (hst f b) mode)
  case div f d a b mode => exact ret d (total_div (ok f) (hst f a) (hst f b) mode)
  case fmod f d a b => exact ret d (total_fmod (ok f) (hst f a) (hst f b)).1
  case rem f d a b => exact ret d (total_fmod (ok f) (hst f a) (hst f b)).2
  case roundToIntegral f d a mode => exact ret d (total_round_to_integral (ok f) (hst f a) mode)
  case nextUp f d a => exact ret d (total_next_up (ok f) (hst f a))
  case nextDown f d a => exact ret d (total_next_down (ok f) (hst f a))
  case scalbn f d a n mode =>
    obtain ⟨r, r1, r2⟩ := total_scalbn (ok f) (hst f a) n mode
    simp only [Call.run, r1]
    exact set1 d r2
  case frexp f d a mode =>
    obtain ⟨r, e, r1, r2⟩ := total_frexp (ok f) (hst f a) mode
    simp only [Call.run, r1]
    exact set1 d r2
  case exactInverse f d a =>
    obtain ⟨o, o1, o2, -⟩ := C28_get_exact_inverse (ok f) (hst f a)
    simp only [Call.run, o1]
    cases o with
    | none => exact ⟨st, rfl, hst⟩
    | some y => exact set1 d (o2 y rfl).1
  case min f d a b =>
    obtain ⟨r, r1, r2, -⟩ := C16_min (ok f) (hst f a) (hst f b)
    simp only [Call.run, r1]
    exact set1 d (by rcases r2 with rfl | rfl <;> exact hst f _)
  case max f d a b =>
    obtain ⟨r, r1, r2, -⟩ := C16_max (ok f) (hst f a) (hst f b)
    simp only [Call.run, r1]
    exact set1 d (by rcases r2 with rfl | rfl <;> exact hst f _)
  case minimum f d a b =>
    obtain ⟨r, r1, r2, -⟩ := C16_minimum (ok f) (hst f a) (hst f b)
    simp only [Call.run, r1]
    exact set1 d (by rcases r2 with rfl | rfl <;> exact hst f _)
  case maximum f d a b =>
    obtain ⟨r, r1, r2, -⟩ := C16_maximum (ok f) (hst f a) (hst f b)
    simp only [Call.run, r1]
    exact set1 d (by rcases r2 with rfl | rfl <;> exact hst f _)
  case convert f g d a mode =>
    obtain ⟨c, c1, c2⟩ := total_convert (ok f) (ok g) (hst f a) mode
    simp only [Call.run, c1]
    exact set1 d c2
  case toBits f a =>
    obtain ⟨b, y, b1, -⟩ := C03_value_round_trip f.enc (hst f a)
    exact obs ⟨b, b1⟩
  case toU128 f a w mode => exact obs (total_to_u128 (ok f) (hst f a) hc.1 hc.2 mode)
  case toI128 f a w mode => exact obs (total_to_i128 (ok f) (hst f a) hc.1 hc.2 mode)
  case ilogb f a => exact obs (total_ilogb (ok f) (hst f a))
  case isInteger f a =>
    obtain ⟨b, b1, -⟩ := C13_is_integer (ok f) (hst f a)
    exact obs ⟨b, b1⟩
  case partialCmp f a b =>
    obtain ⟨o, o1, -⟩ := C15_partial_cmp (ok f) (hst f a) (hst f b)
    exact obs ⟨o, o1⟩
  case operators f a b =>
    obtain ⟨e, l, g, k, h1, h2, h3, h4, -⟩ := C15_operators (ok f) (hst f a) (hst f b)
    obtain ⟨o, o1, -⟩ := C15_partial_cmp (ok f) (hst f a) (hst f b)
    have h5 : IeeeFloat.le (st f a) (st f b) = .ok (o = some .lt ∨ o = some .eq) := by
      unfold IeeeFloat.le
      rw [o1]
      rfl
    simp only [Call.run, h1, h2, h3, h4, h5]
    exact ⟨st, rfl, hst⟩
  case debug f a =>
    obtain ⟨s, hs⟩ := C48_display_total_partial (ok f) (hst f a) none none false (by simp) (by simp)
    refine obs ?_
    unfold IeeeFloat.debug
    rw [hs]
    exact ⟨_, rfl⟩

/-- The operands of the defect do stop the call. -/
theorem Call.run_panics {st : Store} (hst : st.WellFormed) {c : Call} (hc : c.InRange) (hp : c.Stops st) : c.run st = .error .assert := by
  cases c
  case mulAdd f d a b c mode =>
    obtain ⟨f1, f2, f3, e⟩ := hp
    simp only [Call.run, (C76_panics_iff f.enc.toOK (hst f a) (hst f b) (hst f c) f1 f2 f3 mode).1 e]
    rfl
  case display f a w p alt =>
    rcases C79_panics_iff f.enc.toOK (hst f a) w p alt hc with ⟨-, e⟩ | ⟨h, -⟩
    · simp only [Call.run, e]
      rfl
    · exact absurd hp h
  case cmpAbsNormal f a b =>
    simp only [Call.run, (total_cmp_abs_normal f.enc.toOK (hst f a) (hst f b)).2 hp]
    rfl
  all_goals exact absurd hp (by simp [Call.Stops])

/-- The general form: from any well-formed memory. -/
theorem runAll_total (calls : List Call) : ∀ (st : Store), st.WellFormed → (∀ c ∈ calls, c.InRange) →
    (∃ st', runAll calls st = .ok st' ∧ st'.WellFormed) ∨
    (∃ (pre : List Call) (c : Call) (post : List Call) (st' : Store), calls = pre ++ c :: post ∧
      runAll pre st = .ok st' ∧ st'.WellFormed ∧ c.Stops st') := by
  induction calls with
  | nil => exact fun st hst _ => Or.inl ⟨st, rfl, hst⟩
  | cons c cs ih =>
    intro st hst hr
    rcases Call.run_total hst c (hr c List.mem_cons_self) with ⟨st1, e1, h1⟩ | ⟨h1, e1⟩
    · rcases ih st1 h1 (fun c' hc' => hr c' (List.mem_cons_of_mem _ hc')) with ⟨st2, e2, h2⟩ | ⟨pre, c', post, st2, e2, e3, h2, h3⟩
      · exact Or.inl ⟨st2, by rw [runAll, e1]; exact e2, h2⟩
      · exact Or.inr ⟨c :: pre, c', post, st2, by rw [e2]; rfl, by rw [runAll, e1]; exact e3, h2, h3⟩
    · exact Or.inr ⟨[], c, cs, st, rfl, rfl, hst, h1⟩

/-- **C29** (partial: the fused multiply-add and `{:.0}` of known sets of operands panic, see `C29_panic`; `DoubleFloat` and calls with
out-of-range arguments are left out).  Every program over the API either runs to its end, leaving every register well formed, or is
stopped by a `mul_add` on finite operands that `FmaPanics` describes, a `{:.0}` of a number that `DisplayPanics` describes or a `cmp_abs_normal` of
values that are not finite and non-zero; until then, every value it produced is well formed. -/
theorem C29_histories_partial (calls : List Call) (hr : ∀ c ∈ calls, c.InRange) :
    (∃ st, runAll calls .start = .ok st ∧ st.WellFormed) ∨
    (∃ (pre : List Call) (c : Call) (post : List Call) (st : Store), calls = pre ++ c :: post ∧
      runAll pre .start = .ok st ∧ st.WellFormed ∧ c.Stops st) :=
  runAll_total calls .start Store.start_wellFormed hr

/-- **C29** (partial, as above: exactly which calls stop).  In any reachable memory a call either returns or panics, and it panics if and only if it
is a `mul_add` on operands described by `FmaPanics`, a `{:.0}` of a number described by `DisplayPanics`, or a `cmp_abs_normal` that breaks its contract. -/
theorem C29_panics_iff_partial (pre : List Call) (hr : ∀ c ∈ pre, c.InRange) {st : Store} (hp : runAll pre .start = .ok st)
    (c : Call) (hc : c.InRange) : (c.run st = .error .assert ↔ c.Stops st) ∧ ((∃ st', c.run st = .ok st') ↔ ¬ c.Stops st) := by
  have hst : st.WellFormed := by
    rcases C29_histories_partial pre hr with ⟨st', e, h⟩ | ⟨p, c', q, st', e, e1, h1, h2⟩
    · rw [hp] at e; injection e with e; exact e ▸ h
    · -- the program would have been stopped
      exfalso
      have stop : ∀ (p : List Call) (s : Store), runAll p s = .ok st' → runAll (p ++ c' :: q) s = .error .assert := by
        intro p
        induction p with
        | nil =>
          intro s hs
          injection hs with hs
          subst hs
          rw [List.nil_append, runAll, Call.run_panics h1 (hr c' (by rw [e]; simp)) h2]
          rfl
        | cons a p ih =>
          intro s hs
          rw [runAll] at hs
          rw [List.cons_append, runAll]
          cases ha : a.run s with
          | error er => rw [ha] at hs; cases hs
          | ok s1 => rw [ha] at hs; exact ih s1 hs
      rw [e, stop p _ e1] at hp
      cases hp
  rcases Call.run_total hst c hc with ⟨st', e, h⟩ | ⟨h, e⟩
  · have hn : ¬ c.Stops st := fun hh => by
      rw [Call.run_panics hst hc hh] at e
      cases e
    refine ⟨⟨fun e' => ?_, fun e' => absurd e' hn⟩, ⟨fun _ => hn, fun _ => ⟨st', e⟩⟩⟩
    rw [e] at e'
    cases e'
  · refine ⟨⟨fun _ => h, fun _ => e⟩, ⟨?_, fun hn => absurd h hn⟩⟩
    rintro ⟨st', e'⟩
    rw [e] at e'
    cases e'

/-- **C29** (partial: programs that call neither `mul_add` nor `cmp_abs_normal` and do not format with precision 0).  They always run to the end, and every register is well formed. -/
theorem C29_without_mul_add_partial (calls : List Call) (hr : ∀ c ∈ calls, c.InRange)
    (hm : ∀ f d a b c mode, Call.mulAdd f d a b c mode ∉ calls) (hd : ∀ f a w alt, Call.display f a w (some 0) alt ∉ calls)
    (hc : ∀ f a b, Call.cmpAbsNormal f a b ∉ calls) :
    ∃ st, runAll calls .start = .ok st ∧ st.WellFormed := by
  rcases C29_histories_partial calls hr with h | ⟨pre, c, post, st, e, -, -, hp⟩
  · exact h
  · exfalso
    cases c
    case mulAdd f d a b c mode => exact hm f d a b c mode (by rw [e]; simp)
    case display f a w p alt =>
      obtain ⟨rfl, -⟩ := hp
      exact hd f a w alt (by rw [e]; simp)
    case cmpAbsNormal f a b => exact hc f a b (by rw [e]; simp)
    all_goals exact hp

/-- A program over three formats that meets the hypotheses. -/
def sampleProgram : List Call :=
  [.fromStr .double 1 23 "0.1".toList .nearestTiesToEven, .fromBits .double 2 0x7ff4000000000001, .div .double 3 1 2 .towardZero,
   .sub .double 4 1 1 .towardNegative, .div .double 5 1 4 .towardPositive, .convert .double .float8E4M3FN 0 5 .towardNegative,
   .nextDown .float8E4M3FN 1 0, .toI128 .double 1 64 .towardZero, .display .double 1 none (some 3) true, .infinity .quad 0,
   .rem .quad 1 0 2, .frexp .quad 2 1 .nearestTiesToAway, .debug .double 2, .operators .double 2 3]

example : (∀ c ∈ sampleProgram, c.InRange) ∧ (∀ f d a b c mode, Call.mulAdd f d a b c mode ∉ sampleProgram) ∧
    (∀ f a w alt, Call.display f a w (some 0) alt ∉ sampleProgram) ∧ (∀ f a b, Call.cmpAbsNormal f a b ∉ sampleProgram) := by
  refine ⟨?_, ?_, ?_, ?_⟩
  · intro c hc
    simp only [sampleProgram, List.mem_cons, List.not_mem_nil, or_false] at hc
    rcases hc with rfl | rfl | rfl | rfl | rfl | rfl | rfl | rfl | rfl | rfl | rfl | rfl | rfl | rfl <;> simp [Call.InRange, Format.sem] <;> decide
  · intro f d a b c mode hc
    simp [sampleProgram] at hc
  · intro f a w alt hc
    simp [sampleProgram] at hc
  · intro f a b hc
    simp [sampleProgram] at hc

/-- **C29** (violated).  Three `from_bits` and one `mul_add` in `Half`: a program that panics. -/
theorem C29_panic :
    (∀ c ∈ ([.fromBits .half 0 0x0c14, .fromBits .half 1 0x0bd9, .fromBits .half 2 0x8001,
      .mulAdd .half 3 0 1 2 .nearestTiesToEven] : List Call), c.InRange) ∧
    runAll [.fromBits .half 0 0x0c14, .fromBits .half 1 0x0bd9, .fromBits .half 2 0x8001,
      .mulAdd .half 3 0 1 2 .nearestTiesToEven] .start = .error .assert := by
  constructor
  · intro c hc
    simp only [List.mem_cons, List.not_mem_nil, or_false] at hc
    rcases hc with rfl | rfl | rfl | rfl <;> simp [Call.InRange, Format.sem] <;> decide
  · have e : ∀ m : M Store, (match m with | .error .assert => true | _ => false) = true → m = .error .assert := by
      intro m hm
      split at hm
      · rfl
      · cases hm
    apply e
    decide +kernel

end Apf
