import Verif.Model.Ieee
import Verif.Spec.Rounding
/-!
# How a float of the model is read: its format, its value, its well-formedness

This is the bridge between the model's representation and `Verif.Spec.Rounding`.
-/

namespace Apf
open Spec

/-- The abstract format of a `Semantics` implementation. -/
def Sem.fmt (S : Sem) : Fmt :=
  { p := S.precision, emin := S.minExp, emax := S.maxExp, hasInf := S.nonfinite == .ieee754 }

/-- What the theorems assume of a `Semantics` implementation; proved for each of the crate's formats
in `Verif.Spec.Formats`. -/
structure Sem.OK (S : Sem) : Prop where
  p_ge : 3 ≤ S.precision
  p_le : S.precision ≤ 126
  min_ge : -20000 ≤ S.minExp
  min_lt : S.minExp < 0
  max_le : S.maxExp ≤ 20000
  p_max : (S.precision : Int) ≤ S.maxExp
  ieee : S.nonfinite = .ieee754 →
    S.nanSignificandBase = 0 ∧ S.nanPayloadMask = 2 ^ (S.precision - 1) - 1 ∧
    ((S.explicitIntBit = false ∧ S.qnanSignificand = 2 ^ (S.precision - 2)) ∨
      (S.explicitIntBit = true ∧ S.precision = 64 ∧ S.qnanSignificand = 3 * 2 ^ 62))
  nanOnly : S.nonfinite = .nanOnly →
    S.nanSignificandBase = 2 ^ (S.precision - 1) - 1 ∧ S.nanPayloadMask = 0 ∧ S.qnanSignificand = 0 ∧
      S.explicitIntBit = false

namespace IeeeFloat
variable {S : Sem}

/-- The rational a finite float denotes (0 for the others). -/
def toRat (x : IeeeFloat S) : ℚ :=
  match x.category with
  | .normal => signed x.sign ((x.sig : ℚ) * 2 ^ (x.exp - S.precision + 1))
  | _ => 0

/-- What a float denotes. -/
def datum (x : IeeeFloat S) : Datum :=
  match x.category with
  | .nan => .nan
  | .infinity => .inf x.sign
  | .zero => .num x.sign 0
  | .normal => .num x.sign x.toRat

/-- Well-formed floats: the representation invariant of `IeeeFloat` (ieee.rs:19-45).
Every public constructor establishes it and every operation preserves it (property C29). -/
def Valid (x : IeeeFloat S) : Prop :=
  match x.category with
  | .normal =>
    S.minExp ≤ x.exp ∧ x.exp ≤ S.maxExp ∧ 0 < x.sig ∧ x.sig < 2 ^ S.precision ∧
    (2 ^ (S.precision - 1) ≤ x.sig ∨ x.exp = S.minExp) ∧
    (S.nonfinite = .nanOnly → x.exp = S.maxExp → x.sig ≠ 2 ^ S.precision - 1)
  | .zero => x.sig = 0
  | .infinity => S.nonfinite = .ieee754 ∧ x.sig < 2 ^ S.precision
  | .nan =>
    match S.nonfinite with
    | .nanOnly => x.sig = S.nanSignificandBase
    | .ieee754 =>
      if S.explicitIntBit then x.sig < 2 ^ S.precision ∧ x.sig ≠ 2 ^ (S.precision - 1)
      else 0 < x.sig ∧ x.sig < 2 ^ (S.precision - 1)

instance (x : IeeeFloat S) : Decidable x.Valid := by
  unfold Valid
  cases x.category
  · exact inferInstanceAs (Decidable (S.nonfinite = .ieee754 ∧ x.sig < 2 ^ S.precision))
  · cases S.nonfinite
    · exact inferInstanceAs (Decidable (if S.explicitIntBit then x.sig < 2 ^ S.precision ∧ x.sig ≠ 2 ^ (S.precision - 1)
        else 0 < x.sig ∧ x.sig < 2 ^ (S.precision - 1)))
    · exact inferInstanceAs (Decidable (x.sig = S.nanSignificandBase))
  · exact inferInstanceAs (Decidable (S.minExp ≤ x.exp ∧ x.exp ≤ S.maxExp ∧ 0 < x.sig ∧ x.sig < 2 ^ S.precision ∧
      (2 ^ (S.precision - 1) ≤ x.sig ∨ x.exp = S.minExp) ∧
      (S.nonfinite = .nanOnly → x.exp = S.maxExp → x.sig ≠ 2 ^ S.precision - 1)))
  · exact inferInstanceAs (Decidable (x.sig = 0))

/-- The most significant fraction bit, which distinguishes quiet from signaling NaNs (IEEE 754, 6.2.1);
a format with a single NaN has none. -/
def quietBit (S : Sem) : Nat := if S.nonfinite = .ieee754 then 2 ^ (S.precision - 2) else 0

/-- What propagating the NaN `x` means: same sign, same payload, quiet bit set. -/
def IsQuieted (x r : IeeeFloat S) : Prop :=
  r.category = .nan ∧ r.sign = x.sign ∧ r.sig = x.sig ||| quietBit S

end IeeeFloat

/-- The sign bit of a result with exact value `v`: the sign of `v`, and `zeroSign` when `v` is zero. -/
def SignRule (v : ℚ) (zeroSign s : Bool) : Prop :=
  (0 < v → s = false) ∧ (v < 0 → s = true) ∧ (v = 0 → s = zeroSign)

/-- The sign of an exact zero sum: the common sign of the operands if they agree (they are then both zeros),
otherwise `-` only when rounding toward negative (IEEE 754, 6.3). -/
def zeroSum (mode : Round) (sx sy : Bool) : Bool := if sx = sy then sx else decide (mode = .towardNegative)

/-- `r` is the correct result of an operation whose exact mathematical value is `v`: the value
prescribed by the rounding mode (or its overflow replacement), the prescribed flags, the prescribed sign. -/
def Rounds (S : Sem) (mode : Round) (v : ℚ) (zeroSign : Bool) (r : StatusAnd (IeeeFloat S)) : Prop :=
  Delivers S.fmt mode v r.value.sign r.value.datum r.status ∧ SignRule v zeroSign r.value.sign

/-- Excludes the one case the code gets wrong: in a format without infinities, `normalize` forgets the sign of
the value when a result falls on the NaN pattern (the significand of all ones at the largest exponent), and
takes the overflow decision of the positive value.  With `largest < pattern < 2^(maxExp+1)` the three values
involved, the exact results concerned are, when rounding toward positive, those in `(-2^(maxExp+1), -pattern]`
and, when rounding toward negative, those in `(-2^(maxExp+1), -largest)`.  Vacuously true of the formats with
infinities and of the other three rounding modes. -/
def DirectedOK (S : Sem) (mode : Round) (v : ℚ) : Prop :=
  S.nonfinite = .nanOnly →
    (mode = .towardPositive → v ≤ -(((2 ^ S.precision - 1 : ℕ) : ℚ) * 2 ^ (S.maxExp - S.precision + 1)) →
      v ≤ -(2 ^ (S.maxExp + 1))) ∧
    (mode = .towardNegative → v < -S.fmt.largest → v ≤ -(2 ^ (S.maxExp + 1)))

/-- `om` is the mode whose result the code delivers for the exact value `v` in the mode `mode`: `mode` itself, except in the
excluded case of `DirectedOK`, where toward positive it overflows like the nearest modes and toward negative it stops at the
largest magnitude like toward zero. -/
def Effective (S : Sem) (mode : Round) (v : ℚ) (om : Round) : Prop :=
  (DirectedOK S mode v ∧ om = mode) ∨
  (¬ DirectedOK S mode v ∧ (mode = .towardPositive ∧ om = .nearestTiesToEven ∨ mode = .towardNegative ∧ om = .towardZero))

theorem Effective.of {S : Sem} {mode : Round} {v : ℚ} (h : DirectedOK S mode v) : Effective S mode v mode := Or.inl ⟨h, rfl⟩

theorem Effective.eq {S : Sem} {mode om : Round} {v : ℚ} (h : Effective S mode v om) (hO : DirectedOK S mode v) : om = mode := by
  rcases h with h | h
  · exact h.2
  · exact absurd hO h.1

theorem exists_effective (S : Sem) (mode : Round) (v : ℚ) : ∃ om, Effective S mode v om := by
  by_cases h : DirectedOK S mode v
  · exact ⟨mode, .of h⟩
  · cases mode with
    | towardPositive => exact ⟨_, Or.inr ⟨h, Or.inl ⟨rfl, rfl⟩⟩⟩
    | towardNegative => exact ⟨_, Or.inr ⟨h, Or.inr ⟨rfl, rfl⟩⟩⟩
    | nearestTiesToEven => exact absurd (fun _ => ⟨fun q => (nomatch q), fun q => (nomatch q)⟩) h
    | nearestTiesToAway => exact absurd (fun _ => ⟨fun q => (nomatch q), fun q => (nomatch q)⟩) h
    | towardZero => exact absurd (fun _ => ⟨fun q => (nomatch q), fun q => (nomatch q)⟩) h

end Apf
