import Verif.Model.Ppc
import Verif.Spec.Formats
/-!
# How a `DoubleFloat` is read: the unevaluated sum of its two parts

`DoubleDouble` (ppc.rs:19) is the case `S = doubleS`.
-/

namespace Apf
open Spec

/-- The 106-bit format DoubleDouble falls back on for most operations (ppc.rs:21-39): twice the significant bits,
the same largest exponent, and the exponent range at which the smallest unit is the one of the parts. -/
def Spec.Fmt.doubled (F : Fmt) : Fmt := { p := F.p * 2, emin := F.emin + F.p, emax := F.emax, hasInf := F.hasInf }

/-- What the theorems about `DoubleFloat<IeeeFloat<S>>` assume of `S`: a format with infinities for which the two auxiliary
formats are proper as well. -/
structure Sem.Pair (S : Sem) : Prop where
  ok : S.OK
  fb : (fallbackS S).OK
  fbe : (fallbackExtendedS S).OK
  ieee : S.nonfinite = .ieee754

theorem doubleS_pair : doubleS.Pair := by
  refine ⟨doubleS_ok, ?_, ?_, rfl⟩ <;> constructor <;> decide

theorem singleS_pair : singleS.Pair := by
  refine ⟨singleS_ok, ?_, ?_, rfl⟩ <;> constructor <;> decide

/-- The magnitude from which a value no longer rounds to a finite number of the format: half a unit beyond the largest. -/
def Spec.Fmt.overflowAt (F : Fmt) : ℚ := 2 ^ (F.emax + 1) - 2 ^ (F.emax - F.p)

namespace DoubleFloat
variable {S : Sem}

/-- Both parts are well formed. -/
def Valid (x : DoubleFloat S) : Prop := x.hi.Valid ∧ x.lo.Valid

instance (x : DoubleFloat S) : Decidable x.Valid := inferInstanceAs (Decidable (_ ∧ _))

/-- Both parts are finite. -/
def Finite (x : DoubleFloat S) : Prop := x.hi.isFinite = true ∧ x.lo.isFinite = true

instance (x : DoubleFloat S) : Decidable x.Finite := inferInstanceAs (Decidable (_ ∧ _))

/-- The represented number. -/
def toRat (x : DoubleFloat S) : ℚ := x.hi.toRat + x.lo.toRat

/-- What a pair denotes: the high part decides on NaN, infinity and sign. -/
def datum (x : DoubleFloat S) : Datum :=
  match x.hi.datum with
  | .nan => .nan
  | .inf s => .inf s
  | .num s _ => .num s x.toRat

/-- Canonical pairs: the high part is the represented number rounded to nearest. -/
def Canonical (x : DoubleFloat S) : Prop :=
  x.Finite ∧ IsRounded S.fmt .nearestTiesToEven x.toRat x.hi.toRat

/-- What the library's own constants and conversions produce: a canonical pair, or an infinity or NaN beside a zero. -/
def Proper (x : DoubleFloat S) : Prop :=
  x.Valid ∧ (x.Canonical ∨ x.hi.isFinite = false ∧ x.lo.toRat = 0 ∧ x.lo.isFinite = true)

/-- Pairs the 106-bit format represents: canonical, and the represented number has 106 significant bits. -/
def Fits (x : DoubleFloat S) : Prop := x.Valid ∧ x.Canonical ∧ S.fmt.doubled.Grid x.toRat

end DoubleFloat

/-- `r` is the correct result, in the doubled format, of an operation whose exact mathematical value is `v`: the canonical pair
of the rounded value, with the prescribed flags and sign. -/
def PairRounds (S : Sem) (mode : Round) (v : ℚ) (zeroSign : Bool) (r : StatusAnd (DoubleFloat S)) : Prop :=
  Delivers S.fmt.doubled mode v r.value.isNegative r.value.datum r.status ∧ SignRule v zeroSign r.value.isNegative ∧
    r.value.Valid ∧ r.value.Canonical

/-- The datum is a number too large for the high part. -/
def Spec.Datum.Beyond (F : Spec.Fmt) : Datum → Prop
  | .num _ g => F.overflowAt ≤ |g|
  | _ => False

/-- The outcome of an operation whose exact mathematical value is `v` and which is carried out in the doubled format: the correctly
rounded datum with its flags and sign, delivered as a proper pair — unless it is too large for the high part, when the code panics. -/
def PairOutcome (S : Sem) (mode : Round) (v : ℚ) (zeroSign : Bool) (o : M (StatusAnd (DoubleFloat S))) : Prop :=
  ∃ neg d st, Delivers S.fmt.doubled mode v neg d st ∧ SignRule v zeroSign neg ∧
    (d.Beyond S.fmt → o = .error .assert) ∧
    (¬ d.Beyond S.fmt → ∃ r, o = .ok ⟨st, r⟩ ∧ r.Proper ∧ r.datum = d ∧ r.isNegative = neg)

end Apf
