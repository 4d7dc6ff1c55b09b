import Verif.Spec.Formats
/-!
# Specification of the interchange formats

Bit patterns are natural numbers; the three fields are, from the most significant end, the sign, the biased
exponent (`w` bits) and the significand (`t` bits).  Nothing here uses a function of the model.
-/

namespace Apf.Spec

/-- How the significand field and the largest exponent are read.
* `hidden`: IEEE 754, the integer bit is implied; the largest exponent means infinity or NaN;
* `hiddenFN`: as `hidden`, but only the pattern of all ones is a NaN and there is no infinity;
* `explicit`: x87 extended, the integer bit is stored. -/
inductive Style where
  | hidden | hiddenFN | explicit
  deriving DecidableEq

/-- The sign field. -/
def signField (w t b : ℕ) : Bool := decide (b / 2 ^ (w + t) % 2 = 1)
/-- The biased exponent field. -/
def exponentField (w t b : ℕ) : ℕ := b / 2 ^ t % 2 ^ w
/-- The significand field. -/
def sigField (t b : ℕ) : ℕ := b % 2 ^ t

/-- The exponent bias. -/
def bias (w : ℕ) : ℤ := 2 ^ (w - 1) - 1

/-- What the bit pattern `b` denotes. -/
def decode (style : Style) (w t b : ℕ) : Datum :=
  let s := signField w t b
  let E := exponentField w t b
  let T := sigField t b
  match style with
  | .hidden =>
    if E = 2 ^ w - 1 then (if T = 0 then .inf s else .nan)
    else if E = 0 then .num s (signed s (T * 2 ^ (1 - bias w - t)))
    else .num s (signed s ((2 ^ t + T) * 2 ^ (E - bias w - t)))
  | .hiddenFN =>
    if E = 2 ^ w - 1 ∧ T = 2 ^ t - 1 then .nan
    else if E = 0 then .num s (signed s (T * 2 ^ (1 - bias w - t)))
    else .num s (signed s ((2 ^ t + T) * 2 ^ (E - bias w - t)))
  | .explicit =>
    if E = 2 ^ w - 1 then (if T = 2 ^ (t - 1) then .inf s else .nan)
    else if E = 0 then .num s (signed s (T * 2 ^ (1 - bias w - (t - 1))))
    else if T < 2 ^ (t - 1) then .nan
    else .num s (signed s (T * 2 ^ (E - bias w - (t - 1))))

/-- The patterns of the `explicit` style that are not the canonical encoding of what they denote: unnormals (a
normal exponent without integer bit) and pseudo-denormals (exponent zero with the integer bit). -/
def NonCanonical (style : Style) (w t b : ℕ) : Prop :=
  style = .explicit ∧
    ((exponentField w t b ≠ 0 ∧ exponentField w t b ≠ 2 ^ w - 1 ∧ sigField t b < 2 ^ (t - 1)) ∨
     (exponentField w t b = 0 ∧ 2 ^ (t - 1) ≤ sigField t b))

end Apf.Spec

namespace Apf
open Spec

/-- The style of a format of the crate. -/
def Sem.style (S : Sem) : Style :=
  if S.explicitIntBit then .explicit else if S.nonfinite = .nanOnly then .hiddenFN else .hidden

/-- The width of the significand field. -/
def Sem.sigBits (S : Sem) : ℕ := if S.explicitIntBit then S.precision else S.precision - 1

/-- What the theorems about bit patterns assume of a format in addition to `Sem.OK`: the field widths add up and
the exponent range is the one of the exponent field.  Proved for the crate's formats below. -/
structure Sem.Enc (S : Sem) : Prop extends S.OK where
  w_ge : 2 ≤ S.expBits
  w_le : S.expBits ≤ 15
  bits_eq : S.bits = 1 + S.expBits + S.sigBits
  bits_le : S.bits ≤ 128
  min_eq : S.minExp = 2 - 2 ^ (S.expBits - 1)
  max_eq : S.maxExp = 2 ^ (S.expBits - 1) - (if S.nonfinite = .ieee754 then 1 else 0)

theorem halfS_enc : halfS.Enc := by refine ⟨halfS_ok, ?_, ?_, ?_, ?_, ?_, ?_⟩ <;> decide
theorem singleS_enc : singleS.Enc := by refine ⟨singleS_ok, ?_, ?_, ?_, ?_, ?_, ?_⟩ <;> decide
theorem doubleS_enc : doubleS.Enc := by refine ⟨doubleS_ok, ?_, ?_, ?_, ?_, ?_, ?_⟩ <;> decide
theorem quadS_enc : quadS.Enc := by refine ⟨quadS_ok, ?_, ?_, ?_, ?_, ?_, ?_⟩ <;> decide
theorem bfloatS_enc : bfloatS.Enc := by refine ⟨bfloatS_ok, ?_, ?_, ?_, ?_, ?_, ?_⟩ <;> decide
theorem float8E5M2S_enc : float8E5M2S.Enc := by refine ⟨float8E5M2S_ok, ?_, ?_, ?_, ?_, ?_, ?_⟩ <;> decide
theorem float8E4M3FNS_enc : float8E4M3FNS.Enc := by refine ⟨float8E4M3FNS_ok, ?_, ?_, ?_, ?_, ?_, ?_⟩ <;> decide
theorem x87S_enc : x87S.Enc := by refine ⟨x87S_ok, ?_, ?_, ?_, ?_, ?_, ?_⟩ <;> decide

theorem formats_enc : ∀ S ∈ formats, S.Enc := by
  intro S hS
  simp only [formats, List.mem_cons, List.not_mem_nil, or_false] at hS
  rcases hS with rfl | rfl | rfl | rfl | rfl | rfl | rfl | rfl
  exacts [halfS_enc, singleS_enc, doubleS_enc, quadS_enc, bfloatS_enc, float8E5M2S_enc, float8E4M3FNS_enc, x87S_enc]

end Apf
