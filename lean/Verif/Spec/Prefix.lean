import Verif.Spec.Bits

/-! A format whose encoding is the leading part of the encoding of another: the same exponent field and a shorter significand
field.  `BFloat` is the top half of `Single` and `Float8E5M2` the top half of `Half`. -/

namespace Apf

/-- The words of `T` are those of `S` without the last `k` bits: the same sign and exponent fields, `k` bits less of significand,
in the usual encoding (implicit leading bit, the largest exponent field for infinities and NaNs). -/
structure Sem.Prefix (T S : Sem) (k : Nat) : Prop where
  encT : T.Enc
  encS : S.Enc
  intT : T.explicitIntBit = false
  intS : S.explicitIntBit = false
  nonfT : T.nonfinite = .ieee754
  nonfS : S.nonfinite = .ieee754
  exp : S.expBits = T.expBits
  prec : S.precision = T.precision + k
  pos : 1 ≤ k

theorem bfloat_prefix : Sem.Prefix bfloatS singleS 16 :=
  ⟨bfloatS_enc, singleS_enc, rfl, rfl, rfl, rfl, rfl, rfl, by decide⟩

theorem float8E5M2_prefix : Sem.Prefix float8E5M2S halfS 8 :=
  ⟨float8E5M2S_enc, halfS_enc, rfl, rfl, rfl, rfl, rfl, rfl, by decide⟩

/-- Dropping the last `k` bits of the word `b` of a number with sign `neg`, rounding as on paper: by adding a constant first. -/
def Spec.roundOff (mode : Round) (neg : Bool) (k b : Nat) : Nat :=
  match mode with
  | .towardZero => b / 2 ^ k
  | .towardPositive => if neg then b / 2 ^ k else (b + (2 ^ k - 1)) / 2 ^ k
  | .towardNegative => if neg then (b + (2 ^ k - 1)) / 2 ^ k else b / 2 ^ k
  | .nearestTiesToAway => (b + 2 ^ (k - 1)) / 2 ^ k
  | .nearestTiesToEven => (b + (2 ^ (k - 1) - 1) + b / 2 ^ k % 2) / 2 ^ k

end Apf
