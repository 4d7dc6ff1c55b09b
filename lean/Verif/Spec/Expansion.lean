import Verif.Model.Ieee
import Mathlib.Algebra.Order.Field.Rat
/-! # The binary digits of a fraction -/

namespace Apf.Spec

/-- The first `n` binary digits of `x` after the point, found by doubling and taking off one. -/
def peelBits {S : Sem} (one two : IeeeFloat S) (m1 m2 : Round) : Nat → IeeeFloat S → M (List Bool)
  | 0, _ => .ok []
  | n + 1, x => do
    let y ← IeeeFloat.mulR x two m1
    let b ← IeeeFloat.ge y.value one
    if b then
      let z ← IeeeFloat.subR y.value one m2
      let r ← peelBits one two m1 m2 n z.value
      return true :: r
    else
      let r ← peelBits one two m1 m2 n y.value
      return false :: r

/-- The number with these binary digits after the point. -/
def binaryFraction : List Bool → ℚ
  | [] => 0
  | b :: bs => ((if b then 1 else 0) + binaryFraction bs) / 2

end Apf.Spec
