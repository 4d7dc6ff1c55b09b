import Verif.Model.Ieee
/-! # The digits of an integer held in a float -/

namespace Apf.Spec

/-- The digits of `x` to a base, the lowest first: the remainder by the base, then the digits of `(x - remainder) / base`.  At most `n` digits. -/
def peelDigits {S : Sem} (base : IeeeFloat S) (m1 m2 : Round) : Nat → IeeeFloat S → M (List (IeeeFloat S))
  | 0, _ => .ok []
  | n + 1, x =>
    if x.isZero then .ok []
    else do
      let d ← IeeeFloat.cFmod x base
      let t ← IeeeFloat.subR x d.value m1
      let q ← IeeeFloat.divR t.value base m2
      let r ← peelDigits base m1 m2 n q.value
      return d.value :: r

/-- The number with these digits, the lowest first, by Horner's rule. -/
def fromDigits {S : Sem} (base : IeeeFloat S) (m1 m2 : Round) : List (IeeeFloat S) → M (IeeeFloat S)
  | [] => .ok (IeeeFloat.ZERO S)
  | d :: ds => do
    let r ← fromDigits base m1 m2 ds
    let p ← IeeeFloat.mulR r base m1
    let s ← IeeeFloat.addR p.value d m2
    return s.value

end Apf.Spec
