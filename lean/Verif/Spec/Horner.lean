import Verif.Model.Ieee
/-! # Horner's rule -/

namespace Apf.Spec

/-- The polynomial with leading coefficient `r` and the further coefficients `cs`, highest first, at `x`: multiply by `x`, add the next coefficient.
Step `i` rounds by `m1 i` and `m2 i`. -/
def horner {S : Sem} (m1 m2 : Nat → Round) (x : IeeeFloat S) : Nat → IeeeFloat S → List (IeeeFloat S) → M (IeeeFloat S)
  | _, r, [] => .ok r
  | i, r, c :: cs => do
    let p ← IeeeFloat.mulR r x (m1 i)
    let q ← IeeeFloat.addR p.value c (m2 i)
    horner m1 m2 x (i + 1) q.value cs

end Apf.Spec
