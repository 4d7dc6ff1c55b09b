import Verif.Model.Ieee
/-! # Powers by repeated multiplication -/

namespace Apf.Spec

/-- `r * x * ... * x` with `n` factors `x`, one multiplication after the other; the multiplication with `k` more to come rounds by `modes k`. -/
def power {S : Sem} (modes : Nat → Round) (x : IeeeFloat S) : Nat → IeeeFloat S → M (IeeeFloat S)
  | 0, r => .ok r
  | n + 1, r => do
    let p ← IeeeFloat.mulR r x (modes n)
    power modes x n p.value

end Apf.Spec
