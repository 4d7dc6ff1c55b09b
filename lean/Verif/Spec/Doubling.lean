import Verif.Model.Ieee
/-! # Repeated doubling -/

namespace Apf.Spec

/-- `x` is multiplied by `two` `n` times; the `i`-th multiplication (from zero) rounds by `modes i`. -/
def doubledBy {S : Sem} (x two : IeeeFloat S) (modes : Nat → Round) : Nat → M (IeeeFloat S)
  | 0 => .ok x
  | n + 1 => do
    let c ← doubledBy x two modes n
    let r ← IeeeFloat.mulR c two (modes n)
    return r.value

end Apf.Spec
