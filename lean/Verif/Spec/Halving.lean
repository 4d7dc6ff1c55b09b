import Verif.Model.Ieee
/-! # Repeated halving -/

namespace Apf.Spec

/-- `x` is divided by `two` `n` times; the `i`-th division (from zero) rounds by `modes i`. -/
def halved {S : Sem} (x two : IeeeFloat S) (modes : Nat → Round) : Nat → M (IeeeFloat S)
  | 0 => .ok x
  | n + 1 => do
    let c ← halved x two modes n
    let r ← IeeeFloat.divR c two (modes n)
    return r.value

end Apf.Spec
