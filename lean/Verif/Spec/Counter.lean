import Verif.Model.Ieee
/-! # A counter kept in a float -/

namespace Apf.Spec

/-- Starting from zero, `one` is added `n` times; the `i`-th addition (from zero) rounds by `modes i`. -/
def counted {S : Sem} (one : IeeeFloat S) (modes : Nat → Round) : Nat → M (IeeeFloat S)
  | 0 => .ok (IeeeFloat.ZERO S)
  | n + 1 => do
    let c ← counted one modes n
    let r ← IeeeFloat.addR c one (modes n)
    return r.value

end Apf.Spec
