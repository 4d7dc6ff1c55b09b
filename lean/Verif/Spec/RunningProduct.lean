import Verif.Model.Ieee
/-! # Running products -/

namespace Apf.Spec

/-- The products `s * x₀`, `s * x₀ * x₁`, ... as computed one after the other; the `i`-th multiplication rounds by `modes i`. -/
def runningProducts {S : Sem} (modes : Nat → Round) : Nat → IeeeFloat S → List (IeeeFloat S) → M (List (IeeeFloat S))
  | _, _, [] => .ok []
  | i, s, x :: xs => do
    let r ← IeeeFloat.mulR s x (modes i)
    let rest ← runningProducts modes (i + 1) r.value xs
    return r.value :: rest

end Apf.Spec
