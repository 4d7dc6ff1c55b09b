import Verif.Model.Ieee
/-! # Running sums -/

namespace Apf.Spec

/-- The sums `s + x₀`, `s + x₀ + x₁`, ... as computed one after the other; the `i`-th addition rounds by `modes i`. -/
def runningSums {S : Sem} (modes : Nat → Round) : Nat → IeeeFloat S → List (IeeeFloat S) → M (List (IeeeFloat S))
  | _, _, [] => .ok []
  | i, s, x :: xs => do
    let r ← IeeeFloat.addR s x (modes i)
    let rest ← runningSums modes (i + 1) r.value xs
    return r.value :: rest

end Apf.Spec
