import Verif.Spec.Float
/-! # Loops a user writes with the crate

Nothing here is part of the crate. -/

namespace Apf
variable {S : Sem}
open IeeeFloat

/-- `next_up` applied `n` times. -/
def walkUp (x : IeeeFloat S) : ℕ → M (IeeeFloat S)
  | 0 => .ok x
  | n + 1 => do
    let r ← walkUp x n
    let s ← nextUp r
    .ok s.value

/-- Adding `one` to a counter `n` times, starting from zero and collecting the flags. -/
def countUp (one : IeeeFloat S) (mode : Round) : ℕ → M (StatusAnd (IeeeFloat S))
  | 0 => .ok ⟨Status.OK, ZERO S⟩
  | n + 1 => do
    let r ← countUp one mode n
    let s ← addR r.value one mode
    .ok ⟨r.status ||| s.status, s.value⟩

end Apf
