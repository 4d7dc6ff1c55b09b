import Verif.Spec.Accumulate
/-! # Accumulated flags of whole computations

Nothing here is part of the crate: what the exact results of all the steps of a computation have to satisfy for no flag to be raised. -/

namespace Apf.Expr
open Spec
variable {F : Type}

/-- The exact result of every step has the property `P`, and no divisor is zero. -/
def Steps (v : F → ℚ) (P : ℚ → Prop) : Expr F → Prop
  | lit _ => True
  | neg a => a.Steps v P
  | add _ a b => a.Steps v P ∧ b.Steps v P ∧ P (a.exact v + b.exact v)
  | sub _ a b => a.Steps v P ∧ b.Steps v P ∧ P (a.exact v - b.exact v)
  | mul _ a b => a.Steps v P ∧ b.Steps v P ∧ P (a.exact v * b.exact v)
  | div _ a b => a.Steps v P ∧ b.Steps v P ∧ b.exact v ≠ 0 ∧ P (a.exact v / b.exact v)

/-- The computation with all roundings replaced by `mode`. -/
def inMode (mode : Round) : Expr F → Expr F
  | lit x => lit x
  | neg a => neg (a.inMode mode)
  | add _ a b => add mode (a.inMode mode) (b.inMode mode)
  | sub _ a b => sub mode (a.inMode mode) (b.inMode mode)
  | mul _ a b => mul mode (a.inMode mode) (b.inMode mode)
  | div _ a b => div mode (a.inMode mode) (b.inMode mode)

end Apf.Expr
