import Verif.Model.Api
import Verif.Spec.Ppc
/-! # Long computations: expressions over the operations, and a bound for their rounding errors

Nothing here is part of the crate: an `Expr` is what a user of the crate computes, every operation in a rounding mode of its own. -/

namespace Apf
open Spec

/-- A computation. -/
inductive Expr (F : Type) where
  | lit (x : F)
  | neg (a : Expr F)
  | add (mode : Round) (a b : Expr F)
  | sub (mode : Round) (a b : Expr F)
  | mul (mode : Round) (a b : Expr F)
  | div (mode : Round) (a b : Expr F)

namespace Expr
variable {F : Type}

/-- Running the computation through the trait (lib.rs:237-604), collecting the flags as `unpack!(status|=, ..)` does (lib.rs:101-118). -/
def eval [ApiFloat F] : Expr F → M (StatusAnd F)
  | lit x => .ok ⟨Status.OK, x⟩
  | neg a => do
    let x ← a.eval
    let r ← ApiFloat.neg x.value
    .ok ⟨x.status, r⟩
  | add mode a b => do
    let x ← a.eval
    let y ← b.eval
    let r ← ApiFloat.add_r x.value y.value mode
    .ok ⟨x.status ||| y.status ||| r.status, r.value⟩
  | sub mode a b => do
    let x ← a.eval
    let y ← b.eval
    let r ← ApiFloat.sub_r x.value y.value mode
    .ok ⟨x.status ||| y.status ||| r.status, r.value⟩
  | mul mode a b => do
    let x ← a.eval
    let y ← b.eval
    let r ← ApiFloat.mul_r x.value y.value mode
    .ok ⟨x.status ||| y.status ||| r.status, r.value⟩
  | div mode a b => do
    let x ← a.eval
    let y ← b.eval
    let r ← ApiFloat.div_r x.value y.value mode
    .ok ⟨x.status ||| y.status ||| r.status, r.value⟩

/-- The exact mathematical value, `v` being the value of a literal. -/
def exact (v : F → ℚ) : Expr F → ℚ
  | lit x => v x
  | neg a => -a.exact v
  | add _ a b => a.exact v + b.exact v
  | sub _ a b => a.exact v - b.exact v
  | mul _ a b => a.exact v * b.exact v
  | div _ a b => a.exact v / b.exact v

/-- The same without cancellation: absolute values of the literals, sums instead of differences. -/
def size (v : F → ℚ) : Expr F → ℚ
  | lit x => |v x|
  | neg a => a.size v
  | add _ a b => a.size v + b.size v
  | sub _ a b => a.size v + b.size v
  | mul _ a b => a.size v * b.size v
  | div _ a b => a.size v / |b.exact v|

/-- The same with every operation inflated by the relative error `ε` and, for products and quotients, the absolute error `η`, of its mode.
(A divisor is taken as small as its own error may make it.) -/
def grown (v : F → ℚ) (ε η : Round → ℚ) : Expr F → ℚ
  | lit x => |v x|
  | neg a => a.grown v ε η
  | add m a b => (1 + ε m) * (a.grown v ε η + b.grown v ε η)
  | sub m a b => (1 + ε m) * (a.grown v ε η + b.grown v ε η)
  | mul m a b => (1 + ε m) * (a.grown v ε η * b.grown v ε η) + η m
  | div m a b => (1 + ε m) * (a.grown v ε η / (|b.exact v| - (b.grown v ε η - b.size v))) + η m

/-- No operation leaves the range: its operands combine to at most `limit`, inflation included; no divisor is lost in its error. -/
def InRange (v : F → ℚ) (ε η : Round → ℚ) (limit : ℚ) : Expr F → Prop
  | lit _ => True
  | neg a => a.InRange v ε η limit
  | add _ a b => a.InRange v ε η limit ∧ b.InRange v ε η limit ∧ a.grown v ε η + b.grown v ε η ≤ limit
  | sub _ a b => a.InRange v ε η limit ∧ b.InRange v ε η limit ∧ a.grown v ε η + b.grown v ε η ≤ limit
  | mul _ a b => a.InRange v ε η limit ∧ b.InRange v ε η limit ∧ a.grown v ε η * b.grown v ε η ≤ limit
  | div _ a b => a.InRange v ε η limit ∧ b.InRange v ε η limit ∧ b.grown v ε η - b.size v < |b.exact v| ∧
      a.grown v ε η / (|b.exact v| - (b.grown v ε η - b.size v)) ≤ limit

/-- Every literal has the property. -/
def All (P : F → Prop) : Expr F → Prop
  | lit x => P x
  | neg a => a.All P
  | add _ a b => a.All P ∧ b.All P
  | sub _ a b => a.All P ∧ b.All P
  | mul _ a b => a.All P ∧ b.All P
  | div _ a b => a.All P ∧ b.All P

/-- Only additions, subtractions and negations. -/
def Linear : Expr F → Prop
  | lit _ => True
  | neg a => a.Linear
  | add _ a b => a.Linear ∧ b.Linear
  | sub _ a b => a.Linear ∧ b.Linear
  | mul _ _ _ => False
  | div _ _ _ => False

/-- Every rounding mode used has the property. -/
def Modes (P : Round → Prop) : Expr F → Prop
  | lit _ => True
  | neg a => a.Modes P
  | add m a b => P m ∧ a.Modes P ∧ b.Modes P
  | sub m a b => P m ∧ a.Modes P ∧ b.Modes P
  | mul m a b => P m ∧ a.Modes P ∧ b.Modes P
  | div m a b => P m ∧ a.Modes P ∧ b.Modes P

/-- No divisions. -/
def NoDiv : Expr F → Prop
  | lit _ => True
  | neg a => a.NoDiv
  | add _ a b => a.NoDiv ∧ b.NoDiv
  | sub _ a b => a.NoDiv ∧ b.NoDiv
  | mul _ a b => a.NoDiv ∧ b.NoDiv
  | div _ _ _ => False

/-- The number of operations on the longest path to a literal. -/
def depth : Expr F → ℕ
  | lit _ => 0
  | neg a => a.depth
  | add _ a b => Max.max a.depth b.depth + 1
  | sub _ a b => Max.max a.depth b.depth + 1
  | mul _ a b => Max.max a.depth b.depth + 1
  | div _ a b => Max.max a.depth b.depth + 1

/-- There are no divisions and every subexpression has size at most `limit`. -/
def SizeAtMost (v : F → ℚ) (limit : ℚ) : Expr F → Prop
  | lit x => |v x| ≤ limit
  | neg a => a.SizeAtMost v limit
  | add _ a b => a.SizeAtMost v limit ∧ b.SizeAtMost v limit ∧ a.size v + b.size v ≤ limit
  | sub _ a b => a.SizeAtMost v limit ∧ b.SizeAtMost v limit ∧ a.size v + b.size v ≤ limit
  | mul _ a b => a.SizeAtMost v limit ∧ b.SizeAtMost v limit ∧ a.size v * b.size v ≤ limit
  | div _ _ _ => False

/-- Adding up a list from the left: `((x + x₁) + x₂) + ...`, every addition in a mode of its own. -/
def sum (acc : Expr F) : List (Round × F) → Expr F
  | [] => acc
  | (m, x) :: xs => sum (add m acc (lit x)) xs

end Expr

/-- The relative error of one rounding with `p` bits. -/
def roundoff (p : ℕ) (mode : Round) : ℚ :=
  match mode with
  | .nearestTiesToEven | .nearestTiesToAway => 2 ^ (-(p : ℤ))
  | _ => 2 ^ (1 - (p : ℤ))

/-- The absolute error of one rounding below the normal range. -/
def Spec.Fmt.tiny (F : Fmt) (mode : Round) : ℚ :=
  match mode with
  | .nearestTiesToEven | .nearestTiesToAway => 2 ^ (F.emin - F.p)
  | _ => 2 ^ (F.emin - F.p + 1)

end Apf
