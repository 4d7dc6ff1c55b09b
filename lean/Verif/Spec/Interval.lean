import Verif.Spec.Accumulate
/-! # Interval arithmetic with the directed rounding modes

Nothing here is part of the crate: this is the interval evaluator a user of the crate writes with its operations, its directed rounding modes, `min`,
`max`, the comparisons and `is_finite`. -/

namespace Apf
open Spec

/-- A lower and an upper bound. -/
structure Interval (S : Sem) where
  lo : IeeeFloat S
  hi : IeeeFloat S

namespace Interval
variable {S : Sem}

/-- Give up (`none`) when a bound overflowed. -/
def check (lo hi : IeeeFloat S) : Option (Interval S) := if lo.isFinite && hi.isFinite then some ⟨lo, hi⟩ else none

/-- The bounds of a product or quotient: the least of the four combinations rounded down and the greatest of the four rounded up. -/
def corners (op : IeeeFloat S → IeeeFloat S → Round → M (StatusAnd (IeeeFloat S))) (x y : Interval S) : M (Option (Interval S)) := do
  let a ← op x.lo y.lo .towardNegative
  let b ← op x.lo y.hi .towardNegative
  let c ← op x.hi y.lo .towardNegative
  let d ← op x.hi y.hi .towardNegative
  let l1 ← IeeeFloat.min a.value b.value
  let l2 ← IeeeFloat.min c.value d.value
  let l ← IeeeFloat.min l1 l2
  let a' ← op x.lo y.lo .towardPositive
  let b' ← op x.lo y.hi .towardPositive
  let c' ← op x.hi y.lo .towardPositive
  let d' ← op x.hi y.hi .towardPositive
  let h1 ← IeeeFloat.max a'.value b'.value
  let h2 ← IeeeFloat.max c'.value d'.value
  let h ← IeeeFloat.max h1 h2
  .ok (check l h)

/-- The sum of two intervals. -/
def add (x y : Interval S) : M (Option (Interval S)) := do
  let l ← IeeeFloat.addR x.lo y.lo .towardNegative
  let h ← IeeeFloat.addR x.hi y.hi .towardPositive
  .ok (check l.value h.value)

/-- The difference of two intervals. -/
def sub (x y : Interval S) : M (Option (Interval S)) := do
  let l ← IeeeFloat.subR x.lo y.hi .towardNegative
  let h ← IeeeFloat.subR x.hi y.lo .towardPositive
  .ok (check l.value h.value)

/-- The quotient of two intervals: give up when the divisor may be zero. -/
def div (x y : Interval S) : M (Option (Interval S)) := do
  let pos ← IeeeFloat.gt y.lo (IeeeFloat.ZERO S)
  let neg ← IeeeFloat.lt y.hi (IeeeFloat.ZERO S)
  if pos || neg then corners IeeeFloat.divR x y else .ok none

/-- Evaluate both operands, then combine their intervals, giving up when one of them did. -/
def both (f : Interval S → Interval S → M (Option (Interval S))) (a b : M (Option (Interval S))) : M (Option (Interval S)) := do
  let x ← a
  let y ← b
  match x, y with
  | some x, some y => f x y
  | _, _ => .ok none

end Interval

/-- Interval evaluation of a computation (the rounding modes of the computation itself play no role). -/
def Expr.interval {S : Sem} : Expr (IeeeFloat S) → M (Option (Interval S))
  | lit x => .ok (Interval.check x x)
  | neg a => do
    let x ← a.interval
    .ok (x.map fun i => ⟨i.hi.neg, i.lo.neg⟩)
  | add _ a b => Interval.both Interval.add a.interval b.interval
  | sub _ a b => Interval.both Interval.sub a.interval b.interval
  | mul _ a b => Interval.both (Interval.corners IeeeFloat.mulR) a.interval b.interval
  | div _ a b => Interval.both Interval.div a.interval b.interval

/-- No divisor is exactly zero. -/
def Expr.Defined {F : Type} (v : F → ℚ) : Expr F → Prop
  | lit _ => True
  | neg a => a.Defined v
  | add _ a b => a.Defined v ∧ b.Defined v
  | sub _ a b => a.Defined v ∧ b.Defined v
  | mul _ a b => a.Defined v ∧ b.Defined v
  | div _ a b => a.Defined v ∧ b.Defined v ∧ b.exact v ≠ 0

end Apf
