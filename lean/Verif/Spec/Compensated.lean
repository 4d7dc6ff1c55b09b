import Verif.Spec.Float
/-! # Compensated summation

Nothing here is part of the crate: these are programs a user writes with it.  Every operation rounds to nearest. -/

namespace Apf
variable {S : Sem}
open IeeeFloat

/-- The sum of two numbers and what rounding it lost (six calls). -/
def twoSum (x y : IeeeFloat S) : M (IeeeFloat S × IeeeFloat S) := do
  let s ← addR x y .nearestTiesToEven
  let q ← subR x s.value .nearestTiesToEven
  let t ← addR q.value y .nearestTiesToEven
  let u ← addR q.value s.value .nearestTiesToEven
  let v ← subR x u.value .nearestTiesToEven
  let e ← addR t.value v.value .nearestTiesToEven
  .ok (s.value, e.value)

/-- Adding the numbers of a list one after the other, keeping what each addition lost. -/
def vecSum (x : IeeeFloat S) : List (IeeeFloat S) → M (IeeeFloat S × List (IeeeFloat S))
  | [] => .ok (x, [])
  | y :: ys => do
    let (s, e) ← twoSum x y
    let (t, es) ← vecSum s ys
    .ok (t, e :: es)

/-- Adding the numbers of a list one after the other. -/
def plainSum (x : IeeeFloat S) : List (IeeeFloat S) → M (IeeeFloat S)
  | [] => .ok x
  | y :: ys => do
    let s ← addR x y .nearestTiesToEven
    plainSum s.value ys

/-- The sum of a list, corrected by the sum of what the additions lost. -/
def compensatedSum (x : IeeeFloat S) (ys : List (IeeeFloat S)) : M (IeeeFloat S) := do
  let (t, es) ← vecSum x ys
  let c ← plainSum (ZERO S) es
  let r ← addR t c .nearestTiesToEven
  .ok r.value

/-- The exact sum, and the sum of the magnitudes. -/
def total (xs : List (IeeeFloat S)) : Rat := (xs.map toRat).sum
def magnitude (xs : List (IeeeFloat S)) : Rat := (xs.map fun x => |x.toRat|).sum

end Apf
