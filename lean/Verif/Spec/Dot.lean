import Verif.Model.Ieee
import Verif.Spec.Float

/-! Dot products of vectors in a narrow type accumulated in a wide one.  Nothing here is part of the crate: these are programs a
user of the crate would write. -/

namespace Apf
open IeeeFloat

/-- `for (x, y) in pairs { acc = acc + x.convert::<T>() * y.convert::<T>() }`, collecting the flags. -/
def dotLoop (S T : Sem) (mode : Round) (acc : StatusAnd (IeeeFloat T)) : List (IeeeFloat S × IeeeFloat S) → M (StatusAnd (IeeeFloat T))
  | [] => .ok acc
  | (x, y) :: rest => do
    let X ← convertR S T x mode
    let Y ← convertR S T y mode
    let p ← mulR X.value Y.value mode
    let s ← addR acc.value p.value mode
    dotLoop S T mode ⟨acc.status ||| X.status ||| Y.status ||| p.status ||| s.status, s.value⟩ rest

/-- `for (x, y) in pairs { acc = x.convert::<T>().mul_add(y.convert::<T>(), acc) }`, collecting the flags. -/
def dotFused (S T : Sem) (mode : Round) (acc : StatusAnd (IeeeFloat T)) : List (IeeeFloat S × IeeeFloat S) → M (StatusAnd (IeeeFloat T))
  | [] => .ok acc
  | (x, y) :: rest => do
    let X ← convertR S T x mode
    let Y ← convertR S T y mode
    let s ← mulAddR X.value Y.value acc.value mode
    dotFused S T mode ⟨acc.status ||| X.status ||| Y.status ||| s.status, s.value⟩ rest

/-- The exact dot product. -/
def dotExact {S : Sem} : List (IeeeFloat S × IeeeFloat S) → ℚ
  | [] => 0
  | (x, y) :: rest => x.toRat * y.toRat + dotExact rest

/-- The sum of the magnitudes of its terms. -/
def dotSize {S : Sem} : List (IeeeFloat S × IeeeFloat S) → ℚ
  | [] => 0
  | (x, y) :: rest => |x.toRat * y.toRat| + dotSize rest

end Apf
