import Verif.Model.Ieee
/-! # Bisection -/

namespace Apf.Spec

/-- Looks between `lo` and `hi` for the place where `above` becomes true, with `(lo + hi) / 2` as the middle; ends when the middle is not strictly
between the bounds.  `none` if `n` steps were not enough. -/
def bisect {S : Sem} (above : IeeeFloat S → Bool) (two : IeeeFloat S) (m1 m2 : Round) :
    Nat → IeeeFloat S → IeeeFloat S → M (Option (IeeeFloat S × IeeeFloat S))
  | 0, _, _ => .ok none
  | n + 1, lo, hi => do
    let s ← IeeeFloat.addR lo hi m1
    let r ← IeeeFloat.divR s.value two m2
    let a ← IeeeFloat.lt lo r.value
    let b ← IeeeFloat.lt r.value hi
    if a && b then
      if above r.value then bisect above two m1 m2 n lo r.value else bisect above two m1 m2 n r.value hi
    else return some (lo, hi)

end Apf.Spec
