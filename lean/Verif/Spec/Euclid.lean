import Verif.Model.Ieee
/-! # Euclid's algorithm with floats -/

namespace Apf.Spec

/-- Euclid's algorithm: `(x, y)` becomes `(y, x rem y)` until `y` is zero.  `none` if `n` steps were not enough. -/
def euclid {S : Sem} : Nat → IeeeFloat S → IeeeFloat S → M (Option (IeeeFloat S))
  | 0, _, _ => .ok none
  | n + 1, x, y =>
    if y.isZero then .ok (some x)
    else do
      let r ← IeeeFloat.cFmod x y
      euclid n y r.value

end Apf.Spec
