import Verif.Model.Ppc
/-! # Euclid's algorithm with DoubleDouble values -/

namespace Apf.Spec

/-- Euclid's algorithm: `(x, y)` becomes `(y, x rem y)` until `y` is zero.  `none` if `n` steps were not enough. -/
def euclidPair {S : Sem} : Nat → DoubleFloat S → DoubleFloat S → M (Option (DoubleFloat S))
  | 0, _, _ => .ok none
  | n + 1, x, y =>
    if y.isZero then .ok (some x)
    else do
      let r ← DoubleFloat.cFmod x y
      euclidPair n y r.value

end Apf.Spec
