import Verif.Model.Ieee
import Verif.Spec.Rounding
/-!
# Halves and products without a fused operation

Two programs a client of the library writes with its additions, subtractions and multiplications; they are not code of the repository.
-/

namespace Apf
open IeeeFloat
variable {S : Sem}

/-- A number of at most `n` significant bits. -/
def FitsBits (n : ℕ) (v : ℚ) : Prop := ∃ m e : ℤ, |m| < 2 ^ n ∧ v = m * 2 ^ e

/-- (Veltkamp) The two halves of `x`, where `c` is `2^s + 1`. The modes of the last two calls are free. -/
def halves (c x : IeeeFloat S) (m : Round) : M (StatusAnd (IeeeFloat S) × StatusAnd (IeeeFloat S)) := do
  let g ← mulR c x .nearestTiesToEven
  let d ← subR x g.value .nearestTiesToEven
  let hi ← addR g.value d.value m
  let lo ← subR x hi.value m
  pure (hi, lo)

/-- (Dekker) The rounded product of `x` and `y`, and what it loses. -/
def dekker (c x y : IeeeFloat S) (m : Round) : M (StatusAnd (IeeeFloat S) × StatusAnd (IeeeFloat S)) := do
  let p ← mulR x y .nearestTiesToEven
  let (xh, xl) ← halves c x m
  let (yh, yl) ← halves c y m
  let hh ← mulR xh.value yh.value m
  let hl ← mulR xh.value yl.value m
  let lh ← mulR xl.value yh.value m
  let ll ← mulR xl.value yl.value m
  let t ← subR hh.value p.value m
  let t ← addR t.value hl.value m
  let t ← addR t.value lh.value m
  let e ← addR t.value ll.value m
  pure (p, e)

end Apf
