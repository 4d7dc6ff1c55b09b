import Verif.Spec.PpcNear
import Verif.Spec.Accumulate

/-!
Specification side of C100: rounding a pair to the 106-bit format.  A pair can hold numbers of far more than 106 significant bits,
such as `1 - 2^-200`.
-/

namespace Apf
open Spec

variable {S : Sem}

/-- `t` is the pair of the 106-bit format whose number is nearest to the number of `x`, ties to even, with the sign of `x`. -/
def DoubleFloat.Trimmed (x t : DoubleFloat S) : Prop :=
  t.Fits ∧ IsRounded S.fmt.doubled .nearestTiesToEven x.toRat t.toRat ∧ t.isNegative = x.isNegative

/-- Some 106-bit number in the range of the high part is at least as large in magnitude. -/
def DoubleFloat.InRange (x : DoubleFloat S) : Prop := ∃ L : ℚ, S.fmt.doubled.Grid L ∧ |x.toRat| ≤ L ∧ L < S.fmt.overflowAt

/-- No multiplications. -/
def Expr.NoMul {F : Type} : Expr F → Prop
  | lit _ => True
  | neg a => a.NoMul
  | add _ a b => a.NoMul ∧ b.NoMul
  | sub _ a b => a.NoMul ∧ b.NoMul
  | mul _ _ _ => False
  | div _ a b => a.NoMul ∧ b.NoMul

end Apf
