import Verif.Spec.Fma
import Mathlib.Algebra.Order.Floor.Ring
/-!
# Exactly which fused multiply-adds fail

`FmaExcluded` (`Verif.Spec.Fma`) is a set of operands that contains all the failures; most of its members are computed correctly all
the same.  Here the failures are singled out, in terms of the exact product `P` and of the addend `z`.
-/

namespace Apf
open Spec

/-- The weight of the last bit the code keeps of the product: `2^(minExp - 2p)`. -/
def fmaUnit (S : Sem) : ℚ := 2 ^ (S.minExp - 2 * S.precision)

/-- By how many units the product, cut off after its last kept bit, exceeds the addend (in magnitude). -/
def fmaGap (S : Sem) (P z : ℚ) : ℤ := ⌊|P| / fmaUnit S⌋ - ⌊|z| / fmaUnit S⌋

/-- The part of the product that is cut off, in units: at least 0, less than 1. -/
def fmaRest (S : Sem) (P : ℚ) : ℚ := |P| / fmaUnit S - ⌊|P| / fmaUnit S⌋

/-- The operands on which `mul_add_r` panics. -/
def FmaPanics (S : Sem) (P z : ℚ) : Prop := FmaExcluded S P z ∧ fmaGap S P z = 0

/-- Which gaps `N` and rests `g` lead to a wrong result, in a format of `p` bits.  Toward zero, positive or negative: the gap is a multiple of
the smallest subnormal number (which is `2^(p+1)` units).  To nearest: it is an odd multiple of half the smallest subnormal, or a single unit
in either direction while less than half a unit (or, with ties away from zero, exactly half a unit) has been cut off. -/
def FmaGapFails (p : ℕ) (mode : Round) (N : ℤ) (g : ℚ) : Prop :=
  match mode with
  | .nearestTiesToEven => N % 2 ^ (p + 1) = 2 ^ p ∨ (|N| = 1 ∧ g < 1 / 2)
  | .nearestTiesToAway => N % 2 ^ (p + 1) = 2 ^ p ∨ (|N| = 1 ∧ g ≤ 1 / 2)
  | _ => N % 2 ^ (p + 1) = 0

/-- The operands on which `mul_add_r` panics or delivers a wrong result. -/
def FmaWrong (S : Sem) (mode : Round) (P z : ℚ) : Prop :=
  FmaExcluded S P z ∧ (fmaGap S P z = 0 ∨ FmaGapFails S.precision mode (fmaGap S P z) (fmaRest S P))

end Apf
