import Verif.Model.Prelude
import Mathlib.Data.Nat.Digits.Defs
import Mathlib.Algebra.Order.Field.Rat
/-! # Specification of limb arrays: the integer they write in base `2^128` -/

namespace Apf.Spec

/-- The integer written by an array of limbs, least significant first. -/
def num (l : List ℕ) : ℕ := Nat.ofDigits (2 ^ 128) l

/-- Every limb is a 128-bit word. -/
def Words (l : List ℕ) : Prop := ∀ x ∈ l, x < 2 ^ 128

instance (l : List ℕ) : Decidable (Words l) := inferInstanceAs (Decidable (∀ x ∈ l, x < 2 ^ 128))

/-- `l` tells where the fraction `f` (of a unit in the last place, `0 ≤ f < 1`) lies. -/
def Tells (l : Loss) (f : ℚ) : Prop :=
  match l with
  | .exactlyZero => f = 0
  | .lessThanHalf => 0 < f ∧ f < 1 / 2
  | .exactlyHalf => f = 1 / 2
  | .moreThanHalf => 1 / 2 < f ∧ f < 1

end Apf.Spec
