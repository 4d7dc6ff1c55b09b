import Mathlib.Algebra.Order.Field.Rat
import Mathlib.Algebra.Order.Field.Power
import Mathlib.Data.Nat.Size
/-!
# The shortest exact decimal form of a dyadic number

Nothing here refers to the model.
-/

namespace Apf.Spec

/-- `v` is the integer `B` (if `t = 0`), or has exactly `t` digits after the decimal point and `B` is `v` with the point deleted: `B` is then odd, since
a dyadic number that needs `t` decimals has the denominator `2^t`. -/
def DecimalForm (v : ℚ) (B t : ℕ) : Prop := v * 10 ^ t = B ∧ (t = 0 ∨ B % 2 = 1)

/-- Formatting with precision 0 first throws away this many digits of `B`, an estimate of the number of digits of `B` (`59/196` is a little more than
the logarithm of 2 to the base 10). -/
def dropped (B : ℕ) : ℕ := Nat.size B * 59 / 196

end Apf.Spec
