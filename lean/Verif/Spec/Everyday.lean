import Mathlib.Data.Rat.Defs
import Mathlib.Algebra.Order.Ring.Rat
/-! # The decimal numbers people write -/

namespace Apf.Spec

/-- A decimal number of moderate size for a format of precision `p`: `N * 10^k` with `N * 5^k` of at most 127 bits (every integer below 2^127, and more), or
`N / 10^k` with `N` of at most 123 bits (37 digits) and `k` decimal places, where `5^k` has at most `122 - p` bits (42 places for p = 24, 29 for p = 53). -/
def Everyday (p : ℕ) (v : ℚ) : Prop :=
  ∃ N k : ℕ, (v = N * 10 ^ k ∧ N * 5 ^ k < 2 ^ 127) ∨ (v = N / 10 ^ k ∧ N < 2 ^ 123 ∧ 2 ^ (p + 1) * 5 ^ k ≤ 2 ^ 123)

end Apf.Spec
