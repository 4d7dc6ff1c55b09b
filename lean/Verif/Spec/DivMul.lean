import Verif.Spec.Rounding
/-! # Numbers with one spare bit, and divisors with two bits -/

namespace Apf.Spec

/-- `v` has at most `n` significant bits. -/
def BitsAtMost (n : ℕ) (v : ℚ) : Prop := ∃ m k : ℤ, |m| < 2 ^ n ∧ v = m * 2 ^ k

/-- `v` is `±(2^a + 2^b)`: like 3, 5, 6, 9, 10, 12, 20, 1.5, 0.625, and the powers of two. -/
def TwoBits (v : ℚ) : Prop := ∃ a b : ℤ, |v| = 2 ^ a + 2 ^ b

end Apf.Spec
