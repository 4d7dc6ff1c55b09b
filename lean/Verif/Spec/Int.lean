import Verif.Spec.Rounding
/-!
# Specification of rounding to integers and of conversion to bounded integers
-/

namespace Apf.Spec

/-- `n` is the rounding of `v` to an integer in the direction `mode`. -/
def RoundsToInt (mode : Round) (v : ℚ) (n : ℤ) : Prop :=
  match mode with
  | .towardNegative => (n : ℚ) ≤ v ∧ v < n + 1
  | .towardPositive => (n : ℚ) - 1 < v ∧ v ≤ n
  | .towardZero => (0 ≤ v → (n : ℚ) ≤ v ∧ v < n + 1) ∧ (v ≤ 0 → (n : ℚ) - 1 < v ∧ v ≤ n)
  | .nearestTiesToEven => 2 * |v - n| ≤ 1 ∧ (2 * |v - n| = 1 → n % 2 = 0)
  | .nearestTiesToAway => 2 * |v - n| ≤ 1 ∧ (2 * |v - n| = 1 → |v| < |(n : ℚ)|)

/-- The conversion of the number `v` to an integer type with range `lo .. hi`: the rounded integer `n` when it is in
range (exact and without flags iff `v` is that integer, `INEXACT` otherwise), else the nearest bound with
`INVALID_OP`. -/
def ConvertsToInt (lo hi : ℤ) (mode : Round) (v : ℚ) (st : Status) (value : ℤ) (exact : Bool) : Prop :=
  ∃ n, RoundsToInt mode v n ∧
    ((lo ≤ n ∧ n ≤ hi ∧ value = n ∧ (exact = true ↔ (n : ℚ) = v) ∧
        st = { inexact := decide ((n : ℚ) ≠ v) }) ∨
     (n < lo ∧ value = lo ∧ exact = false ∧ st = { invalidOp := true }) ∨
     (hi < n ∧ value = hi ∧ exact = false ∧ st = { invalidOp := true }))

end Apf.Spec
