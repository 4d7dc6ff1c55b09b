import Mathlib.Algebra.Order.Field.Rat
import Mathlib.Algebra.Order.Field.Power
/-!
# Specification of printing

What it means for a printed number to render a positive rational with a given number of significant digits.
Nothing here refers to the model.
-/

namespace Apf.Spec

/-- `10^d` is the place of the leading digit of `v`. -/
def LeadingPlace (v : ℚ) (d : ℤ) : Prop := 10 ^ d ≤ v ∧ v < 10 ^ (d + 1)

/-- `w` renders `v > 0` with `P` significant digits.  With `10^d` the place of the leading digit of `v`, the unit of
the last of `P` digits is `10^(d+1-P)`; `w` is a multiple of it, equal to `v` if `v` is one; otherwise `w` is at most
half a unit away from `v`, or, possible only when the leading digit of `v` is at least 5, it is `v` truncated. -/
def Renders (P : ℕ) (v w : ℚ) : Prop :=
  ∃ d : ℤ, LeadingPlace v d ∧ (∃ n : ℕ, w = n * 10 ^ (d + 1 - P)) ∧
    ((∃ n : ℕ, v = n * 10 ^ (d + 1 - P)) → w = v) ∧
    (2 * |w - v| ≤ 10 ^ (d + 1 - P) ∨ (5 * 10 ^ d ≤ v ∧ w ≤ v ∧ v - w < 10 ^ (d + 1 - P)))

/-! ### Layout

The text of the number `N * 10^E`, given by its significant digits `N` (not a multiple of ten). -/

/-- Number of decimal digits. -/
def digitCount (N : ℕ) : ℕ := (Nat.toDigits 10 N).length

/-- Positional notation is chosen when it needs few enough zeros: at most `width` of them in front of the point without
exceeding the precision `P`, or the first digit at most `width` places behind the point.  `width = 0` always asks for
scientific notation. -/
def Positional (width P N : ℕ) (E : ℤ) : Prop :=
  width ≠ 0 ∧ (0 ≤ E → E ≤ width ∧ digitCount N + E ≤ P) ∧ (E < 0 → -(width : ℤ) ≤ E + digitCount N - 1)

instance (width P N : ℕ) (E : ℤ) : Decidable (Positional width P N E) := by unfold Positional; infer_instance

/-- `1230`, `12.3` or `0.0123`. -/
def positionalText (N : ℕ) (E : ℤ) : List Char :=
  let ds := Nat.toDigits 10 N
  if 0 ≤ E then ds ++ List.replicate E.toNat '0'
  else if -E < ds.length then ds.take (ds.length - (-E).toNat) ++ '.' :: ds.drop (ds.length - (-E).toNat)
  else '0' :: '.' :: (List.replicate ((-E).toNat - ds.length) '0' ++ ds)

/-- A signed exponent, of at least two digits if `two`. -/
def exponentText (two : Bool) (e : ℤ) : List Char :=
  let ds := Nat.toDigits 10 e.natAbs
  (if e < 0 then '-' else '+') :: (if two = true ∧ ds.length = 1 then '0' :: ds else ds)

/-- `1.23E+4`; the alternate form (`#`) pads the fraction with zeros to `P` digits, writes a lower case `e` and an
exponent of at least two digits; the normal form writes at least one digit after the point. -/
def scientificText (P : ℕ) (alt : Bool) (N : ℕ) (E : ℤ) : List Char :=
  let ds := Nat.toDigits 10 N
  let zeros := if alt = true then P + 1 - ds.length else if ds.length = 1 then 1 else 0
  ds.take 1 ++ '.' :: (ds.drop 1 ++ List.replicate zeros '0') ++ (if alt = true then 'e' else 'E') :: exponentText alt (E + ds.length - 1)

/-- The text of `N * 10^E` at the given width, precision and `#` flag. -/
def layout (width P : ℕ) (alt : Bool) (N : ℕ) (E : ℤ) : List Char :=
  if Positional width P N E then positionalText N E else scientificText P alt N E

end Apf.Spec
