import Verif.Spec.Int
import Verif.Model.Ieee
import Mathlib.Algebra.Order.Floor.Ring
import Mathlib.Data.Rat.Floor

/-!
# Casts and the functions built on remainders, as the Rust language defines them

`castTo` is the value of a float-to-integer cast `x as iN` / `x as uN` in the Rust Reference: toward zero, saturating, NaN to 0.
The functions below are client programs: the bodies of `fract`, `rem_euclid` and `div_euclid` of the standard library's float types, written with
the operations of the crate.
-/

namespace Apf
open IeeeFloat Spec

/-- The integer part of a number: the number without the digits after the point. -/
def truncQ (v : ℚ) : ℤ := if 0 ≤ v then ⌊v⌋ else ⌈v⌉

/-- The value of a cast of a float to an integer type with the range `lo .. hi`. -/
def castTo (lo hi : ℤ) : Datum → ℤ
  | .nan => 0
  | .inf s => if s then lo else hi
  | .num _ v => max lo (min hi (truncQ v))

/-- Whether the integer part of the float is a number of the type with the range `lo .. hi`. -/
def castFits (lo hi : ℤ) : Datum → Prop
  | .num _ v => lo ≤ truncQ v ∧ truncQ v ≤ hi
  | _ => False

variable {S : Sem}

/-- `x - x.trunc()`. -/
def fract (mode : Round) (x : IeeeFloat S) : M (StatusAnd (IeeeFloat S) × StatusAnd (IeeeFloat S)) := do
  let t ← roundToIntegral x .towardZero
  let f ← subR x t.value mode
  .ok (t, f)

/-- `let r = x % y; if r < 0.0 { r + y.abs() } else { r }`. -/
def remEuclid (x y : IeeeFloat S) : M (IeeeFloat S) := do
  let r ← cFmod x y
  if ← lt r.value (ZERO S) then do
    let s ← addR r.value y.abs .nearestTiesToEven
    .ok s.value
  else .ok r.value

/-- `let q = (x / y).trunc(); if x % y < 0.0 { if y > 0.0 { q - 1.0 } else { q + 1.0 } } else { q }`; `one` is the float 1. -/
def divEuclid (one x y : IeeeFloat S) : M (IeeeFloat S) := do
  let d ← divR x y .nearestTiesToEven
  let q ← roundToIntegral d.value .towardZero
  let r ← cFmod x y
  if ← lt r.value (ZERO S) then do
    if ← gt y (ZERO S) then do
      let s ← subR q.value one .nearestTiesToEven
      .ok s.value
    else do
      let s ← addR q.value one .nearestTiesToEven
      .ok s.value
  else .ok q.value

end Apf
