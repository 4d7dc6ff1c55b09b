import Verif.Model.Prelude
import Mathlib.Data.Rat.Floor
import Mathlib.Algebra.Order.Field.Basic
import Mathlib.Algebra.Order.Field.Power
import Mathlib.Tactic.Ring
import Mathlib.Tactic.Linarith
import Mathlib.Tactic.Positivity
import Mathlib.Tactic.NormNum
import Mathlib.Tactic.LinearCombination
/-!
# Specification of binary floating point rounding, over the rationals

Nothing here mentions significands, limbs, exponent fields or any function of the model; only the
enums `Round` (the five rounding modes) and `Status` (the five flags) are shared with it.
-/

namespace Apf.Spec

/-- A binary format: `p` significant bits, exponents from `emin` to `emax`.  `hasInf` is false for the
format that has neither infinities nor the significand the single NaN takes up at `emax`. -/
structure Fmt where
  p : ℕ
  emin : ℤ
  emax : ℤ
  hasInf : Bool

/-- The numbers with `p` significant bits and exponent at least `emin`, *without an upper bound on the
exponent*: `m * 2^k` with `|m| < 2^p` and `k ≥ emin - p + 1`. -/
def Fmt.Grid (F : Fmt) (v : ℚ) : Prop :=
  ∃ m k : ℤ, |m| < 2 ^ F.p ∧ F.emin - F.p + 1 ≤ k ∧ v = m * 2 ^ k

/-- The numbers of the grid whose significand (written with the smallest possible unit) is even. -/
def Fmt.EvenGrid (F : Fmt) (v : ℚ) : Prop :=
  ∃ m k : ℤ, |2 * m| < 2 ^ F.p ∧ F.emin - F.p + 1 ≤ k ∧ v = (2 * m) * 2 ^ k

/-- The largest finite value. -/
def Fmt.largest (F : Fmt) : ℚ := (2 ^ F.p - (if F.hasInf then 1 else 2)) * 2 ^ (F.emax - F.p + 1)

/-- The smallest positive normal value. -/
def Fmt.smallestNormal (F : Fmt) : ℚ := 2 ^ F.emin

/-- A finite value of the format. -/
def Fmt.Finite (F : Fmt) (v : ℚ) : Prop := F.Grid v ∧ |v| ≤ F.largest

/-- `r` is the rounding of the exact value `v` under `mode`, the exponent being unbounded above. -/
def IsRounded (F : Fmt) (mode : Round) (v r : ℚ) : Prop :=
  F.Grid r ∧
  match mode with
  | .towardNegative => r ≤ v ∧ ∀ g, F.Grid g → g ≤ v → g ≤ r
  | .towardPositive => v ≤ r ∧ ∀ g, F.Grid g → v ≤ g → r ≤ g
  | .towardZero =>
    (0 ≤ v → r ≤ v ∧ ∀ g, F.Grid g → g ≤ v → g ≤ r) ∧
    (v ≤ 0 → v ≤ r ∧ ∀ g, F.Grid g → v ≤ g → r ≤ g)
  | .nearestTiesToEven =>
    (∀ g, F.Grid g → |v - r| ≤ |v - g|) ∧
    (∀ g, F.Grid g → g ≠ r → |v - g| = |v - r| → F.EvenGrid r)
  | .nearestTiesToAway =>
    (∀ g, F.Grid g → |v - r| ≤ |v - g|) ∧
    (∀ g, F.Grid g → g ≠ r → |v - g| = |v - r| → |g| < |r|)

/-- What a floating point datum denotes.  `neg` is the sign bit (observable for zeros). -/
inductive Datum where
  | nan
  | inf (neg : Bool)
  | num (neg : Bool) (v : ℚ)

/-- `-x` when `neg`. -/
def signed (neg : Bool) (x : ℚ) : ℚ := if neg then -x else x

/-- What an overflowing result is replaced with.  `OVERFLOW` accompanies the infinity (or the NaN that
stands for it in a format without infinities). -/
def overflowed (F : Fmt) (mode : Round) (neg : Bool) : Datum × Status :=
  let toInf : Bool := match mode with
    | .nearestTiesToEven => true
    | .nearestTiesToAway => true
    | .towardZero => false
    | .towardPositive => !neg
    | .towardNegative => neg
  if toInf then
    (if F.hasInf then .inf neg else .nan, { overflow := true, inexact := true })
  else (.num neg (signed neg F.largest), { inexact := true })

/-- The datum `d` with flags `st` is the correctly rounded delivery of the exact value `v`, with sign bit
`neg`: the rounding `g` of `v` when it is in range, `overflowed` otherwise.  Flags: `INEXACT` iff the
delivered value differs from `v`; `UNDERFLOW` iff in addition it is below the normal range. -/
def Delivers (F : Fmt) (mode : Round) (v : ℚ) (neg : Bool) (d : Datum) (st : Status) : Prop :=
  ∃ g, IsRounded F mode v g ∧
    ((|g| ≤ F.largest ∧ d = .num neg g ∧
        st = { inexact := decide (g ≠ v), underflow := decide (g ≠ v ∧ |g| < F.smallestNormal) }) ∨
     (F.largest < |g| ∧ (d, st) = overflowed F mode neg))

/-- The order of the extended reals; NaN is related to nothing. -/
def Datum.le : Datum → Datum → Prop
  | .nan, _ => False
  | _, .nan => False
  | .inf true, _ => True
  | _, .inf false => True
  | .inf false, _ => False
  | _, .inf true => False
  | .num _ a, .num _ b => a ≤ b

/-- The opposite datum. -/
def Datum.neg : Datum → Datum
  | .nan => .nan
  | .inf s => .inf (!s)
  | .num s a => .num (!s) (-a)

end Apf.Spec
