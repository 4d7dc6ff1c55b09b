/-!
# Shared vocabulary of the model (Rust primitives, `lib.rs` enums)

Everything here models either a Rust primitive (checked / saturating / wrapping
integer operations, slice indexing, `assert!`) or a small enum of
`/repo/src/lib.rs` / `/repo/src/ieee.rs`.

A Rust panic is an explicit error value.  Arithmetic is modelled in the
*checked* (debug-assertions) reading of Rust: an `i32`/`usize`/`u128` operation
that would overflow is a panic.  Theorems showing that a function returns
`.ok _` therefore also show that no wrap-around can happen in a release build.
-/

namespace Apf

/-- Why a modelled Rust call did not return (the panics of ieee.rs, lib.rs and ppc.rs: `assert!` e.g. ieee.rs:1149,
`unwrap` e.g. ieee.rs:2286, `unreachable!` ieee.rs:872, 2227, checked arithmetic throughout).  `fuel` is not a Rust panic: it marks a
loop of the model that did not finish within the fuel it was given. -/
inductive Panic where
  | arith        -- integer overflow, or a shift by at least the bit width
  | assert       -- `assert!` / `assert_eq!` / `assert_ne!`
  | index        -- slice index / range out of bounds, `copy_from_slice` length mismatch
  | unwrap       -- `Option::unwrap` / `Result::unwrap`
  | unreachable  -- `unreachable!()`
  | fuel         -- loop of the model not finished
  deriving DecidableEq, Repr

/-- Result of a modelled Rust call: a value, or a panic (any function of ieee.rs:1-3248, lib.rs:1-755, ppc.rs:1-461). -/
abbrev M (α : Type) := Except Panic α

/-- `assert!(c)` (e.g. ieee.rs:1149, 1760, 2021, 2159; ppc.rs:83). -/
def massert (c : Prop) [Decidable c] : M Unit :=
  if c then .ok () else .error .assert

/-- An `i32` result of checked arithmetic (`ExpInt = i32`, lib.rs:152-153). -/
def i32 (x : Int) : M Int :=
  if -2147483648 ≤ x ∧ x ≤ 2147483647 then .ok x else .error .arith

/-- Saturating `i32` arithmetic (`saturating_add`, `saturating_sub`, `saturating_mul`; ieee.rs:1865, 2058, 2251, 2291-2295,
2357, 2386-2416, 2539). -/
def sat32 (x : Int) : Int := max (-2147483648) (min x 2147483647)

/-- `n as i32` for a `usize`: keeps the low 32 bits (ieee.rs:2386, 2388, 2392, 2808, 2843, 3136). -/
def asI32 (n : Nat) : Int :=
  let m := n % 4294967296
  if m < 2147483648 then (m : Int) else (m : Int) - 4294967296

/-- Checked `usize` subtraction (e.g. ieee.rs:2386, 2388, 2689, 2916). -/
def usub (a b : Nat) : M Nat := if b ≤ a then .ok (a - b) else .error .arith

/-- Checked `usize` arithmetic on a 64-bit target (ieee.rs:637): the exact result, if it is a `usize`. -/
def usize (n : Nat) : M Nat := if n < 18446744073709551616 then .ok n else .error .arith

/-- `LIMB_BITS` (ieee.rs:49). -/
abbrev limbBits : Nat := 128

/-- Number of values of a `Limb = u128` (ieee.rs:48). -/
abbrev limbMod : Nat := 2 ^ 128

/-- `!0` at type `u128` (ieee.rs:971, 1684, 2454, 2652-2673, 2956). -/
abbrev limbMax : Nat := 2 ^ 128 - 1

/-- Checked `u128` arithmetic (`+`, `*`, `+=`; e.g. ieee.rs:2454-2470, 2639). -/
def u128 (x : Nat) : M Nat := if x < 2 ^ 128 then .ok x else .error .arith

/-- `a << n` on `u128`: drops high bits, panics when `n ≥ 128` (ieee.rs:275, 445, 2784-2846). -/
def shl (a n : Nat) : M Nat := if n < 128 then .ok ((a <<< n) % 2 ^ 128) else .error .arith

/-- `a >> n` on `u128`: panics when `n ≥ 128` (ieee.rs:1684, 2652, 2784-2846). -/
def shr (a n : Nat) : M Nat := if n < 128 then .ok (a >>> n) else .error .arith

/-- `!a` on `u128` (ieee.rs:198, 950). -/
def lnot (a : Nat) : Nat := 2 ^ 128 - 1 - a % 2 ^ 128

/-- `a.wrapping_sub(b)` on `u128` (ieee.rs:2658, 2666, 2955). -/
def wsub (a b : Nat) : Nat := (a + (2 ^ 128 - b % 2 ^ 128)) % 2 ^ 128

/-- `a.wrapping_neg()` on `u128` (ieee.rs:2659, 2667, 2670; lib.rs:347, 392). -/
def wneg (a : Nat) : Nat := (2 ^ 128 - a % 2 ^ 128) % 2 ^ 128

/-- `u128::leading_zeros` (ieee.rs:2770). -/
def leadingZeros (x : Nat) : Nat := if x = 0 then 128 else 127 - Nat.log2 x

/-- `u128::trailing_zeros`: position of the lowest set bit, 128 for zero (ieee.rs:585, 2758). -/
def trailingZeros (x : Nat) : Nat := ((List.range 128).find? (fun i => x.testBit i)).getD 128

/-- Slice indexing `l[i]` (the `sig` module, ieee.rs:2741-3248). -/
def idx (l : List Nat) (i : Nat) : M Nat :=
  match l[i]? with
  | some x => .ok x
  | none => .error .index

/-- Slice element assignment `l[i] = v` (the `sig` module, ieee.rs:2741-3248). -/
def setIdx (l : List Nat) (i v : Nat) : M (List Nat) :=
  if i < l.length then .ok (l.set i v) else .error .index

/-- lib.rs:47-66 `Status`.  Simplification: the `u8` bit set is a record of five
booleans, one per flag. -/
structure Status where
  invalidOp : Bool := false
  divByZero : Bool := false
  overflow  : Bool := false
  underflow : Bool := false
  inexact   : Bool := false
  deriving DecidableEq, Repr

namespace Status
/-- lib.rs:59 `Status::OK`. -/
def OK : Status := {}
/-- lib.rs:60 `Status::INVALID_OP`. -/
def INVALID_OP : Status := { invalidOp := true }
/-- lib.rs:61 `Status::DIV_BY_ZERO`. -/
def DIV_BY_ZERO : Status := { divByZero := true }
/-- lib.rs:62 `Status::OVERFLOW`. -/
def OVERFLOW : Status := { overflow := true }
/-- lib.rs:63 `Status::UNDERFLOW`. -/
def UNDERFLOW : Status := { underflow := true }
/-- lib.rs:64 `Status::INEXACT`. -/
def INEXACT : Status := { inexact := true }

/-- `|` on the bit set (bitflags `BitOr`; lib.rs:47-66, ieee.rs:2007, 2133, 2167). -/
def or (a b : Status) : Status :=
  { invalidOp := a.invalidOp || b.invalidOp
    divByZero := a.divByZero || b.divByZero
    overflow  := a.overflow || b.overflow
    underflow := a.underflow || b.underflow
    inexact   := a.inexact || b.inexact }

/-- `|` on the bit set (lib.rs:47-66). -/
instance : OrOp Status := ⟨Status.or⟩

/-- `-` on the bit set (bitflags `Sub`: set difference; ieee.rs:1993, ppc.rs:83). -/
def diff (a b : Status) : Status :=
  { invalidOp := a.invalidOp && !b.invalidOp
    divByZero := a.divByZero && !b.divByZero
    overflow  := a.overflow && !b.overflow
    underflow := a.underflow && !b.underflow
    inexact   := a.inexact && !b.inexact }
end Status

/-- lib.rs:68-74 `StatusAnd<T>`. -/
structure StatusAnd (α : Type) where
  status : Status
  value : α
  deriving DecidableEq, Repr

/-- lib.rs:76-81 `Status::and`. -/
def Status.and {α} (s : Status) (v : α) : StatusAnd α := ⟨s, v⟩

/-- lib.rs:83-91 `StatusAnd::map`. -/
def StatusAnd.map {α β} (f : α → β) (s : StatusAnd α) : StatusAnd β := ⟨s.status, f s.value⟩

/-- lib.rs:121-128 `Category`. -/
inductive Category where
  | infinity | nan | normal | zero
  deriving DecidableEq, Repr

/-- lib.rs:130-138 `Round`. -/
inductive Round where
  | nearestTiesToEven | towardPositive | towardNegative | towardZero | nearestTiesToAway
  deriving DecidableEq, Repr

/-- lib.rs:140-150 `Neg for Round`. -/
def Round.neg : Round → Round
  | .towardPositive => .towardNegative
  | .towardNegative => .towardPositive
  | r => r

/-- ieee.rs:101-109 `NegExt::negate_if` at `Round`. -/
def Round.negateIf (r : Round) (negate : Bool) : Round := if negate then r.neg else r

/-- lib.rs:156 `IEK_INF`. -/
def iekInf : Int := 2147483647
/-- lib.rs:157 `IEK_NAN`. -/
def iekNan : Int := -2147483648
/-- lib.rs:158 `IEK_ZERO`. -/
def iekZero : Int := -2147483647

/-- ieee.rs:70-82 `Loss`. -/
inductive Loss where
  | exactlyZero | lessThanHalf | exactlyHalf | moreThanHalf
  deriving DecidableEq, Repr

/-- ieee.rs:84-99 `NonfiniteBehavior`. -/
inductive NonfiniteBehavior where
  | ieee754 | nanOnly
  deriving DecidableEq, Repr

/-- `bool::cmp` (false < true; ieee.rs:462-476, ppc.rs:396). -/
def boolCmp (a b : Bool) : Ordering := compare a.toNat b.toNat

/-- ieee.rs:51-53 `limbs_for_bits`. -/
def limbsForBits (bits : Nat) : Nat := (bits + 128 - 1) / 128

end Apf
