import Verif.Model.Ppc
/-! # Model: `Debug`, `StatusAnd::unwrap` and the bits of `Status` -/

namespace Apf

/-- `{}` of an `i32` (used at ieee.rs:809-821). -/
def fmtInt (n : Int) : List Char := (if n < 0 then ['-'] else []) ++ Nat.toDigits 10 n.natAbs

/-- `{:?}` of a `Category` (lib.rs:121-128, derived). -/
def Category.debug : Category → List Char
  | .infinity => "Infinity".toList
  | .nan => "NaN".toList
  | .normal => "Normal".toList
  | .zero => "Zero".toList

/-- ieee.rs:809-821 `Debug::fmt`. The options of the formatter (`{:#?}`, `{:.0?}`, ..) are not passed on by `write!`, so there is no argument
for them. `{:?}` of the array `sig` of one limb is the limb between brackets. -/
def IeeeFloat.debug {S : Sem} (x : IeeeFloat S) : M (List Char) := do
  let s ← x.display none none false
  .ok (s ++ "(".toList ++ x.category.debug ++ " | ".toList ++ (if x.isNegative then ['-'] else ['+']) ++
    ("[".toList ++ Nat.toDigits 10 x.sig ++ "]".toList) ++ " * 2^".toList ++ fmtInt x.exp ++ ")".toList)

/-- ppc.rs:12 derived `Debug` of the tuple struct `DoubleFloat`, with `{:?}`. -/
def DoubleFloat.debug {S : Sem} (x : DoubleFloat S) : M (List Char) := do
  let a ← x.hi.debug
  let b ← x.lo.debug
  .ok ("DoubleFloat(".toList ++ a ++ ", ".toList ++ b ++ ")".toList)

/-- ppc.rs:12 derived `Debug` of the tuple struct `DoubleFloat`, with `{:#?}`: one field a line, indented by four columns. The parts print as with
`{:?}` (ieee.rs:809-821 does not pass the options on) and contain no line breaks to indent. -/
def DoubleFloat.debugPretty {S : Sem} (x : DoubleFloat S) : M (List Char) := do
  let a ← x.hi.debug
  let b ← x.lo.debug
  .ok ("DoubleFloat(\n    ".toList ++ a ++ ",\n    ".toList ++ b ++ ",\n)".toList)

/-- lib.rs:93-99 `StatusAnd::unwrap`. The message formats the value with `{:?}`, given here as `dbg`. -/
def StatusAnd.unwrap {α : Type} (dbg : α → M (List Char)) (r : StatusAnd α) : M α :=
  if r.status = Status.OK then .ok r.value
  else do
    let _ ← dbg r.value
    .error .assert

/-- lib.rs:47-66 the `u8` of a `Status`. -/
def Status.bits (s : Status) : Nat :=
  (if s.invalidOp then 0x01 else 0) + (if s.divByZero then 0x02 else 0) + (if s.overflow then 0x04 else 0) +
    (if s.underflow then 0x08 else 0) + (if s.inexact then 0x10 else 0)

/-- The `Status` of a `u8` (lib.rs:47-66, bitflags `from_bits_truncate`). -/
def Status.ofBits (b : Nat) : Status :=
  { invalidOp := b.testBit 0, divByZero := b.testBit 1, overflow := b.testBit 2, underflow := b.testBit 3, inexact := b.testBit 4 }

end Apf
