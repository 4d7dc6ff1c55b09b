import Verif.Model.Api
/-! # What the repository's tests use besides the library

The modules `Verif.Conformance.*` are the repository's own unit tests, translated by
tools/tests_to_lean.py and run on the model by Lean's kernel.  They are tests of the model, not
proofs of properties: they make it likely that the model says what the code does.

The `f32` and `f64` of the host are represented by the model's `Single` and `Double`. -/

namespace Apf

/-! ieee.rs:311-339: the names of the formats. -/
abbrev Half := IeeeFloat halfS
abbrev Single := IeeeFloat singleS
abbrev Double := IeeeFloat doubleS
abbrev Quad := IeeeFloat quadS
abbrev BFloat := IeeeFloat bfloatS
abbrev Float8E5M2 := IeeeFloat float8E5M2S
abbrev Float8E4M3FN := IeeeFloat float8E4M3FNS
abbrev X87DoubleExtended := IeeeFloat x87S

namespace Conformance
variable {F : Type} [ApiFloat F]

/-- The test ran without a panic and without a failed assertion. -/
def passes (t : M Unit) : Bool :=
  match t with
  | .ok () => true
  | .error _ => false

/-- `assert!`. -/
def check (b : Bool) : M Unit := massert (b = true)

/-- `s.parse::<F>().unwrap()`. -/
def parse (s : List Char) : M F := do
  let r ← Api.from_str (F := F) s
  match r with
  | .ok v => .ok v
  | .error _ => .error .unwrap

/-- `s.parse::<F>().unwrap_err()`. -/
def parse_err (F : Type) [ApiFloat F] (s : List Char) : M ParseError := do
  let r ← Api.from_str (F := F) s
  match r with
  | .ok _ => .error .unwrap
  | .error e => .ok e

/-- `Option::unwrap`. -/
def unwrap {α : Type} (x : Option α) : M α :=
  match x with
  | some v => .ok v
  | none => .error .unwrap

/-- lib.rs:506-508 `is_zero`. -/
def is_zero (x : F) : M Bool := do let c ← ApiFloat.category x; .ok (decide (c = .zero))
/-- lib.rs:515-517 `is_infinite`. -/
def is_infinite (x : F) : M Bool := do let c ← ApiFloat.category x; .ok (decide (c = .infinity))
/-- lib.rs:520-522 `is_nan`. -/
def is_nan (x : F) : M Bool := do let c ← ApiFloat.category x; .ok (decide (c = .nan))
/-- lib.rs:501-503 `is_finite`. -/
def is_finite (x : F) : M Bool := do
  let a ← is_nan x
  let b ← is_infinite x
  .ok (!a && !b)
/-- lib.rs:533-535 `is_finite_non_zero`. -/
def is_finite_non_zero (x : F) : M Bool := do
  let a ← is_finite x
  let b ← is_zero x
  .ok (a && !b)
/-- lib.rs:493-495 `is_normal`. -/
def is_normal (x : F) : M Bool := do
  let a ← ApiFloat.is_denormal x
  let b ← is_finite_non_zero x
  .ok (!a && b)
/-- lib.rs:536-538 `is_pos_zero`. -/
def is_pos_zero (x : F) : M Bool := do
  let a ← is_zero x
  let b ← ApiFloat.is_negative x
  .ok (a && !b)
/-- lib.rs:539-541 `is_neg_zero`. -/
def is_neg_zero (x : F) : M Bool := do
  let a ← is_zero x
  let b ← ApiFloat.is_negative x
  .ok (a && b)
/-- lib.rs:542-544 `is_pos_infinity`. -/
def is_pos_infinity (x : F) : M Bool := do
  let a ← is_infinite x
  let b ← ApiFloat.is_negative x
  .ok (a && !b)
/-- lib.rs:545-547 `is_neg_infinity`. -/
def is_neg_infinity (x : F) : M Bool := do
  let a ← is_infinite x
  let b ← ApiFloat.is_negative x
  .ok (a && b)

/-- A host literal. -/
def f32_lit (bits : Nat) : M Single := IeeeFloat.fromBits singleS bits
/-- A host literal. -/
def f64_lit (bits : Nat) : M Double := IeeeFloat.fromBits doubleS bits
/-- tests/ieee.rs:44-46: through the bit pattern. -/
def from_f32 (x : Single) : M Single := do let b ← x.toBits; IeeeFloat.fromBits singleS b
/-- tests/ieee.rs:59-61. -/
def from_f64 (x : Double) : M Double := do let b ← x.toBits; IeeeFloat.fromBits doubleS b

/-- tests/ieee.rs:72-78 `assert_lossless_conversion`. -/
def lossless {S : Sem} (T : Sem) (x : IeeeFloat S) : M (IeeeFloat T) := do
  let c ← IeeeFloat.convertR S T x .nearestTiesToEven
  check (!c.status.inexact && !c.losesInfo)
  .ok c.value

/-- tests/ieee.rs:80-88: `to_f32`. -/
def to_f32 {S : Sem} (x : IeeeFloat S) : M Single := do
  let y ← lossless singleS x
  from_f32 y
/-- tests/ieee.rs:63-65, 90-97: `to_f64`. -/
def to_f64 {S : Sem} (x : IeeeFloat S) : M Double := do
  let y ← lossless doubleS x
  from_f64 y

/-- `PartialOrd::le` (provided by core from `partial_cmp`). -/
def IeeeFloat_le {S : Sem} (x y : IeeeFloat S) : M Bool := do
  let c ← IeeeFloat.partialCmp x y
  .ok (c = some .lt ∨ c = some .eq)

end Conformance
end Apf
