import Verif.Model.Fuzz
import Verif.Spec.Bits
import Verif.Spec.FmaExact
/-!
# What the fuzzing tool is supposed to do

The format of its test files, the set of cases an exhaustive search has to cover, and the differences to the hardware it tolerates.
-/

namespace Apf
open Fuzz

/-- The inputs of an operation, in order. -/
def inputsOf {α : Type} : FuzzOp α → List α
  | .neg a => [a]
  | .add a b => [a, b]
  | .sub a b => [a, b]
  | .mul a b => [a, b]
  | .div a b => [a, b]
  | .rem a b => [a, b]
  | .mulAdd a b c => [a, b, c]
  | .viaI128 a => [a]
  | .viaU128 a => [a]
  | .viaSingle a => [a]
  | .viaDouble a => [a]

/-- The test cases of a format: operations whose inputs are bit patterns of the format. -/
def IsCase (R : FloatRepr) (op : FuzzOp Nat) : Prop := ∀ x ∈ inputsOf op, x < 2 ^ R.sem.bits

/-- The `n` low bytes of a number, the lowest first. -/
def lowBytes (n x : Nat) : List Nat := (List.range n).map (fun i => x / 256 ^ i % 256)

/-- The contents of a test file after the byte for the format: the number of the operation, then the inputs, little endian, in as many bytes as the format
has. -/
def caseBytes (R : FloatRepr) (op : FuzzOp Nat) : List Nat :=
  op.tag :: (inputsOf op).flatMap (lowBytes (R.sem.bits / 8))

/-- What the bit pattern `b` denotes in the format. -/
def Fuzz.FloatRepr.denotes (R : FloatRepr) (b : ℕ) : Spec.Datum := Spec.decode R.sem.style R.sem.expBits R.sem.sigBits b

/-- The multiplications-additions of finite numbers on which the library panics (C76). -/
def FmaStops (R : FloatRepr) (op : FuzzOp ℕ) : Prop :=
  ∃ a b c s t u x y z, op = .mulAdd a b c ∧ R.denotes a = .num s x ∧ R.denotes b = .num t y ∧
    R.denotes c = .num u z ∧ FmaPanics R.sem (x * y) z

/-- The byte strings that are test files: the tag of a format and a case of that format. -/
def IsTestFile (data : List ℕ) (R : FloatRepr) (op : FuzzOp ℕ) : Prop :=
  R ∈ reprs ∧ IsCase R op ∧ data = R.tag :: caseBytes R op

/-! ## Differences to the hardware -/

/-- Two patterns agree: entirely, or but for the sign bit. -/
def Agree (R : FloatRepr) (strictSign : Bool) (a b : ℕ) : Prop :=
  if strictSign then a = b else a % 2 ^ (R.sem.bits - 1) = b % 2 ^ (R.sem.bits - 1)

/-- A NaN made quiet: the upper bit of the significand field is set. -/
def quieted (R : FloatRepr) (a : ℕ) : ℕ := a ||| 2 ^ (R.sem.sigBits - 1)

/-- The pattern of the positive quiet NaN with an empty payload. -/
def freshNan (R : FloatRepr) : ℕ := (2 ^ R.sem.expBits - 1) * 2 ^ R.sem.sigBits + 2 ^ (R.sem.sigBits - 1)

/-- `out` is a NaN input of the operation made quiet. -/
def FromInput (R : FloatRepr) (strictSign : Bool) (op : FuzzOp ℕ) (out : ℕ) : Prop :=
  ∃ a ∈ inputsOf op, R.denotes a = .nan ∧ Agree R strictSign (quieted R a) out

/-- The answers of the library (`rs`) and of the hardware that are considered the same.  Differences are tolerated only between NaNs: in the sign; in the
choice of the input to propagate; and, on request, when the hardware propagates the addend of a multiplication-addition whose factors are not NaNs while the
library makes a fresh NaN. -/
def Tolerated (args : Args) (R : FloatRepr) (op : FuzzOp ℕ) (rs hard : ℕ) : Prop :=
  rs = hard ∨
  (R.denotes rs = .nan ∧ R.denotes hard = .nan ∧
    (Agree R args.strictHardNanSign hard rs ∨
     (args.strictHardNanInputChoice = false ∧ FromInput R args.strictHardNanSign op hard ∧ FromInput R args.strictHardNanSign op rs) ∨
     (args.ignoreFmaNan = true ∧ ∃ a b c, op = .mulAdd a b c ∧ R.denotes a ≠ .nan ∧ R.denotes b ≠ .nan ∧ R.denotes c = .nan ∧
        Agree R args.strictHardNanSign (quieted R c) hard ∧ rs = freshNan R)))

/-- The answers of LLVM and of the hardware match that of the library, or are not compared. -/
def Matches (args : Args) (orc : Oracle) (R : FloatRepr) (op : FuzzOp ℕ) (rs : ℕ) : Prop :=
  (args.ignoreCxx = false → orc.cxx R op = rs) ∧ (args.ignoreHard = false → R.hasHard = true → Tolerated args R op rs (orc.hard R op))

/-- The basic operations of two inputs, and what they stand for. -/
inductive ArithOf : FuzzOp ℕ → ℕ → ℕ → (ℚ → ℚ → ℚ) → Prop
  | add (a b) : ArithOf (.add a b) a b (· + ·)
  | sub (a b) : ArithOf (.sub a b) a b (· - ·)
  | mul (a b) : ArithOf (.mul a b) a b (· * ·)
  | div (a b) : ArithOf (.div a b) a b (· / ·)

/-! ## Exhaustive search -/

/-- The cases a search has to cover: all of them, or the multiplications-additions whose addend is not the pattern 0. -/
def Covered (R : FloatRepr) (onlyFma : Bool) (op : FuzzOp ℕ) : Prop :=
  IsCase R op ∧ (onlyFma = true → ∃ a b c, op = .mulAdd a b c ∧ c ≠ 0)

/-- What a message says about the cases it stands for, one by one. -/
def outcomesOf (u : Update) : List Mark :=
  List.replicate u.successes .fine ++ (match u.failure with | none => [] | some (_, false) => [.mismatch] | some (_, true) => [.panic])

/-- The mark of a group of cases: the worst outcome among them. -/
def worst (l : List Mark) : Mark := if .panic ∈ l then .panic else if .mismatch ∈ l then .mismatch else .fine

/-- The outcome of one case. -/
def outcome (check : FuzzOp ℕ → M Bool) (op : FuzzOp ℕ) : Mark :=
  match check op with
  | .ok true => .fine
  | .ok false => .mismatch
  | .error _ => .panic

end Apf
