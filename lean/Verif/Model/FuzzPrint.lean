import Verif.Model.Fuzz
/-! # The subcommand `decode` of the fuzzing tool: fuzz/src/main.rs:95-97, 429-493, 795-815

What is printed to standard output, as a list of characters.  `native` is what the standard library prints for an `f32` or `f64` with the given bits,
`typeName` is `std::any::type_name::<FuzzOp<F>>()`: parameters of the model. -/

namespace Apf.Fuzz

/-- fuzz/src/main.rs:146 `NAME` and :215-254: the identifiers given to `float_reprs!` (the formats are identified by their tags here). -/
def FloatRepr.name (R : FloatRepr) : List Char :=
  match R.tag with
  | 16 => "Ieee16".toList
  | 32 => "Ieee32".toList
  | 64 => "Ieee64".toList
  | 128 => "Ieee128".toList
  | 8 => "F8E5M2".toList
  | 9 => "F8E4M3FN".toList
  | 17 => "BrainF16".toList
  | 80 => "X87_F80".toList
  | _ => []

/-- `str::to_ascii_lowercase` (fuzz/src/main.rs:96). -/
def asciiLower (s : List Char) : List Char := s.map (fun c => if 'A' ≤ c ∧ c ≤ 'Z' then Char.ofNat (c.toNat + 32) else c)

/-- `str::replace("ieee", "f")` (fuzz/src/main.rs:96). -/
def replaceIeee : List Char → List Char
  | 'i' :: 'e' :: 'e' :: 'e' :: r => 'f' :: replaceIeee r
  | c :: r => c :: replaceIeee r
  | [] => []

/-- fuzz/src/main.rs:95-97 `short_lowercase_name`. -/
def FloatRepr.shortName (R : FloatRepr) : List Char := replaceIeee (asciiLower R.name)

/-- The names of the variants, as `#[derive(Debug)]` prints them (fuzz/ops.rs:51-68, 77-91). -/
def FuzzOp.name {α : Type} : FuzzOp α → List Char
  | .neg _ => "Neg".toList
  | .add _ _ => "Add".toList
  | .sub _ _ => "Sub".toList
  | .mul _ _ => "Mul".toList
  | .div _ _ => "Div".toList
  | .rem _ _ => "Rem".toList
  | .mulAdd _ _ _ => "MulAdd".toList
  | .viaI128 _ => "FToI128ToF".toList
  | .viaU128 _ => "FToU128ToF".toList
  | .viaSingle _ => "FToSingleToF".toList
  | .viaDouble _ => "FToDoubleToF".toList

/-- fuzz/src/main.rs:430-440 `if_terminal`. -/
def ifTerminal (term : Bool) (s : String) : List Char := if term then s.toList else []

/-- `{:0width$x}` (fuzz/src/main.rs:447). -/
def hexPadded (width n : Nat) : List Char := List.replicate (width - (Nat.toDigits 16 n).length) '0' ++ Nat.toDigits 16 n

/-- fuzz/src/main.rs:193-212: `Display` of a value of the tool. -/
def displayBits (native : FloatRepr → Nat → List Char) (R : FloatRepr) (bits : Nat) : M (List Char) :=
  if R.hasHard then .ok (native R bits)
  else do
    let x ← IeeeFloat.fromBits R.sem bits
    x.display none none false

/-- fuzz/src/main.rs:443-456 `FloatPrintHelper::fmt`. -/
def valueText (native : FloatRepr → Nat → List Char) (term : Bool) (R : FloatRepr) (bits : Nat) : M (List Char) := do
  let d ← displayBits native R bits
  .ok (ifTerminal term "\x1b[93m" ++ "0x".toList ++ hexPadded (R.byteLen * 2) bits ++ ifTerminal term "\x1b[m" ++ " ".toList ++
    ifTerminal term "\x1b[90m" ++ "/* ".toList ++ d ++ " */".toList ++ ifTerminal term "\x1b[m")

/-- fuzz/src/main.rs:458-462: the first line printed; `#[derive(Debug)]` separates the inputs by `, `. -/
def opLine (native : FloatRepr → Nat → List Char) (term : Bool) (R : FloatRepr) (op : FuzzOp Nat) : M (List Char) := do
  let (_, texts) ← op.mapM (fun x (ts : List (List Char)) => do
    let t ← valueText native term R x
    .ok ((), ts ++ [t])) []
  .ok ("  ".toList ++ R.shortName ++ ".".toList ++ op.name ++ "(".toList ++ (List.intersperse ", ".toList texts).flatten ++ ")\n".toList)

/-- fuzz/src/main.rs:479-489: the closure `print`. -/
def answerLine (native : FloatRepr → Nat → List Char) (term : Bool) (R : FloatRepr) (rs x : Nat) (label : String) : M (List Char) := do
  let t ← valueText native term R x
  .ok ("   => ".toList ++ t ++ " (".toList ++ label.toList ++ ")".toList ++
    (if x ≠ rs then " <- ".toList ++ ifTerminal term "\x1b[1m\x1b[91m" ++ "!!! MISMATCH !!!".toList ++ ifTerminal term "\x1b[m" else []) ++ "\n".toList)

/-- fuzz/src/main.rs:491-492: `print` for an answer that may be missing. -/
def answerLine? (native : FloatRepr → Nat → List Char) (term : Bool) (R : FloatRepr) (rs : Nat) (x : Option Nat) (label : String) : M (List Char) :=
  match x with
  | none => .ok []
  | some x => answerLine native term R rs x label

/-- fuzz/src/main.rs:429-493 `print_op_and_eval_outputs`.  A panic of `eval` is caught; LLVM is then called again, which prints nothing here. -/
def printOp (native : FloatRepr → Nat → List Char) (term : Bool) (args : Args) (orc : Oracle) (R : FloatRepr) (op : FuzzOp Nat) : M (List Char) := do
  let first ← opLine native term R op
  match eval args orc R op with
  | .error _ => .ok first
  | .ok o => do
    let a ← answerLine native term R o.rsApf o.rsApf "Rust / rustc_apfloat"
    let b ← answerLine? native term R o.rsApf o.cxxApf "C++ / llvm::APFloat"
    let c ← answerLine? native term R o.rsApf o.hard "native hardware floats"
    .ok (first ++ a ++ b ++ c)

/-- fuzz/src/main.rs:800-814: what is printed for the contents of one file. -/
def printFile (native : FloatRepr → Nat → List Char) (typeName : FloatRepr → List Char) (term : Bool) (args : Args) (orc : Oracle) (data : List Nat) :
    M (List Char) :=
  let invalid (e : List Char) : M (List Char) := .ok ("  invalid data (".toList ++ e ++ ")\n".toList)
  match data with
  | [] => invalid "empty file".toList
  | tag :: data =>
    match reprOfTag tag with
    | none => invalid "first byte not valid `FloatRepr::REPR_TAG`".toList
    | some R => do
      let d ← R.tryDecode data
      match d with
      | .error _ => invalid (typeName R)
      | .ok op => printOp native term args orc R op

/-- fuzz/src/main.rs:795-815: the subcommand `decode`, for files given by path and contents (`none` if the file cannot be read); the output and, if it ended
early, why. -/
def decodeMain (native : FloatRepr → Nat → List Char) (typeName : FloatRepr → List Char) (term : Bool) (args : Args) (orc : Oracle) :
    List (List Char × Option (List Nat)) → List Char × Option Panic
  | [] => ([], none)
  | (path, none) :: _ => (path ++ ":\n".toList, some .unwrap)
  | (path, some data) :: files =>
    match printFile native typeName term args orc data with
    | .error e => (path ++ ":\n".toList, some e)
    | .ok out =>
      let (rest, e) := decodeMain native typeName term args orc files
      (path ++ ":\n".toList ++ out ++ rest, e)

end Apf.Fuzz
