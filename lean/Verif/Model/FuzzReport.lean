import Verif.Model.FuzzPrint
/-! # What the subcommand `bruteforce` of the fuzzing tool prints: fuzz/src/main.rs:573-574, 715-728, 736-784

Without `--verbose`; what is printed to standard output, as a list of characters.  `percent` is what `{:.1}` prints for the quotient of the two numbers as
`f64`s, times 100 (fuzz/src/main.rs:754-755): a parameter of the model, like those of `FuzzPrint`. -/

namespace Apf.Fuzz

/-- fuzz/src/main.rs:715-728: the character printed for a mark. -/
def Mark.char : Mark → Char
  | .fine => '.'
  | .mismatch => '≠'
  | .panic => '🕱'

/-- fuzz/src/main.rs:573-574: the first line. -/
def reportHeader (R : FloatRepr) (total : Nat) : List Char :=
  "Exhaustively checking ".toList ++ Nat.toDigits 10 total ++ " cases for ".toList ++ R.shortName ++ ":\n".toList

/-- fuzz/src/main.rs:751-761: the mismatches. -/
def reportMismatches (percent : Nat → Nat → List Char) (native : FloatRepr → Nat → List Char) (term : Bool) (args : Args) (orc : Oracle) (R : FloatRepr)
    (total : Nat) (r : Recv) : M (List Char) :=
  if r.mismatches.length > 0 then do
    let texts ← r.shown.mapM (printOp native term args orc R)
    .ok ("\n⚠ found ".toList ++ Nat.toDigits 10 r.mismatches.length ++ " (".toList ++ percent r.mismatches.length total ++ "%) mismatches for ".toList ++
      R.shortName ++ ", showing ".toList ++ Nat.toDigits 10 r.shown.length ++ " of them:\n".toList ++ texts.flatten)
  else .ok []

/-- fuzz/src/main.rs:520-523, 763-779: the panics, with `cli_args_plus_ignore_cxx`. -/
def reportPanics (native : FloatRepr → Nat → List Char) (term : Bool) (args : Args) (orc : Oracle) (R : FloatRepr) (r : Recv) : M (List Char) :=
  if r.panics.isEmpty then .ok []
  else do
    let texts ← r.panics.mapM (printOp native term { args with ignoreCxx := true } orc R)
    .ok ("\n⚠ found ".toList ++ Nat.toDigits 10 r.panics.length ++ " panics for ".toList ++ R.shortName ++ ", showing them (without trying C++):\n".toList ++
      texts.flatten)

/-- fuzz/src/main.rs:736-784: everything after the marks. -/
def report (percent : Nat → Nat → List Char) (native : FloatRepr → Nat → List Char) (term : Bool) (args : Args) (orc : Oracle) (R : FloatRepr)
    (total : Nat) (r : Recv) : M (List Char) := do
  let ms ← reportMismatches percent native term args orc R total r
  let ps ← reportPanics native term args orc R r
  let ok := if r.mismatches.length = 0 ∧ r.panics.isEmpty then "✔️ all ".toList ++ Nat.toDigits 10 total ++ " cases match\n".toList else []
  .ok ("\n".toList ++ ms ++ ps ++ ok ++ "\n".toList)

/-- fuzz/src/main.rs:500-787 `bruteforce` for a format in the range of widths: `out` is an output that can be printed, in some order of arrival of the messages of
the worker threads.  What is printed before a panic is not modelled. -/
def Printed (percent : Nat → Nat → List Char) (native : FloatRepr → Nat → List Char) (term : Bool) (args : Args) (orc : Oracle) (R : FloatRepr) (onlyFma : Bool)
    (threads : Nat) (check : FuzzOp Nat → M Bool) (out : M (List Char)) : Prop :=
  ∃ o, Bruteforce R onlyFma threads check o ∧ out = do
    let (total, _, _) ← sizes R onlyFma threads
    let r ← o
    let t ← report percent native term args orc R total r
    .ok (reportHeader R total ++ r.marks.map Mark.char ++ t)

end Apf.Fuzz
