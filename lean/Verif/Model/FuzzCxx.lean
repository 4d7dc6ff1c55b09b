import Verif.Model.FuzzPrint
/-! # The C++ code generated by fuzz/ops.rs, and the call from Rust

LLVM's `APFloat` and `APInt` are parameters (`Llvm`); modelled is the generated code around them: the names of the functions, how the operation and its inputs
lie in memory, the conversion between integers and words, and which functions of LLVM are called with which arguments.  Hosts are little endian, and
`APInt::APINT_BITS_PER_WORD` is 64.  `int` arithmetic of the loop indices and integer promotions do not matter for the shifts used (less than the width). -/

namespace Apf.Fuzz

/-- The functions of `llvm::APFloat` that the generated code calls (fuzz/ops.rs:266-311, 354-374).  `V S` are the `APFloat`s with semantics `S`; an `APInt`
is its width and its value without sign.  The operators `+ - * /` round to nearest, ties to even. -/
structure Llvm where
  V : Sem → Type
  /-- `APFloat(semantics, APInt(w, value))` -/
  ofBits : (S : Sem) → (w value : Nat) → V S
  /-- `bitcastToAPInt()`: `getBitWidth()` and the value -/
  bitcast : {S : Sem} → V S → Nat × Nat
  neg : {S : Sem} → V S → V S
  add : {S : Sem} → V S → V S → V S
  sub : {S : Sem} → V S → V S → V S
  mul : {S : Sem} → V S → V S → V S
  div : {S : Sem} → V S → V S → V S
  mod : {S : Sem} → V S → V S → V S
  fusedMultiplyAdd : {S : Sem} → V S → V S → V S → Round → V S
  /-- `convertToInteger` into an `APSInt` of `w` bits: the bits stored -/
  convertToInteger : {S : Sem} → V S → (w : Nat) → (isUnsigned : Bool) → Round → Nat
  /-- `convertFromAPInt`; the object it is called on gives the semantics -/
  convertFromAPInt : {S : Sem} → V S → (w bits : Nat) → (isSigned : Bool) → Round → V S
  convert : {S : Sem} → V S → (T : Sem) → Round → V T

/-- A generated C++ struct (fuzz/ops.rs:322-331): width, name of the semantics in LLVM, and the format that this name denotes in LLVM. -/
structure CxxFormat where
  w : Nat
  semName : List Char
  sem : Sem

/-- fuzz/ops.rs:322-331, in this order. -/
def cxxFormats : List CxxFormat :=
  [⟨16, "IEEEhalf".toList, halfS⟩,
   ⟨32, "IEEEsingle".toList, singleS⟩,
   ⟨64, "IEEEdouble".toList, doubleS⟩,
   ⟨128, "IEEEquad".toList, quadS⟩,
   ⟨16, "BFloat".toList, bfloatS⟩,
   ⟨8, "Float8E5M2".toList, float8E5M2S⟩,
   ⟨8, "Float8E4M3FN".toList, float8E4M3FNS⟩,
   ⟨80, "x87DoubleExtended".toList, x87S⟩]

/-- `str::replace("Float8", "F8")` (fuzz/ops.rs:337). -/
def replaceFloat8 : List Char → List Char
  | 'F' :: 'l' :: 'o' :: 'a' :: 't' :: '8' :: r => 'F' :: '8' :: replaceFloat8 r
  | c :: r => c :: replaceFloat8 r
  | [] => []

namespace CxxFormat
variable (F : CxxFormat)

/-- fuzz/ops.rs:335-343: the name of the struct, with the assertion. -/
def name : M (List Char) :=
  if F.w = 16 ∧ F.semName = "BFloat".toList then .ok "BrainF16".toList
  else if F.w = 8 ∧ "Float8".toList.isPrefixOf F.semName then .ok (replaceFloat8 F.semName)
  else if F.w = 80 ∧ F.semName = "x87DoubleExtended".toList then .ok "X87_F80".toList
  else do
    massert ("IEEE".toList.isPrefixOf F.semName)
    .ok ("IEEE".toList ++ Nat.toDigits 10 F.w)

/-- fuzz/ops.rs:344. -/
def exportedSymbol : M (List Char) := do
  let n ← F.name
  .ok ("cxx_apf_fuzz_eval_op_".toList ++ asciiLower n)

/-- fuzz/ops.rs:334, 346: the width of the integer type `uintN_t`. -/
def uintWidth : Nat := nextPow2 F.w

/-- The number of iterations of the loops in fuzz/ops.rs:359, 371: `for (int i = 0; i < w; i += 64)`. -/
def wordCount : Nat := (F.w + 64 - 1) / 64

/-- fuzz/ops.rs:367-372: the array `words` filled from `bits`. -/
def words (bits : Nat) : List Nat := (List.range F.wordCount).map (fun k => (bits >>> (64 * k)) % 2 ^ 64)

/-- `APInt(w, words)` (fuzz/ops.rs:373): the value of the words, the lowest first, cut to `w` bits. -/
def apInt (ws : List Nat) : Nat := ws.foldr (fun x acc => x + 2 ^ 64 * acc) 0 % 2 ^ F.w

/-- fuzz/ops.rs:366-374 `to_apf`. -/
def toApf (L : Llvm) (bits : Nat) : L.V F.sem := L.ofBits F.sem F.w (F.apInt (F.words bits))

/-- fuzz/ops.rs:359-362: one iteration of the loop; `static_cast` and the integer type cut to `uintWidth` bits. -/
def orWord (value : Nat) (bits k : Nat) : Nat :=
  bits ||| ((value >>> (64 * k)) % 2 ^ 64 % 2 ^ F.uintWidth) <<< (64 * k) % 2 ^ F.uintWidth

/-- fuzz/ops.rs:354-364 `from_apf`. -/
def fromApf (L : Llvm) {S : Sem} (x : L.V S) : M Nat := do
  massert ((L.bitcast x).1 = F.w)
  .ok ((List.range F.wordCount).foldl (F.orWord (L.bitcast x).2) 0)

/-- fuzz/ops.rs:254-255 and 349-350: the field number `i` of `F a, b, c;` after the tag, in packed structs. -/
def field (mem : List Nat) (i : Nat) : Nat := leNat ((mem.drop (1 + i * (F.uintWidth / 8))).take (F.uintWidth / 8))

/-- fuzz/ops.rs:257-320 `FuzzOp<F>::eval`.  Leaving the `switch` without a value is undefined behaviour: `.unreachable`. -/
def eval (L : Llvm) (mem : List Nat) : M Nat :=
  let a := F.toApf L (F.field mem 0)
  let b := F.toApf L (F.field mem 1)
  let c := F.toApf L (F.field mem 2)
  match mem.head? with
  | some 0 => F.fromApf L (L.neg a)
  | some 1 => F.fromApf L (L.add a b)
  | some 2 => F.fromApf L (L.sub a b)
  | some 3 => F.fromApf L (L.mul a b)
  | some 4 => F.fromApf L (L.div a b)
  | some 5 => F.fromApf L (L.mod a b)
  | some 6 => F.fromApf L (L.fusedMultiplyAdd a b c .nearestTiesToEven)
  | some 7 => F.fromApf L (L.convertFromAPInt a 128 (L.convertToInteger a 128 (!true) .towardZero) true .nearestTiesToEven)
  | some 8 => F.fromApf L (L.convertFromAPInt a 128 (L.convertToInteger a 128 (!false) .towardZero) false .nearestTiesToEven)
  | some 9 => F.fromApf L (L.convert (L.convert a singleS .nearestTiesToEven) F.sem .nearestTiesToEven)
  | some 10 => F.fromApf L (L.convert (L.convert a doubleS .nearestTiesToEven) F.sem .nearestTiesToEven)
  | _ => .error .unreachable

/-- fuzz/ops.rs:376-380: `*out = op.eval()`; the bytes of `*out`. -/
def entry (L : Llvm) (mem : List Nat) : M (List Nat) := do
  let r ← F.eval L mem
  .ok (leBytes (F.uintWidth / 8) r)

end CxxFormat

/-- fuzz/src/main.rs:215-254: the names after `extern fn`. -/
def FloatRepr.externFn (R : FloatRepr) : List Char :=
  match R.tag with
  | 16 => "cxx_apf_fuzz_eval_op_ieee16".toList
  | 32 => "cxx_apf_fuzz_eval_op_ieee32".toList
  | 64 => "cxx_apf_fuzz_eval_op_ieee64".toList
  | 128 => "cxx_apf_fuzz_eval_op_ieee128".toList
  | 8 => "cxx_apf_fuzz_eval_op_f8e5m2".toList
  | 9 => "cxx_apf_fuzz_eval_op_f8e4m3fn".toList
  | 17 => "cxx_apf_fuzz_eval_op_brainf16".toList
  | 80 => "cxx_apf_fuzz_eval_op_x87_f80".toList
  | _ => []

/-- The linker, which resolves the `extern` declarations of fuzz/src/main.rs:170-175 to the functions fuzz/ops.rs:376-380 defines: the generated functions
of a given name. -/
def linked (symbol : List Char) : List CxxFormat :=
  cxxFormats.filter (fun F => match F.exportedSymbol with | .ok s => s == symbol | .error _ => false)

/-- fuzz/ops.rs:79-90: a value of the generated `#[repr(u8)] enum FuzzOp<F>` in memory: the tag, the inputs (`#[repr(C, packed)]`, so without alignment),
and bytes with any content up to the size of the largest variant. -/
def FloatRepr.inMemory (R : FloatRepr) (op : FuzzOp Nat) (rest : List Nat) : M (List Nat) := do
  let (_, bytes) ← op.mapM (fun x (out : List Nat) => .ok ((), out ++ leBytes R.reprBytes x)) [op.tag]
  .ok (bytes ++ rest)

/-- fuzz/src/main.rs:169-182 `cxx_apf_eval_fuzz_op`.  A name that is not defined exactly once is a link error: `.unwrap`. -/
def cxxApfEval (L : Llvm) (R : FloatRepr) (op : FuzzOp Nat) (rest : List Nat) : M Nat := do
  let mem ← R.inMemory op rest
  match linked R.externFn with
  | [F] => do
    let out ← F.entry L mem
    .ok (leNat (out.take R.reprBytes))
  | _ => .error .unwrap

/-! ## Native floats -/

/-- The operations on `f32` and `f64` used by `eval_hard` (fuzz/ops.rs:135-172); `as` conversions to and from integers and floats. -/
structure Hardware where
  V : Sem → Type
  ofBits : (S : Sem) → Nat → V S
  toBits : {S : Sem} → V S → Nat
  neg : {S : Sem} → V S → V S
  add : {S : Sem} → V S → V S → V S
  sub : {S : Sem} → V S → V S → V S
  mul : {S : Sem} → V S → V S → V S
  div : {S : Sem} → V S → V S → V S
  rem : {S : Sem} → V S → V S → V S
  mul_add : {S : Sem} → V S → V S → V S → V S
  asI128 : {S : Sem} → V S → Int
  asU128 : {S : Sem} → V S → Nat
  ofI128 : (S : Sem) → Int → V S
  ofU128 : (S : Sem) → Nat → V S
  asFloat : {S : Sem} → V S → (T : Sem) → V T

/-- fuzz/ops.rs:147-172: the generated `eval_hard`. -/
def evalHard (H : Hardware) {S : Sem} : FuzzOp (H.V S) → H.V S
  | .neg a => H.neg a
  | .add a b => H.add a b
  | .sub a b => H.sub a b
  | .mul a b => H.mul a b
  | .div a b => H.div a b
  | .rem a b => H.rem a b
  | .mulAdd a b c => H.mul_add a b c
  | .viaI128 a => H.ofI128 S (H.asI128 a)
  | .viaU128 a => H.ofU128 S (H.asU128 a)
  | .viaSingle a => H.asFloat (H.asFloat a singleS) S
  | .viaDouble a => H.asFloat (H.asFloat a doubleS) S

/-- fuzz/src/main.rs:183-187 `hard_eval_fuzz_op_if_supported`. -/
def hardEval (H : Hardware) (R : FloatRepr) (op : FuzzOp Nat) : M (Option Nat) :=
  if R.hasHard then do
    let op ← op.mapPure (fun x => .ok (H.ofBits R.sem x))
    .ok (some (H.toBits (evalHard H op)))
  else .ok none

end Apf.Fuzz
