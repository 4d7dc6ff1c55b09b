import Verif.Model.Api
/-! # The fuzzing tool: fuzz/src/main.rs and the code fuzz/ops.rs generates

The tool encodes one floating-point operation and its inputs as bytes, evaluates it with `rustc_apfloat`, with LLVM and with the hardware, and compares
the bits; `bruteforce` does so for all inputs of a format on several threads.

Not modelled: the command line parser, what `bruteforce` prints (except the progress marks and the selection of the mismatches to show; for `decode` see
`FuzzPrint.lean`), the build script of the C++ code (for the
code see `FuzzCxx.lean`).  The results of LLVM and of the hardware are parameters.  A `usize` has 64 bits. -/

namespace Apf.Fuzz

/-- fuzz/ops.rs:51-70 `OPS` and fuzz/ops.rs:79-90: the generated `enum FuzzOp<T>`. -/
inductive FuzzOp (α : Type) where
  | neg (a : α)
  | add (a b : α)
  | sub (a b : α)
  | mul (a b : α)
  | div (a b : α)
  | rem (a b : α)
  | mulAdd (a b c : α)
  | viaI128 (a : α)
  | viaU128 (a : α)
  | viaSingle (a : α)
  | viaDouble (a : α)
  deriving DecidableEq, Repr

namespace FuzzOp
variable {α β σ : Type}

/-- fuzz/ops.rs:93-105: the generated `from_tag`; the tag is the position in `OPS`. -/
def fromTag : Nat → Option (FuzzOp Unit)
  | 0 => some (.neg ())
  | 1 => some (.add () ())
  | 2 => some (.sub () ())
  | 3 => some (.mul () ())
  | 4 => some (.div () ())
  | 5 => some (.rem () ())
  | 6 => some (.mulAdd () () ())
  | 7 => some (.viaI128 ())
  | 8 => some (.viaU128 ())
  | 9 => some (.viaSingle ())
  | 10 => some (.viaDouble ())
  | _ => none

/-- fuzz/ops.rs:109-119: the generated `tag`. -/
def tag : FuzzOp α → Nat
  | neg _ => 0
  | add _ _ => 1
  | sub _ _ => 2
  | mul _ _ => 3
  | div _ _ => 4
  | rem _ _ => 5
  | mulAdd _ _ _ => 6
  | viaI128 _ => 7
  | viaU128 _ => 8
  | viaSingle _ => 9
  | viaDouble _ => 10

/-- fuzz/ops.rs:121-134: the generated `map`.  The state of the closure (`FnMut`) is passed from call to call, in the order of the inputs. -/
def mapM (f : α → σ → M (β × σ)) : FuzzOp α → σ → M (FuzzOp β × σ)
  | neg a, s => do let (a, s) ← f a s; .ok (neg a, s)
  | add a b, s => do let (a, s) ← f a s; let (b, s) ← f b s; .ok (add a b, s)
  | sub a b, s => do let (a, s) ← f a s; let (b, s) ← f b s; .ok (sub a b, s)
  | mul a b, s => do let (a, s) ← f a s; let (b, s) ← f b s; .ok (mul a b, s)
  | div a b, s => do let (a, s) ← f a s; let (b, s) ← f b s; .ok (div a b, s)
  | rem a b, s => do let (a, s) ← f a s; let (b, s) ← f b s; .ok (rem a b, s)
  | mulAdd a b c, s => do
    let (a, s) ← f a s
    let (b, s) ← f b s
    let (c, s) ← f c s
    .ok (mulAdd a b c, s)
  | viaI128 a, s => do let (a, s) ← f a s; .ok (viaI128 a, s)
  | viaU128 a, s => do let (a, s) ← f a s; .ok (viaU128 a, s)
  | viaSingle a, s => do let (a, s) ← f a s; .ok (viaSingle a, s)
  | viaDouble a, s => do let (a, s) ← f a s; .ok (viaDouble a, s)

/-- fuzz/ops.rs:121-134 `map` with a closure that has no state. -/
def mapPure (f : α → M β) (op : FuzzOp α) : M (FuzzOp β) := do
  let (r, _) ← op.mapM (σ := Unit) (fun a s => do let b ← f a; .ok (b, s)) ()
  .ok r

end FuzzOp

/-! ## Formats and serialization -/

/-- fuzz/src/main.rs:80-110 `trait FloatRepr`: what the implementations differ in. -/
structure FloatRepr where
  /-- `RustcApFloat` -/
  sem : Sem
  /-- `size_of::<$repr>()` -/
  reprBytes : Nat
  /-- `REPR_TAG` -/
  tag : Nat
  /-- whether there is a `HardFloat` -/
  hasHard : Bool := false

/-- fuzz/src/main.rs:86 `BIT_WIDTH`. -/
def FloatRepr.bitWidth (R : FloatRepr) : Nat := R.sem.bits
/-- fuzz/src/main.rs:87 `BYTE_LEN`. -/
def FloatRepr.byteLen (R : FloatRepr) : Nat := (R.bitWidth + 7) / 8

/-- fuzz/src/main.rs:215-254 `float_reprs!`, in this order; `REPR_TAG` is `BIT_WIDTH` unless given. -/
def reprs : List FloatRepr :=
  [{ sem := halfS, reprBytes := 2, tag := 16 },
   { sem := singleS, reprBytes := 4, tag := 32, hasHard := true },
   { sem := doubleS, reprBytes := 8, tag := 64, hasHard := true },
   { sem := quadS, reprBytes := 16, tag := 128 },
   { sem := float8E5M2S, reprBytes := 1, tag := 8 + 0 },
   { sem := float8E4M3FNS, reprBytes := 1, tag := 8 + 1 },
   { sem := bfloatS, reprBytes := 2, tag := 16 + 1 },
   { sem := x87S, reprBytes := 16, tag := 80 }]

/-- `uN::from_le_bytes` (fuzz/src/main.rs:156). -/
def leNat : List Nat → Nat
  | [] => 0
  | b :: bs => b + 256 * leNat bs

/-- The first `n` of `uN::to_le_bytes` (fuzz/src/main.rs:159). -/
def leBytes : Nat → Nat → List Nat
  | 0, _ => []
  | n + 1, x => x % 256 :: leBytes n (x / 256)

namespace FloatRepr
variable (R : FloatRepr)

/-- fuzz/src/main.rs:150-157 `from_le_bytes`: `copy_from_slice` into a zeroed array. -/
def fromLeBytes (bytes : List Nat) : M Nat := do
  if R.reprBytes < R.byteLen then .error .index
  else if bytes.length ≠ R.byteLen then .error .unwrap
  else .ok (leNat (bytes ++ List.replicate (R.reprBytes - R.byteLen) 0))

/-- fuzz/src/main.rs:158-160 `write_as_le_bytes_into`: the bytes appended. -/
def toLeBytes (x : Nat) : M (List Nat) :=
  if R.reprBytes < R.byteLen then .error .index else .ok ((leBytes R.reprBytes x).take R.byteLen)

/-- fuzz/src/main.rs:165-167 `from_bits_u128`: `try_into().unwrap()` into the integer type. -/
def fromBitsU128 (bits : Nat) : M Nat := if bits < 256 ^ R.reprBytes then .ok bits else .error .unwrap

/-- fuzz/src/main.rs:284: `next()` on `inputs.chunks(BYTE_LEN).map(from_le_bytes)`. -/
def nextInput (inputs : List Nat) : M (Option Nat × List Nat) :=
  if inputs.isEmpty then .ok (none, [])
  else do
    let x ← R.fromLeBytes (inputs.take R.byteLen)
    .ok (some x, inputs.drop R.byteLen)

/-- fuzz/src/main.rs:278-296 `try_decode`. -/
def tryDecode : List Nat → M (Except Unit (FuzzOp Nat))
  | [] => .ok (.error ())
  | tag :: inputs =>
    if R.byteLen = 0 then .error .arith
    else if inputs.length % R.byteLen ≠ 0 then .ok (.error ())
    else
      match FuzzOp.fromTag tag with
      | none => .ok (.error ())
      | some op => do
        let (op, inputs, tooFew) ← op.mapM (fun () (st : List Nat × Bool) => do
          let (x, rest) ← R.nextInput st.1
          match x with
          | some x => .ok (x, rest, st.2)
          | none => .ok (0, rest, true)) (inputs, false)
        let (more, _) ← R.nextInput inputs
        if tooFew || more.isSome then .ok (.error ()) else .ok (.ok op)

/-- fuzz/src/main.rs:302-305 `encode_into`: the bytes appended. -/
def encode (op : FuzzOp Nat) : M (List Nat) := do
  let (_, bytes) ← op.mapM (fun x (out : List Nat) => do
    let b ← R.toLeBytes x
    .ok ((), out ++ b)) [op.tag]
  .ok bytes

end FloatRepr

/-! ## Evaluation -/

/-- lib.rs:617-619 `FloatConvert::convert`: conversion with the default rounding (the value only). -/
def convert (S T : Sem) (x : IeeeFloat S) : M (IeeeFloat T) := do
  let r ← IeeeFloat.convertR S T x .nearestTiesToEven
  .ok r.value

/-- fuzz/ops.rs:182-222: the generated `eval_rs_apf`. -/
def evalRsApf {S : Sem} : FuzzOp (IeeeFloat S) → M (IeeeFloat S)
  | .neg a => .ok a.neg
  | .add a b => do let r ← Api.add a b; .ok r.value
  | .sub a b => do let r ← Api.sub a b; .ok r.value
  | .mul a b => do let r ← Api.mul a b; .ok r.value
  | .div a b => do let r ← Api.div a b; .ok r.value
  | .rem a b => do let r ← Api.rem a b; .ok r.value
  | .mulAdd a b c => do let r ← Api.mul_add a b c; .ok r.value
  | .viaI128 a => do
    let i ← Api.to_i128 a 128
    let r ← Api.from_i128 (F := IeeeFloat S) i.value
    .ok r.value
  | .viaU128 a => do
    let i ← Api.to_u128 a 128
    let r ← Api.from_u128 (F := IeeeFloat S) i.value
    .ok r.value
  | .viaSingle a => do let t ← convert S singleS a; convert singleS S t
  | .viaDouble a => do let t ← convert S doubleS a; convert doubleS S t

/-- fuzz/src/main.rs:308-314: the field `rs_apf` of the outputs of `eval`. -/
def evalBits (R : FloatRepr) (op : FuzzOp Nat) : M Nat := do
  let op ← op.mapPure (IeeeFloat.fromBits R.sem)
  let r ← evalRsApf op
  let b ← r.toBits
  R.fromBitsU128 b

/-- fuzz/src/main.rs:12-41 `Args` (without the subcommand). -/
structure Args where
  ignoreCxx : Bool := false
  ignoreHard : Bool := false
  strictHardNanSign : Bool := false
  strictHardNanInputChoice : Bool := false
  ignoreFmaNan : Bool := false

/-- What LLVM and the hardware answer to an operation (fuzz/src/main.rs:169-187; parameters of the model). -/
structure Oracle where
  cxx : FloatRepr → FuzzOp Nat → Nat
  hard : FloatRepr → FuzzOp Nat → Nat

/-- `u128::is_power_of_two` (fuzz/src/main.rs:340). -/
def isPow2 (n : Nat) : Bool := (List.range 128).any (fun i => n == 2 ^ i)

/-- `u128::count_ones` (fuzz/src/main.rs:342). -/
def countOnes (n : Nat) : Nat := ((List.range 128).filter (fun i => n.testBit i)).length

/-- fuzz/src/main.rs:333-348: the masks of a format, and the assertions about them.  The result is the masks of the sign, the exponent and the
significand and the quiet bit. -/
def masks (S : Sem) : M (Nat × Nat × Nat × Nat) := do
  let k ← usub S.bits 1
  let sign ← shl 1 k
  let exp ← (IeeeFloat.INFINITY S).toBits
  let t ← shl 1 (trailingZeros exp)
  let sig ← usub t 1
  let all ← (do let k ← usub 128 S.bits; shr limbMax k : M Nat)
  massert (sign ||| exp ||| sig = all)
  massert (isPow2 (sig + 1))
  massert (isPow2 ((exp ||| sig) + 1))
  massert (countOnes sign + countOnes exp + countOnes sig = S.bits)
  let quiet ← shr (sig + 1) 1
  massert (isPow2 quiet)
  let nan ← (IeeeFloat.NAN S).toBits
  massert (exp ||| quiet = nan)
  .ok (sign, exp, sig, quiet)

/-- fuzz/src/main.rs:350-354: the closure `is_nan`, with its assertion. -/
def isNanBits (S : Sem) (exp sig bits : Nat) : M Bool := do
  let b := (bits &&& exp == exp) && (bits &&& sig != 0)
  let x ← IeeeFloat.fromBits S bits
  massert (x.isNan = b)
  .ok b

/-- fuzz/src/main.rs:376-397: the closure `out_nan_is_propagated_input`. -/
def propagated (S : Sem) (exp sig quiet strict : Nat) (op : FuzzOp Nat) (out : Nat) : M Bool := do
  let n ← isNanBits S exp sig out
  massert (n = true)
  let (_, found) ← op.mapM (fun x (found : Bool) => do
    let n ← isNanBits S exp sig x
    if n && ((x ||| quiet) &&& strict == out &&& strict) then .ok ((), true) else .ok ((), found)) false
  .ok found

/-- fuzz/src/main.rs:410-421: the last chance for multiplications-additions. -/
def fmaExcuse (S : Sem) (exp sig quiet strict : Nat) (op : FuzzOp Nat) (rs hard : Nat) : M Bool :=
  match op with
  | .mulAdd a b c => do
    let na ← isNanBits S exp sig a
    if na then .ok false else do
    let nb ← isNanBits S exp sig b
    if nb then .ok false else do
    let nc ← isNanBits S exp sig c
    if !nc then .ok false else do
    let nan ← (IeeeFloat.NAN S).toBits
    .ok ((hard &&& strict == (c ||| quiet) &&& strict) && rs == nan)
  | _ => .ok false

/-- fuzz/src/main.rs:327-427: the result of the hardware, made equal to that of the library where a difference is tolerated. -/
def reconcile (args : Args) (S : Sem) (op : FuzzOp Nat) (rs hard : Nat) : M Nat := do
  let (sign, exp, sig, quiet) ← masks S
  let strict := if args.strictHardNanSign then limbMax else limbMax &&& lnot sign
  let both ← (do
    let h ← isNanBits S exp sig hard
    if h then isNanBits S exp sig rs else .ok false : M Bool)
  if both then do
    let hard := (hard &&& strict) ||| (rs &&& lnot strict)
    let hard ← (if !args.strictHardNanInputChoice && hard != rs then do
        let a ← propagated S exp sig quiet strict op hard
        if a then do
          let b ← propagated S exp sig quiet strict op rs
          .ok (if b then rs else hard)
        else .ok hard
      else .ok hard : M Nat)
    if args.ignoreFmaNan && hard != rs then do
      let e ← fmaExcuse S exp sig quiet strict op rs hard
      .ok (if e then rs else hard)
    else .ok hard
  else .ok hard

/-- fuzz/src/main.rs:257-261 `FuzzOpEvalOutputs`. -/
structure Outputs where
  rsApf : Nat
  cxxApf : Option Nat
  hard : Option Nat

/-- fuzz/src/main.rs:263-270 `all_match`. -/
def Outputs.allMatch (o : Outputs) : Bool := ([o.cxxApf, o.hard].filterMap id).all (fun x => x == o.rsApf)

/-- fuzz/src/main.rs:307-427 `eval`. -/
def eval (args : Args) (orc : Oracle) (R : FloatRepr) (op : FuzzOp Nat) : M Outputs := do
  let rs ← evalBits R op
  let cxx := if args.ignoreCxx then none else some (orc.cxx R op)
  let hard := if args.ignoreHard then none else if R.hasHard then some (orc.hard R op) else none
  match hard with
  | none => .ok ⟨rs, cxx, none⟩
  | some h => do
    let h ← reconcile args R.sem op rs h
    let h ← R.fromBitsU128 h
    .ok ⟨rs, cxx, some h⟩

/-- fuzz/src/main.rs:119-133 `dispatch_any_float_repr_by_repr_tag!`: the format of a tag. -/
def reprOfTag (tag : Nat) : Option FloatRepr := reprs.find? (fun R => R.tag == tag)

/-- fuzz/src/main.rs:835-845 `fuzz_one_op`: one input of the fuzzer.  `some ()` if it was a test case. -/
def fuzzOne (args : Args) (orc : Oracle) : List Nat → M (Option Unit)
  | [] => .ok none
  | tag :: data =>
    match reprOfTag tag with
    | none => .ok none
    | some R => do
      let d ← R.tryDecode data
      match d with
      | .error _ => .ok none
      | .ok op => do
        let o ← eval args orc R op
        massert o.allMatch
        .ok (some ())

/-! ## Exhaustive search -/

/-- fuzz/src/main.rs:525-535 `all_ops`. -/
def allOps (onlyFma : Bool) : List (FuzzOp Unit) :=
  ((((List.range 256).map FuzzOp.fromTag).takeWhile Option.isSome).filterMap id).filter (fun op =>
    if onlyFma then (match op with | .mulAdd _ _ _ => true | _ => false) else true)

/-- fuzz/src/main.rs:537-550 `op_to_combined_input_bits_range`. -/
def combinedRange (bw : Nat) (onlyFma : Bool) (op : FuzzOp Unit) : M (Nat × Nat) := do
  let (_, total) ← op.mapM (fun () (t : Nat) => do let t ← usize (t + bw); .ok ((), t)) 0
  let start ← (if onlyFma then do let k ← usub total bw; shl 1 k else .ok 0 : M Nat)
  if total < 128 then .ok (start, 2 ^ total) else .error .unwrap

/-- fuzz/src/main.rs:552-561: the case of a number of the range. -/
def caseOf (R : FloatRepr) (op : FuzzOp Unit) (i : Nat) : M (FuzzOp Nat) := do
  let (op, rest) ← op.mapM (fun () (c : Nat) => do
    let one ← shl 1 R.bitWidth
    let mask ← usub one 1
    let rest ← shr c R.bitWidth
    let x ← R.fromBitsU128 (c &&& mask)
    .ok (x, rest)) i
  massert (rest = 0)
  .ok op

/-- Iterating a range `lo..hi` (fuzz/src/main.rs:552). -/
def range (lo hi : Nat) : List Nat := (List.range (hi - lo)).map (lo + ·)

/-- fuzz/src/main.rs:551-562 `op_to_exhaustive_cases`. -/
def casesOf (R : FloatRepr) (onlyFma : Bool) (op : FuzzOp Unit) : M (List (FuzzOp Nat)) := do
  let (lo, hi) ← combinedRange R.bitWidth onlyFma op
  (range lo hi).mapM (caseOf R op)

/-- `next_power_of_two` (fuzz/src/main.rs:587). -/
def nextPow2 (n : Nat) : Nat := if n ≤ 1 then 1 else 2 ^ (Nat.log2 (n - 1) + 1)

/-- fuzz/src/main.rs:564-587: the numbers `num_total_cases`, `cases_per_dot` and `successes_batch_size`, when `verbose` is off. -/
def sizes (R : FloatRepr) (onlyFma : Bool) (threads : Nat) : M (Nat × Nat × Nat) := do
  let total ← (allOps onlyFma).foldlM (fun (t : Nat) op => do
    let (lo, hi) ← combinedRange R.bitWidth onlyFma op
    if hi < lo then .error .unwrap
    else if t + (hi - lo) < 2 ^ 128 then .ok (t + (hi - lo)) else .error .unwrap) 0
  let dots := max (if total / 2 ^ 23 < 2 ^ 64 then total / 2 ^ 23 else 2 ^ 64 - 1) 40
  let perDot := total / dots
  if perDot < 2 ^ 64 then do
    let batch ← usize (nextPow2 (perDot / threads))
    .ok (total, perDot, batch)
  else .error .unwrap

/-- fuzz/src/main.rs:610-614: `.skip(thread_idx).step_by(num_threads)`; `k` is the number of elements to skip before the next one. -/
def stepFrom {α : Type} (n : Nat) : Nat → List α → List α
  | _, [] => []
  | 0, x :: xs => x :: stepFrom n (n - 1) xs
  | k + 1, _ :: xs => stepFrom n k xs

/-- fuzz/src/main.rs:589-592 `Update`; of a panic only the fact is kept. -/
structure Update where
  successes : Nat
  failure : Option (FuzzOp Nat × Bool)

/-- fuzz/src/main.rs:615-643: what a worker thread sends; `s` is `update.successes`. -/
def worker (batch : Nat) (check : FuzzOp Nat → M Bool) : Nat → List (FuzzOp Nat) → List Update
  | s, [] => [⟨s, none⟩]
  | s, op :: rest =>
    match check op with
    | .ok true => if s + 1 ≥ batch then ⟨s + 1, none⟩ :: worker batch check 0 rest else worker batch check (s + 1) rest
    | .ok false => ⟨s, some (op, false)⟩ :: worker batch check 0 rest
    | .error _ => ⟨s, some (op, true)⟩ :: worker batch check 0 rest

/-- fuzz/src/main.rs:715-728: the progress marks `.`, `≠` and `🕱`. -/
inductive Mark where
  | fine | mismatch | panic
  deriving DecidableEq, Repr

/-- fuzz/src/main.rs:651-657: the variables of the receiving loop, and what was printed. -/
structure Recv where
  caseIdx : Nat := 0
  dotFirst : Nat := 0
  lastMismatch : Option Nat := none
  lastPanic : Option Nat := none
  mismatches : List (FuzzOp Nat) := []
  panics : List (FuzzOp Nat) := []
  marks : List Mark := []

/-- fuzz/src/main.rs:715-728: the next mark. -/
def Recv.mark (r : Recv) : Mark :=
  if r.lastPanic.any (fun i => decide (i ≥ r.dotFirst)) then .panic
  else if r.lastMismatch.any (fun i => decide (i ≥ r.dotFirst)) then .mismatch
  else .fine

/-- fuzz/src/main.rs:702-733: the loop printing marks.  `fuel` bounds the iterations of the model. -/
def dotLoop (perDot : Nat) : Nat → Recv → M Recv
  | 0, _ => .error .fuel
  | fuel + 1, r => do
    let next ← usize (r.dotFirst + perDot)
    if r.caseIdx < next then .ok r
    else dotLoop perDot fuel { r with marks := r.marks ++ [r.mark], dotFirst := next }

/-- fuzz/src/main.rs:658-735: one message. -/
def receive (perDot : Nat) (r : Recv) (u : Update) : M Recv := do
  let r ← (if u.successes > 0 then do
      let n ← usize (r.caseIdx + u.successes)
      dotLoop perDot (n + 1) { r with caseIdx := n }
    else .ok r : M Recv)
  match u.failure with
  | none => .ok r
  | some (op, false) => do
    let n ← usize (r.caseIdx + 1)
    dotLoop perDot (n + 1) { r with lastMismatch := some r.caseIdx, mismatches := r.mismatches ++ [op], caseIdx := n }
  | some (op, true) => do
    let n ← usize (r.caseIdx + 1)
    dotLoop perDot (n + 1) { r with lastPanic := some r.caseIdx, panics := r.panics ++ [op], caseIdx := n }

/-- `Vec::dedup_by_key(tag)` (fuzz/src/main.rs:749): drops an element with the tag of the element kept before it. -/
def dedupByTag : Option Nat → List (FuzzOp Nat) → List (FuzzOp Nat)
  | _, [] => []
  | last, op :: rest => if last = some op.tag then dedupByTag last rest else op :: dedupByTag (some op.tag) rest

/-- fuzz/src/main.rs:747-749 `select_mismatches`: the mismatches shown. -/
def Recv.shown (r : Recv) : List (FuzzOp Nat) := dedupByTag none r.mismatches

/-- fuzz/src/main.rs:786: the result of `bruteforce`: `none` for `Ok(())`, the count for `Err`. -/
def Recv.result (r : Recv) : Option Nat :=
  if r.mismatches.length + r.panics.length = 0 then none else some (r.mismatches.length + r.panics.length)

/-- A channel with several senders (fuzz/src/main.rs:600-648): `Merge qs ms` when `ms` is an order in which the messages `qs` of the senders can arrive; the
messages of one sender arrive in the order it sent them. -/
inductive Merge {α : Type} : List (List α) → List α → Prop
  | done {qs} : (∀ q ∈ qs, q = []) → Merge qs []
  | step {pre q post m ms} : Merge (pre ++ q :: post) ms → Merge (pre ++ (m :: q) :: post) (m :: ms)

/-- fuzz/src/main.rs:606-648: the messages of each worker thread. -/
def workers (batch threads : Nat) (check : FuzzOp Nat → M Bool) (cases : List (FuzzOp Nat)) : List (List Update) :=
  (List.range threads).map (fun k => worker batch check 0 (stepFrom threads k cases))

/-- fuzz/src/main.rs:500-787 `bruteforce` for a format in the range of widths: the outcome `r` is a possible one when the messages of the workers arrive
in some order and the receiving loop ends with `r`. -/
def Bruteforce (R : FloatRepr) (onlyFma : Bool) (threads : Nat) (check : FuzzOp Nat → M Bool) (r : M Recv) : Prop :=
  match sizes R onlyFma threads, (allOps onlyFma).mapM (casesOf R onlyFma) with
  | .ok (_, perDot, batch), .ok cases => ∃ ms, Merge (workers batch threads check cases.flatten) ms ∧ r = ms.foldlM (receive perDot) {}
  | .error e, _ => r = .error e
  | _, .error e => r = .error e

/-- fuzz/src/main.rs:816-830: the subcommand `bruteforce` of `main`, for the format tags in a list; `any` is `any_mismatches`.  `out` is a possible outcome: whether
the tool exits with status 1, or its panic. -/
def BruteforceMain (minWidth maxWidth : Nat) (onlyFma : Bool) (threads : Nat) (check : FloatRepr → FuzzOp Nat → M Bool) : List Nat → Bool → M Bool → Prop
  | [], any, out => out = .ok any
  | tag :: tags, any, out =>
    match reprOfTag tag with
    | none => BruteforceMain minWidth maxWidth onlyFma threads check tags any out
    | some R =>
      if minWidth ≤ R.bitWidth ∧ R.bitWidth ≤ maxWidth then
        ∃ o, Bruteforce R onlyFma threads (check R) o ∧
          match o with
          | .error e => out = .error e
          | .ok r => BruteforceMain minWidth maxWidth onlyFma threads check tags (any || r.result.isSome) out
      else BruteforceMain minWidth maxWidth onlyFma threads check tags any out

end Apf.Fuzz
