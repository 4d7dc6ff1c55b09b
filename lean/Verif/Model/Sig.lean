import Verif.Model.Prelude
/-!
# Model of `ieee::sig` and `Loss` (`/repo/src/ieee.rs:2697-3248`)

Limbs are `Nat` (every limb of a well-formed slice is `< 2^128`); a `&mut [Limb]`
argument becomes a returned `List Nat`, least significant limb first.  Loops are
modelled as recursive functions with the same iteration order and the same
in-place updates as the Rust loops.
-/

namespace Apf

/-- ieee.rs:2698-2711 `Loss::combine`. -/
def Loss.combine (moreSignificant lessSignificant : Loss) : Loss :=
  if lessSignificant ≠ .exactlyZero then
    if moreSignificant = .exactlyZero then .lessThanHalf
    else if moreSignificant = .exactlyHalf then .moreThanHalf
    else moreSignificant
  else moreSignificant

namespace Sig

/-- ieee.rs:2748-2751 `is_all_zeros`. -/
def isAllZeros (limbs : List Nat) : Bool := limbs.all (fun l => l == 0)

end Sig

/-- ieee.rs:2713-2738 `Loss::through_truncation`. -/
def Loss.throughTruncation (limbs : List Nat) (bits : Nat) : Loss :=
  if bits = 0 then .exactlyZero
  else
    let halfBit := bits - 1
    let halfLimbIdx := halfBit / limbBits
    let halfLimb := if halfLimbIdx < limbs.length then limbs.getD halfLimbIdx 0 else 0
    let rest := if halfLimbIdx < limbs.length then limbs.take halfLimbIdx else limbs
    let half := 1 <<< (halfBit % limbBits)
    let hasHalf := (halfLimb &&& half) != 0
    let hasRest := (halfLimb &&& (half - 1)) != 0 || !(Sig.isAllZeros rest)
    match hasHalf, hasRest with
    | false, false => .exactlyZero
    | false, true => .lessThanHalf
    | true, false => .exactlyHalf
    | true, true => .moreThanHalf

namespace Sig

/-- Loop of ieee.rs:2755-2763 `olsb`; `i` is the index of the head limb. -/
def olsbLoop : Nat → List Nat → Nat
  | _, [] => 0
  | i, x :: xs => if x ≠ 0 then i * limbBits + trailingZeros x + 1 else olsbLoop (i + 1) xs

/-- ieee.rs:2753-2763 `olsb`: one-based index of the lowest set bit, 0 for zero. -/
def olsb (limbs : List Nat) : Nat := olsbLoop 0 limbs

/-- Loop of ieee.rs:2767-2775 `omsb`: `i` limbs are still to be looked at, from the top
(the index `i` is in bounds by the loop range). -/
def omsbLoop (limbs : List Nat) : Nat → Nat
  | 0 => 0
  | i + 1 =>
    if limbs.getD i 0 ≠ 0 then (i + 1) * limbBits - leadingZeros (limbs.getD i 0)
    else omsbLoop limbs i

/-- ieee.rs:2765-2775 `omsb`: one-based index of the highest set bit, 0 for zero. -/
def omsb (limbs : List Nat) : Nat := omsbLoop limbs limbs.length

/-- Loop of ieee.rs:2781-2786 (over the pairs, most significant first). -/
def cmpLoop : List (Nat × Nat) → Ordering
  | [] => .eq
  | (a, b) :: rest =>
    match compare a b with
    | .eq => cmpLoop rest
    | o => o

/-- ieee.rs:2777-2789 `cmp`. -/
def cmp (a b : List Nat) : M Ordering := do
  massert (a.length = b.length)
  .ok (cmpLoop (a.zip b).reverse)

/-- ieee.rs:2791-2795 `get_bit`. -/
def getBit (limbs : List Nat) (bit : Nat) : M Bool := do
  let l ← idx limbs (bit / limbBits)
  .ok ((l &&& (1 <<< (bit % limbBits))) != 0)

/-- ieee.rs:2797-2801 `set_bit`. -/
def setBit (limbs : List Nat) (bit : Nat) : M (List Nat) := do
  let l ← idx limbs (bit / limbBits)
  setIdx limbs (bit / limbBits) (l ||| (1 <<< (bit % limbBits)))

/-- ieee.rs:2815-2829: the new value of `dst[i]` in `shift_left`. -/
def shiftLeftLimb (dst : List Nat) (jump shift i : Nat) : M Nat :=
  if i < jump then .ok 0
  else do
    let limb ← idx dst (i - jump)
    if shift > 0 then do
      let limb ← shl limb shift
      if i ≥ jump + 1 then do
        let lo ← idx dst (i - jump - 1)
        let lo ← shr lo (limbBits - shift)
        .ok (limb ||| lo)
      else .ok limb
    else .ok limb

/-- Loop of ieee.rs:2814-2832: `for i in (0..dst.len()).rev()`, in place; the argument counts
the limbs still to do. -/
def shiftLeftLoop (jump shift : Nat) : Nat → List Nat → M (List Nat)
  | 0, dst => .ok dst
  | i + 1, dst => do
    let limb ← shiftLeftLimb dst jump shift i
    let dst ← setIdx dst i limb
    shiftLeftLoop jump shift i dst

/-- ieee.rs:2803-2834 `shift_left`: returns the new `dst` and `exp`. -/
def shiftLeft (dst : List Nat) (exp : Int) (bits : Nat) : M (List Nat × Int) :=
  if bits > 0 then do
    let exp ← i32 (exp - asI32 bits)
    let dst ← shiftLeftLoop (bits / limbBits) (bits % limbBits) dst.length dst
    .ok (dst, exp)
  else .ok (dst, exp)

/-- ieee.rs:2852-2864: the new value of `dst[i]` in `shift_right`. -/
def shiftRightLimb (dst : List Nat) (jump shift i : Nat) : M Nat :=
  if i + jump ≥ dst.length then .ok 0
  else do
    let limb ← idx dst (i + jump)
    if shift > 0 then do
      let limb ← shr limb shift
      if i + jump + 1 < dst.length then do
        let hi ← idx dst (i + jump + 1)
        let hi ← shl hi (limbBits - shift)
        .ok (limb ||| hi)
      else .ok limb
    else .ok limb

/-- Loop of ieee.rs:2851-2867: `for i in 0..dst.len()`, in place; the first argument counts the
iterations left, `i` is the current index. -/
def shiftRightLoop (jump shift : Nat) : Nat → Nat → List Nat → M (List Nat)
  | 0, _, dst => .ok dst
  | n + 1, i, dst => do
    let limb ← shiftRightLimb dst jump shift i
    let dst ← setIdx dst i limb
    shiftRightLoop jump shift n (i + 1) dst

/-- ieee.rs:2836-2871 `shift_right`: returns the new `dst`, `exp` and the lost fraction. -/
def shiftRight (dst : List Nat) (exp : Int) (bits : Nat) : M (List Nat × Int × Loss) :=
  let loss := Loss.throughTruncation dst bits
  if bits > 0 then do
    let exp ← i32 (exp + asI32 bits)
    let dst ← shiftRightLoop (bits / limbBits) (bits % limbBits) dst.length 0 dst
    .ok (dst, exp, loss)
  else .ok (dst, exp, loss)

/-- ieee.rs:2873-2906 `extract`. -/
def extract (dst src : List Nat) (srcBits srcLsb : Nat) : M (List Nat) :=
  if srcBits = 0 then .ok dst
  else do
    let dstLimbs := limbsForBits srcBits
    massert (dstLimbs ≤ dst.length)
    -- `&src[src_lsb / LIMB_BITS..]`
    if srcLsb / limbBits > src.length then .error .index
    else do
      let src := src.drop (srcLsb / limbBits)
      -- `dst[..dst_limbs].copy_from_slice(&src[..dst_limbs])`
      if dstLimbs > src.length then .error .index
      else do
        let low := src.take dstLimbs
        let shift := srcLsb % limbBits
        let (low, _, _) ← shiftRight low 0 shift
        let n := dstLimbs * limbBits - shift
        let low ←
          (if n < srcBits then do
            let one ← shl 1 (srcBits - n)
            let mask ← usub one 1
            let s ← idx src dstLimbs
            let s ← shl (s &&& mask) (n % limbBits)
            let d ← idx low (dstLimbs - 1)
            setIdx low (dstLimbs - 1) (d ||| s)
          else if n > srcBits ∧ srcBits % limbBits > 0 then do
            let d ← idx low (dstLimbs - 1)
            setIdx low (dstLimbs - 1) (d &&& ((1 <<< (srcBits % limbBits)) - 1))
          else .ok low : M (List Nat))
        -- "Clear high limbs."
        .ok (low ++ List.replicate (dst.length - dstLimbs) 0)

/-- ieee.rs:2908-2921 `from_limbs`: returns the new `dst`, the lost fraction and the exponent. -/
def fromLimbs (dst src : List Nat) (precision : Nat) : M (List Nat × Loss × Int) :=
  let om := omsb src
  if precision ≤ om then do
    let d ← extract dst src precision (om - precision)
    let loss := Loss.throughTruncation src (om - precision)
    let e ← i32 (asI32 om - 1)
    .ok (d, loss, e)
  else do
    let d ← extract dst src om 0
    let e ← i32 (asI32 precision - 1)
    .ok (d, .exactlyZero, e)

/-- Inner loop of ieee.rs:2930-2934 in `each_chunk`: chunks `i-1, ..., 0` of one limb, threading the
closure's captured state. -/
def eachChunkLimb {σ : Type} (bits : Nat) (f : σ → Nat → Nat × σ) (limb : Nat) :
    Nat → σ → Nat → Nat × σ
  | 0, st, r => (r, st)
  | i + 1, st, r =>
    let (c, st) := f st ((limb >>> (i * bits)) &&& ((1 <<< bits) - 1))
    eachChunkLimb bits f limb i st (r ||| ((c <<< (i * bits)) % 2 ^ 128))

/-- ieee.rs:2923-2936 `each_chunk`, most significant limb first.  The `FnMut` closure is a
function of its captured state.  (`bits` is 16, 32 or 64 at every call.) -/
def eachChunk {σ : Type} (bits : Nat) (f : σ → Nat → Nat × σ) : List Nat → σ → List Nat × σ
  | [], st => ([], st)
  | x :: xs, st =>
    let (xs, st) := eachChunk bits f xs st
    let (x, st) := eachChunkLimb bits f x (limbBits / bits) st 0
    (x :: xs, st)

/-- ieee.rs:2938-2949 `increment`: new limbs and the carry. -/
def increment : List Nat → List Nat × Nat
  | [] => ([], 1)
  | x :: xs =>
    let y := (x + 1) % 2 ^ 128
    if y ≠ 0 then (y :: xs, 0)
    else let (ys, c) := increment xs; (y :: ys, c)

/-- ieee.rs:2951-2962 `decrement`: new limbs and the borrow. -/
def decrement : List Nat → List Nat × Nat
  | [] => ([], 1)
  | x :: xs =>
    let y := wsub x 1
    if y ≠ limbMax then (y :: xs, 0)
    else let (ys, c) := decrement xs; (y :: ys, c)

/-- Loop of ieee.rs:2969-2974. -/
def addLoop : List Nat → List Nat → Nat → List Nat × Nat
  | a :: as, b :: bs, c =>
    let r1 := (a + b) % 2 ^ 128
    let o1 := decide (2 ^ 128 ≤ a + b)
    let r2 := (r1 + c) % 2 ^ 128
    let o2 := decide (2 ^ 128 ≤ r1 + c)
    let (rs, c') := addLoop as bs (o1 || o2).toNat
    (r2 :: rs, c')
  | as, _, c => (as, c)

/-- ieee.rs:2964-2977 `add`: `a += b + c`, returns the new `a` and the carry. -/
def add (a b : List Nat) (c : Nat) : M (List Nat × Nat) := do
  massert (c ≤ 1)
  .ok (addLoop a b c)

/-- Loop of ieee.rs:2984-2989. -/
def subLoop : List Nat → List Nat → Nat → List Nat × Nat
  | a :: as, b :: bs, c =>
    let r1 := wsub a b
    let o1 := decide (a < b)
    let r2 := wsub r1 c
    let o2 := decide (r1 < c)
    let (rs, c') := subLoop as bs (o1 || o2).toNat
    (r2 :: rs, c')
  | as, _, c => (as, c)

/-- ieee.rs:2979-2992 `sub`: `a -= b + c`, returns the new `a` and the borrow. -/
def sub (a b : List Nat) (c : Nat) : M (List Nat × Nat) := do
  massert (c ≤ 1)
  .ok (subLoop a b c)

/-- ieee.rs:3036-3041: the lost fraction "was on the RHS and subtracted". -/
def invertLoss : Loss → Loss
  | .lessThanHalf => .moreThanHalf
  | .moreThanHalf => .lessThanHalf
  | l => l

/-- Result of `add_or_sub` (ieee.rs:2996-3050): the updated `a_sig`, `a_exp`, `a_sign` and the lost fraction. -/
structure AddOrSubOut where
  sig : List Nat
  exp : Int
  sign : Bool
  loss : Loss
  deriving DecidableEq, Repr

/-- ieee.rs:3013-3021: alignment of the operands of an effective subtraction. -/
def subAlign (aSig : List Nat) (aExp : Int) (bSig : List Nat) (bits : Int) :
    M (List Nat × Int × List Nat × Loss) :=
  if bits = 0 then .ok (aSig, aExp, bSig, .exactlyZero)
  else if bits > 0 then do
    let (bSig, _, loss) ← shiftRight bSig 0 (bits - 1).toNat
    let (aSig, aExp) ← shiftLeft aSig aExp 1
    .ok (aSig, aExp, bSig, loss)
  else do
    let (aSig, aExp, loss) ← shiftRight aSig aExp (-bits - 1).toNat
    let (bSig, _) ← shiftLeft bSig 0 1
    .ok (aSig, aExp, bSig, loss)

/-- ieee.rs:2994-3052 `add_or_sub`. -/
def addOrSub (aSig : List Nat) (aExp : Int) (aSign : Bool)
    (bSig : List Nat) (bExp : Int) (bSign : Bool) : M AddOrSubOut := do
  let bits ← i32 (aExp - bExp)
  if aSign ^^ bSign then do
    let (aSig, aExp, bSig, loss) ← subAlign aSig aExp bSig bits
    let borrow := (decide (loss ≠ .exactlyZero)).toNat
    let c ← cmp aSig bSig
    if c = .lt then do
      let (r, o) ← sub bSig aSig borrow
      massert (o = 0)
      .ok ⟨r, aExp, !aSign, invertLoss loss⟩
    else do
      let (r, o) ← sub aSig bSig borrow
      massert (o = 0)
      .ok ⟨r, aExp, aSign, invertLoss loss⟩
  else if bits > 0 then do
    let (bSig, _, loss) ← shiftRight bSig 0 bits.toNat
    let (r, o) ← add aSig bSig 0
    massert (o = 0)
    .ok ⟨r, aExp, aSign, loss⟩
  else do
    let (aSig, aExp, loss) ← shiftRight aSig aExp (-bits).toNat
    let (r, o) ← add aSig bSig 0
    massert (o = 0)
    .ok ⟨r, aExp, aSign, loss⟩

/-- One iteration of ieee.rs:3074-3076: adds `select(a, i) * select(b, j)` at its place. -/
def wideningMulStep (a b : Nat) (wide : List Nat) (i j : Nat) : M (List Nat) := do
  let p ← u128 (((a >>> (i * 64)) &&& (2 ^ 64 - 1)) * ((b >>> (j * 64)) &&& (2 ^ 64 - 1)))
  let (x, _) ← shiftLeft [p, 0] 0 ((i + j) * 64)
  let (wide, c) ← add wide x 0
  massert (c = 0)
  .ok wide

/-- ieee.rs:3054-3081 `widening_mul`: `[low, high] = a * b`; the 2×2 loop nest is unrolled. -/
def wideningMul (a b : Nat) : M (List Nat) :=
  if a = 0 ∨ b = 0 then .ok [0, 0]
  else do
    let w ← wideningMulStep a b [0, 0] 0 0
    let w ← wideningMulStep a b w 0 1
    let w ← wideningMulStep a b w 1 0
    wideningMulStep a b w 1 1

/-- Reads the pair `[low, high]` returned by `widening_mul` (a `[Limb; 2]`; ieee.rs:2467, 3104). -/
def pair (l : List Nat) : M (Nat × Nat) :=
  match l with
  | [lo, hi] => .ok (lo, hi)
  | _ => .error .index

/-- Inner loop of ieee.rs:3103-3116 (`for j in 0..b.len()`); `k = i + j`. -/
def mulInner (ai : Nat) : List Nat → Nat → Nat → List Nat → M (List Nat × Nat)
  | [], _, carry, dst => .ok (dst, carry)
  | bj :: bs, k, carry, dst => do
    let w ← wideningMul ai bj
    let (low, high) ← pair w
    let o1 := (decide (2 ^ 128 ≤ low + carry)).toNat
    let low := (low + carry) % 2 ^ 128
    let high ← u128 (high + o1)
    let d ← idx dst k
    let o2 := (decide (2 ^ 128 ≤ low + d)).toNat
    let low := (low + d) % 2 ^ 128
    let high ← u128 (high + o2)
    let dst ← setIdx dst k low
    mulInner ai bs (k + 1) high dst

/-- Outer loop of ieee.rs:3101-3118 (`for i in 0..a.len()`). -/
def mulOuter (b : List Nat) : List Nat → Nat → List Nat → M (List Nat)
  | [], _, dst => .ok dst
  | ai :: as, i, dst => do
    let (dst, carry) ← mulInner ai b i 0 dst
    let dst ← setIdx dst (i + b.length) carry
    mulOuter b as (i + 1) dst

/-- ieee.rs:3097-3099: `for x in &mut dst[..n] { *x = 0 }`. -/
def zeroLow (dst : List Nat) (n : Nat) : M (List Nat) :=
  if n ≤ dst.length then .ok (List.replicate n 0 ++ dst.drop n) else .error .index

/-- ieee.rs:3083-3151 `mul`: returns the new `dst`, `exp` and the lost fraction. -/
def mul (dst : List Nat) (exp : Int) (a b : List Nat) (precision : Nat) :
    M (List Nat × Int × Loss) := do
  let (a, b) := if a.length > b.length then (b, a) else (a, b)
  let dst ← zeroLow dst b.length
  let dst ← mulOuter b a 0 dst
  let exp ← i32 (exp + 2)
  let d ← i32 (asI32 precision + 1)
  let exp ← i32 (exp - d)
  let om := omsb dst
  if om ≤ precision then .ok (dst, exp, .exactlyZero)
  else shiftRight dst exp (om - precision)

/-- ieee.rs:3187-3198: the `lost_fraction` closure of `div`. -/
def lostFraction (dividend divisor : List Nat) : M Loss := do
  match ← cmp dividend divisor with
  | .gt => .ok .moreThanHalf
  | .eq => .ok .exactlyHalf
  | .lt => if isAllZeros dividend then .ok .exactlyZero else .ok .lessThanHalf

/-- ieee.rs:3215-3220: the closure passed to `each_chunk` by `try_short_div!`; the captured state is
`rem`.  `half` is the width of `$H` and `2 * half` the width of `$W`. -/
def shortDivStep (half divisor : Nat) (rem chunk : Nat) : Nat × Nat :=
  let chunk := chunk % 2 ^ half
  let combined := ((rem <<< half) % 2 ^ (2 * half)) ||| chunk
  ((combined / divisor) % 2 ^ half, (combined % divisor) % 2 ^ half)

/-- ieee.rs:3205-3223: body of `try_short_div!` once its guard holds.  Returns the quotient and the
lost fraction. -/
def shortDiv (half : Nat) (quotient dividend divisor : List Nat) (olsbDivisor divisorBits : Nat) :
    M (List Nat × Loss) := do
  let (divisor, _, _) ← shiftRight divisor 0 (olsbDivisor - 1)
  let d0 ← idx divisor 0
  let d := d0 % 2 ^ half
  let top ← (match dividend.getLast? with | some t => .ok t | none => .error .unwrap : M Nat)
  let r ← shr top (limbBits - (divisorBits - 1))
  let rem := r % 2 ^ half
  let (dividend, _) ← shiftLeft dividend 0 (divisorBits - 1)
  if d = 0 then .error .arith
  else
    let (q, rem) := eachChunk half (shortDivStep half d) dividend rem
    if q.length ≠ quotient.length then .error .index
    else do
      let rr ← shl rem 1
      let loss ← lostFraction [rr] [d]
      .ok (q, loss)

/-- Loop of ieee.rs:3238-3244: long division, one quotient bit per iteration, from bit `n - 1` down. -/
def longDivLoop (divisor : List Nat) : Nat → List Nat → List Nat → M (List Nat × List Nat)
  | 0, quotient, dividend => .ok (quotient, dividend)
  | bit + 1, quotient, dividend => do
    let c ← cmp dividend divisor
    if c ≠ .lt then do
      let (dividend, _) ← sub dividend divisor 0
      let quotient ← setBit quotient bit
      let (dividend, _) ← shiftLeft dividend 0 1
      longDivLoop divisor bit quotient dividend
    else do
      let (dividend, _) ← shiftLeft dividend 0 1
      longDivLoop divisor bit quotient dividend

/-- ieee.rs:3200-3246: short division when the divisor is small, long division otherwise. -/
def divCore (quotient : List Nat) (exp : Int) (dividend divisor : List Nat) (precision olsbDivisor : Nat) :
    M (List Nat × Int × Loss) := do
  let divisorBits ← usub precision (olsbDivisor - 1)
  if divisorBits * 2 ≤ 16 then do
    let (q, l) ← shortDiv 16 quotient dividend divisor olsbDivisor divisorBits
    .ok (q, exp, l)
  else if divisorBits * 2 ≤ 32 then do
    let (q, l) ← shortDiv 32 quotient dividend divisor olsbDivisor divisorBits
    .ok (q, exp, l)
  else if divisorBits * 2 ≤ 64 then do
    let (q, l) ← shortDiv 64 quotient dividend divisor olsbDivisor divisorBits
    .ok (q, exp, l)
  else do
    let quotient ← zeroLow quotient (limbsForBits precision)
    let (quotient, dividend) ← longDivLoop divisor precision quotient dividend
    let l ← lostFraction dividend divisor
    .ok (quotient, exp, l)

/-- ieee.rs:3153-3247 `div`: returns the new `quotient`, `exp` and the lost fraction. -/
def div (quotient : List Nat) (exp : Int) (dividend divisor : List Nat) (precision : Nat) :
    M (List Nat × Int × Loss) := do
  -- Normalize the divisor.
  let bits ← usub precision (omsb divisor)
  let (divisor, _) ← shiftLeft divisor 0 bits
  let exp ← i32 (exp + asI32 bits)
  -- Normalize the dividend.
  let bits ← usub precision (omsb dividend)
  let (dividend, exp) ← shiftLeft dividend exp bits
  -- Division by 1.
  let olsbDivisor := olsb divisor
  if olsbDivisor = precision then
    (if dividend.length = quotient.length then .ok (dividend, exp, .exactlyZero) else .error .index)
  else do
    -- Ensure the dividend >= divisor initially for the loop below.
    let c ← cmp dividend divisor
    if c = .lt then do
      let (dividend, exp) ← shiftLeft dividend exp 1
      let c ← cmp dividend divisor
      massert (c ≠ .lt)
      divCore quotient exp dividend divisor precision olsbDivisor
    else divCore quotient exp dividend divisor precision olsbDivisor

/-! Single-limb views used by `IeeeFloat`, whose significand is a `[Limb; 1]` (ieee.rs:22). -/

/-- `sig::shift_left(&mut self.sig, &mut self.exp, bits)` on a `[Limb; 1]` (ieee.rs:2078). -/
def shiftLeft1 (s : Nat) (exp : Int) (bits : Nat) : M (Nat × Int) := do
  let (l, e) ← shiftLeft [s] exp bits
  let s ← idx l 0
  .ok (s, e)

/-- `sig::shift_right(&mut self.sig, &mut self.exp, bits)` on a `[Limb; 1]` (ieee.rs:2086, 2136). -/
def shiftRight1 (s : Nat) (exp : Int) (bits : Nat) : M (Nat × Int × Loss) := do
  let (l, e, loss) ← shiftRight [s] exp bits
  let s ← idx l 0
  .ok (s, e, loss)

end Sig
end Apf
