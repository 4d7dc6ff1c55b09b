import Verif.Model.Ieee
/-!
# Model of string conversion (`/repo/src/ieee.rs:525-807, 1582-1670, 2170-2694`)

A `&str` is a `List Char`.  Rust positions are byte positions; up to the first rejected character
all characters are ASCII, so byte and character positions agree wherever they are used
(`s.len()` is only used as the "no dot yet" marker).
-/

namespace Apf

/-- lib.rs:160-162 `ParseError`; one constructor for each message used in ieee.rs. -/
inductive ParseError where
  | invalidLength      -- "Invalid string length"
  | noDigits           -- "String has no digits"
  | invalidString      -- "Invalid string"
  | multipleDots       -- "String contains multiple dots"
  | sigNoDigits        -- "Significand has no digits"
  | badExpChar         -- "Invalid character in exponent"
  | expNoDigits        -- "Exponent has no digits"
  | badSigChar         -- "Invalid character in significand"
  | hexNeedsExp        -- "Hex strings require an exponent"
  deriving DecidableEq, Repr

/-- `char::to_digit(radix)` for `radix ≤ 16` (ieee.rs:2195, 2249, 2327, 2355, 2445). -/
def toDigit (radix : Nat) (c : Char) : Option Nat :=
  let n := c.toNat
  let v : Option Nat :=
    if 48 ≤ n ∧ n ≤ 57 then some (n - 48)
    else if 97 ≤ n ∧ n ≤ 122 then some (n - 97 + 10)
    else if 65 ≤ n ∧ n ≤ 90 then some (n - 65 + 10)
    else none
  match v with
  | some d => if d < radix then some d else none
  | none => none

/-- Digits loop of `u128::from_str_radix` (ieee.rs:1630): `none` on an invalid digit or overflow. -/
def radixDigits (radix : Nat) : List Char → Nat → Option Nat
  | [], acc => some acc
  | c :: cs, acc =>
    match toDigit radix c with
    | some d => if acc * radix + d < 2 ^ 128 then radixDigits radix cs (acc * radix + d) else none
    | none => none

/-- `u128::from_str_radix(s, radix).ok()` (ieee.rs:1630): an optional `+`, then at least one digit. -/
def fromStrRadix (s : List Char) (radix : Nat) : Option Nat :=
  match s with
  | [] => none
  | '+' :: [] => none
  | '-' :: [] => none
  | '+' :: cs => radixDigits radix cs 0
  | cs => radixDigits radix cs 0

/-- `str::strip_prefix` with a string (ieee.rs:1588, 1593, 1608-1611, 1655). -/
def stripPrefix (pre s : List Char) : Option (List Char) :=
  match pre, s with
  | [], s => some s
  | _ :: _, [] => none
  | p :: ps, c :: cs => if p = c then stripPrefix ps cs else none

/-- `str::strip_prefix` with a set of characters (ieee.rs:1606, 1626, 1656). -/
def stripPrefixChar (a b : Char) (s : List Char) : Option (List Char) :=
  match s with
  | c :: cs => if c = a ∨ c = b then some cs else none
  | [] => none

namespace IeeeFloat

/-- ieee.rs:1609-1616: parentheses around a payload (balanced and not empty) are dropped. -/
def unparen (s : List Char) : List Char :=
  match s with
  | '(' :: cs =>
    match cs.reverse with
    | ')' :: rs => if rs = [] then s else rs.reverse
    | _ => s
  | _ => s

/-- ieee.rs:1622-1630: the radix and the digits of a payload. -/
def payloadNumber (s : List Char) : Option Nat :=
  match s with
  | '0' :: c :: cs => if c = 'x' ∨ c = 'X' then fromStrRadix cs 16 else fromStrRadix (c :: cs) 8
  | _ => fromStrRadix s 10

/-- ieee.rs:1609-1631: the payload of a NaN literal (text after `nan`): `none` when it does not parse,
`some none` when there is no payload. -/
def nanPayload (s : List Char) : Option (Option Nat) :=
  if unparen s = [] then some none else (payloadNumber (unparen s)).map some

/-- ieee.rs:1608-1638: a NaN literal, after the optional `s`. -/
def nanLiteral (S : Sem) (isSignaling : Bool) (s : List Char) : Option (IeeeFloat S) :=
  ((stripPrefix "nan".toList s).or (stripPrefix "NaN".toList s)).bind fun cs =>
    (nanPayload cs).map fun payload => if isSignaling then snan S payload else qnan S payload

/-- ieee.rs:1598-1643: the special-value literals. -/
def fromStrSpecial (S : Sem) (minus explicitPlus : Bool) (s : List Char) : Option (IeeeFloat S) :=
  if s = "Inf".toList ∧ (minus || explicitPlus) then some (INFINITY S)
  else if (s = "inf".toList ∨ s = "INFINITY".toList) ∧ explicitPlus = false then some (INFINITY S)
  else if explicitPlus then none
  else
    match stripPrefixChar 's' 'S' s with
    | some cs => nanLiteral S true cs
    | none => nanLiteral S false s

/-! ### Hexadecimal -/

/-- ieee.rs:2171-2186: the local variables of the loop of `from_hexadecimal_string`. -/
structure HexSt where
  sig : Nat
  anyDigits : Bool
  bitPos : Int
  loss : Option Loss
  firstSig : Option Nat
  dot : Nat
  deriving DecidableEq, Repr

/-- ieee.rs:2205-2230: what happens to a significant hexadecimal digit. -/
def hexDigit (st : HexSt) (v : Nat) : HexSt :=
  let bitPos := st.bitPos - 4
  if bitPos ≥ 0 then { st with bitPos, sig := st.sig ||| ((v <<< bitPos.toNat) % 2 ^ 128) }
  else
    match st.loss with
    | some l =>
      let l := if v ≠ 0 then
          let l := if l = .exactlyZero then Loss.lessThanHalf else l
          if l = .exactlyHalf then Loss.moreThanHalf else l
        else l
      { st with bitPos, loss := some l }
    | none =>
      let l : Loss := if v = 0 then .exactlyZero else if v ≤ 7 then .lessThanHalf
        else if v = 8 then .exactlyHalf else .moreThanHalf
      { st with bitPos, loss := some l }

/-- ieee.rs:2248-2255 and 2354-2361: the digits of an exponent, saturating. -/
def expDigits : List Char → Int → Bool → Except ParseError (Int × Bool)
  | [], e, any => .ok (e, any)
  | c :: cs, e, _ =>
    match toDigit 10 c with
    | some d => expDigits cs (sat32 (sat32 (e * 10) + d)) true
    | none => .error .badExpChar

/-- ieee.rs:2240-2260 and 2345-2367: an exponent field, with its optional sign: the (signed) exponent and
whether it has digits. -/
def expField (s : List Char) : Except ParseError (Int × Bool) :=
  match s with
  | '-' :: cs => do
    let (e, any) ← expDigits cs 0 false
    .ok (-e, any)
  | '+' :: cs => expDigits cs 0 false
  | cs => expDigits cs 0 false

/-- ieee.rs:2188-2266: the character loop of `from_hexadecimal_string`.  Returns the final state and, when
a `p` was seen, the exponent. -/
def hexLoop (len : Nat) : Nat → List Char → HexSt → Except ParseError (HexSt × Option Int)
  | _, [], st => .ok (st, none)
  | p, c :: cs, st =>
    if c = '.' then
      if st.dot ≠ len then .error .multipleDots
      else hexLoop len (p + 1) cs { st with dot := p }
    else
      match toDigit 16 c with
      | some v =>
        let st := { st with anyDigits := true }
        if st.firstSig = none ∧ v = 0 then hexLoop len (p + 1) cs st
        else
          let st := if st.firstSig = none then { st with firstSig := some p } else st
          hexLoop len (p + 1) cs (hexDigit st v)
      | none =>
        if c = 'p' ∨ c = 'P' then
          if st.anyDigits = false then .error .sigNoDigits
          else do
            let st := if st.dot = len then { st with dot := p } else st
            let (e, hasExp) ← expField cs
            if hasExp = false then .error .expNoDigits
            else .ok (st, some e)
        else .error .badSigChar

/-- `ExpInt::try_from(n).unwrap()` for a `usize` (ieee.rs:2286, 2288). -/
def expTryFrom (n : Nat) : M Int := if n ≤ 2147483647 then .ok (n : Int) else .error .unwrap

/-- ieee.rs:2282-2297: exponent of the parsed hexadecimal significand, then `normalize`. -/
def hexFinish (S : Sem) (round : Round) (st : HexSt) (first : Nat) (exp : Int) :
    M (StatusAnd (IeeeFloat S)) := do
  let adj ←
    (if st.dot > first then expTryFrom (st.dot - first)
    else do
      let d ← usub (first - st.dot) 1
      let d ← expTryFrom d
      i32 (-d) : M Int)
  let adj := sat32 (sat32 (sat32 (sat32 (adj * 4) - 1) + asI32 S.precision) - 128)
  let e := sat32 (exp + adj)
  ({ sig := st.sig, exp := e, category := .normal, sign := false } : IeeeFloat S).normalize round
    (st.loss.getD .exactlyZero)

/-- ieee.rs:2170-2298 `from_hexadecimal_string`. -/
def fromHexString (S : Sem) (s : List Char) (round : Round) :
    M (Except ParseError (StatusAnd (IeeeFloat S))) :=
  match hexLoop s.length 0 s ⟨0, false, 128, none, none, s.length⟩ with
  | .error e => .ok (.error e)
  | .ok (st, exp) =>
    if st.anyDigits = false then .ok (.error .sigNoDigits)
    else
      match exp with
      | none => .ok (.error .hexNeedsExp)
      | some exp =>
        match st.firstSig with
        | none => .ok (.ok (Status.OK.and (ZERO S)))
        | some first => do
          let r ← hexFinish S round st first exp
          .ok (.ok r)

/-! ### Decimal -/

/-- ieee.rs:2313-2319: the local variables of the scanning loop of `from_decimal_string`. -/
structure DecSt where
  anyDigits : Bool
  firstSig : Option Nat
  lastSig : Nat
  dot : Nat
  deriving DecidableEq, Repr

/-- ieee.rs:2321-2373: the scanning loop; returns the final state and `dec_exp`. -/
def decLoop (len : Nat) : Nat → List Char → DecSt → Except ParseError (DecSt × Int)
  | _, [], st => .ok (st, 0)
  | p, c :: cs, st =>
    if c = '.' then
      if st.dot ≠ len then .error .multipleDots
      else decLoop len (p + 1) cs { st with dot := p }
    else
      match toDigit 10 c with
      | some v =>
        let st := { st with anyDigits := true }
        if v ≠ 0 then
          let st := if st.firstSig = none then { st with firstSig := some p } else st
          decLoop len (p + 1) cs { st with lastSig := p }
        else decLoop len (p + 1) cs st
      | none =>
        if c = 'e' ∨ c = 'E' then
          if st.anyDigits = false then .error .sigNoDigits
          else do
            let st := if st.dot = len then { st with dot := p } else st
            let (e, _) ← expField cs
            .ok (st, e)
        else .error .badSigChar

/-- Inner loop of ieee.rs:2442-2457: digits accumulated in one limb.  Returns `val`, `multiplier` and the
characters left. -/
def decChunk : List Char → Nat → Nat → M (Nat × Nat × List Char)
  | [], val, mult => .ok (val, mult, [])
  | c :: cs, val, mult =>
    if c = '.' then decChunk cs val mult
    else
      match toDigit 10 c with
      | none => .error .unwrap
      | some d => do
        let mult ← u128 (mult * 10)
        let v ← u128 (val * 10)
        let val ← u128 (v + d)
        if mult > (limbMax - 9) / 10 then .ok (val, mult, cs)
        else decChunk cs val mult

/-- ieee.rs:2464-2475: `dec_sig * multiplier + carry`, in place; returns the limbs and the carry out. -/
def mulSmall (mult : Nat) : List Nat → Nat → M (List Nat × Nat)
  | [], carry => .ok ([], carry)
  | x :: xs, carry => do
    let w ← Sig.wideningMul x mult
    let (low, high) ← Sig.pair w
    let o := (decide (2 ^ 128 ≤ low + carry)).toNat
    let high ← u128 (high + o)
    let (xs, c) ← mulSmall mult xs high
    .ok (((low + carry) % 2 ^ 128) :: xs, c)

/-- Outer loop of ieee.rs:2438-2481: the digits as a bignum.  Each iteration that continues consumes a digit,
so the number of characters is enough fuel. -/
def decSigLoop : Nat → List Char → List Nat → M (List Nat)
  | 0, _, _ => .error .fuel
  | fuel + 1, cs, decSig => do
    let (val, mult, rest) ← decChunk cs 0 1
    if mult = 1 then .ok decSig
    else do
      let (l, carry) ← mulSmall mult decSig val
      decSigLoop fuel rest (if carry > 0 then l ++ [carry] else l)

/-- `while v.last() == Some(&0) { v.pop(); }` (ieee.rs:614-616, 622-624, 655-657, 2501-2503, 2509-2511). -/
def popZeros (l : List Nat) : List Nat := (l.reverse.dropWhile (· == 0)).reverse

/-- ieee.rs:2497-2516: the square-and-multiply loop computing a power of 5.  `p5` holds `5^(2^(n+2))`.
Scratch vectors are fresh zeroed lists: `sig::mul` overwrites every limb. -/
def pow5Loop : Nat → Nat → List Nat → List Nat → M (List Nat)
  | 0, _, _, _ => .error .fuel
  | fuel + 1, power, p5, r =>
    if power = 0 then .ok r
    else do
      let (sq, _, _) ← Sig.mul (List.replicate (p5.length * 2) 0) 0 p5 p5 (p5.length * 2 * limbBits)
      let p5 := popZeros sq
      if power % 2 ≠ 0 then do
        let (m, _, _) ← Sig.mul (List.replicate (r.length + p5.length) 0) 0 r p5 ((r.length + p5.length) * limbBits)
        pow5Loop fuel (power / 2) p5 (popZeros m)
      else pow5Loop fuel (power / 2) p5 r

/-- ieee.rs:2485-2519 `pow(5, power)`. -/
def pow5 (power : Nat) : M (List Nat) :=
  pow5Loop 64 (power / 8) [625] [5 ^ (power % 8)]

/-- ieee.rs:2527-2588: the closure `calc_normal_from_limbs`. -/
def calcNormalFromLimbs (calcPrecision : Nat) (limbs : List Nat) : M (Status × Int × List Nat) := do
  let (sig, loss, exp) ← Sig.fromLimbs (List.replicate (limbsForBits calcPrecision) 0) limbs calcPrecision
  let omsb := Sig.omsb sig
  massert (omsb ≠ 0)
  let d ← i32 (asI32 omsb - asI32 calcPrecision)
  let finalExp := sat32 (exp + d)
  if finalExp < exp then do
    massert (loss = .exactlyZero)
    let k ← i32 (exp - finalExp)
    let (sig, exp) ← Sig.shiftLeft sig exp k.toNat
    .ok (Status.OK, exp, sig)
  else do
    let (sig, exp, loss, omsb) ←
      (if finalExp > exp then do
        let k ← i32 (finalExp - exp)
        let (sig, exp, l) ← Sig.shiftRight sig exp k.toNat
        .ok (sig, exp, l.combine loss, omsb - k.toNat)
      else .ok (sig, exp, loss, omsb) : M (List Nat × Int × Loss × Nat))
    massert (omsb = calcPrecision)
    if loss = .exactlyZero then .ok (Status.OK, exp, sig)
    else do
      let odd ← Sig.getBit sig 0
      if loss = .moreThanHalf ∨ (loss = .exactlyHalf ∧ odd) then do
        let (sig, c) := Sig.increment sig
        massert (c = 0)
        if Sig.omsb sig = calcPrecision + 1 then do
          let (sig, exp, _) ← Sig.shiftRight sig exp 1
          .ok (Status.INEXACT, exp, sig)
        else .ok (Status.INEXACT, exp, sig)
      else .ok (Status.INEXACT, exp, sig)

/-- What one attempt (ieee.rs:2524-2692) computes before deciding whether it is accurate enough (line 2678). -/
structure DecCalc where
  sig : List Nat
  exp : Int
  usedBits : Nat
  truncatedBits : Nat
  halfUlpErr : Nat

/-- ieee.rs:2639-2646: the error bound in half-ulps. -/
def halfUlpErr (err1 err2 : Nat) (calcLoss : Loss) : M Nat := do
  massert (err1 < 2 ∨ err2 < 2 ∨ err1 + err2 < 8)
  let inexact := (decide (calcLoss ≠ .exactlyZero)).toNat
  .ok (if err1 + err2 = 0 then inexact * 2 else inexact + 2 * (err1 + err2))

/-- ieee.rs:2590-2646: `dec_sig * 10^dec_exp` calculated with `calc_precision` bits. -/
def decCalc (S : Sem) (calcPrecision : Nat) (decSig : List Nat) (decExp : Int) (pow5Full : List Nat) :
    M DecCalc := do
  let (status, exp, sigCalc) ← calcNormalFromLimbs calcPrecision decSig
  let (pow5Status, pow5Exp, pow5Calc) ← calcNormalFromLimbs calcPrecision pow5Full
  let exp ← i32 (exp + decExp)
  let truncatedBits ← usub calcPrecision S.precision
  let err1 := (decide (status ≠ Status.OK)).toNat
  if decExp ≥ 0 then do
    let exp ← i32 (exp + pow5Exp)
    let (sigCalc, exp, calcLoss) ←
      Sig.mul (List.replicate (sigCalc.length + pow5Calc.length) 0) exp sigCalc pow5Calc calcPrecision
    let top ← Sig.getBit sigCalc (calcPrecision - 1)
    massert top
    let err ← halfUlpErr err1 (decide (pow5Status ≠ Status.OK)).toNat calcLoss
    .ok ⟨sigCalc, exp, S.precision, truncatedBits, err⟩
  else do
    let exp ← i32 (exp - pow5Exp)
    let (sigCalc, exp, calcLoss) ←
      Sig.div (List.replicate sigCalc.length 0) exp sigCalc pow5Calc calcPrecision
    let (truncatedBits, usedBits) ←
      (if exp < S.minExp then do
        let d ← i32 (S.minExp - exp)
        let t := truncatedBits + d.toNat
        .ok (t, calcPrecision - t)
      else .ok (truncatedBits, S.precision) : M (Nat × Nat))
    let top ← Sig.getBit sigCalc (calcPrecision - 1)
    massert top
    let err ← halfUlpErr err1 (2 * (decide (pow5Status ≠ Status.OK ∨ calcLoss ≠ .exactlyZero)).toNat) calcLoss
    .ok ⟨sigCalc, exp, usedBits, truncatedBits, err⟩

/-- ieee.rs:2653-2656: the limb of the rounding boundary. -/
def boundaryBit (round : Round) (b : Nat) : Nat :=
  match round with
  | .nearestTiesToEven | .nearestTiesToAway => 1 <<< b
  | _ => 0

/-- ieee.rs:2648-2675 `ulps_from_boundary`. -/
def ulpsFromBoundary (round : Round) (calcPrecision usedBits : Nat) (sigCalc : List Nat) : M Nat := do
  let b ← usub calcPrecision usedBits
  let bits ← usub b 1
  let i := bits / limbBits
  let x ← idx sigCalc i
  let mask ← shr limbMax (limbBits - 1 - bits % limbBits)
  let limb := x &&& mask
  let boundary := boundaryBit round (bits % limbBits)
  if i = 0 then
    let delta := wsub limb boundary
    .ok (Min.min delta (wneg delta))
  else do
    let s0 ← idx sigCalc 0
    let mids := (sigCalc.take i).drop 1
    if limb = boundary then
      .ok (if !(Sig.isAllZeros mids) then limbMax else s0)
    else if limb = wsub boundary 1 then
      .ok (if mids.any (fun x => wneg x != 1) then limbMax else wneg s0)
    else .ok limbMax

/-- ieee.rs:2678-2691: rounding of an accurate enough calculation. -/
def decRound (S : Sem) (round : Round) (calcPrecision : Nat) (c : DecCalc) : M (StatusAnd (IeeeFloat S)) := do
  let l ← Sig.extract [0] c.sig c.usedBits (calcPrecision - c.usedBits)
  let s ← idx l 0
  let d ← usub S.precision c.usedBits
  let e ← i32 (c.exp + asI32 d)
  let loss := Loss.throughTruncation c.sig c.truncatedBits
  ({ sig := s, exp := e, category := .normal, sign := false } : IeeeFloat S).normalize round loss

/-- ieee.rs:2521-2693: attempts of increasing precision.  The Rust loop has no bound; the model's has
`fuel` attempts and reports `Panic.fuel` when they do not suffice. -/
def decAttempts (S : Sem) (round : Round) (decSig : List Nat) (decExp : Int) (pow5Full : List Nat) :
    Nat → Nat → M (StatusAnd (IeeeFloat S))
  | 0, _ => .error .fuel
  | fuel + 1, attempt => do
    let calcPrecision := (limbBits <<< attempt) - 1
    let c ← decCalc S calcPrecision decSig decExp pow5Full
    let u ← ulpsFromBoundary round calcPrecision c.usedBits c.sig
    if Min.min (u * 2) limbMax ≥ c.halfUlpErr then decRound S round calcPrecision c
    else decAttempts S round decSig decExp pow5Full fuel (attempt + 1)

/-- ieee.rs:2384-2389: `dec_exp` adjusted for the decimal point. -/
def adjustDecExp (st : DecSt) (decExp : Int) : M Int :=
  if st.dot > st.lastSig then .ok (sat32 (decExp + asI32 (st.dot - st.lastSig - 1)))
  else .ok (sat32 (decExp - asI32 (st.lastSig - st.dot)))

/-- ieee.rs:2384-2693: conversion of a scanned non-zero decimal number. -/
def decConvert (S : Sem) (fuel : Nat) (s : List Char) (round : Round) (st : DecSt) (first : Nat) (decExp : Int) :
    M (StatusAnd (IeeeFloat S)) := do
  let decExp ← adjustDecExp st decExp
  let n ← usub st.lastSig first
  let significandDigits ← usub (n + 1) (decide (st.dot > first ∧ st.dot < st.lastSig)).toNat
  let d ← i32 (asI32 significandDigits - 1)
  let normalizedExp := sat32 (decExp + d)
  let maxBound ← i32 (12655 * S.maxExp)
  if sat32 (sat32 (normalizedExp - 1) * 42039) ≥ maxBound then .ok (overflowResult S round)
  else do
    let t ← i32 (S.minExp - asI32 S.precision)
    let minBound ← i32 (8651 * t)
    if sat32 (sat32 (normalizedExp + 1) * 28738) ≤ minBound then
      .ok ((Status.UNDERFLOW ||| Status.INEXACT).and
        (if round = .towardPositive then SMALLEST S else ZERO S))
    else do
      let digits := (s.take (st.lastSig + 1)).drop first
      let decSig ← decSigLoop (digits.length + 1) digits []
      let power ← i32 (if decExp < 0 then -decExp else decExp)
      let p5 ← pow5 power.toNat
      decAttempts S round decSig decExp p5 fuel 0

/-- ieee.rs:2300-2694 `from_decimal_string`. -/
def fromDecString (S : Sem) (fuel : Nat) (s : List Char) (round : Round) :
    M (Except ParseError (StatusAnd (IeeeFloat S))) :=
  match decLoop s.length 0 s ⟨false, none, 0, s.length⟩ with
  | .error e => .ok (.error e)
  | .ok (st, decExp) =>
    if st.anyDigits = false then .ok (.error .sigNoDigits)
    else
      match st.firstSig with
      | none => .ok (.ok (Status.OK.and (ZERO S)))
      | some first => do
        let r ← decConvert S fuel s round st first decExp
        .ok (.ok r)

/-- ieee.rs:1647-1669: a number, after the sign. -/
def fromStrNumber (S : Sem) (fuel : Nat) (s : List Char) (round : Round) :
    M (Except ParseError (StatusAnd (IeeeFloat S))) :=
  if s = [] then .ok (.error .noDigits)
  else
    match s with
    | '0' :: c :: cs =>
      if c = 'x' ∨ c = 'X' then
        if cs = [] then .ok (.error .invalidString) else fromHexString S cs round
      else fromDecString S fuel s round
    | _ => fromDecString S fuel s round

/-- ieee.rs:1588: a leading minus sign. -/
def stripMinus (s : List Char) : Bool × List Char :=
  match s with
  | '-' :: cs => (true, cs)
  | _ => (false, s)

/-- ieee.rs:1592-1596: a leading plus sign (mutually exclusive with minus). -/
def stripPlus (minus : Bool) (s : List Char) : Bool × List Char :=
  match s with
  | '+' :: cs => if minus then (false, s) else (true, cs)
  | _ => (false, s)

/-- ieee.rs:1598-1669: `from_str_r` after the signs. -/
def fromStrBody (S : Sem) (fuel : Nat) (minus explicitPlus : Bool) (s : List Char) (round : Round) :
    M (Except ParseError (StatusAnd (IeeeFloat S))) :=
  match fromStrSpecial S minus explicitPlus s with
  | some r => .ok (.ok (Status.OK.and (r.negateIf minus)))
  | none => do
    let r ← fromStrNumber S fuel s (round.negateIf minus)
    match r with
    | .ok v => .ok (.ok (v.map (·.negateIf minus)))
    | .error e => .ok (.error e)

/-- ieee.rs:1582-1670 `from_str_r`.  `fuel` bounds the attempts of the decimal conversion in the model. -/
def fromStrR (S : Sem) (fuel : Nat) (s : List Char) (round : Round) :
    M (Except ParseError (StatusAnd (IeeeFloat S))) :=
  if s = [] then .ok (.error .invalidLength)
  else
    let m := stripMinus s
    let p := stripPlus m.1 m.2
    fromStrBody S fuel m.1 p.1 p.2 round

/-! ### Display -/

/-- ieee.rs:608-628: `N * 5^texp` by square-and-multiply (`p5 = []` before the first iteration). -/
def scalePow5 : Nat → Nat → List Nat → List Nat → M (List Nat)
  | 0, _, _, _ => .error .fuel
  | fuel + 1, texp, p5, sig =>
    if texp = 0 then .ok sig
    else do
      let p5 ←
        (if p5 = [] then .ok [5]
        else do
          let (sq, _, _) ← Sig.mul (List.replicate (p5.length * 2) 0) 0 p5 p5 (p5.length * 2 * limbBits)
          .ok (popZeros sq) : M (List Nat))
      if texp % 2 ≠ 0 then do
        let (m, _, _) ← Sig.mul (List.replicate (sig.length + p5.length) 0) 0 sig p5 ((sig.length + p5.length) * limbBits)
        scalePow5 fuel (texp / 2) p5 (popZeros m)
      else scalePow5 fuel (texp / 2) p5 sig

/-- ieee.rs:580-629: the decimal integer `sig` and the decimal exponent. -/
def dispScale (S : Sem) (sig : Nat) (exp0 : Int) : M (List Nat × Int) := do
  let p1 ← i32 (asI32 S.precision - 1)
  let exp ← i32 (exp0 - p1)
  let (sig, exp, _) ← Sig.shiftRight [sig] exp (trailingZeros sig)
  if exp = 0 then .ok (sig, exp)
  else if exp > 0 then do
    let shift := exp.toNat
    let n := limbsForBits (S.precision + shift)
    -- `sig.resize(n, 0)`
    let sig := (sig ++ List.replicate (n - sig.length) 0).take n
    Sig.shiftLeft sig exp shift
  else do
    let t ← i32 (-exp)
    let sig ← scalePow5 64 t.toNat [] sig
    .ok (sig, exp)

/-- ieee.rs:647-652: the closure extracting the rightmost decimal digit. -/
def div10Step (rem chunk : Nat) : Nat × Nat :=
  let chunk := chunk % 2 ^ 32
  let combined := ((rem <<< 32) % 2 ^ 64) ||| chunk
  ((combined / 10) % 2 ^ 32, (combined % 10) % 2 ^ 8)

/-- ieee.rs:640-675: the digit loop (least significant digit first).  Digits are kept as numbers 0-9 rather
than ASCII bytes. -/
def dispDigits : Nat → List Nat → Nat → Bool → Int → List Nat → M (List Nat × Int)
  | 0, _, _, _, _, _ => .error .fuel
  | fuel + 1, sig, discard, inTrail, exp, buffer =>
    if sig = [] then .ok (buffer, exp)
    else
      let (sig, digit) := Sig.eachChunk 32 div10Step sig 0
      let sig := popZeros sig
      if discard > 0 then do
        let exp ← i32 (exp + 1)
        dispDigits fuel sig (discard - 1) inTrail exp buffer
      else if inTrail && digit == 0 then do
        let exp ← i32 (exp + 1)
        dispDigits fuel sig discard inTrail exp buffer
      else dispDigits fuel sig discard false exp (buffer ++ [digit])

/-- ieee.rs:691-693: `while first_sig < len && buffer[first_sig] == '0'`, on the digits from `first_sig` on. -/
def skipZeros : List Nat → List Nat
  | 0 :: ds => skipZeros ds
  | ds => ds

/-- ieee.rs:695-704: decimal add-with-carry on the digits from `first_sig` on; the nines carried through are
dropped. -/
def carryUp : List Nat → List Nat
  | [] => []
  | d :: ds => if d = 9 then carryUp ds else (d + 1) :: ds

/-- ieee.rs:681-714: drop down to `precision` digits, rounding half up. -/
def dispRound (precision : Nat) (buffer : List Nat) (exp : Int) : M (List Nat × Int) :=
  if buffer.length > precision then do
    let firstSig := buffer.length - precision
    let d ← idx buffer (firstSig - 1)
    let kept := if d < 5 then skipZeros (buffer.drop firstSig) else carryUp (buffer.drop firstSig)
    let dropped := buffer.length - kept.length
    let exp ← i32 (exp + asI32 dropped)
    .ok (if kept = [] then [1] else kept, exp)
  else .ok (buffer, exp)

/-- A decimal digit as a character (`b'0' + digit`; ieee.rs:673). -/
def digitChar (d : Nat) : Char := Char.ofNat (48 + d)

/-- `write!(f, "{:+}", exp)` (`pad = 0`) and `write!(f, "{:+03}", exp)` (`pad = 3`; ieee.rs:766, 768). -/
def fmtExp (pad : Nat) (exp : Int) : List Char :=
  let ds := Nat.toDigits 10 exp.natAbs
  (if exp < 0 then '-' else '+') :: (List.replicate (pad - 1 - ds.length) '0' ++ ds)

/-- ieee.rs:719-739: whether to use scientific notation. -/
def dispScientific (width precision digits : Nat) (exp : Int) : M Bool :=
  if width = 0 then .ok true
  else if exp ≥ 0 then .ok (decide (exp.toNat > width ∨ digits + exp.toNat > precision))
  else do
    let msd ← i32 (exp + asI32 (digits - 1))
    if msd ≥ 0 then .ok false else .ok (decide ((-msd).toNat > width))

/-- ieee.rs:742-772: scientific notation; `buffer` holds the digits, least significant first. -/
def dispSci (precision : Nat) (alternate : Bool) (buffer : List Nat) (exp : Int) : M (List Char) := do
  let digits := buffer.length
  let d1 ← i32 (asI32 digits - 1)
  let exp ← i32 (exp + d1)
  let top ← idx buffer (digits - 1)
  let frac : List Char :=
    if digits = 1 ∧ alternate = false then ['0']
    else ((buffer.take (digits - 1)).reverse).map digitChar
  let fill : List Char :=
    if alternate = true ∧ precision > digits - 1 then List.replicate (precision - digits + 1) '0' else []
  .ok (digitChar top :: '.' :: (frac ++ fill ++
    ((if alternate then 'e' else 'E') :: fmtExp (if alternate then 3 else 0) exp)))

/-- ieee.rs:775-805: positional notation. -/
def dispPlain (buffer : List Nat) (exp : Int) : List Char :=
  if exp ≥ 0 then (buffer.reverse).map digitChar ++ List.replicate exp.toNat '0'
  else
    let unitPlace := (-exp).toNat
    if unitPlace < buffer.length then
      ((buffer.drop unitPlace).reverse).map digitChar ++ '.' :: ((buffer.take unitPlace).reverse).map digitChar
    else
      '0' :: '.' :: (List.replicate (unitPlace - buffer.length) '0' ++ (buffer.reverse).map digitChar)

/-- ieee.rs:546-560: a zero. -/
def dispZero (width : Nat) (precision : Option Nat) (alternate : Bool) : List Char :=
  if width = 0 then
    if alternate then
      "0.0".toList ++ List.replicate (precision.getD 0 - 1) '0' ++ "e+00".toList
    else "0.0E+0".toList
  else ['0']

/-- ieee.rs:571-805: a finite non-zero number, without its sign. -/
def dispNormal (S : Sem) (sig : Nat) (exp : Int) (width : Nat) (precision : Option Nat) (alternate : Bool) :
    M (List Char) := do
  let precision := precision.getD (2 + S.precision * 59 / 196)
  let (big, exp) ← dispScale S sig exp
  let bits ← usize (precision * 196 + 58)
  let required := bits / 59
  let discard := (Sig.omsb big - required) * 59 / 196
  let (buffer, exp) ← dispDigits (128 * big.length + 1) big discard true exp []
  massert (buffer ≠ [])
  let (buffer, exp) ← dispRound precision buffer exp
  let sci ← dispScientific width precision buffer.length exp
  if sci then dispSci precision alternate buffer exp
  else .ok (dispPlain buffer exp)

/-- ieee.rs:525-807 `Display::fmt`, for `{}`-style format strings with the given width, precision and `#` flag.
Writing to the formatter is taken to succeed. -/
def display (x : IeeeFloat S) (width precision : Option Nat) (alternate : Bool) : M (List Char) :=
  let w := width.getD 3
  match x.category with
  | .infinity => .ok (if x.isNegative then "-Inf".toList else "+Inf".toList)
  | .nan => .ok "NaN".toList
  | .zero => .ok ((if x.isNegative then ['-'] else []) ++ dispZero w precision alternate)
  | .normal => do
    let s ← dispNormal S x.sig x.exp w precision alternate
    .ok ((if x.isNegative then ['-'] else []) ++ s)

end IeeeFloat
end Apf
