import Verif.Model.Sig
/-!
# Model of `IeeeFloat<S>` (`/repo/src/ieee.rs`) and of the `Float` trait defaults (`/repo/src/lib.rs`)

The `Semantics` trait becomes the record `Sem`; an implementation of the trait is a value of `Sem`.
`S::from_bits`/`S::to_bits` are overridden only by `X87DoubleExtendedS`; the field
`explicitIntBit` selects the override.
-/

namespace Apf

/-- ieee.rs:121-175 `Semantics`: the associated constants.  `explicitIntBit` is true for
`X87DoubleExtendedS`, the only implementation overriding `from_bits`/`to_bits` (ieee.rs:371-447). -/
structure Sem where
  bits : Nat
  expBits : Nat
  precision : Nat
  nonfinite : NonfiniteBehavior
  maxExp : Int
  minExp : Int
  nanSignificandBase : Nat
  nanPayloadMask : Nat
  qnanSignificand : Nat
  explicitIntBit : Bool
  deriving DecidableEq, Repr

/-- ieee.rs:150 `IEEE_MIN_EXP`. -/
def ieeeMinExp (expBits : Nat) : Int := -(2 ^ (expBits - 1) : Nat) + 2

/-- ieee.rs:121-175: the default associated constants, from `BITS`, `EXP_BITS` and
`NONFINITE_BEHAVIOR`. -/
def Sem.default (bits expBits : Nat) (nf : NonfiniteBehavior) : Sem :=
  let precision := (bits - 1 - expBits) + 1
  { bits, expBits, precision
    nonfinite := nf
    maxExp := (-ieeeMinExp expBits + 1) + (ieeeMinExp expBits - ieeeMinExp expBits)
      + (match nf with | .ieee754 => 0 | .nanOnly => 1)
    minExp := ieeeMinExp expBits
    nanSignificandBase := match nf with | .ieee754 => 0 | .nanOnly => 2 ^ (precision - 1) - 1
    nanPayloadMask := match nf with | .ieee754 => 2 ^ (precision - 1) - 1 | .nanOnly => 0
    qnanSignificand := match nf with | .ieee754 => 2 ^ (precision - 2) | .nanOnly => 0
    explicitIntBit := false }

/-- ieee.rs:312 `HalfS`. -/
def halfS : Sem := Sem.default 16 5 .ieee754
/-- ieee.rs:315 `SingleS`. -/
def singleS : Sem := Sem.default 32 8 .ieee754
/-- ieee.rs:318 `DoubleS`. -/
def doubleS : Sem := Sem.default 64 11 .ieee754
/-- ieee.rs:321 `QuadS`. -/
def quadS : Sem := Sem.default 128 15 .ieee754
/-- ieee.rs:326 `BFloatS`. -/
def bfloatS : Sem := Sem.default 16 8 .ieee754
/-- ieee.rs:332 `Float8E5M2S`. -/
def float8E5M2S : Sem := Sem.default 8 5 .ieee754
/-- ieee.rs:340-342 `Float8E4M3FNS`. -/
def float8E4M3FNS : Sem := Sem.default 8 4 .nanOnly

/-- ieee.rs:356-369 `X87DoubleExtendedS`: `PRECISION` and `QNAN_SIGNIFICAND` are overridden. -/
def x87S : Sem :=
  { bits := 80, expBits := 15, precision := 64
    nonfinite := .ieee754
    maxExp := 16383, minExp := -16382
    nanSignificandBase := 0
    nanPayloadMask := 2 ^ 63 - 1
    qnanSignificand := 3 * 2 ^ 62
    explicitIntBit := true }

/-- ieee.rs:19-45 `IeeeFloat<S>`; `sig` is the single limb of `[Limb; 1]`. -/
structure IeeeFloat (S : Sem) where
  sig : Nat
  exp : Int
  category : Category
  sign : Bool
  deriving DecidableEq, Repr

namespace IeeeFloat
variable {S : Sem}

/-- ieee.rs:1783-1785 `is_negative`. -/
def isNegative (x : IeeeFloat S) : Bool := x.sign

/-- ieee.rs:491-497 `Neg`. -/
def neg (x : IeeeFloat S) : IeeeFloat S := { x with sign := !x.isNegative }

/-- ieee.rs:103-109 `NegExt::negate_if`. -/
def negateIf (x : IeeeFloat S) (negate : Bool) : IeeeFloat S := if negate then x.neg else x

/-- ieee.rs:111-116 `NegExt::with_sign`. -/
def withSign (x : IeeeFloat S) (sign : Bool) : IeeeFloat S := x.negateIf (x.isNegative != sign)

/-- lib.rs:328-334 `abs`. -/
def abs (x : IeeeFloat S) : IeeeFloat S := if x.isNegative then x.neg else x

/-- lib.rs:335-341 `copy_sign`. -/
def copySign (x rhs : IeeeFloat S) : IeeeFloat S :=
  if x.isNegative != rhs.isNegative then x.neg else x

/-- lib.rs:520-522 `is_nan`. -/
def isNan (x : IeeeFloat S) : Bool := x.category == .nan
/-- lib.rs:515-517 `is_infinite`. -/
def isInfinite (x : IeeeFloat S) : Bool := x.category == .infinity
/-- lib.rs:506-508 `is_zero`. -/
def isZero (x : IeeeFloat S) : Bool := x.category == .zero
/-- lib.rs:501-503 `is_finite`. -/
def isFinite (x : IeeeFloat S) : Bool := !x.isNan && !x.isInfinite
/-- lib.rs:530-532 `is_non_zero`. -/
def isNonZero (x : IeeeFloat S) : Bool := !x.isZero
/-- lib.rs:533-535 `is_finite_non_zero`. -/
def isFiniteNonZero (x : IeeeFloat S) : Bool := x.isFinite && !x.isZero
/-- lib.rs:536-538 `is_pos_zero`. -/
def isPosZero (x : IeeeFloat S) : Bool := x.isZero && !x.isNegative
/-- lib.rs:539-541 `is_neg_zero`. -/
def isNegZero (x : IeeeFloat S) : Bool := x.isZero && x.isNegative
/-- lib.rs:542-544 `is_pos_infinity`. -/
def isPosInfinity (x : IeeeFloat S) : Bool := x.isInfinite && !x.isNegative
/-- lib.rs:545-547 `is_neg_infinity`. -/
def isNegInfinity (x : IeeeFloat S) : Bool := x.isInfinite && x.isNegative

/-- ieee.rs:1787-1789 `is_denormal`.  `sig::get_bit` on a `[Limb; 1]` is read with `Nat.testBit`
(the index `PRECISION - 1` is below 128 in every format). -/
def isDenormal (x : IeeeFloat S) : Bool :=
  x.isFiniteNonZero && (x.exp == S.minExp) && !(x.sig.testBit (S.precision - 1))

/-- lib.rs:493-495 `is_normal`. -/
def isNormal (x : IeeeFloat S) : Bool := !x.isDenormal && x.isFiniteNonZero

/-- ieee.rs:1791-1795 `is_signaling`. -/
def isSignaling (x : IeeeFloat S) : Bool :=
  x.isNan && ((x.sig &&& S.qnanSignificand) != S.qnanSignificand)

/-- ieee.rs:885-906 inherent `qnan`, and ieee.rs:938-942 `Float::qnan`. -/
def qnan (S : Sem) (payload : Option Nat) : IeeeFloat S :=
  { sig := S.nanSignificandBase ||| S.qnanSignificand |||
      (match payload with | some p => p &&& S.nanPayloadMask | none => 0)
    exp := match S.nonfinite with | .ieee754 => S.maxExp + 1 | .nanOnly => S.maxExp
    category := .nan
    sign := false }

/-- ieee.rs:936 `NAN`. -/
def NAN (S : Sem) : IeeeFloat S := qnan S none

/-- ieee.rs:915-921 `ZERO`. -/
def ZERO (S : Sem) : IeeeFloat S := { sig := 0, exp := S.minExp - 1, category := .zero, sign := false }

/-- ieee.rs:923-934 `INFINITY`. -/
def INFINITY (S : Sem) : IeeeFloat S :=
  match S.nonfinite with
  | .ieee754 => { sig := 0, exp := S.maxExp + 1, category := .infinity, sign := false }
  | .nanOnly => NAN S

/-- ieee.rs:944-960 `snan`. -/
def snan (S : Sem) (payload : Option Nat) : IeeeFloat S :=
  let x := qnan S payload
  let s := x.sig &&& lnot (S.qnanSignificand &&& S.nanPayloadMask)
  let s := if s &&& S.nanPayloadMask = 0 then s ||| ((S.qnanSignificand &&& S.nanPayloadMask) >>> 1) else s
  { x with sig := s }

/-- ieee.rs:962-983 `largest`. -/
def largest (S : Sem) : IeeeFloat S :=
  { sig := (2 ^ S.precision - 1) &&&
      (match S.nonfinite with | .ieee754 => lnot 0 | .nanOnly => lnot 1)
    exp := S.maxExp, category := .normal, sign := false }

/-- ieee.rs:985-994 `SMALLEST`. -/
def SMALLEST (S : Sem) : IeeeFloat S :=
  { sig := 1, exp := S.minExp, category := .normal, sign := false }

/-- ieee.rs:996-1007 `smallest_normalized`. -/
def smallestNormalized (S : Sem) : IeeeFloat S :=
  { sig := 2 ^ (S.precision - 1), exp := S.minExp, category := .normal, sign := false }

/-! ### Conversion from and to bits -/

/-- ieee.rs:194-208: the closure `try_category_from_special` of `from_bits`. -/
def tryCategoryFromSpecial (r special : IeeeFloat S) : Option Category :=
  let special := special.copySign r
  let sigMask := if special.isNan then lnot S.nanPayloadMask else lnot 0
  if special.isNegative = r.isNegative ∧ special.exp = r.exp
      ∧ special.sig &&& sigMask = r.sig &&& sigMask then
    some special.category
  else none

/-- ieee.rs:177-235 default `Semantics::from_bits`. -/
def fromBitsDefault (S : Sem) (bits : Nat) : M (IeeeFloat S) := do
  massert (S.bits > S.precision)
  let one ← shl 1 (S.bits - 1)
  let sign := bits &&& one
  let e ← shr (bits &&& lnot sign) (S.bits - 1 - S.expBits)
  let one ← shl 1 S.expBits
  let exponent := e &&& (one - 1)
  let one ← shl 1 (S.precision - 1)
  let exp ← i32 (asI32 exponent + (S.minExp - 1))
  let r : IeeeFloat S :=
    { sig := bits &&& (one - 1), exp, category := .zero, sign := sign != 0 }
  match [ZERO S, INFINITY S, NAN S].findSome? (tryCategoryFromSpecial r) with
  | some c => .ok { r with category := c }
  | none =>
    if r.exp = S.minExp - 1 then .ok { r with exp := S.minExp, category := .normal }
    else do
      let l ← Sig.setBit [r.sig] (S.precision - 1)
      let s ← idx l 0
      .ok { r with sig := s, category := .normal }

/-- ieee.rs:378-413 `X87DoubleExtendedS::from_bits`. -/
def fromBitsX87 (S : Sem) (bits : Nat) : M (IeeeFloat S) := do
  let one ← shl 1 (S.bits - 1)
  let sign := bits &&& one
  let e ← shr (bits &&& lnot sign) (S.bits - 1 - S.expBits)
  let one ← shl 1 S.expBits
  let exponent := e &&& (one - 1)
  let one ← shl 1 S.precision
  let exp ← i32 (asI32 exponent + (S.minExp - 1))
  let r : IeeeFloat S :=
    { sig := bits &&& (one - 1), exp, category := .zero, sign := sign != 0 }
  let integerBit ← shr r.sig (S.precision - 1)
  let top ← shl 1 (S.precision - 1)
  if r.exp = S.minExp - 1 ∧ r.sig = 0 then .ok { r with category := .zero }
  else if r.exp = S.maxExp + 1 ∧ r.sig = top then .ok { r with category := .infinity }
  else if (r.exp = S.maxExp + 1 ∧ r.sig ≠ top)
      ∨ (r.exp ≠ S.maxExp + 1 ∧ r.exp ≠ S.minExp - 1 ∧ integerBit = 0) then
    .ok { r with exp := S.maxExp + 1, category := .nan }
  else if r.exp = S.minExp - 1 then .ok { r with exp := S.minExp, category := .normal }
  else .ok { r with category := .normal }

/-- ieee.rs:1566-1569 `Float::from_bits` (dispatch to the semantics). -/
def fromBits (S : Sem) (bits : Nat) : M (IeeeFloat S) :=
  if S.explicitIntBit then fromBitsX87 S bits else fromBitsDefault S bits

/-- ieee.rs:243-270: significand and exponent chosen by category in the default `to_bits`. -/
def toBitsFields (x : IeeeFloat S) (integerBit : Bool) (significand : Nat) : M (Nat × Int) :=
  match x.category with
  | .normal =>
    if x.exp = S.minExp ∧ integerBit = false then do
      let e ← i32 (x.exp - 1)
      .ok (significand, e)
    else .ok (significand, x.exp)
  | .zero => .ok ((ZERO S).sig, (ZERO S).exp)
  | .infinity => .ok ((INFINITY S).sig, (INFINITY S).exp)
  | .nan => .ok (significand, (NAN S).exp)

/-- `e as u128` for an `i32` (sign extension; ieee.rs:273, 443). -/
def i32AsU128 (e : Int) : Nat := if 0 ≤ e then e.toNat else (2 ^ 128 + e).toNat

/-- ieee.rs:237-276 default `Semantics::to_bits`. -/
def toBitsDefault (x : IeeeFloat S) : M Nat := do
  massert (S.bits > S.precision)
  let integerBit ← Sig.getBit [x.sig] (S.precision - 1)
  let one ← shl 1 (S.precision - 1)
  let (significand, exponent) ← toBitsFields x integerBit (x.sig &&& (one - 1))
  let e ← i32 (exponent - (S.minExp - 1))
  let s ← shl x.isNegative.toNat (S.bits - 1)
  let e ← shl (i32AsU128 e) (S.precision - 1)
  .ok (s ||| e ||| significand)

/-- ieee.rs:420-440: significand and exponent chosen by category in `X87DoubleExtendedS::to_bits`. -/
def toBitsX87Fields (x : IeeeFloat S) (integerBit : Bool) (significand top : Nat) : Nat × Int :=
  match x.category with
  | .normal => if x.exp = S.minExp ∧ integerBit = false then (significand, S.minExp - 1) else (significand, x.exp)
  | .zero => (0, S.minExp - 1)
  | .infinity => (top, S.maxExp + 1)
  | .nan => (significand, S.maxExp + 1)

/-- ieee.rs:415-446 `X87DoubleExtendedS::to_bits`. -/
def toBitsX87 (x : IeeeFloat S) : M Nat := do
  let integerBit ← Sig.getBit [x.sig] (S.precision - 1)
  let one ← shl 1 S.precision
  let top ← shl 1 (S.precision - 1)
  let (significand, exponent) := toBitsX87Fields x integerBit (x.sig &&& (one - 1)) top
  let e ← i32 (exponent - (S.minExp - 1))
  let s ← shl x.isNegative.toNat (S.bits - 1)
  let e ← shl (i32AsU128 e) S.precision
  .ok (s ||| e ||| significand)

/-- ieee.rs:1672-1675 `Float::to_bits` (dispatch to the semantics). -/
def toBits (x : IeeeFloat S) : M Nat :=
  if S.explicitIntBit then toBitsX87 x else toBitsDefault x

/-! ### Comparison -/

/-- ieee.rs:1759-1765 `cmp_abs_normal`. -/
def cmpAbsNormal (x y : IeeeFloat S) : M Ordering := do
  massert x.isFiniteNonZero
  massert y.isFiniteNonZero
  match compare x.exp y.exp with
  | .eq => Sig.cmp [x.sig] [y.sig]
  | o => .ok o

/-- ieee.rs:457-489 `partial_cmp`. -/
def partialCmp (x y : IeeeFloat S) : M (Option Ordering) :=
  match x.category, y.category with
  | .nan, _ => .ok none
  | _, .nan => .ok none
  | .infinity, .infinity => .ok (some (boolCmp (!x.isNegative) (!y.isNegative)))
  | .zero, .zero => .ok (some .eq)
  | .infinity, _ => .ok (some (boolCmp (!x.isNegative) x.isNegative))
  | .normal, .zero => .ok (some (boolCmp (!x.isNegative) x.isNegative))
  | _, .infinity => .ok (some (boolCmp y.isNegative (!y.isNegative)))
  | .zero, .normal => .ok (some (boolCmp y.isNegative (!y.isNegative)))
  | .normal, .normal =>
    match boolCmp (!x.isNegative) (!y.isNegative) with
    | .eq => do
      let r ← cmpAbsNormal x y
      .ok (some (if x.isNegative then r.swap else r))
    | o => .ok (some o)

/-- ieee.rs:451-455 `PartialEq::eq`. -/
def eq (x y : IeeeFloat S) : M Bool := do
  let c ← partialCmp x y
  .ok (c = some .eq)

/-- `PartialOrd::lt` (provided by core from `partial_cmp`, ieee.rs:457-489). -/
def lt (x y : IeeeFloat S) : M Bool := do
  let c ← partialCmp x y
  .ok (c = some .lt)

/-- `PartialOrd::gt` (provided by core from `partial_cmp`, ieee.rs:457-489). -/
def gt (x y : IeeeFloat S) : M Bool := do
  let c ← partialCmp x y
  .ok (c = some .gt)

/-- `PartialOrd::ge` (provided by core from `partial_cmp`, ieee.rs:457-489). -/
def ge (x y : IeeeFloat S) : M Bool := do
  let c ← partialCmp x y
  .ok (c = some .gt ∨ c = some .eq)

/-- `PartialOrd::le` (provided by core from `partial_cmp`, ieee.rs:457-489). -/
def le (x y : IeeeFloat S) : M Bool := do
  let c ← partialCmp x y
  .ok (c = some .lt ∨ c = some .eq)

/-- ieee.rs:1767-1781 `bitwise_eq`. -/
def bitwiseEq (x y : IeeeFloat S) : Bool :=
  if x.category ≠ y.category ∨ x.isNegative ≠ y.isNegative then false
  else if x.category = .zero ∨ x.category = .infinity then true
  else if x.isFiniteNonZero ∧ x.exp ≠ y.exp then false
  else x.sig = y.sig

/-- lib.rs:551-553 `is_smallest`. -/
def isSmallest (x : IeeeFloat S) : Bool := ((SMALLEST S).copySign x).bitwiseEq x
/-- lib.rs:557-559 `is_smallest_normalized`. -/
def isSmallestNormalized (x : IeeeFloat S) : Bool := ((smallestNormalized S).copySign x).bitwiseEq x
/-- lib.rs:563-565 `is_largest`. -/
def isLargest (x : IeeeFloat S) : Bool := ((largest S).copySign x).bitwiseEq x

/-- lib.rs:417-427 `min`. -/
def min (x y : IeeeFloat S) : M (IeeeFloat S) :=
  if x.isNan then .ok y
  else if y.isNan then .ok x
  else do
    let b ← lt y x
    .ok (if b then y else x)

/-- lib.rs:431-441 `max`. -/
def max (x y : IeeeFloat S) : M (IeeeFloat S) :=
  if x.isNan then .ok y
  else if y.isNan then .ok x
  else do
    let b ← lt x y
    .ok (if b then y else x)

/-- lib.rs:445-461 `minimum`. -/
def minimum (x y : IeeeFloat S) : M (IeeeFloat S) :=
  if x.isNan then .ok x
  else if y.isNan then .ok y
  else if x.isZero && y.isZero && (x.isNegative != y.isNegative) then
    .ok (if x.isNegative then x else y)
  else do
    let b ← lt y x
    .ok (if b then y else x)

/-- lib.rs:465-481 `maximum`. -/
def maximum (x y : IeeeFloat S) : M (IeeeFloat S) :=
  if x.isNan then .ok x
  else if y.isNan then .ok y
  else if x.isZero && y.isZero && (x.isNegative != y.isNegative) then
    .ok (if x.isNegative then y else x)
  else do
    let b ← lt x y
    .ok (if b then y else x)

/-! ### NaN handling -/

/-- ieee.rs:1904-1906 `is_x87_double_extended` (also the test of ieee.rs:838). -/
def isX87 (S : Sem) : Bool := S.qnanSignificand == x87S.qnanSignificand

/-- ieee.rs:829-866 `result_from_nan`. -/
def resultFromNan (r : IeeeFloat S) : M (StatusAnd (IeeeFloat S)) := do
  massert r.isNan
  if r.isSignaling then
    let q := if isX87 S then S.qnanSignificand &&& S.nanPayloadMask else S.qnanSignificand
    .ok (Status.INVALID_OP.and { r with sig := r.sig ||| q })
  else .ok (Status.OK.and r)

/-- ieee.rs:868-879 `binop_result_from_either_nan`. -/
def binopResultFromEitherNan (a b : IeeeFloat S) : M (StatusAnd (IeeeFloat S)) := do
  let r ← (match a.category, b.category with
    | .nan, _ => .ok a
    | _, .nan => .ok b
    | _, _ => .error .unreachable : M (IeeeFloat S))
  let sr ← resultFromNan r
  if b.isSignaling then .ok { sr with status := sr.status ||| Status.INVALID_OP }
  else .ok sr

/-! ### Rounding -/

/-- ieee.rs:2003-2012 `overflow_result`. -/
def overflowResult (S : Sem) (round : Round) : StatusAnd (IeeeFloat S) :=
  match round with
  | .nearestTiesToEven | .nearestTiesToAway | .towardPositive =>
    (Status.OVERFLOW ||| Status.INEXACT).and (INFINITY S)
  | .towardNegative | .towardZero => Status.INEXACT.and (largest S)

/-- ieee.rs:2019-2044 `round_away_from_zero`. -/
def roundAwayFromZero (x : IeeeFloat S) (round : Round) (loss : Loss) (bit : Nat) : M Bool := do
  massert (x.isFiniteNonZero ∨ x.isZero)
  massert (loss ≠ .exactlyZero)
  match round with
  | .nearestTiesToAway => .ok (loss = .exactlyHalf ∨ loss = .moreThanHalf)
  | .nearestTiesToEven =>
    if loss = .moreThanHalf then .ok true
    else if loss = .exactlyHalf ∧ x.category ≠ .zero then Sig.getBit [x.sig] bit
    else .ok false
  | .towardZero => .ok false
  | .towardPositive => .ok (!x.isNegative)
  | .towardNegative => .ok x.isNegative

/-- ieee.rs:2096-2099 and 2144-2147: the significand is the one `NAN` takes up under `NanOnly`. -/
def isNanOnlyPattern (x : IeeeFloat S) : Bool :=
  S.nonfinite == .nanOnly && x.exp == (NAN S).exp && (x.sig &&& S.nanSignificandBase) == (NAN S).sig

/-- ieee.rs:2152-2167: end of `normalize`, after the optional increment. -/
def normalizeEnd (x : IeeeFloat S) (omsb : Nat) : M (StatusAnd (IeeeFloat S)) :=
  if omsb = S.precision then .ok (Status.INEXACT.and x)
  else do
    massert (omsb < S.precision)
    let x := if omsb = 0 then (ZERO S).copySign x else x
    .ok ((Status.UNDERFLOW ||| Status.INEXACT).and x)

/-- ieee.rs:2093-2168: the rounding half of `normalize`, once the exponent is final. -/
def normalizeRound (x : IeeeFloat S) (round : Round) (loss : Loss) (omsb : Nat) :
    M (StatusAnd (IeeeFloat S)) :=
  if x.isNanOnlyPattern then .ok ((overflowResult S round).map (·.copySign x))
  else if loss = .exactlyZero then
    .ok (Status.OK.and (if omsb = 0 then (ZERO S).copySign x else x))
  else do
    let away ← x.roundAwayFromZero round loss 0
    if away then do
      let x := if omsb = 0 then { x with exp := S.minExp } else x
      let (l, c) := Sig.increment [x.sig]
      massert (c = 0)
      let s ← idx l 0
      let x := { x with sig := s }
      let omsb := Sig.omsb [x.sig]
      if omsb = S.precision + 1 then
        if x.exp = S.maxExp then
          .ok ((Status.OVERFLOW ||| Status.INEXACT).and ((INFINITY S).copySign x))
        else do
          let (s, e, _) ← Sig.shiftRight1 x.sig x.exp 1
          .ok (Status.INEXACT.and { x with sig := s, exp := e })
      else if x.isNanOnlyPattern then .ok ((overflowResult S round).map (·.copySign x))
      else x.normalizeEnd omsb
    else x.normalizeEnd omsb

/-- ieee.rs:2046-2168 `normalize`. -/
def normalize (x : IeeeFloat S) (round : Round) (loss : Loss) : M (StatusAnd (IeeeFloat S)) :=
  if !x.isFiniteNonZero then .ok (Status.OK.and x)
  else
    let omsb := Sig.omsb [x.sig]
    if omsb > 0 then
      let finalExp := sat32 (x.exp + (asI32 omsb - asI32 S.precision))
      if finalExp > S.maxExp then
        .ok ((overflowResult S (round.negateIf x.isNegative)).map (·.copySign x))
      else
        let finalExp := if finalExp < S.minExp then S.minExp else finalExp
        if finalExp < x.exp then do
          massert (loss = .exactlyZero)
          let expChange ← i32 (x.exp - finalExp)
          let (s, e) ← Sig.shiftLeft1 x.sig x.exp expChange.toNat
          .ok (Status.OK.and { x with sig := s, exp := e })
        else if finalExp > x.exp then do
          let expChange ← i32 (finalExp - x.exp)
          let (s, e, l) ← Sig.shiftRight1 x.sig x.exp expChange.toNat
          normalizeRound { x with sig := s, exp := e } round (l.combine loss) (omsb - expChange.toNat)
        else normalizeRound x round loss omsb
    else normalizeRound x round loss omsb

/-! ### Arithmetic -/

/-- ieee.rs:1056-1063: sign of an exact zero sum. -/
def fixZeroSign (x rhs : IeeeFloat S) (round : Round) : IeeeFloat S :=
  if x.category = .zero ∧ (rhs.category ≠ .zero ∨ x.isNegative ≠ rhs.isNegative) then
    x.withSign (round = .towardNegative)
  else x

/-- ieee.rs:1034-1053: the `(Normal, Normal)` arm of `add_r`. -/
def addNormals (x rhs : IeeeFloat S) (round : Round) : M (StatusAnd (IeeeFloat S)) := do
  let o ← Sig.addOrSub [x.sig] x.exp x.isNegative [rhs.sig] rhs.exp rhs.isNegative
  let s ← idx o.sig 0
  let y := ({ x with sig := s, exp := o.exp } : IeeeFloat S).withSign o.sign
  let r ← y.normalize round o.loss
  massert (r.value.category ≠ .zero ∨ o.loss = .exactlyZero)
  .ok r

/-- ieee.rs:1009-1066 `add_r`. -/
def addR (x rhs : IeeeFloat S) (round : Round) : M (StatusAnd (IeeeFloat S)) :=
  match x.category, rhs.category with
  | .nan, _ => binopResultFromEitherNan x rhs
  | _, .nan => binopResultFromEitherNan x rhs
  | .infinity, .infinity =>
    if x.isNegative ≠ rhs.isNegative then .ok (Status.INVALID_OP.and (fixZeroSign (NAN S) rhs round))
    else .ok (Status.OK.and (fixZeroSign x rhs round))
  | _, .zero => .ok (Status.OK.and (fixZeroSign x rhs round))
  | .infinity, .normal => .ok (Status.OK.and (fixZeroSign x rhs round))
  | .zero, _ => .ok (Status.OK.and (fixZeroSign rhs rhs round))
  | _, .infinity => .ok (Status.OK.and (fixZeroSign rhs rhs round))
  | .normal, .normal => do
    let r ← addNormals x rhs round
    .ok (r.map (fixZeroSign · rhs round))

/-- ieee.rs:1070-1078 `sub_r`. -/
def subR (x rhs : IeeeFloat S) (round : Round) : M (StatusAnd (IeeeFloat S)) :=
  match x.category, rhs.category with
  | .nan, _ => binopResultFromEitherNan x rhs
  | _, .nan => binopResultFromEitherNan x rhs
  | _, _ => addR x rhs.neg round

/-- ieee.rs:1105-1107, 1217-1219, 1260-1262: `if loss != ExactlyZero { status |= INEXACT }`. -/
def orInexact (r : StatusAnd (IeeeFloat S)) (loss : Loss) : StatusAnd (IeeeFloat S) :=
  if loss ≠ .exactlyZero then { r with status := r.status ||| Status.INEXACT } else r

/-- ieee.rs:1098-1109: the `(Normal, Normal)` arm of `mul_r` (`x` already carries the result's sign). -/
def mulNormals (x rhs : IeeeFloat S) (round : Round) : M (StatusAnd (IeeeFloat S)) := do
  let e ← i32 (x.exp + rhs.exp)
  let (wide, e, loss) ← Sig.mul [0, 0] e [x.sig] [rhs.sig] S.precision
  let s ← idx wide 0
  let r ← ({ x with sig := s, exp := e } : IeeeFloat S).normalize round loss
  .ok (orInexact r loss)

/-- ieee.rs:1080-1111 `mul_r`. -/
def mulR (x rhs : IeeeFloat S) (round : Round) : M (StatusAnd (IeeeFloat S)) :=
  let x := x.negateIf rhs.isNegative
  match x.category, rhs.category with
  | .nan, _ => binopResultFromEitherNan (x.negateIf rhs.isNegative) rhs
  | _, .nan => binopResultFromEitherNan (x.negateIf rhs.isNegative) rhs
  | .zero, .infinity => .ok (Status.INVALID_OP.and (NAN S))
  | .infinity, .zero => .ok (Status.INVALID_OP.and (NAN S))
  | .infinity, _ => .ok (Status.OK.and ((INFINITY S).copySign x))
  | _, .infinity => .ok (Status.OK.and ((INFINITY S).copySign x))
  | .zero, _ => .ok (Status.OK.and ((ZERO S).copySign x))
  | _, .zero => .ok (Status.OK.and ((ZERO S).copySign x))
  | .normal, .normal => mulNormals x rhs round

/-- Result of aligning and adding the addend in `mul_add_r` (ieee.rs:1113-1225): the state before line 1198. -/
structure FmaMid where
  wide : List Nat
  exp : Int
  sign : Bool
  loss : Loss
  omsb : Nat

/-- ieee.rs:1168-1197: the addition step of `mul_add_r`. -/
def fmaAddend (S : Sem) (wide : List Nat) (exp : Int) (sign : Bool) (omsb : Nat) (addend : IeeeFloat S) :
    M FmaMid :=
  if addend.isNonZero then do
    let extPrecision := 2 * S.precision + 1
    let (wide, exp) ←
      (if omsb ≠ extPrecision - 1 then do
        massert (extPrecision > omsb)
        let k ← usub (extPrecision - 1) omsb
        Sig.shiftLeft wide exp k
      else .ok (wide, exp) : M (List Nat × Int))
    let (ext, _) ← Sig.shiftLeft [addend.sig, 0] 0 (extPrecision - 1 - S.precision)
    let be ← i32 (addend.exp + 1)
    let o ← Sig.addOrSub wide exp sign ext be addend.isNegative
    .ok ⟨o.sig, o.exp, o.sign, o.loss, Sig.omsb o.sig⟩
  else .ok ⟨wide, exp, sign, .exactlyZero, omsb⟩

/-- ieee.rs:1199-1219: the end of `mul_add_r`, from the wide sum to the rounded result (`x` already carries
the sign of the sum). -/
def fmaFinish (x : IeeeFloat S) (mid : FmaMid) (round : Round) : M (StatusAnd (IeeeFloat S)) := do
  let d ← i32 (asI32 S.precision + 1)
  let e ← i32 (mid.exp - d)
  let (wide, e, loss) ←
    (if mid.omsb > S.precision then do
      let (w, e, l) ← Sig.shiftRight mid.wide e (mid.omsb - S.precision)
      .ok (w, e, l.combine mid.loss)
    else .ok (mid.wide, e, mid.loss) : M (List Nat × Int × Loss))
  let s ← idx wide 0
  let r ← ({ x with sig := s, exp := e } : IeeeFloat S).normalize round loss
  .ok (orInexact r loss)

/-- ieee.rs:1144-1231: the extended-precision path of `mul_add_r`. -/
def fmaNormals (x m addend : IeeeFloat S) (round : Round) : M (StatusAnd (IeeeFloat S)) := do
  let x := x.negateIf m.isNegative
  massert (limbsForBits (S.precision * 2 + 1) ≤ 2)
  let wide ← Sig.wideningMul x.sig m.sig
  let omsb := Sig.omsb wide
  let e ← i32 (x.exp + m.exp)
  let e ← i32 (e + 2)
  let mid ← fmaAddend S wide e x.isNegative omsb addend
  let x := x.withSign mid.sign
  let r ← fmaFinish x mid round
  if r.value.category = .zero ∧ r.status.underflow = false ∧ r.value.isNegative ≠ addend.isNegative then
    .ok (r.map (·.withSign (round = .towardNegative)))
  else .ok r

/-- ieee.rs:1113-1232 `mul_add_r`. -/
def mulAddR (x m addend : IeeeFloat S) (round : Round) : M (StatusAnd (IeeeFloat S)) :=
  if !x.isFiniteNonZero || !m.isFiniteNonZero || !addend.isFinite then
    if x.isFiniteNonZero && m.isFiniteNonZero then do
      massert (addend.isFinite = false)
      addR x addend round
    else do
      let r ← mulR x m round
      if r.status = Status.OK then addR r.value addend round else .ok r
  else fmaNormals x m addend round

/-- ieee.rs:1254-1264: the `(Normal, Normal)` arm of `div_r` (`x` already carries the result's sign). -/
def divNormals (x rhs : IeeeFloat S) (round : Round) : M (StatusAnd (IeeeFloat S)) := do
  let e ← i32 (x.exp - rhs.exp)
  let (q, e, loss) ← Sig.div [x.sig] e [x.sig] [rhs.sig] S.precision
  let s ← idx q 0
  let r ← ({ x with sig := s, exp := e } : IeeeFloat S).normalize round loss
  .ok (orInexact r loss)

/-- ieee.rs:1234-1266 `div_r`. -/
def divR (x rhs : IeeeFloat S) (round : Round) : M (StatusAnd (IeeeFloat S)) :=
  let x := x.negateIf rhs.isNegative
  match x.category, rhs.category with
  | .nan, _ => binopResultFromEitherNan (x.negateIf rhs.isNegative) rhs
  | _, .nan => binopResultFromEitherNan (x.negateIf rhs.isNegative) rhs
  | .infinity, .infinity => .ok (Status.INVALID_OP.and (NAN S))
  | .zero, .zero => .ok (Status.INVALID_OP.and (NAN S))
  | .infinity, _ => .ok (Status.OK.and x)
  | .zero, _ => .ok (Status.OK.and x)
  | _, .infinity => .ok (Status.OK.and ((ZERO S).copySign x))
  | _, .zero => .ok (Status.DIV_BY_ZERO.and ((INFINITY S).copySign x))
  | .normal, .normal => divNormals x rhs round

/-! ### Exponent manipulation -/

/-- ieee.rs:1833-1851 `ilogb`. -/
def ilogb (x : IeeeFloat S) : M Int :=
  if x.isNan then .ok iekNan
  else if x.isZero then .ok iekZero
  else if x.isInfinite then .ok iekInf
  else if !x.isDenormal then .ok x.exp
  else do
    let sigBits := asI32 (S.precision - 1)
    let e ← i32 (x.exp + sigBits)
    let r ← ({ x with exp := e } : IeeeFloat S).normalize .nearestTiesToEven .exactlyZero
    i32 (r.value.exp - sigBits)

/-- ieee.rs:1853-1871 `scalbn_r`.  (`exp` is an `i32`.) -/
def scalbnR (x : IeeeFloat S) (exp : Int) (round : Round) : M (IeeeFloat S) := do
  let sigBits := asI32 (S.precision - 1)
  let t ← i32 (S.minExp - sigBits)
  let t ← i32 (S.maxExp - t)
  let maxChange ← i32 (t + 1)
  let lo ← i32 (-maxChange - 1)
  let expChange := Min.min (Max.max exp lo) maxChange
  let r ← ({ x with exp := sat32 (x.exp + expChange) } : IeeeFloat S).normalize round .exactlyZero
  if r.value.isNan then do
    let q ← resultFromNan r.value
    .ok q.value
  else .ok r.value

/-- lib.rs:592-594 `scalbn`. -/
def scalbn (x : IeeeFloat S) (exp : Int) : M (IeeeFloat S) := scalbnR x exp .nearestTiesToEven

/-- ieee.rs:1873-1894 `frexp_r`: the returned fraction and exponent. -/
def frexpR (x : IeeeFloat S) (round : Round) : M (IeeeFloat S × Int) := do
  let e ← ilogb x
  if e = iekNan then do
    let q ← resultFromNan x
    .ok (q.value, e)
  else if e = iekInf then .ok (x, e)
  else do
    let e ← (if e = iekZero then .ok 0 else i32 (e + 1) : M Int)
    let ne ← i32 (-e)
    let r ← scalbnR x ne round
    .ok (r, e)

/-! ### Remainders -/

/-- ieee.rs:1384-1400: the loop of `c_fmod`.  The Rust loop has no bound; the model's has `fuel`
iterations and reports `Panic.fuel` when they do not suffice. -/
def fmodLoop (rhs : IeeeFloat S) : Nat → IeeeFloat S → M (IeeeFloat S)
  | 0, _ => .error .fuel
  | fuel + 1, x =>
    if x.isFiniteNonZero && rhs.isFiniteNonZero then do
      let c ← cmpAbsNormal x rhs
      if c ≠ .lt then do
        let a ← ilogb x
        let b ← ilogb rhs
        let exp ← i32 (a - b)
        let v ← scalbn rhs exp
        let v ←
          (if v.isNan then do
            let e ← i32 (exp - 1)
            scalbn rhs e
          else do
            let c ← cmpAbsNormal x v
            if c = .lt then do
              let e ← i32 (exp - 1)
              scalbn rhs e
            else .ok v : M (IeeeFloat S))
        let v := v.copySign x
        let r ← subR x v .nearestTiesToEven
        massert (r.status = Status.OK)
        fmodLoop rhs fuel r.value
      else .ok x
    else .ok x

/-- ieee.rs:1371-1407 `c_fmod`.  `fuel` bounds the loop of the model. -/
def cFmodFuel (fuel : Nat) (x rhs : IeeeFloat S) : M (StatusAnd (IeeeFloat S)) :=
  match x.category, rhs.category with
  | .nan, _ => binopResultFromEitherNan x rhs
  | _, .nan => binopResultFromEitherNan x rhs
  | .infinity, _ => .ok (Status.INVALID_OP.and (NAN S))
  | _, .zero => .ok (Status.INVALID_OP.and (NAN S))
  | .zero, _ => .ok (Status.OK.and x)
  | _, .infinity => .ok (Status.OK.and x)
  | .normal, .normal => do
    let r ← fmodLoop rhs fuel x
    .ok (Status.OK.and (if r.isZero then r.copySign x else r))

/-- Fuel used for `c_fmod` (ieee.rs:1371-1407): more than the number of binades of the format, so that it never runs out
(`Verif.Props.Rem`). -/
def fmodFuel (S : Sem) : Nat := (S.maxExp - S.minExp).toNat + S.precision + 2

/-- ieee.rs:1371-1407 `c_fmod`. -/
def cFmod (x rhs : IeeeFloat S) : M (StatusAnd (IeeeFloat S)) := cFmodFuel (fmodFuel S) x rhs

/-- ieee.rs:1331-1350: the closure `lossless_2x` of `ieee_rem`. -/
def lossless2x (x : IeeeFloat S) : M (IeeeFloat S) := do
  let e ← i32 (x.exp + 1)
  let x : IeeeFloat S := { x with exp := e }
  if x.exp ≥ S.maxExp then .ok x
  else do
    let r ← x.normalize .nearestTiesToEven .exactlyZero
    massert (r.status = Status.OK)
    .ok r.value

/-- ieee.rs:1352-1360: the final one or two subtractions of `ieee_rem`. -/
def remSteps (x p : IeeeFloat S) : M (IeeeFloat S) := do
  let d ← lossless2x x
  let b ← gt d p
  if b then do
    let r ← subR x p .nearestTiesToEven
    massert (r.status = Status.OK)
    let x := r.value
    let d ← lossless2x x
    let b ← ge d p
    if b then do
      let r ← subR x p .nearestTiesToEven
      massert (r.status = Status.OK)
      .ok r.value
    else .ok x
  else .ok x

/-- ieee.rs:1268-1369 `ieee_rem`. -/
def ieeeRem (x rhs : IeeeFloat S) : M (StatusAnd (IeeeFloat S)) :=
  match x.category, rhs.category with
  | .nan, _ => binopResultFromEitherNan x rhs
  | _, .nan => binopResultFromEitherNan x rhs
  | .infinity, _ => .ok (Status.INVALID_OP.and (NAN S))
  | _, .zero => .ok (Status.INVALID_OP.and (NAN S))
  | .zero, _ => .ok (Status.OK.and x)
  | _, .infinity => .ok (Status.OK.and x)
  | .normal, .normal => do
    let p2 ← addR rhs rhs .nearestTiesToEven
    let y ←
      (if p2.status = Status.OK then do
        let r ← cFmod x p2.value
        massert (r.status = Status.OK)
        .ok r.value
      else .ok x : M (IeeeFloat S))
    let r ← remSteps y.abs rhs.abs
    if r.isZero then .ok (Status.OK.and (r.copySign x))
    else .ok (Status.OK.and (r.negateIf x.isNegative))

/-! ### Integers -/

/-- ieee.rs:1571-1580 `from_u128_r`. -/
def fromU128R (S : Sem) (input : Nat) (round : Round) : M (StatusAnd (IeeeFloat S)) := do
  let e ← i32 (asI32 S.precision - 1)
  ({ sig := input, exp := e, category := .normal, sign := false } : IeeeFloat S).normalize round .exactlyZero

/-- lib.rs:345-351 `from_i128_r`.  `input` ranges over `-2^127 .. 2^127`; `wrapping_neg() as u128` is
the absolute value. -/
def fromI128R (S : Sem) (input : Int) (round : Round) : M (StatusAnd (IeeeFloat S)) :=
  if input < 0 then do
    let r ← fromU128R S (-input).toNat round.neg
    .ok (r.map neg)
  else fromU128R S input.toNat round

/-- ieee.rs:1409-1460 `round_to_integral`. -/
def roundToIntegral (x : IeeeFloat S) (round : Round) : M (StatusAnd (IeeeFloat S)) :=
  match x.category with
  | .nan => resultFromNan x
  | .infinity => .ok (Status.OK.and x)
  | .zero => .ok (Status.OK.and x)
  | .normal => do
    let e ← i32 (x.exp + 1)
    if e ≥ asI32 S.precision then .ok (Status.OK.and x)
    else do
      massert (S.precision ≤ 128)
      let one ← shl 1 (S.precision - 1)
      let magic ← fromU128R S one .nearestTiesToEven
      massert (magic.status = Status.OK)
      let magic := magic.value.copySign x
      let r ← addR x magic round
      let r2 ← subR r.value magic round
      .ok (r.status.and (r2.value.copySign x))

/-- lib.rs:568-574 `is_integer`. -/
def isInteger (x : IeeeFloat S) : M Bool :=
  if !x.isFinite then .ok false
  else do
    let r ← roundToIntegral x .towardZero
    .ok (r.value.bitwiseEq x)

/-- A result together with the final value of the `is_exact: &mut bool` argument (ieee.rs:1677, lib.rs:377). -/
structure IntOut (α : Type) where
  status : Status
  value : α
  isExact : Bool
  deriving DecidableEq, Repr

/-- ieee.rs:1703-1729: step 1 of `to_u128_r`: the truncated absolute value and the number of truncated
bits, or `none` when the value is hopelessly large. -/
def toU128Trunc (x : IeeeFloat S) (width : Nat) : M (Option (Nat × Nat)) :=
  if x.exp < 0 then .ok (some (0, S.precision - 1 + (-x.exp).toNat))
  else
    let bits := x.exp.toNat + 1
    if bits > width then .ok none
    else if bits < S.precision then do
      let r ← shr x.sig (S.precision - bits)
      .ok (some (r, S.precision - bits))
    else do
      let r ← shl x.sig (bits - S.precision)
      .ok (some (r, 0))

/-- ieee.rs:1744-1754: step 3 of `to_u128_r`. -/
def toU128Fit (r overflow : Nat) (loss : Loss) : IntOut Nat :=
  if r > overflow then ⟨Status.INVALID_OP, overflow, false⟩
  else if loss = .exactlyZero then ⟨Status.OK, r, true⟩
  else ⟨Status.INEXACT, r, false⟩

/-- ieee.rs:1677-1757 `to_u128_r`. -/
def toU128R (x : IeeeFloat S) (width : Nat) (round : Round) : M (IntOut Nat) := do
  let overflow ←
    (if x.isNegative then .ok 0
    else do
      let k ← usub 128 width
      shr limbMax k : M Nat)
  match x.category with
  | .nan => .ok ⟨Status.INVALID_OP, 0, false⟩
  | .infinity => .ok ⟨Status.INVALID_OP, overflow, false⟩
  | .zero => .ok ⟨Status.OK, 0, !x.isNegative⟩
  | .normal => do
    match ← toU128Trunc x width with
    | none => .ok ⟨Status.INVALID_OP, overflow, false⟩
    | some (r, truncatedBits) =>
      if truncatedBits > 0 then
        let loss := Loss.throughTruncation [x.sig] truncatedBits
        if loss ≠ .exactlyZero then do
          let away ← x.roundAwayFromZero round loss truncatedBits
          if away then
            let r := (r + 1) % 2 ^ 128
            if r = 0 then .ok ⟨Status.INVALID_OP, overflow, false⟩
            else .ok (toU128Fit r overflow loss)
          else .ok (toU128Fit r overflow loss)
        else .ok (toU128Fit r overflow loss)
      else .ok (toU128Fit r overflow .exactlyZero)

/-- `n as i128` for a `u128`: two's complement reading (lib.rs:392, 397). -/
def u128AsI128 (n : Nat) : Int :=
  if n % 2 ^ 128 < 2 ^ 127 then ((n % 2 ^ 128 : Nat) : Int) else ((n % 2 ^ 128 : Nat) : Int) - 2 ^ 128

/-- lib.rs:377-399 `to_i128_r`. -/
def toI128R (x : IeeeFloat S) (width : Nat) (round : Round) : M (IntOut Int) :=
  if x.isNegative then do
    let r ← toU128R x.neg width round.neg
    let k ← usub width 1
    let top ← shl 1 k
    if r.value > top then
      -- `-1 << (width - 1)` on `i128`
      .ok ⟨Status.INVALID_OP, u128AsI128 ((limbMax <<< k) % 2 ^ 128), false⟩
    else .ok ⟨r.status, u128AsI128 (wneg r.value), r.isExact⟩
  else do
    let k ← usub width 1
    let r ← toU128R x k round
    .ok ⟨r.status, u128AsI128 r.value, r.isExact⟩

/-! ### Neighbours, inverse -/

/-- ieee.rs:1500-1561: the `Normal` arm of `next_up`, away from the extremes. -/
def nextUpNormal (x : IeeeFloat S) : M (IeeeFloat S) := do
  let one ← shl 1 (S.precision - 1)
  let sigMask := one - 1
  if x.isNegative then
    let crossing := decide (x.exp ≠ S.minExp ∧ x.sig &&& sigMask = 0)
    let (l, _) := Sig.decrement [x.sig]
    if crossing then do
      let l ← Sig.setBit l (S.precision - 1)
      let s ← idx l 0
      let e ← i32 (x.exp - 1)
      .ok { x with sig := s, exp := e }
    else do
      let s ← idx l 0
      .ok { x with sig := s }
  else
    let crossing := decide (x.isDenormal = false ∧ x.sig &&& sigMask = sigMask)
    if crossing then do
      let l ← Sig.setBit [0] (S.precision - 1)
      let s ← idx l 0
      massert (x.exp ≠ S.maxExp)
      let e ← i32 (x.exp + 1)
      .ok { x with sig := s, exp := e }
    else do
      let (l, _) := Sig.increment [x.sig]
      let s ← idx l 0
      .ok { x with sig := s }

/-- ieee.rs:1462-1564 `next_up`. -/
def nextUp (x : IeeeFloat S) : M (StatusAnd (IeeeFloat S)) :=
  match x.category with
  | .infinity =>
    if x.isNegative then .ok (Status.OK.and (largest S).neg) else .ok (Status.OK.and x)
  | .nan =>
    if x.isSignaling then .ok (Status.INVALID_OP.and ((NAN S).copySign x)) else .ok (Status.OK.and x)
  | .zero => .ok (Status.OK.and (SMALLEST S))
  | .normal =>
    if x.isSmallest && x.isNegative then .ok (Status.OK.and (ZERO S).neg)
    else if x.isLargest && !x.isNegative then .ok (Status.OK.and (INFINITY S))
    else do
      let r ← nextUpNormal x
      .ok (Status.OK.and r)

/-- lib.rs:324-326 `next_down`. -/
def nextDown (x : IeeeFloat S) : M (StatusAnd (IeeeFloat S)) := do
  let r ← nextUp x.neg
  .ok (r.map neg)

/-- ieee.rs:1801-1831 `get_exact_inverse`. -/
def getExactInverse (x : IeeeFloat S) : M (Option (IeeeFloat S)) :=
  if !x.isFiniteNonZero then .ok none
  else do
    let top ← shl 1 (S.precision - 1)
    if x.sig ≠ top then .ok none
    else do
      let one ← fromU128R S 1 .nearestTiesToEven
      let r ← divR one.value x .nearestTiesToEven
      if r.status ≠ Status.OK then .ok none
      else if r.value.isDenormal then .ok none
      else do
        massert r.value.isFiniteNonZero
        massert (r.value.sig = top)
        .ok (some r.value)

/-! ### Conversion between formats -/

/-- ieee.rs:1932-1950: the shift and exponent adjustments of a truncating conversion. -/
def convertShift (S T : Sem) (sig : Nat) (exp : Int) (shift : Int) : M (Int × Int) := do
  let omsb := asI32 (Sig.omsb [sig])
  let expChange ← i32 (omsb - asI32 S.precision)
  let t ← i32 (exp + expChange)
  let expChange ← (if t < T.minExp then i32 (T.minExp - exp) else .ok expChange : M Int)
  let expChange := if expChange < shift then shift else expChange
  if expChange < 0 then do
    let s ← i32 (shift - expChange)
    let e ← i32 (exp + expChange)
    .ok (s, e)
  else if omsb ≤ -shift then do
    let t ← i32 (omsb + shift)
    let expChange ← i32 (t - 1)
    let s ← i32 (shift - expChange)
    let e ← i32 (exp + expChange)
    .ok (s, e)
  else .ok (shift, exp)

/-- A conversion result together with the final value of `loses_info: &mut bool` (ieee.rs:1898). -/
structure ConvOut (T : Sem) where
  status : Status
  value : IeeeFloat T
  losesInfo : Bool
  deriving DecidableEq, Repr

/-- ieee.rs:1952-1961: the shift of the significand. -/
def convertSig (S : Sem) (x : IeeeFloat S) (sig : Nat) (shift : Int) : M (Nat × Loss) := do
  let (sig, loss) ←
    (if shift < 0 ∧ (x.isFiniteNonZero ∨ (x.category = .nan ∧ S.nanPayloadMask ≠ 0)) then do
      let (s, _, l) ← Sig.shiftRight1 sig 0 (-shift).toNat
      .ok (s, l)
    else .ok (sig, .exactlyZero) : M (Nat × Loss))
  if shift > 0 ∧ (x.isFiniteNonZero ∨ x.category = .nan) then do
    let (s, _) ← Sig.shiftLeft1 sig 0 shift.toNat
    .ok (s, loss)
  else .ok (sig, loss)

/-- ieee.rs:1963-1995: result, status and `loses_info` of `convert_r` by category. -/
def convertFinish (S T : Sem) (x : IeeeFloat S) (round : Round) (status : Status) (losesPseudo : Bool)
    (sig : Nat) (exp : Int) (loss : Loss) : M (ConvOut T) := do
  let (status, r, losesInfo) ←
    (match x.category with
    | .normal => do
      let r ← ({ sig, exp, category := x.category, sign := x.isNegative } : IeeeFloat T).normalize round loss
      .ok (status ||| r.status, r.value, false)
    | .nan =>
      .ok (status, (qnan T (some sig)).withSign x.isNegative,
        decide (loss ≠ .exactlyZero) || losesPseudo || (S.nanPayloadMask != 0 && T.nanPayloadMask == 0))
    | .infinity => .ok (status, (INFINITY T).withSign x.isNegative, false)
    | .zero => .ok (status, (ZERO T).withSign x.isNegative, false) : M (Status × IeeeFloat T × Bool))
  let status :=
    if (x.category = .infinity ∨ x.category = .zero)
        ∧ (r.category ≠ x.category ∨ r.isNegative ≠ x.isNegative) then
      status ||| Status.INEXACT
    else status
  .ok ⟨status, r, losesInfo || decide (status.diff Status.INVALID_OP ≠ Status.OK)⟩

/-- ieee.rs:1897-1997 `convert_r`. -/
def convertR (S T : Sem) (x : IeeeFloat S) (round : Round) : M (ConvOut T) := do
  let losesPseudo := isX87 S && !isX87 T && (x.category == .nan)
    && ((x.sig &&& S.qnanSignificand) != S.qnanSignificand)
  let q ← (if x.isNan then resultFromNan x else .ok (Status.OK.and x) : M (StatusAnd (IeeeFloat S)))
  let x := q.value
  let shift ← i32 (asI32 T.precision - asI32 S.precision)
  let (shift, exp) ←
    (if shift < 0 ∧ x.isFiniteNonZero then convertShift S T x.sig x.exp shift
    else .ok (shift, x.exp) : M (Int × Int))
  let (sig, loss) ← convertSig S x x.sig shift
  convertFinish S T x round q.status losesPseudo sig exp loss

end IeeeFloat
end Apf
