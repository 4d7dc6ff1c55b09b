import Verif.Model.Str
/-!
# Model of `DoubleFloat<F>` (`/repo/src/ppc.rs`)

`F` ranges over `IeeeFloat<S>`; `DoubleDouble` is `S = doubleS`.
-/

namespace Apf

/-- ppc.rs:41-51 `FallbackS<F>`; the NaN constants are the trait defaults. -/
def fallbackS (S : Sem) : Sem :=
  { bits := 0, expBits := 0, precision := S.precision * 2, nonfinite := .ieee754
    maxExp := S.maxExp
    minExp := S.minExp + S.precision
    nanSignificandBase := 0
    nanPayloadMask := 2 ^ (S.precision * 2 - 1) - 1
    qnanSignificand := 2 ^ (S.precision * 2 - 2)
    explicitIntBit := false }

/-- ppc.rs:53-68 `FallbackExtendedS<F>`. -/
def fallbackExtendedS (S : Sem) : Sem := { fallbackS S with minExp := S.minExp }

/-- ppc.rs:10-13 `DoubleFloat<F>`. -/
structure DoubleFloat (S : Sem) where
  hi : IeeeFloat S
  lo : IeeeFloat S
  deriving DecidableEq, Repr

namespace DoubleFloat
variable {S : Sem}
open IeeeFloat (ConvOut IntOut)

/-- ppc.rs:70-103 `From<Fallback<F>> for DoubleFloat<F>`. -/
def ofFallback (x : IeeeFloat (fallbackS S)) : M (DoubleFloat S) := do
  let e ← IeeeFloat.convertR (fallbackS S) (fallbackExtendedS S) x .nearestTiesToEven
  massert (e.status = Status.OK ∧ e.losesInfo = false)
  let a ← IeeeFloat.convertR (fallbackExtendedS S) S e.value .nearestTiesToEven
  massert (a.status.diff Status.INEXACT = Status.OK)
  if a.value.isFiniteNonZero && a.losesInfo then do
    let u ← IeeeFloat.convertR S (fallbackExtendedS S) a.value .nearestTiesToEven
    massert (u.status = Status.OK ∧ u.losesInfo = false)
    let v ← IeeeFloat.subR e.value u.value .nearestTiesToEven
    massert (v.status = Status.OK)
    let w ← IeeeFloat.convertR (fallbackExtendedS S) S v.value .nearestTiesToEven
    massert (w.status = Status.OK ∧ w.losesInfo = false)
    .ok ⟨a.value, w.value⟩
  else .ok ⟨a.value, IeeeFloat.ZERO S⟩

/-- ppc.rs:105-124 `From<DoubleFloat<F>> for Fallback<F>`. -/
def toFallback (x : DoubleFloat S) : M (IeeeFloat (fallbackS S)) := do
  let a ← IeeeFloat.convertR S (fallbackS S) x.hi .nearestTiesToEven
  massert (a.status = Status.OK ∧ a.losesInfo = false)
  if a.value.isFiniteNonZero then do
    let b ← IeeeFloat.convertR S (fallbackS S) x.lo .nearestTiesToEven
    massert (b.status = Status.OK ∧ b.losesInfo = false)
    let r ← IeeeFloat.addR a.value b.value .nearestTiesToEven
    .ok r.value
  else .ok a.value

/-- ppc.rs:128-137 `Neg`. -/
def neg (x : DoubleFloat S) : DoubleFloat S :=
  if x.lo.isFiniteNonZero then ⟨x.hi.neg, x.lo.neg⟩ else ⟨x.hi.neg, x.lo⟩

/-- ppc.rs:154 `ZERO`. -/
def ZERO (S : Sem) : DoubleFloat S := ⟨IeeeFloat.ZERO S, IeeeFloat.ZERO S⟩
/-- ppc.rs:156 `INFINITY`. -/
def INFINITY (S : Sem) : DoubleFloat S := ⟨IeeeFloat.INFINITY S, IeeeFloat.ZERO S⟩
/-- ppc.rs:159 `NAN`. -/
def NAN (S : Sem) : DoubleFloat S := ⟨IeeeFloat.NAN S, IeeeFloat.ZERO S⟩
/-- ppc.rs:161-163 `qnan`. -/
def qnan (S : Sem) (payload : Option Nat) : DoubleFloat S := ⟨IeeeFloat.qnan S payload, IeeeFloat.ZERO S⟩
/-- ppc.rs:165-167 `snan`. -/
def snan (S : Sem) (payload : Option Nat) : DoubleFloat S := ⟨IeeeFloat.snan S payload, IeeeFloat.ZERO S⟩

/-- ppc.rs:169-176 `largest`. -/
def largest (S : Sem) : M (DoubleFloat S) := do
  let k ← i32 (asI32 S.precision + 1)
  let l ← IeeeFloat.scalbn (IeeeFloat.largest S) (-k)
  let l ← IeeeFloat.nextDown l
  massert (l.status = Status.OK)
  .ok ⟨IeeeFloat.largest S, l.value⟩

/-- ppc.rs:178 `SMALLEST`. -/
def SMALLEST (S : Sem) : DoubleFloat S := ⟨IeeeFloat.SMALLEST S, IeeeFloat.ZERO S⟩

/-- ppc.rs:180-182 `smallest_normalized`. -/
def smallestNormalized (S : Sem) : M (DoubleFloat S) := do
  let h ← IeeeFloat.scalbn (IeeeFloat.smallestNormalized S) (asI32 S.precision)
  .ok ⟨h, IeeeFloat.ZERO S⟩

/-- ppc.rs:423-425 `category`. -/
def category (x : DoubleFloat S) : Category := x.hi.category
/-- ppc.rs:408-410 `is_negative`. -/
def isNegative (x : DoubleFloat S) : Bool := x.hi.isNegative
/-- ppc.rs:419-421 `is_signaling`. -/
def isSignaling (x : DoubleFloat S) : Bool := x.hi.isSignaling

/-- lib.rs:335-341 `copy_sign` at `DoubleFloat`. -/
def copySign (x rhs : DoubleFloat S) : DoubleFloat S :=
  if x.isNegative != rhs.isNegative then x.neg else x

/-- lib.rs:328-334 `abs` at `DoubleFloat`. -/
def abs (x : DoubleFloat S) : DoubleFloat S := if x.isNegative then x.neg else x

/-- ppc.rs:207-242: `(Normal, Normal)` addition when the sum of the high parts is not finite. -/
def addOverflowed (a aa c cc : IeeeFloat S) (round : Round) : M (StatusAnd (DoubleFloat S)) := do
  let aCmpC ← IeeeFloat.cmpAbsNormal a c
  let z ← IeeeFloat.addR cc aa round
  let st := Status.OK ||| z.status
  let (p, q) := if aCmpC = .gt then (c, a) else (a, c)
  let z ← IeeeFloat.addR z.value p round
  let st := st ||| z.status
  let z ← IeeeFloat.addR z.value q round
  let st := st ||| z.status
  if !z.value.isFinite then .ok (st.and ⟨z.value, IeeeFloat.ZERO S⟩)
  else do
    let zz ← IeeeFloat.addR aa cc round
    let st := st ||| zz.status
    let l ← IeeeFloat.subR q z.value round
    let st := st ||| l.status
    let l ← IeeeFloat.addR l.value p round
    let st := st ||| l.status
    let l ← IeeeFloat.addR l.value zz.value round
    let st := st ||| l.status
    .ok (st.and ⟨z.value, l.value⟩)

/-- ppc.rs:243-270: `(Normal, Normal)` addition when the sum `z` of the high parts is finite. -/
def addFinite (a aa c cc z : IeeeFloat S) (st : Status) (round : Round) : M (StatusAnd (DoubleFloat S)) := do
  let q ← IeeeFloat.subR a z round
  let st := st ||| q.status
  let zz ← IeeeFloat.addR q.value c round
  let st := st ||| zz.status
  let q ← IeeeFloat.addR q.value z round
  let st := st ||| q.status
  let q ← IeeeFloat.subR q.value a round
  let st := st ||| q.status
  let zz ← IeeeFloat.addR zz.value q.value.neg round
  let st := st ||| zz.status
  let zz ← IeeeFloat.addR zz.value aa round
  let st := st ||| zz.status
  let zz ← IeeeFloat.addR zz.value cc round
  let st := st ||| zz.status
  if zz.value.isZero && !zz.value.isNegative then .ok (Status.OK.and ⟨z, IeeeFloat.ZERO S⟩)
  else do
    let h ← IeeeFloat.addR z zz.value round
    let st := st ||| h.status
    if !h.value.isFinite then .ok (st.and ⟨h.value, IeeeFloat.ZERO S⟩)
    else do
      let l ← IeeeFloat.subR z h.value round
      let st := st ||| l.status
      let l ← IeeeFloat.addR l.value zz.value round
      let st := st ||| l.status
      .ok (st.and ⟨h.value, l.value⟩)

/-- ppc.rs:188-274 `add_r`. -/
def addR (x rhs : DoubleFloat S) (round : Round) : M (StatusAnd (DoubleFloat S)) :=
  match x.category, rhs.category with
  | .infinity, .infinity =>
    if x.isNegative ≠ rhs.isNegative then .ok (Status.INVALID_OP.and ((NAN S).copySign x))
    else .ok (Status.OK.and x)
  | _, .zero => .ok (Status.OK.and x)
  | .nan, _ => .ok (Status.OK.and x)
  | .infinity, .normal => .ok (Status.OK.and x)
  | .zero, _ => .ok (Status.OK.and rhs)
  | _, .nan => .ok (Status.OK.and rhs)
  | _, .infinity => .ok (Status.OK.and rhs)
  | .normal, .normal => do
    let z ← IeeeFloat.addR x.hi rhs.hi round
    let st := Status.OK ||| z.status
    if !z.value.isFinite then
      if !z.value.isInfinite then .ok (st.and ⟨z.value, IeeeFloat.ZERO S⟩)
      else addOverflowed x.hi x.lo rhs.hi rhs.lo round
    else addFinite x.hi x.lo rhs.hi rhs.lo z.value st round

/-- lib.rs:302-304 `sub_r` (trait default) at `DoubleFloat`. -/
def subR (x rhs : DoubleFloat S) (round : Round) : M (StatusAnd (DoubleFloat S)) := addR x rhs.neg round

/-- ppc.rs:276-340 `mul_r`. -/
def mulR (x rhs : DoubleFloat S) (round : Round) : M (StatusAnd (DoubleFloat S)) :=
  match x.category, rhs.category with
  | .nan, _ => .ok (Status.OK.and x)
  | _, .nan => .ok (Status.OK.and rhs)
  | .zero, .infinity => .ok (Status.OK.and (NAN S))
  | .infinity, .zero => .ok (Status.OK.and (NAN S))
  | .zero, _ => .ok (Status.OK.and x)
  | .infinity, _ => .ok (Status.OK.and x)
  | _, .zero => .ok (Status.OK.and rhs)
  | _, .infinity => .ok (Status.OK.and rhs)
  | .normal, .normal => do
    let (a, b, c, d) := (x.hi, x.lo, rhs.hi, rhs.lo)
    let t ← IeeeFloat.mulR a c round
    let st := Status.OK ||| t.status
    if !t.value.isFiniteNonZero then .ok (st.and ⟨t.value, IeeeFloat.ZERO S⟩)
    else do
      let tau ← IeeeFloat.mulAddR a c t.value.neg round
      let st := st ||| tau.status
      let v ← IeeeFloat.mulR a d round
      let st := st ||| v.status
      let w ← IeeeFloat.mulR b c round
      let st := st ||| w.status
      let v ← IeeeFloat.addR v.value w.value round
      let st := st ||| v.status
      let tau ← IeeeFloat.addR tau.value v.value round
      let st := st ||| tau.status
      let u ← IeeeFloat.addR t.value tau.value round
      let st := st ||| u.status
      if !u.value.isFinite then .ok (st.and ⟨u.value, IeeeFloat.ZERO S⟩)
      else do
        let t ← IeeeFloat.subR t.value u.value round
        let st := st ||| t.status
        let t ← IeeeFloat.addR t.value tau.value round
        let st := st ||| t.status
        .ok (st.and ⟨u.value, t.value⟩)

/-- `StatusAnd::map(Self::from)` on a fallback result (ppc.rs:345-374). -/
def mapFrom (r : StatusAnd (IeeeFloat (fallbackS S))) : M (StatusAnd (DoubleFloat S)) := do
  let v ← ofFallback r.value
  .ok (r.status.and v)

/-- ppc.rs:342-346 `mul_add_r`. -/
def mulAddR (x m a : DoubleFloat S) (round : Round) : M (StatusAnd (DoubleFloat S)) := do
  let x ← toFallback x
  let m ← toFallback m
  let a ← toFallback a
  let r ← IeeeFloat.mulAddR x m a round
  mapFrom r

/-- ppc.rs:348-350 `div_r`. -/
def divR (x rhs : DoubleFloat S) (round : Round) : M (StatusAnd (DoubleFloat S)) := do
  let x ← toFallback x
  let y ← toFallback rhs
  let r ← IeeeFloat.divR x y round
  mapFrom r

/-- ppc.rs:352-354 `ieee_rem`. -/
def ieeeRem (x rhs : DoubleFloat S) : M (StatusAnd (DoubleFloat S)) := do
  let x ← toFallback x
  let y ← toFallback rhs
  let r ← IeeeFloat.ieeeRem x y
  mapFrom r

/-- ppc.rs:356-358 `c_fmod`. -/
def cFmod (x rhs : DoubleFloat S) : M (StatusAnd (DoubleFloat S)) := do
  let x ← toFallback x
  let y ← toFallback rhs
  let r ← IeeeFloat.cFmod x y
  mapFrom r

/-- ppc.rs:360-362 `round_to_integral`. -/
def roundToIntegral (x : DoubleFloat S) (round : Round) : M (StatusAnd (DoubleFloat S)) := do
  let x ← toFallback x
  let r ← IeeeFloat.roundToIntegral x round
  mapFrom r

/-- ppc.rs:364-366 `next_up`. -/
def nextUp (x : DoubleFloat S) : M (StatusAnd (DoubleFloat S)) := do
  let x ← toFallback x
  let r ← IeeeFloat.nextUp x
  mapFrom r

/-- lib.rs:324-326 `next_down` at `DoubleFloat`. -/
def nextDown (x : DoubleFloat S) : M (StatusAnd (DoubleFloat S)) := do
  let r ← nextUp x.neg
  .ok (r.map neg)

/-- ppc.rs:368-371 `from_bits`. -/
def fromBits (S : Sem) (input : Nat) : M (DoubleFloat S) := do
  let b ← shr input S.bits
  let one ← shl 1 S.bits
  let h ← IeeeFloat.fromBits S (input &&& (one - 1))
  let l ← IeeeFloat.fromBits S (b &&& (one - 1))
  .ok ⟨h, l⟩

/-- ppc.rs:381-383 `to_bits`. -/
def toBits (x : DoubleFloat S) : M Nat := do
  let h ← IeeeFloat.toBits x.hi
  let l ← IeeeFloat.toBits x.lo
  let l ← shl l S.bits
  .ok (h ||| l)

/-- ppc.rs:373-375 `from_u128_r`. -/
def fromU128R (S : Sem) (input : Nat) (round : Round) : M (StatusAnd (DoubleFloat S)) := do
  let r ← IeeeFloat.fromU128R (fallbackS S) input round
  mapFrom r

/-- lib.rs:345-351 `from_i128_r` (trait default) at `DoubleFloat`. -/
def fromI128R (S : Sem) (input : Int) (round : Round) : M (StatusAnd (DoubleFloat S)) :=
  if input < 0 then do
    let r ← fromU128R S (-input).toNat round.neg
    .ok (r.map neg)
  else fromU128R S input.toNat round

/-- ppc.rs:377-379 `from_str_r`. -/
def fromStrR (S : Sem) (fuel : Nat) (s : List Char) (round : Round) :
    M (Except ParseError (StatusAnd (DoubleFloat S))) := do
  match ← IeeeFloat.fromStrR (fallbackS S) fuel s round with
  | .ok r => do
    let v ← mapFrom r
    .ok (.ok v)
  | .error e => .ok (.error e)

/-- ppc.rs:385-387 `to_u128_r`. -/
def toU128R (x : DoubleFloat S) (width : Nat) (round : Round) : M (IntOut Nat) := do
  let x ← toFallback x
  IeeeFloat.toU128R x width round

/-- lib.rs:377-399 `to_i128_r` (trait default) at `DoubleFloat`. -/
def toI128R (x : DoubleFloat S) (width : Nat) (round : Round) : M (IntOut Int) :=
  if x.isNegative then do
    let r ← toU128R x.neg width round.neg
    let k ← usub width 1
    let top ← shl 1 k
    if r.value > top then
      -- `-1 << (width - 1)` on `i128`
      .ok ⟨Status.INVALID_OP, IeeeFloat.u128AsI128 ((limbMax <<< k) % 2 ^ 128), false⟩
    else .ok ⟨r.status, IeeeFloat.u128AsI128 (wneg r.value), r.isExact⟩
  else do
    let k ← usub width 1
    let r ← toU128R x k round
    .ok ⟨r.status, IeeeFloat.u128AsI128 r.value, r.isExact⟩

/-- ppc.rs:389-402 `cmp_abs_normal`. -/
def cmpAbsNormal (x rhs : DoubleFloat S) : M Ordering := do
  match ← IeeeFloat.cmpAbsNormal x.hi rhs.hi with
  | .eq => do
    let result ← IeeeFloat.cmpAbsNormal x.lo rhs.lo
    if result ≠ .eq then
      let against := x.hi.isNegative ^^ x.lo.isNegative
      let rhsAgainst := rhs.hi.isNegative ^^ rhs.lo.isNegative
      match boolCmp (!against) (!rhsAgainst) with
      | .eq => .ok (if against then result.swap else result)
      | o => .ok o
    else .ok result
  | o => .ok o

/-- ppc.rs:12 `#[derive(PartialOrd)]`: lexicographic comparison of the two parts. -/
def partialCmp (x y : DoubleFloat S) : M (Option Ordering) := do
  match ← IeeeFloat.partialCmp x.hi y.hi with
  | some .eq => IeeeFloat.partialCmp x.lo y.lo
  | c => .ok c

/-- ppc.rs:12 `#[derive(PartialEq)]`: both parts are equal. -/
def eq (x y : DoubleFloat S) : M Bool := do
  let a ← IeeeFloat.eq x.hi y.hi
  if a then IeeeFloat.eq x.lo y.lo else .ok false

/-- `PartialOrd::lt` (provided by core from `partial_cmp`, derived at ppc.rs:12). -/
def lt (x y : DoubleFloat S) : M Bool := do
  let c ← partialCmp x y
  .ok (c = some .lt)

/-- `PartialOrd::gt` (provided by core from `partial_cmp`, derived at ppc.rs:12). -/
def gt (x y : DoubleFloat S) : M Bool := do
  let c ← partialCmp x y
  .ok (c = some .gt)

/-- `PartialOrd::ge` (provided by core from `partial_cmp`, derived at ppc.rs:12). -/
def ge (x y : DoubleFloat S) : M Bool := do
  let c ← partialCmp x y
  .ok (c = some .gt ∨ c = some .eq)

/-- `PartialOrd::le` (provided by core from `partial_cmp`, derived at ppc.rs:12). -/
def le (x y : DoubleFloat S) : M Bool := do
  let c ← partialCmp x y
  .ok (c = some .lt ∨ c = some .eq)

/-- lib.rs:520-522 `is_nan`. -/
def isNan (x : DoubleFloat S) : Bool := x.category == .nan
/-- lib.rs:506-508 `is_zero`. -/
def isZero (x : DoubleFloat S) : Bool := x.category == .zero

/-- lib.rs:417-427 `min` (trait default) at `DoubleFloat`. -/
def min (x y : DoubleFloat S) : M (DoubleFloat S) :=
  if x.isNan then .ok y
  else if y.isNan then .ok x
  else do
    let b ← lt y x
    .ok (if b then y else x)

/-- lib.rs:431-441 `max` (trait default) at `DoubleFloat`. -/
def max (x y : DoubleFloat S) : M (DoubleFloat S) :=
  if x.isNan then .ok y
  else if y.isNan then .ok x
  else do
    let b ← lt x y
    .ok (if b then y else x)

/-- lib.rs:445-461 `minimum` (trait default) at `DoubleFloat`. -/
def minimum (x y : DoubleFloat S) : M (DoubleFloat S) :=
  if x.isNan then .ok x
  else if y.isNan then .ok y
  else if x.isZero && y.isZero && (x.isNegative != y.isNegative) then
    .ok (if x.isNegative then x else y)
  else do
    let b ← lt y x
    .ok (if b then y else x)

/-- lib.rs:465-481 `maximum` (trait default) at `DoubleFloat`. -/
def maximum (x y : DoubleFloat S) : M (DoubleFloat S) :=
  if x.isNan then .ok x
  else if y.isNan then .ok y
  else if x.isZero && y.isZero && (x.isNegative != y.isNegative) then
    .ok (if x.isNegative then y else x)
  else do
    let b ← lt x y
    .ok (if b then y else x)

/-- ppc.rs:404-406 `bitwise_eq`. -/
def bitwiseEq (x y : DoubleFloat S) : Bool := x.hi.bitwiseEq y.hi && x.lo.bitwiseEq y.lo

/-- ppc.rs:412-417 `is_denormal` (the second disjunct tests the high part again, as in the source). -/
def isDenormal (x : DoubleFloat S) : M Bool :=
  if x.category = .normal then
    if x.hi.isDenormal || x.hi.isDenormal then .ok true
    else do
      let s ← IeeeFloat.addR x.hi x.lo .nearestTiesToEven
      let e ← IeeeFloat.eq x.hi s.value
      .ok (!e)
  else .ok false

/-- lib.rs:551-553 `is_smallest` (trait default) at `DoubleFloat`. -/
def isSmallest (x : DoubleFloat S) : Bool := ((SMALLEST S).copySign x).bitwiseEq x

/-- lib.rs:557-559 `is_smallest_normalized` (trait default) at `DoubleFloat`. -/
def isSmallestNormalized (x : DoubleFloat S) : M Bool := do
  let c ← smallestNormalized S
  .ok ((c.copySign x).bitwiseEq x)

/-- lib.rs:563-565 `is_largest` (trait default) at `DoubleFloat`. -/
def isLargest (x : DoubleFloat S) : M Bool := do
  let c ← largest S
  .ok ((c.copySign x).bitwiseEq x)

/-- ppc.rs:427-429 `is_integer`. -/
def isInteger (x : DoubleFloat S) : M Bool := do
  let a ← x.hi.isInteger
  if a then x.lo.isInteger else .ok false

/-- ppc.rs:431-433 `get_exact_inverse`. -/
def getExactInverse (x : DoubleFloat S) : M (Option (DoubleFloat S)) := do
  let x ← toFallback x
  match ← IeeeFloat.getExactInverse x with
  | some r => do
    let v ← ofFallback r
    .ok (some v)
  | none => .ok none

/-- ppc.rs:435-437 `ilogb`. -/
def ilogb (x : DoubleFloat S) : M Int := x.hi.ilogb

/-- ppc.rs:439-441 `scalbn_r`. -/
def scalbnR (x : DoubleFloat S) (exp : Int) (round : Round) : M (DoubleFloat S) := do
  let a ← IeeeFloat.scalbnR x.hi exp round
  let b ← IeeeFloat.scalbnR x.lo exp round
  .ok ⟨a, b⟩

/-- ppc.rs:443-450 `frexp_r`. -/
def frexpR (x : DoubleFloat S) (round : Round) : M (DoubleFloat S × Int) := do
  let (a, e) ← IeeeFloat.frexpR x.hi round
  if x.category = .normal then do
    let ne ← i32 (-e)
    let b ← IeeeFloat.scalbnR x.lo ne round
    .ok (⟨a, b⟩, e)
  else .ok (⟨a, x.lo⟩, e)

/-- ppc.rs:139-143 `Display`. -/
def display (x : DoubleFloat S) (width precision : Option Nat) (alternate : Bool) : M (List Char) := do
  let x ← toFallback x
  x.display width precision alternate

end DoubleFloat

/-- ppc.rs:19 `DoubleDouble`. -/
abbrev DoubleDouble := DoubleFloat doubleS

end Apf
