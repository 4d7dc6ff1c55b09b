import Verif.Model.Ppc
/-! # The trait surface of lib.rs

`Float` (lib.rs:237-604) and the operators every float type gets from `float_common_impls!`
(lib.rs:622-752), as one class with an instance for `IeeeFloat S` and one for `DoubleFloat S`.
Every method is in `M`, so that a panic of any of them is visible. -/

namespace Apf

/-- lib.rs:237-604 `trait Float` (with `is_zero` and the other tests of the category left
out: they are functions of `category`; `convert_r` is `IeeeFloat.convertR`). -/
class ApiFloat (F : Type) where
  /-- `Float::BITS`. -/
  BITS : Nat
  ZERO : M F
  INFINITY : M F
  NAN : M F
  SMALLEST : M F
  largest : M F
  smallest_normalized : M F
  qnan : Option Nat → M F
  snan : Option Nat → M F
  from_bits : Nat → M F
  to_bits : F → M Nat
  from_str_r : List Char → Round → M (Except ParseError (StatusAnd F))
  from_u128_r : Nat → Round → M (StatusAnd F)
  from_i128_r : Int → Round → M (StatusAnd F)
  to_u128_r : F → Nat → Round → M (StatusAnd Nat × Bool)
  to_i128_r : F → Nat → Round → M (StatusAnd Int × Bool)
  fmt : F → Option Nat → Option Nat → Bool → M (List Char)
  neg : F → M F
  copy_sign : F → F → M F
  abs : F → M F
  add_r : F → F → Round → M (StatusAnd F)
  sub_r : F → F → Round → M (StatusAnd F)
  mul_r : F → F → Round → M (StatusAnd F)
  div_r : F → F → Round → M (StatusAnd F)
  mul_add_r : F → F → F → Round → M (StatusAnd F)
  c_fmod : F → F → M (StatusAnd F)
  ieee_rem : F → F → M (StatusAnd F)
  round_to_integral : F → Round → M (StatusAnd F)
  next_up : F → M (StatusAnd F)
  next_down : F → M (StatusAnd F)
  min : F → F → M F
  max : F → F → M F
  minimum : F → F → M F
  maximum : F → F → M F
  scalbn_r : F → Int → Round → M F
  frexp_r : F → Round → M (F × Int)
  ilogb : F → M Int
  get_exact_inverse : F → M (Option F)
  partial_cmp : F → F → M (Option Ordering)
  bitwise_eq : F → F → M Bool
  category : F → M Category
  is_negative : F → M Bool
  is_denormal : F → M Bool
  is_signaling : F → M Bool
  is_integer : F → M Bool
  is_smallest : F → M Bool
  is_largest : F → M Bool
  is_smallest_normalized : F → M Bool

/-- ieee.rs:909-1895 `impl<S> Float for IeeeFloat<S>`. -/
instance (S : Sem) : ApiFloat (IeeeFloat S) where
  BITS := S.bits
  ZERO := .ok (IeeeFloat.ZERO S)
  INFINITY := .ok (IeeeFloat.INFINITY S)
  NAN := .ok (IeeeFloat.NAN S)
  SMALLEST := .ok (IeeeFloat.SMALLEST S)
  largest := .ok (IeeeFloat.largest S)
  smallest_normalized := .ok (IeeeFloat.smallestNormalized S)
  qnan p := .ok (IeeeFloat.qnan S p)
  snan p := .ok (IeeeFloat.snan S p)
  from_bits := IeeeFloat.fromBits S
  to_bits := IeeeFloat.toBits
  from_str_r := IeeeFloat.fromStrR S 23
  from_u128_r := IeeeFloat.fromU128R S
  from_i128_r := IeeeFloat.fromI128R S
  to_u128_r x w r := do
    let o ← x.toU128R w r
    .ok (⟨o.status, o.value⟩, o.isExact)
  to_i128_r x w r := do
    let o ← x.toI128R w r
    .ok (⟨o.status, o.value⟩, o.isExact)
  fmt := IeeeFloat.display
  neg x := .ok x.neg
  copy_sign x y := .ok (x.copySign y)
  abs x := .ok x.abs
  add_r := IeeeFloat.addR
  sub_r := IeeeFloat.subR
  mul_r := IeeeFloat.mulR
  div_r := IeeeFloat.divR
  mul_add_r := IeeeFloat.mulAddR
  c_fmod := IeeeFloat.cFmod
  ieee_rem := IeeeFloat.ieeeRem
  round_to_integral := IeeeFloat.roundToIntegral
  next_up := IeeeFloat.nextUp
  next_down := IeeeFloat.nextDown
  min := IeeeFloat.min
  max := IeeeFloat.max
  minimum := IeeeFloat.minimum
  maximum := IeeeFloat.maximum
  scalbn_r := IeeeFloat.scalbnR
  frexp_r := IeeeFloat.frexpR
  ilogb := IeeeFloat.ilogb
  get_exact_inverse := IeeeFloat.getExactInverse
  partial_cmp := IeeeFloat.partialCmp
  bitwise_eq x y := .ok (x.bitwiseEq y)
  category x := .ok x.category
  is_negative x := .ok x.isNegative
  is_denormal x := .ok x.isDenormal
  is_signaling x := .ok x.isSignaling
  is_integer := IeeeFloat.isInteger
  is_smallest x := .ok x.isSmallest
  is_largest x := .ok x.isLargest
  is_smallest_normalized x := .ok x.isSmallestNormalized

/-- ppc.rs:145-451 `impl<F> Float for DoubleFloat<F>`. -/
instance (S : Sem) : ApiFloat (DoubleFloat S) where
  BITS := S.bits * 2
  ZERO := .ok (DoubleFloat.ZERO S)
  INFINITY := .ok (DoubleFloat.INFINITY S)
  NAN := .ok (DoubleFloat.NAN S)
  SMALLEST := .ok (DoubleFloat.SMALLEST S)
  largest := DoubleFloat.largest S
  smallest_normalized := DoubleFloat.smallestNormalized S
  qnan p := .ok (DoubleFloat.qnan S p)
  snan p := .ok (DoubleFloat.snan S p)
  from_bits := DoubleFloat.fromBits S
  to_bits := DoubleFloat.toBits
  from_str_r := DoubleFloat.fromStrR S 23
  from_u128_r := DoubleFloat.fromU128R S
  from_i128_r := DoubleFloat.fromI128R S
  to_u128_r x w r := do
    let o ← x.toU128R w r
    .ok (⟨o.status, o.value⟩, o.isExact)
  to_i128_r x w r := do
    let o ← x.toI128R w r
    .ok (⟨o.status, o.value⟩, o.isExact)
  fmt := DoubleFloat.display
  neg x := .ok x.neg
  copy_sign x y := .ok (x.copySign y)
  abs x := .ok x.abs
  add_r := DoubleFloat.addR
  sub_r := DoubleFloat.subR
  mul_r := DoubleFloat.mulR
  div_r := DoubleFloat.divR
  mul_add_r := DoubleFloat.mulAddR
  c_fmod := DoubleFloat.cFmod
  ieee_rem := DoubleFloat.ieeeRem
  round_to_integral := DoubleFloat.roundToIntegral
  next_up := DoubleFloat.nextUp
  next_down := DoubleFloat.nextDown
  min := DoubleFloat.min
  max := DoubleFloat.max
  minimum := DoubleFloat.minimum
  maximum := DoubleFloat.maximum
  scalbn_r := DoubleFloat.scalbnR
  frexp_r := DoubleFloat.frexpR
  ilogb := DoubleFloat.ilogb
  get_exact_inverse := DoubleFloat.getExactInverse
  partial_cmp := DoubleFloat.partialCmp
  bitwise_eq x y := .ok (x.bitwiseEq y)
  category x := .ok x.category
  is_negative x := .ok x.isNegative
  is_denormal := DoubleFloat.isDenormal
  is_signaling x := .ok x.isSignaling
  is_integer := DoubleFloat.isInteger
  is_smallest x := .ok x.isSmallest
  is_largest := DoubleFloat.isLargest
  is_smallest_normalized := DoubleFloat.isSmallestNormalized

namespace Api
variable {F : Type} [ApiFloat F]

/-- lib.rs:624-632 `Default::default`. -/
def default : M F := ApiFloat.ZERO
/-- lib.rs:634-643 `FromStr::from_str`. -/
def from_str (s : List Char) : M (Except ParseError F) := do
  let r ← ApiFloat.from_str_r (F := F) s .nearestTiesToEven
  match r with
  | .ok v => .ok (.ok v.value)
  | .error e => .ok (.error e)
/-- lib.rs:647-656 `Add::add`. -/
def add (x y : F) : M (StatusAnd F) := ApiFloat.add_r x y .nearestTiesToEven
/-- lib.rs:658-667 `Sub::sub`. -/
def sub (x y : F) : M (StatusAnd F) := ApiFloat.sub_r x y .nearestTiesToEven
/-- lib.rs:669-678 `Mul::mul`. -/
def mul (x y : F) : M (StatusAnd F) := ApiFloat.mul_r x y .nearestTiesToEven
/-- lib.rs:680-689 `Div::div`. -/
def div (x y : F) : M (StatusAnd F) := ApiFloat.div_r x y .nearestTiesToEven
/-- lib.rs:691-700 `Rem::rem`. -/
def rem (x y : F) : M (StatusAnd F) := ApiFloat.c_fmod x y
/-- lib.rs:702-710 `AddAssign::add_assign`: the new value of `*self`. -/
def add_assign (x y : F) : M F := do let r ← add x y; .ok r.value
/-- lib.rs:712-720 `SubAssign::sub_assign`. -/
def sub_assign (x y : F) : M F := do let r ← sub x y; .ok r.value
/-- lib.rs:722-730 `MulAssign::mul_assign`. -/
def mul_assign (x y : F) : M F := do let r ← mul x y; .ok r.value
/-- lib.rs:732-740 `DivAssign::div_assign`. -/
def div_assign (x y : F) : M F := do let r ← div x y; .ok r.value
/-- lib.rs:742-750 `RemAssign::rem_assign`. -/
def rem_assign (x y : F) : M F := do let r ← rem x y; .ok r.value
/-- lib.rs:307-309 `mul_add`: the multiplication-addition with the default rounding. -/
def mul_add (x y z : F) : M (StatusAnd F) := ApiFloat.mul_add_r x y z .nearestTiesToEven
/-- lib.rs:592-594 `scalbn`. -/
def scalbn (x : F) (e : Int) : M F := ApiFloat.scalbn_r x e .nearestTiesToEven
/-- lib.rs:601-603 `frexp`. -/
def frexp (x : F) : M (F × Int) := ApiFloat.frexp_r x .nearestTiesToEven
/-- lib.rs:356-358 `from_u128`. -/
def from_u128 (n : Nat) : M (StatusAnd F) := ApiFloat.from_u128_r n .nearestTiesToEven
/-- lib.rs:352-354 `from_i128`. -/
def from_i128 (n : Int) : M (StatusAnd F) := ApiFloat.from_i128_r n .nearestTiesToEven
/-- lib.rs:404-406 `to_u128`. -/
def to_u128 (x : F) (w : Nat) : M (StatusAnd Nat) := do let r ← ApiFloat.to_u128_r x w .towardZero; .ok r.1
/-- lib.rs:400-402 `to_i128`. -/
def to_i128 (x : F) (w : Nat) : M (StatusAnd Int) := do let r ← ApiFloat.to_i128_r x w .towardZero; .ok r.1
end Api
end Apf
