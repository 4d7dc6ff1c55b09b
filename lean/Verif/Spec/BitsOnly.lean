import Verif.Model.Api
/-! # Specification side of C101: outcomes that agree in everything but what the bits of the results do not show

A float in memory has fields its bits do not show: the exponent of a zero, exponent and significand of an infinity, the exponent of a NaN. -/

namespace Apf

/-- Both calls panic in the same way, or both return and the results are related by `R`. -/
def Alike {α : Type} (R : α → α → Prop) : M α → M α → Prop
  | .ok a, .ok b => R a b
  | .error e, .error f => e = f
  | _, _ => False

/-- The same flags, and related values. -/
def FlagsAnd {α : Type} (R : α → α → Prop) (r s : StatusAnd α) : Prop := r.status = s.status ∧ R r.value s.value

/-- The same bits, according to the crate's `bitwise_eq`. -/
def IeeeFloat.BitEq {S : Sem} (x y : IeeeFloat S) : Prop := x.bitwiseEq y = true

/-- The same bits, according to the crate's `bitwise_eq`. -/
def DoubleFloat.BitEq {S : Sem} (x y : DoubleFloat S) : Prop := x.bitwiseEq y = true

/-- `None` and `None`, or related values. -/
def OptionRel {α : Type} (R : α → α → Prop) : Option α → Option α → Prop
  | none, none => True
  | some a, some b => R a b
  | _, _ => False

/-- Everything the trait offers (lib.rs:237-604) gives related results on related operands: the same number, text, truth value or ordering, the same
flags, and related floats. -/
structure OnlyBits (F : Type) [ApiFloat F] (R : F → F → Prop) : Prop where
  to_bits : ∀ {x x' : F}, R x x' → ApiFloat.to_bits x = ApiFloat.to_bits x'
  to_u128_r : ∀ {x x' : F} (width : Nat) (mode : Round), R x x' → ApiFloat.to_u128_r x width mode = ApiFloat.to_u128_r x' width mode
  to_i128_r : ∀ {x x' : F} (width : Nat) (mode : Round), R x x' → ApiFloat.to_i128_r x width mode = ApiFloat.to_i128_r x' width mode
  fmt : ∀ {x x' : F} (width prec : Option Nat) (alt : Bool), R x x' → ApiFloat.fmt x width prec alt = ApiFloat.fmt x' width prec alt
  neg : ∀ {x x' : F}, R x x' → Alike R (ApiFloat.neg x) (ApiFloat.neg x')
  copy_sign : ∀ {x x' y y' : F}, R x x' → R y y' → Alike R (ApiFloat.copy_sign x y) (ApiFloat.copy_sign x' y')
  abs : ∀ {x x' : F}, R x x' → Alike R (ApiFloat.abs x) (ApiFloat.abs x')
  add_r : ∀ {x x' y y' : F} (mode : Round), R x x' → R y y' → Alike (FlagsAnd R) (ApiFloat.add_r x y mode) (ApiFloat.add_r x' y' mode)
  sub_r : ∀ {x x' y y' : F} (mode : Round), R x x' → R y y' → Alike (FlagsAnd R) (ApiFloat.sub_r x y mode) (ApiFloat.sub_r x' y' mode)
  mul_r : ∀ {x x' y y' : F} (mode : Round), R x x' → R y y' → Alike (FlagsAnd R) (ApiFloat.mul_r x y mode) (ApiFloat.mul_r x' y' mode)
  div_r : ∀ {x x' y y' : F} (mode : Round), R x x' → R y y' → Alike (FlagsAnd R) (ApiFloat.div_r x y mode) (ApiFloat.div_r x' y' mode)
  mul_add_r : ∀ {x x' y y' z z' : F} (mode : Round), R x x' → R y y' → R z z' →
    Alike (FlagsAnd R) (ApiFloat.mul_add_r x y z mode) (ApiFloat.mul_add_r x' y' z' mode)
  c_fmod : ∀ {x x' y y' : F}, R x x' → R y y' → Alike (FlagsAnd R) (ApiFloat.c_fmod x y) (ApiFloat.c_fmod x' y')
  ieee_rem : ∀ {x x' y y' : F}, R x x' → R y y' → Alike (FlagsAnd R) (ApiFloat.ieee_rem x y) (ApiFloat.ieee_rem x' y')
  round_to_integral : ∀ {x x' : F} (mode : Round), R x x' →
    Alike (FlagsAnd R) (ApiFloat.round_to_integral x mode) (ApiFloat.round_to_integral x' mode)
  next_up : ∀ {x x' : F}, R x x' → Alike (FlagsAnd R) (ApiFloat.next_up x) (ApiFloat.next_up x')
  next_down : ∀ {x x' : F}, R x x' → Alike (FlagsAnd R) (ApiFloat.next_down x) (ApiFloat.next_down x')
  min : ∀ {x x' y y' : F}, R x x' → R y y' → Alike R (ApiFloat.min x y) (ApiFloat.min x' y')
  max : ∀ {x x' y y' : F}, R x x' → R y y' → Alike R (ApiFloat.max x y) (ApiFloat.max x' y')
  minimum : ∀ {x x' y y' : F}, R x x' → R y y' → Alike R (ApiFloat.minimum x y) (ApiFloat.minimum x' y')
  maximum : ∀ {x x' y y' : F}, R x x' → R y y' → Alike R (ApiFloat.maximum x y) (ApiFloat.maximum x' y')
  scalbn_r : ∀ {x x' : F} (n : Int) (mode : Round), R x x' → Alike R (ApiFloat.scalbn_r x n mode) (ApiFloat.scalbn_r x' n mode)
  frexp_r : ∀ {x x' : F} (mode : Round), R x x' →
    Alike (fun a b => R a.1 b.1 ∧ a.2 = b.2) (ApiFloat.frexp_r x mode) (ApiFloat.frexp_r x' mode)
  ilogb : ∀ {x x' : F}, R x x' → ApiFloat.ilogb x = ApiFloat.ilogb x'
  get_exact_inverse : ∀ {x x' : F}, R x x' → Alike (OptionRel R) (ApiFloat.get_exact_inverse x) (ApiFloat.get_exact_inverse x')
  partial_cmp : ∀ {x x' y y' : F}, R x x' → R y y' → ApiFloat.partial_cmp x y = ApiFloat.partial_cmp x' y'
  bitwise_eq : ∀ {x x' y y' : F}, R x x' → R y y' → ApiFloat.bitwise_eq x y = ApiFloat.bitwise_eq x' y'
  category : ∀ {x x' : F}, R x x' → ApiFloat.category x = ApiFloat.category x'
  is_negative : ∀ {x x' : F}, R x x' → ApiFloat.is_negative x = ApiFloat.is_negative x'
  is_denormal : ∀ {x x' : F}, R x x' → ApiFloat.is_denormal x = ApiFloat.is_denormal x'
  is_signaling : ∀ {x x' : F}, R x x' → ApiFloat.is_signaling x = ApiFloat.is_signaling x'
  is_integer : ∀ {x x' : F}, R x x' → ApiFloat.is_integer x = ApiFloat.is_integer x'
  is_smallest : ∀ {x x' : F}, R x x' → ApiFloat.is_smallest x = ApiFloat.is_smallest x'
  is_largest : ∀ {x x' : F}, R x x' → ApiFloat.is_largest x = ApiFloat.is_largest x'
  is_smallest_normalized : ∀ {x x' : F}, R x x' → ApiFloat.is_smallest_normalized x = ApiFloat.is_smallest_normalized x'

/-- Storing a float as its bits (`to_bits`) and loading it again (`from_bits`), as a compiler does that keeps constants as bits. -/
def stored {F : Type} [ApiFloat F] (x : F) : M F := do
  let b ← ApiFloat.to_bits x
  ApiFloat.from_bits b

end Apf
