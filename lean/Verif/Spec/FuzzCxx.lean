import Verif.Model.FuzzCxx
import Verif.Spec.Fuzz
/-!
# What the answers of LLVM and of the hardware are supposed to be

The generated code around LLVM should neither change the inputs nor the results.  If, then, the functions of LLVM (or of the hardware) do what those of the
library do, no difference should be reported.
-/

namespace Apf
open Fuzz

/-- `bitcastToAPInt` gives integers as wide as the format. -/
def LlvmSane (L : Llvm) : Prop :=
  ∀ (S : Sem) (x : L.V S), (L.bitcast x).1 = S.bits ∧ (L.bitcast x).2 < 2 ^ S.bits

/-- What LLVM answers when asked directly: its operation on the `APFloat`s with the bits of the inputs, and the bits of the result. -/
def Fuzz.Llvm.direct (L : Llvm) (S : Sem) (op : FuzzOp ℕ) : ℕ :=
  let v := L.ofBits S S.bits
  (L.bitcast (match op with
    | .neg a => L.neg (v a)
    | .add a b => L.add (v a) (v b)
    | .sub a b => L.sub (v a) (v b)
    | .mul a b => L.mul (v a) (v b)
    | .div a b => L.div (v a) (v b)
    | .rem a b => L.mod (v a) (v b)
    | .mulAdd a b c => L.fusedMultiplyAdd (v a) (v b) (v c) .nearestTiesToEven
    | .viaI128 a => L.convertFromAPInt (v a) 128 (L.convertToInteger (v a) 128 false .towardZero) true .nearestTiesToEven
    | .viaU128 a => L.convertFromAPInt (v a) 128 (L.convertToInteger (v a) 128 true .towardZero) false .nearestTiesToEven
    | .viaSingle a => L.convert (L.convert (v a) singleS .nearestTiesToEven) S .nearestTiesToEven
    | .viaDouble a => L.convert (L.convert (v a) doubleS .nearestTiesToEven) S .nearestTiesToEven)).2

/-- The functions of LLVM do what those of the library do: `rel x y` says that the `APFloat` `x` and the number `y` of the library are the same.  Each
condition is about one function of LLVM and the function of the library that corresponds to it. -/
structure LlvmLike (L : Llvm) (rel : (S : Sem) → L.V S → IeeeFloat S → Prop) : Prop where
  ofBits : ∀ {S b y}, S.Enc → b < 2 ^ S.bits → IeeeFloat.fromBits S b = .ok y → rel S (L.ofBits S S.bits b) y
  bitcast : ∀ {S x y b}, S.Enc → y.Valid → rel S x y → y.toBits = .ok b → (L.bitcast x).2 = b
  neg : ∀ {S x y}, rel S x y → rel S (L.neg x) y.neg
  add : ∀ {S x x' y y' r}, y.Valid → y'.Valid → rel S x y → rel S x' y' → y.addR y' .nearestTiesToEven = .ok r → rel S (L.add x x') r.value
  sub : ∀ {S x x' y y' r}, y.Valid → y'.Valid → rel S x y → rel S x' y' → y.subR y' .nearestTiesToEven = .ok r → rel S (L.sub x x') r.value
  mul : ∀ {S x x' y y' r}, y.Valid → y'.Valid → rel S x y → rel S x' y' → y.mulR y' .nearestTiesToEven = .ok r → rel S (L.mul x x') r.value
  div : ∀ {S x x' y y' r}, y.Valid → y'.Valid → rel S x y → rel S x' y' → y.divR y' .nearestTiesToEven = .ok r → rel S (L.div x x') r.value
  mod : ∀ {S x x' y y' r}, y.Valid → y'.Valid → rel S x y → rel S x' y' → y.cFmod y' = .ok r → rel S (L.mod x x') r.value
  fma : ∀ {S x x' x'' y y' y'' r}, y.Valid → y'.Valid → y''.Valid → rel S x y → rel S x' y' → rel S x'' y'' →
    y.mulAddR y' y'' .nearestTiesToEven = .ok r → rel S (L.fusedMultiplyAdd x x' x'' .nearestTiesToEven) r.value
  toSigned : ∀ {S x y r}, y.Valid → rel S x y → y.toI128R 128 .towardZero = .ok r →
    (L.convertToInteger x 128 false .towardZero : ℤ) = r.value % 2 ^ 128
  toUnsigned : ∀ {S x y r}, y.Valid → rel S x y → y.toU128R 128 .towardZero = .ok r → L.convertToInteger x 128 true .towardZero = r.value
  ofSigned : ∀ {S r} (x : L.V S) {n : ℕ} {i : ℤ}, -2 ^ 127 ≤ i → i < 2 ^ 127 → (n : ℤ) = i % 2 ^ 128 →
    IeeeFloat.fromI128R S i .nearestTiesToEven = .ok r → rel S (L.convertFromAPInt x 128 n true .nearestTiesToEven) r.value
  ofUnsigned : ∀ {S r} (x : L.V S) {n : ℕ}, n < 2 ^ 128 →
    IeeeFloat.fromU128R S n .nearestTiesToEven = .ok r → rel S (L.convertFromAPInt x 128 n false .nearestTiesToEven) r.value
  convert : ∀ {S T x y r}, y.Valid → rel S x y → IeeeFloat.convertR S T y .nearestTiesToEven = .ok r → rel T (L.convert x T .nearestTiesToEven) r.value

/-- The same for the native floats. -/
structure HardwareLike (H : Hardware) (rel : (S : Sem) → H.V S → IeeeFloat S → Prop) : Prop where
  ofBits : ∀ {S b y}, S.Enc → b < 2 ^ S.bits → IeeeFloat.fromBits S b = .ok y → rel S (H.ofBits S b) y
  toBits : ∀ {S x y b}, S.Enc → y.Valid → rel S x y → y.toBits = .ok b → H.toBits x = b
  neg : ∀ {S x y}, rel S x y → rel S (H.neg x) y.neg
  add : ∀ {S x x' y y' r}, y.Valid → y'.Valid → rel S x y → rel S x' y' → y.addR y' .nearestTiesToEven = .ok r → rel S (H.add x x') r.value
  sub : ∀ {S x x' y y' r}, y.Valid → y'.Valid → rel S x y → rel S x' y' → y.subR y' .nearestTiesToEven = .ok r → rel S (H.sub x x') r.value
  mul : ∀ {S x x' y y' r}, y.Valid → y'.Valid → rel S x y → rel S x' y' → y.mulR y' .nearestTiesToEven = .ok r → rel S (H.mul x x') r.value
  div : ∀ {S x x' y y' r}, y.Valid → y'.Valid → rel S x y → rel S x' y' → y.divR y' .nearestTiesToEven = .ok r → rel S (H.div x x') r.value
  rem : ∀ {S x x' y y' r}, y.Valid → y'.Valid → rel S x y → rel S x' y' → y.cFmod y' = .ok r → rel S (H.rem x x') r.value
  fma : ∀ {S x x' x'' y y' y'' r}, y.Valid → y'.Valid → y''.Valid → rel S x y → rel S x' y' → rel S x'' y'' →
    y.mulAddR y' y'' .nearestTiesToEven = .ok r → rel S (H.mul_add x x' x'') r.value
  asI128 : ∀ {S x y r}, y.Valid → rel S x y → y.toI128R 128 .towardZero = .ok r → H.asI128 x = r.value
  asU128 : ∀ {S x y r}, y.Valid → rel S x y → y.toU128R 128 .towardZero = .ok r → H.asU128 x = r.value
  ofI128 : ∀ {S r} {i : ℤ}, -2 ^ 127 ≤ i → i < 2 ^ 127 → IeeeFloat.fromI128R S i .nearestTiesToEven = .ok r → rel S (H.ofI128 S i) r.value
  ofU128 : ∀ {S r} {n : ℕ}, n < 2 ^ 128 → IeeeFloat.fromU128R S n .nearestTiesToEven = .ok r → rel S (H.ofU128 S n) r.value
  asFloat : ∀ {S T x y r}, y.Valid → rel S x y → IeeeFloat.convertR S T y .nearestTiesToEven = .ok r → rel T (H.asFloat x T) r.value

end Apf
