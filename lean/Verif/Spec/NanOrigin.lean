import Verif.Props.Total
/-! # Where the NaNs of a program come from -/

namespace Apf
open Spec IeeeFloat

/-- The payload of a NaN: the fraction bits below the quiet bit, which are the lowest `precision - 2` bits of its pattern (`C114_payload_bits`). -/
def IeeeFloat.payload {S : Sem} (x : IeeeFloat S) : ℕ := x.sig % 2 ^ (S.precision - 2)

/-- The payload of the default NaN: 0; in `Float8E4M3FN`, whose only NaN is the pattern of ones, all ones. -/
def Format.plain (f : Format) : ℕ := if f.sem.nonfinite = .nanOnly then 2 ^ (f.sem.precision - 2) - 1 else 0

/-- A payload in another format: the leading bits stay, the others are cut off or filled up with zeros. -/
def rescaled (f g : Format) (n : ℕ) : ℕ :=
  if g.sem.precision < f.sem.precision then n / 2 ^ (f.sem.precision - g.sem.precision) else n * 2 ^ (g.sem.precision - f.sem.precision)

/-- The payload stored by `qnan(p)` (`s = false`) or `snan(p)` (`s = true`), or by the literals `nan…`, `snan…`: what fits of the number given; a signaling NaN, for which it must
not be 0, gets the bit below the quiet bit instead. -/
def Format.stored (f : Format) (s : Bool) (p : Option ℕ) : ℕ :=
  let n := p.getD 0 % 2 ^ (f.sem.precision - 2)
  if s = true ∧ n = 0 then 2 ^ (f.sem.precision - 3) else n

/-- The call itself names a NaN of the format `f` with payload `n`; `s`: a signaling one.  (`Float8E4M3FN` has only one NaN; nothing can be named there.)
A bit pattern is signaling if its quiet bit is 0 or, in x87, its integer bit. -/
def Call.Gives (f : Format) (n : ℕ) (s : Bool) (c : Call) : Prop :=
  f.sem.nonfinite = .ieee754 ∧ match c with
    | .qnan g _ p => g = f ∧ s = false ∧ n = f.stored false p
    | .snan g _ p => g = f ∧ s = true ∧ n = f.stored true p
    | .fromStr g _ _ t _ => g = f ∧ ∃ neg p, Denotes t (.nan neg s p) ∧ n = f.stored s p
    | .fromBits g _ b => g = f ∧ decode f.sem.style f.sem.expBits f.sem.sigBits b = .nan ∧ n = b % 2 ^ (f.sem.precision - 2) ∧
        (s = true ↔ b.testBit (f.sem.precision - 2) = false ∨ f.sem.explicitIntBit = true ∧ b.testBit (f.sem.precision - 1) = false)
    | _ => False

/-- The payloads that can turn up in the registers of each format when the calls `cs` are made on the registers `st`: those of the NaNs that are there at the start,
those the calls name, that of the default NaN, and what the conversions among the calls make of them. -/
inductive NanFrom (cs : List Call) (st : Store) : Format → ℕ → Prop
  | register (f : Format) (i : ℕ) : (st f i).isNan = true → NanFrom cs st f (st f i).payload
  | given {f : Format} {n : ℕ} {s : Bool} {c : Call} : c ∈ cs → c.Gives f n s → NanFrom cs st f n
  | plain (f : Format) : NanFrom cs st f f.plain
  | converted {f g : Format} {n d a : ℕ} {mode : Round} : Call.convert f g d a mode ∈ cs → NanFrom cs st f n → NanFrom cs st g (rescaled f g n)

end Apf
