import Verif.Props.Decimal
import Verif.Proof.Display
/-! # C31: why the theorems about literals bound their length

Positions in the string are cast to 32 bits (`as i32`) when the exponent is adjusted for the decimal point, so literals of more than `2^31`
characters are misread. -/

namespace Apf
open Spec
open IeeeFloat
variable {S : Sem}

/-- `1` followed by `n` zeros. -/
def longLit (n : ℕ) : List Char := '1' :: List.replicate n '0'

/-- It is a literal, and denotes `10^n`. -/
theorem longLit_denotes (n : ℕ) : IsDec (longLit n) (10 ^ n) := by
  refine ⟨longLit n, longLit n, [], ⟨?_, by simp, by simp [longLit], Or.inl ⟨rfl, rfl⟩⟩, Or.inl ⟨rfl, ?_⟩⟩
  · intro c hc
    rcases List.mem_cons.1 hc with rfl | hc
    · exact ⟨1, by decide, by norm_num⟩
    · rw [(List.mem_replicate.1 hc).2]; exact ⟨0, by decide, by norm_num⟩
  · unfold significandValue
    rw [List.append_nil, longLit, show ('1' :: List.replicate n '0') = ['1'] ++ List.replicate n '0' from rfl, number_append, number_zeros,
      List.length_replicate, show number 10 ['1'] = 1 by decide]
    simp

theorem decLoop_zeros (len n : ℕ) : ∀ p d, decLoop len p (List.replicate n '0') ⟨true, some 0, 0, d⟩ = .ok (⟨true, some 0, 0, d⟩, 0) := by
  induction n with
  | zero => intro p d; rfl
  | succ n ih =>
    intro p d
    rw [List.replicate_succ, decLoop, if_neg (by decide), show toDigit 10 '0' = some 0 by decide]
    dsimp only
    rw [if_neg (by decide)]
    exact ih (p + 1) d

theorem longLit_scan (n : ℕ) : decLoop (longLit n).length 0 (longLit n) ⟨false, none, 0, (longLit n).length⟩ =
    .ok (⟨true, some 0, 0, n + 1⟩, 0) := by
  have e : (longLit n).length = n + 1 := by simp [longLit]
  rw [e, longLit, decLoop, if_neg (by decide), show toDigit 10 '1' = some 1 by decide]
  dsimp only
  rw [if_pos (by decide)]
  exact decLoop_zeros _ n _ _

/-- The conversion of the digit `1` at the given decimal exponent. -/
def oneTimes (S : Sem) (fuel : ℕ) (mode : Round) (decExp : ℤ) : M (StatusAnd (IeeeFloat S)) := do
  let n ← usub 0 0
  let significandDigits ← usub (n + 1) 0
  let d ← i32 (asI32 significandDigits - 1)
  let normalizedExp := sat32 (decExp + d)
  let maxBound ← i32 (12655 * S.maxExp)
  if sat32 (sat32 (normalizedExp - 1) * 42039) ≥ maxBound then .ok (overflowResult S mode)
  else do
    let t ← i32 (S.minExp - asI32 S.precision)
    let minBound ← i32 (8651 * t)
    if sat32 (sat32 (normalizedExp + 1) * 28738) ≤ minBound then
      .ok ((Status.UNDERFLOW ||| Status.INEXACT).and
        (if mode = .towardPositive then SMALLEST S else ZERO S))
    else do
      let decSig ← decSigLoop 2 ['1'] []
      let power ← i32 (if decExp < 0 then -decExp else decExp)
      let p5 ← pow5 power.toNat
      decAttempts S mode decSig decExp p5 fuel 0

/-- What the parser does depends only on the number of zeros as a 32-bit signed integer. -/
theorem longLit_parse (fuel n : ℕ) (mode : Round) :
    fromStrR S fuel (longLit n) mode = (do let r ← oneTimes S fuel mode (sat32 (0 + asI32 n)); .ok (.ok r)) := by
  have conv : decConvert S fuel (longLit n) mode ⟨true, some 0, 0, n + 1⟩ 0 0 = oneTimes S fuel mode (sat32 (0 + asI32 n)) := by
    unfold decConvert adjustDecExp
    dsimp only
    rw [if_pos (by omega), show n + 1 - 0 - 1 = n by omega, show (decide (n + 1 > 0 ∧ n + 1 < 0)).toNat = 0 by simp, M.ok_bind,
      show ((longLit n).take (0 + 1)).drop 0 = ['1'] from rfl]
    rfl
  rw [show longLit n = LitSign.none.chars ++ longLit n from rfl, fromStrR_sign fuel .none mode (fun _ => by simp [longLit])]
  unfold fromStrBody
  rw [dec_special (longLit_denotes n)]
  dsimp only
  have e1 : ∀ mode, fromStrNumber S fuel (longLit n) mode = (do let r ← decConvert S fuel (longLit n) mode ⟨true, some 0, 0, n + 1⟩ 0 0; .ok (.ok r)) := by
    intro mode
    have e2 : fromStrNumber S fuel (longLit n) mode = fromDecString S fuel (longLit n) mode := rfl
    rw [e2]
    unfold fromDecString
    rw [longLit_scan]
    rfl
  rw [e1, show Round.negateIf mode (LitSign.none == .minus) = mode from rfl, conv]
  cases oneTimes S fuel mode (sat32 (0 + asI32 n)) with
  | error e => rfl
  | ok r => rw [M.ok_bind, M.ok_bind]; rfl

/-- **C31.** The bound on the length of literals is needed, if not its value: `1` followed by any multiple of `2^32` zeros, which denotes a
number far beyond the range, is parsed as exactly 1. -/
theorem C31_length_needed (k : ℕ) : IsDec (longLit (k * 2 ^ 32)) (10 ^ (k * 2 ^ 32)) ∧
    fromStrR doubleS 23 (longLit (k * 2 ^ 32)) .nearestTiesToEven = .ok (.ok ⟨Status.OK, ⟨2 ^ 52, 0, .normal, false⟩⟩) := by
  refine ⟨longLit_denotes _, ?_⟩
  rw [longLit_parse, show asI32 (k * 2 ^ 32) = 0 by
    unfold asI32
    rw [show (4294967296 : ℕ) = 2 ^ 32 by norm_num, Nat.mul_mod_left]; rfl]
  decide +kernel

/-- **C31.** And with `2^31` more zeros it is parsed as zero. -/
theorem C31_length_needed' (k : ℕ) : IsDec (longLit (k * 2 ^ 32 + 2 ^ 31)) (10 ^ (k * 2 ^ 32 + 2 ^ 31)) ∧
    fromStrR doubleS 23 (longLit (k * 2 ^ 32 + 2 ^ 31)) .nearestTiesToEven =
      .ok (.ok ⟨Status.UNDERFLOW ||| Status.INEXACT, ZERO doubleS⟩) := by
  refine ⟨longLit_denotes _, ?_⟩
  rw [longLit_parse, show asI32 (k * 2 ^ 32 + 2 ^ 31) = -2147483648 by
    unfold asI32
    rw [show (4294967296 : ℕ) = 2 ^ 32 by norm_num, Nat.mul_add_mod_self_right]; rfl]
  decide +kernel

end Apf
