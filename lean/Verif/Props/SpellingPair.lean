import Verif.Props.BitsOnly
import Verif.Props.Spelling

/-!
# C91 for DoubleDouble: the spelling of a literal does not matter

Parsing a pair parses in the 106-bit format and splits the result. Splitting sees only the bits (C101), so that what C91 says of the 106-bit
format holds of pairs, panics included.
-/

namespace Apf
open IeeeFloat Spec

variable {S : Sem}

/-- Splitting a value of the 106-bit format depends on its bits only. -/
theorem ofFallback_bits {u v : IeeeFloat (fallbackS S)} (h : u.BitEq v) :
    DoubleFloat.ofFallback (S := S) u = DoubleFloat.ofFallback v := by
  unfold DoubleFloat.ofFallback
  rw [C101_convert (fallbackExtendedS S) h]

/-- **C91** (DoubleDouble). Two hexadecimal literals of the same number and sign parse alike: the same pair with the same status, or the same panic. -/
theorem C91_hex_pair (h : (fallbackS S).OK) (hp : S.precision * 2 ≤ 125) (fuel : ℕ) (sg sg' : LitSign) (hsg : (sg == .minus) = (sg' == .minus))
    {c c' : Char} (hc : c = 'x' ∨ c = 'X') (hc' : c' = 'x' ∨ c' = 'X') {t t' : List Char} (hlen : t.length < 2 ^ 28) (hlen' : t'.length < 2 ^ 28)
    {v : ℚ} (ht : IsHex t v) (ht' : IsHex t' v) (mode : Round) :
    DoubleFloat.fromStrR S fuel (sg.chars ++ '0' :: c :: t) mode = DoubleFloat.fromStrR S fuel (sg'.chars ++ '0' :: c' :: t') mode := by
  obtain ⟨r, r', a, b, e, s⟩ := C91_hex h (by simpa [fallbackS] using hp) fuel sg sg' hsg hc hc' hlen hlen' ht ht' mode
  unfold DoubleFloat.fromStrR
  rw [a, b, M.ok_bind, M.ok_bind]
  simp only [DoubleFloat.mapFrom]
  rw [ofFallback_bits e, s]

/-- **C91** (DoubleDouble). In the modes rounding to nearest all literals of the same number and sign, decimal or hexadecimal, parse to the same
pair with the same OVERFLOW flag, or all panic. -/
theorem C91_nearest_pair (h : S.Pair) (hp : S.precision * 2 ≤ 120) {fuel : ℕ} (hfuel : 23 ≤ fuel) {s s' : List Char}
    {neg : Bool} {v : ℚ} (hs : Denotes s (.num neg v)) (hs' : Denotes s' (.num neg v)) (hlen : s.length < 2 ^ 27) (hlen' : s'.length < 2 ^ 27)
    {mode : Round} (hm : mode = .nearestTiesToEven ∨ mode = .nearestTiesToAway) :
    (∃ r r', DoubleFloat.fromStrR S fuel s mode = .ok (.ok r) ∧ DoubleFloat.fromStrR S fuel s' mode = .ok (.ok r') ∧ r.value = r'.value ∧
      r.status.overflow = r'.status.overflow) ∨
    (DoubleFloat.fromStrR S fuel s mode = .error .assert ∧ DoubleFloat.fromStrR S fuel s' mode = .error .assert) := by
  obtain ⟨r, r', a, b, e, -, o⟩ := C91_nearest h.fb (by simpa [fallbackS] using hp) hfuel hs hs' hlen hlen' hm
  obtain ⟨-, q⟩ := C75_from_str h (by omega) hfuel hlen mode
  obtain ⟨r0, q1, q2, q3⟩ := q ⟨_, hs⟩
  obtain rfl : r = r0 := by rw [a] at q1; simpa using q1
  have e1 : DoubleFloat.fromStrR S fuel s mode = (do let d ← DoubleFloat.ofFallback r.value; .ok (.ok (r.status.and d))) := by
    unfold DoubleFloat.fromStrR; rw [a, M.ok_bind]; simp only [DoubleFloat.mapFrom]; cases DoubleFloat.ofFallback (S := S) r.value <;> rfl
  have e2 : DoubleFloat.fromStrR S fuel s' mode = (do let d ← DoubleFloat.ofFallback r.value; .ok (.ok (r'.status.and d))) := by
    unfold DoubleFloat.fromStrR; rw [b, M.ok_bind]; simp only [DoubleFloat.mapFrom]; rw [← ofFallback_bits e]
    cases DoubleFloat.ofFallback (S := S) r.value <;> rfl
  rw [e1, e2]
  cases hd : DoubleFloat.ofFallback (S := S) r.value with
  | ok d => exact Or.inl ⟨_, _, rfl, rfl, rfl, o⟩
  | error x =>
    right
    rw [e1, hd] at q2 q3
    by_cases hq : r.value.isSignaling = true ∨ TooLarge r.value
    · have := q2 hq
      exact ⟨this, by simpa using this⟩
    · obtain ⟨d, d1, -⟩ := q3 hq
      cases d1

/-- `0x1.4p0`, `0x0a.P-3` and `1.25` are the same number. -/
theorem five_quarters : IsHex "1.4p0".toList (5 / 4) ∧ IsHex "0a.P-3".toList (5 / 4) ∧ IsDec "1.25".toList (5 / 4) := by
  refine ⟨⟨"1.4".toList, "1".toList, "4".toList, "0".toList, "0".toList, 0, by unfold IsSignificand; exact ⟨by decide, by decide, by decide, Or.inr rfl⟩,
      ⟨by decide, Or.inl ⟨rfl, by decide⟩⟩, by decide, Or.inl rfl, ?_⟩,
    ⟨"0a.".toList, "0a".toList, [], "-3".toList, "3".toList, -3, by unfold IsSignificand; exact ⟨by decide, by decide, by decide, Or.inr rfl⟩,
      ⟨by decide, Or.inr (Or.inr ⟨rfl, by decide⟩)⟩, by decide, Or.inr rfl, ?_⟩,
    ⟨"1.25".toList, "1".toList, "25".toList, by unfold IsSignificand; exact ⟨by decide, by decide, by decide, Or.inr rfl⟩, Or.inl ⟨rfl, ?_⟩⟩⟩
  · rw [significandValue, show number 16 ("1".toList ++ "4".toList) = 20 by decide, show "4".toList.length = 1 by decide]; norm_num
  · rw [significandValue, show number 16 ("0a".toList ++ []) = 10 by decide]; norm_num
  · rw [significandValue, show number 10 ("1".toList ++ "25".toList) = 125 by decide, show "25".toList.length = 2 by decide]; norm_num

example := C91_hex_pair (S := doubleS) doubleS_pair.fb (by decide) 23 .plus .none rfl (Or.inl rfl) (Or.inr rfl) (by decide) (by decide)
  five_quarters.1 five_quarters.2.1 .towardPositive

example := C91_nearest_pair doubleS_pair (by decide) (le_refl 23) (Denotes.hex .plus 'x' _ _ (Or.inl rfl) five_quarters.1)
  (Denotes.dec .plus _ _ five_quarters.2.2) (by decide) (by decide) (Or.inl rfl)

end Apf
