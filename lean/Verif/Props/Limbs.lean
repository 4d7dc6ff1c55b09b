import Verif.Spec.Limbs
import Verif.Proof.Extract
import Verif.Proof.Normalize
/-!
# C45: the multi-limb primitives compute integers

Arrays of every length.  Shift counts, lengths and exponents are only bounded so that the `i32` exponent the
routines carry along does not overflow.
-/

namespace Apf
open Spec Sig

theorem num_eq (l : List ℕ) : num l = val l := by
  induction l with
  | nil => rfl
  | cons x xs ih =>
    have : num (x :: xs) = x + 2 ^ 128 * num xs := rfl
    rw [this, ih, val_cons]

/-- `add`: a sum with carry in and carry out. -/
theorem C45_add (a b : List ℕ) (ha : Words a) (hb : Words b) (hl : a.length = b.length) (c : ℕ) (hc : c ≤ 1) :
    ∃ r o, Sig.add a b c = .ok (r, o) ∧ r.length = a.length ∧ Words r ∧
      num r = (num a + num b + c) % 2 ^ (128 * a.length) ∧ o = (num a + num b + c) / 2 ^ (128 * a.length) := by
  obtain ⟨r, o, e1, e2, e3, e4, e5⟩ := add_ok ha hb hl hc
  have hr := val_lt e3
  rw [e2] at hr
  simp only [num_eq]
  refine ⟨r, o, e1, e2, e3, ?_, ?_⟩
  · rw [← e5, Nat.add_mul_mod_self_right, Nat.mod_eq_of_lt hr]
  · rw [← e5, Nat.add_mul_div_right _ _ (by positivity), Nat.div_eq_of_lt hr, Nat.zero_add]

example := C45_add [2 ^ 128 - 1, 3] [7, 2 ^ 128 - 4] (by decide) (by decide) rfl 1 (by decide)

/-- `sub`: a difference modulo the size of the array, with borrow in and borrow out. -/
theorem C45_sub (a b : List ℕ) (ha : Words a) (hb : Words b) (hl : a.length = b.length) (c : ℕ) (hc : c ≤ 1) :
    ∃ r o, Sig.sub a b c = .ok (r, o) ∧ r.length = a.length ∧ Words r ∧
      (num r : ℤ) = (num a - num b - c) % 2 ^ (128 * a.length) ∧ (o = if num a < num b + c then 1 else 0) := by
  obtain ⟨r, o, e1, e2, e3, e4, e5⟩ := sub_ok ha hb hl hc
  have hr := val_lt e3
  rw [e2] at hr
  have hA := val_lt ha
  have hB := val_lt hb
  rw [← hl] at hB
  simp only [num_eq]
  refine ⟨r, o, e1, e2, e3, ?_, ?_⟩
  · have h1 : ((val a : ℤ) - val b - c) = val r + (-(o : ℤ)) * 2 ^ (128 * a.length) := by
      have : ((val r + val b + c : ℕ) : ℤ) = ((val a + o * 2 ^ (128 * a.length) : ℕ) : ℤ) := by rw [e5]
      push_cast at this
      linarith
    rw [h1, Int.add_mul_emod_self_right, Int.emod_eq_of_lt (by positivity) (by exact_mod_cast hr)]
  · generalize 2 ^ (128 * a.length) = P at *
    rcases (by omega : o = 0 ∨ o = 1) with rfl | rfl
    · rw [if_neg (by omega)]
    · rw [if_pos (by omega)]

example := C45_sub [1, 3] [7, 2 ^ 128 - 4] (by decide) (by decide) rfl 1 (by decide)

/-- `cmp`: the order of the integers. -/
theorem C45_cmp (a b : List ℕ) (ha : Words a) (hb : Words b) (hl : a.length = b.length) :
    Sig.cmp a b = .ok (compare (num a) (num b)) := by
  simp only [num_eq]; exact cmp_ok ha hb hl

example := C45_cmp [9, 3] [7, 2 ^ 128 - 4] (by decide) (by decide) rfl

/-- `is_all_zeros`, `omsb`, `olsb`, `get_bit`, `set_bit`: the bits of the integer. -/
theorem C45_bits (a : List ℕ) (ha : Words a) :
    (Sig.isAllZeros a = true ↔ num a = 0) ∧
    (num a = 0 → Sig.omsb a = 0 ∧ Sig.olsb a = 0) ∧
    (num a ≠ 0 → 2 ^ (Sig.omsb a - 1) ≤ num a ∧ num a < 2 ^ Sig.omsb a ∧ 0 < Sig.olsb a ∧
      2 ^ (Sig.olsb a - 1) ∣ num a ∧ ¬ 2 ^ Sig.olsb a ∣ num a) ∧
    (∀ bit < 128 * a.length, Sig.getBit a bit = .ok ((num a).testBit bit) ∧
      ∃ r, Sig.setBit a bit = .ok r ∧ r.length = a.length ∧ Words r ∧ num r = num a ||| 2 ^ bit) := by
  simp only [num_eq]
  refine ⟨isAllZeros_iff a, ?_, ?_, ?_⟩
  · intro h
    exact ⟨by rw [omsb_eq ha, h]; rfl, olsb_zero h⟩
  · intro h
    obtain ⟨k, e1, e2, e3⟩ := olsb_spec ha h
    rw [omsb_eq ha, e1]
    refine ⟨two_pow_size_le (Nat.pos_of_ne_zero h), lt_two_pow_size _, by omega, by simpa using e2, ?_⟩
    rintro ⟨m, hm⟩
    have : val a / 2 ^ k = 2 * m := by
      rw [hm, pow_succ, mul_assoc, Nat.mul_div_cancel_left _ (by positivity)]
    omega
  · intro bit hb
    refine ⟨getBit_ok ha hb, ?_⟩
    obtain ⟨r, e⟩ := setBit_ok ha hb
    exact ⟨r, e⟩

example := C45_bits [0, 2 ^ 128 - 4] (by decide)

/-- `shift_left`: multiplication by a power of two, dropping what leaves the array. -/
theorem C45_shift_left (a : List ℕ) (ha : Words a) (exp : ℤ) (bits : ℕ) (hb : bits < 2 ^ 31)
    (h1 : -2 ^ 31 ≤ exp - bits) (h2 : exp < 2 ^ 31) :
    ∃ r, Sig.shiftLeft a exp bits = .ok (r, exp - bits) ∧ r.length = a.length ∧ Words r ∧
      num r = num a * 2 ^ bits % 2 ^ (128 * a.length) := by
  simp only [num_eq]
  exact shiftLeft_ok ha (by omega) (by omega) (by omega)

example := C45_shift_left [9, 2 ^ 127] (by decide) (-5) 129 (by decide) (by decide) (by decide)

/-- `shift_right`: division by a power of two, with the lost fraction. -/
theorem C45_shift_right (a : List ℕ) (ha : Words a) (exp : ℤ) (bits : ℕ) (hb : bits < 2 ^ 31)
    (h1 : -2 ^ 31 ≤ exp) (h2 : exp + bits < 2 ^ 31) :
    ∃ r l, Sig.shiftRight a exp bits = .ok (r, exp + bits, l) ∧ r.length = a.length ∧ Words r ∧
      num r = num a / 2 ^ bits ∧ Tells l ((num a : ℚ) / 2 ^ bits - num r) := by
  simp only [num_eq]
  obtain ⟨r, e1, e2, e3, e4⟩ := shiftRight_ok ha (exp := exp) (bits := bits) (by omega) (by omega) (by omega)
  refine ⟨r, _, e1, e2, e3, e4, ?_⟩
  have h : LossIs _ _ := lossIs_lossOf (Nat.mod_lt (val a) (show 0 < 2 ^ bits by positivity))
  have hq : (val a : ℚ) / 2 ^ bits - val r = ((val a % 2 ^ bits : ℕ) : ℚ) / (2 ^ bits : ℕ) := by
    rw [e4]
    have : (val a : ℚ) = 2 ^ bits * (val a / 2 ^ bits : ℕ) + (val a % 2 ^ bits : ℕ) := by
      exact_mod_cast (Nat.div_add_mod (val a) (2 ^ bits)).symm
    have hp : (2 : ℚ) ^ bits ≠ 0 := by positivity
    push_cast
    field_simp
    push_cast at this
    linarith
  rw [hq]
  exact h

example := C45_shift_right [9, 2 ^ 127] (by decide) (-5) 129 (by decide) (by decide) (by decide)

/-- `increment` and `decrement`. -/
theorem C45_increment (a : List ℕ) (ha : Words a) :
    Words (Sig.increment a).1 ∧ (Sig.increment a).1.length = a.length ∧
    num (Sig.increment a).1 = (num a + 1) % 2 ^ (128 * a.length) ∧
    (Sig.increment a).2 = (num a + 1) / 2 ^ (128 * a.length) := by
  obtain ⟨e1, e2, e3, e4⟩ := increment_ok ha
  have hr := val_lt e2
  rw [e1] at hr
  simp only [num_eq]
  refine ⟨e2, e1, ?_, ?_⟩
  · rw [← e4, Nat.add_mul_mod_self_right, Nat.mod_eq_of_lt hr]
  · rw [← e4, Nat.add_mul_div_right _ _ (by positivity), Nat.div_eq_of_lt hr, Nat.zero_add]

example := C45_increment [2 ^ 128 - 1, 8] (by decide)

theorem C45_decrement (a : List ℕ) (ha : Words a) :
    Words (Sig.decrement a).1 ∧ (Sig.decrement a).1.length = a.length ∧
    (num (Sig.decrement a).1 : ℤ) = (num a - 1) % 2 ^ (128 * a.length) ∧
    ((Sig.decrement a).2 = if num a = 0 then 1 else 0) := by
  obtain ⟨e1, e2, e3, e4⟩ := decrement_ok ha
  have hr := val_lt e2
  rw [e1] at hr
  have hA := val_lt ha
  simp only [num_eq]
  generalize (Sig.decrement a).2 = o at *
  generalize val (Sig.decrement a).1 = R at *
  refine ⟨e2, e1, ?_, ?_⟩
  · have h1 : ((val a : ℤ) - 1) = R + (-(o : ℤ)) * 2 ^ (128 * a.length) := by
      have : ((R + 1 : ℕ) : ℤ) = ((val a + o * 2 ^ (128 * a.length) : ℕ) : ℤ) := by rw [e4]
      push_cast at this
      linarith
    rw [h1, Int.add_mul_emod_self_right, Int.emod_eq_of_lt (by positivity) (by exact_mod_cast hr)]
  · generalize 2 ^ (128 * a.length) = P at *
    rcases (by omega : o = 0 ∨ o = 1) with rfl | rfl
    · rw [if_neg (by omega)]
    · rw [if_pos (by omega)]

example := C45_decrement [0, 8] (by decide)

/-- `mul`: the leading `precision` bits of a product, at most, with the exponent of their last bit and the lost
fraction.  (`exp` counts the position of the leading bit of a `precision`-bit significand.) -/
theorem C45_mul (a b : List ℕ) (ha : Words a) (hb : Words b) (dst : List ℕ) (hd : Words dst)
    (hl : dst.length = a.length + b.length) (hlen : dst.length < 8500000) (exp : ℤ) (precision : ℕ)
    (hp0 : 0 < precision) (hp : precision < 1000000000) (he : |exp| ≤ 1000000000) :
    ∃ r e l f, Sig.mul dst exp a b precision = .ok (r, e, l) ∧ r.length = dst.length ∧ Words r ∧
      num r < 2 ^ precision ∧ Tells l f ∧ (f ≠ 0 → 2 ^ precision ≤ 2 * num r) ∧
      ((num a * num b : ℕ) : ℚ) = (num r + f) * 2 ^ (e - (exp + 1 - precision)) := by
  rw [abs_le] at he
  obtain ⟨r, e1, e2, e3, e4⟩ := mul_ok hd ha hb hl hlen hp (by omega) (by omega : exp ≤ 1000000000)
  simp only [num_eq]
  generalize val a * val b = N at *
  generalize hk : Nat.size N - precision = k at *
  refine ⟨r, _, _, ((N % 2 ^ k : ℕ) : ℚ) / (2 ^ k : ℕ), e1, e2, e3, ?_,
    lossIs_lossOf (Nat.mod_lt N (show 0 < 2 ^ k by positivity)), ?_, ?_⟩
  · rw [e4, Nat.div_lt_iff_lt_mul (by positivity), ← pow_add]
    exact lt_of_lt_of_le (lt_two_pow_size N) (Nat.pow_le_pow_right (by omega) (by omega))
  · intro hf
    have hk0 : k ≠ 0 := by
      rintro rfl
      apply hf; simp [Nat.mod_one]
    have hN : 0 < N := by
      rcases Nat.eq_zero_or_pos N with rfl | h
      · simp at hk; omega
      · exact h
    rw [e4]
    have h1 : 2 ^ precision * 2 ^ k ≤ 2 * N := by
      rw [← pow_add]
      have h2 : precision + k = Nat.size N := by omega
      rw [h2]
      have := two_pow_size_le hN
      have hs := size_pos hN
      calc 2 ^ Nat.size N = 2 * 2 ^ (Nat.size N - 1) := by rw [← pow_succ']; congr 1; omega
        _ ≤ 2 * N := by omega
    obtain ⟨q, rfl⟩ : ∃ q, precision = q + 1 := ⟨precision - 1, by omega⟩
    rw [pow_succ', mul_assoc] at h1
    have h3 : 2 ^ q ≤ N / 2 ^ k := by
      rw [Nat.le_div_iff_mul_le (by positivity)]; omega
    rw [pow_succ']; omega
  · have h1 : (N : ℚ) = 2 ^ k * (N / 2 ^ k : ℕ) + (N % 2 ^ k : ℕ) := by
      exact_mod_cast (Nat.div_add_mod N (2 ^ k)).symm
    have h2 : exp + 1 - precision + (k : ℤ) - (exp + 1 - precision) = k := by ring
    rw [e4, h2, zpow_natCast]
    have hp : (2 : ℚ) ^ k ≠ 0 := by positivity
    push_cast
    field_simp
    push_cast at h1
    linarith

example := C45_mul [2 ^ 128 - 1, 8] [5] (by decide) (by decide) [0, 0, 0] (by decide) rfl (by decide) 7 113 (by decide) (by decide) (by decide)

/-- `div`: the leading `precision` bits of a quotient, with the exponent and the lost fraction. -/
theorem C45_div (a b : List ℕ) (ha : Words a) (hb : Words b) (quotient : List ℕ) (precision : ℕ)
    (hlen : a.length = b.length) (hq : quotient.length = a.length) (hp : 0 < precision)
    (hpl : precision < 128 * a.length) (hpl' : 128 * (a.length - 1) < precision) (hpb : precision < 550000000)
    (ha0 : num a ≠ 0) (hb0 : num b ≠ 0) (hap : num a < 2 ^ precision) (hbp : num b < 2 ^ precision)
    (exp : ℤ) (he : |exp| ≤ 1000000000) :
    ∃ q e l f, Sig.div quotient exp a b precision = .ok (q, e, l) ∧ q.length = a.length ∧ Words q ∧
      2 ^ (precision - 1) ≤ num q ∧ num q < 2 ^ precision ∧ Tells l f ∧
      (num a : ℚ) / num b = (num q + f) * 2 ^ (e - (exp + precision - 1)) := by
  rw [abs_le] at he
  simp only [num_eq] at *
  have hlim : limbsForBits precision = a.length := by unfold limbsForBits; omega
  obtain ⟨q, s, t, e1, e2, e3, e4, e5, e6, e7, e8⟩ := div_ok (exp := exp) ha hb hlen hq hpl hp hlim hpb
    (Nat.pos_of_ne_zero ha0) (Nat.pos_of_ne_zero hb0) (Nat.size_le.2 hap) (Nat.size_le.2 hbp) (by omega) (by omega)
  have hB : 0 < val b := Nat.pos_of_ne_zero hb0
  have hD : 0 < val b * 2 ^ t := by positivity
  refine ⟨q, _, _, ((val a * 2 ^ s * 2 ^ (precision - 1) % (val b * 2 ^ t) : ℕ) : ℚ) / (val b * 2 ^ t : ℕ), e1, e2, e3, ?_, ?_,
    lossIs_lossOf (Nat.mod_lt _ hD), ?_⟩
  · rw [e6, Nat.le_div_iff_mul_le hD]
    calc 2 ^ (precision - 1) * (val b * 2 ^ t) ≤ 2 ^ (precision - 1) * (val a * 2 ^ s) := Nat.mul_le_mul_left _ e4
      _ = _ := by ring
  · rw [e6, Nat.div_lt_iff_lt_mul hD]
    calc val a * 2 ^ s * 2 ^ (precision - 1) < 2 * (val b * 2 ^ t) * 2 ^ (precision - 1) :=
          Nat.mul_lt_mul_of_pos_right e5 (by positivity)
      _ = 2 ^ (precision - 1 + 1) * (val b * 2 ^ t) := by ring
      _ = _ := by congr 2; omega
  · generalize hN : val a * 2 ^ s * 2 ^ (precision - 1) = N at *
    generalize hDD : val b * 2 ^ t = D at *
    have h1 : (N : ℚ) = D * (N / D : ℕ) + (N % D : ℕ) := by
      exact_mod_cast (Nat.div_add_mod N D).symm
    have hDq : (D : ℚ) ≠ 0 := by exact_mod_cast (by omega : D ≠ 0)
    have hBq : (val b : ℚ) ≠ 0 := by exact_mod_cast (by omega : val b ≠ 0)
    have h2 : ((N / D : ℕ) : ℚ) + (N % D : ℕ) / (D : ℚ) = N / D := by
      rw [h1]; field_simp
    rw [e6, h2, ← hN, ← hDD]
    have h3 : exp + (t : ℤ) - s - (exp + precision - 1) = (t : ℤ) - (s + (precision - 1 : ℕ) : ℕ) := by
      push_cast [Nat.cast_sub (show 1 ≤ precision from hp)]; ring
    rw [h3, zpow_sub₀ (by norm_num), zpow_natCast, zpow_natCast, pow_add]
    push_cast
    field_simp

/-- `extract`: a bit field of the integer. -/
theorem C45_extract (src dst : List ℕ) (hs : Words src) (hd : Words dst) (bits lsb : ℕ) (h0 : 0 < bits)
    (hl : bits ≤ 128 * dst.length) (hb : lsb + bits ≤ 128 * src.length) :
    ∃ r, Sig.extract dst src bits lsb = .ok r ∧ r.length = dst.length ∧ Words r ∧
      num r = num src / 2 ^ lsb % 2 ^ bits := by
  simp only [num_eq]
  exact extract_ok hs hd h0 (by unfold limbsForBits; omega) hb

example := C45_extract [2 ^ 127 + 5, 2 ^ 100 + 1] [7, 9] (by unfold Words; decide) (by unfold Words; decide) 53 100 (by decide) (by decide) (by decide)

/-- `widening_mul`: the double-width product of two limbs. -/
theorem C45_widening_mul (a b : ℕ) (ha : a < 2 ^ 128) (hb : b < 2 ^ 128) :
    Sig.wideningMul a b = .ok [a * b % 2 ^ 128, a * b / 2 ^ 128] := by
  obtain ⟨r, e1, e2, e3, e4⟩ := wideningMul_ok ha hb
  obtain ⟨lo, hi, rfl, -⟩ := pair_ok e2
  have h1 : lo < 2 ^ 128 := e3 lo (by simp)
  have h4 : lo + 2 ^ 128 * hi = a * b := by simpa [val] using e4
  rw [e1, ← h4, Nat.add_mul_mod_self_left, Nat.mod_eq_of_lt h1, Nat.add_mul_div_left _ _ (by positivity),
    Nat.div_eq_of_lt h1, Nat.zero_add]

/-! Cases meeting the hypotheses: three limbs, the middle one all ones. -/

example : Words [5, 2 ^ 128 - 1, 7] ∧ num [5, 2 ^ 128 - 1, 7] ≠ 0 := by decide +kernel
/-- A carry running through two limbs. -/
example : Sig.add [2 ^ 128 - 1, 2 ^ 128 - 1, 7] [1, 0, 0] 0 = .ok ([0, 0, 8], 0) := by decide +kernel
example : Sig.sub [0, 0, 8] [1, 0, 0] 0 = .ok ([2 ^ 128 - 1, 2 ^ 128 - 1, 7], 0) := by decide +kernel
/-- The hypotheses of `C45_div` with two limbs and 255 bits, as in the second attempt of decimal parsing. -/
example : ∃ q e l f, Sig.div [0, 0] 0 [1, 1] [3, 2 ^ 100] 255 = .ok (q, e, l) ∧ q.length = 2 ∧ Words q ∧
    2 ^ 254 ≤ num q ∧ num q < 2 ^ 255 ∧ Tells l f ∧
    (num [1, 1] : ℚ) / num [3, 2 ^ 100] = (num q + f) * 2 ^ (e - (0 + 255 - 1)) :=
  C45_div [1, 1] [3, 2 ^ 100] (by decide) (by decide) [0, 0] 255 rfl rfl (by decide) (by decide) (by decide) (by decide)
    (by decide) (by decide) (by decide) (by decide) 0 (by decide)
example : Sig.extract [0, 0] [2 ^ 127, 3, 9] 130 127 = .ok [7, 2] := by decide +kernel

end Apf
