import Verif.Spec.Bits
import Verif.Proof.Special
/-! # Conversion from and to bit patterns -/

namespace Apf
open Spec IeeeFloat

/-- A bit pattern from its fields. -/
def encode (w t : ℕ) (s : Bool) (E T : ℕ) : ℕ := s.toNat * 2 ^ (w + t) + (E * 2 ^ t + T)

theorem encode_low {w t E T : ℕ} (hE : E < 2 ^ w) (hT : T < 2 ^ t) : E * 2 ^ t + T < 2 ^ (w + t) := by
  rw [pow_add]
  calc E * 2 ^ t + T < E * 2 ^ t + 2 ^ t := by omega
    _ = (E + 1) * 2 ^ t := by ring
    _ ≤ 2 ^ w * 2 ^ t := Nat.mul_le_mul_right _ hE

theorem encode_lt {w t E T : ℕ} (s : Bool) (hE : E < 2 ^ w) (hT : T < 2 ^ t) : encode w t s E T < 2 ^ (1 + w + t) := by
  have h := encode_low hE hT
  rw [show 1 + w + t = w + t + 1 by ring, pow_succ]
  unfold encode
  cases s <;> simp <;> omega

theorem signField_encode {w t E T : ℕ} (s : Bool) (hE : E < 2 ^ w) (hT : T < 2 ^ t) :
    signField w t (encode w t s E T) = s := by
  have h := encode_low hE hT
  unfold signField encode
  rw [Nat.mul_comm, Nat.mul_add_div (by positivity), Nat.div_eq_of_lt h]
  cases s <;> simp

theorem exponentField_encode {w t E T : ℕ} (s : Bool) (hE : E < 2 ^ w) (hT : T < 2 ^ t) :
    exponentField w t (encode w t s E T) = E := by
  unfold exponentField encode
  rw [show s.toNat * 2 ^ (w + t) + (E * 2 ^ t + T) = 2 ^ t * (2 ^ w * s.toNat + E) + T by rw [pow_add]; ring,
    Nat.mul_add_div (by positivity), Nat.div_eq_of_lt hT, Nat.add_zero, Nat.mul_add_mod, Nat.mod_eq_of_lt hE]

theorem sigField_encode {w t E T : ℕ} (s : Bool) (hT : T < 2 ^ t) : sigField t (encode w t s E T) = T := by
  unfold sigField encode
  rw [show s.toNat * 2 ^ (w + t) + (E * 2 ^ t + T) = 2 ^ t * (2 ^ w * s.toNat + E) + T by rw [pow_add]; ring,
    Nat.mul_add_mod, Nat.mod_eq_of_lt hT]

theorem exponentField_lt (w t b : ℕ) : exponentField w t b < 2 ^ w := Nat.mod_lt _ (by positivity)
theorem sigField_lt (t b : ℕ) : sigField t b < 2 ^ t := Nat.mod_lt _ (by positivity)

theorem encode_fields {w t b : ℕ} (h : b < 2 ^ (1 + w + t)) :
    encode w t (signField w t b) (exponentField w t b) (sigField t b) = b := by
  unfold encode signField exponentField sigField
  have h1 : b / 2 ^ (w + t) < 2 := by
    rw [Nat.div_lt_iff_lt_mul (by positivity)]
    calc b < 2 ^ (1 + w + t) := h
      _ = 2 * 2 ^ (w + t) := by rw [← pow_succ']; congr 1; ring
  have h2 : (decide (b / 2 ^ (w + t) % 2 = 1)).toNat = b / 2 ^ (w + t) := by
    generalize b / 2 ^ (w + t) = q at h1
    rcases (by omega : q = 0 ∨ q = 1) with e | e <;> simp [e]
  rw [h2]
  have h3 : b / 2 ^ (w + t) = b / 2 ^ t / 2 ^ w := by rw [Nat.div_div_eq_div_mul, ← pow_add, Nat.add_comm]
  have h4 := Nat.div_add_mod (b / 2 ^ t) (2 ^ w)
  have h5 := Nat.div_add_mod b (2 ^ t)
  rw [h3, pow_add]
  calc b / 2 ^ t / 2 ^ w * (2 ^ w * 2 ^ t) + (b / 2 ^ t % 2 ^ w * 2 ^ t + b % 2 ^ t)
      = (2 ^ w * (b / 2 ^ t / 2 ^ w) + b / 2 ^ t % 2 ^ w) * 2 ^ t + b % 2 ^ t := by ring
    _ = b := by rw [h4, Nat.mul_comm]; exact h5

theorem encode_inj {w t E T E' T' : ℕ} {s s' : Bool} (hE : E < 2 ^ w) (hT : T < 2 ^ t) (hE' : E' < 2 ^ w) (hT' : T' < 2 ^ t) :
    encode w t s E T = encode w t s' E' T' ↔ s = s' ∧ E = E' ∧ T = T' := by
  constructor
  · intro h
    refine ⟨?_, ?_, ?_⟩
    · rw [← signField_encode s hE hT, h, signField_encode s' hE' hT']
    · rw [← exponentField_encode s hE hT, h, exponentField_encode s' hE' hT']
    · rw [← sigField_encode (E := E) (w := w) s hT, h, sigField_encode s' hT']
  · rintro ⟨rfl, rfl, rfl⟩; rfl

theorem encode_or {w t E T : ℕ} (s : Bool) (hE : E < 2 ^ w) (hT : T < 2 ^ t) :
    (s.toNat * 2 ^ (w + t)) ||| (E * 2 ^ t) ||| T = encode w t s E T := by
  unfold encode
  rw [Nat.or_assoc, Nat.mul_comm E, ← Nat.two_pow_add_eq_or_of_lt hT, Nat.mul_comm s.toNat,
    ← Nat.two_pow_add_eq_or_of_lt (by rw [Nat.mul_comm]; exact encode_low hE hT)]

/-- The fields as `from_bits` extracts them. -/
theorem and_sign (n b : ℕ) : b &&& 2 ^ n = if b.testBit n then 2 ^ n else 0 := by
  apply Nat.eq_of_testBit_eq
  intro i
  rw [Nat.testBit_and, Nat.testBit_two_pow]
  by_cases h : n = i
  · subst h
    cases b.testBit n <;> simp
  · split_ifs <;> simp [h]

theorem and_lnot_sign {n b : ℕ} (hn : n < 128) (hb : b < 2 ^ (n + 1)) : b &&& lnot (b &&& 2 ^ n) = b % 2 ^ n := by
  have hp : 2 ^ n < 2 ^ 128 := Nat.pow_lt_pow_right (by norm_num) hn
  have hlt : b &&& 2 ^ n < 2 ^ 128 := lt_of_le_of_lt Nat.and_le_right hp
  rw [lnot_eq hlt]
  apply Nat.eq_of_testBit_eq
  intro i
  rw [Nat.testBit_and, show 2 ^ 128 - 1 - (b &&& 2 ^ n) = 2 ^ 128 - ((b &&& 2 ^ n) + 1) by omega,
    Nat.testBit_two_pow_sub_succ hlt, Nat.testBit_mod_two_pow, Nat.testBit_and, Nat.testBit_two_pow]
  by_cases h : i < n
  · have : i < 128 := by omega
    have h' : ¬ n = i := by omega
    simp [h, this, h']
  · by_cases h' : n = i
    · subst h'; cases b.testBit n <;> simp
    · have : b.testBit i = false := Nat.testBit_lt_two_pow (lt_of_lt_of_le hb (Nat.pow_le_pow_right (by norm_num) (by omega)))
      simp [this]

theorem testBit_signField {w t b : ℕ} : b.testBit (w + t) = signField w t b := by
  unfold signField; rw [Nat.testBit_eq_decide_div_mod_eq]

theorem sign_ne_zero (w t b : ℕ) : ((b &&& 2 ^ (w + t)) != 0) = signField w t b := by
  rw [and_sign, testBit_signField]
  cases signField w t b <;> simp

theorem exp_extract {w t b : ℕ} (hw : w + t < 128) (hb : b < 2 ^ (1 + w + t)) :
    (b &&& lnot (b &&& 2 ^ (w + t))) / 2 ^ t % 2 ^ w = exponentField w t b := by
  rw [and_lnot_sign hw (by rw [show w + t + 1 = 1 + w + t by ring]; exact hb)]
  unfold exponentField
  rw [show w + t = t + w by ring, pow_add, Nat.mod_mul_right_div_self, Nat.mod_mod]

namespace Sem.Enc
variable {S : Sem}

theorem ok (h : S.Enc) : S.OK := h.toOK

theorem exp_lt {E : ℕ} (h : S.Enc) (hE : E < 2 ^ S.expBits) : E < 32768 := by
  have : 2 ^ S.expBits ≤ 2 ^ 15 := Nat.pow_le_pow_right (by norm_num) h.w_le
  omega

theorem w_pow (h : S.Enc) : (2 : ℤ) ^ S.expBits = 2 * 2 ^ (S.expBits - 1) := by
  have := h.w_ge
  conv_lhs => rw [show S.expBits = S.expBits - 1 + 1 by omega]
  ring

/-- The largest exponent field is the exponent of the non-finite values. -/
theorem max_field (h : S.Enc) {E : ℕ} : (E : ℤ) + (S.minExp - 1) = (NAN S).exp ↔ E = 2 ^ S.expBits - 1 := by
  have h1 := h.w_pow
  have h2 := h.min_eq
  have h3 := h.max_eq
  have h4 : (1 : ℤ) ≤ 2 ^ (S.expBits - 1) := one_le_pow₀ (by norm_num)
  have h5 : ((2 ^ S.expBits : ℕ) : ℤ) = 2 ^ S.expBits := by push_cast; rfl
  have h6 : (NAN S).exp = 2 ^ (S.expBits - 1) := by
    unfold NAN qnan
    cases hn : S.nonfinite <;> simp only [hn] at h3 ⊢ <;> simp at h3 <;> omega
  rw [h6]
  generalize (2 ^ (S.expBits - 1) : ℤ) = a at *
  generalize (2 ^ S.expBits : ℕ) = c at *
  omega

theorem nan_exp_gt (h : S.Enc) : S.minExp < (NAN S).exp := by
  have := h.p_max
  have := h.min_lt
  unfold NAN qnan
  cases hn : S.nonfinite <;> simp only <;> omega

end Sem.Enc

namespace IeeeFloat
variable {S : Sem}

/-- What `from_bits` makes of the fields, when the integer bit is implied. -/
def decodedD (S : Sem) (s : Bool) (E T : ℕ) : IeeeFloat S :=
  if E = 0 ∧ T = 0 then ⟨0, S.minExp - 1, .zero, s⟩
  else if E = 2 ^ S.expBits - 1 ∧ (S.nonfinite = .nanOnly → T = 2 ^ (S.precision - 1) - 1) then
    ⟨T, E + (S.minExp - 1), if S.nonfinite = .ieee754 ∧ T = 0 then .infinity else .nan, s⟩
  else if E = 0 then ⟨T, S.minExp, .normal, s⟩
  else ⟨2 ^ (S.precision - 1) + T, E + (S.minExp - 1), .normal, s⟩

/-- What `from_bits` makes of the fields, when the integer bit is stored. -/
def decodedX (S : Sem) (s : Bool) (E T : ℕ) : IeeeFloat S :=
  if E = 0 ∧ T = 0 then ⟨0, S.minExp - 1, .zero, s⟩
  else if E = 2 ^ S.expBits - 1 ∧ T = 2 ^ (S.precision - 1) then ⟨T, S.maxExp + 1, .infinity, s⟩
  else if E = 2 ^ S.expBits - 1 ∨ (E ≠ 0 ∧ T < 2 ^ (S.precision - 1)) then ⟨T, S.maxExp + 1, .nan, s⟩
  else if E = 0 then ⟨T, S.minExp, .normal, s⟩
  else ⟨T, E + (S.minExp - 1), .normal, s⟩

theorem and_lnot_zero {a : ℕ} (h : a < 2 ^ 128) : a &&& lnot 0 = a := by
  rw [lnot_eq (by norm_num), Nat.sub_zero, and_mask, Nat.mod_eq_of_lt h]

theorem and_lnot_mask {a k : ℕ} (hk : k < 128) (h : a < 2 ^ k) : a &&& lnot (2 ^ k - 1) = 0 := by
  have h1 : 2 ^ k < 2 ^ 128 := Nat.pow_lt_pow_right (by norm_num) hk
  rw [lnot_eq (by omega)]
  apply Nat.eq_of_testBit_eq
  intro i
  rw [Nat.testBit_and, show 2 ^ 128 - 1 - (2 ^ k - 1) = 2 ^ 128 - ((2 ^ k - 1) + 1) by omega,
    Nat.testBit_two_pow_sub_succ (by omega), Nat.testBit_two_pow_sub_one]
  by_cases hi : i < k
  · simp [hi]
  · have : a.testBit i = false := Nat.testBit_lt_two_pow (lt_of_lt_of_le h (Nat.pow_le_pow_right (by norm_num) (by omega)))
    simp [this]

theorem try_zero {r : IeeeFloat S} (h : r.sig < 2 ^ 128) :
    tryCategoryFromSpecial r (ZERO S) = if r.exp = S.minExp - 1 ∧ r.sig = 0 then some .zero else none := by
  unfold tryCategoryFromSpecial
  simp only [copySign_eq, isNan, isNegative, ZERO, true_and]
  simp only [show (Category.zero == Category.nan) = false from rfl, Bool.false_eq_true, if_false, and_lnot_zero h, Nat.zero_and]
  simp only [eq_comm]

theorem try_inf (hn : S.nonfinite = .ieee754) {r : IeeeFloat S} (h : r.sig < 2 ^ 128) :
    tryCategoryFromSpecial r (INFINITY S) = if r.exp = (NAN S).exp ∧ r.sig = 0 then some .infinity else none := by
  unfold tryCategoryFromSpecial NAN qnan
  simp only [copySign_eq, isNan, isNegative, INFINITY, hn, true_and]
  simp only [show (Category.infinity == Category.nan) = false from rfl, Bool.false_eq_true, if_false, and_lnot_zero h,
    Nat.zero_and]
  simp only [eq_comm]

theorem try_nan_ieee (hS : S.OK) (hn : S.nonfinite = .ieee754) (hx : S.explicitIntBit = false) {r : IeeeFloat S}
    (h : r.sig < 2 ^ (S.precision - 1)) :
    tryCategoryFromSpecial r (NAN S) = if r.exp = (NAN S).exp then some .nan else none := by
  obtain ⟨h1, h2, h3⟩ := hS.ieee hn
  have hp := hS.p_ge
  have hp' := hS.p_le
  have h4 : S.qnanSignificand = 2 ^ (S.precision - 2) := by
    rcases h3 with ⟨-, h⟩ | ⟨h, -⟩
    · exact h
    · rw [hx] at h; cases h
  unfold tryCategoryFromSpecial NAN qnan
  simp only [copySign_eq, isNan, isNegative, true_and, h1, h4, Nat.or_zero, Nat.zero_or]
  rw [show (Category.nan == Category.nan) = true from rfl, if_pos (rfl : true = true), h2, and_lnot_mask (by omega) h,
    and_lnot_mask (by omega) (Nat.pow_lt_pow_right (by norm_num) (by omega))]
  simp only [and_true, eq_comm]

theorem try_nan_only (hS : S.OK) (hn : S.nonfinite = .nanOnly) {r : IeeeFloat S} (h : r.sig < 2 ^ 128) :
    tryCategoryFromSpecial r (NAN S) =
      if r.exp = (NAN S).exp ∧ r.sig = 2 ^ (S.precision - 1) - 1 then some .nan else none := by
  obtain ⟨h1, h2, h3, -⟩ := hS.nanOnly hn
  have hp := hS.pow_le
  have hp2 := hS.two_pow
  unfold tryCategoryFromSpecial NAN qnan
  simp only [copySign_eq, isNan, isNegative, true_and, h1, h3, Nat.or_zero]
  rw [show (Category.nan == Category.nan) = true from rfl, if_pos (rfl : true = true), h2, and_lnot_zero h, and_lnot_zero (by omega)]
  simp only [eq_comm]

/-- `from_bits` in closed form, when the integer bit is implied. -/
theorem fromBitsDefault_eq (h : S.Enc) (hx : S.explicitIntBit = false) {b : ℕ} (hb : b < 2 ^ S.bits) :
    fromBitsDefault S b = .ok (decodedD S (signField S.expBits (S.precision - 1) b)
      (exponentField S.expBits (S.precision - 1) b) (sigField (S.precision - 1) b)) := by
  have hp := h.p_ge
  have hp' := h.p_le
  have hw := h.w_ge
  have hbits := h.bits_eq
  have hbl := h.bits_le
  have hmin := h.min_ge
  have hmin' := h.min_lt
  have hp2 := h.ok.two_pow
  have hple := h.ok.pow_le
  rw [Sem.sigBits, hx] at hbits
  simp only [Bool.false_eq_true, if_false] at hbits
  have hb' : b < 2 ^ (1 + S.expBits + (S.precision - 1)) := by rw [← hbits]; exact hb
  have hE := exponentField_lt S.expBits (S.precision - 1) b
  have hT := sigField_lt (S.precision - 1) b
  have hE2 := h.exp_lt hE
  unfold fromBitsDefault
  rw [massert_pos (by omega), shl_ok (by omega), shl_ok (by omega), shl_ok (by omega)]
  have e1 : 1 * 2 ^ (S.bits - 1) % 2 ^ 128 = 2 ^ (S.expBits + (S.precision - 1)) := by
    rw [Nat.one_mul, Nat.mod_eq_of_lt (Nat.pow_lt_pow_right (by norm_num) (by omega))]
    congr 1; omega
  have e2 : S.bits - 1 - S.expBits = S.precision - 1 := by omega
  have e3 : 1 * 2 ^ S.expBits % 2 ^ 128 = 2 ^ S.expBits := by
    rw [Nat.one_mul, Nat.mod_eq_of_lt (Nat.pow_lt_pow_right (by norm_num) (by omega))]
  have e4 : 1 * 2 ^ (S.precision - 1) % 2 ^ 128 = 2 ^ (S.precision - 1) := by
    rw [Nat.one_mul, Nat.mod_eq_of_lt (Nat.pow_lt_pow_right (by norm_num) (by omega))]
  simp only [bind, Except.bind, e1, e2, e3, e4]
  rw [shr_ok (by omega)]
  simp only [and_mask, exp_extract (by omega : S.expBits + (S.precision - 1) < 128) hb', sign_ne_zero]
  rw [asI32_of_lt (by omega), i32_ok (by omega) (by omega)]
  simp only []
  generalize signField S.expBits (S.precision - 1) b = s at *
  generalize exponentField S.expBits (S.precision - 1) b = E at *
  have hsig : b % 2 ^ (S.precision - 1) = sigField (S.precision - 1) b := rfl
  simp only [hsig]
  clear hsig
  generalize sigField (S.precision - 1) b = T at *
  have hT1 : T < 2 ^ 128 := by omega
  simp only [List.findSome?]
  rw [try_zero (by exact hT1)]
  have hz : ((E : ℤ) + (S.minExp - 1) = S.minExp - 1) ↔ E = 0 := by omega
  have hmx := @Sem.Enc.max_field S h E
  simp only [hz]
  unfold decodedD
  by_cases c1 : E = 0 ∧ T = 0
  · rw [if_pos c1, if_pos c1]
    obtain ⟨rfl, rfl⟩ := c1
    simp
  rw [if_neg c1, if_neg c1]
  simp only []
  have hset : ∀ T, T < 2 ^ (S.precision - 1) → Sig.setBit [T] (S.precision - 1) = .ok [2 ^ (S.precision - 1) + T] := by
    intro T hT
    obtain ⟨r, h1, h2, h3, h4⟩ := setBit_ok (Limbs.one (show T < 2 ^ 128 by omega)) (bit := S.precision - 1)
      (by simp only [List.length_singleton]; omega)
    rw [h1]
    obtain ⟨v, rfl⟩ := List.length_eq_one_iff.1 h2
    rw [val_singleton, val_singleton] at h4
    rw [h4, Nat.or_comm]
    have := Nat.two_pow_add_eq_or_of_lt hT 1
    rw [Nat.mul_one] at this
    rw [this]
  cases hn : S.nonfinite with
  | ieee754 =>
    rw [try_inf hn (by exact hT1), try_nan_ieee h.ok hn hx (by exact hT)]
    simp only [hmx, true_and]
    have hne : ¬ (NonfiniteBehavior.ieee754 = NonfiniteBehavior.nanOnly) := by decide
    by_cases c2 : E = 2 ^ S.expBits - 1
    · by_cases c3 : T = 0
      · simp only [c2, c3, and_self, if_true, hne, false_imp_iff]
      · simp only [c2, c3, and_false, if_false, if_true, hne, false_imp_iff, and_true]
    · simp only [c2, false_and, if_false]
      simp only [hset T hT]
      split_ifs <;> simp [idx]
  | nanOnly =>
    have hi : INFINITY S = NAN S := by unfold INFINITY; rw [hn]
    rw [hi, try_nan_only h.ok hn (by exact hT1)]
    simp only [hmx, true_imp_iff]
    by_cases c2 : E = 2 ^ S.expBits - 1 ∧ T = 2 ^ (S.precision - 1) - 1
    · rw [if_pos c2, if_pos c2]; simp
    · rw [if_neg c2, if_neg c2]
      simp only [hset T hT]
      split_ifs <;> simp [idx]

theorem ieee_of_explicit (h : S.OK) (hx : S.explicitIntBit = true) : S.nonfinite = .ieee754 := by
  cases hn : S.nonfinite with
  | ieee754 => rfl
  | nanOnly => have := (h.nanOnly hn).2.2.2; rw [hx] at this; cases this

/-- `from_bits` in closed form, when the integer bit is stored. -/
theorem fromBitsX87_eq (h : S.Enc) (hx : S.explicitIntBit = true) {b : ℕ} (hb : b < 2 ^ S.bits) :
    fromBitsX87 S b = .ok (decodedX S (signField S.expBits S.precision b)
      (exponentField S.expBits S.precision b) (sigField S.precision b)) := by
  have hp := h.p_ge
  have hp' := h.p_le
  have hw := h.w_ge
  have hbits := h.bits_eq
  have hbl := h.bits_le
  have hmin := h.min_ge
  have hmin' := h.min_lt
  have hp2 := h.ok.two_pow
  have hple := h.ok.pow_le
  have hn := ieee_of_explicit h.ok hx
  rw [Sem.sigBits, hx] at hbits
  simp only [if_true] at hbits
  have hb' : b < 2 ^ (1 + S.expBits + S.precision) := by rw [← hbits]; exact hb
  have hE := exponentField_lt S.expBits S.precision b
  have hT := sigField_lt S.precision b
  have hE2 := h.exp_lt hE
  unfold fromBitsX87
  rw [shl_ok (by omega), shl_ok (by omega), shl_ok (by omega)]
  have e1 : 1 * 2 ^ (S.bits - 1) % 2 ^ 128 = 2 ^ (S.expBits + S.precision) := by
    rw [Nat.one_mul, Nat.mod_eq_of_lt (Nat.pow_lt_pow_right (by norm_num) (by omega))]
    congr 1; omega
  have e2 : S.bits - 1 - S.expBits = S.precision := by omega
  have e3 : 1 * 2 ^ S.expBits % 2 ^ 128 = 2 ^ S.expBits := by
    rw [Nat.one_mul, Nat.mod_eq_of_lt (Nat.pow_lt_pow_right (by norm_num) (by omega))]
  have e4 : 1 * 2 ^ S.precision % 2 ^ 128 = 2 ^ S.precision := by
    rw [Nat.one_mul, Nat.mod_eq_of_lt (Nat.pow_lt_pow_right (by norm_num) (by omega))]
  have e5 : 1 * 2 ^ (S.precision - 1) % 2 ^ 128 = 2 ^ (S.precision - 1) := by
    rw [Nat.one_mul, Nat.mod_eq_of_lt (Nat.pow_lt_pow_right (by norm_num) (by omega))]
  simp only [bind, Except.bind, e1, e2, e3, e4]
  rw [shr_ok (by omega)]
  simp only [and_mask, exp_extract (by omega : S.expBits + S.precision < 128) hb', sign_ne_zero]
  rw [asI32_of_lt (by omega), i32_ok (by omega) (by omega)]
  simp only []
  rw [shr_ok (by omega), shl_ok (by omega)]
  simp only [e5]
  generalize signField S.expBits S.precision b = s at *
  generalize exponentField S.expBits S.precision b = E at *
  have hsig : b % 2 ^ S.precision = sigField S.precision b := rfl
  simp only [hsig]
  clear hsig
  generalize sigField S.precision b = T at *
  have hz : ((E : ℤ) + (S.minExp - 1) = S.minExp - 1) ↔ E = 0 := by omega
  have hmx := @Sem.Enc.max_field S h E
  have hne : (NAN S).exp = S.maxExp + 1 := by unfold NAN qnan; rw [hn]
  have hd : T / 2 ^ (S.precision - 1) = 0 ↔ T < 2 ^ (S.precision - 1) := by
    rw [Nat.div_eq_zero_iff]; have := h.ok.half_ge; omega
  rw [hne] at hmx
  simp only [hz, hmx, hd, ne_eq]
  unfold decodedX
  have hm0 : ¬ (0 = 2 ^ S.expBits - 1) := by
    have : 2 ^ 2 ≤ 2 ^ S.expBits := Nat.pow_le_pow_right (by norm_num) hw
    omega
  by_cases c1 : E = 0
  · subst c1
    simp only [hm0, true_and, false_and, if_false, not_true, false_or, if_true]
    by_cases c2 : T = 0 <;> simp [c2]
  · simp only [c1, false_and, if_false]
    by_cases c2 : E = 2 ^ S.expBits - 1
    · simp only [c2, true_and, true_or, if_true, not_true, false_and, or_false]
      have hmx' : ((2 ^ S.expBits - 1 : ℕ) : ℤ) + (S.minExp - 1) = S.maxExp + 1 := by rw [← c2]; exact hmx.2 c2
      by_cases c3 : T = 2 ^ (S.precision - 1)
      · simp only [c3, hmx', if_true]
      · simp only [c3, if_false, not_false_eq_true, if_true]
    · simp only [c2, c1, ne_eq, false_and, if_false, false_or, not_false_eq_true, true_and]
      split_ifs <;> rfl

/-- The exponent field of a value. -/
def fieldE (x : IeeeFloat S) : ℕ :=
  match x.category with
  | .normal => if x.sig < 2 ^ (S.precision - 1) then 0 else (x.exp - S.minExp + 1).toNat
  | .zero => 0
  | _ => 2 ^ S.expBits - 1

/-- The significand field of a value. -/
def fieldT (x : IeeeFloat S) : ℕ :=
  match x.category with
  | .normal => if S.explicitIntBit then x.sig else x.sig % 2 ^ (S.precision - 1)
  | .zero => 0
  | .infinity => if S.explicitIntBit then 2 ^ (S.precision - 1) else 0
  | .nan => x.sig

theorem fieldE_lt (h : S.Enc) {x : IeeeFloat S} (hx : x.Valid) : x.fieldE < 2 ^ S.expBits := by
  have h1 := h.w_pow
  have h2 := h.min_eq
  have h3 := h.max_eq
  have h5 : ((2 ^ S.expBits : ℕ) : ℤ) = 2 ^ S.expBits := by push_cast; rfl
  have h6 : 2 ^ 2 ≤ 2 ^ S.expBits := Nat.pow_le_pow_right (by norm_num) h.w_ge
  unfold fieldE
  unfold Valid at hx
  cases hc : x.category <;> simp only [hc] at hx ⊢ <;> try omega
  split_ifs
  · omega
  · obtain ⟨v1, v2, -⟩ := hx
    have : x.exp - S.minExp + 1 < 2 ^ S.expBits := by
      split_ifs at h3 <;> omega
    omega

theorem fieldT_lt (h : S.Enc) {x : IeeeFloat S} (hx : x.Valid) : x.fieldT < 2 ^ S.sigBits := by
  have h3 := h.ok.half_ge
  have h2 := h.ok.two_pow
  unfold fieldT Sem.sigBits
  unfold Valid at hx
  cases hc : x.category <;> simp only [hc] at hx ⊢
  · split_ifs <;> omega
  · cases hn : S.nonfinite with
    | ieee754 =>
      simp only [hn] at hx
      split_ifs at hx ⊢ <;> omega
    | nanOnly =>
      obtain ⟨a, b, c, d⟩ := h.ok.nanOnly hn
      simp only [hn] at hx
      simp only [d, Bool.false_eq_true, if_false]
      omega
  · split_ifs
    · omega
    · exact Nat.mod_lt _ (by omega)
  · split_ifs <;> omega

theorem sig_lt {x : IeeeFloat S} (h : S.OK) (hx : x.Valid) : x.sig < 2 ^ S.precision := by
  have h3 := h.half_ge
  have h2 := h.two_pow
  unfold Valid at hx
  cases hc : x.category <;> simp only [hc] at hx
  · exact hx.2
  · cases hn : S.nonfinite with
    | ieee754 =>
      simp only [hn] at hx
      split_ifs at hx <;> omega
    | nanOnly =>
      obtain ⟨a, b, c, d⟩ := h.nanOnly hn
      simp only [hn] at hx
      omega
  · exact hx.2.2.2.1
  · omega

theorem encode_shl {n : ℕ} {s : Bool} (hn : n < 128) : s.toNat * 2 ^ n % 2 ^ 128 = s.toNat * 2 ^ n := by
  apply Nat.mod_eq_of_lt
  have : 2 ^ n < 2 ^ 128 := Nat.pow_lt_pow_right (by norm_num) hn
  cases s
  · simp
  · simpa using this

theorem i32AsU128_toNat {e : ℤ} (h : 0 ≤ e) : i32AsU128 e = e.toNat := by unfold i32AsU128; rw [if_pos h]

theorem testBit_top {a p : ℕ} (hp : 1 ≤ p) (h : a < 2 ^ p) : a.testBit (p - 1) = decide (2 ^ (p - 1) ≤ a) := by
  rw [Nat.testBit_eq_decide_div_mod_eq]
  have h2 : 2 ^ p = 2 * 2 ^ (p - 1) := by
    rw [← pow_succ']; congr 1; omega
  have hlt : a / 2 ^ (p - 1) < 2 := by rw [Nat.div_lt_iff_lt_mul (by positivity)]; omega
  by_cases c : 2 ^ (p - 1) ≤ a
  · have : 1 ≤ a / 2 ^ (p - 1) := by rw [Nat.le_div_iff_mul_le (by positivity)]; omega
    simp only [c, decide_true]
    rw [show a / 2 ^ (p - 1) = 1 by omega]; rfl
  · rw [Nat.div_eq_of_lt (by omega)]; simp [c]

/-- `to_bits` in closed form, when the integer bit is implied. -/
theorem toBitsDefault_eq (h : S.Enc) (hx : S.explicitIntBit = false) {x : IeeeFloat S} (hv : x.Valid) :
    toBitsDefault x = .ok (encode S.expBits (S.precision - 1) x.sign x.fieldE x.fieldT) := by
  have hp := h.p_ge
  have hp' := h.p_le
  have hw := h.w_ge
  have hbits := h.bits_eq
  have hbl := h.bits_le
  have hmin := h.min_ge
  have hmin' := h.min_lt
  have hp2 := h.ok.two_pow
  have hple := h.ok.pow_le
  have hmax := h.max_le
  have hpm := h.p_max
  have hhalf := h.ok.half_ge
  rw [Sem.sigBits, hx] at hbits
  simp only [Bool.false_eq_true, if_false] at hbits
  have hE := fieldE_lt h hv
  have hT := fieldT_lt h hv
  rw [Sem.sigBits, hx] at hT
  simp only [Bool.false_eq_true, if_false] at hT
  have hs := sig_lt h.ok hv
  have hne := h.nan_exp_gt
  have e4 : 1 * 2 ^ (S.precision - 1) % 2 ^ 128 = 2 ^ (S.precision - 1) := by
    rw [Nat.one_mul, Nat.mod_eq_of_lt (Nat.pow_lt_pow_right (by norm_num) (by omega))]
  unfold toBitsDefault
  rw [massert_pos (by omega), getBit_one (by omega) (by omega), shl_ok (by omega)]
  simp only [bind, Except.bind, e4, and_mask]
  have key : ∃ e : ℤ, toBitsFields x (x.sig.testBit (S.precision - 1)) (x.sig % 2 ^ (S.precision - 1)) = .ok (x.fieldT, e)
      ∧ e - (S.minExp - 1) = x.fieldE := by
    rw [testBit_top (by omega) hs]
    unfold toBitsFields
    unfold fieldT fieldE
    unfold Valid at hv
    have hmaxf := @Sem.Enc.max_field S h (2 ^ S.expBits - 1)
    cases hc : x.category <;> simp only [hc, hx] at hv ⊢
    · refine ⟨(NAN S).exp, ?_, ?_⟩
      · simp only [INFINITY, hv.1, NAN, qnan]; rfl
      · rw [← hmaxf.2 rfl]; ring
    · refine ⟨(NAN S).exp, ?_, ?_⟩
      · rw [Nat.mod_eq_of_lt]
        unfold fieldT at hT
        simpa only [hc] using hT
      · rw [← hmaxf.2 rfl]; ring
    · obtain ⟨v1, v2, v3, v4, v5, v6⟩ := hv
      by_cases c : 2 ^ (S.precision - 1) ≤ x.sig
      · refine ⟨x.exp, ?_, ?_⟩
        · simp [c]
        · rw [if_neg (by omega)]; omega
      · have : x.exp = S.minExp := by omega
        refine ⟨x.exp - 1, ?_, ?_⟩
        · simp only [this, c, true_and, decide_false, if_true]
          rw [i32_ok (by omega) (by omega)]; rfl
        · rw [if_pos (by omega)]; simp [this]
    · exact ⟨_, rfl, by simp [ZERO]⟩
  obtain ⟨e, k1, k2⟩ := key
  rw [k1]
  simp only []
  have hE2 := h.exp_lt hE
  rw [k2, i32_ok (by omega) (by omega)]
  simp only []
  rw [shl_ok (by omega)]
  simp only []
  rw [shl_ok (by omega), i32AsU128_toNat (by omega), isNegative, encode_shl (by omega)]
  simp only []
  have hlow := encode_low hE (show 0 < 2 ^ (S.precision - 1) by positivity)
  have hpow : 2 ^ (S.expBits + (S.precision - 1)) < 2 ^ 128 := Nat.pow_lt_pow_right (by norm_num) (by omega)
  rw [Int.toNat_natCast, Nat.mod_eq_of_lt (by omega), show S.bits - 1 = S.expBits + (S.precision - 1) by omega,
    encode_or _ hE hT]

/-- `to_bits` in closed form, when the integer bit is stored. -/
theorem toBitsX87_eq (h : S.Enc) (hx : S.explicitIntBit = true) {x : IeeeFloat S} (hv : x.Valid) :
    toBitsX87 x = .ok (encode S.expBits S.precision x.sign x.fieldE x.fieldT) := by
  have hp := h.p_ge
  have hp' := h.p_le
  have hw := h.w_ge
  have hbits := h.bits_eq
  have hbl := h.bits_le
  have hmin := h.min_ge
  have hmin' := h.min_lt
  have hp2 := h.ok.two_pow
  have hple := h.ok.pow_le
  have hmax := h.max_le
  have hpm := h.p_max
  have hhalf := h.ok.half_ge
  have hn := ieee_of_explicit h.ok hx
  rw [Sem.sigBits, hx] at hbits
  simp only [if_true] at hbits
  have hE := fieldE_lt h hv
  have hT := fieldT_lt h hv
  rw [Sem.sigBits, hx] at hT
  simp only [if_true] at hT
  have hs := sig_lt h.ok hv
  have e4 : 1 * 2 ^ (S.precision - 1) % 2 ^ 128 = 2 ^ (S.precision - 1) := by
    rw [Nat.one_mul, Nat.mod_eq_of_lt (Nat.pow_lt_pow_right (by norm_num) (by omega))]
  have e5 : 1 * 2 ^ S.precision % 2 ^ 128 = 2 ^ S.precision := by
    rw [Nat.one_mul, Nat.mod_eq_of_lt (Nat.pow_lt_pow_right (by norm_num) (by omega))]
  unfold toBitsX87
  rw [getBit_one (by omega) (by omega), shl_ok (by omega), shl_ok (by omega)]
  simp only [bind, Except.bind, e4, e5, and_mask, Nat.mod_eq_of_lt hs]
  have key : ∃ e : ℤ, toBitsX87Fields x (x.sig.testBit (S.precision - 1)) x.sig (2 ^ (S.precision - 1)) = (x.fieldT, e)
      ∧ e - (S.minExp - 1) = x.fieldE := by
    rw [testBit_top (by omega) hs]
    unfold fieldT fieldE toBitsX87Fields
    unfold Valid at hv
    have hmaxf := @Sem.Enc.max_field S h (2 ^ S.expBits - 1)
    have hne : (NAN S).exp = S.maxExp + 1 := by unfold NAN qnan; rw [hn]
    rw [hne] at hmaxf
    cases hc : x.category <;> simp only [hc, hx] at hv ⊢
    · refine ⟨S.maxExp + 1, rfl, ?_⟩
      rw [← hmaxf.2 rfl]; ring
    · refine ⟨S.maxExp + 1, rfl, ?_⟩
      rw [← hmaxf.2 rfl]; ring
    · obtain ⟨v1, v2, v3, v4, v5, v6⟩ := hv
      by_cases c : 2 ^ (S.precision - 1) ≤ x.sig
      · refine ⟨x.exp, ?_, ?_⟩
        · simp [c]
        · rw [if_neg (by omega)]; omega
      · have : x.exp = S.minExp := by omega
        refine ⟨x.exp - 1, ?_, ?_⟩
        · simp [this, c]
        · rw [if_pos (by omega)]; simp [this]
    · exact ⟨_, rfl, by simp⟩
  obtain ⟨e, k1, k2⟩ := key
  rw [k1]
  simp only []
  have hE2 := h.exp_lt hE
  rw [k2, i32_ok (by omega) (by omega)]
  simp only []
  rw [shl_ok (by omega)]
  simp only []
  rw [shl_ok (by omega), i32AsU128_toNat (by omega), isNegative, encode_shl (by omega)]
  simp only []
  have hlow := encode_low hE (show 0 < 2 ^ S.precision by positivity)
  have hpow : 2 ^ (S.expBits + S.precision) < 2 ^ 128 := Nat.pow_lt_pow_right (by norm_num) (by omega)
  rw [Int.toNat_natCast, Nat.mod_eq_of_lt (by omega), show S.bits - 1 = S.expBits + S.precision by omega,
    encode_or _ hE hT]

theorem toBits_eq (h : S.Enc) {x : IeeeFloat S} (hv : x.Valid) :
    x.toBits = .ok (encode S.expBits S.sigBits x.sign x.fieldE x.fieldT) := by
  unfold toBits Sem.sigBits
  cases hx : S.explicitIntBit
  · simpa using toBitsDefault_eq h hx hv
  · simpa using toBitsX87_eq h hx hv

/-- What `from_bits` makes of the fields. -/
def decoded (S : Sem) (s : Bool) (E T : ℕ) : IeeeFloat S :=
  if S.explicitIntBit then decodedX S s E T else decodedD S s E T

theorem fromBits_eq (h : S.Enc) {b : ℕ} (hb : b < 2 ^ S.bits) :
    fromBits S b = .ok (decoded S (signField S.expBits S.sigBits b) (exponentField S.expBits S.sigBits b)
      (sigField S.sigBits b)) := by
  unfold fromBits Sem.sigBits decoded
  cases hx : S.explicitIntBit
  · simpa using fromBitsDefault_eq h hx hb
  · simpa using fromBitsX87_eq h hx hb

theorem decoded_sign (s : Bool) (E T : ℕ) : (decoded S s E T).sign = s := by
  unfold decoded decodedX decodedD
  split_ifs <;> rfl

theorem max_field_pos (h : S.Enc) : 3 ≤ 2 ^ S.expBits - 1 := by
  have : 2 ^ 2 ≤ 2 ^ S.expBits := Nat.pow_le_pow_right (by norm_num) h.w_ge
  omega

theorem exp_range (h : S.Enc) {E : ℕ} (hE : E < 2 ^ S.expBits) (h0 : E ≠ 0)
    (hm : S.nonfinite = .ieee754 → E ≠ 2 ^ S.expBits - 1) :
    S.minExp ≤ E + (S.minExp - 1) ∧ E + (S.minExp - 1) ≤ S.maxExp := by
  have h1 := h.w_pow
  have h2 := h.min_eq
  have h3 := h.max_eq
  have h5 : ((2 ^ S.expBits : ℕ) : ℤ) = 2 ^ S.expBits := by push_cast; rfl
  refine ⟨by omega, ?_⟩
  cases hn : S.nonfinite
  · have := hm hn
    simp only [hn, if_true] at h3
    omega
  · simp only [hn] at h3
    rw [if_neg (by decide)] at h3
    omega

theorem decoded_valid (h : S.Enc) (s : Bool) {E T : ℕ} (hE : E < 2 ^ S.expBits) (hT : T < 2 ^ S.sigBits) :
    (decoded S s E T).Valid := by
  have h3 := h.ok.half_ge
  have h2 := h.ok.two_pow
  have hm := max_field_pos h
  have hmm : S.minExp ≤ S.maxExp := by have := h.min_lt; have := h.p_max; omega
  have hmin := h.min_lt
  have hpm := h.p_max
  unfold decoded
  unfold Sem.sigBits at hT
  cases hx : S.explicitIntBit
  · simp only [hx, Bool.false_eq_true, if_false] at hT ⊢
    unfold decodedD
    split_ifs with c1 c2 c3 c4
    · simp [Valid]
    · simp only [Valid]
      exact ⟨c3.1, by omega⟩
    · simp only [Valid]
      cases hn : S.nonfinite with
      | ieee754 =>
        have : T ≠ 0 := fun e => c3 ⟨hn, e⟩
        simp [hx]
        omega
      | nanOnly => exact (c2.2 hn).trans (h.ok.nanOnly hn).1.symm
    · simp only [Valid]
      refine ⟨le_refl _, hmm, by omega, by omega, Or.inr trivial, fun hn he => ?_⟩
      omega
    · simp only [Valid]
      have hr := exp_range h hE c4 (fun hn e => c2 ⟨e, by simp [hn]⟩)
      refine ⟨hr.1, hr.2, by omega, by omega, Or.inl (by omega), fun hn he hs => ?_⟩
      apply c2
      have hmf := (@Sem.Enc.max_field S h E).1 (by
        rw [he]; unfold NAN qnan; rw [hn])
      exact ⟨hmf, fun _ => by omega⟩
  · have hn := ieee_of_explicit h.ok hx
    simp only [hx, if_true] at hT ⊢
    unfold decodedX
    split_ifs with c1 c2 c3 c4
    · simp [Valid]
    · simp only [Valid]
      exact ⟨hn, by omega⟩
    · simp only [Valid, hn, hx, if_true]
      refine ⟨by omega, ?_⟩
      rcases c3 with c | c
      · exact fun e => c2 ⟨c, e⟩
      · omega
    · simp only [Valid]
      refine ⟨le_refl _, hmm, by omega, by omega, Or.inr trivial, fun hn' => ?_⟩
      rw [hn] at hn'; cases hn'
    · simp only [Valid]
      have hr := exp_range h hE c4 (fun _ e => c3 (Or.inl e))
      refine ⟨hr.1, hr.2, by omega, by omega, Or.inl (by omega), fun hn' => ?_⟩
      rw [hn] at hn'; cases hn'

theorem decoded_datum (h : S.Enc) {b : ℕ} :
    (decoded S (signField S.expBits S.sigBits b) (exponentField S.expBits S.sigBits b) (sigField S.sigBits b)).datum =
      decode S.style S.expBits S.sigBits b := by
  have hp := h.p_ge
  have hmin := h.min_eq
  have hm := max_field_pos h
  have hE := exponentField_lt S.expBits S.sigBits b
  have hT := sigField_lt S.sigBits b
  unfold decode
  generalize signField S.expBits S.sigBits b = s at *
  generalize exponentField S.expBits S.sigBits b = E at *
  generalize sigField S.sigBits b = T at *
  unfold decoded bias
  unfold Sem.sigBits at *
  have hz : ∀ k : ℤ, Datum.num s 0 = .num s (signed s (((0 : ℕ) : ℚ) * 2 ^ k)) := by intro k; simp [signed]
  cases hx : S.explicitIntBit
  · simp only [hx, Bool.false_eq_true, if_false] at hT ⊢
    have e1 : S.minExp - S.precision + 1 = 1 - (2 ^ (S.expBits - 1) - 1) - ((S.precision - 1 : ℕ) : ℤ) := by
      rw [hmin]; omega
    have e2 : (E : ℤ) + (S.minExp - 1) - S.precision + 1 = E - (2 ^ (S.expBits - 1) - 1) - ((S.precision - 1 : ℕ) : ℤ) := by
      rw [hmin]; omega
    unfold decodedD
    cases hn : S.nonfinite with
    | ieee754 =>
      rw [show S.style = .hidden by simp [Sem.style, hx, hn]]
      simp only [reduceCtorEq, false_imp_iff, and_true, true_and]
      by_cases c1 : E = 0
      · subst c1
        have hm0 : ¬ (0 = 2 ^ S.expBits - 1) := by omega
        simp only [hm0, if_false, if_true, true_and]
        by_cases c2 : T = 0
        · subst c2; simp only [if_true, datum]; exact hz _
        · simp only [c2, if_false, datum, toRat, e1]
      · simp only [c1, false_and, if_false]
        by_cases c2 : E = 2 ^ S.expBits - 1
        · simp only [c2, if_true]
          by_cases c3 : T = 0 <;> simp [c3, datum]
        · simp only [c2, if_false, datum, toRat, e2]; push_cast; rfl
    | nanOnly =>
      rw [show S.style = .hiddenFN by simp [Sem.style, hx, hn]]
      simp only [true_imp_iff, reduceCtorEq, false_and, if_false]
      by_cases c1 : E = 0
      · subst c1
        have hm0 : ¬ (0 = 2 ^ S.expBits - 1) := by omega
        simp only [hm0, false_and, if_false, if_true, true_and]
        by_cases c2 : T = 0
        · subst c2; simp only [if_true, datum]; exact hz _
        · simp only [c2, if_false, datum, toRat, e1]
      · simp only [c1, false_and, if_false]
        by_cases c2 : E = 2 ^ S.expBits - 1 ∧ T = 2 ^ (S.precision - 1) - 1
        · rw [if_pos c2, if_pos c2]; rfl
        · rw [if_neg c2, if_neg c2]
          simp only [datum, toRat, e2]; push_cast; rfl
  · simp only [hx, if_true] at hT ⊢
    have e1 : S.minExp - S.precision + 1 = 1 - (2 ^ (S.expBits - 1) - 1) - ((S.precision : ℤ) - 1) := by
      rw [hmin]; omega
    have e2 : (E : ℤ) + (S.minExp - 1) - S.precision + 1 = E - (2 ^ (S.expBits - 1) - 1) - ((S.precision : ℤ) - 1) := by
      rw [hmin]; omega
    rw [show S.style = .explicit by simp [Sem.style, hx]]
    unfold decodedX
    by_cases c1 : E = 0
    · subst c1
      have hm0 : ¬ (0 = 2 ^ S.expBits - 1) := by omega
      simp only [hm0, false_and, if_false, if_true, true_and, ne_eq, not_true, or_self]
      by_cases c2 : T = 0
      · subst c2; simp only [if_true, datum]; exact hz _
      · simp only [c2, if_false, datum, toRat, e1]
    · simp only [c1, false_and, if_false]
      by_cases c2 : E = 2 ^ S.expBits - 1
      · simp only [c2, true_and, true_or, if_true]
        by_cases c3 : T = 2 ^ (S.precision - 1) <;> simp [c3, datum]
      · simp only [c2, false_and, if_false, false_or, ne_eq, c1, not_false_eq_true, true_and]
        by_cases c3 : T < 2 ^ (S.precision - 1)
        · simp only [c3, if_true, datum]
        · simp only [c3, if_false, datum, toRat, e2]

theorem fieldE_decoded (h : S.Enc) (s : Bool) {E T : ℕ} (hT : T < 2 ^ S.sigBits)
    (hc : S.explicitIntBit = true → (E = 0 → T < 2 ^ (S.precision - 1)) ∧ (E ≠ 0 → E ≠ 2 ^ S.expBits - 1 → 2 ^ (S.precision - 1) ≤ T)) :
    (decoded S s E T).fieldE = E ∧ (decoded S s E T).fieldT = T := by
  have h3 := h.ok.half_ge
  have h2 := h.ok.two_pow
  have hm := max_field_pos h
  unfold decoded
  unfold Sem.sigBits at hT
  cases hx : S.explicitIntBit
  · simp only [hx, Bool.false_eq_true, if_false] at hT ⊢
    unfold decodedD
    split_ifs with c1 c2 c3 c4
    · simp [fieldE, fieldT, c1.1, c1.2]
    · simp [fieldE, fieldT, hx, c2.1, c3.2]
    · simp [fieldE, fieldT, c2.1]
    · simp [fieldE, fieldT, hx, hT, c4, Nat.mod_eq_of_lt hT]
    · have e1 : ((E : ℤ) + (S.minExp - 1) - S.minExp + 1).toNat = E := by omega
      simp [fieldE, fieldT, hx, e1, Nat.mod_eq_of_lt hT]
  · obtain ⟨hc1, hc2⟩ := hc hx
    simp only [hx, if_true] at hT ⊢
    unfold decodedX
    split_ifs with c1 c2 c3 c4
    · simp [fieldE, fieldT, c1.1, c1.2]
    · simp [fieldE, fieldT, hx, c2.1, c2.2]
    · by_cases c5 : E = 2 ^ S.expBits - 1
      · simp [fieldE, fieldT, c5]
      · exfalso
        have c6 := c3.resolve_left c5
        have := hc2 c6.1 c5
        omega
    · simp [fieldE, fieldT, hx, c4, hc1 c4]
    · have e1 : ((E : ℤ) + (S.minExp - 1) - S.minExp + 1).toNat = E := by omega
      have : ¬ T < 2 ^ (S.precision - 1) := by
        have := hc2 c4 (fun e => c3 (Or.inl e)); omega
      simp [fieldE, fieldT, hx, e1, this]

/-- Equality of floats up to the fields their category ignores. -/
def Same (x y : IeeeFloat S) : Prop :=
  x.category = y.category ∧ x.sign = y.sign ∧ (x.category = .normal → x.exp = y.exp ∧ x.sig = y.sig) ∧
    (x.category = .nan → x.sig = y.sig)

theorem Same.symm {x y : IeeeFloat S} (h : Same x y) : Same y x :=
  ⟨h.1.symm, h.2.1.symm, fun c => ⟨(h.2.2.1 (h.1.trans c)).1.symm, (h.2.2.1 (h.1.trans c)).2.symm⟩,
    fun c => (h.2.2.2 (h.1.trans c)).symm⟩

theorem Same.trans {x y z : IeeeFloat S} (h : Same x y) (h' : Same y z) : Same x z :=
  ⟨h.1.trans h'.1, h.2.1.trans h'.2.1,
    fun c => ⟨(h.2.2.1 c).1.trans (h'.2.2.1 (h.1.symm.trans c)).1, (h.2.2.1 c).2.trans (h'.2.2.1 (h.1.symm.trans c)).2⟩,
    fun c => (h.2.2.2 c).trans (h'.2.2.2 (h.1.symm.trans c))⟩

theorem bitwiseEq_iff (x y : IeeeFloat S) : x.bitwiseEq y = true ↔ Same x y := by
  unfold bitwiseEq Same isNegative
  simp only [isFiniteNonZero_iff]
  by_cases c1 : x.category = y.category
  · by_cases c2 : x.sign = y.sign
    · simp only [c1, c2, ne_eq, not_true, or_self, if_false, true_and]
      cases hc : y.category
      · simp
      · simp
      · simp
      · simp
    · simp [c2]
  · simp [c1]

theorem decoded_fields (h : S.Enc) {x : IeeeFloat S} (hv : x.Valid) : Same (decoded S x.sign x.fieldE x.fieldT) x := by
  have h3 := h.ok.half_ge
  have h2 := h.ok.two_pow
  have hm := max_field_pos h
  have hmin := h.min_lt
  have hpm := h.p_max
  have hE := fieldE_lt h hv
  have hT := fieldT_lt h hv
  have hmf : ∀ e : ℤ, S.minExp ≤ e → (e - S.minExp + 1).toNat = 2 ^ S.expBits - 1 → e = (NAN S).exp := by
    intro e he e1
    rw [← (@Sem.Enc.max_field S h (2 ^ S.expBits - 1)).2 rfl, ← e1]
    omega
  have hne : (NAN S).exp = if S.nonfinite = .ieee754 then S.maxExp + 1 else S.maxExp := by
    unfold NAN qnan; cases S.nonfinite <;> rfl
  have key : ∃ g e, decoded S x.sign x.fieldE x.fieldT = ⟨g, e, x.category, x.sign⟩ ∧
      (x.category = .normal → e = x.exp ∧ g = x.sig) ∧ (x.category = .nan → g = x.sig) := by
    clear hE hT
    unfold Valid at hv
    unfold decoded
    cases hc : x.category <;> simp only [hc] at hv
    · -- infinity
      have f1 : x.fieldE = 2 ^ S.expBits - 1 := by simp [fieldE, hc]
      have hm0 : ¬ (2 ^ S.expBits - 1 = 0) := by omega
      cases hx : S.explicitIntBit
      · have f2 : x.fieldT = 0 := by simp [fieldT, hc, hx]
        rw [f1, f2]
        simp [decodedD, hm0, hv.1]
      · have f2 : x.fieldT = 2 ^ (S.precision - 1) := by simp [fieldT, hc, hx]
        rw [f1, f2]
        simp [decodedX, hm0]
    · -- nan
      have f1 : x.fieldE = 2 ^ S.expBits - 1 := by simp [fieldE, hc]
      have hm0 : ¬ (2 ^ S.expBits - 1 = 0) := by omega
      have f2 : x.fieldT = x.sig := by simp [fieldT, hc]
      rw [f1, f2]
      cases hn : S.nonfinite with
      | ieee754 =>
        simp only [hn] at hv
        cases hx : S.explicitIntBit
        · simp only [hx, Bool.false_eq_true, if_false] at hv ⊢
          have : x.sig ≠ 0 := by omega
          simp [decodedD, hm0, hn, this]
        · simp only [hx, if_true] at hv ⊢
          simp [decodedX, hm0, hv.2]
      | nanOnly =>
        obtain ⟨a, b, c, d⟩ := h.ok.nanOnly hn
        simp only [hn] at hv
        rw [a] at hv
        simp [decodedD, hm0, hn, d, hv]
    · -- normal
      obtain ⟨v1, v2, v3, v4, v5, v6⟩ := hv
      by_cases c : x.sig < 2 ^ (S.precision - 1)
      · have f1 : x.fieldE = 0 := by simp [fieldE, hc, c]
        have f2 : x.fieldT = x.sig := by simp [fieldT, hc, Nat.mod_eq_of_lt c]
        have hm0 : ¬ (0 = 2 ^ S.expBits - 1) := by omega
        have hs0 : ¬ x.sig = 0 := by omega
        have he : S.minExp = x.exp := by omega
        rw [f1, f2]
        cases hx : S.explicitIntBit
        · simp [decodedD, hm0, hs0, he]
        · simp [decodedX, hm0, hs0, he]
      · have f1 : x.fieldE = (x.exp - S.minExp + 1).toNat := by simp [fieldE, hc, c]
        have hE0 : ¬ (x.fieldE = 0) := by omega
        have hE1 : (x.fieldE : ℤ) + (S.minExp - 1) = x.exp := by omega
        have hEm : x.fieldE = 2 ^ S.expBits - 1 → x.exp = (NAN S).exp := fun e => hmf x.exp v1 (f1 ▸ e)
        cases hx : S.explicitIntBit
        · have f2 : x.fieldT = x.sig - 2 ^ (S.precision - 1) := by
            have : x.sig % 2 ^ (S.precision - 1) = x.sig - 2 ^ (S.precision - 1) := by
              rw [Nat.mod_eq_sub_mod (by omega), Nat.mod_eq_of_lt (by omega)]
            simp [fieldT, hc, hx, this]
          have hcond : ¬ (x.fieldE = 2 ^ S.expBits - 1 ∧ (S.nonfinite = .nanOnly → x.fieldT = 2 ^ (S.precision - 1) - 1)) := by
            rintro ⟨e1, e2⟩
            have e3 := hEm e1
            rw [hne] at e3
            cases hn : S.nonfinite with
            | ieee754 => simp only [hn, if_true] at e3; omega
            | nanOnly =>
              rw [hn, if_neg (by decide)] at e3
              have := e2 hn
              exact v6 hn e3 (by omega)
          refine ⟨x.sig, x.exp, ?_, fun _ => ⟨rfl, rfl⟩, fun _ => rfl⟩
          simp only [Bool.false_eq_true, if_false, decodedD]
          rw [if_neg (fun e => hE0 e.1), if_neg hcond, if_neg hE0, hE1]
          congr 1
          omega
        · have hn := ieee_of_explicit h.ok hx
          have f2 : x.fieldT = x.sig := by simp [fieldT, hc, hx]
          have hEm' : ¬ x.fieldE = 2 ^ S.expBits - 1 := by
            intro e
            have := hEm e
            rw [hne, if_pos hn] at this
            omega
          refine ⟨x.sig, x.exp, ?_, fun _ => ⟨rfl, rfl⟩, fun _ => rfl⟩
          simp only [if_true, decodedX]
          rw [if_neg (fun e => hE0 e.1), if_neg (fun e => hEm' e.1), if_neg (by
            rintro (e | e)
            · exact hEm' e
            · omega), if_neg hE0, hE1, f2]
    · have f1 : x.fieldE = 0 := by simp [fieldE, hc]
      have f2 : x.fieldT = 0 := by simp [fieldT, hc]
      rw [f1, f2]
      cases hx : S.explicitIntBit <;> simp [decodedD, decodedX]
  obtain ⟨g, e, k1, k2, k3⟩ := key
  rw [k1]
  exact ⟨rfl, rfl, k2, k3⟩

/-- The value determines a canonical significand and exponent. -/
theorem normal_inj (h : S.OK) {x y : IeeeFloat S} (hx : x.Valid) (hy : y.Valid) (cx : x.category = .normal)
    (cy : y.category = .normal)
    (he : (x.sig : ℚ) * 2 ^ (x.exp - S.precision + 1) = (y.sig : ℚ) * 2 ^ (y.exp - S.precision + 1)) :
    x.exp = y.exp ∧ x.sig = y.sig := by
  have h2 := h.two_pow
  have main : ∀ {x y : IeeeFloat S}, x.Valid → y.Valid → x.category = .normal → y.category = .normal →
      (x.sig : ℚ) * 2 ^ (x.exp - S.precision + 1) = (y.sig : ℚ) * 2 ^ (y.exp - S.precision + 1) → ¬ x.exp < y.exp := by
    intro x y hx hy cx cy he hlt
    obtain ⟨x1, x2, x3, x4, x5, x6⟩ := Valid.normal hx cx
    obtain ⟨y1, y2, y3, y4, y5, y6⟩ := Valid.normal hy cy
    obtain ⟨n, hn⟩ : ∃ n : ℕ, y.exp = x.exp + 1 + n := ⟨(y.exp - x.exp - 1).toNat, by omega⟩
    have e1 : y.exp - S.precision + 1 = (x.exp - S.precision + 1) + ((1 + n : ℕ) : ℤ) := by push_cast; omega
    rw [e1, two_zpow_add _ ((1 + n : ℕ) : ℤ), zpow_natCast] at he
    have hp : (0 : ℚ) < 2 ^ (x.exp - S.precision + 1) := two_zpow_pos _
    have e2 : (x.sig : ℚ) = y.sig * 2 ^ (1 + n) := by
      have : (2 : ℚ) ^ (x.exp - S.precision + 1) * (x.sig - y.sig * 2 ^ (1 + n)) = 0 := by linear_combination he
      rcases mul_eq_zero.1 this with z | z
      · exact absurd z hp.ne'
      · linarith
    have e3 : x.sig = y.sig * 2 ^ (1 + n) := by exact_mod_cast e2
    have e4 : y.sig * 2 ^ 1 ≤ y.sig * 2 ^ (1 + n) := Nat.mul_le_mul_left _ (Nat.pow_le_pow_right (by norm_num) (by omega))
    omega
  have e1 : x.exp = y.exp := by
    have a := main hx hy cx cy he
    have b := main hy hx cy cx he.symm
    omega
  refine ⟨e1, ?_⟩
  rw [e1] at he
  exact_mod_cast mul_right_cancel₀ (two_zpow_pos _).ne' he

/-- Apart from NaNs, floats that denote the same datum are the same. -/
theorem same_of_datum (h : S.OK) {x y : IeeeFloat S} (hx : x.Valid) (hy : y.Valid) (nx : x.category ≠ .nan)
    (he : x.datum = y.datum) : Same x y := by
  have hne : ∀ {x : IeeeFloat S}, x.Valid → x.category = .normal → x.toRat ≠ 0 := fun hx c => toRat_ne_zero hx c
  have he' := he
  unfold datum at he
  cases cx : x.category <;> cases cy : y.category <;> simp only [cx, cy, reduceCtorEq, Datum.num.injEq, Datum.inf.injEq] at he
  · exact ⟨by rw [cx, cy], he, by simp [cx], by simp [cx]⟩
  · exact absurd cx nx
  · refine ⟨by rw [cx, cy], he.1, fun _ => ?_, by simp [cx]⟩
    apply normal_inj h hx hy cx cy
    have := he.2
    rw [toRat_normal cx, toRat_normal cy, he.1] at this
    exact signed_inj.1 this
  · exact absurd he.2 (hne hx cx)
  · exact absurd he.2.symm (hne hy cy)
  · exact ⟨by rw [cx, cy], he.1, by simp [cx], by simp [cx]⟩

theorem Same.datum {x y : IeeeFloat S} (h : Same x y) : x.datum = y.datum := by
  obtain ⟨h1, h2, h3, h4⟩ := h
  unfold IeeeFloat.datum toRat
  rw [← h1]
  cases hc : x.category <;> simp only [h2]
  obtain ⟨a, b⟩ := h3 hc
  rw [a, b]

end IeeeFloat

end Apf
