import Verif.Proof.Bits
/-! # C01–C03, C35, C38–C40: bit patterns, sign operations, constants, classification -/

namespace Apf
open Spec IeeeFloat

variable {S : Sem}

/-- **C02.** `from_bits` decodes the interchange format: it returns normally, the result is well formed, denotes
what the format assigns to the pattern, and carries its sign bit and, for NaNs, its significand field. -/
theorem C02_from_bits_decodes (h : S.Enc) {b : ℕ} (hb : b < 2 ^ S.bits) :
    ∃ x, fromBits S b = .ok x ∧ x.Valid ∧ x.datum = decode S.style S.expBits S.sigBits b ∧
      x.sign = signField S.expBits S.sigBits b ∧ (x.isNan = true → x.sig = sigField S.sigBits b) := by
  refine ⟨_, fromBits_eq h hb, decoded_valid h _ (exponentField_lt _ _ _) (sigField_lt _ _), decoded_datum h,
    decoded_sign _ _ _, ?_⟩
  unfold decoded decodedX decodedD
  intro hn
  split_ifs at hn ⊢ <;> simp_all [isNan]

/-- 1.5 in `Half`: sign 0, exponent field 15, fraction field 2^9. -/
example : (0x3E00 : ℕ) < 2 ^ halfS.bits ∧ fromBits halfS 0x3E00 = .ok ⟨0x600, 0, .normal, false⟩ := by decide +kernel
/-- A negative quiet NaN with payload in `Single`. -/
example : fromBits singleS 0xFFC00123 = .ok ⟨0x400123, 128, .nan, true⟩ := by decide +kernel

/-- **C01.** `to_bits ∘ from_bits` is the identity on the bit patterns of the format, except for the non-canonical
patterns of the x87 format. -/
theorem C01_bits_round_trip (h : S.Enc) {b : ℕ} (hb : b < 2 ^ S.bits) :
    ∃ x, fromBits S b = .ok x ∧ (¬ NonCanonical S.style S.expBits S.sigBits b → x.toBits = .ok b) := by
  refine ⟨_, fromBits_eq h hb, fun hc => ?_⟩
  have hE := exponentField_lt S.expBits S.sigBits b
  have hT := sigField_lt S.sigBits b
  rw [toBits_eq h (decoded_valid h _ hE hT), decoded_sign]
  have hf := fieldE_decoded h (signField S.expBits S.sigBits b) (E := exponentField S.expBits S.sigBits b) hT (by
    intro hx
    have hs : S.sigBits = S.precision := by simp [Sem.sigBits, hx]
    have hst : S.style = .explicit := by simp [Sem.style, hx]
    unfold NonCanonical at hc
    rw [hs] at hc ⊢
    constructor
    · intro e; by_contra hlt; exact hc ⟨hst, Or.inr ⟨e, by omega⟩⟩
    · intro e e'; by_contra hlt; exact hc ⟨hst, Or.inl ⟨e, e', by omega⟩⟩)
  rw [hf.1, hf.2, encode_fields (by rw [← h.bits_eq]; exact hb)]

example := C01_bits_round_trip x87S_enc (b := 0x3fffc000000000000001) (by decide)

/-- In the seven formats without explicit integer bit there is no exception. -/
theorem C01_bits_round_trip_all (h : S.Enc) (hx : S.explicitIntBit = false) {b : ℕ} (hb : b < 2 ^ S.bits) :
    ∃ x, fromBits S b = .ok x ∧ x.toBits = .ok b := by
  obtain ⟨x, h1, h2⟩ := C01_bits_round_trip h hb
  refine ⟨x, h1, h2 ?_⟩
  rintro ⟨h3, -⟩
  unfold Sem.style at h3
  rw [hx, if_neg (by decide)] at h3
  split_ifs at h3

example := C01_bits_round_trip_all singleS_enc rfl (b := 0x7f800001) (by decide)

/-- The exceptions are real: an x87 pseudo-denormal and an unnormal come back as different patterns. -/
theorem C01_x87_exceptions :
    (∃ x, fromBits x87S (2 ^ 63) = .ok x ∧ x.toBits = .ok (2 ^ 64 + 2 ^ 63)) ∧
    (∃ x, fromBits x87S (2 ^ 64 + 1) = .ok x ∧ x.toBits = .ok (32767 * 2 ^ 64 + 1)) :=
  ⟨⟨⟨2 ^ 63, -16382, .normal, false⟩, by decide +kernel, by decide +kernel⟩,
   ⟨⟨1, 16384, .nan, false⟩, by decide +kernel, by decide +kernel⟩⟩

/-- `to_bits` never returns a non-canonical pattern. -/
theorem C01_to_bits_canonical (h : S.Enc) {x : IeeeFloat S} (hx : x.Valid) {b : ℕ} (hb : x.toBits = .ok b) :
    ¬ NonCanonical S.style S.expBits S.sigBits b := by
  have hE := fieldE_lt h hx
  have hT := fieldT_lt h hx
  rw [toBits_eq h hx, Except.ok.injEq] at hb
  subst hb
  unfold NonCanonical
  rw [exponentField_encode _ hE hT, sigField_encode _ hT]
  rintro ⟨hst, hc⟩
  have hX : S.explicitIntBit = true := by
    by_contra hX
    unfold Sem.style at hst
    rw [if_neg hX] at hst
    split_ifs at hst
  have hs : S.sigBits = S.precision := by simp [Sem.sigBits, hX]
  have hm := max_field_pos h
  have hh : 0 < 2 ^ (S.precision - 1) := by positivity
  rw [hs] at hc
  unfold fieldE fieldT at hc
  cases hcat : x.category <;> simp only [hcat, hX, if_true] at hc
  · omega
  · omega
  · have := Valid.normal hx hcat
    split_ifs at hc with hl <;> omega
  · omega

example := C01_to_bits_canonical x87S_enc (x := ⟨2 ^ 63, -16382, .normal, false⟩) (by decide) (b := 2 ^ 64 + 2 ^ 63) (by decide +kernel)

/-- So every non-canonical pattern comes back changed: the exceptions of C01 are exactly these. -/
theorem C01_bits_round_trip_iff (h : S.Enc) {b : ℕ} (hb : b < 2 ^ S.bits) :
    ∃ x, fromBits S b = .ok x ∧ (x.toBits = .ok b ↔ ¬ NonCanonical S.style S.expBits S.sigBits b) := by
  obtain ⟨x, h1, h2⟩ := C01_bits_round_trip h hb
  obtain ⟨y, h3, h4, -⟩ := C02_from_bits_decodes h hb
  rw [h1, Except.ok.injEq] at h3
  subst h3
  exact ⟨x, h1, fun e => C01_to_bits_canonical h h4 e, h2⟩

example := C01_bits_round_trip_iff x87S_enc (b := 2 ^ 63) (by decide)

/-- A pattern of the x87 format that is not exceptional (1.0). -/
example : ¬ NonCanonical x87S.style x87S.expBits x87S.sigBits 0x3FFF8000000000000000 := by
  unfold NonCanonical exponentField sigField; decide +kernel

/-- **C03.** `to_bits` returns a pattern of the format and `from_bits` of it gives the value back. -/
theorem C03_value_round_trip (h : S.Enc) {x : IeeeFloat S} (hx : x.Valid) :
    ∃ b y, x.toBits = .ok b ∧ b < 2 ^ S.bits ∧ fromBits S b = .ok y ∧ y.bitwiseEq x = true := by
  have hE := fieldE_lt h hx
  have hT := fieldT_lt h hx
  have hb := encode_lt x.sign hE hT
  rw [← h.bits_eq] at hb
  refine ⟨_, _, toBits_eq h hx, hb, fromBits_eq h hb, ?_⟩
  rw [signField_encode _ hE hT, exponentField_encode _ hE hT, sigField_encode _ hT, bitwiseEq_iff]
  exact decoded_fields h hx

example := C03_value_round_trip singleS_enc (x := ⟨5, 128, .nan, true⟩) (by decide)

/-- **C03.** `bitwise_eq` is equality of bit patterns. -/
theorem C03_bitwise_eq_iff_bits (h : S.Enc) {x y : IeeeFloat S} (hx : x.Valid) (hy : y.Valid) :
    x.bitwiseEq y = true ↔ x.toBits = y.toBits := by
  rw [toBits_eq h hx, toBits_eq h hy, bitwiseEq_iff, Except.ok.injEq,
    encode_inj (fieldE_lt h hx) (fieldT_lt h hx) (fieldE_lt h hy) (fieldT_lt h hy)]
  constructor
  · rintro ⟨h1, h2, h3, h4⟩
    refine ⟨h2, ?_, ?_⟩
    · unfold fieldE
      rw [← h1]
      cases hc : x.category <;> simp only
      obtain ⟨a, b⟩ := h3 hc
      rw [a, b]
    · unfold fieldT
      rw [← h1]
      cases hc : x.category <;> simp only
      · exact h4 hc
      · rw [(h3 hc).2]
  · rintro ⟨h1, h2, h3⟩
    have a := decoded_fields h hx
    have b := decoded_fields h hy
    rw [h1, h2, h3] at a
    exact a.symm.trans b

example := C03_bitwise_eq_iff_bits singleS_enc (x := ⟨5, 128, .nan, true⟩) (y := ⟨3 * 2 ^ 22, 1, .normal, true⟩) (by decide) (by decide)

/-- **C03.** Apart from NaNs, `bitwise_eq` is equality of what the floats denote. -/
theorem C03_bitwise_eq_iff_datum (h : S.OK) {x y : IeeeFloat S} (hx : x.Valid) (hy : y.Valid) (hn : x.isNan = false) :
    x.bitwiseEq y = true ↔ x.datum = y.datum := by
  rw [bitwiseEq_iff]
  refine ⟨Same.datum, same_of_datum h hx hy ?_⟩
  intro e; simp [isNan, e] at hn

example : (⟨0x600, 0, .normal, false⟩ : IeeeFloat halfS).Valid ∧ (⟨1, -14, .normal, true⟩ : IeeeFloat halfS).Valid ∧
    (⟨0x200, 16, .nan, true⟩ : IeeeFloat halfS).Valid := by decide +kernel

/-! ### Sign operations -/

theorem testBit_encode {w t E T : ℕ} (s : Bool) (hE : E < 2 ^ w) (hT : T < 2 ^ t) (i : ℕ) :
    (encode w t s E T).testBit i = if i = w + t then s else (E * 2 ^ t + T).testBit i := by
  have hlow := encode_low hE hT
  unfold encode
  rw [Nat.mul_comm, Nat.testBit_two_pow_mul_add _ hlow]
  by_cases c : i < w + t
  · rw [if_pos c, if_neg (by omega)]
  · rw [if_neg c]
    by_cases c' : i = w + t
    · subst c'; rw [if_pos rfl, Nat.sub_self]; cases s <;> rfl
    · rw [if_neg c']
      have : (E * 2 ^ t + T).testBit i = false :=
        Nat.testBit_lt_two_pow (lt_of_lt_of_le hlow (Nat.pow_le_pow_right (by norm_num) (by omega)))
      rw [this]
      obtain ⟨k, hk⟩ : ∃ k, i - (w + t) = k + 1 := ⟨i - (w + t) - 1, by omega⟩
      rw [hk]
      cases s
      · simp
      · simp [Nat.testBit_succ]

/-- The bits of a value whose sign is replaced. -/
theorem bits_with_sign (h : S.Enc) {x : IeeeFloat S} (hx : x.Valid) (s : Bool) :
    ∃ b b', x.toBits = .ok b ∧ ({ x with sign := s } : IeeeFloat S).toBits = .ok b' ∧ b.testBit (S.bits - 1) = x.sign ∧
      ∀ i, b'.testBit i = if i = S.bits - 1 then s else b.testBit i := by
  have hE := fieldE_lt h hx
  have hT := fieldT_lt h hx
  have hb := h.bits_eq
  have hi : S.bits - 1 = S.expBits + S.sigBits := by omega
  refine ⟨_, _, toBits_eq h hx, toBits_eq h ((valid_sign s).2 hx), ?_, fun i => ?_⟩
  · rw [testBit_encode _ hE hT, hi, if_pos rfl]
  · rw [hi, testBit_encode _ hE hT, show ({ x with sign := s } : IeeeFloat S).fieldE = x.fieldE from rfl,
      show ({ x with sign := s } : IeeeFloat S).fieldT = x.fieldT from rfl, testBit_encode _ hE hT]
    split_ifs <;> rfl

/-- **C35.** Negation flips the sign bit of any value, NaNs included, and no other bit. -/
theorem C35_neg_bits (h : S.Enc) {x : IeeeFloat S} (hx : x.Valid) :
    ∃ b b', x.toBits = .ok b ∧ x.neg.toBits = .ok b' ∧
      ∀ i, b'.testBit i = if i = S.bits - 1 then !b.testBit i else b.testBit i := by
  obtain ⟨b, b', h1, h2, h3, h4⟩ := bits_with_sign h hx (!x.sign)
  refine ⟨b, b', h1, h2, fun i => ?_⟩
  rw [h4]
  split_ifs with e
  · rw [e, h3]
  · rfl

example := C35_neg_bits singleS_enc (x := ⟨5, 128, .nan, false⟩) (by decide)

/-- **C35.** The absolute value clears the sign bit and no other bit. -/
theorem C35_abs_bits (h : S.Enc) {x : IeeeFloat S} (hx : x.Valid) :
    ∃ b b', x.toBits = .ok b ∧ x.abs.toBits = .ok b' ∧
      ∀ i, b'.testBit i = if i = S.bits - 1 then false else b.testBit i := by
  obtain ⟨b, b', h1, h2, h3, h4⟩ := bits_with_sign h hx false
  exact ⟨b, b', h1, by rw [abs_eq]; exact h2, h4⟩

example := C35_abs_bits singleS_enc (x := ⟨5, 128, .nan, true⟩) (by decide)

/-- **C35.** `copy_sign` copies the sign bit and no other bit. -/
theorem C35_copy_sign_bits (h : S.Enc) {x y : IeeeFloat S} (hx : x.Valid) (hy : y.Valid) :
    ∃ b c b', x.toBits = .ok b ∧ y.toBits = .ok c ∧ (x.copySign y).toBits = .ok b' ∧
      ∀ i, b'.testBit i = if i = S.bits - 1 then c.testBit i else b.testBit i := by
  obtain ⟨b, b', h1, h2, h3, h4⟩ := bits_with_sign h hx y.sign
  obtain ⟨c, c', g1, g2, g3, g4⟩ := bits_with_sign h hy y.sign
  refine ⟨b, c, b', h1, g1, by rw [copySign_eq]; exact h2, fun i => ?_⟩
  rw [h4]
  split_ifs with e
  · rw [e, g3]
  · rfl

example := C35_copy_sign_bits singleS_enc (x := ⟨5, 128, .nan, true⟩) (y := ⟨3 * 2 ^ 22, 0, .normal, false⟩) (by decide) (by decide)

/-- **C35.** In terms of values: `neg` denotes the opposite, `abs` and `copy_sign` the magnitude with the prescribed
sign; `neg` is an involution, `abs` is idempotent and absorbs `neg`, the category and the well-formedness never change. -/
theorem C35_sign_ops (x y : IeeeFloat S) :
    x.neg.datum = x.datum.neg ∧ x.neg.neg = x ∧ x.abs.abs = x.abs ∧ x.neg.abs = x.abs ∧
    (x.copySign y).copySign x = x ∧ x.neg.category = x.category ∧ x.abs.category = x.category ∧
    (x.copySign y).category = x.category ∧ x.neg.sign = !x.sign ∧ x.abs.sign = false ∧ (x.copySign y).sign = y.sign ∧
    x.neg.toRat = -x.toRat ∧ x.abs.toRat = |x.toRat| ∧ |(x.copySign y).toRat| = |x.toRat| ∧
    (x.Valid → x.neg.Valid ∧ x.abs.Valid ∧ (x.copySign y).Valid) := by
  refine ⟨datum_neg x, ?_, ?_, ?_, ?_, rfl, by rw [abs_eq], by rw [copySign_eq], rfl, by rw [abs_eq],
    by rw [copySign_eq], neg_toRat x, ?_, ?_, fun hx => ⟨hx, by rw [abs_eq]; exact hx, by rw [copySign_eq]; exact hx⟩⟩
  · obtain ⟨a, b, c, s⟩ := x; simp [neg_eq]
  · simp [abs_eq]
  · simp [abs_eq, neg_eq]
  · simp [copySign_eq]
  · rw [abs_eq]
    cases hc : x.category <;> simp only [toRat, hc, abs_zero]
    rw [abs_signed _ (by positivity)]; rfl
  · rw [copySign_eq]
    cases hc : x.category <;> simp only [toRat, hc]
    rw [abs_signed _ (by positivity), abs_signed _ (by positivity)]

/-! ### Classification -/

/-- **C39.** The five classes partition the values. -/
theorem C39_partition (x : IeeeFloat S) :
    x.isNan.toNat + x.isInfinite.toNat + x.isZero.toNat + x.isDenormal.toNat + x.isNormal.toNat = 1 := by
  unfold isNormal isDenormal isFiniteNonZero isFinite isNan isInfinite isZero
  generalize (x.exp == S.minExp) = a
  generalize x.sig.testBit (S.precision - 1) = b
  cases x.category <;> cases a <;> cases b <;> rfl

/-- **C39.** NaN, infinity, zero, finiteness and the sign tests agree with what the float denotes. -/
theorem C39_categories {x : IeeeFloat S} (hx : x.Valid) :
    (x.isNan = true ↔ x.datum = .nan) ∧ (x.isInfinite = true ↔ ∃ s, x.datum = .inf s) ∧
    (x.isZero = true ↔ ∃ s, x.datum = .num s 0) ∧ (x.isFinite = true ↔ ∃ s v, x.datum = .num s v) ∧
    (x.isFiniteNonZero = true ↔ ∃ s v, x.datum = .num s v ∧ v ≠ 0) ∧ (x.isNonZero = true ↔ ¬ ∃ s, x.datum = .num s 0) ∧
    (x.isPosZero = true ↔ x.datum = .num false 0) ∧ (x.isNegZero = true ↔ x.datum = .num true 0) ∧
    (x.isPosInfinity = true ↔ x.datum = .inf false) ∧ (x.isNegInfinity = true ↔ x.datum = .inf true) ∧
    (x.isNegative = true → x.datum = .nan ∨ x.datum = .inf true ∨ ∃ v, x.datum = .num true v ∧ v ≤ 0) ∧
    (x.isNegative = false → x.datum = .nan ∨ x.datum = .inf false ∨ ∃ v, x.datum = .num false v ∧ 0 ≤ v) := by
  have hne : x.category = .normal → x.toRat ≠ 0 := fun c => toRat_ne_zero hx c
  have hpos : (0 : ℚ) ≤ (x.sig : ℚ) * 2 ^ (x.exp - S.precision + 1) := by positivity
  unfold isNegZero isPosZero isPosInfinity isNegInfinity isNonZero isFiniteNonZero isFinite isNan isInfinite isZero
    isNegative datum
  cases hc : x.category <;> simp
  have h0 := hne hc
  cases hs : x.sign <;> simp [h0] <;> rw [toRat_normal hc, hs]
  · simpa [signed] using hpos
  · simpa [signed] using hpos

example := C39_categories (S := singleS) (x := ⟨3 * 2 ^ 22, 1, .normal, true⟩) (by decide)

/-- **C39.** Subnormals are the non-zero values below the smallest normal one, normals the finite values from it on. -/
theorem C39_denormal (h : S.OK) {x : IeeeFloat S} (hx : x.Valid) :
    (x.isDenormal = true ↔ ∃ s v, x.datum = .num s v ∧ 0 < |v| ∧ |v| < 2 ^ S.minExp) ∧
    (x.isNormal = true ↔ ∃ s v, x.datum = .num s v ∧ 2 ^ S.minExp ≤ |v|) := by
  have hp := h.p_ge
  by_cases hc : x.category = .normal
  · obtain ⟨v1, v2, v3, v4, v5, v6⟩ := Valid.normal hx hc
    have hd : x.datum = .num x.sign x.toRat := by simp [datum, hc]
    have habs : |x.toRat| = (x.sig : ℚ) * 2 ^ (x.exp - S.precision + 1) := by
      rw [toRat_normal hc, abs_signed _ (by positivity)]
    have hpos : 0 < |x.toRat| := abs_pos.2 (toRat_ne_zero hx hc)
    have e1 : (2 : ℚ) ^ S.minExp = (2 ^ (S.precision - 1) : ℕ) * 2 ^ (S.minExp - S.precision + 1) := by
      push_cast
      rw [← zpow_natCast, ← two_zpow_add]
      congr 1; omega
    have hiff : |x.toRat| < 2 ^ S.minExp ↔ (x.exp = S.minExp ∧ x.sig < 2 ^ (S.precision - 1)) := by
      rw [habs, e1]
      by_cases hs : 2 ^ (S.precision - 1) ≤ x.sig
      · constructor
        · intro hlt
          exfalso
          have a1 : (2 : ℚ) ^ (S.minExp - S.precision + 1) ≤ 2 ^ (x.exp - S.precision + 1) :=
            zpow_le_zpow_right₀ (by norm_num) (by omega)
          have a2 : ((2 ^ (S.precision - 1) : ℕ) : ℚ) ≤ x.sig := by exact_mod_cast hs
          have := mul_le_mul a2 a1 (two_zpow_pos _).le (by positivity)
          linarith
        · rintro ⟨-, hlt⟩; omega
      · have he : x.exp = S.minExp := by omega
        refine ⟨fun _ => ⟨he, by omega⟩, fun _ => ?_⟩
        rw [he]
        apply mul_lt_mul_of_pos_right _ (two_zpow_pos _)
        exact_mod_cast (by omega : x.sig < 2 ^ (S.precision - 1))
    have hden : x.isDenormal = true ↔ |x.toRat| < 2 ^ S.minExp := by
      rw [hiff]
      unfold isDenormal
      rw [isFiniteNonZero_of hc, testBit_top (by omega) v4]
      simp
    rw [hd]
    constructor
    · rw [hden]
      constructor
      · intro hl; exact ⟨_, _, rfl, hpos, hl⟩
      · rintro ⟨s, v, e, -, hl⟩
        cases e; exact hl
    · unfold isNormal
      rw [isFiniteNonZero_of hc, Bool.and_true, Bool.not_eq_true', ← Bool.not_eq_true, hden, not_lt]
      constructor
      · intro hl; exact ⟨_, _, rfl, hl⟩
      · rintro ⟨s, v, e, hl⟩
        cases e; exact hl
  · have hf : x.isFiniteNonZero = false := by
      rw [← Bool.not_eq_true, isFiniteNonZero_iff]; exact hc
    have hd : x.datum = .nan ∨ (∃ s, x.datum = .inf s) ∨ ∃ s, x.datum = .num s 0 := by
      unfold datum
      cases hc' : x.category <;> simp
      exact absurd hc' hc
    have hp2 := two_zpow_pos S.minExp
    unfold isNormal isDenormal
    rw [hf]
    simp only [Bool.false_and, Bool.and_false, Bool.false_eq_true, false_iff]
    rcases hd with e | ⟨s, e⟩ | ⟨s, e⟩ <;> rw [e] <;> refine ⟨?_, ?_⟩ <;> rintro ⟨s', v, e', hv⟩ <;> cases e'
    · simp at hv
    · rw [abs_zero] at hv; linarith

example : (⟨3, -14, .normal, true⟩ : IeeeFloat halfS).Valid ∧ (⟨3, -14, .normal, true⟩ : IeeeFloat halfS).isDenormal = true := by
  decide +kernel

end Apf
