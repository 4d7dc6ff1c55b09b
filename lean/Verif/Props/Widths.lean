import Verif.Props.Total
/-! # C83: arguments outside the documented ranges

`from_bits` takes a `u128`, also for formats of fewer bits; the integer conversions take any `usize` as width.  (Arithmetic is modelled with the
overflow checks of a debug build, so a shift or subtraction that overflows is a panic.) -/

namespace Apf
open Spec IeeeFloat
variable {S : Sem}

theorem and_two_pow_mod {b k n : ℕ} (h : k < n) : b % 2 ^ n &&& 2 ^ k = b &&& 2 ^ k := by
  apply Nat.eq_of_testBit_eq
  intro i
  rw [Nat.testBit_and, Nat.testBit_and, Nat.testBit_mod_two_pow, Nat.testBit_two_pow]
  by_cases e : k = i
  · subst e; simp [h]
  · simp [e]

theorem extract_mod {b s q e n : ℕ} (h : q + e ≤ n) : ((b % 2 ^ n &&& s) >>> q) &&& (2 ^ e - 1) = ((b &&& s) >>> q) &&& (2 ^ e - 1) := by
  apply Nat.eq_of_testBit_eq
  intro i
  rw [Nat.testBit_and, Nat.testBit_and, Nat.testBit_shiftRight, Nat.testBit_shiftRight, Nat.testBit_and, Nat.testBit_and, Nat.testBit_mod_two_pow,
    Nat.testBit_two_pow_sub_one]
  by_cases c : i < e
  · have : q + i < n := by omega
    simp [this]
  · simp [c]

theorem and_mask_mod {b k n : ℕ} (h : k ≤ n) : b % 2 ^ n &&& (2 ^ k - 1) = b &&& (2 ^ k - 1) := by
  rw [and_mask, and_mask, Nat.mod_mod_of_dvd _ (pow_dvd_pow 2 h)]

/-- **C83.** `from_bits` ignores the bits above the width of the format. -/
theorem C83_from_bits (h : S.Enc) (b : ℕ) : fromBits S b = fromBits S (b % 2 ^ S.bits) := by
  have hp := h.p_ge
  have hp' := h.p_le
  have hw := h.w_ge
  have hbits := h.bits_eq
  have hbl := h.bits_le
  have pw : ∀ {k : ℕ}, k < 128 → 1 * 2 ^ k % 2 ^ 128 = 2 ^ k := fun hk => by
    rw [Nat.one_mul, Nat.mod_eq_of_lt (Nat.pow_lt_pow_right (by norm_num) hk)]
  unfold fromBits
  cases hx : S.explicitIntBit
  · rw [Sem.sigBits, hx] at hbits
    simp only [Bool.false_eq_true, if_false] at hbits ⊢
    unfold fromBitsDefault
    rw [massert_pos (by omega), shl_ok (by omega), shl_ok (by omega), shl_ok (by omega), pw (by omega), pw (by omega), pw (by omega)]
    simp only [M.ok_bind]
    rw [and_two_pow_mod (by omega), and_mask_mod (by omega)]
    have hq : S.bits - 1 - S.expBits < 128 := by omega
    simp only [shr, if_pos hq, M.ok_bind]
    rw [extract_mod (by omega)]
  · rw [Sem.sigBits, hx] at hbits
    simp only [if_true] at hbits ⊢
    unfold fromBitsX87
    rw [shl_ok (by omega), shl_ok (by omega), shl_ok (by omega), pw (by omega), pw (by omega), pw (by omega)]
    simp only [M.ok_bind]
    rw [and_two_pow_mod (by omega), and_mask_mod (by omega)]
    have hq : S.bits - 1 - S.expBits < 128 := by omega
    simp only [shr, if_pos hq, M.ok_bind]
    rw [extract_mod (by omega)]

/-- So it returns a well-formed value for every argument: the one the low bits encode. -/
theorem C83_from_bits_decodes (h : S.Enc) (b : ℕ) :
    ∃ x, fromBits S b = .ok x ∧ x.Valid ∧ x.datum = decode S.style S.expBits S.sigBits (b % 2 ^ S.bits) := by
  rw [C83_from_bits h]
  obtain ⟨x, x1, x2, x3, -⟩ := C02_from_bits_decodes h (Nat.mod_lt b (Nat.two_pow_pos S.bits))
  exact ⟨x, x1, x2, x3⟩

/-- A `Half` pattern with all the upper bits of a `u128` set. -/
example : fromBits halfS (2 ^ 128 - 2 ^ 16 + 0x3E00) = .ok ⟨0x600, 0, .normal, false⟩ := by decide +kernel

/-- When `to_u128_r` panics on a number below zero: the number has at least `p + 128` bits before the point, and the width claims to hold them. -/
def NegativeTooWide (x : IeeeFloat S) (w : ℕ) : Prop :=
  x.isFinite = true ∧ 2 ^ (S.precision + 127) ≤ |x.toRat| ∧ |x.toRat| < 2 ^ w

theorem shift_bad {a n : ℕ} (h : 128 ≤ n) : shl a n = .error .arith ∧ shr a n = .error .arith := by
  unfold shl shr
  rw [if_neg (by omega), if_neg (by omega)]; exact ⟨rfl, rfl⟩

/-- **C83.** On values without sign, `to_u128_r` panics exactly when the width is 0 or above 128. -/
theorem C83_to_u128_positive (h : S.OK) {x : IeeeFloat S} (hx : x.Valid) (hs : x.isNegative = false) (w : ℕ) (mode : Round) :
    ((w = 0 ∨ 128 < w) → toU128R x w mode = .error .arith) ∧ (¬ (w = 0 ∨ 128 < w) → ∃ r, toU128R x w mode = .ok r) := by
  constructor
  · intro hw
    unfold toU128R
    rw [hs]
    simp only [Bool.false_eq_true, if_false]
    rcases hw with rfl | hw
    · rw [usub_ok (by omega), M.ok_bind, (shift_bad (by omega)).2]; rfl
    · unfold usub; rw [if_neg (by omega)]; rfl
  · intro hw
    exact total_to_u128 h hx (by omega) (by omega) mode

example := C83_to_u128_positive halfS_ok (x := ⟨2 ^ 10, 3, .normal, false⟩) (by decide) rfl 129 .towardZero

/-- The exponent of a number against its magnitude. -/
theorem exp_bounds (h : S.OK) {x : IeeeFloat S} (hx : x.Valid) (cx : x.category = .normal) (he : 0 ≤ x.exp) :
    2 ^ x.exp ≤ |x.toRat| ∧ |x.toRat| < 2 ^ (x.exp + 1) := by
  obtain ⟨x1, x2, x3, x4, x5, x6⟩ := Valid.normal hx cx
  have hp := h.p_ge
  have hmin := h.min_lt
  have h0 := two_zpow_pos (x.exp - S.precision + 1)
  rw [abs_toRat cx]
  constructor
  · have h1 : ((2 ^ (S.precision - 1) : ℕ) : ℚ) ≤ x.sig := by exact_mod_cast (by omega)
    have h2 : (2 : ℚ) ^ x.exp = ((2 ^ (S.precision - 1) : ℕ) : ℚ) * 2 ^ (x.exp - S.precision + 1) := by
      push_cast
      rw [← zpow_natCast, ← two_zpow_add]; congr 1; omega
    rw [h2]
    exact mul_le_mul_of_nonneg_right h1 h0.le
  · have h1 : (x.sig : ℚ) < ((2 ^ S.precision : ℕ) : ℚ) := by exact_mod_cast x4
    have h2 : (2 : ℚ) ^ (x.exp + 1) = ((2 ^ S.precision : ℕ) : ℚ) * 2 ^ (x.exp - S.precision + 1) := by
      push_cast
      rw [← zpow_natCast, ← two_zpow_add]; congr 1; omega
    rw [h2]
    exact mul_lt_mul_of_pos_right h1 h0

/-- Numbers of at least that size have a large exponent. -/
theorem exp_of_ge (h : S.OK) {x : IeeeFloat S} (hx : x.Valid) (cx : x.category = .normal) {k : ℕ} (hk : 2 ^ k ≤ |x.toRat|) : (k : ℤ) ≤ x.exp := by
  obtain ⟨x1, x2, x3, x4, x5, x6⟩ := Valid.normal hx cx
  by_contra hc
  push Not at hc
  have : |x.toRat| < 2 ^ (k : ℤ) := by
    rw [abs_toRat cx]
    have h1 : (x.sig : ℚ) < ((2 ^ S.precision : ℕ) : ℚ) := by exact_mod_cast x4
    have h2 : ((2 ^ S.precision : ℕ) : ℚ) * 2 ^ (x.exp - S.precision + 1) = 2 ^ (x.exp + 1) := by
      push_cast
      rw [← zpow_natCast, ← two_zpow_add]; congr 1; omega
    have h3 := mul_lt_mul_of_pos_right h1 (two_zpow_pos (x.exp - S.precision + 1))
    rw [h2] at h3
    exact h3.trans_le (two_zpow_le (by omega))
  rw [zpow_natCast] at this
  linarith

theorem toU128R_congr {x : IeeeFloat S} (hs : x.isNegative = true) {w w' : ℕ} (e : toU128Trunc x w = toU128Trunc x w') (mode : Round) :
    toU128R x w mode = toU128R x w' mode := by
  unfold toU128R
  rw [hs, e]
  simp only [if_true]

/-- **C83.** On values with sign, no width panics but one that claims to hold a number of more than `p + 127` bits. -/
theorem C83_to_u128_negative (h : S.OK) {x : IeeeFloat S} (hx : x.Valid) (hs : x.isNegative = true) (w : ℕ) (mode : Round) :
    (NegativeTooWide x w → toU128R x w mode = .error .arith) ∧ (¬ NegativeTooWide x w → ∃ r, toU128R x w mode = .ok r) := by
  have hp := h.p_ge; have hp' := h.p_le
  rcases category_cases x with c | c | c
  · refine ⟨fun hh => ?_, fun _ => ?_⟩
    · have := hh.1; simp [isFinite, isNan, c] at this
    · unfold toU128R; rw [hs, c]; exact ⟨_, rfl⟩
  · refine ⟨fun hh => ?_, fun _ => ?_⟩
    · have := hh.1; simp [isFinite, isNan, isInfinite, c] at this
    · unfold toU128R; rw [hs, c]; exact ⟨_, rfl⟩
  rcases isFinite_iff.1 c with cx | cx
  swap
  · refine ⟨fun hh => ?_, fun _ => ?_⟩
    · have := hh.2.1
      rw [toRat_zero cx, abs_zero] at this
      exact absurd this (not_le.2 (by positivity))
    · unfold toU128R; rw [hs, cx]; exact ⟨_, rfl⟩
  have same : ∀ {w' : ℕ}, 1 ≤ w' → w' ≤ 128 → toU128Trunc x w = toU128Trunc x w' → ∃ r, toU128R x w mode = .ok r := by
    intro w' h1 h2 e
    rw [toU128R_congr hs e]
    exact total_to_u128 h hx h1 h2 mode
  rcases lt_or_ge x.exp 0 with he | he
  · refine ⟨fun hh => ?_, fun _ => same (w' := 1) (by omega) (by omega) ?_⟩
    · have := exp_of_ge h hx cx hh.2.1; omega
    · unfold toU128Trunc; rw [if_pos he, if_pos he]
  obtain ⟨b1, b2⟩ := exp_bounds h hx cx he
  have hne : ¬ x.exp < 0 := by omega
  by_cases hw : x.exp.toNat + 1 > w
  · refine ⟨fun hh => ?_, fun _ => ?_⟩
    · have h1 := hh.2.2
      rw [← zpow_natCast] at h1
      have : (2 : ℚ) ^ (w : ℤ) ≤ 2 ^ x.exp := two_zpow_le (by omega)
      linarith
    · unfold toU128R toU128Trunc
      rw [hs, cx]
      simp only [if_true, if_neg hne, if_pos hw, M.ok_bind]
      exact ⟨_, rfl⟩
  by_cases hb : x.exp.toNat + 1 < S.precision
  · refine ⟨fun hh => ?_, fun _ => same (w' := 128) (by omega) (by omega) ?_⟩
    · have := exp_of_ge h hx cx hh.2.1; omega
    · unfold toU128Trunc
      rw [if_neg hne, if_neg hne]
      have hw' : ¬ x.exp.toNat + 1 > 128 := by omega
      simp only [if_neg hw, if_neg hw']
  · refine ⟨fun hh => ?_, fun hh => ?_⟩
    · have := exp_of_ge h hx cx hh.2.1
      unfold toU128R toU128Trunc
      rw [hs, cx]
      simp only [if_true, if_neg hne, if_neg hw, if_neg hb, M.ok_bind]
      rw [(shift_bad (by omega)).1]
      rfl
    · have hk : x.exp.toNat + 1 - S.precision < 128 := by
        by_contra hc
        apply hh
        refine ⟨c, ?_, ?_⟩
        · refine le_trans ?_ b1
          rw [← zpow_natCast]
          exact two_zpow_le (by push_cast; omega)
        · refine b2.trans_le ?_
          rw [← zpow_natCast]
          exact two_zpow_le (by omega)
      unfold toU128R toU128Trunc
      rw [hs, cx]
      simp only [if_true, if_neg hne, if_neg hw, if_neg hb, M.ok_bind]
      rw [shl_ok hk]
      simp only [M.ok_bind]
      exact ⟨_, rfl⟩

example := C83_to_u128_negative halfS_ok (x := ⟨2 ^ 10, 3, .normal, true⟩) (by decide) rfl 129 .towardZero

/-- **C83.** `to_i128_r` panics exactly for width 0, for width 1 on values without sign, and for widths above 128 (129 without sign). -/
theorem C83_to_i128 (h : S.OK) {x : IeeeFloat S} (hx : x.Valid) (w : ℕ) (mode : Round) :
    ((if x.isNegative then w = 0 ∨ 128 < w else w ≤ 1 ∨ 129 < w) → toI128R x w mode = .error .arith) ∧
    (¬ (if x.isNegative then w = 0 ∨ 128 < w else w ≤ 1 ∨ 129 < w) → ∃ r, toI128R x w mode = .ok r) := by
  unfold toI128R
  cases hs : x.isNegative
  · simp only [Bool.false_eq_true, if_false]
    obtain ⟨p1, p2⟩ := C83_to_u128_positive h hx hs (w - 1) mode
    refine ⟨fun hw => ?_, fun hw => ?_⟩
    · by_cases w0 : w = 0
      · subst w0; rfl
      · rw [usub_ok (by omega), M.ok_bind, p1 (by omega)]; rfl
    · obtain ⟨r, hr⟩ := p2 (by omega)
      rw [usub_ok (by omega), M.ok_bind, hr]
      exact ⟨_, rfl⟩
  · simp only [if_true]
    have hn : x.neg.isNegative = false := by rw [neg_eq]; simpa [isNegative] using hs
    obtain ⟨p1, p2⟩ := C83_to_u128_positive h (neg_valid hx) hn w mode.neg
    refine ⟨fun hw => ?_, fun hw => ?_⟩
    · rw [p1 hw]; rfl
    · obtain ⟨r, hr⟩ := p2 hw
      rw [hr, M.ok_bind, usub_ok (by omega), M.ok_bind, shl_ok (by omega), M.ok_bind]
      split_ifs <;> exact ⟨_, rfl⟩

example := C83_to_i128 halfS_ok (x := ⟨2 ^ 10, 3, .normal, true⟩) (by decide) 129 .towardZero

/-- Width 1 on a negative normal number rounds and saturates to the two values -1 and 0, as it should; only values without sign panic. -/
theorem C83_to_i128_width_one (h : S.OK) {x : IeeeFloat S} (hx : x.Valid) (cx : x.category = .normal) (hs : x.sign = true) (mode : Round) :
    ∃ r, toI128R x 1 mode = .ok r ∧ ConvertsToInt (-1) 0 mode x.toRat r.status r.value r.isExact := by
  have hm := toRat_pos_of_normal hx cx
  unfold toI128R isNegative
  rw [usub_ok (by omega), hs]
  simp only [if_true]
  obtain ⟨N, h1, h2⟩ := toU128R_mag h (neg_valid hx) (neg_normal cx) (w := 1) (by omega) (by omega) mode.neg
    (m := (x.sig : ℚ) * 2 ^ (x.exp - S.precision + 1)) rfl (hi := 1) (by rw [neg_eq]; simp [hs])
  have e : (x.neg).sign = false := by rw [neg_eq]; simp [hs]
  rw [e] at h1
  have h1' := h1.neg
  simp only [Round.negateIf, Bool.false_eq_true, if_false, neg_negateIf] at h1'
  rw [h2]
  simp only [M.ok_bind]
  rw [shl_ok (by omega), M.ok_bind, toRat_normal cx, hs]
  simp only [signed, if_true]
  generalize (x.sig : ℚ) * 2 ^ (x.exp - S.precision + 1) = m at *
  by_cases c : 1 < N
  · rw [if_pos c]
    simp only
    rw [if_neg (by norm_num)]
    exact ⟨_, rfl, -N, h1', Or.inr (Or.inl ⟨by omega, by decide, rfl, rfl⟩)⟩
  · rw [if_neg c]
    simp only
    rw [if_neg (by norm_num; omega)]
    refine ⟨_, rfl, -N, h1', Or.inl ⟨by omega, by omega, asI128_wneg (by omega), ?_, ?_⟩⟩
    · simp [neg_inj]
    · simp [neg_inj]

example := C83_to_i128_width_one halfS_ok (x := ⟨2 ^ 10, 3, .normal, true⟩) (by decide) rfl rfl .towardZero

/-! ## Programs with any arguments -/

/-- The arguments are values of their types: `u128`, `i128`, any `usize` as width or precision.  The string is shorter than four million
characters. -/
def Call.Typed : Call → Prop
  | .fromU128 _ _ n _ => n < 2 ^ 128
  | .fromI128 _ _ n _ => -2 ^ 127 ≤ n ∧ n < 2 ^ 127
  | .fromStr _ _ fuel s _ => 23 ≤ fuel ∧ s.length < 2 ^ 27
  | _ => True

/-- The digit estimate `196 * P + 58` of a formatting precision `P` does not fit a 64-bit `usize`. -/
def HugePrecision (prec : Option ℕ) : Prop := ∃ P, prec = some P ∧ 2 ^ 64 ≤ P * 196 + 58

theorem not_hugePrecision {prec : Option ℕ} (h : ¬ HugePrecision prec) : ∀ P, prec = some P → P * 196 + 58 < 2 ^ 64 :=
  fun P e => not_le.1 fun c => h ⟨P, e, c⟩

/-- Formatting a zero, an infinity or a NaN returns with any precision at all. -/
theorem display_special {x : IeeeFloat S} (hc : ¬ (x.isFinite = true ∧ x.isZero = false)) (width prec : Option ℕ) (alt : Bool) :
    ∃ s, x.display width prec alt = .ok s := by
  unfold display
  cases c : x.category
  · exact ⟨_, rfl⟩
  · exact ⟨_, rfl⟩
  · exact absurd ⟨by simp [isFinite, isNan, isInfinite, c], by simp [isZero, c]⟩ hc
  · simp only
    split_ifs <;> first | exact ⟨_, rfl⟩ | (split <;> exact ⟨_, rfl⟩)

/-- **C83** (formatting).  With any precision whatsoever, formatting panics exactly if the precision is 0 and C79 says so, or the value is finite and not
zero and the precision is huge. -/
theorem C83_display (h : S.OK) {x : IeeeFloat S} (hx : x.Valid) (width prec : Option ℕ) (alt : Bool) :
    ((DisplayPanics x prec ∨ (x.isFinite = true ∧ x.isZero = false ∧ HugePrecision prec)) → ∃ e, x.display width prec alt = .error e) ∧
    (¬ (DisplayPanics x prec ∨ (x.isFinite = true ∧ x.isZero = false ∧ HugePrecision prec)) → ∃ s, x.display width prec alt = .ok s) := by
  by_cases hc : x.isFinite = true ∧ x.isZero = false
  · by_cases hP : HugePrecision prec
    · refine ⟨fun _ => ?_, fun e => absurd (Or.inr ⟨hc.1, hc.2, hP⟩) e⟩
      obtain ⟨P, rfl, hP⟩ := hP
      exact ⟨_, C79_huge_precision h hx hc.1 hc.2 width hP alt⟩
    · rcases C79_panics_iff h hx width prec alt (not_hugePrecision hP) with ⟨q, e⟩ | ⟨q, s, e⟩
      · exact ⟨fun _ => ⟨_, e⟩, fun n => absurd (Or.inl q) n⟩
      · exact ⟨fun n => n.elim (fun n => absurd n q) (fun n => absurd n.2.2 hP), fun _ => ⟨_, e⟩⟩
  · refine ⟨fun n => ?_, fun _ => display_special hc width prec alt⟩
    rcases n with n | n
    · exact absurd ⟨n.2.1, n.2.2.1⟩ hc
    · exact absurd ⟨n.1, n.2.1⟩ hc

example : ∃ e, display (⟨2 ^ 10, 0, .normal, false⟩ : IeeeFloat halfS) none (some (2 ^ 60)) false = .error e :=
  (C83_display halfS_ok (by decide) none (some (2 ^ 60)) false).1 (Or.inr ⟨rfl, rfl, 2 ^ 60, rfl, by norm_num⟩)

/-- What stops a call: the operands of `Call.Stops`, a width outside the documented range, or a huge formatting precision. -/
def Call.StopsTyped (st : Store) : Call → Prop
  | .toU128 f a w _ => if (st f a).isNegative then NegativeTooWide (st f a) w else w = 0 ∨ 128 < w
  | .toI128 f a w _ => if (st f a).isNegative then w = 0 ∨ 128 < w else w ≤ 1 ∨ 129 < w
  | .display f a _ p _ => DisplayPanics (st f a) p ∨ ((st f a).isFinite = true ∧ (st f a).isZero = false ∧ HugePrecision p)
  | c => c.Stops st

/-- One call with any arguments. -/
theorem Call.run_typed {st : Store} (hst : st.WellFormed) (c : Call) (hc : c.Typed) :
    (¬ c.StopsTyped st ∧ ∃ st', c.run st = .ok st' ∧ st'.WellFormed) ∨ (c.StopsTyped st ∧ ∃ e, c.run st = .error e) := by
  have inr : ∀ c : Call, c.InRange → (c.StopsTyped st ↔ c.Stops st) →
      (¬ c.StopsTyped st ∧ ∃ st', c.run st = .ok st' ∧ st'.WellFormed) ∨ (c.StopsTyped st ∧ ∃ e, c.run st = .error e) := by
    intro c hc e
    rw [e]
    rcases Call.run_total hst c hc with ⟨st', e, h⟩ | ⟨h, e⟩
    · refine Or.inl ⟨fun hh => ?_, st', e, h⟩
      rw [Call.run_panics hst hc hh] at e
      cases e
    · exact Or.inr ⟨h, _, e⟩
  cases c
  case fromBits f d b =>
    obtain ⟨x, x1, x2, -⟩ := C83_from_bits_decodes f.enc b
    refine Or.inl ⟨by simp [Call.StopsTyped, Call.Stops], ?_⟩
    simp only [Call.run, x1]
    exact ⟨_, rfl, Store.set_wellFormed hst d x2⟩
  case toU128 f a w mode =>
    cases hs : (st f a).isNegative
    · obtain ⟨p1, p2⟩ := C83_to_u128_positive f.enc.toOK (hst f a) hs w mode
      by_cases hw : w = 0 ∨ 128 < w
      · exact Or.inr ⟨by simpa [Call.StopsTyped, hs] using hw, .arith, by simp only [Call.run, p1 hw]; rfl⟩
      · obtain ⟨r, hr⟩ := p2 hw
        exact Or.inl ⟨by simpa [Call.StopsTyped, hs] using hw, st, by simp only [Call.run, hr]; rfl, hst⟩
    · obtain ⟨p1, p2⟩ := C83_to_u128_negative f.enc.toOK (hst f a) hs w mode
      by_cases hw : NegativeTooWide (st f a) w
      · exact Or.inr ⟨by simpa [Call.StopsTyped, hs] using hw, .arith, by simp only [Call.run, p1 hw]; rfl⟩
      · obtain ⟨r, hr⟩ := p2 hw
        exact Or.inl ⟨by simpa [Call.StopsTyped, hs] using hw, st, by simp only [Call.run, hr]; rfl, hst⟩
  case toI128 f a w mode =>
    obtain ⟨p1, p2⟩ := C83_to_i128 f.enc.toOK (hst f a) w mode
    by_cases hw : (if (st f a).isNegative then w = 0 ∨ 128 < w else w ≤ 1 ∨ 129 < w)
    · exact Or.inr ⟨hw, .arith, by simp only [Call.run, p1 hw]; rfl⟩
    · obtain ⟨r, hr⟩ := p2 hw
      exact Or.inl ⟨hw, st, by simp only [Call.run, hr]; rfl, hst⟩
  case display f a w p alt =>
    obtain ⟨p1, p2⟩ := C83_display f.enc.toOK (hst f a) w p alt
    by_cases hw : DisplayPanics (st f a) p ∨ ((st f a).isFinite = true ∧ (st f a).isZero = false ∧ HugePrecision p)
    · obtain ⟨e, he⟩ := p1 hw
      exact Or.inr ⟨hw, e, by simp only [Call.run, he]; rfl⟩
    · obtain ⟨r, hr⟩ := p2 hw
      exact Or.inl ⟨hw, st, by simp only [Call.run, hr]; rfl, hst⟩
  all_goals exact inr _ hc Iff.rfl

/-- **C83.** Every program over the API, with any arguments of the right types, keeps every value well formed until a call stops it. -/
theorem C83_histories (calls : List Call) (hr : ∀ c ∈ calls, c.Typed) :
    (∃ st, runAll calls .start = .ok st ∧ st.WellFormed) ∨
    (∃ (pre : List Call) (c : Call) (post : List Call) (st : Store), calls = pre ++ c :: post ∧
      runAll pre .start = .ok st ∧ st.WellFormed ∧ c.StopsTyped st ∧ ∃ e, runAll calls .start = .error e) := by
  have key : ∀ (calls : List Call) (st : Store), st.WellFormed → (∀ c ∈ calls, c.Typed) →
      (∃ st', runAll calls st = .ok st' ∧ st'.WellFormed) ∨
      (∃ (pre : List Call) (c : Call) (post : List Call) (st' : Store), calls = pre ++ c :: post ∧
        runAll pre st = .ok st' ∧ st'.WellFormed ∧ c.StopsTyped st' ∧ ∃ e, runAll calls st = .error e) := by
    intro calls
    induction calls with
    | nil => exact fun st hst _ => Or.inl ⟨st, rfl, hst⟩
    | cons c cs ih =>
      intro st hst hr
      rcases Call.run_typed hst c (hr c List.mem_cons_self) with ⟨-, st1, e1, h1⟩ | ⟨h1, e, e1⟩
      · rcases ih st1 h1 (fun c' hc' => hr c' (List.mem_cons_of_mem _ hc')) with ⟨st2, e2, h2⟩ | ⟨pre, c', post, st2, e2, e3, h2, h3, e, h4⟩
        · exact Or.inl ⟨st2, by rw [runAll, e1]; exact e2, h2⟩
        · exact Or.inr ⟨c :: pre, c', post, st2, by rw [e2]; rfl, by rw [runAll, e1]; exact e3, h2, h3, e, by rw [runAll, e1]; exact h4⟩
      · exact Or.inr ⟨[], c, cs, st, rfl, rfl, hst, h1, e, by rw [runAll, e1]; rfl⟩
  exact key calls .start Store.start_wellFormed hr

/-- **C83.** In any reachable memory, a call with arguments of the right types panics if and only if `Call.StopsTyped` describes it. -/
theorem C83_panics_iff (pre : List Call) (hr : ∀ c ∈ pre, c.Typed) {st : Store} (hp : runAll pre .start = .ok st)
    (c : Call) (hc : c.Typed) : (∃ e, c.run st = .error e) ↔ c.StopsTyped st := by
  have hst : st.WellFormed := by
    rcases C83_histories pre hr with ⟨st', e, h⟩ | ⟨p, c', q, st', -, -, -, -, er, e⟩
    · rw [hp] at e; injection e with e; exact e ▸ h
    · rw [hp] at e; cases e
  rcases Call.run_typed hst c hc with ⟨h, st', e, -⟩ | ⟨h, e⟩
  · refine ⟨?_, fun hh => absurd hh h⟩
    rintro ⟨er, e'⟩
    rw [e] at e'; cases e'
  · exact ⟨fun _ => h, fun _ => e⟩

/-- A program that `C29_histories_partial` does not cover: a pattern of more bits than the format and a conversion of a negative number to width 0. -/
example : (∀ c ∈ ([.fromBits .half 0 (2 ^ 127 + 0xBE00), .toU128 .half 0 0 .towardZero, .toI128 .half 0 1 .towardZero] : List Call), c.Typed) ∧
    ∃ st, runAll [.fromBits .half 0 (2 ^ 127 + 0xBE00), .toU128 .half 0 0 .towardZero, .toI128 .half 0 1 .towardZero] .start = .ok st := by
  constructor
  · intro c hc
    simp only [List.mem_cons, List.not_mem_nil, or_false] at hc
    rcases hc with rfl | rfl | rfl <;> simp [Call.Typed]
  · exact ⟨_, rfl⟩

/-- The condition on negative numbers is reached: -2^300 in `Quad`, converted to an unsigned integer of 400 bits. -/
theorem C83_negative_witness : ∃ x : IeeeFloat quadS, x.Valid ∧ x.isNegative = true ∧ NegativeTooWide x 400 ∧ toU128R x 400 .towardZero = .error .arith := by
  refine ⟨⟨2 ^ 112, 300, .normal, true⟩, by decide +kernel, rfl, ⟨rfl, by decide +kernel, by decide +kernel⟩, by decide +kernel⟩

end Apf
