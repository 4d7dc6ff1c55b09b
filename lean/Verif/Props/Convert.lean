import Verif.Props.Scale
/-! # C21 and C22: conversion between formats -/

namespace Apf
open Spec IeeeFloat

variable {S T : Sem}

theorem div_add_frac (n k : ℕ) (e : ℤ) :
    (((n / 2 ^ k : ℕ) : ℚ) + ((n % 2 ^ k : ℕ) : ℚ) / ((2 ^ k : ℕ) : ℚ)) * 2 ^ (e + k) = (n : ℚ) * 2 ^ e := by
  have hd : (n : ℚ) = 2 ^ k * ((n / 2 ^ k : ℕ) : ℚ) + ((n % 2 ^ k : ℕ) : ℚ) := by
    exact_mod_cast (Nat.div_add_mod n (2 ^ k)).symm
  have h0 : (2 : ℚ) ^ k ≠ 0 := by positivity
  rw [two_zpow_add e k, zpow_natCast]
  push_cast
  rw [mul_comm ((2 : ℚ) ^ e), ← mul_assoc, add_mul, div_mul_cancel₀ _ h0]
  conv_rhs => rw [hd]
  ring

/-- The shift a truncating conversion decides on keeps the value, leaves enough bits and never shifts out
everything unless the result is at the smallest exponent. -/
theorem convertShift_ok (hS : S.OK) (hT : T.OK) {x : IeeeFloat S} (hx : x.Valid) (cx : x.category = .normal)
    (hd : T.precision < S.precision) :
    ∃ (k : ℕ) (e : ℤ), convertShift S T x.sig x.exp ((T.precision : ℤ) - S.precision) = .ok (-(k : ℤ), e) ∧
      e = x.exp - S.precision + T.precision + k ∧ k ≤ S.precision ∧
      (k ≠ 0 → x.sig / 2 ^ k ≠ 0 → T.precision ≤ Nat.size x.sig - k ∨ e ≤ T.minExp) ∧
      (x.sig / 2 ^ k = 0 → e = T.minExp) := by
  have s1 := hS.p_ge; have s2 := hS.p_le; have s3 := hS.min_ge; have s4 := hS.max_le; have s5 := hS.pow_le
  have t1 := hT.p_ge; have t2 := hT.p_le; have t3 := hT.min_ge; have t4 := hT.max_le; have t5 := hT.min_lt
  obtain ⟨x1, x2, x3, x4, x5, x6⟩ := Valid.normal hx cx
  have o1 : 1 ≤ Nat.size x.sig := size_pos x3
  have o2 : Nat.size x.sig ≤ S.precision := Nat.size_le.2 x4
  have o3 : Nat.size x.sig < S.precision → x.exp = S.minExp := by
    intro hlt
    refine x5.resolve_left fun hc => ?_
    have := Nat.lt_size.2 hc
    omega
  have hz : ∀ k, x.sig / 2 ^ k = 0 ↔ Nat.size x.sig ≤ k := by
    intro k
    rw [← Nat.size_eq_zero, size_div]; omega
  simp only [ne_eq, hz]
  unfold convertShift
  rw [omsb_one (by omega)]
  generalize Nat.size x.sig = o at *
  rw [asI32_of_lt (by omega), asI32_of_lt (by omega)]
  dsimp only
  rw [i32_ok (by omega) (by omega), M.ok_bind, i32_ok (by omega) (by omega), M.ok_bind]
  have close : ∀ (s e : ℤ) (k : ℕ), s = -(k : ℤ) → (e = x.exp - S.precision + T.precision + k ∧ k ≤ S.precision ∧
      (¬ k = 0 → ¬ o ≤ k → T.precision ≤ o - k ∨ e ≤ T.minExp) ∧ (o ≤ k → e = T.minExp)) →
      ∃ (k : ℕ) (e' : ℤ), (Except.ok (s, e) : M (ℤ × ℤ)) = .ok (-(k : ℤ), e') ∧ e' = x.exp - S.precision + T.precision + k ∧ k ≤ S.precision ∧
      (¬ k = 0 → ¬ o ≤ k → T.precision ≤ o - k ∨ e' ≤ T.minExp) ∧ (o ≤ k → e' = T.minExp) := by
    intro s e k hs hr
    exact ⟨k, e, by rw [hs], hr⟩
  by_cases a1 : x.exp + ((o : ℤ) - S.precision) < T.minExp
  · rw [if_pos a1, i32_ok (by omega) (by omega), M.ok_bind]
    by_cases a2 : T.minExp - x.exp < (T.precision : ℤ) - S.precision
    · rw [if_pos a2, if_pos (by omega), i32_ok (by omega) (by omega), M.ok_bind, i32_ok (by omega) (by omega), M.ok_bind]
      exact close _ _ 0 (by omega) (by omega)
    · rw [if_neg a2]
      by_cases a3 : T.minExp - x.exp < 0
      · rw [if_pos a3, i32_ok (by omega) (by omega), M.ok_bind, i32_ok (by omega) (by omega), M.ok_bind]
        exact close _ _ ((S.precision : ℤ) - T.precision + (T.minExp - x.exp)).toNat (by omega) (by omega)
      · rw [if_neg a3]
        by_cases a4 : (o : ℤ) ≤ -((T.precision : ℤ) - S.precision)
        · rw [if_pos a4, i32_ok (by omega) (by omega), M.ok_bind, i32_ok (by omega) (by omega), M.ok_bind,
            i32_ok (by omega) (by omega), M.ok_bind, i32_ok (by omega) (by omega), M.ok_bind]
          exact close _ _ (o - 1) (by omega) (by omega)
        · rw [if_neg a4]
          exact close _ _ (S.precision - T.precision) (by omega) (by omega)
  · rw [if_neg a1, M.ok_bind]
    by_cases a2 : (o : ℤ) - S.precision < (T.precision : ℤ) - S.precision
    · rw [if_pos a2, if_pos (by omega), i32_ok (by omega) (by omega), M.ok_bind, i32_ok (by omega) (by omega), M.ok_bind]
      exact close _ _ 0 (by omega) (by omega)
    · rw [if_neg a2]
      by_cases a3 : (o : ℤ) - S.precision < 0
      · rw [if_pos a3, i32_ok (by omega) (by omega), M.ok_bind, i32_ok (by omega) (by omega), M.ok_bind]
        exact close _ _ (o - T.precision) (by omega) (by omega)
      · rw [if_neg a3]
        by_cases a4 : (o : ℤ) ≤ -((T.precision : ℤ) - S.precision)
        · omega
        · rw [if_neg a4]
          exact close _ _ (S.precision - T.precision) (by omega) (by omega)

theorem convertSig_shift {x : IeeeFloat S} (cx : x.category = .normal) {sig : ℕ} (hs : sig < 2 ^ 128) (k : ℕ) (hk : k ≤ 1000) :
    convertSig S x sig (-(k : ℤ)) = .ok (sig / 2 ^ k, lossOf (sig % 2 ^ k) (2 ^ k)) := by
  unfold convertSig
  have f := isFiniteNonZero_of cx
  rcases Nat.eq_zero_or_pos k with e | e
  · subst e
    simp [lossOf, Nat.mod_one, bind, Except.bind]
  · rw [if_pos ⟨by omega, Or.inl f⟩, show (-(-(k : ℤ))).toNat = k by omega, shiftRight1_ok hs (by omega) (by omega) (by omega)]
    simp only [M.ok_bind]
    rw [if_neg (by omega)]

/-- The datum and the flags of the conversion of a finite non-zero value. -/
theorem convertR_normal (hS : S.OK) (hT : T.OK) {x : IeeeFloat S} (hx : x.Valid) (cx : x.category = .normal) (mode : Round)
    {om : Round} (hO : Effective T mode x.toRat om) :
    ∃ r, Good T om x.toRat x.sign (.ok r) ∧
      convertR S T x mode = .ok ⟨r.status, r.value, decide (r.status.diff Status.INVALID_OP ≠ Status.OK)⟩ := by
  have s1 := hS.p_ge; have s2 := hS.p_le; have s3 := hS.min_ge; have s4 := hS.max_le; have s5 := hS.pow_le
  have t1 := hT.p_ge; have t2 := hT.p_le; have t3 := hT.min_ge; have t4 := hT.max_le; have t5 := hT.pow_le
  obtain ⟨x1, x2, x3, x4, x5, x6⟩ := Valid.normal hx cx
  have f := isFiniteNonZero_of cx
  have hnan : x.isNan = false := by simp [isNan, cx]
  -- it suffices to find the operand of `normalize`
  have fin : ∀ (sig : ℕ) (e : ℤ) (loss : Loss), Good T om x.toRat x.sign (({ sig, exp := e, category := .normal, sign := x.sign } : IeeeFloat T).normalize mode loss) →
      ∃ r, Good T om x.toRat x.sign (.ok r) ∧
        convertFinish S T x mode Status.OK (isX87 S && !isX87 T && (x.category == .nan)
          && ((x.sig &&& S.qnanSignificand) != S.qnanSignificand)) sig e loss =
        .ok ⟨r.status, r.value, decide (r.status.diff Status.INVALID_OP ≠ Status.OK)⟩ := by
    intro sig e loss hg
    have hg' := hg
    obtain ⟨r, r1, -⟩ := hg'
    rw [r1] at hg
    refine ⟨r, hg, ?_⟩
    unfold convertFinish isNegative
    simp only [cx, r1, M.ok_bind, reduceCtorEq, or_self, false_and, if_false, Bool.false_or]
    have : Status.OK ||| r.status = r.status := by
      obtain ⟨⟨a, b, c, d, e⟩, -⟩ := r; rfl
    rw [this]
  unfold convertR
  simp only [hnan, Bool.false_eq_true, if_false, M.ok_bind, Status.and]
  rw [asI32_of_lt (by omega), asI32_of_lt (by omega), i32_ok (by omega) (by omega), M.ok_bind]
  by_cases hd : T.precision < S.precision
  · rw [if_pos ⟨by omega, f⟩]
    obtain ⟨k, e, k1, k2, k3, k4, k5⟩ := convertShift_ok hS hT hx cx hd
    rw [k1, M.ok_bind]
    dsimp only
    rw [convertSig_shift cx (by omega) k (by omega), M.ok_bind]
    dsimp only
    apply fin
    have hq : x.sig / 2 ^ k ≤ x.sig := Nat.div_le_self _ _
    refine normalize_eff' (S := T) hT (x := ⟨x.sig / 2 ^ k, e, .normal, x.sign⟩) rfl (mode := mode) (by show x.sig / 2 ^ k < _; omega)
      (by show -1200000000 ≤ e; omega) (by show e ≤ 1200000000; omega) (lossIs_lossOf (Nat.mod_lt x.sig (Nat.two_pow_pos k))) ?_ ?_ hO
    · intro hne h0
      have hk : k ≠ 0 := by
        intro e; subst e; simp [lossOf, Nat.mod_one] at hne
      rcases k4 hk h0 with c | c
      · left; show T.precision ≤ Nat.size (x.sig / 2 ^ k); rw [size_div]; exact c
      · exact Or.inr c
    · show x.toRat = signed x.sign ((((x.sig / 2 ^ k : ℕ) : ℚ) + _) * 2 ^ ((if x.sig / 2 ^ k = 0 then T.minExp else e) - T.precision + 1))
      have : (if x.sig / 2 ^ k = 0 then T.minExp else e) = e := by
        split_ifs with h0
        · exact (k5 h0).symm
        · rfl
      rw [this, toRat_normal cx, show e - T.precision + 1 = (x.exp - S.precision + 1) + k by rw [k2]; ring]
      congr 1
      exact (div_add_frac x.sig k _).symm
  · rw [if_neg (by omega), M.ok_bind]
    dsimp only
    have hcs : convertSig S x x.sig ((T.precision : ℤ) - S.precision) = .ok (x.sig * 2 ^ (T.precision - S.precision), .exactlyZero) := by
      unfold convertSig
      rw [if_neg (by omega), M.ok_bind]
      dsimp only
      have hlt : x.sig * 2 ^ (T.precision - S.precision) < 2 ^ T.precision := by
        calc x.sig * 2 ^ (T.precision - S.precision) < 2 ^ S.precision * 2 ^ (T.precision - S.precision) :=
              Nat.mul_lt_mul_of_pos_right x4 (Nat.two_pow_pos _)
          _ = 2 ^ T.precision := by rw [← pow_add]; congr 1; omega
      by_cases h0 : T.precision = S.precision
      · rw [if_neg (by omega), h0, Nat.sub_self, pow_zero, mul_one]
      · rw [if_pos ⟨by omega, Or.inl f⟩, show ((T.precision : ℤ) - S.precision).toNat = T.precision - S.precision by omega,
          shiftLeft1_ok (by omega) (by omega) (by omega) (by omega), M.ok_bind, Nat.mod_eq_of_lt (by omega)]
    rw [hcs, M.ok_bind]
    dsimp only
    apply fin
    have hlt : x.sig * 2 ^ (T.precision - S.precision) < 2 ^ T.precision := by
      calc x.sig * 2 ^ (T.precision - S.precision) < 2 ^ S.precision * 2 ^ (T.precision - S.precision) :=
            Nat.mul_lt_mul_of_pos_right x4 (Nat.two_pow_pos _)
        _ = 2 ^ T.precision := by rw [← pow_add]; congr 1; omega
    have hpos : 0 < x.sig * 2 ^ (T.precision - S.precision) := Nat.mul_pos x3 (Nat.two_pow_pos _)
    refine normalize_eff' (S := T) hT (x := ⟨x.sig * 2 ^ (T.precision - S.precision), x.exp, .normal, x.sign⟩) rfl (mode := mode) (f := 0)
      (by show x.sig * _ < _; omega) (by show -1200000000 ≤ x.exp; omega) (by show x.exp ≤ 1200000000; omega) (show LossIs .exactlyZero 0 from rfl)
      (fun e => absurd rfl e) ?_ hO
    show x.toRat = signed x.sign ((((x.sig * 2 ^ (T.precision - S.precision) : ℕ) : ℚ) + 0) *
      2 ^ ((if x.sig * 2 ^ (T.precision - S.precision) = 0 then T.minExp else x.exp) - T.precision + 1))
    rw [if_neg hpos.ne', add_zero, toRat_normal cx]
    congr 1
    push_cast
    rw [show x.exp - (S.precision : ℤ) + 1 = ((T.precision - S.precision : ℕ) : ℤ) + (x.exp - T.precision + 1) by omega,
      two_zpow_add ((T.precision - S.precision : ℕ) : ℤ), zpow_natCast, mul_assoc]

theorem convertR_zero (hS : S.OK) (hT : T.OK) {x : IeeeFloat S} (cx : x.category = .zero) (mode : Round) :
    convertR S T x mode = .ok ⟨Status.OK, { ZERO T with sign := x.sign }, false⟩ := by
  have s2 := hS.p_le; have t2 := hT.p_le
  have f : x.isFiniteNonZero = false := by simp [isFiniteNonZero, isFinite, isNan, isInfinite, isZero, cx]
  have hnan : x.isNan = false := by simp [isNan, cx]
  unfold convertR
  simp only [hnan, Bool.false_eq_true, if_false, M.ok_bind, Status.and]
  rw [asI32_of_lt (by omega), asI32_of_lt (by omega), i32_ok (by omega) (by omega), M.ok_bind]
  unfold convertSig convertFinish isNegative
  simp only [f, cx, Bool.false_eq_true, and_false, if_false, M.ok_bind, reduceCtorEq, false_and, or_self, false_or, or_true]
  rw [withSign_eq]
  have : (ZERO T).category = .zero := rfl
  simp only [this, ne_eq, not_true_eq_false, or_self, and_false, if_false]
  rfl

theorem convertR_inf (hS : S.OK) (hT : T.OK) {x : IeeeFloat S} (cx : x.category = .infinity) (mode : Round) :
    convertR S T x mode = .ok (if T.nonfinite = .ieee754 then ⟨Status.OK, { INFINITY T with sign := x.sign }, false⟩
      else ⟨Status.INEXACT, { INFINITY T with sign := x.sign }, true⟩) := by
  have s2 := hS.p_le; have t2 := hT.p_le
  have f : x.isFiniteNonZero = false := by simp [isFiniteNonZero, isFinite, isNan, isInfinite, isZero, cx]
  have hnan : x.isNan = false := by simp [isNan, cx]
  unfold convertR
  simp only [hnan, Bool.false_eq_true, if_false, M.ok_bind, Status.and]
  rw [asI32_of_lt (by omega), asI32_of_lt (by omega), i32_ok (by omega) (by omega), M.ok_bind]
  unfold convertSig convertFinish isNegative
  simp only [f, cx, Bool.false_eq_true, and_false, if_false, M.ok_bind, reduceCtorEq, false_and, or_self, false_or, or_true]
  rw [withSign_eq]
  cases hn : T.nonfinite
  · have : (INFINITY T).category = .infinity := by unfold INFINITY; rw [hn]
    simp only [this, ne_eq, not_true_eq_false, or_self, and_false, if_false, if_true]
    rfl
  · have : (INFINITY T).category = .nan := by unfold INFINITY; rw [hn]; rfl
    simp only [this, reduceCtorEq, ne_eq, not_false_eq_true, true_or, and_self, if_true, if_false]
    rfl

/-- The conversion of a finite value, in the mode the code effectively rounds in. -/
theorem convertR_eff (hS : S.OK) (hT : T.OK) {x : IeeeFloat S} (hx : x.Valid) (fx : x.isFinite = true) (mode : Round)
    {om : Round} (hO : Effective T mode x.toRat om) :
    ∃ c, convertR S T x mode = .ok c ∧ c.value.Valid ∧ c.value.sign = x.sign ∧
      Rounds T om x.toRat x.sign ⟨c.status, c.value⟩ := by
  rcases isFinite_iff.1 fx with cx | cx
  · obtain ⟨r, r1, r2⟩ := convertR_normal hS hT hx cx mode hO
    refine ⟨_, r2, ?_⟩
    have hsg : r.value.sign = x.sign := by
      obtain ⟨r', e, -, e3, -⟩ := r1; cases e; exact e3
    obtain ⟨r', e1, e2, e3⟩ := Good.rounds r1 (zs := x.sign) ⟨_, (toRat_pos_of_normal hx cx).le, toRat_normal cx⟩ (fun _ => rfl)
    cases e1
    exact ⟨e2, hsg, e3⟩
  · refine ⟨_, convertR_zero hS hT cx mode, ?_⟩
    rw [toRat_zero cx]
    obtain ⟨a, b⟩ := zero_rounds hT om x.sign
    exact ⟨a, rfl, b⟩

/-- **C21.** The conversion of a finite value is the correct rounding of that value in the target format, with the
sign bit kept. -/
theorem C21_convert_finite (hS : S.OK) (hT : T.OK) {x : IeeeFloat S} (hx : x.Valid) (fx : x.isFinite = true) (mode : Round)
    (hO : DirectedOK T mode x.toRat) :
    ∃ c, convertR S T x mode = .ok c ∧ c.value.Valid ∧ c.value.sign = x.sign ∧
      Rounds T mode x.toRat x.sign ⟨c.status, c.value⟩ :=
  convertR_eff hS hT hx fx mode (.of hO)

example := C21_convert_finite doubleS_ok halfS_ok (x := ⟨2 ^ 53 - 1, 3, .normal, true⟩) (by decide) rfl .towardPositive (directedOK_of_ieee rfl _ _)

/-- **C21.** Infinities are kept where the target has them; otherwise the result is its NaN, flagged `INEXACT`. -/
theorem C21_convert_infinity (hS : S.OK) (hT : T.OK) {x : IeeeFloat S} (hi : x.isInfinite = true) (mode : Round) :
    ∃ c, convertR S T x mode = .ok c ∧ c.value.Valid ∧ c.value.sign = x.sign ∧
      (T.nonfinite = .ieee754 → c.value.datum = .inf x.sign ∧ c.status = Status.OK) ∧
      (T.nonfinite = .nanOnly → c.value.datum = .nan ∧ c.status = Status.INEXACT) := by
  have cx : x.category = .infinity := by simpa [isInfinite] using hi
  refine ⟨_, convertR_inf hS hT cx mode, ?_⟩
  cases hn : T.nonfinite
  · rw [if_pos rfl]
    have hI : INFINITY T = { sig := 0, exp := T.maxExp + 1, category := .infinity, sign := false } := by unfold INFINITY; rw [hn]
    rw [hI]
    refine ⟨?_, rfl, fun _ => ⟨rfl, rfl⟩, by simp⟩
    show T.nonfinite = .ieee754 ∧ 0 < 2 ^ T.precision
    exact ⟨hn, Nat.two_pow_pos _⟩
  · rw [if_neg (by simp)]
    have hI : INFINITY T = NAN T := by unfold INFINITY; rw [hn]
    rw [hI]
    refine ⟨?_, rfl, by simp, fun _ => ⟨rfl, rfl⟩⟩
    exact (valid_sign x.sign).2 (C40_qnan hT none).1

example := C21_convert_infinity doubleS_ok float8E4M3FNS_ok (x := INFINITY doubleS) rfl .towardPositive

theorem or_mod_pow {a k : ℕ} : (a ||| 2 ^ k) % 2 ^ k = a % 2 ^ k := by
  rw [Nat.or_mod_two_pow, Nat.mod_self, Nat.or_zero]

theorem isX87_iff (h : S.OK) : isX87 S = true ↔ S.explicitIntBit = true := by
  have e : x87S.qnanSignificand = 3 * 2 ^ 62 := by decide +kernel
  unfold isX87
  rw [beq_iff_eq, e]
  cases hn : S.nonfinite with
  | ieee754 =>
    rcases (h.ieee hn).2.2 with ⟨a, b⟩ | ⟨a, -, b⟩
    · rw [a, b]
      simp only [Bool.false_eq_true, iff_false]
      intro hc
      rcases Nat.lt_or_ge (S.precision - 2) 64 with h1 | h1
      · have h2 : 2 ^ (S.precision - 2) ≤ 2 ^ 63 := Nat.pow_le_pow_right (by norm_num) (by omega)
        rcases Nat.lt_or_ge (S.precision - 2) 63 with h3 | h3
        · have h4 : 2 ^ (S.precision - 2) ≤ 2 ^ 62 := Nat.pow_le_pow_right (by norm_num) (by omega)
          omega
        · rw [show S.precision - 2 = 63 by omega] at hc; norm_num at hc
      · have h2 : 2 ^ 64 ≤ 2 ^ (S.precision - 2) := Nat.pow_le_pow_right (by norm_num) h1
        omega
    · rw [a, b]; simp
  | nanOnly =>
    obtain ⟨-, -, a, b⟩ := h.nanOnly hn
    rw [a, b]; simp

theorem payloadMask_iff (h : S.OK) : S.nanPayloadMask ≠ 0 ↔ S.nonfinite = .ieee754 := by
  have s1 := h.p_ge
  cases hn : S.nonfinite with
  | ieee754 =>
    rw [(h.ieee hn).2.1]
    have : 1 < 2 ^ (S.precision - 1) := Nat.one_lt_two_pow (by omega)
    simp only [iff_true]
    omega
  | nanOnly =>
    rw [(h.nanOnly hn).2.1]; simp

theorem quietBit_low (h : S.OK) {a k : ℕ} (hk : k ≤ S.precision - 2) : (a ||| quietBit S) % 2 ^ k = a % 2 ^ k := by
  unfold quietBit
  split_ifs
  · rw [Nat.or_mod_two_pow, Nat.mod_eq_zero_of_dvd (pow_dvd_pow 2 hk), Nat.or_zero]
  · rw [Nat.or_zero]

theorem convertR_nan (hS : S.OK) (hT : T.OK) {x : IeeeFloat S} (hx : x.Valid) (hn : x.isNan = true) (mode : Round) :
    ∃ c, convertR S T x mode = .ok c ∧ c.value.Valid ∧ c.value.isNan = true ∧ c.value.isSignaling = false ∧
      c.value.sign = x.sign ∧ c.status = (if x.isSignaling then Status.INVALID_OP else Status.OK) ∧
      (S.nonfinite = .ieee754 → T.nonfinite = .ieee754 →
        c.value.sig.testBit (T.precision - 2) = true ∧
        c.value.sig % 2 ^ (T.precision - 2) =
          (if T.precision < S.precision then x.sig % 2 ^ (S.precision - 2) / 2 ^ (S.precision - T.precision)
          else x.sig % 2 ^ (S.precision - 2) * 2 ^ (T.precision - S.precision))) ∧
      (c.losesInfo = true ↔ S.nonfinite = .ieee754 ∧
        (T.nonfinite = .nanOnly ∨ (T.precision < S.precision ∧ ¬ 2 ^ (S.precision - T.precision) ∣ x.sig) ∨
          (S.explicitIntBit = true ∧ T.explicitIntBit = false ∧ x.sig &&& S.qnanSignificand ≠ S.qnanSignificand))) := by
  have s1 := hS.p_ge; have s2 := hS.p_le; have s5 := hS.pow_le
  have t1 := hT.p_ge; have t2 := hT.p_le; have t5 := hT.pow_le
  have cx : x.category = .nan := by simpa [isNan] using hn
  obtain ⟨q, q1, q2, q3, q4, q5⟩ := resultFromNan_ok hS hx cx
  have f : q.isFiniteNonZero = false := by simp [isFiniteNonZero, isFinite, isNan, isInfinite, isZero, q3]
  have hq : q.sig < 2 ^ S.precision := sig_lt hS q2
  have hlow : q.sig % 2 ^ (S.precision - T.precision) = x.sig % 2 ^ (S.precision - T.precision) := by
    rw [q5]; exact quietBit_low hS (by omega)
  -- the significand handed to `qnan`
  obtain ⟨sig, loss, c1, c3, c2⟩ : ∃ sig loss, convertSig S q q.sig ((T.precision : ℤ) - S.precision) = .ok (sig, loss) ∧
      (loss ≠ .exactlyZero ↔ S.nanPayloadMask ≠ 0 ∧ T.precision < S.precision ∧ ¬ 2 ^ (S.precision - T.precision) ∣ x.sig) ∧
      (S.nonfinite = .ieee754 → sig % 2 ^ (T.precision - 2) =
          (if T.precision < S.precision then x.sig % 2 ^ (S.precision - 2) / 2 ^ (S.precision - T.precision)
          else x.sig % 2 ^ (S.precision - 2) * 2 ^ (T.precision - S.precision))) := by
    have hmask : S.nonfinite = .ieee754 → S.nanPayloadMask ≠ 0 := by
      intro e
      rw [(hS.ieee e).2.1]
      have : 1 < 2 ^ (S.precision - 1) := Nat.one_lt_two_pow (by omega)
      omega
    have hqm : S.nonfinite = .ieee754 → q.sig % 2 ^ (S.precision - 2) = x.sig % 2 ^ (S.precision - 2) := by
      intro e
      rw [q5, quietBit, if_pos e, or_mod_pow]
    unfold convertSig
    by_cases hd : T.precision < S.precision
    · rw [if_pos hd]
      by_cases hm : S.nanPayloadMask = 0
      · rw [if_neg (by simp [f, hm]), M.ok_bind]
        dsimp only
        rw [if_neg (by omega)]
        exact ⟨_, _, rfl, by simp [hm], fun e => absurd hm (hmask e)⟩
      · rw [if_pos ⟨by omega, Or.inr ⟨q3, hm⟩⟩, shiftRight1_ok (by omega) (by omega) (by omega) (by omega), M.ok_bind, M.ok_bind]
        dsimp only
        rw [if_neg (by omega), show (-((T.precision : ℤ) - S.precision)).toNat = S.precision - T.precision by omega]
        refine ⟨_, _, rfl, ?_, fun e => ?_⟩
        · rw [Ne, lossOf_exactlyZero, hlow, Nat.dvd_iff_mod_eq_zero]
          simp [hm, hd]
        rw [← hqm e, ← Nat.mod_mul_right_div_self, ← pow_add]
        congr 3; omega
    · rw [if_neg hd, if_neg (by omega), M.ok_bind]
      dsimp only
      by_cases h0 : T.precision = S.precision
      · rw [if_neg (by omega)]
        refine ⟨_, _, rfl, by simp [hd], fun e => ?_⟩
        rw [h0, Nat.sub_self, pow_zero, mul_one, hqm e]
      · rw [if_pos ⟨by omega, Or.inr q3⟩, shiftLeft1_ok (by omega) (by omega) (by omega) (by omega), M.ok_bind]
        dsimp only
        refine ⟨_, _, rfl, by simp [hd], fun e => ?_⟩
        rw [show ((T.precision : ℤ) - S.precision).toNat = T.precision - S.precision by omega, ← hqm e,
          Nat.mod_mod_of_dvd _ (pow_dvd_pow 2 (by omega)),
          show 2 ^ (T.precision - 2) = 2 ^ (S.precision - 2) * 2 ^ (T.precision - S.precision) by rw [← pow_add]; congr 1; omega,
          Nat.mul_mod_mul_right]
  obtain ⟨v1, v2, v3, v4, v5⟩ := C40_qnan hT (some sig)
  have e : convertR S T x mode =
      .ok ⟨if x.isSignaling then Status.INVALID_OP else Status.OK, (qnan T (some sig)).withSign x.sign,
        decide (loss ≠ .exactlyZero) || (isX87 S && !isX87 T && ((x.sig &&& S.qnanSignificand) != S.qnanSignificand)) ||
          (S.nanPayloadMask != 0 && T.nanPayloadMask == 0)⟩ := by
    unfold convertR
    rw [if_pos hn, q1, M.ok_bind]
    dsimp only
    rw [asI32_of_lt (by omega), asI32_of_lt (by omega), i32_ok (by omega) (by omega), M.ok_bind, f]
    simp only [Bool.false_eq_true, and_false, if_false]
    rw [M.ok_bind]
    dsimp only
    rw [c1, M.ok_bind]
    dsimp only
    unfold convertFinish isNegative
    simp only [q3, q4, M.ok_bind, reduceCtorEq, or_self, false_and, if_false]
    have hst : (if x.isSignaling = true then Status.INVALID_OP else Status.OK).diff Status.INVALID_OP = Status.OK := by
      split_ifs <;> rfl
    rw [hst, cx]
    simp only [beq_self_eq_true, Bool.and_true, ne_eq, not_true_eq_false, decide_false, Bool.or_false]
  refine ⟨_, e, ?_⟩
  rw [withSign_eq]
  refine ⟨(valid_sign x.sign).2 v1, v2, v3, rfl, rfl, fun a b => ⟨(v5 b).1, ?_⟩, ?_⟩
  · rw [← c2 a]
    exact (v5 b).2
  · have x1 := isX87_iff hS
    have x2 := isX87_iff hT
    have m1 := payloadMask_iff hS
    have m2 := payloadMask_iff hT
    have i1 : S.explicitIntBit = true → S.nonfinite = .ieee754 := by
      intro hi
      cases hn : S.nonfinite with
      | ieee754 => rfl
      | nanOnly => rw [(hS.nanOnly hn).2.2.2] at hi; simp at hi
    have m3 : T.nanPayloadMask = 0 ↔ T.nonfinite = .nanOnly := by
      cases hn : T.nonfinite <;> simp [hn] at m2 ⊢ <;> exact m2
    simp only [Bool.or_eq_true, Bool.and_eq_true, decide_eq_true_eq, bne_iff_ne, beq_iff_eq, Bool.not_eq_true', c3, x1, m1, m3]
    have x2' : isX87 T = false ↔ T.explicitIntBit = false := by
      rw [← Bool.not_eq_true, x2, Bool.not_eq_true]
    rw [x2']
    constructor
    · rintro ((⟨a, b⟩ | ⟨⟨a, b⟩, c⟩) | ⟨a, b⟩)
      · exact ⟨a, Or.inr (Or.inl b)⟩
      · exact ⟨i1 a, Or.inr (Or.inr ⟨a, b, c⟩)⟩
      · exact ⟨a, Or.inl b⟩
    · rintro ⟨a, b | b | ⟨b, c, d⟩⟩
      · exact Or.inr ⟨a, b⟩
      · exact Or.inl (Or.inl ⟨a, b⟩)
      · exact Or.inl (Or.inr ⟨⟨b, c⟩, d⟩)

/-- **C21.** NaNs become quiet NaNs of the same sign, `INVALID_OP` being raised for signaling operands only.  Between the
formats with infinities the payload keeps its leading bits. -/
theorem C21_convert_nan (hS : S.OK) (hT : T.OK) {x : IeeeFloat S} (hx : x.Valid) (hn : x.isNan = true) (mode : Round) :
    ∃ c, convertR S T x mode = .ok c ∧ c.value.Valid ∧ c.value.isNan = true ∧ c.value.isSignaling = false ∧
      c.value.sign = x.sign ∧ c.status = (if x.isSignaling then Status.INVALID_OP else Status.OK) ∧
      (S.nonfinite = .ieee754 → T.nonfinite = .ieee754 →
        c.value.sig.testBit (T.precision - 2) = true ∧
        c.value.sig % 2 ^ (T.precision - 2) =
          (if T.precision < S.precision then x.sig % 2 ^ (S.precision - 2) / 2 ^ (S.precision - T.precision)
          else x.sig % 2 ^ (S.precision - 2) * 2 ^ (T.precision - S.precision))) := by
  obtain ⟨c, c1, c2, c3, c4, c5, c6, c7, -⟩ := convertR_nan hS hT hx hn mode
  exact ⟨c, c1, c2, c3, c4, c5, c6, c7⟩

example := C21_convert_nan halfS_ok doubleS_ok (x := ⟨5, 16, .nan, true⟩) (by decide) rfl .towardPositive

/-! ## C22 -/

theorem grid_largest (h : S.OK) : S.fmt.Grid S.fmt.largest := by
  rw [← toRat_largest h]
  exact grid_toRat h (largest_valid h) rfl

theorem datum_not_nan {x : IeeeFloat S} (hn : x.isNan = false) : x.isFinite = true ∨ x.category = .infinity := by
  rw [isFinite_iff]
  cases c : x.category <;> simp_all [isNan]

/-- **C22.** For an operand that is not NaN, `loses_info` is false exactly when the result denotes the same datum (same
sign, same value or infinity). -/
theorem C22_loses_info (hS : S.OK) (hT : T.OK) {x : IeeeFloat S} (hx : x.Valid) (hn : x.isNan = false) (mode : Round) :
    ∃ c, convertR S T x mode = .ok c ∧ c.value.Valid ∧ (c.losesInfo = false ↔ c.value.datum = x.datum) := by
  obtain ⟨om, hO⟩ := exists_effective T mode x.toRat
  rcases datum_not_nan hn with fx | cx
  · rcases isFinite_iff.1 fx with cx | cx
    · obtain ⟨r, r1, r2⟩ := convertR_normal hS hT hx cx mode hO
      have hsg : r.value.sign = x.sign := by
        obtain ⟨r', e, -, e3, -⟩ := r1; cases e; exact e3
      obtain ⟨r', e1, e2, e3⟩ := Good.rounds r1 (zs := x.sign) ⟨_, (toRat_pos_of_normal hx cx).le, toRat_normal cx⟩ (fun _ => rfl)
      cases e1
      refine ⟨_, r2, e2, ?_⟩
      show decide (r.status.diff Status.INVALID_OP ≠ Status.OK) = false ↔ _
      have hdiff : r.status.diff Status.INVALID_OP = Status.OK ↔ r.status = Status.OK := by
        have hst : r.status.invalidOp = false := by
          obtain ⟨⟨g, -, ⟨-, -, b⟩ | ⟨-, b⟩⟩, -⟩ := e3
          · rw [b]
          · have := congrArg (fun p => p.2.invalidOp) b
            rcases overflowed_cases T.fmt om r.value.sign with e | e <;> rw [e] at this <;> exact this
        generalize r.status = st at hst
        obtain ⟨a, b, c, d, e⟩ := st
        simp only at hst
        subst hst
        cases b <;> cases c <;> cases d <;> cases e <;> decide
      rw [decide_eq_false_iff_not, not_not]
      refine hdiff.trans ?_
      constructor
      · intro hok
        obtain ⟨a, b⟩ := e3.ok hok
        show r.value.datum = _
        rw [datum_finite a, datum_finite fx, b, hsg]
      · intro hd
        obtain ⟨⟨g, g1, ⟨-, g2, g3⟩ | ⟨hlt, g3⟩⟩, -⟩ := e3
        · rw [hd, datum_finite fx] at g2
          injection g2 with _ g2
          subst g2
          rw [g3]; simp [Status.OK]
        · exfalso
          have g4 := g1
          rw [show r.value.datum = x.datum from hd, datum_finite fx] at g3
          rcases overflowed_cases T.fmt om r.value.sign with e | e
          · rw [e] at g3
            cases hh : T.fmt.hasInf <;> simp [hh] at g3
          · rw [e] at g3
            have hv : x.toRat = signed r.value.sign T.fmt.largest := by
              have := congrArg Prod.fst g3
              simp only [Datum.num.injEq] at this
              exact this.2
            have hl := grid_largest hT
            have : IsRounded T.fmt om x.toRat x.toRat := isRounded_self om (by rw [hv]; exact grid_signed.2 hl)
            have e1 := g1.unique this
            rw [e1, hv, abs_signed _ (largest_pos hT).le] at hlt
            exact lt_irrefl _ hlt
    · refine ⟨_, convertR_zero hS hT cx mode, (zero_rounds hT mode x.sign).1, ?_⟩
      simp only [true_iff]
      rw [datum_finite fx, toRat_zero cx]; rfl
  · obtain ⟨c, c1, c2, c3, c4, c5⟩ := C21_convert_infinity hS hT (x := x) (by simp [isInfinite, cx]) mode
    refine ⟨c, c1, c2, ?_⟩
    rw [convertR_inf hS hT cx mode] at c1
    cases hT' : T.nonfinite
    · rw [(c4 hT').1, if_pos hT'] at *
      cases c1
      simp [datum, cx]
    · rw [(c5 hT').1, if_neg (by simp [hT'])] at *
      cases c1
      simp [datum, cx]

example := C22_loses_info singleS_ok halfS_ok (x := ⟨2 ^ 23 + 1, 1, .normal, true⟩) (by decide) rfl .towardZero

/-- A datum the target format has is converted exactly. -/
theorem convert_exact (hS : S.OK) (hT : T.OK) {x : IeeeFloat S} (hx : x.Valid) (hn : x.isNan = false) (mode : Round)
    (h1 : x.isFinite = true → T.fmt.Finite x.toRat) (h2 : x.isInfinite = true → T.nonfinite = .ieee754) :
    ∃ c, convertR S T x mode = .ok c ∧ c.value.Valid ∧ c.value.datum = x.datum ∧ c.status = Status.OK ∧ c.losesInfo = false := by
  have hO : DirectedOK T mode x.toRat := by
    apply directedOK_of_ge hT
    rcases datum_not_nan hn with fx | cx
    · exact (abs_le.1 (h1 fx).2).1
    · have : x.toRat = 0 := by unfold toRat; rw [cx]
      rw [this]; have := largest_pos hT; linarith
  obtain ⟨c, c1, c2, c3⟩ := C22_loses_info hS hT hx hn mode
  refine ⟨c, c1, c2, ?_⟩
  rcases datum_not_nan hn with fx | cx
  · obtain ⟨c', d1, d2, d3, d4⟩ := C21_convert_finite hS hT hx fx mode hO
    rw [c1] at d1
    cases d1
    obtain ⟨e1, e2, e3⟩ := d4.exact (h1 fx).1 (h1 fx).2
    have : c.value.datum = x.datum := by rw [datum_finite e2, datum_finite fx]; exact congrArg₂ _ d3 e3
    exact ⟨this, e1, c3.2 this⟩
  · have hi : x.isInfinite = true := by simp [isInfinite, cx]
    obtain ⟨c', d1, d2, d3, d4, -⟩ := C21_convert_infinity hS hT hi mode
    rw [c1] at d1
    cases d1
    have : c.value.datum = x.datum := by rw [(d4 (h2 hi)).1]; simp [datum, cx]
    exact ⟨this, (d4 (h2 hi)).2, c3.2 this⟩

/-- **C22.** For a NaN, `loses_info` is true exactly when its payload cannot be kept: the target has no payload but the source
does, or the target is narrower and one of the payload bits it has no room for is set, or the operand is one of the NaNs of
the x87 format without its integer and quiet bits set and the target is another format. -/
theorem C22_nan (hS : S.OK) (hT : T.OK) {x : IeeeFloat S} (hx : x.Valid) (hn : x.isNan = true) (mode : Round) :
    ∃ c, convertR S T x mode = .ok c ∧ (c.losesInfo = true ↔ S.nonfinite = .ieee754 ∧
        (T.nonfinite = .nanOnly ∨ (T.precision < S.precision ∧ ¬ 2 ^ (S.precision - T.precision) ∣ x.sig) ∨
          (S.explicitIntBit = true ∧ T.explicitIntBit = false ∧ x.sig &&& S.qnanSignificand ≠ S.qnanSignificand))) := by
  obtain ⟨c, c1, -, -, -, -, -, -, c8⟩ := convertR_nan hS hT hx hn mode
  exact ⟨c, c1, c8⟩

/-- A NaN of Single with a low payload bit loses it in Half. -/
example : ∃ x : IeeeFloat singleS, x.Valid ∧ x.isNan = true ∧
    (∃ c, convertR singleS halfS x .towardZero = .ok c ∧ c.losesInfo = true) :=
  ⟨⟨0x400001, 128, .nan, false⟩, by decide +kernel, rfl, _, rfl, by decide +kernel⟩

/-- **C22.** A conversion that reports no loss is undone by converting back, in any rounding mode. -/
theorem C22_round_trip (hS : S.OK) (hT : T.OK) {x : IeeeFloat S} (hx : x.Valid) (hn : x.isNan = false) {mode mode' : Round}
    {c : ConvOut T} (hc : convertR S T x mode = .ok c) (hl : c.losesInfo = false) :
    ∃ c', convertR T S c.value mode' = .ok c' ∧ c'.value.bitwiseEq x = true ∧ c'.status = Status.OK ∧ c'.losesInfo = false := by
  obtain ⟨c0, c1, c2, c3⟩ := C22_loses_info hS hT hx hn mode
  rw [hc] at c1
  cases c1
  have hd := c3.1 hl
  have hcn : c.value.isNan = false := by
    by_contra hc
    have : c.value.category = .nan := by simpa [isNan] using hc
    rw [show c.value.datum = .nan by unfold datum; rw [this]] at hd
    rcases datum_not_nan hn with fx | cx
    · rw [datum_finite fx] at hd; cases hd
    · simp [datum, cx] at hd
  obtain ⟨c', d1, d2, d3, d4, d5⟩ := convert_exact hT hS c2 hcn mode' (fun f => by
      rw [datum_finite f] at hd
      rcases datum_not_nan hn with fx | cx
      · rw [datum_finite fx] at hd
        injection hd with _ hd
        rw [hd]
        exact finite_toRat hS hx fx
      · simp [datum, cx] at hd) (fun i => by
      have ci : c.value.category = .infinity := by simpa [isInfinite] using i
      rw [show c.value.datum = .inf c.value.sign by unfold datum; rw [ci]] at hd
      rcases datum_not_nan hn with fx | cx
      · rw [datum_finite fx] at hd; cases hd
      · unfold Valid at hx; rw [cx] at hx; exact hx.1)
  refine ⟨c', d1, ?_, d4, d5⟩
  have hcn' : c'.value.isNan = false := by
    by_contra hc
    have : c'.value.category = .nan := by simpa [isNan] using hc
    rw [show c'.value.datum = .nan by unfold datum; rw [this]] at d3
    rcases datum_not_nan hcn with fx | cx
    · rw [datum_finite fx] at d3; cases d3
    · simp [datum, cx] at d3
  rw [C03_bitwise_eq_iff_datum hS d2 hx hcn', d3, hd]

example := C22_round_trip halfS_ok singleS_ok (x := ⟨2 ^ 10 + 1, 3, .normal, true⟩) (by decide) rfl (mode := .towardZero) (mode' := .towardPositive)
  (c := ⟨Status.OK, ⟨2 ^ 23 + 2 ^ 13, 3, .normal, true⟩, false⟩) (by decide +kernel) rfl

theorem largest_lt_pow (h : S.OK) : S.fmt.largest ≤ 2 ^ (S.maxExp + 1) - 2 ^ (S.maxExp - S.precision + 1) := by
  rw [← pow_full h S.maxExp]
  unfold Fmt.largest
  rw [fmt_p, fmt_emax]
  have := two_zpow_pos (S.maxExp - S.precision + 1)
  push_cast
  split_ifs <;> linarith

/-- The values of a format are values of every format with at least its precision and exponent range. -/
theorem finite_widen (hS : S.OK) (hT : T.OK) (hp : S.precision ≤ T.precision) (h1 : T.minExp ≤ S.minExp) (h2 : S.maxExp ≤ T.maxExp)
    (h3 : T.nonfinite = .nanOnly → S.nonfinite = .nanOnly) {v : ℚ} (hv : S.fmt.Finite v) : T.fmt.Finite v := by
  have t1 := hT.p_ge
  refine ⟨?_, hv.2.trans ?_⟩
  · obtain ⟨m, k, a, b, c⟩ := hv.1
    rw [fmt_p] at a
    rw [fmt_p, fmt_emin] at b
    exact ⟨m, k, by rw [fmt_p]; exact a.trans_le (pow_le_pow_right₀ (by norm_num) hp), by rw [fmt_p, fmt_emin]; omega, c⟩
  · have e : ∀ F : Fmt, F.largest = (2 : ℚ) ^ (F.emax + 1) - (if F.hasInf then 1 else 2) * 2 ^ (F.emax - F.p + 1) := by
      intro F
      unfold Fmt.largest
      rw [sub_mul, ← zpow_natCast, ← two_zpow_add]; congr 2; ring
    rw [e S.fmt, e T.fmt, fmt_emax, fmt_emax, fmt_p, fmt_p]
    rcases lt_or_eq_of_le h2 with lt | eq
    · have a1 : (2 : ℚ) ^ (T.maxExp + 1) = 2 * 2 ^ T.maxExp := by rw [two_zpow_add T.maxExp 1, zpow_one]; ring
      have a2 : (2 : ℚ) ^ (S.maxExp + 1) ≤ 2 ^ T.maxExp := two_zpow_le (by omega)
      have a3 : (2 : ℚ) * 2 ^ (T.maxExp - T.precision + 1) ≤ 2 ^ T.maxExp := by
        calc (2 : ℚ) * 2 ^ (T.maxExp - T.precision + 1) = 2 ^ (T.maxExp - T.precision + 2) := by
              rw [show T.maxExp - (T.precision : ℤ) + 2 = (T.maxExp - T.precision + 1) + 1 by ring,
                two_zpow_add (T.maxExp - (T.precision : ℤ) + 1) 1, zpow_one]; ring
          _ ≤ _ := two_zpow_le (by omega)
      have a4 := two_zpow_pos (S.maxExp - S.precision + 1)
      have a5 := two_zpow_pos (T.maxExp - T.precision + 1)
      split_ifs <;> linarith
    · rw [eq]
      have a1 : (2 : ℚ) ^ (T.maxExp - T.precision + 1) ≤ 2 ^ (T.maxExp - S.precision + 1) := two_zpow_le (by omega)
      have a5 := two_zpow_pos (T.maxExp - S.precision + 1)
      split_ifs with c1 c2 c2
      · linarith
      · exfalso
        have hs := fmt_hasInf_iff.1 c1
        cases ht : T.nonfinite
        · exact c2 (fmt_hasInf_iff.2 ht)
        · rw [h3 ht] at hs; cases hs
      · linarith
      · linarith

/-- **C22.** Conversion to a format with at least the precision and exponent range (and infinities, if the source has
them) loses nothing and raises no flag. -/
theorem C22_widening (hS : S.OK) (hT : T.OK) (hp : S.precision ≤ T.precision) (h1 : T.minExp ≤ S.minExp) (h2 : S.maxExp ≤ T.maxExp)
    (h3 : T.nonfinite = .nanOnly → S.nonfinite = .nanOnly) {x : IeeeFloat S} (hx : x.Valid) (hn : x.isNan = false) (mode : Round) :
    ∃ c, convertR S T x mode = .ok c ∧ c.value.Valid ∧ c.value.datum = x.datum ∧ c.status = Status.OK ∧ c.losesInfo = false := by
  refine convert_exact hS hT hx hn mode (fun f => finite_widen hS hT hp h1 h2 h3 (finite_toRat hS hx f)) (fun i => ?_)
  have ci : x.category = .infinity := by simpa [isInfinite] using i
  unfold Valid at hx
  rw [ci] at hx
  cases e : T.nonfinite
  · rfl
  · rw [h3 e] at hx; exact absurd hx.1 (by simp)

/-- Half to Single, Single to Double, Double to Quad, Float8E4M3FN to Half are widenings ... -/
example : (∃ c, convertR halfS singleS (⟨1, -14, .normal, true⟩ : IeeeFloat halfS) .towardZero = .ok c ∧ c.value.Valid ∧
    c.value.datum = (⟨1, -14, .normal, true⟩ : IeeeFloat halfS).datum ∧ c.status = Status.OK ∧ c.losesInfo = false) :=
  C22_widening halfS_ok singleS_ok (by decide) (by decide) (by decide) (by decide) (by decide +kernel) rfl _

/-- ... and `2^-149` does not survive the conversion to Half, which is reported. -/
example : ∃ c, convertR singleS halfS (SMALLEST singleS) .towardPositive = .ok c ∧ c.losesInfo = true ∧
    c.status = (Status.UNDERFLOW ||| Status.INEXACT) ∧ c.value.sig = 1 := ⟨_, rfl, by decide +kernel⟩

end Apf
