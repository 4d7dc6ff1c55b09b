import Verif.Props.Bits
/-! # C38 and C40: extremal constants and NaN constructors -/

namespace Apf
open Spec IeeeFloat

variable {S : Sem}

/-! ### Extremal constants -/

theorem smallest_valid (h : S.OK) : (SMALLEST S).Valid := by
  have h2 := h.two_pow
  have h3 := h.half_ge
  have := h.min_lt
  have := h.p_max
  simp only [Valid, SMALLEST]
  exact ⟨le_refl _, by omega, by omega, by omega, Or.inr trivial, fun _ e => by omega⟩

theorem smallestNormalized_valid (h : S.OK) : (smallestNormalized S).Valid := by
  have h2 := h.two_pow
  have h3 := h.half_ge
  have := h.min_lt
  have := h.p_max
  simp only [Valid, smallestNormalized]
  exact ⟨le_refl _, by omega, by omega, by omega, Or.inr trivial, fun _ e => by omega⟩

theorem zero_valid : (ZERO S).Valid := rfl

theorem toRat_largest (h : S.OK) : (largest S).toRat = S.fmt.largest := by
  rw [← largest_toRat h, toRat_normal rfl]; rfl

theorem toRat_smallest : (SMALLEST S).toRat = 2 ^ (S.minExp - S.precision + 1) := by
  rw [toRat_normal rfl]; simp [SMALLEST, signed]

theorem toRat_smallestNormalized (h : S.OK) : (smallestNormalized S).toRat = 2 ^ S.minExp := by
  have := h.p_ge
  rw [toRat_normal rfl]
  simp only [smallestNormalized, signed, Bool.false_eq_true, if_false]
  push_cast
  rw [← zpow_natCast, ← two_zpow_add]
  congr 1; omega

/-- **C38.** `largest()` is the greatest finite value. -/
theorem C38_largest (h : S.OK) :
    (largest S).Valid ∧ (largest S).isFinite = true ∧
    ∀ x : IeeeFloat S, x.Valid → x.isFinite = true → x.toRat ≤ (largest S).toRat ∧ -(largest S).toRat ≤ x.toRat := by
  refine ⟨largest_valid h, rfl, fun x hx hf => ?_⟩
  have := abs_le.1 (abs_toRat_le h hx hf)
  rw [toRat_largest h]
  exact ⟨this.2, this.1⟩

example := C38_largest float8E4M3FNS_ok

theorem smallest_le {x : IeeeFloat S} (hx : x.Valid) (h0 : x.toRat ≠ 0) :
    2 ^ (S.minExp - S.precision + 1) ≤ |x.toRat| := by
  have hc : x.category = .normal := by
    by_contra hc
    apply h0
    unfold toRat
    cases hc' : x.category <;> simp_all
  obtain ⟨v1, v2, v3, v4, v5, v6⟩ := Valid.normal hx hc
  rw [toRat_normal hc, abs_signed _ (by positivity)]
  calc (2 : ℚ) ^ (S.minExp - S.precision + 1) ≤ 2 ^ (x.exp - S.precision + 1) := zpow_le_zpow_right₀ (by norm_num) (by omega)
    _ = 1 * 2 ^ (x.exp - S.precision + 1) := by ring
    _ ≤ x.sig * 2 ^ (x.exp - S.precision + 1) := by
      apply mul_le_mul_of_nonneg_right _ (two_zpow_pos _).le
      exact_mod_cast v3

/-- **C38.** `SMALLEST` is the least positive value. -/
theorem C38_smallest (h : S.OK) :
    (SMALLEST S).Valid ∧ 0 < (SMALLEST S).toRat ∧
    ∀ x : IeeeFloat S, x.Valid → 0 < x.toRat → (SMALLEST S).toRat ≤ x.toRat := by
  refine ⟨smallest_valid h, by rw [toRat_smallest]; exact two_zpow_pos _, fun x hx h0 => ?_⟩
  have := smallest_le hx h0.ne'
  rw [toRat_smallest]
  rwa [abs_of_pos h0] at this

example := C38_smallest float8E4M3FNS_ok

/-- **C38.** `smallest_normalized()` is the least positive normal value. -/
theorem C38_smallest_normalized (h : S.OK) :
    (smallestNormalized S).Valid ∧ (smallestNormalized S).isNormal = true ∧ 0 < (smallestNormalized S).toRat ∧
    ∀ x : IeeeFloat S, x.Valid → x.isNormal = true → 0 < x.toRat → (smallestNormalized S).toRat ≤ x.toRat := by
  have hp := two_zpow_pos S.minExp
  have hr := toRat_smallestNormalized h
  refine ⟨smallestNormalized_valid h, ?_, by rw [hr]; exact hp, fun x hx hn h0 => ?_⟩
  · rw [(C39_denormal h (smallestNormalized_valid h)).2]
    exact ⟨false, _, rfl, by rw [hr, abs_of_pos hp]⟩
  · obtain ⟨s, v, hd, hv⟩ := (C39_denormal h hx).2.1 hn
    have hf : x.isFinite = true := ((C39_categories hx).2.2.2.1).2 ⟨s, v, hd⟩
    rw [datum_finite hf] at hd
    cases hd
    rw [hr]
    rwa [abs_of_pos h0] at hv

example := C38_smallest_normalized float8E4M3FNS_ok

/-- The pattern common to `is_smallest`, `is_smallest_normalized` and `is_largest`. -/
theorem is_const_iff (h : S.OK) {c x : IeeeFloat S} (hc : c.Valid) (hn : c.category = .normal) (hx : x.Valid) :
    (c.copySign x).bitwiseEq x = true ↔ x.isFinite = true ∧ |x.toRat| = |c.toRat| := by
  have hcv : (c.copySign x).Valid := by rw [copySign_eq]; exact hc
  rw [C03_bitwise_eq_iff_datum h hcv hx (by rw [copySign_eq]; simp [isNan, hn])]
  have hd : (c.copySign x).datum = .num x.sign (signed x.sign ((c.sig : ℚ) * 2 ^ (c.exp - S.precision + 1))) := by
    rw [copySign_eq, datum_normal (by exact hn)]
  have hcr : |c.toRat| = (c.sig : ℚ) * 2 ^ (c.exp - S.precision + 1) := by
    rw [toRat_normal hn, abs_signed _ (by positivity)]
  rw [hd, hcr]
  constructor
  · intro e
    have hf : x.isFinite = true := ((C39_categories hx).2.2.2.1).2 ⟨_, _, e.symm⟩
    refine ⟨hf, ?_⟩
    rw [datum_finite hf] at e
    rw [← (Datum.num.inj e).2, abs_signed _ (by positivity)]
  · rintro ⟨hf, e⟩
    rw [datum_finite hf]
    congr 1
    rw [← e]
    have hnn : x.category = .normal := by
      by_contra hcn
      have h0 : x.toRat = 0 := by
        unfold toRat
        cases hc' : x.category <;> simp_all
      rw [h0, abs_zero, ← hcr] at e
      exact absurd (abs_eq_zero.1 e.symm) (toRat_ne_zero hc hn)
    rw [toRat_normal hnn, abs_signed _ (by positivity)]

/-- **C38.** The tests recognise exactly these values, up to sign. -/
theorem C38_tests (h : S.OK) {x : IeeeFloat S} (hx : x.Valid) :
    (x.isLargest = true ↔ x.isFinite = true ∧ |x.toRat| = (largest S).toRat) ∧
    (x.isSmallest = true ↔ x.isFinite = true ∧ |x.toRat| = (SMALLEST S).toRat) ∧
    (x.isSmallestNormalized = true ↔ x.isFinite = true ∧ |x.toRat| = (smallestNormalized S).toRat) := by
  refine ⟨?_, ?_, ?_⟩
  · have : 0 < (largest S).toRat := by rw [toRat_largest h]; exact largest_pos h
    rw [← abs_of_pos this]
    exact is_const_iff h (largest_valid h) rfl hx
  · have : 0 < (SMALLEST S).toRat := by rw [toRat_smallest]; exact two_zpow_pos _
    rw [← abs_of_pos this]
    exact is_const_iff h (smallest_valid h) rfl hx
  · have : 0 < (smallestNormalized S).toRat := by rw [toRat_smallestNormalized h]; exact two_zpow_pos _
    rw [← abs_of_pos this]
    exact is_const_iff h (smallestNormalized_valid h) rfl hx

example := C38_tests singleS_ok (x := ⟨1, -126, .normal, true⟩) (by decide)

/-- The closed forms of the three constants. -/
theorem C38_values (h : S.OK) :
    (largest S).toRat = S.fmt.largest ∧ (SMALLEST S).toRat = 2 ^ (S.minExp - S.precision + 1) ∧
    (smallestNormalized S).toRat = 2 ^ S.minExp :=
  ⟨toRat_largest h, toRat_smallest, toRat_smallestNormalized h⟩

example : (largest float8E4M3FNS).neg.isLargest = true ∧ (SMALLEST halfS).neg.isSmallest = true ∧
    (smallestNormalized doubleS).isSmallestNormalized = true ∧ (SMALLEST halfS).isSmallestNormalized = false := by
  decide +kernel

/-! ### NaN constructors -/

theorem quiet_parts (h : S.OK) (hn : S.nonfinite = .ieee754) :
    S.nanSignificandBase = 0 ∧ S.qnanSignificand &&& S.nanPayloadMask = 2 ^ (S.precision - 2) ∧
    S.qnanSignificand.testBit (S.precision - 2) = true ∧
    (∀ i, i < S.precision - 2 → S.qnanSignificand.testBit i = false) ∧ S.qnanSignificand < 2 ^ S.sigBits := by
  obtain ⟨h1, h2, h3⟩ := h.ieee hn
  have hp := h.p_ge
  rcases h3 with ⟨hx, hq⟩ | ⟨hx, hP, hq⟩
  · refine ⟨h1, ?_, ?_, ?_, ?_⟩
    · rw [h2, hq, and_mask, Nat.mod_eq_of_lt (Nat.pow_lt_pow_right (by norm_num) (by omega))]
    · rw [hq, Nat.testBit_two_pow_self]
    · intro i hi; rw [hq, Nat.testBit_two_pow]; simp; omega
    · rw [hq, Sem.sigBits, hx]; exact Nat.pow_lt_pow_right (by norm_num) (by simp; omega)
  · refine ⟨h1, ?_, ?_, ?_, ?_⟩
    · rw [h2, hq, hP]; decide
    · rw [hq, hP]; decide
    · rw [hq, hP]
      intro i hi
      rw [show 3 * 2 ^ 62 = 2 ^ 62 * 3 by norm_num, Nat.testBit_two_pow_mul]
      simp; omega
    · rw [hq, Sem.sigBits, hx, hP]; decide

/-- The significand of `qnan`. -/
theorem qnan_sig (S : Sem) (p : ℕ) : (qnan S (some p)).sig = S.nanSignificandBase ||| S.qnanSignificand ||| (p &&& S.nanPayloadMask) := rfl

theorem nan_valid_of (hn : S.nonfinite = .ieee754) {x : IeeeFloat S} (hc : x.category = .nan)
    (h1 : x.sig < 2 ^ S.sigBits) {i : ℕ} (hi : i < S.precision - 1) (h2 : x.sig.testBit i = true) : x.Valid := by
  have h0 : x.sig ≠ 0 := by intro e; rw [e] at h2; simp at h2
  unfold Valid
  simp only [hc, hn]
  unfold Sem.sigBits at h1
  split_ifs at h1 ⊢
  · refine ⟨h1, fun e => ?_⟩
    rw [e, Nat.testBit_two_pow] at h2
    simp at h2
    omega
  · exact ⟨by omega, h1⟩

theorem mask_lt (h : S.OK) (hn : S.nonfinite = .ieee754) (p : ℕ) : p &&& S.nanPayloadMask < 2 ^ S.sigBits := by
  obtain ⟨-, h2, -⟩ := h.ieee hn
  rw [h2, and_mask]
  calc p % 2 ^ (S.precision - 1) < 2 ^ (S.precision - 1) := Nat.mod_lt _ (by positivity)
    _ ≤ 2 ^ S.sigBits := Nat.pow_le_pow_right (by norm_num) (by unfold Sem.sigBits; split_ifs <;> omega)

theorem low_eq {a b k : ℕ} (h : ∀ i, i < k → a.testBit i = b.testBit i) : a % 2 ^ k = b % 2 ^ k := by
  apply Nat.eq_of_testBit_eq
  intro i
  rw [Nat.testBit_mod_two_pow, Nat.testBit_mod_two_pow]
  by_cases c : i < k
  · rw [h i c]
  · simp [c]

theorem mask_testBit (h : S.OK) (hn : S.nonfinite = .ieee754) (p i : ℕ) :
    (p &&& S.nanPayloadMask).testBit i = (decide (i < S.precision - 1) && p.testBit i) := by
  obtain ⟨-, h2, -⟩ := h.ieee hn
  rw [h2, and_mask, Nat.testBit_mod_two_pow]

/-- **C40.** `qnan(p)` is a well-formed, positive, quiet NaN.  In the formats with infinities its quiet bit is set and
the bits below it are those of `p` (0 without payload). -/
theorem C40_qnan (h : S.OK) (p : Option ℕ) :
    (qnan S p).Valid ∧ (qnan S p).isNan = true ∧ (qnan S p).isSignaling = false ∧ (qnan S p).isNegative = false ∧
    (S.nonfinite = .ieee754 → (qnan S p).sig.testBit (S.precision - 2) = true ∧
      (qnan S p).sig % 2 ^ (S.precision - 2) = p.getD 0 % 2 ^ (S.precision - 2)) := by
  have hq : qnan S p = { qnan S (some (p.getD 0)) with sig := (qnan S (some (p.getD 0))).sig } := by
    cases p with
    | none => simp [qnan]
    | some p => rfl
  rw [hq]
  generalize p.getD 0 = p
  refine ⟨?_, rfl, ?_, rfl, ?_⟩
  · cases hn : S.nonfinite with
    | ieee754 =>
      obtain ⟨q1, q2, q3, q4, q5⟩ := quiet_parts h hn
      have hp := h.p_ge
      apply nan_valid_of hn rfl (i := S.precision - 2)
      · show (qnan S (some p)).sig < _
        rw [qnan_sig, q1, Nat.zero_or]
        exact Nat.or_lt_two_pow q5 (mask_lt h hn p)
      · omega
      · show (qnan S (some p)).sig.testBit _ = _
        rw [qnan_sig, q1, Nat.zero_or, Nat.testBit_or, q3, Bool.true_or]
    | nanOnly =>
      obtain ⟨a, b, c, d⟩ := h.nanOnly hn
      simp [Valid, qnan, hn, b, c]
  · unfold isSignaling
    rw [show ({ qnan S (some p) with sig := (qnan S (some p)).sig } : IeeeFloat S).sig &&& S.qnanSignificand = S.qnanSignificand by
      show (qnan S (some p)).sig &&& _ = _
      rw [qnan_sig]
      apply Nat.eq_of_testBit_eq
      intro i
      simp only [Nat.testBit_and, Nat.testBit_or]
      cases S.qnanSignificand.testBit i <;> simp]
    simp
  · intro hn
    obtain ⟨q1, q2, q3, q4, q5⟩ := quiet_parts h hn
    show (qnan S (some p)).sig.testBit _ = _ ∧ (qnan S (some p)).sig % _ = _
    rw [qnan_sig, q1, Nat.zero_or]
    refine ⟨by rw [Nat.testBit_or, q3, Bool.true_or], low_eq fun i hi => ?_⟩
    rw [Nat.testBit_or, q4 i hi, mask_testBit h hn]
    simp; omega

example := C40_qnan halfS_ok (some 0xabcdef)

/-- **C40.** `snan(p)` is a well-formed, positive NaN, signaling in the formats that have signaling NaNs.  Its quiet bit
is clear and the bits below it are those of `p`, or only the highest of them if those are all zero. -/
theorem C40_snan (h : S.OK) (p : Option ℕ) :
    (snan S p).Valid ∧ (snan S p).isNan = true ∧ (snan S p).isSignaling = decide (S.nonfinite = .ieee754) ∧
    (snan S p).isNegative = false ∧
    (S.nonfinite = .ieee754 → (snan S p).sig.testBit (S.precision - 2) = false ∧
      (snan S p).sig % 2 ^ (S.precision - 2) =
        (if p.getD 0 % 2 ^ (S.precision - 2) = 0 then 2 ^ (S.precision - 3) else p.getD 0 % 2 ^ (S.precision - 2))) := by
  obtain ⟨v, v2, v3, v4, v5⟩ := C40_qnan h p
  have hP := h.p_ge
  have hP' := h.p_le
  cases hn : S.nonfinite with
  | nanOnly =>
    obtain ⟨a, b, c, d⟩ := h.nanOnly hn
    have hs : snan S p = qnan S p := by
      have hsig : (qnan S p).sig < 2 ^ 128 := lt_trans (sig_lt h v) (Nat.pow_lt_pow_right (by norm_num) (by omega))
      unfold snan
      simp only [b, c, Nat.and_zero, Nat.zero_shiftRight, Nat.or_zero, if_true, and_lnot_zero hsig]
    rw [hs]
    exact ⟨v, v2, by rw [v3]; rfl, v4, fun e => by cases e⟩
  | ieee754 =>
    obtain ⟨q1, q2, q3, q4, q5⟩ := quiet_parts h hn
    obtain ⟨m1, m2, -⟩ := h.ieee hn
    obtain ⟨w1, w2⟩ := v5 hn
    have hsig : (qnan S p).sig < 2 ^ S.sigBits := by
      have := v
      unfold Valid at this
      rw [show (qnan S p).category = .nan from rfl] at this
      simp only [hn] at this
      unfold Sem.sigBits
      split_ifs at this ⊢ <;> omega
    generalize hs : (qnan S p).sig &&& lnot (2 ^ (S.precision - 2)) = s
    have hpow : 2 ^ (S.precision - 2) < 2 ^ 128 := Nat.pow_lt_pow_right (by norm_num) (by omega)
    have sbit : ∀ i, i < 128 → s.testBit i = ((qnan S p).sig.testBit i && decide (i ≠ S.precision - 2)) := by
      intro i hi
      rw [← hs, lnot_eq hpow, Nat.testBit_and, show 2 ^ 128 - 1 - 2 ^ (S.precision - 2) = 2 ^ 128 - (2 ^ (S.precision - 2) + 1) by omega,
        Nat.testBit_two_pow_sub_succ hpow, Nat.testBit_two_pow]
      simp [hi, eq_comm]
    have slow : s % 2 ^ (S.precision - 2) = p.getD 0 % 2 ^ (S.precision - 2) := by
      rw [← w2]
      apply low_eq
      intro i hi
      rw [sbit i (by omega)]
      simp; omega
    have stop : s.testBit (S.precision - 2) = false := by rw [sbit _ (by omega)]; simp
    have sand : s &&& S.nanPayloadMask = s % 2 ^ (S.precision - 2) := by
      rw [m2, and_mask, show S.precision - 1 = S.precision - 2 + 1 by omega, mod_two_pow_succ, stop]
      simp
    have slt : s < 2 ^ S.sigBits := by rw [← hs]; exact lt_of_le_of_lt Nat.and_le_left hsig
    have hsn : (snan S p).sig = if p.getD 0 % 2 ^ (S.precision - 2) = 0 then s ||| 2 ^ (S.precision - 3) else s := by
      unfold snan
      simp only [q2, hs, sand, slow, Nat.shiftRight_eq_div_pow, pow_one]
      rw [show S.precision - 2 = S.precision - 3 + 1 by omega, pow_succ, Nat.mul_div_cancel _ (by norm_num)]
    have ntop : (snan S p).sig.testBit (S.precision - 2) = false := by
      rw [hsn]
      split_ifs
      · rw [Nat.testBit_or, stop, Nat.testBit_two_pow]; simp; omega
      · exact stop
    have nlow : (snan S p).sig % 2 ^ (S.precision - 2) =
        (if p.getD 0 % 2 ^ (S.precision - 2) = 0 then 2 ^ (S.precision - 3) else p.getD 0 % 2 ^ (S.precision - 2)) := by
      rw [hsn]
      split_ifs with c
      · rw [show 2 ^ (S.precision - 3) = 2 ^ (S.precision - 3) % 2 ^ (S.precision - 2) from
          (Nat.mod_eq_of_lt (Nat.pow_lt_pow_right (by norm_num) (by omega))).symm, Nat.mod_eq_of_lt
            (a := 2 ^ (S.precision - 3)) (b := 2 ^ (S.precision - 2)) (Nat.pow_lt_pow_right (by norm_num) (by omega)),
          Nat.or_mod_two_pow, slow, c, Nat.zero_or, Nat.mod_eq_of_lt (Nat.pow_lt_pow_right (by norm_num) (by omega))]
      · exact slow
    have nz : (snan S p).sig % 2 ^ (S.precision - 2) ≠ 0 := by
      rw [nlow]
      split_ifs with c
      · positivity
      · exact c
    refine ⟨?_, rfl, ?_, rfl, fun _ => ⟨ntop, nlow⟩⟩
    · obtain ⟨i, hi⟩ := Nat.exists_testBit_of_ne_zero nz
      rw [Nat.testBit_mod_two_pow] at hi
      simp only [Bool.and_eq_true, decide_eq_true_eq] at hi
      apply nan_valid_of hn rfl (i := i) _ (by omega) hi.2
      rw [hsn]
      split_ifs
      · apply Nat.or_lt_two_pow slt
        apply Nat.pow_lt_pow_right (by norm_num)
        unfold Sem.sigBits; split_ifs <;> omega
      · exact slt
    · unfold isSignaling
      rw [show (snan S p).isNan = true from rfl]
      simp only [Bool.true_and, decide_true, bne_iff_ne, ne_eq]
      intro e
      have := congrArg (fun n => n.testBit (S.precision - 2)) e
      simp [ntop, q3] at this

example := C40_snan halfS_ok (some 0x400)

/-- **C40.** Both survive `to_bits` and `from_bits`. -/
theorem C40_round_trip (h : S.Enc) (p : Option ℕ) (x : IeeeFloat S) (hx : x = qnan S p ∨ x = snan S p) :
    ∃ b y, x.toBits = .ok b ∧ sigField S.sigBits b = x.sig ∧ fromBits S b = .ok y ∧ y.bitwiseEq x = true ∧
      y.isSignaling = x.isSignaling := by
  have hv : x.Valid := by
    rcases hx with rfl | rfl
    · exact (C40_qnan h.ok p).1
    · exact (C40_snan h.ok p).1
  have hc : x.category = .nan := by rcases hx with rfl | rfl <;> rfl
  obtain ⟨b, y, h1, h2, h3, h4⟩ := C03_value_round_trip h hv
  have h5 := (bitwiseEq_iff _ _).1 h4
  refine ⟨b, y, h1, ?_, h3, h4, ?_⟩
  · rw [toBits_eq h hv] at h1
    cases h1
    rw [sigField_encode _ (fieldT_lt h hv)]
    simp [fieldT, hc]
  · unfold isSignaling isNan
    rw [h5.1, h5.2.2.2 (h5.1.trans hc)]

example : (qnan singleS (some 0x123)).toBits = .ok 0x7FC00123 ∧ (snan singleS (some 0x123)).toBits = .ok 0x7F800123 ∧
    (snan singleS none).toBits = .ok 0x7FA00000 := by decide +kernel

end Apf
