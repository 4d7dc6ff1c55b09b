import Verif.Props.Next

/-! **C70**: bit patterns are ordered like the values they encode, and `next_up`/`next_down` step through them. -/

namespace Apf
open Spec IeeeFloat

/-- An `n`-bit word read as a sign bit followed by a magnitude. -/
def Spec.signMag (n b : ℕ) : ℤ := if 2 ^ (n - 1) ≤ b then -((b : ℤ) - 2 ^ (n - 1)) else b

namespace IeeeFloat
variable {S : Sem}

/-- The bits below the sign. -/
def low (x : IeeeFloat S) : ℕ := x.fieldE * 2 ^ S.sigBits + x.fieldT

theorem low_lt_of_field (h : S.Enc) {x y : IeeeFloat S} (hx : x.Valid) (he : x.fieldE < y.fieldE) : x.low < y.low := by
  have h1 := fieldT_lt h hx
  unfold low
  have h2 : (x.fieldE + 1) * 2 ^ S.sigBits ≤ y.fieldE * 2 ^ S.sigBits := Nat.mul_le_mul_right _ he
  rw [Nat.add_mul] at h2
  omega

theorem low_zero {x : IeeeFloat S} (c : x.category = .zero) : x.low = 0 := by
  simp [low, fieldE, fieldT, c]

theorem low_pos {x : IeeeFloat S} (hx : x.Valid) (c : x.category = .normal) : 0 < x.low := by
  obtain ⟨v1, v2, v3, v4, v5, v6⟩ := Valid.normal hx c
  unfold low fieldE fieldT
  simp only [c]
  by_cases k : x.sig < 2 ^ (S.precision - 1)
  · rw [if_pos k, Nat.mod_eq_of_lt k]; simp; exact v3
  · rw [if_neg k]
    have : 0 < (x.exp - S.minExp + 1).toNat := by omega
    have := Nat.mul_pos this (Nat.two_pow_pos S.sigBits)
    omega

theorem low_lt_normal (h : S.Enc) {x y : IeeeFloat S} (hx : x.Valid) (hy : y.Valid) (cx : x.category = .normal)
    (cy : y.category = .normal) (hl : x.exp < y.exp ∨ x.exp = y.exp ∧ x.sig < y.sig) : x.low < y.low := by
  obtain ⟨v1, v2, v3, v4, v5, v6⟩ := Valid.normal hx cx
  obtain ⟨w1, w2, w3, w4, w5, w6⟩ := Valid.normal hy cy
  have h2 := h.ok.two_pow
  by_cases he : x.fieldE < y.fieldE
  · exact low_lt_of_field h hx he
  have hE : x.fieldE = y.fieldE ∧ x.exp = y.exp ∧ x.sig < y.sig ∧
      (x.sig < 2 ^ (S.precision - 1) ↔ y.sig < 2 ^ (S.precision - 1)) := by
    unfold fieldE at he ⊢
    simp only [cx, cy] at he ⊢
    generalize 2 ^ (S.precision - 1) = P at *
    split_ifs at he ⊢ with a b b <;> omega
  obtain ⟨e1, e2, e3, e4⟩ := hE
  unfold low
  rw [e1]
  have : x.fieldT < y.fieldT := by
    unfold fieldT
    simp only [cx, cy]
    split_ifs
    · exact e3
    · by_cases k : x.sig < 2 ^ (S.precision - 1)
      · rw [Nat.mod_eq_of_lt k, Nat.mod_eq_of_lt (e4.1 k)]; exact e3
      · have k' : ¬ y.sig < 2 ^ (S.precision - 1) := fun q => k (e4.2 q)
        rw [Nat.mod_eq_sub_mod (by omega), Nat.mod_eq_sub_mod (a := y.sig) (by omega), Nat.mod_eq_of_lt (by omega),
          Nat.mod_eq_of_lt (by omega)]
        omega
  omega

theorem low_lt_inf (h : S.Enc) {x y : IeeeFloat S} (hx : x.Valid) (hy : y.Valid) (fx : x.isFinite = true)
    (cy : y.category = .infinity) : x.low < y.low := by
  have hn : S.nonfinite = .ieee754 := by
    cases hn : S.nonfinite
    · rfl
    · unfold Valid at hy; simp [cy, hn] at hy
  apply low_lt_of_field h hx
  have h1 := h.w_pow
  have h2 := h.min_eq
  have h3 := h.max_eq
  have h5 : ((2 ^ S.expBits : ℕ) : ℤ) = 2 ^ S.expBits := by push_cast; rfl
  have h6 : 2 ^ 2 ≤ 2 ^ S.expBits := Nat.pow_le_pow_right (by norm_num) h.w_ge
  rw [if_pos hn] at h3
  unfold fieldE
  simp only [cy]
  rcases isFinite_iff.1 fx with c | c
  · obtain ⟨v1, v2, -⟩ := Valid.normal hx c
    simp only [c]
    split_ifs <;> omega
  · simp only [c]; omega

theorem low_le_iff (h : S.Enc) {x y : IeeeFloat S} (hx : x.Valid) (hy : y.Valid) (fx : x.isFinite = true)
    (fy : y.isFinite = true) : |x.toRat| ≤ |y.toRat| ↔ x.low ≤ y.low := by
  rcases isFinite_iff.1 fx with cx | cx
  · rcases isFinite_iff.1 fy with cy | cy
    · have key : ∀ {x y : IeeeFloat S}, x.Valid → y.Valid → x.category = .normal → y.category = .normal →
          (x.exp < y.exp ∨ x.exp = y.exp ∧ x.sig < y.sig) → |x.toRat| < |y.toRat| := by
        intro x y hx hy cx cy k
        rw [toRat_normal cx, toRat_normal cy, abs_signed _ (by positivity), abs_signed _ (by positivity)]
        rcases k with k | ⟨k, k'⟩
        · exact mag_lt_of_exp h.ok hx hy cx cy k
        · rw [k]; exact mul_lt_mul_of_pos_right (by exact_mod_cast k') (two_zpow_pos _)
      rcases lt_trichotomy x.exp y.exp with e | e | e
      · have a := key hx hy cx cy (Or.inl e)
        have b := low_lt_normal h hx hy cx cy (Or.inl e)
        constructor <;> intro <;> [omega; linarith]
      · rcases lt_trichotomy x.sig y.sig with f | f | f
        · have a := key hx hy cx cy (Or.inr ⟨e, f⟩)
          have b := low_lt_normal h hx hy cx cy (Or.inr ⟨e, f⟩)
          constructor <;> intro <;> [omega; linarith]
        · have a : |x.toRat| = |y.toRat| := by
            rw [toRat_normal cx, toRat_normal cy, abs_signed _ (by positivity), abs_signed _ (by positivity), e, f]
          have b : x.low = y.low := by unfold low fieldE fieldT; simp only [cx, cy, e, f]
          constructor <;> intro <;> [omega; linarith]
        · have a := key hy hx cy cx (Or.inr ⟨e.symm, f⟩)
          have b := low_lt_normal h hy hx cy cx (Or.inr ⟨e.symm, f⟩)
          constructor <;> intro <;> [linarith; omega]
      · have a := key hy hx cy cx (Or.inl e)
        have b := low_lt_normal h hy hx cy cx (Or.inl e)
        constructor <;> intro <;> [linarith; omega]
    · have := low_pos hx cx
      rw [toRat_zero cy, low_zero cy, abs_zero]
      have : 0 < |x.toRat| := by
        rw [abs_pos]
        cases s : x.sign
        · exact (sign_pos hx cx s).1.ne'
        · exact (sign_neg hx cx s).1.ne
      constructor <;> intro <;> [linarith; omega]
  · rw [toRat_zero cx, low_zero cx, abs_zero]
    exact ⟨fun _ => Nat.zero_le _, fun _ => abs_nonneg _⟩

/-- The magnitude with the sign. -/
def key (x : IeeeFloat S) : ℤ := if x.sign then -(x.low : ℤ) else x.low

theorem toBits_key (h : S.Enc) {x : IeeeFloat S} (hx : x.Valid) {b : ℕ} (hb : x.toBits = .ok b) :
    signMag S.bits b = x.key ∧ (2 ^ (S.bits - 1) ≤ b ↔ x.sign = true) ∧ b = x.sign.toNat * 2 ^ (S.bits - 1) + x.low := by
  rw [toBits_eq h hx, Except.ok.injEq] at hb
  have hl := encode_low (fieldE_lt h hx) (fieldT_lt h hx)
  have hw : S.bits - 1 = S.expBits + S.sigBits := by rw [h.bits_eq]; omega
  have e : b = x.sign.toNat * 2 ^ (S.bits - 1) + x.low := by rw [← hb, hw]; rfl
  change x.low < _ at hl
  rw [← hw] at hl
  unfold signMag key
  have h5 : ((2 ^ (S.bits - 1) : ℕ) : ℤ) = 2 ^ (S.bits - 1) := by push_cast; rfl
  rw [← h5]
  generalize 2 ^ (S.bits - 1) = P at *
  refine ⟨?_, ?_, e⟩
  · cases s : x.sign <;> rw [s] at e <;> simp at e ⊢
    · rw [if_neg (by omega), e]
    · rw [if_pos (by omega), e]; push_cast; ring
  · cases s : x.sign <;> rw [s] at e <;> simp at e ⊢ <;> omega

theorem toRat_sign {x : IeeeFloat S} (hx : x.Valid) (fx : x.isFinite = true) :
    x.toRat = if x.sign then -|x.toRat| else |x.toRat| := by
  rcases isFinite_iff.1 fx with c | c
  · cases s : x.sign
    · rw [(sign_pos hx c s).2]; simp
    · rw [(sign_neg hx c s).2]; simp
  · simp [toRat_zero c]

theorem le_iff_key (h : S.Enc) {x y : IeeeFloat S} (hx : x.Valid) (hy : y.Valid) (nx : x.isNan = false)
    (ny : y.isNan = false) : x.datum.le y.datum ↔ x.key ≤ y.key := by
  by_cases fx : x.isFinite = true
  · by_cases fy : y.isFinite = true
    · rw [datum_finite fx, datum_finite fy]
      show x.toRat ≤ y.toRat ↔ _
      have k1 := low_le_iff h hx hy fx fy
      have k2 := low_le_iff h hy hx fy fx
      have z : (ZERO S).low = 0 := low_zero rfl
      have z1 := low_le_iff h hx zero_valid fx (y := ZERO S) rfl
      have z2 := low_le_iff h hy zero_valid fy (y := ZERO S) rfl
      rw [toRat_zero (x := ZERO S) rfl, z, abs_zero] at z1 z2
      have a1 := abs_nonneg x.toRat
      have a2 := abs_nonneg y.toRat
      rw [toRat_sign hx fx, toRat_sign hy fy]
      unfold key
      generalize |x.toRat| = u at *
      generalize |y.toRat| = v at *
      cases x.sign <;> cases y.sign <;> simp only [Bool.false_eq_true, if_false, if_true]
      · rw [k1]; omega
      · constructor
        · intro q
          have := z1.1 (by linarith); have := z2.1 (by linarith); omega
        · intro q
          have := z1.2 (by omega); have := z2.2 (by omega); linarith
      · exact ⟨fun _ => by omega, fun _ => by linarith⟩
      · rw [neg_le_neg_iff, k2]; omega
    · have cy : y.category = .infinity := by
        unfold isFinite isNan isInfinite at *
        cases c : y.category <;> simp_all
      have l := low_lt_inf h hx hy fx cy
      rw [datum_finite fx]
      have d : y.datum = .inf y.sign := by simp [datum, cy]
      rw [d]
      unfold key
      cases x.sign <;> cases y.sign <;> simp [Datum.le] <;> omega
  · have cx : x.category = .infinity := by
      unfold isFinite isNan isInfinite at *
      cases c : x.category <;> simp_all
    have dx : x.datum = .inf x.sign := by simp [datum, cx]
    rw [dx]
    by_cases fy : y.isFinite = true
    · have l := low_lt_inf h hy hx fy cx
      rw [datum_finite fy]
      unfold key
      cases x.sign <;> cases y.sign <;> simp [Datum.le] <;> omega
    · have cy : y.category = .infinity := by
        unfold isFinite isNan isInfinite at *
        cases c : y.category <;> simp_all
      have d : y.datum = .inf y.sign := by simp [datum, cy]
      have l : x.low = y.low := by unfold low fieldE fieldT; simp [cx, cy]
      have p : 0 < x.low := by have := low_lt_inf h (zero_valid (S := S)) hx rfl cx; omega
      rw [d]
      unfold key
      rw [l] at p ⊢
      cases x.sign <;> cases y.sign <;> simp [Datum.le] <;> omega
end IeeeFloat

variable {S : Sem}

/-- **C70.** Comparing two values that are not NaN is comparing their bit patterns as sign and magnitude integers. -/
theorem C70_partial_cmp_bits (h : S.Enc) {x y : IeeeFloat S} (hx : x.Valid) (hy : y.Valid) (nx : x.isNan = false)
    (ny : y.isNan = false) {b c : ℕ} (hb : x.toBits = .ok b) (hc : y.toBits = .ok c) :
    partialCmp x y = .ok (some (compare (signMag S.bits b) (signMag S.bits c))) := by
  obtain ⟨o, h1, h2, h3, h4, h5⟩ := C15_partial_cmp h.ok hx hy
  rw [(toBits_key h hx hb).1, (toBits_key h hy hc).1, h1]
  have k1 := le_iff_key h hx hy nx ny
  have k2 := le_iff_key h hy hx ny nx
  unfold Spec.Datum.lt at h3 h4
  rw [k1, k2] at h3 h4 h5
  rcases lt_trichotomy x.key y.key with k | k | k
  · rw [h3.2 ⟨k.le, by omega⟩, compare_lt_iff_lt.2 k]
  · rw [h5.2 ⟨k.le, k.ge⟩, compare_eq_iff_eq.2 k]
  · rw [h4.2 ⟨k.le, by omega⟩, compare_gt_iff_gt.2 k]

example := C70_partial_cmp_bits singleS_enc (x := ⟨3 * 2 ^ 22, 0, .normal, false⟩) (y := ⟨3 * 2 ^ 22, 1, .normal, true⟩) (by decide) (by decide) rfl rfl
  (b := 0x3fc00000) (c := 0xc0400000) (by decide +kernel) (by decide +kernel)

namespace IeeeFloat
variable {S : Sem}

theorem infinity_field : (INFINITY S).fieldE = 2 ^ S.expBits - 1 := by
  unfold INFINITY fieldE; cases S.nonfinite <;> rfl

theorem low_infinity_le (h : S.Enc) (hi : S.explicitIntBit = false) {y : IeeeFloat S} (hy : y.Valid)
    (fy : y.isFinite = false) : (INFINITY S).low ≤ y.low := by
  have e : y.fieldE = 2 ^ S.expBits - 1 := by
    unfold isFinite isNan isInfinite at fy
    unfold fieldE; cases c : y.category <;> simp_all
  unfold low
  rw [e, infinity_field]
  apply Nat.add_le_add_left
  cases hn : S.nonfinite
  · have : (INFINITY S).fieldT = 0 := by unfold INFINITY fieldT; simp [hn, hi]
    omega
  · have c : y.category = .nan := by
      unfold isFinite isNan isInfinite at fy
      unfold Valid at hy
      cases c : y.category <;> simp_all
    have hv := infinity_valid h.ok (S := S)
    have ci : (INFINITY S).category = .nan := by unfold INFINITY; simp [hn]; rfl
    unfold Valid at hy hv
    unfold fieldT
    simp only [c, ci, hn] at hy hv ⊢
    omega

theorem low_lt_infinity (h : S.Enc) {x : IeeeFloat S} (hx : x.Valid) (fx : x.isFinite = true) :
    x.low < (INFINITY S).low := by
  cases hn : S.nonfinite
  · exact low_lt_inf h hx (infinity_valid h.ok) fx (by unfold INFINITY; simp [hn])
  · obtain ⟨a, b, c, d⟩ := h.ok.nanOnly hn
    have hv := infinity_valid h.ok (S := S)
    have ci : (INFINITY S).category = .nan := by unfold INFINITY; simp [hn]; rfl
    have hE := fieldE_lt h hx
    have h6 : 2 ^ 2 ≤ 2 ^ S.expBits := Nat.pow_le_pow_right (by norm_num) h.w_ge
    by_cases k : x.fieldE = 2 ^ S.expBits - 1
    · unfold low
      rw [k, infinity_field]
      apply Nat.add_lt_add_left
      have cx : x.category = .normal := by
        rcases isFinite_iff.1 fx with c | c
        · exact c
        · unfold fieldE at k; simp only [c] at k; omega
      obtain ⟨v1, v2, v3, v4, v5, v6⟩ := Valid.normal hx cx
      have h2 := h.ok.two_pow
      have g1 := h.w_pow
      have g2 := h.min_eq
      have g3 := h.max_eq
      have g5 : ((2 ^ S.expBits : ℕ) : ℤ) = 2 ^ S.expBits := by push_cast; rfl
      rw [if_neg (by rw [hn]; decide)] at g3
      unfold fieldE at k
      simp only [cx] at k
      unfold Valid at hv
      unfold fieldT
      simp only [cx, ci, hn, d, Bool.false_eq_true, if_false] at hv ⊢
      generalize (2 ^ S.expBits : ℕ) = W at *
      split_ifs at k with q
      · omega
      · have e : x.exp = S.maxExp := by omega
        have := v6 hn e
        rw [Nat.mod_eq_sub_mod (by omega), Nat.mod_eq_of_lt (by omega)]
        omega
    · apply low_lt_of_field h hx
      rw [infinity_field]; omega

theorem low_top (h : S.Enc) {x : IeeeFloat S} (hx : x.Valid) : x.low < 2 ^ (S.bits - 1) := by
  have hl := encode_low (fieldE_lt h hx) (fieldT_lt h hx)
  have hw : S.bits - 1 = S.expBits + S.sigBits := by rw [h.bits_eq]; omega
  rw [hw]; exact hl

theorem toBits_of (h : S.Enc) {x : IeeeFloat S} (hx : x.Valid) :
    x.toBits = .ok (x.sign.toNat * 2 ^ (S.bits - 1) + x.low) := by
  obtain ⟨b, y, h1, -⟩ := C03_value_round_trip h hx
  rw [h1, (toBits_key h hx h1).2.2]

/-- Every sign and magnitude is the pattern of some value. -/
theorem exists_low (h : S.Enc) (hi : S.explicitIntBit = false) (s : Bool) {n : ℕ} (hn : n < 2 ^ (S.bits - 1)) :
    ∃ y : IeeeFloat S, y.Valid ∧ y.sign = s ∧ y.low = n ∧ (n < (INFINITY S).low → y.isFinite = true) := by
  have hb : 2 ^ S.bits = 2 * 2 ^ (S.bits - 1) := by
    rw [show S.bits = S.bits - 1 + 1 by have := h.bits_eq; omega, pow_succ]; simp; ring
  have hlt : s.toNat * 2 ^ (S.bits - 1) + n < 2 ^ S.bits := by
    rw [hb]; cases s <;> simp <;> omega
  obtain ⟨y, h1, h2, -⟩ := C02_from_bits_decodes h hlt
  obtain ⟨y', h1', h3⟩ := C01_bits_round_trip_all h hi hlt
  rw [h1, Except.ok.injEq] at h1'
  subst h1'
  obtain ⟨k1, k2, k3⟩ := toBits_key h h2 h3
  have hl := low_top h h2
  have hs : y.sign = s := by
    cases s <;> cases q : y.sign <;> rw [q] at k3 <;> simp at k3 <;> first | rfl | omega
  rw [hs] at k3
  refine ⟨y, h2, hs, by omega, fun c => ?_⟩
  cases f : y.isFinite
  · have := low_infinity_le h hi h2 f; omega
  · rfl

theorem lt_iff_key (h : S.Enc) {x y : IeeeFloat S} (hx : x.Valid) (hy : y.Valid) (fx : x.isFinite = true)
    (fy : y.isFinite = true) : (x.toRat ≤ y.toRat ↔ x.key ≤ y.key) ∧ (x.toRat < y.toRat ↔ x.key < y.key) := by
  have nn : ∀ {x : IeeeFloat S}, x.isFinite = true → x.isNan = false := by
    intro x f; unfold isFinite at f; revert f; cases x.isNan <;> simp
  have a := le_iff_key h hx hy (nn fx) (nn fy)
  have b := le_iff_key h hy hx (nn fy) (nn fx)
  rw [datum_finite fx, datum_finite fy] at a b
  change x.toRat ≤ y.toRat ↔ _ at a
  change y.toRat ≤ x.toRat ↔ _ at b
  refine ⟨a, ?_⟩
  rw [← not_le, b]; omega

/-- Above a finite value the patterns are consecutive. -/
theorem nextUp_key (h : S.Enc) (hi : S.explicitIntBit = false) {x : IeeeFloat S} (hx : x.Valid)
    (fx : x.isFinite = true) : ∃ r, nextUp x = .ok ⟨Status.OK, r⟩ ∧ r.Valid ∧ r.key = x.key + 1 ∧
      (r.low = 0 → r.sign = true) := by
  have hlx := low_lt_infinity h hx fx
  have hit := low_top h (infinity_valid h.ok (S := S))
  -- a finite candidate
  by_cases hl : x.toRat = (largest S).toRat
  · have e0 := hl
    have hlp := largest_pos h.ok
    rw [toRat_largest h.ok] at hl
    have cx : x.category = .normal := by
      rcases isFinite_iff.1 fx with c | c
      · exact c
      · rw [toRat_zero c] at hl; linarith
    have sx : x.sign = false := by
      cases sx : x.sign
      · rfl
      · have := (sign_neg hx cx sx).1; linarith
    refine ⟨INFINITY S, ?_, infinity_valid h.ok, ?_, fun e => by omega⟩
    · unfold nextUp isNegative
      simp only [cx, sx]
      rw [if_neg (by simp), if_pos]
      · rfl
      · simp only [Bool.not_false, Bool.and_true, (C38_tests h.ok hx).1]
        exact ⟨fx, by rw [hl, toRat_largest h.ok, abs_of_pos hlp]⟩
    · obtain ⟨y, y1, y2, y3, y4⟩ := exists_low h hi false (n := x.low + 1) (by omega)
      have si : (INFINITY S).sign = false := by unfold INFINITY; cases S.nonfinite <;> rfl
      have kx : x.key = x.low := by unfold key; simp [sx]
      have ki : (INFINITY S).key = (INFINITY S).low := by unfold key; simp [si]
      have ky : y.key = x.low + 1 := by unfold key; simp [y2, y3]
      rw [ki, kx]
      by_contra c
      have fy := y4 (by omega)
      have := ((lt_iff_key h hx y1 fx fy).2).2 (by omega)
      have := (abs_le.1 (abs_toRat_le h.ok y1 fy)).2
      linarith
  · obtain ⟨r, r1, r2, r3, ⟨r4, r5⟩, r6, r7⟩ := C14_next_up h.ok hx fx hl
    have hlr := low_lt_infinity h r2 r3
    have k1 := ((lt_iff_key h hx r2 fx r3).2).1 r4
    refine ⟨r, r1, r2, ?_, ?_⟩
    · have : ∃ y : IeeeFloat S, y.Valid ∧ y.isFinite = true ∧ y.key = x.key + 1 := by
        by_cases c : 0 ≤ x.key
        · obtain ⟨y, y1, y2, y3, y4⟩ := exists_low h hi false (n := (x.key + 1).toNat)
            (by unfold key at k1 c ⊢; split_ifs at k1 c ⊢ <;> omega)
          refine ⟨y, y1, y4 ?_, ?_⟩
          · unfold key at k1 c ⊢; split_ifs at k1 c ⊢ <;> omega
          · conv_lhs => unfold key
            rw [y2, y3]; simp; omega
        · obtain ⟨y, y1, y2, y3, y4⟩ := exists_low h hi true (n := x.low - 1) (by omega)
          refine ⟨y, y1, y4 (by omega), ?_⟩
          unfold key at c ⊢
          rw [y2, y3]
          split_ifs at c ⊢ <;> simp at * <;> omega
      obtain ⟨y, y1, y2, y3⟩ := this
      have a := r5 y y1 y2 (((lt_iff_key h hx y1 fx y2).2).2 (by omega))
      have b := ((lt_iff_key h r2 y1 r3 y2).1).1 a
      omega
    · intro e
      apply r6
      have := (low_le_iff h r2 zero_valid r3 (y := ZERO S) rfl).2 (by omega)
      rw [toRat_zero (x := ZERO S) rfl, abs_zero] at this
      exact abs_eq_zero.1 (le_antisymm this (abs_nonneg _))

end IeeeFloat

/-- **C70.** In the formats whose integer bit is implied, `next_up` of a finite value adds one to the magnitude of a
non-negative pattern (`-0` counting as zero) and takes one from the magnitude of a negative one. The step above the
largest number gives the pattern of `+∞` (of the NaN, in the format without infinities). -/
theorem C70_next_up_bits (h : S.Enc) (hi : S.explicitIntBit = false) {x : IeeeFloat S} (hx : x.Valid)
    (fx : x.isFinite = true) {b : ℕ} (hb : x.toBits = .ok b) :
    ∃ r c, nextUp x = .ok ⟨Status.OK, r⟩ ∧ r.toBits = .ok c ∧
      c = if b < 2 ^ (S.bits - 1) then b + 1 else if b = 2 ^ (S.bits - 1) then 1 else b - 1 := by
  obtain ⟨r, r1, r2, r3, r4⟩ := nextUp_key h hi hx fx
  refine ⟨r, _, r1, toBits_of h r2, ?_⟩
  have hl := low_top h hx
  have hl' := low_top h r2
  obtain ⟨-, -, k⟩ := toBits_key h hx hb
  unfold key at r3
  generalize 2 ^ (S.bits - 1) = P at *
  cases s : x.sign <;> cases s' : r.sign <;> rw [s] at k r3 <;> rw [s'] at r3 <;> simp [s'] at * <;>
    split_ifs <;> omega

example := C70_next_up_bits singleS_enc rfl (x := ⟨3 * 2 ^ 22, 1, .normal, true⟩) (by decide) rfl (b := 0xc0400000) (by decide +kernel)

/-- **C70.** `next_down` is the mirror image. -/
theorem C70_next_down_bits (h : S.Enc) (hi : S.explicitIntBit = false) {x : IeeeFloat S} (hx : x.Valid)
    (fx : x.isFinite = true) {b : ℕ} (hb : x.toBits = .ok b) :
    ∃ r c, nextDown x = .ok ⟨Status.OK, r⟩ ∧ r.toBits = .ok c ∧
      c = if 2 ^ (S.bits - 1) ≤ b then b + 1 else if b = 0 then 2 ^ (S.bits - 1) + 1 else b - 1 := by
  obtain ⟨r, r1, r2, r3, r4⟩ := nextUp_key h hi (neg_valid hx) (by rw [neg_finite]; exact fx)
  have e0 : ∀ x : IeeeFloat S, x.neg.low = x.low := fun x => by rw [neg_eq]; rfl
  have e1 : ∀ x : IeeeFloat S, x.neg.sign = !x.sign := fun x => by rw [neg_eq]
  refine ⟨r.neg, _, by unfold nextDown; rw [r1]; rfl, toBits_of h (neg_valid r2), ?_⟩
  have hl := low_top h hx
  have hl' := low_top h r2
  obtain ⟨-, -, k⟩ := toBits_key h hx hb
  unfold key at r3
  rw [e0, e1] at r3
  rw [e0, e1]
  generalize 2 ^ (S.bits - 1) = P at *
  cases s : x.sign <;> cases s' : r.sign <;> rw [s] at k r3 <;> rw [s'] at r3 <;> simp [s'] at * <;>
    split_ifs <;> omega

/-- The hypotheses are met: `-2^-24` in `Half`, whose successor is `-0`, and the largest number. -/
example : ∃ x : IeeeFloat halfS, x.Valid ∧ x.isFinite = true ∧ x.toBits = .ok 0x8001 ∧
    ∃ r, nextUp x = .ok ⟨Status.OK, r⟩ ∧ r.toBits = .ok 0x8000 :=
  ⟨⟨1, -14, .normal, true⟩, by decide +kernel, by decide +kernel, by decide +kernel,
    ⟨0, -15, .zero, true⟩, by decide +kernel, by decide +kernel⟩

/-- In the 80-bit x87 format the successor is not the next pattern: above the largest denormal number the exponent field
becomes one and the stored integer bit appears, and above the largest number of a binade the integer bit stays. -/
theorem C70_x87_next_up_bits : ∃ x r : IeeeFloat x87S, x.Valid ∧ x.toBits = .ok (2 ^ 64 + (2 ^ 64 - 1)) ∧
    nextUp x = .ok ⟨Status.OK, r⟩ ∧ r.toBits = .ok (2 * 2 ^ 64 + 2 ^ 63) :=
  ⟨⟨2 ^ 64 - 1, -16382, .normal, false⟩, ⟨2 ^ 63, -16381, .normal, false⟩, by decide +kernel, by decide +kernel,
    by decide +kernel, by decide +kernel⟩

/-- Two values of different exponents meet the hypotheses of the comparison theorem. -/
example : ∃ x y : IeeeFloat x87S, x.Valid ∧ y.Valid ∧ x.isNan = false ∧ y.isNan = false ∧ x.sign = true ∧ y.sign = true ∧
    x.exp < y.exp ∧ partialCmp x y = .ok (some .gt) :=
  ⟨⟨2 ^ 63, 0, .normal, true⟩, ⟨2 ^ 63 + 1, 3, .normal, true⟩, by decide +kernel, by decide +kernel, rfl, rfl, rfl, rfl,
    by decide, by decide +kernel⟩

end Apf
