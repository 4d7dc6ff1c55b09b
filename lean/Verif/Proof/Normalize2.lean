import Verif.Proof.Normalize
/-! # `normalize` rounds correctly: the rounding step and the shifts -/

namespace Apf
open Spec

namespace IeeeFloat
variable {S : Sem}

/-- The rounding decision. -/
def awayB (mode : Round) (s : Bool) (loss : Loss) (odd : Bool) : Bool :=
  match mode with
  | .nearestTiesToAway => decide (loss = .exactlyHalf ∨ loss = .moreThanHalf)
  | .nearestTiesToEven => decide (loss = .moreThanHalf ∨ loss = .exactlyHalf ∧ odd = true)
  | .towardZero => false
  | .towardPositive => !s
  | .towardNegative => s

theorem roundAwayFromZero_eq {x : IeeeFloat S} (hcat : x.category = .normal) {mode : Round} {loss : Loss} {bit : Nat}
    (hl : loss ≠ .exactlyZero) (hb : bit < 128 ∨ ¬ (mode = .nearestTiesToEven ∧ loss = .exactlyHalf)) (hs : x.sig < 2 ^ 128) :
    x.roundAwayFromZero mode loss bit = .ok (awayB mode x.sign loss (x.sig.testBit bit)) := by
  unfold roundAwayFromZero
  rw [massert_pos (Or.inl (isFiniteNonZero_of hcat)), M.ok_bind, massert_pos hl, M.ok_bind]
  cases mode <;> simp only [awayB, isNegative, hcat]
  by_cases h1 : loss = .moreThanHalf
  · simp [h1]
  · by_cases h2 : loss = .exactlyHalf
    · subst h2
      have hb' : bit < 128 := by tauto
      simp [getBit_one hs hb']
    · simp [h1, h2]

/-- The decision is the specified one. -/
theorem awayB_rounded {F : Fmt} (hp : 2 ≤ F.p) {n : ℕ} {e : ℤ} (hn : n < 2 ^ F.p) (he : F.emin ≤ e)
    (hc : 2 ^ (F.p - 1) ≤ n ∨ e = F.emin) {loss : Loss} {f : ℚ} (hf : LossIs loss f) (hl : loss ≠ .exactlyZero)
    (mode : Round) (s : Bool) :
    IsRounded F (mode.negateIf s) (((n : ℚ) + f) * 2 ^ (e - F.p + 1))
      (if awayB mode s loss (decide (n % 2 = 1)) then ((n + 1 : ℕ) : ℚ) * 2 ^ (e - F.p + 1)
        else (n : ℚ) * 2 ^ (e - F.p + 1)) := by
  have hN := neighbours_mk (by omega) hn he hc
  have hu := two_zpow_pos (e - F.p + 1)
  have h0 : (0 : ℚ) ≤ (n : ℚ) * 2 ^ (e - F.p + 1) := by positivity
  have f0 := hf.pos hl
  have f1 := hf.lt_one
  have evlo : n % 2 = 0 → F.EvenGrid ((n : ℚ) * 2 ^ (e - F.p + 1)) := evenGrid_mk hp hn.le he
  have evhi : (n + 1) % 2 = 0 → F.EvenGrid (((n + 1 : ℕ) : ℚ) * 2 ^ (e - F.p + 1)) := evenGrid_mk hp hn he
  have e1 : ((n : ℚ) + f) * 2 ^ (e - F.p + 1) = (n : ℚ) * 2 ^ (e - F.p + 1) + f * 2 ^ (e - F.p + 1) := by ring
  have e2 : ((n + 1 : ℕ) : ℚ) * 2 ^ (e - F.p + 1) = (n : ℚ) * 2 ^ (e - F.p + 1) + 2 ^ (e - F.p + 1) := by push_cast; ring
  rw [e1]
  rw [e2] at hN evhi ⊢
  clear e1 e2
  generalize (n : ℚ) * 2 ^ (e - F.p + 1) = lo at *
  generalize (2 : ℚ) ^ (e - F.p + 1) = u at *
  have l1 : lo < lo + f * u := by have := mul_pos f0 hu; linarith
  have l2 : lo + f * u < lo + u := by nlinarith
  have less : f < 1 / 2 → lo + f * u - lo < lo + u - (lo + f * u) := by intro h; nlinarith
  have more : 1 / 2 < f → lo + u - (lo + f * u) < lo + f * u - lo := by intro h; nlinarith
  have half : f = 1 / 2 → lo + u - (lo + f * u) = lo + f * u - lo := by intro h; rw [h]; ring
  have LO := fun hm => isRounded_lo (mode := mode.negateIf s) hN h0 l1.le l2 hm
  have HI := fun hm => isRounded_hi (mode := mode.negateIf s) hN h0 l1 l2 hm
  cases mode
  · have en : Round.nearestTiesToEven.negateIf s = .nearestTiesToEven := by cases s <;> rfl
    rw [en] at LO HI ⊢
    cases loss <;> simp only [LossIs] at hf
    · exact absurd rfl hl
    · simp only [awayB, reduceCtorEq, false_and, or_self, decide_false, Bool.false_eq_true, if_false]
      exact LO (Or.inr (Or.inr (Or.inr (Or.inl ⟨by simp, less hf.2⟩))))
    · by_cases ho : n % 2 = 1
      · simp only [awayB, ho, decide_true, and_true, or_true, if_true]
        exact HI (Or.inr (Or.inr (Or.inr ⟨rfl, half hf, evhi (by omega)⟩)))
      · simp only [awayB, ho, decide_false, reduceCtorEq, Bool.false_eq_true, and_false, or_self, if_false]
        exact LO (Or.inr (Or.inr (Or.inr (Or.inr ⟨rfl, (half hf).symm, evlo (by omega)⟩))))
    · simp only [awayB, true_or, decide_true, if_true]
      exact HI (Or.inr (Or.inl ⟨by simp, more hf.1⟩))
  · cases s
    · exact HI (Or.inl rfl)
    · exact LO (Or.inr (Or.inl rfl))
  · cases s
    · exact LO (Or.inr (Or.inl rfl))
    · exact HI (Or.inl rfl)
  · have en : Round.towardZero.negateIf s = .towardZero := by cases s <;> rfl
    rw [en] at LO HI ⊢
    exact LO (Or.inr (Or.inr (Or.inl rfl)))
  · have en : Round.nearestTiesToAway.negateIf s = .nearestTiesToAway := by cases s <;> rfl
    rw [en] at LO HI ⊢
    cases loss <;> simp only [LossIs] at hf
    · exact absurd rfl hl
    · simp only [awayB, reduceCtorEq, or_self, decide_false, Bool.false_eq_true, if_false]
      exact LO (Or.inr (Or.inr (Or.inr (Or.inl ⟨by simp, less hf.2⟩))))
    · simp only [awayB, true_or, decide_true, if_true]
      exact HI (Or.inr (Or.inr (Or.inl ⟨rfl, half hf⟩)))
    · simp only [awayB, or_true, decide_true, if_true]
      exact HI (Or.inr (Or.inl ⟨by simp, more hf.1⟩))

theorem pow_half (h : S.OK) (e : ℤ) : ((2 ^ (S.precision - 1) : ℕ) : ℚ) * 2 ^ (e - S.precision + 1) = 2 ^ e := by
  have := h.p_ge
  push_cast
  rw [← zpow_natCast, ← two_zpow_add]; congr 1; omega

theorem pow_full (h : S.OK) (e : ℤ) : ((2 ^ S.precision : ℕ) : ℚ) * 2 ^ (e - S.precision + 1) = 2 ^ (e + 1) := by
  push_cast
  rw [← zpow_natCast, ← two_zpow_add]; congr 1; omega

/-- Canonical finite values are at most the largest one, unless they are the NaN pattern. -/
theorem le_largest (h : S.OK) {n : ℕ} {e : ℤ} (hn : n < 2 ^ S.precision) (he : e ≤ S.maxExp)
    (hp : S.nonfinite = .nanOnly → e = S.maxExp → n ≠ 2 ^ S.precision - 1) :
    (n : ℚ) * 2 ^ (e - S.precision + 1) ≤ S.fmt.largest := by
  have h2 := h.two_pow
  have h3 := h.half_ge
  rw [← largest_toRat h]
  have hl := largest_eq h
  show _ ≤ ((largest S).sig : ℚ) * 2 ^ (S.maxExp - S.precision + 1)
  rcases eq_or_lt_of_le he with rfl | hlt
  · apply mul_le_mul_of_nonneg_right _ (two_zpow_pos _).le
    have : n ≤ (largest S).sig := by
      rw [hl]
      split_ifs with hi
      · omega
      · have : S.nonfinite = .nanOnly := by
          cases hh : S.nonfinite with
          | ieee754 => exact absurd (fmt_hasInf_iff.2 hh) hi
          | nanOnly => rfl
        have := hp this rfl
        omega
    exact_mod_cast this
  · have a : (n : ℚ) * 2 ^ (e - S.precision + 1) ≤ ((2 ^ S.precision : ℕ) : ℚ) * 2 ^ (e - S.precision + 1) := by
      apply mul_le_mul_of_nonneg_right _ (two_zpow_pos _).le
      exact_mod_cast hn.le
    rw [pow_full h] at a
    have b : (2 : ℚ) ^ (e + 1) ≤ 2 ^ S.maxExp := two_zpow_le (by omega)
    rw [← pow_half h S.maxExp] at b
    have c : ((2 ^ (S.precision - 1) : ℕ) : ℚ) * 2 ^ (S.maxExp - S.precision + 1) ≤
        ((largest S).sig : ℚ) * 2 ^ (S.maxExp - S.precision + 1) := by
      apply mul_le_mul_of_nonneg_right _ (two_zpow_pos _).le
      have : 2 ^ (S.precision - 1) ≤ (largest S).sig := by rw [hl]; split_ifs <;> omega
      exact_mod_cast this
    linarith

theorem pattern_gt (h : S.OK) (hn : S.nonfinite = .nanOnly) :
    S.fmt.largest < ((2 ^ S.precision - 1 : ℕ) : ℚ) * 2 ^ (S.maxExp - S.precision + 1) := by
  have h2 := h.two_pow
  have h3 := h.half_ge
  rw [← largest_toRat h]
  show ((largest S).sig : ℚ) * 2 ^ (S.maxExp - S.precision + 1) < _
  apply mul_lt_mul_of_pos_right _ (two_zpow_pos _)
  have : ¬ S.fmt.hasInf = true := by rw [fmt_hasInf_iff, hn]; simp
  have hl := largest_eq h
  rw [if_neg this] at hl
  exact_mod_cast (by omega : (largest S).sig < 2 ^ S.precision - 1)

theorem full_gt (h : S.OK) : S.fmt.largest < (2 : ℚ) ^ (S.maxExp + 1) := by
  have h2 := h.two_pow
  have h3 := h.half_ge
  rw [← largest_toRat h, ← pow_full h S.maxExp]
  show ((largest S).sig : ℚ) * 2 ^ (S.maxExp - S.precision + 1) < _
  apply mul_lt_mul_of_pos_right _ (two_zpow_pos _)
  have hl := largest_eq h
  have : (largest S).sig < 2 ^ S.precision := by rw [hl]; split_ifs <;> omega
  exact_mod_cast this

theorem size_lt_iff {n k : Nat} : Nat.size n ≤ k ↔ n < 2 ^ k := Nat.size_le

theorem zero_good (h : S.OK) {mode : Round} {x : IeeeFloat S} {m : ℚ}
    (hr : IsRounded S.fmt (mode.negateIf x.sign) m 0) :
    Good S mode (signed x.sign m) x.sign
      (.ok (Status.and { inexact := decide ((0 : ℚ) ≠ m), underflow := decide ((0 : ℚ) ≠ m) } ((ZERO S).copySign x))) := by
  have hpos : 0 ≤ S.fmt.largest := by rw [← largest_toRat h]; positivity
  refine ⟨_, rfl, ?_, ?_, ?_⟩
  · rw [Status.and, copySign_eq, valid_sign]; simp [ZERO, Valid]
  · rw [Status.and, copySign_eq]
  · have := delivers_num hr (le_refl _) hpos
    have hs : (0 : ℚ) < S.fmt.smallestNormal := two_zpow_pos _
    have hz : signed x.sign 0 = 0 := by cases x.sign <;> simp [signed]
    simp only [hs, and_true, hz] at this
    simpa [Status.and, copySign_eq, datum, ZERO] using this

theorem normal_good (h : S.OK) {mode : Round} {x : IeeeFloat S} (hcat : x.category = .normal) {m : ℚ} {st : Status}
    (hv : x.Valid)
    (hr : IsRounded S.fmt (mode.negateIf x.sign) m ((x.sig : ℚ) * 2 ^ (x.exp - S.precision + 1)))
    (hst : st = { inexact := decide ((x.sig : ℚ) * 2 ^ (x.exp - S.precision + 1) ≠ m),
                  underflow := decide ((x.sig : ℚ) * 2 ^ (x.exp - S.precision + 1) ≠ m ∧ x.sig < 2 ^ (S.precision - 1)) }) :
    Good S mode (signed x.sign m) x.sign (.ok (st.and x)) := by
  have hv' := hv
  simp only [Valid, hcat] at hv
  obtain ⟨v1, v2, v3, v4, v5, v6⟩ := hv
  refine ⟨_, rfl, hv', rfl, ?_⟩
  have := delivers_num hr (by positivity) (le_largest h v4 v2 v6)
  have e : (x.sig : ℚ) * 2 ^ (x.exp - S.precision + 1) < S.fmt.smallestNormal ↔ x.sig < 2 ^ (S.precision - 1) := by
    unfold Fmt.smallestNormal
    rw [fmt_emin, ← pow_half h S.minExp]
    constructor
    · intro hlt
      by_contra hc
      push Not at hc
      have a : ((2 ^ (S.precision - 1) : ℕ) : ℚ) * 2 ^ (S.minExp - S.precision + 1) ≤
          ((2 ^ (S.precision - 1) : ℕ) : ℚ) * 2 ^ (x.exp - S.precision + 1) :=
        mul_le_mul_of_nonneg_left (two_zpow_le (by omega)) (by positivity)
      have b : ((2 ^ (S.precision - 1) : ℕ) : ℚ) * 2 ^ (x.exp - S.precision + 1) ≤ (x.sig : ℚ) * 2 ^ (x.exp - S.precision + 1) :=
        mul_le_mul_of_nonneg_right (by exact_mod_cast hc) (two_zpow_pos _).le
      linarith
    · intro hlt
      have : x.exp = S.minExp := by omega
      rw [this]
      exact mul_lt_mul_of_pos_right (by exact_mod_cast hlt) (two_zpow_pos _)
  simp only [e] at this
  simpa only [Status.and, datum_normal hcat, hst] using this

/-- The magnitudes for which the NaN-pattern handling of `normalize` is right (see `DirectedOK`). -/
def NanOnlyOK (S : Sem) (mode : Round) (s : Bool) (m : ℚ) : Prop :=
  S.nonfinite = .nanOnly → s = true →
    (mode = .towardPositive → ((2 ^ S.precision - 1 : ℕ) : ℚ) * 2 ^ (S.maxExp - S.precision + 1) ≤ m → 2 ^ (S.maxExp + 1) ≤ m) ∧
    (mode = .towardNegative → S.fmt.largest < m → 2 ^ (S.maxExp + 1) ≤ m)

theorem mode_neg_ne {mode : Round} (h : mode.neg ≠ mode) : mode = .towardPositive ∨ mode = .towardNegative := by
  cases mode <;> simp [Round.neg] at h ⊢

/-- The rounding half of `normalize`. -/
theorem normalizeRound_good (h : S.OK) {x : IeeeFloat S} (hcat : x.category = .normal) {mode : Round} {loss : Loss} {f : ℚ}
    (hf : LossIs loss f) {e : ℤ} (he : e = if x.sig = 0 then S.minExp else x.exp) (he1 : S.minExp ≤ e) (he2 : e ≤ S.maxExp)
    (hn : x.sig < 2 ^ S.precision) (hc : 2 ^ (S.precision - 1) ≤ x.sig ∨ e = S.minExp)
    (hO : NanOnlyOK S mode x.sign (((x.sig : ℚ) + f) * 2 ^ (e - S.precision + 1))) :
    Good S mode (signed x.sign (((x.sig : ℚ) + f) * 2 ^ (e - S.precision + 1))) x.sign
      (normalizeRound x mode loss (Nat.size x.sig)) := by
  have h2 := h.two_pow
  have h3 := h.half_ge
  have h4 := h.pow_le
  have hpm := h.p_max
  have hml := h.min_lt
  have hpg := h.p_ge
  have hc' : 2 ^ (S.precision - 1) ≤ x.sig ∨ x.exp = S.minExp ∨ x.sig = 0 := by
    by_cases h0 : x.sig = 0
    · tauto
    · rw [if_neg h0] at he; rw [← he]; tauto
  have hpat := isNanOnlyPattern_iff h hn hc'
  have hfull : ((x.sig : ℚ) + f) * 2 ^ (e - S.precision + 1) < 2 ^ (S.maxExp + 1) := by
    have a : ((x.sig : ℚ) + f) * 2 ^ (e - S.precision + 1) < ((2 ^ S.precision : ℕ) : ℚ) * 2 ^ (e - S.precision + 1) := by
      apply mul_lt_mul_of_pos_right _ (two_zpow_pos _)
      have : ((x.sig + 1 : ℕ) : ℚ) ≤ ((2 ^ S.precision : ℕ) : ℚ) := by exact_mod_cast hn
      push_cast at this ⊢
      linarith [hf.lt_one]
    rw [pow_full h] at a
    have : (2 : ℚ) ^ (e + 1) ≤ 2 ^ (S.maxExp + 1) := two_zpow_le (by omega)
    linarith
  unfold normalizeRound
  by_cases hb : x.isNanOnlyPattern = true
  · rw [if_pos hb]
    obtain ⟨p1, p2, p3⟩ := hpat.1 hb
    have hee : e = S.maxExp := by rw [he, if_neg (by omega), p2]
    subst hee
    have hgt : S.fmt.largest < ((x.sig : ℚ) + f) * 2 ^ (S.maxExp - S.precision + 1) := by
      have a := pattern_gt h p1
      rw [← p3] at a
      have := mul_nonneg hf.nonneg (two_zpow_pos (S.maxExp - S.precision + 1)).le
      linarith [add_mul (x.sig : ℚ) f (2 ^ (S.maxExp - S.precision + 1))]
    obtain ⟨g, hg⟩ := exists_rounded (F := S.fmt) (by simp; omega) (mode.negateIf x.sign)
      (((x.sig : ℚ) + f) * 2 ^ (S.maxExp - S.precision + 1))
    refine overflowResult_good h rfl hg ?_ (Or.inr ⟨rfl, ?_⟩)
    · have := hg.ge_of_grid (c := (x.sig : ℚ) * 2 ^ (S.maxExp - S.precision + 1))
        (grid_mk (F := S.fmt) (by simp; omega) hn.le (by simp; omega)) ?_
      · have a := pattern_gt h p1
        rw [← p3] at a
        linarith
      · have := mul_nonneg hf.nonneg (two_zpow_pos (S.maxExp - S.precision + 1)).le
        linarith [add_mul (x.sig : ℚ) f (2 ^ (S.maxExp - S.precision + 1))]
    · by_contra hcon
      push Not at hcon
      have hO' := hO p1 (by simpa using hcon.2)
      rcases mode_neg_ne hcon.1 with hm | hm
      · have := hO'.1 hm (by
          rw [← p3]
          apply mul_le_mul_of_nonneg_right _ (two_zpow_pos _).le
          linarith [hf.nonneg])
        linarith
      · have := hO'.2 hm hgt
        linarith
  · rw [if_neg hb]
    have hnp : S.nonfinite = .nanOnly → e = S.maxExp → x.sig ≠ 2 ^ S.precision - 1 := by
      intro a b c
      apply hb
      rw [hpat]
      refine ⟨a, ?_, c⟩
      rw [← b, he, if_neg (by omega)]
    have hsize0 : Nat.size x.sig = 0 ↔ x.sig = 0 := Nat.size_eq_zero
    have hval : x.sig ≠ 0 → x.Valid := by
      intro h0
      rw [if_neg h0] at he
      subst he
      simp only [Valid, hcat]
      exact ⟨he1, he2, by omega, hn, hc, hnp⟩
    by_cases hl : loss = .exactlyZero
    · rw [if_pos hl]
      have hf0 : f = 0 := hf.zero_iff.1 hl
      subst hf0
      rw [add_zero]
      have hgr : IsRounded S.fmt (mode.negateIf x.sign) ((x.sig : ℚ) * 2 ^ (e - S.precision + 1))
          ((x.sig : ℚ) * 2 ^ (e - S.precision + 1)) :=
        isRounded_self _ (grid_mk (F := S.fmt) (by simp; omega) hn.le he1)
      by_cases h0 : x.sig = 0
      · rw [if_pos (hsize0.2 h0)]
        simp only [h0, Nat.cast_zero, zero_mul] at hgr ⊢
        have := zero_good h hgr
        simpa [Status.OK] using this
      · rw [if_neg (by rwa [hsize0])]
        have hee : e = x.exp := by rw [he, if_neg h0]
        rw [hee] at hgr ⊢
        apply normal_good h hcat (hval h0) hgr
        simp [Status.OK]
    · rw [if_neg hl]
      rw [roundAwayFromZero_eq hcat hl (Or.inl (by norm_num)) (by omega), M.ok_bind]
      have hch := awayB_rounded (F := S.fmt) (by simp; omega) hn he1 hc hf hl mode x.sign
      have ht : x.sig.testBit 0 = decide (x.sig % 2 = 1) := by simp [Nat.testBit_zero]
      rw [ht]
      simp only [fmt_p] at hch
      have f0 := hf.pos hl
      have f1 := hf.lt_one
      have hu := two_zpow_pos (e - S.precision + 1)
      have m1 : (x.sig : ℚ) * 2 ^ (e - S.precision + 1) < ((x.sig : ℚ) + f) * 2 ^ (e - S.precision + 1) :=
        mul_lt_mul_of_pos_right (by linarith) hu
      have m2 : ((x.sig : ℚ) + f) * 2 ^ (e - S.precision + 1) < ((x.sig + 1 : ℕ) : ℚ) * 2 ^ (e - S.precision + 1) :=
        mul_lt_mul_of_pos_right (by push_cast; linarith) hu
      generalize hm : ((x.sig : ℚ) + f) * 2 ^ (e - S.precision + 1) = m at *
      by_cases ha : awayB mode x.sign loss (decide (x.sig % 2 = 1)) = true
      · rw [if_pos ha] at hch ⊢
        -- the incremented significand
        have hy : (if Nat.size x.sig = 0 then { x with exp := S.minExp } else x) = { x with exp := e } := by
          by_cases h0 : x.sig = 0
          · simp [h0, he]
          · simp [hsize0, h0, he]
        rw [hy]
        simp only [increment_one (show x.sig + 1 < 2 ^ 128 by omega), massert_true, M.ok_bind, idx_singleton,
          omsb_one (show x.sig + 1 < 2 ^ 128 by omega)]
        have hsz : Nat.size (x.sig + 1) = S.precision + 1 ↔ x.sig + 1 = 2 ^ S.precision := by
          constructor
          · intro hh
            by_contra hcon
            have : Nat.size (x.sig + 1) ≤ S.precision := size_lt_iff.2 (by omega)
            omega
          · intro hh
            rw [hh]; exact size_eq (le_refl _) (by rw [pow_succ]; omega)
        have m2' := m2.ne'
        push_cast at m2'
        by_cases hbig : x.sig + 1 = 2 ^ S.precision
        · rw [if_pos (hsz.2 hbig)]
          rw [hbig, pow_full h] at hch
          by_cases hmax : e = S.maxExp
          · rw [if_pos hmax]
            have ho := overflowResult_good h (x := x) (mode' := mode.negateIf x.sign) rfl hch
              (by rw [hmax]; exact full_gt h) (Or.inl rfl)
            have : overflowResult S (mode.negateIf x.sign) = (Status.OVERFLOW ||| Status.INEXACT).and (INFINITY S) := by
              cases mode <;> cases hs : x.sign <;> simp_all [awayB, overflowResult, Round.negateIf, Round.neg]
            rw [this] at ho
            simpa [StatusAnd.map, Status.and, copySign_eq] using ho
          · rw [if_neg hmax, shiftRight1_ok (by rw [hbig]; omega) (by norm_num) (by have := h.min_ge; omega) (by have := h.max_le; omega),
              M.ok_bind]
            have hdiv : (x.sig + 1) / 2 ^ 1 = 2 ^ (S.precision - 1) := by omega
            rw [hdiv]
            have hval2 : ((2 ^ (S.precision - 1) : ℕ) : ℚ) * 2 ^ (e + ((1 : ℕ) : ℤ) - S.precision + 1) = 2 ^ (e + 1) := by
              rw [pow_half h]; simp
            have := normal_good h (mode := mode) (x := { x with sig := 2 ^ (S.precision - 1), exp := e + ((1 : ℕ) : ℤ) })
              (m := m) (st := Status.INEXACT) hcat ?_ ?_ ?_
            · simpa using this
            · simp only [Valid, hcat]
              refine ⟨by omega, by omega, by omega, by omega, Or.inl (le_refl _), ?_⟩
              intro _ _; omega
            · show IsRounded _ _ _ (((2 ^ (S.precision - 1) : ℕ) : ℚ) * 2 ^ (e + ((1 : ℕ) : ℤ) - S.precision + 1))
              rw [hval2]; exact hch
            · simp only [hval2]
              rw [hbig, pow_full h] at m2
              simp [Status.INEXACT, m2.ne']
        · rw [if_neg (by rwa [hsz])]
          have hn1 : x.sig + 1 < 2 ^ S.precision := by omega
          have hpat2 := isNanOnlyPattern_iff h (x := { x with sig := x.sig + 1, exp := e }) hn1
            (by rcases hc with hc | hc
                · exact Or.inl (by show 2 ^ (S.precision - 1) ≤ x.sig + 1; omega)
                · exact Or.inr (Or.inl hc))
          by_cases hb2 : ({ x with sig := x.sig + 1, exp := e } : IeeeFloat S).isNanOnlyPattern = true
          · rw [if_pos hb2]
            obtain ⟨q1, q2, q3⟩ := hpat2.1 hb2
            simp only [] at q2 q3
            have hgt : S.fmt.largest < ((x.sig + 1 : ℕ) : ℚ) * 2 ^ (e - S.precision + 1) := by
              rw [q2, q3]; exact pattern_gt h q1
            refine overflowResult_good h rfl hch hgt (Or.inr ⟨rfl, ?_⟩)
            by_contra hcon
            push Not at hcon
            have hO' := hO q1 (by simpa using hcon.2)
            have h5 : m ≤ S.fmt.largest := by
              rcases mode_neg_ne hcon.1 with hm' | hm'
              · exfalso
                have : x.sign = true := by simpa using hcon.2
                rw [hm', this] at ha
                simp [awayB] at ha
              · by_contra hc
                have := hO'.2 hm' (not_le.1 hc)
                linarith
            -- the value exceeds the largest finite one
            have hl := largest_eq h
            have : ¬ S.fmt.hasInf = true := by rw [fmt_hasInf_iff, q1]; simp
            rw [if_neg this] at hl
            have hlr := largest_toRat h
            rw [hl] at hlr
            have : x.sig = 2 ^ S.precision - 2 := by omega
            rw [← this] at hlr
            have : (largest S).exp = e := by rw [q2]; rfl
            rw [this] at hlr
            linarith
          · rw [if_neg hb2]
            have hv2 : ({ x with sig := x.sig + 1, exp := e } : IeeeFloat S).Valid := by
              simp only [Valid, hcat]
              refine ⟨he1, he2, by omega, hn1, by omega, ?_⟩
              intro a b c
              exact hb2 (hpat2.2 ⟨a, b, c⟩)
            unfold normalizeEnd
            by_cases hP : Nat.size (x.sig + 1) = S.precision
            · rw [if_pos hP]
              apply normal_good h (x := { x with sig := x.sig + 1, exp := e }) hcat hv2 hch
              have : ¬ (x.sig + 1 < 2 ^ (S.precision - 1)) := by
                intro hlt
                have := size_lt_iff.2 hlt
                omega
              simp [Status.INEXACT, m2', this]
            · have hlt : Nat.size (x.sig + 1) < S.precision := by
                have := size_lt_iff.2 hn1
                omega
              rw [if_neg hP, massert_pos hlt, M.ok_bind, if_neg (by rw [Nat.size_eq_zero]; omega)]
              apply normal_good h (x := { x with sig := x.sig + 1, exp := e }) hcat hv2 hch
              have : x.sig + 1 < 2 ^ (S.precision - 1) := size_lt_iff.1 (by omega)
              simp [Status.INEXACT, Status.UNDERFLOW, m2', this]
              rfl
      · rw [if_neg ha] at hch ⊢
        unfold normalizeEnd
        by_cases hP : Nat.size x.sig = S.precision
        · have h0 : x.sig ≠ 0 := by intro h0; rw [h0] at hP; simp at hP; omega
          have hee : e = x.exp := by rw [he, if_neg h0]
          subst hee
          rw [if_pos hP]
          apply normal_good h hcat (hval h0) hch
          have : ¬ (x.sig < 2 ^ (S.precision - 1)) := by
            intro hlt
            have := size_lt_iff.2 hlt
            omega
          simp [Status.INEXACT, m1.ne, this]
        · have hlt : Nat.size x.sig < S.precision := by
            have := size_lt_iff.2 hn
            omega
          rw [if_neg hP, massert_pos hlt, M.ok_bind]
          by_cases h0 : x.sig = 0
          · rw [if_pos (hsize0.2 h0)]
            simp only [h0, Nat.cast_zero, zero_mul] at hch m1
            have := zero_good h hch
            simp only [ne_eq, m1.ne, not_false_iff, decide_true] at this
            exact this
          · rw [if_neg (by rwa [hsize0])]
            have hee : e = x.exp := by rw [he, if_neg h0]
            subst hee
            apply normal_good h hcat (hval h0) hch
            have : x.sig < 2 ^ (S.precision - 1) := size_lt_iff.1 (by omega)
            simp [Status.INEXACT, Status.UNDERFLOW, m1.ne, this]
            rfl

theorem size_div {n k : Nat} : Nat.size (n / 2 ^ k) = Nat.size n - k := by
  apply le_antisymm
  · rw [Nat.size_le, Nat.div_lt_iff_lt_mul (by positivity), ← pow_add]
    exact lt_of_lt_of_le (Nat.lt_size_self n) (Nat.pow_le_pow_right (by norm_num) (by omega))
  · by_contra hc
    push Not at hc
    have h1 : n / 2 ^ k < 2 ^ (Nat.size n - k - 1) := by
      rw [← Nat.size_le]; omega
    rw [Nat.div_lt_iff_lt_mul (by positivity), ← pow_add] at h1
    have := Nat.size_le.2 h1
    omega

theorem size_mul_pow {n k : Nat} (h : n ≠ 0) : Nat.size (n * 2 ^ k) = Nat.size n + k := by
  have h1 := two_pow_size_le (Nat.pos_of_ne_zero h)
  have h2 := Nat.lt_size_self n
  have h0 : 0 < Nat.size n := Nat.size_pos.2 (by omega)
  rw [show Nat.size n + k = (Nat.size n - 1 + k) + 1 by omega]
  apply size_eq
  · rw [pow_add]; exact Nat.mul_le_mul_right _ h1
  · rw [show Nat.size n - 1 + k + 1 = Nat.size n + k by omega, pow_add]
    exact Nat.mul_lt_mul_of_pos_right h2 (by positivity)

/-- `Effective` for magnitudes. -/
def NanOnlyEff (S : Sem) (mode : Round) (s : Bool) (m : ℚ) (om : Round) : Prop :=
  (NanOnlyOK S mode s m ∧ om = mode) ∨
  (¬ NanOnlyOK S mode s m ∧ (mode = .towardPositive ∧ om = .nearestTiesToEven ∨ mode = .towardNegative ∧ om = .towardZero))

theorem nanOnlyOK_of_mode {mode : Round} (h1 : mode ≠ .towardPositive) (h2 : mode ≠ .towardNegative) (s : Bool) (m : ℚ) :
    NanOnlyOK S mode s m := fun _ _ => ⟨fun q => absurd q h1, fun q => absurd q h2⟩

/-- The rounding half of `normalize`, without restriction. -/
theorem normalizeRound_eff (h : S.OK) {x : IeeeFloat S} (hcat : x.category = .normal) {mode om : Round} {loss : Loss} {f : ℚ}
    (hf : LossIs loss f) {e : ℤ} (he : e = if x.sig = 0 then S.minExp else x.exp) (he1 : S.minExp ≤ e) (he2 : e ≤ S.maxExp)
    (hn : x.sig < 2 ^ S.precision) (hc : 2 ^ (S.precision - 1) ≤ x.sig ∨ e = S.minExp)
    (hO : NanOnlyEff S mode x.sign (((x.sig : ℚ) + f) * 2 ^ (e - S.precision + 1)) om) :
    Good S om (signed x.sign (((x.sig : ℚ) + f) * 2 ^ (e - S.precision + 1))) x.sign
      (normalizeRound x mode loss (Nat.size x.sig)) := by
  rcases hO with ⟨hO, rfl⟩ | ⟨hO, hm⟩
  · exact normalizeRound_good h hcat hf he he1 he2 hn hc hO
  have hom : om ≠ .towardPositive ∧ om ≠ .towardNegative := by rcases hm with ⟨-, rfl⟩ | ⟨-, rfl⟩ <;> decide
  have key := normalizeRound_good h hcat hf he he1 he2 hn hc (nanOnlyOK_of_mode hom.1 hom.2 x.sign _)
  suffices normalizeRound x mode loss (Nat.size x.sig) = normalizeRound x om loss (Nat.size x.sig) by rw [this]; exact key
  clear key
  have h2 := h.two_pow
  have h3 := h.half_ge
  have h4 := h.pow_le
  have hpm := h.p_max
  have hml := h.min_lt
  have hpg := h.p_ge
  have hc' : 2 ^ (S.precision - 1) ≤ x.sig ∨ x.exp = S.minExp ∨ x.sig = 0 := by
    by_cases h0 : x.sig = 0
    · tauto
    · rw [if_neg h0] at he; rw [← he]; tauto
  have hpat := isNanOnlyPattern_iff h hn hc'
  unfold NanOnlyOK at hO
  push Not at hO
  obtain ⟨hN, hs, hO⟩ := hO
  have hL : S.fmt.largest = ((2 ^ S.precision - 2 : ℕ) : ℚ) * 2 ^ (S.maxExp - S.precision + 1) := by
    have hl := largest_eq h
    have : ¬ S.fmt.hasInf = true := by rw [fmt_hasInf_iff, hN]; simp
    rw [if_neg this] at hl
    have hlr := largest_toRat h
    rw [hl] at hlr
    exact hlr.symm
  have f1 := hf.lt_one
  have hnq : (x.sig : ℚ) + 1 ≤ ((2 ^ S.precision : ℕ) : ℚ) := by exact_mod_cast hn
  -- in the failing interval the exponent is the largest one and the significand is one of the last two
  have hzone : S.fmt.largest < ((x.sig : ℚ) + f) * 2 ^ (e - S.precision + 1) → e = S.maxExp ∧ 2 ^ S.precision - 2 < (x.sig : ℚ) + f := by
    intro hz
    have hee : e = S.maxExp := by
      by_contra hne
      have a : ((x.sig : ℚ) + f) * 2 ^ (e - S.precision + 1) < ((2 ^ S.precision : ℕ) : ℚ) * 2 ^ (e - S.precision + 1) :=
        mul_lt_mul_of_pos_right (by linarith) (two_zpow_pos _)
      have b : (2 : ℚ) ^ (e - S.precision + 1) ≤ 2 ^ (S.maxExp - S.precision) := two_zpow_le (by omega)
      have c : (2 : ℚ) ^ (S.maxExp - S.precision + 1) = 2 ^ (S.maxExp - S.precision) * 2 := zpow_add_one₀ (by norm_num) _
      have d : (((2 ^ S.precision - 2 : ℕ) : ℚ)) * 2 = ((2 ^ S.precision : ℕ) : ℚ) + (((2 ^ S.precision - 4 : ℕ) : ℚ)) := by
        exact_mod_cast (by omega : (2 ^ S.precision - 2) * 2 = 2 ^ S.precision + (2 ^ S.precision - 4))
      have e0 : (0 : ℚ) ≤ ((2 ^ S.precision - 4 : ℕ) : ℚ) := by positivity
      have g := two_zpow_pos (S.maxExp - S.precision)
      have i : ((2 ^ S.precision : ℕ) : ℚ) * 2 ^ (e - S.precision + 1) ≤ ((2 ^ S.precision : ℕ) : ℚ) * 2 ^ (S.maxExp - S.precision) :=
        mul_le_mul_of_nonneg_left b (by positivity)
      rw [hL, c] at hz
      nlinarith
    refine ⟨hee, ?_⟩
    rw [hL, hee] at hz
    have := lt_of_mul_lt_mul_right hz (two_zpow_pos _).le
    rw [Nat.cast_sub (by omega)] at this
    push_cast at this
    exact this
  unfold normalizeRound
  by_cases hb : x.isNanOnlyPattern = true
  · rw [if_pos hb, if_pos hb]
    rcases hm with ⟨rfl, rfl⟩ | ⟨rfl, rfl⟩ <;> rfl
  rcases hm with ⟨rfl, rfl⟩ | ⟨rfl, rfl⟩
  · exfalso
    apply hb
    rw [hpat]
    have hP : ((2 ^ S.precision - 1 : ℕ) : ℚ) * 2 ^ (S.maxExp - S.precision + 1) ≤ ((x.sig : ℚ) + f) * 2 ^ (e - S.precision + 1) := by
      by_contra hcc
      have := (hO (fun _ q => absurd q hcc)).1
      cases this
    have hPL : S.fmt.largest < ((2 ^ S.precision - 1 : ℕ) : ℚ) * 2 ^ (S.maxExp - S.precision + 1) := pattern_gt h hN
    obtain ⟨z1, -⟩ := hzone (hPL.trans_le hP)
    rw [z1] at hP
    have hP' := le_of_mul_le_mul_right hP (two_zpow_pos _)
    have hlt : ((2 ^ S.precision - 1 : ℕ) : ℚ) < ((x.sig + 1 : ℕ) : ℚ) := by push_cast at hP' ⊢; linarith
    have hlt' : 2 ^ S.precision - 1 < x.sig + 1 := by exact_mod_cast hlt
    refine ⟨hN, ?_, by omega⟩
    rw [← z1, he, if_neg (by omega)]
  · have hz : S.fmt.largest < ((x.sig : ℚ) + f) * 2 ^ (e - S.precision + 1) := (hO (fun q => nomatch q)).2.1
    obtain ⟨z1, z2⟩ := hzone hz
    have hge : 2 ^ S.precision - 2 ≤ x.sig := by
      have : ((2 ^ S.precision : ℕ) : ℚ) < ((x.sig + 3 : ℕ) : ℚ) := by push_cast; linarith
      have : 2 ^ S.precision < x.sig + 3 := by exact_mod_cast this
      omega
    have hexp : x.exp = S.maxExp := by rw [← z1, he, if_neg (by omega)]
    have hne : x.sig ≠ 2 ^ S.precision - 1 := fun q => hb (hpat.2 ⟨hN, hexp, q⟩)
    have hsig : x.sig = 2 ^ S.precision - 2 := by omega
    have hl : loss ≠ .exactlyZero := by
      intro q
      have hf0 := hf.zero_iff.1 q
      rw [hf0, hsig, Nat.cast_sub (by omega)] at z2
      push_cast at z2
      linarith
    rw [if_neg hb, if_neg hb, if_neg hl, if_neg hl, roundAwayFromZero_eq hcat hl (Or.inl (by norm_num)) (by omega),
      roundAwayFromZero_eq hcat hl (Or.inl (by norm_num)) (by omega), M.ok_bind, M.ok_bind]
    have hsz : Nat.size x.sig = S.precision := by
      rw [show S.precision = S.precision - 1 + 1 by omega]
      exact size_eq (by omega) (by rw [show S.precision - 1 + 1 = S.precision by omega]; omega)
    have hsz' : Nat.size (x.sig + 1) = S.precision := by
      rw [show S.precision = S.precision - 1 + 1 by omega]
      exact size_eq (by omega) (by rw [show S.precision - 1 + 1 = S.precision by omega]; omega)
    have hpat2 := isNanOnlyPattern_iff h (x := { x with sig := x.sig + 1 }) (show x.sig + 1 < _ by omega)
      (Or.inl (show 2 ^ (S.precision - 1) ≤ x.sig + 1 by omega))
    have hb2 : ({ x with sig := x.sig + 1 } : IeeeFloat S).isNanOnlyPattern = true := hpat2.2 ⟨hN, hexp, by show x.sig + 1 = _; omega⟩
    have hL2 : largest S = ⟨2 ^ S.precision - 2, S.maxExp, .normal, false⟩ := by
      have hl := largest_eq h
      have : ¬ S.fmt.hasInf = true := by rw [fmt_hasInf_iff, hN]; simp
      rw [if_neg this] at hl
      rw [← hl]; rfl
    have a1 : awayB .towardNegative x.sign loss (x.sig.testBit 0) = true := by rw [hs]; rfl
    have a2 : awayB .towardZero x.sign loss (x.sig.testBit 0) = false := rfl
    rw [a1, a2]
    simp only [if_true, Bool.false_eq_true, if_false]
    rw [if_neg (by rw [hsz]; omega)]
    simp only [increment_one (show x.sig + 1 < 2 ^ 128 by omega), massert_true, M.ok_bind, idx_singleton,
          omsb_one (show x.sig + 1 < 2 ^ 128 by omega)]
    rw [hsz', if_neg (by omega), if_pos hb2]
    unfold normalizeEnd
    rw [hsz, if_pos rfl]
    simp only [overflowResult, StatusAnd.map, Status.and, copySign_eq, hL2]
    obtain ⟨sg, ex, ct, sn⟩ := x
    simp only at hsig hexp hcat
    rw [hsig, hexp, hcat]

/-- `normalize` delivers the correctly rounded value of `±(sig + f) * 2^(exp - P + 1)`, where `f` is the
fraction described by `loss`. -/
theorem normalize_eff (h : S.OK) {x : IeeeFloat S} (hcat : x.category = .normal) {mode om : Round} {loss : Loss} {f : ℚ}
    (hs : x.sig < 2 ^ 128) (he1 : -1200000000 ≤ x.exp) (he2 : x.exp ≤ 1200000000) (hf : LossIs loss f)
    (hleft : loss ≠ .exactlyZero → x.sig ≠ 0 → S.precision ≤ Nat.size x.sig ∨ x.exp ≤ S.minExp) {m : ℚ}
    (hm : m = ((x.sig : ℚ) + f) * 2 ^ ((if x.sig = 0 then S.minExp else x.exp) - S.precision + 1))
    (hO : NanOnlyEff S mode x.sign m om) :
    Good S om (signed x.sign m) x.sign (x.normalize mode loss) := by
  have h2 := h.two_pow
  have h3 := h.half_ge
  have h4 := h.pow_le
  have hpm := h.p_max
  have hml := h.min_lt
  have hmg := h.min_ge
  have hMl := h.max_le
  have hpg := h.p_ge
  have hpl := h.p_le
  have f0 := hf.nonneg
  have f1 := hf.lt_one
  unfold normalize
  rw [isFiniteNonZero_of hcat]
  simp only [Bool.not_true, Bool.false_eq_true, if_false, omsb_one hs]
  by_cases h0 : x.sig = 0
  · rw [if_neg (by rw [h0]; simp)]
    rw [if_pos h0] at hm
    subst hm
    exact normalizeRound_eff h hcat hf (by rw [if_pos h0]) (le_refl _) (by omega) (by rw [h0]; positivity)
      (Or.inr rfl) hO
  · have hsp : 0 < Nat.size x.sig := Nat.size_pos.2 (by omega)
    have hsl : Nat.size x.sig ≤ 128 := Nat.size_le.2 hs
    have hlow := two_pow_size_le (Nat.pos_of_ne_zero h0)
    have hhigh := Nat.lt_size_self x.sig
    rw [if_pos hsp, asI32_of_lt (by omega), asI32_of_lt (by omega), sat32_of (by omega) (by omega)]
    rw [if_neg h0] at hm
    by_cases hbig : x.exp + ((Nat.size x.sig : ℤ) - S.precision) > S.maxExp
    · rw [if_pos hbig]
      have a : (2 : ℚ) ^ (S.maxExp + 1) ≤ m := by
        have b : (2 : ℚ) ^ (S.maxExp + 1) ≤ ((2 ^ (Nat.size x.sig - 1) : ℕ) : ℚ) * 2 ^ (x.exp - S.precision + 1) := by
          push_cast
          rw [← zpow_natCast, ← two_zpow_add]
          exact two_zpow_le (by omega)
        have c : ((2 ^ (Nat.size x.sig - 1) : ℕ) : ℚ) * 2 ^ (x.exp - S.precision + 1) ≤ m := by
          rw [hm]
          apply mul_le_mul_of_nonneg_right _ (two_zpow_pos _).le
          have : ((2 ^ (Nat.size x.sig - 1) : ℕ) : ℚ) ≤ x.sig := by exact_mod_cast hlow
          linarith
        linarith
      have hmo : om = mode := by
        rcases hO with ⟨-, q⟩ | ⟨q, -⟩
        · exact q
        · exact absurd (fun _ _ => ⟨fun _ _ => a, fun _ _ => a⟩) q
      subst hmo
      obtain ⟨g, hg⟩ := exists_rounded (F := S.fmt) (by simp; omega) (om.negateIf x.sign) m
      refine overflowResult_good h rfl hg ?_ (Or.inl rfl)
      have gr : S.fmt.Grid ((2 : ℚ) ^ (S.maxExp + 1)) := by
        rw [← pow_full h]
        exact grid_mk (F := S.fmt) (by simp; omega) (le_refl _) (by simp; omega)
      have := hg.ge_of_grid gr a
      linarith [full_gt h]
    · rw [if_neg hbig]
      generalize hfe : (if x.exp + ((Nat.size x.sig : ℤ) - S.precision) < S.minExp then S.minExp
        else x.exp + ((Nat.size x.sig : ℤ) - S.precision)) = fe
      have hfe1 : S.minExp ≤ fe ∧ fe ≤ S.maxExp ∧ x.exp + ((Nat.size x.sig : ℤ) - S.precision) ≤ fe ∧
          (fe = S.minExp ∨ fe = x.exp + ((Nat.size x.sig : ℤ) - S.precision)) := by
        subst hfe; split_ifs <;> omega
      obtain ⟨g1, g2, g3, g4⟩ := hfe1
      by_cases hlt : fe < x.exp
      · rw [if_pos hlt]
        have hl : loss = .exactlyZero := by
          by_contra hl
          have := hleft hl h0
          omega
        have hf0 : f = 0 := hf.zero_iff.1 hl
        subst hf0
        obtain ⟨k, hk⟩ : ∃ k : ℕ, x.exp - fe = k := ⟨(x.exp - fe).toNat, by omega⟩
        have hszk : Nat.size (x.sig * 2 ^ k) = Nat.size x.sig + k := size_mul_pow h0
        have hfit : x.sig * 2 ^ k < 2 ^ S.precision := by
          rw [← Nat.size_le, hszk]; omega
        rw [massert_pos hl, M.ok_bind, i32_ok (by omega) (by omega), M.ok_bind, hk, Int.toNat_natCast,
          shiftLeft1_ok hs (by omega) (by omega) (by omega), M.ok_bind, Nat.mod_eq_of_lt (by omega)]
        have hee : x.exp - (k : ℤ) = fe := by omega
        have hvv : ((x.sig * 2 ^ k : ℕ) : ℚ) * 2 ^ (fe - S.precision + 1) = m := by
          rw [hm]
          push_cast
          rw [← zpow_natCast, mul_assoc, ← two_zpow_add]
          rw [add_zero]; congr 2; omega
        have hval : ({ x with sig := x.sig * 2 ^ k, exp := x.exp - k } : IeeeFloat S).Valid := by
          simp only [Valid, hcat, hee]
          refine ⟨g1, g2, Nat.mul_pos (by omega) (by positivity), hfit, ?_, ?_⟩
          · rcases g4 with g4 | g4
            · exact Or.inr g4
            · left
              have : x.sig * 2 ^ k ≠ 0 := Nat.mul_ne_zero h0 (by positivity)
              have := two_pow_size_le (Nat.pos_of_ne_zero this)
              rw [hszk, show Nat.size x.sig + k - 1 = S.precision - 1 by omega] at this
              exact this
          · intro _ _ hc
            obtain ⟨j, rfl⟩ : ∃ j, k = j + 1 := ⟨k - 1, by omega⟩
            rw [pow_succ, ← mul_assoc, h2] at hc
            generalize x.sig * 2 ^ j = t at hc
            omega
        have := normal_good h (mode := om) (x := { x with sig := x.sig * 2 ^ k, exp := x.exp - k }) hcat
          (m := m) (st := Status.OK) hval ?_ ?_
        · exact this
        · simp only [hee]
          rw [hvv]
          apply isRounded_self
          rw [← hvv]
          exact grid_mk (F := S.fmt) (by simp; omega) hfit.le g1
        · simp only [hee]
          rw [hvv]
          simp [Status.OK]
      · rw [if_neg hlt]
        by_cases hgt : fe > x.exp
        · rw [if_pos hgt]
          obtain ⟨k, hk⟩ : ∃ k : ℕ, fe - x.exp = k := ⟨(fe - x.exp).toNat, by omega⟩
          rw [i32_ok (by omega) (by omega), M.ok_bind, hk, Int.toNat_natCast,
            shiftRight1_ok hs (by omega) (by omega) (by omega), M.ok_bind]
          have hee : x.exp + (k : ℤ) = fe := by omega
          simp only [hee]
          rw [← size_div]
          have hdm : x.sig = 2 ^ k * (x.sig / 2 ^ k) + x.sig % 2 ^ k := (Nat.div_add_mod _ _).symm
          have hdmq : (x.sig : ℚ) = 2 ^ k * ((x.sig / 2 ^ k : ℕ) : ℚ) + ((x.sig % 2 ^ k : ℕ) : ℚ) := by exact_mod_cast hdm
          have hvv : m = (((x.sig / 2 ^ k : ℕ) : ℚ) + (((x.sig % 2 ^ k : ℕ) : ℚ) + f) / 2 ^ k) * 2 ^ (fe - S.precision + 1) := by
            rw [hm, show fe - S.precision + 1 = (k : ℤ) + (x.exp - S.precision + 1) by omega, two_zpow_add k, zpow_natCast,
              ← mul_assoc]
            congr 1
            have : (2 : ℚ) ^ k ≠ 0 := by positivity
            rw [add_mul, div_mul_cancel₀ _ this]; linarith [hdmq]
          have hz : x.sig / 2 ^ k = 0 → fe = S.minExp := by
            intro hz
            rcases g4 with g4 | g4
            · exact g4
            · exfalso
              have : Nat.size (x.sig / 2 ^ k) = 0 := by rw [hz]; rfl
              rw [size_div] at this
              omega
          have hif : (if x.sig / 2 ^ k = 0 then S.minExp else fe) = fe := by
            split_ifs with hh
            · exact (hz hh).symm
            · rfl
          subst hvv
          refine normalizeRound_eff h (x := { x with sig := x.sig / 2 ^ k, exp := fe }) hcat
            (lossIs_combine (by omega) (Nat.mod_lt _ (by positivity)) hf) (by simp only [hif]) g1 g2 ?_ ?_ hO
          · show x.sig / 2 ^ k < 2 ^ S.precision
            rw [← Nat.size_le, size_div]; omega
          · rcases g4 with g4 | g4
            · exact Or.inr g4
            · left
              show 2 ^ (S.precision - 1) ≤ x.sig / 2 ^ k
              have hne : x.sig / 2 ^ k ≠ 0 := by
                intro hz
                have : Nat.size (x.sig / 2 ^ k) = 0 := by rw [hz]; rfl
                rw [size_div] at this
                omega
              have := two_pow_size_le (Nat.pos_of_ne_zero hne)
              rw [size_div, show Nat.size x.sig - k - 1 = S.precision - 1 by omega] at this
              exact this
        · rw [if_neg hgt]
          have hee : fe = x.exp := by omega
          subst hm
          refine normalizeRound_eff h hcat hf (by rw [if_neg h0]) (by omega) (by omega) ?_ ?_ hO
          · rw [← Nat.size_le]; omega
          · rcases g4 with g4 | g4
            · right; omega
            · left
              rw [show S.precision - 1 = Nat.size x.sig - 1 by omega]
              exact hlow

end IeeeFloat
end Apf
