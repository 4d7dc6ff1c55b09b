import Verif.Proof.Div
import Verif.Proof.Round
import Verif.Spec.Float
/-! # `normalize` rounds correctly -/

namespace Apf
open Spec

/-! ### Lost fractions as rationals -/

/-- `l` classifies the fraction `f`, `0 ≤ f < 1`, of a unit in the last place. -/
def LossIs (l : Loss) (f : ℚ) : Prop :=
  match l with
  | .exactlyZero => f = 0
  | .lessThanHalf => 0 < f ∧ f < 1 / 2
  | .exactlyHalf => f = 1 / 2
  | .moreThanHalf => 1 / 2 < f ∧ f < 1

theorem LossIs.nonneg {l : Loss} {f : ℚ} (h : LossIs l f) : 0 ≤ f := by
  cases l <;> simp only [LossIs] at h <;> first | linarith | linarith [h.1]

theorem LossIs.lt_one {l : Loss} {f : ℚ} (h : LossIs l f) : f < 1 := by
  cases l <;> simp only [LossIs] at h <;> first | linarith | linarith [h.2]

theorem LossIs.zero_iff {l : Loss} {f : ℚ} (h : LossIs l f) : l = .exactlyZero ↔ f = 0 := by
  cases l <;> simp only [LossIs] at h <;> simp
  · exact h
  · linarith [h.1]
  · linarith
  · linarith [h.1]

theorem LossIs.pos {l : Loss} {f : ℚ} (h : LossIs l f) (hl : l ≠ .exactlyZero) : 0 < f :=
  lt_of_le_of_ne h.nonneg (fun e => hl (h.zero_iff.2 e.symm))

theorem lossIs_lossOf {r d : Nat} (h : r < d) : LossIs (lossOf r d) ((r : ℚ) / d) := by
  have hd : (0 : ℚ) < d := by exact_mod_cast (by omega : 0 < d)
  unfold lossOf
  split_ifs with h0 h1 h2
  · subst h0; simp [LossIs]
  · have : (2 * r : ℚ) < d := by exact_mod_cast h1
    refine ⟨by apply div_pos _ hd; exact_mod_cast (by omega : 0 < r), ?_⟩
    rw [div_lt_iff₀ hd]; linarith
  · have : (2 * r : ℚ) = d := by exact_mod_cast h2
    show (r : ℚ) / d = 1 / 2
    rw [div_eq_iff hd.ne']; linarith
  · have a : (d : ℚ) < 2 * r := by exact_mod_cast (by omega : d < 2 * r)
    have b : (r : ℚ) < d := by exact_mod_cast h
    refine ⟨?_, ?_⟩
    · rw [lt_div_iff₀ hd]; linarith
    · rw [div_lt_iff₀ hd]; linarith

/-- Combining the loss of a right shift with an earlier one. -/
theorem lossIs_combine {r k : Nat} {l : Loss} {f : ℚ} (hk : 1 ≤ k) (h : r < 2 ^ k) (hf : LossIs l f) :
    LossIs ((lossOf r (2 ^ k)).combine l) (((r : ℚ) + f) / 2 ^ k) := by
  have hd : (0 : ℚ) < 2 ^ k := by positivity
  have f0 := hf.nonneg
  have f1 := hf.lt_one
  by_cases hl : l = .exactlyZero
  · have : f = 0 := hf.zero_iff.1 hl
    subst hl; subst this
    have := lossIs_lossOf h
    push_cast at this
    simpa [Loss.combine] using this
  · have fp := hf.pos hl
    obtain ⟨j, rfl⟩ : ∃ j, k = j + 1 := ⟨k - 1, by omega⟩
    have hj : (2 : ℚ) ^ (j + 1) = 2 * 2 ^ j := by ring
    have hjn : (2 : ℕ) ^ (j + 1) = 2 * 2 ^ j := by ring
    have one : (1 : ℚ) ≤ 2 ^ j := one_le_pow₀ (by norm_num)
    have hc : ∀ m : Loss, m.combine l = if m = .exactlyZero then .lessThanHalf else if m = .exactlyHalf then
        .moreThanHalf else m := by intro m; simp [Loss.combine, hl]
    rw [hc, hj, hjn]
    by_cases h0 : r = 0
    · subst h0
      rw [show lossOf 0 (2 * 2 ^ j) = .exactlyZero from rfl]
      simp only [if_true, LossIs]
      refine ⟨by positivity, ?_⟩
      rw [div_lt_iff₀ (by positivity)]; push_cast; linarith
    · rcases lt_trichotomy r (2 ^ j) with h1 | h1 | h1
      · rw [show lossOf r (2 * 2 ^ j) = .lessThanHalf by unfold lossOf; rw [if_neg h0, if_pos (by omega)]]
        have h1'' : (r : ℚ) + 1 ≤ 2 ^ j := by exact_mod_cast h1
        simp only [reduceCtorEq, if_false, LossIs]
        refine ⟨by positivity, ?_⟩
        rw [div_lt_iff₀ (by positivity)]; linarith
      · rw [show lossOf r (2 * 2 ^ j) = .exactlyHalf by unfold lossOf; rw [if_neg h0, if_neg (by omega), if_pos (by omega)]]
        have h2'' : (r : ℚ) = 2 ^ j := by exact_mod_cast h1
        simp only [reduceCtorEq, if_false, if_true, LossIs]
        constructor
        · rw [lt_div_iff₀ (by positivity)]; linarith
        · rw [div_lt_iff₀ (by positivity)]; linarith
      · rw [show lossOf r (2 * 2 ^ j) = .moreThanHalf by
          unfold lossOf; rw [if_neg h0, if_neg (by omega), if_neg (by omega)]]
        have h2'' : (2 : ℚ) ^ j + 1 ≤ r := by exact_mod_cast h1
        have h3'' : (r : ℚ) + 1 ≤ 2 * 2 ^ j := by rw [← hj]; exact_mod_cast h
        simp only [reduceCtorEq, if_false, LossIs]
        constructor
        · rw [lt_div_iff₀ (by positivity)]; linarith
        · rw [div_lt_iff₀ (by positivity)]; linarith

/-! ### Sign plumbing -/

namespace IeeeFloat
variable {S : Sem}

theorem neg_eq (x : IeeeFloat S) : x.neg = { x with sign := !x.sign } := rfl

theorem copySign_eq (x y : IeeeFloat S) : x.copySign y = { x with sign := y.sign } := by
  unfold copySign isNegative
  obtain ⟨a, b, c, s⟩ := x
  cases s <;> cases hy : y.sign <;> simp [neg_eq]

theorem withSign_eq (x : IeeeFloat S) (s : Bool) : x.withSign s = { x with sign := s } := by
  unfold withSign negateIf isNegative
  obtain ⟨a, b, c, t⟩ := x
  cases s <;> cases t <;> simp [neg_eq]

theorem abs_eq (x : IeeeFloat S) : x.abs = { x with sign := false } := by
  unfold abs isNegative
  obtain ⟨a, b, c, t⟩ := x
  cases t <;> simp [neg_eq]

theorem negateIf_eq (x : IeeeFloat S) (s : Bool) : x.negateIf s = { x with sign := xor x.sign s } := by
  unfold negateIf
  obtain ⟨a, b, c, t⟩ := x
  cases s <;> cases t <;> simp [neg_eq]

theorem valid_sign {x : IeeeFloat S} (s : Bool) : ({ x with sign := s } : IeeeFloat S).Valid ↔ x.Valid := Iff.rfl

theorem isFiniteNonZero_iff (x : IeeeFloat S) : x.isFiniteNonZero = true ↔ x.category = .normal := by
  unfold isFiniteNonZero isFinite isNan isInfinite isZero
  cases x.category <;> simp

theorem isFiniteNonZero_of {x : IeeeFloat S} (h : x.category = .normal) : x.isFiniteNonZero = true :=
  (isFiniteNonZero_iff x).2 h

end IeeeFloat

namespace Sem.OK
variable {S : Sem}

theorem base_eq_of_nanOnly (h : S.OK) (hn : S.nonfinite = .nanOnly) : S.nanSignificandBase = 2 ^ (S.precision - 1) - 1 :=
  (h.nanOnly hn).1

theorem two_pow (h : S.OK) : 2 ^ S.precision = 2 * 2 ^ (S.precision - 1) := by
  have := h.p_ge
  conv_lhs => rw [show S.precision = S.precision - 1 + 1 by omega]
  ring

theorem half_ge (h : S.OK) : 4 ≤ 2 ^ (S.precision - 1) := by
  have := h.p_ge
  calc 4 = 2 ^ 2 := by norm_num
    _ ≤ _ := Nat.pow_le_pow_right (by norm_num) (by omega)

theorem pow_le (h : S.OK) : 2 ^ S.precision ≤ 2 ^ 126 := Nat.pow_le_pow_right (by norm_num) h.p_le

end Sem.OK

namespace IeeeFloat
variable {S : Sem}

theorem and_mask (a k : Nat) : a &&& (2 ^ k - 1) = a % 2 ^ k := Nat.and_two_pow_sub_one_eq_mod a k

/-- The `NanOnly` check of `normalize`. -/
theorem isNanOnlyPattern_iff (h : S.OK) {x : IeeeFloat S} (hx : x.sig < 2 ^ S.precision)
    (hc : 2 ^ (S.precision - 1) ≤ x.sig ∨ x.exp = S.minExp ∨ x.sig = 0) :
    x.isNanOnlyPattern = true ↔ S.nonfinite = .nanOnly ∧ x.exp = S.maxExp ∧ x.sig = 2 ^ S.precision - 1 := by
  unfold isNanOnlyPattern NAN qnan
  have h2 := h.two_pow
  have h3 := h.half_ge
  have h4 := h.p_max
  have h5 := h.min_lt
  cases hn : S.nonfinite with
  | ieee754 => simp
  | nanOnly =>
    obtain ⟨b1, b2, b3, b4⟩ := h.nanOnly hn
    simp only [b1, b2, b3, Nat.or_zero, and_mask, Bool.and_eq_true, beq_iff_eq, true_and, beq_self_eq_true]
    constructor
    · rintro ⟨e1, e2⟩
      refine ⟨e1, ?_⟩
      generalize 2 ^ (S.precision - 1) = q at *
      rcases hc with hc | hc | hc
      · have := Nat.mod_eq_sub_mod hc
        rw [this, Nat.mod_eq_of_lt (by omega)] at e2
        omega
      · omega
      · rw [hc] at e2; simp at e2; omega
    · rintro ⟨e1, e2⟩
      refine ⟨e1, ?_⟩
      rw [e2, h2]
      generalize 2 ^ (S.precision - 1) = q at *
      rw [show 2 * q - 1 = (q - 1) + q by omega, Nat.add_mod_right, Nat.mod_eq_of_lt (by omega)]

/-! ### Delivering results -/

/-- A call returns a well-formed float with sign bit `s` that correctly delivers `v`. -/
def Good (S : Sem) (mode : Round) (v : ℚ) (s : Bool) (res : M (StatusAnd (IeeeFloat S))) : Prop :=
  ∃ r, res = .ok r ∧ r.value.Valid ∧ r.value.sign = s ∧ Delivers S.fmt mode v s r.value.datum r.status

@[simp] theorem fmt_p : S.fmt.p = S.precision := rfl
@[simp] theorem fmt_emin : S.fmt.emin = S.minExp := rfl
@[simp] theorem fmt_emax : S.fmt.emax = S.maxExp := rfl

theorem fmt_hasInf_iff : S.fmt.hasInf = true ↔ S.nonfinite = .ieee754 := by
  unfold Sem.fmt; cases S.nonfinite <;> simp <;> decide

theorem delivers_num {mode : Round} {s : Bool} {m g : ℚ} {F : Fmt} (h : IsRounded F (mode.negateIf s) m g)
    (hg : 0 ≤ g) (hle : g ≤ F.largest) :
    Delivers F mode (signed s m) s (.num s (signed s g))
      { inexact := decide (g ≠ m), underflow := decide (g ≠ m ∧ g < F.smallestNormal) } := by
  refine ⟨signed s g, h.signed, Or.inl ⟨?_, rfl, ?_⟩⟩
  · rw [abs_signed s hg]; exact hle
  · rw [abs_signed s hg]; simp only [ne_eq, signed_inj]

theorem delivers_overflow {mode : Round} {s : Bool} {m g : ℚ} {F : Fmt} (h : IsRounded F (mode.negateIf s) m g)
    (hg : 0 ≤ g) (hle : F.largest < g) {d : Datum} {st : Status} (ho : (d, st) = overflowed F mode s) :
    Delivers F mode (signed s m) s d st := by
  refine ⟨signed s g, h.signed, Or.inr ⟨?_, ho⟩⟩
  rw [abs_signed s hg]; exact hle

theorem datum_normal {x : IeeeFloat S} (h : x.category = .normal) :
    x.datum = .num x.sign (signed x.sign ((x.sig : ℚ) * 2 ^ (x.exp - S.precision + 1))) := by
  simp [datum, toRat, h]

theorem largest_eq (h : S.OK) : (largest S).sig = 2 ^ S.precision - (if S.fmt.hasInf then 1 else 2) := by
  have h2 := h.two_pow
  have hle := h.pow_le
  have h3 := h.half_ge
  unfold largest
  by_cases hn : S.fmt.hasInf = true
  · rw [if_pos hn]
    have := fmt_hasInf_iff.1 hn
    simp only [this]
    rw [show lnot 0 = 2 ^ 128 - 1 by decide, and_mask, Nat.mod_eq_of_lt]
    omega
  · rw [if_neg hn]
    have : S.nonfinite = .nanOnly := by
      cases hh : S.nonfinite with
      | ieee754 => exact absurd (fmt_hasInf_iff.2 hh) hn
      | nanOnly => rfl
    simp only [this]
    apply Nat.eq_of_testBit_eq
    intro i
    rw [Nat.testBit_and, Nat.testBit_two_pow_sub_one, show lnot 1 = 2 * (2 ^ 127 - 1) by decide]
    have e : 2 ^ S.precision - 2 = 2 * (2 ^ (S.precision - 1) - 1) := by omega
    have := h.p_le
    rw [e]
    cases i with
    | zero => simp [Nat.testBit_zero]
    | succ i =>
      simp only [Nat.testBit_succ, Nat.mul_div_cancel_left _ (show 0 < 2 by norm_num), Nat.testBit_two_pow_sub_one]
      by_cases h1 : i + 1 < S.precision
      · simp [h1, show i < 127 by omega, show i < S.precision - 1 by omega]
      · simp [h1, show ¬ i < S.precision - 1 by omega]

theorem largest_toRat (h : S.OK) : ((largest S).sig : ℚ) * 2 ^ ((largest S).exp - S.precision + 1) = S.fmt.largest := by
  have h3 := h.half_ge
  have h2 := h.two_pow
  rw [largest_eq h]
  show _ = (2 ^ S.precision - (if S.fmt.hasInf then 1 else 2)) * 2 ^ (S.maxExp - S.precision + 1)
  congr 1
  split_ifs
  · rw [Nat.cast_sub (by omega)]; push_cast; rfl
  · rw [Nat.cast_sub (by omega)]; push_cast; rfl

theorem largest_valid (h : S.OK) : (largest S).Valid := by
  have h3 := h.half_ge
  have h2 := h.two_pow
  have h4 := h.p_max
  have h5 := h.min_lt
  have e := largest_eq h
  show S.minExp ≤ S.maxExp ∧ S.maxExp ≤ S.maxExp ∧ 0 < (largest S).sig ∧ (largest S).sig < 2 ^ S.precision ∧
    (2 ^ (S.precision - 1) ≤ (largest S).sig ∨ S.maxExp = S.minExp) ∧
    (S.nonfinite = .nanOnly → S.maxExp = S.maxExp → (largest S).sig ≠ 2 ^ S.precision - 1)
  rw [e]
  refine ⟨by omega, le_refl _, by split_ifs <;> omega, by split_ifs <;> omega, Or.inl (by split_ifs <;> omega), ?_⟩
  intro hn _
  have : ¬ S.fmt.hasInf = true := by rw [fmt_hasInf_iff, hn]; simp
  rw [if_neg this]; omega

theorem nan_valid (h : S.OK) : (NAN S).Valid := by
  have h3 := h.half_ge
  have h2 := h.two_pow
  unfold NAN qnan Valid
  simp only [Nat.or_zero]
  cases hn : S.nonfinite with
  | ieee754 =>
    obtain ⟨b1, b2, b3⟩ := h.ieee hn
    simp only [b1, Nat.zero_or]
    rcases b3 with ⟨b3, b4⟩ | ⟨b3, b4, b5⟩
    · simp only [b3, b4]
      have := h.p_ge
      refine ⟨by positivity, Nat.pow_lt_pow_right (by norm_num) (by omega)⟩
    · simp only [b3, b4, b5]
      norm_num
  | nanOnly =>
    obtain ⟨b1, b2, b3, b4⟩ := h.nanOnly hn
    simp only [b3, Nat.or_zero]

theorem infinity_valid (h : S.OK) : (INFINITY S).Valid := by
  unfold INFINITY
  cases hn : S.nonfinite with
  | ieee754 => simp [Valid, hn]
  | nanOnly => simpa using nan_valid h

theorem infinity_datum (s : Bool) : ({ (INFINITY S) with sign := s } : IeeeFloat S).datum =
    if S.fmt.hasInf then .inf s else .nan := by
  unfold INFINITY
  cases hn : S.nonfinite with
  | ieee754 => simp [datum, fmt_hasInf_iff.2 hn]
  | nanOnly =>
    have : ¬ S.fmt.hasInf = true := by rw [fmt_hasInf_iff, hn]; simp
    simp [datum, this, NAN, qnan]

/-- `overflow_result` is the specified replacement, once the mode has been adjusted for the sign. -/
theorem overflowResult_good (h : S.OK) {mode mode' : Round} {s : Bool} {x : IeeeFloat S} (hs : x.sign = s) {m g : ℚ}
    (hr : IsRounded S.fmt (mode.negateIf s) m g) (hg : S.fmt.largest < g)
    (hm : mode' = mode.negateIf s ∨ mode' = mode ∧ (mode.neg = mode ∨ s = false)) :
    Good S mode (signed s m) s (.ok ((overflowResult S mode').map (·.copySign x))) := by
  have hm' : mode' = mode.negateIf s := by
    rcases hm with h | ⟨h, h'⟩
    · exact h
    · rw [h]
      rcases h' with h' | h'
      · unfold Round.negateIf; split_ifs <;> simp [h']
      · simp [Round.negateIf, h']
  have hpos : 0 ≤ S.fmt.largest := by
    rw [← largest_toRat h]; positivity
  refine ⟨_, rfl, ?_, ?_, ?_⟩
  · simp only [StatusAnd.map, copySign_eq, valid_sign]
    unfold overflowResult
    cases mode' <;> simp only [Status.and] <;> first | exact infinity_valid h | exact largest_valid h
  · simp only [StatusAnd.map, copySign_eq, hs]
  · apply delivers_overflow hr (by linarith) hg
    subst hm'
    have hl : ({ (largest S) with sign := s } : IeeeFloat S).datum = .num s (signed s S.fmt.largest) := by
      rw [datum_normal rfl, ← largest_toRat h]
    simp only [StatusAnd.map, copySign_eq, hs]
    cases mode <;> cases s <;> simp [Round.negateIf, Round.neg, overflowResult, Status.and, overflowed, infinity_datum, hl,
      Status.INEXACT] <;> rfl

end IeeeFloat
end Apf
