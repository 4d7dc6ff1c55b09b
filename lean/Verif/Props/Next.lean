import Verif.Props.Integral
import Verif.Props.Consts
/-! # C14: `next_up` and `next_down` -/

namespace Apf
open Spec IeeeFloat

variable {S : Sem}

theorem testBit_top_iff (h : S.OK) {n : ℕ} (hn : n < 2 ^ S.precision) :
    n.testBit (S.precision - 1) = decide (2 ^ (S.precision - 1) ≤ n) := by
  have h2 := h.two_pow
  rw [Nat.testBit_eq_decide_div_mod_eq, decide_eq_decide]
  have hp := Nat.two_pow_pos (S.precision - 1)
  generalize 2 ^ (S.precision - 1) = a at *
  by_cases c : a ≤ n
  · have : n / a = 1 := Nat.div_eq_of_lt_le (by omega) (by omega)
    simp [c, this]
  · have : n / a = 0 := Nat.div_eq_of_lt (by omega)
    simp [c, this]

theorem setBit_one {s b : ℕ} (hs : s < 2 ^ 128) (hb : b < 128) : Sig.setBit [s] b = .ok [s ||| 2 ^ b] := by
  obtain ⟨r, h1, h2, h3, h4⟩ := setBit_ok (Limbs.one hs) (bit := b) (by simpa using hb)
  rw [h1]
  match r, h2 with
  | [a], _ => rw [val_singleton, val_singleton] at h4; rw [h4]

/-- The successor in magnitude of a positive normal value. -/
theorem nextUpNormal_pos (h : S.OK) {x : IeeeFloat S} (hx : x.Valid) (cx : x.category = .normal) (sx : x.sign = false)
    (hl : ¬ x.toRat = S.fmt.largest) :
    ∃ r, nextUpNormal x = .ok r ∧ r.Valid ∧ r.category = .normal ∧ r.sign = false ∧ Neighbours S.fmt x.toRat r.toRat := by
  have h3 := h.p_ge; have hp := h.p_le; have hple := h.pow_le; have h2 := h.two_pow
  have hmin := h.min_lt; have hmin' := h.min_ge; have hmax := h.max_le
  obtain ⟨x1, x2, x3, x4, x5, x6⟩ := Valid.normal hx cx
  have hpos := Nat.two_pow_pos (S.precision - 1)
  have hN := neighbours_mk (F := S.fmt) (n := x.sig) (e := x.exp) (by show 1 ≤ S.precision; omega) x4 x1 x5
  have xt : x.toRat = (x.sig : ℚ) * 2 ^ (x.exp - S.precision + 1) := by rw [toRat_normal cx, sx]; rfl
  have hle := h.half_ge
  -- not the largest
  have hnl : ¬ (x.exp = S.maxExp ∧ x.sig = 2 ^ S.precision - (if S.fmt.hasInf then 1 else 2)) := by
    rintro ⟨a, b⟩
    apply hl
    rw [← toRat_largest h, xt, toRat_normal rfl, largest_eq h, a, b]; rfl
  unfold nextUpNormal isNegative
  rw [shl_ok (by omega), M.ok_bind, one_mul, Nat.mod_eq_of_lt (by omega), sx, if_neg Bool.false_ne_true]
  have hden : x.isDenormal = false ↔ (2 ^ (S.precision - 1) ≤ x.sig) := by
    unfold isDenormal
    rw [isFiniteNonZero_of cx, testBit_top_iff h x4]
    by_cases c : 2 ^ (S.precision - 1) ≤ x.sig
    · simp [c]
    · simp [c, x5.resolve_left c]
  have hcr : (x.isDenormal = false ∧ x.sig &&& (2 ^ (S.precision - 1) - 1) = 2 ^ (S.precision - 1) - 1) ↔ x.sig = 2 ^ S.precision - 1 := by
    rw [hden, and_mask, h2]
    rw [h2] at x4
    generalize 2 ^ (S.precision - 1) = a at *
    constructor
    · rintro ⟨a1, a2⟩
      have : x.sig % a = x.sig - a := by rw [Nat.mod_eq_sub_mod a1, Nat.mod_eq_of_lt (by omega)]
      omega
    · intro e
      refine ⟨by omega, ?_⟩
      have : x.sig % a = x.sig - a := by rw [Nat.mod_eq_sub_mod (by omega), Nat.mod_eq_of_lt (by omega)]
      omega
  by_cases c : x.sig = 2 ^ S.precision - 1
  · rw [if_pos (by rw [decide_eq_true_iff]; exact hcr.2 c)]
    have he : x.exp ≠ S.maxExp := by
      intro e
      cases hn : S.nonfinite
      · exact hnl ⟨e, by rw [if_pos (fmt_hasInf_iff.2 hn)]; exact c⟩
      · exact x6 hn e c
    rw [setBit_one (by norm_num) (by omega), M.ok_bind]
    simp only [Nat.zero_or]
    rw [idx_ok (by simp), M.ok_bind, massert_pos he, M.ok_bind, i32_ok (by omega) (by omega), M.ok_bind]
    refine ⟨_, rfl, ?_, cx, rfl, ?_⟩
    · unfold Valid
      simp only [cx]
      simp only [List.getElem_cons_zero]
      exact ⟨by omega, by omega, hpos, by omega, Or.inl (le_refl _), fun _ _ => by omega⟩
    · rw [xt, toRat_normal (by exact cx)]
      simp only [sx, signed, Bool.false_eq_true, if_false, List.getElem_cons_zero]
      have e : ((2 ^ (S.precision - 1) : ℕ) : ℚ) * 2 ^ (x.exp + 1 - S.precision + 1) =
          ((x.sig + 1 : ℕ) : ℚ) * 2 ^ (x.exp - S.precision + 1) := by
        rw [c, show 2 ^ S.precision - 1 + 1 = 2 ^ S.precision by omega, pow_half h, pow_full h]
      rw [e]; exact hN
  · rw [if_neg (by rw [decide_eq_true_iff, hcr]; exact c), increment_one (by omega)]
    dsimp only
    rw [idx_ok (by simp), M.ok_bind]
    refine ⟨_, rfl, ?_, cx, rfl, ?_⟩
    · unfold Valid
      simp only [cx]
      simp only [List.getElem_cons_zero]
      refine ⟨x1, x2, by omega, by omega, by omega, fun hn e k => ?_⟩
      refine hnl ⟨e, ?_⟩
      have : S.fmt.hasInf = false := by
        cases hi : S.fmt.hasInf
        · rfl
        · rw [fmt_hasInf_iff.1 hi] at hn; cases hn
      rw [this]; simp only [Bool.false_eq_true, if_false]; omega
    · rw [xt, toRat_normal (by exact cx)]
      simp only [sx, signed, Bool.false_eq_true, if_false, List.getElem_cons_zero]
      exact hN

/-- The predecessor in magnitude of a negative normal value. -/
theorem nextUpNormal_neg (h : S.OK) {x : IeeeFloat S} (hx : x.Valid) (cx : x.category = .normal) (sx : x.sign = true)
    (hs : ¬ |x.toRat| = (SMALLEST S).toRat) :
    ∃ r, nextUpNormal x = .ok r ∧ r.Valid ∧ r.category = .normal ∧ r.sign = true ∧ Neighbours S.fmt (-r.toRat) (-x.toRat) := by
  have h3 := h.p_ge; have hp := h.p_le; have hple := h.pow_le; have h2 := h.two_pow
  have hmin := h.min_lt; have hmin' := h.min_ge; have hmax := h.max_le
  obtain ⟨x1, x2, x3, x4, x5, x6⟩ := Valid.normal hx cx
  have hpos := Nat.two_pow_pos (S.precision - 1)
  have xt : -x.toRat = (x.sig : ℚ) * 2 ^ (x.exp - S.precision + 1) := by
    rw [toRat_normal cx, sx]; simp only [signed, if_true]; ring
  have hle := h.half_ge
  have hns : ¬ (x.exp = S.minExp ∧ x.sig = 1) := by
    rintro ⟨a, b⟩
    apply hs
    rw [← abs_neg, xt, toRat_smallest, a, b]; simp
  unfold nextUpNormal isNegative
  rw [shl_ok (by omega), M.ok_bind, one_mul, Nat.mod_eq_of_lt (by omega), sx, if_pos rfl]
  rw [decrement_one (by omega) x3]
  dsimp only
  have hcr : (x.exp ≠ S.minExp ∧ x.sig &&& (2 ^ (S.precision - 1) - 1) = 0) ↔ x.exp ≠ S.minExp ∧ x.sig = 2 ^ (S.precision - 1) := by
    rw [and_mask]
    rw [h2] at x4
    generalize 2 ^ (S.precision - 1) = a at *
    apply and_congr_right
    intro e
    have hge := x5.resolve_right e
    have : x.sig % a = x.sig - a := by rw [Nat.mod_eq_sub_mod hge, Nat.mod_eq_of_lt (by omega)]
    omega
  by_cases c : x.exp ≠ S.minExp ∧ x.sig = 2 ^ (S.precision - 1)
  · rw [if_pos (by rw [decide_eq_true_iff]; exact hcr.2 c)]
    obtain ⟨c1, c2⟩ := c
    have hor : (x.sig - 1) ||| 2 ^ (S.precision - 1) = 2 ^ S.precision - 1 := by
      rw [c2, Nat.or_comm]
      have := Nat.two_pow_add_eq_or_of_lt (i := S.precision - 1) (b := 2 ^ (S.precision - 1) - 1) (by omega) 1
      rw [mul_one] at this
      rw [← this]; omega
    rw [setBit_one (by omega) (by omega), M.ok_bind, hor, idx_ok (by simp), M.ok_bind,
      i32_ok (by omega) (by omega), M.ok_bind]
    refine ⟨_, rfl, ?_, cx, rfl, ?_⟩
    · unfold Valid
      simp only [cx]
      simp only [List.getElem_cons_zero]
      exact ⟨by omega, by omega, by omega, by omega, Or.inl (by omega), fun _ _ => by omega⟩
    · have hN := neighbours_mk (F := S.fmt) (n := 2 ^ S.precision - 1) (e := x.exp - 1) (by show 1 ≤ S.precision; omega)
        (by show _ < 2 ^ S.precision; omega) (by show S.minExp ≤ _; omega) (Or.inl (by show 2 ^ (S.precision - 1) ≤ _; omega))
      rw [xt, toRat_normal (by exact cx)]
      simp only [sx, signed, if_true, List.getElem_cons_zero, neg_neg]
      have e : (x.sig : ℚ) * 2 ^ (x.exp - S.precision + 1) =
          ((2 ^ S.precision - 1 + 1 : ℕ) : ℚ) * 2 ^ (x.exp - 1 - S.precision + 1) := by
        rw [c2, show 2 ^ S.precision - 1 + 1 = 2 ^ S.precision by omega, pow_half h, pow_full h]
        congr 1; ring
      rw [e]; exact hN
  · rw [if_neg (by rw [decide_eq_true_iff, hcr]; exact c), idx_ok (by simp), M.ok_bind]
    have hc : 2 ^ (S.precision - 1) ≤ x.sig - 1 ∨ x.exp = S.minExp := by
      by_cases e : x.exp = S.minExp
      · exact Or.inr e
      · have := x5.resolve_right e
        have : x.sig ≠ 2 ^ (S.precision - 1) := fun k => c ⟨e, k⟩
        left; omega
    refine ⟨_, rfl, ?_, cx, rfl, ?_⟩
    · unfold Valid
      simp only [cx]
      simp only [List.getElem_cons_zero]
      exact ⟨x1, x2, by omega, by omega, hc, fun _ _ => by omega⟩
    · have hN := neighbours_mk (F := S.fmt) (n := x.sig - 1) (e := x.exp) (by show 1 ≤ S.precision; omega)
        (by show _ < 2 ^ S.precision; omega) x1 hc
      rw [xt, toRat_normal (by exact cx)]
      simp only [sx, signed, if_true, List.getElem_cons_zero, neg_neg]
      rw [show x.sig - 1 + 1 = x.sig by omega] at hN
      exact hN

/-- `r` is the next representable number above the finite `x`: it is larger, and no representable number is in between. -/
def IsSucc (x r : IeeeFloat S) : Prop :=
  x.toRat < r.toRat ∧ ∀ y : IeeeFloat S, y.Valid → y.isFinite = true → x.toRat < y.toRat → r.toRat ≤ y.toRat

/-- `r` is the next representable number below the finite `x`. -/
def IsPred (x r : IeeeFloat S) : Prop :=
  r.toRat < x.toRat ∧ ∀ y : IeeeFloat S, y.Valid → y.isFinite = true → y.toRat < x.toRat → y.toRat ≤ r.toRat

/-- **C14.** `next_up` of a finite value other than the largest: the next representable number above it, no flags; a zero
result (above the smallest negative number) is `-0`. -/
theorem C14_next_up (h : S.OK) {x : IeeeFloat S} (hx : x.Valid) (fx : x.isFinite = true)
    (hl : x.toRat ≠ (largest S).toRat) :
    ∃ r, nextUp x = .ok ⟨Status.OK, r⟩ ∧ r.Valid ∧ r.isFinite = true ∧ IsSucc x r ∧
      (r.toRat = 0 → r.sign = true) ∧ (r.toRat ≠ 0 → r.sign = decide (r.toRat < 0)) := by
  rw [toRat_largest h] at hl
  obtain ⟨s1, s2, s3⟩ := C38_smallest h
  obtain ⟨t1, t2, -⟩ := C38_tests h hx
  unfold nextUp isNegative
  rcases isFinite_iff.1 fx with cx | cx
  · simp only [cx]
    cases sx : x.sign
    · obtain ⟨xp, xa⟩ := sign_pos hx cx sx
      rw [if_neg (by simp), if_neg]
      · obtain ⟨r, r1, r2, r3, r4, r5⟩ := nextUpNormal_pos h hx cx sx hl
        rw [r1]
        have rf : r.isFinite = true := isFinite_iff.2 (Or.inl r3)
        have hlt := r5.lt
        refine ⟨r, rfl, r2, rf, ⟨hlt, fun y hy fy k => ?_⟩, fun e => absurd e (by linarith), fun _ => ?_⟩
        · rcases r5.gap _ (grid_toRat h hy fy) with e | e
          · linarith
          · exact e
        · rw [r4, eq_comm, decide_eq_false_iff_not]; linarith
      · simp only [Bool.not_false, Bool.and_true, t1]
        rintro ⟨-, e⟩
        rw [xa, toRat_largest h] at e; exact hl e
    · obtain ⟨xp, xa⟩ := sign_neg hx cx sx
      by_cases c : |x.toRat| = (SMALLEST S).toRat
      · rw [if_pos (by simp only [Bool.and_true]; exact t2.2 ⟨fx, c⟩)]
        have rt : ((ZERO S).neg).toRat = 0 := toRat_zero rfl
        refine ⟨_, rfl, neg_valid zero_valid, rfl, ⟨by rw [rt]; exact xp, fun y hy fy k => ?_⟩, fun _ => rfl, fun e => absurd rt e⟩
        rw [rt]
        by_contra c'
        push Not at c'
        have := s3 y.neg (neg_valid hy) (by rw [neg_toRat]; linarith)
        rw [neg_toRat, ← c, xa] at this
        linarith
      · rw [if_neg (by simp only [Bool.and_true]; exact fun e => c (t2.1 e).2), if_neg (by simp)]
        obtain ⟨r, r1, r2, r3, r4, r5⟩ := nextUpNormal_neg h hx cx sx c
        rw [r1]
        have rf : r.isFinite = true := isFinite_iff.2 (Or.inl r3)
        have hlt := r5.lt
        have rn := (sign_neg r2 r3 r4).1
        refine ⟨r, rfl, r2, rf, ⟨by linarith, fun y hy fy k => ?_⟩, fun e => absurd e (by linarith), fun _ => ?_⟩
        · rcases r5.gap _ (grid_toRat h hy fy).neg with e | e
          · linarith
          · linarith
        · rw [r4, eq_comm, decide_eq_true_iff]; linarith
  · simp only [cx]
    have xt := toRat_zero cx
    refine ⟨_, rfl, s1, rfl, ⟨by rw [xt]; exact s2, fun y hy fy k => s3 y hy (by rwa [xt] at k)⟩, fun e => absurd e s2.ne', fun _ => ?_⟩
    rw [eq_comm]
    show _ = false
    rw [decide_eq_false_iff_not]; linarith

example := C14_next_up halfS_ok (x := ⟨2 ^ 10, 3, .normal, true⟩) (by decide) rfl (by decide +kernel)

theorem infinity_sign_datum : (INFINITY S).datum = if S.fmt.hasInf then .inf false else .nan := by
  have e : ({ (INFINITY S) with sign := false } : IeeeFloat S) = INFINITY S := by
    unfold INFINITY; cases S.nonfinite <;> rfl
  rw [← e]; exact infinity_datum false

/-- **C14.** `next_up` of the other operands: the largest number goes to `+∞` (to the NaN, in the format without
infinities), `-∞` to the most negative number, `+∞` to itself; quiet NaNs are returned unchanged, signaling ones are
replaced by a quiet NaN of the same sign, with `INVALID_OP`. -/
theorem C14_next_up_specials (h : S.OK) {x : IeeeFloat S} (hx : x.Valid) :
    (x.isFinite = true → x.toRat = (largest S).toRat → ∃ r, nextUp x = .ok ⟨Status.OK, r⟩ ∧ r.Valid ∧
      r.datum = if S.fmt.hasInf then .inf false else .nan) ∧
    (x.isInfinite = true → x.sign = false → nextUp x = .ok ⟨Status.OK, x⟩) ∧
    (x.isInfinite = true → x.sign = true → ∃ r, nextUp x = .ok ⟨Status.OK, r⟩ ∧ r.Valid ∧ r.isFinite = true ∧
      r.toRat = -(largest S).toRat) ∧
    (x.isNan = true → x.isSignaling = false → nextUp x = .ok ⟨Status.OK, x⟩) ∧
    (x.isNan = true → x.isSignaling = true → ∃ r, nextUp x = .ok ⟨Status.INVALID_OP, r⟩ ∧ r.Valid ∧ r.isNan = true ∧
      r.isSignaling = false ∧ r.sign = x.sign) := by
  unfold nextUp isNegative
  refine ⟨fun fx e => ?_, fun c s => ?_, fun c s => ?_, fun c s => ?_, fun c s => ?_⟩
  · have hlp := largest_pos h
    rw [toRat_largest h] at e
    have cx : x.category = .normal := by
      rcases isFinite_iff.1 fx with c | c
      · exact c
      · rw [toRat_zero c] at e; linarith
    have sx : x.sign = false := by
      cases sx : x.sign
      · rfl
      · have := (sign_neg hx cx sx).1; linarith
    simp only [cx, sx]
    rw [if_neg (by simp), if_pos]
    · refine ⟨_, rfl, infinity_valid h, ?_⟩
      exact infinity_sign_datum (S := S)
    · simp only [Bool.not_false, Bool.and_true, (C38_tests h hx).1]
      exact ⟨fx, by rw [e, toRat_largest h, abs_of_pos hlp]⟩
  · have c : x.category = .infinity := by simpa [isInfinite] using c
    simp only [c, s]; rfl
  · have c : x.category = .infinity := by simpa [isInfinite] using c
    simp only [c, s]
    exact ⟨_, rfl, neg_valid (largest_valid h), rfl, by rw [neg_toRat]⟩
  · have c : x.category = .nan := by simpa [isNan] using c
    simp only [c, s]; rfl
  · have c : x.category = .nan := by simpa [isNan] using c
    simp only [c, s]
    refine ⟨_, rfl, ?_, ?_, ?_, ?_⟩
    · rw [copySign_eq]; exact (valid_sign _).2 (nan_valid h)
    · rw [copySign_eq]; rfl
    · rw [copySign_eq]; exact nan_quiet (S := S)
    · rw [copySign_eq]

example := (C14_next_up_specials halfS_ok (x := largest halfS) (by decide)).1 rfl rfl

/-- **C14.** `next_down` is the mirror image of `next_up`. -/
theorem C14_next_down (h : S.OK) {x : IeeeFloat S} (hx : x.Valid) (fx : x.isFinite = true)
    (hl : x.toRat ≠ -(largest S).toRat) :
    ∃ r, nextDown x = .ok ⟨Status.OK, r⟩ ∧ r.Valid ∧ r.isFinite = true ∧ IsPred x r ∧
      (r.toRat = 0 → r.sign = false) ∧ (r.toRat ≠ 0 → r.sign = decide (r.toRat < 0)) := by
  obtain ⟨r, r1, r2, r3, ⟨r4, r5⟩, r6, r7⟩ := C14_next_up h (neg_valid hx) (by rw [neg_finite]; exact fx)
    (by rw [neg_toRat]; intro e; apply hl; linarith)
  rw [neg_toRat] at r4 r5
  unfold nextDown
  rw [r1]
  have e3 : r.neg.sign = !r.sign := by rw [neg_eq]
  refine ⟨r.neg, rfl, neg_valid r2, by rw [neg_finite]; exact r3, ⟨by rw [neg_toRat]; linarith, fun y hy fy k => ?_⟩, ?_, ?_⟩
  · have := r5 y.neg (neg_valid hy) (by rw [neg_finite]; exact fy) (by rw [neg_toRat]; linarith)
    rw [neg_toRat] at this ⊢; linarith
  · rw [neg_toRat, e3]; intro e; rw [r6 (by linarith)]; rfl
  · rw [neg_toRat, e3]; intro e
    have hne : r.toRat ≠ 0 := fun k => e (by linarith)
    rw [r7 hne, ← decide_not, decide_eq_decide]
    constructor
    · intro k; push Not at k; rcases lt_or_eq_of_le k with k | k
      · linarith
      · exact absurd k.symm hne
    · intro k; push Not; linarith

example := C14_next_down singleS_ok (x := ⟨1, -126, .normal, false⟩) (by decide) rfl (by decide +kernel)

/-- **C14.** `next_down` of the other operands. -/
theorem C14_next_down_specials (h : S.OK) {x : IeeeFloat S} (hx : x.Valid) :
    (x.isFinite = true → x.toRat = -(largest S).toRat → ∃ r, nextDown x = .ok ⟨Status.OK, r⟩ ∧ r.Valid ∧
      r.datum = if S.fmt.hasInf then .inf true else .nan) ∧
    (x.isInfinite = true → x.sign = true → nextDown x = .ok ⟨Status.OK, x⟩) ∧
    (x.isInfinite = true → x.sign = false → ∃ r, nextDown x = .ok ⟨Status.OK, r⟩ ∧ r.Valid ∧ r.isFinite = true ∧
      r.toRat = (largest S).toRat) ∧
    (x.isNan = true → x.isSignaling = false → nextDown x = .ok ⟨Status.OK, x⟩) ∧
    (x.isNan = true → x.isSignaling = true → ∃ r, nextDown x = .ok ⟨Status.INVALID_OP, r⟩ ∧ r.Valid ∧ r.isNan = true ∧
      r.isSignaling = false ∧ r.sign = x.sign) := by
  have e1 : x.neg.isNan = x.isNan := by rw [neg_eq]; rfl
  have e2 : x.neg.isInfinite = x.isInfinite := by rw [neg_eq]; rfl
  have e3 : ∀ x : IeeeFloat S, x.neg.sign = !x.sign := fun x => by rw [neg_eq]
  have e4 : ∀ x : IeeeFloat S, x.neg.isSignaling = x.isSignaling := fun x => by rw [neg_eq]; rfl
  have e5 : x.neg.neg = x := by rw [neg_eq, neg_eq]; simp
  obtain ⟨a1, a2, a3, a4, a5⟩ := C14_next_up_specials h (neg_valid hx)
  rw [neg_finite, neg_toRat] at a1
  rw [e2, e3] at a2 a3
  rw [e1, e4] at a4 a5
  rw [e3] at a5
  unfold nextDown
  refine ⟨fun c e => ?_, fun c s => ?_, fun c s => ?_, fun c s => ?_, fun c s => ?_⟩
  · obtain ⟨r, r1, r2, r3⟩ := a1 c (by linarith)
    rw [r1]
    refine ⟨r.neg, rfl, neg_valid r2, ?_⟩
    rw [datum_neg, r3]
    split_ifs <;> rfl
  · rw [a2 c (by simp [s])]
    simp only [bind, Except.bind, StatusAnd.map, e5]
  · obtain ⟨r, r1, r2, r3, r4⟩ := a3 c (by simp [s])
    rw [r1]
    exact ⟨r.neg, rfl, neg_valid r2, by rw [neg_finite]; exact r3, by rw [neg_toRat, r4, neg_neg]⟩
  · rw [a4 c s]
    simp only [bind, Except.bind, StatusAnd.map, e5]
  · obtain ⟨r, r1, r2, r3, r4, r5⟩ := a5 c s
    rw [r1]
    refine ⟨r.neg, rfl, neg_valid r2, by rw [neg_eq]; exact r3, by rw [e4]; exact r4, by rw [e3, r5]; simp⟩

example := C14_next_down_specials singleS_ok (x := ⟨5, 128, .nan, true⟩) (by decide)

/-- **C14.** The two are inverse on finite values whose neighbour is finite (up to the sign of zero). -/
theorem C14_inverse (h : S.OK) {x : IeeeFloat S} (hx : x.Valid) (fx : x.isFinite = true)
    (hl : x.toRat ≠ (largest S).toRat) :
    ∃ u d, nextUp x = .ok ⟨Status.OK, u⟩ ∧ nextDown u = .ok ⟨Status.OK, d⟩ ∧ d.isFinite = true ∧ d.toRat = x.toRat := by
  obtain ⟨u, u1, u2, u3, ⟨u4, u5⟩, -, -⟩ := C14_next_up h hx fx hl
  have hxl := ((C38_largest h).2.2 x hx fx).2
  obtain ⟨d, d1, d2, d3, ⟨d4, d5⟩, -, -⟩ := C14_next_down h u2 u3 (by intro e; linarith)
  refine ⟨u, d, u1, d1, d3, ?_⟩
  have k1 := d5 x hx fx u4
  by_contra c
  have k2 := u5 d d2 d3 (lt_of_le_of_ne k1 (Ne.symm c))
  linarith

example : (SMALLEST singleS).neg.Valid ∧ nextUp (SMALLEST singleS).neg = .ok ⟨Status.OK, (ZERO singleS).neg⟩ ∧
    nextUp (⟨0xffffff, 3, .normal, false⟩ : IeeeFloat singleS) = .ok ⟨Status.OK, ⟨0x800000, 4, .normal, false⟩⟩ := by
  refine ⟨by decide +kernel, by decide +kernel, by decide +kernel⟩

end Apf
