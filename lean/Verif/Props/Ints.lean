import Verif.Props.Compare
import Verif.Props.Arith
import Verif.Spec.Int
/-! # C17 to C20: conversions from and to integers -/

namespace Apf
open Spec IeeeFloat

variable {S : Sem}

/-! ## C17 -/

theorem directedOK_of_nonneg (h : S.OK) (mode : Round) {v : ℚ} (hv : 0 ≤ v) : DirectedOK S mode v :=
  directedOK_of_ge h mode (by have := largest_pos h; linarith)

/-- **C17.** `from_u128_r` is correctly rounded, for every 128-bit unsigned integer; `0` gives `+0`. -/
theorem C17_from_u128 (h : S.OK) {n : ℕ} (hn : n < 2 ^ 128) (mode : Round) :
    ∃ r, fromU128R S n mode = .ok r ∧ r.value.Valid ∧ Rounds S mode n false r := by
  have := h.p_ge; have := h.p_le
  unfold fromU128R
  rw [asI32_of_lt (by omega), i32_ok (by omega) (by omega)]
  simp only [bind, Except.bind]
  refine Good.rounds (s := false) (normalize_good' h (x := ⟨n, (S.precision : ℤ) - 1, .normal, false⟩) rfl (f := 0) hn (by simp only; omega)
    (by simp only; omega) (show LossIs .exactlyZero 0 from rfl) (fun e => absurd rfl e) ?_ (directedOK_of_nonneg h _ (by positivity))) ⟨n, by positivity, rfl⟩ (fun _ => rfl)
  simp only [signed, Bool.false_eq_true, if_false, add_zero]
  split_ifs with e
  · simp [e]
  · rw [show (S.precision : ℤ) - 1 - S.precision + 1 = 0 by ring]; simp

example := C17_from_u128 halfS_ok (n := 2 ^ 127 + 1) (by norm_num) .towardZero

/-- **C17.** `from_i128_r` is correctly rounded, for every 128-bit signed integer. -/
theorem C17_from_i128 (h : S.OK) {n : ℤ} (h1 : -2 ^ 127 ≤ n) (h2 : n < 2 ^ 127) (mode : Round) :
    ∃ r, fromI128R S n mode = .ok r ∧ r.value.Valid ∧ Rounds S mode n false r := by
  unfold fromI128R
  split_ifs with c
  · obtain ⟨r, a, b, d, e⟩ := C17_from_u128 h (n := (-n).toNat) (by omega) mode.neg
    have en : (((-n).toNat : ℕ) : ℚ) = -(n : ℚ) := by
      have : (((-n).toNat : ℕ) : ℤ) = -n := by omega
      exact_mod_cast congrArg (Int.cast : ℤ → ℚ) this
    rw [en] at d e
    have cq : (n : ℚ) < 0 := by exact_mod_cast c
    rw [a]
    refine ⟨_, rfl, neg_valid b, ?_, ?_⟩
    · have := d.neg
      rw [neg_negateIf, neg_neg] at this
      show Delivers S.fmt mode n (r.value.neg).sign (r.value.neg).datum r.status
      rw [datum_neg]
      exact this
    · have : r.value.sign = false := e.1 (by linarith)
      refine ⟨fun k => absurd k (by linarith), fun _ => ?_, fun k => absurd k (by linarith)⟩
      show (r.value.neg).sign = true
      rw [neg_eq, this]; rfl
  · have := C17_from_u128 h (n := n.toNat) (by omega) mode
    have en : ((n.toNat : ℕ) : ℚ) = (n : ℚ) := by
      have : ((n.toNat : ℕ) : ℤ) = n := by omega
      exact_mod_cast congrArg (Int.cast : ℤ → ℚ) this
    rwa [en] at this

example := C17_from_i128 halfS_ok (n := -2049) (by norm_num) (by norm_num) .towardZero

/-! ## C18 -/

theorem Spec.RoundsToInt.neg {mode : Round} {v : ℚ} {n : ℤ} (h : RoundsToInt mode v n) : RoundsToInt mode.neg (-v) (-n) := by
  have e : |-v - ((-n : ℤ) : ℚ)| = |v - n| := by
    rw [show -v - ((-n : ℤ) : ℚ) = -(v - n) by push_cast; ring, abs_neg]
  cases mode <;> simp only [RoundsToInt, Round.neg] at h ⊢
  · rw [e]; exact ⟨h.1, fun k => by have := h.2 k; omega⟩
  · push_cast; exact ⟨by linarith [h.2], by linarith [h.1]⟩
  · push_cast; exact ⟨by linarith [h.2], by linarith [h.1]⟩
  · push_cast
    refine ⟨fun k => ?_, fun k => ?_⟩
    · have := h.2 (by linarith); exact ⟨by linarith, by linarith⟩
    · have := h.1 (by linarith); exact ⟨by linarith, by linarith⟩
  · rw [e]; exact ⟨h.1, fun k => by have := h.2 k; push_cast; rwa [abs_neg, abs_neg]⟩

theorem Spec.RoundsToInt.signed {mode : Round} {s : Bool} {m : ℚ} {n : ℤ} (h : RoundsToInt (mode.negateIf s) m n) :
    RoundsToInt mode (signed s m) (if s then -n else n) := by
  cases s
  · exact h
  · have := h.neg
    simp only [Round.negateIf, if_true, neg_negateIf] at this
    exact this

/-- The rounding decision of the code, for an integer part `r` and a fraction `f`. -/
theorem roundsToInt_away {r : ℕ} {f : ℚ} {loss : Loss} (hf : LossIs loss f) (mode : Round) (s : Bool) :
    RoundsToInt (mode.negateIf s) ((r : ℚ) + f)
      (if loss ≠ .exactlyZero ∧ awayB mode s loss (decide (r % 2 = 1)) = true then ((r + 1 : ℕ) : ℤ) else (r : ℤ)) := by
  have f0 := hf.nonneg
  have f1 := hf.lt_one
  have r0 : (0 : ℚ) ≤ r := by positivity
  have e0 : |(r : ℚ) + f - ((r : ℤ) : ℚ)| = f := by push_cast; rw [add_sub_cancel_left, abs_of_nonneg f0]
  have e1 : |(r : ℚ) + f - (((r + 1 : ℕ) : ℤ) : ℚ)| = 1 - f := by
    push_cast; rw [show (r : ℚ) + f - (r + 1) = -(1 - f) by ring, abs_neg, abs_of_nonneg (by linarith)]
  have a0 : |(r : ℚ) + f| = r + f := abs_of_nonneg (by linarith)
  have a1 : |(((r + 1 : ℕ) : ℤ) : ℚ)| = r + 1 := by push_cast; exact abs_of_nonneg (by linarith)
  by_cases l0 : loss = .exactlyZero
  · have : f = 0 := by rw [l0] at hf; exact hf
    subst this
    simp only [l0, ne_eq, not_true_eq_false, false_and, if_false]
    cases mode <;> cases s <;> simp only [RoundsToInt, Round.negateIf, Round.neg, if_true, Bool.false_eq_true, if_false,
      add_zero] <;> push_cast
    all_goals first
      | exact ⟨by linarith, by linarith⟩
      | exact ⟨fun _ => ⟨by linarith, by linarith⟩, fun _ => ⟨by linarith, by linarith⟩⟩
      | (rw [sub_self, abs_zero]; exact ⟨by linarith, fun k => absurd k (by norm_num)⟩)
  · have fp := hf.pos l0
    simp only [l0, ne_eq, not_false_eq_true, true_and]
    cases mode <;> cases s <;> simp only [awayB, RoundsToInt, Round.negateIf, Round.neg, if_true, Bool.false_eq_true, if_false,
      Bool.not_true, Bool.not_false, decide_eq_true_eq]
    case towardPositive.false => push_cast; exact ⟨by linarith, by linarith⟩
    case towardPositive.true => push_cast; exact ⟨by linarith, by linarith⟩
    case towardNegative.false => push_cast; exact ⟨by linarith, by linarith⟩
    case towardNegative.true => push_cast; exact ⟨by linarith, by linarith⟩
    case towardZero.false => push_cast; exact ⟨fun _ => ⟨by linarith, by linarith⟩, fun k => absurd k (by linarith)⟩
    case towardZero.true => push_cast; exact ⟨fun _ => ⟨by linarith, by linarith⟩, fun k => absurd k (by linarith)⟩
    all_goals
      cases loss <;> simp only [LossIs, reduceCtorEq, false_or, or_false, false_and, true_and, if_true, if_false, not_true_eq_false] at hf l0 ⊢
    all_goals first
      | (rw [e0, a0]; exact ⟨by linarith, fun k => absurd k (by linarith)⟩)
      | (rw [e0]; exact ⟨by linarith, fun k => absurd k (by linarith)⟩)
      | (rw [e1]; exact ⟨by linarith, fun k => absurd k (by linarith)⟩)
      | (rw [e1, a0, a1]; exact ⟨by linarith, fun k => by linarith⟩)
      | (split_ifs with c
         · rw [e1]; exact ⟨by linarith, fun _ => by omega⟩
         · rw [e0]; exact ⟨by linarith, fun _ => by omega⟩)

/-- The magnitude of a normal number, split into the integer part and the fraction the code computes. -/
theorem mag_split {n : ℕ} {e : ℤ} :
    (n : ℚ) * 2 ^ (e - S.precision + 1) =
      (if e + 1 < S.precision then ((n / 2 ^ (S.precision - 1 - e).toNat : ℕ) : ℚ) +
        ((n % 2 ^ (S.precision - 1 - e).toNat : ℕ) : ℚ) / (2 ^ (S.precision - 1 - e).toNat : ℕ)
      else ((n * 2 ^ (e + 1 - S.precision).toNat : ℕ) : ℚ)) := by
  split_ifs with c
  · have e1 : e - S.precision + 1 = -(((S.precision - 1 - e).toNat : ℕ) : ℤ) := by omega
    rw [e1, zpow_neg, zpow_natCast]
    have hd := Nat.div_add_mod n (2 ^ (S.precision - 1 - e).toNat)
    generalize (S.precision - 1 - e).toNat = t at *
    have hp : (0 : ℚ) < 2 ^ t := by positivity
    have hd' : ((2 ^ t : ℕ) : ℚ) * ((n / 2 ^ t : ℕ) : ℚ) + ((n % 2 ^ t : ℕ) : ℚ) = n := by exact_mod_cast hd
    push_cast at hd' ⊢
    field_simp
    linarith
  · have e1 : e - S.precision + 1 = (((e + 1 - S.precision).toNat : ℕ) : ℤ) := by omega
    rw [e1, zpow_natCast]; push_cast; rfl

theorem lossOf_zero {r d : Nat} : lossOf r d = .exactlyZero ↔ r = 0 := by
  unfold lossOf; split_ifs <;> simp_all

theorem lossOf_half {r d : Nat} (h : lossOf r d = .exactlyHalf) : 2 * r = d := by
  unfold lossOf at h; split_ifs at h <;> simp_all

/-- The magnitude `to_u128_r` computes is the rounding of `|x|`; it saturates at `0` (for negative `x`) or `2^width - 1`. -/
theorem toU128R_mag (h : S.OK) {x : IeeeFloat S} (hx : x.Valid) (cx : x.category = .normal) {w : ℕ} (w1 : 1 ≤ w)
    (w2 : w ≤ 128) (mode : Round) {m : ℚ} (hm : m = (x.sig : ℚ) * 2 ^ (x.exp - S.precision + 1)) {hi : ℕ}
    (hhi : hi = if x.sign then 0 else 2 ^ w - 1) :
    ∃ N : ℕ, RoundsToInt (mode.negateIf x.sign) m N ∧ toU128R x w mode = .ok
      (if hi < N then ⟨Status.INVALID_OP, hi, false⟩
      else ⟨{ inexact := decide ((N : ℚ) ≠ m) }, N, decide ((N : ℚ) = m)⟩) := by
  have hp3 := h.p_ge; have hp := h.p_le; have hple := h.pow_le
  have hmin := h.min_lt; have hmin' := h.min_ge
  obtain ⟨x1, x2, x3, x4, x5, x6⟩ := Valid.normal hx cx
  have hmax := h.max_le
  have hfit : ∀ (r : ℕ) (loss : Loss) (f : ℚ), LossIs loss f → m = r + f → ∀ N : ℕ, (loss = .exactlyZero → N = r) →
      (loss ≠ .exactlyZero → (N : ℚ) ≠ m) →
      toU128Fit N hi loss = (if hi < N then ⟨Status.INVALID_OP, hi, false⟩
        else ⟨{ inexact := decide ((N : ℚ) ≠ m) }, N, decide ((N : ℚ) = m)⟩ : IntOut ℕ) := by
    intro r loss f hf hmr N hN hN'
    unfold toU128Fit
    by_cases c : hi < N
    · rw [if_pos c, if_pos c]
    · rw [if_neg c, if_neg c]
      by_cases l : loss = .exactlyZero
      · have : (N : ℚ) = m := by
          rw [hN l, hmr]; rw [l] at hf; rw [show f = 0 from hf]; ring
        rw [if_pos l]; simp [this, Status.OK]
      · rw [if_neg l]
        have := hN' l
        simp [this, Status.INEXACT]
  unfold toU128R isNegative
  have hov : (if x.sign = true then .ok 0 else do
      let k ← usub 128 w
      shr limbMax k : M ℕ) = .ok hi := by
    rw [hhi]
    split_ifs
    · rfl
    · rw [usub_ok w2, M.ok_bind, shr_ok (by omega)]
      congr 1
      have : (2 : ℕ) ^ 128 = 2 ^ w * 2 ^ (128 - w) := by rw [← pow_add]; congr 1; omega
      show (2 ^ 128 - 1) / 2 ^ (128 - w) = _
      have hw := Nat.two_pow_pos w
      have hw' := Nat.two_pow_pos (128 - w)
      rw [this]
      generalize 2 ^ w = a at *
      generalize 2 ^ (128 - w) = b at *
      apply Nat.div_eq_of_lt_le
      · have : a * b = (a - 1) * b + b := by
          obtain ⟨c, rfl⟩ : ∃ c, a = c + 1 := ⟨a - 1, by omega⟩
          simp; ring
        omega
      · rw [show a - 1 + 1 = a by omega]
        have : 0 < a * b := Nat.mul_pos hw hw'
        omega
  rw [hov]
  simp only [M.ok_bind, cx]
  unfold toU128Trunc
  have hsp := mag_split (S := S) (n := x.sig) (e := x.exp)
  rw [← hm] at hsp
  have hwp : (2 : ℕ) ^ w ≤ 2 ^ 128 := Nat.pow_le_pow_right (by norm_num) w2
  have hs128 : x.sig < 2 ^ 128 := by omega
  -- the rounding step of a truncated value
  have key : ∀ t : ℕ, 0 < t → t = ((S.precision : ℤ) - 1 - x.exp).toNat → x.exp + 1 < S.precision →
      ∃ N : ℕ, RoundsToInt (mode.negateIf x.sign) m N ∧ (x.sig / 2 ^ t ≤ N) ∧
        (let r := x.sig / 2 ^ t
         if t > 0 then
          let loss := Loss.throughTruncation [x.sig] t
          if loss ≠ .exactlyZero then do
            let away ← x.roundAwayFromZero mode loss t
            if away then
              let r := (r + 1) % 2 ^ 128
              if r = 0 then .ok ⟨Status.INVALID_OP, hi, false⟩
              else .ok (toU128Fit r hi loss)
            else .ok (toU128Fit r hi loss)
          else .ok (toU128Fit r hi loss)
        else .ok (toU128Fit r hi .exactlyZero) : M (IntOut ℕ)) = .ok
        (if hi < N then ⟨Status.INVALID_OP, hi, false⟩
        else ⟨{ inexact := decide ((N : ℚ) ≠ m) }, N, decide ((N : ℚ) = m)⟩) := by
    intro t t0 ht c
    rw [if_pos c, ← ht] at hsp
    rw [throughTruncation_eq (Limbs.one hs128), val_singleton]
    have hlt : x.sig % 2 ^ t < 2 ^ t := Nat.mod_lt _ (by positivity)
    have hf := lossIs_lossOf hlt
    have hr := roundsToInt_away (r := x.sig / 2 ^ t) hf mode x.sign
    rw [← hsp] at hr
    simp only [if_pos t0]
    have hf1 := hf.lt_one
    have hrlt : x.sig / 2 ^ t ≤ x.sig := Nat.div_le_self _ _
    by_cases l : lossOf (x.sig % 2 ^ t) (2 ^ t) = .exactlyZero
    · rw [if_neg (by simp [l])] at hr
      refine ⟨_, hr, le_refl _, ?_⟩
      rw [if_neg (by simp [l])]
      exact congrArg _ (hfit _ _ _ hf hsp _ (fun _ => rfl) (fun k => absurd l k))
    · have hfp := hf.pos l
      rw [if_pos l]
      have htb : x.sig.testBit t = decide (x.sig / 2 ^ t % 2 = 1) := Nat.testBit_eq_decide_div_mod_eq ..
      have hra := roundAwayFromZero_eq (bit := t) (mode := mode) cx l (by
        by_contra k
        push Not at k
        have h2 := lossOf_half k.2.2
        have : 2 ^ 128 ≤ 2 ^ t := Nat.pow_le_pow_right (by norm_num) k.1
        have : x.sig % 2 ^ t ≤ x.sig := Nat.mod_le _ _
        omega) hs128
      rw [hra, htb, M.ok_bind]
      simp only [l, ne_eq, not_false_eq_true, true_and] at hr
      split_ifs at hr with k
      · rw [if_pos k]
        have hq : x.sig / 2 ^ t + 1 < 2 ^ 128 := by omega
        rw [Nat.mod_eq_of_lt hq, if_neg (Nat.succ_ne_zero _)]
        refine ⟨_, hr, Nat.le_succ _, ?_⟩
        refine congrArg _ (hfit _ _ _ hf hsp _ (fun k => absurd k l) (fun _ => ?_))
        rw [hsp, Nat.cast_add, Nat.cast_one]; intro e; linarith
      · rw [if_neg k]
        refine ⟨_, hr, le_refl _, ?_⟩
        refine congrArg _ (hfit _ _ _ hf hsp _ (fun k => absurd k l) (fun _ => ?_))
        rw [hsp]; intro e; linarith
  by_cases c0 : x.exp < 0
  · rw [if_pos c0]
    obtain ⟨N, n1, n2, n3⟩ := key (S.precision - 1 + (-x.exp).toNat) (by omega) (by omega) (by omega)
    refine ⟨N, n1, ?_⟩
    have hz : x.sig / 2 ^ (S.precision - 1 + (-x.exp).toNat) = 0 := by
      apply Nat.div_eq_of_lt
      exact x4.trans_le (Nat.pow_le_pow_right (by norm_num) (by omega))
    rw [hz] at n3
    simp only [M.ok_bind]
    exact n3
  · rw [if_neg c0]
    have hnorm : 2 ^ (S.precision - 1) ≤ x.sig := by omega
    simp only
    have hcases : x.exp + 1 < S.precision ∨ ¬ (x.exp + 1 < (S.precision : ℤ)) := by omega
    by_cases cw : x.exp.toNat + 1 > w
    · rw [if_pos cw]
      simp only [M.ok_bind]
      -- the magnitude is at least `2^w`
      have hbig : ∀ N : ℕ, 2 ^ w ≤ N → hi < N := by
        intro N hN
        rw [hhi]
        have := Nat.two_pow_pos w
        split_ifs <;> omega
      rcases hcases with c | c
      · obtain ⟨N, n1, n2, n3⟩ := key (S.precision - 1 - x.exp).toNat (by omega) rfl c
        refine ⟨N, n1, ?_⟩
        rw [if_pos (hbig N (le_trans ?_ n2))]
        rw [Nat.le_div_iff_mul_le (by positivity), ← pow_add]
        exact (Nat.pow_le_pow_right (by norm_num) (by omega)).trans hnorm
      · rw [if_neg c] at hsp
        have hr := roundsToInt_away (r := x.sig * 2 ^ (x.exp + 1 - S.precision).toNat) (f := 0) (loss := .exactlyZero) rfl mode x.sign
        rw [if_neg (by simp), add_zero, ← hsp] at hr
        refine ⟨_, hr, ?_⟩
        rw [if_pos (hbig _ ?_)]
        calc 2 ^ w ≤ 2 ^ (S.precision - 1 + (x.exp + 1 - S.precision).toNat) := Nat.pow_le_pow_right (by norm_num) (by omega)
          _ = 2 ^ (S.precision - 1) * 2 ^ (x.exp + 1 - S.precision).toNat := pow_add _ _ _
          _ ≤ _ := Nat.mul_le_mul_right _ hnorm
    · rw [if_neg cw]
      rcases hcases with c | c
      · rw [if_pos (by omega), shr_ok (by omega)]
        obtain ⟨N, n1, n2, n3⟩ := key (S.precision - (x.exp.toNat + 1)) (by omega) (by omega) c
        refine ⟨N, n1, ?_⟩
        simp only [M.ok_bind]
        exact n3
      · rw [if_neg (by omega), shl_ok (by omega)]
        rw [if_neg c] at hsp
        have ht : (x.exp + 1 - S.precision).toNat = x.exp.toNat + 1 - S.precision := by omega
        rw [ht] at hsp
        have hlt : x.sig * 2 ^ (x.exp.toNat + 1 - S.precision) < 2 ^ 128 := by
          calc _ < 2 ^ S.precision * 2 ^ (x.exp.toNat + 1 - S.precision) := Nat.mul_lt_mul_of_pos_right x4 (by positivity)
            _ = 2 ^ (x.exp.toNat + 1) := by rw [← pow_add]; congr 1; omega
            _ ≤ 2 ^ 128 := Nat.pow_le_pow_right (by norm_num) (by omega)
        rw [Nat.mod_eq_of_lt hlt]
        have hr := roundsToInt_away (r := x.sig * 2 ^ (x.exp.toNat + 1 - S.precision)) (f := 0) (loss := .exactlyZero) rfl mode x.sign
        rw [if_neg (by simp), add_zero, ← hsp] at hr
        refine ⟨_, hr, ?_⟩
        simp only [M.ok_bind]
        rw [if_neg (by simp)]
        exact congrArg _ (hfit _ .exactlyZero 0 rfl (by rw [hsp, add_zero]) _ (fun _ => rfl) (fun k => absurd rfl k))

theorem signed_abs_normal {x : IeeeFloat S} (cx : x.category = .normal) :
    x.toRat = signed x.sign ((x.sig : ℚ) * 2 ^ (x.exp - S.precision + 1)) := toRat_normal cx

/-- **C18.** `to_u128_r` of a finite value other than `-0`, for every width from 1 to 128. -/
theorem C18_to_u128 (h : S.OK) {x : IeeeFloat S} (hx : x.Valid) (fx : x.isFinite = true)
    (hz : ¬ (x.isZero = true ∧ x.sign = true)) {w : ℕ} (w1 : 1 ≤ w) (w2 : w ≤ 128) (mode : Round) :
    ∃ r, toU128R x w mode = .ok r ∧ ConvertsToInt 0 (2 ^ w - 1) mode x.toRat r.status r.value r.isExact := by
  have hw : (2 : ℤ) ^ w - 1 = ((2 ^ w - 1 : ℕ) : ℤ) := by
    have := Nat.two_pow_pos w
    push_cast [Nat.one_le_two_pow]; rfl
  have hw0 : (1 : ℤ) ≤ 2 ^ w := by exact_mod_cast Nat.one_le_two_pow
  rcases isFinite_iff.1 fx with cx | cx
  · obtain ⟨N, h1, h2⟩ := toU128R_mag h hx cx w1 w2 mode rfl rfl
    refine ⟨_, h2, if x.sign then -(N : ℤ) else N, ?_, ?_⟩
    · rw [toRat_normal cx]; exact h1.signed
    · rw [toRat_normal cx]
      have hm := toRat_pos_of_normal hx cx
      generalize (x.sig : ℚ) * 2 ^ (x.exp - S.precision + 1) = m at *
      have n0 : (0 : ℤ) ≤ N := by positivity
      have hc : (((if x.sign = true then -(N : ℤ) else (N : ℤ)) : ℤ) : ℚ) = signed x.sign m ↔ (N : ℚ) = m := by
        unfold signed
        split_ifs
        · push_cast; exact neg_inj
        · push_cast; rfl
      simp only [ne_eq, hc]
      cases hs : x.sign <;> simp only [Bool.false_eq_true, if_false, if_true]
      · split_ifs with c
        · right; right
          exact ⟨by omega, by rw [hw], rfl, rfl⟩
        · left
          exact ⟨by omega, by omega, rfl, by simp, rfl⟩
      · split_ifs with c
        · right; left
          exact ⟨by omega, rfl, rfl, rfl⟩
        · left
          have : N = 0 := by omega
          subst this
          exact ⟨by simp, by simp; omega, rfl, by simp, rfl⟩
  · have hs : x.sign = false := by
      cases hs : x.sign
      · rfl
      · exact absurd ⟨by simp [isZero, cx], hs⟩ hz
    unfold toU128R isNegative
    rw [hs, usub_ok w2]
    simp only [M.ok_bind, Bool.false_eq_true, if_false]
    rw [shr_ok (by omega)]
    simp only [M.ok_bind, cx]
    refine ⟨_, rfl, 0, ?_, Or.inl ⟨le_refl _, by omega, rfl, ?_, ?_⟩⟩
    · rw [toRat_zero cx]; cases mode <;> simp [RoundsToInt]
    · simp [toRat_zero cx]
    · simp [toRat_zero cx, Status.OK]

example := C18_to_u128 singleS_ok (x := ⟨3 * 2 ^ 22, 0, .normal, false⟩) (by decide) rfl (by decide) (w := 8) (by decide) (by decide) .nearestTiesToEven

/-- **C18.** The other operands: `-0` gives `0` (not "exact": `0` is not the same value), NaN gives `0` with `INVALID_OP`,
the infinities the nearest bound with `INVALID_OP`. -/
theorem C18_to_u128_specials {x : IeeeFloat S} {w : ℕ} (w1 : 1 ≤ w) (w2 : w ≤ 128) (mode : Round) :
    (x.isZero = true → x.sign = true → toU128R x w mode = .ok ⟨Status.OK, 0, false⟩) ∧
    (x.isNan = true → toU128R x w mode = .ok ⟨Status.INVALID_OP, 0, false⟩) ∧
    (x.isInfinite = true → x.sign = true → toU128R x w mode = .ok ⟨Status.INVALID_OP, 0, false⟩) ∧
    (x.isInfinite = true → x.sign = false → toU128R x w mode = .ok ⟨Status.INVALID_OP, 2 ^ w - 1, false⟩) := by
  have hov : shr limbMax (128 - w) = .ok (2 ^ w - 1) := by
    rw [shr_ok (by omega)]
    congr 1
    have : (2 : ℕ) ^ 128 = 2 ^ w * 2 ^ (128 - w) := by rw [← pow_add]; congr 1; omega
    show (2 ^ 128 - 1) / 2 ^ (128 - w) = _
    have hw := Nat.two_pow_pos w
    have hw' := Nat.two_pow_pos (128 - w)
    rw [this]
    generalize 2 ^ w = a at *
    generalize 2 ^ (128 - w) = b at *
    apply Nat.div_eq_of_lt_le
    · have : a * b = (a - 1) * b + b := by
        obtain ⟨c, rfl⟩ : ∃ c, a = c + 1 := ⟨a - 1, by omega⟩
        simp; ring
      omega
    · rw [show a - 1 + 1 = a by omega]
      have : 0 < a * b := Nat.mul_pos hw hw'
      omega
  unfold toU128R isNegative
  refine ⟨fun c s => ?_, fun c => ?_, fun c s => ?_, fun c s => ?_⟩
  · have c : x.category = .zero := by simpa [isZero] using c
    simp [s, c, bind, Except.bind]
  · have c : x.category = .nan := by simpa [isNan] using c
    cases s : x.sign
    · simp [c, usub_ok w2, hov, bind, Except.bind]
    · simp [c, bind, Except.bind]
  · have c : x.category = .infinity := by simpa [isInfinite] using c
    simp [s, c, bind, Except.bind]
  · have c : x.category = .infinity := by simpa [isInfinite] using c
    simp [s, c, usub_ok w2, hov, bind, Except.bind]

/-- Width 0 is outside the contract: the shift amount is the width of the type. -/
theorem C18_width_zero_panics : toU128R (ZERO singleS) 0 .towardZero = .error .arith := rfl

example : (ZERO singleS).Valid ∧ ∃ r, toU128R (largest singleS) 128 .towardZero = .ok r ∧ r.status = Status.OK ∧
    r.value = 340282346638528859811704183484516925440 ∧ r.isExact = true :=
  ⟨by decide +kernel, _, rfl, rfl, rfl, rfl⟩

/-! ## C19 -/

theorem asI128_wneg {N : ℕ} (h : N ≤ 2 ^ 127) : u128AsI128 (wneg N) = -(N : ℤ) := by
  unfold u128AsI128 wneg
  by_cases h0 : N = 0
  · subst h0; decide
  · rw [Nat.mod_eq_of_lt (show N < 2 ^ 128 by omega), Nat.mod_mod, Nat.mod_eq_of_lt (show 2 ^ 128 - N < 2 ^ 128 by omega)]
    split_ifs <;> omega

theorem asI128_small {N : ℕ} (h : N < 2 ^ 127) : u128AsI128 N = N := by
  unfold u128AsI128
  rw [Nat.mod_eq_of_lt (by omega), if_pos h]

theorem asI128_min {k : ℕ} (h : k ≤ 127) : u128AsI128 ((limbMax <<< k) % 2 ^ 128) = -2 ^ k := by
  have e : (limbMax <<< k) % 2 ^ 128 = 2 ^ 128 - 2 ^ k := by
    rw [Nat.shiftLeft_eq]
    have h1 : (2 : ℕ) ^ k ≤ 2 ^ 127 := Nat.pow_le_pow_right (by norm_num) h
    have h2 := Nat.two_pow_pos k
    show (2 ^ 128 - 1) * 2 ^ k % 2 ^ 128 = _
    generalize 2 ^ k = a at *
    have : (2 ^ 128 - 1) * a = (2 ^ 128 - a) + 2 ^ 128 * (a - 1) := by omega
    rw [this, Nat.add_mul_mod_self_left, Nat.mod_eq_of_lt (by omega)]
  have h1 : (2 : ℕ) ^ k ≤ 2 ^ 127 := Nat.pow_le_pow_right (by norm_num) h
  have h2 := Nat.two_pow_pos k
  unfold u128AsI128
  rw [e, Nat.mod_eq_of_lt (by omega)]
  have h3 : ((2 ^ k : ℕ) : ℤ) = 2 ^ k := by push_cast; rfl
  rw [← h3]
  generalize 2 ^ k = a at *
  rw [if_neg (by omega)]
  omega

theorem neg_normal {x : IeeeFloat S} (cx : x.category = .normal) : x.neg.category = .normal := cx

theorem toI128R_normal (h : S.OK) {x : IeeeFloat S} (hx : x.Valid) (cx : x.category = .normal) {w : ℕ} (w1 : 2 ≤ w)
    (w2 : w ≤ 128) (mode : Round) :
    ∃ r, toI128R x w mode = .ok r ∧ ConvertsToInt (-2 ^ (w - 1)) (2 ^ (w - 1) - 1) mode x.toRat r.status r.value r.isExact := by
  have hm := toRat_pos_of_normal hx cx
  have hk : (2 : ℕ) ^ (w - 1) ≤ 2 ^ 127 := Nat.pow_le_pow_right (by norm_num) (by omega)
  have hk2 : (2 : ℕ) ^ w = 2 * 2 ^ (w - 1) := by rw [← pow_succ']; congr 1; omega
  have hk3 : 1 < (2 : ℕ) ^ (w - 1) := Nat.one_lt_two_pow (by omega)
  have hkz : (2 : ℤ) ^ (w - 1) = ((2 ^ (w - 1) : ℕ) : ℤ) := by push_cast; rfl
  unfold toI128R isNegative
  rw [usub_ok (by omega)]
  cases hs : x.sign
  · simp only [Bool.false_eq_true, if_false, M.ok_bind]
    obtain ⟨N, h1, h2⟩ := toU128R_mag h hx cx (w := w - 1) (by omega) (by omega) mode rfl rfl
    rw [hs] at h1 h2
    simp only [Bool.false_eq_true, if_false] at h2
    rw [h2, M.ok_bind, toRat_normal cx, hs]
    simp only [signed, Bool.false_eq_true, if_false]
    refine ⟨_, rfl, N, h1, ?_⟩
    rw [hkz]
    by_cases c : 2 ^ (w - 1) - 1 < N
    · rw [if_pos c]
      right; right
      refine ⟨by omega, ?_, rfl, rfl⟩
      show u128AsI128 (2 ^ (w - 1) - 1) = _
      rw [asI128_small (by omega)]
      push_cast [Nat.one_le_two_pow]; rfl
    · rw [if_neg c]
      left
      refine ⟨by omega, by omega, asI128_small (show N < _ by omega), by simp, by simp⟩
  · simp only [if_true]
    obtain ⟨N, h1, h2⟩ := toU128R_mag h (neg_valid hx) (neg_normal cx) (w := w) (by omega) (by omega) mode.neg
      (m := (x.sig : ℚ) * 2 ^ (x.exp - S.precision + 1)) rfl (hi := 2 ^ w - 1) (by rw [neg_eq]; simp [hs])
    have e : (x.neg).sign = false := by rw [neg_eq]; simp [hs]
    rw [e] at h1
    have h1' := h1.neg
    simp only [Round.negateIf, Bool.false_eq_true, if_false, neg_negateIf] at h1'
    rw [h2]
    simp only [M.ok_bind]
    rw [shl_ok (by omega), M.ok_bind, one_mul, Nat.mod_eq_of_lt (by omega), toRat_normal cx, hs]
    simp only [signed, if_true]
    rw [hkz]
    generalize (x.sig : ℚ) * 2 ^ (x.exp - S.precision + 1) = m at *
    have hlow : u128AsI128 ((limbMax <<< (w - 1)) % 2 ^ 128) = -((2 ^ (w - 1) : ℕ) : ℤ) := by
      rw [asI128_min (by omega), hkz]
    by_cases c : 2 ^ w - 1 < N
    · rw [if_pos c]
      simp only
      rw [if_pos (by omega)]
      exact ⟨_, rfl, -N, h1', Or.inr (Or.inl ⟨by omega, hlow, rfl, rfl⟩)⟩
    · rw [if_neg c]
      simp only
      by_cases c2 : 2 ^ (w - 1) < N
      · rw [if_pos c2]
        exact ⟨_, rfl, -N, h1', Or.inr (Or.inl ⟨by omega, hlow, rfl, rfl⟩)⟩
      · rw [if_neg c2]
        refine ⟨_, rfl, -N, h1', Or.inl ⟨by omega, by omega, asI128_wneg (by omega), ?_, ?_⟩⟩
        · push_cast; rw [neg_inj]; simp
        · push_cast; simp only [ne_eq, neg_inj]

theorem convertsToInt_zero {lo hi : ℤ} (hlo : lo ≤ 0) (hhi : 0 ≤ hi) (mode : Round) :
    ConvertsToInt lo hi mode 0 Status.OK 0 true := by
  refine ⟨0, ?_, Or.inl ⟨hlo, hhi, rfl, by simp, by simp [Status.OK]⟩⟩
  cases mode <;> simp [RoundsToInt]

/-- **C19.** `to_i128_r` of a finite value, for every width from 2 to 128. -/
theorem C19_to_i128 (h : S.OK) {x : IeeeFloat S} (hx : x.Valid) (fx : x.isFinite = true) {w : ℕ} (w1 : 2 ≤ w)
    (w2 : w ≤ 128) (mode : Round) :
    ∃ r, toI128R x w mode = .ok r ∧ ConvertsToInt (-2 ^ (w - 1)) (2 ^ (w - 1) - 1) mode x.toRat r.status r.value r.isExact := by
  rcases isFinite_iff.1 fx with cx | cx
  · exact toI128R_normal h hx cx w1 w2 mode
  · have hk3 : 1 ≤ (2 : ℤ) ^ (w - 1) := by exact_mod_cast Nat.one_le_two_pow
    rw [toRat_zero cx]
    unfold toI128R isNegative
    rw [usub_ok (by omega)]
    cases hs : x.sign
    · simp only [Bool.false_eq_true, if_false, M.ok_bind]
      have : toU128R x (w - 1) mode = .ok ⟨Status.OK, 0, true⟩ := by
        unfold toU128R isNegative
        rw [usub_ok (by omega)]
        simp only [hs, Bool.false_eq_true, if_false, M.ok_bind]
        rw [shr_ok (by omega)]
        simp [cx, bind, Except.bind]
      rw [this]
      exact ⟨_, rfl, convertsToInt_zero (by omega) (by omega) mode⟩
    · simp only [if_true]
      have : toU128R x.neg w mode.neg = .ok ⟨Status.OK, 0, true⟩ := by
        unfold toU128R isNegative
        rw [usub_ok (by omega), neg_eq]
        simp only [hs, Bool.not_true, Bool.false_eq_true, if_false, M.ok_bind]
        rw [shr_ok (by omega)]
        simp [cx, bind, Except.bind]
      rw [this]
      simp only [M.ok_bind]
      rw [shl_ok (by omega), M.ok_bind]
      simp only [Nat.not_lt_zero, gt_iff_lt, if_false]
      exact ⟨_, rfl, convertsToInt_zero (by omega) (by omega) mode⟩

example := C19_to_i128 halfS_ok (x := ⟨2 ^ 10 + 1, 3, .normal, true⟩) (by decide) rfl (w := 4) (by decide) (by decide) .towardZero

/-- **C19.** NaN gives 0 with `INVALID_OP`, the infinities the nearest bound with `INVALID_OP`. -/
theorem C19_to_i128_specials {x : IeeeFloat S} {w : ℕ} (w1 : 2 ≤ w) (w2 : w ≤ 128) (mode : Round) :
    (x.isNan = true → toI128R x w mode = .ok ⟨Status.INVALID_OP, 0, false⟩) ∧
    (x.isInfinite = true → x.sign = true → toI128R x w mode = .ok ⟨Status.INVALID_OP, -2 ^ (w - 1), false⟩) ∧
    (x.isInfinite = true → x.sign = false → toI128R x w mode = .ok ⟨Status.INVALID_OP, 2 ^ (w - 1) - 1, false⟩) := by
  have hk : (2 : ℕ) ^ (w - 1) ≤ 2 ^ 127 := Nat.pow_le_pow_right (by norm_num) (by omega)
  have hk2 : (2 : ℕ) ^ w = 2 * 2 ^ (w - 1) := by rw [← pow_succ']; congr 1; omega
  have hk3 : 1 < (2 : ℕ) ^ (w - 1) := Nat.one_lt_two_pow (by omega)
  have hkz : (2 : ℤ) ^ (w - 1) = ((2 ^ (w - 1) : ℕ) : ℤ) := by push_cast; rfl
  obtain ⟨-, a2, a3, a4⟩ := C18_to_u128_specials (x := x) (w := w - 1) (by omega) (by omega) mode
  obtain ⟨-, b2, b3, b4⟩ := C18_to_u128_specials (x := x.neg) (w := w) (by omega) (by omega) mode.neg
  have e1 : x.neg.isNan = x.isNan := by rw [neg_eq]; rfl
  have e2 : x.neg.isInfinite = x.isInfinite := by rw [neg_eq]; rfl
  have e3 : x.neg.sign = !x.sign := by rw [neg_eq]
  rw [e1] at b2
  rw [e2, e3] at b3 b4
  unfold toI128R isNegative
  rw [usub_ok (by omega)]
  refine ⟨fun c => ?_, fun c s => ?_, fun c s => ?_⟩
  · cases hs : x.sign
    · simp only [Bool.false_eq_true, if_false, M.ok_bind, a2 c]; rfl
    · simp only [if_true, M.ok_bind, b2 c]
      rw [shl_ok (by omega), M.ok_bind]
      simp only [Nat.not_lt_zero, gt_iff_lt, if_false]; rfl
  · simp only [s, if_true, b4 c (by simp [s]), M.ok_bind]
    rw [shl_ok (by omega), M.ok_bind, one_mul, Nat.mod_eq_of_lt (by omega), if_pos (by omega)]
    rw [asI128_min (by omega)]
  · simp only [s, Bool.false_eq_true, if_false, a4 c s, M.ok_bind]
    rw [asI128_small (by omega)]
    rw [hkz]; push_cast [Nat.one_le_two_pow]; rfl

/-- Width 1 is outside the contract of `to_i128_r` for operands without sign bit. -/
theorem C19_width_one_panics : toI128R (ZERO singleS) 1 .towardZero = .error .arith := rfl

/-! ## C20 -/

theorem RoundsToInt_self (mode : Round) (n : ℤ) : RoundsToInt mode n n := by
  cases mode <;> simp [RoundsToInt]

theorem Spec.RoundsToInt.of_int {mode : Round} {n k : ℤ} (h : RoundsToInt mode (n : ℚ) k) : k = n := by
  have key : ∀ a b : ℤ, (a : ℚ) ≤ b → (b : ℚ) < a + 1 → a = b := by
    intro a b h1 h2
    have h1' : a ≤ b := by exact_mod_cast h1
    have h2' : b < a + 1 := by exact_mod_cast h2
    omega
  have key' : 2 * |(n : ℚ) - k| ≤ 1 → k = n := by
    intro h
    have : 2 * |n - k| ≤ 1 := by exact_mod_cast h
    rcases abs_cases (n - k) with e | e <;> omega
  cases mode <;> simp only [RoundsToInt] at h
  · exact key' h.1
  · have h1 : (k : ℚ) - 1 < n := h.1
    exact (key n k h.2 (by linarith)).symm
  · exact key k n h.1 h.2
  · rcases le_total 0 (n : ℚ) with c | c
    · exact key k n (h.1 c).1 (h.1 c).2
    · have := h.2 c
      exact (key n k this.2 (by linarith)).symm
  · exact key' h.1

theorem grid_int (h : S.OK) {n : ℤ} (hn : |n| ≤ 2 ^ S.precision) : S.fmt.Grid (n : ℚ) := by
  have h3 := h.p_ge
  have hm := h.min_lt
  have hmin : S.fmt.emin = S.minExp := rfl
  have hp : S.fmt.p = S.precision := rfl
  by_cases c : |n| = 2 ^ S.precision
  · rcases abs_cases n with e | e
    · refine ⟨1, S.precision, ?_, by rw [hmin, hp]; omega, ?_⟩
      · rw [hp]; simp only [abs_neg, abs_one]; exact_mod_cast Nat.one_lt_two_pow (by omega)
      · rw [zpow_natCast]
        have : n = 2 ^ S.precision := by omega
        rw [this]; push_cast; ring
    · refine ⟨-1, S.precision, ?_, by rw [hmin, hp]; omega, ?_⟩
      · rw [hp]; simp only [abs_neg, abs_one]; exact_mod_cast Nat.one_lt_two_pow (by omega)
      · rw [zpow_natCast]
        have : n = -2 ^ S.precision := by omega
        rw [this]; push_cast; ring
  · exact ⟨n, 0, by rw [hp]; omega, by rw [hmin, hp]; omega, by simp⟩

theorem int_le_largest (h : S.OK) {n : ℤ} (hn : |n| ≤ 2 ^ S.precision) : |(n : ℚ)| ≤ S.fmt.largest := by
  have h1 : |(n : ℚ)| ≤ 2 ^ S.precision := by exact_mod_cast hn
  refine h1.trans ?_
  have h3 := h.p_ge
  have hm := h.p_max
  have h4 : (4 : ℚ) ≤ 2 ^ S.precision := by
    calc (4 : ℚ) = 2 ^ 2 := by norm_num
      _ ≤ _ := pow_le_pow_right₀ (by norm_num) (by omega)
  unfold Fmt.largest
  have hp : S.fmt.p = S.precision := rfl
  have hx : S.fmt.emax = S.maxExp := rfl
  rw [hp, hx]
  have h2 : (2 : ℚ) ≤ 2 ^ (S.maxExp - S.precision + 1) := by
    calc (2 : ℚ) = 2 ^ (1 : ℤ) := by norm_num
      _ ≤ _ := two_zpow_le (by omega)
  have h5 : (2 : ℚ) ^ S.precision - 2 ≤ 2 ^ S.precision - (if S.fmt.hasInf = true then 1 else 2) := by
    split_ifs <;> linarith
  calc (2 : ℚ) ^ S.precision ≤ (2 ^ S.precision - 2) * 2 := by linarith
    _ ≤ _ := mul_le_mul h5 h2 (by norm_num) (by linarith)

/-- An exactly representable result is delivered exactly. -/
theorem Rounds.exact {mode : Round} {v : ℚ} {zs : Bool} {r : StatusAnd (IeeeFloat S)}
    (hr : Rounds S mode v zs r) (hg : S.fmt.Grid v) (hl : |v| ≤ S.fmt.largest) :
    r.status = Status.OK ∧ r.value.isFinite = true ∧ r.value.toRat = v := by
  obtain ⟨⟨g, g1, g2⟩, -⟩ := hr
  have : g = v := g1.unique (isRounded_self mode hg)
  subst this
  rcases g2 with ⟨-, a, b⟩ | ⟨a, -⟩
  · refine ⟨by simp [b, Status.OK], ?_, ?_⟩
    · unfold datum at a
      rw [isFinite_iff]
      cases c : r.value.category <;> simp [c] at a ⊢
    · unfold datum at a
      cases c : r.value.category <;> simp only [c, reduceCtorEq, Datum.num.injEq] at a
      · exact a.2
      · rw [toRat_zero c]; exact a.2
  · exact absurd hl (not_le.2 a)

/-- **C20.** Integers of magnitude at most `2^PRECISION` are converted exactly and come back unchanged, whatever the
rounding modes, for every width that holds them. -/
theorem C20_int_round_trip (h : S.OK) {n : ℤ} (hn : |n| ≤ 2 ^ S.precision) {w : ℕ} (w1 : 2 ≤ w) (w2 : w ≤ 128)
    (n1 : -2 ^ (w - 1) ≤ n) (n2 : n < 2 ^ (w - 1)) (mode mode' : Round) :
    ∃ r, fromI128R S n mode = .ok r ∧ r.status = Status.OK ∧ r.value.toRat = n ∧
      toI128R r.value w mode' = .ok ⟨Status.OK, n, true⟩ := by
  have hple := h.pow_le
  have hz : (2 : ℤ) ^ S.precision ≤ 2 ^ 126 := by exact_mod_cast hple
  obtain ⟨r, r1, r2, r3⟩ := C17_from_i128 h (n := n) (by rcases abs_cases n with e | e <;> omega)
    (by rcases abs_cases n with e | e <;> omega) mode
  obtain ⟨e1, e2, e3⟩ := Rounds.exact r3 (grid_int h hn) (int_le_largest h hn)
  refine ⟨r, r1, e1, e3, ?_⟩
  obtain ⟨o, o1, k, o2, o3⟩ := C19_to_i128 h r2 e2 w1 w2 mode'
  rw [e3] at o2 o3
  have := o2.of_int
  subst this
  rw [o1]
  rcases o3 with ⟨-, -, a, b, c⟩ | ⟨a, -⟩ | ⟨a, -⟩
  · obtain ⟨st, val, ex⟩ := o
    simp only at a b c
    have b' : ex = true := by simpa using b
    rw [a, b', c]; simp [Status.OK]
  · omega
  · omega

/-- **C20.** The unsigned version. -/
theorem C20_uint_round_trip (h : S.OK) {n : ℕ} (hn : n ≤ 2 ^ S.precision) {w : ℕ} (w1 : 1 ≤ w) (w2 : w ≤ 128)
    (n2 : n < 2 ^ w) (mode mode' : Round) :
    ∃ r, fromU128R S n mode = .ok r ∧ r.status = Status.OK ∧ r.value.toRat = n ∧
      toU128R r.value w mode' = .ok ⟨Status.OK, n, true⟩ := by
  have hple := h.pow_le
  obtain ⟨r, r1, r2, r3⟩ := C17_from_u128 h (n := n) (by omega) mode
  have hn' : |(n : ℤ)| ≤ 2 ^ S.precision := by rw [abs_of_nonneg (by positivity)]; exact_mod_cast hn
  have hsgn := r3.2
  obtain ⟨e1, e2, e3⟩ := Rounds.exact r3 (by exact_mod_cast grid_int h hn') (by exact_mod_cast int_le_largest h hn')
  refine ⟨r, r1, e1, e3, ?_⟩
  have hs : r.value.sign = false := by
    rcases Nat.eq_zero_or_pos n with e | e
    · exact hsgn.2.2 (by exact_mod_cast e)
    · exact hsgn.1 (by exact_mod_cast e)
  obtain ⟨o, o1, k, o2, o3⟩ := C18_to_u128 h r2 e2 (by simp [hs]) w1 w2 mode'
  rw [e3] at o2 o3
  have : k = (n : ℤ) := Spec.RoundsToInt.of_int (mode := mode') (by exact_mod_cast o2)
  subst this
  rw [o1]
  have n2' : (n : ℤ) < 2 ^ w := by exact_mod_cast n2
  rcases o3 with ⟨-, -, a, b, c⟩ | ⟨a, -⟩ | ⟨a, -⟩
  · obtain ⟨st, val, ex⟩ := o
    simp only at a b c
    have a' : val = n := by exact_mod_cast a
    rw [a', b.2 (by push_cast; rfl), c]; simp [Status.OK]
  · omega
  · omega

example : ∃ r, fromI128R halfS (-2048) .towardZero = .ok r ∧ r.status = Status.OK ∧ r.value.toRat = (-2048 : ℤ) ∧
    toI128R r.value 12 .nearestTiesToEven = .ok ⟨Status.OK, -2048, true⟩ :=
  C20_int_round_trip halfS_ok (by decide) (by norm_num) (by norm_num) (by norm_num) (by norm_num) _ _

/-- The bound is sharp: `2^PRECISION + 1` is not converted exactly. -/
example : ∃ r, fromI128R halfS 2049 .nearestTiesToEven = .ok r ∧ r.status = Status.INEXACT := ⟨_, rfl, rfl⟩

end Apf
