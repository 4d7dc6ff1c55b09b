import Verif.Proof.DecNum
import Verif.Proof.Div
import Verif.Proof.Extract
import Verif.Proof.Round
import Verif.Proof.Normalize
/-! # The calculation behind decimal parsing and the size of its error -/

namespace Apf
open Spec IeeeFloat

/-! ### Rounding a natural number to `cp` bits, ties to even -/

/-- One when a quotient `q` with remainder `r` out of `2^k` is rounded up. -/
def rnUp (q r k : ℕ) : ℕ := if 2 ^ k < 2 * r ∨ (2 * r = 2 ^ k ∧ q % 2 = 1) then 1 else 0

/-- `n` rounded to `cp` bits. -/
def rnN (cp n : ℕ) : ℕ :=
  (n / 2 ^ (Nat.size n - cp) + rnUp (n / 2 ^ (Nat.size n - cp)) (n % 2 ^ (Nat.size n - cp)) (Nat.size n - cp)) *
    2 ^ (Nat.size n - cp)

theorem rnUp_le (q r k : ℕ) : rnUp q r k ≤ 1 := by unfold rnUp; split <;> omega

theorem rnUp_zero (q k : ℕ) : rnUp q 0 k = 0 := by
  unfold rnUp
  rw [if_neg]
  have : 0 < 2 ^ k := by positivity
  omega

theorem rnUp_mono (q k : ℕ) {r r' : ℕ} (h : r ≤ r') : rnUp q r k ≤ rnUp q r' k := by
  unfold rnUp
  by_cases hc : 2 ^ k < 2 * r ∨ (2 * r = 2 ^ k ∧ q % 2 = 1)
  · rw [if_pos hc, if_pos (by omega)]
  · rw [if_neg hc]; exact Nat.zero_le _

theorem rnUp_scale (q r k a : ℕ) : rnUp q (r * 2 ^ a) (k + a) = rnUp q r k := by
  unfold rnUp
  have hp : 0 < 2 ^ a := by positivity
  have e : 2 * (r * 2 ^ a) = 2 * r * 2 ^ a := by ring
  simp only [e, pow_add, Nat.mul_lt_mul_right hp, Nat.mul_left_inj hp.ne']

theorem rnN_small {cp n : ℕ} (h : Nat.size n ≤ cp) : rnN cp n = n := by
  unfold rnN
  rw [Nat.sub_eq_zero_of_le h, pow_zero, Nat.mod_one, rnUp_zero]
  simp

theorem rnN_err {cp n : ℕ} : 2 * rnN cp n ≤ 2 * n + 2 ^ (Nat.size n - cp) ∧ 2 * n ≤ 2 * rnN cp n + 2 ^ (Nat.size n - cp) := by
  unfold rnN
  generalize Nat.size n - cp = k
  have hp : 0 < 2 ^ k := by positivity
  have hm := Nat.mod_lt n hp
  have hd := Nat.div_add_mod n (2 ^ k)
  rw [mul_comm] at hd
  generalize n / 2 ^ k = q at *
  generalize n % 2 ^ k = r at *
  unfold rnUp
  split_ifs with h
  · rw [add_mul, one_mul]; generalize q * 2 ^ k = X at *; omega
  · rw [add_zero]; generalize q * 2 ^ k = X at *; omega

theorem size_two_pow_mul {n : ℕ} (h : 0 < n) (a : ℕ) : Nat.size (n * 2 ^ a) = Nat.size n + a := by
  have h1 := two_pow_size_le h
  have h2 := lt_two_pow_size n
  have h3 := size_pos h
  have : Nat.size (n * 2 ^ a) = (Nat.size n + a - 1) + 1 := by
    apply size_eq
    · rw [show Nat.size n + a - 1 = (Nat.size n - 1) + a by omega, pow_add]
      exact Nat.mul_le_mul_right _ h1
    · rw [show Nat.size n + a - 1 + 1 = Nat.size n + a by omega, pow_add]
      exact Nat.mul_lt_mul_of_pos_right h2 (by positivity)
  omega

theorem rnN_scale (cp a : ℕ) {n : ℕ} (h : 0 < n) : rnN cp (n * 2 ^ a) = rnN cp n * 2 ^ a := by
  by_cases h1 : Nat.size n + a ≤ cp
  · rw [rnN_small (by rw [size_two_pow_mul h]; exact h1), rnN_small (by omega)]
  · by_cases h2 : Nat.size n ≤ cp
    · rw [rnN_small h2]
      unfold rnN
      rw [size_two_pow_mul h]
      obtain ⟨k, hk⟩ : ∃ k, k = Nat.size n + a - cp := ⟨_, rfl⟩
      rw [← hk]
      have e : n * 2 ^ a = (n * 2 ^ (a - k)) * 2 ^ k := by
        rw [mul_assoc, ← pow_add, show a - k + k = a by omega]
      rw [e, Nat.mul_div_cancel _ (by positivity), Nat.mul_mod_left, rnUp_zero, add_zero]
    · unfold rnN
      rw [size_two_pow_mul h, show Nat.size n + a - cp = (Nat.size n - cp) + a by omega]
      generalize Nat.size n - cp = k
      have hp : 0 < 2 ^ a := by positivity
      rw [pow_add, Nat.mul_div_mul_right _ _ hp, Nat.mul_mod_mul_right, rnUp_scale]
      ring

theorem rnN_bounds {cp n : ℕ} (hcp : 1 ≤ cp) (h : 0 < n) : 2 ^ (Nat.size n - 1) ≤ rnN cp n ∧ rnN cp n ≤ 2 ^ Nat.size n := by
  have h1 := two_pow_size_le h
  have h2 := lt_two_pow_size n
  by_cases hs : Nat.size n ≤ cp
  · rw [rnN_small hs]; exact ⟨h1, h2.le⟩
  · unfold rnN
    obtain ⟨k, hk⟩ : ∃ k, k = Nat.size n - cp := ⟨_, rfl⟩
    rw [← hk]
    have e1 : 2 ^ (Nat.size n - 1) = 2 ^ (cp - 1) * 2 ^ k := by rw [← pow_add]; congr 1; omega
    have e2 : 2 ^ Nat.size n = 2 ^ cp * 2 ^ k := by rw [← pow_add]; congr 1; omega
    have hp : 0 < 2 ^ k := by positivity
    have q1 : 2 ^ (cp - 1) ≤ n / 2 ^ k := by rw [Nat.le_div_iff_mul_le hp, ← e1]; exact h1
    have q2 : n / 2 ^ k < 2 ^ cp := by rw [Nat.div_lt_iff_lt_mul hp, ← e2]; exact h2
    have hu := rnUp_le (n / 2 ^ k) (n % 2 ^ k) k
    rw [e1, e2]
    exact ⟨Nat.mul_le_mul_right _ (by omega), Nat.mul_le_mul_right _ (by omega)⟩

theorem rnN_mono {cp x y : ℕ} (hcp : 1 ≤ cp) (h0 : 0 < x) (h : x ≤ y) : rnN cp x ≤ rnN cp y := by
  have hs : Nat.size x ≤ Nat.size y := Nat.size_le_size h
  rcases Nat.lt_or_ge (Nat.size x) (Nat.size y) with hlt | hge
  · calc rnN cp x ≤ 2 ^ Nat.size x := (rnN_bounds hcp h0).2
      _ ≤ 2 ^ (Nat.size y - 1) := Nat.pow_le_pow_right (by norm_num) (by omega)
      _ ≤ rnN cp y := (rnN_bounds hcp (by omega)).1
  · have he : Nat.size x = Nat.size y := by omega
    unfold rnN
    rw [he]
    generalize Nat.size y - cp = k
    apply Nat.mul_le_mul_right
    have hd : x / 2 ^ k ≤ y / 2 ^ k := Nat.div_le_div_right h
    rcases Nat.lt_or_ge (x / 2 ^ k) (y / 2 ^ k) with hl | hg
    · have := rnUp_le (x / 2 ^ k) (x % 2 ^ k) k
      omega
    · have heq : x / 2 ^ k = y / 2 ^ k := by omega
      rw [heq]
      have h1 := Nat.div_add_mod x (2 ^ k)
      have h2 := Nat.div_add_mod y (2 ^ k)
      rw [heq] at h1
      have : x % 2 ^ k ≤ y % 2 ^ k := by omega
      have := rnUp_mono (y / 2 ^ k) k this
      omega

/-- Rounding respects comparisons up to powers of two. -/
theorem rnN_le_scaled {cp x y a b : ℕ} (hcp : 1 ≤ cp) (hx : 0 < x) (hy : 0 < y) (h : x * 2 ^ a ≤ y * 2 ^ b) :
    rnN cp x * 2 ^ a ≤ rnN cp y * 2 ^ b := by
  rw [← rnN_scale cp a hx, ← rnN_scale cp b hy]
  exact rnN_mono hcp (by positivity) h

/-! ### `calc_normal_from_limbs` -/

theorem lossOf_zero_iff (r d : ℕ) : lossOf r d = .exactlyZero ↔ r = 0 := by
  unfold lossOf; split_ifs <;> simp_all

theorem rnUp_loss {q r k : ℕ} (hr : r < 2 ^ k) : rnUp q r k = 1 ↔
    (lossOf r (2 ^ k) = .moreThanHalf ∨ (lossOf r (2 ^ k) = .exactlyHalf ∧ q.testBit 0 = true)) := by
  have hq : q.testBit 0 = true ↔ q % 2 = 1 := by simp [Nat.testBit_zero]
  rw [hq]
  have hp : 0 < 2 ^ k := by positivity
  unfold rnUp lossOf
  by_cases h0 : r = 0
  · subst h0
    rw [if_neg (by omega), if_pos rfl]; simp
  · rw [if_neg h0]
    by_cases h1 : 2 * r < 2 ^ k
    · rw [if_neg (by omega), if_pos h1]; simp
    · rw [if_neg h1]
      by_cases h2 : 2 * r = 2 ^ k
      · rw [if_pos h2]
        by_cases h3 : q % 2 = 1
        · rw [if_pos (Or.inr ⟨h2, h3⟩)]; simp [h3]
        · rw [if_neg (by omega)]; simp [h3]
      · rw [if_neg h2, if_pos (by omega)]; simp

set_option maxHeartbeats 1000000 in
theorem calcNormal_ok {limbs : List ℕ} (h : Limbs limbs) (h0 : 0 < val limbs) {cp : ℕ} (hc1 : 1 ≤ cp)
    (hc2 : cp < 128 * limbsForBits cp) (hc3 : cp < 540000000) (hn : Nat.size (val limbs) < 460000000) :
    ∃ (st : Status) (e : ℤ) (sig : List ℕ), calcNormalFromLimbs cp limbs = .ok (st, e, sig) ∧
      sig.length = limbsForBits cp ∧ Limbs sig ∧ 2 ^ (cp - 1) ≤ val sig ∧ val sig < 2 ^ cp ∧
      (Nat.size (val limbs) : ℤ) - 1 ≤ e ∧ e ≤ Nat.size (val limbs) ∧
      (rnN cp (val limbs) : ℚ) = val sig * 2 ^ (e - cp + 1) ∧
      (st = Status.OK → rnN cp (val limbs) = val limbs) ∧ (Nat.size (val limbs) ≤ cp → st = Status.OK) := by
  have hz := limbs_replicate_zero (limbsForBits cp)
  have hzl : (List.replicate (limbsForBits cp) 0 : List ℕ).length = limbsForBits cp := List.length_replicate
  have hsp := size_pos h0
  have s1 := two_pow_size_le h0
  have s2 := lt_two_pow_size (val limbs)
  unfold calcNormalFromLimbs
  by_cases hb : cp ≤ Nat.size (val limbs)
  · obtain ⟨r, e1, e2, e3, e4⟩ := fromLimbs_big h hz (p := cp) (by omega) (by omega) hb (by omega)
    rw [e1, M.ok_bind]
    dsimp only
    obtain ⟨k, hk⟩ : ∃ k, k = Nat.size (val limbs) - cp := ⟨_, rfl⟩
    rw [← hk] at e1 e4 ⊢
    have f1 : 2 ^ (Nat.size (val limbs) - 1) = 2 ^ (cp - 1) * 2 ^ k := by rw [← pow_add]; congr 1; omega
    have f2 : 2 ^ Nat.size (val limbs) = 2 ^ cp * 2 ^ k := by rw [← pow_add]; congr 1; omega
    have hp : 0 < 2 ^ k := by positivity
    have q1 : 2 ^ (cp - 1) ≤ val r := by rw [e4, Nat.le_div_iff_mul_le hp, ← f1]; exact s1
    have q2 : val r < 2 ^ cp := by rw [e4, Nat.div_lt_iff_lt_mul hp, ← f2]; exact s2
    have hom : Sig.omsb r = cp := by
      rw [omsb_eq e3, size_eq (k := cp - 1) q1 (by rw [show cp - 1 + 1 = cp by omega]; exact q2)]; omega
    rw [hom, massert_pos (by omega), M.ok_bind, asI32_of_lt (by omega), i32_ok (by omega) (by omega), M.ok_bind]
    rw [show (Nat.size (val limbs) : ℤ) - 1 + ((cp : ℤ) - cp) = Nat.size (val limbs) - 1 by ring,
      sat32_of (by omega) (by omega), if_neg (by omega), if_neg (by omega), M.ok_bind]
    dsimp only
    rw [massert_pos rfl, M.ok_bind]
    have hrn : rnN cp (val limbs) = (val r + rnUp (val r) (val limbs % 2 ^ k) k) * 2 ^ k := by
      unfold rnN; rw [← hk, e4]
    have hpw : (2 : ℚ) ^ ((Nat.size (val limbs) : ℤ) - 1 - cp + 1) = 2 ^ k := by
      rw [show (Nat.size (val limbs) : ℤ) - 1 - cp + 1 = (k : ℤ) by omega, zpow_natCast]
    have hmod : val limbs % 2 ^ k < 2 ^ k := Nat.mod_lt _ hp
    by_cases hl : lossOf (val limbs % 2 ^ k) (2 ^ k) = .exactlyZero
    · rw [if_pos hl]
      have hm := (lossOf_zero_iff _ _).1 hl
      have hex : val r * 2 ^ k = val limbs := by
        rw [e4]; exact Nat.div_mul_cancel (Nat.dvd_of_mod_eq_zero hm)
      refine ⟨_, _, r, rfl, by omega, e3, q1, q2, by omega, by omega, ?_, ?_, fun _ => rfl⟩
      · rw [hpw, hrn, hm, rnUp_zero]; push_cast; ring
      · intro _; rw [hrn, hm, rnUp_zero, add_zero]; exact hex
    · rw [if_neg hl]
      have hkpos : Nat.size (val limbs) ≤ cp → False := by
        intro hle
        have : k = 0 := by omega
        apply hl
        rw [lossOf_zero_iff, this, pow_zero, Nat.mod_one]
      have hbit : Sig.getBit r 0 = .ok ((val r).testBit 0) := getBit_ok e3 (by omega)
      rw [hbit, M.ok_bind]
      have hup := rnUp_loss (q := val r) hmod
      have hst : ¬ (Status.INEXACT = Status.OK) := by decide
      by_cases hu : lossOf (val limbs % 2 ^ k) (2 ^ k) = .moreThanHalf ∨
          (lossOf (val limbs % 2 ^ k) (2 ^ k) = .exactlyHalf ∧ (val r).testBit 0 = true)
      · rw [if_pos hu]
        have hone := hup.2 hu
        obtain ⟨i1, i2, i3, i4⟩ := increment_ok e3
        generalize hinc : Sig.increment r = ic at *
        obtain ⟨sg, c⟩ := ic
        dsimp only at i1 i2 i3 i4 ⊢
        have hlt : 2 ^ cp < 2 ^ (128 * r.length) := Nat.pow_lt_pow_right (by norm_num) (by rw [e2, hzl]; exact hc2)
        have hc0 : c = 0 := by
          by_contra hne
          have : c = 1 := by omega
          subst this
          generalize 2 ^ (128 * r.length) = B at *
          omega
        subst hc0
        rw [massert_pos rfl, M.ok_bind]
        have hsv : val sg = val r + 1 := by omega
        by_cases htop : Sig.omsb sg = cp + 1
        · rw [if_pos htop]
          obtain ⟨r', a1, a2, a3, a4⟩ := shiftRight_ok i2 (exp := (Nat.size (val limbs) : ℤ) - 1) (bits := 1) (by norm_num) (by omega) (by omega)
          rw [a1, M.ok_bind]
          rw [omsb_eq i2] at htop
          have hsge : 2 ^ cp ≤ val sg := by
            have := two_pow_size_le (x := val sg) (by omega)
            rw [htop] at this
            simpa using this
          have hseq : val sg = 2 ^ cp := by omega
          have hcp2 : 2 ^ cp = 2 ^ (cp - 1) * 2 := by rw [← pow_succ]; congr 1; omega
          have hv' : val r' = 2 ^ (cp - 1) := by rw [a4, hseq, pow_one]; omega
          refine ⟨_, _, r', rfl, by omega, a3, by omega, by omega, by push_cast; omega, by push_cast; omega, ?_,
            fun hh => absurd hh hst, fun hle => absurd hle hkpos⟩
          rw [hrn, hone, ← hsv, hseq, hv']
          have : (2 : ℚ) ^ ((Nat.size (val limbs) : ℤ) - 1 + ((1 : ℕ) : ℤ) - cp + 1) = 2 * 2 ^ k := by
            rw [show (Nat.size (val limbs) : ℤ) - 1 + ((1 : ℕ) : ℤ) - cp + 1 = (Nat.size (val limbs) : ℤ) - 1 - cp + 1 + 1 by push_cast; ring,
              two_zpow_add, hpw]
            norm_num; ring
          rw [this, hcp2]; push_cast; ring
        · rw [if_neg htop]
          rw [omsb_eq i2] at htop
          have hslt : val sg < 2 ^ cp := by
            by_contra hcon
            have : val sg = 2 ^ cp := by omega
            apply htop
            rw [this, Nat.size_pow]
          refine ⟨_, _, sg, rfl, by omega, i2, by omega, hslt, by omega, by omega, ?_,
            fun hh => absurd hh hst, fun hle => absurd hle hkpos⟩
          rw [hrn, hone, ← hsv, hpw]; push_cast; ring
      · rw [if_neg hu]
        have hone : rnUp (val r) (val limbs % 2 ^ k) k = 0 := by
          have := rnUp_le (val r) (val limbs % 2 ^ k) k
          have : ¬ rnUp (val r) (val limbs % 2 ^ k) k = 1 := fun hh => hu (hup.1 hh)
          omega
        refine ⟨_, _, r, rfl, by omega, e3, q1, q2, by omega, by omega, ?_,
            fun hh => absurd hh hst, fun hle => absurd hle hkpos⟩
        rw [hrn, hone, hpw]; push_cast; ring
  · obtain ⟨r, e1, e2, e3, e4⟩ := fromLimbs_small h hz (p := cp) h0 (by omega) (by omega) (by omega)
    rw [e1, M.ok_bind]
    dsimp only
    rw [omsb_eq e3, e4, massert_pos (by omega), M.ok_bind, asI32_of_lt (by omega), asI32_of_lt (by omega), i32_ok (by omega) (by omega), M.ok_bind]
    rw [sat32_of (by omega) (by omega), if_pos (by omega), massert_pos rfl, M.ok_bind, i32_ok (by omega) (by omega), M.ok_bind]
    obtain ⟨b, hb'⟩ : ∃ b : ℕ, b = cp - Nat.size (val limbs) := ⟨_, rfl⟩
    have hbn : ((cp : ℤ) - 1 - ((cp : ℤ) - 1 + ((Nat.size (val limbs) : ℤ) - cp))).toNat = b := by omega
    rw [hbn]
    obtain ⟨r', a1, a2, a3, a4⟩ := shiftLeft_ok e3 (exp := (cp : ℤ) - 1) (bits := b) (by omega) (by omega) (by omega)
    rw [a1, M.ok_bind]
    have hlt : val limbs * 2 ^ b < 2 ^ cp := by
      calc val limbs * 2 ^ b < 2 ^ Nat.size (val limbs) * 2 ^ b := Nat.mul_lt_mul_of_pos_right s2 (by positivity)
        _ = 2 ^ cp := by rw [← pow_add]; congr 1; omega
    have hv' : val r' = val limbs * 2 ^ b := by
      rw [a4, e4, Nat.mod_eq_of_lt]
      refine lt_trans hlt (Nat.pow_lt_pow_right (by norm_num) (by rw [e2, hzl]; exact hc2))
    refine ⟨_, _, r', rfl, by omega, a3, ?_, by omega, by omega, by omega, ?_, fun _ => rnN_small (by omega), fun _ => rfl⟩
    · rw [hv']
      calc 2 ^ (cp - 1) = 2 ^ (Nat.size (val limbs) - 1) * 2 ^ b := by rw [← pow_add]; congr 1; omega
        _ ≤ _ := Nat.mul_le_mul_right _ s1
    · rw [rnN_small (by omega), hv']
      push_cast
      rw [mul_assoc, ← zpow_natCast, ← two_zpow_add, show (b : ℤ) + ((cp : ℤ) - 1 - b - cp + 1) = 0 by ring]
      simp

/-! ### Error of a product and of a quotient -/

theorem mul_err {a b H T : ℕ} (ha : H ≤ a) (ha' : a < 2 * H) (hb : H ≤ b) (hb' : b < 2 * H)
    (hT : T = 2 * H ∨ (T = H ∧ a * b < 2 * H * H)) {α β : ℚ} (hα : |α| ≤ 1 / 2) (hβ : |β| ≤ 1 / 2) :
    ∃ δ : ℚ, ((a : ℚ) + α) * (b + β) = a * b + δ * T ∧ (α = 0 → β = 0 → δ = 0) ∧
      (α = 0 ∨ β = 0 → |δ| < 1) ∧ |δ| < 3 / 2 := by
  have hH : 1 ≤ H := by omega
  have hTH : H ≤ T := by omega
  have hTq : (1 : ℚ) ≤ T := by exact_mod_cast (by omega : 1 ≤ T)
  have hTHq : (H : ℚ) ≤ T := by exact_mod_cast hTH
  have hTpos : (0 : ℚ) < T := by linarith
  have a1 : (a : ℚ) + 1 ≤ 2 * H := by exact_mod_cast ha'
  have b1 : (b : ℚ) + 1 ≤ 2 * H := by exact_mod_cast hb'
  have a0 : (0 : ℚ) ≤ a := by positivity
  have b0 : (0 : ℚ) ≤ b := by positivity
  obtain ⟨α1, α2⟩ := abs_le.1 hα
  obtain ⟨β1, β2⟩ := abs_le.1 hβ
  have e1 : |(a : ℚ) * β| ≤ a * (1 / 2) := by
    rw [abs_mul, abs_of_nonneg a0]; exact mul_le_mul_of_nonneg_left hβ a0
  have e2 : |(b : ℚ) * α| ≤ b * (1 / 2) := by
    rw [abs_mul, abs_of_nonneg b0]; exact mul_le_mul_of_nonneg_left hα b0
  have e3 : |α * β| ≤ 1 / 4 := by
    rw [abs_mul]
    calc |α| * |β| ≤ (1 / 2) * (1 / 2) := mul_le_mul hα hβ (abs_nonneg _) (by norm_num)
      _ = 1 / 4 := by norm_num
  have hab : ((a : ℚ) + b) / 2 + 1 / 4 < 3 / 2 * T := by
    rcases hT with hT | ⟨hT, hlt⟩
    · have : (T : ℚ) = 2 * H := by exact_mod_cast hT
      have : (1 : ℚ) ≤ H := by exact_mod_cast hH
      linarith
    · have hs : a + b < 3 * H := by
        by_contra hc
        have hc' : 3 * H ≤ a + b := by omega
        obtain ⟨x, rfl⟩ := Nat.exists_eq_add_of_le ha
        obtain ⟨y, rfl⟩ := Nat.exists_eq_add_of_le hb
        have : H ≤ x + y := by omega
        nlinarith [Nat.mul_le_mul_left H this, Nat.zero_le (x * y)]
      have : (a : ℚ) + b + 1 ≤ 3 * H := by exact_mod_cast hs
      have : (T : ℚ) = H := by exact_mod_cast hT
      linarith
  refine ⟨(a * β + b * α + α * β) / T, ?_, ?_, ?_, ?_⟩
  · rw [div_mul_cancel₀ _ hTpos.ne']; ring
  · rintro rfl rfl; simp
  · rintro (rfl | rfl)
    · rw [abs_div, abs_of_pos hTpos, div_lt_one hTpos]
      have : (a : ℚ) * β + b * 0 + 0 * β = a * β := by ring
      rw [this]; linarith
    · rw [abs_div, abs_of_pos hTpos, div_lt_one hTpos]
      have : (a : ℚ) * 0 + b * α + α * 0 = b * α := by ring
      rw [this]; linarith
  · rw [abs_div, abs_of_pos hTpos, div_lt_iff₀ hTpos]
    have := abs_add_le ((a : ℚ) * β + b * α) (α * β)
    have := abs_add_le ((a : ℚ) * β) (b * α)
    linarith

theorem div_err {a b H : ℕ} {R : ℚ} (hH : 3 ≤ H) (ha : H ≤ a) (hb : H ≤ b) (hR : 0 < R) (hQ : a * R < 2 * H * b)
    {α β : ℚ} (hα : |α| ≤ 1 / 2) (hβ : |β| ≤ 1 / 2) :
    ∃ δ : ℚ, ((a : ℚ) + α) * R / (b + β) = a * R / b + δ ∧ (α = 0 → β = 0 → δ = 0) ∧
      (β = 0 → |δ| < 1) ∧ (α = 0 → |δ| < 5 / 4) ∧ |δ| < 5 / 2 := by
  have aq : (H : ℚ) ≤ a := by exact_mod_cast ha
  have bq : (H : ℚ) ≤ b := by exact_mod_cast hb
  have hq : (3 : ℚ) ≤ H := by exact_mod_cast hH
  obtain ⟨α1, α2⟩ := abs_le.1 hα
  obtain ⟨β1, β2⟩ := abs_le.1 hβ
  have hb0 : (0 : ℚ) < b := by linarith
  have ha0 : (0 : ℚ) < a := by linarith
  have hbb : (0 : ℚ) < b + β := by linarith
  have hRb : R / b < 2 := by
    rw [div_lt_iff₀ hb0]
    by_contra hc
    have hc' : 2 * (b : ℚ) ≤ R := by linarith
    nlinarith
  have hRb0 : 0 < R / b := by positivity
  have hQ' : a * R / b < 2 * H := by rw [div_lt_iff₀ hb0]; linarith
  have hQ0 : 0 < a * R / b := by positivity
  have hfac : (0 : ℚ) < b / (b + β) ∧ b / (b + β) ≤ 5 / 4 := by
    refine ⟨by positivity, ?_⟩
    rw [div_le_iff₀ hbb]; linarith
  have hQb : (a * R / b) * (1 / 2) < b := by linarith
  have key : ((a : ℚ) + α) * R / (b + β) - a * R / b = (α * (R / b) - β * ((a * R / b) / b)) * (b / (b + β)) := by
    field_simp
    ring
  have t1 : |α * (R / b)| < 1 := by
    rw [abs_mul, abs_of_pos hRb0]
    calc |α| * (R / b) ≤ (1 / 2) * (R / b) := mul_le_mul_of_nonneg_right hα hRb0.le
      _ < 1 := by linarith
  have hQbb : 0 < (a * R / b) / b := by positivity
  have t2 : |β * ((a * R / b) / b)| < 1 := by
    rw [abs_mul, abs_of_pos hQbb]
    calc |β| * ((a * R / b) / b) ≤ (1 / 2) * ((a * R / b) / b) := mul_le_mul_of_nonneg_right hβ hQbb.le
      _ = (a * R / b) * (1 / 2) / b := by ring
      _ < 1 := by rw [div_lt_one hb0]; exact hQb
  refine ⟨(α * (R / b) - β * ((a * R / b) / b)) * (b / (b + β)), by linarith, ?_, ?_, ?_, ?_⟩
  · rintro rfl rfl; simp
  · rintro rfl
    have : (α * (R / b) - 0 * ((a * R / b) / b)) * (b / (b + 0)) = α * (R / b) := by
      rw [add_zero, div_self hb0.ne']; ring
    rw [this]; exact t1
  · rintro rfl
    have : (0 * (R / b) - β * ((a * R / b) / b)) = -(β * ((a * R / b) / b)) := by ring
    rw [this, abs_mul, abs_neg, abs_of_pos hfac.1]
    calc |β * ((a * R / b) / b)| * (b / (b + β)) < 1 * (b / (b + β)) := mul_lt_mul_of_pos_right t2 hfac.1
      _ ≤ 5 / 4 := by linarith [hfac.2]
  · rw [abs_mul, abs_of_pos hfac.1]
    have t3 : |α * (R / b) - β * ((a * R / b) / b)| < 2 := by
      have := abs_sub (α * (R / b)) (β * ((a * R / b) / b))
      linarith
    calc |α * (R / b) - β * ((a * R / b) / b)| * (b / (b + β)) < 2 * (b / (b + β)) := mul_lt_mul_of_pos_right t3 hfac.1
      _ ≤ 5 / 2 := by linarith [hfac.2]

theorem calcNormal_err {limbs : List ℕ} (h : Limbs limbs) (h0 : 0 < val limbs) {cp : ℕ} (hc1 : 1 ≤ cp)
    (hc2 : cp < 128 * limbsForBits cp) (hc3 : cp < 540000000) (hn : Nat.size (val limbs) < 460000000) :
    ∃ (st : Status) (e : ℤ) (sig : List ℕ) (α : ℚ), calcNormalFromLimbs cp limbs = .ok (st, e, sig) ∧
      sig.length = limbsForBits cp ∧ Limbs sig ∧ 2 ^ (cp - 1) ≤ val sig ∧ val sig < 2 ^ cp ∧
      (Nat.size (val limbs) : ℤ) - 1 ≤ e ∧ e ≤ Nat.size (val limbs) ∧
      (rnN cp (val limbs) : ℚ) = val sig * 2 ^ (e - cp + 1) ∧
      (val limbs : ℚ) = (val sig + α) * 2 ^ (e - cp + 1) ∧ |α| ≤ 1 / 2 ∧
      (st = Status.OK → α = 0) ∧ (Nat.size (val limbs) ≤ cp → st = Status.OK) := by
  obtain ⟨st, e, sig, h1, h2, h3, h4, h5, h6, h7, h8, h9, h10⟩ := calcNormal_ok h h0 hc1 hc2 hc3 hn
  have hu := two_zpow_pos (e - cp + 1)
  refine ⟨st, e, sig, ((val limbs : ℚ) - rnN cp (val limbs)) / 2 ^ (e - cp + 1), h1, h2, h3, h4, h5, h6, h7, h8, ?_, ?_, ?_, h10⟩
  · rw [add_mul, div_mul_cancel₀ _ hu.ne', ← h8]; ring
  · rw [abs_div, abs_of_pos hu, div_le_iff₀ hu]
    by_cases hs : Nat.size (val limbs) ≤ cp
    · rw [rnN_small hs]; simp; positivity
    · obtain ⟨r1, r2⟩ := rnN_err (cp := cp) (n := val limbs)
      have hle : (2 : ℚ) ^ (Nat.size (val limbs) - cp) ≤ 2 ^ (e - cp + 1) := by
        rw [← zpow_natCast]; apply two_zpow_le; omega
      have r1' : 2 * (rnN cp (val limbs) : ℚ) ≤ 2 * val limbs + 2 ^ (Nat.size (val limbs) - cp) := by exact_mod_cast r1
      have r2' : 2 * (val limbs : ℚ) ≤ 2 * rnN cp (val limbs) + 2 ^ (Nat.size (val limbs) - cp) := by exact_mod_cast r2
      rw [abs_le]; constructor <;> linarith
  · intro hok; rw [h9 hok]; simp

/-- One unit in the last place of a `cp`-bit calculation with exponent `e`. -/
def ulp (cp : ℕ) (e : ℤ) : ℚ := 2 ^ (e - cp + 1)

theorem ulp_pos (cp : ℕ) (e : ℤ) : 0 < ulp cp e := two_zpow_pos _

/-- What is known of an attempt at calculating `v` with `cp` bits; `fine` says that both operands were represented
exactly. -/
structure CalcOK (S : Sem) (cp : ℕ) (v : ℚ) (fine : Prop) (c : DecCalc) : Prop where
  limbs : Limbs c.sig
  len : cp < 128 * c.sig.length
  lo : 2 ^ (cp - 1) ≤ val c.sig
  hi : val c.sig < 2 ^ cp
  err7 : c.halfUlpErr ≤ 7
  exact : c.halfUlpErr = 0 → v = val c.sig * ulp cp c.exp
  near : c.halfUlpErr ≠ 0 → |v - val c.sig * ulp cp c.exp| < ((c.halfUlpErr + 1) / 2 : ℕ) * ulp cp c.exp
  pow : c.exp < S.minExp → ∀ m : ℤ, 2 ^ m ≤ v → 2 ^ m ≤ val c.sig * ulp cp c.exp
  floor : fine → val c.sig * ulp cp c.exp ≤ v ∧ v < (val c.sig + 1) * ulp cp c.exp ∧
    (v = val c.sig * ulp cp c.exp → c.halfUlpErr = 0)
  bits : (S.minExp ≤ c.exp ∧ c.usedBits = S.precision ∧ c.truncatedBits = cp - S.precision) ∨
    (c.exp < S.minExp ∧ c.truncatedBits = cp - S.precision + (S.minExp - c.exp).toNat ∧ c.usedBits = cp - c.truncatedBits)
  expBound : -1150000000 ≤ c.exp ∧ c.exp ≤ 1150000000

theorem halfUlpErr_ok {e1 e2 : ℕ} (h1 : e1 < 2) (l : Loss) : halfUlpErr e1 e2 l =
    .ok (if e1 + e2 = 0 then (decide (l ≠ .exactlyZero)).toNat * 2 else (decide (l ≠ .exactlyZero)).toNat + 2 * (e1 + e2)) := by
  unfold halfUlpErr
  rw [massert_pos (Or.inl h1), M.ok_bind]

set_option maxHeartbeats 2000000 in
theorem decCalc_mul {S : Sem} (hS : S.OK) {cp : ℕ} (hc0 : 127 ≤ cp) (hc2 : cp < 128 * limbsForBits cp) (hc3 : limbsForBits cp < 4200000)
    {ds p5 : List ℕ} (hd : Limbs ds) (h5 : Limbs p5) (hd0 : 0 < val ds) (h50 : 0 < val p5)
    (hdn : Nat.size (val ds) < 100000000) (h5n : Nat.size (val p5) < 100000000) {D : ℤ} (hD : 0 ≤ D) (hD2 : D < 100000000) :
    ∃ c, decCalc S cp ds D p5 = .ok c ∧
      CalcOK S cp (val ds * val p5 * 2 ^ D) (Nat.size (val ds) ≤ cp ∧ Nat.size (val p5) ≤ cp) c := by
  have hcL : cp < 540000000 := by omega
  obtain ⟨st, eA, a, α, a1, a2, a3, a4, a5, a6, a7, a8, a9, a10, a11, a12⟩ := calcNormal_err hd hd0 (by omega) hc2 (by omega) (by omega)
  obtain ⟨sB, eB, b, β, b1, b2, b3, b4, b5, b6, b7, b8, b9, b10, b11, b12⟩ := calcNormal_err h5 h50 (by omega) hc2 (by omega) (by omega)
  have hdp := size_pos hd0
  have h5p := size_pos h50
  have hp126 := hS.p_le
  have hmin := hS.min_lt
  unfold decCalc
  rw [a1, M.ok_bind]
  dsimp only
  rw [b1, M.ok_bind]
  dsimp only
  rw [i32_ok (by omega) (by omega), M.ok_bind, usub_ok (by omega), M.ok_bind, if_pos hD, i32_ok (by omega) (by omega), M.ok_bind]
  obtain ⟨H, hH⟩ : ∃ H, H = 2 ^ (cp - 1) := ⟨_, rfl⟩
  have hH2 : 2 ^ cp = 2 * H := by rw [hH, ← pow_succ']; congr 1; omega
  rw [hH2] at a5 b5
  rw [← hH] at a4 b4
  have hHpos : 0 < H := by rw [hH]; positivity
  have hHH : H * H = 2 ^ (2 * cp - 2) := by rw [hH, ← pow_add]; congr 1; omega
  have hpos : 0 < val a * val b := Nat.mul_pos (by omega) (by omega)
  have hp1 : 2 ^ (2 * cp - 2) ≤ val a * val b := by rw [← hHH]; exact Nat.mul_le_mul a4 b4
  have hp2 : val a * val b < 2 ^ (2 * cp) := by
    have : (2 : ℕ) ^ (2 * cp) = (2 * H) * (2 * H) := by rw [← hH2, ← pow_add]; congr 1; omega
    rw [this]; exact Nat.mul_lt_mul'' a5 b5
  have hsz1 : 2 * cp - 2 < Nat.size (val a * val b) := Nat.lt_size.2 hp1
  have hsz2 : Nat.size (val a * val b) ≤ 2 * cp := Nat.size_le.2 hp2
  obtain ⟨k, hk⟩ : ∃ k, k = Nat.size (val a * val b) - cp := ⟨_, rfl⟩
  obtain ⟨r, m1, m2, m3, m4⟩ := mul_ok (limbs_replicate_zero (a.length + b.length)) a3 b3 List.length_replicate
    (by rw [List.length_replicate]; omega) (exp := eA + D + eB) (precision := cp) (by omega) (by omega) (by omega)
  rw [← hk] at m1 m4
  rw [m1, M.ok_bind]
  dsimp only
  rw [List.length_replicate] at m2
  have s1 := two_pow_size_le hpos
  have s2 := lt_two_pow_size (val a * val b)
  have f1 : 2 ^ (Nat.size (val a * val b) - 1) = H * 2 ^ k := by rw [hH, ← pow_add]; congr 1; omega
  have f2 : 2 ^ Nat.size (val a * val b) = 2 * H * 2 ^ k := by rw [← hH2, ← pow_add]; congr 1; omega
  have hkp : 0 < 2 ^ k := by positivity
  have q1 : H ≤ val r := by rw [m4, Nat.le_div_iff_mul_le hkp, ← f1]; exact s1
  have q2 : val r < 2 * H := by rw [m4, Nat.div_lt_iff_lt_mul hkp, ← f2]; exact s2
  have htop : Sig.getBit r (cp - 1) = .ok true := by
    rw [getBit_ok m3 (by omega)]
    congr 1
    have := Nat.testBit_two_pow_add_eq (val r - H) (cp - 1)
    rw [← hH, show H + (val r - H) = val r by omega] at this
    rw [this, Nat.testBit_lt_two_pow (by rw [← hH]; omega)]; rfl
  rw [htop, M.ok_bind, massert_pos rfl, M.ok_bind, halfUlpErr_ok (by cases decide (st ≠ Status.OK) <;> simp), M.ok_bind]
  refine ⟨_, rfl, ?_⟩
  have hT : 2 ^ k = 2 * H ∨ (2 ^ k = H ∧ val a * val b < 2 * H * H) := by
    by_cases hc : Nat.size (val a * val b) = 2 * cp
    · left; rw [← hH2]; congr 1; omega
    · right
      have hkk : k = cp - 1 := by omega
      have hkH : 2 ^ k = H := by rw [hH, hkk]
      refine ⟨hkH, ?_⟩
      rw [hkH] at f2
      rw [← f2]; exact s2
  obtain ⟨δ, d1, d2, d3, d4⟩ := mul_err a4 a5 b4 b5 hT a10 b10
  obtain ⟨x, hx⟩ : ∃ x : ℤ, x = eA + D + eB + 1 - cp + k := ⟨_, rfl⟩
  rw [← hx]
  have hT0 : (0 : ℚ) < 2 ^ k := by positivity
  -- the exact value, in units in the last place
  have hv : (val ds : ℚ) * val p5 * 2 ^ D = ((val a : ℚ) * val b / 2 ^ k + δ) * ulp cp x := by
    have hu : ulp cp x = 2 ^ k * (2 ^ (eA - cp + 1) * 2 ^ (eB - cp + 1) * 2 ^ D) := by
      unfold ulp
      rw [← two_zpow_add, ← two_zpow_add, ← zpow_natCast, ← two_zpow_add]; congr 1; rw [hx]; ring
    rw [a9, b9, hu]
    have e1 : ((val a : ℚ) * val b / 2 ^ k + δ) * (2 ^ k * (2 ^ (eA - cp + 1) * 2 ^ (eB - cp + 1) * 2 ^ D)) =
      ((val a : ℚ) * val b / 2 ^ k * 2 ^ k + δ * 2 ^ k) * (2 ^ (eA - cp + 1) * 2 ^ (eB - cp + 1) * 2 ^ D) := by ring
    rw [e1, div_mul_cancel₀ _ hT0.ne']
    have d1' : ((val a : ℚ) + α) * (val b + β) = val a * val b + δ * 2 ^ k := by rw [d1]; push_cast; ring
    rw [← d1']; ring
  have hdm := Nat.div_add_mod (val a * val b) (2 ^ k)
  have hml := Nat.mod_lt (val a * val b) hkp
  rw [← m4] at hdm
  have hdmq : (val a : ℚ) * val b = 2 ^ k * val r + (val a * val b % 2 ^ k : ℕ) := by exact_mod_cast hdm.symm
  have hab : (val a : ℚ) * val b / 2 ^ k = val r + (val a * val b % 2 ^ k : ℕ) / 2 ^ k := by
    rw [hdmq]; field_simp
  obtain ⟨f, hf⟩ : ∃ f : ℚ, f = ((val a * val b % 2 ^ k : ℕ) : ℚ) / 2 ^ k := ⟨_, rfl⟩
  have hf0 : 0 ≤ f := by rw [hf]; positivity
  have hf1 : f < 1 := by rw [hf, div_lt_one hT0]; exact_mod_cast hml
  have hfz : f = 0 ↔ val a * val b % 2 ^ k = 0 := by
    rw [hf, div_eq_zero_iff]
    constructor
    · rintro (h | h)
      · exact_mod_cast h
      · exact absurd h hT0.ne'
    · intro h; left; exact_mod_cast h
  rw [← hf] at hab
  rw [hab] at hv
  have hup := ulp_pos cp x
  have hxge : S.minExp ≤ x := by omega
  rw [hv]
  have hvd : (val r + f + δ) * ulp cp x - val r * ulp cp x = (f + δ) * ulp cp x := by ring
  have key : ∀ n : ℕ, |f + δ| < n → |(val r + f + δ) * ulp cp x - val r * ulp cp x| < n * ulp cp x := by
    intro n hn
    rw [hvd, abs_mul, abs_of_pos hup]
    exact mul_lt_mul_of_pos_right hn hup
  have hfδ : |f + δ| ≤ f + |δ| := by
    have := abs_add_le f δ
    rwa [abs_of_nonneg hf0] at this
  have hloss : (lossOf (val a * val b % 2 ^ k) (2 ^ k) ≠ .exactlyZero) ↔ f ≠ 0 := by
    rw [ne_eq, lossOf_zero_iff, ne_eq, hfz]
  refine ⟨m3, by dsimp only; omega, by rw [← hH]; exact q1, by rw [hH2]; exact q2, ?_, ?_, ?_, ?_, ?_, Or.inl ⟨hxge, rfl, rfl⟩, by dsimp only; omega⟩
  · dsimp only
    cases decide (st ≠ Status.OK) <;> cases decide (sB ≠ Status.OK) <;>
      cases decide (lossOf (val a * val b % 2 ^ k) (2 ^ k) ≠ .exactlyZero) <;> simp
  · dsimp only
    intro h0
    by_cases hA : st = Status.OK
    · by_cases hB : sB = Status.OK
      · simp only [hA, hB, ne_eq, not_true_eq_false, decide_false, Bool.toNat_false, add_zero, if_true] at h0
        by_cases hl : f = 0
        · rw [d2 (a11 hA) (b11 hB), hl]; ring
        · rw [decide_eq_true (hloss.2 hl)] at h0; simp at h0
      · exfalso; simp [hA, hB] at h0
    · exfalso; simp [hA] at h0
  · dsimp only
    intro h0
    apply key
    by_cases hA : st = Status.OK
    · by_cases hB : sB = Status.OK
      · by_cases hl : f = 0
        · exfalso
          apply h0
          have : ¬ (lossOf (val a * val b % 2 ^ k) (2 ^ k) ≠ .exactlyZero) := by rw [hloss]; simpa using hl
          rw [decide_eq_false this]; simp [hA, hB]
        · have hδ := d2 (a11 hA) (b11 hB)
          rw [decide_eq_true (hloss.2 hl)]
          simp only [hA, hB, ne_eq, not_true_eq_false, decide_false, Bool.toNat_false, add_zero, if_true, Bool.toNat_true]
          rw [hδ, add_zero, abs_of_nonneg hf0]; norm_num; exact hf1
      · have hδ := d3 (Or.inl (a11 hA))
        by_cases hl : f = 0
        · have : ¬ (lossOf (val a * val b % 2 ^ k) (2 ^ k) ≠ .exactlyZero) := by rw [hloss]; simpa using hl
          rw [decide_eq_false this]; simp [hA, hB]
          linarith
        · rw [decide_eq_true (hloss.2 hl)]; simp [hA, hB]
          linarith
    · by_cases hB : sB = Status.OK
      · have hδ := d3 (Or.inr (b11 hB))
        by_cases hl : f = 0
        · have : ¬ (lossOf (val a * val b % 2 ^ k) (2 ^ k) ≠ .exactlyZero) := by rw [hloss]; simpa using hl
          rw [decide_eq_false this]; simp [hA, hB]
          linarith
        · rw [decide_eq_true (hloss.2 hl)]; simp [hA, hB]
          linarith
      · by_cases hl : f = 0
        · have : ¬ (lossOf (val a * val b % 2 ^ k) (2 ^ k) ≠ .exactlyZero) := by rw [hloss]; simpa using hl
          rw [decide_eq_false this]; simp [hA, hB]
          linarith
        · rw [decide_eq_true (hloss.2 hl)]; simp [hA, hB]
          linarith
  · dsimp only
    intro hlt; omega
  · dsimp only
    rintro ⟨g1, g2⟩
    have hA := a12 g1
    have hB := b12 g2
    have hδ := d2 (a11 hA) (b11 hB)
    rw [hδ, add_zero]
    refine ⟨mul_le_mul_of_nonneg_right (by linarith) hup.le, mul_lt_mul_of_pos_right (by linarith) hup, ?_⟩
    intro heq
    have hl : f = 0 := by
      have := mul_right_cancel₀ hup.ne' heq
      linarith
    have : ¬ (lossOf (val a * val b % 2 ^ k) (2 ^ k) ≠ .exactlyZero) := by rw [hloss]; simpa using hl
    rw [decide_eq_false this]; simp [hA, hB]

theorem two_zpow_le_floor {m x : ℤ} {n : ℕ} {q : ℚ} (hn : 1 ≤ n) (hq : q < n + 1) (h : (2 : ℚ) ^ m ≤ q * 2 ^ x) :
    (2 : ℚ) ^ m ≤ n * 2 ^ x := by
  have hx := two_zpow_pos x
  have h' : (2 : ℚ) ^ (m - x) ≤ q := by
    rw [← mul_le_mul_iff_of_pos_right hx, ← two_zpow_add]; simpa using h
  have : (2 : ℚ) ^ (m - x) ≤ n := by
    by_cases hm : 0 ≤ m - x
    · obtain ⟨j, hj⟩ := Int.eq_ofNat_of_zero_le hm
      rw [hj, zpow_natCast] at h' ⊢
      have : ((2 ^ j : ℕ) : ℚ) < (n + 1 : ℕ) := by push_cast; linarith
      have : 2 ^ j < n + 1 := by exact_mod_cast this
      have : 2 ^ j ≤ n := by omega
      exact_mod_cast this
    · have h1 : (2 : ℚ) ^ (m - x) ≤ 2 ^ (0 : ℤ) := two_zpow_le (by omega)
      have h2 : (1 : ℚ) ≤ n := by exact_mod_cast hn
      rw [zpow_zero] at h1; linarith
  calc (2 : ℚ) ^ m = 2 ^ (m - x) * 2 ^ x := by rw [← two_zpow_add]; congr 1; ring
    _ ≤ _ := mul_le_mul_of_nonneg_right this hx.le

set_option maxHeartbeats 2000000 in
theorem decCalc_div {S : Sem} (hS : S.OK) {cp : ℕ} (hc0 : 127 ≤ cp) (hc2 : cp < 128 * limbsForBits cp) (hc3 : limbsForBits cp < 4200000)
    {ds p5 : List ℕ} (hd : Limbs ds) (h5 : Limbs p5) (hd0 : 0 < val ds) (h50 : 0 < val p5)
    (hdn : Nat.size (val ds) < 460000000) (h5n : Nat.size (val p5) < 460000000) {D : ℤ} (hD : D < 0) (hD2 : -140000000 < D) :
    ∃ c, decCalc S cp ds D p5 = .ok c ∧
      CalcOK S cp ((val ds : ℚ) / val p5 * 2 ^ D) (Nat.size (val ds) ≤ cp ∧ Nat.size (val p5) ≤ cp) c := by
  have hcL : cp < 540000000 := by omega
  obtain ⟨st, eA, a, α, a1, a2, a3, a4, a5, a6, a7, a8, a9, a10, a11, a12⟩ := calcNormal_err hd hd0 (by omega) hc2 (by omega) hdn
  obtain ⟨sB, eB, b, β, b1, b2, b3, b4, b5, b6, b7, b8, b9, b10, b11, b12⟩ := calcNormal_err h5 h50 (by omega) hc2 (by omega) h5n
  have hdp := size_pos hd0
  have h5p := size_pos h50
  have hp126 := hS.p_le
  have hmin := hS.min_lt
  have hmin2 := hS.min_ge
  unfold decCalc
  rw [a1, M.ok_bind]
  dsimp only
  rw [b1, M.ok_bind]
  dsimp only
  rw [i32_ok (by omega) (by omega), M.ok_bind, usub_ok (by omega), M.ok_bind, if_neg (by omega), i32_ok (by omega) (by omega), M.ok_bind]
  obtain ⟨H, hH⟩ : ∃ H, H = 2 ^ (cp - 1) := ⟨_, rfl⟩
  have hH2 : 2 ^ cp = 2 * H := by rw [hH, ← pow_succ']; congr 1; omega
  have hH3 : 3 ≤ H := by
    rw [hH]
    calc 3 ≤ 2 ^ 2 := by norm_num
      _ ≤ 2 ^ (cp - 1) := Nat.pow_le_pow_right (by norm_num) (by omega)
  have szA : Nat.size (val a) ≤ cp := Nat.size_le.2 a5
  have szB : Nat.size (val b) ≤ cp := Nat.size_le.2 b5
  rw [hH2] at a5 b5
  rw [← hH] at a4 b4
  obtain ⟨r, s, t, m1, m2, m3, m5, m6, m4, m7, m8⟩ := div_ok (quotient := List.replicate a.length 0) a3 b3 (by omega)
    List.length_replicate (p := cp) (exp := eA + D - eB) (by omega) (by omega) (by omega) (by omega) (by omega) (by omega)
    szA szB (by omega) (by omega)
  rw [← hH] at m1 m4
  rw [m1, M.ok_bind]
  dsimp only
  have hbt : 0 < val b * 2 ^ t := Nat.mul_pos (by omega) (by positivity)
  have q1 : H ≤ val r := by
    rw [m4, Nat.le_div_iff_mul_le hbt, mul_comm]; exact Nat.mul_le_mul_right _ m5
  have q2 : val r < 2 * H := by
    rw [m4, Nat.div_lt_iff_lt_mul hbt]
    calc val a * 2 ^ s * H < 2 * (val b * 2 ^ t) * H := Nat.mul_lt_mul_of_pos_right m6 (by omega)
      _ = _ := by ring
  have htop : Sig.getBit r (cp - 1) = .ok true := by
    rw [getBit_ok m3 (by omega)]
    congr 1
    have := Nat.testBit_two_pow_add_eq (val r - H) (cp - 1)
    rw [← hH, show H + (val r - H) = val r by omega] at this
    rw [this, Nat.testBit_lt_two_pow (by rw [← hH]; omega)]; rfl
  obtain ⟨x, hx⟩ : ∃ x : ℤ, x = eA + D - eB + t - s := ⟨_, rfl⟩
  rw [← hx]
  have hbits : ∃ tb ub : ℕ, (if x < S.minExp then do
        let d ← i32 (S.minExp - x)
        let t := cp - S.precision + d.toNat
        .ok (t, cp - t)
      else .ok (cp - S.precision, S.precision) : M (Nat × Nat)) = .ok (tb, ub) ∧
      ((S.minExp ≤ x ∧ ub = S.precision ∧ tb = cp - S.precision) ∨
       (x < S.minExp ∧ tb = cp - S.precision + (S.minExp - x).toNat ∧ ub = cp - tb)) := by
    by_cases hlt : x < S.minExp
    · rw [if_pos hlt, i32_ok (by omega) (by omega), M.ok_bind]
      exact ⟨_, _, rfl, Or.inr ⟨hlt, rfl, rfl⟩⟩
    · rw [if_neg hlt]
      exact ⟨_, _, rfl, Or.inl ⟨by omega, rfl, rfl⟩⟩
  obtain ⟨tb, ub, hb1, hb2⟩ := hbits
  rw [hb1, M.ok_bind]
  dsimp only
  rw [htop, M.ok_bind, massert_pos rfl, M.ok_bind, halfUlpErr_ok (by cases decide (st ≠ Status.OK) <;> simp), M.ok_bind]
  refine ⟨_, rfl, ?_⟩
  -- the exact value, in units in the last place
  obtain ⟨R, hR⟩ : ∃ R : ℚ, R = H * 2 ^ ((s : ℤ) - t) := ⟨_, rfl⟩
  have hRpos : 0 < R := by
    rw [hR]; have := two_zpow_pos ((s : ℤ) - t)
    have : (0 : ℚ) < H := by exact_mod_cast (by omega : 0 < H)
    positivity
  have hbq : (0 : ℚ) < val b := by exact_mod_cast (by omega : 0 < val b)
  have hst' : (2 : ℚ) ^ ((s : ℤ) - t) = 2 ^ s / 2 ^ t := by
    rw [zpow_sub₀ (by norm_num), zpow_natCast, zpow_natCast]
  have ht0 : (0 : ℚ) < 2 ^ t := by positivity
  have hQR : (val a : ℚ) * R / val b = ((val a * 2 ^ s * H : ℕ) : ℚ) / (val b * 2 ^ t : ℕ) := by
    rw [hR, hst']; push_cast; field_simp
  have hQlt : (val a : ℚ) * R < 2 * H * val b := by
    have : ((val a * 2 ^ s : ℕ) : ℚ) < (2 * (val b * 2 ^ t) : ℕ) := by exact_mod_cast m6
    push_cast at this
    have hHq : (0 : ℚ) < H := by exact_mod_cast (by omega : 0 < H)
    rw [hR, hst']
    have e : (val a : ℚ) * (H * (2 ^ s / 2 ^ t)) = (val a * 2 ^ s) * H / 2 ^ t := by ring
    rw [e, div_lt_iff₀ ht0]
    nlinarith
  obtain ⟨δ, d1, d2, d3, d3', d4⟩ := div_err hH3 a4 b4 hRpos hQlt a10 b10
  obtain ⟨Q, hQ⟩ : ∃ Q : ℚ, Q = (val a : ℚ) * R / val b := ⟨_, rfl⟩
  have hU : (2 : ℚ) ^ (eA - cp + 1) / 2 ^ (eB - cp + 1) * 2 ^ D = R * ulp cp x := by
    unfold ulp
    have hHz : (H : ℚ) = 2 ^ ((cp : ℤ) - 1) := by
      rw [hH, show (cp : ℤ) - 1 = ((cp - 1 : ℕ) : ℤ) by omega, zpow_natCast]; push_cast; ring
    rw [hR, hHz, ← zpow_sub₀ (by norm_num), ← two_zpow_add, ← two_zpow_add, ← two_zpow_add]
    congr 1; rw [hx]; ring
  have hbβ : (0 : ℚ) < val b + β := by
    have := (abs_le.1 b10).1
    have : (3 : ℚ) ≤ val b := by exact_mod_cast (by omega : 3 ≤ val b)
    linarith
  have hv : (val ds : ℚ) / val p5 * 2 ^ D = (Q + δ) * ulp cp x := by
    rw [a9, b9, hQ, ← d1]
    have : ((val a : ℚ) + α) * 2 ^ (eA - cp + 1) / ((val b + β) * 2 ^ (eB - cp + 1)) * 2 ^ D =
        (val a + α) / (val b + β) * (2 ^ (eA - cp + 1) / 2 ^ (eB - cp + 1) * 2 ^ D) := by
      have := two_zpow_pos (eB - cp + 1)
      field_simp
    rw [this, hU]; ring
  have hdm := Nat.div_add_mod (val a * 2 ^ s * H) (val b * 2 ^ t)
  have hml := Nat.mod_lt (val a * 2 ^ s * H) hbt
  rw [← m4] at hdm
  obtain ⟨rem, hrem⟩ : ∃ rem, rem = val a * 2 ^ s * H % (val b * 2 ^ t) := ⟨_, rfl⟩
  obtain ⟨T, hT⟩ : ∃ T, T = val b * 2 ^ t := ⟨_, rfl⟩
  rw [← hrem] at hdm hml ⊢
  rw [← hT] at hdm hml hbt ⊢
  have hT0 : (0 : ℚ) < T := by exact_mod_cast hbt
  obtain ⟨f, hf⟩ : ∃ f : ℚ, f = (rem : ℚ) / T := ⟨_, rfl⟩
  have hab : Q = val r + f := by
    rw [hQ, hQR, ← hT, ← hdm, hf]; push_cast; field_simp
  have hf0 : 0 ≤ f := by rw [hf]; positivity
  have hf1 : f < 1 := by rw [hf, div_lt_one hT0]; exact_mod_cast hml
  have hfz : f = 0 ↔ rem = 0 := by
    rw [hf, div_eq_zero_iff]
    constructor
    · rintro (h | h)
      · exact_mod_cast h
      · exact absurd h hT0.ne'
    · intro h; left; exact_mod_cast h
  have hpow : ∀ m : ℤ, 2 ^ m ≤ (val ds : ℚ) / val p5 * 2 ^ D → 2 ^ m ≤ (val r : ℚ) * ulp cp x := by
    intro m hm
    apply two_zpow_le_floor (q := Q) (by omega) (by rw [hab]; linarith)
    have hP0 : (0 : ℚ) < val p5 := by exact_mod_cast h50
    -- compare the rounded operands
    have hcmp : (rnN cp (val p5) : ℚ) * 2 ^ (m - D) ≤ rnN cp (val ds) := by
      have hraw : (val p5 : ℚ) * 2 ^ (m - D) ≤ val ds := by
        have : (2 : ℚ) ^ m = 2 ^ (m - D) * 2 ^ D := by rw [← two_zpow_add]; congr 1; ring
        rw [this] at hm
        have := le_of_mul_le_mul_right hm (two_zpow_pos D)
        rw [le_div_iff₀ hP0] at this
        linarith
      by_cases hj : 0 ≤ m - D
      · obtain ⟨j, hj'⟩ := Int.eq_ofNat_of_zero_le hj
        rw [hj', zpow_natCast] at hraw ⊢
        have h1 : val p5 * 2 ^ j ≤ val ds * 2 ^ 0 := by rw [pow_zero, mul_one]; exact_mod_cast hraw
        have := rnN_le_scaled (cp := cp) (by omega) h50 hd0 h1
        rw [pow_zero, mul_one] at this
        exact_mod_cast this
      · obtain ⟨j, hj'⟩ := Int.eq_ofNat_of_zero_le (show 0 ≤ -(m - D) by omega)
        have hj2 : (2 : ℚ) ^ (m - D) = (2 ^ j)⁻¹ := by
          rw [show m - D = -(j : ℤ) by omega, zpow_neg, zpow_natCast]
        have h2j : (0 : ℚ) < 2 ^ j := by positivity
        rw [hj2, ← div_eq_mul_inv, div_le_iff₀ h2j] at hraw ⊢
        have h1 : val p5 * 2 ^ 0 ≤ val ds * 2 ^ j := by rw [pow_zero, mul_one]; exact_mod_cast hraw
        have := rnN_le_scaled (cp := cp) (by omega) h50 hd0 h1
        rw [pow_zero, mul_one] at this
        exact_mod_cast this
    rw [a8, b8] at hcmp
    have e : Q * ulp cp x = (val a : ℚ) * 2 ^ (eA - cp + 1) / (val b * 2 ^ (eB - cp + 1)) * 2 ^ D := by
      rw [hQ, mul_div_assoc, mul_assoc, div_mul_eq_mul_div, ← hU]
      have := two_zpow_pos (eB - cp + 1)
      field_simp
    change (2 : ℚ) ^ m ≤ Q * ulp cp x
    rw [e]
    have hB0 : (0 : ℚ) < val b * 2 ^ (eB - cp + 1) := mul_pos hbq (two_zpow_pos _)
    calc (2 : ℚ) ^ m = 2 ^ (m - D) * 2 ^ D := by rw [← two_zpow_add]; congr 1; ring
      _ ≤ _ := by
        apply mul_le_mul_of_nonneg_right _ (two_zpow_pos D).le
        rw [le_div_iff₀ hB0]; linarith
  have hup := ulp_pos cp x
  rw [hv] at hpow ⊢
  rw [hab] at hpow ⊢
  have hvd : (val r + f + δ) * ulp cp x - val r * ulp cp x = (f + δ) * ulp cp x := by ring
  have key : ∀ n : ℕ, |f + δ| < n → |(val r + f + δ) * ulp cp x - val r * ulp cp x| < n * ulp cp x := by
    intro n hn
    rw [hvd, abs_mul, abs_of_pos hup]
    exact mul_lt_mul_of_pos_right hn hup
  have hfδ : |f + δ| ≤ f + |δ| := by
    have := abs_add_le f δ
    rwa [abs_of_nonneg hf0] at this
  have hloss : (lossOf rem T ≠ .exactlyZero) ↔ f ≠ 0 := by
    rw [ne_eq, lossOf_zero_iff, ne_eq, hfz]
  have hln : f = 0 → lossOf rem T = .exactlyZero := fun h => (lossOf_zero_iff _ _).2 (hfz.1 h)
  have hlp : f ≠ 0 → ¬ lossOf rem T = .exactlyZero := fun h => hloss.2 h
  refine ⟨m3, by dsimp only; omega, by rw [← hH]; exact q1, by rw [hH2]; exact q2, ?_, ?_, ?_, fun _ => hpow, ?_, hb2, by dsimp only; omega⟩
  · dsimp only
    generalize decide (st ≠ Status.OK) = u1
    generalize decide (sB ≠ Status.OK ∨ lossOf rem T ≠ .exactlyZero) = u2
    generalize decide (lossOf rem T ≠ .exactlyZero) = u3
    cases u1 <;> cases u2 <;> cases u3 <;> simp
  · dsimp only
    intro h0
    by_cases hA : st = Status.OK
    · by_cases hB : sB = Status.OK
      · by_cases hl : f = 0
        · rw [d2 (a11 hA) (b11 hB), hl]; ring
        · exfalso; simp [hA, hB, hlp hl] at h0
      · exfalso; simp [hA, hB] at h0
    · exfalso; simp [hA] at h0
  · dsimp only
    intro h0
    apply key
    by_cases hA : st = Status.OK
    · by_cases hB : sB = Status.OK
      · by_cases hl : f = 0
        · exfalso
          apply h0
          simp [hA, hB, hln hl]
        · have hδ := d2 (a11 hA) (b11 hB)
          simp [hA, hB, hlp hl, hδ, abs_of_nonneg hf0]
          linarith
      · have hδ := d3' (a11 hA)
        by_cases hl : f = 0
        · simp [hA, hB, hln hl]
          linarith
        · simp [hA, hB, hlp hl]
          linarith
    · by_cases hB : sB = Status.OK
      · have hδ := d3 (b11 hB)
        by_cases hl : f = 0
        · simp [hA, hB, hln hl]
          linarith
        · simp [hA, hB, hlp hl]
          linarith
      · by_cases hl : f = 0
        · simp [hA, hB, hln hl]
          linarith
        · simp [hA, hB, hlp hl]
          linarith
  · dsimp only
    rintro ⟨g1, g2⟩
    have hA := a12 g1
    have hB := b12 g2
    have hδ := d2 (a11 hA) (b11 hB)
    rw [hδ, add_zero]
    refine ⟨mul_le_mul_of_nonneg_right (by linarith) hup.le, mul_lt_mul_of_pos_right (by linarith) hup, ?_⟩
    intro heq
    have hl : f = 0 := by
      have := mul_right_cancel₀ hup.ne' heq
      linarith
    simp [hA, hB, hln hl]

end Apf
