import Verif.Props.Spelling
import Verif.Props.DecimalClose
import Verif.Props.Ints
import Verif.Props.DisplayLayout
import Verif.Props.Identities
import Verif.Spec.Everyday
/-! # C121: everyday literals are parsed with the right value and flags in every mode -/

namespace Apf
open Spec IeeeFloat
variable {S : Sem}

/-- Trailing zeros removed. -/
theorem strip_zeros : ∀ {N : ℕ}, 0 < N → ∃ N' j, N = N' * 10 ^ j ∧ ¬ 10 ∣ N' := by
  intro N
  induction N using Nat.strong_induction_on with
  | _ N ih =>
    intro h
    by_cases hd : 10 ∣ N
    · obtain ⟨K, rfl⟩ := hd
      obtain ⟨N', j, e, hn⟩ := ih K (by omega) (by omega)
      exact ⟨N', j + 1, by rw [e, pow_succ]; ring, hn⟩
    · exact ⟨N, 0, by simp, hd⟩

/-- A fraction that is not a binary one keeps away from the numbers of a format. -/
theorem fraction_far {F : Fmt} {N k : ℕ} (hN : N < 2 ^ 123) (hk : 2 ^ (F.p + 1) * 5 ^ k ≤ 2 ^ 123) (hnd : ¬ 5 ^ k ∣ N) {g : ℚ} (hg : F.Grid g) :
    (N : ℚ) / 10 ^ k / 2 ^ 123 < |g - N / 10 ^ k| := by
  obtain ⟨m, q, hm, -, rfl⟩ := hg
  by_contra hc
  push Not at hc
  have hN0 : 0 < N := by
    rcases Nat.eq_zero_or_pos N with rfl | h
    · simp at hnd
    · exact h
  have h10 : (10 : ℚ) ^ k = 2 ^ k * 5 ^ k := by rw [← mul_pow]; norm_num
  have hp10 : (0 : ℚ) < 10 ^ k := by positivity
  have hndz : ∀ m : ℤ, ∀ t : ℕ, m * 5 ^ k ≠ N * 2 ^ t := by
    intro m t e
    apply hnd
    have h1 : ((5 ^ k : ℕ) : ℤ) ∣ ((N * 2 ^ t : ℕ) : ℤ) := ⟨m, by push_cast; rw [← e]; ring⟩
    have h2 := Int.natCast_dvd_natCast.1 h1
    exact (Nat.Coprime.pow k t (by decide : Nat.Coprime 5 2)).dvd_of_dvd_mul_right h2
  rcases le_or_gt 0 (q + k) with hs | hs
  · obtain ⟨s, hs⟩ := Int.eq_ofNat_of_zero_le hs
    have e1 : (m : ℚ) * 2 ^ q = ((m * 5 ^ k * 2 ^ s : ℤ) : ℚ) / 10 ^ k := by
      rw [eq_div_iff hp10.ne', h10, show q = (s : ℤ) - k by omega, zpow_sub₀ (by norm_num), zpow_natCast, zpow_natCast]
      push_cast
      field_simp
    have hX : (m * 2 ^ s) * 5 ^ k - N ≠ (0 : ℤ) := by
      intro e
      have := hndz (m * 2 ^ s) 0
      simp only [pow_zero, mul_one] at this
      exact this (by linarith)
    have hX1 : (1 : ℚ) ≤ |(((m * 2 ^ s) * 5 ^ k - N : ℤ) : ℚ)| := by
      rw [← Int.cast_abs]; exact_mod_cast Int.one_le_abs hX
    rw [e1, ← sub_div, abs_div, abs_of_pos hp10, div_div, mul_comm ((10 : ℚ) ^ k), ← div_div, div_le_div_iff_of_pos_right hp10] at hc
    have e2 : ((m * 5 ^ k * 2 ^ s : ℤ) : ℚ) - N = (((m * 2 ^ s) * 5 ^ k - N : ℤ) : ℚ) := by push_cast; ring
    rw [e2] at hc
    have : (N : ℚ) / 2 ^ 123 < 1 := by rw [div_lt_one (by positivity)]; exact_mod_cast hN
    linarith
  · obtain ⟨t, ht⟩ := Int.eq_ofNat_of_zero_le (show 0 ≤ -(q + k) by omega)
    have hpt : (0 : ℚ) < 10 ^ k * 2 ^ t := by positivity
    have e1 : (m : ℚ) * 2 ^ q - N / 10 ^ k = ((m * 5 ^ k - N * 2 ^ t : ℤ) : ℚ) / (10 ^ k * 2 ^ t) := by
      rw [h10, show q = -((k : ℤ) + t) by omega, zpow_neg, zpow_add₀ (by norm_num), zpow_natCast, zpow_natCast]
      push_cast
      field_simp
    have hX : (m * 5 ^ k - N * 2 ^ t : ℤ) ≠ 0 := sub_ne_zero.2 (hndz m t)
    have hX1 : (1 : ℚ) ≤ |((m * 5 ^ k - N * 2 ^ t : ℤ) : ℚ)| := by
      rw [← Int.cast_abs]; exact_mod_cast Int.one_le_abs hX
    rw [e1, abs_div, abs_of_pos hpt, div_le_iff₀ hpt] at hc
    have e2 : (N : ℚ) / 10 ^ k / 2 ^ 123 * (10 ^ k * 2 ^ t) = N * 2 ^ t / 2 ^ 123 := by field_simp
    rw [e2] at hc
    -- the numerator is small
    have hm' : |((m * 5 ^ k : ℤ) : ℚ)| < 2 ^ F.p * 5 ^ k := by
      rw [← Int.cast_abs, abs_mul, abs_of_nonneg (show (0 : ℤ) ≤ 5 ^ k by positivity)]
      push_cast
      exact mul_lt_mul_of_pos_right (by exact_mod_cast hm) (by positivity)
    have hk' : (2 : ℚ) ^ F.p * 5 ^ k * 2 ≤ 2 ^ 123 := by
      have : ((2 ^ (F.p + 1) * 5 ^ k : ℕ) : ℚ) ≤ ((2 ^ 123 : ℕ) : ℚ) := by exact_mod_cast hk
      push_cast at this
      rw [pow_succ] at this
      linarith
    have hY : (0 : ℚ) ≤ N * 2 ^ t := by positivity
    have e3 : (((m * 5 ^ k - N * 2 ^ t : ℤ) : ℚ)) = ((m * 5 ^ k : ℤ) : ℚ) - N * 2 ^ t := by push_cast; ring
    rw [e3] at hc hX1
    have ha := abs_sub_abs_le_abs_sub ((N : ℚ) * 2 ^ t) ((m * 5 ^ k : ℤ) : ℚ)
    rw [abs_sub_comm ((N : ℚ) * 2 ^ t), abs_of_nonneg hY] at ha
    have h5 : (N : ℚ) * 2 ^ t / 2 ^ 123 ≤ N * 2 ^ t / 2 := by
      apply div_le_div_of_nonneg_left hY (by norm_num) (by norm_num)
    have h6 : (N : ℚ) * 2 ^ t < 2 ^ 123 := by linarith
    have : (N : ℚ) * 2 ^ t / 2 ^ 123 < 1 := by rw [div_lt_one (by positivity)]; exact h6
    linarith

/-- What the conditions give: the number is calculated exactly, or it is far from all numbers of the format. -/
theorem Everyday.cases {F : Fmt} {v : ℚ} (h : Everyday F.p v) : v = 0 ∨ ExactDec v ∨ ∀ g, F.Grid g → v / 2 ^ 123 < |g - v| := by
  have exact_of : ∀ (N j : ℕ), ¬ 10 ∣ N → N * 5 ^ j < 2 ^ 127 → ExactDec (N * 10 ^ j) := by
    intro N j hn hlt
    have hN0 : 0 < N := by
      rcases Nat.eq_zero_or_pos N with rfl | h
      · simp at hn
      · exact h
    refine ⟨N, j, N * 5 ^ j, by rw [zpow_natCast], hn, lt_of_le_of_lt (Nat.le_mul_of_pos_right _ (by positivity)) hlt,
      lt_of_le_of_lt (by rw [Int.natAbs_natCast]; exact Nat.le_mul_of_pos_left _ hN0) hlt, ?_, hlt⟩
    rw [zpow_natCast]
    push_cast
    rw [mul_assoc, ← mul_pow]
    norm_num
  obtain ⟨N, k, hc⟩ := h
  rcases Nat.eq_zero_or_pos N with rfl | hN
  · left
    rcases hc with ⟨e, -⟩ | ⟨e, -⟩ <;> rw [e] <;> simp
  right
  obtain ⟨N', j, rfl, hn⟩ := strip_zeros hN
  have hN' : 0 < N' := Nat.pos_of_mul_pos_right hN
  rcases hc with ⟨rfl, hlt⟩ | ⟨rfl, hlt, hk⟩
  · left
    have := exact_of N' (j + k) hn (by
      refine lt_of_le_of_lt ?_ hlt
      rw [pow_add, ← mul_assoc]
      exact Nat.mul_le_mul_right _ (Nat.mul_le_mul_left _ (Nat.pow_le_pow_left (by norm_num) _)))
    rw [pow_add] at this
    push_cast
    rw [mul_assoc]
    exact this
  · rcases le_or_gt k j with hkj | hkj
    · left
      obtain ⟨i, rfl⟩ : ∃ i, j = k + i := ⟨j - k, by omega⟩
      have := exact_of N' i hn (by
        refine lt_of_lt_of_le (lt_of_le_of_lt ?_ hlt) (by norm_num)
        refine Nat.mul_le_mul_left _ (le_trans (Nat.pow_le_pow_left (by norm_num : 5 ≤ 10) _) (Nat.pow_le_pow_right (by norm_num) (by omega))))
      have e : (((N' * 10 ^ (k + i) : ℕ) : ℚ)) / 10 ^ k = N' * 10 ^ i := by
        push_cast
        rw [pow_add]
        field_simp
      rw [e]
      exact this
    · obtain ⟨i, rfl⟩ : ∃ i, k = j + i := ⟨k - j, by omega⟩
      have e : (((N' * 10 ^ j : ℕ) : ℚ)) / 10 ^ (j + i) = N' / 10 ^ i := by
        push_cast
        rw [pow_add]
        field_simp
      rw [e]
      have hlt' : N' < 2 ^ 123 := lt_of_le_of_lt (Nat.le_mul_of_pos_right _ (by positivity)) hlt
      have hk' : 2 ^ (F.p + 1) * 5 ^ i ≤ 2 ^ 123 :=
        le_trans (Nat.mul_le_mul_left _ (Nat.pow_le_pow_right (by norm_num) (by omega))) hk
      by_cases hd : 5 ^ i ∣ N'
      · left
        obtain ⟨W, hW⟩ := hd
        have h5 : 5 ^ i < 2 ^ 127 := by
          have : 1 * 5 ^ i ≤ 2 ^ (F.p + 1) * 5 ^ i := Nat.mul_le_mul_right _ Nat.one_le_two_pow
          have h7 : (2 : ℕ) ^ 123 < 2 ^ 127 := by norm_num
          omega
        refine ⟨N', -(i : ℤ), W, ?_, hn, lt_trans hlt' (by norm_num), by rw [Int.natAbs_neg, Int.natAbs_natCast]; exact h5, ?_, ?_⟩
        · rw [zpow_neg, zpow_natCast, div_eq_mul_inv]
        · rw [zpow_neg, zpow_natCast, hW]
          push_cast
          rw [show (10 : ℚ) ^ i = 2 ^ i * 5 ^ i by rw [← mul_pow]; norm_num]
          field_simp
        · refine lt_trans (lt_of_le_of_lt ?_ hlt') (by norm_num)
          rw [hW]
          exact Nat.le_mul_of_pos_left _ (by positivity)
      · right
        exact fun g hg => fraction_far hlt' hk' hd hg

/-- **C121.** -/
theorem C121_literal (h : S.OK) (hp : S.precision ≤ 120) {fuel : ℕ} (hfuel : 23 ≤ fuel) (sg : LitSign) {t : List Char} (hlen : t.length < 2 ^ 27) {v : ℚ}
    (ht : IsDec t v) (he : Everyday S.precision v) (mode : Round) :
    ∃ r, fromStrR S fuel (sg.chars ++ t) mode = .ok (.ok r) ∧ r.value.Valid ∧ Rounds S mode (signed (sg == .minus) v) (sg == .minus) r ∧
      r.value.sign = (sg == .minus) := by
  rcases Everyday.cases (F := S.fmt) he with h0 | h1 | h2
  · obtain ⟨r, r1, r2, r3, -, -, -, w, w1, w2, w3⟩ := fromStrR_dec h hfuel sg hlen ht mode
    have : w = v := by
      rw [h0] at w2 ⊢
      simpa using w2
    rw [this] at w3
    exact ⟨r, r1, r2, w3, r3⟩
  · obtain ⟨r, r1, r2, r3, -, ⟨-, r5⟩, -⟩ := fromStrR_dec h hfuel sg hlen ht mode
    exact ⟨r, r1, r2, r5 h1, r3⟩
  · exact C80_correct h hp hfuel sg hlen ht h2 mode

/-- **C121.** A number the format has is read exactly, with no flag, in every mode. -/
theorem C121_exact (h : S.OK) (hp : S.precision ≤ 120) {fuel : ℕ} (hfuel : 23 ≤ fuel) (sg : LitSign) {t : List Char} (hlen : t.length < 2 ^ 27) {v : ℚ}
    (ht : IsDec t v) (he : Everyday S.precision v) (hg : S.fmt.Grid v) (hl : |v| ≤ S.fmt.largest) (mode : Round) :
    ∃ r, fromStrR S fuel (sg.chars ++ t) mode = .ok (.ok r) ∧ r.status = Status.OK ∧ r.value.isFinite = true ∧ r.value.toRat = signed (sg == .minus) v ∧
      r.value.sign = (sg == .minus) := by
  obtain ⟨r, r1, -, r3, r4⟩ := C121_literal h hp hfuel sg hlen ht he mode
  have hg' : S.fmt.Grid (signed (sg == .minus) v) := by
    unfold signed; split
    · exact hg.neg
    · exact hg
  have hl' : |signed (sg == .minus) v| ≤ S.fmt.largest := by
    unfold signed; split
    · rw [abs_neg]; exact hl
    · exact hl
  obtain ⟨e1, e2, e3⟩ := r3.exact hg' hl'
  exact ⟨r, r1, e1, e2, e3, r4⟩

/-- **C121.** Digits with a point among them: at most 37 digits, of which at most `k` after the point, where `5^k` has at most `122 - p` bits. -/
theorem C121_point (h : S.OK) (hp : S.precision ≤ 120) {fuel : ℕ} (hfuel : 23 ≤ fuel) (sg : LitSign) {ip fp : List Char}
    (hi : ∀ c ∈ ip, IsDigit 10 c) (hf' : ∀ c ∈ fp, IsDigit 10 c) (hn : ip ++ fp ≠ []) (hlen : (ip ++ fp).length ≤ 37)
    (hk : 2 ^ (S.precision + 1) * 5 ^ fp.length ≤ 2 ^ 123) (mode : Round) :
    ∃ r, fromStrR S fuel (sg.chars ++ (ip ++ '.' :: fp)) mode = .ok (.ok r) ∧ r.value.Valid ∧
      Rounds S mode (signed (sg == .minus) (number 10 (ip ++ fp) / 10 ^ fp.length)) (sg == .minus) r ∧ r.value.sign = (sg == .minus) := by
  refine C121_literal h hp hfuel sg ?_ (v := number 10 (ip ++ fp) / 10 ^ fp.length) ?_ ?_ mode
  · simp only [List.length_append, List.length_cons] at hlen ⊢
    omega
  · refine ⟨_, ip, fp, ⟨hi, hf', hn, Or.inr rfl⟩, Or.inl ⟨rfl, ?_⟩⟩
    rw [significandValue]; norm_num
  · refine ⟨number 10 (ip ++ fp), fp.length, Or.inr ⟨rfl, ?_, hk⟩⟩
    have := number_lt (base := 10) (by norm_num) (cs := ip ++ fp) (by
      intro c hc
      rcases List.mem_append.1 hc with h | h
      · exact hi c h
      · exact hf' c h)
    refine lt_of_lt_of_le this (le_trans (Nat.pow_le_pow_right (by norm_num) hlen) (by norm_num))

theorem toDigits_isDec (n : ℕ) : IsDec (Nat.toDigits 10 n) n := by
  obtain ⟨d1, d2⟩ := toDigits_ok n
  refine ⟨_, Nat.toDigits 10 n, [], ⟨d1, by simp, ?_, Or.inl ⟨rfl, rfl⟩⟩, Or.inl ⟨rfl, ?_⟩⟩
  · have := toDigits_pos n
    intro e
    rw [List.append_nil] at e
    rw [e] at this; simp at this
  · rw [significandValue, List.append_nil, d2]; simp

theorem toDigits_short {n : ℕ} (hn : n < 2 ^ 127) : (Nat.toDigits 10 n).length < 2 ^ 27 := by
  rcases Nat.eq_zero_or_pos n with rfl | h
  · decide
  · rw [toDigits_length h]
    have : (Nat.digits 10 n).length ≤ 39 := by
      rw [Nat.digits_length_le_iff (by norm_num)]
      exact lt_trans hn (by norm_num)
    omega

/-- **C121.** Parsing the decimal digits of an integer below 2^127, in any mode, gives the same value, bit for bit, and the same flags as converting that
integer. -/
theorem C121_integer (h : S.OK) (hp : S.precision ≤ 120) {fuel : ℕ} (hfuel : 23 ≤ fuel) {n : ℕ} (hn : n < 2 ^ 127) (mode : Round) :
    ∃ r r', fromStrR S fuel (Nat.toDigits 10 n) mode = .ok (.ok r) ∧ fromU128R S n mode = .ok r' ∧
      r.status = r'.status ∧ bitwiseEq r.value r'.value = true := by
  obtain ⟨r, r1, r2, r3, -⟩ := C121_literal h hp hfuel .none (toDigits_short hn) (toDigits_isDec n) ⟨n, 0, Or.inl ⟨by simp, by simpa using hn⟩⟩ mode
  obtain ⟨r', q1, q2, q3⟩ := C17_from_u128 h (lt_trans hn (by norm_num)) mode
  obtain ⟨e1, -, -, e4⟩ := same_result h r2 q2 (show Rounds S mode (n : ℚ) false r from r3) q3
  exact ⟨r, r', by simpa [LitSign.chars] using r1, q1, e1, e4⟩

/-- **C121.** The same for a negative integer, its digits preceded by a minus sign. -/
theorem C121_negative (h : S.OK) (hp : S.precision ≤ 120) {fuel : ℕ} (hfuel : 23 ≤ fuel) {n : ℕ} (h0 : 0 < n) (hn : n < 2 ^ 127) (mode : Round) :
    ∃ r r', fromStrR S fuel ('-' :: Nat.toDigits 10 n) mode = .ok (.ok r) ∧ fromI128R S (-n) mode = .ok r' ∧
      r.status = r'.status ∧ bitwiseEq r.value r'.value = true := by
  obtain ⟨r, r1, r2, r3, -⟩ := C121_literal h hp hfuel .minus (toDigits_short hn) (toDigits_isDec n) ⟨n, 0, Or.inl ⟨by simp, by simpa using hn⟩⟩ mode
  obtain ⟨r', q1, q2, q3⟩ := C17_from_i128 h (n := -n) (by omega) (by omega) mode
  have hz : ((-(n : ℤ) : ℤ) : ℚ) ≠ 0 := by
    have : (n : ℚ) ≠ 0 := by exact_mod_cast h0.ne'
    push_cast; simpa using this
  have q4 : Rounds S mode ((-(n : ℤ) : ℤ) : ℚ) true r' := Rounds.zs q3 hz
  have r4 : Rounds S mode ((-(n : ℤ) : ℤ) : ℚ) true r := by
    rw [Int.cast_neg, Int.cast_natCast]
    exact r3
  obtain ⟨e1, -, -, e4⟩ := same_result h r2 q2 r4 q4
  exact ⟨r, r', by simpa [LitSign.chars] using r1, q1, e1, e4⟩

/-- The conditions are met: `3.14`, `0.1`, `299792458` and `6.02214076e23` in the double format; 29 places after the point are enough there, 42 in single
precision, 47 in half. -/
example : Everyday doubleS.precision (314 / 100) ∧ Everyday doubleS.precision (1 / 10) ∧ Everyday doubleS.precision 299792458 ∧
    Everyday doubleS.precision (602214076 * 10 ^ 15) ∧ 2 ^ (doubleS.precision + 1) * 5 ^ 29 ≤ 2 ^ 123 ∧ 2 ^ (singleS.precision + 1) * 5 ^ 42 ≤ 2 ^ 123 ∧
    2 ^ (halfS.precision + 1) * 5 ^ 47 ≤ 2 ^ 123 :=
  ⟨⟨314, 2, Or.inr ⟨by norm_num, by norm_num, by decide +kernel⟩⟩, ⟨1, 1, Or.inr ⟨by norm_num, by norm_num, by decide +kernel⟩⟩,
    ⟨299792458, 0, Or.inl ⟨by norm_num, by norm_num⟩⟩, ⟨602214076, 15, Or.inl ⟨by norm_num, by norm_num⟩⟩, by decide +kernel, by decide +kernel, by decide +kernel⟩

/-- `0.1` is inexact and `0.5` exact; `16777217` is inexact in single precision. -/
example : ((fromStrR doubleS 23 "0.1".toList .towardZero).toOption.bind (·.toOption)).map (fun r => (r.status, toBits r.value)) = some (Status.INEXACT, .ok 0x3fb9999999999999) ∧
    ((fromStrR doubleS 23 "0.5".toList .towardZero).toOption.bind (·.toOption)).map (fun r => (r.status, toBits r.value)) = some (Status.OK, .ok 0x3fe0000000000000) ∧
    ((fromStrR singleS 23 "16777217".toList .nearestTiesToEven).toOption.bind (·.toOption)).map (fun r => (r.status, toBits r.value)) =
      some (Status.INEXACT, .ok 0x4b800000) := by decide +kernel

end Apf
