import Verif.Props.Monotone
import Verif.Props.Identities

/-! **C72**: how the operations compose: integer conversion goes through `round_to_integral`, `scalbn` undoes `frexp`,
scalings add up, `ilogb` follows them, and integral values survive the trip through an integer type. -/

namespace Apf
open Spec IeeeFloat
variable {S : Sem}

theorem Spec.RoundsToInt.unique {mode : Round} {v : ℚ} {n k : ℤ} (h : RoundsToInt mode v n) (h' : RoundsToInt mode v k) :
    n = k := le_antisymm (h.mono h' le_rfl) (h'.mono h le_rfl)

/-- **C72.** Converting to a signed integer in some mode is rounding to an integral value in that mode and converting the
result, in whatever mode: the same integer, invalid in the same cases; when it is valid the flags are those of the
rounding step. -/
theorem C72_to_i128_via_integral (h : S.OK) {x : IeeeFloat S} (hx : x.Valid) (fx : x.isFinite = true) {w : ℕ}
    (w1 : 2 ≤ w) (w2 : w ≤ 128) (mode mode' : Round) :
    ∃ i r r', roundToIntegral x mode = .ok i ∧ toI128R x w mode = .ok r ∧ toI128R i.value w mode' = .ok r' ∧
      r.value = r'.value ∧ r.status.invalidOp = r'.status.invalidOp ∧
      (r.status.invalidOp = false → r'.status = Status.OK ∧ r.status = i.status) := by
  obtain ⟨i, i1, i2, i3, i4, n, i5, i6, i7⟩ := C13_round_to_integral h hx fx mode
  obtain ⟨r, r1, n', r2, r3⟩ := C19_to_i128 h hx fx w1 w2 mode
  obtain ⟨r', q1, k, q2, q3⟩ := C19_to_i128 h i2 i3 w1 w2 mode'
  rw [i6] at q2 q3
  have e1 := r2.unique i5
  have e2 : k = n := q2.of_int
  subst e1; subst e2
  refine ⟨i, r, r', i1, r1, q1, ?_⟩
  have hw : (1 : ℤ) ≤ 2 ^ (w - 1) := one_le_pow₀ (by norm_num)
  rcases r3 with ⟨a1, a2, a3, a4, a5⟩ | ⟨a1, a2, a3, a4⟩ | ⟨a1, a2, a3, a4⟩ <;>
    rcases q3 with ⟨b1, b2, b3, b4, b5⟩ | ⟨b1, b2, b3, b4⟩ | ⟨b1, b2, b3, b4⟩ <;> try omega
  · exact ⟨by omega, by rw [a5, b5], fun _ => ⟨by rw [b5]; simp [Status.OK], by rw [a5, i7]⟩⟩
  · exact ⟨by omega, by rw [a4, b4], fun e => by rw [a4] at e; cases e⟩
  · exact ⟨by omega, by rw [a4, b4], fun e => by rw [a4] at e; cases e⟩

example := C72_to_i128_via_integral singleS_ok exM3_valid rfl (w := 8) (by decide) (by decide) .towardZero .nearestTiesToEven

/-- **C72.** The same for unsigned integers. -/
theorem C72_to_u128_via_integral (h : S.OK) {x : IeeeFloat S} (hx : x.Valid) (fx : x.isFinite = true) {w : ℕ}
    (w1 : 1 ≤ w) (w2 : w ≤ 128) (mode mode' : Round) :
    ∃ i r r', roundToIntegral x mode = .ok i ∧ toU128R x w mode = .ok r ∧ toU128R i.value w mode' = .ok r' ∧
      r.value = r'.value ∧ r.status.invalidOp = r'.status.invalidOp ∧
      (r.status.invalidOp = false → r'.status = Status.OK ∧ r.status = i.status) := by
  have hw : (0 : ℤ) ≤ 2 ^ w - 1 := by have : (1 : ℤ) ≤ 2 ^ w := one_le_pow₀ (by norm_num); omega
  have key : ∀ (x : IeeeFloat S), x.Valid → x.isFinite = true → ∀ mode, ∃ r, toU128R x w mode = .ok r ∧
      ∃ n, RoundsToInt mode x.toRat n ∧
      ((0 ≤ n ∧ n ≤ 2 ^ w - 1 ∧ (r.value : ℤ) = n ∧ r.status = { inexact := decide ((n : ℚ) ≠ x.toRat) }) ∨
       (n < 0 ∧ (r.value : ℤ) = 0 ∧ r.status = { invalidOp := true }) ∨
       (2 ^ w - 1 < n ∧ (r.value : ℤ) = 2 ^ w - 1 ∧ r.status = { invalidOp := true })) := by
    intro x hx fx mode
    by_cases hz : x.isZero = true ∧ x.sign = true
    · have c : x.category = .zero := by simpa [isZero] using hz.1
      refine ⟨_, (C18_to_u128_specials w1 w2 mode).1 hz.1 hz.2, 0, ?_, Or.inl ⟨le_rfl, hw, rfl, ?_⟩⟩
      · rw [toRat_zero c]; exact_mod_cast RoundsToInt_self mode 0
      · rw [toRat_zero c]; simp [Status.OK]
    · obtain ⟨r, r1, n, r2, r3⟩ := C18_to_u128 h hx fx hz w1 w2 mode
      refine ⟨r, r1, n, r2, ?_⟩
      rcases r3 with ⟨a1, a2, a3, a4, a5⟩ | ⟨a1, a2, a3, a4⟩ | ⟨a1, a2, a3, a4⟩
      · exact Or.inl ⟨a1, a2, a3, a5⟩
      · exact Or.inr (Or.inl ⟨a1, a2, a4⟩)
      · exact Or.inr (Or.inr ⟨a1, a2, a4⟩)
  obtain ⟨i, i1, i2, i3, i4, n, i5, i6, i7⟩ := C13_round_to_integral h hx fx mode
  obtain ⟨r, r1, n', r2, r3⟩ := key x hx fx mode
  obtain ⟨r', q1, k, q2, q3⟩ := key i.value i2 i3 mode'
  rw [i6] at q2 q3
  have e1 := r2.unique i5
  have e2 : k = n := q2.of_int
  subst e1; subst e2
  refine ⟨i, r, r', i1, r1, q1, ?_⟩
  rcases r3 with ⟨a1, a2, a3, a5⟩ | ⟨a1, a2, a4⟩ | ⟨a1, a2, a4⟩ <;>
    rcases q3 with ⟨b1, b2, b3, b5⟩ | ⟨b1, b2, b4⟩ | ⟨b1, b2, b4⟩ <;> try omega
  · exact ⟨by omega, by rw [a5, b5], fun _ => ⟨by rw [b5]; simp [Status.OK], by rw [a5, i7]⟩⟩
  · exact ⟨by omega, by rw [a4, b4], fun e => by rw [a4] at e; cases e⟩
  · exact ⟨by omega, by rw [a4, b4], fun e => by rw [a4] at e; cases e⟩

example := C72_to_u128_via_integral singleS_ok ex15_valid rfl (w := 8) (by decide) (by decide) .towardPositive .nearestTiesToEven

/-- Scaling by a power of two is exact when the result is in the normal range. -/
theorem scalbn_grid (h : S.OK) {x : IeeeFloat S} (hx : x.Valid) (fx : x.isFinite = true) (n : ℤ) (mode : Round)
    (hg : S.fmt.Grid (x.toRat * 2 ^ n)) (hl : |x.toRat * 2 ^ n| ≤ S.fmt.largest) :
    ∃ r, scalbnR x n mode = .ok r ∧ r.Valid ∧ r.sign = x.sign ∧ r.isFinite = true ∧ r.toRat = x.toRat * 2 ^ n := by
  obtain ⟨r, st, r1, r2, r3, r4⟩ := C25_scalbn h hx fx n mode (directedOK_of_ge h mode (by linarith [(abs_le.1 hl).1]))
  obtain ⟨-, r5, r6⟩ := r4.exact hg hl
  exact ⟨r, r1, r2, r3, r5, r6⟩

theorem same_bits (h : S.OK) {x y : IeeeFloat S} (hx : x.Valid) (hy : y.Valid) (fx : x.isFinite = true) (fy : y.isFinite = true)
    (hs : x.sign = y.sign) (ht : x.toRat = y.toRat) : x.bitwiseEq y = true := by
  rw [C03_bitwise_eq_iff_datum h hx hy (not_nan_of_finite fx), datum_finite fx, datum_finite fy, hs, ht]

theorem sign_eq_of_scaled {x y : IeeeFloat S} (hx : x.Valid) (hy : y.Valid) (fx : x.isFinite = true) (fy : y.isFinite = true)
    (h0 : x.toRat ≠ 0) {c : ℚ} (hc : 0 < c) (e : x.toRat = y.toRat * c) : x.sign = y.sign := by
  have cx : x.category = .normal := by
    rcases isFinite_iff.1 fx with k | k
    · exact k
    · exact absurd (toRat_zero k) h0
  have cy : y.category = .normal := by
    rcases isFinite_iff.1 fy with k | k
    · exact k
    · rw [toRat_zero k, zero_mul] at e; exact absurd e h0
  cases p : x.sign <;> cases q : y.sign <;> try rfl
  · have a := (sign_pos hx cx p).1; have b := (sign_neg hy cy q).1; rw [e] at a; nlinarith
  · have a := (sign_neg hx cx p).1; have b := (sign_pos hy cy q).1; rw [e] at a; nlinarith

/-- **C72.** `scalbn` undoes `frexp`, in whatever modes. -/
theorem C72_frexp_scalbn (h : S.OK) {x : IeeeFloat S} (hx : x.Valid) (fx : x.isFinite = true) (h0 : x.toRat ≠ 0)
    (mode mode' : Round) :
    ∃ f e r, frexpR x mode = .ok (f, e) ∧ scalbnR f e mode' = .ok r ∧ r.bitwiseEq x = true := by
  obtain ⟨f, e, f1, f2, f3, f4, f5, f6⟩ := C27_frexp h hx fx h0 mode
  obtain ⟨r, r1, r2, r3, r4, r5⟩ := scalbn_grid h f2 f3 e mode' (by rw [← f4]; exact grid_toRat h hx fx)
    (by rw [← f4]; exact abs_toRat_le h hx fx)
  refine ⟨f, e, r, f1, r1, same_bits h r2 hx r4 fx ?_ (by rw [r5, f4])⟩
  rw [r3]
  exact (sign_eq_of_scaled hx f2 fx f3 h0 (two_zpow_pos e) f4).symm

example := C72_frexp_scalbn singleS_ok exM3_valid rfl exM3_ne .towardZero .towardPositive

/-- **C72.** The exponent `frexp` returns is one more than `ilogb`. -/
theorem C72_frexp_ilogb (h : S.OK) {x : IeeeFloat S} (hx : x.Valid) (fx : x.isFinite = true) (h0 : x.toRat ≠ 0)
    (mode : Round) : ∃ f e, frexpR x mode = .ok (f, e + 1) ∧ ilogb x = .ok e := by
  obtain ⟨f, e, f1, f2, f3, f4, f5, f6⟩ := C27_frexp h hx fx h0 mode
  obtain ⟨k, k1, k2, k3⟩ := C26_ilogb h hx fx h0
  have ha : |x.toRat| = |f.toRat| * 2 ^ e := by rw [f4, abs_mul, abs_of_pos (two_zpow_pos e)]
  have hp := two_zpow_pos e
  have l1 : (2 : ℚ) ^ (e - 1) ≤ |x.toRat| := by
    rw [ha, show e - 1 = e + (-1) by ring, two_zpow_add, show (2 : ℚ) ^ (-1 : ℤ) = 1 / 2 by norm_num]; nlinarith
  have l2 : |x.toRat| < 2 ^ e := by rw [ha]; nlinarith
  have a := (zpow_lt_zpow_iff_right₀ (a := (2 : ℚ)) (by norm_num)).1 (k2.trans_lt l2)
  have b := (zpow_lt_zpow_iff_right₀ (a := (2 : ℚ)) (by norm_num)).1 (l1.trans_lt k3)
  have : e = k + 1 := by omega
  subst this
  exact ⟨f, k, f1, k1⟩

example := C72_frexp_ilogb singleS_ok exM3_valid rfl exM3_ne .towardZero

/-- **C72.** `ilogb` follows an exact scaling. -/
theorem C72_ilogb_scalbn (h : S.OK) {x : IeeeFloat S} (hx : x.Valid) (fx : x.isFinite = true) (h0 : x.toRat ≠ 0) (n : ℤ)
    (hlo : 2 ^ S.minExp ≤ |x.toRat * 2 ^ n|) (hhi : |x.toRat * 2 ^ n| ≤ S.fmt.largest) (mode : Round) :
    ∃ r e, scalbnR x n mode = .ok r ∧ ilogb x = .ok e ∧ ilogb r = .ok (e + n) := by
  obtain ⟨r, r1, r2, r3, r4, r5⟩ := scalbn_grid h hx fx n mode (grid_scale (grid_toRat h hx fx) hlo) hhi
  obtain ⟨k, k1, k2, k3⟩ := C26_ilogb h hx fx h0
  obtain ⟨j, j1, j2, j3⟩ := C26_ilogb h r2 r4 (by rw [r5]; exact mul_ne_zero h0 (two_zpow_pos n).ne')
  refine ⟨r, k, r1, k1, ?_⟩
  rw [r5, abs_mul, abs_of_pos (two_zpow_pos n)] at j2 j3
  have a1 : (2 : ℚ) ^ (k + n) ≤ |x.toRat| * 2 ^ n := by
    rw [two_zpow_add]; exact mul_le_mul_of_nonneg_right k2 (two_zpow_pos n).le
  have a2 : |x.toRat| * 2 ^ n < (2 : ℚ) ^ (k + n + 1) := by
    rw [show k + n + 1 = k + 1 + n by ring, two_zpow_add]; exact mul_lt_mul_of_pos_right k3 (two_zpow_pos n)
  have a := (zpow_lt_zpow_iff_right₀ (a := (2 : ℚ)) (by norm_num)).1 (j2.trans_lt a2)
  have b := (zpow_lt_zpow_iff_right₀ (a := (2 : ℚ)) (by norm_num)).1 (a1.trans_lt j3)
  rw [j1, show j = k + n by omega]

example := C72_ilogb_scalbn singleS_ok (x := ⟨3 * 2 ^ 22, 1, .normal, true⟩) (by decide) rfl (by decide +kernel) (-20) (by decide +kernel) (by decide +kernel)
  .towardZero

/-- **C72.** Two scalings are one when the first is exact; and scaling back restores the operand. -/
theorem C72_scalbn_scalbn (h : S.OK) {x : IeeeFloat S} (hx : x.Valid) (fx : x.isFinite = true) (m n : ℤ)
    (hlo : x.toRat = 0 ∨ 2 ^ S.minExp ≤ |x.toRat * 2 ^ m|) (hhi : |x.toRat * 2 ^ m| ≤ S.fmt.largest) (mode mode' : Round) :
    (∃ r s t, scalbnR x m mode' = .ok r ∧ scalbnR r n mode = .ok s ∧ scalbnR x (m + n) mode = .ok t ∧
      s.datum = t.datum ∧ s.sign = t.sign) ∧
    (∃ r s, scalbnR x m mode' = .ok r ∧ scalbnR r (-m) mode = .ok s ∧ s.bitwiseEq x = true) := by
  have hg : S.fmt.Grid (x.toRat * 2 ^ m) := by
    rcases hlo with e | e
    · rw [e, zero_mul]; exact grid_zero
    · exact grid_scale (grid_toRat h hx fx) e
  obtain ⟨r, r1, r2, r3, r4, r5⟩ := scalbn_grid h hx fx m mode' hg hhi
  constructor
  · obtain ⟨om, hO⟩ := exists_effective S mode (x.toRat * 2 ^ (m + n))
    have e : r.toRat * 2 ^ n = x.toRat * 2 ^ (m + n) := by rw [r5, mul_assoc, ← two_zpow_add]
    obtain ⟨s, st, s1, s2, s3, s4⟩ := scalbnR_eff h r2 r4 n mode (by rw [e]; exact hO)
    obtain ⟨t, tt, t1, t2, t3, t4⟩ := scalbnR_eff h hx fx (m + n) mode hO
    refine ⟨r, s, t, r1, s1, t1, ?_⟩
    rw [e, r3] at s4
    obtain ⟨u1, u2, u3⟩ := s4.unique t4
    exact ⟨u1, u2⟩
  · have e : r.toRat * 2 ^ (-m) = x.toRat := by rw [r5, mul_assoc, ← two_zpow_add, add_neg_cancel, zpow_zero, mul_one]
    obtain ⟨s, s1, s2, s3, s4, s5⟩ := scalbn_grid h r2 r4 (-m) mode (by rw [e]; exact grid_toRat h hx fx)
      (by rw [e]; exact abs_toRat_le h hx fx)
    exact ⟨r, s, r1, s1, same_bits h s2 hx s4 fx (by rw [s3, r3]) (by rw [s5, e])⟩

example := C72_scalbn_scalbn singleS_ok (x := ⟨3 * 2 ^ 22, 1, .normal, true⟩) (by decide) rfl (-20) 300 (Or.inr (by decide +kernel)) (by decide +kernel)
  .towardZero .towardPositive

/-- **C72.** An integral value in the range of an integer type survives the trip through it (`-0` coming back as `+0`). -/
theorem C72_int_trip (h : S.OK) {x : IeeeFloat S} (hx : x.Valid) (fx : x.isFinite = true) {n : ℤ} (hn : x.toRat = n)
    (mode mode' : Round) :
    (∀ w, 2 ≤ w → w ≤ 128 → -2 ^ (w - 1) ≤ n → n ≤ 2 ^ (w - 1) - 1 → ∃ i r, toI128R x w mode = .ok i ∧ i.value = n ∧
      i.status = Status.OK ∧ fromI128R S i.value mode' = .ok r ∧ r.status = Status.OK ∧ r.value.isFinite = true ∧
      r.value.toRat = x.toRat ∧ (n ≠ 0 → r.value.bitwiseEq x = true)) ∧
    (∀ w, 1 ≤ w → w ≤ 128 → 0 < n → n ≤ 2 ^ w - 1 → ∃ i r, toU128R x w mode = .ok i ∧ (i.value : ℤ) = n ∧
      i.status = Status.OK ∧ fromU128R S i.value mode' = .ok r ∧ r.status = Status.OK ∧ r.value.bitwiseEq x = true) := by
  have hg : S.fmt.Grid (n : ℚ) := by rw [← hn]; exact grid_toRat h hx fx
  have hl : |(n : ℚ)| ≤ S.fmt.largest := by rw [← hn]; exact abs_toRat_le h hx fx
  have back : ∀ {r : IeeeFloat S}, r.Valid → r.isFinite = true → r.toRat = n → n ≠ 0 → r.bitwiseEq x = true := by
    intro r r1 r2 r3 h0
    refine same_bits h r1 hx r2 fx ?_ (by rw [r3, hn])
    exact sign_eq_of_scaled r1 hx r2 fx (by rw [r3]; exact_mod_cast h0) one_pos (by rw [r3, hn, mul_one])
  constructor
  · intro w w1 w2 l1 l2
    obtain ⟨i, i1, k, i2, i3⟩ := C19_to_i128 h hx fx w1 w2 mode
    rw [hn] at i2 i3
    have e := i2.of_int
    subst e
    have hw : (2 : ℤ) ^ (w - 1) ≤ 2 ^ 127 := pow_le_pow_right₀ (by norm_num) (by omega)
    rcases i3 with ⟨-, -, a3, -, a5⟩ | ⟨a1, -⟩ | ⟨a1, -⟩
    · obtain ⟨r, r1, r2, r3⟩ := C17_from_i128 h (n := k) (by omega) (by omega) mode'
      obtain ⟨r4, r5, r6⟩ := r3.exact hg hl
      exact ⟨i, r, i1, a3, by rw [a5]; simp [Status.OK], by rw [a3]; exact r1, r4, r5, by rw [r6, hn], back r2 r5 r6⟩
    · omega
    · omega
  · intro w w1 w2 l1 l2
    have hz : ¬ (x.isZero = true ∧ x.sign = true) := by
      rintro ⟨z, -⟩
      have c : x.category = .zero := by simpa [isZero] using z
      rw [toRat_zero c] at hn
      have : n = 0 := by exact_mod_cast hn.symm
      omega
    obtain ⟨i, i1, k, i2, i3⟩ := C18_to_u128 h hx fx hz w1 w2 mode
    rw [hn] at i2 i3
    have e := i2.of_int
    subst e
    have hw : (2 : ℤ) ^ w ≤ 2 ^ 128 := pow_le_pow_right₀ (by norm_num) (by omega)
    rcases i3 with ⟨-, -, a3, -, a5⟩ | ⟨a1, -⟩ | ⟨a1, -⟩
    · obtain ⟨r, r1, r2, r3⟩ := C17_from_u128 h (n := i.value) (by omega) mode'
      have ec : ((i.value : ℕ) : ℚ) = (k : ℚ) := by rw [← a3]; norm_cast
      rw [ec] at r3
      obtain ⟨r4, r5, r6⟩ := r3.exact hg hl
      exact ⟨i, r, i1, a3, by rw [a5]; simp [Status.OK], r1, r4, back r2 r5 r6 (by omega)⟩
    · omega
    · omega

/-- The hypotheses are met: `1.5` in `Single`, whose significand `frexp` gives as `0.75` with exponent `1`. -/
example : ∃ f r, frexpR ex15 .nearestTiesToEven = .ok (f, 1) ∧ scalbnR f 1 .towardZero = .ok r ∧ r.bitwiseEq ex15 = true :=
  ⟨⟨3 * 2 ^ 22, -1, .normal, false⟩, ⟨3 * 2 ^ 22, 0, .normal, false⟩, by decide +kernel, by decide +kernel, by decide +kernel⟩

example : ex15.Valid ∧ ∃ i r, roundToIntegral ex15 .towardPositive = .ok i ∧ toI128R ex15 8 .towardPositive = .ok r ∧
    r.value = 2 ∧ r.status = i.status ∧ i.status.inexact = true :=
  ⟨ex15_valid, ⟨⟨false, false, false, false, true⟩, ⟨2 ^ 23, 1, .normal, false⟩⟩, ⟨⟨false, false, false, false, true⟩, 2, false⟩,
    by decide +kernel, by decide +kernel, rfl, rfl, rfl⟩

end Apf
