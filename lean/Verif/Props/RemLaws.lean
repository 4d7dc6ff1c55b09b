import Verif.Props.Compose
import Verif.Props.Rem
/-! # C92: the laws of the two remainders -/

namespace Apf
open Spec IeeeFloat
variable {S : Sem}

/-- The sign bit of a value tells on which side of zero it is. -/
theorem side_of_sign {x : IeeeFloat S} (hx : x.Valid) (fx : x.isFinite = true) :
    (x.sign = false → 0 ≤ x.toRat) ∧ (x.sign = true → x.toRat ≤ 0) := by
  rcases isFinite_iff.1 fx with c | c
  · exact ⟨fun s => (sign_pos hx c s).1.le, fun s => (sign_neg hx c s).1.le⟩
  · rw [toRat_zero c]; exact ⟨fun _ => le_rfl, fun _ => le_rfl⟩

/-- Two numbers below `|y|` on the same side of zero that differ by a multiple of `y` are equal. -/
theorem rem_unique {r r' y : ℚ} (h : |r| < |y|) (h' : |r'| < |y|) (hs : (0 ≤ r ∧ 0 ≤ r') ∨ (r ≤ 0 ∧ r' ≤ 0)) {k : ℤ} (hk : r - r' = k * y) : r = r' := by
  have hy : 0 < |y| := lt_of_le_of_lt (abs_nonneg r) h
  have hd : |r - r'| < |y| := by
    rw [abs_lt] at h h' ⊢
    rcases hs with ⟨a, b⟩ | ⟨a, b⟩ <;> constructor <;> linarith
  rw [hk, abs_mul] at hd
  have : |(k : ℚ)| < 1 := by
    by_contra c
    push Not at c
    nlinarith
  have k0 : k = 0 := by
    rw [← Int.cast_abs] at this
    have : |k| < 1 := by exact_mod_cast this
    exact Int.abs_lt_one_iff.1 this
  rw [k0] at hk
  simp at hk
  linarith

/-- **C92** (what `c_fmod` depends on).  Two dividends with the same sign that differ by a multiple of the divisor have the same remainder, bit for bit;
the sign of the divisor does not matter. -/
theorem C92_fmod_periodic (h : S.OK) {x x' y y' : IeeeFloat S} (hx : x.Valid) (hx' : x'.Valid) (hy : y.Valid) (hy' : y'.Valid) (fx : x.isFinite = true)
    (fx' : x'.isFinite = true) (fy : y.isFinite = true) (fy' : y'.isFinite = true) (hy0 : y.toRat ≠ 0) (hyy : |y'.toRat| = |y.toRat|)
    (hs : x.sign = x'.sign) {k : ℤ} (hk : x.toRat - x'.toRat = k * y.toRat) :
    ∃ r r', cFmod x y = .ok ⟨Status.OK, r⟩ ∧ cFmod x' y' = .ok ⟨Status.OK, r'⟩ ∧ r.bitwiseEq r' = true := by
  have hy0' : y'.toRat ≠ 0 := by rw [← abs_pos, hyy, abs_pos]; exact hy0
  obtain ⟨r, r1, r2, r3, r4, -, r5, ⟨N, r6⟩, -, -⟩ := cFmod_ok h hx hy fx fy hy0
  obtain ⟨q, q1, q2, q3, q4, -, q5, ⟨M', q6⟩, -, -⟩ := cFmod_ok h hx' hy' fx' fy' hy0'
  refine ⟨r, q, r1, q1, same_bits h r2 q2 r3 q3 (by rw [r4, q4, hs]) ?_⟩
  have sd : (0 ≤ r.toRat ∧ 0 ≤ q.toRat) ∨ (r.toRat ≤ 0 ∧ q.toRat ≤ 0) := by
    have a := side_of_sign r2 r3
    have b := side_of_sign q2 q3
    rw [r4] at a
    rw [q4, ← hs] at b
    cases e : x.sign
    · exact Or.inl ⟨a.1 e, b.1 e⟩
    · exact Or.inr ⟨a.2 e, b.2 e⟩
  rw [hyy] at q5
  rcases abs_eq_abs.1 hyy with e | e
  · exact rem_unique r5 q5 sd (k := k - N + M') (by rw [r6, q6, e]; push_cast; linear_combination hk)
  · exact rem_unique r5 q5 sd (k := k - N - M') (by rw [r6, q6, e]; push_cast; linear_combination hk)

example := C92_fmod_periodic singleS_ok (x := ⟨5 * 2 ^ 21, 2, .normal, false⟩) (x' := ⟨2 ^ 23, -1, .normal, false⟩) (y := ex15) (y' := ex15.neg) (by decide) (by decide)
  ex15_valid (by decide) rfl rfl rfl rfl (by decide +kernel) (by decide +kernel) rfl (k := 3) (by decide +kernel)

/-- **C92** (size).  The remainder is below the divisor and at most the dividend in magnitude; a dividend below the divisor is its own remainder,
and no other dividend is. -/
theorem C92_fmod_bounds (h : S.OK) {x y : IeeeFloat S} (hx : x.Valid) (hy : y.Valid) (fx : x.isFinite = true) (fy : y.isFinite = true)
    (hy0 : y.toRat ≠ 0) :
    ∃ r, cFmod x y = .ok ⟨Status.OK, r⟩ ∧ |r.toRat| < |y.toRat| ∧ |r.toRat| ≤ |x.toRat| ∧ (r.bitwiseEq x = true ↔ |x.toRat| < |y.toRat|) := by
  obtain ⟨r, r1, r2, r3, r4, -, r5, ⟨N, r6⟩, s1, s2⟩ := cFmod_ok h hx hy fx fy hy0
  have keep : |x.toRat| < |y.toRat| → r.toRat = x.toRat := by
    intro c
    have a := side_of_sign r2 r3
    have b := side_of_sign hx fx
    rw [r4] at a
    refine rem_unique r5 c ?_ (k := -N) (by rw [r6]; push_cast; ring)
    cases e : x.sign
    · exact Or.inl ⟨a.1 e, b.1 e⟩
    · exact Or.inr ⟨a.2 e, b.2 e⟩
  refine ⟨r, r1, r5, ?_, fun e => ?_, fun c => same_bits h r2 hx r3 fx r4 (keep c)⟩
  · rcases lt_or_ge |x.toRat| |y.toRat| with c | c
    · rw [keep c]
    · exact r5.le.trans c
  · rw [C03_bitwise_eq_iff_datum h r2 hx (not_nan_of_finite r3), datum_finite r3, datum_finite fx] at e
    injection e with e1 e2
    first
      | rw [← e2]; exact r5
      | rw [← e1]; exact r5

example := C92_fmod_bounds singleS_ok exM3_valid ex15_valid rfl rfl (by decide +kernel)

/-- **C92** (symmetry).  Negating the dividend negates the remainder; negating the divisor changes nothing. -/
theorem C92_fmod_signs (h : S.OK) {x y : IeeeFloat S} (hx : x.Valid) (hy : y.Valid) (fx : x.isFinite = true) (fy : y.isFinite = true)
    (hy0 : y.toRat ≠ 0) :
    ∃ r r' r'', cFmod x y = .ok ⟨Status.OK, r⟩ ∧ cFmod x y.neg = .ok ⟨Status.OK, r'⟩ ∧ cFmod x.neg y = .ok ⟨Status.OK, r''⟩ ∧
      r'.bitwiseEq r = true ∧ r''.bitwiseEq r.neg = true := by
  obtain ⟨r, r1, r2, r3, r4, -, r5, ⟨N, r6⟩, s1, s2⟩ := cFmod_ok h hx hy fx fy hy0
  have fy' : y.neg.isFinite = true := fy
  have fx' : x.neg.isFinite = true := fx
  obtain ⟨q', r', a1, a2, a3⟩ := C92_fmod_periodic h hx hx (neg_valid hy) hy fx fx fy' fy (by rw [neg_toRat]; simpa using hy0)
    (by rw [neg_toRat, abs_neg]) rfl (k := 0) (by simp)
  rw [r1] at a2
  injection a2 with a2
  injection a2 with _ a2
  subst a2
  obtain ⟨q, q1, q2, q3, q4, -, q5, ⟨M', q6⟩, -, -⟩ := cFmod_ok h (neg_valid hx) hy fx' fy hy0
  refine ⟨r, q', q, r1, a1, q1, a3, same_bits h q2 (neg_valid r2) q3 r3 (by rw [q4, neg_eq, neg_eq, r4]) ?_⟩
  rw [neg_toRat]
  rw [neg_toRat] at q6
  have a := side_of_sign r2 r3
  have b := side_of_sign q2 q3
  rw [r4] at a
  rw [q4, neg_eq] at b
  refine rem_unique q5 (by rw [abs_neg]; exact r5) ?_ (k := -(N + M')) (by rw [q6, r6]; push_cast; ring)
  cases e : x.sign
  · exact Or.inr ⟨b.2 (by simp [e]), by linarith [a.1 e]⟩
  · exact Or.inl ⟨b.1 (by simp [e]), by linarith [a.2 e]⟩

example := C92_fmod_signs singleS_ok exM3_valid ex15_valid rfl rfl (by decide +kernel)

/-- **C92** (composition).  Reducing first by a multiple of the divisor does not change the remainder; in particular reducing twice is reducing once. -/
theorem C92_fmod_fmod (h : S.OK) {x y z : IeeeFloat S} (hx : x.Valid) (hy : y.Valid) (hz : z.Valid) (fx : x.isFinite = true) (fy : y.isFinite = true)
    (fz : z.isFinite = true) (hy0 : y.toRat ≠ 0) (hz0 : z.toRat ≠ 0) {m : ℤ} (hm : z.toRat = m * y.toRat) :
    ∃ t r r', cFmod x z = .ok ⟨Status.OK, t⟩ ∧ cFmod t y = .ok ⟨Status.OK, r⟩ ∧ cFmod x y = .ok ⟨Status.OK, r'⟩ ∧ r.bitwiseEq r' = true := by
  obtain ⟨t, t1, t2, t3, t4, -, -, ⟨N, t6⟩, -, -⟩ := cFmod_ok h hx hz fx fz hz0
  obtain ⟨r, r', r1, r2, r3⟩ := C92_fmod_periodic h t2 hx hy hy t3 fx fy fy hy0 rfl t4 (k := -(N * m)) (by rw [t6, hm]; push_cast; ring)
  exact ⟨t, r, r', t1, r1, r2, r3⟩

example := C92_fmod_fmod singleS_ok (x := ⟨5 * 2 ^ 21, 2, .normal, false⟩) (y := ex15) (z := exM3) (by decide) ex15_valid exM3_valid rfl rfl rfl (by decide +kernel)
  (by decide +kernel) (m := -2) (by decide +kernel)

/-- A distance of at most half of `y` leaves one multiple, or two at the same distance. -/
theorem near_unique {v : ℚ} {n k : ℤ} (h : RoundsToInt .nearestTiesToEven v n) (h' : RoundsToInt .nearestTiesToEven v k) : n = k := h.unique h'

/-- The sign bit of a remainder follows from its value and the sign of the dividend. -/
theorem rem_sign {r r' x : IeeeFloat S} (hr : r.Valid) (hr' : r'.Valid) (fr : r.isFinite = true) (fr' : r'.isFinite = true) (e : r.toRat = r'.toRat)
    (z : r.toRat = 0 → r.sign = x.sign) (z' : r'.toRat = 0 → r'.sign = x.sign) : r.sign = r'.sign := by
  by_cases h0 : r.toRat = 0
  · rw [z h0, z' (e ▸ h0)]
  · exact sign_eq_of_scaled hr hr' fr fr' h0 one_pos (by rw [e, mul_one])

/-- **C92** (IEEE remainder: size).  It is at most half the divisor in magnitude, and a dividend of at most half the divisor is its own remainder. -/
theorem C92_rem_bounds (h : S.OK) {x y : IeeeFloat S} (hx : x.Valid) (hy : y.Valid) (fx : x.isFinite = true) (fy : y.isFinite = true)
    (hy0 : y.toRat ≠ 0) :
    ∃ r, ieeeRem x y = .ok ⟨Status.OK, r⟩ ∧ 2 * |r.toRat| ≤ |y.toRat| ∧ |r.toRat| ≤ |x.toRat| ∧ (r.bitwiseEq x = true ↔ 2 * |x.toRat| ≤ |y.toRat|) := by
  obtain ⟨r, r1, r2, r3, r4, n, r5, r6⟩ := C24_ieee_rem h hx hy fx fy hy0
  have hp : 0 < |y.toRat| := abs_pos.2 hy0
  have e : r.toRat = (x.toRat / y.toRat - n) * y.toRat := by rw [r6]; field_simp
  have b : 2 * |r.toRat| ≤ |y.toRat| := by
    rw [e, abs_mul]
    have := r5.1
    nlinarith
  have keep : 2 * |x.toRat| ≤ |y.toRat| → n = 0 := by
    intro c
    refine near_unique r5 ⟨?_, fun _ => rfl⟩
    have : |x.toRat / y.toRat| * |y.toRat| = |x.toRat| := by rw [← abs_mul]; congr 1; field_simp
    simp only [Int.cast_zero, sub_zero]
    by_contra k
    push Not at k
    nlinarith
  refine ⟨r, r1, b, ?_, fun q => ?_, fun c => ?_⟩
  · by_cases c : 2 * |x.toRat| ≤ |y.toRat|
    · rw [r6, keep c]; simp
    · push Not at c; linarith
  · rw [C03_bitwise_eq_iff_datum h r2 hx (not_nan_of_finite r3), datum_finite r3, datum_finite fx] at q
    injection q with e1 e2
    first
      | rw [← e2]; exact b
      | rw [← e1]; exact b
  · have e0 : r.toRat = x.toRat := by rw [r6, keep c]; simp
    exact same_bits h r2 hx r3 fx (rem_sign r2 hx r3 fx e0 r4 (fun _ => rfl)) e0

example := C92_rem_bounds singleS_ok exM3_valid ex15_valid rfl rfl (by decide +kernel)

theorem rti_neg {v : ℚ} {n : ℤ} (h : RoundsToInt .nearestTiesToEven v n) : RoundsToInt .nearestTiesToEven (-v) (-n) := by
  have e : |(-v) - ((-n : ℤ) : ℚ)| = |v - n| := by rw [← abs_neg]; congr 1; push_cast; ring
  refine ⟨by rw [e]; exact h.1, fun k => ?_⟩
  rw [e] at k
  have := h.2 k
  omega

/-- **C92** (IEEE remainder: symmetry).  Negating the dividend negates the remainder; negating the divisor changes nothing. -/
theorem C92_rem_signs (h : S.OK) {x y : IeeeFloat S} (hx : x.Valid) (hy : y.Valid) (fx : x.isFinite = true) (fy : y.isFinite = true)
    (hy0 : y.toRat ≠ 0) :
    ∃ r r' r'', ieeeRem x y = .ok ⟨Status.OK, r⟩ ∧ ieeeRem x y.neg = .ok ⟨Status.OK, r'⟩ ∧ ieeeRem x.neg y = .ok ⟨Status.OK, r''⟩ ∧
      r'.bitwiseEq r = true ∧ r''.bitwiseEq r.neg = true := by
  obtain ⟨r, r1, r2, r3, r4, n, r5, r6⟩ := C24_ieee_rem h hx hy fx fy hy0
  obtain ⟨p, p1, p2, p3, p4, m, p5, p6⟩ := C24_ieee_rem h hx (neg_valid hy) fx fy (by rw [neg_toRat]; simpa using hy0)
  obtain ⟨q, q1, q2, q3, q4, k, q5, q6⟩ := C24_ieee_rem h (neg_valid hx) hy fx fy hy0
  rw [neg_toRat] at p5 p6 q5 q6
  rw [div_neg] at p5
  rw [neg_div] at q5
  have em := near_unique p5 (rti_neg r5)
  have ek := near_unique q5 (rti_neg r5)
  have ep : p.toRat = r.toRat := by rw [p6, r6, em]; push_cast; ring
  have eq : q.toRat = r.neg.toRat := by rw [neg_toRat, q6, r6, ek]; push_cast; ring
  refine ⟨r, p, q, r1, p1, q1, same_bits h p2 r2 p3 r3 (rem_sign p2 r2 p3 r3 ep p4 r4) ep, same_bits h q2 (neg_valid r2) q3 r3 ?_ eq⟩
  refine rem_sign q2 (neg_valid r2) q3 r3 eq q4 (x := x.neg) fun z => ?_
  rw [neg_toRat, neg_eq_zero] at z
  rw [neg_eq, neg_eq, r4 z]

example := C92_rem_signs singleS_ok (x := ⟨3 * 2 ^ 22, 2, .normal, true⟩) (y := ⟨5 * 2 ^ 21, 0, .normal, false⟩) (by decide) (by decide) rfl rfl (by decide +kernel)

/-- **C92** (how the remainders are related).  The IEEE remainder is the remainder of `c_fmod`, or what is missing from it to the next multiple: the
former if that is less than half the divisor, the latter if it is more than half. -/
theorem C92_rem_of_fmod (h : S.OK) {x y : IeeeFloat S} (hx : x.Valid) (hy : y.Valid) (fx : x.isFinite = true) (fy : y.isFinite = true)
    (hy0 : y.toRat ≠ 0) :
    ∃ f r, cFmod x y = .ok ⟨Status.OK, f⟩ ∧ ieeeRem x y = .ok ⟨Status.OK, r⟩ ∧
      (2 * |f.toRat| < |y.toRat| → r.bitwiseEq f = true) ∧
      (|y.toRat| < 2 * |f.toRat| → r.toRat = f.toRat - (if 0 ≤ x.toRat then |y.toRat| else -|y.toRat|)) ∧
      (|y.toRat| = 2 * |f.toRat| → |r.toRat| = |f.toRat|) ∧
      (r.toRat = 0 ↔ f.toRat = 0) ∧ (f.toRat = 0 ↔ ∃ m : ℤ, x.toRat = m * y.toRat) := by
  obtain ⟨r, r1, r2, r3, r4, n, r5, r6⟩ := C24_ieee_rem h hx hy fx fy hy0
  obtain ⟨f, f1, f2, f3, f4, -, f5, ⟨N, f6⟩, s1, s2⟩ := cFmod_ok h hx hy fx fy hy0
  have hp : 0 < |y.toRat| := abs_pos.2 hy0
  have e : r.toRat = (x.toRat / y.toRat - n) * y.toRat := by rw [r6]; field_simp
  have b : 2 * |r.toRat| ≤ |y.toRat| := by
    rw [e, abs_mul]
    have := r5.1
    nlinarith
  have d : r.toRat - f.toRat = ((N - n : ℤ) : ℚ) * y.toRat := by rw [r6, f6]; push_cast; ring
  -- the difference is at most one divisor
  have le1 : |N - n| ≤ 1 := by
    have t : |r.toRat - f.toRat| < 2 * |y.toRat| := lt_of_le_of_lt (abs_sub _ _) (by linarith)
    rw [d, abs_mul] at t
    have : |((N - n : ℤ) : ℚ)| < 2 := by
      by_contra c
      push Not at c
      nlinarith
    rw [← Int.cast_abs] at this
    have : |N - n| < 2 := by exact_mod_cast this
    omega
  have tri : r.toRat = f.toRat ∨ r.toRat = f.toRat - |y.toRat| ∨ r.toRat = f.toRat + |y.toRat| := by
    have : N - n = 0 ∨ N - n = 1 ∨ N - n = -1 := by
      rw [abs_le] at le1
      omega
    rcases this with c | c | c <;> rw [c] at d <;> push_cast at d
    · left; linarith
    · rcases abs_choice y.toRat with a | a <;> rw [a]
      · right; right; linarith
      · right; left; linarith
    · rcases abs_choice y.toRat with a | a <;> rw [a]
      · right; left; linarith
      · right; right; linarith
  have fs : (0 ≤ x.toRat ∧ 0 ≤ f.toRat) ∨ (x.toRat < 0 ∧ f.toRat ≤ 0) := by
    rcases le_or_gt 0 x.toRat with c | c
    · exact Or.inl ⟨c, s1 c⟩
    · exact Or.inr ⟨c, s2 c.le⟩
  have low : 2 * |f.toRat| < |y.toRat| → r.toRat = f.toRat := by
    intro c
    rcases tri with t | t | t
    · exact t
    · exfalso; rw [t] at b
      have := abs_sub_abs_le_abs_sub |y.toRat| f.toRat
      rw [abs_abs, abs_sub_comm] at this
      linarith
    · exfalso; rw [t] at b
      have := abs_sub_abs_le_abs_sub |y.toRat| (-f.toRat)
      rw [abs_abs, abs_neg, sub_neg_eq_add, add_comm] at this
      linarith
  have zf : f.toRat = 0 ↔ ∃ m : ℤ, x.toRat = m * y.toRat := by
    refine ⟨fun z => ⟨N, by linarith⟩, ?_⟩
    rintro ⟨m, em⟩
    refine rem_unique f5 (r' := 0) (by simpa using hp) ?_ (k := m - N) (by rw [f6, em]; push_cast; ring)
    rcases fs with ⟨-, c⟩ | ⟨-, c⟩
    · exact Or.inl ⟨c, le_rfl⟩
    · exact Or.inr ⟨c, le_rfl⟩
  refine ⟨f, r, f1, r1, fun c => ?_, fun c => ?_, fun c => ?_, ⟨fun z => ?_, fun z => ?_⟩, zf⟩
  · exact same_bits h r2 f2 r3 f3 (rem_sign r2 f2 r3 f3 (low c) r4 (fun _ => f4)) (low c)
  · rcases fs with ⟨k, l⟩ | ⟨k, l⟩
    · rw [if_pos k]
      rw [abs_of_nonneg l] at c f5
      rcases tri with t | t | t
      · rw [t, abs_of_nonneg l] at b; linarith
      · exact t
      · rw [t, abs_of_nonneg (by linarith)] at b; linarith
    · rw [if_neg (by linarith)]
      rw [abs_of_nonpos l] at c f5
      rcases tri with t | t | t
      · rw [t, abs_of_nonpos l] at b; linarith
      · rw [t, abs_of_nonpos (by linarith)] at b; linarith
      · linarith
  · rcases fs with ⟨k, l⟩ | ⟨k, l⟩
    · rw [abs_of_nonneg l] at c ⊢
      rcases tri with t | t | t
      · rw [t, abs_of_nonneg l]
      · rw [t, c, abs_of_nonpos (by linarith)]; ring
      · rw [t, abs_of_nonneg (by linarith)] at b; linarith
    · rw [abs_of_nonpos l] at c ⊢
      rcases tri with t | t | t
      · rw [t, abs_of_nonpos l]
      · rw [t, abs_of_nonpos (by linarith)] at b; linarith
      · rw [t, c, abs_of_nonneg (by linarith)]; ring
  · exact zf.2 ⟨n, by linarith⟩
  · have := low (by rw [z]; simpa using hp)
    rw [this, z]

/-- Non-vacuity: in `Half`, 7 by 2.  `c_fmod` gives 1 and `ieee_rem` gives -1 (a tie, 7/2 = 3.5, taken to the even quotient 4). -/
example : ∃ x y r f : IeeeFloat halfS, x.Valid ∧ y.Valid ∧ x.isFinite = true ∧ y.isFinite = true ∧ x.toRat = 7 ∧ y.toRat = 2 ∧
    cFmod x y = .ok ⟨Status.OK, f⟩ ∧ f.toRat = 1 ∧ ieeeRem x y = .ok ⟨Status.OK, r⟩ ∧ r.toRat = -1 := by
  refine ⟨⟨7 * 2 ^ 8, 2, .normal, false⟩, ⟨2 ^ 10, 1, .normal, false⟩, ⟨2 ^ 10, 0, .normal, true⟩, ⟨2 ^ 10, 0, .normal, false⟩,
    by decide +kernel, by decide +kernel, rfl, rfl, ?_, ?_, by decide +kernel, ?_, by decide +kernel, ?_⟩ <;>
  norm_num [toRat, signed, halfS, Sem.default]

end Apf
