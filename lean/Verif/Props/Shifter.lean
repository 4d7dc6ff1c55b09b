import Verif.Proof.Shifter
import Verif.Props.Residual
import Verif.Props.BitOrder
import Verif.Props.Compose
import Verif.Props.DoubleRounding
/-!
# C129: rounding to an integer, or to a multiple of a power of two, by adding and subtracting a large constant

The constant is `3 * 2^(p-2)` units: the sum has the unit as its last place, whatever the sign of the operand.
-/

namespace Apf
open Spec IeeeFloat
variable {S : Sem}

/-- **C129.** Adding and subtracting `3 * 2^(k+p-2)` rounds a number up to a third of it to a multiple of `2^k`: as the mode of the addition says, except that
toward zero means downwards and ties away from zero go upwards.  The subtraction is exact; the addition says whether the value changed. -/
theorem C129_round_to_multiple (h : S.OK) {x c : IeeeFloat S} (hx : x.Valid) (hc : c.Valid) (fx : x.isFinite = true) (fc : c.isFinite = true) {k : ℤ}
    (k1 : S.minExp - S.precision + 1 ≤ k) (k2 : k + S.precision ≤ S.maxExp) (ec : c.toRat = 3 * 2 ^ (S.precision - 2 + k))
    (hb : |x.toRat| ≤ 2 ^ (S.precision - 2 + k)) (m₁ m₂ : Round) :
    ∃ s d, ∃ n : ℤ, addR x c m₁ = .ok s ∧ subR s.value c m₂ = .ok d ∧ s.value.Valid ∧ s.value.isFinite = true ∧ d.value.isFinite = true ∧
      s.value.toRat = (3 * 2 ^ (S.precision - 2) + n : ℤ) * 2 ^ k ∧ d.value.toRat = n * 2 ^ k ∧ d.status = Status.OK ∧
      s.status = { inexact := decide ((n : ℚ) * 2 ^ k ≠ x.toRat) } ∧
      (m₁ ≠ .towardZero → m₁ ≠ .nearestTiesToAway → RoundsToInt m₁ (x.toRat / 2 ^ k) n) ∧
      (m₁ = .towardZero → RoundsToInt .towardNegative (x.toRat / 2 ^ k) n) ∧
      (m₁ = .nearestTiesToAway → 2 * |x.toRat / 2 ^ k - n| ≤ 1 ∧ (2 * |x.toRat / 2 ^ k - n| = 1 → x.toRat / 2 ^ k < n)) := by
  have hp := h.p_ge
  have u0 : (0 : ℚ) < 2 ^ k := by positivity
  obtain ⟨b1, b2⟩ := _root_.abs_le.1 hb
  have e1 : (2 : ℚ) ^ ((S.precision : ℤ) - 1 + k) = 2 * 2 ^ ((S.precision : ℤ) - 2 + k) := by
    rw [show (S.precision : ℤ) - 1 + k = 1 + (S.precision - 2 + k) by ring, two_zpow_add 1 _]; norm_num
  have e2 : (2 : ℚ) ^ ((S.precision : ℤ) + k) = 4 * 2 ^ ((S.precision : ℤ) - 2 + k) := by
    rw [show (S.precision : ℤ) + k = 2 + (S.precision - 2 + k) by ring, two_zpow_add 2 _]; norm_num
  have e3 : (2 : ℚ) ^ ((S.precision : ℤ) - 2 + k) = 2 ^ (S.precision - 2) * 2 ^ k := by
    rw [two_zpow_add _ k, show (S.precision : ℤ) - 2 = ((S.precision - 2 : ℕ) : ℤ) by omega, zpow_natCast]
  have q0 : (0 : ℚ) < 2 ^ ((S.precision : ℤ) - 2 + k) := by positivity
  have top : (2 : ℚ) ^ ((S.precision : ℤ) + k) ≤ S.fmt.largest :=
    (zpow_le_zpow_right₀ (by norm_num) (by omega)).trans (two_pow_le_largest h)
  have vlo : 2 ^ ((S.precision : ℤ) - 1 + k) ≤ x.toRat + c.toRat := by rw [e1, ec]; linarith
  have vhi : x.toRat + c.toRat ≤ 2 ^ ((S.precision : ℤ) + k) := by rw [e2, ec]; linarith
  have v0 : 0 < x.toRat + c.toRat := by rw [ec]; linarith
  obtain ⟨s, s1, s2, s3⟩ := C04_add_correctly_rounded h hx hc fx fc m₁ (directedOK_of_nonneg h _ v0.le)
  obtain ⟨⟨g, g1, g2⟩, -⟩ := s3
  obtain ⟨N, r1, r2, r3, r4⟩ := round_unit (F := S.fmt) hp k1 vlo vhi g1
  have gl : |g| ≤ S.fmt.largest := by
    rw [abs_of_pos (lt_of_lt_of_le (by positivity) r2)]
    exact le_trans r3 top
  obtain ⟨-, sd, ss⟩ := g2.resolve_right (fun c => absurd gl (not_le.2 c.1))
  obtain ⟨fs, es⟩ := datum_num sd
  obtain ⟨n, hn⟩ : ∃ n : ℤ, N = 3 * 2 ^ (S.precision - 2) + n := ⟨N - 3 * 2 ^ (S.precision - 2), by ring⟩
  have gc : g - c.toRat = n * 2 ^ k := by
    rw [r1, ec, e3, hn]; push_cast; ring
  have nb : |(n : ℚ) * 2 ^ k| ≤ 2 ^ ((S.precision : ℤ) - 2 + k) := by
    rw [← gc, ec, _root_.abs_le]
    change 2 ^ ((S.precision : ℤ) - 1 + k) ≤ g at r2
    change g ≤ 2 ^ ((S.precision : ℤ) + k) at r3
    rw [e1] at r2; rw [e2] at r3
    constructor <;> linarith
  have nl : |s.value.toRat - c.toRat| ≤ S.fmt.largest := by
    rw [es, gc]; linarith
  obtain ⟨d, d1, d2, d3⟩ := C05_sub_correctly_rounded h s2 hc fs fc m₂ (directedOK_of_ge h _ (_root_.abs_le.1 nl).1)
  obtain ⟨x1, x2, x3⟩ := Rounds.exact d3 (by
    rw [es, gc]
    exact grid_of_mult (F := S.fmt) (by show 1 ≤ S.precision; omega) ⟨n, rfl⟩ k1 (by change _ ≤ (2:ℚ) ^ ((S.precision : ℤ) + k); rw [e2]; linarith)) nl
  rw [es, gc] at x3
  have hv : x.toRat + c.toRat - g = x.toRat - n * 2 ^ k := by rw [← gc]; ring
  have hdiv : x.toRat / 2 ^ k - n = (x.toRat + c.toRat - g) / 2 ^ k := by rw [hv]; field_simp
  have hN : N % 2 = 0 → n % 2 = 0 := fun a => by
    obtain ⟨j, hj⟩ : ∃ j, S.precision - 2 = j + 1 := ⟨S.precision - 3, by omega⟩
    rw [hj, pow_succ] at hn
    generalize (2 : ℤ) ^ j = P at hn
    omega
  have near : 2 * |x.toRat + c.toRat - g| ≤ 2 ^ k → 2 * |x.toRat / 2 ^ k - n| ≤ 1 := fun a => by
    rw [hdiv, abs_div, abs_of_pos u0, ← mul_div_assoc, div_le_one u0]; exact a
  have tie : 2 * |x.toRat / 2 ^ k - n| = 1 → 2 * |x.toRat + c.toRat - g| = 2 ^ k := fun a => by
    rw [hdiv, abs_div, abs_of_pos u0, ← mul_div_assoc, div_eq_one_iff_eq u0.ne'] at a; exact a
  refine ⟨s, d, n, s1, d1, s2, fs, x2, by rw [es, r1, hn], x3, x1, ?_, fun a b => ?_, fun a => ?_, fun a => ?_⟩
  · rw [ss]
    have a1 : (g ≠ x.toRat + c.toRat) ↔ ((n : ℚ) * 2 ^ k ≠ x.toRat) := not_congr ⟨fun a => by linarith, fun a => by linarith⟩
    have a2 : ¬ |g| < S.fmt.smallestNormal := by
      rw [not_lt, abs_of_pos (lt_of_lt_of_le (by positivity) r2)]
      refine le_trans ?_ r2
      exact zpow_le_zpow_right₀ (by norm_num) (by show S.minExp ≤ (S.precision : ℤ) - 1 + k; omega)
    simp [a1, a2]
  · cases m₁ with
    | towardZero => exact absurd rfl a
    | nearestTiesToAway => exact absurd rfl b
    | towardNegative =>
      obtain ⟨t1, t2⟩ := r4
      refine ⟨(le_div_iff₀ u0).2 (by linarith), (div_lt_iff₀ u0).2 (by linarith)⟩
    | towardPositive =>
      obtain ⟨t1, t2⟩ := r4
      refine ⟨(lt_div_iff₀ u0).2 (by linarith), (div_le_iff₀ u0).2 (by linarith)⟩
    | nearestTiesToEven => exact ⟨near r4.1, fun t => hN (r4.2 (tie t))⟩
  · subst a
    obtain ⟨t1, t2⟩ := r4
    refine ⟨(le_div_iff₀ u0).2 (by linarith), (div_lt_iff₀ u0).2 (by linarith)⟩
  · subst a
    refine ⟨near r4.1, fun t => (div_lt_iff₀ u0).2 ?_⟩
    have := r4.2 (tie t)
    linarith

/-- The magnitude bits of a number of `N` units, `N` having all `p` bits. -/
theorem low_of_units (h : S.Enc) {x : IeeeFloat S} (hx : x.Valid) (fx : x.isFinite = true) {N k : ℤ} (k1 : S.minExp - S.precision + 1 ≤ k)
    (k2 : k + S.precision ≤ S.maxExp) (n1 : 2 ^ (S.precision - 1) ≤ N) (n2 : N < 2 ^ S.precision) (e : x.toRat = N * 2 ^ k) :
    (x.low : ℤ) = (k + S.precision - S.minExp) * 2 ^ S.sigBits + (if S.explicitIntBit then N else N - 2 ^ (S.precision - 1)) := by
  have hp := h.p_ge
  obtain ⟨m, rfl⟩ : ∃ m : ℕ, N = m := ⟨N.toNat, (Int.toNat_of_nonneg (le_trans (by positivity) n1)).symm⟩
  have m1 : 2 ^ (S.precision - 1) ≤ m := by exact_mod_cast n1
  have m2 : m < 2 ^ S.precision := by exact_mod_cast n2
  have m0 : 0 < m := lt_of_lt_of_le (by positivity) m1
  let y : IeeeFloat S := ⟨m, k + S.precision - 1, .normal, false⟩
  have hy : y.Valid := by
    show _ ∧ _
    refine ⟨?_, ?_, m0, m2, Or.inl m1, fun _ a => ?_⟩
    · show S.minExp ≤ k + S.precision - 1; omega
    · show k + S.precision - 1 ≤ S.maxExp; omega
    · have : k + S.precision - 1 = S.maxExp := a
      omega
  have ey : y.toRat = x.toRat := by
    rw [e, toRat_normal rfl]
    show signed false ((m : ℚ) * 2 ^ (k + S.precision - 1 - S.precision + 1)) = _
    rw [show k + (S.precision : ℤ) - 1 - S.precision + 1 = k by ring]
    simp [signed]
  have fy : y.isFinite = true := rfl
  have : x.low = y.low := le_antisymm ((low_le_iff h hx hy fx fy).1 (by rw [ey])) ((low_le_iff h hy hx fy fx).1 (by rw [ey]))
  rw [this]
  have h2 := h.toOK.two_pow
  have fe : (y.fieldE : ℤ) = k + S.precision - S.minExp := by
    show ((if m < 2 ^ (S.precision - 1) then 0 else (k + S.precision - 1 - S.minExp + 1).toNat : ℕ) : ℤ) = _
    rw [if_neg (by omega)]; omega
  have ft : (y.fieldT : ℤ) = if S.explicitIntBit then (m : ℤ) else m - 2 ^ (S.precision - 1) := by
    show ((if S.explicitIntBit then m else m % 2 ^ (S.precision - 1) : ℕ) : ℤ) = _
    split_ifs
    · rfl
    · rw [Nat.mod_eq_sub_mod m1, Nat.mod_eq_of_lt (by omega), Nat.cast_sub m1]; push_cast; rfl
  unfold low
  push_cast
  rw [fe, ft]

/-- **C129.** The integer can be read off the bits of the sum: they exceed those of the constant by it. -/
theorem C129_bits (h : S.Enc) {x c : IeeeFloat S} (hx : x.Valid) (hc : c.Valid) (fx : x.isFinite = true) (fc : c.isFinite = true) {k : ℤ}
    (k1 : S.minExp - S.precision + 1 ≤ k) (k2 : k + S.precision ≤ S.maxExp) (ec : c.toRat = 3 * 2 ^ (S.precision - 2 + k))
    (hb : |x.toRat| ≤ (2 ^ (S.precision - 2) - 1) * 2 ^ k) (m₁ m₂ : Round) :
    ∃ s d, ∃ a b : ℕ, addR x c m₁ = .ok s ∧ subR s.value c m₂ = .ok d ∧ s.value.toBits = .ok b ∧ c.toBits = .ok a ∧
      d.value.toRat = ((b : ℤ) - a : ℤ) * 2 ^ k := by
  have hp := h.p_ge
  have u0 : (0 : ℚ) < 2 ^ k := by positivity
  have e3 : (2 : ℚ) ^ ((S.precision : ℤ) - 2 + k) = 2 ^ (S.precision - 2) * 2 ^ k := by
    rw [two_zpow_add _ k, show (S.precision : ℤ) - 2 = ((S.precision - 2 : ℕ) : ℤ) by omega, zpow_natCast]
  obtain ⟨s, d, n, s1, d1, s2, fs, fd, es, ed, -, -, r1, r2, r3⟩ := C129_round_to_multiple h.toOK hx hc fx fc k1 k2 ec
    (hb.trans (by rw [e3]; exact mul_le_mul_of_nonneg_right (by linarith) u0.le)) m₁ m₂
  have hq : |x.toRat / 2 ^ k| ≤ ((2 ^ (S.precision - 2) - 1 : ℤ) : ℚ) := by
    rw [abs_div, abs_of_pos u0, div_le_iff₀ u0]; push_cast; exact hb
  have nb : |(n : ℚ)| ≤ ((2 ^ (S.precision - 2) - 1 : ℤ) : ℚ) := by
    cases m₁ with
    | towardZero => exact RoundsToInt.abs_le (r2 rfl) hq
    | nearestTiesToAway =>
      obtain ⟨t1, t2⟩ := r3 rfl
      have := abs_sub_abs_le_abs_sub (n : ℚ) (x.toRat / 2 ^ k)
      rw [abs_sub_comm] at this
      have l : |(n : ℚ)| < ((2 ^ (S.precision - 2) - 1 + 1 : ℤ) : ℚ) := by push_cast at hq ⊢; linarith
      have l' : |n| < 2 ^ (S.precision - 2) - 1 + 1 := by exact_mod_cast l
      exact_mod_cast (by omega : |n| ≤ 2 ^ (S.precision - 2) - 1)
    | towardNegative => exact RoundsToInt.abs_le (r1 (by decide) (by decide)) hq
    | towardPositive => exact RoundsToInt.abs_le (r1 (by decide) (by decide)) hq
    | nearestTiesToEven => exact RoundsToInt.abs_le (r1 (by decide) (by decide)) hq
  have nb' : |n| ≤ 2 ^ (S.precision - 2) - 1 := by exact_mod_cast nb
  have nb2 := _root_.abs_le.1 nb'
  have p1 : (2 : ℤ) ^ (S.precision - 1) = 2 * 2 ^ (S.precision - 2) := by
    rw [show S.precision - 1 = S.precision - 2 + 1 by omega, pow_succ]; ring
  have p2 : (2 : ℤ) ^ S.precision = 4 * 2 ^ (S.precision - 2) := by
    rw [show S.precision = S.precision - 2 + 2 by omega, pow_add]; simp; ring
  have hs := low_of_units h s2 fs k1 k2 (by rw [p1]; linarith [nb2.1]) (by rw [p2]; linarith [nb2.2]) es
  have q0 : (0 : ℤ) < 2 ^ (S.precision - 2) := by positivity
  have hcl := low_of_units h hc fc (N := 3 * 2 ^ (S.precision - 2)) k1 k2 (by rw [p1]; linarith) (by rw [p2]; linarith)
    (by rw [ec, e3]; push_cast; ring)
  have sgn : ∀ {y : IeeeFloat S}, y.Valid → 0 < y.toRat → y.sign = false := fun {y} hy y0 => by
    have cy := normal_of_toRat y0.ne'
    cases hs : y.sign
    · rfl
    · have := (sign_neg hy cy hs).1; linarith
  have sc := sgn hc (by rw [ec]; positivity)
  have s0 := sgn s2 (by rw [es]; exact mul_pos (by exact_mod_cast (by linarith [nb2.1] : (0 : ℤ) < 3 * 2 ^ (S.precision - 2) + n)) u0)
  refine ⟨s, d, _, _, s1, d1, toBits_of h s2, toBits_of h hc, ?_⟩
  rw [ed, sc, s0]
  congr 2
  simp only [Bool.toNat_false, zero_mul, zero_add]
  rw [hs, hcl]
  split_ifs <;> ring

/-- **C129.** With the unit 1 this is `round_to_integral`, to the even neighbour, upwards and downwards. -/
theorem C129_integral (h : S.OK) {x c : IeeeFloat S} (hx : x.Valid) (hc : c.Valid) (fx : x.isFinite = true) (fc : c.isFinite = true)
    (ec : c.toRat = 3 * 2 ^ (S.precision - 2 : ℤ))
    (hb : |x.toRat| ≤ 2 ^ (S.precision - 2 : ℤ)) {m₁ : Round} (hm : m₁ ≠ .towardZero ∧ m₁ ≠ .nearestTiesToAway) (m₂ : Round) :
    ∃ s d r, addR x c m₁ = .ok s ∧ subR s.value c m₂ = .ok d ∧ roundToIntegral x m₁ = .ok r ∧ d.value.toRat = r.value.toRat ∧
      d.value.isFinite = true ∧ s.status = r.status := by
  obtain ⟨s, d, n, s1, d1, s2, fs, fd, es, ed, ds, ss, r1, -⟩ := C129_round_to_multiple h hx hc fx fc (k := 0)
    (by have := h.p_ge; have := h.min_lt; omega) (by have := h.p_max; omega)
    (by rw [add_zero]; exact ec) (by rw [add_zero]; exact hb) m₁ m₂
  obtain ⟨r, a1, a2, a3, a4, n', a5, a6, a7⟩ := C13_round_to_integral h hx fx m₁
  have := r1 hm.1 hm.2
  rw [zpow_zero, div_one] at this
  have e : n = n' := this.unique a5
  rw [zpow_zero, mul_one] at ed ss
  exact ⟨s, d, r, s1, d1, a1, by rw [ed, a6, e], fd, by rw [ss, a7, e]⟩

/-- The operand 2.5 in single precision, with the constant 12582912: to the even neighbour 2, upwards 3, and the bits tell. -/
example := C129_integral singleS_ok (x := ⟨10485760, 1, .normal, true⟩) (c := ⟨12582912, 23, .normal, false⟩) (by decide) (by decide) rfl rfl (by decide +kernel)
  (by decide +kernel) (m₁ := .nearestTiesToEven) (by decide) .towardZero

example := C129_round_to_multiple singleS_ok (x := ⟨10485761, -7, .normal, true⟩) (c := ⟨12582912, 13, .normal, false⟩) (by decide) (by decide) rfl rfl (k := -10)
  (by decide) (by decide) (by decide +kernel) (by decide +kernel) .nearestTiesToAway .towardNegative

example := C129_bits singleS_enc (x := ⟨10485760, 1, .normal, true⟩) (c := ⟨12582912, 23, .normal, false⟩) (by decide) (by decide) rfl rfl (k := 0)
  (by decide) (by decide) (by decide +kernel) (by decide +kernel) .towardZero .towardNegative

/-- -2.5 + 12582912 has the bits of the constant less 2 (to even), less 3 (downwards and toward zero). -/
example : (addR (S := singleS) ⟨10485760, 1, .normal, true⟩ ⟨12582912, 23, .normal, false⟩ .nearestTiesToEven = .ok ⟨Status.INEXACT, ⟨12582910, 23, .normal, false⟩⟩) ∧
    (addR (S := singleS) ⟨10485760, 1, .normal, true⟩ ⟨12582912, 23, .normal, false⟩ .towardZero = .ok ⟨Status.INEXACT, ⟨12582909, 23, .normal, false⟩⟩) := by
  decide +kernel

end Apf
