import Verif.Proof.TwoSum
/-! # The product of two pairs over the whole range (ppc.rs:302-338) -/

namespace Apf
open Spec
variable {F : Fmt}

/-- The error of a rounded product is representable when the product is a multiple of the smallest unit. -/
theorem product_residual (hp : 4 ≤ F.p) {a c t : ℚ} (ha : F.Grid a) (hc : F.Grid c) (h3 : RN F (a * c) t) (hm : Mult (F.emin - F.p + 1) (a * c)) :
    F.Grid (a * c - t) := by
  rcases le_or_gt (2 ^ (F.emin + F.p + 1)) |a * c| with hP | hP
  · have z0 : RN F (a * 0) 0 := by rw [mul_zero]; exact isRounded_self _ grid_zero
    have z1 : RN F (0 * c) 0 := by rw [zero_mul]; exact isRounded_self _ grid_zero
    obtain ⟨w', hw'⟩ := exists_rounded (F := F) (by omega) .nearestTiesToEven (a * c - t + 0)
    exact (prod_error hp ha grid_zero hc grid_zero (by rw [add_zero]; exact isRounded_self _ ha) (by rw [add_zero]; exact isRounded_self _ hc) h3 z0 z1
      (by rw [add_zero]; exact isRounded_self _ grid_zero) hw' hP).1
  · refine grid_of_mult (by omega) (hm.sub (mult_of_grid h3.1)) (le_refl _) ?_
    rw [show (F.p : ℤ) + (F.emin - F.p + 1) = F.emin + 1 by ring]
    refine (h3.rel (by omega) hm).trans ?_
    have : (2 : ℚ) ^ (-(F.p : ℤ)) * |a * c| ≤ 2 ^ (-(F.p : ℤ)) * 2 ^ (F.emin + F.p + 1) := mul_le_mul_of_nonneg_left hP.le (two_zpow_pos _).le
    refine this.trans (le_of_eq ?_)
    rw [← two_zpow_add]; congr 1; ring

set_option maxHeartbeats 1000000 in
/-- `t` the rounded product of the leading parts, `tau` its rounded error, `v1`, `v2` the rounded cross products, `v` their rounded sum
and `w` the low part before the last renormalization. -/
theorem pair_product (hp : 4 ≤ F.p) {a b c d t tau v1 v2 v w : ℚ} (ha : F.Grid a) (hb : F.Grid b) (hc : F.Grid c) (hd : F.Grid d)
    (h1 : RN F (a + b) a) (h2 : RN F (c + d) c) (h3 : RN F (a * c) t) (ht : RN F (a * c - t) tau)
    (h4 : RN F (a * d) v1) (h5 : RN F (b * c) v2) (h6 : RN F (v1 + v2) v) (h7 : RN F (tau + v) w)
    {M : ℚ} (hM1 : |a * c| ≤ M) (hM2 : 2 ^ F.emin ≤ M) :
    |a * c - t| ≤ M / 16 ∧ |tau| ≤ M / 8 ∧ |a * d| ≤ M / 16 ∧ |b * c| ≤ M / 16 ∧ |v1| ≤ M / 4 ∧ |v2| ≤ M / 4 ∧ |v| ≤ M / 2 ∧ |w| ≤ 3 * M / 4 ∧
    (2 ^ F.emin ≤ |a * c| → |w| ≤ |t|) ∧
    |a * d| + |b * c| + |b * d| ≤ (2 + 1 / 16) * 2 ^ (-(F.p : ℤ)) * |a * c| ∧
    |t + w - (a + b) * (c + d)| ≤ 10 * (2 ^ (-(F.p : ℤ))) ^ 2 * |(a + b) * (c + d)| + 4 * 2 ^ (F.emin - F.p) := by
  obtain ⟨ka, ka1, ka2, ka3, ka4⟩ := exists_unit (by omega) ha
  obtain ⟨kc, kc1, kc2, kc3, kc4⟩ := exists_unit (by omega) hc
  have la := (low_part (by omega) ha hb h1 ka1 ka3 ka4).2
  have lc := (low_part (by omega) hc hd h2 kc1 kc3 kc4).2
  have Et : |a * c - t - tau| ≤ 2 ^ (F.emin - F.p) := by
    rcases le_or_gt (2 ^ (F.emin + F.p + 1)) |a * c| with hP | hP
    · obtain ⟨w', hw'⟩ := exists_rounded (F := F) (by omega) .nearestTiesToEven (a * c - t + v)
      have hg := (prod_error hp ha hb hc hd h1 h2 h3 h4 h5 h6 hw' hP).1
      rw [ht.exact hg, sub_self, abs_zero]
      exact (two_zpow_pos _).le
    · have : |a * c - t| ≤ 2 ^ (F.p + (F.emin - F.p + 1)) := by
        rw [show (F.p : ℤ) + (F.emin - F.p + 1) = F.emin + 1 by ring]
        rcases h3.err (by omega) with e | e
        · exact e.trans (two_zpow_le (by omega))
        · refine e.trans ?_
          have : (2 : ℚ) ^ (-(F.p : ℤ)) * |a * c| ≤ 2 ^ (-(F.p : ℤ)) * 2 ^ (F.emin + F.p + 1) :=
            mul_le_mul_of_nonneg_left hP.le (two_zpow_pos _).le
          refine this.trans (le_of_eq ?_)
          rw [← two_zpow_add]; congr 1; ring
      have := ht.half_unit (by omega) (le_refl _) this
      rwa [show F.emin - (F.p : ℤ) + 1 - 1 = F.emin - F.p by ring] at this
  set u : ℚ := 2 ^ (-(F.p : ℤ)) with hu
  have u0 : 0 < u := two_zpow_pos _
  have u1 : u ≤ 1 / 16 := by
    have : u ≤ 2 ^ (-4 : ℤ) := two_zpow_le (by omega)
    norm_num at this ⊢
    exact this
  obtain ⟨η, hη⟩ : ∃ η : ℚ, η = 2 ^ (F.emin - F.p) := ⟨_, rfl⟩
  have η0 : 0 < η := hη ▸ two_zpow_pos _
  have hηu : η = u * 2 ^ F.emin := by rw [hη, hu, ← two_zpow_add]; congr 1; ring
  have key : ∀ {v g : ℚ}, RN F v g → |v| ≤ u * |a * c| → |v - g| ≤ η + u * (u * |a * c|) := by
    intro v g h hv
    have h0 : 0 ≤ u * (u * |a * c|) := by positivity
    rcases h.err (by omega) with e | e
    · rw [← hη] at e
      linarith
    · rw [← hu] at e
      have := mul_le_mul_of_nonneg_left hv u0.le
      linarith
  have abd : |a * d| ≤ u * |a * c| := by
    rw [abs_mul, abs_mul]
    have := mul_le_mul_of_nonneg_left lc (abs_nonneg a)
    linarith
  have abc : |b * c| ≤ u * |a * c| := by
    rw [abs_mul, abs_mul]
    have := mul_le_mul_of_nonneg_right la (abs_nonneg c)
    linarith
  have abbd : |b * d| ≤ u * (u * |a * c|) := by
    rw [abs_mul, abs_mul]
    have := mul_le_mul la lc (abs_nonneg d) (by positivity)
    linarith
  have et : |a * c - t| ≤ η + u * |a * c| ∧ |a * c - t| ≤ u * M := by
    have h0 : 0 ≤ u * |a * c| := by positivity
    have hm := mul_le_mul_of_nonneg_left hM1 u0.le
    have hm2 := mul_le_mul_of_nonneg_left hM2 u0.le
    rcases h3.err (by omega) with e | e
    · rw [← hη] at e
      exact ⟨by linarith, by linarith⟩
    · rw [← hu] at e
      exact ⟨by linarith, by linarith⟩
  have e1 := key h4 abd
  have e2 := key h5 abc
  have e3 := h6.rel (by omega) ((mult_of_grid h4.1).add (mult_of_grid h5.1))
  have e4 := h7.rel (by omega) ((mult_of_grid ht.1).add (mult_of_grid h6.1))
  rw [← hu] at e3 e4
  rw [← hη] at Et ⊢
  have hηM : η ≤ u * M := by rw [hηu]; exact mul_le_mul_of_nonneg_left hM2 u0.le
  have hηP : 2 ^ F.emin ≤ |a * c| → η ≤ u * |a * c| := fun h => by rw [hηu]; exact mul_le_mul_of_nonneg_left h u0.le
  -- triangle inequalities
  have tri : ∀ x y : ℚ, |y| ≤ |x| + |x - y| := by
    intro x y
    calc |y| = |x - (x - y)| := by congr 1; ring
      _ ≤ _ := abs_sub _ _
  have s1 := tri (a * d) v1
  have s2 := tri (b * c) v2
  have s3 := tri (v1 + v2) v
  have s4 := tri (tau + v) w
  have s5 := tri (a * c - t) tau
  have s6 : |a * c| ≤ |t| + |a * c - t| := by
    have := tri t (a * c)
    rwa [abs_sub_comm t] at this
  have s7 : |v1 + v2| ≤ |v1| + |v2| := abs_add_le _ _
  have s8 : |tau + v| ≤ |tau| + |v| := abs_add_le _ _
  have s9 : |t + w - (a + b) * (c + d)| ≤ |a * c - t - tau| + (|tau + v - w| + (|v1 + v2 - v| + (|a * d - v1| + (|b * c - v2| + |b * d|)))) := by
    have : t + w - (a + b) * (c + d) = -((a * c - t - tau) + ((tau + v - w) + ((v1 + v2 - v) + ((a * d - v1) + ((b * c - v2) + b * d))))) := by ring
    rw [this, abs_neg]
    refine (abs_add_le _ _).trans (add_le_add_right ?_ _)
    refine (abs_add_le _ _).trans (add_le_add_right ?_ _)
    refine (abs_add_le _ _).trans (add_le_add_right ?_ _)
    refine (abs_add_le _ _).trans (add_le_add_right ?_ _)
    exact abs_add_le _ _
  have s10 : |a * c| ≤ |(a + b) * (c + d)| + (|a * d| + (|b * c| + |b * d|)) := by
    have : a * c = (a + b) * (c + d) - (a * d + (b * c + b * d)) := by ring
    calc |a * c| = |(a + b) * (c + d) - (a * d + (b * c + b * d))| := by rw [← this]
      _ ≤ |(a + b) * (c + d)| + |a * d + (b * c + b * d)| := abs_sub _ _
      _ ≤ _ := by
        refine add_le_add_right ?_ _
        refine (abs_add_le _ _).trans (add_le_add_right ?_ _)
        exact abs_add_le _ _
  have P0 := abs_nonneg (a * c)
  have V0 := abs_nonneg v
  have T0 := abs_nonneg tau
  have Tt0 := abs_nonneg (a * c - t)
  clear key tri la lc ka4 kc4 ka3 kc3 ka2 kc2 ka1 kc1 h1 h2 h3 h4 h5 h6 h7 ht ha hb hc hd
  generalize |t + w - (a + b) * (c + d)| = ER at *
  generalize |(a + b) * (c + d)| = XY at *
  generalize |a * c - t - tau| = E5 at *
  generalize |tau + v - w| = E4 at *
  generalize |v1 + v2 - v| = E3 at *
  generalize |b * c - v2| = E2 at *
  generalize |a * d - v1| = E1 at *
  generalize |tau + v| = T7 at *
  generalize |a * c - t| = T at *
  generalize |v1 + v2| = V12 at *
  generalize |b * d| = BD at *
  generalize |a * c| = P at *
  generalize |a * d| = AD at *
  generalize |b * c| = BC at *
  generalize |v1| = V1 at *
  generalize |v2| = V2 at *
  generalize |v| = V at *
  generalize |w| = W at *
  generalize |t| = TT at *
  generalize |tau| = TA at *
  obtain ⟨Q, hQ⟩ : ∃ Q, Q = u * P := ⟨_, rfl⟩
  obtain ⟨R, hR⟩ : ∃ R, R = u * (u * P) := ⟨_, rfl⟩
  have Q0 : 0 ≤ Q := by rw [hQ]; positivity
  have R0 : 0 ≤ R := by rw [hR]; positivity
  have R1 : R ≤ Q / 16 := by
    rw [hR, ← hQ]
    have := mul_le_mul_of_nonneg_right u1 Q0
    linarith
  have small : ∀ z : ℚ, 0 ≤ z → u * z ≤ z / 16 := fun z hz => by
    have := mul_le_mul_of_nonneg_right u1 hz
    linarith
  have uM0 : 0 ≤ u * M := le_trans η0.le hηM
  have QM : Q ≤ u * M := by rw [hQ]; exact mul_le_mul_of_nonneg_left hM1 u0.le
  have M0 : 0 ≤ M := P0.trans hM1
  have uM := small M M0
  have uη := small η η0.le
  have uR := small R R0
  rw [← hR] at e1 e2 abbd
  rw [← hQ] at abd abc et
  have exp1 : u * (2 * Q + 2 * η + 2 * R) = 2 * R + 2 * (u * η) + 2 * (u * R) := by rw [hR, hQ]; ring
  have b3 : V12 ≤ 2 * Q + 2 * η + 2 * R := by linarith
  have e3' : E3 ≤ 2 * R + 2 * (u * η) + 2 * (u * R) := by
    rw [← exp1]; exact e3.trans (mul_le_mul_of_nonneg_left b3 u0.le)
  have b4 : V ≤ 2 * Q + 2.2 * η + 4.2 * R := by linarith
  have b5 : T7 ≤ 3 * Q + 4.2 * η + 4.2 * R := by linarith
  have exp2 : u * (3 * Q + 4.2 * η + 4.2 * R) = 3 * R + 4.2 * (u * η) + 4.2 * (u * R) := by rw [hR, hQ]; ring
  have e4' : E4 ≤ 3 * R + 4.2 * (u * η) + 4.2 * (u * R) := by
    rw [← exp2]; exact e4.trans (mul_le_mul_of_nonneg_left b5 u0.le)
  have er : ER ≤ 8.42 * R + 3.4 * η := by linarith
  have hQP : Q ≤ P / 16 := by rw [hQ]; exact small P P0
  have bp : P ≤ 1.15 * XY := by linarith
  have bW : W ≤ 3 * Q + 4.6 * η + 7.6 * R := by linarith
  obtain ⟨et1, et2⟩ := et
  refine ⟨by linarith, by linarith, by linarith, by linarith, by linarith, by linarith, by linarith, by linarith, ?_, ?_, er.trans ?_⟩
  · intro hh
    have := hηP hh
    rw [← hQ] at this
    linarith
  · have : (2 + 1 / 16) * u * P = (2 + 1 / 16) * Q := by rw [hQ]; ring
    rw [this]
    linarith
  · have hRX : R ≤ 1.15 * (u ^ 2 * XY) := by
      have := mul_le_mul_of_nonneg_left bp (by positivity : (0 : ℚ) ≤ u ^ 2)
      rw [hR]
      linarith
    have : 0 ≤ u ^ 2 * XY := by linarith
    linarith

end Apf
