import Verif.Spec.Compensated
import Verif.Props.ErrorFree
import Verif.Props.Midpoint
/-! # C97: compensated summation -/

namespace Apf
open Spec IeeeFloat
variable {S : Sem}

theorem roundoff_nearest (p : ℕ) : roundoff p .nearestTiesToEven = 2 ^ (-(p : ℤ)) := rfl

theorem quarter_le_largest (h : S.OK) (hS : S.nonfinite = .ieee754) : (2 : ℚ) ^ (S.maxExp - 2) ≤ S.fmt.largest := by
  obtain ⟨m, m0, hm, gm1, -, -, lim⟩ := quarter_bounds h hS
  have := lim _ gm1 (by rw [abs_of_pos m0]; linarith)
  rwa [abs_of_pos m0, ← hm] at this

/-- One step of a sum, in range. -/
theorem sum_step (h : S.OK) (hS : S.nonfinite = .ieee754) {x y : IeeeFloat S} (hx : x.Valid) (hy : y.Valid) (fx : x.isFinite = true)
    (fy : y.isFinite = true) (hv : |x.toRat| + |y.toRat| ≤ S.fmt.largest) :
    ∃ s, addR x y .nearestTiesToEven = .ok s ∧ s.value.Valid ∧ s.value.isFinite = true ∧
      |s.value.toRat - (x.toRat + y.toRat)| ≤ 2 ^ (-(S.precision : ℤ)) * |x.toRat + y.toRat| ∧
      |s.value.toRat| ≤ (1 + 2 ^ (-(S.precision : ℤ))) * (|x.toRat| + |y.toRat|) := by
  have h3 := h.p_ge
  have hl := (abs_add_le x.toRat y.toRat).trans hv
  obtain ⟨s, s1, s2, s3⟩ := addR_finite h hx hy fx fy .nearestTiesToEven (directedOK_of_ieee hS _ _)
  obtain ⟨sf, si, -⟩ := rounds_fine h s3 hl
  have e := step_rel (F := S.fmt) (by show 2 ≤ S.precision; omega) si ((grid_toRat h hx fx).mult.add (grid_toRat h hy fy).mult)
  rw [roundoff_nearest] at e
  refine ⟨s, s1, s2, sf, e, ?_⟩
  have t := abs_add_le (s.value.toRat - (x.toRat + y.toRat)) (x.toRat + y.toRat)
  rw [sub_add_cancel] at t
  have a := abs_add_le x.toRat y.toRat
  have u0 := two_zpow_pos (-(S.precision : ℤ))
  have e' : |s.value.toRat - (x.toRat + y.toRat)| ≤ 2 ^ (-(S.precision : ℤ)) * |x.toRat + y.toRat| := e
  nlinarith

theorem twoSum_ok (h : S.OK) (hS : S.nonfinite = .ieee754) {x y : IeeeFloat S} (hx : x.Valid) (hy : y.Valid) (fx : x.isFinite = true)
    (fy : y.isFinite = true) (hv : |x.toRat| + |y.toRat| ≤ 2 ^ (S.maxExp - 2)) :
    ∃ s e, twoSum x y = .ok (s, e) ∧ s.Valid ∧ s.isFinite = true ∧ e.Valid ∧ e.isFinite = true ∧ s.toRat + e.toRat = x.toRat + y.toRat ∧
      |e.toRat| ≤ 2 ^ (-(S.precision : ℤ)) * (|x.toRat| + |y.toRat|) ∧ |s.toRat| ≤ (1 + 2 ^ (-(S.precision : ℤ))) * (|x.toRat| + |y.toRat|) := by
  have hL : (2 : ℚ) ^ (S.maxExp - 2) ≤ S.fmt.largest := quarter_le_largest h hS
  obtain ⟨s, q, t, u, v, e, a1, a2, a3, a4, a5, a6, a7, a8, a9, a10, a11, a12⟩ := C68_two_sum h hS hx hy fx fy
    (by linarith [abs_nonneg y.toRat]) (by linarith [abs_nonneg x.toRat]) .nearestTiesToEven .nearestTiesToEven .nearestTiesToEven .nearestTiesToEven
  obtain ⟨s', b1, b2, b3, b4, b5⟩ := sum_step h hS hx hy fx fy (hv.trans hL)
  rw [a1] at b1
  cases b1
  refine ⟨s.value, e.value, ?_, a11, a7, a12, a8, a10, ?_, b5⟩
  · unfold twoSum
    rw [a1, M.ok_bind, a2, M.ok_bind, a3, M.ok_bind, a4, M.ok_bind, a5, M.ok_bind, a6, M.ok_bind]
  · have : e.value.toRat = -(s.value.toRat - (x.toRat + y.toRat)) := by linarith
    rw [this, abs_neg]
    exact b4.trans (mul_le_mul_of_nonneg_left (abs_add_le _ _) (two_zpow_pos _).le)

theorem magnitude_nonneg (xs : List (IeeeFloat S)) : 0 ≤ magnitude xs :=
  List.sum_nonneg (by intro a ha; obtain ⟨x, -, rfl⟩ := List.mem_map.1 ha; exact abs_nonneg _)

theorem abs_total_le (xs : List (IeeeFloat S)) : |total xs| ≤ magnitude xs := by
  induction xs with
  | nil => simp [total, magnitude]
  | cons x xs ih =>
    have : total (x :: xs) = x.toRat + total xs := by simp [total]
    have e : magnitude (x :: xs) = |x.toRat| + magnitude xs := by simp [magnitude]
    rw [this, e]
    exact (abs_add_le _ _).trans (by linarith)

theorem total_cons (x : IeeeFloat S) (xs : List (IeeeFloat S)) : total (x :: xs) = x.toRat + total xs := by simp [total]
theorem magnitude_cons (x : IeeeFloat S) (xs : List (IeeeFloat S)) : magnitude (x :: xs) = |x.toRat| + magnitude xs := by simp [magnitude]

/-- The growth of a bound along a list. -/
theorem growth {u a b c : ℚ} (hu : 0 ≤ u) (ha : 0 ≤ a) (hc : 0 ≤ c) (n : ℕ) (hb : b ≤ (1 + u) * a) :
    u * a + ((1 + u) ^ n - 1) * (b + c) ≤ ((1 + u) ^ (n + 1) - 1) * (a + c) ∧ (1 + u) ^ n * (b + c) ≤ (1 + u) ^ (n + 1) * (a + c) := by
  have h1 : (1 : ℚ) ≤ (1 + u) ^ n := one_le_pow₀ (by linarith)
  rw [pow_succ]
  generalize (1 + u) ^ n = p at *
  have t1 : p * b ≤ p * ((1 + u) * a) := mul_le_mul_of_nonneg_left hb (by linarith)
  have t2 : 0 ≤ (p - 1) * ((1 + u) * a - b) := mul_nonneg (by linarith) (by linarith)
  have t3 : 0 ≤ p * u * c := mul_nonneg (mul_nonneg (by linarith) hu) hc
  constructor <;> nlinarith

/-- **C97.** Adding a list one by one and keeping what each addition lost loses nothing: the last sum and the kept errors add up to the exact sum.
The errors are small. -/
theorem C97_split (h : S.OK) (hS : S.nonfinite = .ieee754) (x : IeeeFloat S) (ys : List (IeeeFloat S)) (hx : x.Valid ∧ x.isFinite = true)
    (hys : ∀ y ∈ ys, y.Valid ∧ y.isFinite = true)
    (hL : (1 + 2 ^ (-(S.precision : ℤ))) ^ ys.length * magnitude (x :: ys) ≤ 2 ^ (S.maxExp - 2)) :
    ∃ t es, vecSum x ys = .ok (t, es) ∧ t.Valid ∧ t.isFinite = true ∧ es.length = ys.length ∧ (∀ e ∈ es, e.Valid ∧ e.isFinite = true) ∧
      t.toRat + total es = total (x :: ys) ∧ magnitude es ≤ ((1 + 2 ^ (-(S.precision : ℤ))) ^ ys.length - 1) * magnitude (x :: ys) := by
  have u0 := two_zpow_pos (-(S.precision : ℤ))
  generalize hu : (2 : ℚ) ^ (-(S.precision : ℤ)) = u at *
  induction ys generalizing x with
  | nil => exact ⟨x, [], rfl, hx.1, hx.2, rfl, by simp, by simp [total], by simp [magnitude]⟩
  | cons y ys ih =>
    have hy := hys y (by simp)
    have m0 := magnitude_nonneg ys
    have p1 : (1 : ℚ) ≤ (1 + u) ^ (y :: ys).length := one_le_pow₀ (by linarith)
    have hm : magnitude (x :: y :: ys) = (|x.toRat| + |y.toRat|) + magnitude ys := by rw [magnitude_cons, magnitude_cons]; ring
    have a0 : 0 ≤ |x.toRat| + |y.toRat| := by positivity
    have hv : |x.toRat| + |y.toRat| ≤ 2 ^ (S.maxExp - 2) := by
      rw [hm] at hL
      nlinarith
    obtain ⟨s, e, e1, s1, s2, s3, s4, s5, s6, s7⟩ := twoSum_ok h hS hx.1 hy.1 hx.2 hy.2 hv
    rw [hu] at s6 s7
    obtain ⟨g1, g2⟩ := growth (u := u) u0.le a0 m0 ys.length s7
    rw [hm] at hL ⊢
    obtain ⟨t, es, v1, v2, v3, v4, v5, v6, v7⟩ := ih s ⟨s1, s2⟩ (fun z hz => hys z (by simp [hz])) (by rw [magnitude_cons]; exact g2.trans hL)
    refine ⟨t, e :: es, ?_, v2, v3, by simp [v4], ?_, ?_, ?_⟩
    · unfold vecSum
      rw [e1, M.ok_bind]
      show (vecSum s ys >>= fun z => _) = _
      rw [v1]; rfl
    · intro z hz
      rcases List.mem_cons.1 hz with rfl | hz
      · exact ⟨s3, s4⟩
      · exact v5 z hz
    · rw [total_cons] at v6 ⊢
      rw [total_cons, total_cons]
      linarith
    · rw [magnitude_cons] at v7 ⊢
      rw [List.length_cons]
      linarith

theorem plainSum_ok (h : S.OK) (hS : S.nonfinite = .ieee754) (x : IeeeFloat S) (ys : List (IeeeFloat S)) (hx : x.Valid ∧ x.isFinite = true)
    (hys : ∀ y ∈ ys, y.Valid ∧ y.isFinite = true)
    (hL : (1 + 2 ^ (-(S.precision : ℤ))) ^ ys.length * magnitude (x :: ys) ≤ S.fmt.largest) :
    ∃ t, plainSum x ys = .ok t ∧ t.Valid ∧ t.isFinite = true ∧
      |t.toRat - total (x :: ys)| ≤ ((1 + 2 ^ (-(S.precision : ℤ))) ^ ys.length - 1) * magnitude (x :: ys) := by
  have u0 := two_zpow_pos (-(S.precision : ℤ))
  generalize hu : (2 : ℚ) ^ (-(S.precision : ℤ)) = u at *
  induction ys generalizing x with
  | nil => exact ⟨x, rfl, hx.1, hx.2, by simp [total, magnitude]⟩
  | cons y ys ih =>
    have hy := hys y (by simp)
    have m0 := magnitude_nonneg ys
    have p1 : (1 : ℚ) ≤ (1 + u) ^ (y :: ys).length := one_le_pow₀ (by linarith)
    have hm : magnitude (x :: y :: ys) = (|x.toRat| + |y.toRat|) + magnitude ys := by rw [magnitude_cons, magnitude_cons]; ring
    have a0 : 0 ≤ |x.toRat| + |y.toRat| := by positivity
    have hv : |x.toRat| + |y.toRat| ≤ S.fmt.largest := by
      rw [hm] at hL
      nlinarith
    obtain ⟨s, e1, s1, s2, s6, s7⟩ := sum_step h hS hx.1 hy.1 hx.2 hy.2 hv
    rw [hu] at s6 s7
    obtain ⟨g1, g2⟩ := growth (u := u) u0.le a0 m0 ys.length s7
    rw [hm] at hL ⊢
    obtain ⟨t, v1, v2, v3, v7⟩ := ih s.value ⟨s1, s2⟩ (fun z hz => hys z (by simp [hz])) (by rw [magnitude_cons]; exact g2.trans hL)
    refine ⟨t, ?_, v2, v3, ?_⟩
    · unfold plainSum
      rw [e1, M.ok_bind]
      exact v1
    · rw [magnitude_cons] at v7
      rw [total_cons] at v7 ⊢
      rw [total_cons, List.length_cons]
      have e : t.toRat - (x.toRat + (y.toRat + total ys)) = (t.toRat - (s.value.toRat + total ys)) + (s.value.toRat - (x.toRat + y.toRat)) := by ring
      rw [e]
      have := abs_add_le (t.toRat - (s.value.toRat + total ys)) (s.value.toRat - (x.toRat + y.toRat))
      have a := mul_le_mul_of_nonneg_left (abs_add_le x.toRat y.toRat) u0.le
      linarith

/-- **C97.** The compensated sum of a list is as good as if it had been added up in twice the precision and rounded once: one rounding error of the sum itself
plus a term of second order in the magnitudes. -/
theorem C97_compensated (h : S.OK) (hS : S.nonfinite = .ieee754) (x : IeeeFloat S) (ys : List (IeeeFloat S)) (hx : x.Valid ∧ x.isFinite = true)
    (hys : ∀ y ∈ ys, y.Valid ∧ y.isFinite = true)
    (hL : (1 + 2 ^ (-(S.precision : ℤ))) ^ (2 * ys.length) * magnitude (x :: ys) ≤ 2 ^ (S.maxExp - 2)) :
    ∃ r, compensatedSum x ys = .ok r ∧ r.Valid ∧ r.isFinite = true ∧
      |r.toRat - total (x :: ys)| ≤ 2 ^ (-(S.precision : ℤ)) * |total (x :: ys)| +
        (1 + 2 ^ (-(S.precision : ℤ))) * ((1 + 2 ^ (-(S.precision : ℤ))) ^ ys.length - 1) ^ 2 * magnitude (x :: ys) := by
  have h3 := h.p_ge
  have u0 := two_zpow_pos (-(S.precision : ℤ))
  have hB : (2 : ℚ) ^ (S.maxExp - 2) ≤ S.fmt.largest := quarter_le_largest h hS
  have X0 := magnitude_nonneg (x :: ys)
  have hT := abs_total_le (x :: ys)
  rw [mul_comm 2, pow_mul] at hL
  have p1 : (1 : ℚ) ≤ (1 + 2 ^ (-(S.precision : ℤ))) ^ ys.length := one_le_pow₀ (by linarith)
  obtain ⟨t, es, v1, v2, v3, v4, v5, v6, v7⟩ := C97_split h hS x ys hx hys (by
    refine le_trans (mul_le_mul_of_nonneg_right ?_ X0) hL
    rw [pow_two]
    nlinarith)
  have zt : (ZERO S).toRat = 0 := rfl
  have mz : magnitude (ZERO S :: es) = magnitude es := by rw [magnitude_cons, zt]; simp
  have tz : total (ZERO S :: es) = total es := by rw [total_cons, zt]; simp
  generalize hp : (1 + (2 : ℚ) ^ (-(S.precision : ℤ))) ^ ys.length = p at *
  have E0 := magnitude_nonneg es
  obtain ⟨c, c1, c2, c3, c4⟩ := plainSum_ok h hS (ZERO S) es ⟨zero_valid, rfl⟩ v5 (by
    rw [v4, hp, mz]
    have : p * magnitude es ≤ p * ((p - 1) * magnitude (x :: ys)) := mul_le_mul_of_nonneg_left v7 (by linarith)
    have : p * ((p - 1) * magnitude (x :: ys)) ≤ p ^ 2 * magnitude (x :: ys) := by nlinarith [mul_nonneg (by linarith : 0 ≤ p) X0]
    linarith)
  rw [v4, hp, mz, tz] at c4
  have A2 : (p - 1) * magnitude es ≤ (p - 1) ^ 2 * magnitude (x :: ys) := by
    have := mul_le_mul_of_nonneg_left v7 (by linarith : 0 ≤ p - 1)
    rw [pow_two]; linarith
  have d1 : |t.toRat + c.toRat - total (x :: ys)| ≤ (p - 1) ^ 2 * magnitude (x :: ys) := by
    have : t.toRat + c.toRat - total (x :: ys) = c.toRat - total es := by linarith
    rw [this]; exact c4.trans A2
  have d2 : |t.toRat + c.toRat| ≤ |total (x :: ys)| + (p - 1) ^ 2 * magnitude (x :: ys) := by
    have := abs_add_le (t.toRat + c.toRat - total (x :: ys)) (total (x :: ys))
    rw [sub_add_cancel] at this
    linarith
  have d3 : |t.toRat + c.toRat| ≤ S.fmt.largest := by
    refine d2.trans (le_trans ?_ (hL.trans hB))
    have : 0 ≤ (p - 1) * magnitude (x :: ys) := mul_nonneg (by linarith) X0
    nlinarith
  obtain ⟨r, r1, r2, r3⟩ := addR_finite h v2 c2 v3 c3 .nearestTiesToEven (directedOK_of_ieee hS _ _)
  obtain ⟨rf, ri, -⟩ := rounds_fine h r3 d3
  have e := step_rel (F := S.fmt) (by show 2 ≤ S.precision; omega) ri ((grid_toRat h v2 v3).mult.add (grid_toRat h c2 c3).mult)
  have e' : |r.value.toRat - (t.toRat + c.toRat)| ≤ 2 ^ (-(S.precision : ℤ)) * |t.toRat + c.toRat| := e
  refine ⟨r.value, ?_, r2, rf, ?_⟩
  · unfold compensatedSum
    rw [v1, M.ok_bind]
    show (plainSum (ZERO S) es >>= fun z => _) = _
    rw [c1, M.ok_bind, r1, M.ok_bind]
  · have a := abs_add_le (r.value.toRat - (t.toRat + c.toRat)) (t.toRat + c.toRat - total (x :: ys))
    rw [sub_add_sub_cancel] at a
    have b := mul_le_mul_of_nonneg_left d2 u0.le
    nlinarith

/-- `1.5`, a tiny number and `-1.5`: adding them up gives zero, the compensated sum gives the tiny number. -/
example : plainSum ex15 [tiny32, ex15.neg] = .ok (ZERO singleS) ∧ compensatedSum ex15 [tiny32, ex15.neg] = .ok tiny32 := by decide +kernel
theorem comp_example : ∀ y ∈ [tiny32, ex15.neg], y.Valid ∧ y.isFinite = true := by
  intro y hy
  rcases List.mem_cons.1 hy with rfl | hy
  · exact ⟨by decide, rfl⟩
  · cases List.mem_singleton.1 hy
    exact ⟨neg_valid ex15_valid, rfl⟩
theorem comp_magnitude : magnitude [ex15, tiny32, ex15.neg] ≤ 4 := by
  simp only [magnitude, List.map, List.sum_cons, List.sum_nil, neg_toRat, ex15_toRat, tiny32_toRat]
  norm_num [abs_of_pos, _root_.abs_neg]
example : ∃ t es, vecSum ex15 [tiny32, ex15.neg] = .ok (t, es) ∧ t.Valid ∧ t.isFinite = true ∧ es.length = 2 ∧ (∀ e ∈ es, e.Valid ∧ e.isFinite = true) ∧
    t.toRat + total es = total [ex15, tiny32, ex15.neg] ∧
    magnitude es ≤ ((1 + 2 ^ (-(24 : ℤ))) ^ 2 - 1) * magnitude [ex15, tiny32, ex15.neg] :=
  C97_split singleS_ok rfl _ _ ⟨ex15_valid, rfl⟩ comp_example
    (le_trans (mul_le_mul_of_nonneg_left comp_magnitude (by positivity)) (by norm_num [singleS, Sem.default, Sem.maxExp, ieeeMinExp]))
example : ∃ r, compensatedSum ex15 [tiny32, ex15.neg] = .ok r ∧ r.Valid ∧ r.isFinite = true ∧
    |r.toRat - total [ex15, tiny32, ex15.neg]| ≤ 2 ^ (-(24 : ℤ)) * |total [ex15, tiny32, ex15.neg]| +
      (1 + 2 ^ (-(24 : ℤ))) * ((1 + 2 ^ (-(24 : ℤ))) ^ 2 - 1) ^ 2 * magnitude [ex15, tiny32, ex15.neg] :=
  C97_compensated singleS_ok rfl _ _ ⟨ex15_valid, rfl⟩ comp_example
    (le_trans (mul_le_mul_of_nonneg_left comp_magnitude (by positivity)) (by norm_num [singleS, Sem.default, Sem.maxExp, ieeeMinExp]))

end Apf
