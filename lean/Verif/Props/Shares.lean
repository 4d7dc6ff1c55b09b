import Verif.Props.Midpoint

/-! # C118: ratios, fractions of a number and interpolated values stay within their bounds -/

namespace Apf
open Spec IeeeFloat
variable {S : Sem}

theorem add_near (h : S.OK) {x y : IeeeFloat S} (hx : x.Valid) (hy : y.Valid) (fx : x.isFinite = true) (fy : y.isFinite = true) (mode : Round)
    (hv : |x.toRat + y.toRat| ≤ S.fmt.largest) :
    ∃ r, addR x y mode = .ok r ∧ r.value.Valid ∧ r.value.isFinite = true ∧ IsRounded S.fmt mode (x.toRat + y.toRat) r.value.toRat := by
  obtain ⟨r, r1, r2, r3⟩ := addR_finite h hx hy fx fy mode (directedOK_of_ge h mode (_root_.abs_le.1 hv).1)
  obtain ⟨rf, ri, -⟩ := rounds_fine h r3 hv
  exact ⟨r, r1, r2, rf, ri⟩

theorem sub_near (h : S.OK) {x y : IeeeFloat S} (hx : x.Valid) (hy : y.Valid) (fx : x.isFinite = true) (fy : y.isFinite = true) (mode : Round)
    (hv : |x.toRat - y.toRat| ≤ S.fmt.largest) :
    ∃ r, subR x y mode = .ok r ∧ r.value.Valid ∧ r.value.isFinite = true ∧ IsRounded S.fmt mode (x.toRat - y.toRat) r.value.toRat := by
  obtain ⟨r, r1, r2, r3⟩ := subR_finite h hx hy fx fy mode (directedOK_of_ge h mode (_root_.abs_le.1 hv).1)
  obtain ⟨rf, ri, -⟩ := rounds_fine h r3 hv
  exact ⟨r, r1, r2, rf, ri⟩

theorem mul_near (h : S.OK) {x y : IeeeFloat S} (hx : x.Valid) (hy : y.Valid) (fx : x.isFinite = true) (fy : y.isFinite = true) (mode : Round)
    (hv : |x.toRat * y.toRat| ≤ S.fmt.largest) :
    ∃ r, mulR x y mode = .ok r ∧ r.value.Valid ∧ r.value.isFinite = true ∧ IsRounded S.fmt mode (x.toRat * y.toRat) r.value.toRat := by
  obtain ⟨r, r1, r2, r3⟩ := mulR_finite h hx hy fx fy mode (directedOK_of_ge h mode (_root_.abs_le.1 hv).1)
  obtain ⟨rf, ri, -⟩ := rounds_fine h r3 hv
  exact ⟨r, r1, r2, rf, ri⟩

theorem div_near (h : S.OK) {x y : IeeeFloat S} (hx : x.Valid) (hy : y.Valid) (fx : x.isFinite = true) (fy : y.isFinite = true) (y0 : y.toRat ≠ 0)
    (mode : Round) (hv : |x.toRat / y.toRat| ≤ S.fmt.largest) :
    ∃ r, divR x y mode = .ok r ∧ r.value.Valid ∧ r.value.isFinite = true ∧ IsRounded S.fmt mode (x.toRat / y.toRat) r.value.toRat := by
  obtain ⟨r, r1, r2, r3⟩ := divR_finite h hx hy fx fy y0 mode (directedOK_of_ge h mode (_root_.abs_le.1 hv).1)
  obtain ⟨rf, ri, -⟩ := rounds_fine h r3 hv
  exact ⟨r, r1, r2, rf, ri⟩

/-- A number of magnitude at most `c` rounds to a number of magnitude at most `c`, for `c` in the format. -/
theorem Spec.IsRounded.abs_le_grid {F : Fmt} {mode : Round} {v r c : ℚ} (h : IsRounded F mode v r) (hc : F.Grid c) (hv : |v| ≤ c) : |r| ≤ c := by
  obtain ⟨a, b⟩ := abs_le.1 hv
  exact abs_le.2 ⟨h.ge_of_grid hc.neg a, h.le_of_grid hc b⟩

theorem Spec.IsRounded.grid_le_abs {F : Fmt} {mode : Round} {v r c : ℚ} (h : IsRounded F mode v r) (hc : F.Grid c) (hv : c ≤ |v|) : c ≤ |r| := by
  rcases le_total 0 v with k | k
  · rw [abs_of_nonneg k] at hv
    exact (h.ge_of_grid hc hv).trans (le_abs_self _)
  · rw [abs_of_nonpos k] at hv
    have := h.le_of_grid hc.neg (by linarith : v ≤ -c)
    exact (by linarith : c ≤ -r).trans (neg_le_abs _)

theorem grid_one (h : S.OK) : S.fmt.Grid 1 := by
  have := grid_int h (n := 1) (by rw [abs_one]; exact one_le_pow₀ (by norm_num))
  simpa using this

theorem one_le_largest (h : S.OK) : 1 ≤ S.fmt.largest := by
  have := int_le_largest h (n := 1) (by rw [abs_one]; exact one_le_pow₀ (by norm_num))
  simpa using this

theorem Spec.Fmt.Grid.abs {F : Fmt} {v : ℚ} (h : F.Grid v) : F.Grid |v| := by
  rcases abs_choice v with k | k <;> rw [k]
  · exact h
  · exact h.neg

/-- **C118.** A share `x / (x + y)` of two numbers that are not negative lies between 0 and 1, whatever the rounding modes. -/
theorem C118_share (h : S.OK) {x y : IeeeFloat S} (hx : x.Valid) (hy : y.Valid) (fx : x.isFinite = true) (fy : y.isFinite = true) (x0 : 0 ≤ x.toRat)
    (y0 : 0 ≤ y.toRat) (hs : 0 < x.toRat + y.toRat) (hv : x.toRat + y.toRat ≤ S.fmt.largest) (m1 m2 : Round) :
    ∃ s r, addR x y m1 = .ok s ∧ divR x s.value m2 = .ok r ∧ r.value.Valid ∧ r.value.isFinite = true ∧ 0 ≤ r.value.toRat ∧ r.value.toRat ≤ 1 := by
  have gx := grid_toRat h hx fx
  have gy := grid_toRat h hy fy
  obtain ⟨s, s1, s2, sf, si⟩ := add_near h hx hy fx fy m1 (by rwa [abs_of_pos hs])
  have b1 := si.ge_of_grid gx (by linarith)
  have b2 := si.ge_of_grid gy (by linarith)
  have sp : 0 < s.value.toRat := by
    rcases x0.lt_or_eq with k | k
    · linarith
    · linarith
  have q0 : 0 ≤ x.toRat / s.value.toRat := by positivity
  have q1 : x.toRat / s.value.toRat ≤ 1 := (div_le_one sp).2 b1
  obtain ⟨r, r1, r2, rf, ri⟩ := div_near h hx s2 fx sf sp.ne' m2 (by rw [abs_of_nonneg q0]; exact q1.trans (one_le_largest h))
  exact ⟨s, r, s1, r1, r2, rf, ri.nonneg q0, ri.le_of_grid (grid_one h) q1⟩

/-- **C118.** The contrast `(x - y) / (x + y)` of two numbers that are not negative lies between -1 and 1, whatever the rounding modes. -/
theorem C118_contrast (h : S.OK) {x y : IeeeFloat S} (hx : x.Valid) (hy : y.Valid) (fx : x.isFinite = true) (fy : y.isFinite = true) (x0 : 0 ≤ x.toRat)
    (y0 : 0 ≤ y.toRat) (hs : 0 < x.toRat + y.toRat) (hv : x.toRat + y.toRat ≤ S.fmt.largest) (m1 m2 m3 : Round) :
    ∃ d s r, subR x y m1 = .ok d ∧ addR x y m2 = .ok s ∧ divR d.value s.value m3 = .ok r ∧ r.value.Valid ∧ r.value.isFinite = true ∧
      -1 ≤ r.value.toRat ∧ r.value.toRat ≤ 1 := by
  have gx := grid_toRat h hx fx
  have gy := grid_toRat h hy fy
  obtain ⟨s, s1, s2, sf, si⟩ := add_near h hx hy fx fy m2 (by rwa [abs_of_pos hs])
  have b1 := si.ge_of_grid gx (by linarith)
  have b2 := si.ge_of_grid gy (by linarith)
  have sp : 0 < s.value.toRat := by
    rcases x0.lt_or_eq with k | k
    · linarith
    · linarith
  obtain ⟨d, d1, d2, df, di⟩ := sub_near h hx hy fx fy m1 (abs_le.2 ⟨by linarith, by linarith⟩)
  have c1 := di.le_of_grid gx (by linarith)
  have c2 := di.ge_of_grid gy.neg (by linarith)
  have q : |d.value.toRat / s.value.toRat| ≤ 1 := by
    rw [abs_div, abs_of_pos sp, div_le_one sp]
    exact abs_le.2 ⟨by linarith, by linarith⟩
  obtain ⟨r, r1, r2, rf, ri⟩ := div_near h d2 s2 df sf sp.ne' m3 (q.trans (one_le_largest h))
  obtain ⟨a, b⟩ := abs_le.1 (ri.abs_le_grid (grid_one h) q)
  exact ⟨d, s, r, d1, s1, r1, r2, rf, a, b⟩

/-- **C118.** Multiplying by a number of magnitude at most 1, or dividing by one of magnitude at least 1, does not increase a magnitude; multiplying by a
number of magnitude at least 1, or dividing by one of magnitude at most 1, does not decrease it. -/
theorem C118_factor (h : S.OK) {x t : IeeeFloat S} (hx : x.Valid) (ht : t.Valid) (fx : x.isFinite = true) (ft : t.isFinite = true) (mode : Round) :
    (|t.toRat| ≤ 1 → ∃ r, mulR x t mode = .ok r ∧ r.value.Valid ∧ r.value.isFinite = true ∧ |r.value.toRat| ≤ |x.toRat|) ∧
    (1 ≤ |t.toRat| → |x.toRat * t.toRat| ≤ S.fmt.largest →
      ∃ r, mulR x t mode = .ok r ∧ r.value.Valid ∧ r.value.isFinite = true ∧ |x.toRat| ≤ |r.value.toRat|) ∧
    (1 ≤ |t.toRat| → ∃ r, divR x t mode = .ok r ∧ r.value.Valid ∧ r.value.isFinite = true ∧ |r.value.toRat| ≤ |x.toRat|) ∧
    (|t.toRat| ≤ 1 → t.toRat ≠ 0 → |x.toRat / t.toRat| ≤ S.fmt.largest →
      ∃ r, divR x t mode = .ok r ∧ r.value.Valid ∧ r.value.isFinite = true ∧ |x.toRat| ≤ |r.value.toRat|) := by
  have gx := (grid_toRat h hx fx).abs
  have lx := abs_toRat_le h hx fx
  have nx := abs_nonneg x.toRat
  refine ⟨fun k => ?_, fun k hv => ?_, fun k => ?_, fun k t0 hv => ?_⟩
  · have q : |x.toRat * t.toRat| ≤ |x.toRat| := by rw [abs_mul]; nlinarith
    obtain ⟨r, r1, r2, rf, ri⟩ := mul_near h hx ht fx ft mode (q.trans lx)
    exact ⟨r, r1, r2, rf, ri.abs_le_grid gx q⟩
  · obtain ⟨r, r1, r2, rf, ri⟩ := mul_near h hx ht fx ft mode hv
    exact ⟨r, r1, r2, rf, ri.grid_le_abs gx (by rw [abs_mul]; nlinarith)⟩
  · have tp : 0 < |t.toRat| := by linarith
    have q : |x.toRat / t.toRat| ≤ |x.toRat| := by rw [abs_div, div_le_iff₀ tp]; nlinarith
    obtain ⟨r, r1, r2, rf, ri⟩ := div_near h hx ht fx ft (abs_pos.1 tp) mode (q.trans lx)
    exact ⟨r, r1, r2, rf, ri.abs_le_grid gx q⟩
  · obtain ⟨r, r1, r2, rf, ri⟩ := div_near h hx ht fx ft t0 mode hv
    exact ⟨r, r1, r2, rf, ri.grid_le_abs gx (by rw [abs_div, le_div_iff₀ (abs_pos.2 t0)]; nlinarith)⟩

/-- **C118.** `x + t * (y - x)` lies between `x` and `y` for `0 ≤ t ≤ 1`, if the difference is representable or was rounded down, whatever the rounding modes of
the other two operations; and it grows with `t`. -/
theorem C118_interpolate (h : S.OK) {x y t t' : IeeeFloat S} (hx : x.Valid) (hy : y.Valid) (ht : t.Valid) (ht' : t'.Valid) (fx : x.isFinite = true)
    (fy : y.isFinite = true) (ft : t.isFinite = true) (ft' : t'.isFinite = true) (hxy : x.toRat ≤ y.toRat) (hv : y.toRat - x.toRat ≤ S.fmt.largest)
    (t0 : 0 ≤ t.toRat) (tt : t.toRat ≤ t'.toRat) (t1 : t'.toRat ≤ 1) (m1 m2 m3 : Round)
    (hm : m1 = .towardZero ∨ m1 = .towardNegative ∨ S.fmt.Grid (y.toRat - x.toRat)) :
    ∃ d p p' r r', subR y x m1 = .ok d ∧ mulR t d.value m2 = .ok p ∧ mulR t' d.value m2 = .ok p' ∧ addR x p.value m3 = .ok r ∧
      addR x p'.value m3 = .ok r' ∧ r.value.Valid ∧ r.value.isFinite = true ∧ r'.value.Valid ∧ r'.value.isFinite = true ∧
      x.toRat ≤ r.value.toRat ∧ r.value.toRat ≤ r'.value.toRat ∧ r'.value.toRat ≤ y.toRat := by
  have gx := grid_toRat h hx fx
  have gy := grid_toRat h hy fy
  obtain ⟨lx, lx'⟩ := abs_le.1 (abs_toRat_le h hx fx)
  obtain ⟨ly, ly'⟩ := abs_le.1 (abs_toRat_le h hy fy)
  have hd0 : 0 ≤ y.toRat - x.toRat := by linarith
  obtain ⟨d, d1, d2, df, di⟩ := sub_near h hy hx fy fx m1 (by rwa [abs_of_nonneg hd0])
  have dn := di.nonneg hd0
  have dle : d.value.toRat ≤ y.toRat - x.toRat := by
    rcases hm with rfl | rfl | g
    · exact (di.2.1 hd0).1
    · exact di.2.1
    · exact (di.unique (isRounded_self m1 g)).le
  have gd := grid_toRat h d2 df
  have step : ∀ {u : IeeeFloat S}, u.Valid → u.isFinite = true → 0 ≤ u.toRat → u.toRat ≤ 1 → ∃ p r, mulR u d.value m2 = .ok p ∧
      addR x p.value m3 = .ok r ∧ r.value.Valid ∧ r.value.isFinite = true ∧ IsRounded S.fmt m2 (u.toRat * d.value.toRat) p.value.toRat ∧
      IsRounded S.fmt m3 (x.toRat + p.value.toRat) r.value.toRat ∧ 0 ≤ p.value.toRat ∧ p.value.toRat ≤ d.value.toRat := by
    intro u hu fu u0 u1
    have q0 : 0 ≤ u.toRat * d.value.toRat := by positivity
    have q1 : u.toRat * d.value.toRat ≤ d.value.toRat := by nlinarith
    obtain ⟨p, p1, p2, pf, pi⟩ := mul_near h hu d2 fu df m2 (by rw [abs_of_nonneg q0]; linarith)
    have pn := pi.nonneg q0
    have pd := pi.le_of_grid gd q1
    obtain ⟨r, r1, r2, rf, ri⟩ := add_near h hx p2 fx pf m3 (abs_le.2 ⟨by linarith, by linarith⟩)
    exact ⟨p, r, p1, r1, r2, rf, pi, ri, pn, pd⟩
  obtain ⟨p, r, p1, r1, r2, rf, pi, ri, pn, pd⟩ := step ht ft t0 (by linarith)
  obtain ⟨p', r', p1', r1', r2', rf', pi', ri', pn', pd'⟩ := step ht' ft' (by linarith) t1
  have pm := pi.mono pi' (mul_le_mul_of_nonneg_right tt dn)
  exact ⟨d, p, p', r, r', d1, p1, p1', r1, r1', r2, rf, r2', rf', ri.ge_of_grid gx (by linarith), ri.mono ri' (by linarith), ri'.le_of_grid gy (by linarith)⟩
/-- **C118.** With a difference rounded to nearest, `x + t * (y - x)` can pass `y`: for `x = -1`, `y = 3 * 2^-12` and `t = 1` it is `2^-10` (`Half`). -/
theorem C118_overshoot : ∃ x y t : IeeeFloat halfS, ∃ d p r, x.Valid ∧ y.Valid ∧ t.Valid ∧ t.toRat = 1 ∧ x.toRat < y.toRat ∧
    subR y x .nearestTiesToEven = .ok d ∧ mulR t d.value .nearestTiesToEven = .ok p ∧ addR x p.value .nearestTiesToEven = .ok r ∧
    y.toRat < r.value.toRat :=
  ⟨⟨1024, 0, .normal, true⟩, ⟨1536, -11, .normal, false⟩, ⟨1024, 0, .normal, false⟩, _, _, _, by decide, by decide, by decide, by decide +kernel, by decide +kernel,
    rfl, rfl, rfl, by decide +kernel⟩

/-- `(1 - t) * x + t * y`, all operations in the default mode. -/
def weighted (one t x y : IeeeFloat S) : M (StatusAnd (IeeeFloat S)) := do
  let u ← subR one t .nearestTiesToEven
  let a ← mulR u.value x .nearestTiesToEven
  let b ← mulR t y .nearestTiesToEven
  addR a.value b.value .nearestTiesToEven

/-- **C118.** `(1 - t) * x + t * y` need not lie between `x` and `y`: for `x = y` and `t = 1061/2048` it can be smaller or larger than both (`Half`). -/
theorem C118_weighted :
    (∃ one t x : IeeeFloat halfS, ∃ r, one.toRat = 1 ∧ 0 ≤ t.toRat ∧ t.toRat ≤ 1 ∧ weighted one t x x = .ok r ∧ r.value.toRat < x.toRat) ∧
    (∃ one t x : IeeeFloat halfS, ∃ r, one.toRat = 1 ∧ 0 ≤ t.toRat ∧ t.toRat ≤ 1 ∧ weighted one t x x = .ok r ∧ x.toRat < r.value.toRat) :=
  ⟨⟨⟨1024, 0, .normal, false⟩, ⟨1061, -1, .normal, false⟩, ⟨1981, 0, .normal, false⟩, ⟨⟨false, false, false, false, true⟩, ⟨1980, 0, .normal, false⟩⟩,
      by decide +kernel, by decide +kernel, by decide +kernel, by decide +kernel, by decide +kernel⟩,
    ⟨⟨1024, 0, .normal, false⟩, ⟨1061, -1, .normal, false⟩, ⟨2003, 0, .normal, false⟩, ⟨⟨false, false, false, false, true⟩, ⟨2004, 0, .normal, false⟩⟩,
      by decide +kernel, by decide +kernel, by decide +kernel, by decide +kernel, by decide +kernel⟩⟩

example := C118_share singleS_ok (x := ex15) (y := ex15) ex15_valid ex15_valid rfl rfl (by decide +kernel) (by decide +kernel) (by decide +kernel)
  (by decide +kernel) .towardPositive .nearestTiesToAway
example := C118_contrast singleS_ok (x := ex15) (y := ⟨2 ^ 23 + 1, 5, .normal, false⟩) ex15_valid (by decide) rfl rfl (by decide +kernel) (by decide +kernel)
  (by decide +kernel) (by decide +kernel) .towardPositive .nearestTiesToAway .towardNegative
example := C118_factor singleS_ok (x := exM3) (t := ex15) exM3_valid ex15_valid rfl rfl .towardPositive
example := C118_interpolate singleS_ok (x := exM3) (y := ex15) (t := ⟨2 ^ 23 + 7, -3, .normal, false⟩) (t' := ⟨2 ^ 23, 0, .normal, false⟩) exM3_valid ex15_valid
  (by decide) (by decide) rfl rfl rfl rfl (by decide +kernel) (by decide +kernel) (by decide +kernel) (by decide +kernel) (by decide +kernel)
  .towardZero .nearestTiesToAway .towardPositive (.inl rfl)

end Apf
