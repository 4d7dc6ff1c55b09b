import Verif.Props.Ulp
/-!
# C132: comparing by a difference or by a quotient
-/

namespace Apf
open Spec IeeeFloat
variable {F : Fmt} {S : Sem}

/-- Comparing a rounded result with a number below the largest is comparing the rounding, whether or not it overflowed. -/
theorem cmp_rounds (h : S.OK) {mode : Round} {v : ℚ} {zs : Bool} {r : StatusAnd (IeeeFloat S)} (hr : r.value.Valid) (hv : Rounds S mode v zs r)
    (hl : S.nonfinite = .ieee754 ∨ |v| ≤ S.fmt.largest) {c : IeeeFloat S} (hc : c.Valid) (fc : c.isFinite = true) (cl : |c.toRat| < S.fmt.largest) :
    ∃ g, IsRounded S.fmt mode v g ∧ partialCmp r.value c = .ok (some (compare g c.toRat)) := by
  have lp := largest_pos h
  obtain ⟨⟨g, g1, g2⟩, sr⟩ := hv
  refine ⟨g, g1, ?_⟩
  have cl' := abs_lt.1 cl
  rcases g2 with ⟨-, d, -⟩ | ⟨gl, d⟩
  · obtain ⟨f, e⟩ := datum_num d
    rw [partialCmp_finite h hr hc f fc, e]
  · have hS : S.nonfinite = .ieee754 := by
      rcases hl with k | k
      · exact k
      · exfalso
        have gT := grid_largest h
        have k' := _root_.abs_le.1 k
        exact absurd (_root_.abs_le.2 ⟨g1.ge_of_grid gT.neg k'.1, g1.le_of_grid gT k'.2⟩) (not_le.2 gl)
    have hi : S.fmt.hasInf = true := by simp [Sem.fmt, hS]
    have fin : ∀ s, r.value.datum = .num s (signed s S.fmt.largest) → partialCmp r.value c = .ok (some (compare (signed s S.fmt.largest) c.toRat)) := fun s k => by
      obtain ⟨f, e⟩ := datum_num k
      rw [partialCmp_finite h hr hc f fc, e]
    have inf : ∀ s, r.value.datum = .inf s → partialCmp r.value c = .ok (some (if s then .lt else .gt)) := fun s k => by
      have ci : r.value.category = .infinity ∧ r.value.sign = s := by
        unfold datum at k
        split at k <;> simp_all
      rcases isFinite_iff.1 fc with q | q <;> cases s <;> simp [partialCmp, isNegative, ci, q, boolCmp_tf, boolCmp_ft]
    have hd : r.value.datum = .inf r.value.sign ∨ r.value.datum = .num r.value.sign (signed r.value.sign S.fmt.largest) := by
      have := congrArg Prod.fst d
      simp only [overflowed, hi, if_true] at this
      rw [this]
      split_ifs <;> simp
    rcases lt_abs.1 gl with k | k
    · have vp : 0 < v := by
        by_contra q
        have := g1.le_of_grid grid_zero (not_lt.1 q)
        linarith
      rw [compare_gt_iff_gt.2 (by linarith : g > c.toRat)]
      rw [sr.1 vp] at hd
      rcases hd with q | q
      · rw [inf _ q]; rfl
      · rw [fin _ q, compare_gt_iff_gt.2 (show signed false S.fmt.largest > c.toRat from cl'.2)]
    · have vn : v < 0 := by
        by_contra q
        have := g1.nonneg (not_lt.1 q)
        linarith
      rw [compare_lt_iff_lt.2 (by linarith : g < c.toRat)]
      rw [sr.2.1 vn] at hd
      rcases hd with q | q
      · rw [inf _ q]; rfl
      · rw [fin _ q, compare_lt_iff_lt.2 (show signed true S.fmt.largest < c.toRat from cl'.1)]

/-- **C132.** The computed difference of finite numbers compares with zero as they do with each other, whatever the rounding mode: it is zero only for equal
numbers, and never of the wrong sign.  The difference may overflow in a format with infinities. -/
theorem C132_difference (h : S.OK) {x y : IeeeFloat S} (hx : x.Valid) (hy : y.Valid) (fx : x.isFinite = true) (fy : y.isFinite = true)
    (hl : S.nonfinite = .ieee754 ∨ |x.toRat - y.toRat| ≤ S.fmt.largest) (mode : Round) :
    ∃ r, subR x y mode = .ok r ∧ r.value.Valid ∧ partialCmp r.value (ZERO S) = partialCmp x y := by
  have hO : DirectedOK S mode (x.toRat - y.toRat) := by
    rcases hl with k | k
    · exact directedOK_of_ieee k mode _
    · exact directedOK_of_ge h mode (_root_.abs_le.1 k).1
  obtain ⟨r, r1, r2, r3⟩ := C05_sub_correctly_rounded h hx hy fx fy mode hO
  have z0 : (ZERO S).toRat = 0 := rfl
  obtain ⟨g, g1, g2⟩ := cmp_rounds h r2 r3 hl (c := ZERO S) rfl rfl (by rw [z0, abs_zero]; exact largest_pos h)
  refine ⟨r, r1, r2, ?_⟩
  rw [g2, partialCmp_finite h hx hy fx fy, z0]
  congr 2
  have hp := h.p_ge
  have gm : S.fmt.Grid (2 ^ (S.minExp - S.precision + 1)) := grid_two_pow (by show 1 ≤ S.precision; omega) le_rfl
  have u0 : (0 : ℚ) < 2 ^ (S.minExp - S.precision + 1) := by positivity
  obtain ⟨a, ha⟩ := (mult_of_grid (grid_toRat h hx fx)).sub (mult_of_grid (grid_toRat h hy fy))
  change x.toRat - y.toRat = a * 2 ^ (S.minExp - S.precision + 1) at ha
  rcases lt_trichotomy a 0 with c | c | c
  · have c' : (a : ℚ) ≤ -1 := by exact_mod_cast (by omega : a ≤ -1)
    have k : x.toRat - y.toRat ≤ -2 ^ (S.minExp - S.precision + 1) := by rw [ha]; nlinarith
    have := g1.le_of_grid gm.neg k
    rw [compare_lt_iff_lt.2 (by linarith : g < 0), compare_lt_iff_lt.2 (by linarith : x.toRat < y.toRat)]
  · rw [c] at ha
    have e : x.toRat - y.toRat = 0 := by rw [ha]; simp
    rw [e] at g1
    have := g1.nonneg le_rfl
    have := g1.le_of_grid grid_zero le_rfl
    rw [compare_eq_iff_eq.2 (by linarith : g = 0), compare_eq_iff_eq.2 (by linarith : x.toRat = y.toRat)]
  · have c' : (1 : ℚ) ≤ a := by exact_mod_cast (by omega : 1 ≤ a)
    have k : 2 ^ (S.minExp - S.precision + 1) ≤ x.toRat - y.toRat := by rw [ha]; nlinarith
    have := g1.ge_of_grid gm k
    rw [compare_gt_iff_gt.2 (by linarith : g > 0), compare_gt_iff_gt.2 (by linarith : x.toRat > y.toRat)]

example := C132_difference singleS_ok (x := ⟨8388608, -126, .normal, false⟩) (y := ⟨8388607, -126, .normal, false⟩) (by decide) (by decide) rfl rfl (Or.inl rfl) .towardZero
/-- A quotient of different numbers is at least half a unit of one away from one: at most `1 - 2^-p`, or more than `1 + 2^-p`. -/
theorem quotient_apart (hp : 1 ≤ F.p) {x y : ℚ} (gx : F.Grid x) (gy : F.Grid y) (y0 : 0 < y) :
    (x < y → x / y ≤ 1 - 2 ^ (-(F.p : ℤ))) ∧ (y < x → 1 + 2 ^ (-(F.p : ℤ)) < x / y) := by
  have u0 : (0 : ℚ) < 2 ^ (-(F.p : ℤ)) := by positivity
  have u1 : (2 : ℚ) ^ (-(F.p : ℤ)) ≤ 1 := zpow_le_one_of_nonpos₀ (by norm_num) (by omega)
  refine ⟨fun c => ?_, fun c => ?_⟩
  · rw [div_le_iff₀ y0]
    rcases lt_or_ge x 0 with d | d
    · have := mul_nonneg (sub_nonneg.2 u1) y0.le
      linarith
    obtain ⟨k, k1, km, k3, k2⟩ := exists_unit hp gx
    obtain ⟨-, -, s⟩ := unit_steps hp gx k1 k2 k3
    have a := s d y gy c
    have xm := km.lt_iff (by omega) k3
    rw [abs_of_nonneg d] at xm
    have b : (2 : ℚ) ^ k = 2 ^ ((F.p : ℤ) + k) * 2 ^ (-(F.p : ℤ)) := by
      rw [← two_zpow_add]; congr 1; ring
    have e : (x + 2 ^ k) * 2 ^ (-(F.p : ℤ)) ≤ 2 ^ ((F.p : ℤ) + k) * 2 ^ (-(F.p : ℤ)) := mul_le_mul_of_nonneg_right (by linarith) u0.le
    have f := mul_le_mul_of_nonneg_left a (sub_nonneg.2 u1)
    linarith
  · rw [lt_div_iff₀ y0]
    obtain ⟨k, k1, km, k3, k2⟩ := exists_unit hp gy
    obtain ⟨-, -, s⟩ := unit_steps hp gy k1 k2 k3
    have a := s y0.le x gx c
    rw [abs_of_pos y0] at k3
    have b : (2 : ℚ) ^ k = 2 ^ ((F.p : ℤ) + k) * 2 ^ (-(F.p : ℤ)) := by
      rw [← two_zpow_add]; congr 1; ring
    have e := mul_lt_mul_of_pos_right k3 u0
    linarith

/-- Rounding keeps numbers that far from one on their side of it, apart from those above when rounding down. -/
theorem rounded_apart (hp : 2 ≤ F.p) (he : F.emin < 0) {mode : Round} {v g : ℚ} (hg : IsRounded F mode v g) :
    (v ≤ 1 - 2 ^ (-(F.p : ℤ)) → g < 1) ∧ (v = 1 → g = 1) ∧ (1 ≤ v → 1 ≤ g) ∧
    (mode ≠ .towardZero → mode ≠ .towardNegative → 1 + 2 ^ (-(F.p : ℤ)) < v → 1 < g) := by
  have u0 : (0 : ℚ) < 2 ^ (-(F.p : ℤ)) := by positivity
  have g1 : F.Grid 1 := by
    have := grid_two_pow (F := F) (k := 0) (by omega) (by omega)
    simpa using this
  have gl : F.Grid (1 - 2 ^ (-(F.p : ℤ))) := by
    have m : Mult (-(F.p : ℤ)) 1 := ⟨2 ^ F.p, by push_cast; rw [← zpow_natCast, ← two_zpow_add]; simp⟩
    refine grid_of_mult (by omega) (m.sub ⟨1, by simp⟩) (by omega) ?_
    have : (2 : ℚ) ^ (-(F.p : ℤ)) ≤ 1 := zpow_le_one_of_nonpos₀ (by norm_num) (by omega)
    rw [abs_of_nonneg (by linarith), add_neg_cancel]
    simp
  refine ⟨fun c => ?_, fun c => ?_, fun c => hg.ge_of_grid g1 c, fun n1 n2 c => ?_⟩
  · have := hg.le_of_grid gl c
    linarith
  · exact le_antisymm (hg.le_of_grid g1 c.le) (hg.ge_of_grid g1 c.ge)
  · by_contra d
    push Not at d
    have gh : F.Grid (1 + 2 ^ (1 - (F.p : ℤ))) := by
      refine (unit_steps (F := F) (by omega) g1 (k := 1 - F.p) (by omega) (Or.inr ?_) ?_).1
      · rw [show (F.p : ℤ) - 1 + (1 - F.p) = 0 by ring]; simp
      · rw [show (F.p : ℤ) + (1 - F.p) = 1 by ring]; norm_num
    have tw : (2 : ℚ) ^ (1 - (F.p : ℤ)) = 2 * 2 ^ (-(F.p : ℤ)) := by
      rw [show 1 - (F.p : ℤ) = 1 + (-F.p) by ring, two_zpow_add 1 _]; norm_num
    have near : (∀ w, F.Grid w → |v - g| ≤ |v - w|) → False := fun q => by
      have := q _ gh
      rw [abs_of_pos (by linarith : 0 < v - g), tw] at this
      rcases abs_cases (v - (1 + 2 * 2 ^ (-(F.p : ℤ)))) with k | k <;> linarith
    cases mode with
    | towardZero => exact n1 rfl
    | towardNegative => exact n2 rfl
    | towardPositive => linarith [hg.2.1]
    | nearestTiesToEven => exact near hg.2.1
    | nearestTiesToAway => exact near hg.2.1

/-- **C132.** The computed quotient `x / y`, `y > 0`, is below one exactly when `x` is below `y`, whatever the rounding mode; unless rounding down (toward zero or
negative) it compares with one exactly as `x` with `y`.  The quotient may overflow in a format with infinities, and may underflow. -/
theorem C132_quotient (h : S.OK) {x y one : IeeeFloat S} (hx : x.Valid) (hy : y.Valid) (h1 : one.Valid) (fx : x.isFinite = true) (fy : y.isFinite = true)
    (f1 : one.isFinite = true) (e1 : one.toRat = 1) (y0 : 0 < y.toRat) (hl : S.nonfinite = .ieee754 ∨ |x.toRat / y.toRat| ≤ S.fmt.largest) (mode : Round) :
    ∃ r, divR x y mode = .ok r ∧ r.value.Valid ∧
      (partialCmp r.value one = .ok (some .lt) ↔ partialCmp x y = .ok (some .lt)) ∧
      (mode ≠ .towardZero → mode ≠ .towardNegative → partialCmp r.value one = partialCmp x y) := by
  have hO : DirectedOK S mode (x.toRat / y.toRat) := by
    rcases hl with k | k
    · exact directedOK_of_ieee k mode _
    · exact directedOK_of_ge h mode (_root_.abs_le.1 k).1
  obtain ⟨r, r1, r2, r3⟩ := C07_div_correctly_rounded h hx hy fx fy y0.ne' mode hO
  have hp := h.p_ge
  have big : (1 : ℚ) < S.fmt.largest := by
    refine lt_of_lt_of_le ?_ (two_pow_le_largest h)
    have := h.p_max
    exact one_lt_zpow₀ (by norm_num) (by omega)
  obtain ⟨g, g1, g2⟩ := cmp_rounds h r2 r3 hl h1 f1 (by rw [e1, abs_one]; exact big)
  refine ⟨r, r1, r2, ?_⟩
  rw [g2, partialCmp_finite h hx hy fx fy, e1]
  obtain ⟨a1, a2⟩ := quotient_apart (F := S.fmt) (by show 1 ≤ S.precision; omega) (grid_toRat h hx fx) (grid_toRat h hy fy) y0
  obtain ⟨b1, b2, b3, b4⟩ := rounded_apart (F := S.fmt) (by show 2 ≤ S.precision; omega) h.min_lt g1
  rcases lt_trichotomy x.toRat y.toRat with c | c | c
  · rw [compare_lt_iff_lt.2 c, compare_lt_iff_lt.2 (b1 (a1 c))]
    simp
  · rw [compare_eq_iff_eq.2 c, compare_eq_iff_eq.2 (b2 (by rw [c]; exact div_self y0.ne'))]
    simp
  · have u0 : (0 : ℚ) < 2 ^ (-(S.fmt.p : ℤ)) := by positivity
    have q1 := b3 (by linarith [a2 c])
    refine ⟨?_, fun n1 n2 => ?_⟩
    · rw [compare_gt_iff_gt.2 c]
      simp [compare_lt_iff_lt, q1]
    · rw [compare_gt_iff_gt.2 c, compare_gt_iff_gt.2 (b4 n1 n2 (a2 c))]

example := C132_quotient singleS_ok (x := ⟨16777215, 5, .normal, false⟩) (y := ⟨16777214, 5, .normal, false⟩) (one := ⟨8388608, 0, .normal, false⟩) (by decide) (by decide)
  (by decide) rfl rfl rfl (by decide +kernel) (by decide +kernel) (Or.inl rfl) .nearestTiesToEven

/-- **C132.** Rounding down, different numbers can have the quotient one. -/
theorem C132_quotient_down : ∃ x y r : IeeeFloat singleS, x.Valid ∧ y.Valid ∧ y.toRat < x.toRat ∧ r.toRat = 1 ∧
    divR x y .towardZero = .ok ⟨Status.INEXACT, r⟩ ∧ divR x y .towardNegative = .ok ⟨Status.INEXACT, r⟩ :=
  ⟨⟨16777215, 5, .normal, false⟩, ⟨16777214, 5, .normal, false⟩, ⟨8388608, 0, .normal, false⟩, by decide, by decide, by decide +kernel, by decide +kernel,
    by decide +kernel, by decide +kernel⟩

end Apf
