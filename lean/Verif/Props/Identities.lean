import Verif.Props.Algebra
import Verif.Props.Fma
import Verif.Props.Scale
/-!
# C66: exact identities of the arithmetic operations

`SameResult` (value, sign and flags) compares the results of two calls; `⟨Status.OK, x⟩` is the result `x` without flags.
-/

namespace Apf
open Spec IeeeFloat
variable {S : Sem}

/-- A finite float is the correctly rounded delivery of its own value. -/
theorem rounds_self (h : S.OK) {x : IeeeFloat S} (hx : x.Valid) (fx : x.isFinite = true) (mode : Round) {zs : Bool}
    (hz : x.category = .zero → x.sign = zs) : Rounds S mode x.toRat zs ⟨Status.OK, x⟩ :=
  ⟨exact_delivers h hx fx mode, signRule_self hx fx hz⟩

theorem directedOK_toRat (h : S.OK) {x : IeeeFloat S} (hx : x.Valid) (fx : x.isFinite = true) (mode : Round) :
    DirectedOK S mode x.toRat := directedOK_of_ge h mode (abs_le.1 (abs_toRat_le h hx fx)).1

theorem normal_of_toRat {x : IeeeFloat S} (h0 : x.toRat ≠ 0) : x.category = .normal := by
  unfold toRat at h0
  cases hc : x.category <;> simp_all

/-- The sign bit of a finite float with a positive value. -/
theorem sign_of_pos {x : IeeeFloat S} (hx : x.Valid) (h0 : 0 < x.toRat) : x.sign = false :=
  (signRule_self hx (isFinite_iff.2 (Or.inl (normal_of_toRat h0.ne'))) (zs := x.sign) (fun _ => rfl)).1 h0

theorem finite_of_toRat {x : IeeeFloat S} (h0 : x.toRat ≠ 0) : x.isFinite = true := isFinite_iff.2 (Or.inl (normal_of_toRat h0))

theorem infinity_of_not_finite {x : IeeeFloat S} (nx : x.category ≠ .nan) (fx : ¬ x.isFinite = true) : x.category = .infinity := by
  rw [isFinite_iff] at fx; cases hc : x.category <;> simp_all

theorem infinity_category {x : IeeeFloat S} (hx : x.Valid) (cx : x.category = .infinity) : (INFINITY S).category = .infinity := by
  unfold Valid at hx
  rw [cx] at hx
  simp [INFINITY, hx.1]

/-- **C66.** Multiplying and dividing by one changes nothing, in any rounding mode, and raises no flag. -/
theorem C66_one (h : S.OK) {x one : IeeeFloat S} (hx : x.Valid) (nx : x.category ≠ .nan) (h1 : one.Valid) (hone : one.toRat = 1)
    (mode : Round) :
    (∃ r, mulR x one mode = .ok r ∧ SameResult r ⟨Status.OK, x⟩) ∧ (∃ r, mulR one x mode = .ok r ∧ SameResult r ⟨Status.OK, x⟩) ∧
    ∃ r, divR x one mode = .ok r ∧ SameResult r ⟨Status.OK, x⟩ := by
  have c1 : one.category = .normal := normal_of_toRat (by rw [hone]; norm_num)
  have f1 : one.isFinite = true := isFinite_iff.2 (Or.inl c1)
  have s1 : one.sign = false := sign_of_pos h1 (by rw [hone]; norm_num)
  by_cases fx : x.isFinite = true
  · have hO := directedOK_toRat h hx fx mode
    have self := rounds_self h hx fx mode (zs := x.sign) (fun _ => rfl)
    obtain ⟨r, r1, -, r3⟩ := mulR_finite h hx h1 fx f1 mode (by rw [hone, mul_one]; exact hO)
    obtain ⟨q, q1, -, q3⟩ := mulR_finite h h1 hx f1 fx mode (by rw [hone, one_mul]; exact hO)
    obtain ⟨d, d1, -, d3⟩ := divR_finite h hx h1 fx f1 (by rw [hone]; norm_num) mode (by rw [hone, div_one]; exact hO)
    rw [hone, mul_one, s1, Bool.xor_false] at r3
    rw [hone, one_mul, s1, Bool.false_xor] at q3
    rw [hone, div_one, s1, Bool.xor_false] at d3
    exact ⟨⟨r, r1, r3.unique self⟩, ⟨q, q1, q3.unique self⟩, ⟨d, d1, d3.unique self⟩⟩
  · have cx := infinity_of_not_finite nx fx
    have ci := infinity_category hx cx
    refine ⟨?_, ?_, ?_⟩ <;> simp only [mulR, divR, SameResult, negateIf_eq, cx, c1, s1, isNegative] <;>
      simp [Status.and, copySign_eq, datum, cx, s1, ci]

/-- **C66.** Adding a number to itself is multiplying it by two. -/
theorem C66_double (h : S.OK) {x two : IeeeFloat S} (hx : x.Valid) (nx : x.category ≠ .nan) (h2 : two.Valid) (htwo : two.toRat = 2)
    (mode : Round) :
    ∃ r r', addR x x mode = .ok r ∧ mulR x two mode = .ok r' ∧ SameResult r r' := by
  have c2 : two.category = .normal := normal_of_toRat (by rw [htwo]; norm_num)
  have f2 : two.isFinite = true := isFinite_iff.2 (Or.inl c2)
  have s2 : two.sign = false := sign_of_pos h2 (by rw [htwo]; norm_num)
  by_cases fx : x.isFinite = true
  · obtain ⟨om, hO⟩ := exists_effective S mode (x.toRat + x.toRat)
    have e : x.toRat * two.toRat = x.toRat + x.toRat := by rw [htwo]; ring
    obtain ⟨r, r1, -, r3⟩ := addR_eff h hx hx fx fx mode hO
    obtain ⟨q, q1, -, q3⟩ := mulR_eff h hx h2 fx f2 mode (by rw [e]; exact hO)
    rw [e, s2, Bool.xor_false] at q3
    rw [show zeroSum mode x.sign x.sign = x.sign by simp [zeroSum]] at r3
    exact ⟨r, q, r1, q1, r3.unique q3⟩
  · have cx := infinity_of_not_finite nx fx
    have ci := infinity_category hx cx
    obtain ⟨r, r1, -, r3⟩ := C10_add_inf_inf cx cx mode
    rw [r3 rfl] at r1
    refine ⟨_, _, r1, by simp only [mulR, negateIf_eq, cx, c2]; rfl, ?_⟩
    simp [SameResult, Status.and, copySign_eq, datum, cx, s2, ci, isNegative]

/-- **C66.** Subtracting is adding the opposite number. -/
theorem C66_sub (h : S.OK) {x y : IeeeFloat S} (hx : x.Valid) (hy : y.Valid) (nx : x.category ≠ .nan) (ny : y.category ≠ .nan)
    (mode : Round) :
    ∃ r r', subR x y mode = .ok r ∧ addR x y.neg mode = .ok r' ∧ SameResult r r' := by
  obtain ⟨r, -, r1, -⟩ := C36_add_comm h hx (neg_valid hy) nx (by rw [neg_eq]; exact ny) mode
  exact ⟨r, r, by rw [C10_sub nx ny mode]; exact r1, r1, rfl, rfl, rfl⟩

example := C66_sub singleS_ok (x := ex15) (y := exM3) ex15_valid exM3_valid (by decide) (by decide) .towardZero

/-- **C66.** The difference is antisymmetric: `y - x` is `-(x - y)`, with the rounding direction mirrored. -/
theorem C66_sub_swap (h : S.OK) {x y : IeeeFloat S} (hx : x.Valid) (hy : y.Valid) (fx : x.isFinite = true) (fy : y.isFinite = true)
    (mode : Round) (hne : x.toRat ≠ y.toRat) (hO : DirectedOK S mode (x.toRat - y.toRat)) (hO' : DirectedOK S mode.neg (y.toRat - x.toRat)) :
    ∃ r r', subR x y mode = .ok r ∧ subR y x mode.neg = .ok r' ∧
      r'.value.datum = r.value.datum.neg ∧ r'.value.sign = (!r.value.sign) ∧ r'.status = r.status := by
  obtain ⟨r, r1, -, r3⟩ := subR_finite h hx hy fx fy mode hO
  obtain ⟨q, q1, -, q3⟩ := subR_finite h hy hx fy fx mode.neg hO'
  have e : y.toRat - x.toRat = -(x.toRat - y.toRat) := by ring
  rw [e] at q3
  have hs : q.value.sign = !r.value.sign := by
    rcases lt_or_gt_of_ne (sub_ne_zero.2 hne) with c | c
    · rw [r3.2.2.1 c, q3.2.1 (by linarith)]; rfl
    · rw [r3.2.1 c, q3.2.2.1 (by linarith)]; rfl
  obtain ⟨a, b⟩ := (hs ▸ q3.1).unique r3.1.neg
  exact ⟨r, q, r1, q1, a, hs, b⟩

example := C66_sub_swap singleS_ok (x := ex15) (y := exM3) ex15_valid exM3_valid rfl rfl .towardPositive
  (by norm_num [ex15, exM3, toRat, signed, singleS, Sem.default]) (directedOK_of_ieee rfl _ _) (directedOK_of_ieee rfl _ _)

/-- **C66.** A finite non-zero number divided by itself is exactly one. -/
theorem C66_div_self (h : S.OK) {x one : IeeeFloat S} (hx : x.Valid) (fx : x.isFinite = true) (h0 : x.toRat ≠ 0) (h1 : one.Valid)
    (hone : one.toRat = 1) (mode : Round) :
    ∃ r, divR x x mode = .ok r ∧ SameResult r ⟨Status.OK, one⟩ := by
  have f1 : one.isFinite = true := finite_of_toRat (by rw [hone]; norm_num)
  have hO := directedOK_toRat h h1 f1 mode
  have e : x.toRat / x.toRat = one.toRat := by rw [hone, div_self h0]
  obtain ⟨r, r1, -, r3⟩ := divR_finite h hx hx fx fx h0 mode (by rw [e]; exact hO)
  rw [e] at r3
  have c1 : one.category ≠ .zero := by rw [normal_of_toRat (by rw [hone]; norm_num)]; decide
  exact ⟨r, r1, r3.unique (rounds_self h h1 f1 mode (fun c => absurd c c1))⟩

/-- The datum of a result of exact value `v ≠ 0` does not depend on the sign prescribed for zero. -/
theorem Rounds.zs {mode : Round} {v : ℚ} {zs zs' : Bool} {r : StatusAnd (IeeeFloat S)} (h : Rounds S mode v zs r) (hv : v ≠ 0) :
    Rounds S mode v zs' r := ⟨h.1, h.2.1, h.2.2.1, fun e => absurd e hv⟩

theorem sign_inverse {x y : IeeeFloat S} (hx : x.Valid) (hy : y.Valid) (e : x.toRat * y.toRat = 1) : x.sign = y.sign := by
  have x0 : x.toRat ≠ 0 := by intro c; rw [c] at e; norm_num at e
  have y0 : y.toRat ≠ 0 := by intro c; rw [c] at e; norm_num at e
  have a := signRule_self hx (finite_of_toRat x0) (zs := x.sign) (fun _ => rfl)
  have b := signRule_self hy (finite_of_toRat y0) (zs := y.sign) (fun _ => rfl)
  rcases lt_or_gt_of_ne x0 with c | c
  · rw [a.2.1 c, b.2.1]
    by_contra hh
    push Not at hh
    have := mul_nonpos_of_nonpos_of_nonneg c.le hh
    linarith
  · rw [a.1 c, b.1]
    by_contra hh
    push Not at hh
    have := mul_nonpos_of_nonneg_of_nonpos c.le hh
    linarith

/-- **C66.** Dividing by a number and multiplying by its exact inverse are the same operation: same value, same sign, same flags,
in every rounding mode, for every dividend that is not NaN.  This is what `get_exact_inverse` is for. -/
theorem C66_exact_inverse (h : S.OK) {x y i : IeeeFloat S} (hx : x.Valid) (hy : y.Valid) (nx : x.category ≠ .nan)
    (hi : getExactInverse y = .ok (some i)) (mode : Round) :
    ∃ r r', divR x y mode = .ok r ∧ mulR x i mode = .ok r' ∧ SameResult r r' := by
  obtain ⟨o, o1, o2, -⟩ := C28_get_exact_inverse h hy
  rw [hi] at o1
  cases o1
  obtain ⟨vi, -, e⟩ := o2 i rfl
  have y0 : y.toRat ≠ 0 := by intro c; rw [c] at e; norm_num at e
  have i0 : i.toRat ≠ 0 := by intro c; rw [c] at e; norm_num at e
  have sg := sign_inverse hy vi e
  by_cases fx : x.isFinite = true
  · obtain ⟨om, hO⟩ := exists_effective S mode (x.toRat / y.toRat)
    have e' : x.toRat * i.toRat = x.toRat / y.toRat := by
      rw [eq_div_iff y0, mul_assoc, mul_comm i.toRat, e, mul_one]
    obtain ⟨r, r1, -, r3⟩ := divR_eff h hx hy fx (finite_of_toRat y0) y0 mode hO
    obtain ⟨q, q1, -, q3⟩ := mulR_eff h hx vi fx (finite_of_toRat i0) mode (by rw [e']; exact hO)
    rw [e', ← sg] at q3
    exact ⟨r, q, r1, q1, r3.unique q3⟩
  · have cx := infinity_of_not_finite nx fx
    have ci := infinity_category hx cx
    have cy := normal_of_toRat y0
    have ci' := normal_of_toRat i0
    refine ⟨_, _, by simp only [divR, negateIf_eq, cx, cy]; rfl, by simp only [mulR, negateIf_eq, cx, ci']; rfl, ?_⟩
    simp [SameResult, Status.and, copySign_eq, datum, cx, sg, ci, isNegative]

/-- **C66.** A fused multiply-add with factor one is an addition, also with the operands of the defect of C08. -/
theorem C66_mul_add_one (h : S.OK) {x one z : IeeeFloat S} (hx : x.Valid) (h1 : one.Valid) (hz : z.Valid) (fx : x.isFinite = true)
    (fz : z.isFinite = true) (hone : one.toRat = 1) (mode : Round) :
    ∃ r r', mulAddR x one z mode = .ok r ∧ addR x z mode = .ok r' ∧ SameResult r r' := by
  have f1 : one.isFinite = true := finite_of_toRat (by rw [hone]; norm_num)
  have s1 : one.sign = false := sign_of_pos h1 (by rw [hone]; norm_num)
  obtain ⟨om, hO⟩ := exists_effective S mode (x.toRat + z.toRat)
  have e : x.toRat * one.toRat = x.toRat := by rw [hone, mul_one]
  obtain ⟨r, r1, -, r3⟩ := addR_eff h hx hz fx fz mode hO
  have hE : ¬ FmaExcluded S (x.toRat * one.toRat) z.toRat := by
    rintro ⟨-, -, -, hk⟩
    apply hk
    obtain ⟨m, k, -, hk, hv⟩ := grid_toRat h hx fx
    obtain ⟨j, hj⟩ : ∃ j : ℕ, k = S.minExp - 2 * S.precision + j :=
      ⟨(k - (S.minExp - 2 * S.precision)).toNat, by have : S.minExp - S.precision + 1 ≤ k := hk; have := h.p_ge; omega⟩
    refine ⟨m * 2 ^ j, ?_⟩
    rw [e, hv, hj, two_zpow_add, zpow_natCast]
    push_cast; ring
  obtain ⟨q, q1, -, q3⟩ := mulAddR_eff h hx h1 hz fx f1 fz mode (by rw [e]; exact hO) hE
  rw [e, s1, Bool.xor_false] at q3
  exact ⟨q, r, q1, r1, q3.unique r3⟩

/-- **C66.** A fused multiply-add of a zero is the rounded product, unless the product is an exact zero of the other sign. -/
theorem C66_mul_add_zero (h : S.OK) {x y z : IeeeFloat S} (hx : x.Valid) (hy : y.Valid) (hz : z.Valid) (fx : x.isFinite = true)
    (fy : y.isFinite = true) (cz : z.category = .zero) (hs : x.toRat * y.toRat ≠ 0 ∨ z.sign = xor x.sign y.sign) (mode : Round) :
    ∃ r r', mulAddR x y z mode = .ok r ∧ mulR x y mode = .ok r' ∧ SameResult r r' := by
  obtain ⟨om, hO⟩ := exists_effective S mode (x.toRat * y.toRat)
  have z0 : z.toRat = 0 := toRat_zero cz
  obtain ⟨r, r1, -, r3⟩ := mulR_eff h hx hy fx fy mode hO
  obtain ⟨q, q1, -, q3⟩ := mulAddR_eff h hx hy hz fx fy (isFinite_iff.2 (Or.inr cz)) mode (by rw [z0, add_zero]; exact hO)
    (fma_not_excluded (Or.inl (by rw [z0, mul_zero])))
  rw [z0, add_zero] at q3
  refine ⟨q, r, q1, r1, ?_⟩
  rcases hs with c | c
  · exact (q3.zs c).unique r3
  · rw [c, show zeroSum mode (xor x.sign y.sign) (xor x.sign y.sign) = xor x.sign y.sign by simp [zeroSum]] at q3
    exact q3.unique r3

example := C66_mul_add_zero singleS_ok (x := exM3) (y := ex15) (z := ZERO singleS) exM3_valid ex15_valid zero_valid rfl rfl rfl
  (Or.inl (by norm_num [ex15, exM3, toRat, signed, singleS, Sem.default])) .towardZero

/-- **C66.** Scaling by `2^n` is multiplying by the number `2^n`. -/
theorem C66_scalbn (h : S.OK) {x y : IeeeFloat S} (hx : x.Valid) (hy : y.Valid) (fx : x.isFinite = true) {n : ℤ} (hn : y.toRat = 2 ^ n)
    (mode : Round) :
    ∃ r r', scalbnR x n mode = .ok r ∧ mulR x y mode = .ok r' ∧ r.datum = r'.value.datum ∧ r.sign = r'.value.sign := by
  obtain ⟨om, hO⟩ := exists_effective S mode (x.toRat * 2 ^ n)
  have sy : y.sign = false := sign_of_pos hy (by rw [hn]; exact two_zpow_pos n)
  obtain ⟨r, st, r1, -, -, r3⟩ := scalbnR_eff h hx fx n mode hO
  obtain ⟨q, q1, -, q3⟩ := mulR_eff h hx hy fx (finite_of_toRat (by rw [hn]; exact (two_zpow_pos n).ne')) mode (by rw [hn]; exact hO)
  rw [hn, sy, Bool.xor_false] at q3
  obtain ⟨a, b, -⟩ := r3.unique q3
  exact ⟨r, q, r1, q1, a, b⟩

/-- One and two as `from_u128` makes them, and the operands `1.5` and `-3` of the other files. -/
def one32 : IeeeFloat singleS := ⟨2 ^ 23, 0, .normal, false⟩
def two32 : IeeeFloat singleS := ⟨2 ^ 23, 1, .normal, false⟩
theorem one32_toRat : one32.toRat = 1 := by rw [toRat_normal rfl]; norm_num [one32, signed, singleS, Sem.default]
theorem two32_toRat : two32.toRat = 2 := by rw [toRat_normal rfl]; norm_num [two32, signed, singleS, Sem.default]

example : fromU128R singleS 1 .nearestTiesToEven = .ok ⟨Status.OK, one32⟩ ∧ fromU128R singleS 2 .nearestTiesToEven = .ok ⟨Status.OK, two32⟩ :=
  ⟨by decide +kernel, by decide +kernel⟩
example : ∃ r, divR exM3 one32 .towardZero = .ok r ∧ SameResult r ⟨Status.OK, exM3⟩ :=
  (C66_one singleS_ok exM3_valid (by decide) (by decide) one32_toRat _).2.2
example : ∃ r r', addR ex15 ex15 .towardZero = .ok r ∧ mulR ex15 two32 .towardZero = .ok r' ∧ SameResult r r' :=
  C66_double singleS_ok ex15_valid (by decide) (by decide) two32_toRat _
/-- `1.5 / 2` is `1.5 * 0.5`. -/
example : ∃ i r r', getExactInverse two32 = .ok (some i) ∧ divR ex15 two32 .towardPositive = .ok r ∧ mulR ex15 i .towardPositive = .ok r' ∧
    SameResult r r' := by
  obtain ⟨r, r', a⟩ := C66_exact_inverse singleS_ok (x := ex15) (y := two32) (i := ⟨2 ^ 23, -1, .normal, false⟩) ex15_valid (by decide)
    (by decide) (by decide +kernel) .towardPositive
  exact ⟨_, r, r', by decide +kernel, a⟩

/-! `C66_div_self`: the hypotheses hold of a concrete case. -/
example := C66_div_self singleS_ok (x := exM3) exM3_valid rfl exM3_ne (by decide) one32_toRat .towardZero

/-! `C66_mul_add_one`: the hypotheses hold of a concrete case. -/
example := C66_mul_add_one singleS_ok (x := exM3) (z := ex15) exM3_valid (by decide) ex15_valid rfl rfl one32_toRat .towardZero

/-! `C66_scalbn`: the hypotheses hold of a concrete case. -/
example := C66_scalbn singleS_ok (x := exM3) (y := two32) exM3_valid (by decide) rfl (n := 1) (by rw [two32_toRat]; norm_num) .towardZero

end Apf
