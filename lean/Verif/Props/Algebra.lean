import Verif.Props.Arith
/-! # C36, C37: symmetries and monotonicity of the rounded operations -/

namespace Apf
open Spec IeeeFloat
variable {S : Sem}

/-- Two results agree in everything a user can observe of a non-NaN result: value, sign, flags. -/
def SameResult (r r' : StatusAnd (IeeeFloat S)) : Prop :=
  r.value.datum = r'.value.datum ∧ r.value.sign = r'.value.sign ∧ r.status = r'.status

theorem zeroSum_comm (mode : Round) (a b : Bool) : zeroSum mode a b = zeroSum mode b a := by
  cases a <;> cases b <;> cases mode <;> rfl

/-- **C36** addition is commutative on non-NaN operands. -/
theorem C36_add_comm (h : S.OK) {x y : IeeeFloat S} (hx : x.Valid) (hy : y.Valid) (nx : x.category ≠ .nan)
    (ny : y.category ≠ .nan) (mode : Round) :
    ∃ r r', addR x y mode = .ok r ∧ addR y x mode = .ok r' ∧ SameResult r r' := by
  obtain ⟨om, hO⟩ := exists_effective S mode (x.toRat + y.toRat)
  by_cases fx : x.isFinite = true <;> by_cases fy : y.isFinite = true
  · obtain ⟨r, h1, h2, h3⟩ := addR_eff h hx hy fx fy mode hO
    obtain ⟨r', g1, g2, g3⟩ := addR_eff h hy hx fy fx mode (by rw [add_comm]; exact hO)
    rw [add_comm, zeroSum_comm] at g3
    exact ⟨r, r', h1, g1, h3.unique g3⟩
  · have cy : y.category = .infinity := by
      rw [isFinite_iff] at fy; cases hc : y.category <;> simp_all
    exact ⟨_, _, (C10_add_inf_finite mode).2 fx cy, (C10_add_inf_finite mode).1 cy fx, rfl, rfl, rfl⟩
  · have cx : x.category = .infinity := by
      rw [isFinite_iff] at fx; cases hc : x.category <;> simp_all
    exact ⟨_, _, (C10_add_inf_finite mode).1 cx fy, (C10_add_inf_finite mode).2 fy cx, rfl, rfl, rfl⟩
  · have cy : y.category = .infinity := by
      rw [isFinite_iff] at fy; cases hc : y.category <;> simp_all
    have cx : x.category = .infinity := by
      rw [isFinite_iff] at fx; cases hc : x.category <;> simp_all
    unfold addR
    rw [cx, cy]
    simp only [isNegative, fixZeroSign, cx, cy]
    by_cases hs : x.sign = y.sign
    · exact ⟨⟨Status.OK, x⟩, ⟨Status.OK, y⟩, by simp [hs, Status.and], by simp [hs, Status.and],
        by simp [datum, cx, cy, hs], hs, rfl⟩
    · have hs' : y.sign ≠ x.sign := Ne.symm hs
      exact ⟨_, _, by simp only [ne_eq, hs, not_false_eq_true, if_true]; rfl,
        by simp only [ne_eq, hs', not_false_eq_true, if_true]; rfl, by simp [NAN, qnan, SameResult]⟩

/-- **C36** multiplication is commutative on non-NaN operands. -/
theorem C36_mul_comm (h : S.OK) {x y : IeeeFloat S} (hx : x.Valid) (hy : y.Valid) (nx : x.category ≠ .nan)
    (ny : y.category ≠ .nan) (mode : Round) :
    ∃ r r', mulR x y mode = .ok r ∧ mulR y x mode = .ok r' ∧ SameResult r r' := by
  obtain ⟨om, hO⟩ := exists_effective S mode (x.toRat * y.toRat)
  by_cases hf : x.isFinite = true ∧ y.isFinite = true
  · obtain ⟨r, h1, h2, h3⟩ := mulR_eff h hx hy hf.1 hf.2 mode hO
    obtain ⟨r', g1, g2, g3⟩ := mulR_eff h hy hx hf.2 hf.1 mode (by rw [mul_comm]; exact hO)
    rw [mul_comm, Bool.xor_comm] at g3
    exact ⟨r, r', h1, g1, h3.unique g3⟩
  · have hcat : (x.negateIf y.isNegative).category = x.category := by rw [negateIf_eq]
    have hcat' : (y.negateIf x.isNegative).category = y.category := by rw [negateIf_eq]
    unfold mulR SameResult
    simp only [hcat, hcat']
    rw [isFinite_iff, isFinite_iff] at hf
    cases cx : x.category <;> cases cy : y.category <;> simp [cx, cy] at hf nx ny ⊢ <;>
      simp [Status.and, copySign_eq, negateIf_eq, isNegative, Bool.xor_comm, datum]

example := C36_mul_comm singleS_ok ex15_valid exM3_valid (by decide) (by decide) .towardZero

/-- **C36** negating both operands and the rounding direction negates the sum. -/
theorem C36_add_neg (h : S.OK) {x y : IeeeFloat S} (hx : x.Valid) (hy : y.Valid) (fx : x.isFinite = true)
    (fy : y.isFinite = true) (mode : Round) (hne : x.toRat + y.toRat ≠ 0) (hO : DirectedOK S mode (x.toRat + y.toRat))
    (hO' : DirectedOK S mode.neg (-(x.toRat + y.toRat))) :
    ∃ r r', addR x y mode = .ok r ∧ addR x.neg y.neg mode.neg = .ok r' ∧
      r'.value.datum = r.value.datum.neg ∧ r'.value.sign = (!r.value.sign) ∧ r'.status = r.status := by
  obtain ⟨r, h1, h2, h3⟩ := addR_finite h hx hy fx fy mode hO
  have e : x.neg.toRat + y.neg.toRat = -(x.toRat + y.toRat) := by rw [neg_toRat, neg_toRat]; ring
  obtain ⟨r', g1, g2, g3⟩ := addR_finite h (neg_valid hx) (neg_valid hy) (by rw [neg_finite]; exact fx)
    (by rw [neg_finite]; exact fy) mode.neg (by rw [e]; exact hO')
  rw [e] at g3
  have hs : r'.value.sign = !r.value.sign := by
    rcases lt_or_gt_of_ne hne with c | c
    · rw [h3.2.2.1 c, g3.2.1 (by linarith)]; rfl
    · rw [h3.2.1 c, g3.2.2.1 (by linarith)]; rfl
  obtain ⟨a, b⟩ := (hs ▸ g3.1).unique h3.1.neg
  exact ⟨r, r', h1, g1, a, hs, b⟩

example := C36_add_neg singleS_ok ex15_valid exM3_valid rfl rfl .towardPositive (by decide +kernel) (directedOK_of_ieee rfl _ _) (directedOK_of_ieee rfl _ _)

/-- **C36** negating both operands leaves a product unchanged; negating one operand and the rounding direction
negates it. -/
theorem C36_mul_neg (h : S.OK) {x y : IeeeFloat S} (hx : x.Valid) (hy : y.Valid) (fx : x.isFinite = true)
    (fy : y.isFinite = true) (mode : Round) (hO : DirectedOK S mode (x.toRat * y.toRat))
    (hO' : DirectedOK S mode.neg (-(x.toRat * y.toRat))) :
    ∃ r r' r'', mulR x y mode = .ok r ∧ mulR x.neg y.neg mode = .ok r' ∧ mulR x.neg y mode.neg = .ok r'' ∧
      SameResult r r' ∧
      r''.value.datum = r.value.datum.neg ∧ r''.value.sign = (!r.value.sign) ∧ r''.status = r.status := by
  obtain ⟨r, h1, h2, h3⟩ := mulR_finite h hx hy fx fy mode hO
  have e : x.neg.toRat * y.neg.toRat = x.toRat * y.toRat := by rw [neg_toRat, neg_toRat]; ring
  have e2 : x.neg.toRat * y.toRat = -(x.toRat * y.toRat) := by rw [neg_toRat]; ring
  have fx' : x.neg.isFinite = true := by rw [neg_finite]; exact fx
  have fy' : y.neg.isFinite = true := by rw [neg_finite]; exact fy
  obtain ⟨r', g1, g2, g3⟩ := mulR_finite h (neg_valid hx) (neg_valid hy) fx' fy' mode (by rw [e]; exact hO)
  obtain ⟨r'', k1, k2, k3⟩ := mulR_finite h (neg_valid hx) hy fx' fy mode.neg (by rw [e2]; exact hO')
  rw [e] at g3
  rw [e2] at k3
  have hx2 : xor x.neg.sign y.neg.sign = xor x.sign y.sign := by
    rw [neg_eq, neg_eq]; cases x.sign <;> cases y.sign <;> rfl
  have hx3 : xor x.neg.sign y.sign = !(xor x.sign y.sign) := by
    rw [neg_eq]; cases x.sign <;> cases y.sign <;> rfl
  rw [hx2] at g3
  rw [hx3] at k3
  have hs : r''.value.sign = !r.value.sign := by
    rcases lt_trichotomy (x.toRat * y.toRat) 0 with c | c | c
    · rw [h3.2.2.1 c, k3.2.1 (by linarith)]; rfl
    · rw [h3.2.2.2 c, k3.2.2.2 (by linarith)]
    · rw [h3.2.1 c, k3.2.2.1 (by linarith)]; rfl
  obtain ⟨a, b⟩ := (hs ▸ k3.1).unique h3.1.neg
  exact ⟨r, r', r'', h1, g1, k1, h3.unique g3, a, hs, b⟩

/-- **C36** `x - x` is an exact zero: `-0` when rounding toward negative, else `+0`. -/
theorem C36_sub_self (h : S.OK) {x : IeeeFloat S} (hx : x.Valid) (fx : x.isFinite = true) (mode : Round) :
    ∃ r, subR x x mode = .ok r ∧ r.value.category = .zero ∧ r.status = Status.OK ∧
      r.value.sign = decide (mode = .towardNegative) := by
  have := C09_sub_zero_sign h hx hx fx fx mode (sub_self _)
  simpa using this

example := C36_sub_self singleS_ok (x := ⟨3 * 2 ^ 22, 1, .normal, true⟩) (by decide) rfl .towardNegative

/-- **C36** `x + 0 = x` for non-zero finite `x` and either zero (also `x - 0` and `0 + x`). -/
theorem C36_add_zero {x z : IeeeFloat S} (cx : x.category = .normal) (cz : z.category = .zero) (mode : Round) :
    addR x z mode = .ok ⟨Status.OK, x⟩ ∧ addR z x mode = .ok ⟨Status.OK, x⟩ ∧ subR x z mode = .ok ⟨Status.OK, x⟩ := by
  have cz' : z.neg.category = .zero := cz
  refine ⟨?_, ?_, ?_⟩
  · unfold addR; rw [cx, cz]; simp [fixZeroSign, cx, Status.and]
  · unfold addR; rw [cx, cz]; simp [fixZeroSign, cx, Status.and]
  · rw [subR_eq (by simp [isNan, cx]) (by simp [isNan, cz])]
    unfold addR; rw [cx, cz']; simp [fixZeroSign, cx, Status.and]

example : ∃ r r', addR ex15 exM3 .towardPositive = .ok r ∧ addR exM3 ex15 .towardPositive = .ok r' ∧ SameResult r r' :=
  C36_add_comm singleS_ok ex15_valid exM3_valid (by decide) (by decide) _
example : ∃ r r' r'', mulR ex15 exM3 .towardPositive = .ok r ∧ mulR ex15.neg exM3.neg .towardPositive = .ok r' ∧
    mulR ex15.neg exM3 .towardNegative = .ok r'' ∧ SameResult r r' ∧
      r''.value.datum = r.value.datum.neg ∧ r''.value.sign = (!r.value.sign) ∧ r''.status = r.status :=
  C36_mul_neg singleS_ok ex15_valid exM3_valid rfl rfl _ (directedOK_of_ieee rfl _ _) (directedOK_of_ieee rfl _ _)

/-! ## C37 -/

/-- Correctly rounded deliveries are monotone in the exact value. -/
theorem Delivers.mono {F : Fmt} (hl : 0 < F.largest) {mode : Round} {v w : ℚ} {zs zs' s s' : Bool} {d d' : Datum} {st st' : Status}
    (hr : Delivers F mode v s d st) (hs : SignRule v zs s) (hr' : Delivers F mode w s' d' st') (hs' : SignRule w zs' s') (hvw : v ≤ w)
    (hn : d ≠ .nan) (hn' : d' ≠ .nan) : d.le d' := by
  obtain ⟨g, hg, hd⟩ := hr
  obtain ⟨g', hg', hd'⟩ := hr'
  have hgg := hg.mono hg' hvw
  -- an overflowing delivery, by sign
  have ov : ∀ {v g : ℚ} {s zs : Bool} {d : Datum} {st : Status}, d ≠ .nan → IsRounded F mode v g → SignRule v zs s →
      F.largest < |g| → (d, st) = overflowed F mode s →
      (0 < g ∧ s = false ∧ (d = .inf false ∨ d = .num false F.largest)) ∨
      (g < 0 ∧ s = true ∧ (d = .inf true ∨ d = .num true (-F.largest))) := by
    intro v g s zs d st hdn hg hs ha hd
    have hd := (Prod.ext_iff.1 hd).1
    simp only [] at hd
    rcases lt_trichotomy v 0 with c | c | c
    · have hs1 := hs.2.1 c
      have : g ≤ 0 := by have := hg.le_of_grid grid_zero c.le; exact this
      have g0 : g < 0 := by
        rcases lt_or_eq_of_le this with c | c
        · exact c
        · rw [c, abs_zero] at ha; linarith
      refine Or.inr ⟨g0, hs1, ?_⟩
      rcases overflowed_cases F mode s with e | e <;> rw [e] at hd <;> simp only [] at hd
      · left; rw [hd]; rw [hs1]; split_ifs with hh
        · rfl
        · rw [hd, if_neg hh] at hdn; exact absurd rfl hdn
      · right; rw [hd, hs1]; rfl
    · subst c
      have := hg.unique (isRounded_self mode grid_zero)
      rw [this, abs_zero] at ha; linarith
    · have hs1 := hs.1 c
      have : 0 ≤ g := hg.nonneg c.le
      have g0 : 0 < g := by
        rcases lt_or_eq_of_le this with c | c
        · exact c
        · rw [← c, abs_zero] at ha; linarith
      refine Or.inl ⟨g0, hs1, ?_⟩
      rcases overflowed_cases F mode s with e | e <;> rw [e] at hd <;> simp only [] at hd
      · left; rw [hd]; rw [hs1]; split_ifs with hh
        · rfl
        · rw [hd, if_neg hh] at hdn; exact absurd rfl hdn
      · right; rw [hd, hs1]; rfl
  -- the datum of an overflowing delivery is determined by mode and sign
  have same : ∀ {s : Bool} {d d' : Datum} {st st' : Status}, (d, st) = overflowed F mode s →
      (d', st') = overflowed F mode s → d = d' := by
    intro s d d' st st' h1 h2
    exact (Prod.ext_iff.1 (h1.trans h2.symm)).1
  rcases hd with ⟨a, b, c⟩ | ⟨a, b⟩ <;> rcases hd' with ⟨a', b', c'⟩ | ⟨a', b'⟩
  · rw [b, b']; exact hgg
  · rw [b]
    rcases ov hn' hg' hs' a' b' with ⟨p, q, e | e⟩ | ⟨p, q, e | e⟩ <;> rw [e] <;> simp only [Datum.le]
    · exact (abs_le.1 a).2
    all_goals
      exfalso
      rw [abs_of_neg p] at a'
      have := (abs_le.1 a).1
      linarith
  · rw [b']
    rcases ov hn hg hs a b with ⟨p, q, e | e⟩ | ⟨p, q, e | e⟩ <;> rw [e] <;> simp only [Datum.le]
    · exfalso
      rw [abs_of_pos p] at a
      have := (abs_le.1 a').2
      linarith
    · exfalso
      rw [abs_of_pos p] at a
      have := (abs_le.1 a').2
      linarith
    · exact (abs_le.1 a').1
  · have o1 := ov hn hg hs a b
    have o2 := ov hn' hg' hs' a' b'
    rcases o1 with ⟨p, q, e⟩ | ⟨p, q, e⟩ <;> rcases o2 with ⟨p', q', e'⟩ | ⟨p', q', e'⟩
    · have := same b (b'.trans (by rw [q, q']))
      rw [← this]
      rcases e with e | e <;> rw [e] <;> simp [Datum.le]
    · exfalso; linarith
    · rcases e with e | e <;> rcases e' with e' | e' <;> rw [e, e'] <;> simp only [Datum.le]
      linarith
    · have := same b (b'.trans (by rw [q, q']))
      rw [← this]
      rcases e with e | e <;> rw [e] <;> simp [Datum.le]

/-- **C37.** Delivered results are monotone in the exact result: if `v ≤ w`, the correctly rounded delivery of `v` is at most
that of `w` (in a format without infinities, as long as neither overflowed to NaN). -/
theorem C37_rounding_monotone (h : S.OK) {mode : Round} {v w : ℚ} {zs zs' : Bool} {r r' : StatusAnd (IeeeFloat S)}
    (hr : Rounds S mode v zs r) (hr' : Rounds S mode w zs' r') (hvw : v ≤ w)
    (hn : r.value.category ≠ .nan) (hn' : r'.value.category ≠ .nan) : r.value.datum.le r'.value.datum := by
  have nn : ∀ x : IeeeFloat S, x.category ≠ .nan → x.datum ≠ .nan := by
    intro x hx hd
    unfold datum at hd
    cases hc : x.category <;> rw [hc] at hd <;> simp only [] at hd <;> first | exact hx hc | cases hd
  exact Delivers.mono (largest_pos h) hr.1 hr.2 hr'.1 hr'.2 hvw (nn _ hn) (nn _ hn')

example : ∃ r r', addR exM3 exM3 .towardZero = .ok r ∧ addR exM3 ex15 .towardZero = .ok r' ∧
    (r.value.category ≠ .nan → r'.value.category ≠ .nan → r.value.datum.le r'.value.datum) := by
  obtain ⟨a, a1, -, a2⟩ := C04_add_correctly_rounded singleS_ok exM3_valid exM3_valid rfl rfl .towardZero (directedOK_of_ieee rfl _ _)
  obtain ⟨b, b1, -, b2⟩ := C04_add_correctly_rounded singleS_ok exM3_valid ex15_valid rfl rfl .towardZero (directedOK_of_ieee rfl _ _)
  exact ⟨a, b, a1, b1, C37_rounding_monotone singleS_ok a2 b2 (by decide +kernel)⟩

/-- **C37** for addition: `x ≤ y` implies `x + z ≤ y + z` (in the rounded arithmetic). -/
theorem C37_add_monotone (h : S.OK) (hS : S.nonfinite = .ieee754) {x y z : IeeeFloat S} (hx : x.Valid) (hy : y.Valid)
    (hz : z.Valid) (fx : x.isFinite = true) (fy : y.isFinite = true) (fz : z.isFinite = true) (mode : Round)
    (hxy : x.toRat ≤ y.toRat) :
    ∃ r r', addR x z mode = .ok r ∧ addR y z mode = .ok r' ∧ r.value.datum.le r'.value.datum := by
  obtain ⟨r, h1, h2, h3⟩ := addR_finite h hx hz fx fz mode (directedOK_of_ieee hS _ _)
  obtain ⟨r', g1, g2, g3⟩ := addR_finite h hy hz fy fz mode (directedOK_of_ieee hS _ _)
  exact ⟨r, r', h1, g1, C37_rounding_monotone h h3 g3 (by linarith) (rounds_not_nan hS h3) (rounds_not_nan hS g3)⟩

/-- **C37** for multiplication by a non-negative factor. -/
theorem C37_mul_monotone (h : S.OK) (hS : S.nonfinite = .ieee754) {x y z : IeeeFloat S} (hx : x.Valid) (hy : y.Valid)
    (hz : z.Valid) (fx : x.isFinite = true) (fy : y.isFinite = true) (fz : z.isFinite = true) (mode : Round)
    (hxy : x.toRat ≤ y.toRat) (hz0 : 0 ≤ z.toRat) :
    ∃ r r', mulR x z mode = .ok r ∧ mulR y z mode = .ok r' ∧ r.value.datum.le r'.value.datum := by
  obtain ⟨r, h1, h2, h3⟩ := mulR_finite h hx hz fx fz mode (directedOK_of_ieee hS _ _)
  obtain ⟨r', g1, g2, g3⟩ := mulR_finite h hy hz fy fz mode (directedOK_of_ieee hS _ _)
  exact ⟨r, r', h1, g1, C37_rounding_monotone h h3 g3 (mul_le_mul_of_nonneg_right hxy hz0) (rounds_not_nan hS h3)
    (rounds_not_nan hS g3)⟩

example := C37_mul_monotone singleS_ok rfl (x := ⟨3 * 2 ^ 22, 1, .normal, true⟩) (y := ⟨3 * 2 ^ 22, 0, .normal, false⟩)
  (z := ⟨2 ^ 23, -5, .normal, false⟩) (by decide) (by decide) (by decide) rfl rfl rfl .towardZero (by decide +kernel) (by decide +kernel)

/-- **C37** for division by a positive divisor. -/
theorem C37_div_monotone (h : S.OK) (hS : S.nonfinite = .ieee754) {x y z : IeeeFloat S} (hx : x.Valid) (hy : y.Valid)
    (hz : z.Valid) (fx : x.isFinite = true) (fy : y.isFinite = true) (fz : z.isFinite = true) (mode : Round)
    (hxy : x.toRat ≤ y.toRat) (hz0 : 0 < z.toRat) :
    ∃ r r', divR x z mode = .ok r ∧ divR y z mode = .ok r' ∧ r.value.datum.le r'.value.datum := by
  obtain ⟨r, h1, h2, h3⟩ := divR_finite h hx hz fx fz hz0.ne' mode (directedOK_of_ieee hS _ _)
  obtain ⟨r', g1, g2, g3⟩ := divR_finite h hy hz fy fz hz0.ne' mode (directedOK_of_ieee hS _ _)
  exact ⟨r, r', h1, g1, C37_rounding_monotone h h3 g3 (div_le_div_of_nonneg_right hxy hz0.le) (rounds_not_nan hS h3)
    (rounds_not_nan hS g3)⟩

example := C37_div_monotone singleS_ok rfl (x := ⟨3 * 2 ^ 22, 1, .normal, true⟩) (y := ⟨3 * 2 ^ 22, 0, .normal, false⟩)
  (z := ⟨2 ^ 23 + 1, -5, .normal, false⟩) (by decide) (by decide) (by decide) rfl rfl rfl .towardZero (by decide +kernel) (by decide +kernel)

theorem ex_le : exM3.toRat ≤ ex15.toRat := by
  rw [toRat_normal rfl, toRat_normal rfl]; norm_num [ex15, exM3, signed, singleS, Sem.default]

example : ∃ r r', addR exM3 ex15 .nearestTiesToEven = .ok r ∧ addR ex15 ex15 .nearestTiesToEven = .ok r' ∧
    r.value.datum.le r'.value.datum :=
  C37_add_monotone singleS_ok rfl exM3_valid ex15_valid ex15_valid rfl rfl rfl _ ex_le

end Apf
