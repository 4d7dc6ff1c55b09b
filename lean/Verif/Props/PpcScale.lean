import Verif.Props.PpcAdd
/-! # `DoubleFloat`: constants, classification and scaling -/

namespace Apf
open Spec IeeeFloat
variable {S : Sem}

/-! ### Scaling pairs -/

theorem Mult.scale {k : ℤ} {v : ℚ} (h : Mult k v) (n : ℤ) : Mult (k + n) (v * 2 ^ n) := by
  obtain ⟨m, rfl⟩ := h
  exact ⟨m, by rw [two_zpow_add k n]; ring⟩

theorem grid_scale_mult {F : Fmt} (hp : 1 ≤ F.p) {w : ℚ} (hw : F.Grid w) {k n : ℤ} (hk : Mult k w) (hn : F.emin - F.p + 1 ≤ k + n) :
    F.Grid (w * 2 ^ n) := by
  obtain ⟨j, j1, j2, j3, -⟩ := exists_unit hp hw
  have key : ∀ i, Mult i w → F.emin - F.p + 1 ≤ i + n → |w| < 2 ^ (F.p + i) → F.Grid (w * 2 ^ n) := by
    intro i h1 h2 h3
    refine grid_of_mult hp (h1.scale n) h2 ?_
    rw [abs_mul, abs_of_pos (two_zpow_pos n), ← add_assoc, two_zpow_add (F.p + i) n]
    exact mul_le_mul_of_nonneg_right h3.le (two_zpow_pos n).le
  rcases le_total j k with c | c
  · exact key k hk hn (j3.trans_le (two_zpow_le (by omega)))
  · exact key j j2 (by omega) j3

/-- Scaling a canonical pair whose parts stay in the format gives a canonical pair. -/
theorem rn_scale {F : Fmt} (hp : 1 ≤ F.p) {a b : ℚ} {n : ℤ} (ha : F.Grid a) (hb : F.Grid b) (h : RN F (a + b) a)
    (ha' : F.Grid (a * 2 ^ n)) (hb' : F.Grid (b * 2 ^ n)) : RN F ((a + b) * 2 ^ n) (a * 2 ^ n) := by
  have hn := two_zpow_pos n
  by_cases h0 : b = 0
  · rw [h0, add_zero]; exact isRounded_self _ ha'
  obtain ⟨k, k1, k2, k3, k4⟩ := exists_unit hp ha
  obtain ⟨l1, l2⟩ := low_part hp ha hb h k1 k3 k4
  -- the unit of the high part is not the smallest one, before and after scaling
  have mul_ge : ∀ {v : ℚ} {j : ℤ}, Mult j v → v ≠ 0 → (2 : ℚ) ^ j ≤ |v| := by
    rintro v j ⟨m, rfl⟩ hv
    have hm : m ≠ 0 := by rintro rfl; simp at hv
    rw [abs_mul, abs_of_pos (two_zpow_pos j)]
    have : (1 : ℚ) ≤ |(m : ℚ)| := by exact_mod_cast Int.one_le_abs hm
    nlinarith [two_zpow_pos j]
  have hk : F.emin - F.p + 1 ≤ k - 1 := by
    by_contra hc
    push Not at hc
    have := (mul_ge (mult_of_grid hb) h0).trans l1
    have h2 : (2 : ℚ) ^ (k - 1) < 2 ^ (F.emin - F.p + 1) := zpow_lt_zpow_right₀ (by norm_num) hc
    linarith
  have hk' : F.emin - F.p + 1 ≤ k - 1 + n := by
    by_contra hc
    push Not at hc
    have h1 := mul_ge (mult_of_grid hb') (mul_ne_zero h0 hn.ne')
    rw [abs_mul, abs_of_pos hn] at h1
    have h3 := mul_le_mul_of_nonneg_right l1 hn.le
    rw [← two_zpow_add (k - 1) n] at h3
    have h2 : (2 : ℚ) ^ (k - 1 + n) < 2 ^ (F.emin - F.p + 1) := zpow_lt_zpow_right₀ (by norm_num) hc
    linarith
  have k5 : (2 : ℚ) ^ (F.p - 1 + k) ≤ |a| := by
    rcases k4 with c | c
    · omega
    · exact c
  have hab : (2 : ℚ) ^ F.emin ≤ |a + b| := by
    have h1 : |a| - |b| ≤ |a + b| := by
      have := abs_sub_abs_le_abs_sub a (-b); rw [abs_neg, sub_neg_eq_add] at this; exact this
    have h2 : (2 : ℚ) ^ (k - 1) ≤ 2 ^ (F.p - 1 + k - 1) := two_zpow_le (by omega)
    have h3 : (2 : ℚ) ^ (F.p - 1 + k) = 2 * 2 ^ (F.p - 1 + k - 1) := by
      rw [show (F.p : ℤ) - 1 + k = 1 + (F.p - 1 + k - 1) by ring, two_zpow_add, zpow_one]; congr 2; ring
    have h4 : (2 : ℚ) ^ F.emin ≤ 2 ^ (F.p - 1 + k - 1) := two_zpow_le (by omega)
    linarith
  have he : F.Grid (2 ^ F.emin) := grid_two_pow hp (by omega)
  -- competitors
  have comp : ∀ g, F.Grid g → F.Grid (g * 2 ^ (-n)) ∨ |g| < 2 ^ F.emin * 2 ^ n := by
    intro g hg
    rw [or_iff_not_imp_right]
    intro hc
    push Not at hc
    rw [← two_zpow_add] at hc
    exact grid_scale_mult hp hg (mult_of_grid_ge hg (k := F.emin - F.p + 1 + n) ((two_zpow_le (by omega)).trans hc)) (by omega)
  have inv : ∀ g : ℚ, g = g * 2 ^ (-n) * 2 ^ n := by
    intro g
    rw [mul_assoc, ← two_zpow_add, neg_add_cancel, zpow_zero, mul_one]
  have far : ∀ g, |g| < 2 ^ F.emin * 2 ^ n → |(a + b) * 2 ^ n - a * 2 ^ n| < |(a + b) * 2 ^ n - g| := by
    intro g hg
    have h1 : |a + b - a| ≤ |a + b| - 2 ^ F.emin := by
      rcases le_total 0 (a + b) with c | c
      · have := h.2.1 _ he
        rw [abs_of_nonneg c] at hab ⊢
        rwa [abs_of_nonneg (sub_nonneg.2 hab)] at this
      · have := h.2.1 _ he.neg
        rw [abs_of_nonpos c] at hab ⊢
        rw [abs_of_nonpos (show a + b - -2 ^ F.emin ≤ 0 by linarith)] at this
        linarith
    have h2 : |(a + b) * 2 ^ n| - |g| ≤ |(a + b) * 2 ^ n - g| := abs_sub_abs_le_abs_sub _ _
    rw [abs_mul, abs_of_pos hn] at h2
    rw [← sub_mul, abs_mul, abs_of_pos hn]
    have h3 := mul_le_mul_of_nonneg_right h1 hn.le
    rw [sub_mul] at h3
    linarith
  have scl : ∀ g : ℚ, |(a + b) * 2 ^ n - g * 2 ^ n| = |a + b - g| * 2 ^ n := by
    intro g; rw [← sub_mul, abs_mul, abs_of_pos hn]
  refine ⟨ha', fun g hg => ?_, fun g hg hne ht => ?_⟩
  · rcases comp g hg with c | c
    · rw [inv g, scl, scl]
      exact mul_le_mul_of_nonneg_right (h.2.1 _ c) hn.le
    · exact (far g c).le
  · rcases comp g hg with c | c
    · rw [inv g, scl, scl] at ht
      have ht' := mul_right_cancel₀ hn.ne' ht
      obtain ⟨m, j, m1, m2, m3⟩ := h.2.2 _ c (fun e => hne (by rw [inv g, e])) ht'
      refine ⟨m, j + n, m1, ?_, by rw [m3, two_zpow_add j n]; ring⟩
      have : k ≤ j := by
        by_contra hc
        push Not at hc
        have h1 : |a| < 2 ^ (F.p + j) := by
          rw [m3, abs_mul, abs_of_pos (two_zpow_pos j), two_zpow_add, zpow_natCast]
          apply mul_lt_mul_of_pos_right _ (two_zpow_pos j)
          exact_mod_cast m1
        have h2 : (2 : ℚ) ^ (F.p + j) ≤ 2 ^ (F.p - 1 + k) := two_zpow_le (by omega)
        linarith
      omega
    · exact absurd ht (far g c).ne'
/-! ### Integers, subnormals -/

/-- **C60.** `is_integer` recognises the canonical pairs that represent an integer. -/
theorem C60_is_integer (h : S.OK) {x : DoubleFloat S} (hx : x.Valid) (cx : x.Canonical) :
    ∃ b, x.isInteger = .ok b ∧ (b = true ↔ ∃ n : ℤ, x.toRat = n) := by
  obtain ⟨b1, e1, f1⟩ := C13_is_integer h hx.1
  obtain ⟨b2, e2, f2⟩ := C13_is_integer h hx.2
  have hp := h.p_ge; have hm := h.min_lt
  have hint : ∀ v : ℚ, (∃ n : ℤ, v = n) ↔ Mult 0 v := by
    intro v; unfold Mult; simp
  simp only [hint, cx.1.1, cx.1.2, true_and] at f1 f2 ⊢
  have key : Mult 0 x.toRat ↔ Mult 0 x.hi.toRat ∧ Mult 0 x.lo.toRat := by
    constructor
    · intro hv
      have h1 : Mult 0 x.hi.toRat := RN.mult (F := S.fmt) (by rw [fmt_p]; omega) cx.2 (by rw [fmt_p, fmt_emin]; omega) hv
      refine ⟨h1, ?_⟩
      have := hv.sub h1
      rwa [DoubleFloat.toRat, add_sub_cancel_left] at this
    · rintro ⟨h1, h2⟩; exact h1.add h2
  unfold DoubleFloat.isInteger
  rw [e1]
  simp only [M.ok_bind]
  cases b1
  · refine ⟨false, rfl, ?_⟩
    rw [key, ← f1]; simp
  · refine ⟨b2, e2, ?_⟩
    rw [key, ← f1, ← f2]; simp

example := C60_is_integer doubleS_ok (x := ⟨⟨2 ^ 52, 0, .normal, false⟩, ⟨2 ^ 52, -60, .normal, true⟩⟩) fits_example.1.1 fits_example.1.2.1

/-- Infinities and NaNs are not integers. -/
theorem C60_is_integer_specials (h : S.OK) {x : DoubleFloat S} (hx : x.Valid) (fx : x.hi.isFinite = false) : x.isInteger = .ok false := by
  obtain ⟨b1, e1, f1⟩ := C13_is_integer h hx.1
  rw [fx] at f1
  unfold DoubleFloat.isInteger
  rw [e1]
  cases b1
  · rfl
  · simp at f1

example := C60_is_integer_specials doubleS_ok (x := DoubleFloat.INFINITY doubleS) (by decide +kernel) rfl

/-- A sum of numbers of the format below its normal range is in the format. -/
theorem canonical_small (h : S.OK) {x : DoubleFloat S} (hx : x.Valid) (cx : x.Canonical) :
    |x.hi.toRat| < 2 ^ S.minExp ↔ |x.toRat| < 2 ^ S.minExp := by
  have hp := h.p_ge
  have g1 := grid_toRat h hx.1 cx.1.1
  have g2 := grid_toRat h hx.2 cx.1.2
  have he : S.fmt.Grid (2 ^ S.minExp) := grid_two_pow (by rw [fmt_p]; omega) (by rw [fmt_p, fmt_emin]; omega)
  constructor
  · intro hl
    by_contra hc
    push Not at hc
    have := RN.le_abs cx.2 he hc
    linarith
  · intro hl
    have hg : S.fmt.Grid x.toRat := by
      refine sum_small (by rw [fmt_p]; omega) g1 g2 (hl.le.trans ?_)
      rw [fmt_p, fmt_emin]; exact two_zpow_le (by omega)
    rwa [RN.exact cx.2 hg]

/-- **C62.** `is_denormal`: among finite non-zero pairs those that are not canonical, and those below the normal range of the parts. -/
theorem C62_is_denormal_partial (h : S.Pair) {x : DoubleFloat S} (hx : x.Valid) (fx : x.Finite) :
    ∃ b, x.isDenormal = .ok b ∧ (b = true ↔ x.hi.toRat ≠ 0 ∧ (¬ x.Canonical ∨ |x.toRat| < 2 ^ S.minExp)) := by
  unfold DoubleFloat.isDenormal DoubleFloat.category
  rcases isFinite_iff.1 fx.1 with cn | cz
  · rw [if_pos cn]
    have hne := toRat_ne_zero hx.1 cn
    have hd := (C39_denormal h.ok hx.1).1
    rw [datum_finite fx.1] at hd
    have hd' : x.hi.isDenormal = true ↔ |x.hi.toRat| < 2 ^ S.minExp := by
      rw [hd]
      constructor
      · rintro ⟨s, v, e, -, hv⟩; cases e; exact hv
      · intro hv; exact ⟨_, _, rfl, abs_pos.2 hne, hv⟩
    rw [Bool.or_self]
    cases hb : x.hi.isDenormal
    · simp only [Bool.false_eq_true, if_false]
      have hnd : ¬ |x.hi.toRat| < 2 ^ S.minExp := by rw [← hd', hb]; simp
      obtain ⟨s, s1, s2, s3⟩ := addR_finite h.ok hx.1 hx.2 fx.1 fx.2 .nearestTiesToEven (directedOK_of_mode _ (by decide) (by decide) _)
      obtain ⟨e, -, -, -, e1, -, -, -, e2, -⟩ := C15_operators h.ok hx.1 s2
      rw [s1, M.ok_bind, e1, M.ok_bind]
      refine ⟨_, rfl, ?_⟩
      have key : e = true ↔ x.Canonical := by
        rw [e2, datum_finite fx.1]
        obtain ⟨⟨g, g1, g2⟩, -⟩ := s3
        constructor
        · rintro ⟨h1, h2⟩
          rcases g2 with ⟨-, g2, -⟩ | ⟨g2, g3⟩
          · rw [g2] at h1 h2
            simp only [Datum.le] at h1 h2
            refine ⟨fx, ?_⟩
            rw [le_antisymm h1 h2]; exact g1
          · have := congrArg Prod.fst g3
            simp only [overflowed, show S.fmt.hasInf = true from by simp [Sem.fmt, h.ieee], if_true] at this
            rw [this] at h1 h2
            generalize s.value.sign = b at h1 h2
            cases b
            · exact h2.elim
            · exact h1.elim
        · intro hc
          have hg : x.hi.toRat = g := hc.2.unique g1
          rcases g2 with ⟨-, g2, -⟩ | ⟨g2, -⟩
          · rw [g2]; simp only [Datum.le]; exact ⟨hg.le, hg.ge⟩
          · have := abs_toRat_le h.ok hx.1 fx.1
            rw [hg] at this; linarith
      constructor
      · intro he
        refine ⟨hne, Or.inl ?_⟩
        rw [← key]; simpa using he
      · rintro ⟨-, hc | hc⟩
        · rw [← key] at hc; simpa using hc
        · by_contra hcc
          have : x.Canonical := by rw [← key]; simpa using hcc
          rw [← canonical_small h.ok hx this] at hc
          exact hnd hc
    · simp only [if_true]
      refine ⟨true, rfl, ?_⟩
      simp only [true_iff]
      refine ⟨hne, ?_⟩
      by_cases hc : x.Canonical
      · right; rw [← canonical_small h.ok hx hc, ← hd', hb]
      · left; exact hc
  · rw [if_neg (by rw [cz]; decide)]
    refine ⟨false, rfl, ?_⟩
    simp [toRat_zero cz]

example := C62_is_denormal_partial doubleS_pair (x := ⟨⟨2 ^ 52, 0, .normal, false⟩, ⟨2 ^ 52, -60, .normal, true⟩⟩) (by decide +kernel) (by decide)

/-- **C62** (violated). `2^-1022` is not denormal according to `is_denormal`, but it is smaller than `smallest_normalized()`. -/
theorem C62_denormal_inconsistent : ∃ x y : DoubleDouble, x.Valid ∧ x.Finite ∧ x.isDenormal = .ok false ∧ x.toRat ≠ 0 ∧
    DoubleFloat.smallestNormalized doubleS = .ok y ∧ |x.toRat| < y.toRat := by
  refine ⟨⟨smallestNormalized doubleS, ZERO doubleS⟩, ⟨⟨2 ^ 52, -969, .normal, false⟩, ZERO doubleS⟩, by decide +kernel, by decide +kernel,
    by decide +kernel, ?_, by decide +kernel, ?_⟩
  · simp only [DoubleFloat.toRat, toRat_smallestNormalized doubleS_ok, toRat_zero (x := ZERO doubleS) rfl, add_zero]
    exact (two_zpow_pos _).ne'
  · simp only [DoubleFloat.toRat, toRat_smallestNormalized doubleS_ok, toRat_zero (x := ZERO doubleS) rfl, add_zero]
    rw [abs_of_pos (two_zpow_pos _), toRat_normal rfl]
    simp only [signed, Bool.false_eq_true, if_false]
    have e : (2 : ℚ) ^ ((-969 : ℤ) - (doubleS.precision : ℤ) + 1) = 2 ^ doubleS.minExp * 2 := by
      rw [← zpow_add_one₀ (by norm_num)]; congr 1
    rw [e]
    have := two_zpow_pos doubleS.minExp
    push_cast
    nlinarith
/-! ### Constants -/

theorem Mult.le_sub {k : ℤ} {v w : ℚ} (hv : Mult k v) (hw : Mult k w) (hlt : v < w) : v ≤ w - 2 ^ k := by
  obtain ⟨m, rfl⟩ := hv
  obtain ⟨n, rfl⟩ := hw
  have hk := two_zpow_pos k
  have h1 : (m : ℚ) < n := lt_of_mul_lt_mul_right hlt hk.le
  have h2 : m + 1 ≤ n := by exact_mod_cast h1
  have h3 : (m : ℚ) + 1 ≤ n := by exact_mod_cast h2
  nlinarith

theorem mult_pow {j k : ℤ} (h : j ≤ k) : Mult j ((2 : ℚ) ^ k) := Mult.mono ⟨1, by simp⟩ h

/-- The largest magnitude a pair of the doubled format has. -/
theorem fits_bound (h : S.Pair) {v : ℚ} (hg : S.fmt.doubled.Grid v) (hl : |v| < S.fmt.overflowAt) :
    |v| ≤ S.fmt.overflowAt - 2 ^ (S.maxExp - 2 * S.precision + 1) := by
  have hp := h.ok.p_ge
  have e : S.fmt.overflowAt = 2 ^ (S.maxExp + 1) - 2 ^ (S.maxExp - S.precision) := rfl
  rcases le_or_gt (2 ^ S.maxExp) |v| with c | c
  · have hm : Mult (S.maxExp - 2 * S.precision + 1) v := by
      apply mult_of_grid_ge hg
      refine le_trans (two_zpow_le ?_) c
      show ((S.precision * 2 : ℕ) : ℤ) - 1 + _ ≤ _
      push_cast; omega
    have hm' : Mult (S.maxExp - 2 * S.precision + 1) |v| := by
      rcases abs_choice v with e | e <;> rw [e]
      · exact hm
      · exact hm.neg
    refine hm'.le_sub ?_ hl
    rw [e]
    exact (mult_pow (by omega)).sub (mult_pow (by omega))
  · rw [e]
    have h1 : (2 : ℚ) ^ (S.maxExp + 1) = 2 ^ S.maxExp + 2 ^ S.maxExp := by rw [two_zpow_add S.maxExp 1]; norm_num; ring
    have h2 : (2 : ℚ) ^ S.maxExp = 2 ^ (S.maxExp - 1) + 2 ^ (S.maxExp - 1) := by
      rw [show S.maxExp = (S.maxExp - 1) + 1 by ring, two_zpow_add (S.maxExp - 1) 1]; norm_num; ring
    have h3 : (2 : ℚ) ^ (S.maxExp - S.precision) ≤ 2 ^ (S.maxExp - 1) := two_zpow_le (by omega)
    have h4 : (2 : ℚ) ^ (S.maxExp - 2 * S.precision + 1) ≤ 2 ^ (S.maxExp - 1) := two_zpow_le (by omega)
    linarith

/-- **C60.** `largest()` is the largest pair with twice the significant bits of its parts: no such pair is larger. -/
theorem C60_largest (h : S.Pair) : ∃ x : DoubleFloat S, DoubleFloat.largest S = .ok x ∧ x.Fits ∧ 0 < x.toRat ∧
    S.fmt.largest < x.toRat ∧ ∀ y : DoubleFloat S, y.Fits → |y.toRat| ≤ x.toRat := by
  have hp := h.ok.p_ge; have hple := h.ok.p_le; have hpm := h.fb.p_max; have hmin := h.ok.min_lt; have hmax := h.ok.max_le
  have hpm' : 2 * (S.precision : ℤ) ≤ S.maxExp := by
    have : ((S.precision * 2 : ℕ) : ℤ) ≤ S.maxExp := hpm
    push_cast at this; omega
  have hF : 1 ≤ S.fmt.p := by rw [fmt_p]; omega
  have hL := largest_ieee h.ieee
  have hLv := largest_valid h.ok
  have hLr := toRat_largest h.ok
  have hLf : (IeeeFloat.largest S).isFinite = true := rfl
  have hLg := grid_largest h.ok
  -- exponents
  obtain ⟨k, hk⟩ : ∃ k, k = S.maxExp - 2 * S.precision := ⟨_, rfl⟩
  have hk0 := two_zpow_pos k
  have p1 : (2 : ℚ) ^ (S.maxExp - S.precision) = 2 ^ k * 2 ^ S.precision := by
    rw [← zpow_natCast, ← two_zpow_add]; congr 1; omega
  have p2 : (2 : ℚ) ^ (S.maxExp - S.precision + 1) = 2 ^ k * 2 ^ S.precision * 2 := by rw [← p1, two_zpow_add _ 1, zpow_one]
  have p3 : (2 : ℚ) ^ (S.maxExp + 1) = 2 ^ k * 2 ^ S.precision * 2 ^ S.precision * 2 := by
    rw [← p1, ← zpow_natCast, ← two_zpow_add, ← zpow_add_one₀ (by norm_num)]; congr 1; ring
  have p4 : (2 : ℚ) ^ (S.maxExp - 2 * S.precision + 1) = 2 ^ k * 2 := by rw [hk, two_zpow_add _ 1, zpow_one]
  have h8 : (8 : ℚ) ≤ 2 ^ S.precision := by
    calc (8 : ℚ) = 2 ^ 3 := by norm_num
      _ ≤ 2 ^ S.precision := pow_le_pow_right₀ (by norm_num) hp
  have h10 : (2 : ℚ) ^ k * 8 ≤ 2 ^ k * 2 ^ S.precision := mul_le_mul_of_nonneg_left h8 hk0.le
  have h9 : (2 : ℚ) ^ k * 2 ^ S.precision * 8 ≤ 2 ^ k * 2 ^ S.precision * 2 ^ S.precision := mul_le_mul_of_nonneg_left h8 (by positivity)
  have hov : S.fmt.overflowAt = 2 ^ (S.maxExp + 1) - 2 ^ (S.maxExp - S.precision) := rfl
  -- the scaled largest value
  have hs : S.fmt.largest * 2 ^ (-((S.precision : ℤ) + 1)) = 2 ^ k * 2 ^ S.precision - 2 ^ k := by
    rw [hL, p2, p3, zpow_neg, zpow_add₀ (by norm_num), zpow_natCast, zpow_one]
    field_simp
  have hgs : S.fmt.Grid (2 ^ k * 2 ^ S.precision - 2 ^ k) := by
    rw [← p1]
    refine grid_of_mult hF (k := k) ((mult_pow (by omega)).sub (mult_pow (le_refl _))) (by rw [fmt_p, fmt_emin]; omega) ?_
    rw [fmt_p, show (S.precision : ℤ) + k = S.maxExp - S.precision by omega, abs_of_nonneg] <;> rw [p1] <;> nlinarith
  have hsl : |2 ^ k * 2 ^ S.precision - 2 ^ k| ≤ S.fmt.largest := by
    rw [abs_of_nonneg (by linarith), hL, p2, p3]; linarith
  obtain ⟨l, st, l1, l2, -, l3⟩ := C25_scalbn h.ok hLv hLf (-((S.precision : ℤ) + 1)) .nearestTiesToEven
    (directedOK_of_mode _ (by decide) (by decide) _)
  rw [hLr, hs] at l3
  obtain ⟨-, l4, l5⟩ := l3.exact hgs hsl
  simp only at l4 l5
  have l5' : l.toRat = 2 ^ k * 2 ^ S.precision - 2 ^ k := l5
  obtain ⟨r, r1, r2, r3, ⟨r4, r5⟩, -, -⟩ := C14_next_down h.ok l2 l4 (by
    rw [l5', hLr]
    have := largest_pos h.ok
    nlinarith)
  -- the value below it
  have hr : r.toRat = 2 ^ k * 2 ^ S.precision - 2 * 2 ^ k := by
    have hg : S.fmt.Grid (2 ^ k * 2 ^ S.precision - 2 * 2 ^ k) := by
      refine grid_of_mult hF (k := k) ?_ (by rw [fmt_p, fmt_emin]; omega) ?_
      · rw [← p1, mul_comm 2, ← zpow_add_one₀ (by norm_num)]
        exact (mult_pow (by omega)).sub (mult_pow (by omega))
      · rw [fmt_p, show (S.precision : ℤ) + k = S.maxExp - S.precision by omega, p1, abs_of_nonneg] <;> nlinarith
    obtain ⟨y, y1, y2, y3⟩ := exists_of_grid h.ok hg (by rw [abs_of_nonneg (by linarith), hL, p2, p3]; linarith)
    have h1 := r5 y y1 y2 (by rw [y3, l5']; linarith)
    rw [y3] at h1
    have hm : Mult k r.toRat := by
      apply mult_of_grid_ge (grid_toRat h.ok r2 r3)
      rw [fmt_p, show (S.precision : ℤ) - 1 + k = S.maxExp - S.precision - 1 by omega]
      have e : (2 : ℚ) ^ (S.maxExp - S.precision) = 2 ^ (S.maxExp - S.precision - 1) * 2 := by
        rw [← zpow_add_one₀ (by norm_num)]; congr 1; ring
      refine le_trans ?_ (le_trans h1 (le_abs_self _))
      nlinarith
    have h2 := hm.le_sub (w := l.toRat) (by rw [l5', ← p1]; exact (mult_pow (by omega)).sub (mult_pow (le_refl _))) r4
    rw [l5'] at h2
    linarith
  have hval : (⟨IeeeFloat.largest S, r⟩ : DoubleFloat S).toRat = S.fmt.overflowAt - 2 ^ (S.maxExp - 2 * S.precision + 1) := by
    simp only [DoubleFloat.toRat]
    rw [hLr, hr, hL, hov, p1, p2, p3, p4]; ring
  have hpos : 0 < S.fmt.overflowAt - 2 ^ (S.maxExp - 2 * S.precision + 1) := by
    rw [hov, p1, p3, p4]; nlinarith
  refine ⟨⟨IeeeFloat.largest S, r⟩, ?_, ⟨⟨hLv, r2⟩, ⟨⟨hLf, r3⟩, ?_⟩, ?_⟩, by rw [hval]; exact hpos,
    by simp only [DoubleFloat.toRat]; rw [hLr, hr]; nlinarith, fun y hy => ?_⟩
  · unfold DoubleFloat.largest
    rw [asI32_of_lt (by omega), i32_ok (by omega) (by omega), M.ok_bind]
    unfold IeeeFloat.scalbn
    rw [l1, M.ok_bind, r1]
    rfl
  · obtain ⟨g, hg⟩ := exists_rounded (F := S.fmt) (by rw [fmt_p]; omega) .nearestTiesToEven (⟨IeeeFloat.largest S, r⟩ : DoubleFloat S).toRat
    have h1 : g ≤ S.fmt.largest := by
      refine le_trans (le_abs_self g) ((rounded_in_range h.ok h.ieee hg).2 ?_)
      rw [hval, abs_of_pos hpos, p4]; linarith
    have h2 : S.fmt.largest ≤ g := hg.ge_of_grid hLg (by
      simp only [DoubleFloat.toRat]; rw [hLr, hr]; nlinarith)
    have : g = S.fmt.largest := le_antisymm h1 h2
    rw [this, ← hLr] at hg
    exact hg
  · rw [hval]
    refine grid_of_mult (F := S.fmt.doubled) (by show 1 ≤ S.precision * 2; omega) (k := S.maxExp - 2 * S.precision + 1) ?_ ?_ ?_
    · rw [hov]
      exact ((mult_pow (by omega)).sub (mult_pow (by omega))).sub (mult_pow (le_refl _))
    · show S.minExp + S.precision - ((S.precision * 2 : ℕ) : ℤ) + 1 ≤ _
      push_cast; omega
    · rw [abs_of_pos hpos]
      show _ ≤ (2 : ℚ) ^ (((S.precision * 2 : ℕ) : ℤ) + (S.maxExp - 2 * S.precision + 1))
      rw [show ((S.precision * 2 : ℕ) : ℤ) + (S.maxExp - 2 * S.precision + 1) = S.maxExp + 1 by push_cast; ring, hov]
      have := two_zpow_pos (S.maxExp - S.precision)
      have := two_zpow_pos (S.maxExp - 2 * S.precision + 1)
      linarith
  · rw [hval]
    exact fits_bound h hy.2.2 (Canonical.lt_overflowAt h hy.1 hy.2.1)

example := C60_largest doubleS_pair

/-- **C60.** `SMALLEST` is the least positive number any pair represents. -/
theorem C60_smallest (h : S.Pair) : (DoubleFloat.SMALLEST S).Fits ∧ 0 < (DoubleFloat.SMALLEST S).toRat ∧
    ∀ y : DoubleFloat S, y.Valid → y.Finite → 0 < y.toRat → (DoubleFloat.SMALLEST S).toRat ≤ y.toRat := by
  have hp := h.ok.p_ge
  have hv : (DoubleFloat.SMALLEST S).toRat = 2 ^ (S.minExp - S.precision + 1) := by
    simp only [DoubleFloat.toRat, DoubleFloat.SMALLEST, toRat_smallest, toRat_zero (x := ZERO S) rfl, add_zero]
  have hg : S.fmt.Grid (2 ^ (S.minExp - S.precision + 1)) := grid_two_pow (by rw [fmt_p]; omega) (le_refl _)
  refine ⟨⟨⟨smallest_valid h.ok, rfl⟩, ⟨⟨rfl, rfl⟩, ?_⟩, ?_⟩, by rw [hv]; exact two_zpow_pos _, fun y hy fy h0 => ?_⟩
  · rw [hv]
    simp only [DoubleFloat.SMALLEST, toRat_smallest]
    exact isRounded_self _ hg
  · rw [hv]; exact grid_doubled hg
  · rw [hv]
    have hm : Mult (S.minExp - S.precision + 1) y.toRat :=
      (mult_of_grid (grid_toRat h.ok hy.1 fy.1)).add (mult_of_grid (grid_toRat h.ok hy.2 fy.2))
    have := Mult.le_sub (v := 0) ⟨0, by simp⟩ hm h0
    linarith

example := C60_smallest doubleS_pair

/-- **C60.** `smallest_normalized()` is the smallest normal number of the doubled format: from it on, every pair may use twice the
significant bits of its parts. -/
theorem C60_smallest_normalized (h : S.Pair) : ∃ x : DoubleFloat S, DoubleFloat.smallestNormalized S = .ok x ∧ x.Fits ∧
    x.toRat = S.fmt.doubled.smallestNormal ∧ x.lo = ZERO S ∧ x.hi.sign = false := by
  have hp := h.ok.p_ge; have hple := h.ok.p_le; have hmin := h.ok.min_lt; have hpm := h.ok.p_max
  have hg : S.fmt.Grid (2 ^ (S.minExp + S.precision)) := grid_two_pow (by rw [fmt_p]; omega) (by rw [fmt_p, fmt_emin]; omega)
  obtain ⟨l, st, l1, l2, l6, l3⟩ := C25_scalbn h.ok (smallestNormalized_valid h.ok) rfl S.precision .nearestTiesToEven
    (directedOK_of_mode _ (by decide) (by decide) _)
  rw [toRat_smallestNormalized h.ok, ← two_zpow_add S.minExp] at l3
  obtain ⟨-, l4, l5⟩ := l3.exact hg (by
    rw [abs_of_pos (two_zpow_pos _), largest_ieee h.ieee]
    have h1 : (2 : ℚ) ^ (S.minExp + S.precision) ≤ 2 ^ S.maxExp := two_zpow_le (by omega)
    have h2 : (2 : ℚ) ^ (S.maxExp - S.precision + 1) ≤ 2 ^ S.maxExp := two_zpow_le (by omega)
    have h3 : (2 : ℚ) ^ (S.maxExp + 1) = 2 ^ S.maxExp * 2 := zpow_add_one₀ (by norm_num) _
    linarith)
  simp only at l4 l5
  have hv : (⟨l, ZERO S⟩ : DoubleFloat S).toRat = 2 ^ (S.minExp + S.precision) := by
    simp only [DoubleFloat.toRat, toRat_zero (x := ZERO S) rfl, add_zero]; exact l5
  refine ⟨⟨l, ZERO S⟩, ?_, ⟨⟨l2, rfl⟩, ⟨⟨l4, rfl⟩, ?_⟩, ?_⟩, hv, rfl, l6⟩
  · unfold DoubleFloat.smallestNormalized IeeeFloat.scalbn
    rw [asI32_of_lt (by omega), l1]; rfl
  · rw [hv]
    have : l.toRat = 2 ^ (S.minExp + S.precision) := l5
    simp only [this]
    exact isRounded_self _ hg
  · rw [hv]; exact grid_doubled hg

example := C60_smallest_normalized doubleS_pair

theorem signed_of_sign {x : IeeeFloat S} (hx : x.Valid) (fx : x.isFinite = true) : x.toRat = signed x.sign |x.toRat| := by
  rcases isFinite_iff.1 fx with c | c
  · cases s : x.sign
    · simp only [signed, Bool.false_eq_true, if_false]; exact (sign_pos hx c s).2.symm
    · simp only [signed, if_true]; rw [(sign_neg hx c s).2, neg_neg]
  · rw [toRat_zero c]; cases x.sign <;> simp [signed]

theorem sign_eq_of_toRat {x y : IeeeFloat S} (hx : x.Valid) (fx : x.isFinite = true) (hy : y.Valid) (fy : y.isFinite = true)
    (e : x.toRat = y.toRat) (h0 : x.toRat ≠ 0) : x.sign = y.sign := by
  have cx := normal_of_ne_zero fx h0
  have cy := normal_of_ne_zero fy (e ▸ h0)
  cases sx : x.sign <;> cases sy : y.sign <;> try rfl
  · have h1 := (sign_pos hx cx sx).1; have h2 := (sign_neg hy cy sy).1; linarith
  · have h1 := (sign_neg hx cx sx).1; have h2 := (sign_pos hy cy sy).1; linarith

/-- The pattern common to `is_smallest`, `is_smallest_normalized` and `is_largest`. -/
theorem pair_const_iff (h : S.OK) {c x : DoubleFloat S} (hc : c.Valid) (cc : c.Canonical) (c0 : 0 < c.toRat) (hx : x.Valid) (cx : x.Canonical) :
    (c.copySign x).bitwiseEq x = true ↔ |x.toRat| = c.toRat ∧ (x.lo.toRat = 0 → x.lo.sign = c.lo.sign) := by
  have cs : c.hi.sign = false := (Canonical.sign h hc cc).1 c0
  -- the constant with the sign of `x`
  obtain ⟨d, hd, dv, dc, ds, dt, dl⟩ : ∃ d, c.copySign x = d ∧ d.Valid ∧ d.Canonical ∧ d.hi.sign = x.hi.sign ∧ d.toRat = signed x.hi.sign c.toRat ∧
      (d.lo.toRat = 0 → d.lo.sign = c.lo.sign) := by
    unfold DoubleFloat.copySign DoubleFloat.isNegative IeeeFloat.isNegative
    rw [cs]
    cases hs : x.hi.sign
    · exact ⟨c, rfl, hc, cc, cs, by simp [signed], fun _ => rfl⟩
    · obtain ⟨n1, n2⟩ := neg_canonical hc cc
      obtain ⟨m1, m2, -⟩ := C43_neg cc.1
      refine ⟨c.neg, rfl, n1, n2, ?_, by simp [signed, m1], fun e => ?_⟩
      · have : c.neg.hi.sign = !c.hi.sign := m2
        rw [this, cs]; rfl
      · unfold DoubleFloat.neg at e ⊢
        split_ifs with q
        · rw [if_pos q] at e
          simp only [neg_toRat, neg_eq_zero] at e
          exact absurd e (toRat_ne_zero hc.2 ((isFiniteNonZero_iff _).1 q))
        · rfl
  rw [hd]
  unfold DoubleFloat.bitwiseEq
  rw [Bool.and_eq_true, C03_bitwise_eq_iff_datum h dv.1 hx.1 (not_nan_of_finite dc.1.1), C03_bitwise_eq_iff_datum h dv.2 hx.2 (not_nan_of_finite dc.1.2),
    datum_finite dc.1.1, datum_finite dc.1.2, datum_finite cx.1.1, datum_finite cx.1.2]
  simp only [Datum.num.injEq]
  constructor
  · rintro ⟨⟨-, h1⟩, h2, h3⟩
    have e : x.toRat = d.toRat := by unfold DoubleFloat.toRat; rw [h1, h3]
    refine ⟨by rw [e, dt, abs_signed _ c0.le], fun h0 => ?_⟩
    rw [← h2]; exact dl (h3.trans h0)
  · rintro ⟨h1, h2⟩
    have hs := Canonical.sign h hx cx
    have e : x.toRat = d.toRat := by
      rw [dt]
      rcases lt_or_ge x.toRat 0 with q | q
      · rw [hs.2 q, ← h1, abs_of_neg q]; simp [signed]
      · have q' : 0 < x.toRat := lt_of_le_of_ne q (fun e => by rw [← e, abs_zero] at h1; linarith)
        rw [hs.1 q', ← h1, abs_of_pos q']; simp [signed]
    have e1 : d.hi.toRat = x.hi.toRat := by
      have := cx.2; rw [e] at this
      exact dc.2.unique this
    have e2 : d.lo.toRat = x.lo.toRat := by unfold DoubleFloat.toRat at e; linarith
    refine ⟨⟨ds, e1⟩, ?_, e2⟩
    by_cases h0 : d.lo.toRat = 0
    · rw [dl h0, h2 (e2 ▸ h0)]
    · exact sign_eq_of_toRat dv.2 dc.1.2 hx.2 cx.1.2 e2 h0

/-- **C60.** The tests recognise the constants up to sign; a pair whose low part is `-0` is not taken for `SMALLEST` or
`smallest_normalized()`. -/
theorem C60_tests (h : S.Pair) {x : DoubleFloat S} (hx : x.Valid) (cx : x.Canonical) :
    (x.isSmallest = true ↔ |x.toRat| = (DoubleFloat.SMALLEST S).toRat ∧ (x.lo.toRat = 0 → x.lo.sign = false)) ∧
    (∃ c b, DoubleFloat.smallestNormalized S = .ok c ∧ x.isSmallestNormalized = .ok b ∧
      (b = true ↔ |x.toRat| = c.toRat ∧ (x.lo.toRat = 0 → x.lo.sign = false))) ∧
    (∃ c b, DoubleFloat.largest S = .ok c ∧ x.isLargest = .ok b ∧ (b = true ↔ |x.toRat| = c.toRat)) := by
  refine ⟨?_, ?_, ?_⟩
  · obtain ⟨c1, c2, -⟩ := C60_smallest h
    exact pair_const_iff h.ok c1.1 c1.2.1 c2 hx cx
  · obtain ⟨c, c1, c2, c3, c4, -⟩ := C60_smallest_normalized h
    refine ⟨c, _, c1, by unfold DoubleFloat.isSmallestNormalized; rw [c1]; rfl, ?_⟩
    rw [pair_const_iff h.ok c2.1 c2.2.1 (by rw [c3]; exact two_zpow_pos _) hx cx, c4]
    rfl
  · obtain ⟨c, c1, c2, c3, c4, -⟩ := C60_largest h
    refine ⟨c, _, c1, by unfold DoubleFloat.isLargest; rw [c1]; rfl, ?_⟩
    rw [pair_const_iff h.ok c2.1 c2.2.1 c3 hx cx]
    refine ⟨fun e => e.1, fun e => ⟨e, fun h0 => ?_⟩⟩
    -- the largest pair has a non-zero low part
    exfalso
    have e1 : |x.toRat| ≤ S.fmt.largest := by
      unfold DoubleFloat.toRat; rw [h0, add_zero]; exact abs_toRat_le h.ok hx.1 cx.1.1
    linarith

example := C60_tests doubleS_pair fits_example.1.1 fits_example.1.2.1

/-! ## C61, C63, C64: exponents -/

/-- The low part of a pair that fits the 106-bit format is a multiple of a unit about `2 p` bits below the high part. -/
theorem fits_low_mult (h : S.Pair) {x : DoubleFloat S} (hx : x.Fits) {e : ℤ} (he : (2 : ℚ) ^ e ≤ |x.hi.toRat|) :
    Mult (e - 2 * S.precision) x.lo.toRat ∧ Mult (e - 2 * S.precision) x.hi.toRat := by
  have hp := h.ok.p_ge
  have hF : 1 ≤ S.fmt.p := by rw [fmt_p]; omega
  have gh := grid_toRat h.ok hx.1.1 hx.2.1.1.1
  have gl := grid_toRat h.ok hx.1.2 hx.2.1.1.2
  have hr : RN S.fmt (x.hi.toRat + x.lo.toRat) x.hi.toRat := hx.2.1.2
  obtain ⟨k, k1, k2, k3, k4⟩ := exists_unit hF gh
  obtain ⟨-, l2⟩ := low_part hF gh gl hr k1 k3 k4
  have m1 : Mult (e - 2 * S.precision) x.hi.toRat := by
    refine (mult_of_grid_ge gh (k := e - S.precision + 1) ?_).mono (by omega)
    rw [fmt_p, show (S.precision : ℤ) - 1 + (e - S.precision + 1) = e by ring]; exact he
  refine ⟨?_, m1⟩
  have hv : (2 : ℚ) ^ (e - 1) ≤ |x.toRat| := by
    have t : |x.hi.toRat| - |x.lo.toRat| ≤ |x.toRat| := by
      unfold DoubleFloat.toRat
      have := abs_sub_abs_le_abs_sub x.hi.toRat (-x.lo.toRat)
      rwa [abs_neg, sub_neg_eq_add] at this
    have h8 : (2 : ℚ) ^ (-(S.fmt.p : ℤ)) ≤ 2 ^ (-1 : ℤ) := two_zpow_le (by rw [fmt_p]; omega)
    rw [zpow_neg_one] at h8
    have e1 : (2 : ℚ) ^ e = 2 ^ (e - 1) * 2 := by rw [← zpow_add_one₀ (by norm_num)]; congr 1; ring
    have := abs_nonneg x.hi.toRat
    nlinarith
  have m2 : Mult (e - 2 * S.precision) x.toRat := by
    refine mult_of_grid_ge hx.2.2 ?_
    show (2 : ℚ) ^ (((S.precision * 2 : ℕ) : ℤ) - 1 + (e - 2 * S.precision)) ≤ _
    rw [show ((S.precision * 2 : ℕ) : ℤ) - 1 + (e - 2 * S.precision) = e - 1 by push_cast; ring]
    exact hv
  have : x.lo.toRat = x.toRat - x.hi.toRat := by unfold DoubleFloat.toRat; ring
  rw [this]; exact m2.sub m1

/-- **C63.** `scalbn` of a pair whose two parts stay representable is exact, and gives the canonical pair. -/
theorem C63_scalbn_grid_partial (h : S.Pair) {x : DoubleFloat S} (hx : x.Valid) (cx : x.Canonical) {n : ℤ} (gh : S.fmt.Grid (x.hi.toRat * 2 ^ n))
    (gl : S.fmt.Grid (x.lo.toRat * 2 ^ n)) (hr : |x.toRat * 2 ^ n| < S.fmt.overflowAt) (mode : Round) :
    ∃ r, x.scalbnR n mode = .ok r ∧ r.Valid ∧ r.Canonical ∧ r.toRat = x.toRat * 2 ^ n ∧ r.hi.sign = x.hi.sign := by
  have hF : 1 ≤ S.fmt.p := by have := h.ok.p_ge; rw [fmt_p]; omega
  have gh0 := grid_toRat h.ok hx.1 cx.1.1
  have gl0 := grid_toRat h.ok hx.2 cx.1.2
  have hn := two_zpow_pos n
  have hrn : RN S.fmt (x.toRat * 2 ^ n) (x.hi.toRat * 2 ^ n) := rn_scale hF gh0 gl0 cx.2 gh gl
  have hh := (rounded_in_range h.ok h.ieee hrn).2 hr
  have hl : |x.lo.toRat * 2 ^ n| ≤ S.fmt.largest := by
    refine le_trans ?_ hh
    rw [abs_mul, abs_mul]
    refine mul_le_mul_of_nonneg_right ?_ (abs_nonneg _)
    obtain ⟨k, k1, k2, k3, k4⟩ := exists_unit hF gh0
    obtain ⟨-, l2⟩ := low_part hF gh0 gl0 cx.2 k1 k3 k4
    have : (2 : ℚ) ^ (-(S.fmt.p : ℤ)) ≤ 2 ^ (0 : ℤ) := two_zpow_le (by omega)
    rw [zpow_zero] at this
    have := abs_nonneg x.hi.toRat
    nlinarith
  have dOK : ∀ {v : ℚ}, |v| ≤ S.fmt.largest → DirectedOK S mode v := fun q => directedOK_of_ge h.ok mode (by rw [_root_.abs_le] at q; exact q.1)
  obtain ⟨a, sa, a1, a2, a3, a4⟩ := C25_scalbn h.ok hx.1 cx.1.1 n mode (dOK hh)
  obtain ⟨b, sb, b1, b2, b3, b4⟩ := C25_scalbn h.ok hx.2 cx.1.2 n mode (dOK hl)
  obtain ⟨-, a5, a6⟩ := a4.exact gh hh
  obtain ⟨-, b5, b6⟩ := b4.exact gl hl
  simp only at a5 a6 b5 b6
  have e : (⟨a, b⟩ : DoubleFloat S).toRat = x.toRat * 2 ^ n := by
    simp only [DoubleFloat.toRat]; rw [a6, b6]; ring
  refine ⟨⟨a, b⟩, ?_, ⟨a2, b2⟩, ⟨⟨a5, b5⟩, ?_⟩, e, a3⟩
  · unfold DoubleFloat.scalbnR; rw [a1, M.ok_bind, b1]; rfl
  · rw [e]; show RN S.fmt _ a.toRat; rw [a6]; exact hrn

/-- **C63.** `scalbn` multiplies a value of the 106-bit format exactly by the power of two, and the result is canonical, whenever the
result neither overflows nor comes within `2 p` bits of the smallest subnormal. -/
theorem C63_scalbn_partial (h : S.Pair) {x : DoubleFloat S} (hx : x.Fits) {n : ℤ} (hlo : (2 : ℚ) ^ (S.minExp + S.precision + 2) ≤ |x.toRat * 2 ^ n|)
    (hr : |x.toRat * 2 ^ n| < S.fmt.overflowAt) (mode : Round) :
    ∃ r, x.scalbnR n mode = .ok r ∧ r.Valid ∧ r.Canonical ∧ r.toRat = x.toRat * 2 ^ n ∧ r.hi.sign = x.hi.sign := by
  have hp := h.ok.p_ge
  have hF : 1 ≤ S.fmt.p := by rw [fmt_p]; omega
  have gh := grid_toRat h.ok hx.1.1 hx.2.1.1.1
  have gl := grid_toRat h.ok hx.1.2 hx.2.1.1.2
  have h0 : x.hi.toRat ≠ 0 := by
    intro h0
    have := (Canonical.hi_zero_iff h.ok hx.1 hx.2.1).1 h0
    rw [this, zero_mul, abs_zero] at hlo
    have := two_zpow_pos (S.minExp + S.precision + 2)
    linarith
  obtain ⟨e, -, e2, e3⟩ := C26_ilogb h.ok hx.1.1 hx.2.1.1.1 h0
  obtain ⟨m1, m2⟩ := fits_low_mult h hx e2
  have hv : |x.toRat| < 2 ^ (e + 2) := by
    obtain ⟨k, k1, k2, k3, k4⟩ := exists_unit hF gh
    obtain ⟨-, l2⟩ := low_part hF gh gl hx.2.1.2 k1 k3 k4
    have : (2 : ℚ) ^ (-(S.fmt.p : ℤ)) ≤ 2 ^ (0 : ℤ) := two_zpow_le (by omega)
    rw [zpow_zero] at this
    have h2 := abs_nonneg x.hi.toRat
    have h3 : |x.toRat| ≤ |x.hi.toRat| + |x.lo.toRat| := abs_add_le _ _
    have e1 : (2 : ℚ) ^ (e + 2) = 2 ^ (e + 1) * 2 := by rw [← zpow_add_one₀ (by norm_num)]; congr 1; ring
    nlinarith
  have he : S.minExp + S.precision + 2 < e + 2 + n := by
    have : (2 : ℚ) ^ (S.minExp + S.precision + 2) < 2 ^ (e + 2 + n) := by
      refine hlo.trans_lt ?_
      rw [abs_mul, abs_of_pos (two_zpow_pos n), two_zpow_add (e + 2) n]
      exact mul_lt_mul_of_pos_right hv (two_zpow_pos n)
    exact (zpow_lt_zpow_iff_right₀ (by norm_num)).1 this
  refine C63_scalbn_grid_partial h hx.1 hx.2.1 (grid_scale_mult hF gh m2 ?_) (grid_scale_mult hF gl m1 ?_) hr mode <;> rw [fmt_p, fmt_emin] <;> omega

/-- **C63.** On an infinity `scalbn` keeps the value; on a NaN it gives a NaN. -/
theorem C63_scalbn_specials (h : S.Pair) {x : DoubleFloat S} (hx : x.Valid) (hl : x.lo.isZero = true) (n : ℤ) (mode : Round) :
    (x.hi.isInfinite = true → ∃ r, x.scalbnR n mode = .ok r ∧ r.Valid ∧ r.hi.datum = x.hi.datum ∧ r.lo.datum = x.lo.datum) ∧
    (x.hi.isNan = true → ∃ r, x.scalbnR n mode = .ok r ∧ r.Valid ∧ IsQuieted x.hi r.hi ∧ r.lo.datum = x.lo.datum) := by
  have cl : x.lo.category = .zero := by simpa [isZero] using hl
  have fl : x.lo.isFinite = true := isFinite_iff.2 (Or.inr cl)
  have z0 : x.lo.toRat * 2 ^ n = 0 := by rw [toRat_zero cl, zero_mul]
  have L := largest_pos h.ok
  obtain ⟨b, sb, b1, b2, b3, b4⟩ := C25_scalbn h.ok hx.2 fl n mode (directedOK_of_ge h.ok mode (by rw [z0]; linarith))
  rw [z0] at b4
  obtain ⟨-, b5, b6⟩ := b4.exact grid_zero (by rw [abs_zero]; exact L.le)
  simp only at b5 b6
  have bd : b.datum = x.lo.datum := by rw [datum_finite b5, datum_finite fl, b3, b6, toRat_zero cl]
  obtain ⟨s1, s2⟩ := C25_specials h.ok hx.1 n mode
  refine ⟨fun c => ?_, fun c => ?_⟩
  · obtain ⟨a, a1, a2, a3⟩ := s1 c
    refine ⟨⟨a, b⟩, ?_, ⟨a2, b2⟩, a3, bd⟩
    unfold DoubleFloat.scalbnR; rw [a1, M.ok_bind, b1]; rfl
  · obtain ⟨a, a1, a2, a3⟩ := s2 c
    refine ⟨⟨a, b⟩, ?_, ⟨a2, b2⟩, a3, bd⟩
    unfold DoubleFloat.scalbnR; rw [a1, M.ok_bind, b1]; rfl

example := C63_scalbn_specials doubleS_pair (x := DoubleFloat.INFINITY doubleS) (by decide +kernel) rfl 3 .towardZero

/-- **C64.** `frexp` splits a non-zero value of the 106-bit format exactly. -/
theorem C64_frexp (h : S.Pair) (hm : S.minExp + S.precision + 2 ≤ 0) {x : DoubleFloat S} (hx : x.Fits) (h0 : x.toRat ≠ 0) (mode : Round) :
    ∃ f e, x.frexpR mode = .ok (f, e) ∧ f.Valid ∧ f.Canonical ∧ x.toRat = f.toRat * 2 ^ e ∧ 1 / 2 ≤ |f.hi.toRat| ∧ |f.hi.toRat| < 1 := by
  have hp := h.ok.p_ge; have hmin := h.ok.min_lt; have hmax := h.ok.max_le; have hpm := h.ok.p_max
  have hF : 1 ≤ S.fmt.p := by rw [fmt_p]; omega
  have gh := grid_toRat h.ok hx.1.1 hx.2.1.1.1
  have gl := grid_toRat h.ok hx.1.2 hx.2.1.1.2
  have hh0 : x.hi.toRat ≠ 0 := fun q => h0 ((Canonical.hi_zero_iff h.ok hx.1 hx.2.1).1 q)
  obtain ⟨f, e, f1, f2, f3, f4, f5, f6⟩ := C27_frexp h.ok hx.1.1 hx.2.1.1.1 hh0 mode
  have he := two_zpow_pos e
  have hlow : (2 : ℚ) ^ (e - 1) ≤ |x.hi.toRat| := by
    rw [f4, abs_mul, abs_of_pos he]
    have e1 : (2 : ℚ) ^ e = 2 ^ (e - 1) * 2 := by rw [← zpow_add_one₀ (by norm_num)]; congr 1; ring
    nlinarith
  have hup : |x.hi.toRat| < 2 ^ e := by rw [f4, abs_mul, abs_of_pos he]; nlinarith
  obtain ⟨m1, m2⟩ := fits_low_mult h hx hlow
  have hfe : f.toRat = x.hi.toRat * 2 ^ (-e) := by rw [f4, mul_assoc, ← two_zpow_add, add_neg_cancel, zpow_zero, mul_one]
  have gh' : S.fmt.Grid (x.hi.toRat * 2 ^ (-e)) := grid_scale_mult hF gh m2 (by rw [fmt_p, fmt_emin]; omega)
  have gl' : S.fmt.Grid (x.lo.toRat * 2 ^ (-e)) := grid_scale_mult hF gl m1 (by rw [fmt_p, fmt_emin]; omega)
  have hrn : RN S.fmt (x.toRat * 2 ^ (-e)) (x.hi.toRat * 2 ^ (-e)) := rn_scale hF gh gl hx.2.1.2 gh' gl'
  have hL : (1 : ℚ) ≤ S.fmt.largest := by
    have := int_le_largest h.ok (n := 1) (by rw [abs_one]; exact one_le_pow₀ (by norm_num))
    simpa using this
  have hl : |x.lo.toRat * 2 ^ (-e)| ≤ S.fmt.largest := by
    refine le_trans ?_ hL
    refine le_trans ?_ f6.le
    rw [hfe, abs_mul, abs_mul]
    refine mul_le_mul_of_nonneg_right ?_ (abs_nonneg _)
    obtain ⟨k, k1, k2, k3, k4⟩ := exists_unit hF gh
    obtain ⟨-, l2⟩ := low_part hF gh gl hx.2.1.2 k1 k3 k4
    have : (2 : ℚ) ^ (-(S.fmt.p : ℤ)) ≤ 2 ^ (0 : ℤ) := two_zpow_le (by omega)
    rw [zpow_zero] at this
    have := abs_nonneg x.hi.toRat
    nlinarith
  obtain ⟨b, sb, b1, b2, b3, b4⟩ := C25_scalbn h.ok hx.1.2 hx.2.1.1.2 (-e) mode (directedOK_of_ge h.ok mode (by rw [_root_.abs_le] at hl; exact hl.1))
  obtain ⟨-, b5, b6⟩ := b4.exact gl' hl
  simp only at b5 b6
  have ee : (⟨f, b⟩ : DoubleFloat S).toRat = x.toRat * 2 ^ (-e) := by
    simp only [DoubleFloat.toRat]; rw [hfe, b6]; ring
  have cx : x.hi.category = .normal := normal_of_ne_zero hx.2.1.1.1 hh0
  have hmin' := h.ok.min_ge
  have hple := h.ok.p_le
  obtain ⟨x1, x2, x3, -, -, -⟩ := Valid.normal hx.1.1 cx
  have he1 : e ≤ 30000 := by
    have := mag_lt_pow h.ok hx.1.1 cx
    rw [← abs_toRat cx] at this
    have := (zpow_lt_zpow_iff_right₀ (a := (2 : ℚ)) (by norm_num)).1 (hlow.trans_lt this)
    omega
  have he2 : -30000 ≤ e := by
    have : (2 : ℚ) ^ (x.hi.exp - S.precision + 1) ≤ |x.hi.toRat| := by
      rw [abs_toRat cx]; exact le_mul_of_one_le_left (two_zpow_pos _).le (by exact_mod_cast x3)
    have := (zpow_lt_zpow_iff_right₀ (a := (2 : ℚ)) (by norm_num)).1 (this.trans_lt hup)
    omega
  refine ⟨⟨f, b⟩, e, ?_, ⟨f2, b2⟩, ⟨⟨f3, b5⟩, ?_⟩, ?_, f5, f6⟩
  · unfold DoubleFloat.frexpR
    rw [f1, M.ok_bind]
    dsimp only
    rw [if_pos (show x.category = .normal from cx), i32_ok (by omega) (by omega), M.ok_bind, b1]
    rfl
  · rw [ee]; show RN S.fmt _ f.toRat; rw [hfe]; exact hrn
  · rw [ee, mul_assoc, ← two_zpow_add, neg_add_cancel, zpow_zero, mul_one]

/-- **C64.** `frexp` of any pair of finite parts whose high part is not zero, canonical or not: the high part is split exactly, and
the low part is divided by the same power of two, correctly rounded in the mode of the call. -/
theorem C64_frexp_parts (h : S.Pair) {x : DoubleFloat S} (hx : x.Valid) (fx : x.Finite) (h0 : x.hi.toRat ≠ 0) (mode : Round) :
    ∃ f e st, x.frexpR mode = .ok (f, e) ∧ f.Valid ∧ f.hi.isFinite = true ∧ x.hi.toRat = f.hi.toRat * 2 ^ e ∧
      1 / 2 ≤ |f.hi.toRat| ∧ |f.hi.toRat| < 1 ∧ f.lo.sign = x.lo.sign ∧ Rounds S mode (x.lo.toRat * 2 ^ (-e)) x.lo.sign ⟨st, f.lo⟩ := by
  have hp := h.ok.p_ge; have hmin := h.ok.min_lt; have hmax := h.ok.max_le; have hpm := h.ok.p_max
  have hmin' := h.ok.min_ge
  have hple := h.ok.p_le
  obtain ⟨f, e, f1, f2, f3, f4, f5, f6⟩ := C27_frexp h.ok hx.1 fx.1 h0 mode
  have he := two_zpow_pos e
  have hlow : (2 : ℚ) ^ (e - 1) ≤ |x.hi.toRat| := by
    rw [f4, abs_mul, abs_of_pos he]
    have e1 : (2 : ℚ) ^ e = 2 ^ (e - 1) * 2 := by rw [← zpow_add_one₀ (by norm_num)]; congr 1; ring
    nlinarith
  have hup : |x.hi.toRat| < 2 ^ e := by rw [f4, abs_mul, abs_of_pos he]; nlinarith
  have cx : x.hi.category = .normal := normal_of_ne_zero fx.1 h0
  obtain ⟨x1, x2, x3, -, -, -⟩ := Valid.normal hx.1 cx
  have he1 : e ≤ 30000 := by
    have := mag_lt_pow h.ok hx.1 cx
    rw [← abs_toRat cx] at this
    have := (zpow_lt_zpow_iff_right₀ (a := (2 : ℚ)) (by norm_num)).1 (hlow.trans_lt this)
    omega
  have he2 : -30000 ≤ e := by
    have : (2 : ℚ) ^ (x.hi.exp - S.precision + 1) ≤ |x.hi.toRat| := by
      rw [abs_toRat cx]; exact le_mul_of_one_le_left (two_zpow_pos _).le (by exact_mod_cast x3)
    have := (zpow_lt_zpow_iff_right₀ (a := (2 : ℚ)) (by norm_num)).1 (this.trans_lt hup)
    omega
  obtain ⟨b, sb, b1, b2, b3, b4⟩ := C25_scalbn h.ok hx.2 fx.2 (-e) mode (directedOK_of_ieee h.ieee mode _)
  refine ⟨⟨f, b⟩, e, sb, ?_, ⟨f2, b2⟩, f3, f4, f5, f6, b3, b4⟩
  unfold DoubleFloat.frexpR
  rw [f1, M.ok_bind]
  dsimp only
  rw [if_pos (show x.category = .normal from cx), i32_ok (by omega) (by omega), M.ok_bind, b1]
  rfl

example := C64_frexp_parts doubleS_pair (x := ⟨⟨2 ^ 52, 0, .normal, false⟩, ⟨2 ^ 52, -60, .normal, true⟩⟩) (by decide +kernel) (by decide) (by decide +kernel) .towardZero

/-- The mode matters: the low part of a canonical pair far above it is rounded away by `frexp`, to zero or to the smallest subnormal. -/
theorem C64_frexp_mode : ∃ x : DoubleDouble, x.Valid ∧ x.Finite ∧ x.hi.toRat ≠ 0 ∧
    x.frexpR .nearestTiesToEven = .ok (⟨⟨2 ^ 52, -1, .normal, false⟩, ZERO doubleS⟩, 1001) ∧
    x.frexpR .towardPositive = .ok (⟨⟨2 ^ 52, -1, .normal, false⟩, SMALLEST doubleS⟩, 1001) :=
  ⟨⟨⟨2 ^ 52, 1000, .normal, false⟩, ⟨2 ^ 52, -1000, .normal, false⟩⟩, by decide +kernel, by decide, by
    norm_num [toRat, signed, doubleS, Sem.default], by decide +kernel, by decide +kernel⟩

/-- **C61** (partial). `ilogb` is the exponent of the high part: it is the exponent of the value except just below a power of two, where it
is one too large. -/
theorem C61_ilogb_partial (h : S.Pair) {x : DoubleFloat S} (hx : x.Valid) (cx : x.Canonical) (h0 : x.toRat ≠ 0) :
    ∃ e, x.ilogb = .ok e ∧ |x.toRat| < 2 ^ (e + 1) ∧ (2 ^ e ≤ |x.toRat| ∨ |x.hi.toRat| = 2 ^ e ∧ 2 ^ e - |x.toRat| ≤ 2 ^ (e - S.precision)) := by
  have hp := h.ok.p_ge
  have hF : 1 ≤ S.fmt.p := by rw [fmt_p]; omega
  have gh := grid_toRat h.ok hx.1 cx.1.1
  have gl := grid_toRat h.ok hx.2 cx.1.2
  have hr : RN S.fmt x.toRat x.hi.toRat := cx.2
  have hh0 : x.hi.toRat ≠ 0 := fun q => h0 ((Canonical.hi_zero_iff h.ok hx cx).1 q)
  obtain ⟨e, e1, e2, e3⟩ := C26_ilogb h.ok hx.1 cx.1.1 hh0
  obtain ⟨k, k1, k2, k3, k4⟩ := exists_unit hF gh
  obtain ⟨-, l2⟩ := low_part hF gh gl hr k1 k3 k4
  have he : S.fmt.emin - S.fmt.p + 1 ≤ e := by
    obtain ⟨m, hm⟩ := k2
    have m0 : m ≠ 0 := by rintro rfl; simp at hm; exact hh0 hm
    have h1 : (1 : ℚ) ≤ |(m : ℚ)| := by exact_mod_cast Int.one_le_abs m0
    have h2 : (2 : ℚ) ^ k ≤ |x.hi.toRat| := by
      rw [hm, abs_mul, abs_of_pos (two_zpow_pos k)]
      exact le_mul_of_one_le_left (two_zpow_pos k).le h1
    have := (zpow_lt_zpow_iff_right₀ (a := (2 : ℚ)) (by norm_num)).1 (h2.trans_lt e3)
    omega
  refine ⟨e, e1, ?_, ?_⟩
  · by_contra hc
    push Not at hc
    have := hr.le_abs (grid_two_pow hF (k := e + 1) (by omega)) hc
    linarith
  · rcases le_or_gt ((2 : ℚ) ^ e) |x.toRat| with c | c
    · exact Or.inl c
    · have q := le_antisymm (hr.abs_le (grid_two_pow hF (k := e) he) c.le) e2
      refine Or.inr ⟨q, ?_⟩
      have t : |x.hi.toRat| - |x.lo.toRat| ≤ |x.toRat| := by
        unfold DoubleFloat.toRat
        have := abs_sub_abs_le_abs_sub x.hi.toRat (-x.lo.toRat)
        rwa [abs_neg, sub_neg_eq_add] at this
      rw [q] at t l2
      rw [sub_eq_add_neg e, two_zpow_add e, mul_comm]
      rw [fmt_p] at l2
      linarith

example := C61_ilogb_partial doubleS_pair fits_example.1.1 fits_example.1.2.1 (by rw [fits_example.2]; norm_num)

/-- **C61** (violated). `1 - 2^-60` lies in `[1/2, 1)`, but its `ilogb` is `0`. -/
theorem C61_ilogb_wrong : ∃ x : DoubleDouble, x.Valid ∧ x.Canonical ∧ 1 / 2 ≤ |x.toRat| ∧ |x.toRat| < 1 ∧ x.ilogb = .ok 0 := by
  obtain ⟨f, v⟩ := fits_example
  exact ⟨_, f.1, f.2.1, by rw [v]; norm_num, by rw [v]; norm_num, by decide +kernel⟩

/-- **C61.** The special results of `ilogb`. -/
theorem C61_ilogb_specials {x : DoubleFloat S} :
    (x.hi.isNan = true → x.ilogb = .ok (-2147483648)) ∧ (x.hi.isZero = true → x.ilogb = .ok (-2147483647)) ∧
    (x.hi.isInfinite = true → x.ilogb = .ok 2147483647) := C26_specials

/-- **C64.** The special results of `frexp`. -/
theorem C64_frexp_specials (h : S.Pair) {x : DoubleFloat S} (hx : x.Valid) (mode : Round) :
    (x.hi.isZero = true → ∃ f, x.frexpR mode = .ok (f, 0) ∧ f.Valid ∧ f.hi.datum = x.hi.datum ∧ f.lo = x.lo) ∧
    (x.hi.isInfinite = true → x.frexpR mode = .ok (x, 2147483647)) ∧
    (x.hi.isNan = true → ∃ f, x.frexpR mode = .ok (f, -2147483648) ∧ f.Valid ∧ IsQuieted x.hi f.hi ∧ f.lo = x.lo) := by
  obtain ⟨s1, s2, s3⟩ := C27_specials h.ok hx.1 mode
  have key : ∀ {a e}, x.hi.frexpR mode = .ok (a, e) → x.hi.category ≠ .normal → x.frexpR mode = .ok (⟨a, x.lo⟩, e) := by
    intro a e h1 h2
    unfold DoubleFloat.frexpR
    rw [h1, M.ok_bind]
    dsimp only
    rw [if_neg (show ¬ x.category = .normal from h2)]
  refine ⟨fun c => ?_, fun c => ?_, fun c => ?_⟩
  · obtain ⟨r, r1, r2, r3⟩ := s1 c
    exact ⟨_, key r1 (by intro q; simp [isZero, q] at c), ⟨r2, hx.2⟩, r3, rfl⟩
  · exact key (s2 c) (by intro q; simp [isInfinite, q] at c)
  · obtain ⟨r, r1, r2, r3⟩ := s3 c
    exact ⟨_, key r1 (by intro q; simp [isNan, q] at c), ⟨r2, hx.2⟩, r3, rfl⟩

example := C64_frexp_specials doubleS_pair (x := DoubleFloat.INFINITY doubleS) (by decide +kernel) .towardZero

/-- **C63** (violated). Doubling the largest value gives a pair whose high part is infinite but which is not equal to `INFINITY`. -/
theorem C63_scalbn_overflow : ∃ x r : DoubleDouble, DoubleFloat.largest doubleS = .ok x ∧ x.scalbnR 1 .nearestTiesToEven = .ok r ∧
    r.hi.isInfinite = true ∧ r.eq (DoubleFloat.INFINITY doubleS) = .ok false ∧ r.partialCmp (DoubleFloat.INFINITY doubleS) = .ok (some .gt) :=
  ⟨⟨IeeeFloat.largest doubleS, ⟨2 ^ 53 - 2, 969, .normal, false⟩⟩, ⟨IeeeFloat.INFINITY doubleS, ⟨2 ^ 53 - 2, 970, .normal, false⟩⟩,
    by decide +kernel, by decide +kernel, by decide +kernel, by decide +kernel, by decide +kernel⟩
/-- Moderate values are in range for `DoubleDouble`. -/
theorem doubleS_moderate {v : ℚ} (h : v ≤ 2 ^ 52) : v < doubleS.fmt.overflowAt := by
  show v < (2 : ℚ) ^ ((1023 : ℤ) + 1) - 2 ^ ((1023 : ℤ) - 53)
  rw [show ((1023 : ℤ) + 1) = 54 + 970 by norm_num, show ((1023 : ℤ) - 53) = 970 by norm_num, two_zpow_add 54 970]
  have : (1 : ℚ) ≤ 2 ^ (970 : ℤ) := one_le_zpow₀ (by norm_num) (by norm_num)
  generalize (2 : ℚ) ^ (970 : ℤ) = w at *
  norm_num at *
  linarith

/-- **C63** (violated). Scaling each part on its own rounds twice: `(3 - 2^-60) * 2^-1075` lies below the middle of `2^-1074` and
`2^-1073`, but the result is `2^-1073`. -/
theorem C63_scalbn_double_rounding : ∃ x r y : DoubleDouble, x.Valid ∧ x.Canonical ∧ x.scalbnR (-1075) .nearestTiesToEven = .ok r ∧
    r.Valid ∧ r.Canonical ∧ y.Valid ∧ y.Canonical ∧ |y.toRat - x.toRat * 2 ^ (-1075 : ℤ)| < |r.toRat - x.toRat * 2 ^ (-1075 : ℤ)| := by
  obtain ⟨d, d1, d2, d3, -⟩ := ofFallback_fits doubleS_pair (x := ⟨3 * 2 ^ 104 - 2 ^ 44, 1, .normal, false⟩) (by decide +kernel) rfl (by
    apply doubleS_moderate
    norm_num [toRat, signed, fallbackS, doubleS, Sem.default])
  have e : d = ⟨⟨3 * 2 ^ 51, 1, .normal, false⟩, ⟨2 ^ 52, -60, .normal, true⟩⟩ := by
    have : DoubleFloat.ofFallback (S := doubleS) ⟨3 * 2 ^ 104 - 2 ^ 44, 1, .normal, false⟩ =
        .ok ⟨⟨3 * 2 ^ 51, 1, .normal, false⟩, ⟨2 ^ 52, -60, .normal, true⟩⟩ := by decide +kernel
    rw [this] at d1; cases d1; rfl
  subst e
  have vx : (⟨⟨3 * 2 ^ 51, 1, .normal, false⟩, ⟨2 ^ 52, -60, .normal, true⟩⟩ : DoubleDouble).toRat = 3 - 2 ^ (-60 : ℤ) := by
    rw [d3]
    norm_num [toRat, signed, fallbackS, doubleS, Sem.default]
  have single : ∀ {a : IeeeFloat doubleS}, a.Valid → a.isFinite = true → ∀ s, (⟨a, ⟨0, -1023, .zero, s⟩⟩ : DoubleDouble).Valid →
      (⟨a, ⟨0, -1023, .zero, s⟩⟩ : DoubleDouble).Canonical ∧ (⟨a, ⟨0, -1023, .zero, s⟩⟩ : DoubleDouble).toRat = a.toRat := by
    intro a va fa s _
    have e : (⟨a, ⟨0, -1023, .zero, s⟩⟩ : DoubleDouble).toRat = a.toRat := by
      simp only [DoubleFloat.toRat]; rw [toRat_zero (x := ⟨0, -1023, .zero, s⟩) rfl, add_zero]
    refine ⟨⟨⟨fa, rfl⟩, ?_⟩, e⟩
    rw [e]; exact isRounded_self _ (grid_toRat doubleS_ok va fa)
  obtain ⟨c1, e1⟩ := single (a := ⟨2, -1022, .normal, false⟩) (by decide +kernel) rfl true (by decide +kernel)
  obtain ⟨c2, e2⟩ := single (a := ⟨1, -1022, .normal, false⟩) (by decide +kernel) rfl false (by decide +kernel)
  refine ⟨_, ⟨⟨2, -1022, .normal, false⟩, ⟨0, -1023, .zero, true⟩⟩, ⟨⟨1, -1022, .normal, false⟩, ⟨0, -1023, .zero, false⟩⟩, d2.1, d2.2.1,
    by decide +kernel, by decide +kernel, c1, by decide +kernel, c2, ?_⟩
  rw [vx, e1, e2, toRat_normal rfl, toRat_normal rfl]
  simp only [signed, Bool.false_eq_true, if_false]
  rw [show (-1022 : ℤ) - (doubleS.precision : ℤ) + 1 = -1075 + 1 from rfl, zpow_add_one₀ (by norm_num)]
  have hu := two_zpow_pos (-1075)
  generalize (2 : ℚ) ^ (-1075 : ℤ) = u at hu ⊢
  have e3 : ∀ c : ℚ, |c * u| = |c| * u := fun c => by rw [abs_mul, abs_of_pos hu]
  rw [show ((1 : ℕ) : ℚ) * (u * 2) - (3 - 2 ^ (-60 : ℤ)) * u = (-1 + 2 ^ (-60 : ℤ)) * u by push_cast; ring,
    show ((2 : ℕ) : ℚ) * (u * 2) - (3 - 2 ^ (-60 : ℤ)) * u = (1 + 2 ^ (-60 : ℤ)) * u by push_cast; ring, e3, e3]
  apply mul_lt_mul_of_pos_right _ hu
  norm_num [_root_.abs_of_neg, _root_.abs_of_pos]

/-- The theorems apply to `1 - 2^-60`: scaling by `2^10` and splitting are exact, and the value is not an integer, not the largest
and not denormal. -/
example : let x : DoubleDouble := ⟨⟨2 ^ 52, 0, .normal, false⟩, ⟨2 ^ 52, -60, .normal, true⟩⟩
    (∃ r, x.scalbnR 10 .towardPositive = .ok r ∧ r.Canonical ∧ r.toRat = 1024 - 1 / 2 ^ 50) ∧
    (∃ f e, x.frexpR .nearestTiesToEven = .ok (f, e) ∧ f.Canonical ∧ f.toRat * 2 ^ e = 1 - 1 / 2 ^ 60) ∧
    x.isInteger = .ok false ∧ x.isDenormal = .ok false ∧ x.isLargest = .ok false := by
  obtain ⟨f, v⟩ := fits_example
  refine ⟨?_, ?_, by decide +kernel, by decide +kernel, by decide +kernel⟩
  · have e : (1 - 1 / 2 ^ 60 : ℚ) * 2 ^ (10 : ℤ) = 1024 - 1 / 2 ^ 50 := by norm_num
    obtain ⟨r, r1, -, r3, r4, -⟩ := C63_scalbn_partial doubleS_pair f (n := 10)
      (by
        rw [v, e]
        refine le_trans (two_zpow_le (b := 0) (by decide)) ?_
        norm_num [_root_.abs_of_pos])
      (by rw [v, e]; apply doubleS_moderate; norm_num [_root_.abs_of_pos]) .towardPositive
    exact ⟨r, r1, r3, by rw [r4, v, e]⟩
  · obtain ⟨g, e, g1, -, g3, g4, -, -⟩ := C64_frexp doubleS_pair (by decide) f (by rw [v]; norm_num) .nearestTiesToEven
    exact ⟨g, e, g1, g3, by rw [← g4, v]⟩

end Apf
