import Verif.Spec.DivMul
import Verif.Props.Midpoint
import Verif.Props.DoubleRounding

/-! # C117: dividing and multiplying back -/

namespace Apf
open Spec IeeeFloat
variable {S : Sem} {F : Fmt}

/-- Two different multiples of `2^k` are at least `2^k` apart. -/
theorem Mult.apart {k : ℤ} {v w : ℚ} (hv : Mult k v) (hw : Mult k w) (h : v ≠ w) : 2 ^ k ≤ |v - w| := by
  rcases lt_or_gt_of_ne h with c | c
  · have := hv.lt_step hw c
    rw [abs_sub_comm]; exact (by linarith : (2 : ℚ) ^ k ≤ w - v).trans (le_abs_self _)
  · have := hw.lt_step hv c
    exact (by linarith : (2 : ℚ) ^ k ≤ v - w).trans (le_abs_self _)

/-- A number of the grid of at least `2^t` is a multiple of the unit there. -/
theorem Spec.Fmt.Grid.mult_of_large {v : ℚ} (h : F.Grid v) {t : ℤ} (hv : 2 ^ t ≤ |v|) : Mult (t - F.p + 1) v := by
  obtain ⟨m, k, h1, -, rfl⟩ := h
  have hk := two_zpow_pos k
  have h1' : |(m : ℚ)| < 2 ^ (F.p : ℤ) := by rw [zpow_natCast]; exact_mod_cast h1
  have : (2 : ℚ) ^ t < 2 ^ ((F.p : ℤ) + k) := by
    rw [abs_mul, abs_of_pos hk] at hv
    rw [two_zpow_add]
    exact hv.trans_lt (mul_lt_mul_of_pos_right h1' hk)
  have := (zpow_lt_zpow_iff_right₀ (by norm_num : (1 : ℚ) < 2)).1 this
  exact Mult.mono (k := k) ⟨m, rfl⟩ (by omega)

/-- An odd multiple is not zero. -/
theorem odd_apart {k : ℤ} {j : ℤ} {m : ℚ} (hm : Mult (k + 1) m) : 2 ^ k ≤ |((2 * j + 1 : ℤ) : ℚ) * 2 ^ k - m| := by
  obtain ⟨i, rfl⟩ := hm
  have hk := two_zpow_pos k
  have e : ((2 * j + 1 : ℤ) : ℚ) * 2 ^ k - i * 2 ^ (k + 1) = ((2 * j + 1 - 2 * i : ℤ) : ℚ) * 2 ^ k := by
    rw [two_zpow_add, zpow_one]; push_cast; ring
  rw [e, abs_mul, abs_of_pos hk]
  have : (1 : ℤ) ≤ |2 * j + 1 - 2 * i| := Int.one_le_abs (by omega)
  have : (1 : ℚ) ≤ |((2 * j + 1 - 2 * i : ℤ) : ℚ)| := by exact_mod_cast this
  nlinarith

/-- The quotient by `2^a + 2^b` stays away from the midpoints. -/
theorem two_bits_error (hp : 2 ≤ F.p) {mode : Round} (hm : mode = .nearestTiesToEven ∨ mode = .nearestTiesToAway) {a b t : ℤ} (hab : b < a) {m g : ℚ}
    (t1 : F.emin ≤ t) (t2 : (2 : ℚ) ^ t ≤ m / (2 ^ a + 2 ^ b)) (t3 : m / (2 ^ a + 2 ^ b) < 2 ^ (t + 1)) (mm : Mult (t - F.p + b + 1) m)
    (hg : IsRounded F mode (m / (2 ^ a + 2 ^ b)) g) : |g * (2 ^ a + 2 ^ b) - m| ≤ 2 ^ (t - F.p + a) := by
  have ha := two_zpow_pos a
  have hb := two_zpow_pos b
  have ht := two_zpow_pos t
  have hn : (0 : ℚ) < 2 ^ a + 2 ^ b := by positivity
  obtain ⟨q, hq⟩ : ∃ q, m / (2 ^ a + 2 ^ b) = q := ⟨_, rfl⟩
  have hmq : m = q * (2 ^ a + 2 ^ b) := by rw [← hq]; field_simp
  rw [hq] at t2 t3 hg
  have near : ∀ w, F.Grid w → |q - g| ≤ |q - w| := by rcases hm with rfl | rfl <;> exact hg.2.1
  have hpow : ∀ j : ℤ, F.emin ≤ j → F.Grid ((2 : ℚ) ^ j) := fun j hj =>
    grid_of_mult (by omega) (k := j - F.p + 1) (Mult.mono (k := j) ⟨1, by simp⟩ (by omega)) (by omega)
      (by rw [abs_of_pos (two_zpow_pos j)]; exact zpow_le_zpow_right₀ (by norm_num) (by omega))
  have g1 : (2 : ℚ) ^ t ≤ g := hg.ge_of_grid (hpow t t1) t2
  have g2 : g ≤ 2 ^ (t + 1) := hg.le_of_grid (hpow (t + 1) (by omega)) t3.le
  have gm : Mult (t - F.p + 1) g := hg.1.mult_of_large (by rw [abs_of_pos (by linarith)]; exact g1)
  obtain ⟨i, hi⟩ := gm
  have hu : (2 : ℚ) ^ (t - F.p + 1) = 2 * 2 ^ (t - F.p) := by rw [two_zpow_add, zpow_one]; ring
  have hu0 := two_zpow_pos (t - F.p)
  have step : ∀ j : ℤ, (2 : ℚ) ^ t ≤ j * 2 ^ (t - F.p + 1) → j * 2 ^ (t - F.p + 1) ≤ (2 : ℚ) ^ (t + 1) → F.Grid (j * 2 ^ (t - F.p + 1)) := fun j j1 j2 =>
    grid_of_mult (by omega) (k := t - F.p + 1) ⟨j, rfl⟩ (by omega)
      (by rw [abs_of_nonneg (by linarith), show (F.p : ℤ) + (t - F.p + 1) = t + 1 by ring]; exact j2)
  have tm : ∀ j : ℤ, t - F.p + 1 ≤ j → Mult (t - F.p + 1) ((2 : ℚ) ^ j) := fun j hj => Mult.mono (k := j) ⟨1, by simp⟩ hj
  -- the distance of the quotient to a midpoint
  have mid : ∀ j : ℤ, 2 ^ (t - F.p + b) ≤ |((2 * j + 1 : ℤ) : ℚ) * 2 ^ (t - F.p) - q| * (2 ^ a + 2 ^ b) := by
    intro j
    obtain ⟨d, hd⟩ : ∃ d : ℕ, a = b + (d + 1) := ⟨(a - b - 1).toNat, by omega⟩
    have e : |((2 * j + 1 : ℤ) : ℚ) * 2 ^ (t - F.p) - q| * (2 ^ a + 2 ^ b) = |((2 * (j * 2 ^ (d + 1) + j + 2 ^ d) + 1 : ℤ) : ℚ) * 2 ^ (t - F.p + b) - m| := by
      rw [hmq, ← abs_of_pos hn, ← abs_mul, abs_of_pos hn]
      congr 1
      have e1 : (2 : ℚ) ^ a = 2 ^ b * (2 * 2 ^ d) := by rw [hd, two_zpow_add, two_zpow_add, zpow_natCast, zpow_one]; ring
      rw [two_zpow_add (t - F.p) b, e1]
      push_cast
      ring
    rw [e]
    exact odd_apart mm
  have hfin : (2 : ℚ) ^ (t - F.p + a) = 2 ^ (t - F.p) * (2 ^ a + 2 ^ b) - 2 ^ (t - F.p + b) := by rw [two_zpow_add, two_zpow_add]; ring
  rw [hmq, ← sub_mul, abs_mul, abs_of_pos hn, hfin]
  rcases lt_trichotomy g q with c | c | c
  · -- the next number above
    have up : ((i + 1 : ℤ) : ℚ) * 2 ^ (t - F.p + 1) ≤ 2 ^ (t + 1) := by
      have := Mult.lt_step ⟨i, hi⟩ (tm (t + 1) (by omega)) (c.trans t3)
      push_cast; linarith
    have := near _ (step (i + 1) (by push_cast; linarith [two_zpow_pos (t - F.p + 1)]) up)
    rw [abs_of_pos (by linarith)] at this
    have h1 : q ≤ ((2 * i + 1 : ℤ) : ℚ) * 2 ^ (t - F.p) := by
      by_contra h
      push Not at h
      rcases abs_cases (q - ((i + 1 : ℤ) : ℚ) * 2 ^ (t - F.p + 1)) with ⟨k, -⟩ | ⟨k, -⟩ <;> rw [k, hi, hu] at this <;> push_cast at this h <;> nlinarith
    have h2 := mid i
    rw [abs_of_nonneg (by linarith)] at h2
    rw [abs_sub_comm, abs_of_pos (by linarith)]
    rw [hi, hu]
    push_cast at h2
    nlinarith
  · rw [c, sub_self, abs_zero, zero_mul, ← hfin]
    exact (two_zpow_pos _).le
  · have dn : (2 : ℚ) ^ t ≤ ((i - 1 : ℤ) : ℚ) * 2 ^ (t - F.p + 1) := by
      have := Mult.lt_step (tm t (by omega)) ⟨i, hi⟩ (t2.trans_lt c)
      push_cast; linarith
    have := near _ (step (i - 1) dn (by push_cast; linarith [two_zpow_pos (t - F.p + 1)]))
    rw [abs_sub_comm, abs_of_pos (by linarith)] at this
    have h1 : ((2 * (i - 1) + 1 : ℤ) : ℚ) * 2 ^ (t - F.p) ≤ q := by
      by_contra h
      push Not at h
      rcases abs_cases (q - ((i - 1 : ℤ) : ℚ) * 2 ^ (t - F.p + 1)) with ⟨k, -⟩ | ⟨k, -⟩ <;> rw [k, hi, hu] at this <;> push_cast at this h <;> nlinarith
    have h2 := mid (i - 1)
    rw [abs_sub_comm, abs_of_nonneg (by linarith)] at h2
    rw [abs_of_pos (by linarith)]
    rw [hi, hu]
    push_cast at h2
    nlinarith

/-- Dividing a positive number with a spare bit by `2^a + 2^b` and multiplying back. -/
theorem div_mul_pos (hp : 2 ≤ F.p) {mode : Round} (hm : mode = .nearestTiesToEven ∨ mode = .nearestTiesToAway) {a b : ℤ} (hab : b ≤ a) {m g : ℚ} (m0 : 0 < m)
    (gm : F.Grid m) (hb : BitsAtMost (F.p - 1) m) (hr : (2 : ℚ) ^ F.emin * (2 ^ a + 2 ^ b) ≤ m) (hg : IsRounded F mode (m / (2 ^ a + 2 ^ b)) g) :
    IsRounded F .nearestTiesToEven (g * (2 ^ a + 2 ^ b)) m := by
  have ha0 := two_zpow_pos a
  have hb0 := two_zpow_pos b
  have hn : (0 : ℚ) < 2 ^ a + 2 ^ b := by positivity
  have q1 : (2 : ℚ) ^ F.emin ≤ m / (2 ^ a + 2 ^ b) := (le_div_iff₀ hn).2 hr
  have q0 : 0 < m / (2 ^ a + 2 ^ b) := by positivity
  obtain ⟨t, t2, t3⟩ := exists_mem_Ico_zpow q0 (show (1 : ℚ) < 2 by norm_num)
  have t1 : F.emin ≤ t := by
    have := (zpow_lt_zpow_iff_right₀ (by norm_num : (1 : ℚ) < 2)).1 (q1.trans_lt t3)
    omega
  obtain ⟨M', e, hM, hme⟩ := hb
  have he := two_zpow_pos e
  have hM' : |(M' : ℚ)| < 2 ^ ((F.p : ℤ) - 1) := by
    rw [show (F.p : ℤ) - 1 = ((F.p - 1 : ℕ) : ℤ) by omega, zpow_natCast]; exact_mod_cast hM
  have hbig : (2 : ℚ) ^ (t + a) < m := by
    have := (le_div_iff₀ hn).1 t2
    rw [two_zpow_add]
    nlinarith [two_zpow_pos t]
  have e1 : t + a - F.p + 2 ≤ e := by
    have : (2 : ℚ) ^ (t + a) < 2 ^ ((F.p : ℤ) - 1 + e) := by
      refine hbig.trans ?_
      rw [two_zpow_add, ← abs_of_pos m0, hme, abs_mul, abs_of_pos he]
      exact mul_lt_mul_of_pos_right hM' he
    have := (zpow_lt_zpow_iff_right₀ (by norm_num : (1 : ℚ) < 2)).1 this
    omega
  rcases hab.eq_or_lt with rfl | hab
  · -- a power of two
    have hn2 : (2 : ℚ) ^ b + 2 ^ b = 2 ^ (b + 1) := by rw [two_zpow_add, zpow_one]; ring
    rw [hn2] at hg ⊢
    have gq : F.Grid (m / 2 ^ (b + 1)) := by
      refine ⟨M', e - (b + 1), ?_, by omega, ?_⟩
      · exact hM.trans_le (pow_le_pow_right₀ (by norm_num) (by omega))
      · rw [hme, zpow_sub₀ (by norm_num : (2 : ℚ) ≠ 0)]; ring
    rw [hg.unique (isRounded_self _ gq), div_mul_cancel₀ _ (two_zpow_pos _).ne']
    exact isRounded_self _ gm
  · have err := two_bits_error hp hm hab t1 t2 t3 (Mult.mono (k := e) ⟨M', hme⟩ (by omega)) hg
    have hw0 := two_zpow_pos (t + a - F.p + 1)
    have hw : (2 : ℚ) ^ (t + a - F.p + 1) = 2 * 2 ^ (t - F.p + a) := by
      rw [show t + a - F.p + 1 = (t - F.p + a) + 1 by ring, two_zpow_add, zpow_one]; ring
    have mw : Mult (t + a - F.p + 1) m := Mult.mono (k := e) ⟨M', hme⟩ (by omega)
    have apart : ∀ w, F.Grid w → w ≠ m → 2 ^ (t + a - F.p + 1) ≤ |w - m| := by
      intro w gw hne
      rcases le_or_gt ((2 : ℚ) ^ (t + a)) w with c | c
      · exact (gw.mult_of_large (by rw [abs_of_pos (by linarith [two_zpow_pos (t + a)])]; exact c)).apart mw hne
      · have := Mult.lt_step (Mult.mono (k := t + a) (v := 2 ^ (t + a)) ⟨1, by simp⟩ (by omega)) mw hbig
        rw [abs_sub_comm]
        exact (by linarith : (2 : ℚ) ^ (t + a - F.p + 1) ≤ m - w).trans (le_abs_self _)
    obtain ⟨v, hv⟩ : ∃ v, g * (2 ^ a + 2 ^ b) = v := ⟨_, rfl⟩
    rw [hv] at err ⊢
    have tri : ∀ w, |w - m| ≤ |v - w| + |v - m| := fun w => by
      have := abs_add_le (w - v) (v - m)
      rw [show w - v + (v - m) = w - m by ring, abs_sub_comm w v] at this
      exact this
    refine ⟨gm, fun w gw => ?_, fun w gw hne heq => ?_⟩
    · rcases eq_or_ne w m with rfl | hne
      · exact le_refl _
      · linarith [apart w gw hne, tri w]
    · have h1 := apart w gw hne
      have h2 : |w - m| = 2 ^ (t + a - F.p + 1) := le_antisymm (by linarith [tri w]) h1
      have h3 := Mult.apart gw.mult gm.mult hne
      rw [h2] at h3
      have h4 := (zpow_le_zpow_iff_right₀ (by norm_num : (1 : ℚ) < 2)).1 h3
      refine ⟨M', e - 1, ?_, by omega, ?_⟩
      · rw [abs_mul, show |(2 : ℤ)| = 2 by rfl]
        have : (2 : ℤ) ^ F.p = 2 * 2 ^ (F.p - 1) := by rw [← pow_succ']; congr 1; omega
        linarith
      · rw [hme, zpow_sub₀ (by norm_num : (2 : ℚ) ≠ 0), zpow_one]; push_cast; ring

theorem near_neg {mode : Round} (hm : mode = .nearestTiesToEven ∨ mode = .nearestTiesToAway) : mode.neg = mode := by rcases hm with rfl | rfl <;> rfl

theorem div_mul_signs (hp : 2 ≤ F.p) {mode : Round} (hm : mode = .nearestTiesToEven ∨ mode = .nearestTiesToAway) {m n g : ℚ} (hn : TwoBits n)
    (gm : F.Grid m) (hb : BitsAtMost (F.p - 1) m) (hr : m = 0 ∨ (2 : ℚ) ^ F.emin * |n| ≤ |m|) (hg : IsRounded F mode (m / n) g) :
    IsRounded F .nearestTiesToEven (g * n) m := by
  have pos : ∀ {m n g : ℚ}, 0 < m → 0 < n → TwoBits n → F.Grid m → BitsAtMost (F.p - 1) m → (2 : ℚ) ^ F.emin * |n| ≤ |m| → IsRounded F mode (m / n) g →
      IsRounded F .nearestTiesToEven (g * n) m := by
    rintro m n g m0 n0 ⟨a, b, hn⟩ gm hb hr hg
    rw [abs_of_pos n0] at hn hr
    rw [abs_of_pos m0] at hr
    subst hn
    rcases le_total b a with c | c
    · exact div_mul_pos hp hm c m0 gm hb hr hg
    · rw [add_comm] at hr hg ⊢
      exact div_mul_pos hp hm c m0 gm hb hr hg
  have n0 : n ≠ 0 := by
    rintro rfl
    obtain ⟨a, b, hn⟩ := hn
    rw [abs_zero] at hn
    linarith [two_zpow_pos a, two_zpow_pos b]
  have tb : TwoBits (-n) := by obtain ⟨a, b, hn⟩ := hn; exact ⟨a, b, by rw [abs_neg]; exact hn⟩
  have hb' : BitsAtMost (F.p - 1) (-m) := by
    obtain ⟨i, k, h1, h2⟩ := hb
    exact ⟨-i, k, by rw [abs_neg]; exact h1, by rw [h2]; push_cast; ring⟩
  rcases eq_or_ne m 0 with rfl | m0
  · rw [zero_div] at hg
    rw [hg.unique (isRounded_self _ grid_zero), zero_mul]
    exact isRounded_self _ grid_zero
  have hr := hr.resolve_left m0
  have hgn : IsRounded F mode (-(m / n)) (-g) := by have := hg.neg; rwa [near_neg hm] at this
  have back : ∀ {v w : ℚ}, IsRounded F .nearestTiesToEven (-v) (-w) → IsRounded F .nearestTiesToEven v w := fun h => by
    have := h.neg; rw [neg_neg, neg_neg] at this; exact this
  rcases lt_or_gt_of_ne m0 with c | c <;> rcases lt_or_gt_of_ne n0 with d | d
  · have := pos (neg_pos.2 c) (neg_pos.2 d) tb gm.neg hb' (by rw [abs_neg, abs_neg]; exact hr) (by rw [neg_div_neg_eq]; exact hg)
    exact back (by rw [mul_neg] at this; exact this)
  · have := pos (neg_pos.2 c) d hn gm.neg hb' (by rw [abs_neg]; exact hr) (by rw [neg_div]; exact hgn)
    exact back (by rw [neg_mul] at this; exact this)
  · have := pos c (neg_pos.2 d) tb gm hb (by rw [abs_neg]; exact hr) (by rw [div_neg]; exact hgn)
    rwa [neg_mul_neg] at this
  · exact pos c d hn gm hb hr hg

/-- **C117.** `x / y * y` is `x` again, with its sign, when `y` is `±(2^a + 2^b)` (3, 5, 6, 9, 10, 12, 20, 1.5, ...) and `x` has a bit to spare: the division in
either nearest mode, the multiplication to nearest with ties to even, provided the quotient is within the normal range. -/
theorem C117_divide_multiply (h : S.OK) {x y : IeeeFloat S} (hx : x.Valid) (hy : y.Valid) (fx : x.isFinite = true) (fy : y.isFinite = true)
    (hb : BitsAtMost (S.precision - 1) x.toRat) (hn : TwoBits y.toRat) (hr : x.toRat = 0 ∨ S.fmt.smallestNormal * |y.toRat| ≤ |x.toRat|)
    (hl : |x.toRat / y.toRat| ≤ S.fmt.largest) {mode : Round} (hm : mode = .nearestTiesToEven ∨ mode = .nearestTiesToAway) :
    ∃ q r, divR x y mode = .ok q ∧ mulR q.value y .nearestTiesToEven = .ok r ∧ r.value.Valid ∧ r.value.isFinite = true ∧
      r.value.toRat = x.toRat ∧ r.value.sign = x.sign := by
  have hp : 2 ≤ S.fmt.p := by have := h.p_ge; show 2 ≤ S.precision; omega
  have y0 : y.toRat ≠ 0 := by
    intro c
    obtain ⟨a, b, hn⟩ := hn
    rw [c, abs_zero] at hn
    linarith [two_zpow_pos a, two_zpow_pos b]
  have dm : mode ≠ .towardPositive ∧ mode ≠ .towardNegative := by rcases hm with rfl | rfl <;> decide
  obtain ⟨q, q1, q2, q3⟩ := divR_finite h hx hy fx fy y0 mode (directedOK_of_mode _ dm.1 dm.2 _)
  obtain ⟨qf, qi, -⟩ := rounds_fine h q3 hl
  obtain ⟨r, r1, r2, r3⟩ := mulR_finite h q2 hy qf fy .nearestTiesToEven (directedOK_of_mode _ (by decide) (by decide) _)
  have key := div_mul_signs hp hm hn (grid_toRat h hx fx) hb hr qi
  obtain ⟨⟨g, g1, g2⟩, sr⟩ := r3
  obtain rfl := g1.unique key
  have rv : r.value.isFinite = true ∧ r.value.toRat = x.toRat := by
    rcases g2 with ⟨-, g2, -⟩ | ⟨k, -⟩
    · exact datum_num g2
    · linarith [abs_toRat_le h hx fx]
  refine ⟨q, r, q1, r1, r2, rv.1, rv.2, ?_⟩
  have sx := signRule_self hx fx (zs := x.sign) (fun _ => rfl)
  have sv := signRule_self r2 rv.1 (zs := r.value.sign) (fun _ => rfl)
  rw [rv.2] at sv
  rcases lt_trichotomy x.toRat 0 with c | c | c
  · rw [sx.2.1 c, sv.2.1 c]
  · have e0 : x.toRat / y.toRat = 0 := by rw [c, zero_div]
    have qz : q.value.toRat = 0 := by
      rw [e0] at qi
      exact qi.unique (isRounded_self _ grid_zero)
    have s1 := q3.2.2.2 e0
    have s2 := sr.2.2 (by rw [qz, zero_mul])
    rw [s2, s1]
    cases x.sign <;> cases y.sign <;> rfl
  · rw [sx.1 c, sv.1 c]

/-- **C117.** The bit to spare is needed: in `Half` (11 bits) `1537 / 3 * 3` is not 1537. -/
theorem C117_spare_bit :
    ∃ x y q r : IeeeFloat halfS, fromI128R halfS 1537 .towardZero = .ok ⟨Status.OK, x⟩ ∧ fromI128R halfS 3 .towardZero = .ok ⟨Status.OK, y⟩ ∧
      divR x y .nearestTiesToEven = .ok ⟨Status.INEXACT, q⟩ ∧ mulR q y .nearestTiesToEven = .ok ⟨Status.INEXACT, r⟩ ∧ partialCmp r x = .ok (some .gt) :=
  ⟨_, _, _, _, rfl, rfl, rfl, rfl, by decide +kernel⟩

/-- **C117.** The modes matter: in `Single`, `13 / 3 * 3` with ties away from zero, and `1 / 3 * 3` toward zero, are not 13 and 1. -/
theorem C117_modes_matter :
    (∃ x y q r : IeeeFloat singleS, fromI128R singleS 13 .towardZero = .ok ⟨Status.OK, x⟩ ∧ fromI128R singleS 3 .towardZero = .ok ⟨Status.OK, y⟩ ∧
      divR x y .nearestTiesToAway = .ok ⟨Status.INEXACT, q⟩ ∧ mulR q y .nearestTiesToAway = .ok ⟨Status.INEXACT, r⟩ ∧ partialCmp r x = .ok (some .gt)) ∧
    (∃ x y q r : IeeeFloat singleS, fromI128R singleS 1 .towardZero = .ok ⟨Status.OK, x⟩ ∧ fromI128R singleS 3 .towardZero = .ok ⟨Status.OK, y⟩ ∧
      divR x y .towardZero = .ok ⟨Status.INEXACT, q⟩ ∧ mulR q y .towardZero = .ok ⟨Status.OK, r⟩ ∧ partialCmp r x = .ok (some .lt)) :=
  ⟨⟨_, _, _, _, rfl, rfl, rfl, rfl, by decide +kernel⟩, ⟨_, _, _, _, rfl, rfl, rfl, rfl, by decide +kernel⟩⟩

/-- `-7` and `10` in `Single`. -/
def exM7 : IeeeFloat singleS := ⟨7 * 2 ^ 21, 2, .normal, true⟩
def ex10 : IeeeFloat singleS := ⟨5 * 2 ^ 21, 3, .normal, false⟩
theorem exM7_toRat : exM7.toRat = -7 := by rw [toRat_normal rfl]; norm_num [exM7, signed, singleS, Sem.default]
theorem ex10_toRat : ex10.toRat = 10 := by rw [toRat_normal rfl]; norm_num [ex10, signed, singleS, Sem.default]

example := C117_divide_multiply singleS_ok (x := exM7) (y := ex10) (by decide) (by decide) rfl rfl
  ⟨-7, 0, by decide, by rw [exM7_toRat]; norm_num⟩ ⟨3, 1, by rw [ex10_toRat]; norm_num⟩
  (.inr (by
    rw [exM7_toRat, ex10_toRat]
    show (2 : ℚ) ^ (-126 : ℤ) * _ ≤ _
    norm_num))
  (by
    rw [exM7_toRat, ex10_toRat]
    have : (10 : ℚ) ≤ singleS.fmt.largest := by decide +kernel
    exact le_trans (by norm_num) this) (.inr rfl)

end Apf
