import Verif.Props.ErrorFree
import Verif.Props.DivMul
import Verif.Proof.Split
/-! # C122: the difference of two products with mul_add -/

namespace Apf
open Spec IeeeFloat
variable {S : Sem} {F : Fmt}

/-- The unit of a nonzero number, not limited by the range of the format. -/
theorem free_unit {a : ℚ} (ga : F.Grid a) (h0 : a ≠ 0) : ∃ j : ℤ, Mult j a ∧ (2 : ℚ) ^ (F.p - 1 + j) ≤ |a| ∧ |a| < 2 ^ (F.p + j) := by
  have hpos : 0 < |a| := abs_pos.2 h0
  have l1 : (2 : ℚ) ^ (Int.log 2 |a|) ≤ |a| := by exact_mod_cast Int.zpow_log_le_self (b := 2) (by norm_num) hpos
  have l2 : |a| < (2 : ℚ) ^ (Int.log 2 |a| + 1) := by exact_mod_cast Int.lt_zpow_succ_log_self (b := 2) (by norm_num) |a|
  obtain ⟨j, hj⟩ : ∃ j : ℤ, Int.log 2 |a| = F.p - 1 + j := ⟨Int.log 2 |a| - (F.p - 1), by ring⟩
  rw [hj] at l1 l2
  rw [show (F.p : ℤ) - 1 + j + 1 = F.p + j by ring] at l2
  exact ⟨j, mult_of_grid_ge ga l1, l1, l2⟩

/-- The three roundings of the difference of two products. -/
theorem det_core (hp : 4 ≤ F.p) {a b P w f x : ℚ} (ga : F.Grid a) (gb : F.Grid b) (mab : Mult (F.emin - F.p + 1) (a * b))
    (mP : Mult (F.emin - F.p + 1) P) (hw : RN F P w) (ge : F.Grid (P - w)) (hf' : RN F (a * b - w) f) (hx : RN F (f - (P - w)) x) :
    |x - (a * b - P)| ≤ 2 ^ (2 - (F.p : ℤ)) * |a * b - P| := by
  have hp1 : 1 ≤ F.p := by omega
  obtain ⟨u, hu⟩ : ∃ u : ℚ, u = 2 ^ (-(F.p : ℤ)) := ⟨_, rfl⟩
  have e4 : (2 : ℚ) ^ (2 - (F.p : ℤ)) = 4 * u := by rw [hu, show 2 - (F.p : ℤ) = 2 + -(F.p : ℤ) by ring, two_zpow_add]; norm_num
  have u0 : 0 < u := by rw [hu]; exact two_zpow_pos _
  have u16 : 16 * u ≤ 1 := by
    rw [hu, show (16 : ℚ) = 2 ^ (4 : ℤ) by norm_num, ← two_zpow_add, show (1 : ℚ) = 2 ^ (0 : ℤ) by norm_num]
    exact two_zpow_le (by omega)
  rw [e4]
  have mw : Mult (F.emin - F.p + 1) w := mult_of_grid hw.1
  have mT := mab.sub mw
  have r1 := hf'.rel hp1 mT
  have r2 := hx.rel hp1 ((mult_of_grid hf'.1).sub (mult_of_grid ge))
  rw [← hu] at r1 r2
  obtain ⟨T, hT⟩ : ∃ T, T = a * b - w := ⟨_, rfl⟩
  obtain ⟨e, he⟩ : ∃ e, e = P - w := ⟨_, rfl⟩
  obtain ⟨D, hD⟩ : ∃ D, D = a * b - P := ⟨_, rfl⟩
  have hDT : D = T - e := by rw [hD, hT, he]; ring
  rw [← hD]
  rw [← hT] at r1 hf' mT
  rw [← he] at r2 ge hx
  have D0 := abs_nonneg D
  -- the two cases that lose nothing in the middle
  have easy : f = T → |x - D| ≤ 4 * u * |D| := by
    intro c
    rw [c, ← hDT, abs_sub_comm] at r2
    have : 0 ≤ u * |D| := by positivity
    linarith
  -- the general case
  have main : 31 * |e| ≤ 16 * |T| → |x - D| ≤ 4 * u * |D| := by
    intro c
    have t1 : |T| ≤ |D| + |e| := by
      have := abs_add_le D e
      rwa [hDT, sub_add_cancel, ← hDT] at this
    have t2 : |T| ≤ 31 / 15 * |D| := by linarith
    have t3 : |f - e| ≤ |D| + |T - f| := by
      have := abs_add_le D (f - T)
      rw [abs_sub_comm f T] at this
      rwa [show D + (f - T) = f - e by rw [hDT]; ring] at this
    have t4 : |x - D| ≤ |f - e - x| + |T - f| := by
      have := abs_add_le (x - (f - e)) (f - T)
      rw [abs_sub_comm x, abs_sub_comm f T] at this
      rwa [show x - (f - e) + (f - T) = x - D by rw [hDT]; ring] at this
    have t5 : |T - f| ≤ u * (31 / 15 * |D|) := r1.trans (mul_le_mul_of_nonneg_left t2 u0.le)
    have t6 : u * |f - e| ≤ u * (|D| + |T - f|) := mul_le_mul_of_nonneg_left t3 u0.le
    have t7 : u * |T - f| ≤ u * (u * (31 / 15 * |D|)) := mul_le_mul_of_nonneg_left t5 u0.le
    have t8 : u * (u * (31 / 15 * |D|)) ≤ 1 / 16 * (u * (31 / 15 * |D|)) :=
      mul_le_mul_of_nonneg_right (by linarith) (by positivity)
    have t9 : 0 ≤ u * |D| := by positivity
    nlinarith
  by_cases h0 : a * b = 0
  · refine easy (hf'.unique (isRounded_self _ ?_))
    rw [hT, h0, zero_sub]; exact hw.1.neg
  by_cases e0 : e = 0
  · exact main (by rw [e0, abs_zero]; have := abs_nonneg T; linarith)
  have a0 : a ≠ 0 := left_ne_zero_of_mul h0
  have b0 : b ≠ 0 := right_ne_zero_of_mul h0
  obtain ⟨ja, ma, a1, a2⟩ := free_unit ga a0
  obtain ⟨jb, mb, b1, b2⟩ := free_unit gb b0
  obtain ⟨E, hE⟩ : ∃ E, E = ja + jb := ⟨_, rfl⟩
  have mE : Mult E (a * b) := by rw [hE]; exact ma.mul mb
  obtain ⟨Q, hQ⟩ : ∃ Q : ℚ, Q = 2 ^ (F.p : ℤ) := ⟨_, rfl⟩
  have Q16 : 16 ≤ Q := by
    rw [hQ, show (16 : ℚ) = 2 ^ (4 : ℤ) by norm_num]; exact two_zpow_le (by omega)
  have E0 := two_zpow_pos E
  -- the size of the first product
  have lo : Q * Q * 2 ^ E ≤ 4 * |a * b| := by
    have := mul_le_mul a1 b1 (two_zpow_pos _).le (abs_nonneg a)
    rw [← abs_mul, ← two_zpow_add] at this
    have e : Q * Q * (2 : ℚ) ^ E = 4 * 2 ^ ((F.p : ℤ) - 1 + ja + (F.p - 1 + jb)) := by
      rw [hQ, ← two_zpow_add, ← two_zpow_add, show (4 : ℚ) = 2 ^ (2 : ℤ) by norm_num, ← two_zpow_add]
      congr 1; rw [hE]; ring
    linarith
  have hi : |a * b| ≤ (Q - 1) * (Q - 1) * 2 ^ E := by
    have i1 := ma.lt_iff (by omega) a2
    have i2 := mb.lt_iff (by omega) b2
    have := mul_le_mul i1 i2 (abs_nonneg b) ((abs_nonneg a).trans i1)
    rw [← abs_mul] at this
    refine this.trans (le_of_eq ?_)
    rw [hE, two_zpow_add, two_zpow_add, two_zpow_add, hQ]; ring
  -- the unit of the rounded second product
  obtain ⟨k, k1, k2, k3, k4⟩ := exists_unit hp1 hw.1
  have hPk : |P| ≤ 2 ^ (F.p + k) := by
    by_contra c
    push Not at c
    have := RN.le_abs hw (grid_two_pow hp1 (k := F.p + k) (by omega)) c.le
    exact absurd k3 (not_lt.2 this)
  have hek : |e| ≤ 2 ^ (k - 1) := by rw [he]; exact hw.half_unit hp1 k1 hPk
  have k4 : (2 : ℚ) ^ (F.p - 1 + k) ≤ |w| := by
    rcases k4 with c | c
    · exfalso
      apply e0
      have : w = P := hw.unique (isRounded_self _ (grid_of_mult hp1 mP (le_refl _) (by rw [← c]; exact hPk)))
      rw [he, this, sub_self]
    · exact c
  have wT : |w| ≤ |a * b| + |T| := by
    have := abs_sub (a * b) T
    rwa [hT, sub_sub_cancel, ← hT] at this
  have Tw : |a * b| ≤ |w| + |T| := by
    have := abs_add_le w T
    rwa [hT, add_sub_cancel, ← hT] at this
  have kk : (2 : ℚ) ^ k = 2 * 2 ^ (k - 1) := by
    rw [show (2 : ℚ) * 2 ^ (k - 1) = 2 ^ (1 : ℤ) * 2 ^ (k - 1) by norm_num, ← two_zpow_add]; congr 1; ring
  rcases lt_or_ge k E with hkE | hkE
  · -- the second product is tiny
    apply main
    have i1 : (2 : ℚ) ^ k * 2 ≤ 2 ^ E := by
      rw [show (2 : ℚ) ^ k * 2 = 2 ^ k * 2 ^ (1 : ℤ) by norm_num, ← two_zpow_add]; exact two_zpow_le (by omega)
    have i2 : |w| < Q * 2 ^ k := by rw [hQ, ← two_zpow_add]; exact k3
    have i3 : Q * 2 ^ k * 2 ≤ Q * 2 ^ E := by nlinarith
    nlinarith
  · have mE' : Mult (max E (F.emin - F.p + 1)) T := by
      rw [hT]
      rcases le_total E (F.emin - F.p + 1) with c | c
      · rw [max_eq_right c, ← hT]; exact mT
      · rw [max_eq_left c]; exact mE.sub (k2.mono hkE)
    rcases le_or_gt |T| (2 ^ (F.p + max E (F.emin - F.p + 1))) with c | c
    · exact easy (hf'.unique (isRounded_self _ (grid_of_mult hp1 mE' (le_max_right _ _) c)))
    have hTE : Q * 2 ^ E < |T| := by
      refine lt_of_le_of_lt ?_ c
      rw [hQ, ← two_zpow_add]
      exact two_zpow_le (by have := le_max_left E (F.emin - F.p + 1); omega)
    apply main
    rcases le_or_gt k (F.p + E) with hk | hk
    · have : (2 : ℚ) ^ k ≤ Q * 2 ^ E := by rw [hQ, ← two_zpow_add]; exact two_zpow_le hk
      linarith
    · rw [show (F.p : ℤ) - 1 + k = F.p + (k - 1) by ring, two_zpow_add, ← hQ] at k4
      rcases eq_or_lt_of_le (show (F.p : ℤ) + E ≤ k - 1 by omega) with c' | c'
      · have : (2 : ℚ) ^ (k - 1) = Q * 2 ^ E := by rw [hQ, ← two_zpow_add, ← c']
        rw [this] at hek k4
        nlinarith
      · have i1 : Q * 2 ^ E * 2 ≤ 2 ^ (k - 1) := by
          rw [hQ, ← two_zpow_add, show (2 : ℚ) ^ (F.p + E) * 2 = 2 ^ (F.p + E) * 2 ^ (1 : ℤ) by norm_num, ← two_zpow_add]
          exact two_zpow_le (by omega)
        have i2 : Q * (Q * 2 ^ E * 2) ≤ Q * 2 ^ (k - 1) := mul_le_mul_of_nonneg_left i1 (by linarith)
        have i3 : 16 * (2 : ℚ) ^ (k - 1) ≤ Q * 2 ^ (k - 1) := mul_le_mul_of_nonneg_right Q16 (two_zpow_pos _).le
        nlinarith

/-- Exact multiples of the smallest positive number are not among the products `mul_add` goes wrong on. -/
theorem fma_not_excluded_mult {P z : ℚ} (hm : Mult (S.minExp - S.precision + 1) P) : ¬ FmaExcluded S P z := by
  rintro ⟨-, -, -, h4⟩
  exact h4 (hm.mono (by have : (0 : ℤ) ≤ S.precision := by positivity
                        omega))

/-- **C122.** `a*b - c*d` by a product, two fused multiply-adds and a subtraction: relative error at most `2^(2-p)`, whatever cancels, and the exact sign;
the products are multiples of the smallest positive number and not too large. -/
theorem C122_difference (h : S.OK) (hS : S.nonfinite = .ieee754) (hp : 4 ≤ S.precision) {a b c d : IeeeFloat S} (ha : a.Valid) (hb : b.Valid) (hc : c.Valid)
    (hd : d.Valid) (fa : a.isFinite = true) (fb : b.isFinite = true) (fc : c.isFinite = true) (fd : d.isFinite = true)
    (hab : ∃ n : ℤ, a.toRat * b.toRat = n * 2 ^ (S.minExp - S.precision + 1)) (hcd : ∃ n : ℤ, c.toRat * d.toRat = n * 2 ^ (S.minExp - S.precision + 1))
    (bab : |a.toRat * b.toRat| ≤ 2 ^ (S.maxExp - 2)) (bcd : |c.toRat * d.toRat| ≤ 2 ^ (S.maxExp - 2)) (m1 : Round) :
    ∃ w e f x, mulR c d .nearestTiesToEven = .ok w ∧ mulAddR c d w.value.neg m1 = .ok e ∧ mulAddR a b w.value.neg .nearestTiesToEven = .ok f ∧
      subR f.value e.value .nearestTiesToEven = .ok x ∧ x.value.isFinite = true ∧
      |x.value.toRat - (a.toRat * b.toRat - c.toRat * d.toRat)| ≤ 2 ^ (2 - (S.precision : ℤ)) * |a.toRat * b.toRat - c.toRat * d.toRat| ∧
      (x.value.toRat = 0 ↔ a.toRat * b.toRat = c.toRat * d.toRat) ∧ (0 < x.value.toRat ↔ c.toRat * d.toRat < a.toRat * b.toRat) ∧
      (x.value.toRat < 0 ↔ a.toRat * b.toRat < c.toRat * d.toRat) := by
  have hfp : S.fmt.p = S.precision := rfl
  obtain ⟨m, m0, hm, gm1, gm2, gm4, lim⟩ := quarter_bounds h hS
  rw [hm] at bab bcd
  have l4 : 4 * m ≤ S.fmt.largest := by
    have := lim _ gm4 (by rw [abs_of_pos (by linarith)]; linarith)
    rwa [abs_of_pos (by linarith)] at this
  have mab : Mult (S.fmt.emin - S.fmt.p + 1) (a.toRat * b.toRat) := hab
  have mcd : Mult (S.fmt.emin - S.fmt.p + 1) (c.toRat * d.toRat) := hcd
  obtain ⟨w, w1, w2, w3, w4⟩ := mul_step h hc fc hd fd gm1 (by linarith) bcd
  have wm := w4.abs_le gm1 bcd
  have ge := product_residual (by omega) (grid_toRat h hc fc) (grid_toRat h hd fd) w4 mcd
  have em : |c.toRat * d.toRat - w.value.toRat| ≤ m := by
    have := w4.2.1 0 grid_zero
    rw [sub_zero] at this
    exact this.trans bcd
  have nv := neg_valid w2
  have nf : w.value.neg.isFinite = true := by rw [neg_finite]; exact w3
  obtain ⟨e, e1, e2, e3⟩ := mulAddR_eff h hc hd nv fc fd nf m1 (.of (directedOK_of_ieee hS _ _)) (fma_not_excluded_mult hcd)
  rw [neg_toRat, ← sub_eq_add_neg] at e3
  obtain ⟨-, e4, e5⟩ := e3.exact ge (em.trans (by linarith))
  obtain ⟨f, f1, f2, f3⟩ := mulAddR_eff h ha hb nv fa fb nf .nearestTiesToEven (.of (directedOK_of_ieee hS _ _)) (fma_not_excluded_mult hab)
  rw [neg_toRat, ← sub_eq_add_neg] at f3
  have fm : |a.toRat * b.toRat - w.value.toRat| ≤ 2 * m := (abs_sub _ _).trans (by linarith)
  obtain ⟨f4, f5⟩ := f3.in_range gm2 (by linarith) fm
  have f6 := RN.abs_le f5 gm2 fm
  obtain ⟨x, x1, x2, x3, x4⟩ := sub_step h f2 f4 e2 e4 gm4 l4 ((abs_sub _ _).trans (by rw [e5]; linarith))
  rw [e5] at x4
  have key := det_core (F := S.fmt) (by omega) (grid_toRat h ha fa) (grid_toRat h hb fb) mab mcd w4 ge f5 x4
  rw [hfp] at key
  have u4 : (2 : ℚ) ^ (2 - (S.precision : ℤ)) ≤ 1 / 4 := by
    rw [show (1 / 4 : ℚ) = 2 ^ (-2 : ℤ) by norm_num]; exact two_zpow_le (by omega)
  refine ⟨w, e, f, x, w1, e1, f1, x1, x3, key, ?_⟩
  generalize a.toRat * b.toRat = A at key
  generalize c.toRat * d.toRat = B at key
  have k2 : |x.value.toRat - (A - B)| ≤ 1 / 4 * |A - B| := key.trans (mul_le_mul_of_nonneg_right u4 (abs_nonneg _))
  obtain ⟨k3, k4⟩ := abs_le.1 k2
  rcases lt_trichotomy A B with c | c | c
  · rw [abs_of_neg (by linarith)] at k3 k4
    refine ⟨⟨fun q => ?_, fun q => ?_⟩, ⟨fun q => ?_, fun q => ?_⟩, ⟨fun q => ?_, fun q => ?_⟩⟩ <;> linarith
  · rw [c, sub_self, abs_zero] at k3 k4
    refine ⟨⟨fun q => ?_, fun q => ?_⟩, ⟨fun q => ?_, fun q => ?_⟩, ⟨fun q => ?_, fun q => ?_⟩⟩ <;> linarith
  · rw [abs_of_pos (by linarith)] at k3 k4
    refine ⟨⟨fun q => ?_, fun q => ?_⟩, ⟨fun q => ?_, fun q => ?_⟩, ⟨fun q => ?_, fun q => ?_⟩⟩ <;> linarith

/-- Products that are large enough are such multiples. -/
theorem product_mult {x y : ℚ} (gx : F.Grid x) (gy : F.Grid y) (hlo : x * y = 0 ∨ 2 ^ (F.emin + F.p) ≤ |x * y|) : Mult (F.emin - F.p + 1) (x * y) := by
  rcases hlo with c | c
  · exact ⟨0, by rw [c]; simp⟩
  by_cases h0 : x * y = 0
  · exact ⟨0, by rw [h0]; simp⟩
  obtain ⟨j, mj, -, j2⟩ := free_unit gx (left_ne_zero_of_mul h0)
  obtain ⟨k, mk, -, k2⟩ := free_unit gy (right_ne_zero_of_mul h0)
  refine (mj.mul mk).mono ?_
  have : |x * y| < 2 ^ (F.p + j) * 2 ^ (F.p + k) := by
    rw [abs_mul]; exact mul_lt_mul'' j2 k2 (abs_nonneg _) (abs_nonneg _)
  rw [← two_zpow_add] at this
  have := zpow_two_lt_iff (c.trans_lt this)
  omega

/-- **C122.** In terms of the size of the products: each is zero or at least `2^(minExp + p)`, the smallest normal number times `2^p`. -/
theorem C122_in_range (h : S.OK) (hS : S.nonfinite = .ieee754) (hp : 4 ≤ S.precision) {a b c d : IeeeFloat S} (ha : a.Valid) (hb : b.Valid) (hc : c.Valid)
    (hd : d.Valid) (fa : a.isFinite = true) (fb : b.isFinite = true) (fc : c.isFinite = true) (fd : d.isFinite = true)
    (lab : a.toRat * b.toRat = 0 ∨ 2 ^ (S.minExp + S.precision) ≤ |a.toRat * b.toRat|) (lcd : c.toRat * d.toRat = 0 ∨ 2 ^ (S.minExp + S.precision) ≤ |c.toRat * d.toRat|)
    (bab : |a.toRat * b.toRat| ≤ 2 ^ (S.maxExp - 2)) (bcd : |c.toRat * d.toRat| ≤ 2 ^ (S.maxExp - 2)) (m1 : Round) :
    ∃ w e f x, mulR c d .nearestTiesToEven = .ok w ∧ mulAddR c d w.value.neg m1 = .ok e ∧ mulAddR a b w.value.neg .nearestTiesToEven = .ok f ∧
      subR f.value e.value .nearestTiesToEven = .ok x ∧ x.value.isFinite = true ∧
      |x.value.toRat - (a.toRat * b.toRat - c.toRat * d.toRat)| ≤ 2 ^ (2 - (S.precision : ℤ)) * |a.toRat * b.toRat - c.toRat * d.toRat| ∧
      (x.value.toRat = 0 ↔ a.toRat * b.toRat = c.toRat * d.toRat) ∧ (0 < x.value.toRat ↔ c.toRat * d.toRat < a.toRat * b.toRat) ∧
      (x.value.toRat < 0 ↔ a.toRat * b.toRat < c.toRat * d.toRat) :=
  C122_difference h hS hp ha hb hc hd fa fb fc fd (product_mult (grid_toRat h ha fa) (grid_toRat h hb fb) lab)
    (product_mult (grid_toRat h hc fc) (grid_toRat h hd fd) lcd) bab bcd m1

/-- **C122.** Integers: the orientation of three points with integer coordinates, say, is decided correctly. -/
theorem C122_integers (h : S.OK) (hS : S.nonfinite = .ieee754) (hp : 4 ≤ S.precision) {a b c d : IeeeFloat S} (ha : a.Valid) (hb : b.Valid)
    (hc : c.Valid) (hd : d.Valid) (fa : a.isFinite = true) (fb : b.isFinite = true) (fc : c.isFinite = true) (fd : d.isFinite = true) {i j k l : ℤ}
    (ea : a.toRat = i) (eb : b.toRat = j) (ec : c.toRat = k) (ed : d.toRat = l)
    (bab : |i * j| ≤ (2 : ℚ) ^ (S.maxExp - 2)) (bcd : |k * l| ≤ (2 : ℚ) ^ (S.maxExp - 2)) (m1 : Round) :
    ∃ w e f x, mulR c d .nearestTiesToEven = .ok w ∧ mulAddR c d w.value.neg m1 = .ok e ∧ mulAddR a b w.value.neg .nearestTiesToEven = .ok f ∧
      subR f.value e.value .nearestTiesToEven = .ok x ∧ x.value.isFinite = true ∧ (x.value.toRat = 0 ↔ i * j = k * l) ∧
      (0 < x.value.toRat ↔ k * l < i * j) ∧ (x.value.toRat < 0 ↔ i * j < k * l) := by
  have hm : ∀ n : ℤ, Mult (S.minExp - S.precision + 1) (n : ℚ) := fun n => Mult.mono (k := 0) ⟨n, by simp⟩ (by have := h.min_lt; omega)
  obtain ⟨w, e, f, x, w1, e1, f1, x1, x3, -, s1, s2, s3⟩ := C122_difference h hS hp ha hb hc hd fa fb fc fd
    (by rw [ea, eb, ← Int.cast_mul]; exact hm _) (by rw [ec, ed, ← Int.cast_mul]; exact hm _) (by rw [ea, eb]; exact_mod_cast bab)
    (by rw [ec, ed]; exact_mod_cast bcd) m1
  rw [ea, eb, ec, ed] at s1 s2 s3
  exact ⟨w, e, f, x, w1, e1, f1, x1, x3, by rw [s1]; norm_cast, by rw [s2]; norm_cast, by rw [s3]; norm_cast⟩

/-- `4097`, `4096` and `4098` in `Single`. -/
def ex4097 : IeeeFloat singleS := ⟨4097 * 2 ^ 11, 12, .normal, false⟩
def ex4096 : IeeeFloat singleS := ⟨4096 * 2 ^ 11, 12, .normal, false⟩
def ex4098 : IeeeFloat singleS := ⟨4098 * 2 ^ 11, 12, .normal, false⟩

/-- The conditions are met. -/
example := C122_integers singleS_ok rfl (by decide) (a := ex4097) (b := ex4097) (c := ex4096) (d := ex4098) (by decide) (by decide) (by decide) (by decide)
  rfl rfl rfl rfl (i := 4097) (j := 4097) (k := 4096) (l := 4098) (by decide +kernel) (by decide +kernel) (by decide +kernel) (by decide +kernel) (by decide +kernel)
  (by decide +kernel) .towardZero

/-- **C122.** The plain expression does not do this: in `Single`, `4097 * 4097 - 4096 * 4098`, which is 1, comes out as 0 from two products and a subtraction,
and as 1 from the sequence above. -/
theorem C122_plain_is_wrong :
    (∃ p q r, mulR ex4097 ex4097 .nearestTiesToEven = .ok p ∧ mulR ex4096 ex4098 .nearestTiesToEven = .ok q ∧ subR p.value q.value .nearestTiesToEven = .ok r ∧
      r.value.toRat = 0) ∧
    (∃ w e f x, mulR ex4096 ex4098 .nearestTiesToEven = .ok w ∧ mulAddR ex4096 ex4098 w.value.neg .nearestTiesToEven = .ok e ∧
      mulAddR ex4097 ex4097 w.value.neg .nearestTiesToEven = .ok f ∧ subR f.value e.value .nearestTiesToEven = .ok x ∧ x.value.toRat = 1) :=
  ⟨⟨_, _, _, rfl, rfl, rfl, by decide +kernel⟩, ⟨_, _, _, _, rfl, rfl, rfl, rfl, by decide +kernel⟩⟩

/-- `2^-13` in `Half`. -/
def exTiny : IeeeFloat halfS := ⟨2 ^ 10, -13, .normal, false⟩

/-- **C122.** The lower limit is needed: in `Half`, with `a = b = 2^-13` and `c = d = 0`, the difference `2^-26` comes out as 0. -/
theorem C122_underflow : exTiny.Valid ∧ exTiny.toRat = 2 ^ (-13 : ℤ) ∧
    ∃ w e f x, mulR (ZERO halfS) (ZERO halfS) .nearestTiesToEven = .ok w ∧ mulAddR (ZERO halfS) (ZERO halfS) w.value.neg .nearestTiesToEven = .ok e ∧
      mulAddR exTiny exTiny w.value.neg .nearestTiesToEven = .ok f ∧ subR f.value e.value .nearestTiesToEven = .ok x ∧ x.value.toRat = 0 :=
  ⟨by decide, by decide +kernel, _, _, _, _, rfl, rfl, rfl, rfl, by decide +kernel⟩

end Apf
