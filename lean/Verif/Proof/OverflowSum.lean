import Verif.Proof.TwoSum
/-! # The sum of two pairs when the sum of the leading parts overflows (ppc.rs:207-242) -/

namespace Apf
open Spec
variable {F : Fmt}

theorem half_pow (k : ℤ) : (2 : ℚ) ^ (k - 1) = 2 ^ k / 2 := by
  rw [sub_eq_add_neg, two_zpow_add k (-1)]; norm_num; ring

/-- `t` the rounded sum of the low parts, `u` that plus the smaller high part `p`, `z` that plus the larger one `q`. -/
theorem overflow_sum (hp : 4 ≤ F.p) {e : ℤ} (he : F.emin + F.p < e) {p q a c t u : ℚ} (gp : F.Grid p) (gq : F.Grid q)
    (hpq : p ≤ q) (hq : q < 2 ^ (e + 1)) (hB : 2 ^ (e + 1) - 2 ^ (e - F.p) ≤ p + q)
    (ha : |a| ≤ 2 ^ (e - F.p)) (hc : |c| ≤ 2 ^ (e - F.p)) (ht : RN F (a + c) t) (hu : RN F (t + p) u) :
    |t| ≤ 2 ^ (e - F.p + 1) ∧ 7 / 8 * 2 ^ (e + 1) ≤ p + q + a + c ∧ (2 : ℚ) ^ (e - F.p) ≤ p ∧ 2 ^ e ≤ q ∧ (2 : ℚ) ^ (e - F.p + 1) ≤ 2 ^ e / 8 ∧
    -2 ^ (e - F.p) ≤ u ∧ (2 ^ (e + 1) ≤ u → 2 ^ (e + 1) - 2 ^ (e - F.p + 1) ≤ p + q + a + c) ∧
    ∀ z, RN F (u + q) z →
      0 ≤ z ∧
      (2 ^ (e + 1) ≤ z → 2 ^ (e + 1) - 2 ^ (e - F.p + 1) ≤ p + q + a + c) ∧
      (z < 2 ^ (e + 1) → F.Grid (q - z) ∧ |q - z + p| ≤ 2 ^ (e - F.p + 2) ∧
        ∀ l2, RN F (q - z + p) l2 → |l2 + t| ≤ 2 ^ (e - F.p + 2) ∧
          ∀ l, RN F (l2 + t) l → |z + l - (p + q + a + c)| ≤ 5 / 2 * 2 ^ (e - 2 * F.p + 1)) := by
  obtain ⟨H, hH⟩ : ∃ H : ℚ, H = 2 ^ (e - F.p) := ⟨_, rfl⟩
  obtain ⟨E, hE⟩ : ∃ E : ℚ, E = 2 ^ e := ⟨_, rfl⟩
  obtain ⟨W, hW⟩ : ∃ W : ℚ, W = 2 ^ (e - 2 * F.p) := ⟨_, rfl⟩
  have H0 : 0 < H := hH ▸ two_zpow_pos _
  have E0 : 0 < E := hE ▸ two_zpow_pos _
  have W0 : 0 < W := hW ▸ two_zpow_pos _
  have e1 : (2 : ℚ) ^ (e + 1) = 2 * E := by rw [two_zpow_add e 1, zpow_one, hE]; ring
  have e2 : (2 : ℚ) ^ (e - F.p + 1) = 2 * H := by rw [two_zpow_add (e - F.p) 1, zpow_one, hH]; ring
  have e3 : (2 : ℚ) ^ (e - F.p + 2) = 4 * H := by rw [two_zpow_add (e - F.p) 2, hH]; norm_num; ring
  have e4 : (2 : ℚ) ^ (e - 2 * F.p + 1) = 2 * W := by rw [two_zpow_add (e - 2 * F.p) 1, zpow_one, hW]; ring
  have hHE : H ≤ E / 16 := by
    have : (2 : ℚ) ^ (e - F.p) ≤ 2 ^ (e + (-4)) := two_zpow_le (by omega)
    rw [two_zpow_add e (-4)] at this
    rw [hH, hE]; norm_num at this ⊢; linarith
  have hWH : W ≤ H / 16 := by
    have : (2 : ℚ) ^ (e - 2 * F.p) ≤ 2 ^ (e - F.p + (-4)) := two_zpow_le (by omega)
    rw [two_zpow_add (e - F.p) (-4)] at this
    rw [hW, hH]; norm_num at this ⊢; linarith
  have gE : F.Grid E := by rw [hE]; exact grid_two_pow (by omega) (by omega)
  have g2E : F.Grid (2 * E) := by rw [← e1]; exact grid_two_pow (by omega) (by omega)
  have gH : F.Grid H := by rw [hH]; exact grid_two_pow (by omega) (by omega)
  have g2H : F.Grid (2 * H) := by rw [← e2]; exact grid_two_pow (by omega) (by omega)
  rw [← hH, e1] at hB
  rw [e1] at hq
  rw [← hH] at ha hc ⊢
  rw [← hE, e1, e2, e3, e4]
  have bt : |t| ≤ 2 * H := ht.abs_le g2H ((abs_add_le _ _).trans (by linarith))
  -- the rounding of the low parts
  have bη : |a + c - t| ≤ W := by
    have := ht.half_unit (by omega) (k := e - 2 * F.p + 1) (by omega) (by
      rw [show (F.p : ℤ) + (e - 2 * F.p + 1) = e - F.p + 1 by ring, e2]; exact (abs_add_le _ _).trans (by linarith))
    rwa [show e - 2 * (F.p : ℤ) + 1 - 1 = e - 2 * F.p by ring, ← hW] at this
  have q0 : 0 < q := by linarith
  have hqE : E ≤ q := by
    by_contra hcon
    push Not at hcon
    have m1 : Mult (e - F.p) q := mult_of_grid_ge gq (by
      rw [abs_of_pos q0, show (F.p : ℤ) - 1 + (e - F.p) = e - 1 by ring, half_pow, ← hE]; linarith)
    have := m1.lt_iff (j := e) (by omega) (by rw [abs_of_pos q0, ← hE]; exact hcon)
    rw [abs_of_pos q0, ← hE, ← hH] at this
    linarith
  have hqL : q ≤ 2 * E - 2 * H := by
    have m1 : Mult (e - F.p + 1) q := mult_of_grid_ge gq (by
      rw [abs_of_pos q0, show (F.p : ℤ) - 1 + (e - F.p + 1) = e by ring, ← hE]; exact hqE)
    have := m1.lt_iff (j := e + 1) (by omega) (by rw [abs_of_pos q0, e1]; exact hq)
    rwa [abs_of_pos q0, e1, e2] at this
  have hpH : H ≤ p := by linarith
  have bt' := abs_le.1 bt
  have ha' := abs_le.1 ha
  have hc' := abs_le.1 hc
  have bη' := abs_le.1 bη
  have hfar : E ≤ t + p → 2 * E - 2 * H ≤ p + q + a + c := by intro h; linarith
  have hu0 : -H ≤ u := hu.ge_of_grid gH.neg (by linarith)
  refine ⟨bt, by linarith, hpH, hqE, by linarith, hu0, fun h => hfar ?_, fun z hz => ?_⟩
  · by_contra hcon
    push Not at hcon
    have := hu.le_of_grid gE hcon.le
    linarith
  have hz0 : 0 ≤ z := hz.ge_of_grid grid_zero (by linarith)
  refine ⟨hz0, ?_, ?_⟩
  · intro hzE
    rcases le_total E (t + p) with c1 | c1
    · exact hfar c1
    have hε : |t + p - u| ≤ H / 2 := by
      have := hu.half_unit (by omega) (k := e - F.p) (by omega) (by
        rw [show (F.p : ℤ) + (e - F.p) = e by ring, ← hE, abs_le]; constructor <;> linarith)
      rwa [half_pow, ← hH] at this
    have hε' := abs_le.1 hε
    have gL : F.Grid (2 * E - 2 * H) := by
      refine grid_of_mult (by omega) (k := e - F.p + 1) ?_ (by omega) ?_
      · refine Mult.sub ⟨2 ^ F.p, ?_⟩ ⟨1, by rw [e2]; push_cast; ring⟩
        push_cast
        rw [← zpow_natCast, ← two_zpow_add, show (F.p : ℤ) + (e - F.p + 1) = e + 1 by ring, e1]
      · rw [show (F.p : ℤ) + (e - F.p + 1) = e + 1 by ring, e1, abs_le]; constructor <;> linarith
    have huq : 2 * E - H ≤ u + q := by
      by_contra hcon
      push Not at hcon
      rcases le_total (u + q) (2 * E - 2 * H) with c2 | c2
      · have := hz.le_of_grid gL c2
        linarith
      · have := hz.2.1 _ gL
        rw [abs_of_nonpos (by linarith), abs_of_nonneg (by linarith)] at this
        linarith
    linarith
  · intro hzE
    have huq : u + q < 2 * E := by
      by_contra hcon
      push Not at hcon
      have := hz.ge_of_grid g2E hcon
      linarith
    have gu := hu.1
    have hg : F.Grid (q - z) := fast_sum (by omega) gq gu (Or.inr (by rw [abs_of_pos q0, abs_le]; constructor <;> linarith)) (by rw [add_comm]; exact hz)
    have tp : t + p ≤ E := by
      by_contra hcon
      push Not at hcon
      have := hu.ge_of_grid gE hcon.le
      linarith
    have hε : |t + p - u| ≤ H / 2 := by
      have := hu.half_unit (by omega) (k := e - F.p) (by omega) (by
        rw [show (F.p : ℤ) + (e - F.p) = e by ring, ← hE, abs_le]; constructor <;> linarith)
      rwa [half_pow, ← hH] at this
    have hδ : |u + q - z| ≤ H := by
      have := hz.half_unit (by omega) (k := e - F.p + 1) (by omega) (by
        rw [show (F.p : ℤ) + (e - F.p + 1) = e + 1 by ring, e1, abs_le]; constructor <;> linarith)
      rwa [show e - (F.p : ℤ) + 1 - 1 = e - F.p by ring, ← hH] at this
    have hε' := abs_le.1 hε
    have hδ' := abs_le.1 hδ
    have b1 : |q - z + p| ≤ 4 * H := by rw [abs_le]; constructor <;> linarith
    refine ⟨hg, b1, fun l2 h2 => ?_⟩
    have e5 : (F.p : ℤ) + (e - 2 * F.p + 2) = e - F.p + 2 := by ring
    have e6 : (2 : ℚ) ^ (e - 2 * (F.p : ℤ) + 2 - 1) = 2 * W := by rw [← e4]; congr 1; ring
    have r2 := abs_le.1 (h2.half_unit (by omega) (k := e - 2 * F.p + 2) (by omega) (by rw [e5, e3]; exact b1))
    rw [e6] at r2
    have b2 : |l2 + t| ≤ 2 * H := by rw [abs_le]; constructor <;> linarith
    refine ⟨b2.trans (by linarith), fun l hl => ?_⟩
    have r3 := abs_le.1 (hl.half_unit (by omega) (k := e - 2 * F.p + 1) (by omega) (by
      rw [show (F.p : ℤ) + (e - 2 * F.p + 1) = e - F.p + 1 by ring, e2]; exact b2))
    rw [show e - 2 * (F.p : ℤ) + 1 - 1 = e - 2 * F.p by ring, ← hW] at r3
    rw [abs_le]
    constructor <;> linarith

/-- The same for either sign. -/
theorem overflow_sum_abs (hp : 4 ≤ F.p) {e : ℤ} (he : F.emin + F.p < e) {p q a c t u : ℚ} (gp : F.Grid p) (gq : F.Grid q)
    (hpq : |p| ≤ |q|) (hq : |q| < 2 ^ (e + 1)) (hB : 2 ^ (e + 1) - 2 ^ (e - F.p) ≤ |p + q|)
    (ha : |a| ≤ 2 ^ (e - F.p)) (hc : |c| ≤ 2 ^ (e - F.p)) (ht : RN F (a + c) t) (hu : RN F (t + p) u) :
    7 / 8 * 2 ^ (e + 1) ≤ |p + q + a + c| ∧
    (2 ^ (e + 1) ≤ |u| → 2 ^ (e + 1) - 2 ^ (e - F.p + 1) ≤ |p + q + a + c| ∧ (t + p < 0 ↔ p + q + a + c < 0)) ∧
    ∀ z, RN F (u + q) z →
      (2 ^ (e + 1) ≤ |z| → 2 ^ (e + 1) - 2 ^ (e - F.p + 1) ≤ |p + q + a + c| ∧ (u + q < 0 ↔ p + q + a + c < 0)) ∧
      (|z| < 2 ^ (e + 1) → F.Grid (q - z) ∧ |q - z| < 2 ^ (e + 1) ∧ |q - z + p| ≤ 2 ^ (e - F.p + 2) ∧
        ∀ l2, RN F (q - z + p) l2 → |l2 + t| ≤ 2 ^ (e - F.p + 2) ∧
          ∀ l, RN F (l2 + t) l → |z + l - (p + q + a + c)| ≤ 5 / 2 * 2 ^ (e - 2 * F.p + 1)) := by
  have key : ∀ {p q a c t u : ℚ}, F.Grid p → F.Grid q → p ≤ q → q < 2 ^ (e + 1) → 2 ^ (e + 1) - 2 ^ (e - F.p) ≤ p + q → |a| ≤ 2 ^ (e - F.p) →
      |c| ≤ 2 ^ (e - F.p) → RN F (a + c) t → RN F (t + p) u →
      7 / 8 * 2 ^ (e + 1) ≤ |p + q + a + c| ∧
      (2 ^ (e + 1) ≤ |u| → 2 ^ (e + 1) - 2 ^ (e - F.p + 1) ≤ |p + q + a + c| ∧ 0 < t + p ∧ 0 < p + q + a + c) ∧
      ∀ z, RN F (u + q) z →
        (2 ^ (e + 1) ≤ |z| → 2 ^ (e + 1) - 2 ^ (e - F.p + 1) ≤ |p + q + a + c| ∧ 0 < u + q ∧ 0 < p + q + a + c) ∧
        (|z| < 2 ^ (e + 1) → F.Grid (q - z) ∧ |q - z| < 2 ^ (e + 1) ∧ |q - z + p| ≤ 2 ^ (e - F.p + 2) ∧
          ∀ l2, RN F (q - z + p) l2 → |l2 + t| ≤ 2 ^ (e - F.p + 2) ∧
            ∀ l, RN F (l2 + t) l → |z + l - (p + q + a + c)| ≤ 5 / 2 * 2 ^ (e - 2 * F.p + 1)) := by
    intro p q a c t u gp gq hpq hq hB ha hc ht hu
    obtain ⟨h1, h2, h3, h4, h5, h6, h7, h8⟩ := overflow_sum hp he gp gq hpq hq hB ha hc ht hu
    have E0 := two_zpow_pos e
    have U0 := two_zpow_pos (e - F.p + 1)
    have H0 := two_zpow_pos (e - F.p)
    have e1 : (2 : ℚ) ^ (e + 1) = 2 * 2 ^ e := by rw [two_zpow_add e 1, zpow_one]; ring
    have e2 : (2 : ℚ) ^ (e - F.p + 1) = 2 * 2 ^ (e - F.p) := by rw [two_zpow_add (e - F.p) 1, zpow_one]; ring
    have v0 : 0 < p + q + a + c := by linarith
    rw [abs_of_pos v0]
    refine ⟨h2, fun hu' => ?_, fun z hz => ?_⟩
    · have u0 : 2 ^ (e + 1) ≤ u := by
        rcases le_total 0 u with k | k
        · rwa [abs_of_nonneg k] at hu'
        · rw [abs_of_nonpos k] at hu'; linarith
      refine ⟨h7 u0, ?_, v0⟩
      by_contra hcon
      push Not at hcon
      have := hu.le_of_grid grid_zero hcon
      linarith
    · obtain ⟨z1, z2, z3⟩ := h8 z hz
      rw [abs_of_nonneg z1]
      refine ⟨fun k => ⟨z2 k, by linarith, v0⟩, fun k => ?_⟩
      obtain ⟨y1, y2, y3⟩ := z3 k
      exact ⟨y1, by rw [abs_lt]; constructor <;> linarith, y2, y3⟩
  rcases le_or_gt 0 (p + q) with c1 | c1
  · rw [abs_of_nonneg c1] at hB
    have h1 := abs_le.1 hpq
    have hq0 : 0 ≤ q := by
      by_contra hcon
      push Not at hcon
      rw [abs_of_neg hcon] at h1
      have U0 := two_zpow_pos e
      have e1 : (2 : ℚ) ^ (e + 1) = 2 * 2 ^ e := by rw [two_zpow_add e 1, zpow_one]; ring
      have H0 : (2 : ℚ) ^ (e - F.p) ≤ 2 ^ e := two_zpow_le (by omega)
      linarith
    rw [abs_of_nonneg hq0] at hq h1
    obtain ⟨k1, k2, k3⟩ := key gp gq h1.2 hq hB ha hc ht hu
    refine ⟨k1, fun k => ⟨(k2 k).1, ?_⟩, fun z hz => ⟨fun k => ⟨((k3 z hz).1 k).1, ?_⟩, (k3 z hz).2⟩⟩
    · obtain ⟨-, w1, w2⟩ := k2 k; constructor <;> intro <;> linarith
    · obtain ⟨-, w1, w2⟩ := (k3 z hz).1 k; constructor <;> intro <;> linarith
  · rw [abs_of_neg c1] at hB
    have h1 := abs_le.1 hpq
    have hq0 : q ≤ 0 := by
      by_contra hcon
      push Not at hcon
      rw [abs_of_pos hcon] at h1
      linarith
    rw [abs_of_nonpos hq0] at hq h1
    obtain ⟨k1, k2, k3⟩ := key (t := -t) (u := -u) (a := -a) (c := -c) gp.neg gq.neg (by linarith) hq (by linarith) (by rwa [abs_neg]) (by rwa [abs_neg])
      (by have := ht.neg; rwa [show -(a + c) = -a + -c by ring] at this) (by have := hu.neg; rwa [show -(t + p) = -t + -p by ring] at this)
    have ev : |-p + -q + -a + -c| = |p + q + a + c| := by rw [← abs_neg]; congr 1; ring
    rw [ev] at k1 k2 k3
    refine ⟨k1, fun k => ⟨(k2 (by rwa [abs_neg])).1, ?_⟩, fun z hz => ?_⟩
    · obtain ⟨-, w1, w2⟩ := k2 (by rwa [abs_neg]); constructor <;> intro <;> linarith
    · obtain ⟨j1, j2⟩ := k3 (-z) (by have := hz.neg; rwa [show -(u + q) = -u + -q by ring] at this)
      rw [abs_neg] at j1 j2
      refine ⟨fun k => ⟨(j1 k).1, ?_⟩, fun k => ?_⟩
      · obtain ⟨-, w1, w2⟩ := j1 k; constructor <;> intro <;> linarith
      · obtain ⟨y1, y2, y3, y4⟩ := j2 k
        refine ⟨by have := y1.neg; rwa [show -(-q - -z) = q - z by ring] at this, ?_, ?_, fun l2 hl2 => ?_⟩
        · rw [← abs_neg, show -(q - z) = -q - -z by ring]; exact y2
        · rw [← abs_neg, show -(q - z + p) = -q - -z + -p by ring]; exact y3
        · obtain ⟨x1, x2⟩ := y4 (-l2) (by have := hl2.neg; rwa [show -(q - z + p) = -q - -z + -p by ring] at this)
          refine ⟨by rw [← abs_neg, show -(l2 + t) = -l2 + -t by ring]; exact x1, fun l hl => ?_⟩
          have := x2 (-l) (by have := hl.neg; rwa [show -(l2 + t) = -l2 + -t by ring] at this)
          rw [← abs_neg]
          convert this using 2; ring

/-- An odd multiple of the unit has no even significand. -/
theorem not_even {n k : ℤ} (hn : n % 2 = 1) (hb : 2 ^ (F.p - 1) ≤ |n|) (hp : 1 ≤ F.p) : ¬ F.EvenGrid (n * 2 ^ k) := by
  rintro ⟨m, j, h1, -, h3⟩
  rcases le_or_gt k j with c | c
  · have e : (2 : ℚ) ^ j = 2 ^ (j - k).toNat * 2 ^ k := by rw [← zpow_natCast, ← two_zpow_add]; congr 1; omega
    rw [e, ← mul_assoc] at h3
    have h4 := mul_right_cancel₀ (two_zpow_pos k).ne' h3
    have h5 : n = 2 * m * 2 ^ (j - k).toNat := by exact_mod_cast h4
    rw [h5, mul_assoc] at hn
    omega
  · have e : (2 : ℚ) ^ k = 2 ^ (k - j).toNat * 2 ^ j := by rw [← zpow_natCast, ← two_zpow_add]; congr 1; omega
    rw [e, ← mul_assoc] at h3
    have h4 := mul_right_cancel₀ (two_zpow_pos j).ne' h3
    have h5 : n * 2 ^ (k - j).toNat = 2 * m := by exact_mod_cast h4
    rw [← h5, abs_mul, abs_of_pos (by positivity : (0 : ℤ) < 2 ^ (k - j).toNat)] at h1
    have h6 : (2 : ℤ) ^ 1 ≤ 2 ^ (k - j).toNat := pow_le_pow_right₀ (by norm_num) (by omega)
    have h7 : (2 : ℤ) ^ F.p = 2 ^ (F.p - 1) * 2 := by rw [← pow_succ]; congr 1; omega
    have h8 : (2 : ℤ) ^ (F.p - 1) * 2 ≤ |n| * 2 ^ (k - j).toNat := mul_le_mul hb (by linarith) (by norm_num) (abs_nonneg _)
    omega

/-- In the range of the largest exponent, a number within half a unit of a multiple of the unit rounds to it. -/
theorem rn_near (hp : 2 ≤ F.p) {k : ℤ} (hk : F.emin - F.p + 1 ≤ k) {z l : ℚ} (mz : Mult k z) (h1 : 2 ^ (F.p - 1 + k) ≤ |z + l|)
    (h2 : |z + l| ≤ 2 ^ (F.p + k)) (hl : |l| < 2 ^ (k - 1)) : RN F (z + l) z := by
  obtain ⟨g, hg⟩ := exists_rounded (F := F) hp .nearestTiesToEven (z + l)
  have hu := RN.half_unit (by omega) hg hk h2
  have mg : Mult k g := mult_of_grid_ge hg.1 (RN.le_abs hg (grid_two_pow (by omega) (by omega)) h1)
  rw [half_pow] at hl hu
  have hk0 := two_zpow_pos k
  have hd : |g - z| < 2 ^ k := by
    rw [show g - z = l - (z + l - g) by ring]
    exact (abs_sub _ _).trans_lt (by linarith)
  have he : g = z := by
    obtain ⟨n, hn⟩ := mg.sub mz
    rw [hn, abs_mul, abs_of_pos hk0] at hd
    have h3 : |(n : ℚ)| < 1 := by
      by_contra hc
      push Not at hc
      nlinarith
    have h4 : |n| < 1 := by exact_mod_cast h3
    have h5 : n = 0 := by rw [abs_lt] at h4; omega
    rw [h5] at hn
    push_cast at hn
    linarith
  rw [he] at hg
  exact hg

set_option maxHeartbeats 2000000 in
/-- When nothing overflows the leading part of the result is the largest number, and the low part leaves it so. -/
theorem overflow_finite (hp : 4 ≤ F.p) {e : ℤ} (he : F.emin + F.p < e) {p q a c t u z : ℚ} (gp : F.Grid p) (gq : F.Grid q)
    (ga : F.Grid a)
    (hpq : p ≤ q) (hq : q < 2 ^ (e + 1)) (hB : 2 ^ (e + 1) - 2 ^ (e - F.p) ≤ p + q)
    (ha : |a| ≤ 2 ^ (e - F.p)) (hc : |c| ≤ 2 ^ (e - F.p)) (hra : RN F (p + a) p) (hrc : RN F (q + c) q)
    (ht : RN F (a + c) t) (hu : RN F (t + p) u) (hz : RN F (u + q) z) (hzE : z < 2 ^ (e + 1)) :
    z = 2 ^ (e + 1) - 2 ^ (e - F.p + 1) ∧ F.Grid (q - z + p) ∧ ∀ l, RN F (q - z + p + t) l → RN F (z + l) z := by
  obtain ⟨o1, o2, o3, o4, o5, o6, o7, o8⟩ := overflow_sum hp he gp gq hpq hq hB ha hc ht hu
  obtain ⟨z0, -, -⟩ := o8 z hz
  clear o8 o7 o2
  obtain ⟨H, hH⟩ : ∃ H : ℚ, H = 2 ^ (e - F.p) := ⟨_, rfl⟩
  obtain ⟨E, hE⟩ : ∃ E : ℚ, E = 2 ^ e := ⟨_, rfl⟩
  obtain ⟨W, hW⟩ : ∃ W : ℚ, W = 2 ^ (e - 2 * F.p) := ⟨_, rfl⟩
  have H0 : 0 < H := hH ▸ two_zpow_pos _
  have E0 : 0 < E := hE ▸ two_zpow_pos _
  have W0 : 0 < W := hW ▸ two_zpow_pos _
  have e1 : (2 : ℚ) ^ (e + 1) = 2 * E := by rw [two_zpow_add e 1, zpow_one, hE]; ring
  have e2 : (2 : ℚ) ^ (e - F.p + 1) = 2 * H := by rw [two_zpow_add (e - F.p) 1, zpow_one, hH]; ring
  have e3 : (2 : ℚ) ^ (e - F.p + 2) = 4 * H := by rw [two_zpow_add (e - F.p) 2, hH]; norm_num; ring
  have e4 : (2 : ℚ) ^ (e - 2 * F.p + 1) = 2 * W := by rw [two_zpow_add (e - 2 * F.p) 1, zpow_one, hW]; ring
  have e5 : (2 : ℚ) ^ (e - 2 * F.p + 2) = 4 * W := by rw [two_zpow_add (e - 2 * F.p) 2, hW]; norm_num; ring
  have eE : 2 ^ F.p * H = E := by rw [hH, hE, ← zpow_natCast, ← two_zpow_add]; congr 1; ring
  have eH : 2 ^ F.p * W = H := by rw [hH, hW, ← zpow_natCast, ← two_zpow_add]; congr 1; ring
  rw [e2] at o5
  rw [← hH, e1] at hB
  rw [e1] at hq hzE
  rw [← hH] at ha hc o3 o6
  rw [← hE] at o4 o5
  rw [e2] at o1
  rw [e1, e2]
  have hHE : H ≤ E / 16 := by linarith
  have gE : F.Grid E := by rw [hE]; exact grid_two_pow (by omega) (by omega)
  have g2E : F.Grid (2 * E) := by rw [← e1]; exact grid_two_pow (by omega) (by omega)
  have gH : F.Grid H := by rw [hH]; exact grid_two_pow (by omega) (by omega)
  have ha' := abs_le.1 ha
  have hc' := abs_le.1 hc
  have bt' := abs_le.1 o1
  have q0 : 0 < q := by linarith
  have p0 : 0 < p := by linarith
  -- multiples of `H` up to `E` are numbers of the format
  have gmul : ∀ n : ℤ, |(n : ℚ) * H| ≤ E → F.Grid (n * H) := by
    intro n hn
    rw [hH]
    refine grid_of_mult (by omega) (k := e - F.p) ⟨n, rfl⟩ (by omega) ?_
    rw [show (F.p : ℤ) + (e - F.p) = e by ring, ← hE, ← hH]; exact hn
  have gmul2 : ∀ n : ℤ, |(n : ℚ) * (2 * H)| ≤ 2 * E → F.Grid (n * (2 * H)) := by
    intro n hn
    rw [← e2]
    refine grid_of_mult (by omega) (k := e - F.p + 1) ⟨n, rfl⟩ (by omega) ?_
    rw [show (F.p : ℤ) + (e - F.p + 1) = e + 1 by ring, e1, e2]; exact hn
  obtain ⟨n, hn⟩ : Mult (e - F.p + 1) q := mult_of_grid_ge gq (by
      rw [abs_of_pos q0, show (F.p : ℤ) - 1 + (e - F.p + 1) = e by ring, ← hE]; exact o4)
  rw [e2] at hn
  have hqL : q ≤ 2 * E - 2 * H := by
    have m1 : Mult (e - F.p + 1) q := ⟨n, by rw [e2]; exact hn⟩
    have := m1.lt_iff (j := e + 1) (by omega) (by rw [abs_of_pos q0, e1]; exact hq)
    rwa [abs_of_pos q0, e1, e2] at this
  -- the number of the format below overflow
  have gL : F.Grid (2 * E - 2 * H) := by
    have := gmul2 (2 ^ F.p - 1) (by push_cast; rw [show ((2 : ℚ) ^ F.p - 1) * (2 * H) = 2 * E - 2 * H by linear_combination 2 * eE, abs_le]; constructor <;> linarith)
    convert this using 1; push_cast; linear_combination (-2) * eE
  have huq : u + q < 2 * E - H := by
    by_contra hcon
    push Not at hcon
    have hzL : z ≤ 2 * E - 2 * H := by
      rcases le_or_gt E z with k | k
      · have m1 : Mult (e - F.p + 1) z := mult_of_grid_ge hz.1 (by
          rw [abs_of_nonneg z0, show (F.p : ℤ) - 1 + (e - F.p + 1) = e by ring, ← hE]; exact k)
        have := m1.lt_iff (j := e + 1) (by omega) (by rw [abs_of_nonneg z0, e1]; exact hzE)
        rwa [abs_of_nonneg z0, e1, e2] at this
      · linarith
    have huq2 : u + q < 2 * E := by
      by_contra hcon2
      push Not at hcon2
      have := hz.ge_of_grid g2E hcon2
      linarith
    have h1 := hz.2.1 _ g2E
    rw [abs_of_nonneg (by linarith), abs_of_nonpos (by linarith)] at h1
    have h2 : z = 2 * E - 2 * H := by linarith
    have h3 := hz.2.2 _ g2E (by linarith) (by rw [abs_of_nonpos (by linarith), abs_of_nonneg (by linarith)]; linarith)
    rw [h2] at h3
    refine not_even (F := F) (n := 2 ^ F.p - 1) (k := e - F.p + 1) ?_ ?_ (by omega) ?_
    · have : (2 : ℤ) ^ F.p = 2 * 2 ^ (F.p - 1) := by rw [← pow_succ']; congr 1; omega
      omega
    · have : (2 : ℤ) ^ F.p = 2 * 2 ^ (F.p - 1) := by rw [← pow_succ']; congr 1; omega
      have h5 : (0 : ℤ) < 2 ^ (F.p - 1) := by positivity
      rw [abs_of_nonneg (by omega)]
      omega
    · convert h3 using 1; rw [e2]; push_cast; linear_combination 2 * eE
  have key_low : ∀ {x y : ℚ}, x = E → RN F (x + y) x → -(H / 2) ≤ y := by
    intro x y hx hr
    rw [hx] at hr
    have g1 := gmul (2 ^ F.p - 1) (by push_cast; rw [sub_mul, eE, one_mul, abs_le]; constructor <;> linarith)
    have h1 := hr.2.1 _ g1
    push_cast at h1
    rw [sub_mul, eE, one_mul, show E + y - E = y by ring, show E + y - (E - H) = y + H by ring] at h1
    by_contra hcon
    push Not at hcon
    rw [abs_of_neg (by linarith)] at h1
    rcases abs_cases (y + H) with ⟨k, -⟩ | ⟨k, -⟩ <;> rw [k] at h1 <;> linarith
  -- the smaller leading part is in a lower binade
  have hpE : p < E := by
    by_contra hcon
    push Not at hcon
    obtain ⟨m, hm⟩ : Mult (e - F.p + 1) p := mult_of_grid_ge gp (by
      rw [abs_of_pos p0, show (F.p : ℤ) - 1 + (e - F.p + 1) = e by ring, ← hE]; exact hcon)
    rw [e2] at hm
    have hpw : (2 : ℤ) ^ F.p = 2 * 2 ^ (F.p - 1) := by rw [← pow_succ']; congr 1; omega
    have eE' : (2 : ℚ) ^ (F.p - 1) * (2 * H) = E := by
      rw [← eE]
      have : (2 : ℚ) ^ F.p = 2 * 2 ^ (F.p - 1) := by exact_mod_cast hpw
      rw [this]; ring
    have step : ∀ {j : ℤ}, E < (j : ℚ) * (2 * H) → E + 2 * H ≤ j * (2 * H) := by
      intro j hj
      rw [← eE'] at hj
      have h1 := lt_of_mul_lt_mul_right hj (by linarith : (0 : ℚ) ≤ 2 * H)
      have h2 : (2 : ℤ) ^ (F.p - 1) < j := by exact_mod_cast h1
      have h3 : (2 : ℤ) ^ (F.p - 1) + 1 ≤ j := h2
      have h4 : (2 : ℚ) ^ (F.p - 1) + 1 ≤ j := by exact_mod_cast h3
      have h5 := mul_le_mul_of_nonneg_right h4 (by linarith : (0 : ℚ) ≤ 2 * H)
      rw [add_mul, eE', one_mul] at h5
      exact h5
    -- `E - H` and `E - 2 H` are numbers of the format
    have gEH := gmul (2 ^ F.p - 1) (by push_cast; rw [sub_mul, eE, one_mul, abs_le]; constructor <;> linarith)
    have gE2H := gmul (2 ^ F.p - 2) (by push_cast; rw [sub_mul, eE, abs_le]; constructor <;> linarith)
    push_cast at gEH gE2H
    rw [sub_mul, eE] at gEH gE2H
    rcases eq_or_lt_of_le hcon with c1 | c1
    · rcases eq_or_lt_of_le o4 with c2 | c2
      · have k1 := key_low c1.symm hra
        have k2 := key_low c2.symm hrc
        have k3 := ht.ge_of_grid gH.neg (by linarith)
        have k4 := hu.ge_of_grid gEH (by linarith)
        linarith
      · rw [hn] at c2
        have := step c2
        have k4 := hu.ge_of_grid gE2H (by linarith)
        rw [← hn] at this
        linarith
    · rw [hm] at c1
      have := step c1
      rw [← hm] at this
      have k4 := hu.ge_of_grid gE (by linarith)
      linarith
  obtain ⟨k, k1, k2, k3, k4⟩ := exists_unit (by omega) gp
  have hke : k ≤ e - F.p := by
    rcases k4 with k4 | k4
    · omega
    · rw [abs_of_pos p0] at k4
      have := zpow_two_lt_iff (hE ▸ k4.trans_lt hpE)
      omega
  have ha2 : |a| ≤ H / 2 := by
    refine ((low_part (by omega) gp ga hra k1 k3 k4).1).trans ?_
    rw [hH, ← half_pow]
    exact two_zpow_le (by omega)
  have ha2' := abs_le.1 ha2
  have g3 : F.Grid (3 / 2 * H) := by
    refine ⟨3, e - F.p - 1, ?_, by omega, ?_⟩
    · have : (2 : ℤ) ^ 4 ≤ 2 ^ F.p := pow_le_pow_right₀ (by norm_num) hp
      rw [abs_of_pos (by norm_num)]; linarith
    · rw [half_pow, ← hH]; push_cast; ring
  have t0 : -(3 / 2 * H) ≤ t := ht.ge_of_grid g3.neg (by linarith)
  -- `M`, the least that still makes the leading parts overflow
  obtain ⟨N, hN⟩ : ∃ N : ℤ, N = 2 * (2 ^ F.p - n) - 1 := ⟨_, rfl⟩
  have hM : (N : ℚ) * H = 2 * E - H - q := by rw [hn, hN]; push_cast; linear_combination 2 * eE
  have hMp : (N : ℚ) * H ≤ p := by linarith
  have hM1 : H ≤ N * H := by linarith
  have hME : (N : ℚ) * H ≤ E - H := by linarith
  have gM2 : F.Grid (((N - 2 : ℤ) : ℚ) * H) := gmul (N - 2) (by push_cast; rw [abs_le]; constructor <;> linarith)
  have gM1 : F.Grid (((N - 1 : ℤ) : ℚ) * H) := gmul (N - 1) (by push_cast; rw [abs_le]; constructor <;> linarith)
  have gM : F.Grid ((N : ℚ) * H) := gmul N (by rw [abs_le]; constructor <;> linarith)
  have hu2 : (N : ℚ) * H - 2 * H < u := by
    have h1 := hu.ge_of_grid gM2 (by push_cast; linarith)
    push_cast at h1
    by_contra hcon
    push Not at hcon
    have h2 : u = N * H - 2 * H := by linarith
    have h3 := hu.2.1 _ gM1
    push_cast at h3
    rw [abs_of_nonneg (by linarith)] at h3
    have h4 : t + p = N * H - 3 / 2 * H := by
      rcases abs_cases (t + p - ((N : ℚ) - 1) * H) with ⟨k, -⟩ | ⟨k, -⟩ <;> rw [k] at h3 <;> linarith
    rcases le_or_gt (N * H - 3 / 2 * H) (E / 2) with c1 | c1
    · have := hu.exact (by
        rw [h4]
        refine grid_of_mult (by omega) (k := e - F.p - 1) ⟨2 * N - 3, by rw [half_pow, ← hH]; push_cast; ring⟩ (by omega) ?_
        rw [show (F.p : ℤ) + (e - F.p - 1) = e - 1 by ring, half_pow, ← hE, abs_le]; constructor <;> linarith)
      linarith
    · have h5 := hu.2.2 _ gM1 (by push_cast; intro hh; linarith) (by
        push_cast; rw [h4, h2, abs_of_nonpos (by linarith), abs_of_nonneg (by linarith)]; ring)
      rw [h2] at h5
      refine not_even (F := F) (n := N - 2) (k := e - F.p) ?_ ?_ (by omega) ?_
      · omega
      · have eE' : (2 : ℚ) ^ (F.p - 1) * H = E / 2 := by
          rw [← eE]
          have hpw : (2 : ℤ) ^ F.p = 2 * 2 ^ (F.p - 1) := by rw [← pow_succ']; congr 1; omega
          have : (2 : ℚ) ^ F.p = 2 * 2 ^ (F.p - 1) := by exact_mod_cast hpw
          rw [this]; ring
        have h6 : (2 : ℚ) ^ (F.p - 1) * H - H < (N - 2) * H := by rw [eE']; linarith
        have h7 : (2 : ℚ) ^ (F.p - 1) - 1 < N - 2 := by
          refine lt_of_mul_lt_mul_right ?_ H0.le
          rw [sub_mul, one_mul]; exact h6
        have h8 : (2 : ℤ) ^ (F.p - 1) - 1 < N - 2 := by exact_mod_cast h7
        exact le_trans (by omega) (le_abs_self _)
      · convert h5 using 1; rw [← hH]; push_cast; ring
  -- the leading part of the result
  have hzL : z = 2 * E - 2 * H := by
    have := rn_near (F := F) (by omega) (k := e - F.p + 1) (by omega) (z := 2 * E - 2 * H) (l := u + q - (2 * E - 2 * H))
      ⟨2 ^ F.p - 1, by rw [e2]; push_cast; linear_combination (-2) * eE⟩
      (by rw [show (F.p : ℤ) - 1 + (e - F.p + 1) = e by ring, ← hE]; refine le_trans ?_ (le_abs_self _); linarith)
      (by rw [show (F.p : ℤ) + (e - F.p + 1) = e + 1 by ring, e1, abs_le]; constructor <;> linarith)
      (by rw [show e - (F.p : ℤ) + 1 - 1 = e - F.p by ring, ← hH, abs_lt]; constructor <;> linarith)
    rw [add_sub_cancel] at this
    exact hz.unique this
  have hs : q - z + p = p - N * H + H := by rw [hzL, hM]; ring
  have hu1 : u < N * H := by linarith
  have htp : t + p < N * H := by
    by_contra hcon
    push Not at hcon
    have := hu.ge_of_grid gM hcon
    linarith
  have mH : Mult k ((N : ℚ) * H) := Mult.mono (k := e - F.p) ⟨N, by rw [hH]⟩ hke
  have mH1 : Mult k H := Mult.mono (k := e - F.p) ⟨1, by rw [hH]; push_cast; ring⟩ hke
  -- either the smaller leading part is within one unit, or everything is a multiple of a coarser unit
  have hcase : N = 1 ∨ 3 * H ≤ N * H := by
    have h1 : 1 ≤ N := by
      have : (0 : ℚ) < N := by
        by_contra hc
        push Not at hc
        have := mul_nonpos_of_nonpos_of_nonneg hc H0.le
        linarith
      have : (0 : ℤ) < N := by exact_mod_cast this
      omega
    rcases eq_or_lt_of_le h1 with h2 | h2
    · exact Or.inl h2.symm
    · right
      have h3 : 3 ≤ N := by omega
      have : (3 : ℚ) ≤ N := by exact_mod_cast h3
      exact mul_le_mul_of_nonneg_right this H0.le
  have eW : W ≤ H / 16 := by
    have h1 : (2 : ℚ) ^ 4 ≤ 2 ^ F.p := pow_le_pow_right₀ (by norm_num) hp
    norm_num at h1
    have := mul_le_mul_of_nonneg_right h1 W0.le
    linarith
  have gs : F.Grid (q - z + p) := by
    rw [hs]
    rcases hcase with c1 | c1
    · rw [c1]; push_cast; rw [show p - 1 * H + H = p by ring]; exact gp
    · have hk2 : e - 2 * F.p + 2 ≤ k := by
        rw [abs_of_pos p0] at k3
        have : (2 : ℚ) ^ (e - F.p + 1) < 2 ^ (F.p + k) := by rw [e2]; linarith
        have := zpow_two_lt_iff this
        omega
      refine grid_of_mult (by omega) (k := e - 2 * F.p + 2) (((k2.sub mH).add mH1).mono hk2) (by omega) ?_
      rw [show (F.p : ℤ) + (e - 2 * F.p + 2) = e - F.p + 2 by ring, e3, abs_le]
      constructor <;> linarith
  refine ⟨hzL, gs, fun l hl => ?_⟩
  have hl1 : -(H / 2) ≤ l := by
    refine hl.ge_of_grid (Fmt.Grid.neg ?_) (by rw [hs]; linarith)
    rw [hH, ← half_pow]; exact grid_two_pow (by omega) (by omega)
  have hl2 : l < H := by
    rcases hcase with c1 | c1
    · rw [hs, c1] at hl
      push_cast at hl
      rw [show p - 1 * H + H + t = t + p by ring] at hl
      have := hl.unique hu
      rw [c1] at hu1
      push_cast at hu1
      linarith
    · have hu4 : u ≤ N * H - 4 * W := by
        rcases le_or_gt (2 * H) u with c2 | c2
        · have m1 : Mult (e - 2 * F.p + 2) u := mult_of_grid_ge hu.1 (by
            rw [abs_of_nonneg (by linarith), show (F.p : ℤ) - 1 + (e - 2 * F.p + 2) = e - F.p + 1 by ring, e2]; exact c2)
          have m2 : Mult (e - 2 * F.p + 2) ((N : ℚ) * H) := Mult.mono (k := e - F.p) ⟨N, by rw [hH]⟩ (by omega)
          obtain ⟨i, hi⟩ := m2.sub m1
          rw [e5] at hi
          have i0 : 1 ≤ i := by
            by_contra hc
            have : i ≤ 0 := by omega
            have : (i : ℚ) ≤ 0 := by exact_mod_cast this
            have := mul_nonpos_of_nonpos_of_nonneg this (by linarith : (0 : ℚ) ≤ 4 * W)
            linarith
          have : (1 : ℚ) ≤ i := by exact_mod_cast i0
          have := mul_le_mul_of_nonneg_right this (by linarith : (0 : ℚ) ≤ 4 * W)
          linarith
        · linarith
      have h1 := hu.2.1 _ gM
      rw [abs_of_nonpos (show t + p - N * H ≤ 0 by linarith)] at h1
      have h2 := le_abs_self (t + p - u)
      have h3 : t + p ≤ N * H - 2 * W := by linarith
      have gl : F.Grid (H - 2 * W) := by
        refine grid_of_mult (by omega) (k := e - 2 * F.p) ⟨2 ^ F.p - 2, by rw [← hW]; push_cast; linear_combination (-1) * eH⟩ (by omega) ?_
        rw [show (F.p : ℤ) + (e - 2 * F.p) = e - F.p by ring, ← hH, abs_le]; constructor <;> linarith
      have := hl.le_of_grid gl (by rw [hs]; linarith)
      linarith
  rw [hzL]
  refine rn_near (F := F) (by omega) (k := e - F.p + 1) (by omega) ⟨2 ^ F.p - 1, by rw [e2]; push_cast; linear_combination (-2) * eE⟩ ?_ ?_ ?_
  · rw [show (F.p : ℤ) - 1 + (e - F.p + 1) = e by ring, ← hE]; refine le_trans ?_ (le_abs_self _); linarith
  · rw [show (F.p : ℤ) + (e - F.p + 1) = e + 1 by ring, e1, abs_le]; constructor <;> linarith
  · rw [show e - (F.p : ℤ) + 1 - 1 = e - F.p by ring, ← hH, abs_lt]; constructor <;> linarith

/-- The same for either sign. -/
theorem overflow_finite_abs (hp : 4 ≤ F.p) {e : ℤ} (he : F.emin + F.p < e) {p q a c t u z : ℚ} (gp : F.Grid p) (gq : F.Grid q)
    (ga : F.Grid a)
    (hpq : |p| ≤ |q|) (hq : |q| < 2 ^ (e + 1)) (hB : 2 ^ (e + 1) - 2 ^ (e - F.p) ≤ |p + q|)
    (ha : |a| ≤ 2 ^ (e - F.p)) (hc : |c| ≤ 2 ^ (e - F.p)) (hra : RN F (p + a) p) (hrc : RN F (q + c) q)
    (ht : RN F (a + c) t) (hu : RN F (t + p) u) (hz : RN F (u + q) z) (hzE : |z| < 2 ^ (e + 1)) :
    F.Grid (q - z + p) ∧ ∀ l, RN F (q - z + p + t) l → RN F (z + l) z := by
  rcases le_or_gt 0 (p + q) with c1 | c1
  · rw [abs_of_nonneg c1] at hB
    have h1 := abs_le.1 hpq
    have hq0 : 0 ≤ q := by
      by_contra hcon
      push Not at hcon
      rw [abs_of_neg hcon] at h1
      have U0 := two_zpow_pos e
      have e1 : (2 : ℚ) ^ (e + 1) = 2 * 2 ^ e := by rw [two_zpow_add e 1, zpow_one]; ring
      have H0 : (2 : ℚ) ^ (e - F.p) ≤ 2 ^ e := two_zpow_le (by omega)
      linarith
    rw [abs_of_nonneg hq0] at hq h1
    exact (overflow_finite hp he gp gq ga h1.2 hq hB ha hc hra hrc ht hu hz (lt_of_le_of_lt (le_abs_self z) hzE)).2
  · rw [abs_of_neg c1] at hB
    have h1 := abs_le.1 hpq
    have hq0 : q ≤ 0 := by
      by_contra hcon
      push Not at hcon
      rw [abs_of_pos hcon] at h1
      linarith
    rw [abs_of_nonpos hq0] at hq h1
    obtain ⟨-, k1, k2⟩ := overflow_finite (t := -t) (u := -u) (a := -a) (c := -c) (z := -z) hp he gp.neg gq.neg ga.neg (by linarith) hq (by linarith)
      (by rwa [abs_neg]) (by rwa [abs_neg]) (by have := hra.neg; rwa [show -(p + a) = -p + -a by ring] at this)
      (by have := hrc.neg; rwa [show -(q + c) = -q + -c by ring] at this)
      (by have := ht.neg; rwa [show -(a + c) = -a + -c by ring] at this) (by have := hu.neg; rwa [show -(t + p) = -t + -p by ring] at this)
      (by have := hz.neg; rwa [show -(u + q) = -u + -q by ring] at this) (lt_of_le_of_lt (neg_le_abs z) hzE)
    refine ⟨by have := k1.neg; rwa [show -(-q - -z + -p) = q - z + p by ring] at this, fun l hl => ?_⟩
    have := k2 (-l) (by have := hl.neg; rwa [show -(q - z + p + t) = -q - -z + -p + -t by ring] at this)
    have := this.neg
    rwa [show -(-z + -l) = z + l by ring, neg_neg] at this
end Apf
