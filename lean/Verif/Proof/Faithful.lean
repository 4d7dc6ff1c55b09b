import Verif.Proof.TwoSum
/-! # Sums and products of pairs when the steps are rounded in any mode

The five rounding modes have in common that the result is one of the two representable numbers around the exact value. -/

namespace Apf
open Spec
variable {F : Fmt}

/-- `g` is a representable number next to `v`, or `v` itself if that is representable. -/
def Faith (F : Fmt) (v g : ℚ) : Prop := F.Grid g ∧ (∀ c, F.Grid c → c ≤ v → c ≤ g) ∧ (∀ c, F.Grid c → v ≤ c → g ≤ c)

theorem Faith.of_rounded {mode : Round} {v g : ℚ} (h : IsRounded F mode v g) : Faith F v g :=
  ⟨h.1, fun _ hc => h.ge_of_grid hc, fun _ hc => h.le_of_grid hc⟩

theorem Faith.neg {v g : ℚ} (h : Faith F v g) : Faith F (-v) (-g) := by
  refine ⟨h.1.neg, fun c hc hv => ?_, fun c hc hv => ?_⟩
  · have := h.2.2 (-c) hc.neg (by linarith); linarith
  · have := h.2.1 (-c) hc.neg (by linarith); linarith

theorem Faith.exact {v g : ℚ} (h : Faith F v g) (hv : F.Grid v) : g = v :=
  le_antisymm (h.2.2 v hv le_rfl) (h.2.1 v hv le_rfl)

theorem Faith.le_abs {v g c : ℚ} (h : Faith F v g) (hc : F.Grid c) (hv : c ≤ |v|) : c ≤ |g| := by
  rcases abs_choice v with e | e <;> rw [e] at hv
  · exact (h.2.1 c hc hv).trans (le_abs_self g)
  · have := h.2.2 (-c) hc.neg (by linarith)
    exact le_trans (by linarith) (neg_le_abs g)

/-- The error is at most a unit in the last place. -/
theorem Faith.unit (hp : 1 ≤ F.p) {v g : ℚ} (h : Faith F v g) {k : ℤ} (hk : F.emin - F.p + 1 ≤ k) (hv : |v| ≤ 2 ^ (F.p + k)) : |v - g| ≤ 2 ^ k := by
  have hk0 := two_zpow_pos k
  rcases hv.lt_or_eq with hlt | heq
  · rw [two_zpow_add, zpow_natCast] at hlt
    have hlt := abs_lt.1 hlt
    obtain ⟨n, hn⟩ : ∃ n, n = ⌊v / 2 ^ k⌋ := ⟨_, rfl⟩
    have n1 : (n : ℚ) * 2 ^ k ≤ v := by
      rw [← le_div_iff₀ hk0, hn]; exact Int.floor_le _
    have n2 : v < ((n + 1 : ℤ) : ℚ) * 2 ^ k := by
      rw [← div_lt_iff₀ hk0, hn]; push_cast; exact Int.lt_floor_add_one _
    have b1 : -(2 ^ F.p : ℤ) ≤ n := by
      have : ((-(2 ^ F.p : ℤ) : ℤ) : ℚ) * 2 ^ k < ((n + 1 : ℤ) : ℚ) * 2 ^ k := by push_cast at n2 ⊢; linarith [hlt.1]
      have := lt_of_mul_lt_mul_right this hk0.le
      have : -(2 ^ F.p : ℤ) < n + 1 := by exact_mod_cast this
      omega
    have b2 : n < (2 ^ F.p : ℤ) := by
      have : (n : ℚ) * 2 ^ k < ((2 ^ F.p : ℤ) : ℚ) * 2 ^ k := by push_cast; linarith [hlt.2]
      exact_mod_cast lt_of_mul_lt_mul_right this hk0.le
    have grid : ∀ m : ℤ, |m| ≤ 2 ^ F.p → F.Grid ((m : ℚ) * 2 ^ k) := by
      intro m hm
      refine grid_of_mult hp ⟨m, rfl⟩ hk ?_
      rw [abs_mul, abs_of_pos hk0, two_zpow_add, zpow_natCast]
      refine mul_le_mul_of_nonneg_right ?_ hk0.le
      exact_mod_cast hm
    have c1 := h.2.1 _ (grid n (by rw [abs_le]; omega)) n1
    have c2 := h.2.2 _ (grid (n + 1) (by rw [abs_le]; omega)) n2.le
    push_cast at c2 n2
    rw [abs_le]
    constructor <;> linarith
  · have hg : F.Grid v := by
      have g := grid_two_pow hp (F := F) (k := F.p + k) (by omega)
      rcases abs_choice v with e | e <;> rw [e] at heq
      · rw [heq]; exact g
      · rw [← neg_neg v, heq]; exact g.neg
    rw [h.exact hg, sub_self, abs_zero]
    exact hk0.le

/-- Error of rounding any number: one unit of the smallest numbers, or the relative bound. -/
theorem Faith.err (hp : 1 ≤ F.p) {v g : ℚ} (h : Faith F v g) : |v - g| ≤ 2 ^ (F.emin - F.p + 1) ∨ |v - g| ≤ 2 ^ (1 - (F.p : ℤ)) * |v| := by
  rcases le_or_gt |v| (2 ^ (F.p + (F.emin - F.p + 1))) with c | c
  · exact Or.inl (h.unit hp (le_refl _) c)
  · right
    obtain ⟨n, e, n1, e1, c1, l1, l2⟩ := exists_canonical hp (abs_nonneg v)
    have hu := two_zpow_pos (e - F.p + 1)
    have hlt : |v| < 2 ^ (F.p + (e - F.p + 1)) := by
      refine l2.trans_le ?_
      rw [two_zpow_add F.p, zpow_natCast]
      apply mul_le_mul_of_nonneg_right _ hu.le
      exact_mod_cast n1
    have hge : (2 : ℚ) ^ e ≤ |v| := by
      rcases c1 with c1 | c1
      · refine le_trans ?_ l1
        have : ((2 ^ (F.p - 1) : ℕ) : ℚ) ≤ n := by exact_mod_cast c1
        refine le_trans (le_of_eq ?_) (mul_le_mul_of_nonneg_right this hu.le)
        push_cast
        rw [← zpow_natCast, ← two_zpow_add]; congr 1; omega
      · subst c1
        exact (two_zpow_le (by omega)).trans c.le
    refine (h.unit hp (by omega) hlt.le).trans ?_
    have : (2 : ℚ) ^ (e - F.p + 1) = 2 ^ (1 - (F.p : ℤ)) * 2 ^ e := by rw [← two_zpow_add]; congr 1; omega
    rw [this]
    exact mul_le_mul_of_nonneg_left hge (two_zpow_pos _).le

/-- Relative error of rounding a multiple of the smallest unit: no underflow. -/
theorem Faith.rel (hp : 1 ≤ F.p) {v g : ℚ} (h : Faith F v g) (hv : Mult (F.emin - F.p + 1) v) : |v - g| ≤ 2 ^ (1 - (F.p : ℤ)) * |v| := by
  rcases le_or_gt |v| (2 ^ (F.p + (F.emin - F.p + 1))) with c | c
  · rw [h.exact (grid_of_mult hp hv (le_refl _) c), sub_self, abs_zero]
    have := two_zpow_pos (1 - (F.p : ℤ)); positivity
  · rcases h.err hp with e | e
    · refine e.trans ?_
      have : (2 : ℚ) ^ (F.emin - F.p + 1) ≤ 2 ^ (1 - (F.p : ℤ)) * 2 ^ (F.p + (F.emin - F.p + 1)) := by
        rw [← two_zpow_add]; exact two_zpow_le (by omega)
      exact this.trans (mul_le_mul_of_nonneg_left c.le (two_zpow_pos _).le)
    · exact e

theorem grid_double {a : ℚ} (ha : F.Grid a) : F.Grid (2 * a) := by
  have := grid_scale_up ha (n := 1) (by norm_num)
  rwa [zpow_one, mul_comm] at this

/-- The smaller operand: what is left of the sum after taking away the rounded difference is representable. -/
theorem faith_sub_aux (hp : 3 ≤ F.p) {a c z B : ℚ} (ha : F.Grid a) (hc : F.Grid c) (c0 : 0 ≤ c) (hac : |a| ≤ c)
    (h1 : Faith F (a + c) z) (h2 : Faith F (z - a) B) : F.Grid (z - B) := by
  have hex : F.Grid (a + c) → F.Grid (z - B) := by
    intro hg
    have e := h1.exact hg
    rw [e, add_sub_cancel_left] at h2
    rw [e, h2.exact hc, add_sub_cancel_right]
    exact ha
  have hswap : F.Grid (B - z) → F.Grid (z - B) := by
    intro h; have := h.neg; rwa [neg_sub] at this
  rcases le_total 0 a with a0 | a0
  · rw [abs_of_nonneg a0] at hac
    rcases grid_half (by omega) h1.1 with hh | hh
    · have t1 := h1.2.1 _ (grid_double ha) (by linarith)
      have t2 := h2.2.1 _ hh (by linarith)
      have t3 := h2.2.2 _ h1.1 (by linarith)
      exact sterbenz h1.1 h2.1 t3 (by linarith)
    · apply hex
      refine sum_small (by omega) ha hc ?_
      by_contra hcon
      push Not at hcon
      have := h1.le_abs (grid_two_pow (by omega) (by omega)) hcon.le
      linarith
  · rw [abs_of_nonpos a0] at hac
    rcases le_total c (2 * -a) with c2 | c2
    · apply hex
      have := sterbenz hc ha.neg hac c2
      rwa [sub_neg_eq_add, add_comm] at this
    · rcases grid_half (by omega) hc with hh | hh
      · have t1 := h1.2.1 _ hh (by linarith)
        have t2 := h2.2.2 _ (grid_double h1.1) (by linarith)
        have t3 := h2.2.1 _ h1.1 (by linarith)
        exact hswap (sterbenz h2.1 h1.1 t3 t2)
      · apply hex
        refine sum_small (by omega) ha hc ?_
        rw [abs_of_nonneg c0] at hh
        rw [abs_of_nonneg (by linarith)]
        linarith

/-- The larger operand: taking it away from the rounded sum is exact. -/
theorem faith_fast_aux (hp : 1 ≤ F.p) {a c z : ℚ} (ha : F.Grid a) (hc : F.Grid c) (a0 : 0 ≤ a) (hca : |c| ≤ a)
    (h : Faith F (a + c) z) : F.Grid (a - z) := by
  have hswap : F.Grid (z - a) → F.Grid (a - z) := by
    intro h; have := h.neg; rwa [neg_sub] at this
  have hex : F.Grid (a + c) → F.Grid (a - z) := by
    intro hg
    rw [h.exact hg, sub_add_cancel_left]; exact hc.neg
  rcases le_total 0 c with c0 | c0
  · rw [abs_of_nonneg c0] at hca
    exact hswap (sterbenz h.1 ha (h.2.1 _ ha (by linarith)) (h.2.2 _ (grid_double ha) (by linarith)))
  · rw [abs_of_nonpos c0] at hca
    rcases le_total a (2 * -c) with c2 | c2
    · apply hex
      have := sterbenz ha hc.neg hca c2
      rwa [sub_neg_eq_add] at this
    · rcases grid_half hp ha with hh | hh
      · exact sterbenz ha h.1 (h.2.2 _ ha (by linarith)) (by have := h.2.1 _ hh (by linarith); linarith)
      · apply hex
        refine sum_small hp ha hc ?_
        rw [abs_of_nonneg a0] at hh
        rw [abs_of_nonneg (by linarith)]
        linarith

theorem faith_fast (hp : 1 ≤ F.p) {a c z : ℚ} (ha : F.Grid a) (hc : F.Grid c) (hca : |c| ≤ |a|) (h : Faith F (a + c) z) : F.Grid (a - z) := by
  rcases le_total 0 a with a0 | a0
  · rw [abs_of_nonneg a0] at hca
    exact faith_fast_aux hp ha hc a0 hca h
  · rw [abs_of_nonpos a0] at hca
    have := faith_fast_aux hp ha.neg hc.neg (by linarith) (by rw [abs_neg]; exact hca) (z := -z)
      (by have := h.neg; convert this using 1; ring)
    rw [← grid_neg_iff]
    convert this using 1; ring

/-- In the error-free sum (ppc.rs:245-258) the step that recovers the first operand is exact in every rounding mode. -/
theorem faith_recover (hp : 3 ≤ F.p) {a c z q : ℚ} (ha : F.Grid a) (hc : F.Grid c) (h1 : Faith F (a + c) z) (h2 : Faith F (a - z) q) : F.Grid (q + z) := by
  rcases le_or_gt |c| |a| with hac | hac
  · have e := h2.exact (faith_fast (by omega) ha hc hac h1)
    rw [e, sub_add_cancel]; exact ha
  have h2' : Faith F (z - a) (-q) := by
    have := h2.neg; rwa [neg_sub] at this
  rcases le_total 0 c with c0 | c0
  · rw [abs_of_nonneg c0] at hac
    have := faith_sub_aux hp ha hc c0 hac.le h1 h2'
    convert this using 1; ring
  · rw [abs_of_nonpos c0] at hac
    have := faith_sub_aux hp ha.neg hc.neg (by linarith) (by rw [abs_neg]; exact hac.le) (z := -z) (B := q)
      (by have := h1.neg; convert this using 1; ring) (by convert h2 using 1; ring)
    rw [← grid_neg_iff]
    convert this using 1; ring
/-! ## The steps of the sum and of the product of two pairs -/

theorem faith_eps (hp : 10 ≤ F.p) : (0 : ℚ) < 2 ^ (1 - (F.p : ℤ)) ∧ (2 : ℚ) ^ (1 - (F.p : ℤ)) ≤ 1 / 512 := by
  refine ⟨two_zpow_pos _, ?_⟩
  have : (2 : ℚ) ^ (1 - (F.p : ℤ)) ≤ 2 ^ (-9 : ℤ) := two_zpow_le (by omega)
  norm_num at this ⊢
  exact this

/-- The last steps, which turn a number and its correction into a pair (ppc.rs:262-270, 327-339). -/
theorem faith_end (hp : 10 ≤ F.p) {z zz h l1 l : ℚ} (gz : F.Grid z) (gzz : F.Grid zz) (h1 : Faith F (z + zz) h) (h2 : Faith F (z - h) l1)
    (h3 : Faith F (l1 + zz) l) :
    (|h + l - (z + zz)| ≤ 2 ^ (1 - (F.p : ℤ)) * (2 ^ (1 - (F.p : ℤ)) * |z + zz|) ∨
      (|z| < |zz| ∧ |h + l - (z + zz)| ≤ 2 * 2 ^ (1 - (F.p : ℤ)) * |zz|)) ∧
    |l| ≤ 4 * 2 ^ (1 - (F.p : ℤ)) * |h| ∧ |z - h| ≤ 2 * (|z| + |zz|) ∧ |l1 + zz| ≤ |z| + |zz| := by
  obtain ⟨ε0, ε1⟩ := faith_eps hp
  have e6 := h1.rel (by omega) ((mult_of_grid gz).add (mult_of_grid gzz))
  have e8 := h2.rel (by omega) ((mult_of_grid gz).sub (mult_of_grid h1.1))
  have e9 := h3.rel (by omega) ((mult_of_grid h2.1).add (mult_of_grid gzz))
  generalize (2 : ℚ) ^ (1 - (F.p : ℤ)) = ε at *
  have V0 := abs_nonneg (z + zz)
  have tri := abs_add_le z zz
  have small : ∀ t : ℚ, 0 ≤ t → ε * t ≤ t / 512 := fun t ht => by
    have := mul_le_mul_of_nonneg_right ε1 ht; linarith
  have sV := small _ V0
  have hh : |z + zz| ≤ |h| + |z + zz - h| := by
    have := abs_add_le h (z + zz - h)
    rwa [add_sub_cancel] at this
  have hzh : |z - h| ≤ |zz| + |z + zz - h| := by
    have : z - h = (z + zz - h) - zz := by ring
    rw [this]
    exact (abs_sub _ _).trans (by linarith)
  have z0 := abs_nonneg z; have zz0 := abs_nonneg zz; have h0 := abs_nonneg h
  rcases le_or_gt |zz| |z| with c | c
  · have e1 := h2.exact (faith_fast (by omega) gz gzz c h1)
    have e2 : l1 + zz = z + zz - h := by rw [e1]; ring
    rw [e2] at e9 ⊢
    have e10 : |h + l - (z + zz)| = |z + zz - h - l| := by rw [← abs_neg]; congr 1; ring
    have e11 : |l| ≤ |z + zz - h| + |z + zz - h - l| := by
      have : l = (z + zz - h) - (z + zz - h - l) := by ring
      calc |l| = |(z + zz - h) - (z + zz - h - l)| := by rw [← this]
        _ ≤ _ := abs_sub _ _
    have m1 := mul_le_mul_of_nonneg_left e6 ε0.le
    have hE0 := abs_nonneg (z + zz - h)
    have m2 := small _ hE0
    have m3 : ε * |z + zz| ≤ ε * (|h| + |z + zz - h|) := mul_le_mul_of_nonneg_left hh ε0.le
    have m4 : 0 ≤ ε * |h| := by positivity
    refine ⟨Or.inl (by rw [e10]; linarith), by linarith, by linarith, by linarith⟩
  · have m0 : ε * |z + zz| ≤ ε * (2 * |zz|) := mul_le_mul_of_nonneg_left (by linarith) ε0.le
    have m1 : ε * |z - h| ≤ ε * (|zz| + |z + zz - h|) := mul_le_mul_of_nonneg_left hzh ε0.le
    have m2 := small _ (abs_nonneg (z + zz - h))
    have m3 := small _ zz0
    have ee : h + l - (z + zz) = -((z - h - l1) + (l1 + zz - l)) := by ring
    have k1 : |h + l - (z + zz)| ≤ |z - h - l1| + |l1 + zz - l| := by
      rw [ee, abs_neg]; exact abs_add_le _ _
    have k2 : |l1 + zz| ≤ |z + zz - h| + |z - h - l1| := by
      have : l1 + zz = (z + zz - h) - (z - h - l1) := by ring
      rw [this]; exact abs_sub _ _
    have k3 := mul_le_mul_of_nonneg_left k2 ε0.le
    have k4 := small _ (abs_nonneg (z - h - l1))
    have k5 : |l| ≤ |l1 + zz| + |l1 + zz - l| := by
      have : l = (l1 + zz) - (l1 + zz - l) := by ring
      calc |l| = |(l1 + zz) - (l1 + zz - l)| := by rw [← this]
        _ ≤ _ := abs_sub _ _
    have εzz : 0 ≤ ε * |zz| := by positivity
    have m5 := small _ εzz
    have m6 : ε * |z + zz - h| ≤ ε * (2 * (ε * |zz|)) := mul_le_mul_of_nonneg_left (by linarith) ε0.le
    have m7 : ε * |z - h - l1| ≤ ε * (2 * (ε * |zz|)) := mul_le_mul_of_nonneg_left (by linarith) ε0.le
    refine ⟨Or.inr ⟨c, by linarith⟩, ?_, by linarith, by linarith⟩
    by_cases hg : F.Grid (z + zz)
    · have e1 := h1.exact hg
      have e2 : z - h = -zz := by rw [e1]; ring
      rw [e2] at h2
      have e3 := h2.exact gzz.neg
      rw [e3, neg_add_cancel] at h3
      rw [h3.exact grid_zero, abs_zero]
      positivity
    · have hs : |zz| ≤ 2 * |z + zz| := by
        by_contra hc
        push Not at hc
        apply hg
        have half : |z + zz| < |zz| / 2 := by linarith
        have hlt := abs_lt.1 half
        rcases le_total 0 zz with q | q
        · rw [abs_of_nonneg q] at hlt c
          have c' := abs_lt.1 c
          have := sterbenz gzz gz.neg (by linarith) (by linarith)
          rwa [sub_neg_eq_add, add_comm] at this
        · rw [abs_of_nonpos q] at hlt c
          have c' := abs_lt.1 c
          have := sterbenz gzz.neg gz (by linarith) (by linarith)
          have := this.neg
          convert this using 1; ring
      have n1 : ε * |zz| ≤ ε * (2 * |z + zz|) := mul_le_mul_of_nonneg_left hs ε0.le
      have n2 : ε * |z + zz| ≤ ε * (|h| + |z + zz - h|) := mul_le_mul_of_nonneg_left hh ε0.le
      have n3 : 0 ≤ ε * |h| := by positivity
      have n4 : ε * |z + zz - h| ≤ ε * (ε * |z + zz|) := mul_le_mul_of_nonneg_left e6 ε0.le
      have n5 := small _ (show 0 ≤ ε * |z + zz| by positivity)
      linarith
/-- What is left over: `|y| ≤ |x| + |x - y|`. -/
theorem abs_le_add_sub (x y : ℚ) : |y| ≤ |x| + |x - y| := by
  have := abs_sub x (x - y)
  rwa [sub_sub_cancel] at this

set_option maxHeartbeats 1000000 in
/-- The sum of two pairs up to its correction (ppc.rs:243-260), with every step rounded to a neighbour. -/
theorem faith_sum (hp : 10 ≤ F.p) {a aa c cc z q d q' e f w zz : ℚ} (ga : F.Grid a) (gaa : F.Grid aa) (gc : F.Grid c) (gcc : F.Grid cc)
    (la : |aa| ≤ 4 * 2 ^ (1 - (F.p : ℤ)) * |a|) (lc : |cc| ≤ 4 * 2 ^ (1 - (F.p : ℤ)) * |c|)
    (h1 : Faith F (a + c) z) (h2 : Faith F (a - z) q) (h3 : Faith F (q + c) d) (h4 : Faith F (q + z) q') (h5 : Faith F (q' - a) e)
    (h6 : Faith F (d - e) f) (h7 : Faith F (f + aa) w) (h8 : Faith F (w + cc) zz) :
    |z| ≤ 2 * (|a| + |c|) ∧ |a - z| ≤ 2 * (|a| + |c|) ∧ |q + c| ≤ |a| + |c| ∧ |q + z| ≤ 2 * (|a| + |c|) ∧ |q' - a| ≤ |a| + |c| ∧ |d - e| ≤ |a| + |c| ∧
    |f + aa| ≤ |a| + |c| ∧ |w + cc| ≤ |a| + |c| ∧ |zz| ≤ 6 * 2 ^ (1 - (F.p : ℤ)) * (|a| + |c|) ∧
    |z + zz - (a + aa + (c + cc))| ≤ 16 * (2 ^ (1 - (F.p : ℤ))) ^ 2 * (|a| + |c|) := by
  obtain ⟨ε0, ε1⟩ := faith_eps hp
  have gq' := faith_recover (by omega) ga gc h1 h2
  have eq' := h4.exact gq'
  have r1 := h1.rel (by omega) ((mult_of_grid ga).add (mult_of_grid gc))
  have r2 := h2.rel (by omega) ((mult_of_grid ga).sub (mult_of_grid h1.1))
  have r3 := h3.rel (by omega) ((mult_of_grid h2.1).add (mult_of_grid gc))
  have r5 := h5.rel (by omega) ((mult_of_grid h4.1).sub (mult_of_grid ga))
  have r6 := h6.rel (by omega) ((mult_of_grid h3.1).sub (mult_of_grid h5.1))
  have r7 := h7.rel (by omega) ((mult_of_grid h6.1).add (mult_of_grid gaa))
  have r8 := h8.rel (by omega) ((mult_of_grid h7.1).add (mult_of_grid gcc))
  clear h1 h2 h3 h4 h5 h6 h7 h8 ga gaa gc gcc gq'
  subst eq'
  -- the errors of the steps
  obtain ⟨x1, hx1⟩ : ∃ x, x = a + c - z := ⟨_, rfl⟩
  obtain ⟨x2, hx2⟩ : ∃ x, x = a - z - q := ⟨_, rfl⟩
  obtain ⟨x3, hx3⟩ : ∃ x, x = q + c - d := ⟨_, rfl⟩
  obtain ⟨x5, hx5⟩ : ∃ x, x = q + z - a - e := ⟨_, rfl⟩
  obtain ⟨x6, hx6⟩ : ∃ x, x = d - e - f := ⟨_, rfl⟩
  obtain ⟨x7, hx7⟩ : ∃ x, x = f + aa - w := ⟨_, rfl⟩
  obtain ⟨x8, hx8⟩ : ∃ x, x = w + cc - zz := ⟨_, rfl⟩
  rw [← hx1] at r1
  rw [← hx2] at r2
  rw [← hx3] at r3
  rw [← hx5] at r5
  rw [← hx6] at r6
  rw [← hx7] at r7
  rw [← hx8] at r8
  have t1 := abs_add_le a c
  have v2 : a - z = x1 - c := by rw [hx1]; ring
  have v3 : q + c = x1 - x2 := by rw [hx1, hx2]; ring
  have v4 : q + z = a - x2 := by rw [hx2]; ring
  have v5 : q + z - a = -x2 := by rw [hx2]; ring
  have v6 : d - e = x1 - x3 + x5 := by rw [hx1, hx3, hx5]; ring
  have v7 : f + aa = x1 - x3 + x5 - x6 + aa := by rw [hx6, hx1, hx3, hx5]; ring
  have v8 : w + cc = x1 - x3 + x5 - x6 - x7 + (aa + cc) := by rw [hx7, hx6, hx1, hx3, hx5]; ring
  have v9 : zz = x1 - x3 + x5 - x6 - x7 - x8 + (aa + cc) := by rw [hx8, hx7, hx6, hx1, hx3, hx5]; ring
  have v10 : z + zz - (a + aa + (c + cc)) = - (x3 - x5 + x6 + x7 + x8) := by rw [hx8, hx7, hx6, hx3, hx5]; ring
  have v11 : z = a + c - x1 := by rw [hx1]; ring
  rw [v5, abs_neg] at r5
  rw [v2] at r2 ⊢
  rw [v3] at r3 ⊢
  rw [v6] at r6 ⊢
  rw [v7] at r7 ⊢
  rw [v8] at r8 ⊢
  rw [v10, v9, v5, v4, v11, abs_neg, abs_neg]
  clear v2 v3 v4 v5 v6 v7 v8 v9 v10 v11 hx1 hx2 hx3 hx5 hx6 hx7 hx8
  generalize (2 : ℚ) ^ (1 - (F.p : ℤ)) = ε at *
  have a0 := abs_nonneg a; have c0 := abs_nonneg c
  obtain ⟨B, hB⟩ : ∃ B, B = |a| + |c| := ⟨_, rfl⟩
  have B0 : 0 ≤ B := by rw [hB]; positivity
  obtain ⟨Q, hQ⟩ : ∃ Q, Q = ε * B := ⟨_, rfl⟩
  obtain ⟨R, hR⟩ : ∃ R, R = ε * Q := ⟨_, rfl⟩
  have Q0 : 0 ≤ Q := by rw [hQ]; positivity
  have R0 : 0 ≤ R := by rw [hR]; positivity
  have small : ∀ t : ℚ, 0 ≤ t → ε * t ≤ t / 512 := fun t ht => by
    have := mul_le_mul_of_nonneg_right ε1 ht; linarith
  have Q1 : Q ≤ B / 512 := hQ ▸ small B B0
  have R1 : R ≤ Q / 512 := hR ▸ small Q Q0
  have ueps : ∀ {t s : ℚ}, t ≤ s → ε * t ≤ ε * s := fun h => mul_le_mul_of_nonneg_left h ε0.le
  have lo : |aa| + |cc| ≤ 4 * Q := by rw [hQ, hB]; linarith
  have laa : |aa| ≤ 4 * Q := by have := abs_nonneg cc; linarith
  have y1 : |x1| ≤ Q := by rw [hQ]; exact r1.trans (ueps (by linarith))
  have s2 : |x1 - c| ≤ |x1| + |c| := abs_sub _ _
  have y2 : |x2| ≤ Q + R := by
    refine r2.trans ((ueps (show _ ≤ Q + B by linarith)).trans (le_of_eq ?_))
    rw [hR, hQ]; ring
  have s3 : |x1 - x2| ≤ |x1| + |x2| := abs_sub _ _
  have y3 : |x3| ≤ 2.1 * R := by
    refine r3.trans ((ueps (show _ ≤ 2.1 * Q by linarith)).trans (le_of_eq ?_))
    rw [hR]; ring
  have y5 : |x5| ≤ 1.1 * R := by
    refine r5.trans ((ueps (show _ ≤ 1.1 * Q by linarith)).trans (le_of_eq ?_))
    rw [hR]; ring
  have s6 : |x1 - x3 + x5| ≤ |x1| + |x3| + |x5| := (abs_add_le _ _).trans (by have := abs_sub x1 x3; linarith)
  have y6 : |x6| ≤ 1.1 * R := by
    refine r6.trans ((ueps (show _ ≤ 1.1 * Q by linarith)).trans (le_of_eq ?_))
    rw [hR]; ring
  have s7' : |x1 - x3 + x5 - x6| ≤ |x1| + |x3| + |x5| + |x6| := (abs_sub _ _).trans (by linarith)
  have s7 : |x1 - x3 + x5 - x6 + aa| ≤ |x1| + |x3| + |x5| + |x6| + |aa| := (abs_add_le _ _).trans (by linarith)
  have y7 : |x7| ≤ 5.1 * R := by
    refine r7.trans ((ueps (show _ ≤ 5.1 * Q by linarith)).trans (le_of_eq ?_))
    rw [hR]; ring
  have s8' : |x1 - x3 + x5 - x6 - x7| ≤ |x1| + |x3| + |x5| + |x6| + |x7| := (abs_sub _ _).trans (by linarith)
  have sl := abs_add_le aa cc
  have s8 : |x1 - x3 + x5 - x6 - x7 + (aa + cc)| ≤ |x1| + |x3| + |x5| + |x6| + |x7| + (|aa| + |cc|) := (abs_add_le _ _).trans (by linarith)
  have y8 : |x8| ≤ 5.2 * R := by
    refine r8.trans ((ueps (show _ ≤ 5.2 * Q by linarith)).trans (le_of_eq ?_))
    rw [hR]; ring
  have s9' : |x1 - x3 + x5 - x6 - x7 - x8| ≤ |x1| + |x3| + |x5| + |x6| + |x7| + |x8| := (abs_sub _ _).trans (by linarith)
  have s9 : |x1 - x3 + x5 - x6 - x7 - x8 + (aa + cc)| ≤ |x1| + |x3| + |x5| + |x6| + |x7| + |x8| + (|aa| + |cc|) := (abs_add_le _ _).trans (by linarith)
  have s10a := abs_sub x3 x5
  have s10b := abs_add_le (x3 - x5) x6
  have s10c := abs_add_le (x3 - x5 + x6) x7
  have s10 := abs_add_le (x3 - x5 + x6 + x7) x8
  have s11 : |a + c - x1| ≤ |a| + |c| + |x1| := (abs_sub _ _).trans (by linarith)
  have s4 : |a - x2| ≤ |a| + |x2| := abs_sub _ _
  have eR : 16 * ε ^ 2 * B = 16 * R := by rw [hR, hQ]; ring
  have eQ : 6 * ε * B = 6 * Q := by rw [hQ]; ring
  rw [← hB, eR, eQ]
  refine ⟨by linarith, by linarith, by linarith, by linarith, by linarith, by linarith, by linarith, by linarith, by linarith, by linarith⟩

set_option maxHeartbeats 1000000 in
/-- The product of two pairs up to its correction (ppc.rs:306-325), with every step rounded to a neighbour and a rounding error of the leading
product that is known up to two of the smallest subnormals. -/
theorem faith_prod (hp : 10 ≤ F.p) {a b c d t tau v1 v2 v w η : ℚ} (hη : η = 2 ^ (F.emin - F.p + 1))
    (lb : |b| ≤ 4 * 2 ^ (1 - (F.p : ℤ)) * |a|) (ld : |d| ≤ 4 * 2 ^ (1 - (F.p : ℤ)) * |c|)
    (h1 : Faith F (a * c) t) (gtau : F.Grid tau) (h2 : |a * c - t - tau| ≤ 2 * η ∨ |a * c - t - tau| ≤ 2 ^ (1 - (F.p : ℤ)) * |a * c - t|)
    (h3 : Faith F (a * d) v1) (h4 : Faith F (b * c) v2) (h5 : Faith F (v1 + v2) v) (h6 : Faith F (tau + v) w) :
    |a * c - t| ≤ η + |a * c| / 512 ∧ |a * d| ≤ |a * c| / 128 ∧ |b * c| ≤ |a * c| / 128 ∧ |v1 + v2| ≤ |a * c| / 32 + 3 * η ∧
    |tau + v| ≤ |a * c| / 32 + 8 * η ∧ |w| ≤ 10 * (2 ^ (1 - (F.p : ℤ)) * |a * c|) + 6 * η ∧
    |t + w - (a + b) * (c + d)| ≤ 44 * (2 ^ (1 - (F.p : ℤ))) ^ 2 * |a * c| + 5 * η := by
  obtain ⟨ε0, ε1⟩ := faith_eps hp
  have η0 : 0 < η := hη ▸ two_zpow_pos _
  have r1 := h1.err (by omega)
  have r3 := h3.err (by omega)
  have r4 := h4.err (by omega)
  have r5 := h5.rel (by omega) ((mult_of_grid h3.1).add (mult_of_grid h4.1))
  have r6 := h6.rel (by omega) ((mult_of_grid gtau).add (mult_of_grid h5.1))
  rw [← hη] at r1 r3 r4
  clear h1 h3 h4 h5 h6 gtau
  generalize (2 : ℚ) ^ (1 - (F.p : ℤ)) = ε at *
  have had : |a * d| ≤ 4 * (ε * |a * c|) := by
    rw [abs_mul, abs_mul]
    have := mul_le_mul_of_nonneg_left ld (abs_nonneg a); linarith
  have hbc : |b * c| ≤ 4 * (ε * |a * c|) := by
    rw [abs_mul, abs_mul]
    have := mul_le_mul_of_nonneg_right lb (abs_nonneg c); linarith
  have hbd : |b * d| ≤ 16 * (ε * (ε * |a * c|)) := by
    rw [abs_mul, abs_mul]
    have := mul_le_mul lb ld (abs_nonneg d) (by positivity); linarith
  have s1 := abs_le_add_sub (a * d) v1
  have s2 := abs_le_add_sub (b * c) v2
  have s3 := abs_le_add_sub (v1 + v2) v
  have s4 := abs_le_add_sub (tau + v) w
  have s5 := abs_le_add_sub (a * c - t) tau
  have s7 := abs_add_le v1 v2
  have s8 := abs_add_le tau v
  have s9 : |t + w - (a + b) * (c + d)| ≤ |a * c - t - tau| + (|tau + v - w| + (|v1 + v2 - v| + (|a * d - v1| + (|b * c - v2| + |b * d|)))) := by
    have : t + w - (a + b) * (c + d) = -((a * c - t - tau) + ((tau + v - w) + ((v1 + v2 - v) + ((a * d - v1) + ((b * c - v2) + b * d))))) := by ring
    rw [this, abs_neg]
    refine (abs_add_le _ _).trans (add_le_add_right ?_ _)
    refine (abs_add_le _ _).trans (add_le_add_right ?_ _)
    refine (abs_add_le _ _).trans (add_le_add_right ?_ _)
    refine (abs_add_le _ _).trans (add_le_add_right ?_ _)
    exact abs_add_le _ _
  have P0 := abs_nonneg (a * c)
  have n1 := abs_nonneg (a * d); have n2 := abs_nonneg (b * c); have n3 := abs_nonneg (a * c - t)
  generalize |t + w - (a + b) * (c + d)| = ER at *
  generalize |a * c - t - tau| = E5 at *
  generalize |tau + v - w| = E4 at *
  generalize |v1 + v2 - v| = E3 at *
  generalize |b * c - v2| = E2 at *
  generalize |a * d - v1| = E1 at *
  generalize |tau + v| = T7 at *
  generalize |a * c - t| = T at *
  generalize |v1 + v2| = V12 at *
  generalize |b * d| = BD at *
  generalize |a * c| = P at *
  generalize |a * d| = AD at *
  generalize |b * c| = BC at *
  generalize |v1| = V1 at *
  generalize |v2| = V2 at *
  generalize |v| = V at *
  generalize |w| = W at *
  generalize |tau| = TA at *
  obtain ⟨Q, hQ⟩ : ∃ Q, Q = ε * P := ⟨_, rfl⟩
  obtain ⟨R, hR⟩ : ∃ R, R = ε * Q := ⟨_, rfl⟩
  have Q0 : 0 ≤ Q := by rw [hQ]; positivity
  have R0 : 0 ≤ R := by rw [hR]; positivity
  have small : ∀ t : ℚ, 0 ≤ t → ε * t ≤ t / 512 := fun t ht => by
    have := mul_le_mul_of_nonneg_right ε1 ht; linarith
  have Q1 : Q ≤ P / 512 := hQ ▸ small P P0
  have R1 : R ≤ Q / 512 := hR ▸ small Q Q0
  have ueps : ∀ {t s : ℚ}, t ≤ s → ε * t ≤ ε * s := fun h => mul_le_mul_of_nonneg_left h ε0.le
  have εη := small η η0.le
  have εη0 : 0 ≤ ε * η := by positivity
  have εR : ε * R ≤ R / 512 := small R R0
  have εεη : ε * (ε * η) ≤ ε * η / 512 := small _ εη0
  rw [← hQ] at had hbc hbd r1
  rw [← hR] at hbd
  have y1 : T ≤ η + Q := by rcases r1 with r | r <;> linarith
  have yT : ε * T ≤ ε * η + R := by rw [hR, ← mul_add]; exact ueps y1
  have y5 : E5 ≤ 2 * η + R := by rcases h2 with r | r <;> linarith
  have yA : ε * AD ≤ 4 * R := by rw [hR]; have := ueps had; linarith
  have yB : ε * BC ≤ 4 * R := by rw [hR]; have := ueps hbc; linarith
  have z1 : E1 ≤ η + 4 * R := by rcases r3 with r | r <;> linarith
  have z2 : E2 ≤ η + 4 * R := by rcases r4 with r | r <;> linarith
  have z3 : V12 ≤ 8 * Q + 2 * η + 8 * R := by linarith
  have z4 : E3 ≤ 8 * R + 2 * (ε * η) + 8 * (ε * R) := by
    refine r5.trans ((ueps z3).trans (le_of_eq ?_)); rw [hR]; ring
  have z5 : T7 ≤ 9 * Q + 5.1 * η + 18 * R := by linarith
  have z6 : E4 ≤ 9 * R + 5.1 * (ε * η) + 18 * (ε * R) := by
    refine r6.trans ((ueps z5).trans (le_of_eq ?_)); rw [hR]; ring
  have eR : 44 * ε ^ 2 * P = 44 * R := by rw [hR, hQ]; ring
  rw [eR, ← hQ]
  refine ⟨by linarith, by linarith, by linarith, by linarith, by linarith, by linarith, by linarith⟩

end Apf
