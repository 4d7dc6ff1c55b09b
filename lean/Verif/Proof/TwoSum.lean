import Verif.Proof.Ppc
/-! # Error-free sums: what rounding to nearest loses is itself a number of the format -/

namespace Apf
open Spec
variable {F : Fmt}

/-- An integer multiple of `2^k`. -/
def Mult (k : ℤ) (v : ℚ) : Prop := ∃ n : ℤ, v = n * 2 ^ k

theorem Mult.neg {k : ℤ} {v : ℚ} (h : Mult k v) : Mult k (-v) := by
  obtain ⟨n, rfl⟩ := h; exact ⟨-n, by push_cast; ring⟩

theorem Mult.add {k : ℤ} {v w : ℚ} (h : Mult k v) (h' : Mult k w) : Mult k (v + w) := by
  obtain ⟨n, rfl⟩ := h; obtain ⟨m, rfl⟩ := h'; exact ⟨n + m, by push_cast; ring⟩

theorem Mult.sub {k : ℤ} {v w : ℚ} (h : Mult k v) (h' : Mult k w) : Mult k (v - w) := by
  rw [sub_eq_add_neg]; exact h.add h'.neg

theorem Mult.mono {j k : ℤ} {v : ℚ} (h : Mult k v) (hj : j ≤ k) : Mult j v := by
  obtain ⟨n, rfl⟩ := h
  refine ⟨n * 2 ^ (k - j).toNat, ?_⟩
  have : (2 : ℚ) ^ k = 2 ^ (k - j).toNat * 2 ^ j := by rw [← zpow_natCast, ← two_zpow_add]; congr 1; omega
  rw [this]; push_cast; ring

/-- A multiple of `2^k` below `2^j` is at most `2^j - 2^k`. -/
theorem Mult.lt_iff {j k : ℤ} {v : ℚ} (h : Mult k v) (hj : k ≤ j) (hv : |v| < 2 ^ j) : |v| ≤ 2 ^ j - 2 ^ k := by
  obtain ⟨n, rfl⟩ := h
  have hk := two_zpow_pos k
  have e : (2 : ℚ) ^ j = 2 ^ (j - k).toNat * 2 ^ k := by rw [← zpow_natCast, ← two_zpow_add]; congr 1; omega
  rw [abs_mul, abs_of_pos hk, e] at hv ⊢
  have h1 := lt_of_mul_lt_mul_right hv hk.le
  have h2 : |n| < 2 ^ (j - k).toNat := by exact_mod_cast h1
  have h3 : |n| ≤ 2 ^ (j - k).toNat - 1 := by omega
  have h4 : |(n : ℚ)| ≤ 2 ^ (j - k).toNat - 1 := by exact_mod_cast h3
  nlinarith

theorem grid_of_mult (hp : 1 ≤ F.p) {k : ℤ} {v : ℚ} (h : Mult k v) (hk : F.emin - F.p + 1 ≤ k) (hv : |v| ≤ 2 ^ (F.p + k)) : F.Grid v := by
  obtain ⟨n, rfl⟩ := h
  have hk0 := two_zpow_pos k
  rw [abs_mul, abs_of_pos hk0, two_zpow_add, zpow_natCast] at hv
  have h1 := le_of_mul_le_mul_right hv hk0
  have h2 : |n| ≤ 2 ^ F.p := by exact_mod_cast h1
  rcases h2.lt_or_eq with h3 | h3
  · exact ⟨n, k, h3, hk, rfl⟩
  · have h2p : (1 : ℤ) < 2 ^ F.p := one_lt_pow₀ (by norm_num) (by omega)
    rcases abs_choice n with c | c
    · refine ⟨1, k + F.p, by rw [abs_one]; exact h2p, by omega, ?_⟩
      rw [← c, h3, two_zpow_add k, zpow_natCast]; push_cast; ring
    · refine ⟨-1, k + F.p, by rw [abs_neg, abs_one]; exact h2p, by omega, ?_⟩
      have : n = -2 ^ F.p := by omega
      rw [this, two_zpow_add k, zpow_natCast]; push_cast; ring

theorem grid_two_pow (hp : 1 ≤ F.p) {k : ℤ} (hk : F.emin - F.p + 1 ≤ k) : F.Grid (2 ^ k) :=
  ⟨1, k, by rw [abs_one]; exact one_lt_pow₀ (by norm_num) (by omega), hk, by simp⟩

theorem mult_of_grid {v : ℚ} (h : F.Grid v) : Mult (F.emin - F.p + 1) v := by
  obtain ⟨m, k, h1, h2, h3⟩ := h
  exact Mult.mono ⟨m, h3⟩ h2

theorem mult_of_grid_ge {v : ℚ} (h : F.Grid v) {k : ℤ} (hv : 2 ^ (F.p - 1 + k) ≤ |v|) : Mult k v := by
  obtain ⟨m, j, h1, h2, rfl⟩ := h
  refine Mult.mono ⟨m, rfl⟩ ?_
  have hj := two_zpow_pos j
  have : |(m : ℚ) * 2 ^ j| < 2 ^ (F.p + j) := by
    rw [abs_mul, abs_of_pos hj, two_zpow_add, zpow_natCast]
    exact mul_lt_mul_of_pos_right (by exact_mod_cast h1) hj
  have := zpow_two_lt_iff (hv.trans_lt this)
  omega

/-- The unit in the last place of a number of the format. -/
theorem exists_unit (hp : 1 ≤ F.p) {v : ℚ} (h : F.Grid v) :
    ∃ k, F.emin - F.p + 1 ≤ k ∧ Mult k v ∧ |v| < 2 ^ (F.p + k) ∧ (k = F.emin - F.p + 1 ∨ 2 ^ (F.p - 1 + k) ≤ |v|) := by
  obtain ⟨n, e, n1, e1, c1, l1, l2⟩ := exists_canonical hp (abs_nonneg v)
  have hu := two_zpow_pos (e - F.p + 1)
  have hlt : |v| < 2 ^ (F.p + (e - F.p + 1)) := by
    refine l2.trans_le ?_
    rw [two_zpow_add F.p, zpow_natCast]
    apply mul_le_mul_of_nonneg_right _ hu.le
    exact_mod_cast n1
  rcases c1 with c | c
  · have hge : (2 : ℚ) ^ (F.p - 1 + (e - F.p + 1)) ≤ |v| := by
      refine le_trans ?_ l1
      rw [two_zpow_add]
      apply mul_le_mul_of_nonneg_right _ hu.le
      have : ((2 ^ (F.p - 1) : ℕ) : ℚ) ≤ n := by exact_mod_cast c
      refine le_trans (le_of_eq ?_) this
      push_cast
      rw [← zpow_natCast]; congr 1; omega
    exact ⟨e - F.p + 1, by omega, mult_of_grid_ge h hge, hlt, Or.inr hge⟩
  · subst c
    exact ⟨_, le_refl _, mult_of_grid h, hlt, Or.inl rfl⟩

/-- Numbers at least as large in magnitude are multiples of the same unit. -/
theorem mult_of_unit {v w : ℚ} {k : ℤ} (hk : k = F.emin - F.p + 1 ∨ 2 ^ (F.p - 1 + k) ≤ |v|) (hw : F.Grid w) (hvw : |v| ≤ |w|) : Mult k w := by
  rcases hk with rfl | hk
  · exact mult_of_grid hw
  · exact mult_of_grid_ge hw (hk.trans hvw)

abbrev RN (F : Fmt) (v g : ℚ) : Prop := IsRounded F .nearestTiesToEven v g

theorem RN.neg {v g : ℚ} (h : RN F v g) : RN F (-v) (-g) := IsRounded.neg h

theorem RN.exact {v g : ℚ} (h : RN F v g) (hv : F.Grid v) : g = v := h.unique (isRounded_self _ hv)

theorem RN.abs_le {v g c : ℚ} (h : RN F v g) (hc : F.Grid c) (hv : |v| ≤ c) : |g| ≤ c := by
  rw [_root_.abs_le] at hv ⊢
  exact ⟨h.ge_of_grid hc.neg hv.1, h.le_of_grid hc hv.2⟩

theorem RN.le_abs {v g c : ℚ} (h : RN F v g) (hc : F.Grid c) (hv : c ≤ |v|) : c ≤ |g| := by
  rcases abs_choice v with e | e <;> rw [e] at hv
  · exact (h.ge_of_grid hc hv).trans (le_abs_self g)
  · have := h.le_of_grid hc.neg (by linarith : v ≤ -c)
    exact le_trans (by linarith) (neg_le_abs g)

/-- Rounding keeps multiples of a unit multiples of that unit. -/
theorem RN.mult (hp : 1 ≤ F.p) {v g : ℚ} (h : RN F v g) {k : ℤ} (hk : F.emin - F.p + 1 ≤ k) (hv : Mult k v) : Mult k g := by
  rcases le_or_gt (2 ^ (F.p - 1 + k)) |g| with c | c
  · exact mult_of_grid_ge h.1 c
  · have : |v| ≤ 2 ^ (F.p + k) := by
      by_contra hc
      push Not at hc
      have h1 := h.le_abs (grid_two_pow hp (k := F.p + k) (by omega)) hc.le
      have h2 : (2 : ℚ) ^ (F.p - 1 + k) ≤ 2 ^ (F.p + k) := two_zpow_le (by omega)
      linarith
    rw [h.exact (grid_of_mult hp hv hk this)]
    exact hv

/-- Rounding errs by at most half a unit in the last place. -/
theorem RN.half_unit (hp : 1 ≤ F.p) {v g : ℚ} (h : RN F v g) {k : ℤ} (hk : F.emin - F.p + 1 ≤ k) (hv : |v| ≤ 2 ^ (F.p + k)) : |v - g| ≤ 2 ^ (k - 1) := by
  have hk0 := two_zpow_pos k
  set n := round (v / 2 ^ k) with hn
  have h1 : |v / 2 ^ k - n| ≤ 1 / 2 := abs_sub_round _
  have hvn : |v / 2 ^ k| ≤ 2 ^ F.p := by
    rw [abs_div, abs_of_pos hk0, div_le_iff₀ hk0]
    rwa [two_zpow_add, zpow_natCast] at hv
  have hb : |(n : ℚ)| ≤ 2 ^ F.p := by
    have h2 : |(n : ℚ)| ≤ 2 ^ F.p + 1 / 2 := by
      have : (n : ℚ) = v / 2 ^ k - (v / 2 ^ k - n) := by ring
      rw [this]
      exact (abs_sub _ _).trans (by linarith)
    have h3 : |(n : ℚ)| < 2 ^ F.p + 1 := by linarith
    have h4 : |n| < 2 ^ F.p + 1 := by exact_mod_cast h3
    have h5 : |n| ≤ 2 ^ F.p := by omega
    exact_mod_cast h5
  have hg : F.Grid ((n : ℚ) * 2 ^ k) := grid_of_mult hp ⟨n, rfl⟩ hk (by
    rw [abs_mul, abs_of_pos hk0, two_zpow_add, zpow_natCast]
    exact mul_le_mul_of_nonneg_right hb hk0.le)
  refine (h.2.1 _ hg).trans ?_
  have e : v - n * 2 ^ k = (v / 2 ^ k - n) * 2 ^ k := by field_simp
  rw [e, abs_mul, abs_of_pos hk0]
  have : (2 : ℚ) ^ (k - 1) = 1 / 2 * 2 ^ k := by rw [sub_eq_add_neg, two_zpow_add k (-1)]; norm_num; ring
  rw [this]
  exact mul_le_mul_of_nonneg_right h1 hk0.le

/-- Relative error of rounding a multiple of the smallest unit: no underflow. -/
theorem RN.rel (hp : 1 ≤ F.p) {v g : ℚ} (h : RN F v g) (hv : Mult (F.emin - F.p + 1) v) : |v - g| ≤ 2 ^ (-(F.p : ℤ)) * |v| := by
  rcases le_or_gt |v| (2 ^ (F.p + (F.emin - F.p + 1))) with c | c
  · rw [h.exact (grid_of_mult hp hv (le_refl _) c), sub_self, abs_zero]
    have := two_zpow_pos (-(F.p : ℤ)); positivity
  · obtain ⟨n, e, n1, e1, c1, l1, l2⟩ := exists_canonical hp (abs_nonneg v)
    have hu := two_zpow_pos (e - F.p + 1)
    have hlt : |v| < 2 ^ (F.p + (e - F.p + 1)) := by
      refine l2.trans_le ?_
      rw [two_zpow_add F.p, zpow_natCast]
      apply mul_le_mul_of_nonneg_right _ hu.le
      exact_mod_cast n1
    have hge : (2 : ℚ) ^ e ≤ |v| := by
      rcases c1 with c1 | c1
      · refine le_trans ?_ l1
        have : ((2 ^ (F.p - 1) : ℕ) : ℚ) ≤ n := by exact_mod_cast c1
        refine le_trans (le_of_eq ?_) (mul_le_mul_of_nonneg_right this hu.le)
        push_cast
        rw [← zpow_natCast, ← two_zpow_add]; congr 1; omega
      · subst c1
        exact (two_zpow_le (by omega)).trans c.le
    refine (h.half_unit hp (by omega) hlt.le).trans ?_
    have : (2 : ℚ) ^ (e - F.p + 1 - 1) = 2 ^ (-(F.p : ℤ)) * 2 ^ e := by rw [← two_zpow_add]; congr 1; omega
    rw [this]
    exact mul_le_mul_of_nonneg_left hge (two_zpow_pos _).le

/-- What rounding a sum of two numbers of the format loses is a number of the format. -/
theorem sum_residual (hp : 1 ≤ F.p) {a b z : ℚ} (ha : F.Grid a) (hb : F.Grid b) (h : RN F (a + b) z) : F.Grid (a + b - z) := by
  have key : ∀ {a b z : ℚ}, F.Grid a → F.Grid b → |a| ≤ |b| → RN F (a + b) z → F.Grid (a + b - z) := by
    intro a b z ha hb hab h
    obtain ⟨k, k1, k2, k3, k4⟩ := exists_unit hp ha
    have mb := mult_of_unit k4 hb hab
    have ms := k2.add mb
    refine grid_of_mult hp (ms.sub (h.mult hp k1 ms)) k1 ?_
    have := h.2.1 b hb
    rw [add_sub_cancel_right] at this
    exact this.trans k3.le
  rcases le_total |a| |b| with c | c
  · exact key ha hb c h
  · rw [add_comm] at h ⊢
    exact key hb ha c h

/-- The step of the fast error-free sum: the first subtraction is exact. -/
theorem fast_sum (hp : 1 ≤ F.p) {z zz s : ℚ} (hz : F.Grid z) (hzz : F.Grid zz)
    (hcond : (∃ g, Mult g z ∧ |zz| < 2 ^ (F.p + g)) ∨ |zz| ≤ |z|) (h : RN F (z + zz) s) : F.Grid (z - s) := by
  obtain ⟨k, k1, k2, k3, k4⟩ := exists_unit hp hzz
  have mz : Mult k z := by
    rcases k4 with e | k4
    · rw [e]; exact mult_of_grid hz
    rcases hcond with ⟨g, g1, g2⟩ | hc
    · exact g1.mono (by have := zpow_two_lt_iff (k4.trans_lt g2); omega)
    · exact mult_of_grid_ge hz (k4.trans hc)
  have mv := mz.add k2
  rcases le_or_gt |z + zz| (2 ^ (F.p + k)) with c | c
  · rw [h.exact (grid_of_mult hp mv k1 c)]
    convert hzz.neg using 1; ring
  -- the exponent of the sum
  obtain ⟨n, e, n1, e1, c1, l1, l2⟩ := exists_canonical hp (abs_nonneg (z + zz))
  have hu := two_zpow_pos (e - F.p + 1)
  have hlt : |z + zz| < 2 ^ (F.p + (e - F.p + 1)) := by
    refine l2.trans_le ?_
    rw [two_zpow_add F.p, zpow_natCast]
    apply mul_le_mul_of_nonneg_right _ hu.le
    exact_mod_cast n1
  have hke := zpow_two_lt_iff (c.trans hlt)
  obtain ⟨j, hj⟩ : ∃ j : ℤ, e - F.p + 1 = k + j := ⟨e - F.p + 1 - k, by ring⟩
  have j1 : 1 ≤ j := by omega
  have hge : (2 : ℚ) ^ (F.p - 1 + (k + j)) ≤ |z + zz| := by
    rcases c1 with c1 | c1
    · refine le_trans ?_ l1
      have : ((2 ^ (F.p - 1) : ℕ) : ℚ) ≤ n := by exact_mod_cast c1
      refine le_trans (le_of_eq ?_) (mul_le_mul_of_nonneg_right this hu.le)
      push_cast
      rw [← zpow_natCast, ← two_zpow_add]; congr 1; omega
    · omega
  rw [hj] at hlt
  have ms : Mult (k + j) s := mult_of_grid_ge h.1 (h.le_abs (grid_two_pow hp (by omega)) hge)
  have herr := h.half_unit hp (k := k + j) (by omega) hlt.le
  have hzs : |z - s| ≤ |zz| + 2 ^ (k + j - 1) := by
    have : z - s = (z + zz - s) - zz := by ring
    rw [this]
    exact (abs_sub _ _).trans (by linarith)
  have hzz' := k2.lt_iff (j := F.p + k) (by omega) k3
  rcases j1.lt_or_eq with j2 | j2
  · have hzge : (2 : ℚ) ^ (F.p - 1 + (k + j - 1)) ≤ |z| := by
      have t1 : |z + zz| ≤ |z| + |zz| := abs_add_le _ _
      have t2 : (2 : ℚ) ^ (F.p - 1 + (k + j)) = 2 * 2 ^ (F.p - 1 + (k + j - 1)) := by
        rw [show (F.p : ℤ) - 1 + (k + j) = 1 + (F.p - 1 + (k + j - 1)) by ring, two_zpow_add, zpow_one]
      have t3 : (2 : ℚ) ^ (F.p + k) ≤ 2 ^ (F.p - 1 + (k + j - 1)) := two_zpow_le (by omega)
      linarith
    refine grid_of_mult hp (k := k + j - 1) ((mult_of_grid_ge hz hzge).sub (ms.mono (by omega))) (by omega) (hzs.trans ?_)
    have t1 : (2 : ℚ) ^ (F.p + (k + j - 1)) = 2 * 2 ^ (F.p - 1 + (k + j - 1)) := by
      rw [show (F.p : ℤ) + (k + j - 1) = 1 + (F.p - 1 + (k + j - 1)) by ring, two_zpow_add, zpow_one]
    have t2 : (2 : ℚ) ^ (F.p + k) ≤ 2 ^ (F.p - 1 + (k + j - 1)) := two_zpow_le (by omega)
    have t3 : (2 : ℚ) ^ (k + j - 1) ≤ 2 ^ (F.p - 1 + (k + j - 1)) := two_zpow_le (by omega)
    linarith
  · subst j2
    refine grid_of_mult hp (k := k) (mz.sub (ms.mono (by omega))) k1 (hzs.trans ?_)
    rw [show k + 1 - 1 = k by ring]
    linarith
theorem grid_half (hp : 1 ≤ F.p) {z : ℚ} (hz : F.Grid z) : F.Grid (z / 2) ∨ |z| < 2 ^ (F.p + (F.emin - F.p + 1)) := by
  obtain ⟨k, k1, ⟨n, hn⟩, k3, -⟩ := exists_unit hp hz
  rcases k1.lt_or_eq with c | c
  · left
    have e : (2 : ℚ) ^ k = 2 * 2 ^ (k - 1) := by rw [show k = 1 + (k - 1) by ring, two_zpow_add, zpow_one]; simp
    refine grid_of_mult hp (k := k - 1) ⟨n, by rw [hn, e]; ring⟩ (by omega) ?_
    have e' : (2 : ℚ) ^ (F.p + k) = 2 * 2 ^ (F.p + (k - 1)) := by
      rw [show (F.p : ℤ) + k = 1 + (F.p + (k - 1)) by ring, two_zpow_add, zpow_one]
    rw [abs_div, abs_two]
    linarith
  · right; rw [c]; exact k3

/-- A sum below the range where units grow is exact. -/
theorem sum_small (hp : 1 ≤ F.p) {a c : ℚ} (ha : F.Grid a) (hc : F.Grid c) (h : |a + c| ≤ 2 ^ (F.p + (F.emin - F.p + 1))) : F.Grid (a + c) :=
  grid_of_mult hp ((mult_of_grid ha).add (mult_of_grid hc)) (le_refl _) h

theorem two_sum_aux (hp : 3 ≤ F.p) {a c z B : ℚ} (ha : F.Grid a) (hc : F.Grid c) (c0 : 0 ≤ c) (hac : |a| ≤ c)
    (h1 : RN F (a + c) z) (h2 : RN F (z - a) B) : F.Grid (z - B) := by
  have hex : F.Grid (a + c) → F.Grid (z - B) := by
    intro hg
    have e := h1.exact hg
    rw [e, add_sub_cancel_left] at h2
    rw [e, h2.exact hc, add_sub_cancel_right]
    exact ha
  have hswap : F.Grid (B - z) → F.Grid (z - B) := by
    intro h; have := h.neg; rwa [neg_sub] at this
  rcases le_total 0 a with a0 | a0
  · rw [abs_of_nonneg a0] at hac
    rcases grid_half (by omega) h1.1 with hh | hh
    · have g2 : F.Grid (2 * a) := by
        have := grid_scale_up ha (n := 1) (by norm_num)
        rwa [zpow_one, mul_comm] at this
      have t1 := h1.ge_of_grid g2 (by linarith)
      have t2 := h2.ge_of_grid hh (by linarith)
      have t3 := h2.le_of_grid h1.1 (by linarith)
      exact sterbenz h1.1 h2.1 t3 (by linarith)
    · apply hex
      refine sum_small (by omega) ha hc ?_
      by_contra hcon
      push Not at hcon
      have := h1.le_abs (grid_two_pow (by omega) (by omega)) hcon.le
      linarith
  · rw [abs_of_nonpos a0] at hac
    rcases le_total c (2 * -a) with c2 | c2
    · apply hex
      have := sterbenz hc ha.neg hac c2
      rwa [sub_neg_eq_add, add_comm] at this
    · rcases grid_half (by omega) hc with hh | hh
      · have t1 := h1.ge_of_grid hh (by linarith)
        have g2 : F.Grid (2 * z) := by
          have := grid_scale_up h1.1 (n := 1) (by norm_num)
          rwa [zpow_one, mul_comm] at this
        have t2 := h2.le_of_grid g2 (by linarith)
        have t3 := h2.ge_of_grid h1.1 (by linarith)
        exact hswap (sterbenz h2.1 h1.1 t3 t2)
      · apply hex
        refine sum_small (by omega) ha hc ?_
        rw [abs_of_nonneg c0] at hh
        rw [abs_of_nonneg (by linarith)]
        linarith

/-- Every step of the error-free sum of two numbers (ppc.rs:245-258) is exact. -/
theorem two_sum (hp : 3 ≤ F.p) {a c z q : ℚ} (ha : F.Grid a) (hc : F.Grid c) (h1 : RN F (a + c) z) (h2 : RN F (a - z) q) :
    F.Grid (q + c) ∧ F.Grid (q + z) ∧ F.Grid (q + z - a) ∧ F.Grid (a + c - z) := by
  have hres := sum_residual (by omega) ha hc h1
  rcases le_or_gt |c| |a| with hac | hac
  · have := fast_sum (by omega) ha hc (Or.inr hac) h1
    have e := h2.exact this
    subst e
    refine ⟨?_, by rw [sub_add_cancel]; exact ha, by rw [sub_add_cancel, sub_self]; exact grid_zero, hres⟩
    convert hres using 1; ring
  have h2' : RN F (z - a) (-q) := by
    have := h2.neg; rwa [neg_sub] at this
  refine ⟨?_, ?_, ?_, hres⟩
  · obtain ⟨k, k1, k2, k3, k4⟩ := exists_unit (by omega) hc
    have hk := two_zpow_pos k
    have e1 : (2 : ℚ) ^ (F.p + (k + 1)) = 2 * 2 ^ (F.p + k) := by
      rw [show (F.p : ℤ) + (k + 1) = 1 + (F.p + k) by ring, two_zpow_add, zpow_one]
    have n1 : |a + c - z| ≤ 2 ^ k := by
      have := h1.half_unit (k := k + 1) (by omega) (by omega) (by rw [e1]; exact (abs_add_le _ _).trans (by linarith))
      rwa [add_sub_cancel_right] at this
    have hlt := k2.lt_iff (j := F.p + k) (by omega) k3
    have n2 : |z - a| ≤ 2 ^ (F.p + k) := by
      have : z - a = c - (a + c - z) := by ring
      rw [this]
      exact (abs_sub _ _).trans (by linarith)
    have n3 := h2'.half_unit (by omega) k1 n2
    have e2 : (2 : ℚ) ^ k = 2 * 2 ^ (k - 1) := by rw [show k = 1 + (k - 1) by ring, two_zpow_add, zpow_one]; simp
    have hk1 := two_zpow_pos (k - 1)
    have n4 : |q + c| ≤ 3 * 2 ^ (k - 1) := by
      have : q + c = (z - a - -q) + (a + c - z) := by ring
      rw [this]
      exact (abs_add_le _ _).trans (by linarith)
    have p4 : (4 : ℚ) * 2 ^ (k - 1) ≤ 2 ^ (F.p + (k - 1)) := by
      rw [show (4 : ℚ) = 2 ^ (2 : ℤ) by norm_num, ← two_zpow_add]; exact two_zpow_le (by omega)
    rcases k4 with rfl | k4
    · refine grid_of_mult (by omega) ((mult_of_grid h2.1).add k2) (le_refl _) (n4.trans ?_)
      rw [show (F.p : ℤ) + (F.emin - F.p + 1) = 1 + (F.p + (F.emin - F.p + 1 - 1)) by ring, two_zpow_add, zpow_one]
      linarith
    · rcases k1.lt_or_eq with k1' | k1'
      · have e3 : (2 : ℚ) ^ (F.p - 1 + k) = 2 * 2 ^ (F.p - 1 + (k - 1)) := by
          rw [show (F.p : ℤ) - 1 + k = 1 + (F.p - 1 + (k - 1)) by ring, two_zpow_add, zpow_one]
        have e4 : (4 : ℚ) * 2 ^ (k - 1) ≤ 2 ^ (F.p - 1 + (k - 1)) := by
          rw [show (4 : ℚ) = 2 ^ (2 : ℤ) by norm_num, ← two_zpow_add]; exact two_zpow_le (by omega)
        have hq : (2 : ℚ) ^ (F.p - 1 + (k - 1)) ≤ |q| := by
          have : |c| ≤ |q + c| + |q| := by
            have e : c = (q + c) - q := by ring
            calc |c| = |(q + c) - q| := by rw [← e]
              _ ≤ _ := abs_sub _ _
          linarith
        exact grid_of_mult (by omega) (k := k - 1) ((mult_of_grid_ge h2.1 hq).add (k2.mono (by omega))) (by omega) (n4.trans (by linarith))
      · rw [← k1'] at n4 k2 e2 p4 hk1
        refine grid_of_mult (by omega) ((mult_of_grid h2.1).add k2) (le_refl _) (n4.trans ?_)
        rw [show (F.p : ℤ) + (F.emin - F.p + 1) = 1 + (F.p + (F.emin - F.p + 1 - 1)) by ring, two_zpow_add, zpow_one]
        linarith
  · rcases le_total 0 c with c0 | c0
    · rw [abs_of_nonneg c0] at hac
      have := two_sum_aux hp ha hc c0 hac.le h1 h2'
      convert this using 1; ring
    · rw [abs_of_nonpos c0] at hac
      have := two_sum_aux hp ha.neg hc.neg (by linarith) (by rw [abs_neg]; exact hac.le) (z := -z) (B := q)
        (by have := h1.neg; convert this using 1; ring) (by convert h2 using 1; ring)
      rw [← grid_neg_iff]
      convert this using 1; ring
  · have := sum_residual (by omega) ha h1.1.neg (by rw [← sub_eq_add_neg]; exact h2)
    rw [← grid_neg_iff]
    convert this using 1; ring
/-! ## Sums of two pairs -/

/-- The low part of a canonical pair is at most half a unit in the last place of the high part. -/
theorem low_part (hp : 1 ≤ F.p) {a aa : ℚ} (ha : F.Grid a) (haa : F.Grid aa) (h : RN F (a + aa) a) {k : ℤ} (k1 : F.emin - F.p + 1 ≤ k)
    (k3 : |a| < 2 ^ (F.p + k)) (k4 : k = F.emin - F.p + 1 ∨ 2 ^ (F.p - 1 + k) ≤ |a|) : |aa| ≤ 2 ^ (k - 1) ∧ |aa| ≤ 2 ^ (-(F.p : ℤ)) * |a| := by
  have h1 : |a + aa| ≤ 2 ^ (F.p + k) := by
    by_contra hc
    push Not at hc
    have := h.le_abs (grid_two_pow hp (by omega)) hc.le
    linarith
  have h2 := h.half_unit hp k1 h1
  rw [add_sub_cancel_left] at h2
  refine ⟨h2, ?_⟩
  rcases k4 with rfl | k4
  · have : aa = 0 := by
      obtain ⟨n, hn⟩ := mult_of_grid haa
      set e := F.emin - F.p + 1 with he
      have hk := two_zpow_pos e
      have e2 : (2 : ℚ) ^ (e - 1) = 1 / 2 * 2 ^ e := by rw [sub_eq_add_neg, two_zpow_add e (-1)]; norm_num; ring
      rw [hn, abs_mul, abs_of_pos hk, e2] at h2
      have h3 := le_of_mul_le_mul_right h2 hk
      have h4 : |(n : ℚ)| < 1 := by linarith
      have h5 : |n| < 1 := by exact_mod_cast h4
      have : n = 0 := Int.abs_lt_one_iff.1 h5
      rw [hn, this]; simp
    rw [this, abs_zero]
    have := two_zpow_pos (-(F.p : ℤ)); positivity
  · have : (2 : ℚ) ^ (k - 1) = 2 ^ (-(F.p : ℤ)) * 2 ^ (F.p - 1 + k) := by rw [← two_zpow_add]; congr 1; ring
    rw [this] at h2
    exact h2.trans (mul_le_mul_of_nonneg_left k4 (two_zpow_pos _).le)

theorem sum_of_units (hp : 4 ≤ F.p) {a aa c cc z w zz : ℚ} (ha : F.Grid a) (haa : F.Grid aa) (hc : F.Grid c) (hcc : F.Grid cc)
    (h1 : RN F (a + aa) a) (h2 : RN F (c + cc) c) (h3 : RN F (a + c) z) (h4 : RN F (a + c - z + aa) w) (h5 : RN F (w + cc) zz) :
    (∃ g, Mult g z ∧ |zz| < 2 ^ (F.p + g)) ∨ |zz| ≤ |z| := by
  obtain ⟨ka, ka1, ka2, ka3, ka4⟩ := exists_unit (by omega) ha
  obtain ⟨kc, kc1, kc2, kc3, kc4⟩ := exists_unit (by omega) hc
  have la := (low_part (by omega) ha haa h1 ka1 ka3 ka4).1
  have lc := (low_part (by omega) hc hcc h2 kc1 kc3 kc4).1
  -- the larger unit bounds everything below the leading parts
  have main : ∀ K : ℤ, F.emin - F.p + 1 ≤ K → ka ≤ K → kc ≤ K → |zz| ≤ 2 ^ (K + 2) := by
    intro K hK hka hkc
    have hK0 := two_zpow_pos K
    have e1 : (2 : ℚ) ^ (F.p + (K + 1)) = 2 * 2 ^ (F.p + K) := by
      rw [show (F.p : ℤ) + (K + 1) = 1 + (F.p + K) by ring, two_zpow_add, zpow_one]
    have n1 : |a + c - z| ≤ 2 ^ K := by
      have t1 : (2 : ℚ) ^ (F.p + ka) ≤ 2 ^ (F.p + K) := two_zpow_le (by omega)
      have t2 : (2 : ℚ) ^ (F.p + kc) ≤ 2 ^ (F.p + K) := two_zpow_le (by omega)
      have := h3.half_unit (k := K + 1) (by omega) (by omega) (by rw [e1]; exact (abs_add_le _ _).trans (by linarith))
      rwa [add_sub_cancel_right] at this
    have e2 : (2 : ℚ) ^ (K + 1) = 2 * 2 ^ K := by rw [two_zpow_add K 1, zpow_one]; ring
    have e3 : (2 : ℚ) ^ (K + 2) = 4 * 2 ^ K := by rw [two_zpow_add K 2]; norm_num; ring
    have la' : |aa| ≤ 2 ^ K := la.trans (two_zpow_le (by omega))
    have lc' : |cc| ≤ 2 ^ K := lc.trans (two_zpow_le (by omega))
    have n2 : |w| ≤ 2 ^ (K + 1) := h4.abs_le (grid_two_pow (by omega) (by omega)) (by rw [e2]; exact (abs_add_le _ _).trans (by linarith))
    exact h5.abs_le (grid_two_pow (by omega) (by omega)) (by rw [e3]; exact (abs_add_le _ _).trans (by linarith))
  -- units far apart: the leading sum dominates
  have far : ∀ {a c : ℚ} {ka kc : ℤ}, F.emin - F.p + 1 ≤ kc → (ka = F.emin - F.p + 1 ∨ 2 ^ (F.p - 1 + ka) ≤ |a|) → |c| < 2 ^ (F.p + kc) →
      RN F (a + c) z → kc + F.p - 2 ≤ ka → |zz| ≤ 2 ^ (ka + 2) → |zz| ≤ |z| := by
    intro a c ka kc kc1 ka4 kc3 h3 hfar hzz
    have ka4 : (2 : ℚ) ^ (F.p - 1 + ka) ≤ |a| := by
      rcases ka4 with e | ka4
      · omega
      · exact ka4
    have t1 : (2 : ℚ) ^ (F.p + kc) ≤ 2 ^ (ka + 2) := two_zpow_le (by omega)
    have t2 : (2 : ℚ) ^ (F.p - 1 + ka) = 2 * 2 ^ (F.p - 2 + ka) := by
      rw [show (F.p : ℤ) - 1 + ka = 1 + (F.p - 2 + ka) by ring, two_zpow_add, zpow_one]
    have t3 : (2 : ℚ) ^ (ka + 2) ≤ 2 ^ (F.p - 2 + ka) := two_zpow_le (by omega)
    have t4 : |a| ≤ |a + c| + |c| := by
      calc |a| = |(a + c) - c| := by rw [add_sub_cancel_right]
        _ ≤ _ := abs_sub _ _
    have := h3.le_abs (grid_two_pow (k := F.p - 2 + ka) (by omega) (by omega)) (by linarith)
    linarith
  rcases le_total kc ka with hk | hk
  · have hzz := main ka ka1 le_rfl hk
    rcases le_or_gt (kc + F.p - 2) ka with hfar | hnear
    · right
      exact far kc1 ka4 kc3 h3 hfar hzz
    · left
      refine ⟨kc, h3.mult (by omega) kc1 ((ka2.mono hk).add kc2), hzz.trans_lt (two_zpow_lt (by omega))⟩
  · have hzz := main kc kc1 hk le_rfl
    rcases le_or_gt (ka + F.p - 2) kc with hfar | hnear
    · right
      exact far ka1 kc4 ka3 (by rw [add_comm]; exact h3) hfar hzz
    · left
      refine ⟨ka, h3.mult (by omega) ka1 (ka2.add (kc2.mono hk)), hzz.trans_lt (two_zpow_lt (by omega))⟩

/-- The error of the rounded low parts, relative to the operands. -/
theorem sum_error (hp : 4 ≤ F.p) {a aa c cc z w zz : ℚ} (ha : F.Grid a) (haa : F.Grid aa) (hc : F.Grid c) (hcc : F.Grid cc)
    (h1 : RN F (a + aa) a) (h2 : RN F (c + cc) c) (h3 : RN F (a + c) z) (h4 : RN F (a + c - z + aa) w) (h5 : RN F (w + cc) zz) :
    |a + c - z| ≤ 2 ^ (-(F.p : ℤ)) * |a + c| ∧ |aa| ≤ 2 ^ (-(F.p : ℤ)) * |a| ∧ |cc| ≤ 2 ^ (-(F.p : ℤ)) * |c| ∧
    |z + zz - (a + aa + (c + cc))| ≤ 5 * (2 ^ (-(F.p : ℤ))) ^ 2 * (|a + aa| + |c + cc|) := by
  obtain ⟨ka, ka1, ka2, ka3, ka4⟩ := exists_unit (by omega) ha
  obtain ⟨kc, kc1, kc2, kc3, kc4⟩ := exists_unit (by omega) hc
  have la := (low_part (by omega) ha haa h1 ka1 ka3 ka4).2
  have lc := (low_part (by omega) hc hcc h2 kc1 kc3 kc4).2
  have n1 := h3.rel (by omega) ((mult_of_grid ha).add (mult_of_grid hc))
  have hr := sum_residual (by omega) ha hc h3
  have n2 := h4.rel (by omega) ((mult_of_grid hr).add (mult_of_grid haa))
  have n3 := h5.rel (by omega) ((mult_of_grid h4.1).add (mult_of_grid hcc))
  refine ⟨n1, la, lc, ?_⟩
  set u : ℚ := 2 ^ (-(F.p : ℤ)) with hu
  have u0 : 0 < u := two_zpow_pos _
  have u1 : u ≤ 1 / 16 := by
    have : u ≤ 2 ^ (-4 : ℤ) := two_zpow_le (by omega)
    norm_num at this ⊢
    exact this
  have t1 : |z + zz - (a + aa + (c + cc))| ≤ |w + cc - zz| + |a + c - z + aa - w| := by
    have : z + zz - (a + aa + (c + cc)) = -(w + cc - zz) - (a + c - z + aa - w) := by ring
    rw [this]
    exact (abs_sub _ _).trans (by rw [abs_neg])
  have t2 : |w| ≤ |a + c - z + aa| + |a + c - z + aa - w| := by
    calc |w| = |(a + c - z + aa) - (a + c - z + aa - w)| := by congr 1; ring
      _ ≤ _ := abs_sub _ _
  have t3 : |w + cc| ≤ |w| + |cc| := abs_add_le _ _
  have t4 : |a + c - z + aa| ≤ |a + c - z| + |aa| := abs_add_le _ _
  have t5 : |a + c| ≤ |a| + |c| := abs_add_le _ _
  have a1 : |a| ≤ |a + aa| + |aa| := by
    calc |a| = |(a + aa) - aa| := by rw [add_sub_cancel_right]
      _ ≤ _ := abs_sub _ _
  have c1 : |c| ≤ |c + cc| + |cc| := by
    calc |c| = |(c + cc) - cc| := by rw [add_sub_cancel_right]
      _ ≤ _ := abs_sub _ _
  generalize |a + c - z + aa - w| = E1 at *
  generalize |w + cc - zz| = E2 at *
  generalize |w + cc| = W2 at *
  generalize |w| = W at *
  generalize |a + c - z + aa| = D at *
  generalize |a + c - z| = E at *
  generalize |a + c| = AC at *
  have A0 : 0 ≤ |a| := abs_nonneg a
  have C0 : 0 ≤ |c| := abs_nonneg c
  generalize |aa| = AA at *
  generalize |cc| = CC at *
  generalize |a| = A at *
  generalize |c| = C at *
  generalize |a + aa| = X at *
  generalize |c + cc| = Y at *
  -- A ≤ 16/15 X
  have a2 : A ≤ 16 / 15 * X := by nlinarith
  have c2 : C ≤ 16 / 15 * Y := by nlinarith
  have d1 : D ≤ u * (2 * A + C) := by nlinarith
  have d2 : E1 ≤ u * (u * (2 * A + C)) := n2.trans (mul_le_mul_of_nonneg_left d1 u0.le)
  have d3 : W2 ≤ u * (17 / 16 * (2 * A + C) + C) := by
    have : u * (u * (2 * A + C)) ≤ u * (1 / 16 * (2 * A + C)) := mul_le_mul_of_nonneg_left (mul_le_mul_of_nonneg_right u1 (by linarith)) u0.le
    linarith
  have d4 : E2 ≤ u * (u * (17 / 16 * (2 * A + C) + C)) := n3.trans (mul_le_mul_of_nonneg_left d3 u0.le)
  have d5 : E2 + E1 ≤ u ^ 2 * (33 / 16 * (2 * A + C) + C) := by linarith
  refine t1.trans (d5.trans ?_)
  have : 33 / 16 * (2 * A + C) + C ≤ 5 * (X + Y) := by linarith
  nlinarith [sq_nonneg u]
/-! ## Products of two pairs -/

/-- Error of rounding any number: half a unit of the smallest numbers, or the relative bound. -/
theorem RN.err (hp : 1 ≤ F.p) {v g : ℚ} (h : RN F v g) : |v - g| ≤ 2 ^ (F.emin - F.p) ∨ |v - g| ≤ 2 ^ (-(F.p : ℤ)) * |v| := by
  rcases le_or_gt |v| (2 ^ (F.p + (F.emin - F.p + 1))) with c | c
  · left
    have := h.half_unit hp (le_refl _) c
    rwa [show F.emin - (F.p : ℤ) + 1 - 1 = F.emin - F.p by ring] at this
  · right
    obtain ⟨n, e, n1, e1, c1, l1, l2⟩ := exists_canonical hp (abs_nonneg v)
    have hu := two_zpow_pos (e - F.p + 1)
    have hlt : |v| < 2 ^ (F.p + (e - F.p + 1)) := by
      refine l2.trans_le ?_
      rw [two_zpow_add F.p, zpow_natCast]
      apply mul_le_mul_of_nonneg_right _ hu.le
      exact_mod_cast n1
    have hge : (2 : ℚ) ^ e ≤ |v| := by
      rcases c1 with c1 | c1
      · refine le_trans ?_ l1
        have : ((2 ^ (F.p - 1) : ℕ) : ℚ) ≤ n := by exact_mod_cast c1
        refine le_trans (le_of_eq ?_) (mul_le_mul_of_nonneg_right this hu.le)
        push_cast
        rw [← zpow_natCast, ← two_zpow_add]; congr 1; omega
      · subst c1
        exact (two_zpow_le (by omega)).trans c.le
    refine (h.half_unit hp (by omega) hlt.le).trans ?_
    have : (2 : ℚ) ^ (e - F.p + 1 - 1) = 2 ^ (-(F.p : ℤ)) * 2 ^ e := by rw [← two_zpow_add]; congr 1; omega
    rw [this]
    exact mul_le_mul_of_nonneg_left hge (two_zpow_pos _).le

set_option maxHeartbeats 1000000 in
/-- The steps of the product of two pairs. -/
theorem prod_error (hp : 4 ≤ F.p) {a b c d t v1 v2 v w : ℚ} (ha : F.Grid a) (hb : F.Grid b) (hc : F.Grid c) (hd : F.Grid d)
    (h1 : RN F (a + b) a) (h2 : RN F (c + d) c) (h3 : RN F (a * c) t) (h4 : RN F (a * d) v1) (h5 : RN F (b * c) v2) (h6 : RN F (v1 + v2) v)
    (h7 : RN F (a * c - t + v) w) (hP : 2 ^ (F.emin + F.p + 1) ≤ |a * c|) :
    F.Grid (a * c - t) ∧ 15 / 16 * |a * c| ≤ |t| ∧ |t| ≤ 17 / 16 * |a * c| ∧ |a * c - t| ≤ |a * c| / 16 ∧ |a * d| ≤ |a * c| / 16 ∧ |b * c| ≤ |a * c| / 16 ∧
    |v1| ≤ |a * c| / 8 ∧ |v2| ≤ |a * c| / 8 ∧ |v| ≤ |a * c| / 2 ∧ |w| ≤ |t| ∧ |w| ≤ |a * c| / 2 ∧
    |a * c| ≤ 2 * |(a + b) * (c + d)| ∧ |(a + b) * (c + d)| ≤ 2 * |a * c| ∧
    |t + w - (a + b) * (c + d)| ≤ 10 * (2 ^ (-(F.p : ℤ))) ^ 2 * |(a + b) * (c + d)| := by
  obtain ⟨ka, ka1, ka2, ka3, ka4⟩ := exists_unit (by omega) ha
  obtain ⟨kc, kc1, kc2, kc3, kc4⟩ := exists_unit (by omega) hc
  have la := (low_part (by omega) ha hb h1 ka1 ka3 ka4).2
  have lc := (low_part (by omega) hc hd h2 kc1 kc3 kc4).2
  -- the product has its last bit above the smallest unit
  have hg : F.doubled.Grid (a * c) := by
    obtain ⟨m, hm⟩ := ka2
    obtain ⟨n, hn⟩ := kc2
    have hka := two_zpow_pos ka
    have hkc := two_zpow_pos kc
    have e1 : a * c = ((m * n : ℤ) : ℚ) * 2 ^ (ka + kc) := by rw [hm, hn, two_zpow_add]; push_cast; ring
    have m1 : |m| < 2 ^ F.p := by
      rw [hm, abs_mul, abs_of_pos hka, two_zpow_add, zpow_natCast] at ka3
      exact_mod_cast lt_of_mul_lt_mul_right ka3 hka.le
    have n1 : |n| < 2 ^ F.p := by
      rw [hn, abs_mul, abs_of_pos hkc, two_zpow_add, zpow_natCast] at kc3
      exact_mod_cast lt_of_mul_lt_mul_right kc3 hkc.le
    refine ⟨m * n, ka + kc, ?_, ?_, e1⟩
    · show |m * n| < 2 ^ (F.p * 2)
      rw [abs_mul, pow_mul, sq]
      exact mul_lt_mul'' m1 n1 (abs_nonneg _) (abs_nonneg _)
    · show F.emin + F.p - ((F.p * 2 : ℕ) : ℤ) + 1 ≤ ka + kc
      have : |a * c| < 2 ^ (F.p + ka + (F.p + kc)) := by
        rw [abs_mul, two_zpow_add (F.p + ka)]
        exact mul_lt_mul'' ka3 kc3 (abs_nonneg _) (abs_nonneg _)
      have := zpow_two_lt_iff (hP.trans_lt this)
      push_cast
      omega
  have hr := grid_residual (by omega) hg h3
  refine ⟨hr, ?_⟩
  set u : ℚ := 2 ^ (-(F.p : ℤ)) with hu
  have u0 : 0 < u := two_zpow_pos _
  have u1 : u ≤ 1 / 16 := by
    have : u ≤ 2 ^ (-4 : ℤ) := two_zpow_le (by omega)
    norm_num at this ⊢
    exact this
  have hsmall : (2 : ℚ) ^ (F.emin - F.p) ≤ u ^ 2 * |a * c| := by
    have : (2 : ℚ) ^ (F.emin - F.p) ≤ u ^ 2 * 2 ^ (F.emin + F.p + 1) := by
      rw [hu, ← zpow_natCast, ← zpow_mul, ← two_zpow_add]
      exact two_zpow_le (by push_cast; omega)
    exact this.trans (mul_le_mul_of_nonneg_left hP (by positivity))
  have hP0 : 0 < |a * c| := (two_zpow_pos _).trans_le hP
  have key : ∀ {v g : ℚ}, RN F v g → |v| ≤ u * |a * c| → |v - g| ≤ u ^ 2 * |a * c| := by
    intro v g h hv
    rcases h.err (by omega) with e | e
    · exact e.trans hsmall
    · refine e.trans ?_
      rw [← hu]
      nlinarith
  have abd : |a * d| ≤ u * |a * c| := by
    rw [abs_mul, abs_mul]
    have := mul_le_mul_of_nonneg_left lc (abs_nonneg a)
    linarith
  have abc : |b * c| ≤ u * |a * c| := by
    rw [abs_mul, abs_mul]
    have := mul_le_mul_of_nonneg_right la (abs_nonneg c)
    linarith
  have abbd : |b * d| ≤ u ^ 2 * |a * c| := by
    rw [abs_mul, abs_mul]
    have := mul_le_mul la lc (abs_nonneg d) (by positivity)
    linarith
  have et : |a * c - t| ≤ u * |a * c| := by
    rcases h3.err (by omega) with e | e
    · refine e.trans (hsmall.trans (mul_le_mul_of_nonneg_right ?_ hP0.le))
      rw [sq]
      exact mul_le_of_le_one_left u0.le (by linarith)
    · exact e
  have e1 := key h4 abd
  have e2 := key h5 abc
  have e3 := h6.rel (by omega) ((mult_of_grid h4.1).add (mult_of_grid h5.1))
  have e4 := h7.rel (by omega) ((mult_of_grid hr).add (mult_of_grid h6.1))
  rw [← hu] at e3 e4
  -- triangle inequalities
  have tri : ∀ x y : ℚ, |y| ≤ |x| + |x - y| := by
    intro x y
    calc |y| = |x - (x - y)| := by congr 1; ring
      _ ≤ _ := abs_sub _ _
  have s1 := tri (a * d) v1
  have s2 := tri (b * c) v2
  have s3 := tri (v1 + v2) v
  have s4 := tri (a * c - t + v) w
  have s5 := tri (a * c) t
  have s6 : |a * c| ≤ |t| + |a * c - t| := by
    have := tri t (a * c)
    rwa [abs_sub_comm t] at this
  have s7 : |v1 + v2| ≤ |v1| + |v2| := abs_add_le _ _
  have s8 : |a * c - t + v| ≤ |a * c - t| + |v| := abs_add_le _ _
  have s9 : |t + w - (a + b) * (c + d)| ≤ |a * c - t + v - w| + (|v1 + v2 - v| + (|a * d - v1| + (|b * c - v2| + |b * d|))) := by
    have : t + w - (a + b) * (c + d) = -((a * c - t + v - w) + ((v1 + v2 - v) + ((a * d - v1) + ((b * c - v2) + b * d)))) := by ring
    rw [this, abs_neg]
    refine (abs_add_le _ _).trans (add_le_add_right ?_ _)
    refine (abs_add_le _ _).trans (add_le_add_right ?_ _)
    refine (abs_add_le _ _).trans (add_le_add_right ?_ _)
    exact abs_add_le _ _
  have s10 : |a * c| ≤ |(a + b) * (c + d)| + (|a * d| + (|b * c| + |b * d|)) := by
    have : a * c = (a + b) * (c + d) - (a * d + (b * c + b * d)) := by ring
    calc |a * c| = |(a + b) * (c + d) - (a * d + (b * c + b * d))| := by rw [← this]
      _ ≤ |(a + b) * (c + d)| + |a * d + (b * c + b * d)| := abs_sub _ _
      _ ≤ _ := by
        refine add_le_add_right ?_ _
        refine (abs_add_le _ _).trans (add_le_add_right ?_ _)
        exact abs_add_le _ _
  have s11 : |(a + b) * (c + d)| ≤ |a * c| + (|a * d| + (|b * c| + |b * d|)) := by
    have : (a + b) * (c + d) = a * c + (a * d + (b * c + b * d)) := by ring
    rw [this]
    refine (abs_add_le _ _).trans (add_le_add_right ?_ _)
    refine (abs_add_le _ _).trans (add_le_add_right ?_ _)
    exact abs_add_le _ _
  generalize |t + w - (a + b) * (c + d)| = ER at *
  generalize |(a + b) * (c + d)| = XY at *
  generalize |a * c - t + v - w| = E4 at *
  generalize |v1 + v2 - v| = E3 at *
  generalize |b * c - v2| = E2 at *
  generalize |a * d - v1| = E1 at *
  generalize |a * c - t + v| = T7 at *
  generalize |a * c - t| = T at *
  generalize |v1 + v2| = V12 at *
  generalize |b * d| = BD at *
  generalize |a * c| = P at *
  generalize |a * d| = AD at *
  generalize |b * c| = BC at *
  generalize |v1| = V1 at *
  generalize |v2| = V2 at *
  generalize |v| = V at *
  generalize |w| = W at *
  generalize |t| = TT at *
  set Q := u * P with hQ
  have Q0 : 0 < Q := by positivity
  have Q1 : Q ≤ P / 16 := by rw [hQ]; nlinarith
  have q2 : u ^ 2 * P = u * Q := by rw [hQ]; ring
  rw [q2] at e1 e2 abbd
  have uQ0 : 0 < u * Q := by positivity
  have uQ : u * Q ≤ Q / 16 := by nlinarith
  have b1 : V1 ≤ 17 / 16 * Q := by linarith
  have b2 : V2 ≤ 17 / 16 * Q := by linarith
  have b3 : V12 ≤ 17 / 8 * Q := by linarith
  have e3' : E3 ≤ 17 / 8 * (u * Q) := e3.trans (by nlinarith)
  have b4 : V ≤ 2.26 * Q := by linarith
  have b5 : T7 ≤ 3.26 * Q := by linarith
  have e4' : E4 ≤ 3.26 * (u * Q) := e4.trans (by nlinarith)
  have b6 : W ≤ 3.5 * Q := by linarith
  have er : ER ≤ 8.4 * (u * Q) := by linarith
  have bp : P ≤ 1.15 * XY := by linarith
  refine ⟨by linarith, by linarith, by linarith, by linarith, by linarith, by linarith, by linarith, by linarith, by linarith, by linarith, by linarith,
    by linarith, er.trans ?_⟩
  rw [hQ]
  nlinarith [sq_nonneg u]

end Apf
