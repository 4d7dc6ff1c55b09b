import Verif.Props.Accumulate
import Verif.Props.Compose
/-! # C95: integer division through floating point division -/

namespace Apf
open Spec IeeeFloat
variable {S : Sem}

/-- Half a step (rounding to nearest) or a whole step (any mode) from a number that a smaller number was rounded up to. -/
theorem up_dist {F : Fmt} {mode : Round} {v c D : ℚ} (h : IsRounded F mode v c) (hv : v < c) (hD : F.Grid (c - D)) (h0 : 0 < D) :
    c - v ≤ D ∧ ((mode = .nearestTiesToEven ∨ mode = .nearestTiesToAway) → c - v ≤ D / 2) := by
  have h1 : c - v ≤ D := by
    by_contra hc
    have := h.le_of_grid hD (by linarith)
    linarith
  refine ⟨h1, fun hm => ?_⟩
  have h2 : |v - c| ≤ |v - (c - D)| := by
    rcases hm with rfl | rfl
    · exact h.2.1 _ hD
    · exact h.2.1 _ hD
  rw [abs_of_neg (by linarith), abs_of_nonneg (by linarith)] at h2
  linarith

theorem down_dist {F : Fmt} {mode : Round} {v c D : ℚ} (h : IsRounded F mode v c) (hv : c < v) (hD : F.Grid (c + D)) (h0 : 0 < D) :
    v - c ≤ D ∧ ((mode = .nearestTiesToEven ∨ mode = .nearestTiesToAway) → v - c ≤ D / 2) := by
  have := up_dist (D := D) h.neg (by linarith) (by have := hD.neg; rwa [neg_add'] at this) h0
  refine ⟨by linarith [this.1], fun hm => ?_⟩
  have := this.2 (by rcases hm with rfl | rfl <;> simp [Round.neg])
  linarith

/-- The number of bits of the dividend for which the quotient is settled: `p` when rounding to nearest, `p - 1` in the directed modes. -/
def DivBits (p : ℕ) (mode : Round) (P : ℕ) : Prop :=
  P = p ∧ (mode = .nearestTiesToEven ∨ mode = .nearestTiesToAway) ∨ P + 1 = p

theorem DivBits.neg {p P : ℕ} {mode : Round} (h : DivBits p mode P) : DivBits p mode.neg P := by
  rcases h with ⟨h, h' | h'⟩ | h
  · exact .inl ⟨h, by simp [h', Round.neg]⟩
  · exact .inl ⟨h, by simp [h', Round.neg]⟩
  · exact .inr h

theorem scaled_le {p P e : ℕ} {mode : Round} {x : ℚ} (hP : DivBits p mode P) {b j : ℤ} (hb : 0 < b) (hx : x = (j : ℚ) / b)
    (h : x ≤ 2 ^ ((e : ℤ) - p) ∧ ((mode = .nearestTiesToEven ∨ mode = .nearestTiesToAway) → x ≤ 2 ^ ((e : ℤ) - p) / 2)) :
    2 * (j * 2 ^ P) ≤ b * 2 ^ e := by
  have hbq : (0 : ℚ) < b := by exact_mod_cast hb
  have key : x ≤ 2 ^ ((e : ℤ) - (P + 1 : ℕ)) := by
    rcases hP with ⟨rfl, hm⟩ | rfl
    · refine (h.2 hm).trans (le_of_eq ?_)
      rw [show (e : ℤ) - P = ((e : ℤ) - (P + 1 : ℕ)) + 1 by push_cast; ring, two_zpow_add]
      ring
    · exact h.1
  rw [hx, div_le_iff₀ hbq, zpow_sub₀ (by norm_num), zpow_natCast, zpow_natCast, div_mul_eq_mul_div, le_div_iff₀ (by positivity)] at key
  have : (((j * 2 ^ (P + 1) : ℤ)) : ℚ) ≤ ((2 ^ e * b : ℤ) : ℚ) := by push_cast; exact key
  have h2 : j * 2 ^ (P + 1) ≤ 2 ^ e * b := by exact_mod_cast this
  rw [pow_succ] at h2
  linarith

/-- The rounded quotient lies strictly between the same two integers as the exact one. -/
theorem quotient_pos (h : S.OK) {mode : Round} {P : ℕ} (hP : DivBits S.precision mode P) {a b : ℤ} (ha : 0 < a) (hb : 0 < b) (haP : a ≤ 2 ^ P)
    (hbp : b ≤ 2 ^ S.precision) (hd : ¬ b ∣ a) {g : ℚ} (hg : IsRounded S.fmt mode ((a : ℚ) / b) g) :
    ∃ n : ℤ, (n : ℚ) < a / b ∧ (a : ℚ) / b < n + 1 ∧ (n : ℚ) < g ∧ g < n + 1 := by
  have h3 := h.p_ge; have hmin := h.min_lt
  have ep : S.fmt.p = S.precision := rfl
  have ee : S.fmt.emin = S.minExp := rfl
  have hPp : P ≤ S.precision := by rcases hP with ⟨h, -⟩ | h <;> omega
  have hP1 : 1 ≤ P := by rcases hP with ⟨h, -⟩ | h <;> omega
  have hbq : (0 : ℚ) < b := by exact_mod_cast hb
  obtain ⟨n, hn⟩ : ∃ n, n = a / b := ⟨_, rfl⟩
  obtain ⟨j, hj⟩ : ∃ j, j = a % b := ⟨_, rfl⟩
  have e1 : a = b * n + j := by rw [hn, hj]; exact (Int.mul_ediv_add_emod a b).symm
  have j0 : 0 ≤ j := by rw [hj]; exact Int.emod_nonneg _ hb.ne'
  have jb : j < b := by rw [hj]; exact Int.emod_lt_of_pos _ hb
  have j1 : 0 < j := by
    rcases j0.lt_or_eq with c | c
    · exact c
    · exact absurd (Dvd.intro n (by rw [e1, ← c]; ring)) hd
  have n0 : 0 ≤ n := by rw [hn]; exact Int.ediv_nonneg ha.le hb.le
  have v1 : (a : ℚ) / b - n = (j : ℚ) / b := by rw [e1]; push_cast; field_simp; ring
  have v2 : (n : ℚ) + 1 - a / b = ((b - j : ℤ) : ℚ) / b := by rw [e1]; push_cast; field_simp; ring
  have vlo : (n : ℚ) < a / b := by
    have : 0 < (j : ℚ) / b := div_pos (by exact_mod_cast j1) hbq
    linarith
  have vhi : (a : ℚ) / b < n + 1 := by
    have : 0 < ((b - j : ℤ) : ℚ) / b := div_pos (by exact_mod_cast (by omega : 0 < b - j)) hbq
    linarith
  have nP : n + 1 ≤ 2 ^ P := by
    have : n * 1 ≤ n * b := mul_le_mul_of_nonneg_left (by omega) n0
    rw [mul_comm n b] at this
    omega
  have hPQ : (2 : ℤ) ^ P ≤ 2 ^ S.precision := pow_le_pow_right₀ (by norm_num) hPp
  have Q2 : (2 : ℤ) ≤ 2 ^ P := by
    have : (2 : ℤ) ^ 1 ≤ 2 ^ P := pow_le_pow_right₀ (by norm_num) hP1
    simpa using this
  have gn : S.fmt.Grid (n : ℚ) := grid_int h (by rw [abs_of_nonneg n0]; omega)
  have gn1 : S.fmt.Grid ((n : ℚ) + 1) := by
    have := grid_int h (n := n + 1) (by rw [abs_of_nonneg (by omega)]; omega)
    push_cast at this; exact this
  refine ⟨n, vlo, vhi, lt_of_le_of_ne (hg.ge_of_grid gn vlo.le) ?_, lt_of_le_of_ne (hg.le_of_grid gn1 vhi.le) ?_⟩
  · intro hc
    rcases n0.lt_or_eq with c | c
    · -- the rounding down to `n ≥ 1`
      obtain ⟨m, rfl⟩ := Int.eq_ofNat_of_zero_le n0
      obtain ⟨e, he⟩ : ∃ e, e = Nat.log 2 m := ⟨_, rfl⟩
      have l1 : 2 ^ e ≤ m := by rw [he]; exact Nat.pow_log_le_self 2 (by omega)
      have l2 : m < 2 ^ (e + 1) := by rw [he]; exact Nat.lt_pow_succ_log_self (by norm_num) m
      have l1' : (2 : ℤ) ^ e ≤ m := by exact_mod_cast l1
      have eP : e < P := by
        have : (2 : ℤ) ^ e < 2 ^ P := by omega
        exact (pow_lt_pow_iff_right₀ (by norm_num)).1 this
      have gd : S.fmt.Grid ((m : ℤ) + (2 : ℚ) ^ ((e : ℤ) + 1 - S.precision)) := by
        refine grid_of_mult (by rw [ep]; omega) (k := (e : ℤ) + 1 - S.precision) (Mult.add ?_ ⟨1, by simp⟩) (by rw [ep, ee]; omega) ?_
        · exact Mult.mono (k := 0) ⟨m, by simp⟩ (by omega)
        · rw [ep, show ((S.precision : ℤ) + (e + 1 - S.precision)) = ((e + 1 : ℕ) : ℤ) by push_cast; ring, zpow_natCast]
          have : (2 : ℚ) ^ ((e : ℤ) + 1 - S.precision) ≤ 2 ^ (0 : ℤ) := two_zpow_le (by omega)
          rw [zpow_zero] at this
          have p0 := two_zpow_pos ((e : ℤ) + 1 - S.precision)
          have l3 : ((m : ℤ) : ℚ) + 1 ≤ 2 ^ (e + 1) := by exact_mod_cast l2
          have l4 : (0 : ℚ) ≤ ((m : ℤ) : ℚ) := by exact_mod_cast n0
          rw [abs_of_nonneg (by linarith)]
          linarith
      have := scaled_le (e := e + 1) hP hb (x := (a : ℚ) / b - (m : ℤ)) v1
        (by have := down_dist (hc ▸ hg) vlo gd (two_zpow_pos _); push_cast at this ⊢; exact this)
      rw [pow_succ] at this
      have t1 : j * 2 ^ P ≤ b * 2 ^ e := by linarith
      have t2 : 1 * (2 : ℤ) ^ P ≤ j * 2 ^ P := mul_le_mul_of_nonneg_right (by omega) (by positivity)
      have t3 : b * (2 : ℤ) ^ e ≤ b * m := mul_le_mul_of_nonneg_left l1' hb.le
      omega
    · rw [← c] at hc
      have t : (2 : ℚ) ^ (S.minExp - S.precision + 1) ≤ a / b := by
        have : (1 : ℚ) / 2 ^ S.precision ≤ a / b := by
          apply div_le_div₀ (by exact_mod_cast ha.le) (by exact_mod_cast (by omega : 1 ≤ a)) hbq (by exact_mod_cast hbp)
        refine le_trans ?_ this
        rw [one_div, ← zpow_natCast, ← zpow_neg]
        exact two_zpow_le (by omega)
      have := hg.ge_of_grid (c := (2 : ℚ) ^ (S.minExp - S.precision + 1))
        (grid_of_mult (by rw [ep]; omega) (k := S.minExp - S.precision + 1) ⟨1, by simp⟩ (by rw [ep, ee]) (by
          rw [abs_of_pos (two_zpow_pos _)]; exact two_zpow_le (by rw [ep]; omega))) t
      have p0 := two_zpow_pos (S.minExp - S.precision + 1)
      rw [← hc] at this
      push_cast at this
      linarith
  · intro hc
    rcases n0.lt_or_eq with c | c
    · obtain ⟨m, rfl⟩ := Int.eq_ofNat_of_zero_le n0
      obtain ⟨e, he⟩ : ∃ e, e = Nat.log 2 m := ⟨_, rfl⟩
      have l1 : 2 ^ e ≤ m := by rw [he]; exact Nat.pow_log_le_self 2 (by omega)
      have l2 : m < 2 ^ (e + 1) := by rw [he]; exact Nat.lt_pow_succ_log_self (by norm_num) m
      have l1' : (2 : ℤ) ^ e ≤ m := by exact_mod_cast l1
      have eP' : (2 : ℤ) ^ e < 2 ^ P := by omega
      have eP : e < P := (pow_lt_pow_iff_right₀ (by norm_num)).1 eP'
      have gd : S.fmt.Grid ((m : ℤ) + 1 - (2 : ℚ) ^ ((e : ℤ) + 1 - S.precision)) := by
        refine grid_of_mult (by rw [ep]; omega) (k := (e : ℤ) + 1 - S.precision) (Mult.sub ?_ ⟨1, by simp⟩) (by rw [ep, ee]; omega) ?_
        · exact Mult.mono (k := 0) ⟨m + 1, by simp⟩ (by omega)
        · rw [ep, show ((S.precision : ℤ) + (e + 1 - S.precision)) = ((e + 1 : ℕ) : ℤ) by push_cast; ring, zpow_natCast]
          have : (2 : ℚ) ^ ((e : ℤ) + 1 - S.precision) ≤ 2 ^ (0 : ℤ) := two_zpow_le (by omega)
          rw [zpow_zero] at this
          have p0 := two_zpow_pos ((e : ℤ) + 1 - S.precision)
          have l3 : ((m : ℤ) : ℚ) + 1 ≤ 2 ^ (e + 1) := by exact_mod_cast l2
          have l4 : (0 : ℚ) ≤ ((m : ℤ) : ℚ) := by exact_mod_cast n0
          rw [abs_of_nonneg (by linarith)]
          linarith
      have := scaled_le (e := e + 1) hP hb (x := ((m : ℤ) : ℚ) + 1 - a / b) v2
        (by have := up_dist (hc ▸ hg) vhi gd (two_zpow_pos _); push_cast at this ⊢; exact this)
      rw [pow_succ] at this
      have t1 : (b - j) * 2 ^ P ≤ b * 2 ^ e := by linarith
      have t2 : 1 * (2 : ℤ) ^ P ≤ (b - j) * 2 ^ P := mul_le_mul_of_nonneg_right (by omega) (by positivity)
      have t3 : b * (2 : ℤ) ^ e ≤ b * m := mul_le_mul_of_nonneg_left l1' hb.le
      omega
    · have gd : S.fmt.Grid (((n : ℤ) : ℚ) + 1 - (2 : ℚ) ^ (((0 : ℕ) : ℤ) - S.precision)) := by
        rw [← c]
        refine grid_of_mult (by rw [ep]; omega) (k := ((0 : ℕ) : ℤ) - S.precision) (Mult.sub ?_ ⟨1, by simp⟩) (by rw [ep, ee]; push_cast; omega) ?_
        · exact Mult.mono (k := 0) ⟨1, by simp⟩ (by push_cast; omega)
        · rw [ep]
          have : (2 : ℚ) ^ (((0 : ℕ) : ℤ) - S.precision) ≤ 2 ^ (0 : ℤ) := two_zpow_le (by push_cast; omega)
          have p0 := two_zpow_pos (((0 : ℕ) : ℤ) - S.precision)
          rw [zpow_zero] at this
          rw [show ((S.precision : ℤ) + (((0 : ℕ) : ℤ) - S.precision)) = 0 by push_cast; ring, zpow_zero]
          push_cast at *
          rw [abs_of_nonneg (by linarith)]
          linarith
      have := scaled_le (e := 0) hP hb (x := ((n : ℤ) : ℚ) + 1 - a / b) v2 (up_dist (hc ▸ hg) vhi gd (two_zpow_pos _))
      have t2 : 1 * (2 : ℤ) ^ P ≤ (b - j) * 2 ^ P := mul_le_mul_of_nonneg_right (by omega) (by positivity)
      rw [pow_zero] at this
      rw [← c] at e1
      have t4 : (b - j) * 2 ≤ (b - j) * 2 ^ P := mul_le_mul_of_nonneg_left Q2 (by omega)
      have e2 : a = j := by rw [e1]; ring
      omega

/-- The exact quotient of two integers and its rounding are the same integer, or lie strictly between the same two neighbouring integers. -/
theorem quotient_same (h : S.OK) {mode : Round} {P : ℕ} (hP : DivBits S.precision mode P) {a b : ℤ} (hb : b ≠ 0) (haP : |a| ≤ 2 ^ P)
    (hbp : |b| ≤ 2 ^ S.precision) {g : ℚ} (hg : IsRounded S.fmt mode ((a : ℚ) / b) g) :
    ∃ n : ℤ, ((a : ℚ) / b = n ∧ g = n) ∨ ((n : ℚ) < a / b ∧ (a : ℚ) / b < n + 1 ∧ (n : ℚ) < g ∧ g < n + 1) := by
  have hbq : (b : ℚ) ≠ 0 := by exact_mod_cast hb
  have hPp : P ≤ S.precision := by rcases hP with ⟨h, -⟩ | h <;> omega
  have hPQ : (2 : ℤ) ^ P ≤ 2 ^ S.precision := pow_le_pow_right₀ (by norm_num) hPp
  by_cases hd : b ∣ a
  · obtain ⟨k, rfl⟩ := hd
    have e : ((b * k : ℤ) : ℚ) / b = k := by push_cast; field_simp
    rw [e] at hg ⊢
    refine ⟨k, .inl ⟨rfl, hg.unique (isRounded_self mode (grid_int h ?_))⟩⟩
    rw [abs_mul] at haP
    have : 1 * |k| ≤ |b| * |k| := mul_le_mul_of_nonneg_right (Int.one_le_abs hb) (abs_nonneg _)
    omega
  · have a0 : a ≠ 0 := fun c => hd (c ▸ dvd_zero b)
    have hd' : ¬ |b| ∣ |a| := by rwa [abs_dvd_abs]
    have core : ∀ {m : Round} {g : ℚ}, DivBits S.precision m P → IsRounded S.fmt m (((|a| : ℤ) : ℚ) / ((|b| : ℤ) : ℚ)) g → _ :=
      fun {m g} hP hg => quotient_pos h hP (abs_pos.2 a0) (abs_pos.2 hb) haP hbp hd' hg
    have flip : ((a : ℚ) / b = -(((|a| : ℤ) : ℚ) / ((|b| : ℤ) : ℚ))) →
        ∃ n : ℤ, ((a : ℚ) / b = n ∧ g = n) ∨ ((n : ℚ) < a / b ∧ (a : ℚ) / b < n + 1 ∧ (n : ℚ) < g ∧ g < n + 1) := by
      intro e
      have hg' := hg.neg
      rw [e, neg_neg] at hg'
      obtain ⟨n, n1, n2, n3, n4⟩ := core hP.neg hg'
      refine ⟨-(n + 1), .inr ?_⟩
      rw [e]
      push_cast at n1 n2 ⊢
      refine ⟨?_, ?_, ?_, ?_⟩ <;> linarith
    have keep : ((a : ℚ) / b = ((|a| : ℤ) : ℚ) / ((|b| : ℤ) : ℚ)) →
        ∃ n : ℤ, ((a : ℚ) / b = n ∧ g = n) ∨ ((n : ℚ) < a / b ∧ (a : ℚ) / b < n + 1 ∧ (n : ℚ) < g ∧ g < n + 1) := by
      intro e
      rw [e] at hg ⊢
      obtain ⟨n, hn⟩ := core hP hg
      exact ⟨n, .inr hn⟩
    rcases lt_or_gt_of_ne a0 with ca | ca <;> rcases lt_or_gt_of_ne hb with cb | cb
    · exact keep (by rw [abs_of_neg ca, abs_of_neg cb]; push_cast; field_simp)
    · exact flip (by rw [abs_of_neg ca, abs_of_pos cb]; push_cast; field_simp)
    · exact flip (by rw [abs_of_pos ca, abs_of_neg cb]; push_cast; field_simp)
    · exact keep (by rw [abs_of_pos ca, abs_of_pos cb])

/-- Numbers on the same side of every integer have the same directed roundings to integers. -/
theorem directed_same {v g : ℚ} (hs : ∃ n : ℤ, (v = n ∧ g = n) ∨ ((n : ℚ) < v ∧ v < n + 1 ∧ (n : ℚ) < g ∧ g < n + 1)) {m : Round}
    (hm : m = .towardZero ∨ m = .towardPositive ∨ m = .towardNegative) {k : ℤ} (hk : RoundsToInt m g k) :
    RoundsToInt m v k ∧ ((k : ℚ) = g ↔ (k : ℚ) = v) := by
  obtain ⟨n, ⟨rfl, rfl⟩ | ⟨n1, n2, n3, n4⟩⟩ := hs
  · exact ⟨hk, Iff.rfl⟩
  · have key : ∀ i : ℤ, ((i : ℚ) ≤ g ↔ (i : ℚ) ≤ v) ∧ (g ≤ i ↔ v ≤ i) ∧ (g < i ↔ v < i) ∧ ((i : ℚ) < g ↔ (i : ℚ) < v) := by
      intro i
      rcases le_or_gt i n with c | c
      · have : (i : ℚ) ≤ n := by exact_mod_cast c
        refine ⟨⟨fun _ => by linarith, fun _ => by linarith⟩, ⟨fun _ => by linarith, fun _ => by linarith⟩, ⟨fun _ => by linarith, fun _ => by linarith⟩,
          fun _ => by linarith, fun _ => by linarith⟩
      · have : (n : ℚ) + 1 ≤ i := by exact_mod_cast c
        refine ⟨⟨fun _ => by linarith, fun _ => by linarith⟩, ⟨fun _ => by linarith, fun _ => by linarith⟩, ⟨fun _ => by linarith, fun _ => by linarith⟩,
          fun _ => by linarith, fun _ => by linarith⟩
    have kk := key k
    have kp := key (k + 1)
    have km := key (k - 1)
    have k0 := key 0
    push_cast at kp km k0
    constructor
    · rcases hm with rfl | rfl | rfl
      · exact ⟨fun h => ⟨kk.1.1 (hk.1 (k0.1.2 h)).1, kp.2.2.1.1 (hk.1 (k0.1.2 h)).2⟩,
          fun h => ⟨km.2.2.2.1 (hk.2 (k0.2.1.2 h)).1, kk.2.1.1 (hk.2 (k0.2.1.2 h)).2⟩⟩
      · exact ⟨km.2.2.2.1 hk.1, kk.2.1.1 hk.2⟩
      · exact ⟨kk.1.1 hk.1, kp.2.2.1.1 hk.2⟩
    · rw [le_antisymm_iff, le_antisymm_iff, kk.1, kk.2.1]

theorem quotient_le {a b : ℤ} (hb : b ≠ 0) : |(a : ℚ) / b| ≤ |(a : ℚ)| := by
  rw [abs_div]
  exact div_le_self (abs_nonneg _) (by exact_mod_cast Int.one_le_abs hb)

/-- The division in C95: what it delivers. -/
theorem divR_integers (h : S.OK) {x y : IeeeFloat S} (hx : x.Valid) (hy : y.Valid) (fx : x.isFinite = true) (fy : y.isFinite = true)
    {a b : ℤ} (ex : x.toRat = a) (ey : y.toRat = b) (hb : b ≠ 0) {mode : Round} {P : ℕ} (hP : DivBits S.precision mode P) (ha : |a| ≤ 2 ^ P)
    (hb' : |b| ≤ 2 ^ S.precision) :
    ∃ q, divR x y mode = .ok q ∧ q.value.Valid ∧ q.value.isFinite = true ∧ q.value.sign = xor x.sign y.sign ∧
      ∃ n : ℤ, ((a : ℚ) / b = n ∧ q.value.toRat = n) ∨ ((n : ℚ) < a / b ∧ (a : ℚ) / b < n + 1 ∧ (n : ℚ) < q.value.toRat ∧ q.value.toRat < n + 1) := by
  have hPp : P ≤ S.precision := by rcases hP with ⟨h, -⟩ | h <;> omega
  have hPQ : (2 : ℚ) ^ P ≤ 2 ^ S.precision := pow_le_pow_right₀ (by norm_num) hPp
  have haq : |(a : ℚ)| ≤ 2 ^ P := by exact_mod_cast ha
  have hv : |x.toRat / y.toRat| ≤ S.fmt.largest := by
    rw [ex, ey]
    exact ((quotient_le hb).trans haq).trans (hPQ.trans (pow_le_largest h))
  obtain ⟨q, q1, q2, q3⟩ := divR_finite h hx hy fx fy (by rw [ey]; exact_mod_cast hb) mode (directedOK_of_ge h mode (_root_.abs_le.1 hv).1)
  obtain ⟨f, i, -⟩ := rounds_fine h q3 hv
  rw [ex, ey] at i
  obtain ⟨q', s1, s2⟩ := C09_div_sign h hx hy mode (by rcases isFinite_iff.1 fx with c | c <;> rw [c] <;> decide)
    (by rcases isFinite_iff.1 fy with c | c <;> rw [c] <;> decide)
  rw [q1] at s1
  cases s1
  exact ⟨q, q1, q2, f, s2 (by rcases isFinite_iff.1 f with c | c <;> rw [c] <;> decide), quotient_same h hP hb ha hb' i⟩
/-- **C95.** The size of the dividend: `2^p` when the division rounds to nearest, `2^(p-1)` in every mode. -/
def DividendOK (p : ℕ) (mode : Round) (a : ℤ) : Prop :=
  ((mode = .nearestTiesToEven ∨ mode = .nearestTiesToAway) ∧ |a| ≤ 2 ^ p) ∨ |a| ≤ 2 ^ (p - 1)

theorem DividendOK.bits {p : ℕ} (hp : 1 ≤ p) {mode : Round} {a : ℤ} (h : DividendOK p mode a) : ∃ P, DivBits p mode P ∧ |a| ≤ 2 ^ P := by
  rcases h with ⟨hm, h⟩ | h
  · exact ⟨p, .inl ⟨rfl, hm⟩, h⟩
  · exact ⟨p - 1, .inr (by omega), h⟩

theorem rounds_tdiv {a b : ℤ} (hb : b ≠ 0) : RoundsToInt .towardZero ((a : ℚ) / b) (a.tdiv b) := by
  have e := Int.mul_tdiv_add_tmod a b
  refine trunc_of_rem (r := (a.tmod b : ℚ)) (by exact_mod_cast hb) ?_ ?_ ?_ ?_
  · rw [eq_sub_iff_add_eq]
    have : a.tmod b + a.tdiv b * b = a := by linarith [mul_comm b (a.tdiv b)]
    exact_mod_cast this
  · have h1 : |a.tmod b| < |b| := by
      have : (a.tmod b).natAbs < b.natAbs := by
        rw [Int.natAbs_tmod]
        exact Nat.mod_lt _ (by omega)
      rw [Int.abs_eq_natAbs, Int.abs_eq_natAbs]; exact_mod_cast this
    exact_mod_cast h1
  · intro h
    have h' : 0 ≤ a := by exact_mod_cast h
    exact_mod_cast Int.tmod_nonneg b h'
  · intro h
    have h' : a ≤ 0 := by exact_mod_cast h
    have h2 := Int.tmod_nonneg b (a := -a) (by omega)
    rw [Int.neg_tmod] at h2
    exact_mod_cast (by omega : a.tmod b ≤ 0)

/-- **C95.** Dividing two integers in floating point and converting the quotient to an integer toward zero, up or down is the same as converting the exact
quotient once: same integer, same flags. -/
theorem C95_quotient (h : S.OK) {x y : IeeeFloat S} (hx : x.Valid) (hy : y.Valid) (fx : x.isFinite = true) (fy : y.isFinite = true)
    {a b : ℤ} (ex : x.toRat = a) (ey : y.toRat = b) (hb : b ≠ 0) {mode : Round} (ha : DividendOK S.precision mode a) (hb' : |b| ≤ 2 ^ S.precision)
    {m : Round} (hm : m = .towardZero ∨ m = .towardPositive ∨ m = .towardNegative) :
    ∃ q, divR x y mode = .ok q ∧
      (∃ t n, roundToIntegral q.value m = .ok t ∧ RoundsToInt m ((a : ℚ) / b) n ∧ t.value.isFinite = true ∧ t.value.toRat = n ∧
        t.status = { inexact := decide ((n : ℚ) ≠ a / b) }) ∧
      (∀ w, 2 ≤ w → w ≤ 128 → ∃ r, toI128R q.value w m = .ok r ∧
        ConvertsToInt (-2 ^ (w - 1)) (2 ^ (w - 1) - 1) m ((a : ℚ) / b) r.status r.value r.isExact) ∧
      (∀ w, 1 ≤ w → w ≤ 128 → 0 < a → 0 < b → ∃ r, toU128R q.value w m = .ok r ∧
        ConvertsToInt 0 (2 ^ w - 1) m ((a : ℚ) / b) r.status r.value r.isExact) := by
  obtain ⟨P, hP, haP⟩ := ha.bits (by have := h.p_ge; omega)
  obtain ⟨q, q1, q2, q3, q4, q5⟩ := divR_integers h hx hy fx fy ex ey hb hP haP hb'
  have conv : ∀ {lo hi : ℤ} {st : Status} {v : ℤ} {e : Bool}, ConvertsToInt lo hi m q.value.toRat st v e → ConvertsToInt lo hi m ((a : ℚ) / b) st v e := by
    rintro lo hi st v e ⟨n, n1, n2⟩
    obtain ⟨d1, d2⟩ := directed_same q5 hm n1
    refine ⟨n, d1, ?_⟩
    rcases n2 with ⟨i1, i2, i3, i4, i5⟩ | n2 | n2
    · exact .inl ⟨i1, i2, i3, i4.trans d2, by rw [i5]; simp only [ne_eq, d2]⟩
    · exact .inr (.inl n2)
    · exact .inr (.inr n2)
  refine ⟨q, q1, ?_, fun w w1 w2 => ?_, fun w w1 w2 a0 b0 => ?_⟩
  · obtain ⟨t, t1, t2, t3, t4, n, t5, t6, t7⟩ := C13_round_to_integral h q2 q3 m
    obtain ⟨d1, d2⟩ := directed_same q5 hm t5
    exact ⟨t, n, t1, d1, t3, t6, by rw [t7]; simp only [ne_eq, d2]⟩
  · obtain ⟨r, r1, r2⟩ := C19_to_i128 h q2 q3 w1 w2 m
    exact ⟨r, r1, conv r2⟩
  · obtain ⟨r, r1, r2⟩ := C18_to_u128 h q2 q3 (fun hc => by
      have hz : q.value.toRat = 0 := toRat_zero (by simpa [isZero] using hc.1)
      have vp : (0 : ℚ) < a / b := div_pos (by exact_mod_cast a0) (by exact_mod_cast b0)
      obtain ⟨n, ⟨n1, n2⟩ | ⟨n1, n2, n3, n4⟩⟩ := q5
      · rw [hz] at n2; rw [n1, ← n2] at vp; exact lt_irrefl _ vp
      · rw [hz] at n3 n4
        have c1 : n < 0 := by exact_mod_cast n3
        have c2 : (n : ℚ) + 1 ≤ 0 := by exact_mod_cast c1
        linarith) w1 w2 m
    exact ⟨r, r1, conv r2⟩

/-- **C95.** Integer division of `i128` values through floating point: convert both, divide, convert back toward zero. -/
theorem C95_int_div (h : S.OK) {a b : ℤ} (a1 : -2 ^ 127 ≤ a) (a2 : a < 2 ^ 127) (b1 : -2 ^ 127 ≤ b) (b2 : b < 2 ^ 127) (hb : b ≠ 0)
    {mode : Round} (ha : DividendOK S.precision mode a) (hb' : |b| ≤ 2 ^ S.precision) (m1 m2 : Round) {w : ℕ} (w1 : 2 ≤ w) (w2 : w ≤ 128)
    (hw : |a| < 2 ^ (w - 1)) :
    ∃ x y q r, fromI128R S a m1 = .ok x ∧ fromI128R S b m2 = .ok y ∧ divR x.value y.value mode = .ok q ∧
      toI128R q.value w .towardZero = .ok r ∧ r.value = a.tdiv b ∧ (r.isExact = true ↔ b ∣ a) ∧ r.status = { inexact := !decide (b ∣ a) } := by
  have h3 := h.p_ge
  have ha' : |a| ≤ 2 ^ S.precision := by
    rcases ha with ⟨-, c⟩ | c
    · exact c
    · exact c.trans (pow_le_pow_right₀ (by norm_num) (by omega))
  have hL := pow_le_largest h
  obtain ⟨x, x1, x2, x3⟩ := C17_from_i128 h a1 a2 m1
  obtain ⟨y, y1, y2, y3⟩ := C17_from_i128 h b1 b2 m2
  obtain ⟨fx, ex, -⟩ := exact_step h x3 (grid_int h ha') ((by exact_mod_cast ha' : |(a : ℚ)| ≤ 2 ^ S.precision).trans hL)
  obtain ⟨fy, ey, -⟩ := exact_step h y3 (grid_int h hb') ((by exact_mod_cast hb' : |(b : ℚ)| ≤ 2 ^ S.precision).trans hL)
  obtain ⟨q, q1, -, q2, -⟩ := C95_quotient h x2 y2 fx fy ex ey hb ha hb' (m := .towardZero) (.inl rfl)
  obtain ⟨r, r1, n, r2, r3⟩ := q2 w w1 w2
  have e := r2.unique (rounds_tdiv hb)
  subst e
  have hn : |a.tdiv b| ≤ |a| := by
    have : (a.tdiv b).natAbs ≤ a.natAbs := by rw [Int.natAbs_tdiv]; exact Nat.div_le_self _ _
    rw [Int.abs_eq_natAbs, Int.abs_eq_natAbs]; exact_mod_cast this
  have hn' := abs_lt.1 (lt_of_le_of_lt hn hw)
  have hdv : ((a.tdiv b : ℤ) : ℚ) = a / b ↔ b ∣ a := by
    have hbq : (b : ℚ) ≠ 0 := by exact_mod_cast hb
    rw [eq_div_iff hbq]
    constructor
    · intro e
      exact ⟨a.tdiv b, by rw [mul_comm]; exact_mod_cast e.symm⟩
    · intro e
      exact_mod_cast Int.tdiv_mul_cancel e
  refine ⟨x, y, q, r, x1, y1, q1, r1, ?_⟩
  rcases r3 with ⟨i1, i2, i3, i4, i5⟩ | ⟨i1, -⟩ | ⟨i1, -⟩
  · refine ⟨i3, i4.trans hdv, ?_⟩
    rw [i5]
    simp only [ne_eq, hdv, decide_not]
  · omega
  · omega

/-- **C95.** The remainder of two integers is the integer remainder, without flags; so is what is left after subtracting the truncated quotient times
the divisor, in any rounding modes. -/
theorem C95_remainder (h : S.OK) {x y : IeeeFloat S} (hx : x.Valid) (hy : y.Valid) (fx : x.isFinite = true) (fy : y.isFinite = true)
    {a b : ℤ} (ex : x.toRat = a) (ey : y.toRat = b) (hb : b ≠ 0) :
    (∃ r, cFmod x y = .ok ⟨Status.OK, r⟩ ∧ r.Valid ∧ r.isFinite = true ∧ r.toRat = (a.tmod b : ℤ)) ∧
    (∀ {mode : Round}, DividendOK S.precision mode a → |b| ≤ 2 ^ S.precision → ∀ m1 m2 : Round, ∃ q t p r, divR x y mode = .ok q ∧
      roundToIntegral q.value .towardZero = .ok t ∧ mulR t.value y m1 = .ok p ∧ subR x p.value m2 = .ok r ∧
      p.status = Status.OK ∧ r.status = Status.OK ∧ r.value.toRat = (a.tmod b : ℤ)) := by
  have e := Int.mul_tdiv_add_tmod a b
  constructor
  · obtain ⟨r, r1, r2, r3, r4, n, r5, r6⟩ := C23_c_fmod h hx hy fx fy (by rw [ey]; exact_mod_cast hb)
    rw [ex, ey] at r5 r6
    have := r5.unique (rounds_tdiv hb)
    subst this
    refine ⟨r, r1, r2, r3, ?_⟩
    rw [r6, sub_eq_iff_eq_add]
    have : a = a.tmod b + a.tdiv b * b := by linarith [mul_comm b (a.tdiv b)]
    exact_mod_cast this
  · intro mode ha hb' m1 m2
    have h3 := h.p_ge
    have hL := pow_le_largest h
    have ha' : |a| ≤ 2 ^ S.precision := by
      rcases ha with ⟨-, c⟩ | c
      · exact c
      · exact c.trans (pow_le_pow_right₀ (by norm_num) (by omega))
    obtain ⟨q, q1, ⟨t, n, t1, t2, t3, t4, -⟩, -⟩ := C95_quotient h hx hy fx fy ex ey hb ha hb' (m := .towardZero) (.inl rfl)
    have en := t2.unique (rounds_tdiv hb)
    subst en
    have vt : t.value.Valid := by
      obtain ⟨P, hP, haP⟩ := ha.bits (by omega)
      obtain ⟨q', q1', q2', q3', -⟩ := divR_integers h hx hy fx fy ex ey hb hP haP hb'
      rw [q1] at q1'
      cases q1'
      obtain ⟨t', t1', t2', -⟩ := C13_round_to_integral h q2' q3' .towardZero
      rw [t1] at t1'
      cases t1'
      exact t2'
    have hm : |a.tmod b| ≤ |a| := by
      have : (a.tmod b).natAbs ≤ a.natAbs := by rw [Int.natAbs_tmod]; exact Nat.mod_le _ _
      rw [Int.abs_eq_natAbs, Int.abs_eq_natAbs]; exact_mod_cast this
    have hp : |a.tdiv b * b| ≤ |a| := by
      have : (a.tdiv b * b).natAbs ≤ a.natAbs := by rw [Int.natAbs_mul, Int.natAbs_tdiv]; exact Nat.div_mul_le_self _ _
      rw [Int.abs_eq_natAbs, Int.abs_eq_natAbs]; exact_mod_cast this
    have e1 : t.value.toRat * y.toRat = ((a.tdiv b * b : ℤ) : ℚ) := by rw [t4, ey]; push_cast; rfl
    have c1 : |t.value.toRat * y.toRat| ≤ S.fmt.largest := by
      rw [e1]
      exact (by exact_mod_cast hp.trans ha' : |((a.tdiv b * b : ℤ) : ℚ)| ≤ 2 ^ S.precision).trans hL
    obtain ⟨p, p1, p2, p3⟩ := mulR_finite h vt hy t3 fy m1 (directedOK_of_ge h m1 (_root_.abs_le.1 c1).1)
    obtain ⟨p4, p5, p6⟩ := exact_step h p3 (by rw [e1]; exact grid_int h (hp.trans ha')) c1
    have e2 : x.toRat - p.value.toRat = ((a.tmod b : ℤ) : ℚ) := by
      rw [p5, e1, ex, sub_eq_iff_eq_add]
      have : a = a.tmod b + a.tdiv b * b := by linarith [mul_comm b (a.tdiv b)]
      exact_mod_cast this
    have c2 : |x.toRat - p.value.toRat| ≤ S.fmt.largest := by
      rw [e2]
      exact (by exact_mod_cast hm.trans ha' : |((a.tmod b : ℤ) : ℚ)| ≤ 2 ^ S.precision).trans hL
    obtain ⟨r, r1, r2, r3⟩ := subR_finite h hx p2 fx p4 m2 (directedOK_of_ge h m2 (_root_.abs_le.1 c2).1)
    obtain ⟨r4, r5, r6⟩ := exact_step h r3 (by rw [e2]; exact grid_int h (hm.trans ha')) c2
    exact ⟨q, t, p, r, q1, t1, p1, r1, p6, r6, r5.trans e2⟩

/-- **C95.** Beyond `2^(p-1)` a directed division can reach the next integer: `1538 / 513` in `Half`, rounded toward positive, is `3`. -/
theorem C95_directed_sharp :
    ∃ x y q : IeeeFloat halfS, ∃ r, fromI128R halfS 1538 .towardZero = .ok ⟨Status.OK, x⟩ ∧ fromI128R halfS 513 .towardZero = .ok ⟨Status.OK, y⟩ ∧
      divR x y .towardPositive = .ok ⟨Status.INEXACT, q⟩ ∧ toI128R q 16 .towardZero = .ok r ∧ r.value = 3 ∧ (1538 : ℤ).tdiv 513 = 2 :=
  ⟨_, _, _, _, rfl, rfl, rfl, rfl, rfl, rfl⟩

example := C95_quotient singleS_ok (x := ⟨3 * 2 ^ 22, 23, .normal, true⟩) (y := ⟨3 * 2 ^ 22, 1, .normal, false⟩) (by decide) (by decide) rfl rfl
  (a := -(3 * 2 ^ 22)) (b := 3) (by decide +kernel) (by decide +kernel) (by decide) (mode := .nearestTiesToEven) (.inl ⟨.inl rfl, by decide⟩) (by decide)
  (m := .towardNegative) (.inr (.inr rfl))
example := C95_int_div halfS_ok (a := -2047) (b := 9) (by decide) (by decide) (by decide) (by decide) (by decide) (mode := .nearestTiesToAway)
  (.inl ⟨.inr rfl, by decide⟩) (by decide) .towardZero .towardZero (w := 16) (by decide) (by decide) (by decide)
example := C95_remainder singleS_ok (x := ⟨3 * 2 ^ 22, 23, .normal, true⟩) (y := ⟨3 * 2 ^ 22, 1, .normal, false⟩) (by decide) (by decide) rfl rfl
  (a := -(3 * 2 ^ 22)) (b := 3) (by decide +kernel) (by decide +kernel) (by decide)

end Apf
