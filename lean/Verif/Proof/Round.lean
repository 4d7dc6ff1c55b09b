import Verif.Spec.Rounding
import Mathlib.Data.Int.Log
/-! Facts about the rounding specification: uniqueness, symmetry, and the two-neighbour criterion. -/

namespace Apf.Spec
open Apf

variable {F : Fmt}

theorem two_zpow_pos (k : ℤ) : (0 : ℚ) < 2 ^ k := zpow_pos (by norm_num) _

theorem two_zpow_add (a b : ℤ) : (2 : ℚ) ^ (a + b) = 2 ^ a * 2 ^ b := zpow_add₀ (by norm_num) _ _

theorem two_zpow_le {a b : ℤ} (h : a ≤ b) : (2 : ℚ) ^ a ≤ 2 ^ b := zpow_le_zpow_right₀ (by norm_num) h

theorem two_zpow_lt {a b : ℤ} (h : a < b) : (2 : ℚ) ^ a < 2 ^ b := zpow_lt_zpow_right₀ (by norm_num) h

theorem Fmt.Grid.neg {v : ℚ} (h : F.Grid v) : F.Grid (-v) := by
  obtain ⟨m, k, h1, h2, h3⟩ := h
  exact ⟨-m, k, by simpa using h1, h2, by rw [h3]; push_cast; ring⟩

theorem grid_neg_iff {v : ℚ} : F.Grid (-v) ↔ F.Grid v :=
  ⟨fun h => by simpa using h.neg, Fmt.Grid.neg⟩

theorem Fmt.EvenGrid.neg {v : ℚ} (h : F.EvenGrid v) : F.EvenGrid (-v) := by
  obtain ⟨m, k, h1, h2, h3⟩ := h
  refine ⟨-m, k, ?_, h2, by rw [h3]; push_cast; ring⟩
  rw [show (2 : ℤ) * -m = -(2 * m) by ring, abs_neg]; exact h1

theorem grid_zero : F.Grid 0 := ⟨0, F.emin - F.p + 1, by simp, le_refl _, by simp⟩

theorem Fmt.EvenGrid.grid {v : ℚ} (h : F.EvenGrid v) : F.Grid v := by
  obtain ⟨m, k, h1, h2, h3⟩ := h
  exact ⟨2 * m, k, h1, h2, by rw [h3]; push_cast; ring⟩

/-- Rounding commutes with negation. -/
theorem IsRounded.neg {mode : Round} {v r : ℚ} (h : IsRounded F mode v r) : IsRounded F mode.neg (-v) (-r) := by
  obtain ⟨hg, h⟩ := h
  refine ⟨hg.neg, ?_⟩
  have key1 : ∀ g : ℚ, |-v - g| = |v - -g| := by intro g; rw [← abs_neg]; ring_nf
  have key2 : |-v - -r| = |v - r| := by rw [← abs_neg]; ring_nf
  cases mode <;> simp only [Round.neg] at h ⊢
  · refine ⟨fun g hg' => by rw [key2, key1]; exact h.1 _ hg'.neg, fun g hg' hne he => ?_⟩
    rw [key2, key1] at he
    exact (h.2 (-g) hg'.neg (by intro hc; apply hne; linarith) he).neg
  · exact ⟨by linarith [h.1], fun g hg' hv => by linarith [h.2 (-g) hg'.neg (by linarith)]⟩
  · exact ⟨by linarith [h.1], fun g hg' hv => by linarith [h.2 (-g) hg'.neg (by linarith)]⟩
  · refine ⟨fun hv => ?_, fun hv => ?_⟩
    · obtain ⟨a, b⟩ := h.2 (by linarith)
      exact ⟨by linarith, fun g hg' hv => by linarith [b (-g) hg'.neg (by linarith)]⟩
    · obtain ⟨a, b⟩ := h.1 (by linarith)
      exact ⟨by linarith, fun g hg' hv => by linarith [b (-g) hg'.neg (by linarith)]⟩
  · refine ⟨fun g hg' => by rw [key2, key1]; exact h.1 _ hg'.neg, fun g hg' hne he => ?_⟩
    rw [key2, key1] at he
    have := h.2 (-g) hg'.neg (by intro hc; apply hne; linarith) he
    rwa [abs_neg] at this ⊢

theorem IsRounded.neg_iff {mode : Round} {v r : ℚ} : IsRounded F mode.neg (-v) (-r) ↔ IsRounded F mode v r := by
  constructor
  · intro h
    have := h.neg
    have e : mode.neg.neg = mode := by cases mode <;> rfl
    simpa [e] using this
  · exact IsRounded.neg

/-- A representable value rounds to itself. -/
theorem isRounded_self (mode : Round) {v : ℚ} (h : F.Grid v) : IsRounded F mode v v := by
  refine ⟨h, ?_⟩
  cases mode <;> simp only []
  · refine ⟨fun g _ => by simp, fun g _ hne he => ?_⟩
    exfalso; simp at he; exact hne (by linarith [sub_eq_zero.1 he])
  · exact ⟨le_refl _, fun g _ h => h⟩
  · exact ⟨le_refl _, fun g _ h => h⟩
  · exact ⟨fun _ => ⟨le_refl _, fun g _ h => h⟩, fun _ => ⟨le_refl _, fun g _ h => h⟩⟩
  · refine ⟨fun g _ => by simp, fun g _ hne he => ?_⟩
    exfalso; simp at he; exact hne (by linarith [sub_eq_zero.1 he])

/-- Two distinct values with an even significand are never neighbours. -/
theorem even_gap {a b : ℚ} (ha : F.EvenGrid a) (hb : F.EvenGrid b) (hlt : a < b) :
    ∃ g, F.Grid g ∧ a < g ∧ g < b := by
  obtain ⟨m, k, h1, h2, h3⟩ := ha
  obtain ⟨n, l, g1, g2, g3⟩ := hb
  have hpe : ∀ x : ℤ, |2 * x| < 2 ^ F.p → |2 * x + 1| < 2 ^ F.p ∧ |2 * x - 1| < 2 ^ F.p ∨ F.p = 0 := by
    intro x hx
    rcases Nat.eq_zero_or_pos F.p with h0 | h0
    · right; exact h0
    · left
      obtain ⟨q, hq⟩ : ∃ q, F.p = q + 1 := ⟨F.p - 1, by omega⟩
      rw [hq, pow_succ] at hx ⊢
      rw [abs_lt] at hx ⊢
      rw [abs_lt]
      omega
  rcases Nat.eq_zero_or_pos F.p with h0 | h0
  · exfalso
    rw [h0] at h1 g1
    have e1 : m = 0 := by rw [pow_zero, abs_lt] at h1; omega
    have e2 : n = 0 := by rw [pow_zero, abs_lt] at g1; omega
    subst e1; subst e2
    simp at h3 g3; linarith
  · rcases le_total k l with hkl | hkl
    · obtain ⟨d, rfl⟩ : ∃ d : ℕ, l = k + d := ⟨(l - k).toNat, by omega⟩
      have hp := two_zpow_pos k
      have e : b = (2 * (n * 2 ^ d : ℤ) : ℚ) * 2 ^ k := by
        rw [g3, zpow_add₀ (by norm_num)]; push_cast; rw [zpow_natCast]; ring
      have hlt' : m < n * 2 ^ d := by
        rw [h3, e] at hlt
        have : ((2 * m : ℤ) : ℚ) < ((2 * (n * 2 ^ d) : ℤ) : ℚ) := by
          push_cast; push_cast at hlt; exact lt_of_mul_lt_mul_right hlt hp.le
        have := Int.cast_lt.1 this
        omega
      refine ⟨((2 * m + 1 : ℤ) : ℚ) * 2 ^ k, ⟨2 * m + 1, k, ?_, h2, rfl⟩, ?_, ?_⟩
      · rcases hpe m h1 with h | h
        · exact h.1
        · omega
      · rw [h3]; push_cast; linarith
      · rw [e]
        apply mul_lt_mul_of_pos_right _ hp
        have : ((2 * m + 1 : ℤ) : ℚ) < ((2 * (n * 2 ^ d) : ℤ) : ℚ) := Int.cast_lt.2 (by omega)
        push_cast at this ⊢; exact this
    · obtain ⟨d, rfl⟩ : ∃ d : ℕ, k = l + d := ⟨(k - l).toNat, by omega⟩
      have hp := two_zpow_pos l
      have e : a = (2 * (m * 2 ^ d : ℤ) : ℚ) * 2 ^ l := by
        rw [h3, zpow_add₀ (by norm_num)]; push_cast; rw [zpow_natCast]; ring
      have hlt' : m * 2 ^ d < n := by
        rw [g3, e] at hlt
        have : ((2 * (m * 2 ^ d) : ℤ) : ℚ) < ((2 * n : ℤ) : ℚ) := by
          push_cast; push_cast at hlt; exact lt_of_mul_lt_mul_right hlt hp.le
        have := Int.cast_lt.1 this
        omega
      refine ⟨((2 * n - 1 : ℤ) : ℚ) * 2 ^ l, ⟨2 * n - 1, l, ?_, g2, rfl⟩, ?_, ?_⟩
      · rcases hpe n g1 with h | h
        · exact h.2
        · omega
      · rw [e]
        apply mul_lt_mul_of_pos_right _ hp
        have : ((2 * (m * 2 ^ d) : ℤ) : ℚ) < ((2 * n - 1 : ℤ) : ℚ) := Int.cast_lt.2 (by omega)
        push_cast at this ⊢; exact this
      · rw [g3]; push_cast; linarith

theorem nearest_even_unique_aux {v a b : ℚ} (ha : F.EvenGrid a) (hb : F.EvenGrid b) (hlt : a < b)
    (hd : ∀ g, F.Grid g → |v - a| ≤ |v - g|) (he : |v - b| = |v - a|) : False := by
  obtain ⟨g, hg, h1, h2⟩ := even_gap ha hb hlt
  have hm : v = (a + b) / 2 := by
    rcases abs_eq_abs.1 he with h | h
    · linarith
    · linarith
  have := hd g hg
  have e1 : |v - a| = (b - a) / 2 := by rw [hm, abs_of_pos (by linarith)]; ring
  have : |v - g| < (b - a) / 2 := by rw [hm, abs_lt]; constructor <;> linarith
  linarith

/-- The rounding of a value is unique. -/
theorem IsRounded.unique {mode : Round} {v a b : ℚ} (ha : IsRounded F mode v a) (hb : IsRounded F mode v b) :
    a = b := by
  obtain ⟨ga, ha⟩ := ha
  obtain ⟨gb, hb⟩ := hb
  cases mode <;> simp only [] at ha hb
  · by_contra hne
    have he : |v - b| = |v - a| := le_antisymm (hb.1 _ ga) (ha.1 _ gb)
    have ea := ha.2 b gb (Ne.symm hne) he
    have eb := hb.2 a ga hne he.symm
    rcases lt_or_gt_of_ne hne with h | h
    · exact nearest_even_unique_aux ea eb h ha.1 he
    · exact nearest_even_unique_aux eb ea h hb.1 he.symm
  · exact le_antisymm (ha.2 _ gb hb.1) (hb.2 _ ga ha.1)
  · exact le_antisymm (hb.2 _ ga ha.1) (ha.2 _ gb hb.1)
  · rcases le_total 0 v with h | h
    · exact le_antisymm ((hb.1 h).2 _ ga (ha.1 h).1) ((ha.1 h).2 _ gb (hb.1 h).1)
    · exact le_antisymm ((ha.2 h).2 _ gb (hb.2 h).1) ((hb.2 h).2 _ ga (ha.2 h).1)
  · by_contra hne
    have he : |v - b| = |v - a| := le_antisymm (hb.1 _ ga) (ha.1 _ gb)
    have ea := ha.2 b gb (Ne.symm hne) he
    have eb := hb.2 a ga hne he.symm
    linarith

/-- `lo` and `hi` are neighbours in the grid. -/
structure Neighbours (F : Fmt) (lo hi : ℚ) : Prop where
  glo : F.Grid lo
  ghi : F.Grid hi
  lt : lo < hi
  gap : ∀ g, F.Grid g → g ≤ lo ∨ hi ≤ g

/-- Which of the two non-negative neighbours `lo ≤ v < hi` a mode selects. -/
theorem isRounded_lo {mode : Round} {lo hi v : ℚ} (hn : Neighbours F lo hi) (h0 : 0 ≤ lo) (h1 : lo ≤ v) (h2 : v < hi)
    (hm : v = lo ∨ mode = .towardNegative ∨ mode = .towardZero ∨
      ((mode = .nearestTiesToEven ∨ mode = .nearestTiesToAway) ∧ v - lo < hi - v) ∨
      (mode = .nearestTiesToEven ∧ v - lo = hi - v ∧ F.EvenGrid lo)) : IsRounded F mode v lo := by
  rcases hm with rfl | rfl | rfl | ⟨hm, hd⟩ | ⟨rfl, hd, he⟩
  · exact isRounded_self _ hn.glo
  · refine ⟨hn.glo, h1, fun g hg hv => ?_⟩
    rcases hn.gap g hg with h | h
    · exact h
    · linarith
  · refine ⟨hn.glo, fun _ => ⟨h1, fun g hg hv => ?_⟩, fun hv => ?_⟩
    · rcases hn.gap g hg with h | h
      · exact h
      · linarith
    · have : v = lo := by linarith
      subst this
      exact ⟨le_refl _, fun g _ h => h⟩
  · have key : ∀ g, F.Grid g → g ≠ lo → |v - lo| < |v - g| := by
      intro g hg hne
      rw [abs_of_nonneg (by linarith : (0:ℚ) ≤ v - lo)]
      rcases hn.gap g hg with h | h
      · have : g < lo := lt_of_le_of_ne h hne
        rw [abs_of_nonneg (by linarith)]; linarith
      · rw [abs_of_nonpos (by linarith)]; linarith
    have key' : ∀ g, F.Grid g → |v - lo| ≤ |v - g| := by
      intro g hg
      by_cases hne : g = lo
      · rw [hne]
      · exact (key g hg hne).le
    rcases hm with rfl | rfl
    · exact ⟨hn.glo, key', fun g hg hne he => by linarith [key g hg hne]⟩
    · exact ⟨hn.glo, key', fun g hg hne he => by linarith [key g hg hne]⟩
  · refine ⟨hn.glo, fun g hg => ?_, fun _ _ _ _ => he⟩
    rw [abs_of_nonneg (by linarith : (0:ℚ) ≤ v - lo)]
    rcases hn.gap g hg with h | h
    · rw [abs_of_nonneg (by linarith)]; linarith
    · rw [abs_of_nonpos (by linarith)]; linarith

theorem isRounded_hi {mode : Round} {lo hi v : ℚ} (hn : Neighbours F lo hi) (h0 : 0 ≤ lo) (h1 : lo < v) (h2 : v < hi)
    (hm : mode = .towardPositive ∨
      ((mode = .nearestTiesToEven ∨ mode = .nearestTiesToAway) ∧ hi - v < v - lo) ∨
      (mode = .nearestTiesToAway ∧ hi - v = v - lo) ∨
      (mode = .nearestTiesToEven ∧ hi - v = v - lo ∧ F.EvenGrid hi)) : IsRounded F mode v hi := by
  rcases hm with rfl | ⟨hm, hd⟩ | ⟨rfl, hd⟩ | ⟨rfl, hd, he⟩
  · refine ⟨hn.ghi, h2.le, fun g hg hv => ?_⟩
    rcases hn.gap g hg with h | h
    · linarith
    · exact h
  · have key : ∀ g, F.Grid g → g ≠ hi → |v - hi| < |v - g| := by
      intro g hg hne
      rw [abs_of_nonpos (by linarith : v - hi ≤ 0)]
      rcases hn.gap g hg with h | h
      · rw [abs_of_nonneg (by linarith)]; linarith
      · have : hi < g := lt_of_le_of_ne h (Ne.symm hne)
        rw [abs_of_nonpos (by linarith)]; linarith
    have key' : ∀ g, F.Grid g → |v - hi| ≤ |v - g| := by
      intro g hg
      by_cases hne : g = hi
      · rw [hne]
      · exact (key g hg hne).le
    rcases hm with rfl | rfl
    · exact ⟨hn.ghi, key', fun g hg hne he => by linarith [key g hg hne]⟩
    · exact ⟨hn.ghi, key', fun g hg hne he => by linarith [key g hg hne]⟩
  · refine ⟨hn.ghi, fun g hg => ?_, fun g hg hne he => ?_⟩
    · rw [abs_of_nonpos (by linarith : v - hi ≤ 0)]
      rcases hn.gap g hg with h | h
      · rw [abs_of_nonneg (by linarith)]; linarith
      · rw [abs_of_nonpos (by linarith)]; linarith
    · rw [abs_of_nonpos (by linarith : v - hi ≤ 0)] at he
      rcases hn.gap g hg with h | h
      · rw [abs_of_nonneg (by linarith)] at he
        have : g = lo := by linarith
        rw [this, abs_of_nonneg h0, abs_of_nonneg (by linarith)]; exact hn.lt
      · rw [abs_of_nonpos (by linarith)] at he
        exfalso; apply hne; linarith
  · refine ⟨hn.ghi, fun g hg => ?_, fun _ _ _ _ => he⟩
    rw [abs_of_nonpos (by linarith : v - hi ≤ 0)]
    rcases hn.gap g hg with h | h
    · rw [abs_of_nonneg (by linarith)]; linarith
    · rw [abs_of_nonpos (by linarith)]; linarith

/-- `n * 2^(e-p+1)` is representable when `n ≤ 2^p` and `e ≥ emin`. -/
theorem grid_mk {n : ℕ} {e : ℤ} (hp : 1 ≤ F.p) (hn : n ≤ 2 ^ F.p) (he : F.emin ≤ e) :
    F.Grid ((n : ℚ) * 2 ^ (e - F.p + 1)) := by
  rcases lt_or_eq_of_le hn with h | h
  · refine ⟨n, e - F.p + 1, ?_, by omega, by push_cast; rfl⟩
    rw [abs_of_nonneg (by positivity)]; exact_mod_cast h
  · refine ⟨1, e + 1, ?_, by omega, ?_⟩
    · rw [abs_one]
      have : (2:ℤ) ^ 1 ≤ 2 ^ F.p := pow_le_pow_right₀ (by norm_num) hp
      omega
    · rw [h]; push_cast
      rw [← zpow_natCast, ← zpow_add₀ (by norm_num), one_mul]; congr 1; ring

theorem evenGrid_mk {n : ℕ} {e : ℤ} (hp : 2 ≤ F.p) (hn : n ≤ 2 ^ F.p) (he : F.emin ≤ e) (h2 : n % 2 = 0) :
    F.EvenGrid ((n : ℚ) * 2 ^ (e - F.p + 1)) := by
  rcases lt_or_eq_of_le hn with h | h
  · refine ⟨(n / 2 : ℕ), e - F.p + 1, ?_, by omega, ?_⟩
    · rw [abs_of_nonneg (by positivity)]
      have : (2 * (n / 2 : ℕ) : ℤ) = (n : ℤ) := by omega
      rw [this]; exact_mod_cast h
    · have : (n : ℚ) = ((2 * (n / 2 : ℕ) : ℕ) : ℚ) := by congr 1; omega
      rw [this, Int.cast_natCast]; push_cast; rfl
  · refine ⟨1, e, ?_, by omega, ?_⟩
    · have : (2:ℤ) ^ 2 ≤ 2 ^ F.p := pow_le_pow_right₀ (by norm_num) hp
      norm_num; omega
    · rw [h]; push_cast
      rw [← zpow_natCast, ← zpow_add₀ (by norm_num), mul_one,
        show ((F.p : ℤ) + (e - F.p + 1)) = 1 + e by ring, zpow_add₀ (by norm_num), zpow_one]

/-- Consecutive multiples of the unit of a binade are neighbours. -/
theorem neighbours_mk {n : ℕ} {e : ℤ} (hp : 1 ≤ F.p) (hn : n < 2 ^ F.p) (he : F.emin ≤ e)
    (hc : 2 ^ (F.p - 1) ≤ n ∨ e = F.emin) :
    Neighbours F ((n : ℚ) * 2 ^ (e - F.p + 1)) (((n + 1 : ℕ) : ℚ) * 2 ^ (e - F.p + 1)) := by
  have hu := two_zpow_pos (e - F.p + 1)
  refine ⟨grid_mk hp hn.le he, grid_mk hp hn he, ?_, ?_⟩
  · push_cast; linarith
  · rintro g ⟨m, k, h1, h2, rfl⟩
    by_contra hcon
    push Not at hcon
    obtain ⟨c1, c2⟩ := hcon
    by_cases hk : e - F.p + 1 ≤ k
    · obtain ⟨d, hd⟩ : ∃ d : ℕ, k = e - F.p + 1 + d := ⟨(k - (e - F.p + 1)).toNat, by omega⟩
      rw [hd, two_zpow_add (e - F.p + 1) d, zpow_natCast] at c1 c2
      have a1 : ((n : ℤ) : ℚ) < ((m * 2 ^ d : ℤ) : ℚ) := by
        push_cast
        apply lt_of_mul_lt_mul_right _ hu.le
        calc _ < _ := c1
          _ = _ := by ring
      have a2 : ((m * 2 ^ d : ℤ) : ℚ) < (((n + 1 : ℕ) : ℤ) : ℚ) := by
        push_cast
        apply lt_of_mul_lt_mul_right _ hu.le
        calc _ = _ := by ring
          _ < _ := c2
          _ = _ := by push_cast; ring
      have a1 := Int.cast_lt.1 a1
      have a2 := Int.cast_lt.1 a2
      push_cast at a2
      omega
    · have hne : e ≠ F.emin := by omega
      have hn2 : 2 ^ (F.p - 1) ≤ n := by tauto
      have hm : (m : ℚ) ≤ 2 ^ F.p := by
        have := (abs_lt.1 h1).2
        exact_mod_cast this.le
      have b1 : (m : ℚ) * 2 ^ k ≤ 2 ^ (F.p : ℤ) * 2 ^ k := by
        apply mul_le_mul_of_nonneg_right _ (two_zpow_pos k).le
        rw [zpow_natCast]; exact hm
      have b2 : (2 : ℚ) ^ (F.p : ℤ) * 2 ^ k ≤ (2 : ℚ) ^ ((F.p : ℤ) - 1) * 2 ^ (e - F.p + 1) := by
        rw [← zpow_add₀ (by norm_num), ← zpow_add₀ (by norm_num)]
        apply zpow_le_zpow_right₀ (by norm_num); omega
      have b3 : (2 : ℚ) ^ ((F.p : ℤ) - 1) ≤ n := by
        rw [show ((F.p : ℤ) - 1) = ((F.p - 1 : ℕ) : ℤ) by omega, zpow_natCast]
        exact_mod_cast hn2
      have b4 := mul_le_mul_of_nonneg_right b3 hu.le
      linarith

end Apf.Spec

namespace Apf.Spec
variable {F : Fmt}

/-- A representable lower bound of the exact value bounds the rounding. -/
theorem IsRounded.ge_of_grid {mode : Round} {v r c : ℚ} (h : IsRounded F mode v r) (hc : F.Grid c) (hv : c ≤ v) :
    c ≤ r := by
  obtain ⟨gr, h⟩ := h
  have near : (∀ g, F.Grid g → |v - r| ≤ |v - g|) → c ≤ r := by
    intro hd
    by_contra hlt
    push Not at hlt
    have := hd c hc
    rw [abs_of_nonneg (by linarith), abs_of_nonneg (by linarith)] at this
    linarith
  cases mode <;> simp only [] at h
  · exact near h.1
  · linarith [h.1]
  · exact h.2 c hc hv
  · rcases le_total 0 v with h0 | h0
    · exact (h.1 h0).2 c hc hv
    · linarith [(h.2 h0).1]
  · exact near h.1

theorem IsRounded.le_of_grid {mode : Round} {v r c : ℚ} (h : IsRounded F mode v r) (hc : F.Grid c) (hv : v ≤ c) :
    r ≤ c := by
  have := h.neg.ge_of_grid hc.neg (by linarith : -c ≤ -v)
  linarith

theorem IsRounded.nonneg {mode : Round} {v r : ℚ} (h : IsRounded F mode v r) (hv : 0 ≤ v) : 0 ≤ r :=
  h.ge_of_grid grid_zero hv

theorem neg_negateIf (mode : Round) : mode.neg.neg = mode := by cases mode <;> rfl

/-- Rounding of a signed value from the rounding of its magnitude. -/
theorem IsRounded.signed {mode : Round} {s : Bool} {m g : ℚ} (h : IsRounded F (mode.negateIf s) m g) :
    IsRounded F mode (Spec.signed s m) (Spec.signed s g) := by
  cases s
  · simpa [Round.negateIf, Spec.signed] using h
  · have := h.neg
    simpa [Round.negateIf, Spec.signed, neg_negateIf] using this

theorem abs_signed (s : Bool) {x : ℚ} (h : 0 ≤ x) : |Spec.signed s x| = x := by
  cases s <;> simp [Spec.signed, abs_of_nonneg h]

theorem signed_inj {s : Bool} {x y : ℚ} : Spec.signed s x = Spec.signed s y ↔ x = y := by
  cases s <;> simp [Spec.signed]

/-- Every non-negative value lies between two neighbours. -/
theorem exists_canonical (hp : 1 ≤ F.p) {v : ℚ} (hv : 0 ≤ v) :
    ∃ (n : ℕ) (e : ℤ), n < 2 ^ F.p ∧ F.emin ≤ e ∧ (2 ^ (F.p - 1) ≤ n ∨ e = F.emin) ∧
      (n : ℚ) * 2 ^ (e - F.p + 1) ≤ v ∧ v < ((n + 1 : ℕ) : ℚ) * 2 ^ (e - F.p + 1) := by
  have fl : ∀ e : ℤ, v < 2 ^ (e + 1) → ∃ n : ℕ, n < 2 ^ F.p ∧
      (n : ℚ) * 2 ^ (e - F.p + 1) ≤ v ∧ v < ((n + 1 : ℕ) : ℚ) * 2 ^ (e - F.p + 1) := by
    intro e he
    have hu := two_zpow_pos (e - F.p + 1)
    have h1 : (⌊v / 2 ^ (e - F.p + 1)⌋₊ : ℚ) ≤ v / 2 ^ (e - F.p + 1) := Nat.floor_le (by positivity)
    have h2 : v / 2 ^ (e - F.p + 1) < (⌊v / 2 ^ (e - F.p + 1)⌋₊ : ℚ) + 1 := Nat.lt_floor_add_one _
    refine ⟨⌊v / 2 ^ (e - F.p + 1)⌋₊, ?_, ?_, ?_⟩
    · have : ((⌊v / 2 ^ (e - F.p + 1)⌋₊ : ℕ) : ℚ) < ((2 ^ F.p : ℕ) : ℚ) := by
        apply lt_of_le_of_lt h1
        rw [div_lt_iff₀ hu]
        push_cast
        rw [← zpow_natCast, ← two_zpow_add]
        calc v < 2 ^ (e + 1) := he
          _ = _ := by congr 1; ring
      exact_mod_cast this
    · rw [le_div_iff₀ hu] at h1; exact h1
    · rw [div_lt_iff₀ hu] at h2; push_cast; exact h2
  by_cases hlt : v < 2 ^ (F.emin + 1)
  · obtain ⟨n, a, b, c⟩ := fl F.emin hlt
    exact ⟨n, F.emin, a, le_refl _, Or.inr rfl, b, c⟩
  · push Not at hlt
    have hpos : 0 < v := lt_of_lt_of_le (two_zpow_pos _) hlt
    have l1 : (2 : ℚ) ^ (Int.log 2 v) ≤ v := by exact_mod_cast Int.zpow_log_le_self (b := 2) (by norm_num) hpos
    have l2 : v < (2 : ℚ) ^ (Int.log 2 v + 1) := by exact_mod_cast Int.lt_zpow_succ_log_self (b := 2) (by norm_num) v
    obtain ⟨n, a, b, c⟩ := fl _ l2
    have he : F.emin ≤ Int.log 2 v := by
      by_contra hc
      have := two_zpow_le (show Int.log 2 v + 1 ≤ F.emin + 1 by omega)
      linarith
    refine ⟨n, _, a, he, Or.inl ?_, b, c⟩
    have h3 : (2 : ℚ) ^ (Int.log 2 v) < ((n + 1 : ℕ) : ℚ) * 2 ^ (Int.log 2 v - F.p + 1) := lt_of_le_of_lt l1 c
    have h4 : (2 : ℚ) ^ (Int.log 2 v) = ((2 ^ (F.p - 1) : ℕ) : ℚ) * 2 ^ (Int.log 2 v - F.p + 1) := by
      push_cast
      rw [← zpow_natCast, ← two_zpow_add]; congr 1; omega
    rw [h4] at h3
    have := lt_of_mul_lt_mul_right h3 (two_zpow_pos _).le
    have : 2 ^ (F.p - 1) < n + 1 := by exact_mod_cast this
    omega

theorem exists_rounded_nonneg (hp : 2 ≤ F.p) (mode : Round) {v : ℚ} (hv : 0 ≤ v) : ∃ r, IsRounded F mode v r := by
  obtain ⟨n, e, h1, h2, h3, h4, h5⟩ := exists_canonical (F := F) (by omega) hv
  have hn := neighbours_mk (by omega) h1 h2 h3
  have h0 : (0 : ℚ) ≤ (n : ℚ) * 2 ^ (e - F.p + 1) := by positivity
  generalize hlo : (n : ℚ) * 2 ^ (e - F.p + 1) = lo at *
  generalize hhi : ((n + 1 : ℕ) : ℚ) * 2 ^ (e - F.p + 1) = hi at *
  rcases eq_or_lt_of_le h4 with heq | hlt
  · exact ⟨lo, by rw [← heq]; exact isRounded_self _ hn.glo⟩
  cases mode
  · rcases lt_trichotomy (v - lo) (hi - v) with h | h | h
    · exact ⟨lo, isRounded_lo hn h0 h4 h5 (by tauto)⟩
    · rcases Nat.mod_two_eq_zero_or_one n with he | he
      · exact ⟨lo, isRounded_lo hn h0 h4 h5 (Or.inr (Or.inr (Or.inr (Or.inr
          ⟨rfl, h, hlo ▸ evenGrid_mk hp h1.le h2 he⟩))))⟩
      · exact ⟨hi, isRounded_hi hn h0 hlt h5 (Or.inr (Or.inr (Or.inr
          ⟨rfl, h.symm, hhi ▸ evenGrid_mk hp h1 h2 (by omega)⟩)))⟩
    · exact ⟨hi, isRounded_hi hn h0 hlt h5 (by tauto)⟩
  · exact ⟨hi, isRounded_hi hn h0 hlt h5 (by tauto)⟩
  · exact ⟨lo, isRounded_lo hn h0 h4 h5 (by tauto)⟩
  · exact ⟨lo, isRounded_lo hn h0 h4 h5 (by tauto)⟩
  · rcases lt_trichotomy (v - lo) (hi - v) with h | h | h
    · exact ⟨lo, isRounded_lo hn h0 h4 h5 (by tauto)⟩
    · exact ⟨hi, isRounded_hi hn h0 hlt h5 (by right; right; left; exact ⟨rfl, h.symm⟩)⟩
    · exact ⟨hi, isRounded_hi hn h0 hlt h5 (by tauto)⟩

/-- Every value has a rounding. -/
theorem exists_rounded (hp : 2 ≤ F.p) (mode : Round) (v : ℚ) : ∃ r, IsRounded F mode v r := by
  rcases le_total 0 v with h | h
  · exact exists_rounded_nonneg hp mode h
  · obtain ⟨r, hr⟩ := exists_rounded_nonneg hp mode.neg (v := -v) (by linarith)
    exact ⟨-r, by simpa [neg_negateIf] using hr.neg⟩

/-- Rounding is monotone. -/
theorem IsRounded.mono {mode : Round} {v w a b : ℚ} (ha : IsRounded F mode v a) (hb : IsRounded F mode w b)
    (h : v ≤ w) : a ≤ b := by
  rcases eq_or_lt_of_le h with rfl | hlt
  · exact (ha.unique hb).le
  by_contra hcon
  push Not at hcon
  obtain ⟨ga, ha'⟩ := ha
  obtain ⟨gb, hb'⟩ := hb
  have near : (∀ g, F.Grid g → |v - a| ≤ |v - g|) → (∀ g, F.Grid g → |w - b| ≤ |w - g|) → False := by
    intro n1 n2
    have h1 := n1 b gb
    have h2 := n2 a ga
    rcases le_total v a with c1 | c1 <;> rcases le_total v b with c2 | c2 <;>
      rcases le_total w a with c3 | c3 <;> rcases le_total w b with c4 | c4 <;>
      simp only [abs_of_nonneg, abs_of_nonpos, sub_nonneg, sub_nonpos, c1, c2, c3, c4] at h1 h2 <;> linarith
  cases mode <;> simp only [] at ha' hb'
  · exact near ha'.1 hb'.1
  · linarith [ha'.2 b gb (by linarith [hb'.1])]
  · linarith [hb'.2 a ga (by linarith [ha'.1])]
  · rcases le_total 0 v with h0 | h0
    · linarith [(hb'.1 (by linarith)).2 a ga (by linarith [(ha'.1 h0).1])]
    · rcases le_total 0 w with h1 | h1
      · have x1 := (ha'.2 h0).2 0 grid_zero h0
        have x2 := (hb'.1 h1).2 0 grid_zero h1
        linarith
      · linarith [(ha'.2 h0).2 b gb (by linarith [(hb'.2 h1).1])]
  · exact near ha'.1 hb'.1

end Apf.Spec
