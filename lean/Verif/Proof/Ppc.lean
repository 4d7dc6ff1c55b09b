import Verif.Spec.Ppc
import Verif.Props.Rem
/-! # The conversions between `DoubleFloat` and its fallback format -/

namespace Apf
open Spec IeeeFloat
variable {S : Sem}

theorem fallback_fmt (S : Sem) (hN : S.nonfinite = .ieee754) : (fallbackS S).fmt = S.fmt.doubled := by
  simp [Sem.fmt, fallbackS, Fmt.doubled, hN]

/-- What is left of a number of the doubled format after subtracting its nearest number in the format is in the format. -/
theorem grid_residual_nonneg {F : Fmt} (hp : 2 ≤ F.p) {v g : ℚ} (hv : F.doubled.Grid v) (h0 : 0 ≤ v)
    (hg : IsRounded F .nearestTiesToEven v g) : F.Grid (v - g) := by
  obtain ⟨n, e, n1, e1, c1, l1, l2⟩ := exists_canonical (F := F) (by omega) h0
  have hn := neighbours_mk (by omega) n1 e1 c1
  set u : ℚ := 2 ^ (e - F.p + 1) with hu
  have upos : 0 < u := two_zpow_pos _
  have hgl : (n : ℚ) * u = g ∨ ((n + 1 : ℕ) : ℚ) * u = g := by
    have a := hg.ge_of_grid hn.glo l1
    have b := hg.le_of_grid hn.ghi l2.le
    rcases hn.gap g hg.1 with c | c
    · left; exact le_antisymm a c
    · right; exact le_antisymm c b
  obtain ⟨m, k, m1, k1, rfl⟩ := hv
  simp only [Fmt.doubled] at m1 k1
  push_cast at k1
  have m0 : 0 ≤ m := by
    have := nonneg_of_mul_nonneg_left h0 (two_zpow_pos k)
    exact_mod_cast this
  rcases le_or_gt (e - F.p + 1) k with hk | hk
  · -- the value is in the format
    have e2 : (2 : ℚ) ^ k = 2 ^ (k - (e - F.p + 1)).toNat * u := by
      rw [hu, ← zpow_natCast, ← two_zpow_add]; congr 1; omega
    have : F.Grid ((m : ℚ) * 2 ^ k) := by
      have hh : (m : ℚ) * 2 ^ k = ((m * 2 ^ (k - (e - F.p + 1)).toNat : ℤ) : ℚ) * u := by rw [e2]; push_cast; ring
      rw [hh] at l2 ⊢
      have := lt_of_mul_lt_mul_right l2 upos.le
      have t1 : m * 2 ^ (k - (e - F.p + 1)).toNat < (n : ℤ) + 1 := by exact_mod_cast this
      refine ⟨_, e - F.p + 1, ?_, by omega, rfl⟩
      rw [abs_of_nonneg (by positivity)]
      have : (n : ℤ) < 2 ^ F.p := by exact_mod_cast n1
      omega
    rw [hg.unique (isRounded_self _ this), sub_self]
    exact grid_zero
  · have e2 : u = 2 ^ ((e - F.p + 1) - k).toNat * 2 ^ k := by
      rw [hu, ← zpow_natCast, ← two_zpow_add]; congr 1; omega
    have hle : |(m : ℚ) * 2 ^ k - g| ≤ u / 2 := by
      have a := hg.2.1 _ hn.glo
      have b := hg.2.1 _ hn.ghi
      rw [abs_of_nonneg (a := (m : ℚ) * 2 ^ k - (n : ℚ) * u) (by linarith)] at a
      rw [abs_of_nonpos (a := (m : ℚ) * 2 ^ k - ((n + 1 : ℕ) : ℚ) * u) (by linarith)] at b
      push_cast at a b
      linarith
    have key : ∃ j : ℤ, (m : ℚ) * 2 ^ k - g = (j : ℚ) * 2 ^ k := by
      rcases hgl with c | c
      · refine ⟨m - n * 2 ^ ((e - F.p + 1) - k).toNat, ?_⟩
        rw [← c, e2]; push_cast; ring
      · refine ⟨m - (n + 1) * 2 ^ ((e - F.p + 1) - k).toNat, ?_⟩
        rw [← c, e2]; push_cast; ring
    obtain ⟨j, hj⟩ := key
    rw [hj] at hle ⊢
    refine ⟨j, k, ?_, by omega, rfl⟩
    -- the exponent of the value is at most that of its leading digit
    have hek : e ≤ k + 2 * F.p - 1 := by
      rcases c1 with c1 | c1
      · have t1 : (2 : ℚ) ^ e ≤ (m : ℚ) * 2 ^ k := by
          refine le_trans ?_ l1
          have : (2 : ℚ) ^ e = 2 ^ (F.p - 1) * u := by
            rw [hu, ← zpow_natCast, ← two_zpow_add]; congr 1; omega
          rw [this]
          apply mul_le_mul_of_nonneg_right _ upos.le
          exact_mod_cast c1
        have t2 : (m : ℚ) * 2 ^ k < 2 ^ (k + 2 * F.p) := by
          rw [two_zpow_add k (2 * F.p), mul_comm]
          apply mul_lt_mul_of_pos_left _ (two_zpow_pos k)
          have : (m : ℚ) < ((2 ^ (F.p * 2) : ℤ) : ℚ) := by
            have := (le_abs_self m).trans_lt m1
            exact_mod_cast this
          refine this.trans_le (le_of_eq ?_)
          push_cast
          rw [← zpow_natCast]; congr 1; push_cast; ring
        have := zpow_two_lt_iff (t1.trans_lt t2)
        omega
      · omega
    rw [abs_mul, abs_of_pos (two_zpow_pos k), e2] at hle
    have h3 : |(j : ℚ)| ≤ 2 ^ ((e - F.p + 1) - k).toNat / 2 := by
      have hk0 := two_zpow_pos k
      have : |(j : ℚ)| * 2 ^ k ≤ (2 ^ ((e - F.p + 1) - k).toNat / 2) * 2 ^ k := by linarith
      exact le_of_mul_le_mul_right this hk0
    have h4 : (2 : ℚ) ^ ((e - F.p + 1) - k).toNat ≤ 2 ^ F.p := pow_le_pow_right₀ (by norm_num) (by omega)
    have h5 : (0 : ℚ) < 2 ^ F.p := by positivity
    have : |(j : ℚ)| < 2 ^ F.p := by linarith
    exact_mod_cast this

theorem grid_residual {F : Fmt} (hp : 2 ≤ F.p) {v g : ℚ} (hv : F.doubled.Grid v)
    (hg : IsRounded F .nearestTiesToEven v g) : F.Grid (v - g) := by
  rcases le_total 0 v with h | h
  · exact grid_residual_nonneg hp hv h hg
  · have := grid_residual_nonneg hp hv.neg (by linarith) (g := -g) hg.neg
    rw [← grid_neg_iff]
    convert this using 1; ring

/-- The numbers of a format are in the doubled format. -/
theorem grid_doubled {F : Fmt} {v : ℚ} (hv : F.Grid v) : F.doubled.Grid v := by
  obtain ⟨m, k, a, b, c⟩ := hv
  refine ⟨m, k, ?_, ?_, c⟩
  · exact a.trans_le (pow_le_pow_right₀ (by norm_num) (by simp [Fmt.doubled]; omega))
  · simp only [Fmt.doubled]; push_cast; omega

theorem largest_ieee (hN : S.nonfinite = .ieee754) :
    S.fmt.largest = 2 ^ (S.maxExp + 1) - 2 ^ (S.maxExp - S.precision + 1) := by
  have : (2 : ℚ) ^ (S.maxExp + 1) = 2 ^ S.precision * 2 ^ (S.maxExp - S.precision + 1) := by
    rw [← zpow_natCast, ← two_zpow_add]; congr 1; omega
  rw [this]
  simp [Fmt.largest, Sem.fmt, hN, sub_mul]

theorem overflowAt_eq (hN : S.nonfinite = .ieee754) : S.fmt.overflowAt = S.fmt.largest + 2 ^ (S.maxExp - S.precision) := by
  rw [largest_ieee hN, two_zpow_add (S.maxExp - S.precision) 1, zpow_one]
  simp only [Fmt.overflowAt, Sem.fmt]
  ring

/-- Which values round to a finite number of the format. -/
theorem rounded_in_range (h : S.OK) (hN : S.nonfinite = .ieee754) {v g : ℚ} (hg : IsRounded S.fmt .nearestTiesToEven v g) :
    |g| ≤ S.fmt.largest ↔ |v| < S.fmt.overflowAt := by
  have hL := grid_largest h
  have hu := two_zpow_pos (S.maxExp - S.precision)
  have two : (2 : ℚ) ^ (S.maxExp - S.precision + 1) = 2 * 2 ^ (S.maxExp - S.precision) := by
    rw [two_zpow_add (S.maxExp - S.precision) 1, zpow_one]; ring
  have hle := largest_ieee hN
  have hov := overflowAt_eq hN
  have hT : S.fmt.Grid (2 ^ (S.maxExp + 1)) := by
    have := h.p_ge; have := h.p_max; have := h.min_lt
    refine ⟨1, S.maxExp + 1, ?_, ?_, by simp⟩
    · rw [abs_one]; exact one_lt_pow₀ (by norm_num) (by rw [fmt_p]; omega)
    · rw [fmt_p, fmt_emin]; omega
  -- it suffices to treat non-negative values
  have main : ∀ {v g : ℚ}, 0 ≤ v → IsRounded S.fmt .nearestTiesToEven v g → (g ≤ S.fmt.largest ↔ v < S.fmt.overflowAt) := by
    intro v g hv hg
    have g0 := hg.nonneg hv
    constructor
    · intro hgl
      by_contra hc
      push Not at hc
      rcases le_or_gt (2 ^ (S.maxExp + 1)) v with c | c
      · have := hg.ge_of_grid hT c
        linarith
      · have hn := neighbours_mk (F := S.fmt) (n := 2 ^ S.precision - 1) (e := S.maxExp) (by have := h.p_ge; simp [fmt_p]; omega)
          (by rw [fmt_p]; have := Nat.two_pow_pos S.precision; omega) (by have := h.p_max; have := h.min_lt; rw [fmt_emin]; omega)
          (Or.inl (by
            rw [fmt_p]
            have := h.p_ge
            have : 2 ^ S.precision = 2 * 2 ^ (S.precision - 1) := by rw [← pow_succ']; congr 1; omega
            have := Nat.two_pow_pos (S.precision - 1)
            omega))
        have q1 : ((2 ^ S.precision - 1 : ℕ) : ℚ) * 2 ^ (S.maxExp - S.fmt.p + 1) = S.fmt.largest := by
          simp [Fmt.largest, Sem.fmt, hN]
        have q2 : ((2 ^ S.precision - 1 + 1 : ℕ) : ℚ) * 2 ^ (S.maxExp - S.fmt.p + 1) = 2 ^ (S.maxExp + 1) := by
          rw [Nat.sub_add_cancel Nat.one_le_two_pow, fmt_p]
          push_cast
          rw [← zpow_natCast, ← two_zpow_add]; congr 1; omega
        rw [q1, q2] at hn
        have := isRounded_hi (mode := .nearestTiesToEven) hn (largest_pos h).le (by linarith) c (by
          right
          rcases eq_or_lt_of_le hc with c2 | c2
          · right; right
            refine ⟨rfl, by linarith, 1, S.maxExp, ?_, ?_, ?_⟩
            · have := h.p_ge
              have : (2 : ℤ) ^ 3 ≤ 2 ^ S.precision := pow_le_pow_right₀ (by norm_num) this
              rw [fmt_p]; norm_num; linarith
            · have := h.p_ge; have := h.p_max; have := h.min_lt
              rw [fmt_p, fmt_emin]; omega
            · rw [two_zpow_add S.maxExp 1, zpow_one]; push_cast; ring
          · left; exact ⟨Or.inl rfl, by linarith⟩)
        have := hg.unique this
        linarith
    · intro hlt
      rcases le_or_gt v S.fmt.largest with c | c
      · exact hg.le_of_grid hL c
      · by_contra hc
        push Not at hc
        have h1 : 2 ^ (S.maxExp + 1) ≤ |g| := by
          by_contra hh
          push Not at hh
          have := grid_le_largest h hN hg.1 hh
          rw [abs_of_nonneg g0] at this
          linarith
        rw [abs_of_nonneg g0] at h1
        have h2 := hg.2.1 _ hL
        rw [abs_of_nonneg (show 0 ≤ v - S.fmt.largest by linarith), abs_of_nonpos (by linarith)] at h2
        linarith
  rcases le_total 0 v with hv | hv
  · rw [abs_of_nonneg (hg.nonneg hv), abs_of_nonneg hv]
    exact main hv hg
  · have hg' : IsRounded S.fmt .nearestTiesToEven (-v) (-g) := hg.neg
    have := main (v := -v) (g := -g) (by linarith) hg'
    rw [abs_of_nonpos hv, abs_of_nonpos (by have := hg'.nonneg (by linarith); linarith)]
    exact this
/-! ### From the fallback format -/

theorem Sem.Pair.fb_widen (h : S.Pair) {v : ℚ} (hv : (fallbackS S).fmt.Finite v) : (fallbackExtendedS S).fmt.Finite v :=
  finite_widen h.fb h.fbe (le_refl _) (by have := h.ok.p_ge; show S.minExp ≤ S.minExp + S.precision; omega) (le_refl _)
    (by intro e; cases e) hv

theorem Sem.Pair.to_fbe (h : S.Pair) {v : ℚ} (hv : S.fmt.Finite v) : (fallbackExtendedS S).fmt.Finite v :=
  finite_widen h.ok h.fbe (by show S.precision ≤ S.precision * 2; omega) (le_refl _) (le_refl _)
    (by intro e; cases e) hv

theorem Sem.Pair.to_fb (h : S.Pair) {v : ℚ} (hv : S.fmt.Finite v) : (fallbackS S).fmt.Finite v := by
  refine ⟨by rw [fallback_fmt S h.ieee]; exact grid_doubled hv.1, ?_⟩
  exact (h.to_fbe hv).2

/-- Datum equality of finite floats. -/
theorem datum_eq_finite {T : Sem} {x : IeeeFloat S} {y : IeeeFloat T} (hd : x.datum = y.datum) (fy : y.isFinite = true) :
    x.isFinite = true ∧ x.toRat = y.toRat ∧ x.sign = y.sign := by
  rw [datum_finite fy] at hd
  have fx : x.isFinite = true := by
    rw [isFinite_iff]
    unfold datum at hd
    cases c : x.category <;> rw [c] at hd <;> simp_all
  rw [datum_finite fx] at hd
  injection hd with a b
  exact ⟨fx, b, a⟩

theorem normal_of_ne_zero {x : IeeeFloat S} (fx : x.isFinite = true) (h0 : x.toRat ≠ 0) : x.category = .normal := by
  rcases isFinite_iff.1 fx with c | c
  · exact c
  · exact absurd (toRat_zero c) h0

/-- A number of the doubled format below the normal range of the format is in the format. -/
theorem doubled_subnormal {F : Fmt} (hp : 2 ≤ F.p) {v g : ℚ} (hv : F.doubled.Grid v)
    (hg : IsRounded F .nearestTiesToEven v g) (hl : |g| < F.smallestNormal) : g = v := by
  have hgrid : F.Grid (2 ^ F.emin) := by
    refine ⟨1, F.emin, ?_, by omega, by simp⟩
    rw [abs_one]; exact one_lt_pow₀ (by norm_num) (by omega)
  unfold Fmt.smallestNormal at hl
  have hvl : |v| < 2 ^ F.emin := by
    rw [abs_lt] at hl ⊢
    constructor
    · by_contra hc
      have := hg.le_of_grid hgrid.neg (not_lt.1 hc)
      linarith
    · by_contra hc
      have := hg.ge_of_grid hgrid (not_lt.1 hc)
      linarith
  refine hg.unique (isRounded_self _ ?_)
  obtain ⟨k, hk⟩ := hv.unit
  have e : F.doubled.emin - F.doubled.p + 1 = F.emin - F.p + 1 := by simp [Fmt.doubled]; ring
  rw [e] at hk
  refine ⟨k, F.emin - F.p + 1, ?_, le_refl _, hk⟩
  rw [hk, abs_mul, abs_of_pos (two_zpow_pos _)] at hvl
  have : (2 : ℚ) ^ F.emin = 2 ^ (F.p - 1) * 2 ^ (F.emin - F.p + 1) := by
    rw [← zpow_natCast, ← two_zpow_add]; congr 1; omega
  rw [this] at hvl
  have := lt_of_mul_lt_mul_right hvl (two_zpow_pos _).le
  have h2 : (2 : ℚ) ^ (F.p - 1) ≤ 2 ^ F.p := pow_le_pow_right₀ (by norm_num) (by omega)
  have := this.trans_le h2
  exact_mod_cast this

/-- Converting a fallback value that rounds to a finite number: the pair of its nearest number and what is left. -/
theorem ofFallback_ok (h : S.Pair) {x : IeeeFloat (fallbackS S)} (hx : x.Valid) (fx : x.isFinite = true)
    (hl : |x.toRat| < S.fmt.overflowAt) :
    ∃ d : DoubleFloat S, DoubleFloat.ofFallback x = .ok d ∧ d.Valid ∧ d.Canonical ∧ d.toRat = x.toRat ∧ d.hi.sign = x.sign ∧
      (d.lo.toRat = 0 → d.lo = ZERO S) := by
  have p3 := h.ok.p_ge
  have hdir : ∀ (T : Sem) (v : ℚ), DirectedOK T .nearestTiesToEven v := fun T v => directedOK_of_mode _ (by decide) (by decide) v
  obtain ⟨e, e1, e2, e3, e4, e5⟩ := convert_exact h.fb h.fbe hx (not_nan_of_finite fx) .nearestTiesToEven
    (fun _ => h.fb_widen (finite_toRat h.fb hx fx)) (fun _ => rfl)
  obtain ⟨fe, re, se⟩ := datum_eq_finite e3 fx
  have hgx : S.fmt.doubled.Grid x.toRat := by rw [← fallback_fmt S h.ieee]; exact grid_toRat h.fb hx fx
  obtain ⟨a, a1, a2, a3, a4⟩ := C21_convert_finite h.fbe h.ok e2 fe .nearestTiesToEven (hdir _ _)
  obtain ⟨a', b1, -, b3⟩ := C22_loses_info h.fbe h.ok e2 (not_nan_of_finite fe) .nearestTiesToEven
  rw [a1] at b1
  cases b1
  obtain ⟨⟨g, g1, g2⟩, -⟩ := a4
  rw [re] at g1
  have gl : |g| ≤ S.fmt.largest := (rounded_in_range h.ok h.ieee g1).2 hl
  rcases g2 with ⟨-, g2, g3⟩ | ⟨g2, -⟩
  swap
  · exact absurd gl (not_le.2 g2)
  dsimp only at g2 g3
  have fa : a.value.isFinite = true := by
    rw [isFinite_iff]
    unfold datum at g2
    cases c : a.value.category <;> rw [c] at g2 <;> simp_all
  have ra : a.value.toRat = g := by
    rw [datum_finite fa] at g2; injection g2
  have hst : a.status.diff Status.INEXACT = Status.OK := by
    rw [g3]
    have : ¬ (g ≠ e.value.toRat ∧ |g| < S.fmt.smallestNormal) := by
      rintro ⟨c1, c2⟩
      rw [re] at c1
      exact c1 (doubled_subnormal (by rw [fmt_p]; omega) hgx g1 c2)
    simp only [this, decide_false]
    by_cases c : g = e.value.toRat <;> simp [c] <;> decide
  unfold DoubleFloat.ofFallback
  simp only [e1, M.ok_bind]
  rw [massert_pos ⟨e4, e5⟩]
  simp only [M.ok_bind, a1]
  rw [massert_pos hst]
  simp only [M.ok_bind]
  have hloss : a.losesInfo = false → g = x.toRat := by
    intro hlo
    obtain ⟨-, hh, -⟩ := datum_eq_finite (b3.1 hlo) fe
    rw [← ra, hh, re]
  by_cases hc : a.value.isFiniteNonZero = true ∧ a.losesInfo = true
  · rw [if_pos (by simp [hc.1, hc.2])]
    have ca := (isFiniteNonZero_iff _).1 hc.1
    have ha0 := toRat_ne_zero a2 ca
    have hg0 : g ≠ 0 := by rw [← ra]; exact ha0
    have hx0 : x.toRat ≠ 0 := by
      intro hh
      have := g1.unique (isRounded_self (F := S.fmt) _ (v := x.toRat) (by rw [hh]; exact grid_zero))
      rw [hh] at this; exact hg0 this
    have ce := normal_of_ne_zero fe (by rw [re]; exact hx0)
    obtain ⟨u, u1, u2, u3, u4, u5⟩ := convert_exact h.ok h.fbe a2 (not_nan_of_finite fa) .nearestTiesToEven
      (fun _ => h.to_fbe (finite_toRat h.ok a2 fa)) (fun _ => rfl)
    obtain ⟨fu, ru, su⟩ := datum_eq_finite u3 fa
    have cu := normal_of_ne_zero fu (by rw [ru]; exact ha0)
    have hres : S.fmt.Grid (x.toRat - g) := grid_residual (by rw [fmt_p]; omega) hgx g1
    have hres2 : |x.toRat - g| ≤ S.fmt.largest := by
      have hh := g1.2.1 0 grid_zero
      rw [sub_zero] at hh
      by_cases c : |x.toRat| ≤ S.fmt.largest
      · exact hh.trans c
      · push Not at c
        have t1 := grid_largest h.ok
        have t2 := overflowAt_eq h.ieee
        have t3 : (2 : ℚ) ^ (S.maxExp - S.precision) ≤ S.fmt.largest := by
          have q1 : (2 : ℚ) ^ (S.maxExp - S.precision + 1) = 2 * 2 ^ (S.maxExp - S.precision) := by
            rw [two_zpow_add (S.maxExp - S.precision) 1, zpow_one]; ring
          have q2 : (2 : ℚ) ^ (S.maxExp - S.precision + 2) = 4 * 2 ^ (S.maxExp - S.precision) := by
            rw [two_zpow_add (S.maxExp - S.precision) 2]; norm_num; ring
          have q3 : (2 : ℚ) ^ (S.maxExp - S.precision + 2) ≤ 2 ^ (S.maxExp + 1) := two_zpow_le (by omega)
          have q4 := two_zpow_pos (S.maxExp - S.precision)
          rw [largest_ieee h.ieee]
          linarith
        rcases le_total 0 x.toRat with s | s
        · rw [abs_of_nonneg s] at c hl
          have := g1.2.1 _ t1
          rw [abs_of_nonneg (show 0 ≤ x.toRat - S.fmt.largest by linarith)] at this
          linarith
        · rw [abs_of_nonpos s] at c hl
          have := g1.2.1 _ t1.neg
          rw [abs_of_nonpos (show x.toRat - -S.fmt.largest ≤ 0 by linarith)] at this
          linarith
    have hfin : S.fmt.Finite (x.toRat - g) := ⟨hres, hres2⟩
    obtain ⟨v, v1, v2, v3, v4, -⟩ := subR_exact h.fbe e2 u2 ce cu
      (by rw [re, ru, ra]; exact (h.to_fbe hfin).1) (by rw [re, ru, ra]; exact (h.to_fbe hfin).2)
    rw [re, ru, ra] at v4
    obtain ⟨w, w1, w2, w3, w4, w5⟩ := convert_exact h.fbe h.ok v2 (not_nan_of_finite v3) .nearestTiesToEven
      (fun _ => by rw [v4]; exact hfin) (fun _ => h.ieee)
    obtain ⟨fw, rw', sw⟩ := datum_eq_finite w3 v3
    rw [v4] at rw'
    simp only [u1, M.ok_bind]
    rw [massert_pos ⟨u4, u5⟩]
    simp only [M.ok_bind, v1]
    rw [massert_pos trivial]
    simp only [M.ok_bind, w1]
    rw [massert_pos ⟨w4, w5⟩]
    have hsum : (⟨a.value, w.value⟩ : DoubleFloat S).toRat = x.toRat := by
      show a.value.toRat + w.value.toRat = _
      rw [ra, rw']; ring
    refine ⟨⟨a.value, w.value⟩, rfl, ⟨a2, w2⟩, ⟨⟨fa, fw⟩, ?_⟩, hsum, a3.trans se, ?_⟩
    · rw [hsum]; show IsRounded _ _ _ a.value.toRat; rw [ra]; exact g1
    · intro h0
      exfalso
      have h0 : w.value.toRat = 0 := h0
      rw [rw'] at h0
      have hgx' : g = x.toRat := by linarith
      have : a.losesInfo = false := b3.2 (by
        rw [datum_finite fa, datum_finite fe, a3, ra, re, hgx'])
      rw [this] at hc; exact absurd hc.2 (by simp)
  · rw [if_neg (by simpa using hc)]
    have hgx' : g = x.toRat := by
      by_cases hlo : a.losesInfo = true
      · have c0 : a.value.category = .zero := by
          rcases isFinite_iff.1 fa with c | c
          · exact absurd ⟨(isFiniteNonZero_iff _).2 c, hlo⟩ hc
          · exact c
        have g0 : g = 0 := by rw [← ra, toRat_zero c0]
        exact doubled_subnormal (by rw [fmt_p]; omega) hgx g1 (by
          rw [g0, abs_zero]; exact two_zpow_pos _)
      · exact hloss (by simpa using hlo)
    have hsum : (⟨a.value, ZERO S⟩ : DoubleFloat S).toRat = x.toRat := by
      show a.value.toRat + (ZERO S).toRat = _
      rw [ra, hgx', toRat_zero (x := ZERO S) rfl]; ring
    refine ⟨⟨a.value, ZERO S⟩, rfl, ⟨a2, zero_valid⟩, ⟨⟨fa, rfl⟩, ?_⟩, hsum, a3.trans se, fun _ => rfl⟩
    rw [hsum]; show IsRounded _ _ _ a.value.toRat; rw [ra]; exact g1
theorem massert_neg {c : Prop} [Decidable c] (h : ¬ c) : massert c = .error .assert := by
  simp [massert, h]

/-- A finite fallback value that rounds to infinity makes the conversion panic. -/
theorem ofFallback_overflow (h : S.Pair) {x : IeeeFloat (fallbackS S)} (hx : x.Valid) (fx : x.isFinite = true)
    (hl : S.fmt.overflowAt ≤ |x.toRat|) : DoubleFloat.ofFallback x = .error .assert := by
  have hdir : ∀ (T : Sem) (v : ℚ), DirectedOK T .nearestTiesToEven v := fun T v => directedOK_of_mode _ (by decide) (by decide) v
  obtain ⟨e, e1, e2, e3, e4, e5⟩ := convert_exact h.fb h.fbe hx (not_nan_of_finite fx) .nearestTiesToEven
    (fun _ => h.fb_widen (finite_toRat h.fb hx fx)) (fun _ => rfl)
  obtain ⟨fe, re, se⟩ := datum_eq_finite e3 fx
  obtain ⟨a, a1, a2, a3, a4⟩ := C21_convert_finite h.fbe h.ok e2 fe .nearestTiesToEven (hdir _ _)
  obtain ⟨⟨g, g1, g2⟩, -⟩ := a4
  rw [re] at g1
  have gl : ¬ |g| ≤ S.fmt.largest := fun hh => absurd ((rounded_in_range h.ok h.ieee g1).1 hh) (not_lt.2 hl)
  rcases g2 with ⟨g2, -⟩ | ⟨-, g2⟩
  · exact absurd g2 gl
  dsimp only at g2
  have hst : a.status = { overflow := true, inexact := true } := by
    have := (Prod.mk.inj g2).2
    exact this
  unfold DoubleFloat.ofFallback
  simp only [e1, M.ok_bind]
  rw [massert_pos ⟨e4, e5⟩]
  simp only [M.ok_bind, a1]
  rw [massert_neg (by rw [hst]; decide)]
  rfl

theorem ofFallback_inf (h : S.Pair) {x : IeeeFloat (fallbackS S)} (cx : x.category = .infinity) :
    DoubleFloat.ofFallback x = .ok ⟨{ INFINITY S with sign := x.sign }, ZERO S⟩ := by
  unfold DoubleFloat.ofFallback
  rw [convertR_inf h.fb h.fbe cx, if_pos (show (fallbackExtendedS S).nonfinite = .ieee754 from rfl)]
  simp only [M.ok_bind]
  rw [massert_pos (by simp)]
  simp only [M.ok_bind]
  rw [convertR_inf h.fbe h.ok (by rfl), if_pos h.ieee]
  simp only [M.ok_bind]
  rw [massert_pos (by decide)]
  simp

theorem ofFallback_nan (h : S.Pair) {x : IeeeFloat (fallbackS S)} (hx : x.Valid) (nx : x.isNan = true) (qx : x.isSignaling = false) :
    ∃ d, DoubleFloat.ofFallback x = .ok d ∧ d.Valid ∧ d.hi.isNan = true ∧ d.hi.isSignaling = false ∧ d.hi.sign = x.sign ∧
      d.lo = ZERO S := by
  obtain ⟨e, e1, e2, e3, e4, e5, e6, -, e8⟩ := convertR_nan h.fb h.fbe hx nx .nearestTiesToEven
  obtain ⟨a, a1, a2, a3, a4, a5, a6, -⟩ := convertR_nan h.fbe h.ok e2 e3 .nearestTiesToEven
  rw [qx] at e6
  rw [e4] at a6
  have hlo : e.losesInfo = false := by
    by_contra hc
    obtain ⟨-, c | c | c⟩ := e8.1 (by simpa using hc)
    · cases c
    · exact absurd c.1 (lt_irrefl _)
    · cases c.1
  unfold DoubleFloat.ofFallback
  simp only [e1, M.ok_bind]
  rw [massert_pos ⟨by simpa using e6, hlo⟩]
  simp only [M.ok_bind, a1]
  rw [massert_pos (by rw [a6]; decide)]
  simp only [M.ok_bind]
  rw [if_neg (by
    have : a.value.category = .nan := by simpa [isNan] using a3
    simp [isFiniteNonZero, isFinite, a3])]
  exact ⟨_, rfl, ⟨a2, zero_valid⟩, a3, a4, a5.trans e5, rfl⟩

theorem ofFallback_snan (h : S.Pair) {x : IeeeFloat (fallbackS S)} (hx : x.Valid) (nx : x.isNan = true) (qx : x.isSignaling = true) :
    DoubleFloat.ofFallback x = .error .assert := by
  obtain ⟨e, e1, e2, e3, e4, e5, e6, -, e8⟩ := convertR_nan h.fb h.fbe hx nx .nearestTiesToEven
  rw [qx] at e6
  unfold DoubleFloat.ofFallback
  simp only [e1, M.ok_bind]
  rw [massert_neg (by rw [e6]; rintro ⟨c, -⟩; exact absurd c (by decide))]
  rfl

/-! ### To the fallback format -/

/-- A pair with a finite non-zero high part is rounded to the 106-bit format. -/
theorem toFallback_ok (h : S.Pair) {d : DoubleFloat S} (hd : d.Valid) (fd : d.Finite) (cd : d.hi.category = .normal) :
    ∃ r st, DoubleFloat.toFallback d = .ok r ∧ r.Valid ∧
      Rounds (fallbackS S) .nearestTiesToEven d.toRat (zeroSum .nearestTiesToEven d.hi.sign d.lo.sign) ⟨st, r⟩ := by
  obtain ⟨a, a1, a2, a3, a4, a5⟩ := convert_exact h.ok h.fb hd.1 (not_nan_of_finite fd.1) .nearestTiesToEven
    (fun _ => h.to_fb (finite_toRat h.ok hd.1 fd.1)) (fun _ => rfl)
  obtain ⟨b, b1, b2, b3, b4, b5⟩ := convert_exact h.ok h.fb hd.2 (not_nan_of_finite fd.2) .nearestTiesToEven
    (fun _ => h.to_fb (finite_toRat h.ok hd.2 fd.2)) (fun _ => rfl)
  obtain ⟨fa, ra, sa⟩ := datum_eq_finite a3 fd.1
  obtain ⟨fb, rb, sb⟩ := datum_eq_finite b3 fd.2
  obtain ⟨⟨st, r⟩, r1, r2, r3⟩ := addR_finite h.fb a2 b2 fa fb .nearestTiesToEven (directedOK_of_mode _ (by decide) (by decide) _)
  refine ⟨r, st, ?_, r2, ?_⟩
  · unfold DoubleFloat.toFallback
    simp only [a1, M.ok_bind]
    rw [massert_pos ⟨a4, a5⟩]
    simp only [M.ok_bind]
    have : a.value.isFiniteNonZero = true := (isFiniteNonZero_iff _).2 (normal_of_ne_zero fa (by
      rw [ra]; exact toRat_ne_zero hd.1 cd))
    rw [if_pos this, b1]
    simp only [M.ok_bind]
    rw [massert_pos ⟨b4, b5⟩]
    simp only [M.ok_bind, r1]
  · rw [ra, rb, sa, sb] at r3
    exact r3

/-- A zero high part decides, whatever the low part. -/
theorem toFallback_zero (h : S.Pair) {d : DoubleFloat S} (cd : d.hi.category = .zero) :
    DoubleFloat.toFallback d = .ok { ZERO (fallbackS S) with sign := d.hi.sign } := by
  unfold DoubleFloat.toFallback
  rw [convertR_zero h.ok h.fb cd]
  simp only [M.ok_bind]
  rw [massert_pos (by simp)]
  simp only [M.ok_bind]
  rw [if_neg (by simp [isFiniteNonZero, isZero, ZERO])]

theorem toFallback_inf (h : S.Pair) {d : DoubleFloat S} (cd : d.hi.category = .infinity) :
    DoubleFloat.toFallback d = .ok { INFINITY (fallbackS S) with sign := d.hi.sign } := by
  unfold DoubleFloat.toFallback
  rw [convertR_inf h.ok h.fb cd, if_pos (show (fallbackS S).nonfinite = .ieee754 from rfl)]
  simp only [M.ok_bind]
  rw [massert_pos (by simp)]
  simp only [M.ok_bind]
  rw [if_neg (by simp [isFiniteNonZero, isFinite, isInfinite, INFINITY, fallbackS])]

theorem toFallback_nan (h : S.Pair) {d : DoubleFloat S} (hd : d.hi.Valid) (nd : d.hi.isNan = true) (qd : d.hi.isSignaling = false)
    (hx : S.explicitIntBit = false) :
    ∃ r, DoubleFloat.toFallback d = .ok r ∧ r.Valid ∧ r.isNan = true ∧ r.isSignaling = false ∧ r.sign = d.hi.sign := by
  obtain ⟨e, e1, e2, e3, e4, e5, e6, -, e8⟩ := convertR_nan h.ok h.fb hd nd .nearestTiesToEven
  rw [qd] at e6
  have hlo : e.losesInfo = false := by
    by_contra hc
    obtain ⟨-, c | c | c⟩ := e8.1 (by simpa using hc)
    · cases c
    · have := c.1
      have h2 : (fallbackS S).precision = S.precision * 2 := rfl
      omega
    · rw [hx] at c; cases c.1
  unfold DoubleFloat.toFallback
  simp only [e1, M.ok_bind]
  rw [massert_pos ⟨by simpa using e6, hlo⟩]
  simp only [M.ok_bind]
  rw [if_neg (by simp [isFiniteNonZero, isFinite, e3])]
  exact ⟨_, rfl, e2, e3, e4, e5⟩

theorem toFallback_snan (h : S.Pair) {d : DoubleFloat S} (hd : d.hi.Valid) (nd : d.hi.isNan = true) (qd : d.hi.isSignaling = true) :
    DoubleFloat.toFallback d = .error .assert := by
  obtain ⟨e, e1, e2, e3, e4, e5, e6, -, e8⟩ := convertR_nan h.ok h.fb hd nd .nearestTiesToEven
  rw [qd] at e6
  unfold DoubleFloat.toFallback
  simp only [e1, M.ok_bind]
  rw [massert_neg (by rw [e6]; rintro ⟨c, -⟩; exact absurd c (by decide))]
  rfl

/-! ### Canonical pairs -/

theorem Canonical.hi_zero_iff (h : S.OK) {d : DoubleFloat S} (hd : d.Valid) (hc : d.Canonical) : d.hi.toRat = 0 ↔ d.toRat = 0 := by
  have hg := hc.2
  constructor
  · intro h0
    have e : d.toRat = d.lo.toRat := by unfold DoubleFloat.toRat; rw [h0, zero_add]
    rw [e, h0] at hg
    have := hg.unique (isRounded_self _ (grid_toRat h hd.2 hc.1.2))
    rw [e, ← this]
  · intro h0
    rw [h0] at hg
    exact hg.unique (isRounded_self _ grid_zero)

theorem Canonical.lt_overflowAt (h : S.Pair) {d : DoubleFloat S} (hd : d.Valid) (hc : d.Canonical) : |d.toRat| < S.fmt.overflowAt :=
  (rounded_in_range h.ok h.ieee hc.2).1 (abs_toRat_le h.ok hd.1 hc.1.1)

theorem overflowAt_lt : S.fmt.overflowAt < 2 ^ (S.maxExp + 1) := by
  simp only [Fmt.overflowAt, Sem.fmt]
  have := two_zpow_pos (S.maxExp - S.precision)
  linarith

theorem fits_le_largest (h : S.Pair) {v : ℚ} (hg : S.fmt.doubled.Grid v) (hl : |v| < S.fmt.overflowAt) :
    |v| ≤ (fallbackS S).fmt.largest :=
  grid_le_largest h.fb rfl (by rw [fallback_fmt S h.ieee]; exact hg) (hl.trans overflowAt_lt)

theorem Canonical.sign (h : S.OK) {d : DoubleFloat S} (hd : d.Valid) (hc : d.Canonical) :
    (0 < d.toRat → d.hi.sign = false) ∧ (d.toRat < 0 → d.hi.sign = true) := by
  have h0 := Canonical.hi_zero_iff h hd hc
  constructor
  · intro hp
    have h1 := hc.2.nonneg hp.le
    have cn := normal_of_ne_zero hc.1.1 (fun e => hp.ne' (h0.1 e))
    cases hs : d.hi.sign
    · rfl
    · have := sign_neg hd.1 cn hs
      linarith
  · intro hp
    have h1 := (hc.2.neg).nonneg (by linarith)
    have cn := normal_of_ne_zero hc.1.1 (fun e => hp.ne (h0.1 e))
    cases hs : d.hi.sign
    · have := sign_pos hd.1 cn hs
      linarith
    · rfl

/-- A pair the 106-bit format represents is converted exactly. -/
theorem toFallback_fits (h : S.Pair) {d : DoubleFloat S} (hd : d.Fits) :
    ∃ r, DoubleFloat.toFallback d = .ok r ∧ r.Valid ∧ r.isFinite = true ∧ r.toRat = d.toRat ∧ r.sign = d.hi.sign := by
  obtain ⟨hv, hc, hg⟩ := hd
  have h0 := Canonical.hi_zero_iff h.ok hv hc
  rcases isFinite_iff.1 hc.1.1 with cn | cz
  · obtain ⟨r, st, r1, r2, r3⟩ := toFallback_ok h hv hc.1 cn
    obtain ⟨e1, e2, e3⟩ := Rounds.exact r3 (by rw [fallback_fmt S h.ieee]; exact hg) (fits_le_largest h hg (Canonical.lt_overflowAt h hv hc))
    refine ⟨r, r1, r2, e2, e3, ?_⟩
    have hs := Canonical.sign h.ok hv hc
    have hne : d.toRat ≠ 0 := fun e => toRat_ne_zero hv.1 cn (h0.2 e)
    rcases lt_or_gt_of_ne hne with c | c
    · rw [hs.2 c]; exact r3.2.2.1 c
    · rw [hs.1 c]; exact r3.2.1 c
  · refine ⟨_, toFallback_zero h cz, rfl, rfl, ?_, rfl⟩
    rw [h0.1 (toRat_zero cz)]
    exact toRat_zero rfl

theorem pair_datum_finite {d : DoubleFloat S} (fd : d.hi.isFinite = true) : d.datum = .num d.hi.sign d.toRat := by
  unfold DoubleFloat.datum
  rw [datum_finite fd]

/-- A correctly rounded fallback result in the range of the parts becomes a correctly rounded pair. -/
theorem mapFrom_ok (h : S.Pair) {mode : Round} {v : ℚ} {zs : Bool} {r : StatusAnd (IeeeFloat (fallbackS S))}
    (hv : r.value.Valid) (hr : Rounds (fallbackS S) mode v zs r) (hl : |v| ≤ S.fmt.largest) :
    ∃ d, DoubleFloat.mapFrom r = .ok d ∧ PairRounds S mode v zs d := by
  obtain ⟨⟨g, g1, g2⟩, hs⟩ := hr
  have hL : (fallbackS S).fmt.Grid S.fmt.largest := by
    rw [fallback_fmt S h.ieee]; exact grid_doubled (grid_largest h.ok)
  have gl : |g| ≤ S.fmt.largest := by
    rw [abs_le] at hl ⊢
    exact ⟨g1.ge_of_grid hL.neg hl.1, g1.le_of_grid hL hl.2⟩
  have hu := two_zpow_pos (S.maxExp - S.precision)
  have go : |g| < S.fmt.overflowAt := by rw [overflowAt_eq h.ieee]; linarith
  have gL : |g| ≤ (fallbackS S).fmt.largest := fits_le_largest h (by rw [← fallback_fmt S h.ieee]; exact g1.1) go
  rcases g2 with ⟨-, g2, g3⟩ | ⟨g2, -⟩
  swap
  · exact absurd gL (not_le.2 g2)
  have fr : r.value.isFinite = true := by
    rw [isFinite_iff]
    unfold datum at g2
    cases c : r.value.category <;> rw [c] at g2 <;> simp_all
  have rr : r.value.toRat = g := by
    rw [datum_finite fr] at g2; injection g2
  obtain ⟨d, d1, d2, d3, d4, d5, -⟩ := ofFallback_ok h hv fr (by rw [rr]; exact go)
  refine ⟨⟨r.status, d⟩, ?_, ?_⟩
  · unfold DoubleFloat.mapFrom
    rw [d1]; rfl
  · refine ⟨⟨g, ?_, Or.inl ⟨?_, ?_, ?_⟩⟩, ?_, d2, d3⟩
    · rw [← fallback_fmt S h.ieee]; exact g1
    · rw [← fallback_fmt S h.ieee]; exact gL
    · rw [pair_datum_finite d3.1.1, d4, rr]; rfl
    · rw [← fallback_fmt S h.ieee]; exact g3
    · show SignRule v zs d.hi.sign
      rw [d5]; exact hs

end Apf
