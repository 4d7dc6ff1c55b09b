import Verif.Props.Chain
import Mathlib.RingTheory.Coprime.Basic
/-!
# C126: quotients never tie

A quotient in the normal range is never half way between two numbers: the number nearest to it is unique, and the two round-to-nearest modes agree.
-/

namespace Apf
open Spec IeeeFloat
variable {S : Sem} {F : Fmt}

/-- A midpoint in the normal range needs exactly one bit more than the precision. -/
theorem midpoint_odd (hp : 2 ≤ F.p) {v : ℚ} (h : F.Midpoint v) (hv : 2 ^ F.emin ≤ v) : ∃ (n : ℕ) (k : ℤ), 2 ^ F.p ≤ 2 * n + 1 ∧ v = (2 * n + 1 : ℕ) * 2 ^ k := by
  obtain ⟨a, b, ha, hb, hab, hg, rfl⟩ := h
  have v0 : 0 ≤ (a + b) / 2 := (two_zpow_pos F.emin).le.trans hv
  obtain ⟨n, e, h1, h2, h3, h4, h5⟩ := exists_canonical (F := F) (by omega) v0
  have hn := neighbours_mk (F := F) (by omega) h1 h2 h3
  have hn' : 2 ^ (F.p - 1) ≤ n := by
    rcases h3 with c | c
    · exact c
    · subst c
      by_contra hc
      have : n + 1 ≤ 2 ^ (F.p - 1) := by omega
      have : ((n + 1 : ℕ) : ℚ) ≤ 2 ^ (F.p - 1) := by exact_mod_cast this
      have := mul_le_mul_of_nonneg_right this (two_zpow_pos (F.emin - F.p + 1)).le
      rw [← zpow_natCast, ← two_zpow_add, show ((F.p - 1 : ℕ) : ℤ) + (F.emin - F.p + 1) = F.emin by omega] at this
      linarith
  refine ⟨n, e - F.p, ?_, ?_⟩
  · have : 2 ^ F.p = 2 * 2 ^ (F.p - 1) := by rw [← pow_succ']; congr 1; omega
    omega
  · have e1 : ((n : ℚ) * 2 ^ (e - F.p + 1) + ((n + 1 : ℕ) : ℚ) * 2 ^ (e - F.p + 1)) / 2 = ((2 * n + 1 : ℕ) : ℚ) * 2 ^ (e - F.p) := by
      rw [two_zpow_add (e - F.p) 1]; push_cast; ring
    rw [← e1]
    generalize (n : ℚ) * 2 ^ (e - F.p + 1) = lo at *
    generalize ((n + 1 : ℕ) : ℚ) * 2 ^ (e - F.p + 1) = hi at *
    have a1 : a = lo := by
      rcases hn.gap a ha with c | c
      · rcases hg lo hn.glo with d | d
        · linarith
        · linarith
      · linarith
    have b1 : b = hi := by
      rcases hn.gap b hb with c | c
      · linarith
      · rcases hg hi hn.ghi with d | d
        · linarith
        · linarith
    rw [a1, b1]

/-- A quotient of numbers of the format is no odd number of more than `p` bits, in any unit. -/
theorem quotient_ne_odd {x y : ℚ} (hx : F.Grid x) (hy : F.Grid y) (y0 : y ≠ 0) (x0 : x ≠ 0) {n : ℕ} {k : ℤ} (h1 : 2 ^ F.p ≤ 2 * n + 1) :
    x / y ≠ (2 * n + 1 : ℕ) * 2 ^ k := by
  intro h2
  obtain ⟨a, i, a1, -, rfl⟩ := hx
  obtain ⟨b, j, b1, -, rfl⟩ := hy
  have b0 : b ≠ 0 := by rintro rfl; simp at y0
  have a0 : a ≠ 0 := by rintro rfl; simp at x0
  rw [div_eq_iff y0] at h2
  -- strip the twos: an odd number with more than `p` bits divides `a`
  obtain ⟨c, hc⟩ : ∃ c : ℤ, c = 2 * n + 1 := ⟨_, rfl⟩
  have key : ∀ s t : ℕ, a * 2 ^ s = c * b * 2 ^ t → c ∣ a := by
    intro s t e
    have hcop : ∀ s : ℕ, IsCoprime c (2 ^ s : ℤ) := by
      intro s
      induction s with
      | zero => rw [pow_zero]; exact isCoprime_one_right
      | succ s ih => rw [pow_succ]; exact ih.mul_right ⟨1, -n, by rw [hc]; ring⟩
    exact (hcop s).dvd_of_dvd_mul_right (by rw [e, mul_assoc]; exact Dvd.intro _ rfl)
  have hdvd : c ∣ a := by
    have e : (a : ℚ) * 2 ^ i = (c * b : ℤ) * 2 ^ (k + j) := by
      rw [h2, two_zpow_add, hc]; push_cast; ring
    rcases le_total i (k + j) with q | q
    · obtain ⟨t, ht⟩ := Int.eq_ofNat_of_zero_le (sub_nonneg.2 q)
      refine key 0 t ?_
      rw [show k + j = i + t by omega, two_zpow_add, zpow_natCast] at e
      have hi := (two_zpow_pos i).ne'
      have : (a : ℚ) = (c * b : ℤ) * 2 ^ t := by
        apply mul_right_cancel₀ hi; rw [e]; ring
      rw [pow_zero, mul_one]; exact_mod_cast this
    · obtain ⟨t, ht⟩ := Int.eq_ofNat_of_zero_le (sub_nonneg.2 q)
      refine key t 0 ?_
      rw [show i = (k + j) + t by omega, two_zpow_add, zpow_natCast] at e
      have hi := (two_zpow_pos (k + j)).ne'
      have : (a : ℚ) * 2 ^ t = (c * b : ℤ) := by
        apply mul_right_cancel₀ hi; rw [← e]; ring
      rw [pow_zero, mul_one]; exact_mod_cast this
  have h3 := Int.le_of_dvd (abs_pos.2 a0) ((dvd_abs _ _).2 hdvd)
  have h4 : (2 : ℤ) ^ F.p ≤ 2 * n + 1 := by exact_mod_cast h1
  omega

/-- Quotients of numbers of the format. -/
theorem quotient_not_midpoint (hp : 2 ≤ F.p) {x y : ℚ} (hx : F.Grid x) (hy : F.Grid y) (y0 : y ≠ 0) (hv : 2 ^ F.emin ≤ |x / y|) : ¬ F.Midpoint (x / y) := by
  intro hm
  wlog h0 : 0 ≤ x / y generalizing x
  · refine this hx.neg (by rwa [neg_div, abs_neg]) (by rw [neg_div]; exact hm.neg) ?_
    rw [neg_div]; linarith
  rw [abs_of_nonneg h0] at hv
  obtain ⟨n, k, h1, h2⟩ := midpoint_odd hp hm hv
  have x0 : x ≠ 0 := by
    rintro rfl
    rw [zero_div] at hv
    exact absurd (two_zpow_pos F.emin) (not_lt.2 hv)
  exact quotient_ne_odd hx hy y0 x0 h1 h2

/-- Where there is no tie the number nearest is the same in both modes. -/
theorem nearest_unique {v g g' : ℚ} (h1 : F.Grid g) (h2 : F.Grid g') (n1 : ∀ z, F.Grid z → |v - g| ≤ |v - z|) (hm : ¬ F.Midpoint v) (hne : g' ≠ g) :
    |v - g| < |v - g'| := by
  refine lt_of_le_of_ne (n1 _ h2) (fun he => hm ?_)
  have key : ∀ {a b : ℚ}, F.Grid a → F.Grid b → a < b → (∀ z, F.Grid z → |v - a| ≤ |v - z|) → |v - a| = |v - b| → F.Midpoint v := by
    intro a b ga gb hab n he
    have hv : v = (a + b) / 2 := by
      rcases abs_eq_abs.1 he with c | c <;> linarith
    refine ⟨a, b, ga, gb, hab, fun z gz => ?_, hv⟩
    by_contra hc
    push Not at hc
    have := n z gz
    rw [abs_of_pos (by linarith : 0 < v - a)] at this
    have : |v - z| < v - a := abs_lt.2 ⟨by linarith [hc.2], by linarith [hc.1]⟩
    linarith
  rcases lt_or_gt_of_ne hne with c | c
  · exact key h2 h1 c (fun z gz => he ▸ n1 z gz) he.symm
  · exact key h1 h2 c n1 he

/-- **C126.** A quotient in the normal range is never half way between two consecutive numbers. -/
theorem C126_never_half_way (h : S.OK) {x y : IeeeFloat S} (hx : x.Valid) (hy : y.Valid) (fx : x.isFinite = true) (fy : y.isFinite = true)
    (y0 : y.toRat ≠ 0) (hv : 2 ^ S.minExp ≤ |x.toRat / y.toRat|) : ¬ S.fmt.Midpoint (x.toRat / y.toRat) :=
  quotient_not_midpoint (show 2 ≤ S.precision by have := h.p_ge; omega) (grid_toRat h hx fx) (grid_toRat h hy fy) y0 hv

/-- **C126.** The two round-to-nearest modes deliver the same quotient, bit for bit, with the same flags, overflow included; and no other number is as
near to the exact quotient. -/
theorem C126_modes_agree (h : S.OK) {x y : IeeeFloat S} (hx : x.Valid) (hy : y.Valid) (fx : x.isFinite = true) (fy : y.isFinite = true)
    (y0 : y.toRat ≠ 0) (hv : 2 ^ S.minExp ≤ |x.toRat / y.toRat|) :
    ∃ r r', divR x y .nearestTiesToEven = .ok r ∧ divR x y .nearestTiesToAway = .ok r' ∧ r.status = r'.status ∧ r.value.Valid ∧ r'.value.Valid ∧
      r.value.datum = r'.value.datum ∧ r.value.sign = r'.value.sign ∧ 
      (r.value.isFinite = true → ∀ z : IeeeFloat S, z.Valid → z.isFinite = true → z.toRat ≠ r.value.toRat →
        |x.toRat / y.toRat - r.value.toRat| < |x.toRat / y.toRat - z.toRat|) := by
  have hm := C126_never_half_way h hx hy fx fy y0 hv
  obtain ⟨r, a1, a2, ⟨⟨g, g1, g2⟩, gs⟩⟩ := C07_div_correctly_rounded h hx hy fx fy y0 .nearestTiesToEven (by simp [DirectedOK])
  obtain ⟨r', b1, b2, ⟨⟨g', g1', g2'⟩, gs'⟩⟩ := C07_div_correctly_rounded h hx hy fx fy y0 .nearestTiesToAway (by simp [DirectedOK])
  have hgg : g' = g := by
    by_contra hc
    have := nearest_unique g1.1 g1'.1 g1.2.1 hm hc
    have := g1'.2.1 g g1.1
    linarith
  subst hgg
  have hs : r.value.sign = r'.value.sign := gs.unique gs'
  have ho : ∀ neg, overflowed S.fmt .nearestTiesToEven neg = overflowed S.fmt .nearestTiesToAway neg := fun neg => rfl
  have both : r.value.datum = r'.value.datum ∧ r.status = r'.status := by
    rw [hs] at g2
    rcases g2 with ⟨c, d, s⟩ | ⟨c, d⟩
    · rcases g2' with ⟨-, d', s'⟩ | ⟨c', -⟩
      · exact ⟨d.trans d'.symm, s.trans s'.symm⟩
      · linarith
    · rcases g2' with ⟨c', -⟩ | ⟨-, d'⟩
      · linarith
      · rw [ho, ← d'] at d
        exact Prod.mk.inj d
  refine ⟨r, r', a1, b1, both.2, a2, b2, both.1, hs, fun fr z hz fz hne => ?_⟩
  rcases g2 with ⟨-, d, -⟩ | ⟨c, d⟩
  · obtain ⟨-, er⟩ := datum_num d
    rw [er] at hne ⊢
    exact nearest_unique g1.1 (grid_toRat h hz fz) g1.2.1 hm hne
  · have hd : r.value.datum = if S.fmt.hasInf then .inf r.value.sign else .nan := (Prod.mk.inj d).1
    rw [datum_finite fr] at hd
    split_ifs at hd

/-! Non-vacuity: one third, and the largest number divided by a half. -/
example := C126_never_half_way singleS_ok (x := ⟨8388608, 0, .normal, false⟩) (y := ⟨12582912, 1, .normal, true⟩) (by decide) (by decide) rfl rfl
  (by decide +kernel) (by decide +kernel)
example := C126_modes_agree singleS_ok (x := ⟨8388608, 0, .normal, false⟩) (y := ⟨12582912, 1, .normal, true⟩) (by decide) (by decide) rfl rfl
  (by decide +kernel) (by decide +kernel)
example := C126_modes_agree float8E4M3FNS_ok (x := ⟨14, 8, .normal, false⟩) (y := ⟨8, -1, .normal, false⟩) (by decide) (by decide) rfl rfl
  (by decide +kernel) (by decide +kernel)

/-- **C126.** Below the normal range quotients do tie: half the smallest number is 0 to even and the smallest number away from zero. -/
theorem C126_subnormal_tie : ∃ x y r r' : IeeeFloat singleS, x.Valid ∧ y.Valid ∧ y.toRat = 2 ∧
    divR x y .nearestTiesToEven = .ok ⟨{ inexact := true, underflow := true }, r⟩ ∧ r.toRat = 0 ∧
    divR x y .nearestTiesToAway = .ok ⟨{ inexact := true, underflow := true }, r'⟩ ∧ r'.toRat = x.toRat ∧ x.toRat ≠ 0 := by
  refine ⟨⟨1, -126, .normal, false⟩, ⟨8388608, 1, .normal, false⟩, ⟨0, -127, .zero, false⟩, ⟨1, -126, .normal, false⟩, ?_⟩
  decide +kernel

end Apf
