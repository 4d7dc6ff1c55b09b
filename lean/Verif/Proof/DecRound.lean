import Verif.Proof.DecUlps
import Verif.Proof.Parse
import Verif.Props.Scale
/-! # From the calculated significand to the correctly rounded value -/

namespace Apf
open Spec IeeeFloat
variable {S : Sem}

/-! ### The spec side: what separates two different roundings -/

theorem midpoint_between {F : Fmt} (hp : 1 ≤ F.p) {mode : Round} (hm : Nearest mode) {v w a b : ℚ} (hv : 0 ≤ v)
    (ha : IsRounded F mode v a) (hb : IsRounded F mode w b) (hlt : a < b) :
    ∃ (n : ℕ) (e : ℤ), n < 2 ^ F.p ∧ F.emin ≤ e ∧ (2 ^ (F.p - 1) ≤ n ∨ e = F.emin) ∧
      v ≤ (2 * n + 1) * 2 ^ (e - F.p) ∧ ((2 : ℚ) * n + 1) * 2 ^ (e - F.p) ≤ w := by
  have ha0 := ha.nonneg hv
  obtain ⟨n, e, h1, h2, h3, h4, h5⟩ := exists_canonical hp ha0
  have hn := neighbours_mk hp h1 h2 h3
  have hga : F.Grid a := ha.1
  have hgb : F.Grid b := hb.1
  have hlo : a = n * 2 ^ (e - F.p + 1) := by
    rcases hn.gap a hga with h | h
    · linarith
    · linarith
  have hhi : ((n + 1 : ℕ) : ℚ) * 2 ^ (e - F.p + 1) ≤ b := by
    rcases hn.gap b hgb with h | h
    · linarith
    · exact h
  have hpw : (2 : ℚ) ^ (e - F.p + 1) = 2 * 2 ^ (e - F.p) := by rw [two_zpow_add, zpow_one]; ring
  have near : (∀ g, F.Grid g → |v - a| ≤ |v - g|) ∧ (∀ g, F.Grid g → |w - b| ≤ |w - g|) := by
    rcases hm with rfl | rfl
    · exact ⟨ha.2.1, hb.2.1⟩
    · exact ⟨ha.2.1, hb.2.1⟩
  refine ⟨n, e, h1, h2, h3, ?_, ?_⟩
  · have := near.1 _ hn.ghi
    by_contra hc
    push Not at hc
    have e1 : (((n + 1 : ℕ) : ℚ)) * 2 ^ (e - F.p + 1) = (2 * n + 2) * 2 ^ (e - F.p) := by rw [hpw]; push_cast; ring
    have e2 : a = 2 * n * 2 ^ (e - F.p) := by rw [hlo, hpw]; ring
    have hu := two_zpow_pos (e - F.p)
    rw [e1, e2] at this
    rw [abs_of_nonneg (by nlinarith)] at this
    rcases abs_cases (v - (2 * n + 2) * 2 ^ (e - F.p)) with ⟨h, _⟩ | ⟨h, _⟩ <;> nlinarith
  · have := near.2 _ hga
    by_contra hc
    push Not at hc
    have e1 : (((n + 1 : ℕ) : ℚ)) * 2 ^ (e - F.p + 1) = (2 * n + 2) * 2 ^ (e - F.p) := by rw [hpw]; push_cast; ring
    have e2 : a = 2 * n * 2 ^ (e - F.p) := by rw [hlo, hpw]; ring
    have hu := two_zpow_pos (e - F.p)
    rw [e1] at hhi
    rw [e2] at this
    have hwb : w - b < 0 := by nlinarith
    rw [abs_of_neg hwb] at this
    rcases abs_cases (w - 2 * n * 2 ^ (e - F.p)) with ⟨h, _⟩ | ⟨h, _⟩ <;> nlinarith

/-- A delivered value remains so for an exact value with the same rounding; the flags may differ, except overflow. -/
theorem Spec.Delivers.of_rounded {F : Fmt} {mode : Round} {v w : ℚ} {s : Bool} {d : Datum} {st : Status}
    (hd : Delivers F mode v s d st) (h : ∀ g, IsRounded F mode v g → IsRounded F mode w g) :
    ∃ st', Delivers F mode w s d st' ∧ st'.overflow = st.overflow ∧ st.invalidOp = false ∧ st.divByZero = false := by
  obtain ⟨g, hg, h1 | h2⟩ := hd
  · obtain ⟨h1, h2, rfl⟩ := h1
    exact ⟨_, ⟨g, h g hg, Or.inl ⟨h1, h2, rfl⟩⟩, rfl, rfl, rfl⟩
  · refine ⟨st, ⟨g, h g hg, Or.inr h2⟩, rfl, ?_, ?_⟩
    · have := congrArg Prod.snd h2.2
      dsimp only at this
      rw [this]; unfold overflowed; cases mode <;> cases s <;> rfl
    · have := congrArg Prod.snd h2.2
      dsimp only at this
      rw [this]; unfold overflowed; cases mode <;> cases s <;> rfl

/-- Two values strictly between the same neighbours have the same directed rounding, with the same flags. -/
theorem Spec.Delivers.directed_between {F : Fmt} {mode : Round} (hm : ¬ Nearest mode) {lo hi v w : ℚ} (hn : Neighbours F lo hi)
    (h0 : 0 ≤ lo) (hv1 : lo < v) (hv2 : v < hi) (hw1 : lo < w) (hw2 : w < hi) {s : Bool} {d : Datum} {st : Status}
    (hd : Delivers F mode v s d st) : Delivers F mode w s d st := by
  have key : ∃ g, IsRounded F mode v g ∧ IsRounded F mode w g ∧ g ≠ v ∧ g ≠ w := by
    have hcases : mode = .towardPositive ∨ mode = .towardNegative ∨ mode = .towardZero := by
      unfold Nearest at hm
      cases mode <;> simp_all
    rcases hcases with rfl | hc
    · exact ⟨hi, isRounded_hi hn h0 hv1 hv2 (Or.inl rfl), isRounded_hi hn h0 hw1 hw2 (Or.inl rfl), by linarith, by linarith⟩
    · have hm' : ∀ x, x = lo ∨ mode = .towardNegative ∨ mode = .towardZero ∨
          ((mode = .nearestTiesToEven ∨ mode = .nearestTiesToAway) ∧ x - lo < hi - x) ∨
          (mode = .nearestTiesToEven ∧ x - lo = hi - x ∧ F.EvenGrid lo) := by
        intro x
        rcases hc with h | h
        · exact Or.inr (Or.inl h)
        · exact Or.inr (Or.inr (Or.inl h))
      exact ⟨lo, isRounded_lo hn h0 hv1.le hv2 (hm' _), isRounded_lo hn h0 hw1.le hw2 (hm' _), by linarith, by linarith⟩
  obtain ⟨g, g1, g2, g3, g4⟩ := key
  obtain ⟨g', h1, h2⟩ := hd
  have := h1.unique g1
  subst this
  refine ⟨g', g2, ?_⟩
  rcases h2 with ⟨a, b, c⟩ | h2
  · left
    refine ⟨a, b, ?_⟩
    rw [c]
    simp [g3, g4]
  · exact Or.inr h2

/-! ### Integers near odd multiples of a power of two -/

theorem odd_dist {V n B K : ℕ} (hB : 0 < B) (h1 : B ≤ V % (2 * B) → K ≤ V % (2 * B) - B) (h2 : V % (2 * B) < B → K ≤ B - V % (2 * B))
    : (K : ℚ) ≤ |(V : ℚ) - (2 * n + 1) * B| := by
  have hd := Nat.div_add_mod V (2 * B)
  have hm := Nat.mod_lt V (show 0 < 2 * B by omega)
  obtain ⟨m, hm'⟩ : ∃ m, m = V % (2 * B) := ⟨_, rfl⟩
  obtain ⟨w, hw⟩ : ∃ w, w = V / (2 * B) := ⟨_, rfl⟩
  rw [← hm'] at hd hm h1 h2
  rw [← hw] at hd
  have hVz : (V : ℤ) - (2 * n + 1) * B = ((m : ℤ) - B) + 2 * B * ((w : ℤ) - n) := by
    rw [← hd]; push_cast; ring
  have key : (K : ℤ) ≤ |(V : ℤ) - (2 * n + 1) * B| := by
    rw [hVz]
    rcases lt_trichotomy w n with h | h | h
    · have : (2 * B : ℤ) * ((w : ℤ) - n) ≤ 2 * B * (-1) := mul_le_mul_of_nonneg_left (by omega) (by omega)
      rw [abs_of_nonpos (by omega)]
      rcases Nat.lt_or_ge m B with hc | hc
      · have := h2 hc; omega
      · have := h1 hc; omega
    · have e : (w : ℤ) - n = 0 := by omega
      rw [e, mul_zero, add_zero]
      rcases Nat.lt_or_ge m B with hc | hc
      · have := h2 hc
        rw [abs_of_neg (by omega)]; omega
      · have := h1 hc
        rw [abs_of_nonneg (by omega)]; omega
    · have : (2 * B : ℤ) * 1 ≤ 2 * B * ((w : ℤ) - n) := mul_le_mul_of_nonneg_left (by omega) (by omega)
      rw [abs_of_nonneg (by omega)]
      rcases Nat.lt_or_ge m B with hc | hc
      · have := h2 hc; omega
      · have := h1 hc; omega
  have : ((K : ℤ) : ℚ) ≤ ((|(V : ℤ) - (2 * n + 1) * B| : ℤ) : ℚ) := by exact_mod_cast key
  push_cast at this
  exact this

/-! ### `decRound` rounds the calculated value -/

theorem CalcOK.bits_le {cp : ℕ} {v : ℚ} {fine : Prop} {c : DecCalc} (h : CalcOK S cp v fine c) (hS : S.OK) (hc0 : 127 ≤ cp) :
    c.usedBits ≤ S.precision ∧ cp - c.usedBits ≤ c.truncatedBits ∧ (0 < c.usedBits → cp - c.usedBits = c.truncatedBits) := by
  have := hS.p_le
  rcases h.bits with ⟨_, b, t⟩ | ⟨_, t, b⟩ <;> omega

theorem decRound_good (hS : S.OK) {cp : ℕ} (hc0 : 127 ≤ cp) {v : ℚ} {fine : Prop} {c : DecCalc}
    (hcp : cp < 1000000000) (h : CalcOK S cp v fine c) (mode : Round) :
    Good S mode (val c.sig * ulp cp c.exp) false (decRound S mode cp c) := by
  have h3 := hS.p_ge
  have h126 := hS.p_le
  have hlo := h.lo
  have hhi := h.hi
  have hlen := h.len
  have hVpos : 0 < val c.sig := lt_of_lt_of_le (by positivity) hlo
  have hexp := h.expBound
  obtain ⟨hb1, hb2, hb3⟩ := h.bits_le hS hc0
  have hmin := hS.min_ge
  have hminlt := hS.min_lt
  unfold decRound
  have hext : ∃ s, Sig.extract [0] c.sig c.usedBits (cp - c.usedBits) = .ok [s] ∧ s < 2 ^ c.usedBits ∧
      (0 < c.usedBits → s = val c.sig / 2 ^ (cp - c.usedBits)) := by
    by_cases h0 : c.usedBits = 0
    · rw [h0, extract_zero]
      exact ⟨0, rfl, by norm_num, fun hh => absurd hh (by omega)⟩
    · obtain ⟨r, e1, e2, e3, e4⟩ := extract_ok h.limbs (Limbs.one (by norm_num : 0 < 2 ^ 128)) (srcBits := c.usedBits)
        (srcLsb := cp - c.usedBits) (by omega) (by unfold limbsForBits; simp; omega) (by omega)
      obtain ⟨s, rfl⟩ : ∃ s, r = [s] := by
        match r, e2 with
        | [s], _ => exact ⟨s, rfl⟩
      rw [val_singleton] at e4
      refine ⟨s, e1, by rw [e4]; exact Nat.mod_lt _ (by positivity), fun _ => ?_⟩
      rw [e4, Nat.mod_eq_of_lt]
      rw [Nat.div_lt_iff_lt_mul (by positivity), ← pow_add, show c.usedBits + (cp - c.usedBits) = cp by omega]
      exact hhi
  obtain ⟨s, x1, x2, x3⟩ := hext
  rw [x1, M.ok_bind]
  have hidx : idx [s] 0 = .ok s := rfl
  rw [hidx, M.ok_bind, usub_ok hb1, M.ok_bind, asI32_of_lt (by omega), i32_ok (by omega) (by omega), M.ok_bind, throughTruncation_eq h.limbs]
  have hs128 : s < 2 ^ 128 := lt_of_lt_of_le x2 (Nat.pow_le_pow_right (by norm_num) (by omega))
  have hmodlt : val c.sig % 2 ^ c.truncatedBits < 2 ^ c.truncatedBits := Nat.mod_lt _ (by positivity)
  have hTq : (0 : ℚ) < ((2 ^ c.truncatedBits : ℕ) : ℚ) := by positivity
  apply normalize_good' (x := ⟨s, c.exp + ↑(S.precision - c.usedBits), .normal, false⟩) hS rfl hs128 (by dsimp only; omega) (by dsimp only; omega)
    (lossIs_lossOf hmodlt)
  · dsimp only
    intro _ hs0
    rcases h.bits with ⟨b1, b2, b3⟩ | ⟨b1, b2, b3⟩
    · left
      have hse := x3 (by omega)
      have : Nat.size s = (S.precision - 1) + 1 := by
        apply size_eq
        · rw [hse, Nat.le_div_iff_mul_le (by positivity), ← pow_add, b2, show S.precision - 1 + (cp - S.precision) = cp - 1 by omega]
          exact hlo
        · rw [b2] at x2
          rw [show S.precision - 1 + 1 = S.precision by omega]; exact x2
      omega
    · right
      have hu0 : c.usedBits ≠ 0 := by
        intro hh
        rw [hh] at x2
        simp at x2; exact hs0 x2
      omega
  · dsimp only
    have hsg : ∀ x : ℚ, signed false x = x := fun x => rfl
    rw [hsg]
    by_cases hu0 : c.usedBits = 0
    · have hs0 : s = 0 := by rw [hu0] at x2; simpa using x2
      rw [if_pos hs0, hs0]
      rcases h.bits with ⟨b1, b2, b3⟩ | ⟨b1, b2, b3⟩
      · omega
      · have hVt : val c.sig % 2 ^ c.truncatedBits = val c.sig := by
          apply Nat.mod_eq_of_lt
          exact lt_of_lt_of_le hhi (Nat.pow_le_pow_right (by norm_num) (by omega))
        rw [hVt]
        unfold ulp
        push_cast
        rw [zero_add, div_mul_eq_mul_div, mul_div_assoc, ← zpow_natCast, ← zpow_sub₀ (by norm_num)]
        congr 2; omega
    · have ht := hb3 (by omega)
      have hse := x3 (by omega)
      rw [ht] at hse
      have hsum : ((s : ℚ) + ((val c.sig % 2 ^ c.truncatedBits : ℕ) : ℚ) / ((2 ^ c.truncatedBits : ℕ) : ℚ)) = (val c.sig : ℚ) / ((2 ^ c.truncatedBits : ℕ) : ℚ) := by
        have hd := Nat.div_add_mod (val c.sig) (2 ^ c.truncatedBits)
        rw [← hse] at hd
        have hdq : ((2 ^ c.truncatedBits : ℕ) : ℚ) * s + ((val c.sig % 2 ^ c.truncatedBits : ℕ) : ℚ) = val c.sig := by exact_mod_cast hd
        rw [eq_div_iff hTq.ne', add_mul, div_mul_cancel₀ _ hTq.ne']; linarith
      rw [hsum]
      have hex : (if s = 0 then S.minExp else c.exp + ((S.precision - c.usedBits : ℕ) : ℤ)) = c.exp + ((S.precision - c.usedBits : ℕ) : ℤ) := by
        by_cases hs0 : s = 0
        · rw [if_pos hs0]
          rcases h.bits with ⟨b1, b2, b3⟩ | ⟨b1, b2, b3⟩
          · exfalso
            rw [hs0] at hse
            have := (Nat.div_eq_zero_iff.1 hse.symm)
            have hp1 : 2 ^ c.truncatedBits ≤ 2 ^ (cp - 1) := Nat.pow_le_pow_right (by norm_num) (by omega)
            rcases this with h | h
            · have : 0 < 2 ^ c.truncatedBits := by positivity
              omega
            · omega
          · omega
        · rw [if_neg hs0]
      rw [hex]
      unfold ulp
      push_cast
      rw [div_mul_eq_mul_div, mul_div_assoc, ← zpow_natCast, ← zpow_sub₀ (by norm_num)]
      congr 2; omega
  · apply directedOK_of_nonneg hS
    have := ulp_pos cp c.exp
    positivity

/-! ### Accepted calculations -/

theorem CalcOK.value_bounds {cp : ℕ} {v : ℚ} {fine : Prop} {c : DecCalc} (h : CalcOK S cp v fine c) (hc0 : 127 ≤ cp) :
    (2 : ℚ) ^ c.exp ≤ val c.sig * ulp cp c.exp ∧ (val c.sig : ℚ) * ulp cp c.exp < 2 ^ (c.exp + 1) := by
  have hu := ulp_pos cp c.exp
  have e1 : (2 : ℚ) ^ c.exp = ((2 ^ (cp - 1) : ℕ) : ℚ) * ulp cp c.exp := by
    unfold ulp; push_cast; rw [← zpow_natCast, ← two_zpow_add]; congr 1; omega
  have e2 : (2 : ℚ) ^ (c.exp + 1) = ((2 ^ cp : ℕ) : ℚ) * ulp cp c.exp := by
    unfold ulp; push_cast; rw [← zpow_natCast, ← two_zpow_add]; congr 1; omega
  rw [e1, e2]
  exact ⟨mul_le_mul_of_nonneg_right (by exact_mod_cast h.lo) hu.le, mul_lt_mul_of_pos_right (by exact_mod_cast h.hi) hu⟩

/-- No midpoint of the format lies between an accepted calculation and the exact value. -/
theorem no_midpoint (hS : S.OK) (hp : S.precision ≤ 120) {cp : ℕ} (hc0 : 127 ≤ cp) {v : ℚ} {fine : Prop} {c : DecCalc}
    (h : CalcOK S cp v fine c) (herr : c.halfUlpErr ≠ 0) {u : ℕ}
    (hu1 : 2 ^ (cp - c.usedBits - 1) ≤ val c.sig % 2 ^ (cp - c.usedBits) → u ≤ val c.sig % 2 ^ (cp - c.usedBits) - 2 ^ (cp - c.usedBits - 1))
    (hu2 : val c.sig % 2 ^ (cp - c.usedBits) < 2 ^ (cp - c.usedBits - 1) → u ≤ 2 ^ (cp - c.usedBits - 1) - val c.sig % 2 ^ (cp - c.usedBits))
    (hacc : Min.min (u * 2) limbMax ≥ c.halfUlpErr)
    {n : ℕ} {e : ℤ} (hn : n < 2 ^ S.precision) (he : S.minExp ≤ e) (hc : 2 ^ (S.precision - 1) ≤ n ∨ e = S.minExp)
    (hbetween : |(val c.sig : ℚ) * ulp cp c.exp - (2 * n + 1) * 2 ^ (e - S.precision)| ≤ |v - val c.sig * ulp cp c.exp|)
    (hside : (val c.sig : ℚ) * ulp cp c.exp < (2 * n + 1) * 2 ^ (e - S.precision) → ((2 : ℚ) * n + 1) * 2 ^ (e - S.precision) ≤ v) : False := by
  have h3 := hS.p_ge
  obtain ⟨b1, b2⟩ := h.value_bounds hc0
  have hu := ulp_pos cp c.exp
  have hnear := h.near herr
  have herr7 := h.err7
  obtain ⟨hbl1, hbl2, hbl3⟩ := h.bits_le hS hc0
  obtain ⟨K, hK⟩ : ∃ K, K = (c.halfUlpErr + 1) / 2 := ⟨_, rfl⟩
  rw [← hK] at hnear
  have hK4 : K ≤ 4 := by omega
  have hK4q : (K : ℚ) ≤ 4 := by exact_mod_cast hK4
  have hdist : |(val c.sig : ℚ) * ulp cp c.exp - (2 * n + 1) * 2 ^ (e - S.precision)| < K * ulp cp c.exp :=
    lt_of_le_of_lt hbetween hnear
  have hd4 : |(val c.sig : ℚ) * ulp cp c.exp - (2 * n + 1) * 2 ^ (e - S.precision)| < 4 * ulp cp c.exp :=
    lt_of_lt_of_le hdist (mul_le_mul_of_nonneg_right hK4q hu.le)
  have huK : K ≤ u := by
    have := Nat.min_le_left (u * 2) limbMax
    omega
  have h4u : 4 * ulp cp c.exp = 2 ^ (c.exp - cp + 3) := by
    unfold ulp
    rw [show c.exp - cp + 3 = (c.exp - cp + 1) + 2 by ring, two_zpow_add (c.exp - cp + 1) 2]; norm_num; ring
  -- the generic case: the midpoint is an odd multiple of half the unit of the truncation
  have generic : (2 : ℚ) ^ (e - S.precision) = ((2 ^ (cp - c.usedBits - 1) : ℕ) : ℚ) * ulp cp c.exp → 0 < cp - c.usedBits → False := by
    intro hunit hpos
    have hpw : 2 ^ (cp - c.usedBits) = 2 * 2 ^ (cp - c.usedBits - 1) := by rw [← pow_succ']; congr 1; omega
    rw [hpw] at hu1 hu2
    have hod := odd_dist (n := n) (show 0 < 2 ^ (cp - c.usedBits - 1) by positivity) (fun hh => le_trans huK (hu1 hh)) (fun hh => le_trans huK (hu2 hh))
    rw [hunit] at hdist
    have : (val c.sig : ℚ) * ulp cp c.exp - (2 * n + 1) * (((2 ^ (cp - c.usedBits - 1) : ℕ) : ℚ) * ulp cp c.exp) =
      (val c.sig - (2 * n + 1) * ((2 ^ (cp - c.usedBits - 1) : ℕ) : ℚ)) * ulp cp c.exp := by ring
    rw [this, abs_mul, abs_of_pos hu] at hdist
    have := lt_of_mul_lt_mul_right hdist hu.le
    linarith
  have hnq : (n : ℚ) + 1 ≤ 2 ^ S.precision := by exact_mod_cast hn
  have hn0 : (0 : ℚ) ≤ n := by positivity
  have hμpos : (0 : ℚ) < 2 ^ (e - S.precision) := two_zpow_pos _
  have hpe : (2 : ℚ) ^ S.precision * 2 ^ (e - S.precision) = 2 ^ e := by
    rw [← zpow_natCast, ← two_zpow_add]; congr 1; ring
  have big : S.minExp < e → (2 : ℚ) ^ e + 2 ^ (e - S.precision) ≤ (2 * n + 1) * 2 ^ (e - S.precision) := by
    intro hlt
    have hn2 : 2 ^ (S.precision - 1) ≤ n := by
      rcases hc with hc | hc
      · exact hc
      · omega
    have hn3 : 2 ^ S.precision ≤ 2 * n := by
      have : 2 ^ S.precision = 2 * 2 ^ (S.precision - 1) := by rw [← pow_succ']; congr 1; omega
      omega
    have hn4 : (2 : ℚ) ^ S.precision ≤ 2 * n := by exact_mod_cast hn3
    rw [← hpe]
    nlinarith
  rcases h.bits with ⟨c1, c2, c3⟩ | ⟨c1, c2, c3⟩
  · rcases lt_trichotomy e c.exp with hlt | heq | hgt
    · -- below the binade
      have hμ : ((2 : ℚ) * n + 1) * 2 ^ (e - S.precision) ≤ 2 ^ c.exp - 2 ^ (c.exp - 1 - S.precision) := by
        have hmono : (2 : ℚ) ^ (e - S.precision) ≤ 2 ^ (c.exp - 1 - S.precision) := two_zpow_le (by omega)
        have hz := two_zpow_pos (c.exp - 1 - S.precision)
        have hpe' : 2 * (2 : ℚ) ^ S.precision * 2 ^ (c.exp - 1 - S.precision) = 2 ^ c.exp := by
          rw [show (2 : ℚ) * 2 ^ S.precision = 2 ^ (S.precision + 1) by ring, ← zpow_natCast, ← two_zpow_add]; congr 1; push_cast; ring
        calc ((2 : ℚ) * n + 1) * 2 ^ (e - S.precision) ≤ (2 * n + 1) * 2 ^ (c.exp - 1 - S.precision) :=
              mul_le_mul_of_nonneg_left hmono (by linarith)
          _ ≤ (2 * 2 ^ S.precision - 1) * 2 ^ (c.exp - 1 - S.precision) := mul_le_mul_of_nonneg_right (by linarith) hz.le
          _ = _ := by rw [sub_mul, hpe', one_mul]
      have hz : (2 : ℚ) ^ (c.exp - cp + 3) ≤ 2 ^ (c.exp - 1 - S.precision) := two_zpow_le (by omega)
      have := (abs_lt.1 hd4).2
      linarith
    · apply generic _ (by omega)
      rw [heq, c2]
      unfold ulp; push_cast; rw [← zpow_natCast, ← two_zpow_add]; congr 1; omega
    · -- above the binade
      have h1 := big (by omega)
      have h2 : (2 : ℚ) ^ (c.exp + 1) ≤ 2 ^ e := two_zpow_le (by omega)
      have hz : (2 : ℚ) ^ (c.exp - cp + 3) ≤ 2 ^ (e - S.precision) := two_zpow_le (by omega)
      have := (abs_lt.1 hd4).1
      linarith
  · by_cases ht : c.truncatedBits ≤ cp
    · rcases eq_or_lt_of_le he with heq | hgt
      · apply generic _ (by omega)
        rw [← heq]
        unfold ulp; push_cast; rw [← zpow_natCast, ← two_zpow_add]; congr 1; omega
      · have h1 := big hgt
        have h2 : (2 : ℚ) ^ (S.minExp + 1) ≤ 2 ^ e := two_zpow_le (by omega)
        have h3 : (2 : ℚ) ^ (c.exp + 1) ≤ 2 ^ S.minExp := two_zpow_le (by omega)
        have h4 : (2 : ℚ) ^ (S.minExp + 1) = 2 * 2 ^ S.minExp := by rw [two_zpow_add, zpow_one]; ring
        have hz : (2 : ℚ) ^ (c.exp - cp + 3) ≤ 2 ^ S.minExp := two_zpow_le (by omega)
        have := (abs_lt.1 hd4).1
        linarith
    · have hsm : (val c.sig : ℚ) * ulp cp c.exp < 2 ^ (S.minExp - S.precision) :=
        lt_of_lt_of_le b2 (two_zpow_le (by omega))
      have hμ : (2 : ℚ) ^ (S.minExp - S.precision) ≤ (2 * n + 1) * 2 ^ (e - S.precision) := by
        have : (2 : ℚ) ^ (S.minExp - S.precision) ≤ 2 ^ (e - S.precision) := two_zpow_le (by omega)
        nlinarith
      have hv := hside (by linarith)
      have := h.pow c1 _ (le_trans hμ hv)
      linarith

/-- What is guaranteed of a parsed decimal in the modes to nearest: the value and whether it overflowed. -/
def NearestOK (S : Sem) (mode : Round) (v : ℚ) (r : StatusAnd (IeeeFloat S)) : Prop :=
  ∃ st, Delivers S.fmt mode v false r.value.datum st ∧ st.overflow = r.status.overflow ∧
    r.status.invalidOp = false ∧ r.status.divByZero = false

theorem accept_exact (hS : S.OK) {cp : ℕ} (hc0 : 127 ≤ cp) {v : ℚ} {fine : Prop} {c : DecCalc} (hcp : cp < 1000000000)
    (h : CalcOK S cp v fine c) (mode : Round) (herr : c.halfUlpErr = 0) : Good S mode v false (decRound S mode cp c) := by
  rw [h.exact herr]; exact decRound_good hS hc0 hcp h mode

theorem accept_nearest (hS : S.OK) (hp : S.precision ≤ 120) {cp : ℕ} (hc0 : 127 ≤ cp) {v : ℚ} (hv : 0 ≤ v) {fine : Prop} {c : DecCalc}
    (hcp : cp < 1000000000) (h : CalcOK S cp v fine c) {mode : Round} (hm : Nearest mode) {u : ℕ}
    (hu1 : 2 ^ (cp - c.usedBits - 1) ≤ val c.sig % 2 ^ (cp - c.usedBits) → u ≤ val c.sig % 2 ^ (cp - c.usedBits) - 2 ^ (cp - c.usedBits - 1))
    (hu2 : val c.sig % 2 ^ (cp - c.usedBits) < 2 ^ (cp - c.usedBits - 1) → u ≤ 2 ^ (cp - c.usedBits - 1) - val c.sig % 2 ^ (cp - c.usedBits))
    (hacc : Min.min (u * 2) limbMax ≥ c.halfUlpErr) :
    ∃ r, decRound S mode cp c = .ok r ∧ r.value.Valid ∧ r.value.sign = false ∧ NearestOK S mode v r := by
  have h3 := hS.p_ge
  obtain ⟨r, r1, r2, r3, r4⟩ := decRound_good hS hc0 hcp h mode
  refine ⟨r, r1, r2, r3, ?_⟩
  apply Spec.Delivers.of_rounded r4
  intro g hg
  obtain ⟨g', hg'⟩ := exists_rounded (F := S.fmt) (by simp; omega) mode v
  have hv'0 : (0 : ℚ) ≤ val c.sig * ulp cp c.exp := by have := ulp_pos cp c.exp; positivity
  have : g = g' := by
    by_cases herr : c.halfUlpErr = 0
    · rw [← h.exact herr] at hg
      exact hg.unique hg'
    · rcases lt_trichotomy g g' with hlt | heq | hgt
      · exfalso
        obtain ⟨n, e, n1, n2, n3, n4, n5⟩ := midpoint_between (F := S.fmt) (by simp; omega) hm hv'0 hg hg' hlt
        simp only [fmt_p, fmt_emin] at n1 n2 n3 n4 n5
        refine no_midpoint hS hp hc0 h herr hu1 hu2 hacc n1 n2 n3 ?_ (fun _ => n5)
        rw [abs_of_nonpos (by linarith), abs_of_nonneg (by linarith)]; linarith
      · exact heq
      · exfalso
        obtain ⟨n, e, n1, n2, n3, n4, n5⟩ := midpoint_between (F := S.fmt) (by simp; omega) hm hv hg' hg hgt
        simp only [fmt_p, fmt_emin] at n1 n2 n3 n4 n5
        refine no_midpoint hS hp hc0 h herr hu1 hu2 hacc n1 n2 n3 ?_ ?_
        · rw [abs_of_nonneg (by linarith), abs_of_nonpos (by linarith)]; linarith
        · intro hlt; linarith
  rw [this]; exact hg'

theorem accept_directed (hS : S.OK) {cp : ℕ} (hc0 : 127 ≤ cp) {v : ℚ} {fine : Prop} {c : DecCalc}
    (hcp : cp < 1000000000) (h : CalcOK S cp v fine c) (hfine : fine) {mode : Round} (hm : ¬ Nearest mode) {u : ℕ}
    (hu : 1 ≤ u → 1 ≤ val c.sig % 2 ^ (cp - c.usedBits)) (hacc : Min.min (u * 2) limbMax ≥ c.halfUlpErr) :
    Good S mode v false (decRound S mode cp c) := by
  by_cases herr : c.halfUlpErr = 0
  · exact accept_exact hS hc0 hcp h mode herr
  · obtain ⟨f1, f2, f3⟩ := h.floor hfine
    have h3 := hS.p_ge
    have h126 := hS.p_le
    have hlo := h.lo
    have hhi := h.hi
    have hVpos : 0 < val c.sig := lt_of_lt_of_le (by positivity) hlo
    have hup := ulp_pos cp c.exp
    have hu1 : 1 ≤ u := by
      have := Nat.min_le_left (u * 2) limbMax
      omega
    have hM := hu hu1
    obtain ⟨r, r1, r2, r3, r4⟩ := decRound_good hS hc0 hcp h mode
    refine ⟨r, r1, r2, r3, ?_⟩
    obtain ⟨hbl1, hbl2, hbl3⟩ := h.bits_le hS hc0
    obtain ⟨t, ht⟩ : ∃ t, t = c.truncatedBits := ⟨_, rfl⟩
    have hd := Nat.div_add_mod (val c.sig) (2 ^ t)
    have hml := Nat.mod_lt (val c.sig) (show 0 < 2 ^ t by positivity)
    have hM' : 1 ≤ val c.sig % 2 ^ t := by
      by_cases h0 : c.usedBits = 0
      · rw [Nat.mod_eq_of_lt]
        · omega
        · exact lt_of_lt_of_le hhi (Nat.pow_le_pow_right (by norm_num) (by omega))
      · rw [ht, ← hbl3 (by omega)]; exact hM
    obtain ⟨n, hn⟩ : ∃ n, n = val c.sig / 2 ^ t := ⟨_, rfl⟩
    rw [← hn] at hd
    -- the exponent of the unit
    obtain ⟨e, he1, he2, he3⟩ : ∃ e : ℤ, S.minExp ≤ e ∧ (2 : ℚ) ^ (e - S.precision + 1) = ((2 ^ t : ℕ) : ℚ) * ulp cp c.exp ∧
        (2 ^ (S.precision - 1) ≤ n ∨ e = S.minExp) := by
      rcases h.bits with ⟨b1, b2, b3⟩ | ⟨b1, b2, b3⟩
      · refine ⟨c.exp, b1, ?_, Or.inl ?_⟩
        · unfold ulp; push_cast; rw [← zpow_natCast, ← two_zpow_add]; congr 1; omega
        · rw [hn, ht, b3, Nat.le_div_iff_mul_le (by positivity), ← pow_add, show S.precision - 1 + (cp - S.precision) = cp - 1 by omega]
          exact hlo
      · refine ⟨S.minExp, le_refl _, ?_, Or.inr rfl⟩
        unfold ulp; push_cast; rw [← zpow_natCast, ← two_zpow_add]; congr 1; omega
    have hnlt : n < 2 ^ S.precision := by
      rw [hn, Nat.div_lt_iff_lt_mul (by positivity), ← pow_add]
      refine lt_of_lt_of_le hhi (Nat.pow_le_pow_right (by norm_num) ?_)
      rcases h.bits with ⟨b1, b2, b3⟩ | ⟨b1, b2, b3⟩ <;> omega
    have hnb := neighbours_mk (F := S.fmt) (n := n) (e := e) (by simp; omega) (by simpa using hnlt) (by simpa using he1) (by simpa using he3)
    simp only [fmt_p] at hnb
    rw [he2] at hnb
    have hdq : ((2 ^ t : ℕ) : ℚ) * n + ((val c.sig % 2 ^ t : ℕ) : ℚ) = val c.sig := by exact_mod_cast hd
    have hMq : (1 : ℚ) ≤ ((val c.sig % 2 ^ t : ℕ) : ℚ) := by exact_mod_cast hM'
    have hmlq : ((val c.sig % 2 ^ t : ℕ) : ℚ) + 1 ≤ ((2 ^ t : ℕ) : ℚ) := by exact_mod_cast hml
    have g1 : (n : ℚ) * (((2 ^ t : ℕ) : ℚ) * ulp cp c.exp) < val c.sig * ulp cp c.exp := by
      have : (n : ℚ) * (((2 ^ t : ℕ) : ℚ) * ulp cp c.exp) = (((2 ^ t : ℕ) : ℚ) * n) * ulp cp c.exp := by ring
      rw [this]
      exact mul_lt_mul_of_pos_right (by linarith) hup
    have g2 : ((val c.sig : ℚ) + 1) * ulp cp c.exp ≤ ((n + 1 : ℕ) : ℚ) * (((2 ^ t : ℕ) : ℚ) * ulp cp c.exp) := by
      have : ((n + 1 : ℕ) : ℚ) * (((2 ^ t : ℕ) : ℚ) * ulp cp c.exp) = (((2 ^ t : ℕ) : ℚ) * n + ((2 ^ t : ℕ) : ℚ)) * ulp cp c.exp := by push_cast; ring
      rw [this]
      exact mul_le_mul_of_nonneg_right (by linarith) hup.le
    have g3 : (val c.sig : ℚ) * ulp cp c.exp < ((n + 1 : ℕ) : ℚ) * (((2 ^ t : ℕ) : ℚ) * ulp cp c.exp) :=
      lt_of_lt_of_le (mul_lt_mul_of_pos_right (by linarith) hup) g2
    exact Spec.Delivers.directed_between hm hnb (by positivity) g1 g3 (by linarith) (by linarith) r4

/-! ### The last attempt is always accepted -/

/-- An exact multiple of a coarse enough power of two is calculated exactly. -/
theorem exact_of_dyadic {cp : ℕ} (hc0 : 127 ≤ cp) {v : ℚ} {fine : Prop} {c : DecCalc} (h : CalcOK S cp v fine c) (hfine : fine)
    {W : ℕ} {D : ℤ} (hv : v = W * 2 ^ D) (hW : W < 2 ^ cp) : c.halfUlpErr = 0 := by
  obtain ⟨f1, f2, f3⟩ := h.floor hfine
  obtain ⟨b1, b2⟩ := h.value_bounds hc0
  have hup := ulp_pos cp c.exp
  apply f3
  have hlt : (2 : ℚ) ^ c.exp < 2 ^ ((cp : ℤ) + D) := by
    calc (2 : ℚ) ^ c.exp ≤ v := le_trans b1 f1
      _ = W * 2 ^ D := hv
      _ < 2 ^ cp * 2 ^ D := mul_lt_mul_of_pos_right (by exact_mod_cast hW) (two_zpow_pos _)
      _ = _ := by rw [two_zpow_add, zpow_natCast]
  have hexp : c.exp < (cp : ℤ) + D := by
    by_contra hc
    have := two_zpow_le (show (cp : ℤ) + D ≤ c.exp by omega)
    linarith
  obtain ⟨j, hj⟩ := Int.eq_ofNat_of_zero_le (show 0 ≤ D - (c.exp - cp + 1) by omega)
  have hvu : v = ((W * 2 ^ j : ℕ) : ℚ) * ulp cp c.exp := by
    rw [hv]; unfold ulp; push_cast
    rw [mul_assoc, ← zpow_natCast, ← two_zpow_add]; congr 2; omega
  rw [hvu] at f1 f2 ⊢
  have a1 := le_of_mul_le_mul_right f1 hup
  have a2 := lt_of_mul_lt_mul_right f2 hup.le
  have a1' : val c.sig ≤ W * 2 ^ j := by exact_mod_cast a1
  have a2' : W * 2 ^ j < val c.sig + 1 := by exact_mod_cast a2
  have : W * 2 ^ j = val c.sig := by omega
  rw [this]

/-- A fraction whose denominator is not a power of two keeps its distance from the dyadic numbers. -/
theorem far_from_dyadic {N P j : ℕ} {D y m : ℤ} (hP : 0 < P) (hodd : Nat.Coprime P 2) (hnd : ¬ P ∣ N) (hmD : m ≤ D) (hmy : m ≤ y) :
    (2 : ℚ) ^ m / P ≤ |(N : ℚ) / P * 2 ^ D - j * 2 ^ y| := by
  obtain ⟨a, ha⟩ := Int.eq_ofNat_of_zero_le (show 0 ≤ D - m by omega)
  obtain ⟨b, hb⟩ := Int.eq_ofNat_of_zero_le (show 0 ≤ y - m by omega)
  have hPq : (0 : ℚ) < P := by exact_mod_cast hP
  have hmz := two_zpow_pos m
  have e1 : (2 : ℚ) ^ D = 2 ^ a * 2 ^ m := by
    rw [← zpow_natCast, ← two_zpow_add]; congr 1; omega
  have e2 : (2 : ℚ) ^ y = 2 ^ b * 2 ^ m := by
    rw [← zpow_natCast, ← two_zpow_add]; congr 1; omega
  have e3 : (N : ℚ) / P * 2 ^ D - j * 2 ^ y = ((N * 2 ^ a : ℤ) - (j * 2 ^ b * P : ℤ) : ℤ) * (2 ^ m / P) := by
    rw [e1, e2]; push_cast; field_simp
  have hne : ((N * 2 ^ a : ℤ) - (j * 2 ^ b * P : ℤ)) ≠ 0 := by
    intro hz
    have hz' : N * 2 ^ a = j * 2 ^ b * P := by
      have : (N * 2 ^ a : ℤ) = (j * 2 ^ b * P : ℤ) := by omega
      exact_mod_cast this
    apply hnd
    have : P ∣ N * 2 ^ a := ⟨j * 2 ^ b, by rw [hz']; ring⟩
    exact (Nat.Coprime.pow_right a hodd).dvd_of_dvd_mul_right this
  rw [e3, abs_mul, abs_of_pos (by positivity : (0 : ℚ) < 2 ^ m / P)]
  have h1 : (1 : ℚ) ≤ |(((N * 2 ^ a : ℤ) - (j * 2 ^ b * P : ℤ) : ℤ) : ℚ)| := by
    have := Int.one_le_abs hne
    exact_mod_cast this
  have hpos : (0 : ℚ) < 2 ^ m / P := by positivity
  nlinarith

theorem CalcOK.exp_bounds {cp : ℕ} (hc0 : 127 ≤ cp) {v : ℚ} {fine : Prop} {c : DecCalc} (h : CalcOK S cp v fine c) :
    (2 : ℚ) ^ c.exp < 2 * v ∧ v < 2 ^ (c.exp + 2) ∧ |v - val c.sig * ulp cp c.exp| < 4 * ulp cp c.exp := by
  obtain ⟨b1, b2⟩ := h.value_bounds hc0
  have hup := ulp_pos cp c.exp
  have h4 : |v - val c.sig * ulp cp c.exp| < 4 * ulp cp c.exp := by
    by_cases he : c.halfUlpErr = 0
    · rw [h.exact he]; simp; linarith
    · refine lt_of_lt_of_le (h.near he) (mul_le_mul_of_nonneg_right ?_ hup.le)
      have := h.err7
      have : (c.halfUlpErr + 1) / 2 ≤ 4 := by omega
      exact_mod_cast this
  have hsm : 8 * ulp cp c.exp ≤ 2 ^ c.exp := by
    have : 8 * ulp cp c.exp = 2 ^ (c.exp - cp + 4) := by
      unfold ulp
      rw [show c.exp - cp + 4 = (c.exp - cp + 1) + 3 by ring, two_zpow_add (c.exp - cp + 1) 3]; norm_num; ring
    rw [this]; exact two_zpow_le (by omega)
  obtain ⟨l, r⟩ := abs_lt.1 h4
  have e1 : (2 : ℚ) ^ (c.exp + 1) = 2 * 2 ^ c.exp := by rw [two_zpow_add, zpow_one]; ring
  have e2 : (2 : ℚ) ^ (c.exp + 2) = 4 * 2 ^ c.exp := by rw [two_zpow_add]; norm_num; ring
  refine ⟨by linarith, by rw [e2]; linarith, h4⟩

theorem accept_far {cp : ℕ} (hS : S.OK) (hc0 : 127 ≤ cp) {N P : ℕ} {D : ℤ} {fine : Prop} {c : DecCalc}
    (h : CalcOK S cp ((N : ℚ) / P * 2 ^ D) fine c) (hP : 0 < P) (hodd : Nat.Coprime P 2) (hnd : ¬ P ∣ N)
    {K : ℤ} (hK : K ≤ 30000) (hv1 : (2 : ℚ) ^ (-K) ≤ (N : ℚ) / P * 2 ^ D) (hv2 : (N : ℚ) / P * 2 ^ D < 2 ^ K)
    (hbig : 100000 + (Nat.size P : ℤ) - min D 0 ≤ cp) {u : ℕ}
    (hfar : 128 < cp - c.usedBits → 2 ^ 128 < val c.sig % 2 ^ (cp - c.usedBits) → val c.sig % 2 ^ (cp - c.usedBits) + 2 ^ 128 < 2 ^ (cp - c.usedBits) →
        (2 ^ (cp - c.usedBits - 1) + 2 ^ 128 < val c.sig % 2 ^ (cp - c.usedBits) ∨
          val c.sig % 2 ^ (cp - c.usedBits) + 2 ^ 128 < 2 ^ (cp - c.usedBits - 1)) → u = limbMax) :
    Min.min (u * 2) limbMax ≥ c.halfUlpErr := by
  have h126 := hS.p_le
  have hmin := hS.min_ge
  obtain ⟨hbl1, hbl2, hbl3⟩ := h.bits_le hS hc0
  obtain ⟨x1, x2, x3⟩ := h.exp_bounds hc0
  have hup := ulp_pos cp c.exp
  have he1 : c.exp < K + 1 := by
    by_contra hc
    have := two_zpow_le (show K + 1 ≤ c.exp by omega)
    have e : (2 : ℚ) ^ (K + 1) = 2 * 2 ^ K := by
      rw [two_zpow_add, zpow_one]; ring
    linarith
  have he2 : -K - 2 < c.exp := by
    by_contra hc
    have := two_zpow_le (show c.exp + 2 ≤ -K by omega)
    linarith
  obtain ⟨b, hb⟩ : ∃ b, b = cp - c.usedBits - 1 := ⟨_, rfl⟩
  have hcu : cp - c.usedBits = b + 1 := by omega
  rw [hcu, Nat.add_sub_cancel] at hfar
  -- distance to every multiple of `2^b`
  have hdist : ∀ j : ℕ, (2 : ℚ) ^ 129 ≤ |(val c.sig : ℚ) - j * (2 ^ b : ℕ)| := by
    intro j
    obtain ⟨m, hm⟩ : ∃ m : ℤ, m = min D 0 - 30200 := ⟨_, rfl⟩
    have hf := far_from_dyadic (j := j) (y := c.exp - c.usedBits) (D := D) (m := m) hP hodd hnd (by omega) (by omega)
    have hPs : (P : ℚ) ≤ 2 ^ Nat.size P := by exact_mod_cast (lt_two_pow_size P).le
    have hPq : (0 : ℚ) < P := by exact_mod_cast hP
    have hlow : 2 ^ 130 * ulp cp c.exp ≤ (2 : ℚ) ^ m / P := by
      rw [le_div_iff₀ hPq]
      calc 2 ^ 130 * ulp cp c.exp * P ≤ 2 ^ 130 * ulp cp c.exp * 2 ^ Nat.size P := mul_le_mul_of_nonneg_left hPs (by positivity)
        _ = 2 ^ (130 + (c.exp - cp + 1) + (Nat.size P : ℤ)) := by
          unfold ulp
          rw [two_zpow_add _ (Nat.size P : ℤ), two_zpow_add 130, zpow_natCast]; norm_cast
        _ ≤ 2 ^ m := two_zpow_le (by omega)
    have hy : (2 : ℚ) ^ (c.exp - c.usedBits) = ((2 ^ b : ℕ) : ℚ) * ulp cp c.exp := by
      unfold ulp; push_cast; rw [← zpow_natCast, ← two_zpow_add]; congr 1; omega
    rw [hy] at hf
    have tri := abs_sub_abs_le_abs_sub ((N : ℚ) / P * 2 ^ D - j * (((2 ^ b : ℕ) : ℚ) * ulp cp c.exp)) ((N : ℚ) / P * 2 ^ D - val c.sig * ulp cp c.exp)
    have e : (N : ℚ) / P * 2 ^ D - j * (((2 ^ b : ℕ) : ℚ) * ulp cp c.exp) - ((N : ℚ) / P * 2 ^ D - val c.sig * ulp cp c.exp) =
      (val c.sig - j * ((2 ^ b : ℕ) : ℚ)) * ulp cp c.exp := by ring
    rw [e, abs_mul, abs_of_pos hup] at tri
    have : (2 : ℚ) ^ 129 * ulp cp c.exp ≤ |(val c.sig : ℚ) - j * (2 ^ b : ℕ)| * ulp cp c.exp := by
      have e2 : (2 : ℚ) ^ 130 = 2 * 2 ^ 129 := by norm_num
      have e3 : (4 : ℚ) ≤ 2 ^ 129 := by norm_num
      nlinarith
    exact le_of_mul_le_mul_right this hup
  have hdn : ∀ j : ℕ, (j * 2 ^ b ≤ val c.sig → 2 ^ 129 + j * 2 ^ b ≤ val c.sig) ∧ (val c.sig ≤ j * 2 ^ b → val c.sig + 2 ^ 129 ≤ j * 2 ^ b) := by
    intro j
    have hj := hdist j
    constructor
    · intro hle
      have hle' : (j : ℚ) * ((2 ^ b : ℕ) : ℚ) ≤ val c.sig := by exact_mod_cast hle
      rw [abs_of_nonneg (by linarith)] at hj
      have : (2 : ℚ) ^ 129 + j * ((2 ^ b : ℕ) : ℚ) ≤ val c.sig := by linarith
      exact_mod_cast this
    · intro hle
      have hle' : (val c.sig : ℚ) ≤ (j : ℚ) * ((2 ^ b : ℕ) : ℚ) := by exact_mod_cast hle
      rw [abs_of_nonpos (by linarith)] at hj
      have : (val c.sig : ℚ) + (2 : ℚ) ^ 129 ≤ j * ((2 ^ b : ℕ) : ℚ) := by linarith
      exact_mod_cast this
  have hdm := Nat.div_add_mod (val c.sig) (2 ^ (b + 1))
  have hml := Nat.mod_lt (val c.sig) (show 0 < 2 ^ (b + 1) by positivity)
  have hpw : 2 ^ (b + 1) = 2 * 2 ^ b := by ring
  obtain ⟨w, hw⟩ : ∃ w, w = val c.sig / 2 ^ (b + 1) := ⟨_, rfl⟩
  obtain ⟨M, hM⟩ : ∃ M, M = val c.sig % 2 ^ (b + 1) := ⟨_, rfl⟩
  rw [← hw, ← hM] at hdm
  rw [← hM] at hml hfar
  have d0 := hdn (2 * w)
  have d1 := hdn (2 * w + 1)
  have d2 := hdn (2 * w + 2)
  have e0 : 2 * w * 2 ^ b = 2 ^ (b + 1) * w := by rw [hpw]; ring
  have e1 : (2 * w + 1) * 2 ^ b = 2 ^ (b + 1) * w + 2 ^ b := by rw [hpw]; ring
  have e2 : (2 * w + 2) * 2 ^ b = 2 ^ (b + 1) * w + 2 ^ (b + 1) := by rw [hpw]; ring
  rw [e0] at d0
  rw [e1] at d1
  rw [e2] at d2
  have hu : u = limbMax := by
    generalize 2 ^ (b + 1) * w = X at *
    generalize hB : 2 ^ b = B at *
    rw [hpw] at hml d2 hfar
    have p129 : (2 : ℕ) ^ 129 = 2 * 2 ^ 128 := by norm_num
    rw [p129] at d0 d1 d2
    apply hfar
    · omega
    · omega
    · omega
    · omega
  rw [hu]
  have := h.err7
  have hlm : limbMax = 2 ^ 128 - 1 := by unfold limbMax; norm_num
  rw [hlm, Nat.min_eq_right (by norm_num)]
  omega

end Apf
