import Verif.Props.Display
import Verif.Props.Accumulate
/-! # C94: decimal to binary to decimal -/

namespace Apf
open Spec IeeeFloat
variable {S : Sem}

/-- Rounding to nearest above the subnormal range errs by at most half a unit in the last place, relatively. -/
theorem near_rel {F : Fmt} (hp : 2 ≤ F.p) {mode : Round} (hm : mode = .nearestTiesToEven ∨ mode = .nearestTiesToAway) {v g : ℚ}
    (h : IsRounded F mode v g) (hv : 2 ^ F.emin ≤ |v|) : |v - g| ≤ 2 ^ (-(F.p : ℤ)) * |v| := by
  have key : ∀ {g : ℚ}, RN F v g → |v - g| ≤ 2 ^ (-(F.p : ℤ)) * |v| := by
    intro g hg
    rcases RN.err (by omega) hg with e | e
    · refine e.trans ?_
      rw [show F.emin - (F.p : ℤ) = -(F.p : ℤ) + F.emin by ring, two_zpow_add]
      exact mul_le_mul_of_nonneg_left hv (two_zpow_pos _).le
    · exact e
  rcases hm with rfl | rfl
  · exact key h
  · obtain ⟨g', h', hl⟩ := away_le hp h
    exact hl.trans (key h')

/-- What a text with `D` digits of a number close to the `D`-digit number `v` denotes. -/
theorem renders_near {p D N : ℕ} {E : ℤ} {v x w : ℚ} (hv : v = N * 10 ^ E) (hN0 : 0 < N) (hN : N < 10 ^ D) (hD : 10 ^ D < 2 ^ (p - 1))
    (hx : |v - x| ≤ 2 ^ (-(p : ℤ)) * v) (hr : Renders D x w) :
    w = v ∨ (w ≤ x ∧ x < v ∧ ∃ d, LeadingPlace x d ∧ 5 * 10 ^ d ≤ x ∧ w = v - 10 ^ (d + 1 - D)) := by
  obtain ⟨d, hd, ⟨n, hw⟩, -, hacc⟩ := hr
  have h10 : ∀ k : ℤ, (0 : ℚ) < 10 ^ k := fun k => by positivity
  have hp : 1 ≤ p := by
    rcases Nat.eq_zero_or_pos p with h | h
    · subst h
      have := Nat.one_le_pow D 10 (by norm_num)
      simp at hD
    · exact h
  obtain ⟨T, hT⟩ : ∃ T : ℚ, T = 10 ^ D := ⟨_, rfl⟩
  obtain ⟨ε, hε⟩ : ∃ ε : ℚ, ε = 2 ^ (-(p : ℤ)) := ⟨_, rfl⟩
  have hε0 : 0 < ε := hε ▸ two_zpow_pos _
  have hTN : (N : ℚ) + 1 ≤ T := by rw [hT]; exact_mod_cast hN
  have hN0' : (1 : ℚ) ≤ N := by exact_mod_cast hN0
  have hTε : (2 * T + 2) * ε ≤ 1 := by
    have h1 : 10 ^ D + 1 ≤ 2 ^ (p - 1) := hD
    have h2 : (T + 1 : ℚ) ≤ 2 ^ (p - 1) := by rw [hT]; exact_mod_cast h1
    have h3 : (2 : ℚ) ^ (p - 1) * 2 * ε = 1 := by
      rw [hε, ← pow_succ, Nat.sub_add_cancel hp, zpow_neg, zpow_natCast]
      exact mul_inv_cancel₀ (by positivity)
    nlinarith
  rw [← hε] at hx
  have hvp : 0 < v := by rw [hv]; have := h10 E; positivity
  rw [abs_le] at hx
  -- `v` is a multiple of the unit of the last digit
  have hmul : ∃ k : ℤ, v = k * 10 ^ (d + 1 - D : ℤ) := by
    rcases le_or_gt (d + 1 - D : ℤ) E with c | c
    · obtain ⟨j, hj⟩ : ∃ j : ℕ, E = j + (d + 1 - D) := ⟨(E - (d + 1 - D)).toNat, by omega⟩
      refine ⟨N * 10 ^ j, ?_⟩
      rw [hv, hj, ten_zpow_add, zpow_natCast]
      push_cast
      ring
    · exfalso
      have e1 : T * 10 ^ E ≤ 10 ^ d := by
        rw [hT, ← zpow_natCast, ← ten_zpow_add]
        exact zpow_le_zpow_right₀ (by norm_num) (by omega)
      have e2 : (N + 1) * 10 ^ E ≤ T * 10 ^ E := mul_le_mul_of_nonneg_right hTN (h10 E).le
      have e3 := hd.1
      have e4 : v * ε < 10 ^ E := by
        have a1 : v ≤ T * 10 ^ E := by rw [hv]; nlinarith [h10 E]
        have a2 : v * ε ≤ T * 10 ^ E * ε := mul_le_mul_of_nonneg_right a1 hε0.le
        have a3 : T * ε < 1 := by nlinarith
        have a4 := mul_lt_mul_of_pos_right a3 (h10 E)
        nlinarith
      rw [hv] at hx e4
      nlinarith
  obtain ⟨k, hk⟩ := hmul
  obtain ⟨U, hU⟩ : ∃ U : ℚ, U = 10 ^ (d + 1 - D : ℤ) := ⟨_, rfl⟩
  have hU0 : 0 < U := hU ▸ h10 _
  have hUT : U * T = 10 ^ (d + 1) := by
    rw [hU, hT, ← zpow_natCast, ← ten_zpow_add]; congr 1; ring
  rw [← hU] at hk hw hacc
  have hlt := hd.2
  rw [← hUT] at hlt
  have hclose : 2 * (ε * v) < U := by
    have hε1 : 0 < 1 - ε := by nlinarith
    have b1 : v * (1 - ε) < U * T := by linarith
    have b2 : 2 * ε * (v * (1 - ε)) < 2 * ε * (U * T) := mul_lt_mul_of_pos_left b1 (by linarith)
    have b3 : U * (2 * T * ε) ≤ U * (1 - ε) := mul_le_mul_of_nonneg_left (by linarith) hU0.le
    have b4 : (2 * (ε * v)) * (1 - ε) < U * (1 - ε) := by linarith
    exact lt_of_mul_lt_mul_right b4 hε1.le
  have cmp : ∀ {a : ℤ}, ((n : ℚ) - k) * U < a * U → (n : ℤ) - k < a := by
    intro a ha
    have := lt_of_mul_lt_mul_right ha hU0.le
    exact_mod_cast this
  have cmp' : ∀ {a : ℤ}, a * U < ((n : ℚ) - k) * U → a < (n : ℤ) - k := by
    intro a ha
    have := lt_of_mul_lt_mul_right ha hU0.le
    exact_mod_cast this
  rcases hacc with c | ⟨c1, c2, c3⟩
  · left
    have c' : |w - x| ≤ U / 2 := by linarith
    rw [abs_le] at c'
    have g1 : (n : ℤ) - k < 1 := cmp (by push_cast; linarith)
    have g2 : -1 < (n : ℤ) - k := cmp' (by push_cast; linarith)
    have : (n : ℤ) = k := by omega
    rw [hw, hk, ← this]; push_cast; ring
  · have g1 : (n : ℤ) - k < 1 := cmp (by push_cast; linarith)
    rcases lt_or_ge x v with hxv | hxv
    · have g2 : -2 < (n : ℤ) - k := cmp' (by push_cast; linarith)
      rcases (by omega : (n : ℤ) = k ∨ (n : ℤ) = k - 1) with e | e
      · left; rw [hw, hk, ← e]; push_cast; ring
      · right
        refine ⟨c2, hxv, d, hd, c1, ?_⟩
        rw [hw, hk, ← hU, show (n : ℚ) = ((n : ℤ) : ℚ) by push_cast; rfl, e]
        push_cast; ring
    · left
      have g2 : -1 < (n : ℤ) - k := cmp' (by push_cast; linarith)
      have : (n : ℤ) = k := by omega
      rw [hw, hk, ← this]; push_cast; ring

/-- **C94.** A decimal literal of the number `v = N * 10^E` with at most `D` significant digits, where `10^D < 2^(p-1)` (6 digits for single, 15 for
double), in the normal range of the format: parsed in a mode rounding to nearest and printed with precision `D`, whatever the width and the `#` flag,
the text has the sign of the literal and denotes `v` itself, or else the parsed value is below `v` in magnitude, its leading digit is at least 5,
and the text denotes `v` less one unit in the last digit printed. -/
theorem C94_within_one_unit (h : S.OK) (hp : S.precision ≤ 120) {fuel : ℕ} (hfuel : 23 ≤ fuel) (sg : LitSign) {t : List Char}
    (hlen : t.length < 2 ^ 27) {N D : ℕ} {E : ℤ} (ht : IsDec t (N * 10 ^ E)) (hN0 : 0 < N) (hN : N < 10 ^ D) (hD : 10 ^ D < 2 ^ (S.precision - 1))
    (hlo : S.fmt.smallestNormal ≤ N * 10 ^ E) (hhi : N * 10 ^ E ≤ S.fmt.largest) {mode : Round}
    (hm : mode = .nearestTiesToEven ∨ mode = .nearestTiesToAway) :
    ∃ r w, fromStrR S fuel (sg.chars ++ t) mode = .ok (.ok r) ∧
      (∀ (width : Option ℕ) (alt : Bool), ∃ s, r.value.display width (some D) alt = .ok (signText (sg == .minus) ++ s) ∧ IsDec s w) ∧
      (w = N * 10 ^ E ∨ (w ≤ |r.value.toRat| ∧ |r.value.toRat| < N * 10 ^ E ∧ ∃ d, LeadingPlace |r.value.toRat| d ∧ 5 * 10 ^ d ≤ |r.value.toRat| ∧
        w = N * 10 ^ E - 10 ^ (d + 1 - D))) := by
  obtain ⟨v, hv⟩ : ∃ v : ℚ, v = N * 10 ^ E := ⟨_, rfl⟩
  rw [← hv] at ht hlo hhi ⊢
  have hv0 : 0 < v := by
    rw [hv]
    have : (0 : ℚ) < N := by exact_mod_cast hN0
    positivity
  obtain ⟨r, st, r1, r2, r3, r4, -⟩ := C31_nearest h hp hfuel sg hlen ht hm
  have habs : |signed (sg == .minus) v| = v := by
    cases (sg == .minus) <;> simp [signed, abs_of_pos hv0]
  obtain ⟨f1, f2, -⟩ := rounds_fine h r3 (by rw [habs]; exact hhi)
  dsimp only at f1 f2
  have hp2 : 2 ≤ S.fmt.p := by have := h.p_ge; show 2 ≤ S.precision; omega
  have rel := near_rel hp2 hm f2 (by rw [habs]; exact hlo)
  rw [habs] at rel
  -- the magnitude
  have hsx : r.value.toRat = signed (sg == .minus) |r.value.toRat| := by
    rw [← r4]
    rcases isFinite_iff.1 f1 with c | c
    · exact toRat_signed c
    · rw [toRat_zero c]; cases r.value.sign <;> simp [signed]
  have rel' : |v - (|r.value.toRat|)| ≤ 2 ^ (-(S.precision : ℤ)) * v := by
    refine le_trans (le_of_eq ?_) rel
    rw [hsx]
    cases (sg == .minus)
    · simp [signed]
    · simp only [signed]
      rw [abs_sub_comm v]
      congr 1
      simp
      ring
  have hne : r.value.toRat ≠ 0 := by
    intro h0
    rw [h0, abs_zero, sub_zero, abs_of_pos hv0] at rel'
    have : (2 : ℚ) ^ (-(S.precision : ℤ)) < 1 := by
      rw [show (1 : ℚ) = 2 ^ (0 : ℤ) by simp]
      have := h.p_ge
      exact zpow_lt_zpow_right₀ (by norm_num) (by omega)
    nlinarith
  have hz : r.value.isZero = false := by
    by_contra hc
    have : r.value.category = .zero := by simpa [isZero] using hc
    exact hne (toRat_zero this)
  have hD1 : 1 ≤ D := by
    rcases Nat.eq_zero_or_pos D with h | h
    · subst h; simp at hN; omega
    · exact h
  have hD2 : D * 196 + 58 < 2 ^ 64 := by
    have : 2 ^ D < 2 ^ (S.precision - 1) := lt_of_le_of_lt (Nat.pow_le_pow_left (by norm_num) D) hD
    have := (Nat.pow_lt_pow_iff_right (by norm_num : 1 < 2)).1 this
    omega
  obtain ⟨w, w1, w2⟩ := C34_accuracy h r2 f1 hz hD1 hD2
  refine ⟨r, w, r1, ?_, renders_near hv hN0 hN hD rel' w1⟩
  rw [r4] at w2
  exact w2

/-- **C94 (partial).** A decimal literal with at most `D` significant digits whose first digit is 1 to 4 and that is not a power of ten, parsed to nearest and printed with
precision `D`, comes back as the same number.  Missing: the other literals, for which it is false (`C94_counterexample`). -/
theorem C94_survives_partial (h : S.OK) (hp : S.precision ≤ 120) {fuel : ℕ} (hfuel : 23 ≤ fuel) (sg : LitSign) {t : List Char}
    (hlen : t.length < 2 ^ 27) {N D : ℕ} {E d : ℤ} (ht : IsDec t (N * 10 ^ E)) (hN : N < 10 ^ D) (hD : 10 ^ D < 2 ^ (S.precision - 1))
    (hlo : S.fmt.smallestNormal ≤ N * 10 ^ E) (hhi : N * 10 ^ E ≤ S.fmt.largest) (hd : (10 : ℚ) ^ d < N * 10 ^ E) (hd5 : (N : ℚ) * 10 ^ E ≤ 5 * 10 ^ d)
    {mode : Round} (hm : mode = .nearestTiesToEven ∨ mode = .nearestTiesToAway) :
    ∃ r, fromStrR S fuel (sg.chars ++ t) mode = .ok (.ok r) ∧
      ∀ (width : Option ℕ) (alt : Bool), ∃ s, r.value.display width (some D) alt = .ok (signText (sg == .minus) ++ s) ∧ IsDec s (N * 10 ^ E) := by
  have h10 : ∀ k : ℤ, (0 : ℚ) < 10 ^ k := fun k => by positivity
  have hN0 : 0 < N := by
    rcases Nat.eq_zero_or_pos N with c | c
    · subst c; simp at hd; exact absurd (h10 d) (not_lt.2 hd.le)
    · exact c
  obtain ⟨r, w, r1, r2, r3⟩ := C94_within_one_unit h hp hfuel sg hlen ht hN0 hN hD hlo hhi hm
  refine ⟨r, r1, ?_⟩
  have : w = N * 10 ^ E := by
    rcases r3 with e | ⟨c0, c1, d', c2, c3, c4⟩
    · exact e
    · exfalso
      obtain ⟨x, hx⟩ : ∃ x, x = |r.value.toRat| := ⟨_, rfl⟩
      rw [← hx] at c0 c1 c2 c3
      rcases lt_or_ge d' d with c | c
      · -- the next number of `D` digits is too far
        have e1 : x < 10 ^ d := c2.2.trans_le (zpow_le_zpow_right₀ (by norm_num) (by omega))
        have e2 : (10 : ℚ) ^ (d' + 1 - D : ℤ) ≤ 10 ^ (d - D : ℤ) := zpow_le_zpow_right₀ (by norm_num) (by omega)
        have e3 : (10 : ℚ) ^ (d - D : ℤ) < 10 ^ (d + 1 - D : ℤ) := zpow_lt_zpow_right₀ (by norm_num) (by omega)
        have e4 : (10 : ℚ) ^ d + 10 ^ (d + 1 - D : ℤ) ≤ N * 10 ^ E := by
          have f1 : d < D + E := by
            by_contra hc
            have g1 : (N : ℚ) * 10 ^ E < 10 ^ D * 10 ^ E := mul_lt_mul_of_pos_right (by exact_mod_cast hN) (h10 E)
            have g2 : (10 : ℚ) ^ D * 10 ^ E ≤ 10 ^ d := by
              rw [← zpow_natCast, ← ten_zpow_add]
              exact zpow_le_zpow_right₀ (by norm_num) (by push Not at hc; exact hc)
            linarith
          have f2 : (10 : ℚ) ^ (d + 1 - D : ℤ) ≤ 10 ^ E := zpow_le_zpow_right₀ (by norm_num) (by omega)
          rcases le_or_gt E d with f3 | f3
          · obtain ⟨j, hj⟩ : ∃ j : ℕ, d = j + E := ⟨(d - E).toNat, by omega⟩
            have f4 : (10 : ℚ) ^ d = 10 ^ j * 10 ^ E := by rw [hj, ten_zpow_add, zpow_natCast]
            rw [f4] at hd ⊢
            have f5 : (10 : ℚ) ^ j < N := lt_of_mul_lt_mul_right hd (h10 E).le
            have f6 : 10 ^ j + 1 ≤ N := by exact_mod_cast f5
            have f7 : (10 : ℚ) ^ j + 1 ≤ N := by exact_mod_cast f6
            have := mul_le_mul_of_nonneg_right f7 (h10 E).le
            linarith
          · exfalso
            have f4 : (10 : ℚ) ^ (d + 1) ≤ 10 ^ E := zpow_le_zpow_right₀ (by norm_num) (by omega)
            rw [ten_zpow_add, zpow_one] at f4
            have f5 : (1 : ℚ) ≤ N := by exact_mod_cast hN0
            have := mul_le_mul_of_nonneg_right f5 (h10 E).le
            have := h10 d
            linarith
        linarith
      · have : (10 : ℚ) ^ d ≤ 10 ^ d' := zpow_le_zpow_right₀ (by norm_num) c
        linarith
  rw [← this]
  exact r2

/-- **C94.** It is false of other literals: `0.7` parsed as a double and printed with 15 digits comes back as `0.699999999999999`, `1e-6` as
`9.99999999999999E-7`; `0.605146` in single precision with 6 digits as `0.605145`. -/
theorem C94_counterexample :
    (∃ r, fromStrR doubleS 23 "0.7".toList .nearestTiesToEven = .ok (.ok r) ∧ r.value.display none (some 15) false = .ok "0.699999999999999".toList) ∧
    (∃ r, fromStrR doubleS 23 "1e-6".toList .nearestTiesToEven = .ok (.ok r) ∧ r.value.display none (some 15) false = .ok "9.99999999999999E-7".toList) ∧
    (∃ r, fromStrR singleS 23 "0.605146".toList .nearestTiesToEven = .ok (.ok r) ∧ r.value.display none (some 6) false = .ok "0.605145".toList) ∧
    10 ^ 15 < 2 ^ (doubleS.precision - 1) ∧ 10 ^ 6 < 2 ^ (singleS.precision - 1) := by
  have run : ∀ {S : Sem} {s t : List Char} {P : ℕ}, (match fromStrR S 23 s .nearestTiesToEven with
      | .ok (.ok r) => (match r.value.display none (some P) false with | .ok u => decide (u = t) | _ => false)
      | _ => false) = true →
      ∃ r, fromStrR S 23 s .nearestTiesToEven = .ok (.ok r) ∧ r.value.display none (some P) false = .ok t := by
    intro S s t P hh
    split at hh
    · rename_i r hr
      refine ⟨r, hr, ?_⟩
      split at hh
      · rename_i u hu
        rw [hu, of_decide_eq_true hh]
      · cases hh
    · cases hh
  exact ⟨run (by decide +kernel), run (by decide +kernel), run (by decide +kernel), by decide +kernel, by decide +kernel⟩

/-- A literal to which both theorems apply: `1.5` in double precision. -/
example : IsDec "1.5".toList ((15 : ℕ) * 10 ^ (-1 : ℤ)) ∧ 15 < 10 ^ 15 ∧ 10 ^ 15 < 2 ^ (doubleS.precision - 1) ∧
    (10 : ℚ) ^ (0 : ℤ) < (15 : ℕ) * 10 ^ (-1 : ℤ) ∧ ((15 : ℕ) : ℚ) * 10 ^ (-1 : ℤ) ≤ 5 * 10 ^ (0 : ℤ) ∧
    doubleS.fmt.smallestNormal ≤ (15 : ℕ) * 10 ^ (-1 : ℤ) ∧ ((15 : ℕ) : ℚ) * 10 ^ (-1 : ℤ) ≤ doubleS.fmt.largest := by
  refine ⟨?_, by norm_num, by decide +kernel, by norm_num, by norm_num, by decide +kernel, by decide +kernel⟩
  exact ⟨"1.5".toList, ['1'], ['5'], ⟨by decide, by decide, by simp, Or.inr rfl⟩, Or.inl ⟨rfl, by norm_num [significandValue, number, show digit? '1' = some 1 by decide, show digit? '5' = some 5 by decide]⟩⟩

end Apf
