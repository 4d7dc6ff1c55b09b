import Verif.Proof.FmaExcluded
/-! # C08: exactly when the fused multiply-add is correctly rounded, and what it does otherwise -/

namespace Apf
open Spec IeeeFloat

variable {S : Sem}

/-! ## Rounding below the normal range -/

/-- Whether `k + f` units, `0 < f < 1`, round to `k + 1` units. -/
def upward (mode : Round) (k : ℕ) (f : ℚ) : Prop :=
  match mode with
  | .nearestTiesToEven => 1 / 2 < f ∨ (f = 1 / 2 ∧ k % 2 = 1)
  | .nearestTiesToAway => 1 / 2 ≤ f
  | .towardPositive => True
  | _ => False

theorem isRounded_sub_hi {F : Fmt} (hp : 2 ≤ F.p) {mode : Round} {k : ℕ} {f : ℚ} (hk : k < 2 ^ F.p) (f0 : 0 < f) (f1 : f < 1)
    (hu : upward mode k f) : IsRounded F mode ((k + f) * 2 ^ (F.emin - F.p + 1)) (((k + 1 : ℕ) : ℚ) * 2 ^ (F.emin - F.p + 1)) := by
  have hn := neighbours_mk (F := F) (n := k) (e := F.emin) (by omega) hk (le_refl _) (Or.inr rfl)
  have he := evenGrid_mk (F := F) (n := k + 1) (e := F.emin) hp hk (le_refl _)
  have hu0 := two_zpow_pos (F.emin - F.p + 1)
  generalize (2 : ℚ) ^ (F.emin - F.p + 1) = η at *
  push_cast at hn he ⊢
  refine isRounded_hi hn (by positivity) (by nlinarith) (by nlinarith) ?_
  cases mode <;> simp only [upward] at hu
  · rcases hu with hu | ⟨hu, h2⟩
    · exact Or.inr (Or.inl ⟨Or.inl rfl, by nlinarith⟩)
    · exact Or.inr (Or.inr (Or.inr ⟨rfl, by rw [hu]; ring, he (by omega)⟩))
  · exact Or.inl rfl
  · rcases lt_or_eq_of_le hu with hu | hu
    · exact Or.inr (Or.inl ⟨Or.inr rfl, by nlinarith⟩)
    · exact Or.inr (Or.inr (Or.inl ⟨rfl, by rw [← hu]; ring⟩))

theorem isRounded_sub_lo {F : Fmt} (hp : 2 ≤ F.p) {mode : Round} {k : ℕ} {f : ℚ} (hk : k < 2 ^ F.p) (f0 : 0 < f) (f1 : f < 1)
    (hu : ¬ upward mode k f) : IsRounded F mode ((k + f) * 2 ^ (F.emin - F.p + 1)) ((k : ℚ) * 2 ^ (F.emin - F.p + 1)) := by
  have hn := neighbours_mk (F := F) (n := k) (e := F.emin) (by omega) hk (le_refl _) (Or.inr rfl)
  have he := evenGrid_mk (F := F) (n := k) (e := F.emin) hp hk.le (le_refl _)
  have hu0 := two_zpow_pos (F.emin - F.p + 1)
  generalize (2 : ℚ) ^ (F.emin - F.p + 1) = η at *
  push_cast at hn he ⊢
  refine isRounded_lo hn (by positivity) (by nlinarith) (by nlinarith) ?_
  cases mode <;> simp only [upward, not_true_eq_false] at hu
  · push Not at hu
    rcases lt_or_eq_of_le hu.1 with hh | hh
    · exact Or.inr (Or.inr (Or.inr (Or.inl ⟨Or.inl rfl, by nlinarith⟩)))
    · have := hu.2 hh
      exact Or.inr (Or.inr (Or.inr (Or.inr ⟨rfl, by rw [hh]; ring, he (by omega)⟩)))
  · exact Or.inr (Or.inl rfl)
  · exact Or.inr (Or.inr (Or.inl rfl))
  · push Not at hu
    exact Or.inr (Or.inr (Or.inr (Or.inl ⟨Or.inr rfl, by nlinarith⟩)))

/-- Below the normal range, `signed s (k + f)` units round to `signed s n` units. -/
theorem rounds_sub_iff (h : S.OK) {mode : Round} {s zs : Bool} {k n : ℕ} {f : ℚ} (hk : k < 2 ^ (S.precision - 1)) (f0 : 0 < f) (f1 : f < 1)
    (hn : n = k + 1 ∧ upward (mode.negateIf s) k f ∨ n = k ∧ ¬ upward (mode.negateIf s) k f) (r : StatusAnd (IeeeFloat S)) :
    Rounds S mode (signed s ((k + f) * 2 ^ (S.minExp - S.precision + 1))) zs r ↔
      r.value.sign = s ∧ r.value.datum = .num s (signed s (n * 2 ^ (S.minExp - S.precision + 1))) ∧
        r.status = { inexact := true, underflow := decide (n < 2 ^ (S.precision - 1)) } := by
  have hp := h.p_ge
  have hk' : k < 2 ^ S.precision := lt_of_lt_of_le hk (Nat.pow_le_pow_right (by norm_num) (by omega))
  have hr : IsRounded S.fmt mode (signed s ((k + f) * 2 ^ (S.minExp - S.precision + 1))) (signed s (n * 2 ^ (S.minExp - S.precision + 1))) := by
    apply IsRounded.signed
    rcases hn with ⟨rfl, hu⟩ | ⟨rfl, hu⟩
    · exact isRounded_sub_hi (F := S.fmt) (by show 2 ≤ S.precision; omega) hk' f0 f1 hu
    · exact isRounded_sub_lo (F := S.fmt) (by show 2 ≤ S.precision; omega) hk' f0 f1 hu
  have hη := two_zpow_pos (S.minExp - S.precision + 1)
  have hm : (2 : ℚ) ^ S.minExp = ((2 ^ (S.precision - 1) : ℕ) : ℚ) * 2 ^ (S.minExp - S.precision + 1) := by
    push_cast
    rw [← zpow_natCast, ← two_zpow_add]; congr 1; omega
  have hL := smallestNormal_le_largest h
  have hnle : n ≤ 2 ^ (S.precision - 1) := by omega
  have habs : |signed s ((n : ℚ) * 2 ^ (S.minExp - S.precision + 1))| = n * 2 ^ (S.minExp - S.precision + 1) := abs_signed _ (by positivity)
  have hle : |signed s ((n : ℚ) * 2 ^ (S.minExp - S.precision + 1))| ≤ S.fmt.largest := by
    rw [habs]
    refine le_trans ?_ hL
    rw [hm]
    exact mul_le_mul_of_nonneg_right (by exact_mod_cast hnle) hη.le
  have hlt : |signed s ((n : ℚ) * 2 ^ (S.minExp - S.precision + 1))| < S.fmt.smallestNormal ↔ n < 2 ^ (S.precision - 1) := by
    rw [habs]
    show _ < (2 : ℚ) ^ S.minExp ↔ _
    rw [hm, mul_lt_mul_iff_left₀ hη, Nat.cast_lt]
  have hpos : 0 < ((k : ℚ) + f) * 2 ^ (S.minExp - S.precision + 1) := mul_pos (by positivity) hη
  have hne : signed s ((n : ℚ) * 2 ^ (S.minExp - S.precision + 1)) ≠ signed s ((k + f) * 2 ^ (S.minExp - S.precision + 1)) := by
    rw [Ne, signed_inj]
    intro hh
    have := mul_right_cancel₀ hη.ne' hh
    rcases hn with ⟨rfl, -⟩ | ⟨rfl, -⟩
    · push_cast at this; linarith
    · linarith
  have hsr : SignRule (signed s (((k : ℚ) + f) * 2 ^ (S.minExp - S.precision + 1))) zs r.value.sign ↔ r.value.sign = s := by
    unfold SignRule
    cases s
    · simp only [signed, Bool.false_eq_true, if_false]
      exact ⟨fun hh => hh.1 hpos, fun hh => ⟨fun _ => hh, fun h0 => by linarith, fun h0 => by linarith⟩⟩
    · simp only [signed, if_true]
      exact ⟨fun hh => hh.2.1 (by linarith), fun hh => ⟨fun h0 => by linarith, fun _ => hh, fun h0 => by linarith⟩⟩
  have hst : ∀ b : Bool, ({ inexact := decide (signed s ((n : ℚ) * 2 ^ (S.minExp - S.precision + 1)) ≠ signed s ((k + f) * 2 ^ (S.minExp - S.precision + 1))), underflow := decide (signed s ((n : ℚ) * 2 ^ (S.minExp - S.precision + 1)) ≠ signed s ((k + f) * 2 ^ (S.minExp - S.precision + 1)) ∧ |signed s ((n : ℚ) * 2 ^ (S.minExp - S.precision + 1))| < S.fmt.smallestNormal) } : Status) =
      { inexact := true, underflow := decide (n < 2 ^ (S.precision - 1)) } := by
    intro _
    rw [decide_eq_true hne, decide_eq_decide.2 ((and_iff_right hne).trans hlt)]
  unfold Rounds
  rw [hsr]
  constructor
  · rintro ⟨⟨g, g1, g2⟩, hs⟩
    have := g1.unique hr
    subst this
    rcases g2 with ⟨-, g3, g4⟩ | ⟨g3, -⟩
    · rw [hs] at g3
      refine ⟨hs, g3, ?_⟩
      rw [g4]; exact hst true
    · exact absurd hle (not_le.2 g3)
  · rintro ⟨hs, hd, ht⟩
    refine ⟨⟨_, hr, Or.inl ⟨hle, ?_, ?_⟩⟩, hs⟩
    · rw [hd, hs]
    · rw [ht]; exact (hst true).symm

theorem upward_or (mode : Round) (k : ℕ) (f : ℚ) : ∃ n, n = k + 1 ∧ upward mode k f ∨ n = k ∧ ¬ upward mode k f := by
  by_cases hu : upward mode k f
  · exact ⟨_, Or.inl ⟨rfl, hu⟩⟩
  · exact ⟨_, Or.inr ⟨rfl, hu⟩⟩
/-- Two values of one sign below the normal range: one result serves both iff they round to the same number of units. -/
theorem rounds_sub_both (h : S.OK) {mode : Round} {s zs : Bool} {k n k' n' : ℕ} {f f' : ℚ} (hk : k < 2 ^ (S.precision - 1))
    (f0 : 0 < f) (f1 : f < 1) (hk' : k' < 2 ^ (S.precision - 1)) (f0' : 0 < f') (f1' : f' < 1)
    (hn : n = k + 1 ∧ upward (mode.negateIf s) k f ∨ n = k ∧ ¬ upward (mode.negateIf s) k f)
    (hn' : n' = k' + 1 ∧ upward (mode.negateIf s) k' f' ∨ n' = k' ∧ ¬ upward (mode.negateIf s) k' f') {r : StatusAnd (IeeeFloat S)}
    (hr : Rounds S mode (signed s ((k' + f') * 2 ^ (S.minExp - S.precision + 1))) zs r) :
    Rounds S mode (signed s ((k + f) * 2 ^ (S.minExp - S.precision + 1))) zs r ↔ n = n' := by
  rw [rounds_sub_iff h hk' f0' f1' hn'] at hr
  rw [rounds_sub_iff h hk f0 f1 hn]
  obtain ⟨h1, h2, h3⟩ := hr
  constructor
  · rintro ⟨-, e, -⟩
    rw [h2] at e
    injection e with _ e
    rw [signed_inj] at e
    have := mul_right_cancel₀ (two_zpow_pos (S.minExp - S.precision + 1)).ne' e
    exact_mod_cast this.symm
  · rintro rfl
    exact ⟨h1, h2, h3⟩

theorem fmaUnit_mul (S : Sem) : (2 : ℚ) ^ (S.minExp - S.precision + 1) = ((2 ^ (S.precision + 1) : ℕ) : ℚ) * fmaUnit S := by
  unfold fmaUnit
  push_cast
  rw [← zpow_natCast, ← two_zpow_add]
  congr 1
  push_cast
  ring

theorem upward_nearest {mode : Round} {s : Bool} (hm : mode = .nearestTiesToEven ∨ mode = .nearestTiesToAway) (k : ℕ) {f : ℚ} :
    (f < 1 / 2 → ¬ upward (mode.negateIf s) k f) ∧ (1 / 2 < f → upward (mode.negateIf s) k f) := by
  rcases hm with rfl | rfl <;> cases s <;> simp only [Round.negateIf, Round.neg, upward] <;> constructor <;> intro hf
  all_goals first
    | exact Or.inl hf
    | exact hf.le
    | exact not_le.2 hf
    | exact fun hh => hh.elim (fun e => absurd e (not_lt.2 hf.le)) (fun e => absurd e.1 hf.ne)

theorem upward_directed {mode : Round} {s : Bool} (hm : mode ≠ .nearestTiesToEven ∧ mode ≠ .nearestTiesToAway) (k k' : ℕ) (f f' : ℚ) :
    upward (mode.negateIf s) k f ↔ upward (mode.negateIf s) k' f' := by
  cases mode <;> cases s <;> simp [Round.negateIf, Round.neg, upward] at hm ⊢

theorem upward_half {s : Bool} {f : ℚ} : (upward (Round.negateIf .nearestTiesToEven s) 0 f ↔ 1 / 2 < f) ∧
    (upward (Round.negateIf .nearestTiesToAway s) 0 f ↔ 1 / 2 ≤ f) := by
  cases s <;> simp [Round.negateIf, Round.neg, upward]

theorem gapFails_directed {mode : Round} (hm : mode ≠ .nearestTiesToEven ∧ mode ≠ .nearestTiesToAway) {p : ℕ} {N : ℤ} {g : ℚ} :
    FmaGapFails p mode N g ↔ N % 2 ^ (p + 1) = 0 := by
  cases mode <;> simp [FmaGapFails] at hm ⊢

/-- On excluded operands, a rounding of what the code takes is a rounding of the exact sum unless `FmaWrong`. -/
theorem rounds_taken_iff (h : S.OK) {mode : Round} {zs : Bool} {P z : ℚ} {q x2 : ℕ} {g : ℚ} {s : Bool} (g0 : 0 < g) (g1 : g < 1)
    (hq : q < 2 ^ (2 * S.precision)) (hP : P = signed s ((q + g) * fmaUnit S)) (hz : z = signed (!s) (x2 * fmaUnit S)) (hle : x2 ≤ q + 1)
    (hE : FmaExcluded S P z) (hg : fmaGap S P z ≠ 0) {r : StatusAnd (IeeeFloat S)} (hr : Rounds S mode (fmaTaken S P z) zs r) :
    Rounds S mode (P + z) zs r ↔ ¬ FmaWrong S mode P z := by
  have hp := h.p_ge
  obtain ⟨hgap, hrest⟩ := fmaGap_eq g0 g1 hP hz
  have hu := fmaUnit_pos S
  have hneg : decide (P < 0) = s := by rw [hP]; exact lt_zero_signed (by positivity)
  -- the number of units in the smallest subnormal number
  obtain ⟨D, hD⟩ : ∃ D, 2 ^ (S.precision + 1) = D := ⟨_, rfl⟩
  obtain ⟨B, hB⟩ : ∃ B, 2 ^ (S.precision - 1) = B := ⟨_, rfl⟩
  have hD4 : D = 4 * B := by
    rw [← hD, ← hB, show S.precision + 1 = (S.precision - 1) + 2 by omega, pow_add]; ring
  have hB4 : 4 ≤ B := by
    rw [← hB]; exact le_trans (by norm_num) (Nat.pow_le_pow_right (n := 2) (by norm_num) (show 2 ≤ S.precision - 1 by omega))
  have hp2 : 2 ^ S.precision = 2 * B := by rw [← hB, ← pow_succ']; congr 1; omega
  have hqB : q < D * B := by
    rw [← hD, ← hB, ← pow_add, show S.precision + 1 + (S.precision - 1) = 2 * S.precision by omega]; exact hq
  have hDq : (0 : ℚ) < D := by exact_mod_cast (show 0 < D by omega)
  have hη : (2 : ℚ) ^ (S.minExp - S.precision + 1) = D * fmaUnit S := by rw [fmaUnit_mul, hD]
  have unw : FmaWrong S mode P z ↔ FmaGapFails S.precision mode (fmaGap S P z) (fmaRest S P) := by
    unfold FmaWrong
    exact ⟨fun hh => hh.2.resolve_left hg, fun hh => ⟨hE, Or.inr hh⟩⟩
  have hDz : (2 : ℤ) ^ (S.precision + 1) = D := by rw [← hD]; push_cast; rfl
  have hpz : (2 : ℤ) ^ S.precision = 2 * B := by exact_mod_cast hp2
  rw [unw, hgap, hrest]
  unfold fmaTaken at hr
  rw [hgap, hrest, hneg, hη] at hr
  rw [hgap] at hg
  have hmode : (mode = .nearestTiesToEven ∨ mode = .nearestTiesToAway) ∨ (mode ≠ .nearestTiesToEven ∧ mode ≠ .nearestTiesToAway) := by
    cases mode <;> simp
  -- a single unit
  have single : ∀ {b : Bool} {c : ℚ}, 0 < c → 2 * c < D → P + z = signed b (c * fmaUnit S) → |(q : ℤ) - x2| = 1 →
      Rounds S mode (signed b ((1 - g) * (D * fmaUnit S))) zs r →
      (Rounds S mode (P + z) zs r ↔ ¬ FmaGapFails S.precision mode ((q : ℤ) - x2) g) := by
    intro b c c0 c2 hPz h1 hr
    have hm : ((q : ℤ) - x2) % D ≠ 0 ∧ ((q : ℤ) - x2) % D ≠ 2 * B := by
      rcases (_root_.abs_eq (by norm_num)).1 h1 with e | e <;> rw [e]
      · rw [Int.emod_eq_of_lt (by norm_num) (by omega)]; omega
      · rw [show (-1 : ℤ) = (D - 1 : ℤ) + D * (-1) by ring, Int.add_mul_emod_self_left, Int.emod_eq_of_lt (by omega) (by omega)]; omega
    have e1 : signed b ((1 - g) * (D * fmaUnit S)) = signed b ((((0 : ℕ) : ℚ) + (1 - g)) * 2 ^ (S.minExp - S.precision + 1)) := by
      rw [hη]; congr 1; push_cast; ring
    have e2 : P + z = signed b ((((0 : ℕ) : ℚ) + c / D) * 2 ^ (S.minExp - S.precision + 1)) := by
      rw [hη, hPz]; congr 1; push_cast; field_simp; ring
    have f1 : c / D < 1 / 2 := by rw [div_lt_iff₀ hDq]; linarith
    obtain ⟨n, hn⟩ := upward_or (mode.negateIf b) 0 (c / D)
    obtain ⟨n', hn'⟩ := upward_or (mode.negateIf b) 0 (1 - g)
    rw [e1] at hr
    rw [e2, rounds_sub_both h (by omega) (div_pos c0 hDq) (by linarith) (by omega) (by linarith) (by linarith) hn hn' hr]
    rcases hmode with hmn | hmd
    · have : n = 0 := by
        rcases hn with hn | hn
        · exact absurd hn.2 ((upward_nearest hmn 0).1 f1)
        · exact hn.1
      subst this
      rcases hmn with rfl | rfl
      · simp only [FmaGapFails, hDz, hpz, hm.2, h1, true_and, false_or]
        rw [upward_half.1] at hn'
        constructor
        · rintro rfl
          rcases hn' with hn' | hn'
          · omega
          · intro hh; exact hn'.2 (by linarith)
        · intro hh
          rcases hn' with hn' | hn'
          · exfalso; apply hh; linarith [hn'.2]
          · exact hn'.1.symm
      · simp only [FmaGapFails, hDz, hpz, hm.2, h1, true_and, false_or]
        rw [upward_half.2] at hn'
        constructor
        · rintro rfl
          rcases hn' with hn' | hn'
          · omega
          · intro hh; exact hn'.2 (by linarith)
        · intro hh
          rcases hn' with hn' | hn'
          · exfalso; apply hh; linarith [hn'.2]
          · exact hn'.1.symm
    · rw [upward_directed hmd 0 0 _ (1 - g)] at hn
      have : n = n' := by
        rcases hn with hn | hn <;> rcases hn' with hn' | hn'
        · omega
        · exact absurd hn.2 hn'.2
        · exact absurd hn'.2 hn.2
        · omega
      simp only [this, true_iff]
      rw [gapFails_directed hmd, hDz]
      exact hm.1
  have hDq4 : (16 : ℚ) ≤ D := by exact_mod_cast (show 16 ≤ D by omega)
  rcases lt_trichotomy ((q : ℤ) - x2) 1 with hc | hc | hc
  · -- the addend is larger by less than a unit
    have hx2 : x2 = q + 1 := by omega
    rw [if_neg (by omega), if_pos (by omega)] at hr
    refine single (c := 1 - g) (by linarith) (by linarith) ?_ (by rw [hx2]; push_cast; rw [show (q : ℤ) - (q + 1) = -1 by ring]; rfl) hr
    rw [hP, hz, hx2]
    push_cast
    cases s <;> simp [signed] <;> ring
  · -- the product is larger by a unit and a rest
    rw [if_pos hc] at hr
    have hx2 : q = x2 + 1 := by omega
    refine single (c := 1 + g) (by linarith) (by linarith) ?_ (by rw [hc]; rfl) hr
    rw [hP, hz, hx2]
    push_cast
    cases s <;> simp [signed] <;> ring
  · rw [if_neg (by omega), if_neg (by omega)] at hr
    obtain ⟨N, hN⟩ : ∃ N : ℕ, (q : ℤ) - x2 = N := ⟨q - x2, by omega⟩
    have hNq : N ≤ q := by omega
    have hN2 : 2 ≤ N := by omega
    have hPz : P + z = signed s ((N + g) * fmaUnit S) := by
      have e : (q : ℚ) = N + x2 := by exact_mod_cast (show q = N + x2 by omega)
      rw [hP, hz, e]
      cases s <;> simp [signed] <;> ring
    rw [hN] at hr ⊢
    have hone : ¬ (|(N : ℤ)| = 1) := by rw [Nat.abs_cast]; omega
    have hmodc : ((N : ℤ) % D) = ((N % D : ℕ) : ℤ) := by push_cast; rfl
    obtain ⟨K, hK⟩ : ∃ K, N / D = K := ⟨_, rfl⟩
    obtain ⟨t, ht⟩ : ∃ t, N % D = t := ⟨_, rfl⟩
    have htD : t < D := by rw [← ht]; exact Nat.mod_lt _ (by omega)
    have hNK : N = D * K + t := by rw [← hK, ← ht]; exact (Nat.div_add_mod _ _).symm
    have hKB : K < B := by
      rw [← hK, Nat.div_lt_iff_lt_mul (by omega), mul_comm]; omega
    have hNQ : (N : ℚ) = D * K + t := by exact_mod_cast hNK
    have htq : (t : ℚ) + 1 ≤ D := by exact_mod_cast htD
    have ht0 : (0 : ℚ) ≤ t := by positivity
    rw [ht] at hmodc
    have e2 : P + z = signed s (((K : ℚ) + (t + g) / D) * 2 ^ (S.minExp - S.precision + 1)) := by
      rw [hη, hPz, hNQ]; congr 1; field_simp; ring
    have fp : 0 < ((t : ℚ) + g) / D := div_pos (by linarith) hDq
    have fl : ((t : ℚ) + g) / D < 1 := by rw [div_lt_one hDq]; linarith
    obtain ⟨n, hn⟩ := upward_or (mode.negateIf s) K ((t + g) / D)
    rcases Nat.eq_zero_or_pos t with h0 | h0
    · -- the gap is a multiple of the smallest subnormal number
      have hK1 : 1 ≤ K := by
        rcases Nat.eq_zero_or_pos K with hh | hh
        · rw [hh, h0] at hNK; omega
        · exact hh
      have e1 : signed s (((((N : ℕ) : ℤ) : ℚ) - g) * fmaUnit S) =
          signed s ((((K - 1 : ℕ) : ℚ) + (D - g) / D) * 2 ^ (S.minExp - S.precision + 1)) := by
        rw [hη, Int.cast_natCast, hNQ, h0, Nat.cast_sub hK1]; congr 1; push_cast; field_simp; ring
      rw [e1] at hr
      obtain ⟨n', hn'⟩ := upward_or (mode.negateIf s) (K - 1) ((D - g) / D)
      rw [e2, rounds_sub_both h (by omega) fp fl (by omega) (div_pos (by linarith) hDq) (by rw [div_lt_one hDq]; linarith) hn hn' hr]
      rcases hmode with hmn | hmd
      · have a1 : n = K := by
          rcases hn with hn | hn
          · refine absurd hn.2 ((upward_nearest hmn K).1 ?_)
            rw [div_lt_iff₀ hDq, h0]; push_cast; linarith
          · exact hn.1
        have a2 : n' = K := by
          rcases hn' with hn' | hn'
          · omega
          · refine absurd ((upward_nearest hmn (K - 1)).2 ?_) hn'.2
            rw [lt_div_iff₀ hDq]; linarith
        rw [a1, a2]
        simp only [true_iff]
        rcases hmn with rfl | rfl <;> simp only [FmaGapFails, hDz, hpz, hmodc]
        · rintro (hh | hh)
          · omega
          · exact hone hh.1
        · rintro (hh | hh)
          · omega
          · exact hone hh.1
      · rw [upward_directed hmd K (K - 1) _ ((D - g) / D)] at hn
        have hne : n ≠ n' := by
          rcases hn with hn | hn <;> rcases hn' with hn' | hn'
          · omega
          · exact absurd hn.2 hn'.2
          · exact absurd hn'.2 hn.2
          · omega
        simp only [hne, false_iff, not_not]
        rw [gapFails_directed hmd, hDz, hmodc]
        exact_mod_cast h0
    · have e1 : signed s (((((N : ℕ) : ℤ) : ℚ) - g) * fmaUnit S) =
          signed s (((K : ℚ) + (t - g) / D) * 2 ^ (S.minExp - S.precision + 1)) := by
        rw [hη, Int.cast_natCast, hNQ]; congr 1; field_simp; ring
      rw [e1] at hr
      have ht1 : (1 : ℚ) ≤ t := by exact_mod_cast h0
      obtain ⟨n', hn'⟩ := upward_or (mode.negateIf s) K ((t - g) / D)
      rw [e2, rounds_sub_both h (by omega) fp fl (by omega) (div_pos (by linarith) hDq) (by rw [div_lt_one hDq]; linarith) hn hn' hr]
      have hD2 : (D : ℚ) = 2 * (2 * B : ℕ) := by rw [hD4]; push_cast; ring
      rcases hmode with hmn | hmd
      · have key : n = n' ↔ t ≠ 2 * B := by
          rcases lt_trichotomy t (2 * B) with ht2 | ht2 | ht2
          · have hq2 : (t : ℚ) + 1 ≤ (2 * B : ℕ) := by exact_mod_cast ht2
            have a1 : n = K := by
              rcases hn with hn | hn
              · refine absurd hn.2 ((upward_nearest hmn K).1 ?_)
                rw [div_lt_iff₀ hDq]; linarith
              · exact hn.1
            have a2 : n' = K := by
              rcases hn' with hn' | hn'
              · refine absurd hn'.2 ((upward_nearest hmn K).1 ?_)
                rw [div_lt_iff₀ hDq]; linarith
              · exact hn'.1
            exact ⟨fun _ => by omega, fun _ => by omega⟩
          · have hq2 : (t : ℚ) = (2 * B : ℕ) := by exact_mod_cast ht2
            have a1 : n = K + 1 := by
              rcases hn with hn | hn
              · exact hn.1
              · refine absurd ((upward_nearest hmn K).2 ?_) hn.2
                rw [lt_div_iff₀ hDq]; linarith
            have a2 : n' = K := by
              rcases hn' with hn' | hn'
              · refine absurd hn'.2 ((upward_nearest hmn K).1 ?_)
                rw [div_lt_iff₀ hDq]; linarith
              · exact hn'.1
            exact ⟨fun _ => by omega, fun hh => absurd ht2 hh⟩
          · have hq2 : ((2 * B : ℕ) : ℚ) + 1 ≤ t := by exact_mod_cast ht2
            have a1 : n = K + 1 := by
              rcases hn with hn | hn
              · exact hn.1
              · refine absurd ((upward_nearest hmn K).2 ?_) hn.2
                rw [lt_div_iff₀ hDq]; linarith
            have a2 : n' = K + 1 := by
              rcases hn' with hn' | hn'
              · exact hn'.1
              · refine absurd ((upward_nearest hmn K).2 ?_) hn'.2
                rw [lt_div_iff₀ hDq]; linarith
            exact ⟨fun _ => by omega, fun _ => by omega⟩
        rw [key]
        rcases hmn with rfl | rfl <;> simp only [FmaGapFails, hDz, hpz, hmodc]
        · constructor
          · rintro hh (h3 | h3)
            · exact hh (by exact_mod_cast h3)
            · exact hone h3.1
          · intro hh h3
            exact hh (Or.inl (by exact_mod_cast h3))
        · constructor
          · rintro hh (h3 | h3)
            · exact hh (by exact_mod_cast h3)
            · exact hone h3.1
          · intro hh h3
            exact hh (Or.inl (by exact_mod_cast h3))
      · rw [upward_directed hmd K K _ ((t - g) / D)] at hn
        have heq : n = n' := by
          rcases hn with hn | hn <;> rcases hn' with hn' | hn'
          · omega
          · exact absurd hn.2 hn'.2
          · exact absurd hn'.2 hn.2
          · omega
        simp only [heq, true_iff]
        rw [gapFails_directed hmd, hDz, hmodc]
        omega
/-! ## The property -/

/-- Excluded operands have a normal product. -/
theorem normal_of_excluded {x m : IeeeFloat S} {z : ℚ} (fx : x.isFinite = true) (fm : m.isFinite = true)
    (hE : FmaExcluded S (x.toRat * m.toRat) z) : x.category = .normal ∧ m.category = .normal := by
  have h1 := hE.1
  constructor
  · rcases isFinite_iff.1 fx with c | c
    · exact c
    · rw [toRat_zero c] at h1; simp at h1
  · rcases isFinite_iff.1 fm with c | c
    · exact c
    · rw [toRat_zero c] at h1; simp at h1

/-- **C76** (what the excluded operands get).  The call panics iff the product, cut off, equals the addend in magnitude; otherwise it delivers
a correct rounding of `fmaTaken` instead of one of `x * m + z`, which is a correct result unless `FmaWrong` holds. -/
theorem C76_excluded (h : S.OK) {x m z : IeeeFloat S} (hx : x.Valid) (hm : m.Valid) (hz : z.Valid)
    (fx : x.isFinite = true) (fm : m.isFinite = true) (fz : z.isFinite = true) (mode : Round)
    (hE : FmaExcluded S (x.toRat * m.toRat) z.toRat) :
    (fmaGap S (x.toRat * m.toRat) z.toRat = 0 → mulAddR x m z mode = .error .assert) ∧
    (fmaGap S (x.toRat * m.toRat) z.toRat ≠ 0 → ∃ r, mulAddR x m z mode = .ok r ∧ r.value.Valid ∧
      Rounds S mode (fmaTaken S (x.toRat * m.toRat) z.toRat) (zeroSum mode (xor x.sign m.sign) z.sign) r ∧
      (Rounds S mode (x.toRat * m.toRat + z.toRat) (zeroSum mode (xor x.sign m.sign) z.sign) r ↔
        ¬ FmaWrong S mode (x.toRat * m.toRat) z.toRat)) := by
  obtain ⟨cx, cm⟩ := normal_of_excluded fx fm hE
  rw [mulAddR_normal cx cm fz]
  obtain ⟨⟨q, x2, g, s, g0, g1, hq, hP, hz', hle⟩, h1, h2⟩ := fmaNormals_excluded h hx hm hz cx cm fz mode hE
  refine ⟨h1, fun hg => ?_⟩
  obtain ⟨r, r1, r2, r3⟩ := h2 hg
  exact ⟨r, r1, r2, r3, rounds_taken_iff h g0 g1 hq hP hz' hle hE hg r3⟩

/-- **C76**, and **C08** as far as it holds: *exactly* for the operands outside `FmaWrong`.  The fused multiply-add of finite operands
delivers the single correct rounding of `x * m + z`, with the prescribed flags and sign, if and only if the operands are not among those
`FmaWrong` describes for the rounding mode. -/
theorem C76_correct_iff (h : S.OK) {x m z : IeeeFloat S} (hx : x.Valid) (hm : m.Valid) (hz : z.Valid)
    (fx : x.isFinite = true) (fm : m.isFinite = true) (fz : z.isFinite = true) (mode : Round)
    (hO : DirectedOK S mode (x.toRat * m.toRat + z.toRat)) :
    (∃ r, mulAddR x m z mode = .ok r ∧ r.value.Valid ∧
      Rounds S mode (x.toRat * m.toRat + z.toRat) (zeroSum mode (xor x.sign m.sign) z.sign) r) ↔
    ¬ FmaWrong S mode (x.toRat * m.toRat) z.toRat := by
  by_cases hE : FmaExcluded S (x.toRat * m.toRat) z.toRat
  · obtain ⟨h1, h2⟩ := C76_excluded h hx hm hz fx fm fz mode hE
    by_cases hg : fmaGap S (x.toRat * m.toRat) z.toRat = 0
    · rw [h1 hg]
      constructor
      · rintro ⟨r, hr, -⟩
        cases hr
      · intro hh
        exact absurd ⟨hE, Or.inl hg⟩ hh
    · obtain ⟨r, r1, r2, -, r4⟩ := h2 hg
      constructor
      · rintro ⟨r', e1, -, e3⟩
        rw [r1] at e1
        injection e1 with e1
        subst e1
        exact r4.1 e3
      · intro hh
        exact ⟨r, r1, r2, r4.2 hh⟩
  · refine ⟨fun _ hh => hE hh.1, fun _ => C08_mul_add_partial h hx hm hz fx fm fz mode hO hE⟩

/-- **C76** (panics).  On finite operands `mul_add_r` returns or panics, and panics iff `FmaPanics`. -/
theorem C76_panics_iff (h : S.OK) {x m z : IeeeFloat S} (hx : x.Valid) (hm : m.Valid) (hz : z.Valid)
    (fx : x.isFinite = true) (fm : m.isFinite = true) (fz : z.isFinite = true) (mode : Round) :
    (FmaPanics S (x.toRat * m.toRat) z.toRat → mulAddR x m z mode = .error .assert) ∧
    (¬ FmaPanics S (x.toRat * m.toRat) z.toRat → ∃ r, mulAddR x m z mode = .ok r ∧ r.value.Valid) := by
  by_cases hE : FmaExcluded S (x.toRat * m.toRat) z.toRat
  · obtain ⟨h1, h2⟩ := C76_excluded h hx hm hz fx fm fz mode hE
    refine ⟨fun hh => h1 hh.2, fun hh => ?_⟩
    obtain ⟨r, r1, r2, -⟩ := h2 (fun e => hh ⟨hE, e⟩)
    exact ⟨r, r1, r2⟩
  · refine ⟨fun hh => absurd hh.1 hE, fun _ => ?_⟩
    obtain ⟨om, hO⟩ := exists_effective S mode (x.toRat * m.toRat + z.toRat)
    obtain ⟨r, r1, r2, -⟩ := mulAddR_eff h hx hm hz fx fm fz mode hO hE
    exact ⟨r, r1, r2⟩

/-- Rounding moves a value below the normal range by at most the smallest subnormal number. -/
theorem IsRounded.dist_sub {F : Fmt} (hp : 2 ≤ F.p) {mode : Round} {v g : ℚ} (hg : IsRounded F mode v g) (hv : |v| < 2 ^ F.emin) :
    |g - v| ≤ 2 ^ (F.emin - F.p + 1) := by
  have hη := two_zpow_pos (F.emin - F.p + 1)
  have hB : (2 : ℚ) ^ F.emin = ((2 ^ (F.p - 1) : ℤ) : ℚ) * 2 ^ (F.emin - F.p + 1) := by
    push_cast
    rw [← zpow_natCast, ← two_zpow_add]; congr 1; omega
  obtain ⟨k, hk⟩ : ∃ k, ⌊v / 2 ^ (F.emin - F.p + 1)⌋ = k := ⟨_, rfl⟩
  have k1 : (k : ℚ) ≤ v / 2 ^ (F.emin - F.p + 1) := by rw [← hk]; exact Int.floor_le _
  have k2 : v / 2 ^ (F.emin - F.p + 1) < k + 1 := by rw [← hk]; exact Int.lt_floor_add_one _
  rw [le_div_iff₀ hη] at k1
  rw [div_lt_iff₀ hη] at k2
  have hP : (2 : ℤ) ^ (F.p - 1) * 2 = 2 ^ F.p := by rw [← pow_succ]; congr 1; omega
  have hP1 : (2 : ℤ) ≤ 2 ^ (F.p - 1) := by
    calc (2 : ℤ) = 2 ^ 1 := by norm_num
      _ ≤ _ := pow_le_pow_right₀ (by norm_num) (by omega)
  rw [hB, abs_lt] at hv
  have b1 : -(2 ^ (F.p - 1) : ℤ) < k + 1 := by
    have : ((-(2 ^ (F.p - 1) : ℤ) : ℤ) : ℚ) * 2 ^ (F.emin - F.p + 1) < ((k + 1 : ℤ) : ℚ) * 2 ^ (F.emin - F.p + 1) := by
      push_cast at hv ⊢; linarith [hv.1]
    exact_mod_cast lt_of_mul_lt_mul_right this hη.le
  have b2 : k < (2 ^ (F.p - 1) : ℤ) := by
    have : ((k : ℤ) : ℚ) * 2 ^ (F.emin - F.p + 1) < ((2 ^ (F.p - 1) : ℤ) : ℚ) * 2 ^ (F.emin - F.p + 1) := by linarith [hv.2]
    exact_mod_cast lt_of_mul_lt_mul_right this hη.le
  have g1 : F.Grid ((k : ℚ) * 2 ^ (F.emin - F.p + 1)) := ⟨k, _, by rw [abs_lt]; omega, le_refl _, rfl⟩
  have g2 : F.Grid (((k + 1 : ℤ) : ℚ) * 2 ^ (F.emin - F.p + 1)) := ⟨k + 1, _, by rw [abs_lt]; omega, le_refl _, rfl⟩
  have c1 := hg.ge_of_grid g1 k1
  have c2 := hg.le_of_grid g2 (by push_cast; linarith)
  push_cast at c2
  rw [abs_le']
  constructor <;> linarith

/-- **C76** (how wrong a wrong result is).  Where `mul_add_r` returns on excluded operands, the result is off by less than twice the
smallest subnormal number. -/
theorem C76_close (h : S.OK) {x m z : IeeeFloat S} (hx : x.Valid) (hm : m.Valid) (hz : z.Valid)
    (fx : x.isFinite = true) (fm : m.isFinite = true) (fz : z.isFinite = true) (mode : Round)
    (hE : FmaExcluded S (x.toRat * m.toRat) z.toRat) {r : StatusAnd (IeeeFloat S)} (hr : mulAddR x m z mode = .ok r) :
    r.value.isFinite = true ∧ |r.value.toRat - (x.toRat * m.toRat + z.toRat)| < 2 * 2 ^ (S.minExp - S.precision + 1) := by
  have hp := h.p_ge
  obtain ⟨cx, cm⟩ := normal_of_excluded fx fm hE
  rw [mulAddR_normal cx cm fz] at hr
  obtain ⟨⟨q, x2, g, s, g0, g1, hq, hP, hz', hle⟩, h1, h2⟩ := fmaNormals_excluded h hx hm hz cx cm fz mode hE
  generalize x.toRat * m.toRat = P at *
  by_cases hg : fmaGap S P z.toRat = 0
  · rw [h1 hg] at hr; cases hr
  obtain ⟨r', r1, r2, r3⟩ := h2 hg
  rw [hr] at r1
  injection r1 with r1
  subst r1
  obtain ⟨hgap, hrest⟩ := fmaGap_eq g0 g1 hP hz'
  have hu := fmaUnit_pos S
  have hneg : decide (P < 0) = s := by rw [hP]; exact lt_zero_signed (by positivity)
  obtain ⟨D, hD⟩ : ∃ D, 2 ^ (S.precision + 1) = D := ⟨_, rfl⟩
  have hD4 : (16 : ℚ) ≤ D := by
    have : 2 ^ 4 ≤ D := by rw [← hD]; exact Nat.pow_le_pow_right (by norm_num) (by omega)
    exact_mod_cast this
  have hη : (2 : ℚ) ^ (S.minExp - S.precision + 1) = D * fmaUnit S := by rw [fmaUnit_mul, hD]
  have hmin : (2 : ℚ) ^ S.minExp = 2 ^ (2 * S.precision) * fmaUnit S := by
    unfold fmaUnit
    rw [← zpow_natCast, ← two_zpow_add]; congr 1; push_cast; ring
  have hmin' : (2 : ℚ) ^ (S.minExp - S.precision + 1) ≤ 2 ^ S.minExp := zpow_le_zpow_right₀ (by norm_num) (by omega)
  -- the value that is rounded is small and close to the exact one
  have key : |fmaTaken S P z.toRat| < 2 ^ S.minExp ∧ |fmaTaken S P z.toRat - (P + z.toRat)| < 2 ^ (S.minExp - S.precision + 1) := by
    unfold fmaTaken
    rw [hgap, hrest, hneg]
    have hgu : g * fmaUnit S < fmaUnit S := by nlinarith
    have hgu0 : 0 < g * fmaUnit S := by positivity
    have hDu : 16 * fmaUnit S ≤ D * fmaUnit S := mul_le_mul_of_nonneg_right hD4 hu.le
    have hgD : g * (D * fmaUnit S) < D * fmaUnit S := by nlinarith
    have hgD0 : 0 < g * (D * fmaUnit S) := by positivity
    have hgDu : 16 * (g * fmaUnit S) ≤ g * (D * fmaUnit S) := by nlinarith
    split_ifs with c1 c2
    · have e : (q : ℚ) = x2 + 1 := by exact_mod_cast (show q = x2 + 1 by omega)
      rw [hP, hz', e]
      refine ⟨?_, ?_⟩
      · rw [abs_signed _ (by nlinarith [two_zpow_pos (S.minExp - S.precision + 1)])]
        nlinarith [two_zpow_pos (S.minExp - S.precision + 1)]
      · rw [hη]
        have : |signed s ((1 - g) * (D * fmaUnit S)) - (signed s (((x2 : ℚ) + 1 + g) * fmaUnit S) + signed (!s) (x2 * fmaUnit S))| =
            |(1 - g) * (D * fmaUnit S) - (1 + g) * fmaUnit S| := by
          cases s
          · simp only [signed, Bool.not_false, if_true, if_false, Bool.false_eq_true]; congr 1; ring
          · simp only [signed, Bool.not_true, if_true, if_false, Bool.false_eq_true]; rw [← abs_neg]; congr 1; ring
        rw [this, abs_lt]
        constructor <;> nlinarith
    · have e : (x2 : ℚ) = q + 1 := by exact_mod_cast (show x2 = q + 1 by omega)
      rw [hP, hz', e]
      refine ⟨?_, ?_⟩
      · rw [abs_signed _ (by nlinarith [two_zpow_pos (S.minExp - S.precision + 1)])]
        nlinarith [two_zpow_pos (S.minExp - S.precision + 1)]
      · rw [hη]
        have : |signed (!s) ((1 - g) * (D * fmaUnit S)) - (signed s (((q : ℚ) + g) * fmaUnit S) + signed (!s) ((q + 1) * fmaUnit S))| =
            |(1 - g) * (D * fmaUnit S) - (1 - g) * fmaUnit S| := by
          cases s
          · simp only [signed, Bool.not_false, if_true, if_false, Bool.false_eq_true]; rw [← abs_neg]; congr 1; ring
          · simp only [signed, Bool.not_true, if_true, if_false, Bool.false_eq_true]; congr 1; ring
        rw [this, abs_lt]
        constructor <;> nlinarith
    · have hN : x2 + 1 < q := by omega
      have hNq : (x2 : ℚ) + 1 < q := by exact_mod_cast hN
      refine ⟨?_, ?_⟩
      · have hqq : (q : ℚ) + 1 ≤ 2 ^ (2 * S.precision) := by exact_mod_cast hq
        have hx2 : (0 : ℚ) ≤ x2 := by positivity
        rw [abs_signed _ (mul_nonneg (by push_cast; linarith) hu.le), hmin]
        apply mul_lt_mul_of_pos_right _ hu
        push_cast
        linarith
      · rw [hP, hz', hη]
        have : |signed s ((((q - x2 : ℤ) : ℚ) - g) * fmaUnit S) - (signed s (((q : ℚ) + g) * fmaUnit S) + signed (!s) (x2 * fmaUnit S))| =
            2 * (g * fmaUnit S) := by
          rw [← abs_of_nonneg (show 0 ≤ 2 * (g * fmaUnit S) by linarith)]
          cases s
          · simp only [signed, Bool.not_false, if_true, if_false, Bool.false_eq_true]; rw [← abs_neg]; congr 1; push_cast; ring
          · simp only [signed, Bool.not_true, if_true, if_false, Bool.false_eq_true]; congr 1; push_cast; ring
        rw [this]
        linarith
  obtain ⟨⟨y, y1, y2⟩, -⟩ := r3
  have hy := IsRounded.dist_sub (F := S.fmt) (by show 2 ≤ S.precision; omega) y1 key.1
  have hy' : |y| ≤ S.fmt.largest := by
    have hg' : S.fmt.Grid (2 ^ S.minExp) := ⟨1, S.minExp, by
      rw [abs_one]
      exact one_lt_pow₀ (by norm_num) (by show S.precision ≠ 0; omega), by show S.minExp - S.precision + 1 ≤ _; omega, by simp⟩
    have a1 := y1.le_of_grid hg' (abs_lt.1 key.1).2.le
    have a2 := y1.ge_of_grid (Fmt.Grid.neg hg') (abs_lt.1 key.1).1.le
    have := smallestNormal_le_largest h
    rw [abs_le']
    constructor <;> linarith
  rcases y2 with ⟨-, d1, -⟩ | ⟨d1, -⟩
  · have hfin : r.value.isFinite = true := by
      unfold datum at d1
      rw [isFinite_iff]
      cases c : r.value.category <;> rw [c] at d1 <;> simp at d1 ⊢
    refine ⟨hfin, ?_⟩
    rw [datum_finite hfin] at d1
    injection d1 with _ d1
    rw [d1]
    have hy'' : |y - fmaTaken S P z.toRat| ≤ 2 ^ (S.minExp - S.precision + 1) := hy
    have := abs_sub_le y (fmaTaken S P z.toRat) (P + z.toRat)
    linarith [key.2]
  · exact absurd hy' (not_le.2 d1)
/-! ## Instances -/

/-- The unit of half precision is `2^-36`. -/
theorem half_unit : fmaUnit halfS = 2 ^ (-36 : ℤ) := by unfold fmaUnit; rfl

/-- The exact product `a * b * 2^-44` of `hf a (-12)` and `hf b (-12)`, and the addend `-2^-24`: the gap is `a * b / 256` cut off, minus 4096. -/
theorem half_gap (a b q r : ℕ) (e : a * b = 256 * q + r) (hr : r < 256) :
    fmaGap halfS ((hf a (-12) false).toRat * (hf b (-12) false).toRat) (hf 1 (-14) true).toRat = q - 4096 ∧
    fmaRest halfS ((hf a (-12) false).toRat * (hf b (-12) false).toRat) = r / 256 := by
  have hP : |(hf a (-12) false).toRat * (hf b (-12) false).toRat| / fmaUnit halfS = q + r / 256 := by
    rw [hf_toRat, hf_toRat, half_unit, signed, signed, if_neg (by decide), if_neg (by decide), _root_.abs_of_nonneg (by positivity)]
    have : ((a * b : ℕ) : ℚ) = ((256 * q + r : ℕ) : ℚ) := by rw [e]
    push_cast at this
    norm_num
    linear_combination (1 / 256) * this
  have hz : |(hf 1 (-14) true).toRat| / fmaUnit halfS = (4096 : ℤ) := by
    rw [hf_toRat, half_unit, signed, if_pos rfl, abs_neg, _root_.abs_of_nonneg (by positivity)]
    norm_num
  have hrq : (r : ℚ) < 256 := by exact_mod_cast hr
  have hr0 : (0 : ℚ) ≤ r := by positivity
  have hf : ⌊(q : ℚ) + r / 256⌋ = (q : ℤ) := by
    rw [Int.floor_eq_iff]
    push_cast
    constructor
    · linarith [div_nonneg hr0 (by norm_num : (0:ℚ) ≤ 256)]
    · linarith [(div_lt_one (by norm_num : (0:ℚ) < 256)).2 hrq]
  unfold fmaGap fmaRest
  rw [hP, hz, hf, Int.floor_intCast]
  refine ⟨rfl, ?_⟩
  push_cast
  ring

/-- Such operands are excluded as soon as the product is not a whole number of units and not too small. -/
theorem half_excluded (a b q r : ℕ) (e : a * b = 256 * q + r) (hr : r < 256) (hr0 : 0 < r) (hq : 4095 ≤ q) :
    FmaExcluded halfS ((hf a (-12) false).toRat * (hf b (-12) false).toRat) (hf 1 (-14) true).toRat := by
  have hP : (hf a (-12) false).toRat * (hf b (-12) false).toRat = (q + r / 256) * 2 ^ (-36 : ℤ) := by
    rw [hf_toRat, hf_toRat, signed, signed, if_neg (by decide), if_neg (by decide)]
    have : ((a * b : ℕ) : ℚ) = ((256 * q + r : ℕ) : ℚ) := by rw [e]
    push_cast at this
    norm_num
    linear_combination (1 / 17592186044416) * this
  have hz : (hf 1 (-14) true).toRat = -(4096 * 2 ^ (-36 : ℤ)) := by
    rw [hf_toRat, signed, if_pos rfl]
    norm_num
  have hrq : (0 : ℚ) < r := by exact_mod_cast hr0
  have hrq' : (r : ℚ) < 256 := by exact_mod_cast hr
  have hqq : (4095 : ℚ) ≤ q := by exact_mod_cast hq
  have hu : halfS.minExp - 2 * halfS.precision = -36 := rfl
  have hm : halfS.minExp = -14 := rfl
  rw [hP, hz]
  unfold FmaExcluded
  rw [hu, hm]
  refine ⟨?_, ?_, ?_, ?_⟩
  · have h1 : (0 : ℚ) < (q + r / 256) * 2 ^ (-36 : ℤ) := by positivity
    have h2 : (0 : ℚ) < 4096 * 2 ^ (-36 : ℤ) := by positivity
    nlinarith
  · rw [abs_neg, _root_.abs_of_nonneg (by positivity)]; norm_num
  · rw [abs_neg, _root_.abs_of_nonneg (by positivity), _root_.abs_of_nonneg (by positivity)]
    norm_num
    nlinarith
  · rintro ⟨k, hk⟩
    have hk' : (q : ℚ) + r / 256 = k := mul_right_cancel₀ (by positivity) hk
    have : ((256 * q + r : ℤ) : ℚ) = ((256 * k : ℤ) : ℚ) := by
      push_cast
      linear_combination 256 * hk'
    have : (256 * q + r : ℤ) = 256 * k := by exact_mod_cast this
    omega

/-- `C08_wrong_value` is an instance of `FmaWrong`: the gap is half the smallest subnormal. -/
example : FmaWrong halfS .nearestTiesToEven ((hf 1225 (-12) false).toRat * (hf 1284 (-12) false).toRat) (hf 1 (-14) true).toRat := by
  obtain ⟨g1, g2⟩ := half_gap 1225 1284 6144 36 (by norm_num) (by norm_num)
  refine ⟨half_excluded 1225 1284 6144 36 (by norm_num) (by norm_num) (by norm_num) (by norm_num), Or.inr (Or.inl ?_)⟩
  rw [g1]
  decide

/-- Excluded operands that are computed correctly, although bits of the product are inverted: `FmaWrong` is strictly narrower than
`FmaExcluded`. -/
example : FmaExcluded halfS ((hf 1225 (-12) false).toRat * (hf 1285 (-12) false).toRat) (hf 1 (-14) true).toRat ∧
    ∃ r, mulAddR (hf 1225 (-12) false) (hf 1285 (-12) false) (hf 1 (-14) true) .nearestTiesToEven = .ok r ∧ r.value.Valid ∧
      Rounds halfS .nearestTiesToEven
        ((hf 1225 (-12) false).toRat * (hf 1285 (-12) false).toRat + (hf 1 (-14) true).toRat) false r := by
  obtain ⟨g1, g2⟩ := half_gap 1225 1285 6148 237 (by norm_num) (by norm_num)
  refine ⟨half_excluded 1225 1285 6148 237 (by norm_num) (by norm_num) (by norm_num) (by norm_num),
    (C76_correct_iff halfS_ok (by decide) (by decide) (by decide) rfl rfl rfl _ (directedOK_of_ieee rfl _ _)).2 ?_⟩
  rintro ⟨-, hh⟩
  rw [g1] at hh
  rcases hh with hh | hh | hh
  · exact absurd hh (by decide)
  · exact absurd hh (by decide)
  · exact absurd hh.1 (by decide)

/-- The mode matters: toward zero, the operands of `C08_wrong_value` give the correct result. -/
example : ∃ r, mulAddR (hf 1225 (-12) false) (hf 1284 (-12) false) (hf 1 (-14) true) .towardZero = .ok r ∧ r.value.Valid ∧
      Rounds halfS .towardZero
        ((hf 1225 (-12) false).toRat * (hf 1284 (-12) false).toRat + (hf 1 (-14) true).toRat) false r := by
  obtain ⟨g1, g2⟩ := half_gap 1225 1284 6144 36 (by norm_num) (by norm_num)
  refine (C76_correct_iff halfS_ok (by decide) (by decide) (by decide) rfl rfl rfl _ (directedOK_of_ieee rfl _ _)).2 ?_
  rintro ⟨-, hh⟩
  rw [g1] at hh
  rcases hh with hh | hh
  · exact absurd hh (by decide)
  · exact absurd hh (by show ¬ (_ = _); decide)
/-- `C08_panic` is an instance of `FmaPanics`. -/
example : FmaPanics halfS ((hf 1044 (-12) false).toRat * (hf 2009 (-13) false).toRat) (hf 1 (-14) true).toRat := by
  by_contra hc
  obtain ⟨v1, v2, v3, hp⟩ := C08_panic
  obtain ⟨r, hr, -⟩ := (C76_panics_iff halfS_ok v1 v2 v3 rfl rfl rfl .nearestTiesToEven).2 hc
  rw [hp] at hr
  cases hr
/-- Where `FmaExcluded` holds the exact result is below the normal range. -/
theorem excluded_small (h : S.OK) {P z : ℚ} (hE : FmaExcluded S P z) (hP : |P| < 2 ^ S.minExp) : |P + z| < 2 ^ S.minExp := by
  obtain ⟨e1, e2, -⟩ := hE
  rw [abs_lt] at *
  rcases lt_or_ge P 0 with c | c
  · have : 0 < z := by nlinarith
    constructor <;> linarith
  · have : z < 0 := by nlinarith
    constructor <;> linarith

/-- The fused multiply-add, in the mode the code effectively rounds in, for all operands on which it is correct. -/
theorem mulAddR_exact (h : S.OK) {x m z : IeeeFloat S} (hx : x.Valid) (hm : m.Valid) (hz : z.Valid)
    (fx : x.isFinite = true) (fm : m.isFinite = true) (fz : z.isFinite = true) (mode : Round)
    {om : Round} (hO : Effective S mode (x.toRat * m.toRat + z.toRat) om) (hE : ¬ FmaWrong S mode (x.toRat * m.toRat) z.toRat) :
    ∃ r, mulAddR x m z mode = .ok r ∧ r.value.Valid ∧
      Rounds S om (x.toRat * m.toRat + z.toRat) (zeroSum mode (xor x.sign m.sign) z.sign) r := by
  by_cases hX : FmaExcluded S (x.toRat * m.toRat) z.toRat
  · have hP : |x.toRat * m.toRat| < 2 ^ S.minExp := by
      obtain ⟨cx, cm⟩ := normal_of_excluded fx fm hX
      obtain ⟨⟨q, x2, g, s, g0, g1, hq, hP, -⟩, -⟩ := fmaNormals_excluded h hx hm hz cx cm fz mode hX
      have hu := fmaUnit_pos S
      have hmin : (2 : ℚ) ^ S.minExp = 2 ^ (2 * S.precision) * fmaUnit S := by
        unfold fmaUnit
        rw [← zpow_natCast, ← two_zpow_add]; congr 1; push_cast; ring
      have hqq : (q : ℚ) + 1 ≤ 2 ^ (2 * S.precision) := by exact_mod_cast hq
      rw [hP, abs_signed _ (by positivity), hmin]
      exact mul_lt_mul_of_pos_right (by linarith) hu
    have hs := excluded_small h hX hP
    have hO' : DirectedOK S mode (x.toRat * m.toRat + z.toRat) :=
      directedOK_of_ge h mode (by linarith [(abs_lt.1 hs).1, (smallestNormal_le_largest h : (2 : ℚ) ^ S.minExp ≤ _)])
    rw [hO.eq hO']
    exact (C76_correct_iff h hx hm hz fx fm fz mode hO').2 hE
  · exact mulAddR_eff h hx hm hz fx fm fz mode hO hX

/-- **C12** (fused multiply-add, wherever C08 holds). -/
theorem C12_mul_add (h : S.OK) {x m z : IeeeFloat S} (hx : x.Valid) (hm : m.Valid) (hz : z.Valid)
    (fx : x.isFinite = true) (fm : m.isFinite = true) (fz : z.isFinite = true) (mode : Round)
    (hE : ¬ FmaWrong S mode (x.toRat * m.toRat) z.toRat) :
    ∃ r, mulAddR x m z mode = .ok r ∧ Disciplined (x.toRat * m.toRat + z.toRat) r.status r.value := by
  obtain ⟨om, o⟩ := exists_effective S mode (x.toRat * m.toRat + z.toRat)
  obtain ⟨r, r1, -, r3⟩ := mulAddR_exact h hx hm hz fx fm fz mode o hE
  exact ⟨r, r1, disciplined h r3⟩

end Apf
