import Verif.Props.DisplayLayout
import Verif.Spec.DecimalForm
/-! # C79: exactly what `{:.0}` prints, and when it panics -/

namespace Apf
open Spec IeeeFloat
variable {S : Sem}

/-- The decimal form of a number is unique. -/
theorem DecimalForm.unique {v : ℚ} {B t B' t' : ℕ} (h : DecimalForm v B t) (h' : DecimalForm v B' t') : B = B' ∧ t = t' := by
  have key : ∀ {B t B' t' : ℕ}, DecimalForm v B t → DecimalForm v B' t' → t ≤ t' → B = B' ∧ t = t' := by
    rintro B t B' t' ⟨h1, -⟩ ⟨h2, h3⟩ hle
    obtain ⟨d, rfl⟩ := Nat.exists_eq_add_of_le hle
    have e : B' = B * 10 ^ d := by
      have : (B' : ℚ) = B * 10 ^ d := by rw [← h2, ← h1, pow_add]; ring
      exact_mod_cast this
    rcases Nat.eq_zero_or_pos d with c | c
    · subst c; simp at e; exact ⟨e.symm, rfl⟩
    · rcases h3 with h3 | h3
      · omega
      · obtain ⟨d, rfl⟩ : ∃ k, d = k + 1 := ⟨d - 1, by omega⟩
        rw [pow_succ] at e
        generalize 10 ^ d = z at e
        rw [← mul_assoc] at e
        omega
  rcases le_total t t' with c | c
  · exact key h h' c
  · obtain ⟨a, b⟩ := key h' h c
    exact ⟨a.symm, b.symm⟩

/-- All digits are discarded. -/
theorem dispDigits_none (k : ℕ) : ∀ (fuel : ℕ) (sig : List ℕ) (exp : ℤ) (t : Bool), Limbs sig → Trim sig → val sig < 2 ^ fuel →
    val sig < 10 ^ k → -100000 ≤ exp → exp + k ≤ 100000 → ∃ e, dispDigits (fuel + 1) sig k t exp [] = .ok ([], e) := by
  induction k with
  | zero =>
    intro fuel sig exp t h1 h2 h3 h4 _ _
    have : sig = [] := h2 (by simpa using h4)
    subst this
    exact ⟨exp, by simp [dispDigits]⟩
  | succ k ih =>
    intro fuel sig exp t h1 h2 h3 h4 h5 h6
    by_cases h0 : val sig = 0
    · have := h2 h0
      subst this
      exact ⟨exp, by simp [dispDigits]⟩
    obtain ⟨fuel, rfl⟩ : ∃ f, fuel = f + 1 := ⟨fuel - 1, by
      rcases Nat.eq_zero_or_pos fuel with h | h
      · subst h; simp at h3; omega
      · omega⟩
    obtain ⟨q, q1, q2, q3⟩ := div10_ok h1
    rw [dispDigits, if_neg (fun h => by rw [h] at h0; simp at h0), q1]
    dsimp only
    rw [if_pos (by omega), i32_ok (by omega) (by omega), M.ok_bind, Nat.add_sub_cancel]
    exact ih fuel (popZeros q) (exp + 1) t q2 popZeros_nil (by rw [q3]; omega) (by rw [q3]; rw [pow_succ] at h4; omega) (by omega)
      (by push_cast at h6; omega)

/-- Rounding to no digits at all leaves a one above the leading digit. -/
theorem dispRound_zero {m : ℕ} (hm : 0 < m) {e : ℤ} (hl : (Nat.digits 10 m).length ≤ 100000) (h1 : -200000 ≤ e) (h2 : e ≤ 200000) :
    dispRound 0 (Nat.digits 10 m) e = .ok ([1], e + (Nat.digits 10 m).length) := by
  have hl0 := (digits_length_bounds hm).1
  unfold dispRound
  rw [if_pos (by omega)]
  dsimp only
  rw [idx_ok (by omega), M.ok_bind]
  have : (if (Nat.digits 10 m)[(Nat.digits 10 m).length - 1]'(by omega) < 5 then skipZeros [] else carryUp []) = [] := by
    split <;> rfl
  simp only [Nat.sub_zero, List.drop_length]
  rw [this]
  simp only [List.length_nil, Nat.sub_zero, if_true]
  rw [asI32_of_lt (by omega), i32_ok (by omega) (by omega), M.ok_bind]

/-- Formatting a finite non-zero magnitude with precision 0. -/
theorem dispNormal_zero (h : S.OK) {sig : ℕ} {exp : ℤ} (h1 : S.minExp ≤ exp) (h2 : exp ≤ S.maxExp) (s0 : 0 < sig) (s1 : sig < 2 ^ S.precision) :
    ∃ B t, DecimalForm (sig * 2 ^ (exp - S.precision + 1)) B t ∧
      (B < 10 ^ dropped B → ∀ width alt, dispNormal S sig exp width (some 0) alt = .error .assert) ∧
      (10 ^ dropped B ≤ B → ∃ E : ℤ, LeadingPlace (sig * 2 ^ (exp - S.precision + 1)) (E - 1) ∧ -200000 ≤ E ∧ E ≤ 200000 ∧
        ∀ (width : ℕ) (alt : Bool), dispNormal S sig exp width (some 0) alt =
        (dispScientific width 0 1 E >>= fun sci => if sci = true then dispSci 0 alt [1] E else .ok (dispPlain [1] E))) := by
  obtain ⟨big, e, d1, d2, d3, d4, d5, d6, d7, d8⟩ := dispScale_ok h h1 h2 s0 s1
  obtain ⟨t, rfl⟩ : ∃ t : ℕ, e = -(t : ℤ) := ⟨(-e).toNat, by omega⟩
  obtain ⟨C, hC⟩ : ∃ C : ℕ, C = 70000 := ⟨_, rfl⟩
  have hsz : Nat.size (val big) ≤ C := by rw [Nat.size_le, hC]; exact d6
  have ht10 : (10 : ℚ) ^ t ≠ 0 := by positivity
  refine ⟨val big, t, ⟨?_, by omega⟩, ?_, ?_⟩
  · rw [← d7, zpow_neg, zpow_natCast]; field_simp
  all_goals
    unfold dropped
    generalize hk : Nat.size (val big) * 59 / 196 = k
    have hk1 : k ≤ 21300 := by omega
    have hk' : (Sig.omsb big - ((some 0 : Option ℕ).getD (2 + S.precision * 59 / 196) * 196 + 58) / 59) * 59 / 196 = k := by
      rw [omsb_eq d2, ← hk]; simp
  · intro hlt width alt
    obtain ⟨e', he⟩ := dispDigits_none k (128 * big.length) big (-(t : ℤ)) true d2 (fun h => absurd h (by omega)) (val_lt d2) hlt (by omega) (by omega)
    unfold dispNormal
    dsimp only
    rw [d1, M.ok_bind]
    dsimp only
    rw [usize, if_pos (by simp), M.ok_bind, hk', he, M.ok_bind]
    dsimp only
    unfold massert
    rw [if_neg (by simp)]
    rfl
  · intro hle
    have hk3 : 0 < val big / 10 ^ k := Nat.div_pos hle (by positivity)
    obtain ⟨m, j, g1, g2, g3, g4⟩ := dispDigits_ok (fuel := 128 * big.length) (exp := -(t : ℤ)) d2 hk3 (val_lt d2) d6 d4 d5 hk1
    have hm0 := pos_of_not_ten g3
    have hml : (Nat.digits 10 m).length ≤ C := by
      rw [Nat.digits_length_le_iff (by norm_num)]
      have e1 : m ≤ val big := by
        refine le_trans ?_ (Nat.div_le_self _ (10 ^ k))
        rw [g2]; exact Nat.le_mul_of_pos_right _ (by positivity)
      have e2 : val big < 2 ^ C := Nat.size_le.1 hsz
      exact lt_of_le_of_lt e1 (lt_of_lt_of_le e2 (Nat.pow_le_pow_left (by norm_num) _))
    obtain ⟨l0, l1, l2⟩ := digits_length_bounds hm0
    refine ⟨-(t : ℤ) + k + j + (Nat.digits 10 m).length, ?_, by omega, by omega, fun width alt => ?_⟩
    · rw [← d7]
      generalize (Nat.digits 10 m).length = L at *
      obtain ⟨L, rfl⟩ : ∃ k, L = k + 1 := ⟨L - 1, by omega⟩
      rw [Nat.add_sub_cancel] at l1
      have b1 : 10 ^ (L + j + k) ≤ val big := by
        have := Nat.mul_le_of_le_div _ _ _ (le_of_eq g2.symm)
        rw [pow_add, pow_add]
        exact le_trans (Nat.mul_le_mul_right _ (Nat.mul_le_mul_right _ l1)) this
      have b2 : val big < 10 ^ (L + 1 + j + k) := by
        have : val big / 10 ^ k < 10 ^ (L + 1 + j) := by
          rw [g2, pow_add]; exact Nat.mul_lt_mul_of_pos_right l2 (by positivity)
        rw [Nat.div_lt_iff_lt_mul (by positivity)] at this
        rw [pow_add]; exact this
      have hz := zpow_pos (show (0 : ℚ) < 10 by norm_num) (-(t : ℤ))
      constructor
      · have : (10 : ℚ) ^ (-(t : ℤ) + k + j + (L + 1 : ℕ) - 1) = ((10 ^ (L + j + k) : ℕ) : ℚ) * 10 ^ (-(t : ℤ)) := by
          push_cast
          rw [← zpow_natCast, ← ten_zpow_add]; congr 1; push_cast; ring
        rw [this]
        exact mul_le_mul_of_nonneg_right (by exact_mod_cast b1) hz.le
      · have : (10 : ℚ) ^ (-(t : ℤ) + k + j + (L + 1 : ℕ) - 1 + 1) = ((10 ^ (L + 1 + j + k) : ℕ) : ℚ) * 10 ^ (-(t : ℤ)) := by
          push_cast
          rw [← zpow_natCast, ← ten_zpow_add]; congr 1; push_cast; ring
        rw [this]
        exact mul_lt_mul_of_pos_right (by exact_mod_cast b2) hz
    · unfold dispNormal
      dsimp only
      rw [d1, M.ok_bind]
      dsimp only
      rw [usize, if_pos (by simp), M.ok_bind, hk', g1, M.ok_bind]
      dsimp only
      have hnil : Nat.digits 10 m ≠ [] := by
        intro hnil
        rw [hnil] at l0; simp at l0
      rw [massert_pos hnil, M.ok_bind]
      rw [show (some 0 : Option ℕ).getD (2 + S.precision * 59 / 196) = 0 from rfl, dispRound_zero hm0 (by omega) (by omega) (by omega), M.ok_bind]
      rfl

/-- **C79.** `{:.0}` of a finite non-zero value `x` with the decimal form `B · 10^-t` (which is unique) panics iff `B < 10^(dropped B)`, that is, iff no
digit of `B` is left after the estimated number of digits is dropped; otherwise it writes, at every width and in both forms, the least power of ten above
`|x|`, whatever `x` is. -/
theorem C79_zero_precision (h : S.OK) {x : IeeeFloat S} (hx : x.Valid) (hf : x.isFinite = true) (hz : x.isZero = false) :
    ∃ B t, DecimalForm |x.toRat| B t ∧
      (B < 10 ^ dropped B → ∀ width alt, x.display width (some 0) alt = .error .assert) ∧
      (10 ^ dropped B ≤ B → ∃ E : ℤ, LeadingPlace |x.toRat| (E - 1) ∧ ∀ (width : Option ℕ) (alt : Bool),
        x.display width (some 0) alt = .ok (signText x.sign ++ layout (width.getD 3) 0 alt 1 E)) := by
  have hc : x.category = .normal := by
    cases c : x.category <;> simp_all [isFinite, isZero, isNan, isInfinite]
  have hx' := hx
  unfold Valid at hx'
  rw [hc] at hx'
  obtain ⟨v1, v2, v3, v4, -, -⟩ := hx'
  obtain ⟨B, t, b1, b2, b3⟩ := dispNormal_zero h v1 v2 v3 v4
  rw [abs_toRat hc]
  refine ⟨B, t, b1, fun hlt width alt => ?_, fun hle => ?_⟩
  · unfold display
    simp only [hc]
    rw [b2 hlt]; rfl
  · obtain ⟨E, e1, e2, e3, e4⟩ := b3 hle
    refine ⟨E, e1, fun width alt => ?_⟩
    unfold display
    simp only [hc]
    have h1 : (Nat.digits 10 1) = [1] := by simp
    have k1 := dispScientific_layout (N := 1) (by norm_num) (E := E) (by omega) (by omega) (by simp) (width.getD 3) 0
    have k2 := dispSci_layout (N := 1) (by norm_num) (E := E) (by omega) (by omega) (by simp) 0 alt
    have k3 := dispPlain_layout (N := 1) (by norm_num) E
    rw [h1] at k1 k2 k3
    rw [e4]
    rw [show dispScientific (width.getD 3) 0 1 E = _ from k1, M.ok_bind, k2, k3]
    unfold layout
    by_cases hp : Positional (width.getD 3) 0 1 E
    · rw [if_pos hp, if_neg (by simpa using hp)]; rfl
    · rw [if_neg hp, if_pos (by simpa using hp)]; rfl

example := C79_zero_precision halfS_ok (x := ⟨2 ^ 10, 3, .normal, true⟩) (by decide) rfl rfl

/-- The operands on which `{:.0}` panics. -/
def DisplayPanics (x : IeeeFloat S) (prec : Option ℕ) : Prop :=
  prec = some 0 ∧ x.isFinite = true ∧ x.isZero = false ∧ ∃ B t, DecimalForm |x.toRat| B t ∧ B < 10 ^ dropped B

/-- **C79.** Formatting with a precision below `2^64 / 196` (which the formatting macros enforce since Rust 1.87; see `C79_huge_precision`) panics on
exactly these operands; otherwise it returns a text.  The width and the `#` flag play no role. -/
theorem C79_panics_iff (h : S.OK) {x : IeeeFloat S} (hx : x.Valid) (width prec : Option ℕ) (alt : Bool)
    (hP : ∀ P, prec = some P → P * 196 + 58 < 2 ^ 64) :
    (DisplayPanics x prec ∧ x.display width prec alt = .error .assert) ∨
    (¬ DisplayPanics x prec ∧ ∃ s, x.display width prec alt = .ok s) := by
  by_cases hp : prec = some 0
  · subst hp
    by_cases hf : x.isFinite = true
    · by_cases hz : x.isZero = true
      · exact Or.inr ⟨fun ⟨_, _, q, _⟩ => by simp [hz] at q, _, C59_zero hz width (some 0) alt⟩
      · rw [Bool.not_eq_true] at hz
        obtain ⟨B, t, b1, b2, b3⟩ := C79_zero_precision h hx hf hz
        rcases lt_or_ge B (10 ^ dropped B) with c | c
        · exact Or.inl ⟨⟨rfl, hf, hz, B, t, b1, c⟩, b2 c width alt⟩
        · obtain ⟨E, -, e⟩ := b3 c
          refine Or.inr ⟨fun ⟨_, _, _, B', t', q1, q2⟩ => ?_, _, e width alt⟩
          obtain ⟨rfl, -⟩ := DecimalForm.unique b1 q1
          omega
    · refine Or.inr ⟨fun ⟨_, q, _⟩ => hf q, ?_⟩
      unfold display
      cases c : x.category
      · exact ⟨_, rfl⟩
      · exact ⟨_, rfl⟩
      · exact absurd (by simp [isFinite, isNan, isInfinite, c]) hf
      · exact absurd (by simp [isFinite, isNan, isInfinite, c]) hf
  · obtain ⟨s, hs⟩ := C48_display_total_partial h hx width prec alt hp hP
    exact Or.inr ⟨fun q => hp q.1, s, hs⟩

example := C79_panics_iff doubleS_ok (x := ⟨2 ^ 52, 3, .normal, true⟩) (by decide) none (some 0) false (by simp)

/-- **C79.** With a precision so large that 196 times it overflows a 64-bit `usize`, formatting any finite non-zero value panics. -/
theorem C79_huge_precision (h : S.OK) {x : IeeeFloat S} (hx : x.Valid) (hf : x.isFinite = true) (hz : x.isZero = false) (width : Option ℕ) {P : ℕ}
    (hP : 2 ^ 64 ≤ P * 196 + 58) (alt : Bool) : x.display width (some P) alt = .error .arith := by
  have hc : x.category = .normal := by
    cases c : x.category <;> simp_all [isFinite, isZero, isNan, isInfinite]
  have hx' := hx
  unfold Valid at hx'
  rw [hc] at hx'
  obtain ⟨v1, v2, v3, v4, -, -⟩ := hx'
  obtain ⟨big, e, d1, -⟩ := dispScale_ok h v1 v2 v3 v4
  unfold display
  simp only [hc]
  unfold dispNormal
  rw [d1, M.ok_bind]
  dsimp only
  rw [Option.getD_some, usize, if_neg (by omega)]
  rfl

/-- Both cases occur: 8 panics, 1 and 1.5 are written as 10. -/
example : DecimalForm 8 8 0 ∧ 8 < 10 ^ dropped 8 ∧ DecimalForm 1 1 0 ∧ 10 ^ dropped 1 ≤ 1 ∧ DecimalForm (3 / 2) 15 1 ∧ 10 ^ dropped 15 ≤ 15 ∧
    (⟨2 ^ 52, 3, .normal, false⟩ : IeeeFloat doubleS).display none (some 0) false = .error .assert ∧
    (⟨2 ^ 52, 0, .normal, false⟩ : IeeeFloat doubleS).display none (some 0) false = .ok "1.0E+1".toList ∧
    (⟨3 * 2 ^ 51, 0, .normal, false⟩ : IeeeFloat doubleS).display none (some 0) false = .ok "1.0E+1".toList ∧ layout 3 0 false 1 1 = "1.0E+1".toList := by
  refine ⟨by norm_num [DecimalForm], by decide +kernel, by norm_num [DecimalForm], by decide +kernel, by norm_num [DecimalForm], by decide +kernel,
    by decide +kernel, by decide +kernel, by decide +kernel, by decide +kernel⟩

end Apf
