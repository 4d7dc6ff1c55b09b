import Verif.Props.Display
import Verif.Proof.TwoSum
/-!
# C111: numbers printed by other programs

The decimal texts other programs print for a number, with the shortest digits that identify it or with enough correctly rounded digits, are read
back as that very number.
-/

namespace Apf
open Spec IeeeFloat
variable {S : Sem}

/-- **C111.** A decimal literal that rounds to the value of `x` and has its sign is read as `x`, bit for bit: this is what printers of shortest digits
promise about their text. Zeros and subnormals are included. -/
theorem C111_rounds_to (h : S.OK) (hp : S.precision ≤ 120) {fuel : ℕ} (hfuel : 23 ≤ fuel) {x : IeeeFloat S} (hx : x.Valid) (hf : x.isFinite = true)
    (sg : LitSign) (hs : x.sign = (sg == .minus)) {t : List Char} (hlen : t.length < 2 ^ 27) {w : ℚ} (ht : IsDec t w) {mode : Round}
    (hm : mode = .nearestTiesToEven ∨ mode = .nearestTiesToAway) (hw : IsRounded S.fmt mode (signed x.sign w) x.toRat) :
    ∃ r, fromStrR S fuel (sg.chars ++ t) mode = .ok (.ok r) ∧ r.value.Valid ∧ r.value.bitwiseEq x = true := by
  obtain ⟨r, st, r1, r2, r3, r4, -⟩ := C31_nearest h hp hfuel sg hlen ht hm
  refine ⟨r, r1, r2, ?_⟩
  rw [← hs] at r3 r4
  obtain ⟨⟨g, g1, g2⟩, -⟩ := r3
  have hgv : g = x.toRat := g1.unique hw
  subst hgv
  rcases g2 with ⟨-, b, -⟩ | ⟨b, -⟩
  · have hd : r.value.datum = x.datum := by rw [b, datum_finite hf, r4]
    rw [C03_bitwise_eq_iff_datum h r2 hx]
    · exact hd
    · rw [not_nan_iff, hd, datum_finite hf]; simp
  · exact absurd (abs_toRat_le h hx hf) (not_le.2 b)

/-- **C111.** A decimal literal closer to a non-zero `x` than one part in `2^(p+1)` is read as `x`. -/
theorem C111_close (h : S.OK) (hp : S.precision ≤ 120) {fuel : ℕ} (hfuel : 23 ≤ fuel) {x : IeeeFloat S} (hx : x.Valid) (hf : x.isFinite = true)
    (sg : LitSign) (hs : x.sign = (sg == .minus)) {t : List Char} (hlen : t.length < 2 ^ 27) {w : ℚ} (ht : IsDec t w) {mode : Round}
    (hm : mode = .nearestTiesToEven ∨ mode = .nearestTiesToAway) (hw : 2 ^ (S.precision + 1) * |signed x.sign w - x.toRat| < |x.toRat|) :
    ∃ r, fromStrR S fuel (sg.chars ++ t) mode = .ok (.ok r) ∧ r.value.Valid ∧ r.value.bitwiseEq x = true := by
  obtain ⟨r, st, r1, r2, r3, r4, -⟩ := C31_nearest h hp hfuel sg hlen ht hm
  obtain ⟨⟨g, g1, g2⟩, -⟩ := r3
  rw [← hs] at g1
  refine C111_rounds_to h hp hfuel hx hf sg hs hlen ht hm ?_
  have hgx : g = x.toRat := by
    have hbest : |signed x.sign w - g| ≤ |signed x.sign w - x.toRat| := by
      rcases hm with rfl | rfl
      · exact g1.2.1 _ (grid_toRat h hx hf)
      · exact g1.2.1 _ (grid_toRat h hx hf)
    by_contra hne
    have hgap := grid_gap (grid_toRat h hx hf) g1.1 hne
    have htri : |g - x.toRat| ≤ 2 * |signed x.sign w - x.toRat| := by
      have := abs_sub_le g (signed x.sign w) x.toRat
      rw [abs_sub_comm g (signed x.sign w)] at this
      linarith
    have := mul_le_mul_of_nonneg_left htri (show (0 : ℚ) ≤ 2 ^ S.fmt.p by positivity)
    have hfp : S.fmt.p = S.precision := rfl
    rw [hfp] at this hgap
    rw [pow_succ] at hw
    linarith
  rwa [← hgx]

/-- **C111.** With `P` digits, where `2^p < 10^(P-1)` (9 for single, 17 for double, 36 for quadruple precision): whatever program wrote the literal, if it is
within half a unit of the `P`-th digit of `x`, it is read as `x`. -/
theorem C111_digits (h : S.OK) (hp : S.precision ≤ 120) {fuel : ℕ} (hfuel : 23 ≤ fuel) {x : IeeeFloat S} (hx : x.Valid) (hf : x.isFinite = true)
    (sg : LitSign) (hs : x.sign = (sg == .minus)) {t : List Char} (hlen : t.length < 2 ^ 27) {w : ℚ} (ht : IsDec t w) {mode : Round}
    (hm : mode = .nearestTiesToEven ∨ mode = .nearestTiesToAway) {P : ℕ} (hP1 : 1 ≤ P) (hP : 2 ^ S.precision < 10 ^ (P - 1)) {d : ℤ}
    (hd : LeadingPlace |x.toRat| d) (hw : |signed x.sign w - x.toRat| ≤ 10 ^ (d + 1 - P) / 2) :
    ∃ r, fromStrR S fuel (sg.chars ++ t) mode = .ok (.ok r) ∧ r.value.Valid ∧ r.value.bitwiseEq x = true := by
  refine C111_close h hp hfuel hx hf sg hs hlen ht hm ?_
  have hu : (10 : ℚ) ^ (d + 1 - P) * 10 ^ (P - 1) = 10 ^ d := by
    rw [← zpow_natCast, ← ten_zpow_add]; congr 1; omega
  have hup : (0 : ℚ) < 10 ^ (d + 1 - P) := by positivity
  have hP' : (2 : ℚ) ^ S.precision < 10 ^ (P - 1) := by exact_mod_cast hP
  have hmul := mul_lt_mul_of_pos_left hP' hup
  rw [hu] at hmul
  have hp0 : (0 : ℚ) < 2 ^ S.precision := by positivity
  have := mul_le_mul_of_nonneg_left hw hp0.le
  have := hd.1
  rw [pow_succ]
  linarith

/-! Cases that meet the hypotheses: `0.1` and `0.10000000000000001` for the number next to one tenth. -/

/-- The number next to one tenth in double precision. -/
def tenth64 : IeeeFloat doubleS := ⟨7205759403792794, -4, .normal, false⟩

theorem tenth64_toRat : tenth64.toRat = 7205759403792794 / 2 ^ 56 := by
  rw [toRat_normal rfl]; norm_num [tenth64, signed, doubleS, Sem.default]

theorem isDec_tenth : IsDec "0.1".toList (1 / 10) :=
  ⟨_, ['0'], ['1'], ⟨by simp [IsDigit]; exact ⟨0, by decide, by decide⟩, by simp [IsDigit]; exact ⟨1, by decide, by decide⟩, by decide, Or.inr rfl⟩,
    Or.inl ⟨rfl, by
      have : number 10 (['0'] ++ ['1']) = 1 := by decide
      rw [significandValue, this]; norm_num⟩⟩

example : ∃ r, fromStrR doubleS 23 (LitSign.none.chars ++ "0.1".toList) .nearestTiesToEven = .ok (.ok r) ∧ r.value.Valid ∧ r.value.bitwiseEq tenth64 = true :=
  C111_close doubleS_ok (by decide) (le_refl 23) (by decide) rfl .none rfl (by decide) isDec_tenth (Or.inl rfl) (by
    rw [tenth64_toRat]; simp [tenth64, signed, doubleS, Sem.default]; norm_num [abs_of_neg, abs_of_pos])

theorem isDec_tenth17 : IsDec "0.10000000000000001".toList (10000000000000001 / 10 ^ 17) :=
  ⟨_, ['0'], "10000000000000001".toList, ⟨by simp [IsDigit]; exact ⟨0, by decide, by decide⟩, by
      intro c hc
      have : c = '0' ∨ c = '1' := by revert c; decide
      rcases this with rfl | rfl
      · exact ⟨0, by decide, by decide⟩
      · exact ⟨1, by decide, by decide⟩, by decide, Or.inr rfl⟩,
    Or.inl ⟨rfl, by
      have : number 10 (['0'] ++ "10000000000000001".toList) = 10000000000000001 := by decide
      have l : "10000000000000001".toList.length = 17 := by decide
      rw [significandValue, this, l]; norm_num⟩⟩

example : ∃ r, fromStrR doubleS 23 (LitSign.none.chars ++ "0.10000000000000001".toList) .nearestTiesToAway = .ok (.ok r) ∧ r.value.Valid ∧
    r.value.bitwiseEq tenth64 = true :=
  C111_digits doubleS_ok (by decide) (le_refl 23) (by decide) rfl .none rfl (by decide) isDec_tenth17 (Or.inr rfl) (P := 17) (by decide)
    (by norm_num [doubleS, Sem.default]) (d := -1) (by rw [tenth64_toRat]; constructor <;> norm_num [abs_of_pos])
    (by rw [tenth64_toRat]; simp [tenth64, signed]; norm_num [abs_of_neg, abs_of_pos])

/-- `2^(-1074)`, which Rust prints as `5e-324`: the shortest text of the smallest subnormal is not close to it, but rounds to it. -/
def least64 : IeeeFloat doubleS := ⟨1, -1022, .normal, false⟩

theorem isDec_least : IsDec "5e-324".toList (5 * 10 ^ (-324 : ℤ)) :=
  ⟨['5'], ['5'], [], ⟨by simp [IsDigit]; exact ⟨5, by decide, by decide⟩, by simp, by decide, Or.inl ⟨rfl, rfl⟩⟩,
    Or.inr ⟨"-324".toList, "324".toList, -324, ⟨by
        intro c hc
        have : c = '2' ∨ c = '3' ∨ c = '4' := by revert c; decide
        rcases this with rfl | rfl | rfl
        · exact ⟨2, by decide, by decide⟩
        · exact ⟨3, by decide, by decide⟩
        · exact ⟨4, by decide, by decide⟩, Or.inr (Or.inr ⟨rfl, by decide⟩)⟩, Or.inl rfl, by
      have : number 10 (['5'] ++ []) = 5 := by decide
      rw [significandValue, this]; norm_num⟩⟩

theorem least64_toRat : least64.toRat = 2 ^ (-1074 : ℤ) := by
  rw [toRat_normal rfl]; norm_num [least64, signed, doubleS, Sem.default]

example : ∃ r, fromStrR doubleS 23 (LitSign.none.chars ++ "5e-324".toList) .nearestTiesToEven = .ok (.ok r) ∧ r.value.Valid ∧
    r.value.bitwiseEq least64 = true := by
  refine C111_rounds_to doubleS_ok (by decide) (le_refl 23) (by decide) rfl .none rfl (by decide) isDec_least (Or.inl rfl) ?_
  have hf : doubleS.fmt.p = 53 := rfl
  have he : doubleS.fmt.emin = -1022 := rfl
  rw [least64_toRat]
  have hw : signed least64.sign (5 * 10 ^ (-324 : ℤ)) = 5 * 10 ^ (-324 : ℤ) := rfl
  rw [hw]
  have hu := two_zpow_pos (-1074)
  have b1 : (2 : ℚ) ^ (-1074 : ℤ) < 5 * 10 ^ (-324 : ℤ) := by decide +kernel
  have b2 : 5 * 10 ^ (-324 : ℤ) < 3 / 2 * (2 : ℚ) ^ (-1074 : ℤ) := by decide +kernel
  generalize (5 : ℚ) * 10 ^ (-324 : ℤ) = w at b1 b2
  have key : ∀ g, doubleS.fmt.Grid g → g ≠ 2 ^ (-1074 : ℤ) → |w - 2 ^ (-1074 : ℤ)| < |w - g| := by
    intro g hg hne
    obtain ⟨n, hn⟩ := mult_of_grid hg
    rw [hf, he] at hn
    norm_num only at hn
    rw [hn] at hne ⊢
    generalize (2 : ℚ) ^ (-1074 : ℤ) = u at *
    rw [abs_of_pos (by linarith)]
    rcases lt_trichotomy n 1 with c | c | c
    · have : (n : ℚ) ≤ 0 := by exact_mod_cast (by omega : n ≤ 0)
      rw [abs_of_pos (by nlinarith)]
      nlinarith
    · subst c; simp at hne
    · have : (2 : ℚ) ≤ n := by exact_mod_cast (by omega : (2 : ℤ) ≤ n)
      rw [abs_sub_comm, abs_of_pos (by nlinarith)]
      nlinarith
  have g0 : doubleS.fmt.Grid (2 ^ (-1074 : ℤ)) := grid_two_pow (by decide) (by rw [hf, he]; norm_num)
  refine ⟨g0, fun g hg => ?_, fun g hg hne heq => ?_⟩
  · rcases eq_or_ne g (2 ^ (-1074 : ℤ)) with rfl | c
    · exact le_refl _
    · exact (key g hg c).le
  · have := key g hg hne
    rw [heq] at this
    exact absurd this (lt_irrefl _)

end Apf
