import Verif.Proof.Display
import Verif.Props.Decimal
/-! # C33, C34: formatting -/

namespace Apf
open Spec IeeeFloat

variable {S : Sem}

/-- The sign the formatter writes. -/
def signText (neg : Bool) : List Char := if neg then ['-'] else []

/-- Formatting with `P` digits (the default number or the requested precision). -/
theorem display_ok (h : S.OK) {x : IeeeFloat S} (hx : x.Valid) (hc : x.category = .normal) {prec : Option ℕ} {P : ℕ}
    (hP : P = prec.getD (2 + S.precision * 59 / 196)) (hP1 : 1 ≤ P) (hP2 : P * 196 + 58 < 2 ^ 64) :
    ∃ w, Renders P |x.toRat| w ∧ ∀ (width : Option ℕ) (alt : Bool), ∃ t, x.display width prec alt = .ok (signText x.sign ++ t) ∧ IsDec t w ∧
      t.length ≤ 1000000 + P := by
  have hx' := hx
  unfold Valid at hx'
  rw [hc] at hx'
  obtain ⟨v1, v2, v3, v4, -, -⟩ := hx'
  obtain ⟨w, w1, w2⟩ := dispNormal_ok h v1 v2 v3 v4 hP hP1 hP2
  rw [abs_toRat hc]
  refine ⟨w, w1, fun width alt => ?_⟩
  obtain ⟨s, a1, a2, a3⟩ := w2 (width.getD 3) alt
  refine ⟨s, ?_, a2, a3⟩
  unfold display
  simp only [hc]
  rw [a1]
  rfl

/-- **C34.** Formatting a finite non-zero value with a precision `P ≥ 1` (`{:.P}`, below `2^64 / 196`), whatever the width and the `#` flag:
the text is the sign followed by a decimal literal whose value renders the magnitude with `P` significant digits. -/
theorem C34_accuracy (h : S.OK) {x : IeeeFloat S} (hx : x.Valid) (hf : x.isFinite = true) (hz : x.isZero = false) {P : ℕ} (hP : 1 ≤ P)
    (hP2 : P * 196 + 58 < 2 ^ 64) :
    ∃ w, Renders P |x.toRat| w ∧ ∀ (width : Option ℕ) (alt : Bool), ∃ t, x.display width (some P) alt = .ok (signText x.sign ++ t) ∧ IsDec t w := by
  have hc : x.category = .normal := by
    cases c : x.category <;> simp_all [isFinite, isZero, isNan, isInfinite]
  obtain ⟨w, w1, w2⟩ := display_ok h hx hc (prec := some P) rfl hP hP2
  exact ⟨w, w1, fun width alt => by obtain ⟨t, a1, a2, -⟩ := w2 width alt; exact ⟨t, a1, a2⟩⟩

example := C34_accuracy doubleS_ok (x := ⟨7205759403792794, -4, .normal, true⟩) (by decide) rfl rfl (P := 5) (by decide) (by decide)

theorem dispZero_ok (width : ℕ) (prec : Option ℕ) (alt : Bool) : IsDec (dispZero width prec alt) 0 ∧ (dispZero width prec alt).length ≤ 10 + prec.getD 0 := by
  unfold dispZero
  have h0 : IsDigit 10 '0' := isDigit_zero
  split
  · cases alt with
    | true =>
      refine ⟨⟨"0.0".toList ++ List.replicate (prec.getD 0 - 1) '0', ['0'], '0' :: List.replicate (prec.getD 0 - 1) '0', ⟨?_, ?_, by simp, Or.inr rfl⟩,
        Or.inr ⟨"+00".toList, "00".toList, 0, ⟨by decide, Or.inr (Or.inl ⟨rfl, by decide⟩)⟩, Or.inl rfl, ?_⟩⟩, ?_⟩
      · exact zeros_digits 1
      · exact zeros_digits (prec.getD 0 - 1 + 1)
      · unfold significandValue
        rw [show ['0'] ++ '0' :: List.replicate (prec.getD 0 - 1) '0' = List.replicate (prec.getD 0 - 1 + 1 + 1) '0' from rfl, number_zeros]; simp
      · simp; omega
    | false =>
      refine ⟨⟨"0.0".toList, ['0'], ['0'], ⟨by decide, by decide, by simp, Or.inr rfl⟩,
        Or.inr ⟨"+0".toList, "0".toList, 0, ⟨by decide, Or.inr (Or.inl ⟨rfl, by decide⟩)⟩, Or.inr rfl, ?_⟩⟩, by simp; omega⟩
      unfold significandValue
      rw [show ['0'] ++ ['0'] = List.replicate 2 '0' from rfl, number_zeros]; simp
  · refine ⟨⟨['0'], ['0'], [], ⟨by decide, by decide, by simp, Or.inl ⟨rfl, rfl⟩⟩, Or.inl ⟨rfl, ?_⟩⟩, by simp; omega⟩
    unfold significandValue
    rw [show ['0'] ++ [] = List.replicate 1 '0' from rfl, number_zeros]; simp

/-- **C34.** A zero is printed as its sign and a literal denoting 0. -/
theorem C34_zero {x : IeeeFloat S} (hz : x.isZero = true) (width prec : Option ℕ) (alt : Bool) :
    ∃ t, x.display width prec alt = .ok (signText x.sign ++ t) ∧ IsDec t 0 ∧ t.length ≤ 10 + prec.getD 0 := by
  have hc : x.category = .zero := by
    cases c : x.category <;> simp_all [isZero]
  refine ⟨_, ?_, dispZero_ok (width.getD 3) prec alt⟩
  unfold display
  simp only [hc]
  rfl

example := C34_zero (x := ⟨0, -1023, .zero, true⟩) (S := doubleS) rfl (some 0) (some 3) true

/-- **C34.** Infinities and NaNs. -/
theorem C34_special (x : IeeeFloat S) (width prec : Option ℕ) (alt : Bool) :
    (x.datum = .inf false → x.display width prec alt = .ok "+Inf".toList) ∧
    (x.datum = .inf true → x.display width prec alt = .ok "-Inf".toList) ∧
    (x.datum = .nan → x.display width prec alt = .ok "NaN".toList) := by
  unfold datum display
  cases hc : x.category <;> simp
  constructor <;> intro hs <;> simp [isNegative, hs]

/-! ### Round trip -/

/-- Distinct numbers of the grid are at least `|v| * 2^-p` apart. -/
theorem grid_gap {F : Fmt} {v g : ℚ} (hv : F.Grid v) (hg : F.Grid g) (hne : g ≠ v) : |v| ≤ 2 ^ F.p * |g - v| := by
  wlog h0 : 0 ≤ v generalizing v g
  · have := this hv.neg hg.neg (fun h => hne (neg_injective h)) (by linarith)
    rwa [abs_neg, show -g - -v = -(g - v) by ring, abs_neg] at this
  obtain ⟨m, k, hm, -, rfl⟩ := hv
  obtain ⟨n, l, hn, -, rfl⟩ := hg
  rw [abs_of_nonneg h0]
  have hm' : (m : ℚ) < 2 ^ F.p := by exact_mod_cast lt_of_le_of_lt (le_abs_self m) hm
  have hn' : (n : ℚ) ≤ 2 ^ F.p - 1 := by
    have : n ≤ 2 ^ F.p - 1 := by have := lt_of_le_of_lt (le_abs_self n) hn; omega
    exact_mod_cast this
  rcases le_total k l with hkl | hkl
  · obtain ⟨d, hd⟩ : ∃ d : ℕ, l = k + d := ⟨(l - k).toNat, by omega⟩
    have e : (n : ℚ) * 2 ^ l - m * 2 ^ k = ((n * 2 ^ d - m : ℤ) : ℚ) * 2 ^ k := by
      rw [hd, two_zpow_add, zpow_natCast]; push_cast; ring
    have hz : n * 2 ^ d - m ≠ 0 := by
      intro hz
      rw [hz] at e
      apply hne
      have : (n : ℚ) * 2 ^ l - m * 2 ^ k = 0 := by rw [e]; simp
      linarith
    rw [e, abs_mul, abs_of_pos (show (0 : ℚ) < 2 ^ k by positivity)]
    have h1 : (1 : ℚ) ≤ |((n * 2 ^ d - m : ℤ) : ℚ)| := by exact_mod_cast Int.one_le_abs hz
    rw [← mul_assoc]
    apply mul_le_mul_of_nonneg_right _ (by positivity)
    have : (0 : ℚ) < 2 ^ F.p := by positivity
    nlinarith
  · obtain ⟨d, hd⟩ : ∃ d : ℕ, k = l + d := ⟨(k - l).toNat, by omega⟩
    have hP : (0 : ℚ) < 2 ^ F.p := by positivity
    have hL : (0 : ℚ) < 2 ^ l := by positivity
    by_cases hb : (m : ℚ) * 2 ^ k < 2 ^ F.p * 2 ^ l
    · have e : (n : ℚ) * 2 ^ l - m * 2 ^ k = ((n - m * 2 ^ d : ℤ) : ℚ) * 2 ^ l := by
        rw [hd, two_zpow_add, zpow_natCast]; push_cast; ring
      have hz : n - m * 2 ^ d ≠ 0 := by
        intro hz
        rw [hz] at e
        apply hne
        have : (n : ℚ) * 2 ^ l - m * 2 ^ k = 0 := by rw [e]; simp
        linarith
      rw [e, abs_mul, abs_of_pos hL]
      have h1 : (1 : ℚ) ≤ |((n - m * 2 ^ d : ℤ) : ℚ)| := by exact_mod_cast Int.one_le_abs hz
      rw [← mul_assoc]
      refine le_trans hb.le (mul_le_mul_of_nonneg_right ?_ hL.le)
      nlinarith
    · push Not at hb
      have hgl : (n : ℚ) * 2 ^ l ≤ (2 ^ F.p - 1) * 2 ^ l := mul_le_mul_of_nonneg_right hn' hL.le
      have h3 : m * 2 ^ k - n * 2 ^ l ≤ |(n : ℚ) * 2 ^ l - m * 2 ^ k| := by
        rw [abs_sub_comm]; exact le_abs_self _
      generalize (m : ℚ) * 2 ^ k = v at *
      generalize (n : ℚ) * 2 ^ l = g at *
      have h4 : 2 ^ F.p * (v - g) ≤ 2 ^ F.p * |g - v| := mul_le_mul_of_nonneg_left h3 hP.le
      have h5 : (2 ^ F.p - 1) * (2 ^ F.p * 2 ^ l) ≤ (2 ^ F.p - 1) * v := by
        apply mul_le_mul_of_nonneg_left hb
        have : (1 : ℚ) ≤ 2 ^ F.p := one_le_pow₀ (by norm_num)
        linarith
      nlinarith

/-- Rounding to nearest what is printed with enough digits recovers the number. -/
theorem isRounded_render {F : Fmt} {mode : Round} (hm : Nearest mode) {P : ℕ} (hP1 : 1 ≤ P) (hP : 2 ^ F.p < 10 ^ (P - 1)) {v w g : ℚ} {s : Bool}
    (hv : F.Grid v) (h0 : 0 < |v|) (hs : v = signed s |v|) (hr : Renders P |v| w) (hg : IsRounded F mode (signed s w) g) : g = v := by
  obtain ⟨d, ⟨d1, -⟩, -, -, h3⟩ := hr
  have hclose : 2 ^ F.p * (2 * |w - (|v|)|) < |v| := by
    have hu : (10 : ℚ) ^ (d + 1 - P) * 10 ^ (P - 1) = 10 ^ d := by
      rw [← zpow_natCast, ← ten_zpow_add]; congr 1; omega
    have hup : (0 : ℚ) < 10 ^ (d + 1 - P) := by positivity
    have hP' : (2 : ℚ) ^ F.p < 10 ^ (P - 1) := by exact_mod_cast hP
    have hmul := mul_lt_mul_of_pos_left hP' hup
    rw [hu] at hmul
    have hp0 : (0 : ℚ) < 2 ^ F.p := by positivity
    rcases h3 with h3 | ⟨h4, h5, h6⟩
    · have := mul_le_mul_of_nonneg_left h3 hp0.le
      linarith
    · rw [abs_sub_comm, abs_of_nonneg (by linarith)]
      have := mul_lt_mul_of_pos_left h6 hp0
      linarith
  have hw : |signed s w - v| = |w - (|v|)| := by
    conv_lhs => rw [hs]
    cases s
    · rfl
    · simp only [signed, if_true]
      rw [show -w - -|v| = -(w - |v|) by ring, abs_neg]
  have hbest : |signed s w - g| ≤ |signed s w - v| := by
    rcases hm with rfl | rfl
    · exact hg.2.1 v hv
    · exact hg.2.1 v hv
  by_contra hne
  have hgap := grid_gap hv hg.1 hne
  have htri : |g - v| ≤ 2 * |w - (|v|)| := by
    have := abs_sub_le g (signed s w) v
    rw [abs_sub_comm g (signed s w)] at this
    linarith
  have := mul_le_mul_of_nonneg_left htri (show (0 : ℚ) ≤ 2 ^ F.p by positivity)
  linarith

theorem default_digits {p : ℕ} (hp : p ≤ 126) : 2 ^ p < 10 ^ (2 + p * 59 / 196 - 1) := by
  have : ∀ p < 127, 2 ^ p < 10 ^ (2 + p * 59 / 196 - 1) := by decide +kernel
  exact this p (by omega)

theorem toRat_signed {x : IeeeFloat S} (hc : x.category = .normal) : x.toRat = signed x.sign |x.toRat| := by
  rw [abs_toRat hc, toRat_normal hc]

def litSign (neg : Bool) : LitSign := if neg then .minus else .none

theorem litSign_chars (neg : Bool) : (litSign neg).chars = signText neg := by cases neg <;> rfl
theorem litSign_minus (neg : Bool) : (litSign neg == .minus) = neg := by cases neg <;> rfl

/-- Parsing back a rendering with enough digits. -/
theorem parse_render (h : S.OK) (hp : S.precision ≤ 120) {fuel : ℕ} (hfuel : 23 ≤ fuel) {x : IeeeFloat S} (hx : x.Valid) (hc : x.category = .normal)
    {P : ℕ} (hP1 : 1 ≤ P) (hP : 2 ^ S.precision < 10 ^ (P - 1)) {w : ℚ} (hw : Renders P |x.toRat| w) {t : List Char} (ht : IsDec t w)
    (hlen : t.length < 2 ^ 27) {mode : Round} (hm : mode = .nearestTiesToEven ∨ mode = .nearestTiesToAway) :
    ∃ r, fromStrR S fuel (signText x.sign ++ t) mode = .ok (.ok r) ∧ r.value.Valid ∧ r.value.bitwiseEq x = true := by
  have hf : x.isFinite = true := by simp [isFinite, isNan, isInfinite, hc]
  obtain ⟨r, st, r1, r2, r3, r4, -⟩ := C31_nearest h hp hfuel (litSign x.sign) hlen ht hm
  rw [litSign_chars] at r1
  rw [litSign_minus] at r3 r4
  refine ⟨r, r1, r2, ?_⟩
  obtain ⟨⟨g, g1, g2⟩, -⟩ := r3
  have hgv := isRounded_render hm hP1 hP (grid_toRat h hx hf) (abs_pos.2 (toRat_ne_zero hx hc)) (toRat_signed hc) hw g1
  subst hgv
  rcases g2 with ⟨-, b, -⟩ | ⟨b, -⟩
  · have hd : r.value.datum = x.datum := by rw [b, datum_finite hf, r4]
    rw [C03_bitwise_eq_iff_datum h r2 hx]
    · exact hd
    · rw [not_nan_iff, hd, datum_finite hf]; simp
  · exact absurd (abs_toRat_le h hx hf) (not_le.2 b)

/-- **C33.** Formatting a finite value with the default precision (`{}`, `{:#}`, `{:8}`, ...) and parsing the text
in either round-to-nearest mode gives the same value back, bit for bit (signed zeros included). -/
theorem C33_round_trip (h : S.OK) (hp : S.precision ≤ 120) {fuel : ℕ} (hfuel : 23 ≤ fuel) {x : IeeeFloat S} (hx : x.Valid) (hf : x.isFinite = true)
    (width : Option ℕ) (alt : Bool) {mode : Round} (hm : mode = .nearestTiesToEven ∨ mode = .nearestTiesToAway) :
    ∃ s r, x.display width none alt = .ok s ∧ fromStrR S fuel s mode = .ok (.ok r) ∧ r.value.Valid ∧ r.value.bitwiseEq x = true := by
  cases hc : x.category with
  | infinity => simp [isFinite, isInfinite, hc] at hf
  | nan => simp [isFinite, isNan, hc] at hf
  | normal =>
    obtain ⟨w, w1, w2⟩ := display_ok h hx hc (prec := none) rfl (by rw [Option.getD_none]; omega) (by have := h.p_le; rw [Option.getD_none]; omega)
    obtain ⟨t, t1, t2, t3⟩ := w2 width alt
    rw [Option.getD_none] at w1 t3
    obtain ⟨r, r1, r2, r3⟩ := parse_render h hp hfuel hx hc (by omega) (default_digits h.p_le) w1 t2 (by omega) hm
    exact ⟨_, r, t1, r1, r2, r3⟩
  | zero =>
    obtain ⟨t, t1, t2, t3⟩ := C34_zero (x := x) (by simp [isZero, hc]) width none alt
    rw [Option.getD_none] at t3
    obtain ⟨r, st, r1, r2, r3, r4, -⟩ := C31_nearest h hp hfuel (litSign x.sign) (by omega) t2 hm
    rw [litSign_chars] at r1
    rw [litSign_minus] at r3 r4
    refine ⟨_, r, t1, r1, r2, ?_⟩
    obtain ⟨⟨g, g1, g2⟩, -⟩ := r3
    have hs0 : signed x.sign 0 = 0 := by cases x.sign <;> simp [signed]
    rw [hs0] at g1
    have hg : g = 0 := by
      have : |0 - g| ≤ |(0 : ℚ) - 0| := by
        rcases hm with rfl | rfl
        · exact g1.2.1 0 grid_zero
        · exact g1.2.1 0 grid_zero
      rw [sub_zero, abs_zero, zero_sub, abs_neg] at this
      exact abs_nonpos_iff.1 this
    subst hg
    have hx0 : x.datum = .num x.sign 0 := by simp [datum, hc]
    rcases g2 with ⟨-, b, -⟩ | ⟨b, -⟩
    · have hd : r.value.datum = x.datum := by rw [b, hx0, r4]
      rw [C03_bitwise_eq_iff_datum h r2 hx]
      · exact hd
      · rw [not_nan_iff, hd, hx0]; simp
    · rw [abs_zero] at b
      exact absurd b (not_lt.2 (largest_pos h).le)

example := C33_round_trip doubleS_ok (by decide) (le_refl 23) (x := ⟨7205759403792794, -4, .normal, true⟩) (by decide) rfl (some 0) true (mode := .nearestTiesToAway)
  (Or.inr rfl)

/-- **C33.** With an explicit precision `P`, as many digits as are needed to tell the values of the format apart
(`2^p < 10^(P-1)`: 9 for single, 17 for double) are enough for the round trip too. -/
theorem C33_enough_digits (h : S.OK) (hp : S.precision ≤ 120) {fuel : ℕ} (hfuel : 23 ≤ fuel) {x : IeeeFloat S} (hx : x.Valid) (hf : x.isFinite = true)
    (hz : x.isZero = false) (width : Option ℕ) {P : ℕ} (hP1 : P < 3000000) (hP : 2 ^ S.precision < 10 ^ (P - 1)) (alt : Bool) {mode : Round}
    (hm : mode = .nearestTiesToEven ∨ mode = .nearestTiesToAway) :
    ∃ s r, x.display width (some P) alt = .ok s ∧ fromStrR S fuel s mode = .ok (.ok r) ∧ r.value.Valid ∧ r.value.bitwiseEq x = true := by
  have hc : x.category = .normal := by
    cases c : x.category <;> simp_all [isFinite, isZero, isNan, isInfinite]
  have hP0 : 1 ≤ P := by
    rcases Nat.eq_zero_or_pos P with h0 | h0
    · subst h0
      have : 0 < 2 ^ S.precision := by positivity
      simp at hP
    · exact h0
  obtain ⟨w, w1, w2⟩ := display_ok h hx hc (prec := some P) rfl hP0 (by rw [Option.getD_some]; omega)
  obtain ⟨t, t1, t2, t3⟩ := w2 width alt
  rw [Option.getD_some] at w1 t3
  obtain ⟨r, r1, r2, r3⟩ := parse_render h hp hfuel hx hc hP0 hP w1 t2 (by omega) hm
  exact ⟨_, r, t1, r1, r2, r3⟩

example := C33_enough_digits doubleS_ok (by decide) (le_refl 23) (x := ⟨7205759403792794, -4, .normal, true⟩) (by decide) rfl rfl none (P := 17) (by decide)
  (by norm_num [doubleS, Sem.default]) false (mode := .nearestTiesToEven) (Or.inl rfl)

/-- **C33.** Infinities survive as well. -/
theorem C33_infinity {x : IeeeFloat S} (hx : x.Valid) (hi : x.category = .infinity) (fuel : ℕ) (width prec : Option ℕ) (alt : Bool) (mode : Round) :
    ∃ s, x.display width prec alt = .ok s ∧ ∃ r, fromStrR S fuel s mode = .ok (.ok r) ∧ r.status = Status.OK ∧ r.value.bitwiseEq x = true := by
  have hd : x.datum = .inf x.sign := by simp [datum, hi]
  have hS : S.nonfinite = .ieee754 := by
    unfold Valid at hx; rw [hi] at hx; exact hx.1
  obtain ⟨h1, h2, -⟩ := C34_special x width prec alt
  have key : ∀ neg, x.sign = neg → ∀ sg : LitSign, sg ≠ .none → (sg == .minus) = neg →
      ∃ r, fromStrR S fuel (sg.chars ++ "Inf".toList) mode = .ok (.ok r) ∧ r.status = Status.OK ∧ r.value.bitwiseEq x = true := by
    intro neg hn sg hsg hm
    have := (special_result (S := S) fuel (Denotes.signedInf sg hsg) mode).1 _ rfl
    refine ⟨_, this, rfl, ?_⟩
    unfold bitwiseEq
    have hc : (INFINITY S).category = .infinity := by unfold INFINITY; rw [hS]
    simp [hc, hi, isNegative, hm, hn]
  cases hs : x.sign with
  | false =>
    rw [hs] at hd
    obtain ⟨r, r1, r2, r3⟩ := key false hs .plus (by decide) rfl
    exact ⟨_, h1 hd, r, r1, r2, r3⟩
  | true =>
    rw [hs] at hd
    obtain ⟨r, r1, r2, r3⟩ := key true hs .minus (by decide) rfl
    exact ⟨_, h2 hd, r, r1, r2, r3⟩

example := C33_infinity (x := ⟨0, 128, .infinity, true⟩) (S := singleS) (by decide) rfl 23 none none false .towardZero

/-- **C48 (partial).** Formatting returns, for every value, width and flag, and every precision but 0 and those whose digit
estimate overflows a `usize`.  Missing: `{:.0}`, which can panic (`C48_counterexample`), and the huge precisions, which do (`C79_huge_precision`). -/
theorem C48_display_total_partial (h : S.OK) {x : IeeeFloat S} (hx : x.Valid) (width prec : Option ℕ) (alt : Bool) (hP : prec ≠ some 0)
    (hP2 : ∀ P, prec = some P → P * 196 + 58 < 2 ^ 64) :
    ∃ s, x.display width prec alt = .ok s := by
  cases hc : x.category with
  | infinity =>
    unfold display; simp only [hc]; exact ⟨_, rfl⟩
  | nan => unfold display; simp only [hc]; exact ⟨_, rfl⟩
  | zero => unfold display; simp only [hc]; exact ⟨_, rfl⟩
  | normal =>
    have hP1 : 1 ≤ prec.getD (2 + S.precision * 59 / 196) := by
      cases prec with
      | none => rw [Option.getD_none]; omega
      | some p =>
        rw [Option.getD_some]
        rcases Nat.eq_zero_or_pos p with h0 | h0
        · subst h0; exact absurd rfl hP
        · exact h0
    obtain ⟨w, -, w2⟩ := display_ok h hx hc rfl hP1 (by
      cases prec with
      | none => have := h.p_le; rw [Option.getD_none]; omega
      | some p => exact hP2 p rfl)
    obtain ⟨t, t1, -⟩ := w2 width alt
    exact ⟨_, t1⟩

example := C48_display_total_partial doubleS_ok (x := ⟨7205759403792794, -4, .normal, true⟩) (by decide) (some 2) (some 1000) true (by decide) (by simp)

theorem doubleS_p : doubleS.precision = 53 := rfl

/-- The double 8. -/
def eight : IeeeFloat doubleS := { sig := 2 ^ 52, exp := 3, category := .normal, sign := false }

/-- The double 8999. -/
def d8999 : IeeeFloat doubleS := { sig := 8999 * 2 ^ 39, exp := 13, category := .normal, sign := false }

/-- **C48.** `{:.0}` panics on 8: every digit is discarded and the buffer is empty. -/
theorem C48_counterexample : eight.Valid ∧ eight.toRat = 8 ∧ eight.display none (some 0) false = .error .assert := by
  refine ⟨by decide +kernel, ?_, by decide +kernel⟩
  rw [toRat_normal rfl, doubleS_p]; norm_num [eight, signed]

/-- With `{:.0}`, when it does not panic, any number may be printed as a power of ten above it: 1 as 10, 123 as 1000. -/
theorem C48_zero_precision :
    ({ sig := 2 ^ 52, exp := 0, category := .normal, sign := false } : IeeeFloat doubleS).display none (some 0) false = .ok "1.0E+1".toList ∧
    ({ sig := 123 * 2 ^ 46, exp := 6, category := .normal, sign := false } : IeeeFloat doubleS).display none (some 0) false = .ok "1.0E+3".toList := by
  constructor <;> decide +kernel

/-- **C34.** The exception in `Renders` occurs: `{:.1}` prints 8999 as 8000, although 9000 is nearer. -/
theorem C34_truncates : d8999.Valid ∧ d8999.toRat = 8999 ∧ d8999.display none (some 1) false = .ok "8.0E+3".toList := by
  refine ⟨by decide +kernel, ?_, by decide +kernel⟩
  rw [toRat_normal rfl, doubleS_p]; norm_num [d8999, signed]

/-- A value to which the theorems apply, and its text: `0.1`. -/
example : ({ sig := 7205759403792794, exp := -4, category := .normal, sign := false } : IeeeFloat doubleS).Valid ∧
    ({ sig := 7205759403792794, exp := -4, category := .normal, sign := false } : IeeeFloat doubleS).display none none false =
      .ok "0.10000000000000001".toList ∧
    ({ sig := 7205759403792794, exp := -4, category := .normal, sign := false } : IeeeFloat doubleS).display (some 0) (some 4) true =
      .ok "1.0000e-01".toList := by
  refine ⟨by decide +kernel, by decide +kernel, by decide +kernel⟩

/-- `Renders` on the number pi to 3 digits: 3.14 is a rendering of 3.14159. -/
example : Renders 3 3.14159 3.14 := by
  refine ⟨0, ⟨by norm_num, by norm_num⟩, ⟨314, by norm_num⟩, ?_, Or.inl ?_⟩
  · rintro ⟨n, hn⟩
    exfalso
    have : (n : ℚ) * 1000 = 314159 := by norm_num at hn ⊢; linarith
    have : n * 1000 = 314159 := by exact_mod_cast this
    omega
  · norm_num [abs_le]

end Apf
