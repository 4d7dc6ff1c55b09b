import Verif.Props.Chain
import Verif.Props.Printers
import Verif.Props.DecimalTrip
import Verif.Spec.TextWide
/-!
# C125: texts read through a wider type

The text of a number is parsed in a wider format and the result converted back: the two roundings recover the number.
-/

namespace Apf
open Spec IeeeFloat
variable {S T : Sem}

/-- What is closer to a number than half the distance to its neighbours rounds to it. -/
theorem rounded_close {F : Fmt} {mode : Round} (hm : mode = .nearestTiesToEven ∨ mode = .nearestTiesToAway) {v x g : ℚ} (hx : F.Grid x)
    (hg : IsRounded F mode v g) (hc : 2 ^ (F.p + 1) * |v - x| < |x|) : g = x := by
  have hbest : |v - g| ≤ |v - x| := by
    rcases hm with rfl | rfl
    · exact hg.2.1 _ hx
    · exact hg.2.1 _ hx
  by_contra hne
  have hgap := grid_gap hx hg.1 hne
  have htri : |g - x| ≤ 2 * |v - x| := by
    have := abs_sub_le g v x
    rw [abs_sub_comm g v] at this
    linarith
  have := mul_le_mul_of_nonneg_left htri (show (0 : ℚ) ≤ 2 ^ F.p by positivity)
  rw [pow_succ] at hc
  linarith

/-- A literal close to `x`, rounded to `T` without leaving the neighbourhood of `x`. -/
theorem via_wider (h : StrictlyNarrower T S) (hp : T.precision ≤ 120) {fuel : ℕ} (hfuel : 23 ≤ fuel) {x : IeeeFloat S} (hx : x.Valid)
    (hf : x.isFinite = true) (sg : LitSign) (hs : x.sign = (sg == .minus)) {t : List Char} (hlen : t.length < 2 ^ 27) {w : ℚ} (ht : IsDec t w)
    {mode m₂ : Round} (hm : mode = .nearestTiesToEven ∨ mode = .nearestTiesToAway) (hm₂ : m₂ = .nearestTiesToEven ∨ m₂ = .nearestTiesToAway)
    (hw : 2 ^ (S.precision + 1) * |signed x.sign w - x.toRat| ≤ |x.toRat|)
    (hg : ∀ g, IsRounded T.fmt mode (signed x.sign w) g → g = x.toRat ∨ 2 ^ (S.precision + 1) * |g - x.toRat| < |x.toRat|) :
    ∃ r c, fromStrR T fuel (sg.chars ++ t) mode = .ok (.ok r) ∧ convertR T S r.value m₂ = .ok c ∧ c.value.Valid ∧ c.value.bitwiseEq x = true := by
  obtain ⟨r, st, r1, r2, r3, r4, -⟩ := C31_nearest h.okU hp hfuel sg hlen ht hm
  rw [← hs] at r3 r4
  obtain ⟨⟨g, g1, g2⟩, -⟩ := r3
  dsimp only at g2
  have hxl := abs_toRat_le h.okT hx hf
  have hvl : |signed x.sign w| ≤ T.fmt.largest := by
    refine le_trans ?_ (below_top h.toNarrower (j := S.maxExp - S.precision) (by omega) ?_)
    · have e1 := largest_le_full h.okT
      have e2 : (2 : ℚ) ^ (S.maxExp + 1) = 2 ^ (S.precision + 1) * 2 ^ (S.maxExp - S.precision) := by
        rw [← zpow_natCast, ← two_zpow_add]; congr 1; push_cast; ring
      have e3 : (2 : ℚ) ^ (S.maxExp - S.precision + 1) = 2 * 2 ^ (S.maxExp - S.precision) := by
        rw [two_zpow_add]; ring
      have hu := two_zpow_pos (S.maxExp - S.precision)
      generalize (2 : ℚ) ^ (S.maxExp - S.precision) = u at *
      have hP : (0 : ℚ) < 2 ^ (S.precision + 1) := by positivity
      have tri := abs_sub_abs_le_abs_sub (signed x.sign w) x.toRat
      have : |signed x.sign w - x.toRat| ≤ u := by
        by_contra hc
        push Not at hc
        have := mul_lt_mul_of_pos_left hc hP
        linarith
      linarith
    · rcases lt_or_eq_of_le h.top with c | c
      · exact Or.inr c
      · left; have := h.prec'; omega
  have gT := grid_largest h.okU
  have hv' := _root_.abs_le.1 hvl
  have gl : |g| ≤ T.fmt.largest := _root_.abs_le.2 ⟨g1.ge_of_grid gT.neg hv'.1, g1.le_of_grid gT hv'.2⟩
  obtain ⟨-, gd, -⟩ := g2.resolve_right (fun c => absurd gl (not_le.2 c.1))
  obtain ⟨fr, er⟩ := datum_num gd
  have hmo : ∀ v, DirectedOK S m₂ v := fun v => by
    rcases hm₂ with rfl | rfl <;> simp [DirectedOK]
  obtain ⟨c, c1, c2, c3, ⟨⟨k, k1, k2⟩, -⟩⟩ := C21_convert_finite h.okU h.okT r2 fr m₂ (hmo _)
  dsimp only at k2
  rw [er] at k1
  refine ⟨r, c, r1, c1, c2, ?_⟩
  have hgx := grid_toRat h.okT hx hf
  have hk : k = x.toRat := by
    rcases hg g g1 with e | e
    · rw [e] at k1
      exact k1.unique (isRounded_self _ hgx)
    · exact rounded_close hm₂ hgx k1 e
  subst hk
  rcases k2 with ⟨-, b, -⟩ | ⟨b, -⟩
  · have hd : c.value.datum = x.datum := by rw [b, datum_finite hf, c3, r4]
    rw [C03_bitwise_eq_iff_datum h.okT c2 hx]
    · exact hd
    · rw [not_nan_iff, hd, datum_finite hf]; simp
  · exact absurd hxl (not_le.2 b)

/-- **C125.** A decimal literal closer to `x` than one part in `2^(p+2)`, where `p` is the precision of the type of `x`: parsed in any wider type to nearest and
converted to nearest, it gives `x` back, bit for bit. -/
theorem C125_close (h : StrictlyNarrower T S) (hp : T.precision ≤ 120) {fuel : ℕ} (hfuel : 23 ≤ fuel) {x : IeeeFloat S} (hx : x.Valid)
    (hf : x.isFinite = true) (sg : LitSign) (hs : x.sign = (sg == .minus)) {t : List Char} (hlen : t.length < 2 ^ 27) {w : ℚ} (ht : IsDec t w)
    {mode m₂ : Round} (hm : mode = .nearestTiesToEven ∨ mode = .nearestTiesToAway) (hm₂ : m₂ = .nearestTiesToEven ∨ m₂ = .nearestTiesToAway)
    (hw : 2 ^ (S.precision + 2) * |signed x.sign w - x.toRat| < |x.toRat|) :
    ∃ r c, fromStrR T fuel (sg.chars ++ t) mode = .ok (.ok r) ∧ convertR T S r.value m₂ = .ok c ∧ c.value.Valid ∧ c.value.bitwiseEq x = true := by
  have hP : (0 : ℚ) < 2 ^ (S.precision + 1) := by positivity
  rw [show S.precision + 2 = S.precision + 1 + 1 by ring, pow_succ] at hw
  have hn := abs_nonneg (signed x.sign w - x.toRat)
  refine via_wider h hp hfuel hx hf sg hs hlen ht hm hm₂ (by nlinarith) (fun g hg => Or.inr ?_)
  have hbest : |signed x.sign w - g| ≤ |signed x.sign w - x.toRat| := by
    have gx := h.grid (grid_toRat h.okT hx hf)
    rcases hm with rfl | rfl
    · exact hg.2.1 _ gx
    · exact hg.2.1 _ gx
  have tri := abs_sub_le g (signed x.sign w) x.toRat
  rw [abs_sub_comm g (signed x.sign w)] at tri
  nlinarith

/-- **C125.** Enough digits (`EnoughDigits`; 5 for half, 9 for single, 17 for double precision through a wide enough type): whatever program wrote the literal, if it is off by
no more than half a unit of its `P`-th digit can be (one part in `2 * 10^(P-1)`), it is read as `x` through the wider type. -/
theorem C125_digits (h : StrictlyNarrower T S) (hp : T.precision ≤ 120) {fuel : ℕ} (hfuel : 23 ≤ fuel) {x : IeeeFloat S} (hx : x.Valid)
    (hf : x.isFinite = true) (h0 : x.isZero = false) (sg : LitSign) (hs : x.sign = (sg == .minus)) {t : List Char} (hlen : t.length < 2 ^ 27) {w : ℚ}
    (ht : IsDec t w) {mode m₂ : Round} (hm : mode = .nearestTiesToEven ∨ mode = .nearestTiesToAway)
    (hm₂ : m₂ = .nearestTiesToEven ∨ m₂ = .nearestTiesToAway) {P : ℕ} (hP : EnoughDigits T S P)
    (hw : 2 * 10 ^ (P - 1) * |signed x.sign w - x.toRat| ≤ |x.toRat|) :
    ∃ r c, fromStrR T fuel (sg.chars ++ t) mode = .ok (.ok r) ∧ convertR T S r.value m₂ = .ok c ∧ c.value.Valid ∧ c.value.bitwiseEq x = true := by
  have hc : x.category = .normal := by
    cases c : x.category <;> simp_all [isFinite, isZero, isNan, isInfinite]
  have hx0 := toRat_ne_zero hx hc
  have hxp : 0 < |x.toRat| := abs_pos.2 hx0
  have hn := abs_nonneg (signed x.sign w - x.toRat)
  rcases hP with hP | ⟨hE, hP⟩
  · refine C125_close h hp hfuel hx hf sg hs hlen ht hm hm₂ ?_
    have hP' : (2 : ℚ) ^ (S.precision + 1) < 10 ^ (P - 1) := by exact_mod_cast hP
    rw [show S.precision + 2 = S.precision + 1 + 1 by ring, pow_succ]
    rcases hn.eq_or_lt with e | e
    · rw [← e]; simpa using hxp
    · nlinarith
  · obtain ⟨k, hk⟩ : ∃ k, T.precision = S.precision + k := ⟨T.precision - S.precision, by have := h.prec; omega⟩
    have hP' : (2 : ℚ) ^ T.precision + 3 * 10 ^ (P - 1) < 10 ^ (P - 1) * 2 ^ (T.precision - S.precision) := by exact_mod_cast hP
    rw [show T.precision - S.precision = k by omega, hk, pow_add] at hP'
    have hA1 : (1 : ℚ) ≤ 10 ^ (P - 1) := one_le_pow₀ (by norm_num)
    have hp0 : (0 : ℚ) < 2 ^ S.precision := by positivity
    have hk0 : (0 : ℚ) < 2 ^ k := by positivity
    have hlow : (2 : ℚ) ^ (S.minExp - S.precision + 1) ≤ |x.toRat| := smallest_le hx hx0
    have hnear := fun g (hg : IsRounded T.fmt mode (signed x.sign w) g) => near_rel (F := T.fmt) (show 2 ≤ T.precision by have := h.okU.p_ge; omega) hm hg
    have hTp : T.fmt.p = T.precision := rfl
    have hTe : T.fmt.emin = T.minExp := rfl
    rw [hTp, hTe, hk, zpow_neg, zpow_natCast, pow_add] at hnear
    have e3 : (2 : ℚ) ^ (S.minExp - S.precision + 1) = 2 * 2 ^ (S.minExp - S.precision) := by
      rw [two_zpow_add]; ring
    have e4 : (2 : ℚ) ^ T.minExp ≤ 2 ^ (S.minExp - S.precision) := two_zpow_le hE
    have hd : 2 * |signed x.sign w - x.toRat| ≤ |x.toRat| := by nlinarith
    have hpA : (2 : ℚ) ^ S.precision < 10 ^ (P - 1) := by
      by_contra hc
      push Not at hc
      nlinarith
    have tri1 := abs_sub_abs_le_abs_sub x.toRat (signed x.sign w)
    have tri2 := abs_sub_abs_le_abs_sub (signed x.sign w) x.toRat
    rw [abs_sub_comm] at tri1
    refine via_wider h hp hfuel hx hf sg hs hlen ht hm hm₂ ?_ (fun g hg => Or.inr ?_)
    · rw [pow_succ]; nlinarith
    · have hnear := hnear g hg (by linarith)
      have tri := abs_sub_le g (signed x.sign w) x.toRat
      rw [abs_sub_comm g (signed x.sign w)] at tri
      rw [pow_succ]
      have hA0 : (0 : ℚ) < 10 ^ (P - 1) := by linarith
      generalize (10 : ℚ) ^ (P - 1) = A at *
      generalize (2 : ℚ) ^ S.precision = p at *
      generalize (2 : ℚ) ^ k = K at *
      have hpK : 0 < p * K := by positivity
      have hn2 : p * K * |signed x.sign w - g| ≤ |signed x.sign w| := by
        have := mul_le_mul_of_nonneg_left hnear hpK.le
        rwa [← mul_assoc, mul_inv_cancel₀ hpK.ne', one_mul] at this
      have hAK : 0 < A * K := by positivity
      have m1 : A * (p * K * |signed x.sign w - g|) ≤ A * (3 / 2 * |x.toRat|) := mul_le_mul_of_nonneg_left (by linarith) hA0.le
      have m2 := mul_le_mul_of_nonneg_left hw hpK.le
      have m3 := mul_lt_mul_of_pos_right hP' hxp
      have m4 := mul_le_mul_of_nonneg_left tri (show 0 ≤ 2 * (A * (p * K)) by positivity)
      have : A * K * (p * 2 * |g - x.toRat|) < A * K * |x.toRat| := by linarith
      exact lt_of_mul_lt_mul_left this hAK.le

/-- Whatever is printed is off by at most one part in `2 * 10^(P-1)`. -/
theorem renders_close {P : ℕ} (hP1 : 1 ≤ P) {v w : ℚ} (hr : Renders P v w) : 2 * 10 ^ (P - 1) * |w - v| ≤ v := by
  obtain ⟨d, ⟨d1, -⟩, -, -, h3⟩ := hr
  have hu : (10 : ℚ) ^ (d + 1 - P) * 10 ^ (P - 1) = 10 ^ d := by
    rw [← zpow_natCast, ← ten_zpow_add]; congr 1; omega
  have hA : (0 : ℚ) < 10 ^ (P - 1) := by positivity
  rcases h3 with h3 | ⟨h4, h5, h6⟩
  · have := mul_le_mul_of_nonneg_left h3 hA.le
    linarith
  · rw [abs_sub_comm, abs_of_nonneg (by linarith)]
    have := mul_lt_mul_of_pos_left h6 hA
    have h0 : (0 : ℚ) < 10 ^ d := by positivity
    linarith

/-- Parsing a zero in the wider format. -/
theorem zero_wider (h : StrictlyNarrower T S) (hp : T.precision ≤ 120) {fuel : ℕ} (hfuel : 23 ≤ fuel) {x : IeeeFloat S} (hx : x.Valid)
    (hz : x.category = .zero) {t : List Char} (hlen : t.length < 2 ^ 27) (ht : IsDec t 0) {mode m₂ : Round}
    (hm : mode = .nearestTiesToEven ∨ mode = .nearestTiesToAway) (hm₂ : m₂ = .nearestTiesToEven ∨ m₂ = .nearestTiesToAway) :
    ∃ r c, fromStrR T fuel (signText x.sign ++ t) mode = .ok (.ok r) ∧ convertR T S r.value m₂ = .ok c ∧ c.value.Valid ∧
      c.value.bitwiseEq x = true := by
  have hx0 : x.toRat = 0 := by unfold toRat; simp [hz]
  have hs0 : signed x.sign 0 = 0 := by cases x.sign <;> simp [signed]
  obtain ⟨r, c, a⟩ := via_wider h hp hfuel hx (by simp [isFinite, isNan, isInfinite, hz]) (litSign x.sign) (litSign_minus _).symm hlen ht hm hm₂
    (by rw [hs0, hx0]; simp) (fun g hg => Or.inl (by rw [hs0] at hg; rw [hx0]; exact hg.unique (isRounded_self _ grid_zero)))
  rw [litSign_chars] at a
  exact ⟨r, c, a⟩

/-- **C125.** The text of a finite number with the default precision, parsed in a wider type and converted back, both to nearest, is the number, bit for bit. -/
theorem C125_display (h : StrictlyNarrower T S) (hp : T.precision ≤ 120) {fuel : ℕ} (hfuel : 23 ≤ fuel) {x : IeeeFloat S} (hx : x.Valid)
    (hf : x.isFinite = true) (hP : EnoughDigits T S (2 + S.precision * 59 / 196)) (width : Option ℕ) (alt : Bool) {mode m₂ : Round}
    (hm : mode = .nearestTiesToEven ∨ mode = .nearestTiesToAway) (hm₂ : m₂ = .nearestTiesToEven ∨ m₂ = .nearestTiesToAway) :
    ∃ s r c, x.display width none alt = .ok s ∧ fromStrR T fuel s mode = .ok (.ok r) ∧ convertR T S r.value m₂ = .ok c ∧ c.value.Valid ∧
      c.value.bitwiseEq x = true := by
  cases hc : x.category with
  | infinity => simp [isFinite, isInfinite, hc] at hf
  | nan => simp [isFinite, isNan, hc] at hf
  | normal =>
    obtain ⟨w, w1, w2⟩ := display_ok h.okT hx hc (prec := none) rfl (by rw [Option.getD_none]; omega)
      (by have := h.okT.p_le; rw [Option.getD_none]; omega)
    obtain ⟨t, t1, t2, t3⟩ := w2 width alt
    have := h.okT.p_le
    rw [Option.getD_none] at w1 t3
    have hw := renders_close (by omega) w1
    have hsx : |signed x.sign w - x.toRat| = |w - (|x.toRat|)| := by
      conv_lhs => rw [toRat_signed hc]
      cases x.sign
      · rfl
      · simp only [signed, if_true]
        rw [show -w - -|x.toRat| = -(w - |x.toRat|) by ring, abs_neg]
    rw [← hsx] at hw
    obtain ⟨r, c, a⟩ := C125_digits h hp hfuel hx hf (by simp [isZero, hc]) (litSign x.sign) (litSign_minus _).symm (by omega) t2 hm hm₂ hP hw
    rw [litSign_chars] at a
    exact ⟨_, r, c, t1, a⟩
  | zero =>
    obtain ⟨t, t1, t2, t3⟩ := C34_zero (x := x) (by simp [isZero, hc]) width none alt
    rw [Option.getD_none] at t3
    obtain ⟨r, c, a⟩ := zero_wider h hp hfuel hx hc (by omega) t2 hm hm₂
    exact ⟨_, r, c, t1, a⟩
/-- **C125.** Where this applies among the crate's types with the default number of digits: double precision through x87 and quadruple precision, single through double
precision, half precision and the brain float through single precision, the eight-bit types through half or single precision. -/
theorem C125_types :
    (StrictlyNarrower x87S doubleS ∧ EnoughDigits x87S doubleS (2 + doubleS.precision * 59 / 196)) ∧
    (StrictlyNarrower quadS doubleS ∧ EnoughDigits quadS doubleS (2 + doubleS.precision * 59 / 196)) ∧
    (StrictlyNarrower doubleS singleS ∧ EnoughDigits doubleS singleS (2 + singleS.precision * 59 / 196)) ∧
    (StrictlyNarrower singleS halfS ∧ EnoughDigits singleS halfS (2 + halfS.precision * 59 / 196)) ∧
    (StrictlyNarrower singleS bfloatS ∧ EnoughDigits singleS bfloatS (2 + bfloatS.precision * 59 / 196)) ∧
    (StrictlyNarrower halfS float8E4M3FNS ∧ EnoughDigits halfS float8E4M3FNS (2 + float8E4M3FNS.precision * 59 / 196)) ∧
    (StrictlyNarrower singleS float8E5M2S ∧ EnoughDigits singleS float8E5M2S (2 + float8E5M2S.precision * 59 / 196)) := by
  refine ⟨⟨x87_double, Or.inr ⟨by decide, by decide +kernel⟩⟩, ⟨quad_double, Or.inr ⟨by decide, by decide +kernel⟩⟩,
    ⟨double_single, Or.inl (by decide +kernel)⟩, ⟨single_half, Or.inl (by decide +kernel)⟩, ⟨single_bfloat, Or.inl (by decide +kernel)⟩,
    ⟨half_e4m3fn, Or.inl (by decide +kernel)⟩,
    ⟨⟨⟨singleS_ok, float8E5M2S_ok, rfl, by decide, by decide, by decide⟩, by decide, by decide⟩, Or.inr ⟨by decide, by decide +kernel⟩⟩⟩

/-- A `float` printed, read as a `double` and cast back: 0.1 in single precision. -/
example := C125_display double_single (by decide) (le_refl 23) (x := ⟨13421773, -4, .normal, true⟩) (by decide) rfl C125_types.2.2.1.2 none false
  (mode := .nearestTiesToEven) (m₂ := .nearestTiesToEven) (Or.inl rfl) (Or.inl rfl)

/-- 0.1 in double precision through the x87 format, with ties away. -/
example := C125_display x87_double (by decide) (le_refl 23) (x := ⟨7205759403792794, -4, .normal, false⟩) (by decide) rfl C125_types.1.2 (some 0) true
  (mode := .nearestTiesToAway) (m₂ := .nearestTiesToEven) (Or.inr rfl) (Or.inl rfl)
/-- "0.1" as a `double`, cast to single precision. -/
example : ∃ r c, fromStrR doubleS 23 (LitSign.none.chars ++ "0.1".toList) .nearestTiesToEven = .ok (.ok r) ∧
    convertR doubleS singleS r.value .nearestTiesToEven = .ok c ∧ c.value.Valid ∧ c.value.bitwiseEq ⟨13421773, -4, .normal, false⟩ = true :=
  C125_close double_single (by decide) (le_refl 23) (by decide) rfl .none rfl (by decide) isDec_tenth (Or.inl rfl) (Or.inl rfl) (by decide +kernel)

/-- Seventeen digits through the x87 format. -/
example : ∃ r c, fromStrR x87S 23 (LitSign.none.chars ++ "0.10000000000000001".toList) .nearestTiesToAway = .ok (.ok r) ∧
    convertR x87S doubleS r.value .nearestTiesToEven = .ok c ∧ c.value.Valid ∧ c.value.bitwiseEq tenth64 = true :=
  C125_digits x87_double (by decide) (le_refl 23) (by decide) rfl rfl .none rfl (by decide) isDec_tenth17 (Or.inr rfl) (Or.inl rfl) (P := 17)
    C125_types.1.2 (by rw [tenth64_toRat]; simp [tenth64, signed]; norm_num [abs_of_neg, abs_of_pos])

/-- **C125.** Of literals that are not close to a number of the narrow type this is false: a literal just above half way between 1 and the next number is
that next number in half precision, and 1 through single precision. -/
theorem C125_double_rounding : ∃ r r' c, fromStrR halfS 23 "1.00048828125000000001".toList .nearestTiesToEven = .ok (.ok r) ∧
    fromStrR singleS 23 "1.00048828125000000001".toList .nearestTiesToEven = .ok (.ok r') ∧
    convertR singleS halfS r'.value .nearestTiesToEven = .ok c ∧ r.value = ⟨1025, 0, .normal, false⟩ ∧ c.value = ⟨1024, 0, .normal, false⟩ := by
  refine ⟨⟨Status.INEXACT, ⟨1025, 0, .normal, false⟩⟩, ⟨Status.INEXACT, ⟨2 ^ 23 + 2 ^ 12, 0, .normal, false⟩⟩,
    ⟨Status.INEXACT, ⟨1024, 0, .normal, false⟩, true⟩, ?_⟩
  decide +kernel

end Apf
