import Verif.Props.PpcMulAll
import Verif.Props.Monotone
/-!
# C93: which DoubleDouble operations preserve order

Division, fused multiply-add, the conversions and `round_to_integral` go through the 106-bit format and preserve order; addition and
multiplication work on the two parts and do not.
-/

namespace Apf
open Spec IeeeFloat
variable {S : Sem}

/-- What the code's comparison answers for `x ≤ y`. -/
def DoubleFloat.AtMost (x y : DoubleFloat S) : Prop := x.partialCmp y = .ok (some .lt) ∨ x.partialCmp y = .ok (some .eq)

theorem atMost_of_le (h : S.OK) {x y : DoubleFloat S} (px : x.Proper) (py : y.Proper) (hl : x.datum.le y.datum) : x.AtMost y := by
  obtain ⟨o, o1, o2, o3, o4, o5⟩ := C44_order h px py
  unfold DoubleFloat.AtMost
  rw [o1]
  cases o with
  | none =>
    rcases o2.1 rfl with e | e <;> rw [e] at hl
    · exact absurd hl (by simp [Datum.le])
    · revert hl; cases x.datum <;> simp [Datum.le]
  | some c =>
    cases c
    · exact Or.inl rfl
    · exact Or.inr rfl
    · exact absurd hl (o4.1 rfl).2

/-- Outcomes of roundings to 106 bits are ordered like the exact values. -/
theorem PairOutcome.mono (h : S.Pair) {mode : Round} {v w : ℚ} {zs zs' : Bool} {o o' : M (StatusAnd (DoubleFloat S))} (ho : PairOutcome S mode v zs o)
    (ho' : PairOutcome S mode w zs' o') (hvw : v ≤ w) {r r' : StatusAnd (DoubleFloat S)} (e : o = .ok r) (e' : o' = .ok r') :
    r.value.AtMost r'.value := by
  obtain ⟨neg, d, st, a1, a2, a3, a4⟩ := ho
  obtain ⟨neg', d', st', b1, b2, b3, b4⟩ := ho'
  have na : ¬ d.Beyond S.fmt := fun c => by have := a3 c; rw [e] at this; cases this
  have nb : ¬ d'.Beyond S.fmt := fun c => by have := b3 c; rw [e'] at this; cases this
  obtain ⟨x, x1, x2, x3, -⟩ := a4 na
  obtain ⟨y, y1, y2, y3, -⟩ := b4 nb
  rw [e] at x1; rw [e'] at y1
  cases x1; cases y1
  rw [← fallback_fmt S h.ieee] at a1 b1
  have nn : ∀ {v neg d st}, Delivers (fallbackS S).fmt mode v neg d st → d ≠ .nan := by
    rintro v neg d st ⟨g, -, ⟨-, g2, -⟩ | ⟨-, g2⟩⟩ hd
    · rw [hd] at g2; cases g2
    · have := congrArg Prod.fst g2
      simp only at this
      rw [hd] at this
      rcases overflowed_fst (F := (fallbackS S).fmt) rfl mode neg with e | e <;> rw [e] at this <;> cases this
  refine atMost_of_le h.ok x2 y2 ?_
  simp only
  rw [x3, y3]
  exact Delivers.mono (largest_pos h.fb) a1 a2 b1 b2 hvw (nn a1) (nn b1)

theorem atMost_of_fits (h : S.Pair) {x y : DoubleFloat S} (hx : x.Fits) (hy : y.Fits) (hl : x.toRat ≤ y.toRat) : x.AtMost y := by
  refine atMost_of_le h.ok ⟨hx.1, Or.inl hx.2.1⟩ ⟨hy.1, Or.inl hy.2.1⟩ ?_
  rw [pair_datum_finite hx.2.1.1.1, pair_datum_finite hy.2.1.1.1]
  exact hl

theorem PairRounds.mono (h : S.Pair) {mode : Round} {v w : ℚ} {zs zs' : Bool} {r r' : StatusAnd (DoubleFloat S)} (hr : PairRounds S mode v zs r)
    (hr' : PairRounds S mode w zs' r') (hvw : v ≤ w) : r.value.AtMost r'.value := by
  have f := hr.fits h
  have f' := hr'.fits h
  refine atMost_of_le h.ok ⟨f.1, Or.inl f.2.1⟩ ⟨f'.1, Or.inl f'.2.1⟩ ?_
  have a := hr.1
  have b := hr'.1
  rw [← fallback_fmt S h.ieee] at a b
  refine Delivers.mono (largest_pos h.fb) a hr.2.1 b hr'.2.1 hvw ?_ ?_
  · rw [pair_datum_finite f.2.1.1.1]; simp
  · rw [pair_datum_finite f'.2.1.1.1]; simp

/-- **C93** (division): monotone in the dividend for a positive divisor, and antitone in the divisor for a non-negative dividend. -/
theorem C93_div (h : S.Pair) {x y z : DoubleFloat S} (hx : x.Fits) (hy : y.Fits) (hz : z.Fits) (mode : Round) (hxy : x.toRat ≤ y.toRat) :
    (0 < z.toRat → ∀ r r', x.divR z mode = .ok r → y.divR z mode = .ok r' → r.value.AtMost r'.value) ∧
    (0 < x.toRat → 0 ≤ z.toRat → ∀ r r', z.divR y mode = .ok r → z.divR x mode = .ok r' → r.value.AtMost r'.value) :=
  ⟨fun hz0 _ _ e e' => (C50_div h hx hz hz0.ne' mode).mono h (C50_div h hy hz hz0.ne' mode) (div_le_div_of_nonneg_right hxy hz0.le) e e',
   fun hx0 hz0 _ _ e e' => (C50_div h hz hy (hx0.trans_le hxy).ne' mode).mono h (C50_div h hz hx hx0.ne' mode)
     (div_le_div_of_nonneg_left hz0 hx0 hxy) e e'⟩

/-- **C93** (fused multiply-add, outside the operands of C08): monotone in the product and the addend. -/
theorem C93_mul_add (h : S.Pair) {x y m n z t : DoubleFloat S} (hx : x.Fits) (hy : y.Fits) (hm : m.Fits) (hn : n.Fits) (hz : z.Fits) (ht : t.Fits)
    (mode : Round) (hE : ¬ FmaWrong (fallbackS S) mode (x.toRat * m.toRat) z.toRat) (hE' : ¬ FmaWrong (fallbackS S) mode (y.toRat * n.toRat) t.toRat)
    (h1 : x.toRat * m.toRat ≤ y.toRat * n.toRat) (h2 : z.toRat ≤ t.toRat) :
    ∀ r r', x.mulAddR m z mode = .ok r → y.mulAddR n t mode = .ok r' → r.value.AtMost r'.value :=
  fun _ _ e e' => (C51_mul_add_partial h hx hm hz mode hE).mono h (C51_mul_add_partial h hy hn ht mode hE') (by linarith) e e'

/-- **C93** (rounding to an integer). -/
theorem C93_round_to_integral (h : S.Pair) (hw : 2 * (S.precision : ℤ) ≤ S.maxExp) {x y : DoubleFloat S} (hx : x.Fits) (hy : y.Fits)
    (mode : Round) (hxy : x.toRat ≤ y.toRat) :
    ∃ r r', x.roundToIntegral mode = .ok r ∧ y.roundToIntegral mode = .ok r' ∧ r.value.AtMost r'.value := by
  obtain ⟨r, a1, a2, -, n, a3, a4, -⟩ := C53_round_to_integral h hw hx mode
  obtain ⟨r', b1, b2, -, k, b3, b4, -⟩ := C53_round_to_integral h hw hy mode
  refine ⟨r, r', a1, b1, atMost_of_fits h a2 b2 ?_⟩
  rw [a4, b4]
  exact_mod_cast a3.mono b3 hxy

example := C93_round_to_integral doubleS_pair (by decide) fits_example.1 fits_three_halves.1 .towardZero (by rw [fits_example.2, fits_three_halves.2]; norm_num)

/-- **C93** (to integers): monotone, saturating. -/
theorem C93_to_int (h : S.Pair) {x y : DoubleFloat S} (hx : x.Fits) (hy : y.Fits) (mode : Round) (hxy : x.toRat ≤ y.toRat) :
    (∀ w, 1 ≤ w → w ≤ 128 → ¬ (x.isZero = true ∧ x.isNegative = true) → ¬ (y.isZero = true ∧ y.isNegative = true) →
      ∃ r r', x.toU128R w mode = .ok r ∧ y.toU128R w mode = .ok r' ∧ r.value ≤ r'.value) ∧
    (∀ w, 2 ≤ w → w ≤ 128 → ∃ r r', x.toI128R w mode = .ok r ∧ y.toI128R w mode = .ok r' ∧ r.value ≤ r'.value) := by
  refine ⟨fun w w1 w2 zx zy => ?_, fun w w1 w2 => ?_⟩
  · obtain ⟨r, a1, a2⟩ := C54_to_u128 h hx zx w1 w2 mode
    obtain ⟨r', b1, b2⟩ := C54_to_u128 h hy zy w1 w2 mode
    have hl : (0 : ℤ) ≤ 2 ^ w - 1 := by have := Nat.one_le_two_pow (n := w); have : (1 : ℤ) ≤ 2 ^ w := by exact_mod_cast this
                                        omega
    obtain ⟨n, n1, n2⟩ := ConvertsToInt.clamp hl a2
    obtain ⟨k, k1, k2⟩ := ConvertsToInt.clamp hl b2
    refine ⟨r, r', a1, b1, ?_⟩
    have := n1.mono k1 hxy
    omega
  · obtain ⟨r, a1, a2⟩ := C54_to_i128 h hx w1 w2 mode
    obtain ⟨r', b1, b2⟩ := C54_to_i128 h hy w1 w2 mode
    have hl : (-2 ^ (w - 1) : ℤ) ≤ 2 ^ (w - 1) - 1 := by
      have := Nat.one_le_two_pow (n := w - 1); have : (1 : ℤ) ≤ 2 ^ (w - 1) := by exact_mod_cast this
      omega
    obtain ⟨n, n1, n2⟩ := ConvertsToInt.clamp hl a2
    obtain ⟨k, k1, k2⟩ := ConvertsToInt.clamp hl b2
    refine ⟨r, r', a1, b1, ?_⟩
    have := n1.mono k1 hxy
    omega

example := (C93_to_int doubleS_pair fits_example.1 fits_three_halves.1 .towardPositive (by rw [fits_example.2, fits_three_halves.2]; norm_num)).2 64 (by decide) (by decide)

/-- **C93** (from integers). -/
theorem C93_from_int (h : S.Pair) (mode : Round) :
    (∀ m n : ℕ, m ≤ n → n < 2 ^ 128 → ∀ r r', DoubleFloat.fromU128R S m mode = .ok r → DoubleFloat.fromU128R S n mode = .ok r' →
      r.value.AtMost r'.value) ∧
    (128 ≤ S.maxExp → ∀ m n : ℤ, -2 ^ 127 ≤ m → m ≤ n → n < 2 ^ 127 → ∃ r r', DoubleFloat.fromI128R S m mode = .ok r ∧
      DoubleFloat.fromI128R S n mode = .ok r' ∧ r.value.AtMost r'.value) := by
  refine ⟨fun m n h1 h2 r r' e e' => ?_, fun hM m n h0 h1 h2 => ?_⟩
  · exact (C54_from_u128 h (by omega) mode).mono h (C54_from_u128 h h2 mode) (by exact_mod_cast h1) e e'
  · obtain ⟨r, a1, a2⟩ := C54_from_i128 h hM h0 (by omega) mode
    obtain ⟨r', b1, b2⟩ := C54_from_i128 h hM (by omega) h2 mode
    exact ⟨r, r', a1, b1, a2.mono h b2 (by exact_mod_cast h1)⟩

example := (C93_from_int doubleS_pair .towardZero).2 (by decide) (-5) (2 ^ 126 + 1) (by norm_num) (by norm_num) (by norm_num)

/-- **C93** (literals, in the modes rounding to nearest). -/
theorem C93_decimal (h : S.Pair) (hp : S.precision * 2 ≤ 120) {fuel : ℕ} (hfuel : 23 ≤ fuel) {sg sg' : LitSign} {t t' : List Char}
    (hlen : t.length < 2 ^ 27) (hlen' : t'.length < 2 ^ 27) {v v' : ℚ} (ht : IsDec t v) (ht' : IsDec t' v')
    (hl : |v| ≤ S.fmt.largest) (hl' : |v'| ≤ S.fmt.largest) {mode : Round} (hm : mode = .nearestTiesToEven ∨ mode = .nearestTiesToAway)
    (hv : signed (sg == .minus) v ≤ signed (sg' == .minus) v') :
    ∃ r r', DoubleFloat.fromStrR S fuel (sg.chars ++ t) mode = .ok (.ok r) ∧ DoubleFloat.fromStrR S fuel (sg'.chars ++ t') mode = .ok (.ok r') ∧
      r.value.AtMost r'.value := by
  obtain ⟨r, st, a1, a2⟩ := C55_decimal h hp hfuel sg hlen ht hl hm
  obtain ⟨r', st', b1, b2⟩ := C55_decimal h hp hfuel sg' hlen' ht' hl' hm
  exact ⟨r, r', a1, b1, PairRounds.mono h (r := ⟨st, r.value⟩) (r' := ⟨st', r'.value⟩) a2 b2 hv⟩

/-! ## Addition and multiplication -/

theorem fits_of_fallback {u : IeeeFloat (fallbackS doubleS)} {d : DoubleDouble} (hu : u.Valid) (fu : u.isFinite = true)
    (hs : |u.toRat| ≤ 2) (e : DoubleFloat.ofFallback u = .ok d) : d.Fits := by
  obtain ⟨d', d1, d2, -⟩ := ofFallback_fits doubleS_pair hu fu (doubleS_small hs)
  rw [e] at d1; cases d1; exact d2

/-- **C93** (finding).  Addition does not preserve order: `x < y` and the code answers `x + z > y + z`. -/
theorem C93_add_not_monotone : ∃ x y z r r' : DoubleDouble, x.Fits ∧ y.Fits ∧ z.Fits ∧ x.partialCmp y = .ok (some .lt) ∧
    x.addR z .nearestTiesToEven = .ok ⟨Status.INEXACT, r⟩ ∧ y.addR z .nearestTiesToEven = .ok ⟨Status.INEXACT, r'⟩ ∧
    r.partialCmp r' = .ok (some .gt) := by
  exact ⟨⟨⟨4933712248719082, 0, .normal, false⟩, ⟨4503599627370496, -53, .normal, false⟩⟩,
    ⟨⟨4933712248719083, 0, .normal, false⟩, ⟨9007199254740990, -54, .normal, true⟩⟩,
    ⟨⟨5325856641970368, 0, .normal, false⟩, ⟨8840362115552992, -58, .normal, true⟩⟩,
    ⟨⟨5129784445344725, 1, .normal, false⟩, ⟨8454676622518930, -54, .normal, false⟩⟩,
    ⟨⟨5129784445344725, 1, .normal, false⟩, ⟨8454676622518928, -54, .normal, false⟩⟩,
    fits_of_fallback (u := ⟨44438929289769023656167305379840, 0, .normal, false⟩) (by decide +kernel) rfl (by norm_num [toRat, signed, fallbackS, doubleS, Sem.default, abs_of_pos]) (by decide +kernel),
    fits_of_fallback (u := ⟨44438929289769023656167305379841, 0, .normal, false⟩) (by decide +kernel) rfl (by norm_num [toRat, signed, fallbackS, doubleS, Sem.default, abs_of_pos]) (by decide +kernel),
    fits_of_fallback (u := ⟨47971051976412860628291062814025, 0, .normal, false⟩) (by decide +kernel) rfl (by norm_num [toRat, signed, fallbackS, doubleS, Sem.default, abs_of_pos]) (by decide +kernel),
    by decide +kernel,
    by decide +kernel,
    by decide +kernel,
    by decide +kernel⟩

/-- **C93** (finding).  Multiplication by a positive number does not preserve order. -/
theorem C93_mul_not_monotone : ∃ x y z r r' : DoubleDouble, x.Fits ∧ y.Fits ∧ z.Fits ∧ z.isNegative = false ∧ x.partialCmp y = .ok (some .lt) ∧
    x.mulR z .nearestTiesToEven = .ok ⟨Status.INEXACT, r⟩ ∧ y.mulR z .nearestTiesToEven = .ok ⟨Status.INEXACT, r'⟩ ∧
    r.partialCmp r' = .ok (some .gt) := by
  exact ⟨⟨⟨6560111976036172, 0, .normal, false⟩, ⟨4503599627370496, -53, .normal, false⟩⟩,
    ⟨⟨6560111976036173, 0, .normal, false⟩, ⟨9007199254740990, -54, .normal, true⟩⟩,
    ⟨⟨8522534515786457, -2, .normal, false⟩, ⟨7669203389773544, -58, .normal, true⟩⟩,
    ⟨⟨6207121565981175, -1, .normal, false⟩, ⟨5689355521158840, -58, .normal, true⟩⟩,
    ⟨⟨6207121565981175, -1, .normal, false⟩, ⟨5689355521158848, -58, .normal, true⟩⟩,
    fits_of_fallback (u := ⟨59088235701570469312362310533120, 0, .normal, false⟩) (by decide +kernel) rfl (by norm_num [toRat, signed, fallbackS, doubleS, Sem.default, abs_of_pos]) (by decide +kernel),
    fits_of_fallback (u := ⟨59088235701570469312362310533121, 0, .normal, false⟩) (by decide +kernel) rfl (by norm_num [toRat, signed, fallbackS, doubleS, Sem.default, abs_of_pos]) (by decide +kernel),
    fits_of_fallback (u := ⟨76764166539096155650974292623651, -2, .normal, false⟩) (by decide +kernel) rfl (by norm_num [toRat, signed, fallbackS, doubleS, Sem.default, abs_of_pos]) (by decide +kernel),
    by decide +kernel,
    by decide +kernel,
    by decide +kernel,
    by decide +kernel,
    by decide +kernel⟩

/-! Non-vacuity: dividing `1 - 2^-60` and `3/2` by `3/2`. -/
example : ∃ r r', (⟨⟨2 ^ 52, 0, .normal, false⟩, ⟨2 ^ 52, -60, .normal, true⟩⟩ : DoubleDouble).divR ⟨⟨3 * 2 ^ 51, 0, .normal, false⟩, ZERO doubleS⟩ .towardZero = .ok r ∧
    (⟨⟨3 * 2 ^ 51, 0, .normal, false⟩, ZERO doubleS⟩ : DoubleDouble).divR ⟨⟨3 * 2 ^ 51, 0, .normal, false⟩, ZERO doubleS⟩ .towardZero = .ok r' ∧
    r.value.AtMost r'.value := by
  have hp : (0 : ℚ) < (⟨⟨3 * 2 ^ 51, 0, .normal, false⟩, ZERO doubleS⟩ : DoubleDouble).toRat := by rw [fits_three_halves.2]; norm_num
  have key := (C93_div doubleS_pair fits_example.1 fits_three_halves.1 fits_three_halves.1 .towardZero
    (by rw [fits_example.2, fits_three_halves.2]; norm_num)).1 hp
  have ok : ∀ {o : M (StatusAnd DoubleDouble)}, (match o with | .ok _ => true | .error _ => false) = true → ∃ r, o = .ok r := by
    intro o ho
    cases o with
    | ok r => exact ⟨r, rfl⟩
    | error => cases ho
  obtain ⟨r, hr⟩ := ok (o := (⟨⟨2 ^ 52, 0, .normal, false⟩, ⟨2 ^ 52, -60, .normal, true⟩⟩ : DoubleDouble).divR ⟨⟨3 * 2 ^ 51, 0, .normal, false⟩, ZERO doubleS⟩ .towardZero)
    (by decide +kernel)
  obtain ⟨r', hr'⟩ := ok (o := (⟨⟨3 * 2 ^ 51, 0, .normal, false⟩, ZERO doubleS⟩ : DoubleDouble).divR ⟨⟨3 * 2 ^ 51, 0, .normal, false⟩, ZERO doubleS⟩ .towardZero)
    (by decide +kernel)
  exact ⟨r, r', hr, hr', key r r' hr hr'⟩

end Apf
