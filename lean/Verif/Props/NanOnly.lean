import Verif.Props.FmaExact
import Verif.Props.Scale
import Verif.Props.Algebra
/-! # C47: directed overflow of negative results in the format without infinities

The full property — C04 to C07 without the hypothesis `DirectedOK` — is false of the code (ieee.rs:2096-2102 and
ieee.rs:2144-2149 call `overflow_result(round)` where ieee.rs:2064-2066 calls
`overflow_result(round.negate_if(sign))`).  The theorems here are the counterexamples, one for each directed mode;
`C04_add_correctly_rounded` … cover every other exact value. -/

namespace Apf
open Spec IeeeFloat

/-- -448, the most negative `Float8E4M3FN`. -/
def exM448 : IeeeFloat float8E4M3FNS := ⟨14, 8, .normal, true⟩
/-- -32 in `Float8E4M3FN`. -/
def exM32 : IeeeFloat float8E4M3FNS := ⟨8, 5, .normal, true⟩

theorem exM448_toRat : exM448.toRat = -448 := by
  rw [toRat_normal rfl]; norm_num [exM448, signed, float8E4M3FNS, Sem.default]
theorem exM32_toRat : exM32.toRat = -32 := by
  rw [toRat_normal rfl]; norm_num [exM32, signed, float8E4M3FNS, Sem.default]
theorem largest_e4m3 : float8E4M3FNS.fmt.largest = 448 := by
  have hi : float8E4M3FNS.fmt.hasInf = false := by decide
  simp only [Fmt.largest, hi]
  norm_num [Sem.fmt, float8E4M3FNS, Sem.default, ieeeMinExp]

/-- **C47** (violated, toward positive). `-448 + -32 = -480` rounded toward positive must be `-448` with `INEXACT`;
the code returns NaN with `OVERFLOW`. -/
theorem C47_counterexample_toward_positive :
    exM448.Valid ∧ exM32.Valid ∧ exM448.toRat + exM32.toRat = -480 ∧
    ∃ r, addR exM448 exM32 .towardPositive = .ok r ∧ r.value.category = .nan ∧ r.status.overflow = true ∧
      ¬ Rounds float8E4M3FNS .towardPositive (-480) true r := by
  refine ⟨by decide +kernel, by decide +kernel, by rw [exM448_toRat, exM32_toRat]; norm_num,
    ⟨{ overflow := true, inexact := true }, ⟨7, 8, .nan, true⟩⟩, by decide +kernel, rfl, rfl, ?_⟩
  rintro ⟨⟨g, hg, ⟨a, b, c⟩ | ⟨a, b⟩⟩, -⟩
  · cases b
  · have := (Prod.ext_iff.1 b).1
    simp [overflowed, datum] at this

/-- **C47** (violated, toward negative). `-480` rounded toward negative must overflow (NaN with `OVERFLOW`);
the code returns `-448` without `OVERFLOW`. -/
theorem C47_counterexample_toward_negative :
    ∃ r, addR exM448 exM32 .towardNegative = .ok r ∧ r.value.toRat = -448 ∧ r.status.overflow = false ∧
      ¬ Rounds float8E4M3FNS .towardNegative (-480) true r := by
  refine ⟨⟨{ inexact := true }, exM448⟩, by decide +kernel, exM448_toRat, rfl, ?_⟩
  rintro ⟨⟨g, hg, ⟨a, b, c⟩ | ⟨a, b⟩⟩, -⟩
  · have h1 := hg.2
    simp only [] at h1
    rw [largest_e4m3] at a
    have := (abs_le.1 a).1
    linarith [h1.1]
  · have := (Prod.ext_iff.1 b).1
    have hi : float8E4M3FNS.fmt.hasInf = false := by decide
    simp [overflowed, hi, exM448, datum] at this

/-! ### What the code does, without exception

`DirectedOK` is all the property lacks: in the case it excludes the code's result is the following, whatever the operation. -/

variable {S T : Sem}

/-- The result of the code for the exact value `v`: the correct one (C04) except in the case `DirectedOK` excludes; there the
value is negative and beyond the largest magnitude, and the code returns NaN with `OVERFLOW` toward positive and the most
negative number with `INEXACT` alone toward negative. -/
def AsCoded (S : Sem) (mode : Round) (v : ℚ) (zs : Bool) (r : StatusAnd (IeeeFloat S)) : Prop :=
  (DirectedOK S mode v → Rounds S mode v zs r) ∧
  (¬ DirectedOK S mode v → S.nonfinite = .nanOnly ∧ v < -S.fmt.largest ∧ r.value.sign = true ∧
    ((mode = .towardPositive ∧ r.value.datum = .nan ∧ r.status = { overflow := true, inexact := true }) ∨
      (mode = .towardNegative ∧ r.value.datum = .num true (-S.fmt.largest) ∧ r.status = { inexact := true })))

theorem grid_pattern (h : S.OK) : S.fmt.Grid (-(((2 ^ S.precision - 1 : ℕ) : ℚ) * 2 ^ (S.maxExp - S.precision + 1))) := by
  have h1 := h.p_ge; have h2 := h.p_max; have h3 := h.min_lt
  refine ⟨-((2 ^ S.precision - 1 : ℕ) : ℤ), S.maxExp - S.precision + 1, ?_, ?_, ?_⟩
  · show _ < (2 : ℤ) ^ S.precision
    have := Nat.two_pow_pos S.precision
    rw [abs_neg, abs_of_nonneg (by positivity)]
    have e : ((2 ^ S.precision - 1 : ℕ) : ℤ) = 2 ^ S.precision - 1 := by push_cast [Nat.cast_sub this]; rfl
    rw [e]; omega
  · show S.minExp - S.precision + 1 ≤ _
    omega
  · push_cast; ring

theorem pattern_gt_largest (h : S.OK) (hN : S.nonfinite = .nanOnly) :
    S.fmt.largest < ((2 ^ S.precision - 1 : ℕ) : ℚ) * 2 ^ (S.maxExp - S.precision + 1) := by
  have hi : S.fmt.hasInf = false := by simp [Sem.fmt, hN]
  have := Nat.two_pow_pos S.precision
  rw [Nat.cast_sub this]
  simp only [Fmt.largest, hi]
  refine mul_lt_mul_of_pos_right ?_ (two_zpow_pos _)
  show (2 : ℚ) ^ S.precision - (if false = true then 1 else 2) < _
  push_cast
  norm_num

theorem asCoded_of_eff (h : S.OK) {mode om : Round} {v : ℚ} {zs : Bool} {r : StatusAnd (IeeeFloat S)}
    (hO : Effective S mode v om) (hr : Rounds S om v zs r) : AsCoded S mode v zs r := by
  refine ⟨fun hd => hO.eq hd ▸ hr, fun hd => ?_⟩
  obtain ⟨hD, hO⟩ := hO.resolve_left (fun q => hd q.1)
  have hpos := largest_pos h
  have hN : S.nonfinite = .nanOnly := by
    by_contra hN; exact hd (fun q => absurd q hN)
  have hpat := pattern_gt_largest h hN
  have hgp := grid_pattern h
  have hi : S.fmt.hasInf = false := by simp [Sem.fmt, hN]
  rcases hO with ⟨rfl, rfl⟩ | ⟨rfl, rfl⟩
  · have hv : v ≤ -(((2 ^ S.precision - 1 : ℕ) : ℚ) * 2 ^ (S.maxExp - S.precision + 1)) := by
      by_contra hv
      exact hd (fun _ => ⟨fun _ q => absurd q hv, fun q => nomatch q⟩)
    have hsg := hr.2.2.1 (by linarith)
    refine ⟨hN, by linarith, hsg, Or.inl ⟨rfl, ?_⟩⟩
    obtain ⟨⟨g, hg, c⟩, -⟩ := hr
    have hle : g ≤ _ := hg.mono (isRounded_self .nearestTiesToEven hgp) hv
    have hlt : S.fmt.largest < |g| := by rw [abs_of_neg (by linarith)]; linarith
    rcases c with ⟨c, -⟩ | ⟨-, c⟩
    · exact absurd c (not_le.2 hlt)
    · have := Prod.ext_iff.1 c
      simpa [overflowed, hi] using this
  · have hv : v < -S.fmt.largest := by
      by_contra hv
      exact hd (fun _ => ⟨fun q => (nomatch q), fun _ q => absurd q hv⟩)
    have hsg := hr.2.2.1 (by linarith)
    refine ⟨hN, hv, hsg, Or.inr ⟨rfl, ?_⟩⟩
    obtain ⟨⟨g, hg, c⟩, -⟩ := hr
    rw [hsg] at c
    rcases c with ⟨c, c1, c2⟩ | ⟨-, c⟩
    · have hle : g ≤ _ := hg.mono (isRounded_self .towardZero (grid_signed (s := true).2 (grid_largest h))) hv.le
      have e : g = -S.fmt.largest := le_antisymm hle (_root_.abs_le.1 c).1
      subst e
      refine ⟨c1, ?_⟩
      rw [c2]
      have h1 : -S.fmt.largest ≠ v := hv.ne'
      have h2 : ¬ |-S.fmt.largest| < S.fmt.smallestNormal := by
        rw [abs_neg, abs_of_pos hpos]
        exact not_lt.2 (smallestNormal_le_largest h)
      simp only [h1, h2, ne_eq, not_false_eq_true, and_false, decide_false, decide_true]
    · have := Prod.ext_iff.1 c
      simpa [overflowed, signed] using this

/-- **C47** (partial: the full property says `Rounds` where this says `AsCoded`). The four operations, the fused multiply-add,
the conversions and scaling, on all finite operands and in all rounding modes. -/
theorem C47_operations_partial (h : S.OK) (hT : T.OK) {x y z : IeeeFloat S} (hx : x.Valid) (hy : y.Valid) (hz : z.Valid)
    (fx : x.isFinite = true) (fy : y.isFinite = true) (fz : z.isFinite = true) (mode : Round) :
    (∃ r, addR x y mode = .ok r ∧ r.value.Valid ∧ AsCoded S mode (x.toRat + y.toRat) (zeroSum mode x.sign y.sign) r) ∧
    (∃ r, subR x y mode = .ok r ∧ r.value.Valid ∧ AsCoded S mode (x.toRat - y.toRat) (zeroSum mode x.sign (!y.sign)) r) ∧
    (∃ r, mulR x y mode = .ok r ∧ r.value.Valid ∧ AsCoded S mode (x.toRat * y.toRat) (xor x.sign y.sign) r) ∧
    (y.toRat ≠ 0 → ∃ r, divR x y mode = .ok r ∧ r.value.Valid ∧ AsCoded S mode (x.toRat / y.toRat) (xor x.sign y.sign) r) ∧
    (¬ FmaWrong S mode (x.toRat * y.toRat) z.toRat → ∃ r, mulAddR x y z mode = .ok r ∧ r.value.Valid ∧
      AsCoded S mode (x.toRat * y.toRat + z.toRat) (zeroSum mode (xor x.sign y.sign) z.sign) r) ∧
    (∃ c, convertR S T x mode = .ok c ∧ c.value.Valid ∧ c.value.sign = x.sign ∧ AsCoded T mode x.toRat x.sign ⟨c.status, c.value⟩) ∧
    (∀ n : ℤ, ∃ r st, scalbnR x n mode = .ok r ∧ r.Valid ∧ r.sign = x.sign ∧ AsCoded S mode (x.toRat * 2 ^ n) x.sign ⟨st, r⟩) := by
  refine ⟨?_, ?_, ?_, fun hy0 => ?_, fun e => ?_, ?_, fun n => ?_⟩
  · obtain ⟨om, o⟩ := exists_effective S mode (x.toRat + y.toRat)
    obtain ⟨r, r1, r2, r3⟩ := addR_eff h hx hy fx fy mode o
    exact ⟨r, r1, r2, asCoded_of_eff h o r3⟩
  · obtain ⟨om, o⟩ := exists_effective S mode (x.toRat - y.toRat)
    obtain ⟨r, r1, r2, r3⟩ := subR_eff h hx hy fx fy mode o
    exact ⟨r, r1, r2, asCoded_of_eff h o r3⟩
  · obtain ⟨om, o⟩ := exists_effective S mode (x.toRat * y.toRat)
    obtain ⟨r, r1, r2, r3⟩ := mulR_eff h hx hy fx fy mode o
    exact ⟨r, r1, r2, asCoded_of_eff h o r3⟩
  · obtain ⟨om, o⟩ := exists_effective S mode (x.toRat / y.toRat)
    obtain ⟨r, r1, r2, r3⟩ := divR_eff h hx hy fx fy hy0 mode o
    exact ⟨r, r1, r2, asCoded_of_eff h o r3⟩
  · obtain ⟨om, o⟩ := exists_effective S mode (x.toRat * y.toRat + z.toRat)
    obtain ⟨r, r1, r2, r3⟩ := mulAddR_exact h hx hy hz fx fy fz mode o e
    exact ⟨r, r1, r2, asCoded_of_eff h o r3⟩
  · obtain ⟨om, o⟩ := exists_effective T mode x.toRat
    obtain ⟨c, c1, c2, c3, c4⟩ := convertR_eff h hT hx fx mode o
    exact ⟨c, c1, c2, c3, asCoded_of_eff hT o c4⟩
  · obtain ⟨om, o⟩ := exists_effective S mode (x.toRat * 2 ^ n)
    obtain ⟨r, st, r1, r2, r3, r4⟩ := scalbnR_eff h hx fx n mode o
    exact ⟨r, st, r1, r2, r3, asCoded_of_eff h o r4⟩

/-- The excluded case does occur: `-480` toward positive is in it. -/
example : ¬ DirectedOK float8E4M3FNS .towardPositive (exM448.toRat + exM32.toRat) := by
  rw [exM448_toRat, exM32_toRat]
  intro hd
  have := (hd rfl).1 rfl (by norm_num [float8E4M3FNS, Sem.default, ieeeMinExp])
  norm_num [float8E4M3FNS, Sem.default, ieeeMinExp] at this
/-- Without infinities, a value that is not NaN is finite. -/
theorem finite_of_nanOnly (hN : S.nonfinite = .nanOnly) {x : IeeeFloat S} (hx : x.Valid) (n : x.category ≠ .nan) : x.isFinite = true := by
  rw [isFinite_iff]
  cases hc : x.category
  · exfalso
    unfold Valid at hx
    simp only [hc, hN] at hx
    exact absurd hx.1 (by decide)
  · exact absurd hc n
  · exact Or.inl rfl
  · exact Or.inr rfl

theorem asCoded_mono (h : S.OK) {mode : Round} {v w : ℚ} {zs zs' : Bool} {r r' : StatusAnd (IeeeFloat S)} (hv : r.value.Valid)
    (hv' : r'.value.Valid) (hr : AsCoded S mode v zs r) (hr' : AsCoded S mode w zs' r') (hvw : v ≤ w)
    (n : r.value.category ≠ .nan) (n' : r'.value.category ≠ .nan) : r.value.datum.le r'.value.datum := by
  by_cases d : DirectedOK S mode v
  · by_cases d' : DirectedOK S mode w
    · exact C37_rounding_monotone h (hr.1 d) (hr'.1 d') hvw n n'
    · obtain ⟨hN, w1, -, w2⟩ := hr'.2 d'
      have f := finite_of_nanOnly hN hv n
      have f' := finite_of_nanOnly hN hv' n'
      obtain ⟨rfl, w3, -⟩ | ⟨rfl, w3, -⟩ := w2
      · rw [datum_finite f'] at w3; exact absurd w3 (by simp)
      exfalso
      obtain ⟨⟨g, hg, c⟩, hs⟩ := hr.1 d
      have hL := largest_pos h
      have sg := hs.2.1 (by linarith)
      obtain ⟨c, -, -⟩ | ⟨-, c⟩ := c
      · have := hg.2.1
        have := (_root_.abs_le.1 c).1
        linarith
      · have := (Prod.ext_iff.1 c).1
        have hi : S.fmt.hasInf = false := by simp [Sem.fmt, hN]
        rw [datum_finite f, sg] at this
        simp [overflowed, hi] at this
  · obtain ⟨hN, -, -, v2⟩ := hr.2 d
    have f := finite_of_nanOnly hN hv n
    have f' := finite_of_nanOnly hN hv' n'
    obtain ⟨rfl, v3, -⟩ | ⟨rfl, v3, -⟩ := v2
    · rw [datum_finite f] at v3; exact absurd v3 (by simp)
    rw [v3, datum_finite f']
    exact (_root_.abs_le.1 (abs_toRat_le h hv' f')).1

/-- **C37** for every format, with or without infinities, and in every mode, the results of C47 included: as long as neither
result is NaN, sums, differences, products with a non-negative factor, quotients by a positive divisor and conversions of
ordered operands are ordered. -/
theorem C37_all_formats (h : S.OK) (hT : T.OK) {x y z : IeeeFloat S} (hx : x.Valid) (hy : y.Valid) (hz : z.Valid)
    (fx : x.isFinite = true) (fy : y.isFinite = true) (fz : z.isFinite = true) (mode : Round) (hxy : x.toRat ≤ y.toRat) :
    (∃ r r', addR x z mode = .ok r ∧ addR y z mode = .ok r' ∧
      (r.value.category ≠ .nan → r'.value.category ≠ .nan → r.value.datum.le r'.value.datum)) ∧
    (∃ r r', subR x z mode = .ok r ∧ subR y z mode = .ok r' ∧
      (r.value.category ≠ .nan → r'.value.category ≠ .nan → r.value.datum.le r'.value.datum)) ∧
    (∃ r r', subR z x mode = .ok r ∧ subR z y mode = .ok r' ∧
      (r.value.category ≠ .nan → r'.value.category ≠ .nan → r'.value.datum.le r.value.datum)) ∧
    (∃ r r', mulR x z mode = .ok r ∧ mulR y z mode = .ok r' ∧ (r.value.category ≠ .nan → r'.value.category ≠ .nan →
      (0 ≤ z.toRat → r.value.datum.le r'.value.datum) ∧ (z.toRat ≤ 0 → r'.value.datum.le r.value.datum))) ∧
    (z.toRat ≠ 0 → ∃ r r', divR x z mode = .ok r ∧ divR y z mode = .ok r' ∧ (r.value.category ≠ .nan → r'.value.category ≠ .nan →
      (0 < z.toRat → r.value.datum.le r'.value.datum) ∧ (z.toRat < 0 → r'.value.datum.le r.value.datum))) ∧
    (∃ r r', convertR S T x mode = .ok r ∧ convertR S T y mode = .ok r' ∧
      (r.value.category ≠ .nan → r'.value.category ≠ .nan → r.value.datum.le r'.value.datum)) := by
  obtain ⟨⟨a, a1, a2, a3⟩, ⟨b, b1, b2, b3⟩, ⟨c, c1, c2, c3⟩, hd, -, ⟨e, e1, e2, -, e3⟩, -⟩ := C47_operations_partial h hT hx hz hz fx fz fz mode
  obtain ⟨⟨a', a1', a2', a3'⟩, ⟨b', b1', b2', b3'⟩, ⟨c', c1', c2', c3'⟩, hd', -, ⟨e', e1', e2', -, e3'⟩, -⟩ := C47_operations_partial h hT hy hz hz fy fz fz mode
  obtain ⟨-, ⟨g, g1, g2, g3⟩, -⟩ := C47_operations_partial h hT hz hx hz fz fx fz mode
  obtain ⟨-, ⟨g', g1', g2', g3'⟩, -⟩ := C47_operations_partial h hT hz hy hz fz fy fz mode
  refine ⟨⟨a, a', a1, a1', asCoded_mono h a2 a2' a3 a3' (by linarith)⟩, ⟨b, b', b1, b1', asCoded_mono h b2 b2' b3 b3' (by linarith)⟩,
    ⟨g, g', g1, g1', fun n n' => asCoded_mono h g2' g2 g3' g3 (by linarith) n' n⟩, ⟨c, c', c1, c1', fun n n' => ⟨fun q => ?_, fun q => ?_⟩⟩,
    fun z0 => ?_, ⟨e, e', e1, e1', fun n n' => asCoded_mono (r := ⟨e.status, e.value⟩) (r' := ⟨e'.status, e'.value⟩) hT e2 e2' e3 e3' hxy n n'⟩⟩
  · exact asCoded_mono h c2 c2' c3 c3' (mul_le_mul_of_nonneg_right hxy q) n n'
  · exact asCoded_mono h c2' c2 c3' c3 (mul_le_mul_of_nonpos_right hxy q) n' n
  · obtain ⟨d, d1, d2, d3⟩ := hd z0
    obtain ⟨d', d1', d2', d3'⟩ := hd' z0
    refine ⟨d, d', d1, d1', fun n n' => ⟨fun q => ?_, fun q => ?_⟩⟩
    · exact asCoded_mono h d2 d2' d3 d3' (div_le_div_of_nonneg_right hxy q.le) n n'
    · exact asCoded_mono h d2' d2 d3' d3 (div_le_div_of_nonpos_of_le q.le hxy) n' n

/-! Non-vacuity: `-448 - 32` and `-32 - 32` toward negative, the first one a case of C47. -/
example := C37_all_formats float8E4M3FNS_ok singleS_ok (x := exM448) (y := exM32) (z := exM32) (by decide) (by decide) (by decide)
  rfl rfl rfl .towardNegative (by rw [exM448_toRat, exM32_toRat]; norm_num)

end Apf
