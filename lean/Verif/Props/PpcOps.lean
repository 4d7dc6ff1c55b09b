import Verif.Props.Ppc
import Verif.Props.Display
import Verif.Props.FmaExact
/-!
# C50 – C56: the operations DoubleDouble carries out in the 106-bit format

Operands are the pairs the 106-bit format represents (`Fits`); the results are such pairs again (`PairRounds.fits`).
-/

namespace Apf
open Spec IeeeFloat
variable {S : Sem}

theorem overflowed_fst {F : Fmt} (hF : F.hasInf = true) (mode : Round) (neg : Bool) :
    (overflowed F mode neg).1 = .inf neg ∨ (overflowed F mode neg).1 = .num neg (signed neg F.largest) := by
  unfold overflowed
  cases mode <;> cases neg <;> simp [hF]

theorem mapFrom_outcome (h : S.Pair) {mode : Round} {v : ℚ} {zs : Bool} {r : StatusAnd (IeeeFloat (fallbackS S))}
    (hv : r.value.Valid) (hr : Rounds (fallbackS S) mode v zs r) : PairOutcome S mode v zs (DoubleFloat.mapFrom r) := by
  obtain ⟨hd, hs⟩ := hr
  refine ⟨r.value.sign, r.value.datum, r.status, by rw [← fallback_fmt S h.ieee]; exact hd, hs, ?_, ?_⟩
  · intro hb
    have fr : r.value.isFinite = true := by
      rw [isFinite_iff]
      unfold datum at hb
      cases c : r.value.category <;> rw [c] at hb <;> simp_all [Datum.Beyond]
    rw [datum_finite fr] at hb
    unfold DoubleFloat.mapFrom
    rw [ofFallback_overflow h hv fr hb]
    rfl
  · intro hb
    by_cases fr : r.value.isFinite = true
    · rw [datum_finite fr] at hb
      obtain ⟨d, d1, d2, d3, d4, d5, -⟩ := ofFallback_ok h hv fr (not_le.1 hb)
      refine ⟨d, ?_, ⟨d2, Or.inl d3⟩, ?_, d5⟩
      · unfold DoubleFloat.mapFrom; rw [d1]; rfl
      · rw [pair_datum_finite d3.1.1, datum_finite fr, d4, d5]
    · have hi : r.value.category = .infinity := by
        obtain ⟨g, -, g2⟩ := hd
        rw [isFinite_iff] at fr
        rcases g2 with ⟨-, g2, -⟩ | ⟨-, g2⟩
        · unfold datum at g2
          cases c : r.value.category <;> rw [c] at g2 <;> simp_all
        · have := congrArg Prod.fst g2
          simp only at this
          rcases overflowed_fst (F := (fallbackS S).fmt) rfl mode r.value.sign with e | e <;> rw [e] at this <;> unfold datum at this <;>
            cases c : r.value.category <;> rw [c] at this <;> simp_all
      refine ⟨⟨{ INFINITY S with sign := r.value.sign }, ZERO S⟩, ?_, ⟨⟨?_, rfl⟩, Or.inr ⟨?_, toRat_zero (x := ZERO S) rfl, rfl⟩⟩, ?_, rfl⟩
      · unfold DoubleFloat.mapFrom
        rw [ofFallback_inf h hi]; rfl
      · unfold INFINITY Valid; rw [h.ieee]; simp
      · unfold INFINITY; rw [h.ieee]; rfl
      · simp [DoubleFloat.datum, datum, hi, INFINITY, h.ieee]

theorem largest_lt_overflowAt (h : S.Pair) : S.fmt.largest < S.fmt.overflowAt := by
  have hu := two_zpow_pos (S.maxExp - S.precision)
  rw [overflowAt_eq h.ieee]; linarith

/-- In the range of the parts the outcome is the correctly rounded pair. -/
theorem PairOutcome.in_range (h : S.Pair) {mode : Round} {v : ℚ} {zs : Bool} {o : M (StatusAnd (DoubleFloat S))} (ho : PairOutcome S mode v zs o)
    (hl : |v| ≤ S.fmt.largest) : ∃ r, o = .ok r ∧ PairRounds S mode v zs r := by
  obtain ⟨neg, d, st, h1, h2, -, h4⟩ := ho
  obtain ⟨g, g1, g2⟩ := id h1
  have hL : S.fmt.doubled.Grid S.fmt.largest := grid_doubled (grid_largest h.ok)
  have gl : |g| ≤ S.fmt.largest := by
    rw [abs_le] at hl ⊢
    exact ⟨g1.ge_of_grid hL.neg hl.1, g1.le_of_grid hL hl.2⟩
  have go := gl.trans_lt (largest_lt_overflowAt h)
  have gL : |g| ≤ S.fmt.doubled.largest := by
    rw [← fallback_fmt S h.ieee]; exact fits_le_largest h g1.1 go
  rcases g2 with ⟨-, g2, g3⟩ | ⟨g2, -⟩
  · obtain ⟨r, r1, r2, r3, r4⟩ := h4 (by rw [g2]; exact not_le.2 go)
    have hf : r.hi.isFinite = true := by
      rw [isFinite_iff]
      rw [g2] at r3
      unfold DoubleFloat.datum datum at r3
      cases c : r.hi.category <;> rw [c] at r3 <;> simp_all
    refine ⟨⟨st, r⟩, r1, ?_, ?_, r2.1, ?_⟩
    · show Delivers _ _ _ r.isNegative r.datum st
      rw [r3, r4]; exact h1
    · show SignRule v zs r.isNegative
      rw [r4]; exact h2
    · rcases r2.2 with c | c
      · exact c
      · rw [hf] at c; exact absurd c.1 (by decide)
  · exact absurd gL (not_le.2 g2)

/-- A delivered pair is again one the 106-bit format represents. -/
theorem PairRounds.fits (h : S.Pair) {mode : Round} {v : ℚ} {zs : Bool} {r : StatusAnd (DoubleFloat S)} (hr : PairRounds S mode v zs r) : r.value.Fits := by
  obtain ⟨⟨g, g1, g2⟩, -, h3, h4⟩ := hr
  refine ⟨h3, h4, ?_⟩
  rw [pair_datum_finite h4.1.1] at g2
  rcases g2 with ⟨-, g2, -⟩ | ⟨-, g2⟩
  · simp only [Datum.num.injEq] at g2
    rw [g2.2]; exact g1.1
  · have := congrArg Prod.fst g2
    simp only at this
    rw [← fallback_fmt S h.ieee] at this ⊢
    have hg := grid_largest h.fb
    rcases overflowed_fst (F := (fallbackS S).fmt) rfl mode r.value.isNegative with e | e <;> rw [e] at this
    · cases this
    · simp only [Datum.num.injEq] at this
      rw [this.2]
      unfold signed
      split_ifs
      · exact hg.neg
      · exact hg

/-! ## C50: division -/

/-- **C50.** Division is correctly rounded to 106 bits. -/
theorem C50_div (h : S.Pair) {x y : DoubleFloat S} (hx : x.Fits) (hy : y.Fits) (hy0 : y.toRat ≠ 0) (mode : Round) :
    PairOutcome S mode (x.toRat / y.toRat) (xor x.isNegative y.isNegative) (x.divR y mode) := by
  obtain ⟨u, u1, u2, u3, u4, u5⟩ := toFallback_fits h hx
  obtain ⟨w, w1, w2, w3, w4, w5⟩ := toFallback_fits h hy
  obtain ⟨r, r1, r2, r3⟩ := divR_finite h.fb u2 w2 u3 w3 (by rw [w4]; exact hy0) mode (directedOK_of_ieee rfl _ _)
  unfold DoubleFloat.divR
  rw [u1, w1]
  simp only [M.ok_bind]
  rw [r1]
  simp only [M.ok_bind]
  rw [u4, w4, u5, w5] at r3
  exact mapFrom_outcome h r2 r3

/-! ## C51: fused multiply-add -/

/-- **C51.** `mul_add` is correctly rounded to 106 bits, outside the operands of C08. -/
theorem C51_mul_add_partial (h : S.Pair) {x m z : DoubleFloat S} (hx : x.Fits) (hm : m.Fits) (hz : z.Fits) (mode : Round)
    (hE : ¬ FmaWrong (fallbackS S) mode (x.toRat * m.toRat) z.toRat) :
    PairOutcome S mode (x.toRat * m.toRat + z.toRat) (zeroSum mode (xor x.isNegative m.isNegative) z.isNegative) (x.mulAddR m z mode) := by
  obtain ⟨u, u1, u2, u3, u4, u5⟩ := toFallback_fits h hx
  obtain ⟨w, w1, w2, w3, w4, w5⟩ := toFallback_fits h hm
  obtain ⟨t, t1, t2, t3, t4, t5⟩ := toFallback_fits h hz
  obtain ⟨r, r1, r2, r3⟩ := mulAddR_exact h.fb u2 w2 t2 u3 w3 t3 mode (.of (directedOK_of_ieee rfl _ _)) (by rw [u4, w4, t4]; exact hE)
  unfold DoubleFloat.mulAddR
  rw [u1, w1, t1]
  simp only [M.ok_bind]
  rw [r1]
  simp only [M.ok_bind]
  rw [u4, w4, t4, u5, w5, t5] at r3
  exact mapFrom_outcome h r2 r3

/-! ## C52: remainders -/

theorem ofFallback_fits (h : S.Pair) {x : IeeeFloat (fallbackS S)} (hx : x.Valid) (fx : x.isFinite = true) (hl : |x.toRat| < S.fmt.overflowAt) :
    ∃ d : DoubleFloat S, DoubleFloat.ofFallback x = .ok d ∧ d.Fits ∧ d.toRat = x.toRat ∧ d.isNegative = x.sign := by
  obtain ⟨d, d1, d2, d3, d4, d5, -⟩ := ofFallback_ok h hx fx hl
  exact ⟨d, d1, ⟨d2, d3, by rw [d4, ← fallback_fmt S h.ieee]; exact grid_toRat h.fb hx fx⟩, d4, d5⟩

theorem mapFrom_exact (h : S.Pair) {st : Status} {x : IeeeFloat (fallbackS S)} (hx : x.Valid) (fx : x.isFinite = true) (hl : |x.toRat| < S.fmt.overflowAt) :
    ∃ d : DoubleFloat S, DoubleFloat.mapFrom ⟨st, x⟩ = .ok ⟨st, d⟩ ∧ d.Fits ∧ d.toRat = x.toRat ∧ d.isNegative = x.sign := by
  obtain ⟨d, d1, d2⟩ := ofFallback_fits h hx fx hl
  refine ⟨d, ?_, d2⟩
  unfold DoubleFloat.mapFrom
  rw [d1]; rfl

/-- **C52.** `c_fmod` is exact: `x - n*y` with `n` the quotient truncated, with the sign of `x`. -/
theorem C52_c_fmod (h : S.Pair) {x y : DoubleFloat S} (hx : x.Fits) (hy : y.Fits) (hy0 : y.toRat ≠ 0) :
    ∃ r, x.cFmod y = .ok ⟨Status.OK, r⟩ ∧ r.Fits ∧ r.isNegative = x.isNegative ∧
      ∃ n : ℤ, RoundsToInt .towardZero (x.toRat / y.toRat) n ∧ r.toRat = x.toRat - n * y.toRat := by
  obtain ⟨u, u1, u2, u3, u4, u5⟩ := toFallback_fits h hx
  obtain ⟨w, w1, w2, w3, w4, w5⟩ := toFallback_fits h hy
  obtain ⟨r, r1, r2, r3, r4, -, r5, ⟨n, n2⟩, s1, s2⟩ := cFmod_ok h.fb u2 w2 u3 w3 (by rw [w4]; exact hy0)
  rw [u4] at s1 s2
  rw [u4, w4] at n2
  rw [w4] at r5
  obtain ⟨d, d1, d2, d3, d4⟩ := mapFrom_exact h (st := Status.OK) r2 r3 (r5.trans (Canonical.lt_overflowAt h hy.1 hy.2.1))
  have n1 := trunc_of_rem hy0 n2 r5 s1 s2
  refine ⟨d, ?_, d2, ?_, n, n1, d3.trans n2⟩
  · unfold DoubleFloat.cFmod
    rw [u1, w1]
    simp only [M.ok_bind]
    rw [r1]
    exact d1
  · rw [d4, r4, u5]; rfl

/-- **C52.** `ieee_rem` is exact: `x - n*y` with `n` the integer nearest to the quotient, ties to even. -/
theorem C52_ieee_rem (h : S.Pair) {x y : DoubleFloat S} (hx : x.Fits) (hy : y.Fits) (hy0 : y.toRat ≠ 0) :
    ∃ r, x.ieeeRem y = .ok ⟨Status.OK, r⟩ ∧ r.Fits ∧ (r.toRat = 0 → r.isNegative = x.isNegative) ∧
      ∃ n : ℤ, RoundsToInt .nearestTiesToEven (x.toRat / y.toRat) n ∧ r.toRat = x.toRat - n * y.toRat := by
  obtain ⟨u, u1, u2, u3, u4, u5⟩ := toFallback_fits h hx
  obtain ⟨w, w1, w2, w3, w4, w5⟩ := toFallback_fits h hy
  obtain ⟨r, r1, r2, r3, r4, n, n1, n2⟩ := C24_ieee_rem h.fb u2 w2 u3 w3 (by rw [w4]; exact hy0)
  rw [u4, w4] at n1 n2
  have hle : |r.toRat| ≤ |y.toRat| := by
    rw [n2]
    have h1 : x.toRat - n * y.toRat = (x.toRat / y.toRat - n) * y.toRat := by field_simp
    rw [h1, abs_mul]
    have := n1.1
    nlinarith [abs_nonneg y.toRat]
  obtain ⟨d, d1, d2, d3, d4⟩ := mapFrom_exact h (st := Status.OK) r2 r3 (hle.trans_lt (Canonical.lt_overflowAt h hy.1 hy.2.1))
  refine ⟨d, ?_, d2, ?_, n, n1, d3.trans n2⟩
  · unfold DoubleFloat.ieeeRem
    rw [u1, w1]
    simp only [M.ok_bind]
    rw [r1]
    exact d1
  · intro e
    rw [d4, r4 (by rw [← d3]; exact e), u5]; rfl
/-! ## C53: rounding to an integral value -/

theorem RoundsToInt.abs_le {mode : Round} {v : ℚ} {n B : ℤ} (h : RoundsToInt mode v n) (hv : |v| ≤ B) : |(n : ℚ)| ≤ B := by
  obtain ⟨a, b⟩ := _root_.abs_le.1 hv
  have key : -B ≤ n ∧ n ≤ B := by
    cases mode
    · obtain ⟨h1, h2⟩ := h
      have h3 := _root_.abs_le.1 (show |v - n| ≤ 1 / 2 by linarith)
      constructor
      · have : (-B : ℚ) < n + 1 := by linarith [h3.1, h3.2]
        exact_mod_cast Int.lt_add_one_iff.1 (by exact_mod_cast this)
      · have : (n : ℚ) < B + 1 := by linarith [h3.1, h3.2]
        exact Int.lt_add_one_iff.1 (by exact_mod_cast this)
    · obtain ⟨h1, h2⟩ := h
      constructor
      · have : (-B : ℚ) ≤ n := by linarith
        exact_mod_cast this
      · have : (n : ℚ) < B + 1 := by linarith
        exact Int.lt_add_one_iff.1 (by exact_mod_cast this)
    · obtain ⟨h1, h2⟩ := h
      constructor
      · have : (-B : ℚ) < n + 1 := by linarith
        exact_mod_cast Int.lt_add_one_iff.1 (by exact_mod_cast this)
      · have : (n : ℚ) ≤ B := by linarith
        exact_mod_cast this
    · obtain ⟨h1, h2⟩ := h
      rcases le_total 0 v with c | c
      · obtain ⟨h3, h4⟩ := h1 c
        constructor
        · have : (-B : ℚ) < n + 1 := by linarith
          exact_mod_cast Int.lt_add_one_iff.1 (by exact_mod_cast this)
        · have : (n : ℚ) ≤ B := by linarith
          exact_mod_cast this
      · obtain ⟨h3, h4⟩ := h2 c
        constructor
        · have : (-B : ℚ) ≤ n := by linarith
          exact_mod_cast this
        · have : (n : ℚ) < B + 1 := by linarith
          exact Int.lt_add_one_iff.1 (by exact_mod_cast this)
    · obtain ⟨h1, h2⟩ := h
      have h3 := _root_.abs_le.1 (show |v - n| ≤ 1 / 2 by linarith)
      constructor
      · have : (-B : ℚ) < n + 1 := by linarith [h3.1, h3.2]
        exact_mod_cast Int.lt_add_one_iff.1 (by exact_mod_cast this)
      · have : (n : ℚ) < B + 1 := by linarith [h3.1, h3.2]
        exact Int.lt_add_one_iff.1 (by exact_mod_cast this)
  rw [_root_.abs_le]
  exact ⟨by exact_mod_cast key.1, by exact_mod_cast key.2⟩

/-- **C53.** `round_to_integral` delivers the integer the mode prescribes, with `INEXACT` iff it differs; the sign is kept. -/
theorem C53_round_to_integral (h : S.Pair) (hw : 2 * (S.precision : ℤ) ≤ S.maxExp) {x : DoubleFloat S} (hx : x.Fits) (mode : Round) :
    ∃ r, x.roundToIntegral mode = .ok r ∧ r.value.Fits ∧ r.value.isNegative = x.isNegative ∧
      ∃ n : ℤ, RoundsToInt mode x.toRat n ∧ r.value.toRat = n ∧ r.status = { inexact := decide ((n : ℚ) ≠ x.toRat) } := by
  obtain ⟨u, u1, u2, u3, u4, u5⟩ := toFallback_fits h hx
  obtain ⟨r, r1, r2, r3, r4, n, n1, n2, n3⟩ := C13_round_to_integral h.fb u2 u3 mode
  rw [u4] at n1 n3
  have hlt : |r.value.toRat| < S.fmt.overflowAt := by
    rw [n2]
    by_cases hb : (2 : ℚ) ^ ((fallbackS S).precision - 1) ≤ |x.toRat|
    · obtain ⟨k, hk⟩ := grid_big_int h.fb (g := x.toRat) (by rw [fallback_fmt S h.ieee]; exact hx.2.2) hb
      rw [hk] at n1
      rw [n1.of_int, ← hk]
      exact Canonical.lt_overflowAt h hx.1 hx.2.1
    · have hB : |x.toRat| ≤ ((2 ^ (S.precision * 2 - 1) : ℤ) : ℚ) := by push_cast; exact (not_le.1 hb).le
      have := RoundsToInt.abs_le n1 hB
      refine this.trans_lt ?_
      have hp := h.ok.p_ge
      have e1 : ((2 ^ (S.precision * 2 - 1) : ℤ) : ℚ) = (2 : ℚ) ^ ((S.precision : ℤ) * 2 - 1) := by
        push_cast
        rw [← zpow_natCast]; congr 1; omega
      rw [e1]
      unfold Spec.Fmt.overflowAt
      show _ < (2 : ℚ) ^ (S.maxExp + 1) - 2 ^ (S.maxExp - S.precision)
      have e2 : (2 : ℚ) ^ (S.maxExp - S.precision) < 2 ^ S.maxExp := zpow_lt_zpow_right₀ (by norm_num) (by omega)
      have e3 : (2 : ℚ) ^ ((S.precision : ℤ) * 2 - 1) < 2 ^ S.maxExp := zpow_lt_zpow_right₀ (by norm_num) (by omega)
      have e4 : (2 : ℚ) ^ (S.maxExp + 1) = 2 ^ S.maxExp * 2 := by rw [two_zpow_add S.maxExp 1]; norm_num
      linarith
  obtain ⟨d, d1, d2, d3, d4⟩ := mapFrom_exact h (st := r.status) r2 r3 hlt
  refine ⟨⟨r.status, d⟩, ?_, d2, ?_, n, n1, d3.trans n2, n3⟩
  · unfold DoubleFloat.roundToIntegral
    rw [u1]
    simp only [M.ok_bind]
    rw [r1]
    exact d1
  · show d.isNegative = _
    rw [d4, r4, u5]; rfl

/-! ## C54: integers -/

/-- **C54.** `from_u128` is correctly rounded to 106 bits. -/
theorem C54_from_u128 (h : S.Pair) {n : ℕ} (hn : n < 2 ^ 128) (mode : Round) : PairOutcome S mode n false (DoubleFloat.fromU128R S n mode) := by
  obtain ⟨r, r1, r2, r3⟩ := C17_from_u128 h.fb hn mode
  unfold DoubleFloat.fromU128R
  rw [r1]
  exact mapFrom_outcome h r2 r3

example := C54_from_u128 doubleS_pair (n := 2 ^ 127 + 1) (by norm_num) .towardPositive

theorem neg_fits {x : DoubleFloat S} (hx : x.Fits) : x.neg.Fits := by
  obtain ⟨hv, hc, hg⟩ := hx
  have hs : x.neg.hi = x.hi.neg := by unfold DoubleFloat.neg; split_ifs <;> rfl
  obtain ⟨n1, -⟩ := C43_neg hc.1
  have hl : x.neg.lo = x.lo.neg ∨ x.neg.lo = x.lo := by
    unfold DoubleFloat.neg; split_ifs
    · exact Or.inl rfl
    · exact Or.inr rfl
  refine ⟨⟨?_, ?_⟩, ⟨⟨?_, ?_⟩, ?_⟩, ?_⟩
  · rw [hs]; exact neg_valid hv.1
  · rcases hl with e | e <;> rw [e]
    · exact neg_valid hv.2
    · exact hv.2
  · rw [hs, neg_finite]; exact hc.1.1
  · rcases hl with e | e <;> rw [e]
    · rw [neg_finite]; exact hc.1.2
    · exact hc.1.2
  · rw [n1, hs, neg_toRat]; exact hc.2.neg
  · rw [n1]; exact hg.neg

/-- **C54.** `from_i128` is correctly rounded to 106 bits (the range contains all `i128` values). -/
theorem C54_from_i128 (h : S.Pair) (hM : 128 ≤ S.maxExp) {n : ℤ} (h1 : -2 ^ 127 ≤ n) (h2 : n < 2 ^ 127) (mode : Round) :
    ∃ r, DoubleFloat.fromI128R S n mode = .ok r ∧ PairRounds S mode n false r := by
  have hL : ∀ k : ℕ, k < 2 ^ 128 → |(k : ℚ)| ≤ S.fmt.largest := by
    intro k hk
    rw [abs_of_nonneg (by positivity)]
    have e1 : (k : ℚ) ≤ 2 ^ (128 : ℤ) := by
      have : (k : ℚ) ≤ ((2 ^ 128 : ℕ) : ℚ) := by exact_mod_cast hk.le
      refine this.trans (le_of_eq ?_)
      push_cast; norm_num
    have e2 : (2 : ℚ) ^ (128 : ℤ) ≤ 2 ^ S.maxExp := zpow_le_zpow_right₀ (by norm_num) hM
    have e3 : (2 : ℚ) ^ S.maxExp ≤ S.fmt.largest := by
      rw [largest_ieee h.ieee]
      have hp := h.ok.p_ge
      have e4 : (2 : ℚ) ^ (S.maxExp + 1) = 2 ^ S.maxExp * 2 := by rw [two_zpow_add S.maxExp 1]; norm_num
      have e5 : (2 : ℚ) ^ (S.maxExp - S.precision + 1) ≤ 2 ^ S.maxExp := zpow_le_zpow_right₀ (by norm_num) (by omega)
      linarith
    linarith
  unfold DoubleFloat.fromI128R
  split_ifs with c
  · obtain ⟨r, r1, r2⟩ := (C54_from_u128 h (n := (-n).toNat) (by omega) mode.neg).in_range h (hL _ (by omega))
    have hv : (((-n).toNat : ℕ) : ℚ) = -n := by
      have : (((-n).toNat : ℕ) : ℤ) = -n := by omega
      exact_mod_cast this
    have hf := r2.fits h
    obtain ⟨d, e, -, -⟩ := r2
    obtain ⟨-, n2, n3, -⟩ := C43_neg hf.2.1.1
    obtain ⟨f1, f2, -⟩ := neg_fits hf
    rw [hv] at d e
    have cq : (n : ℚ) < 0 := by exact_mod_cast c
    refine ⟨r.map DoubleFloat.neg, by rw [r1]; rfl, ?_, ?_, f1, f2⟩
    · have := d.neg
      rw [neg_negateIf, neg_neg] at this
      show Delivers S.fmt.doubled mode n r.value.neg.isNegative r.value.neg.datum r.status
      rw [n2, n3]
      exact this
    · have : r.value.isNegative = false := e.1 (by linarith)
      refine ⟨fun k => absurd k (by linarith), fun _ => ?_, fun k => absurd k (by linarith)⟩
      show r.value.neg.isNegative = true
      rw [n2, this]; rfl
  · obtain ⟨r, r1, r2⟩ := (C54_from_u128 h (n := n.toNat) (by omega) mode).in_range h (hL _ (by omega))
    have hv : ((n.toNat : ℕ) : ℚ) = n := by
      have : ((n.toNat : ℕ) : ℤ) = n := by omega
      exact_mod_cast this
    rw [hv] at r2
    exact ⟨r, r1, r2⟩

example := C54_from_i128 doubleS_pair (by decide) (n := -2 ^ 126 - 1) (by norm_num) (by norm_num) .towardPositive

/-- **C54.** `to_u128`. -/
theorem C54_to_u128 (h : S.Pair) {x : DoubleFloat S} (hx : x.Fits) (hz : ¬ (x.isZero = true ∧ x.isNegative = true)) {w : ℕ} (w1 : 1 ≤ w) (w2 : w ≤ 128)
    (mode : Round) : ∃ r, x.toU128R w mode = .ok r ∧ ConvertsToInt 0 (2 ^ w - 1) mode x.toRat r.status r.value r.isExact := by
  obtain ⟨u, u1, u2, u3, u4, u5⟩ := toFallback_fits h hx
  have hz' : ¬ (u.isZero = true ∧ u.sign = true) := by
    rintro ⟨a, b⟩
    apply hz
    have : x.toRat = 0 := by rw [← u4]; exact toRat_zero (by simpa [isZero] using a)
    exact ⟨(pair_zero h.ok ⟨hx.1, Or.inl hx.2.1⟩ (m := x.isNegative) (by rw [pair_datum_finite hx.2.1.1.1, this]; rfl)).1, u5.symm.trans b⟩
  obtain ⟨r, r1, r2⟩ := C18_to_u128 h.fb u2 u3 hz' w1 w2 mode
  rw [u4] at r2
  refine ⟨r, ?_, r2⟩
  unfold DoubleFloat.toU128R
  rw [u1]
  exact r1

/-- **C54.** `to_i128`. -/
theorem C54_to_i128 (h : S.Pair) {x : DoubleFloat S} (hx : x.Fits) {w : ℕ} (w1 : 2 ≤ w) (w2 : w ≤ 128) (mode : Round) :
    ∃ r, x.toI128R w mode = .ok r ∧ ConvertsToInt (-2 ^ (w - 1)) (2 ^ (w - 1) - 1) mode x.toRat r.status r.value r.isExact := by
  by_cases hs : x.isNegative = true
  · obtain ⟨u, u1, u2, u3, u4, u5⟩ := toFallback_fits h (neg_fits hx)
    obtain ⟨n1, n2, -⟩ := C43_neg hx.2.1.1
    obtain ⟨r, r1, r2⟩ := C19_to_i128 h.fb (neg_valid u2) (by rw [neg_finite]; exact u3) w1 w2 mode
    rw [neg_toRat, u4, n1, neg_neg] at r2
    refine ⟨r, ?_, r2⟩
    have hnn : u.neg.neg = u := by simp [neg, isNegative]
    have hsn : u.neg.isNegative = true := by
      have : u.sign = false := u5.trans (n2.trans (by rw [hs]; rfl))
      simp [neg, isNegative, this]
    unfold DoubleFloat.toI128R DoubleFloat.toU128R
    unfold toI128R at r1
    rw [if_pos hs, u1]
    rw [if_pos hsn, hnn] at r1
    exact r1
  · obtain ⟨u, u1, u2, u3, u4, u5⟩ := toFallback_fits h hx
    obtain ⟨r, r1, r2⟩ := C19_to_i128 h.fb u2 u3 w1 w2 mode
    rw [u4] at r2
    refine ⟨r, ?_, r2⟩
    have hsn : ¬ u.isNegative = true := by
      show ¬ u.sign = true
      rw [u5]; exact hs
    unfold DoubleFloat.toI128R DoubleFloat.toU128R
    unfold toI128R at r1
    rw [if_neg hs, u1]
    rw [if_neg hsn] at r1
    exact r1
/-! ## C55: text -/

/-- A 106-bit value equal to a pair is turned into that pair. -/
theorem ofFallback_same (h : S.Pair) {d : DoubleFloat S} (hd : d.Fits) {x : IeeeFloat (fallbackS S)} (hx : x.Valid) (fx : x.isFinite = true)
    (hv : x.toRat = d.toRat) (hs : x.sign = d.isNegative) :
    ∃ d' : DoubleFloat S, DoubleFloat.ofFallback x = .ok d' ∧ d'.Fits ∧ d'.hi.bitwiseEq d.hi = true ∧ d'.lo.toRat = d.lo.toRat := by
  obtain ⟨d', d1, d2, d3, d4⟩ := ofFallback_fits h hx fx (by rw [hv]; exact Canonical.lt_overflowAt h hd.1 hd.2.1)
  have hh : d'.hi.toRat = d.hi.toRat := by
    have a := d2.2.1.2
    rw [d3, hv] at a
    exact a.unique hd.2.1.2
  refine ⟨d', d1, d2, ?_, ?_⟩
  · have e : d'.hi.sign = d.hi.sign := d4.trans hs
    rw [C03_bitwise_eq_iff_datum h.ok d2.1.1 hd.1.1 (not_nan_of_finite d2.2.1.1.1), datum_finite d2.2.1.1.1, datum_finite hd.2.1.1.1, hh, e]
  · have e1 : d'.hi.toRat + d'.lo.toRat = d.hi.toRat + d.lo.toRat := d3.trans hv
    rw [hh] at e1
    linarith

/-- **C55.** Hexadecimal literals in range are correctly rounded to 106 bits, in every mode. -/
theorem C55_hex (h : S.Pair) (hp : S.precision * 2 ≤ 125) (fuel : ℕ) (sg : LitSign) {c : Char} (hc : c = 'x' ∨ c = 'X')
    {t : List Char} (hlen : t.length < 2 ^ 28) {v : ℚ} (ht : IsHex t v) (hl : |v| ≤ S.fmt.largest) (mode : Round) :
    ∃ r, DoubleFloat.fromStrR S fuel (sg.chars ++ '0' :: c :: t) mode = .ok (.ok r) ∧
      PairRounds S mode (signed (sg == .minus) v) (sg == .minus) r := by
  obtain ⟨r, r1, r2, r3, -⟩ := C30_hex h.fb hp fuel sg hc hlen ht mode
  obtain ⟨d, d1, d2⟩ := mapFrom_ok h r2 r3 (by unfold signed; split_ifs <;> simpa using hl)
  refine ⟨d, ?_, d2⟩
  unfold DoubleFloat.fromStrR
  rw [r1]
  simp only [M.ok_bind]
  rw [d1]
  rfl

/-- **C55.** Decimal literals in range are rounded correctly to 106 bits in the nearest modes. -/
theorem C55_decimal (h : S.Pair) (hp : S.precision * 2 ≤ 120) {fuel : ℕ} (hfuel : 23 ≤ fuel) (sg : LitSign) {t : List Char}
    (hlen : t.length < 2 ^ 27) {v : ℚ} (ht : IsDec t v) (hl : |v| ≤ S.fmt.largest) {mode : Round}
    (hm : mode = .nearestTiesToEven ∨ mode = .nearestTiesToAway) :
    ∃ r st, DoubleFloat.fromStrR S fuel (sg.chars ++ t) mode = .ok (.ok r) ∧
      PairRounds S mode (signed (sg == .minus) v) (sg == .minus) ⟨st, r.value⟩ := by
  obtain ⟨r, st, r1, r2, r3, -⟩ := C31_nearest h.fb hp hfuel sg hlen ht hm
  obtain ⟨d, d1, d2⟩ := mapFrom_ok h (r := ⟨st, r.value⟩) r2 r3 (by unfold signed; split_ifs <;> simpa using hl)
  have e : ∃ w, DoubleFloat.ofFallback r.value = .ok w ∧ d = ⟨st, w⟩ := by
    unfold DoubleFloat.mapFrom at d1
    dsimp only at d1
    cases hh : DoubleFloat.ofFallback r.value with
    | error e => rw [hh] at d1; cases d1
    | ok w => rw [hh] at d1; cases d1; exact ⟨w, rfl, rfl⟩
  obtain ⟨w, w1, rfl⟩ := e
  refine ⟨⟨r.status, w⟩, st, ?_, d2⟩
  unfold DoubleFloat.fromStrR DoubleFloat.mapFrom
  rw [r1]
  simp only [M.ok_bind]
  rw [w1]
  rfl

/-- **C55.** Strings that are not literals are rejected with an error. -/
theorem C55_reject (fuel : ℕ) {s : List Char} (hs : ¬ ∃ l, Denotes s l) (mode : Round) :
    ∃ e, DoubleFloat.fromStrR S fuel s mode = .ok (.error e) := by
  obtain ⟨e, he⟩ := C32_reject (S := fallbackS S) fuel hs mode
  refine ⟨e, ?_⟩
  unfold DoubleFloat.fromStrR
  rw [he]
  rfl

/-- **C55.** The text of a non-zero pair with `P` digits renders the represented number. -/
theorem C55_display (h : S.Pair) {x : DoubleFloat S} (hx : x.Fits) (h0 : x.toRat ≠ 0) {P : ℕ} (hP : 1 ≤ P) (hP2 : P * 196 + 58 < 2 ^ 64) :
    ∃ w, Renders P |x.toRat| w ∧ ∀ (width : Option ℕ) (alt : Bool), ∃ t, x.display width (some P) alt = .ok (signText x.isNegative ++ t) ∧ IsDec t w := by
  obtain ⟨u, u1, u2, u3, u4, u5⟩ := toFallback_fits h hx
  have hz : u.isZero = false := by
    by_contra hc
    have : u.category = .zero := by simpa [isZero] using hc
    exact h0 (by rw [← u4]; exact toRat_zero this)
  obtain ⟨w, w1, w2⟩ := C34_accuracy h.fb u2 u3 hz hP hP2
  rw [u4] at w1
  refine ⟨w, w1, fun width alt => ?_⟩
  obtain ⟨t, t1, t2⟩ := w2 width alt
  refine ⟨t, ?_, t2⟩
  unfold DoubleFloat.display
  rw [u1]
  simp only [M.ok_bind]
  rw [t1, u5]
  rfl

/-- **C55.** Formatting and parsing gives the pair back. -/
theorem C55_round_trip (h : S.Pair) (hp : S.precision * 2 ≤ 120) {fuel : ℕ} (hfuel : 23 ≤ fuel) {x : DoubleFloat S} (hx : x.Fits)
    (width : Option ℕ) (alt : Bool) {mode : Round} (hm : mode = .nearestTiesToEven ∨ mode = .nearestTiesToAway) :
    ∃ s r, x.display width none alt = .ok s ∧ DoubleFloat.fromStrR S fuel s mode = .ok (.ok r) ∧ r.value.Fits ∧
      r.value.hi.bitwiseEq x.hi = true ∧ r.value.lo.toRat = x.lo.toRat := by
  obtain ⟨u, u1, u2, u3, u4, u5⟩ := toFallback_fits h hx
  obtain ⟨s, r, r1, r2, r3, r4⟩ := C33_round_trip h.fb hp hfuel u2 u3 width alt hm
  have hb : r.value.datum = u.datum := by
    have nu := not_nan_of_finite u3
    have hcat : r.value.category = u.category := by
      unfold bitwiseEq at r4
      by_contra hc
      simp [hc] at r4
    have fr : r.value.isFinite = true := isFinite_iff.2 (by rw [hcat]; exact isFinite_iff.1 u3)
    exact (C03_bitwise_eq_iff_datum h.fb r3 u2 (not_nan_of_finite fr)).1 r4
  have fr : r.value.isFinite = true := by
    rw [datum_finite u3] at hb
    rw [isFinite_iff]
    unfold datum at hb
    cases c : r.value.category <;> rw [c] at hb <;> simp_all
  rw [datum_finite u3, datum_finite fr] at hb
  simp only [Datum.num.injEq] at hb
  obtain ⟨d', d1, d2, d3, d4⟩ := ofFallback_same h hx r3 fr (hb.2.trans u4) (hb.1.trans u5)
  refine ⟨s, ⟨r.status, d'⟩, ?_, ?_, d2, d3, d4⟩
  · unfold DoubleFloat.display
    rw [u1]
    exact r1
  · unfold DoubleFloat.fromStrR DoubleFloat.mapFrom
    rw [r2]
    simp only [M.ok_bind]
    rw [d1]
    rfl

/-- A literal just beyond the range panics, and so does an overflow toward zero; farther out the nearest result is infinity. -/
theorem C55_panics :
    DoubleFloat.fromStrR doubleS 23 "1.79769313486231580794e308".toList .nearestTiesToEven = .error .assert ∧
    DoubleFloat.fromStrR doubleS 23 "1e309".toList .towardZero = .error .assert ∧
    DoubleFloat.fromStrR doubleS 23 "1e309".toList .nearestTiesToEven =
      .ok (.ok ⟨{ overflow := true, inexact := true }, DoubleFloat.INFINITY doubleS⟩) := by
  refine ⟨by decide +kernel, by decide +kernel, by decide +kernel⟩

/-- A signaling NaN literal panics, and so do formatting and dividing a signaling NaN. -/
theorem C55_snan_panics :
    DoubleFloat.fromStrR doubleS 23 "sNaN".toList .nearestTiesToEven = .error .assert ∧
    (DoubleFloat.snan doubleS none).display none none false = .error .assert ∧
    (DoubleFloat.snan doubleS none).divR (DoubleFloat.snan doubleS none) .nearestTiesToEven = .error .assert := by
  refine ⟨by decide +kernel, by decide +kernel, by decide +kernel⟩

/-! ## C56: neighbours and inverse -/

/-- Every number of the grid in range is the value of a float. -/
theorem exists_of_grid (h : S.OK) {v : ℚ} (hg : S.fmt.Grid v) (hl : |v| ≤ S.fmt.largest) :
    ∃ y : IeeeFloat S, y.Valid ∧ y.isFinite = true ∧ y.toRat = v := by
  obtain ⟨m, k, h1, h2, h3⟩ := id hg
  have hp := h.p_ge; have hple := h.pow_le; have hmax := h.max_le; have hmin := h.min_ge
  have h2' : S.minExp - S.precision + 1 ≤ k := h2
  by_cases hm : m = 0
  · exact ⟨ZERO S, rfl, rfl, by rw [toRat_zero (x := ZERO S) rfl, h3, hm]; simp⟩
  have hk : k < S.maxExp + 1 := by
    apply zpow_two_lt_iff
    have : (2 : ℚ) ^ k ≤ |v| := by
      rw [h3, abs_mul, abs_of_pos (two_zpow_pos k)]
      have : (1 : ℚ) ≤ |(m : ℚ)| := by exact_mod_cast Int.one_le_abs hm
      nlinarith [two_zpow_pos k]
    exact this.trans_lt (hl.trans_lt (full_gt h))
  have h1' : |m| < 2 ^ S.precision := h1
  have hnat : (m.natAbs : ℤ) = |m| := Int.natCast_natAbs m
  have hb : m.natAbs < 2 ^ S.precision := by
    have : (m.natAbs : ℤ) < 2 ^ S.precision := by rw [hnat]; exact h1'
    exact_mod_cast this
  obtain ⟨r, -, r2, r3⟩ := Good.rounds (s := decide (m < 0)) (zs := decide (m < 0)) (normalize_good' h (x := ⟨m.natAbs, k + S.precision - 1, .normal, decide (m < 0)⟩) (mode := .nearestTiesToEven) rfl (f := 0)
    (by simp only; omega) (by simp only; omega) (by simp only; have := h.p_le; omega) (show LossIs .exactlyZero 0 from rfl) (fun e => absurd rfl e) (v := v) (by
      simp only [add_zero]
      rw [if_neg (by omega), show k + (S.precision : ℤ) - 1 - S.precision + 1 = k by ring, h3]
      have hc : ((m.natAbs : ℕ) : ℚ) = |(m : ℚ)| := by
        rw [Nat.cast_natAbs, Int.cast_abs]
      rw [hc]
      unfold signed
      by_cases hneg : m < 0
      · have : (m : ℚ) < 0 := by exact_mod_cast hneg
        simp [hneg, abs_of_neg this]
      · have : (0 : ℚ) ≤ m := by exact_mod_cast not_lt.1 hneg
        simp [hneg, abs_of_nonneg this])
      (directedOK_of_mode _ (by decide) (by decide) v)) (by
      refine ⟨|v|, abs_nonneg _, ?_⟩
      unfold signed
      have hz := two_zpow_pos k
      by_cases hneg : m < 0
      · have hm' : (m : ℚ) < 0 := by exact_mod_cast hneg
        have : v < 0 := by rw [h3]; exact mul_neg_of_neg_of_pos hm' hz
        simp [hneg, abs_of_neg this]
      · have hm' : (0 : ℚ) ≤ m := by exact_mod_cast not_lt.1 hneg
        have : 0 ≤ v := by rw [h3]; positivity
        simp [hneg, abs_of_nonneg this]) (fun _ => rfl)
  obtain ⟨-, e2, e3⟩ := Rounds.exact r3 hg hl
  exact ⟨r.value, r2, e2, e3⟩

theorem overflowAt_le_largest (h : S.Pair) : S.fmt.overflowAt ≤ (fallbackS S).fmt.largest := by
  rw [largest_ieee (S := fallbackS S) rfl]
  show (2 : ℚ) ^ (S.maxExp + 1) - 2 ^ (S.maxExp - S.precision) ≤ 2 ^ (S.maxExp + 1) - 2 ^ (S.maxExp - ((S.precision * 2 : ℕ) : ℤ) + 1)
  have hp := h.ok.p_ge
  have : (2 : ℚ) ^ (S.maxExp - ((S.precision * 2 : ℕ) : ℤ) + 1) ≤ 2 ^ (S.maxExp - S.precision) := zpow_le_zpow_right₀ (by norm_num) (by push_cast; omega)
  linarith

/-- **C56.** `next_up` returns the least 106-bit number above — or panics, when that number is too large for the high part. -/
theorem C56_next_up (h : S.Pair) {x : DoubleFloat S} (hx : x.Fits) :
    ∃ s, S.fmt.doubled.Grid s ∧ x.toRat < s ∧ (∀ g, S.fmt.doubled.Grid g → x.toRat < g → s ≤ g) ∧
      (s < S.fmt.overflowAt → ∃ r, x.nextUp = .ok ⟨Status.OK, r⟩ ∧ r.Fits ∧ r.toRat = s ∧ (s = 0 → r.isNegative = true)) ∧
      (S.fmt.overflowAt ≤ s → x.nextUp = .error .assert) := by
  obtain ⟨u, u1, u2, u3, u4, u5⟩ := toFallback_fits h hx
  have hlt := Canonical.lt_overflowAt h hx.1 hx.2.1
  have hL := overflowAt_le_largest h
  have hu : u.toRat ≠ (largest (fallbackS S)).toRat := by
    rw [toRat_largest h.fb, u4]
    exact ((le_abs_self _).trans_lt (hlt.trans_le hL)).ne
  obtain ⟨r, r1, r2, r3, ⟨r4, r5⟩, r6, -⟩ := C14_next_up h.fb u2 u3 hu
  rw [u4] at r4 r5
  have hf := fallback_fmt S h.ieee
  have hrL := abs_toRat_le h.fb r2 r3
  refine ⟨r.toRat, by rw [← hf]; exact grid_toRat h.fb r2 r3, r4, ?_, ?_, ?_⟩
  · intro g hg hxg
    by_cases hgl : |g| ≤ (fallbackS S).fmt.largest
    · obtain ⟨y, y1, y2, y3⟩ := exists_of_grid h.fb (by rw [hf]; exact hg) hgl
      rw [← y3]
      exact r5 y y1 y2 (by rw [y3]; exact hxg)
    · have h1 := not_le.1 hgl
      rcases abs_choice g with e | e <;> rw [e] at h1
      · linarith [le_abs_self r.toRat]
      · have := (abs_lt.1 (hlt.trans_le hL)).1
        linarith
  · intro hs
    have hab : |r.toRat| < S.fmt.overflowAt := by
      rw [abs_lt] at hlt ⊢
      exact ⟨by linarith [hlt.1], hs⟩
    obtain ⟨d, d1, d2, d3, d4⟩ := mapFrom_exact h (st := Status.OK) r2 r3 hab
    refine ⟨d, ?_, d2, d3, fun e => by rw [d4, r6 e]⟩
    unfold DoubleFloat.nextUp
    rw [u1]
    simp only [M.ok_bind]
    rw [r1]
    exact d1
  · intro hs
    have hab : S.fmt.overflowAt ≤ |r.toRat| := hs.trans (le_abs_self _)
    unfold DoubleFloat.nextUp
    rw [u1]
    simp only [M.ok_bind]
    rw [r1]
    simp only [M.ok_bind]
    unfold DoubleFloat.mapFrom
    dsimp only
    rw [ofFallback_overflow h r2 r3 hab]
    rfl

/-- **C56.** `next_down` returns the greatest 106-bit number below — or panics, when that number is too large for the high part. -/
theorem C56_next_down (h : S.Pair) {x : DoubleFloat S} (hx : x.Fits) :
    ∃ s, S.fmt.doubled.Grid s ∧ s < x.toRat ∧ (∀ g, S.fmt.doubled.Grid g → g < x.toRat → g ≤ s) ∧
      (-S.fmt.overflowAt < s → ∃ r, x.nextDown = .ok ⟨Status.OK, r⟩ ∧ r.Fits ∧ r.toRat = s ∧ (s = 0 → r.isNegative = false)) ∧
      (s ≤ -S.fmt.overflowAt → x.nextDown = .error .assert) := by
  have hnf := neg_fits hx
  have hnv : x.neg.toRat = -x.toRat := (C43_neg hx.2.1.1).1
  obtain ⟨s, s1, s2, s3, s4, s5⟩ := C56_next_up h hnf
  rw [hnv] at s2 s3
  refine ⟨-s, s1.neg, by linarith, ?_, ?_, ?_⟩
  · intro g hg hgx
    have := s3 (-g) hg.neg (by linarith)
    linarith
  · intro hs
    obtain ⟨r, r1, r2, r3, r4⟩ := s4 (by linarith)
    obtain ⟨m2, m3, -⟩ := C43_neg r2.2.1.1
    refine ⟨r.neg, ?_, neg_fits r2, by rw [m2, r3], fun e => ?_⟩
    · unfold DoubleFloat.nextDown
      rw [r1]
      rfl
    · rw [m3, r4 (by linarith)]; rfl
  · intro hs
    unfold DoubleFloat.nextDown
    rw [s5 (by linarith)]
    rfl

/-- The neighbour above the largest DoubleDouble panics. -/
theorem C56_next_up_panics : ∃ x, DoubleFloat.largest doubleS = .ok x ∧ x.nextUp = .error .assert :=
  ⟨⟨⟨2 ^ 53 - 1, 1023, .normal, false⟩, ⟨2 ^ 53 - 2, 969, .normal, false⟩⟩, by decide +kernel, by decide +kernel⟩

/-- **C56.** `get_exact_inverse` returns the exact reciprocal when the number and its reciprocal are normal numbers of the
106-bit format, and nothing in every other case.  It never panics. -/
theorem C56_get_exact_inverse (h : S.Pair) (hw : -S.maxExp ≤ S.minExp + S.precision) {x : DoubleFloat S} (hx : x.Fits) :
    ∃ o, x.getExactInverse = .ok o ∧ (∀ y, o = some y → y.Fits ∧ x.toRat * y.toRat = 1) ∧
      (o.isSome = true ↔ S.fmt.doubled.smallestNormal ≤ |x.toRat| ∧ ∃ w, S.fmt.doubled.NormalNumber w ∧ x.toRat * w = 1) := by
  obtain ⟨u, u1, u2, u3, u4, u5⟩ := toFallback_fits h hx
  obtain ⟨o, o1, o2, o3⟩ := C28_get_exact_inverse h.fb u2
  have hf := fallback_fmt S h.ieee
  have hn : u.isNormal = true ↔ S.fmt.doubled.smallestNormal ≤ |x.toRat| := by
    rw [(C39_denormal h.fb u2).2, ← u4]
    constructor
    · rintro ⟨s, v, hd, hv⟩
      rw [datum_finite u3] at hd
      cases hd
      exact hv
    · intro hv
      exact ⟨_, _, datum_finite u3, hv⟩
  rw [hf, u4, hn] at o3
  unfold DoubleFloat.getExactInverse
  rw [u1]
  simp only [M.ok_bind]
  rw [o1]
  simp only [M.ok_bind]
  cases o with
  | none =>
    refine ⟨none, rfl, ?_, o3⟩
    intro y e
    cases e
  | some r =>
    obtain ⟨v1, v2, v3⟩ := o2 r rfl
    obtain ⟨hx0, -⟩ := o3.1 rfl
    rw [u4] at v3
    have fr : r.isFinite = true := by
      simp only [IeeeFloat.isNormal, IeeeFloat.isFiniteNonZero, Bool.and_eq_true] at v2
      exact v2.2.1
    have hab : |r.toRat| < S.fmt.overflowAt := by
      have e : |x.toRat| * |r.toRat| = 1 := by rw [← abs_mul, v3, abs_one]
      have hx1 : (2 : ℚ) ^ (-S.maxExp) ≤ |x.toRat| := le_trans (zpow_le_zpow_right₀ (by norm_num) hw) hx0
      have hr : |r.toRat| ≤ 2 ^ S.maxExp := by
        rw [zpow_neg] at hx1
        have hp := two_zpow_pos S.maxExp
        have h0 := abs_nonneg r.toRat
        have : ((2 : ℚ) ^ S.maxExp)⁻¹ * |r.toRat| ≤ 1 := by rw [← e]; exact mul_le_mul_of_nonneg_right hx1 h0
        rwa [inv_mul_le_iff₀ hp, mul_one] at this
      refine hr.trans_lt ?_
      show (2 : ℚ) ^ S.maxExp < 2 ^ (S.maxExp + 1) - 2 ^ (S.maxExp - S.precision)
      have hp := h.ok.p_ge
      have : (2 : ℚ) ^ (S.maxExp - S.precision) < 2 ^ S.maxExp := zpow_lt_zpow_right₀ (by norm_num) (by omega)
      rw [two_zpow_add S.maxExp 1]
      linarith
    obtain ⟨d, d1, d2, d3, -⟩ := ofFallback_fits h v1 fr hab
    refine ⟨some d, ?_, ?_, by simpa using o3⟩
    · dsimp only
      rw [d1]
      rfl
    · intro y e
      cases e
      exact ⟨d2, by rw [d3, v3]⟩
/-! ## Concrete operands -/

/-- The pair of 1 and `-2^-60` fits the 106-bit format. -/
theorem fits_example : (⟨⟨2 ^ 52, 0, .normal, false⟩, ⟨2 ^ 52, -60, .normal, true⟩⟩ : DoubleDouble).Fits ∧
    (⟨⟨2 ^ 52, 0, .normal, false⟩, ⟨2 ^ 52, -60, .normal, true⟩⟩ : DoubleDouble).toRat = 1 - 1 / 2 ^ 60 := by
  obtain ⟨d, d1, d2, d3, -⟩ := ofFallback_fits doubleS_pair (x := ⟨2 ^ 106 - 2 ^ 46, -1, .normal, false⟩) (by decide +kernel) rfl (by
    apply doubleS_small
    norm_num [toRat, signed, fallbackS, doubleS, Sem.default])
  have e : d = ⟨⟨2 ^ 52, 0, .normal, false⟩, ⟨2 ^ 52, -60, .normal, true⟩⟩ := by
    have : DoubleFloat.ofFallback (S := doubleS) ⟨2 ^ 106 - 2 ^ 46, -1, .normal, false⟩ =
        .ok ⟨⟨2 ^ 52, 0, .normal, false⟩, ⟨2 ^ 52, -60, .normal, true⟩⟩ := by decide +kernel
    rw [this] at d1; cases d1; rfl
  subst e
  refine ⟨d2, ?_⟩
  rw [d3]
  norm_num [toRat, signed, fallbackS, doubleS, Sem.default]

/-- The pair of 1.5 and zero. -/
theorem fits_three_halves : (⟨⟨3 * 2 ^ 51, 0, .normal, false⟩, ZERO doubleS⟩ : DoubleDouble).Fits ∧
    (⟨⟨3 * 2 ^ 51, 0, .normal, false⟩, ZERO doubleS⟩ : DoubleDouble).toRat = 3 / 2 := by
  obtain ⟨d, d1, d2, d3, -⟩ := ofFallback_fits doubleS_pair (x := ⟨3 * 2 ^ 104, 0, .normal, false⟩) (by decide +kernel) rfl (by
    apply doubleS_small
    norm_num [toRat, signed, fallbackS, doubleS, Sem.default])
  have e : d = ⟨⟨3 * 2 ^ 51, 0, .normal, false⟩, ZERO doubleS⟩ := by
    have : DoubleFloat.ofFallback (S := doubleS) ⟨3 * 2 ^ 104, 0, .normal, false⟩ =
        .ok ⟨⟨3 * 2 ^ 51, 0, .normal, false⟩, ZERO doubleS⟩ := by decide +kernel
    rw [this] at d1; cases d1; rfl
  subst e
  refine ⟨d2, ?_⟩
  rw [d3]
  norm_num [toRat, signed, fallbackS, doubleS, Sem.default]

/-- The theorems of this file instantiated for `DoubleDouble` and concrete operands. -/
example : let x : DoubleDouble := ⟨⟨2 ^ 52, 0, .normal, false⟩, ⟨2 ^ 52, -60, .normal, true⟩⟩
    let y : DoubleDouble := ⟨⟨3 * 2 ^ 51, 0, .normal, false⟩, ZERO doubleS⟩
    PairOutcome doubleS .towardZero (x.toRat / y.toRat) false (x.divR y .towardZero) ∧
    (∃ o, x.getExactInverse = .ok o ∧ o = none) ∧
    (∃ s r, x.display none none false = .ok s ∧ DoubleFloat.fromStrR doubleS 23 s .nearestTiesToEven = .ok (.ok r) ∧
      r.value.hi.bitwiseEq x.hi = true ∧ r.value.lo.toRat = x.lo.toRat) := by
  intro x y
  refine ⟨C50_div doubleS_pair fits_example.1 fits_three_halves.1 (by rw [fits_three_halves.2]; norm_num) _, ?_, ?_⟩
  · exact ⟨none, by decide +kernel, rfl⟩
  · obtain ⟨s, r, h1, h2, -, h4, h5⟩ := C55_round_trip doubleS_pair (by decide) (le_refl 23) fits_example.1 none false (Or.inl rfl)
    exact ⟨s, r, h1, h2, h4, h5⟩

/-- The text of that pair. -/
example : (⟨⟨2 ^ 52, 0, .normal, false⟩, ⟨2 ^ 52, -60, .normal, true⟩⟩ : DoubleDouble).display none none false =
    .ok "0.999999999999999999132638262011596".toList := by decide +kernel

/-! `C52_c_fmod`: the hypotheses hold of a concrete case. -/
example := C52_c_fmod doubleS_pair fits_example.1 fits_example.1 (by rw [fits_example.2]; norm_num)

/-! `C52_ieee_rem`: the hypotheses hold of a concrete case. -/
example := C52_ieee_rem doubleS_pair fits_example.1 fits_example.1 (by rw [fits_example.2]; norm_num)

/-! `C53_round_to_integral`: the hypotheses hold of a concrete case. -/
example := C53_round_to_integral doubleS_pair (by decide) fits_example.1 .towardPositive

/-! `C54_to_u128`: the hypotheses hold of a concrete case. -/
example := C54_to_u128 doubleS_pair fits_example.1 (by decide) (w := 64) (by decide) (by decide) .towardPositive

/-! `C54_to_i128`: the hypotheses hold of a concrete case. -/
example := C54_to_i128 doubleS_pair fits_example.1 (w := 64) (by decide) (by decide) .towardPositive

/-! `C55_display`: the hypotheses hold of a concrete case. -/
example := C55_display doubleS_pair fits_example.1 (by rw [fits_example.2]; norm_num) (P := 20) (by decide) (by decide)

/-! `C56_next_up`: the hypotheses hold of a concrete case. -/
example := C56_next_up doubleS_pair fits_example.1

/-! `C56_next_down`: the hypotheses hold of a concrete case. -/
example := C56_next_down doubleS_pair fits_example.1

/-! Concrete cases for the theorems of `Props/Ppc.lean`. -/
example := C42_to_fallback doubleS_pair fits_example.1.1 fits_example.1.2.1
example := C44_partial_cmp doubleS_ok fits_example.1.1 fits_three_halves.1.1 fits_example.1.2.1 fits_three_halves.1.2.1

/-! `C56_get_exact_inverse`: the hypotheses hold of a concrete case. -/
example := C56_get_exact_inverse doubleS_pair (by decide) fits_three_halves.1

end Apf
