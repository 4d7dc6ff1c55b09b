import Verif.Props.ErrorFree
import Verif.Props.DoubleRounding
import Verif.Proof.Split
/-!
# C110: splitting a number and multiplying exactly without a fused operation

`halves` and `dekker` (`Verif/Spec/Splitting.lean`) are client programs made of the additions, subtractions and multiplications of the
library. Splitting yields two numbers with few significant bits whose sum is the operand; the product of Dekker yields the rounded product
and its exact error.
-/

namespace Apf
open Spec IeeeFloat
variable {S : Sem}

section
variable (h : S.OK) (hS : S.nonfinite = .ieee754)
include h hS

theorem mulR_representable {x y : IeeeFloat S} (hx : x.Valid) (fx : x.isFinite = true) (hy : y.Valid)
    (fy : y.isFinite = true) (mode : Round) {v : ℚ} (hv : x.toRat * y.toRat = v) (hg : S.fmt.Grid v) (hl : |v| ≤ S.fmt.largest) :
    ∃ r, mulR x y mode = .ok r ∧ r.value.Valid ∧ r.status = Status.OK ∧ r.value.isFinite = true ∧ r.value.toRat = v := by
  subst hv
  obtain ⟨r, r1, r2, r3⟩ := mulR_finite h hx hy fx fy mode (directedOK_of_ieee hS _ _)
  exact ⟨r, r1, r2, r3.exact hg hl⟩

/-- The calls of `halves`. -/
theorem halves_run {s : ℕ} (s1 : 2 ≤ s) (hs : s + 1 ≤ S.precision) {c x : IeeeFloat S} (hc : c.Valid) (fc : c.isFinite = true) (ec : c.toRat = 2 ^ s + 1)
    (hx : x.Valid) (fx : x.isFinite = true) (bx : |x.toRat| ≤ 2 ^ (S.maxExp - s - 1)) (m : Round) :
    ∃ (hi lo : StatusAnd (IeeeFloat S)) (g d : ℚ), halves c x m = .ok (hi, lo) ∧ hi.value.Valid ∧ lo.value.Valid ∧ hi.value.isFinite = true ∧
      lo.value.isFinite = true ∧ hi.status = Status.OK ∧ lo.status = Status.OK ∧ hi.value.toRat = g + d ∧ lo.value.toRat = x.toRat - hi.value.toRat ∧
      RN S.fmt ((2 ^ s + 1) * x.toRat) g ∧ RN S.fmt (x.toRat - g) d := by
  obtain ⟨q, q0, hq, gq1, gq2, gq4, lim⟩ := quarter_bounds h hS
  have l4 : 4 * q ≤ S.fmt.largest := by
    have := lim _ gq4 (by rw [abs_of_pos (by linarith)]; linarith)
    rwa [abs_of_pos (by linarith)] at this
  have gx := grid_toRat h hx fx
  have h1 : (2 : ℚ) ≤ 2 ^ s := by
    calc (2 : ℚ) = 2 ^ 1 := by norm_num
      _ ≤ 2 ^ s := pow_le_pow_right₀ (by norm_num) (by omega)
  have b0 : (2 ^ s + 1) * |x.toRat| ≤ 4 * q ∧ 2 * |x.toRat| ≤ 4 * q := by
    have e : (2 : ℚ) ^ (S.maxExp - s - 1) * 2 ^ (s + 1) = 4 * q := by
      rw [← hq, ← zpow_natCast, ← two_zpow_add, show S.maxExp - s - 1 + (s + 1 : ℕ) = S.maxExp - 2 + 2 by push_cast; ring, two_zpow_add _ 2]
      norm_num; ring
    rw [pow_succ] at e
    have := abs_nonneg x.toRat
    constructor <;> nlinarith
  have bv : |c.toRat * x.toRat| ≤ 4 * q := by
    rw [ec, abs_mul, abs_of_pos (by positivity : (0 : ℚ) < 2 ^ s + 1)]; exact b0.1
  obtain ⟨g, g1, g2, g3, g4⟩ := mul_step h hc fc hx fx gq4 l4 bv
  rw [ec] at g4 bv
  obtain ⟨d, d1, d2, d3, d4⟩ := sub_step h hx fx g2 g3 gq4 l4 (split_diff (by linarith) gx g4 gq4 bv)
  obtain ⟨r1, r2, -, -, r5, r6⟩ := split_bits s1 hs gx g4 d4 rfl
  obtain ⟨hi, h1, h2, h3, h4, h5⟩ := addR_representable h hS g2 g3 d2 d3 m rfl r1 (r6.trans (b0.2.trans l4))
  obtain ⟨lo, k1, k2, k3, k4, k5⟩ := subR_representable h hS hx fx h2 h4 m (by rw [h5]) r2 (by linarith)
  refine ⟨hi, lo, _, _, ?_, h2, k2, h4, k4, h3, k3, h5, by rw [k5, h5], g4, d4⟩
  unfold halves
  rw [g1, M.ok_bind, d1, M.ok_bind, h1, M.ok_bind, k1, M.ok_bind]
  rfl

/-- **C110.** (Splitting) With `c = 2^s + 1` four calls split a number of `p` bits into an upper half of `p - s` bits and a lower half of `s - 1`
bits, exactly. The last two calls lose nothing whatever their rounding modes. -/
theorem C110_split {s : ℕ} (s1 : 2 ≤ s) (hs : s + 1 ≤ S.precision) {c x : IeeeFloat S} (hc : c.Valid) (fc : c.isFinite = true) (ec : c.toRat = 2 ^ s + 1)
    (hx : x.Valid) (fx : x.isFinite = true) (bx : |x.toRat| ≤ 2 ^ (S.maxExp - s - 1)) (m : Round) :
    ∃ hi lo, halves c x m = .ok (hi, lo) ∧ hi.value.Valid ∧ lo.value.Valid ∧ hi.value.isFinite = true ∧ lo.value.isFinite = true ∧
      hi.status = Status.OK ∧ lo.status = Status.OK ∧ hi.value.toRat + lo.value.toRat = x.toRat ∧
      FitsBits (S.precision - s) hi.value.toRat ∧ FitsBits (s - 1) lo.value.toRat := by
  obtain ⟨hi, lo, g, d, r1, r2, r3, r4, r5, r6, r7, r8, r9, r10, r11⟩ := halves_run h hS s1 hs hc fc ec hx fx bx m
  obtain ⟨-, -, k3, k4, -, -⟩ := split_bits s1 hs (grid_toRat h hx fx) r10 r11 r8
  exact ⟨hi, lo, r1, r2, r3, r4, r5, r6, r7, by rw [r9]; ring, k3, by rw [r9]; exact k4⟩

/-- **C110.** (Product) With `c = 2^s + 1` and `s` half the precision, rounded up, the seventeen calls of `dekker` yield the rounded product, as `*` does,
and its exact error. -/
theorem C110_product {s : ℕ} (s1 : S.precision ≤ 2 * s) (s2 : 2 * s ≤ S.precision + 1) (hp : 4 ≤ S.precision) {c x y : IeeeFloat S} (hc : c.Valid)
    (fc : c.isFinite = true) (ec : c.toRat = 2 ^ s + 1) (hx : x.Valid) (fx : x.isFinite = true) (hy : y.Valid) (fy : y.isFinite = true)
    (bx : |x.toRat| ≤ 2 ^ (S.maxExp - s - 1)) (bb : |y.toRat| ≤ 2 ^ (S.maxExp - s - 1)) (hlo : 2 ^ (S.minExp + S.precision) ≤ |x.toRat * y.toRat|)
    (hhi : |x.toRat * y.toRat| ≤ 2 ^ (S.maxExp - 2)) (m : Round) :
    ∃ p e, dekker c x y m = .ok (p, e) ∧ mulR x y .nearestTiesToEven = .ok p ∧ p.value.isFinite = true ∧ e.value.Valid ∧ e.value.isFinite = true ∧
      e.status = Status.OK ∧ p.value.toRat + e.value.toRat = x.toRat * y.toRat := by
  obtain ⟨q, q0, hq, gq1, gq2, gq4, lim⟩ := quarter_bounds h hS
  rw [hq] at hhi
  have l1 : q ≤ S.fmt.largest := by simpa [abs_of_pos q0] using lim _ gq1 (by rw [abs_of_pos q0]; linarith)
  have gx := grid_toRat h hx fx
  have gy := grid_toRat h hy fy
  have hfp : S.fmt.p = S.precision := rfl
  have hfe : S.fmt.emin = S.minExp := rfl
  have n0 : x.toRat * y.toRat ≠ 0 := by
    rw [← abs_pos]; exact lt_of_lt_of_le (two_zpow_pos _) hlo
  obtain ⟨kx, x1, x2⟩ := exists_binade (left_ne_zero_of_mul n0) S.fmt.p
  obtain ⟨ky, y1, y2⟩ := exists_binade (right_ne_zero_of_mul n0) S.fmt.p
  have mx : Mult kx x.toRat := mult_of_grid_ge gx x1
  have my : Mult ky y.toRat := mult_of_grid_ge gy y1
  have hK : S.fmt.emin - S.fmt.p + 1 ≤ kx + ky := by
    have h1 : |x.toRat * y.toRat| < 2 ^ ((S.fmt.p : ℤ) + kx + (S.fmt.p + ky)) := by
      rw [abs_mul, two_zpow_add]
      exact mul_lt_mul'' x2 y2 (abs_nonneg _) (abs_nonneg _)
    have h2 := (zpow_lt_zpow_iff_right₀ (by norm_num : (1 : ℚ) < 2)).1 (hlo.trans_lt h1)
    omega
  obtain ⟨p, p1, p2, p3, p4⟩ := mul_step h hx fx hy fy gq1 l1 hhi
  obtain ⟨xh, xl, gg, dd, a1, a2, a3, a4, a5, -, -, a8, a9, a10, a11⟩ := halves_run h hS (s := s) (by omega) (by omega) hc fc ec hx fx bx m
  obtain ⟨yh, yl, gg', dd', b1, b2, b3, b4, b5, -, -, b8, b9, b10, b11⟩ := halves_run h hS (s := s) (by omega) (by omega) hc fc ec hy fy bb m
  obtain ⟨-, -, u3, u4, u5⟩ := split_halves (by omega) (by omega) gx a10 a11 a8 x1 x2
  obtain ⟨-, -, v3, v4, v5⟩ := split_halves (by omega) (by omega) gy b10 b11 b8 y1 y2
  have ex := dekker_exact (by omega) (by omega) (by omega) hK mx my x1 x2 y1 y2 u3 v3 u4 v4 u5 v5 p4
  have G : ∀ v ∈ _, S.fmt.Grid v ∧ |v| ≤ S.fmt.largest := fun v hv => ⟨(ex v hv).1, lim _ (ex v hv).1 (by linarith [(ex v hv).2])⟩
  simp only [List.mem_cons, List.not_mem_nil, or_false, forall_eq_or_imp, forall_eq] at G
  obtain ⟨⟨c1, c1'⟩, ⟨c2, c2'⟩, ⟨c3, c3'⟩, ⟨c4, c4'⟩, ⟨c5, c5'⟩, ⟨c6, c6'⟩, ⟨c7, c7'⟩, c8, c8'⟩ := G
  obtain ⟨hh, d1, d2, -, d3, d4⟩ := mulR_representable h hS a2 a4 b2 b4 m rfl c1 c1'
  obtain ⟨hl, e1, e2, -, e3, e4⟩ := mulR_representable h hS a2 a4 b3 b5 m (by rw [b9]) c2 c2'
  obtain ⟨lh, f1, f2, -, f3, f4⟩ := mulR_representable h hS a3 a5 b2 b4 m (by rw [a9]) c3 c3'
  obtain ⟨ll, g1, g2, -, g3, g4⟩ := mulR_representable h hS a3 a5 b3 b5 m (by rw [a9, b9]) c4 c4'
  obtain ⟨t1, i1, i2, -, i3, i4⟩ := subR_representable h hS d2 d3 p2 p3 m (by rw [d4]) c5 c5'
  obtain ⟨t2, j1, j2, -, j3, j4⟩ := addR_representable h hS i2 i3 e2 e3 m (by rw [i4, e4]; ring) c6 c6'
  obtain ⟨t3, k1, k2, -, k3, k4⟩ := addR_representable h hS j2 j3 f2 f3 m (by rw [j4, f4]) c7 c7'
  obtain ⟨e, z1, z2, z3, z4, z5⟩ := addR_representable h hS k2 k3 g2 g3 m (by rw [k4, g4]; ring) c8 c8'
  refine ⟨p, e, ?_, p1, p3, z2, z4, z3, by rw [z5]; ring⟩
  unfold dekker
  rw [p1, M.ok_bind, a1, M.ok_bind]
  dsimp only
  rw [b1, M.ok_bind]
  dsimp only
  rw [d1, M.ok_bind, e1, M.ok_bind, f1, M.ok_bind, g1, M.ok_bind, i1, M.ok_bind, j1, M.ok_bind, k1, M.ok_bind, z1, M.ok_bind]
  rfl

end

/-- `2^12 + 1` in single precision. -/
def splitter32 : IeeeFloat singleS := ⟨4097 * 2 ^ 11, 12, .normal, false⟩
/-- The largest significand of single precision, `2 - 2^(-23)`. -/
def wide32 : IeeeFloat singleS := ⟨2 ^ 24 - 1, 0, .normal, false⟩

theorem splitter32_toRat : splitter32.toRat = 2 ^ 12 + 1 := by rw [toRat_normal rfl]; norm_num [splitter32, signed, singleS, Sem.default]

/-! A case that meets the hypotheses, and what the two programs return there: `2 - 2^(-23)` is the sum of `2` and `-2^(-23)`, and its square is
`4 - 2^(-21)` and `2^(-46)`. -/
example := C110_split singleS_ok rfl (s := 12) (by decide) (by decide) (c := splitter32) (x := wide32) (by decide +kernel) rfl splitter32_toRat
  (by decide +kernel) rfl (by decide +kernel) .towardZero
example := C110_product singleS_ok rfl (s := 12) (by decide) (by decide) (by decide) (c := splitter32) (x := wide32) (y := wide32) (by decide +kernel) rfl
  splitter32_toRat (by decide +kernel) rfl (by decide +kernel) rfl (by decide +kernel) (by decide +kernel) (by decide +kernel) (by decide +kernel) .towardZero
example : halves splitter32 wide32 .towardZero =
    .ok (⟨Status.OK, ⟨2 ^ 23, 1, .normal, false⟩⟩, ⟨Status.OK, ⟨2 ^ 23, -23, .normal, true⟩⟩) := by decide +kernel
example : dekker splitter32 wide32 wide32 .towardZero =
    .ok (⟨Status.INEXACT, ⟨2 ^ 24 - 2, 1, .normal, false⟩⟩, ⟨Status.OK, ⟨2 ^ 23, -46, .normal, false⟩⟩) := by decide +kernel

end Apf
