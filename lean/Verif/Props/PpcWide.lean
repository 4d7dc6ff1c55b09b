import Verif.Spec.PpcTrim
import Verif.Props.PpcAccumulate
import Verif.Props.Compose
import Verif.Props.Compensated

/-!
C100: the operations of DoubleDouble that go through the 106-bit format, on all pairs with a small low part.  They are the operations
on the operands rounded to 106 bits.
-/

namespace Apf
open Spec IeeeFloat

variable {S : Sem}

theorem near_zero {x : DoubleFloat S} (hp : 10 ≤ S.precision) (hn : x.Near) (h0 : x.toRat = 0) : x.hi.toRat = 0 := by
  have := (Near.hi_le hp hn).1
  rw [h0, abs_zero] at this
  exact abs_eq_zero.1 (le_antisymm (by linarith [abs_nonneg x.hi.toRat]) (abs_nonneg _))

theorem hi_cat_zero {x : DoubleFloat S} (hx : x.Valid) (fx : x.hi.isFinite = true) (h0 : x.hi.toRat = 0) : x.hi.category = .zero := by
  rcases isFinite_iff.1 fx with k | k
  · exact absurd h0 (toRat_ne_zero hx.1 k)
  · exact k

theorem near_sign (hp : 10 ≤ S.precision) {x : DoubleFloat S} (hx : x.Valid) (hn : x.Near) :
    (0 < x.toRat → x.isNegative = false) ∧ (x.toRat < 0 → x.isNegative = true) := by
  have hl : |x.lo.toRat| ≤ |x.hi.toRat| / 64 := by
    have h1 : 8 * (2 : ℚ) ^ (-(S.precision : ℤ)) ≤ 1 / 64 := by
      have : (2 : ℚ) ^ (-(S.precision : ℤ)) ≤ 2 ^ (-10 : ℤ) := two_zpow_le (by omega)
      norm_num at this ⊢; linarith
    have h2 := hn.2.trans (mul_le_mul_of_nonneg_right h1 (abs_nonneg _))
    linarith
  have hl' := _root_.abs_le.1 hl
  show (_ → x.hi.sign = false) ∧ (_ → x.hi.sign = true)
  unfold DoubleFloat.toRat
  constructor
  · intro h0
    have hh : x.hi.toRat ≠ 0 := fun e => by rw [e, Near.low_zero hn e] at h0; norm_num at h0
    have cn := normal_of_ne_zero hn.1.1 hh
    cases hs : x.hi.sign
    · rfl
    · have := sign_neg hx.1 cn hs
      rw [this.2] at hl'
      linarith
  · intro h0
    have hh : x.hi.toRat ≠ 0 := fun e => by rw [e, Near.low_zero hn e] at h0; norm_num at h0
    have cn := normal_of_ne_zero hn.1.1 hh
    cases hs : x.hi.sign
    · have := sign_pos hx.1 cn hs
      rw [this.2] at hl'
      linarith
    · rfl

/-- The converted pair. -/
theorem toFallback_near (h : S.Pair) (hp : 10 ≤ S.precision) {x : DoubleFloat S} (hx : x.Valid) (hn : x.Near) (hr : x.InRange) :
    ∃ u, DoubleFloat.toFallback x = .ok u ∧ u.Valid ∧ u.isFinite = true ∧
      IsRounded S.fmt.doubled .nearestTiesToEven x.toRat u.toRat ∧ u.sign = x.isNegative ∧ |u.toRat| < S.fmt.overflowAt := by
  obtain ⟨L, L1, L2, L3⟩ := hr
  by_cases h0 : x.toRat = 0
  · have c := hi_cat_zero hx hn.1.1 (near_zero hp hn h0)
    have z : ({ ZERO (fallbackS S) with sign := x.hi.sign } : IeeeFloat (fallbackS S)).toRat = 0 := toRat_zero rfl
    refine ⟨_, toFallback_zero h c, ?_, rfl, ?_, rfl, ?_⟩
    · exact (valid_sign _).2 zero_valid
    · rw [z, h0]; exact isRounded_self _ grid_zero
    · rw [z, abs_zero]; exact (abs_nonneg _).trans_lt (L2.trans_lt L3)
  · have hh : x.hi.toRat ≠ 0 := fun e => h0 (by unfold DoubleFloat.toRat; rw [e, Near.low_zero hn e, add_zero])
    have c : x.hi.category = .normal := normal_of_ne_zero hn.1.1 hh
    obtain ⟨u, st, u1, u2, u3⟩ := toFallback_ok h hx hn.1 c
    have hl : |x.toRat| ≤ (fallbackS S).fmt.largest := L2.trans (L3.le.trans (overflowAt_le_largest h))
    obtain ⟨f, i, -⟩ := rounds_fine h.fb u3 hl
    rw [fallback_fmt S h.ieee] at i
    refine ⟨u, u1, u2, f, i, ?_, ?_⟩
    · obtain ⟨n1, n2⟩ := near_sign hp hx hn
      rcases lt_or_gt_of_ne h0 with g | g
      · rw [n2 g]; exact u3.2.2.1 g
      · rw [n1 g]; exact u3.2.1 g
    · rw [_root_.abs_le] at L2
      refine lt_of_le_of_lt (_root_.abs_le.2 ⟨i.ge_of_grid L1.neg L2.1, i.le_of_grid L1 L2.2⟩) L3

theorem near_mult (h : S.Pair) {x : DoubleFloat S} (hx : x.Valid) (hn : x.Near) : Mult (S.fmt.doubled.emin - S.fmt.doubled.p + 1) x.toRat := by
  have k := (mult_of_grid (grid_toRat h.ok hx.1 hn.1.1)).add (mult_of_grid (grid_toRat h.ok hx.2 hn.1.2))
  refine k.mono ?_
  show S.fmt.emin + S.fmt.p - ((S.fmt.p * 2 : ℕ) : ℤ) + 1 ≤ _
  push_cast; omega

/-- Rounding a pair to 106 bits changes it by little. -/
theorem trim_rel (h : S.Pair) (hp : 10 ≤ S.precision) {x : DoubleFloat S} (hx : x.Valid) (hn : x.Near) {g : ℚ}
    (hg : IsRounded S.fmt.doubled .nearestTiesToEven x.toRat g) : |g - x.toRat| ≤ 2 ^ (-2 * (S.precision : ℤ)) * |x.toRat| := by
  have k := step_rel (F := S.fmt.doubled) (by show 2 ≤ S.precision * 2; omega) hg (near_mult h hx hn)
  have e : roundoff S.fmt.doubled.p .nearestTiesToEven = 2 ^ (-2 * (S.precision : ℤ)) := by
    show (2 : ℚ) ^ (-((S.precision * 2 : ℕ) : ℤ)) = _
    congr 1; push_cast; ring
  rwa [e] at k

theorem eps_lt (S : Sem) (hp : 10 ≤ S.precision) : (2 : ℚ) ^ (-2 * (S.precision : ℤ)) ≤ 1 / 1048576 := by
  have : (2 : ℚ) ^ (-2 * (S.precision : ℤ)) ≤ 2 ^ (-20 : ℤ) := two_zpow_le (by omega)
  norm_num at this ⊢; linarith

theorem trim_zero (h : S.Pair) (hp : 10 ≤ S.precision) {x : DoubleFloat S} (hx : x.Valid) (hn : x.Near) {g : ℚ}
    (hg : IsRounded S.fmt.doubled .nearestTiesToEven x.toRat g) : g = 0 ↔ x.toRat = 0 := by
  have k := trim_rel h hp hx hn hg
  have e := eps_lt S hp
  constructor
  · intro h0
    rw [h0, zero_sub, abs_neg] at k
    have := mul_le_mul_of_nonneg_right e (abs_nonneg x.toRat)
    exact abs_eq_zero.1 (le_antisymm (by linarith) (abs_nonneg _))
  · intro h0
    rw [h0, sub_zero, abs_zero, mul_zero] at k
    exact abs_eq_zero.1 (le_antisymm k (abs_nonneg _))

theorem finite_ext (h : S.OK) {u w : IeeeFloat S} (hu : u.Valid) (hw : w.Valid) (fu : u.isFinite = true) (fw : w.isFinite = true)
    (hs : u.sign = w.sign) (ht : u.toRat = w.toRat) (h0 : u.toRat ≠ 0) : u = w := by
  obtain ⟨s1, s2, s3, -⟩ := (bitwiseEq_iff u w).1 (same_bits h hu hw fu fw hs ht)
  obtain ⟨e1, e2⟩ := s3 (normal_of_ne_zero fu h0)
  cases u; cases w; simp_all

/-- A pair and its rounding to 106 bits are the same to everything that converts first. -/
theorem toFallback_trimmed (h : S.Pair) (hp : 10 ≤ S.precision) {x t : DoubleFloat S} (hx : x.Valid) (hn : x.Near) (hr : x.InRange)
    (ht : x.Trimmed t) : DoubleFloat.toFallback x = DoubleFloat.toFallback t := by
  obtain ⟨u, u1, u2, u3, u4, u5, u6⟩ := toFallback_near h hp hx hn hr
  obtain ⟨w, w1, w2, w3, w4, w5⟩ := toFallback_fits h ht.1
  have e : u.toRat = t.toRat := u4.unique ht.2.1
  by_cases h0 : u.toRat = 0
  · have c := hi_cat_zero hx hn.1.1 (near_zero hp hn ((trim_zero h hp hx hn u4).1 h0))
    have tn := Canonical.near h.ok ht.1.1 ht.1.2.1
    have c' := hi_cat_zero ht.1.1 tn.1.1 (near_zero hp tn (e.symm.trans h0))
    rw [toFallback_zero h c, toFallback_zero h c', show x.hi.sign = t.hi.sign from ht.2.2.symm]
  · rw [u1, w1, finite_ext h.fb u2 w2 u3 w3 (by rw [u5, w5]; exact ht.2.2.symm) (e.trans w4.symm) h0]

/-- **C100.** Every pair with a small low part has a nearest 106-bit pair, within `2^-2p` of it. -/
theorem C100_trim (h : S.Pair) (hp : 10 ≤ S.precision) {x : DoubleFloat S} (hx : x.Valid) (hn : x.Near) (hr : x.InRange) :
    ∃ t, x.Trimmed t ∧ |t.toRat - x.toRat| ≤ 2 ^ (-2 * (S.precision : ℤ)) * |x.toRat| := by
  obtain ⟨u, u1, u2, u3, u4, u5, u6⟩ := toFallback_near h hp hx hn hr
  obtain ⟨t, t1, t2, t3, t4⟩ := ofFallback_fits h u2 u3 u6
  exact ⟨t, ⟨t2, by rw [t3]; exact u4, by rw [t4, u5]⟩, by rw [t3]; exact trim_rel h hp hx hn u4⟩

theorem inRange_neg {x : DoubleFloat S} (hn : x.Near) (hr : x.InRange) : x.neg.InRange := by
  obtain ⟨L, L1, L2, L3⟩ := hr
  exact ⟨L, L1, by rw [(C43_neg hn.1).1, abs_neg]; exact L2, L3⟩

theorem trimmed_neg {x t : DoubleFloat S} (hn : x.Near) (ht : x.Trimmed t) : x.neg.Trimmed t.neg := by
  obtain ⟨t1, t2, t3⟩ := ht
  obtain ⟨a1, a2, -⟩ := C43_neg hn.1
  obtain ⟨b1, b2, -⟩ := C43_neg t1.2.1.1
  exact ⟨neg_fits t1, by rw [a1, b1]; exact t2.neg, by rw [a2, b2, t3]⟩

/-- **C100.** The operations of one operand give for a pair what they give for its rounding to 106 bits (which C53, C54, C55, C56 describe). -/
theorem C100_unary (h : S.Pair) (hp : 10 ≤ S.precision) {x t : DoubleFloat S} (hx : x.Valid) (hn : x.Near) (hr : x.InRange) (ht : x.Trimmed t) :
    (∀ mode, x.roundToIntegral mode = t.roundToIntegral mode) ∧ (∀ w mode, x.toU128R w mode = t.toU128R w mode) ∧
    (∀ w mode, x.toI128R w mode = t.toI128R w mode) ∧ x.nextUp = t.nextUp ∧ x.nextDown = t.nextDown ∧
    x.getExactInverse = t.getExactInverse ∧ (∀ width precision alternate, x.display width precision alternate = t.display width precision alternate) := by
  have e := toFallback_trimmed h hp hx hn hr ht
  obtain ⟨n1, n2⟩ := neg_near hx hn
  have e' := toFallback_trimmed h hp n1 n2 (inRange_neg hn hr) (trimmed_neg hn ht)
  refine ⟨fun m => ?_, fun w m => ?_, fun w m => ?_, ?_, ?_, ?_, fun a b c => ?_⟩
  · unfold DoubleFloat.roundToIntegral; rw [e]
  · unfold DoubleFloat.toU128R; rw [e]
  · unfold DoubleFloat.toI128R DoubleFloat.toU128R; rw [e, e', ht.2.2]
  · unfold DoubleFloat.nextUp; rw [e]
  · unfold DoubleFloat.nextDown DoubleFloat.nextUp; rw [e']
  · unfold DoubleFloat.getExactInverse; rw [e]
  · unfold DoubleFloat.display; rw [e]

/-- **C100.** Likewise the operations of two and three operands (which C50, C51, C52 describe). -/
theorem C100_binary (h : S.Pair) (hp : 10 ≤ S.precision) {x t y u z v : DoubleFloat S} (hx : x.Valid) (nx : x.Near) (rx : x.InRange) (ht : x.Trimmed t)
    (hy : y.Valid) (ny : y.Near) (ry : y.InRange) (hu : y.Trimmed u) (hz : z.Valid) (nz : z.Near) (rz : z.InRange) (hv : z.Trimmed v) :
    (∀ mode, x.divR y mode = t.divR u mode) ∧ x.cFmod y = t.cFmod u ∧ x.ieeeRem y = t.ieeeRem u ∧
      (∀ mode, x.mulAddR y z mode = t.mulAddR u v mode) := by
  have e := toFallback_trimmed h hp hx nx rx ht
  have e' := toFallback_trimmed h hp hy ny ry hu
  have e2 := toFallback_trimmed h hp hz nz rz hv
  refine ⟨fun m => ?_, ?_, ?_, fun m => ?_⟩
  · unfold DoubleFloat.divR; rw [e, e']
  · unfold DoubleFloat.cFmod; rw [e, e']
  · unfold DoubleFloat.ieeeRem; rw [e, e']
  · unfold DoubleFloat.mulAddR; rw [e, e', e2]

theorem inRange_of_le (h : S.Pair) {x : DoubleFloat S} (hx : |x.toRat| ≤ S.fmt.largest) : x.InRange :=
  ⟨_, grid_doubled (grid_largest h.ok), hx, largest_lt_overflowAt h⟩

theorem pairRounds_fine (h : S.Pair) {mode : Round} {v : ℚ} {zs : Bool} {r : StatusAnd (DoubleFloat S)} (hr : PairRounds S mode v zs r)
    (hl : |v| ≤ S.fmt.largest) : IsRounded S.fmt.doubled mode v r.value.toRat ∧ r.status.overflow = false ∧ r.status.invalidOp = false ∧
      r.status.divByZero = false := by
  obtain ⟨⟨g, g1, g2⟩, -, h3, h4⟩ := hr
  rw [pair_datum_finite h4.1.1] at g2
  have hL : S.fmt.doubled.Grid S.fmt.largest := grid_doubled (grid_largest h.ok)
  have gl : |g| ≤ S.fmt.largest := by
    rw [_root_.abs_le] at hl ⊢
    exact ⟨g1.ge_of_grid hL.neg hl.1, g1.le_of_grid hL hl.2⟩
  have gL : |g| ≤ S.fmt.doubled.largest := by
    rw [← fallback_fmt S h.ieee]; exact fits_le_largest h g1.1 (gl.trans_lt (largest_lt_overflowAt h))
  rcases g2 with ⟨-, g2, g3⟩ | ⟨g2, -⟩
  · simp only [Datum.num.injEq] at g2
    rw [g2.2, g3]
    exact ⟨g1, rfl, rfl, rfl⟩
  · exact absurd gL (not_le.2 g2)

theorem quot_err {x y t u e : ℚ} (he0 : 0 ≤ e) (he : e ≤ 1 / 1048576) (y0 : y ≠ 0) (ht : |t - x| ≤ e * |x|) (hu : |u - y| ≤ e * |y|) :
    |t / u - x / y| ≤ 21 / 10 * e * |x / y| := by
  have yp : 0 < |y| := abs_pos.2 y0
  have ul : (1 - e) * |y| ≤ |u| := by
    have := abs_sub_abs_le_abs_sub y u
    rw [abs_sub_comm] at this
    linarith
  have up : 0 < |u| := lt_of_lt_of_le (mul_pos (by linarith) yp) ul
  have u0 : u ≠ 0 := abs_pos.1 up
  have k : |t * y - u * x| ≤ 2 * e * (|x| * |y|) := by
    have e1 : t * y - u * x = (t - x) * y - (u - y) * x := by ring
    rw [e1]
    refine (abs_sub _ _).trans ?_
    rw [abs_mul, abs_mul]
    have a := mul_le_mul_of_nonneg_right ht yp.le
    have b := mul_le_mul_of_nonneg_right hu (abs_nonneg x)
    linarith
  rw [div_sub_div _ _ u0 y0, abs_div, abs_mul u y, abs_div, div_le_iff₀ (mul_pos up yp)]
  refine k.trans ?_
  have e2 : 21 / 10 * e * (|x| / |y|) * (|u| * |y|) = 21 / 10 * e * |x| * |u| := by field_simp
  rw [e2]
  have e3 : 0 ≤ e * |x| := mul_nonneg he0 (abs_nonneg _)
  have e4 := mul_le_mul_of_nonneg_left ul e3
  have e5 : (1048575 / 1048576) * |y| ≤ (1 - e) * |y| := mul_le_mul_of_nonneg_right (by linarith) yp.le
  have e6 := mul_le_mul_of_nonneg_left e5 e3
  have e7 := mul_nonneg e3 yp.le
  linarith

theorem roundoff_pair_le (S : Sem) (mode : Round) : roundoff S.fmt.doubled.p mode ≤ 2 * 2 ^ (-2 * (S.precision : ℤ)) := by
  have e1 : (2 : ℚ) ^ (-((S.precision * 2 : ℕ) : ℤ)) = 2 ^ (-2 * (S.precision : ℤ)) := by congr 1; push_cast; ring
  have e2 : (2 : ℚ) ^ (1 - ((S.precision * 2 : ℕ) : ℤ)) = 2 * 2 ^ (-2 * (S.precision : ℤ)) := by
    rw [sub_eq_add_neg, two_zpow_add, e1, zpow_one]
  have := two_zpow_pos (-2 * (S.precision : ℤ))
  cases mode <;> (show (2 : ℚ) ^ _ ≤ _) <;> first
    | (refine le_of_eq_of_le e1 ?_; linarith)
    | exact e2.le

theorem tiny_pair_le (S : Sem) (mode : Round) : S.fmt.doubled.tiny mode ≤ 2 ^ (S.minExp - S.precision + 1) := by
  have e1 : S.fmt.doubled.emin - S.fmt.doubled.p = S.minExp - S.precision := by
    show S.minExp + S.precision - ((S.precision * 2 : ℕ) : ℤ) = _
    push_cast; ring
  cases mode <;> (show (2 : ℚ) ^ _ ≤ _) <;> apply two_zpow_le <;> omega

/-- **C100.** The quotient of two pairs with small low parts, in any rounding mode. -/
theorem C100_div (h : S.Pair) (hp : 10 ≤ S.precision) (mode : Round) {x y : DoubleFloat S} (hx : x.Valid) (nx : x.Near) (hy : y.Valid) (ny : y.Near)
    (bx : |x.toRat| ≤ S.fmt.largest) (bY : |y.toRat| ≤ S.fmt.largest) (y0 : y.toRat ≠ 0) (bq : |x.toRat / y.toRat| ≤ 2 ^ (S.maxExp - 3)) :
    ∃ r, x.divR y mode = .ok r ∧ r.value.Fits ∧ r.status.overflow = false ∧ r.status.invalidOp = false ∧ r.status.divByZero = false ∧
      |r.value.toRat - x.toRat / y.toRat| ≤ 5 * 2 ^ (-2 * (S.precision : ℤ)) * |x.toRat / y.toRat| + 2 ^ (S.minExp - S.precision + 1) := by
  obtain ⟨t, t1, t2⟩ := C100_trim h hp hx nx (inRange_of_le h bx)
  obtain ⟨u, u1, u2⟩ := C100_trim h hp hy ny (inRange_of_le h bY)
  rw [(C100_binary h hp hx nx (inRange_of_le h bx) t1 hy ny (inRange_of_le h bY) u1 hx nx (inRange_of_le h bx) t1).1 mode]
  have u0 : u.toRat ≠ 0 := fun e => y0 ((trim_zero h hp hy ny u1.2.1).1 e)
  have o := C50_div h t1.1 u1.1 u0 mode
  have he := eps_lt S hp
  have he0 := two_zpow_pos (-2 * (S.precision : ℤ))
  have ro := roundoff_pair_le S mode
  have k := quot_err he0.le he y0 t2 u2
  generalize (2 : ℚ) ^ (-2 * (S.precision : ℤ)) = e at *
  have hq : |t.toRat / u.toRat| ≤ (1 + 21 / 10 * e) * |x.toRat / y.toRat| := by
    have := abs_sub_abs_le_abs_sub (t.toRat / u.toRat) (x.toRat / y.toRat)
    linarith
  have hq0 := abs_nonneg (x.toRat / y.toRat)
  have l : |t.toRat / u.toRat| ≤ S.fmt.largest := by
    refine le_trans ?_ (quarter_le_largest h.ok h.ieee)
    have e1 : (2 : ℚ) ^ (S.maxExp - 2) = 2 ^ (S.maxExp - 3) * 2 := by
      rw [show S.maxExp - 2 = S.maxExp - 3 + 1 by ring, two_zpow_add, zpow_one]
    have := mul_le_mul_of_nonneg_right (show 1 + 21 / 10 * e ≤ 2 by linarith) hq0
    linarith
  obtain ⟨r, r1, r2⟩ := o.in_range h l
  obtain ⟨i, s1, s2, s3⟩ := pairRounds_fine h r2 l
  refine ⟨r, r1, r2.fits h, s1, s2, s3, ?_⟩
  have er := step_err (F := S.fmt.doubled) (by show 2 ≤ S.precision * 2; omega) i
  have ti := tiny_pair_le S mode
  have tri := abs_sub_le r.value.toRat (t.toRat / u.toRat) (x.toRat / y.toRat)
  have m1 := mul_le_mul ro hq (abs_nonneg _) (by linarith)
  have m2 : 2 * e * ((1 + 21 / 10 * e) * |x.toRat / y.toRat|) ≤ 21 / 10 * e * |x.toRat / y.toRat| := by
    have := mul_le_mul_of_nonneg_right (show 2 * e * (1 + 21 / 10 * e) ≤ 21 / 10 * e by nlinarith) hq0
    linarith
  have m3 : 0 ≤ e * |x.toRat / y.toRat| := mul_nonneg he0.le hq0
  linarith

theorem pairError_le (S : Sem) (hp : 10 ≤ S.precision) (m : Round) : pairError S m ≤ 1 := by
  have := eps_lt S hp
  unfold pairError; linarith

theorem pairTiny_le (h : S.Pair) (hp : 10 ≤ S.precision) (m : Round) : pairTiny S m ≤ 2 ^ (S.maxExp - 4) := by
  have h1 := h.ok.p_max
  have h2 := h.ok.min_lt
  have h3 : (2 : ℚ) ^ (S.minExp - S.precision + 1 + 3) ≤ 2 ^ (S.maxExp - 4) := two_zpow_le (by omega)
  have h4 := two_zpow_pos (S.minExp - S.precision + 1)
  rw [two_zpow_add] at h3
  norm_num at h3
  unfold pairTiny; linarith

/-- Intermediate results stay in range. -/
theorem grown_le (h : S.Pair) (hp : 10 ≤ S.precision) (e : Expr (DoubleFloat S)) (hl : e.All fun x => x.Valid ∧ x.Near ∧ |x.toRat| ≤ 2 ^ (S.maxExp - 2))
    (hr : e.InRange DoubleFloat.toRat (pairError S) (pairTiny S) (2 ^ (S.maxExp - 4))) :
    e.grown DoubleFloat.toRat (pairError S) (pairTiny S) ≤ 2 ^ (S.maxExp - 2) := by
  have e4 : (2 : ℚ) ^ (S.maxExp - 2) = 2 ^ (S.maxExp - 4) * 4 := by
    rw [show S.maxExp - 2 = S.maxExp - 4 + 2 by ring, two_zpow_add]; norm_num
  have q0 := two_zpow_pos (S.maxExp - 4)
  have step : ∀ (m : Round) (g : ℚ), g ≤ 2 ^ (S.maxExp - 4) → (1 + pairError S m) * g + pairTiny S m ≤ 2 ^ (S.maxExp - 2) := by
    intro m g hg
    have h1 := pairError_le S hp m
    have h0 : 0 ≤ pairError S m := by unfold pairError; have := two_zpow_pos (-2 * (S.precision : ℤ)); linarith
    have h2 := pairTiny_le h hp m
    have h3 := mul_le_mul_of_nonneg_left hg (show 0 ≤ 1 + pairError S m by linarith)
    have h4 := mul_le_mul_of_nonneg_right (show 1 + pairError S m ≤ 2 by linarith) q0.le
    linarith
  have tpos : ∀ m, 0 ≤ pairTiny S m := fun m => by unfold pairTiny; have := two_zpow_pos (S.minExp - S.precision + 1); linarith
  induction e with
  | lit x => exact hl.2.2
  | neg a ih => exact ih hl hr
  | add m a b _ _ => exact (le_add_of_nonneg_right (tpos m)).trans (step m _ hr.2.2)
  | sub m a b _ _ => exact (le_add_of_nonneg_right (tpos m)).trans (step m _ hr.2.2)
  | mul m a b _ _ => exact step m _ hr.2.2
  | div m a b _ _ => exact step m _ hr.2.2.2

theorem pair_div_aux (h : S.Pair) (hp : 10 ≤ S.precision) (e : Expr (DoubleFloat S)) (hl : e.All fun x => x.Valid ∧ x.Near ∧ |x.toRat| ≤ 2 ^ (S.maxExp - 2))
    (hr : e.InRange DoubleFloat.toRat (pairError S) (pairTiny S) (2 ^ (S.maxExp - 4))) :
    |e.exact DoubleFloat.toRat| ≤ e.size DoubleFloat.toRat ∧
      ((¬ e.NoMul ∧ e.eval = .error .assert) ∨ ∃ r, e.eval = .ok r ∧ PairAccurate S e (pairError S) (pairTiny S) r) := by
  have u2 : (0 : ℚ) < 2 ^ (-2 * (S.precision : ℤ)) := two_zpow_pos _
  have hε : ∀ m, 0 ≤ pairError S m := fun m => by unfold pairError; positivity
  have h128 : ∀ m, 128 * (2 : ℚ) ^ (-2 * (S.precision : ℤ)) ≤ pairError S m := fun m => by unfold pairError; linarith
  induction e with
  | lit x =>
    refine ⟨le_refl _, .inr ⟨⟨Status.OK, x⟩, rfl, hl.1, hl.2.1, ?_, rfl, rfl⟩⟩
    simp [Expr.exact, Expr.grown, Expr.size]
  | neg a ih =>
    obtain ⟨i1, i⟩ := ih hl hr
    refine ⟨by simpa [Expr.exact, Expr.size] using i1, ?_⟩
    rcases i with ⟨i2, i3⟩ | ⟨r, i2, i3, i4, i5, i6, i7⟩
    · refine .inl ⟨i2, ?_⟩
      show (a.eval >>= fun x => _) = _
      rw [i3]; rfl
    · obtain ⟨n1, n2⟩ := neg_near i3 i4
      obtain ⟨m1, -⟩ := C43_neg i4.1
      refine .inr ⟨⟨r.status, r.value.neg⟩, ?_, n1, n2, ?_, i6, i7⟩
      · show (a.eval >>= fun x => _) = _
        rw [i2]; rfl
      · show |r.value.neg.toRat - -(a.exact DoubleFloat.toRat)| ≤ _
        rw [m1, show -r.value.toRat - -(a.exact DoubleFloat.toRat) = -(r.value.toRat - a.exact DoubleFloat.toRat) by ring, abs_neg]
        exact i5
  | add m a b iha ihb =>
    obtain ⟨a1, ia⟩ := iha hl.1 hr.1
    obtain ⟨b1, ib⟩ := ihb hl.2 hr.2.1
    refine ⟨(abs_add_le _ _).trans (add_le_add a1 b1), ?_⟩
    rcases ia with ⟨i2, i3⟩ | ⟨r, a2, a3, a4, a5, a6, a7⟩
    · refine .inl ⟨fun hh => i2 hh.1, ?_⟩
      show (a.eval >>= fun x => _) = _
      rw [i3]; rfl
    rcases ib with ⟨i2, i3⟩ | ⟨s, b2, b3, b4, b5, b6, b7⟩
    · refine .inl ⟨fun hh => i2 hh.2, ?_⟩
      show (a.eval >>= fun x => _) = _
      rw [a2, M.ok_bind, i3]; rfl
    right
    have ga := near_le a1 a5
    have gb := near_le b1 b5
    obtain ⟨t, t1, t2, t3, t4, t5, t6⟩ := C81_add h hp m a3 a4 b3 b4
      (by have := (abs_nonneg _).trans gb; have := hr.2.2; linarith) (by have := (abs_nonneg _).trans ga; have := hr.2.2; linarith)
    obtain ⟨k1, -⟩ := grow_add (hε m) a1 b1 a5 b5 (t6.trans (mul_le_mul_of_nonneg_right (h128 m) (by positivity)))
    refine ⟨⟨r.status ||| s.status ||| t.status, t.value⟩, ?_, t2, t3, k1, ?_, ?_⟩
    · show (a.eval >>= fun x => _) = _
      rw [a2, M.ok_bind, b2, M.ok_bind]
      show (DoubleFloat.addR r.value s.value m >>= fun x => _) = _
      rw [t1]; rfl
    · simp only [Status.or_overflow, a6, b6, t4, Bool.or_false]
    · simp only [Status.or_invalidOp, a7, b7, t5, Bool.or_false]
  | sub m a b iha ihb =>
    obtain ⟨a1, ia⟩ := iha hl.1 hr.1
    obtain ⟨b1, ib⟩ := ihb hl.2 hr.2.1
    refine ⟨(abs_sub _ _).trans (add_le_add a1 b1), ?_⟩
    rcases ia with ⟨i2, i3⟩ | ⟨r, a2, a3, a4, a5, a6, a7⟩
    · refine .inl ⟨fun hh => i2 hh.1, ?_⟩
      show (a.eval >>= fun x => _) = _
      rw [i3]; rfl
    rcases ib with ⟨i2, i3⟩ | ⟨s, b2, b3, b4, b5, b6, b7⟩
    · refine .inl ⟨fun hh => i2 hh.2, ?_⟩
      show (a.eval >>= fun x => _) = _
      rw [a2, M.ok_bind, i3]; rfl
    right
    have ga := near_le a1 a5
    have gb := near_le b1 b5
    obtain ⟨t, t1, t2, t3, t4, t5, t6⟩ := C81_sub h hp m a3 a4 b3 b4
      (by have := (abs_nonneg _).trans gb; have := hr.2.2; linarith) (by have := (abs_nonneg _).trans ga; have := hr.2.2; linarith)
    obtain ⟨k1, -⟩ := grow_sub (hε m) a1 b1 a5 b5 (t6.trans (mul_le_mul_of_nonneg_right (h128 m) (by positivity)))
    refine ⟨⟨r.status ||| s.status ||| t.status, t.value⟩, ?_, t2, t3, k1, ?_, ?_⟩
    · show (a.eval >>= fun x => _) = _
      rw [a2, M.ok_bind, b2, M.ok_bind]
      show (DoubleFloat.subR r.value s.value m >>= fun x => _) = _
      rw [t1]; rfl
    · simp only [Status.or_overflow, a6, b6, t4, Bool.or_false]
    · simp only [Status.or_invalidOp, a7, b7, t5, Bool.or_false]
  | mul m a b iha ihb =>
    obtain ⟨a1, ia⟩ := iha hl.1 hr.1
    obtain ⟨b1, ib⟩ := ihb hl.2 hr.2.1
    refine ⟨by show |_ * _| ≤ _; rw [abs_mul]; exact mul_le_mul a1 b1 (abs_nonneg _) (a.size_nonneg _), ?_⟩
    rcases ia with ⟨i2, i3⟩ | ⟨r, a2, a3, a4, a5, a6, a7⟩
    · refine .inl ⟨id, ?_⟩
      show (a.eval >>= fun x => _) = _
      rw [i3]; rfl
    rcases ib with ⟨i2, i3⟩ | ⟨s, b2, b3, b4, b5, b6, b7⟩
    · refine .inl ⟨id, ?_⟩
      show (a.eval >>= fun x => _) = _
      rw [a2, M.ok_bind, i3]; rfl
    have ga := near_le a1 a5
    have gb := near_le b1 b5
    have gab : |r.value.toRat * s.value.toRat| ≤ a.grown DoubleFloat.toRat (pairError S) (pairTiny S) * b.grown DoubleFloat.toRat (pairError S) (pairTiny S) := by
      rw [abs_mul]; exact mul_le_mul ga gb (abs_nonneg _) ((abs_nonneg _).trans ga)
    have l43 : (2 : ℚ) ^ (S.maxExp - 4) ≤ 2 ^ (S.maxExp - 3) := two_zpow_le (by omega)
    rcases C82_mul h hp m a3 a4 b3 b4 ((gab.trans hr.2.2).trans l43) with ⟨-, t1⟩ | ⟨-, t, t1, t2, t3, t4, t5, t6⟩
    · refine .inl ⟨id, ?_⟩
      show (a.eval >>= fun x => _) = _
      rw [a2, M.ok_bind, b2, M.ok_bind]
      show (DoubleFloat.mulR r.value s.value m >>= fun x => _) = _
      rw [t1]; rfl
    · obtain ⟨k1, -⟩ := grow_mul (hε m) a1 b1 a5 b5 (η := pairTiny S m) t6
      refine .inr ⟨⟨r.status ||| s.status ||| t.status, t.value⟩, ?_, t2, t3, k1, ?_, ?_⟩
      · show (a.eval >>= fun x => _) = _
        rw [a2, M.ok_bind, b2, M.ok_bind]
        show (DoubleFloat.mulR r.value s.value m >>= fun x => _) = _
        rw [t1]; rfl
      · simp only [Status.or_overflow, a6, b6, t4, Bool.or_false]
      · simp only [Status.or_invalidOp, a7, b7, t5, Bool.or_false]
  | div m a b iha ihb =>
    obtain ⟨a1, ia⟩ := iha hl.1 hr.1
    obtain ⟨b1, ib⟩ := ihb hl.2 hr.2.1
    have ηm : 0 ≤ pairTiny S m := by unfold pairTiny; have := two_zpow_pos (S.minExp - S.precision + 1); linarith
    refine ⟨by show |_ / _| ≤ _ / _; rw [abs_div]; exact div_le_div_of_nonneg_right a1 (abs_nonneg _), ?_⟩
    rcases ia with ⟨i2, i3⟩ | ⟨r, a2, a3, a4, a5, a6, a7⟩
    · refine .inl ⟨fun hh => i2 hh.1, ?_⟩
      show (a.eval >>= fun x => _) = _
      rw [i3]; rfl
    rcases ib with ⟨i2, i3⟩ | ⟨s, b2, b3, b4, b5, b6, b7⟩
    · refine .inl ⟨fun hh => i2 hh.2, ?_⟩
      show (a.eval >>= fun x => _) = _
      rw [a2, M.ok_bind, i3]; rfl
    right
    have ga := (near_le a1 a5).trans (grown_le h hp a hl.1 hr.1)
    have gb := (near_le b1 b5).trans (grown_le h hp b hl.2 hr.2.1)
    have lq := quarter_le_largest h.ok h.ieee
    obtain ⟨-, -, q1, q2⟩ := grow_div (z := r.value.toRat / s.value.toRat) (η := pairTiny S m) (hε m) a1 a5 b5 hr.2.2.1
      (by rw [sub_self, abs_zero]; have := mul_nonneg (hε m) (abs_nonneg (r.value.toRat / s.value.toRat)); linarith)
    have l43 : (2 : ℚ) ^ (S.maxExp - 4) ≤ 2 ^ (S.maxExp - 3) := two_zpow_le (by omega)
    obtain ⟨t, t1, t2, t3, t4, -, t6⟩ := C100_div h hp m a3 a4 b3 b4 (ga.trans lq) (gb.trans lq) q2 ((q1.trans hr.2.2.2).trans l43)
    have t6' : |t.value.toRat - r.value.toRat / s.value.toRat| ≤ pairError S m * |r.value.toRat / s.value.toRat| + pairTiny S m := by
      refine t6.trans (add_le_add (mul_le_mul_of_nonneg_right ?_ (abs_nonneg _)) ?_)
      · unfold pairError; linarith
      · unfold pairTiny; have := two_zpow_pos (S.minExp - S.precision + 1); linarith
    obtain ⟨k1, -⟩ := grow_div (hε m) a1 a5 b5 hr.2.2.1 t6'
    refine ⟨⟨r.status ||| s.status ||| t.status, t.value⟩, ?_, t2.1, Canonical.near h.ok t2.1 t2.2.1, k1, ?_, ?_⟩
    · show (a.eval >>= fun x => _) = _
      rw [a2, M.ok_bind, b2, M.ok_bind]
      show (DoubleFloat.divR r.value s.value m >>= fun x => _) = _
      rw [t1]; rfl
    · simp only [Status.or_overflow, a6, b6, t3, Bool.or_false]
    · simp only [Status.or_invalidOp, a7, b7, t4, Bool.or_false]

/-- **C100.** A `DoubleDouble` computation of any length with all four operations, in any rounding modes, whose intermediate results stay a factor 16 below the
top of the range and whose divisors exceed their own errors: it returns unless a product panics; the result is a finite pair within the excess of the
inflated over the plain computation, and neither `OVERFLOW` nor `INVALID_OP` was raised. -/
theorem C100_expression (h : S.Pair) (hp : 10 ≤ S.precision) (e : Expr (DoubleFloat S)) (hl : e.All fun x => x.Valid ∧ x.Near ∧ |x.toRat| ≤ 2 ^ (S.maxExp - 2))
    (hr : e.InRange DoubleFloat.toRat (pairError S) (pairTiny S) (2 ^ (S.maxExp - 4))) :
    (¬ e.NoMul ∧ e.eval = .error .assert) ∨ ∃ r, e.eval = .ok r ∧ PairAccurate S e (pairError S) (pairTiny S) r := (pair_div_aux h hp e hl hr).2

/-- `1 - 2^-200`, a canonical pair of more than 106 bits. -/
def wideExample : DoubleDouble := ⟨⟨2 ^ 52, 0, .normal, false⟩, ⟨2 ^ 52, -200, .normal, true⟩⟩

theorem wideExample_value : wideExample.toRat = 1 - 1 / 2 ^ 200 := by decide +kernel

theorem wideExample_near : wideExample.Valid ∧ wideExample.Near ∧ wideExample.InRange := by
  refine ⟨by decide, ⟨by decide, by decide +kernel⟩, inRange_of_le doubleS_pair ?_⟩
  rw [wideExample_value]
  refine le_trans ?_ (pow_le_largest doubleS_ok)
  rw [abs_of_nonneg (by norm_num)]
  exact le_trans (by norm_num) (one_le_pow₀ (a := (2 : ℚ)) (by norm_num))

/-- The 106-bit pair nearest to it is 1. -/
def oneDD : DoubleDouble := ⟨⟨2 ^ 52, 0, .normal, false⟩, IeeeFloat.ZERO doubleS⟩

/-- **C100.** What follows for numbers of more than 106 bits. `1 - 2^-200` is the result of one subtraction. Truncated to an integer it gives 1, with
`is_exact` and status OK, although the number is less than 1, compares so, and `is_integer` says that it is none; `round_to_integral` toward zero gives 1 with status OK; and
`c_fmod` by 1 gives 0. -/
theorem C100_truncation_wrong : (∃ tiny : DoubleDouble, tiny.toRat = 1 / 2 ^ 200 ∧ oneDD.subR tiny .nearestTiesToEven = .ok ⟨Status.INEXACT, wideExample⟩) ∧
    wideExample.toRat < 1 ∧ wideExample.partialCmp oneDD = .ok (some .lt) ∧ wideExample.isInteger = .ok false ∧ wideExample.toU128R 64 .towardZero = .ok ⟨Status.OK, 1, true⟩ ∧
    wideExample.roundToIntegral .towardZero = .ok ⟨Status.OK, oneDD⟩ ∧ (∃ r, wideExample.cFmod oneDD = .ok ⟨Status.OK, r⟩ ∧ r.isZero = true) := by
  refine ⟨⟨⟨⟨2 ^ 52, -200, .normal, false⟩, IeeeFloat.ZERO doubleS⟩, by decide +kernel, by decide +kernel⟩, ?_, by decide +kernel, by decide +kernel, by decide +kernel,
    by decide +kernel, ⟨_, rfl, by decide +kernel⟩⟩
  rw [wideExample_value]; norm_num
/-! `C100_trim`, `C100_unary` and `C100_binary`: the hypotheses hold of a concrete case. -/
example : ∃ t, wideExample.Trimmed t ∧ wideExample.nextUp = t.nextUp ∧ wideExample.divR wideExample .towardZero = t.divR t .towardZero := by
  obtain ⟨h1, h2, h3⟩ := wideExample_near
  obtain ⟨t, t1, -⟩ := C100_trim doubleS_pair (by decide) h1 h2 h3
  exact ⟨t, t1, (C100_unary doubleS_pair (by decide) h1 h2 h3 t1).2.2.2.1,
    (C100_binary doubleS_pair (by decide) h1 h2 h3 t1 h1 h2 h3 t1 h1 h2 h3 t1).1 _⟩

theorem wideExample_abs : |wideExample.toRat| ≤ 1 ∧ 0 < |wideExample.toRat| := by
  rw [wideExample_value]
  constructor
  · rw [abs_of_nonneg (by norm_num)]; norm_num
  · rw [abs_of_nonneg (by norm_num)]; norm_num

theorem double_one_le : (1 : ℚ) ≤ 2 ^ (doubleS.maxExp - 4) :=
  one_le_zpow₀ (by norm_num) (by decide)

theorem double_one_le' : (1 : ℚ) ≤ 2 ^ (doubleS.maxExp - 2) :=
  one_le_zpow₀ (by norm_num) (by decide)

theorem double_one_le'' : (1 : ℚ) ≤ 2 ^ (doubleS.maxExp - 3) :=
  one_le_zpow₀ (by norm_num) (by decide)

/-! `C100_div`: the hypotheses hold of a concrete case. -/
example := C100_div doubleS_pair (by decide) .towardZero wideExample_near.1 wideExample_near.2.1 wideExample_near.1 wideExample_near.2.1
  (wideExample_abs.1.trans (double_one_le'.trans (quarter_le_largest doubleS_ok rfl)))
  (wideExample_abs.1.trans (double_one_le'.trans (quarter_le_largest doubleS_ok rfl))) (abs_pos.1 wideExample_abs.2)
  (by rw [div_self (abs_pos.1 wideExample_abs.2), abs_one]; exact double_one_le'')

/-! `C100_expression`: the hypotheses hold of a quotient of such pairs, which therefore returns. -/
example : ∃ r, (Expr.div .towardPositive (.lit wideExample) (.lit wideExample)).eval = .ok r ∧
    PairAccurate doubleS (.div .towardPositive (.lit wideExample) (.lit wideExample)) (pairError doubleS) (pairTiny doubleS) r := by
  obtain ⟨h1, h2, -⟩ := wideExample_near
  obtain ⟨a1, a2⟩ := wideExample_abs
  have l : wideExample.Valid ∧ wideExample.Near ∧ |wideExample.toRat| ≤ 2 ^ (doubleS.maxExp - 2) := ⟨h1, h2, a1.trans double_one_le'⟩
  rcases C100_expression doubleS_pair (by decide) (.div .towardPositive (.lit wideExample) (.lit wideExample)) ⟨l, l⟩
    ⟨trivial, trivial, by show |wideExample.toRat| - |wideExample.toRat| < _; rw [sub_self]; exact a2, by
      show |wideExample.toRat| / (|wideExample.toRat| - (|wideExample.toRat| - |wideExample.toRat|)) ≤ _
      rw [sub_self, sub_zero, div_self a2.ne']; exact double_one_le⟩ with h | h
  · exact absurd ⟨trivial, trivial⟩ h.1
  · exact h

end Apf
