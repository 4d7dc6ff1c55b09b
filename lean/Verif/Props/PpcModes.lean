import Verif.Proof.Faithful
import Verif.Spec.PpcNear
import Verif.Props.PpcMulAll
/-! # C81, C82: sums and products of pairs in every rounding mode (ppc.rs:188-340) -/

namespace Apf
open Spec IeeeFloat
variable {S : Sem}

/-- A step whose exact value is in range, in any rounding mode. -/
theorem rounds_step (h : S.Pair) {mode : Round} {v : ℚ} {zs : Bool} {r : StatusAnd (IeeeFloat S)} (hr : Rounds S mode v zs r) (hv : |v| ≤ S.fmt.largest) :
    r.value.isFinite = true ∧ IsRounded S.fmt mode v r.value.toRat ∧ r.status.invalidOp = false ∧ r.status.overflow = false ∧
      (r.status.inexact = false → r.value.toRat = v) := by
  obtain ⟨⟨g, g1, g2⟩, -⟩ := hr
  have hl : |g| ≤ S.fmt.largest := by
    have hL := grid_largest h.ok
    rw [_root_.abs_le] at hv ⊢
    exact ⟨g1.ge_of_grid hL.neg hv.1, g1.le_of_grid hL hv.2⟩
  rcases g2 with ⟨-, g2, g3⟩ | ⟨k, g2⟩
  · have hf : r.value.isFinite = true := by
      rw [isFinite_iff]
      unfold datum at g2
      cases c : r.value.category <;> rw [c] at g2 <;> simp_all
    rw [datum_finite hf] at g2
    injection g2 with _ g2
    subst g2
    refine ⟨hf, g1, by rw [g3], by rw [g3], fun hh => ?_⟩
    rw [g3] at hh
    simpa using hh
  · linarith

theorem add_any (h : S.Pair) (mode : Round) {x y : IeeeFloat S} (hx : x.Valid) (fx : x.isFinite = true) (hy : y.Valid) (fy : y.isFinite = true)
    (hv : |x.toRat + y.toRat| ≤ S.fmt.largest) :
    ∃ r, addR x y mode = .ok r ∧ r.value.Valid ∧ r.value.isFinite = true ∧ IsRounded S.fmt mode (x.toRat + y.toRat) r.value.toRat ∧
      r.status.invalidOp = false ∧ r.status.overflow = false ∧ (r.status.inexact = false → r.value.toRat = x.toRat + y.toRat) := by
  obtain ⟨r, r1, r2, r3⟩ := addR_finite h.ok hx hy fx fy mode (directedOK_of_ieee h.ieee _ _)
  exact ⟨r, r1, r2, rounds_step h r3 hv⟩

theorem sub_any (h : S.Pair) (mode : Round) {x y : IeeeFloat S} (hx : x.Valid) (fx : x.isFinite = true) (hy : y.Valid) (fy : y.isFinite = true)
    (hv : |x.toRat - y.toRat| ≤ S.fmt.largest) :
    ∃ r, subR x y mode = .ok r ∧ r.value.Valid ∧ r.value.isFinite = true ∧ IsRounded S.fmt mode (x.toRat - y.toRat) r.value.toRat ∧
      r.status.invalidOp = false ∧ r.status.overflow = false ∧ (r.status.inexact = false → r.value.toRat = x.toRat - y.toRat) := by
  obtain ⟨r, r1, r2, r3⟩ := subR_finite h.ok hx hy fx fy mode (directedOK_of_ieee h.ieee _ _)
  exact ⟨r, r1, r2, rounds_step h r3 hv⟩

theorem mul_any (h : S.Pair) (mode : Round) {x y : IeeeFloat S} (hx : x.Valid) (fx : x.isFinite = true) (hy : y.Valid) (fy : y.isFinite = true)
    (hv : |x.toRat * y.toRat| ≤ S.fmt.largest) :
    ∃ r, mulR x y mode = .ok r ∧ r.value.Valid ∧ r.value.isFinite = true ∧ IsRounded S.fmt mode (x.toRat * y.toRat) r.value.toRat ∧
      r.status.invalidOp = false ∧ r.status.overflow = false ∧ (r.status.inexact = false → r.value.toRat = x.toRat * y.toRat) := by
  obtain ⟨r, r1, r2, r3⟩ := mulR_finite h.ok hx hy fx fy mode (directedOK_of_ieee h.ieee _ _)
  exact ⟨r, r1, r2, rounds_step h r3 hv⟩

theorem near_eps (p : ℕ) : 4 * (2 : ℚ) ^ (1 - (p : ℤ)) = 8 * 2 ^ (-(p : ℤ)) := by
  rw [sub_eq_add_neg, two_zpow_add, zpow_one]; ring

/-- The high part of a near pair against its value. -/
theorem Near.hi_le (hp : 10 ≤ S.precision) {x : DoubleFloat S} (hn : x.Near) : |x.hi.toRat| * (63 / 64) ≤ |x.toRat| ∧ |x.toRat| ≤ |x.hi.toRat| * (65 / 64) := by
  have h1 : 8 * (2 : ℚ) ^ (-(S.precision : ℤ)) ≤ 1 / 64 := by
    have : (2 : ℚ) ^ (-(S.precision : ℤ)) ≤ 2 ^ (-10 : ℤ) := two_zpow_le (by omega)
    norm_num at this ⊢; linarith
  have h2 := hn.2.trans (mul_le_mul_of_nonneg_right h1 (abs_nonneg _))
  unfold DoubleFloat.toRat
  constructor
  · have := abs_sub (x.hi.toRat + x.lo.toRat) x.lo.toRat
    rw [add_sub_cancel_right] at this
    linarith
  · exact (abs_add_le _ _).trans (by linarith)

/-- Canonical pairs are near. -/
theorem Canonical.near (h : S.OK) {x : DoubleFloat S} (hx : x.Valid) (cx : x.Canonical) : x.Near := by
  refine ⟨cx.1, (low_unit h hx cx).trans ?_⟩
  apply mul_le_mul_of_nonneg_right _ (abs_nonneg _)
  have := two_zpow_pos (-(S.precision : ℤ)); linarith

set_option maxHeartbeats 2000000 in
theorem addFinite_any (h : S.Pair) (hp : 10 ≤ S.precision) (mode : Round) {a aa c cc z : IeeeFloat S} {st : Status} (sto : st.overflow = false)
    (sti : st.invalidOp = false) (va : a.Valid) (fa : a.isFinite = true) (vaa : aa.Valid) (faa : aa.isFinite = true)
    (vc : c.Valid) (fc : c.isFinite = true) (vcc : cc.Valid) (fcc : cc.isFinite = true) (vz : z.Valid) (fz : z.isFinite = true)
    (h1 : |aa.toRat| ≤ 4 * 2 ^ (1 - (S.precision : ℤ)) * |a.toRat|) (h2 : |cc.toRat| ≤ 4 * 2 ^ (1 - (S.precision : ℤ)) * |c.toRat|)
    (h3 : IsRounded S.fmt mode (a.toRat + c.toRat) z.toRat) (hB : |a.toRat| + |c.toRat| ≤ 2 ^ (S.maxExp - 2)) :
    ∃ r, DoubleFloat.addFinite a aa c cc z st mode = .ok r ∧ r.value.Valid ∧ r.value.Near ∧ r.status.overflow = false ∧ r.status.invalidOp = false ∧
      |r.value.toRat - (a.toRat + aa.toRat + (c.toRat + cc.toRat))| ≤ 30 * (2 ^ (1 - (S.precision : ℤ))) ^ 2 * (|a.toRat| + |c.toRat|) := by
  have hok := h.ok
  have hpm := hok.p_max; have hmin := hok.min_lt
  have hfp : S.fmt.p = S.precision := rfl
  have hfe : S.fmt.emin = S.minExp := rfl
  have g1 := grid_toRat hok va fa
  have g2 := grid_toRat hok vaa faa
  have g3 := grid_toRat hok vc fc
  have g4 := grid_toRat hok vcc fcc
  have g5 := grid_toRat hok vz fz
  have ex := fun v => exists_rounded (F := S.fmt) (by omega) mode v
  obtain ⟨q0, hq0⟩ := ex (a.toRat - z.toRat)
  obtain ⟨d0, hd0⟩ := ex (q0 + c.toRat)
  obtain ⟨q0', hq0'⟩ := ex (q0 + z.toRat)
  obtain ⟨e0, he0⟩ := ex (q0' - a.toRat)
  obtain ⟨f0, hf0⟩ := ex (d0 - e0)
  obtain ⟨w0, hw0⟩ := ex (f0 + aa.toRat)
  obtain ⟨zz0, hzz0⟩ := ex (w0 + cc.toRat)
  obtain ⟨k1, k2, k3, k4, k5, k6, k7, k8, k9, k10⟩ := faith_sum (F := S.fmt) (by omega) g1 g2 g3 g4 h1 h2 (.of_rounded h3) (.of_rounded hq0) (.of_rounded hd0)
    (.of_rounded hq0') (.of_rounded he0) (.of_rounded hf0) (.of_rounded hw0) (.of_rounded hzz0)
  obtain ⟨ε0, ε1⟩ := faith_eps (F := S.fmt) (by omega)
  have lim : 3 * (|a.toRat| + |c.toRat|) ≤ S.fmt.largest := by
    have gB : S.fmt.Grid (2 ^ S.maxExp) := grid_two_pow (by omega) (by rw [hfp, hfe]; omega)
    have := grid_le_largest hok h.ieee gB (by rw [abs_of_pos (two_zpow_pos _)]; exact two_zpow_lt (by omega))
    rw [abs_of_pos (two_zpow_pos _)] at this
    have e : (2 : ℚ) ^ S.maxExp = 2 ^ (S.maxExp - 2) * 4 := by
      rw [show (4 : ℚ) = 2 ^ (2 : ℤ) by norm_num, ← two_zpow_add]; congr 1; ring
    have := two_zpow_pos (S.maxExp - 2)
    linarith
  have B0 : 0 ≤ |a.toRat| + |c.toRat| := by positivity
  rw [hfp] at k9 k10 ε0 ε1
  unfold DoubleFloat.addFinite
  obtain ⟨q, q1, q2, q3, q4, q5, q6, -⟩ := sub_any h mode va fa vz fz (by linarith)
  have eq := q4.unique hq0
  rw [q1, M.ok_bind]
  try dsimp only
  obtain ⟨d, d1, d2, d3, d4, d5, d6, -⟩ := add_any h mode q2 q3 vc fc (by rw [eq]; linarith)
  rw [eq] at d4
  have ed := d4.unique hd0
  rw [d1, M.ok_bind]
  try dsimp only
  obtain ⟨q', p1, p2, p3, p4, p5, p6, -⟩ := add_any h mode q2 q3 vz fz (by rw [eq]; linarith)
  rw [eq] at p4
  have ep := p4.unique hq0'
  rw [p1, M.ok_bind]
  try dsimp only
  obtain ⟨e, e1, e2, e3, e4, e5, e6, -⟩ := sub_any h mode p2 p3 va fa (by rw [ep]; linarith)
  rw [ep] at e4
  have ee := e4.unique he0
  rw [e1, M.ok_bind]
  try dsimp only
  obtain ⟨f, f1, f2, f3, f4, f5, f6, -⟩ := add_any h mode d2 d3 (neg_valid e2) (by rw [neg_finite]; exact e3)
    (by rw [neg_toRat, ← sub_eq_add_neg, ed, ee]; linarith)
  rw [neg_toRat, ← sub_eq_add_neg, ed, ee] at f4
  have ef := f4.unique hf0
  rw [f1, M.ok_bind]
  try dsimp only
  obtain ⟨w, w1, w2, w3, w4, w5, w6, -⟩ := add_any h mode f2 f3 vaa faa (by rw [ef]; linarith)
  rw [ef] at w4
  have ew := w4.unique hw0
  rw [w1, M.ok_bind]
  try dsimp only
  obtain ⟨zz, z1, z2, z3, z4, z5, z6, -⟩ := add_any h mode w2 w3 vcc fcc (by rw [ew]; linarith)
  rw [ew] at z4
  have ez := z4.unique hzz0
  rw [z1, M.ok_bind]
  try dsimp only
  have εB0 : 0 ≤ (2 ^ (1 - (S.precision : ℤ))) ^ 2 * (|a.toRat| + |c.toRat|) := by positivity
  have kzz : |zz0| ≤ |a.toRat| + |c.toRat| := by
    have := mul_le_mul_of_nonneg_right ε1 B0
    linarith
  by_cases hz0 : (zz.value.isZero && !zz.value.isNegative) = true
  · rw [if_pos hz0]
    have c0 : zz.value.category = .zero := by
      simp only [Bool.and_eq_true] at hz0
      simpa [isZero] using hz0.1
    have v0 : zz0 = 0 := by rw [← ez]; exact toRat_zero c0
    have vv : (⟨z, IeeeFloat.ZERO S⟩ : DoubleFloat S).toRat = z.toRat := by
      unfold DoubleFloat.toRat
      rw [toRat_zero (x := IeeeFloat.ZERO S) rfl, add_zero]
    refine ⟨_, rfl, ⟨vz, rfl⟩, ⟨⟨fz, rfl⟩, ?_⟩, rfl, rfl, ?_⟩
    · show |(IeeeFloat.ZERO S).toRat| ≤ _
      rw [toRat_zero (x := IeeeFloat.ZERO S) rfl, abs_zero]
      have := two_zpow_pos (-(S.precision : ℤ)); positivity
    · show |(⟨z, IeeeFloat.ZERO S⟩ : DoubleFloat S).toRat - _| ≤ _
      rw [vv]
      rw [v0, add_zero] at k10
      linarith
  · rw [if_neg hz0]
    have gzz := hzz0.1
    obtain ⟨s0, hs0⟩ := ex (z.toRat + zz0)
    obtain ⟨l10, hl10⟩ := ex (z.toRat - s0)
    obtain ⟨l0, hl0⟩ := ex (l10 + zz0)
    obtain ⟨m1, m2, m3, m4⟩ := faith_end (F := S.fmt) (by omega) g5 gzz (.of_rounded hs0) (.of_rounded hl10) (.of_rounded hl0)
    rw [hfp] at m1 m2
    have kzz' : |zz0| ≤ (|a.toRat| + |c.toRat|) / 64 := by
      have := mul_le_mul_of_nonneg_right ε1 B0
      linarith
    have kz : |z.toRat| ≤ 9 / 8 * (|a.toRat| + |c.toRat|) := by
      have r := (Faith.of_rounded h3).rel (by omega) ((mult_of_grid g1).add (mult_of_grid g3))
      rw [hfp] at r
      have t := abs_add_le a.toRat c.toRat
      have t2 := abs_le_add_sub (a.toRat + c.toRat) z.toRat
      have := mul_le_mul_of_nonneg_right ε1 (abs_nonneg (a.toRat + c.toRat))
      linarith
    obtain ⟨s, a1, a2, a3, a4, a5, a6, -⟩ := add_any h mode vz fz z2 z3 (by rw [ez]; exact (abs_add_le _ _).trans (by linarith))
    rw [ez] at a4
    have es := a4.unique hs0
    rw [a1, M.ok_bind]
    try dsimp only
    rw [if_neg (by rw [a3]; decide)]
    obtain ⟨l, l1, l2, l3, l4, l5, l6, -⟩ := sub_any h mode vz fz a2 a3 (by rw [es]; linarith)
    rw [es] at l4
    have el := l4.unique hl10
    rw [l1, M.ok_bind]
    try dsimp only
    obtain ⟨l', j1, j2, j3, j4, j5, j6, -⟩ := add_any h mode l2 l3 z2 z3 (by rw [el, ez]; linarith)
    rw [el, ez] at j4
    have ej := j4.unique hl0
    rw [j1, M.ok_bind]
    have vv : (⟨s.value, l'.value⟩ : DoubleFloat S).toRat = s0 + l0 := by
      unfold DoubleFloat.toRat
      rw [es, ej]
    refine ⟨_, rfl, ⟨a2, j2⟩, ⟨⟨a3, j3⟩, ?_⟩, ?_, ?_, ?_⟩
    · show |l'.value.toRat| ≤ _ * |s.value.toRat|
      rw [es, ej, ← near_eps]; exact m2
    · simp [Status.and, or_overflow, sto, q6, d6, p6, e6, f6, w6, z6, a6, l6, j6]
    · simp [Status.and, or_invalidOp, sti, q5, d5, p5, e5, f5, w5, z5, a5, l5, j5]
    · show |(⟨s.value, l'.value⟩ : DoubleFloat S).toRat - _| ≤ _
      rw [vv]
      have e : s0 + l0 - (a.toRat + aa.toRat + (c.toRat + cc.toRat)) =
          (s0 + l0 - (z.toRat + zz0)) + (z.toRat + zz0 - (a.toRat + aa.toRat + (c.toRat + cc.toRat))) := by ring
      rw [e]
      refine (abs_add_le _ _).trans ?_
      have t := abs_add_le z.toRat zz0
      generalize (2 : ℚ) ^ (1 - (S.precision : ℤ)) = ε at *
      generalize |a.toRat| + |c.toRat| = B at *
      rcases m1 with m1 | ⟨-, m1⟩
      · have : ε * (ε * |z.toRat + zz0|) ≤ ε * (ε * (2 * B)) :=
          mul_le_mul_of_nonneg_left (mul_le_mul_of_nonneg_left (by linarith) ε0.le) ε0.le
        linarith
      · have : ε * |zz0| ≤ ε * (6 * ε * B) := mul_le_mul_of_nonneg_left k9 ε0.le
        linarith

theorem Near.low_zero {x : DoubleFloat S} (hn : x.Near) (h : x.hi.toRat = 0) : x.lo.toRat = 0 := by
  have := hn.2
  rw [h, abs_zero, mul_zero] at this
  exact abs_eq_zero.1 (le_antisymm this (abs_nonneg _))

/-- **C81.** In every rounding mode and away from the end of the range, the sum of two pairs with a small low part is such a pair, without
OVERFLOW or INVALID_OP, and its error is at most 128 times the relative unit `2^(-2p)` with respect to the sum of the magnitudes. -/
theorem C81_add (h : S.Pair) (hp : 10 ≤ S.precision) (mode : Round) {x y : DoubleFloat S} (hx : x.Valid) (nx : x.Near) (hy : y.Valid) (ny : y.Near)
    (bx : |x.toRat| ≤ 2 ^ (S.maxExp - 4)) (bY : |y.toRat| ≤ 2 ^ (S.maxExp - 4)) :
    ∃ r, x.addR y mode = .ok r ∧ r.value.Valid ∧ r.value.Near ∧ r.status.overflow = false ∧ r.status.invalidOp = false ∧
      |r.value.toRat - (x.toRat + y.toRat)| ≤ 128 * 2 ^ (-2 * (S.precision : ℤ)) * (|x.toRat| + |y.toRat|) := by
  have hok := h.ok
  have hpm := hok.p_max; have hmin := hok.min_lt
  have hfp : S.fmt.p = S.precision := rfl
  have hfe : S.fmt.emin = S.minExp := rfl
  have u2 : (0 : ℚ) < 2 ^ (-2 * (S.precision : ℤ)) := two_zpow_pos _
  have triv : (0 : ℚ) ≤ 128 * 2 ^ (-2 * (S.precision : ℤ)) * (|x.toRat| + |y.toRat|) := by positivity
  have zero : ∀ {x : DoubleFloat S}, x.Near → x.hi.category = .zero → x.toRat = 0 := by
    intro x nx c
    have h0 := toRat_zero c
    unfold DoubleFloat.toRat
    rw [h0, Near.low_zero nx h0, add_zero]
  rcases isFinite_iff.1 nx.1.1 with c1 | c1 <;> rcases isFinite_iff.1 ny.1.1 with c2 | c2
  · have ax := (Near.hi_le hp nx).1
    have ay := (Near.hi_le hp ny).1
    have e2 : (2 : ℚ) ^ (S.maxExp - 2) = 2 ^ (S.maxExp - 4) * 4 := by
      rw [show (4 : ℚ) = 2 ^ (2 : ℤ) by norm_num, ← two_zpow_add]; congr 1; ring
    have p4 := two_zpow_pos (S.maxExp - 4)
    have hB : |x.hi.toRat| + |y.hi.toRat| ≤ 2 ^ (S.maxExp - 2) := by linarith
    have lim : (2 : ℚ) ^ (S.maxExp - 2) ≤ S.fmt.largest := by
      have gB : S.fmt.Grid (2 ^ (S.maxExp - 2)) := grid_two_pow (by omega) (by rw [hfp, hfe]; omega)
      have := grid_le_largest hok h.ieee gB (by rw [abs_of_pos (two_zpow_pos _)]; exact two_zpow_lt (by omega))
      rwa [abs_of_pos (two_zpow_pos _)] at this
    obtain ⟨z, z1, z2, z3, z4, z5, z6, -⟩ := add_any h mode hx.1 nx.1.1 hy.1 ny.1.1 ((abs_add_le _ _).trans (hB.trans lim))
    obtain ⟨r, r1, r2, r3, r4, r5, r6⟩ := addFinite_any h hp mode (st := Status.OK ||| z.status) (by rw [or_overflow, z6]; rfl) (by rw [or_invalidOp, z5]; rfl)
      hx.1 nx.1.1 hx.2 nx.1.2 hy.1 ny.1.1 hy.2 ny.1.2 z2 z3 (by rw [near_eps]; exact nx.2) (by rw [near_eps]; exact ny.2) z4 hB
    refine ⟨r, ?_, r2, r3, r4, r5, ?_⟩
    · unfold DoubleFloat.addR DoubleFloat.category
      simp only [c1, c2]
      rw [z1, M.ok_bind]
      rw [if_neg (by rw [z3]; decide)]
      exact r1
    · refine r6.trans ?_
      have e : ((2 : ℚ) ^ (1 - (S.precision : ℤ))) ^ 2 = 4 * 2 ^ (-2 * (S.precision : ℤ)) := by
        rw [← zpow_natCast, ← zpow_mul, show (4 : ℚ) = 2 ^ (2 : ℤ) by norm_num, ← two_zpow_add]; congr 1; push_cast; ring
      rw [e]
      have := mul_le_mul_of_nonneg_left (show |x.hi.toRat| + |y.hi.toRat| ≤ 64 / 63 * (|x.toRat| + |y.toRat|) by linarith) u2.le
      have h0 : 0 ≤ 2 ^ (-2 * (S.precision : ℤ)) * (|x.toRat| + |y.toRat|) := by positivity
      linarith
  · have e := zero ny c2
    refine ⟨Status.OK.and x, ?_, hx, nx, rfl, rfl, ?_⟩
    · unfold DoubleFloat.addR DoubleFloat.category; simp only [c1, c2]
    · show |x.toRat - (x.toRat + y.toRat)| ≤ _
      rw [show x.toRat - (x.toRat + y.toRat) = 0 by rw [e]; ring, abs_zero]; exact triv
  · have e := zero nx c1
    refine ⟨Status.OK.and y, ?_, hy, ny, rfl, rfl, ?_⟩
    · unfold DoubleFloat.addR DoubleFloat.category; simp only [c1, c2]
    · show |y.toRat - (x.toRat + y.toRat)| ≤ _
      rw [show y.toRat - (x.toRat + y.toRat) = 0 by rw [e]; ring, abs_zero]; exact triv
  · have e := zero ny c2
    refine ⟨Status.OK.and x, ?_, hx, nx, rfl, rfl, ?_⟩
    · unfold DoubleFloat.addR DoubleFloat.category; simp only [c1, c2]
    · show |x.toRat - (x.toRat + y.toRat)| ≤ _
      rw [show x.toRat - (x.toRat + y.toRat) = 0 by rw [e]; ring, abs_zero]; exact triv

theorem neg_near {x : DoubleFloat S} (hx : x.Valid) (hn : x.Near) : x.neg.Valid ∧ x.neg.Near := by
  have hs : x.neg.hi = x.hi.neg := by unfold DoubleFloat.neg; split_ifs <;> rfl
  have hl : x.neg.lo = x.lo.neg ∨ x.neg.lo = x.lo := by unfold DoubleFloat.neg; split_ifs <;> simp
  refine ⟨⟨by rw [hs]; exact neg_valid hx.1, ?_⟩, ⟨⟨by rw [hs, neg_finite]; exact hn.1.1, ?_⟩, ?_⟩⟩
  · rcases hl with e | e <;> rw [e]
    · exact neg_valid hx.2
    · exact hx.2
  · rcases hl with e | e <;> rw [e]
    · rw [neg_finite]; exact hn.1.2
    · exact hn.1.2
  · rw [hs, neg_toRat, abs_neg]
    rcases hl with e | e <;> rw [e]
    · rw [neg_toRat, abs_neg]; exact hn.2
    · exact hn.2

/-- **C81.** Subtraction likewise. -/
theorem C81_sub (h : S.Pair) (hp : 10 ≤ S.precision) (mode : Round) {x y : DoubleFloat S} (hx : x.Valid) (nx : x.Near) (hy : y.Valid) (ny : y.Near)
    (bx : |x.toRat| ≤ 2 ^ (S.maxExp - 4)) (bY : |y.toRat| ≤ 2 ^ (S.maxExp - 4)) :
    ∃ r, x.subR y mode = .ok r ∧ r.value.Valid ∧ r.value.Near ∧ r.status.overflow = false ∧ r.status.invalidOp = false ∧
      |r.value.toRat - (x.toRat - y.toRat)| ≤ 128 * 2 ^ (-2 * (S.precision : ℤ)) * (|x.toRat| + |y.toRat|) := by
  obtain ⟨n1, n2⟩ := neg_near hy ny
  obtain ⟨m1, -⟩ := C43_neg ny.1
  obtain ⟨r, r1, r2, r3, r4, r5, r6⟩ := C81_add h hp mode hx nx n1 n2 bx (by rw [m1, abs_neg]; exact bY)
  rw [m1, abs_neg, ← sub_eq_add_neg] at r6
  exact ⟨r, r1, r2, r3, r4, r5, r6⟩

example := C81_sub doubleS_pair (by decide) .towardZero (x := ⟨⟨2 ^ 52, 0, .normal, false⟩, ⟨2 ^ 52, -60, .normal, true⟩⟩)
  (y := ⟨⟨3 * 2 ^ 51, 0, .normal, false⟩, ZERO doubleS⟩) (by decide +kernel) ⟨by decide, by decide +kernel⟩ (by decide +kernel) ⟨by decide, by decide +kernel⟩
  (by decide +kernel) (by decide +kernel)

/-! ## C82: products -/

theorem rounds_quiet {mode : Round} {v : ℚ} {zs : Bool} {r : StatusAnd (IeeeFloat S)} (hr : Rounds S mode v zs r)
    (hf : r.value.isFinite = true) (hs : |r.value.toRat| < S.fmt.largest) : r.status.invalidOp = false ∧ r.status.overflow = false := by
  obtain ⟨⟨g, g1, ⟨-, -, g3⟩ | ⟨-, g3⟩⟩, -⟩ := hr
  · rw [g3]; exact ⟨rfl, rfl⟩
  · exfalso
    rw [datum_finite hf] at g3
    have hL : 0 ≤ S.fmt.largest := (abs_nonneg _).trans hs.le
    have k : ∀ b : Bool, (Datum.num r.value.sign r.value.toRat, r.status) =
        (if b then ((if S.fmt.hasInf then .inf r.value.sign else .nan : Datum), ({ overflow := true, inexact := true } : Status))
         else (.num r.value.sign (signed r.value.sign S.fmt.largest), { inexact := true })) → False := by
      intro b hb
      cases b
      · simp only [Bool.false_eq_true, if_false, Prod.mk.injEq, Datum.num.injEq, true_and] at hb
        rw [hb.1, abs_signed _ hL] at hs
        exact lt_irrefl _ hs
      · cases hi : S.fmt.hasInf <;> simp [hi] at hb
    exact k _ g3

set_option maxHeartbeats 2000000 in
/-- **C82.** In every rounding mode and away from the end of the range, the product of two pairs with a small low part panics iff the fused
multiply-add of the leading parts and of their rounded product does; otherwise it is again such a pair, without OVERFLOW or INVALID_OP, and its error is
at most 272 times the relative unit `2^(-2p)` plus six units of the smallest subnormal. -/
theorem C82_mul (h : S.Pair) (hp : 10 ≤ S.precision) (mode : Round) {x y : DoubleFloat S} (hx : x.Valid) (nx : x.Near) (hy : y.Valid) (ny : y.Near)
    (bxy : |x.toRat * y.toRat| ≤ 2 ^ (S.maxExp - 3)) :
    ((∃ t, IsRounded S.fmt mode (x.hi.toRat * y.hi.toRat) t ∧ FmaPanics S (x.hi.toRat * y.hi.toRat) (-t)) ∧ x.mulR y mode = .error .assert) ∨
    ((∀ t, IsRounded S.fmt mode (x.hi.toRat * y.hi.toRat) t → ¬ FmaPanics S (x.hi.toRat * y.hi.toRat) (-t)) ∧
      ∃ r, x.mulR y mode = .ok r ∧ r.value.Valid ∧ r.value.Near ∧ r.status.overflow = false ∧ r.status.invalidOp = false ∧
        |r.value.toRat - x.toRat * y.toRat| ≤ 272 * 2 ^ (-2 * (S.precision : ℤ)) * |x.toRat * y.toRat| + 6 * 2 ^ (S.minExp - S.precision + 1)) := by
  have hok := h.ok
  have hpm := hok.p_max; have hmin := hok.min_lt
  have hfp : S.fmt.p = S.precision := rfl
  have hfe : S.fmt.emin = S.minExp := rfl
  have u2 : (0 : ℚ) < 2 ^ (-2 * (S.precision : ℤ)) := two_zpow_pos _
  obtain ⟨η, hη⟩ : ∃ η : ℚ, η = 2 ^ (S.minExp - S.precision + 1) := ⟨_, rfl⟩
  have η0 : 0 < η := hη ▸ two_zpow_pos _
  rw [← hη]
  have triv : ∀ v : ℚ, 0 ≤ 272 * 2 ^ (-2 * (S.precision : ℤ)) * |v| + 6 * η := by intro v; positivity
  have zero : ∀ {x : DoubleFloat S}, x.Near → x.hi.category = .zero → x.toRat = 0 := by
    intro x nx c
    have h0 := toRat_zero c
    unfold DoubleFloat.toRat
    rw [h0, Near.low_zero nx h0, add_zero]
  rcases isFinite_iff.1 nx.1.1 with c1 | c1
  swap
  · have e1 := zero nx c1
    refine Or.inr ⟨fun t _ hh => ?_, Status.OK.and x, ?_, hx, nx, rfl, rfl, ?_⟩
    · have := hh.1.1
      rw [toRat_zero c1, zero_mul, zero_mul] at this; exact lt_irrefl _ this
    · unfold DoubleFloat.mulR DoubleFloat.category
      rcases isFinite_iff.1 ny.1.1 with c2 | c2 <;> simp only [c1, c2]
    · show |x.toRat - _| ≤ _
      rw [e1, zero_mul, sub_self, abs_zero]; simpa using triv 0
  rcases isFinite_iff.1 ny.1.1 with c2 | c2
  swap
  · have e1 := zero ny c2
    refine Or.inr ⟨fun t _ hh => ?_, Status.OK.and y, ?_, hy, ny, rfl, rfl, ?_⟩
    · have := hh.1.1
      rw [toRat_zero c2, mul_zero, zero_mul] at this; exact lt_irrefl _ this
    · unfold DoubleFloat.mulR DoubleFloat.category
      simp only [c1, c2]
    · show |y.toRat - _| ≤ _
      rw [e1, mul_zero, sub_self, abs_zero]; simpa using triv 0
  have lx : |x.lo.toRat| ≤ 4 * 2 ^ (1 - (S.fmt.p : ℤ)) * |x.hi.toRat| := by rw [hfp, near_eps]; exact nx.2
  have ly : |y.lo.toRat| ≤ 4 * 2 ^ (1 - (S.fmt.p : ℤ)) * |y.hi.toRat| := by rw [hfp, near_eps]; exact ny.2
  have hP : |x.hi.toRat * y.hi.toRat| ≤ 34 / 32 * |x.toRat * y.toRat| ∧ |x.toRat * y.toRat| ≤ 34 / 32 * |x.hi.toRat * y.hi.toRat| := by
    obtain ⟨a1, a2⟩ := Near.hi_le hp nx
    obtain ⟨b1, b2⟩ := Near.hi_le hp ny
    rw [abs_mul, abs_mul]
    have m1 := mul_le_mul a1 b1 (by positivity) (abs_nonneg _)
    have m2 := mul_le_mul a2 b2 (abs_nonneg _) (by positivity)
    have q1 : 0 ≤ |x.hi.toRat| * |y.hi.toRat| := by positivity
    have q2 : 0 ≤ |x.toRat| * |y.toRat| := by positivity
    constructor <;> linarith
  have hP' : |x.hi.toRat * y.hi.toRat| * (63 / 64 * (63 / 64)) ≤ |x.toRat * y.toRat| := by
    obtain ⟨a1, a2⟩ := Near.hi_le hp nx
    obtain ⟨b1, b2⟩ := Near.hi_le hp ny
    rw [abs_mul, abs_mul]
    have m1 := mul_le_mul a1 b1 (by positivity) (abs_nonneg _)
    linarith
  -- the range
  have lim : 3 * |x.hi.toRat * y.hi.toRat| + 32 * η < S.fmt.largest := by
    have gB : S.fmt.Grid (2 ^ S.maxExp) := grid_two_pow (by omega) (by rw [hfp, hfe]; omega)
    have := grid_le_largest hok h.ieee gB (by rw [abs_of_pos (two_zpow_pos _)]; exact two_zpow_lt (by omega))
    rw [abs_of_pos (two_zpow_pos _)] at this
    have e : (2 : ℚ) ^ S.maxExp = 2 ^ (S.maxExp - 3) * 8 := by
      rw [show (8 : ℚ) = 2 ^ (3 : ℤ) by norm_num, ← two_zpow_add]; congr 1; ring
    have h1 : 32 * η ≤ 2 ^ (S.maxExp - 3) := by
      rw [hη, show (32 : ℚ) = 2 ^ (5 : ℤ) by norm_num, ← two_zpow_add]
      exact two_zpow_le (by omega)
    have := two_zpow_pos (S.maxExp - 3)
    linarith [hP.1]
  have P0 := abs_nonneg (x.hi.toRat * y.hi.toRat)
  obtain ⟨ε0, ε1⟩ := faith_eps (F := S.fmt) (by omega)
  have ex := fun v => exists_rounded (F := S.fmt) (by omega) mode v
  obtain ⟨t, t1, t2, t3, t4, t5, t6, -⟩ := mul_any h mode hx.1 nx.1.1 hy.1 ny.1.1 (by linarith)
  have ft := Faith.of_rounded t4
  have et := ft.err (by omega)
  rw [hfe, hfp, ← hη] at et
  unfold DoubleFloat.mulR DoubleFloat.category
  simp only [c1, c2]
  rw [t1, M.ok_bind]
  try dsimp only
  rcases isFinite_iff.1 t3 with ct | ct
  swap
  · -- it underflows to zero
    have tz := toRat_zero ct
    rw [if_pos (by simp [isFiniteNonZero, isFinite, isNan, isInfinite, isZero, ct])]
    have hne : x.hi.toRat * y.hi.toRat ≠ 0 := mul_ne_zero (toRat_ne_zero hx.1 c1) (toRat_ne_zero hy.1 c2)
    refine Or.inr ⟨fun t' ht' hh => ?_, _, rfl, ⟨t2, zero_valid⟩, ⟨⟨t3, rfl⟩, ?_⟩, ?_, ?_, ?_⟩
    · have := hh.1.1
      rw [← t4.unique ht', tz, neg_zero, mul_zero] at this; exact lt_irrefl _ this
    · show |(ZERO S).toRat| ≤ _
      rw [toRat_zero (x := ZERO S) rfl, abs_zero]
      have := two_zpow_pos (-(S.precision : ℤ)); positivity
    · simp [Status.and, or_overflow, t6, ok_overflow]
    · simp [Status.and, or_invalidOp, t5, ok_invalidOp]
    · show |t.value.toRat + (ZERO S).toRat - _| ≤ _
      rw [tz, toRat_zero (x := ZERO S) rfl, add_zero, zero_sub, abs_neg]
      have h3 : 0 ≤ 272 * 2 ^ (-2 * (S.precision : ℤ)) * |x.toRat * y.toRat| := by positivity
      rw [tz, sub_zero] at et
      have h4 : |x.hi.toRat * y.hi.toRat| ≤ η := by
        rcases et with e | e
        · exact e
        · have := mul_le_mul_of_nonneg_right ε1 P0
          rw [hfp] at this
          linarith
      linarith [hP.2]
  rw [if_neg (by rw [(isFiniteNonZero_iff _).2 ct]; decide)]
  have fn : t.value.neg.isFinite = true := by rw [neg_finite]; exact t3
  have en : t.value.neg.toRat = -t.value.toRat := neg_toRat _
  by_cases hpan : FmaPanics S (x.hi.toRat * y.hi.toRat) (-t.value.toRat)
  · refine Or.inl ⟨⟨_, t4, hpan⟩, ?_⟩
    rw [← en] at hpan
    rw [(C76_excluded hok hx.1 hy.1 (neg_valid t2) nx.1.1 ny.1.1 fn mode hpan.1).1 hpan.2]
    rfl
  refine Or.inr ⟨fun t' ht' => by rw [← t4.unique ht']; exact hpan, ?_⟩
  have et' : |x.hi.toRat * y.hi.toRat - t.value.toRat| ≤ η + |x.hi.toRat * y.hi.toRat| / 512 := by
    rcases et with e | e
    · linarith
    · have := mul_le_mul_of_nonneg_right ε1 P0
      rw [hfp] at this
      linarith
  -- tau
  have htau : ∃ tau, IeeeFloat.mulAddR x.hi y.hi t.value.neg mode = .ok tau ∧ tau.value.Valid ∧ tau.value.isFinite = true ∧
      tau.status.invalidOp = false ∧ tau.status.overflow = false ∧
      (|x.hi.toRat * y.hi.toRat - t.value.toRat - tau.value.toRat| ≤ 2 * η ∨
       |x.hi.toRat * y.hi.toRat - t.value.toRat - tau.value.toRat| ≤ 2 ^ (1 - (S.fmt.p : ℤ)) * |x.hi.toRat * y.hi.toRat - t.value.toRat|) := by
    by_cases hE : FmaExcluded S (x.hi.toRat * y.hi.toRat) t.value.neg.toRat
    · have hg : fmaGap S (x.hi.toRat * y.hi.toRat) t.value.neg.toRat ≠ 0 := by
        intro hg; rw [en] at hE hg; exact hpan ⟨hE, hg⟩
      obtain ⟨tau, f1, f2, f3, -⟩ := (C76_excluded hok hx.1 hy.1 (neg_valid t2) nx.1.1 ny.1.1 fn mode hE).2 hg
      obtain ⟨f4, f5⟩ := C76_close hok hx.1 hy.1 (neg_valid t2) nx.1.1 ny.1.1 fn mode hE f1
      rw [en, ← sub_eq_add_neg, ← hη] at f5
      have := abs_le_add_sub (x.hi.toRat * y.hi.toRat - t.value.toRat) tau.value.toRat
      rw [abs_sub_comm] at f5
      obtain ⟨f6, f7⟩ := rounds_quiet f3 f4 (by linarith)
      exact ⟨tau, f1, f2, f4, f6, f7, Or.inl f5.le⟩
    · obtain ⟨tau, f1, f2, f3⟩ := mulAddR_exact hok hx.1 hy.1 (neg_valid t2) nx.1.1 ny.1.1 fn mode (.of (directedOK_of_ieee h.ieee _ _))
        (fun hh => hE hh.1)
      rw [en, ← sub_eq_add_neg] at f3
      obtain ⟨f4, f5, f6, f7, -⟩ := rounds_step h f3 (by linarith)
      have := (Faith.of_rounded f5).err (by omega)
      rw [hfe] at this
      rw [hfp] at this ⊢
      rw [← hη] at this
      exact ⟨tau, f1, f2, f4, f6, f7, this.imp_left (fun e => by linarith)⟩
  obtain ⟨tau, f1, f2, f3, f4, f5, f6⟩ := htau
  have gt := grid_toRat hok t2 t3
  have gtau := grid_toRat hok f2 f3
  obtain ⟨v10, hv10⟩ := ex (x.hi.toRat * y.lo.toRat)
  obtain ⟨v20, hv20⟩ := ex (x.lo.toRat * y.hi.toRat)
  obtain ⟨v0, hv0⟩ := ex (v10 + v20)
  obtain ⟨w0, hw0⟩ := ex (tau.value.toRat + v0)
  obtain ⟨s0, hs0⟩ := ex (t.value.toRat + w0)
  obtain ⟨l10, hl10⟩ := ex (t.value.toRat - s0)
  obtain ⟨l0, hl0⟩ := ex (l10 + w0)
  obtain ⟨k1, k2, k3, k4, k5, k6, k7⟩ := faith_prod (F := S.fmt) (by omega) (η := η) (by rw [hη]; rfl) lx ly ft gtau f6 (.of_rounded hv10) (.of_rounded hv20)
    (.of_rounded hv0) (.of_rounded hw0)
  obtain ⟨m1, m2, m3, m4⟩ := faith_end (F := S.fmt) (by omega) gt hw0.1 (.of_rounded hs0) (.of_rounded hl10) (.of_rounded hl0)
  have kw : |w0| ≤ |x.hi.toRat * y.hi.toRat| * (10 / 512) + 6 * η := by
    have := mul_le_mul_of_nonneg_right ε1 P0
    linarith
  have kt : |t.value.toRat| ≤ |x.hi.toRat * y.hi.toRat| * (513 / 512) + η := by
    have := abs_le_add_sub (x.hi.toRat * y.hi.toRat) t.value.toRat
    linarith
  rw [f1, M.ok_bind]
  try dsimp only
  obtain ⟨v1, a1, a2, a3, a4, a5, a6, -⟩ := mul_any h mode hx.1 nx.1.1 hy.2 ny.1.2 (by linarith)
  have ea := a4.unique hv10
  rw [a1, M.ok_bind]
  try dsimp only
  obtain ⟨v2, b1, b2, b3, b4, b5, b6, -⟩ := mul_any h mode hx.2 nx.1.2 hy.1 ny.1.1 (by linarith)
  have eb := b4.unique hv20
  rw [b1, M.ok_bind]
  try dsimp only
  obtain ⟨v, d1, d2, d3, d4, d5, d6, -⟩ := add_any h mode a2 a3 b2 b3 (by rw [ea, eb]; linarith)
  rw [ea, eb] at d4
  have ed := d4.unique hv0
  rw [d1, M.ok_bind]
  try dsimp only
  obtain ⟨w, e1, e2, e3, e4, e5, e6, -⟩ := add_any h mode f2 f3 d2 d3 (by rw [ed]; linarith)
  rw [ed] at e4
  have ee := e4.unique hw0
  rw [e1, M.ok_bind]
  try dsimp only
  obtain ⟨s, s1, s2, s3, s4, s5, s6, -⟩ := add_any h mode t2 t3 e2 e3 (by rw [ee]; exact (abs_add_le _ _).trans (by linarith))
  rw [ee] at s4
  have es := s4.unique hs0
  rw [s1, M.ok_bind]
  try dsimp only
  rw [if_neg (by rw [s3]; decide)]
  obtain ⟨l, l1, l2, l3, l4, l5, l6, -⟩ := sub_any h mode t2 t3 s2 s3 (by rw [es]; linarith)
  rw [es] at l4
  have el := l4.unique hl10
  rw [l1, M.ok_bind]
  try dsimp only
  obtain ⟨l', j1, j2, j3, j4, j5, j6, -⟩ := add_any h mode l2 l3 e2 e3 (by rw [el, ee]; linarith)
  rw [el, ee] at j4
  have ej := j4.unique hl0
  rw [j1, M.ok_bind]
  have vv : (⟨s.value, l'.value⟩ : DoubleFloat S).toRat = s0 + l0 := by
    unfold DoubleFloat.toRat
    rw [es, ej]
  refine ⟨_, rfl, ⟨s2, j2⟩, ⟨⟨s3, j3⟩, ?_⟩, ?_, ?_, ?_⟩
  · show |l'.value.toRat| ≤ _ * |s.value.toRat|
    rw [es, ej, ← near_eps]; exact m2
  · simp [Status.and, or_overflow, ok_overflow, t6, f5, a6, b6, d6, e6, s6, l6, j6]
  · simp [Status.and, or_invalidOp, ok_invalidOp, t5, f4, a5, b5, d5, e5, s5, l5, j5]
  · show |(⟨s.value, l'.value⟩ : DoubleFloat S).toRat - _| ≤ _
    rw [vv]
    have exy : (x.hi.toRat + x.lo.toRat) * (y.hi.toRat + y.lo.toRat) = x.toRat * y.toRat := rfl
    rw [exy] at k7
    have e : s0 + l0 - x.toRat * y.toRat = (s0 + l0 - (t.value.toRat + w0)) + (t.value.toRat + w0 - x.toRat * y.toRat) := by ring
    rw [e]
    refine (abs_add_le _ _).trans ?_
    have e2 : ((2 : ℚ) ^ (1 - (S.fmt.p : ℤ))) ^ 2 = 4 * 2 ^ (-2 * (S.precision : ℤ)) := by
      rw [← zpow_natCast, ← zpow_mul, show (4 : ℚ) = 2 ^ (2 : ℤ) by norm_num, ← two_zpow_add, hfp]; congr 1; push_cast; ring
    have q : 2 ^ (-2 * (S.precision : ℤ)) * (|x.hi.toRat * y.hi.toRat| * (63 / 64 * (63 / 64))) ≤ 2 ^ (-2 * (S.precision : ℤ)) * |x.toRat * y.toRat| :=
      mul_le_mul_of_nonneg_left hP' u2.le
    have tw := abs_add_le t.value.toRat w0
    have q0 : 0 ≤ 2 ^ (-2 * (S.precision : ℤ)) * |x.toRat * y.toRat| := by positivity
    generalize (2 : ℚ) ^ (1 - (S.fmt.p : ℤ)) = ε at *
    have εη : ε * η ≤ 1 / 512 * η := mul_le_mul_of_nonneg_right ε1 η0.le
    have εεη : ε * (ε * η) ≤ 1 / 512 * η := (mul_le_mul ε1 εη (by positivity) (by norm_num)).trans (by linarith)
    have tot : |s0 + l0 - (t.value.toRat + w0)| ≤ 20 * ε ^ 2 * |x.hi.toRat * y.hi.toRat| + η := by
      rcases m1 with m1 | ⟨-, m1⟩
      · have : ε * (ε * |t.value.toRat + w0|) ≤ ε * (ε * (2 * |x.hi.toRat * y.hi.toRat| + 7 * η)) :=
          mul_le_mul_of_nonneg_left (mul_le_mul_of_nonneg_left (by linarith) ε0.le) ε0.le
        have h0 : 0 ≤ ε ^ 2 * |x.hi.toRat * y.hi.toRat| := by positivity
        linarith
      · have : ε * |w0| ≤ ε * (10 * (ε * |x.hi.toRat * y.hi.toRat|) + 6 * η) := mul_le_mul_of_nonneg_left k6 ε0.le
        linarith
    rw [e2] at k7 tot
    have q1 : 0 ≤ 2 ^ (-2 * (S.precision : ℤ)) * |x.hi.toRat * y.hi.toRat| := by positivity
    linarith
/-- The hypotheses are met: canonical pairs are near, and so is a pair whose low part has the size of a unit of the high part. -/
example : ∃ x y : DoubleDouble, x.Valid ∧ y.Valid ∧ x.Near ∧ y.Near ∧ x.lo.toRat ≠ 0 ∧ ¬ y.Canonical ∧
    |x.toRat| ≤ 2 ^ (doubleS.maxExp - 4) ∧ |y.toRat| ≤ 2 ^ (doubleS.maxExp - 4) ∧ |x.toRat * y.toRat| ≤ 2 ^ (doubleS.maxExp - 3) := by
  refine ⟨⟨⟨4503599627370497, 0, .normal, true⟩, ⟨4503599627370496, -66, .normal, false⟩⟩,
    ⟨⟨5928687696629995, 58, .normal, false⟩, ⟨8866478946254848, 5, .normal, false⟩⟩, by decide +kernel, by decide +kernel,
    ⟨by decide +kernel, by decide +kernel⟩, ⟨by decide +kernel, by decide +kernel⟩, by decide +kernel, ?_, by decide +kernel, by decide +kernel, by decide +kernel⟩
  intro hc
  have := low_unit doubleS_pair.ok (by decide +kernel) hc
  exact absurd this (by decide +kernel)

/-! ## The directed modes give no bound in their direction -/

/-- **C81** (finding).  Rounding toward negative does not bound the sum from above: the exact sum of these canonical pairs is smaller than the result. -/
theorem C81_toward_negative_above : ∃ x y : DoubleDouble, x.Valid ∧ y.Valid ∧ x.Canonical ∧ y.Canonical ∧
    ∃ r, x.addR y .towardNegative = .ok r ∧ x.toRat + y.toRat < r.value.toRat := by
  refine ⟨⟨⟨4503599627370497, 0, .normal, true⟩, ⟨4503599627370496, -66, .normal, false⟩⟩,
    ⟨⟨5928687696629996, 58, .normal, false⟩, ⟨4503599627370501, -13, .normal, false⟩⟩, by decide +kernel, by decide +kernel,
    canonical_of_add doubleS_pair (by decide +kernel) (by decide) (st := { inexact := true }) (by decide +kernel),
    canonical_of_add doubleS_pair (by decide +kernel) (by decide) (st := { inexact := true }) (by decide +kernel),
    ⟨{ inexact := true }, ⟨⟨5928687696629995, 58, .normal, false⟩, ⟨8866478946254848, 5, .normal, false⟩⟩⟩, by decide +kernel, by decide +kernel⟩

/-- **C81** (finding).  Rounding toward positive does not bound the sum from below. -/
theorem C81_toward_positive_below : ∃ x y : DoubleDouble, x.Valid ∧ y.Valid ∧ x.Canonical ∧ y.Canonical ∧
    ∃ r, x.addR y .towardPositive = .ok r ∧ r.value.toRat < x.toRat + y.toRat := by
  refine ⟨⟨⟨4503599627370499, 0, .normal, false⟩, ⟨4503599627370502, -82, .normal, true⟩⟩,
    ⟨⟨7538174864600165, 54, .normal, true⟩, ⟨6007832854487027, -9, .normal, false⟩⟩, by decide +kernel, by decide +kernel,
    canonical_of_add doubleS_pair (by decide +kernel) (by decide) (st := { inexact := true }) (by decide +kernel),
    canonical_of_add doubleS_pair (by decide +kernel) (by decide) (st := { inexact := true }) (by decide +kernel),
    ⟨{ inexact := true }, ⟨⟨7538174864600164, 54, .normal, true⟩, ⟨6749532416783783, 1, .normal, true⟩⟩⟩, by decide +kernel, by decide +kernel⟩

/-- **C81** (finding).  Rounding toward zero can deliver a sum of larger magnitude than the exact one. -/
theorem C81_toward_zero_larger : ∃ x y : DoubleDouble, x.Valid ∧ y.Valid ∧ x.Canonical ∧ y.Canonical ∧
    ∃ r, x.addR y .towardZero = .ok r ∧ |x.toRat + y.toRat| < |r.value.toRat| := by
  refine ⟨⟨⟨4503599627370502, 0, .normal, true⟩, ⟨4503599627370503, -62, .normal, true⟩⟩,
    ⟨⟨6644154013388444, 58, .normal, true⟩, ⟨6473162804513144, -2, .normal, true⟩⟩, by decide +kernel, by decide +kernel,
    canonical_of_add doubleS_pair (by decide +kernel) (by decide) (st := { inexact := true }) (by decide +kernel),
    canonical_of_add doubleS_pair (by decide +kernel) (by decide) (st := { inexact := true }) (by decide +kernel),
    ⟨{ inexact := true }, ⟨⟨6644154013388444, 58, .normal, true⟩, ⟨6121890328498814, 0, .normal, true⟩⟩⟩, by decide +kernel, by decide +kernel⟩

/-- **C82** (finding).  Products in a directed mode are no bounds either. -/
theorem C82_not_directed : (∃ x y : DoubleDouble, x.Valid ∧ y.Valid ∧ x.Canonical ∧ y.Canonical ∧
      ∃ r, x.mulR y .towardNegative = .ok r ∧ x.toRat * y.toRat < r.value.toRat) ∧
    (∃ x y : DoubleDouble, x.Valid ∧ y.Valid ∧ x.Canonical ∧ y.Canonical ∧
      ∃ r, x.mulR y .towardPositive = .ok r ∧ r.value.toRat < x.toRat * y.toRat) ∧
    (∃ x y : DoubleDouble, x.Valid ∧ y.Valid ∧ x.Canonical ∧ y.Canonical ∧
      ∃ r, x.mulR y .towardZero = .ok r ∧ |x.toRat * y.toRat| < |r.value.toRat|) := by
  refine ⟨⟨⟨⟨4503599627370497, 0, .normal, true⟩, ⟨4503599627370496, -75, .normal, false⟩⟩,
      ⟨⟨4503599627370500, 17, .normal, true⟩, ⟨4503599627370501, -55, .normal, true⟩⟩, by decide +kernel, by decide +kernel, ?_, ?_,
      ⟨{ inexact := true }, ⟨⟨4503599627370501, 17, .normal, false⟩, ⟨7881299356286987, -56, .normal, false⟩⟩⟩, by decide +kernel, by decide +kernel⟩,
    ⟨⟨⟨4503599627370500, 0, .normal, true⟩, ⟨4503599627370496, -75, .normal, false⟩⟩,
      ⟨⟨4503599627370503, -26, .normal, false⟩, ⟨4503599627370496, -100, .normal, false⟩⟩, by decide +kernel, by decide +kernel, ?_, ?_,
      ⟨{ inexact := true }, ⟨⟨4503599627370507, -26, .normal, true⟩, ⟨4503599862251521, -101, .normal, true⟩⟩⟩, by decide +kernel, by decide +kernel⟩,
    ⟨⟨⟨4503599627370501, 0, .normal, true⟩, ⟨7104596373923135, -54, .normal, false⟩⟩,
      ⟨⟨6338126118800288, -8, .normal, false⟩, ⟨6665341814511245, -90, .normal, false⟩⟩, by decide +kernel, by decide +kernel, ?_, ?_,
      ⟨{ inexact := true }, ⟨⟨6338126118800294, -8, .normal, true⟩, ⟨8677501011125846, -62, .normal, true⟩⟩⟩, by decide +kernel, by decide +kernel⟩⟩
  all_goals exact canonical_of_add doubleS_pair (by decide +kernel) (by decide) (st := { inexact := true }) (by decide +kernel)

end Apf
