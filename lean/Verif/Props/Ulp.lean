import Verif.Props.Shifter
import Verif.Props.Casts
/-!
# C130: the distance to the next number, and errors measured with it
-/

namespace Apf
open Spec
namespace Spec

/-- The result `r` is off the exact value `v` by less than `d`, and by at most half of it when rounding to nearest. -/
def WithinUlp (mode : Round) (v r d : ℚ) : Prop :=
  |v - r| < d ∧ (mode = .nearestTiesToEven ∨ mode = .nearestTiesToAway → 2 * |v - r| ≤ d)

end Spec
open IeeeFloat
variable {F : Fmt}

/-- The numbers one unit away. -/
theorem unit_steps (hp : 1 ≤ F.p) {v : ℚ} (hv : F.Grid v) {k : ℤ} (k1 : F.emin - F.p + 1 ≤ k) (hk : k = F.emin - F.p + 1 ∨ 2 ^ (F.p - 1 + k) ≤ |v|)
    (hlt : |v| < 2 ^ (F.p + k)) : F.Grid (v + 2 ^ k) ∧ F.Grid (v - 2 ^ k) ∧ (0 ≤ v → ∀ w, F.Grid w → v < w → v + 2 ^ k ≤ w) := by
  have u0 : (0 : ℚ) < 2 ^ k := by positivity
  have vm : Mult k v := mult_of_unit hk hv le_rfl
  have um : Mult k ((2 : ℚ) ^ k) := ⟨1, by simp⟩
  have hle := vm.lt_iff (by omega) hlt
  refine ⟨grid_of_mult hp (vm.add um) k1 ?_, grid_of_mult hp (vm.sub um) k1 ?_, fun v0 w hw c => ?_⟩
  · refine (abs_add_le _ _).trans ?_
    rw [abs_of_pos u0]; linarith
  · refine (abs_sub _ _).trans ?_
    rw [abs_of_pos u0]; linarith
  · obtain ⟨a, ha⟩ := vm
    obtain ⟨b, hb⟩ := mult_of_unit hk hw (by rw [abs_of_nonneg v0, abs_of_pos (v0.trans_lt c)]; exact c.le)
    rw [ha, hb] at c ⊢
    have : (a : ℚ) < b := lt_of_mul_lt_mul_right c u0.le
    have : (a : ℚ) + 1 ≤ b := by exact_mod_cast this
    nlinarith

/-- Every rounding is within a unit of its result, to nearest within half a unit. -/
theorem within_unit (hp : 1 ≤ F.p) {mode : Round} {v g : ℚ} (hg : IsRounded F mode v g) {k : ℤ} (k1 : F.emin - F.p + 1 ≤ k)
    (hk : k = F.emin - F.p + 1 ∨ 2 ^ (F.p - 1 + k) ≤ |g|) (hlt : |g| < 2 ^ (F.p + k)) : WithinUlp mode v g (2 ^ k) := by
  have u0 : (0 : ℚ) < 2 ^ k := by positivity
  obtain ⟨a, b, -⟩ := unit_steps hp hg.1 k1 hk hlt
  have l1 : v < g + 2 ^ k := lt_of_not_ge fun c => by linarith [hg.ge_of_grid a c]
  have l2 : g - 2 ^ k < v := lt_of_not_ge fun c => by linarith [hg.le_of_grid b c]
  refine ⟨abs_lt.2 ⟨by linarith, by linarith⟩, fun c => ?_⟩
  have near : ∀ w, F.Grid w → |v - g| ≤ |v - w| := by
    rcases c with rfl | rfl
    · exact hg.2.1
    · exact hg.2.1
  have n1 := near _ a
  have n2 := near _ b
  rw [abs_of_neg (by linarith : v - (g + 2 ^ k) < 0)] at n1
  rw [abs_of_pos (by linarith : 0 < v - (g - 2 ^ k))] at n2
  rcases abs_cases (v - g) with e | e <;> rw [e.1] at n1 n2 ⊢ <;> linarith

variable {S : Sem}

/-- `ilogb` of a finite number and the unit. -/
theorem ilogb_unit (h : S.OK) {x : IeeeFloat S} (hx : x.Valid) (fx : x.isFinite = true) :
    ∃ e, ilogb x = .ok e ∧ (max e S.minExp - S.precision + 1 = S.minExp - S.precision + 1 ∨
      (2 : ℚ) ^ (S.precision - 1 + (max e S.minExp - S.precision + 1)) ≤ |x.toRat|) ∧
      |x.toRat| < 2 ^ (S.precision + (max e S.minExp - S.precision + 1)) := by
  have hp := h.p_ge
  by_cases h0 : x.toRat = 0
  · have cz : x.isZero = true := by
      rcases isFinite_iff.1 fx with c | c
      · exact absurd h0 (toRat_ne_zero hx c)
      · simp [isZero, c]
    refine ⟨_, C26_specials.2.1 cz, ?_⟩
    rw [max_eq_right (by have := h.min_ge; omega), h0, abs_zero]
    exact ⟨Or.inl rfl, by positivity⟩
  · obtain ⟨e, e1, e2, e3⟩ := C26_ilogb h hx fx h0
    refine ⟨e, e1, ?_⟩
    rcases le_total e S.minExp with c | c
    · rw [max_eq_right c]
      exact ⟨Or.inl rfl, e3.trans_le (zpow_le_zpow_right₀ (by norm_num) (by omega))⟩
    · rw [max_eq_left c]
      exact ⟨Or.inr (by convert e2 using 2; ring), by convert e3 using 2; ring⟩

/-- **C130.** The distance from the magnitude of a finite number to the next number is computed exactly, without a flag, by subtracting: it is the power of two
`2^(max(ilogb(x), emin) - p + 1)`. -/
theorem C130_spacing (h : S.OK) {x : IeeeFloat S} (hx : x.Valid) (fx : x.isFinite = true) (hl : |x.toRat| ≠ S.fmt.largest) (mode : Round) :
    ∃ e u d, ilogb x = .ok e ∧ nextUp x.abs = .ok u ∧ subR u.value x.abs mode = .ok d ∧ d.status = Status.OK ∧ d.value.isFinite = true ∧
      d.value.toRat = 2 ^ (max e S.minExp - S.precision + 1) := by
  have hp := h.p_ge
  obtain ⟨a1, a2, a3⟩ := abs_facts hx fx
  obtain ⟨e, e1, e2, e3⟩ := ilogb_unit h hx fx
  obtain ⟨u, u1, u2, u3, ⟨u4, u5⟩, -⟩ := C14_next_up h a1 a2 (by rw [a3, toRat_largest h]; exact hl)
  have gx := grid_toRat h a1 a2
  obtain ⟨s1, -, s2⟩ := unit_steps (F := S.fmt) (by show 1 ≤ S.precision; omega) gx (k := max e S.minExp - S.precision + 1)
    (by show S.minExp - S.precision + 1 ≤ _; have := le_max_right e S.minExp; omega) (by rw [a3, _root_.abs_abs]; exact e2) (by rw [a3, _root_.abs_abs]; exact e3)
  have x0 : 0 ≤ x.abs.toRat := by rw [a3]; exact abs_nonneg _
  have hle := s2 x0 _ (grid_toRat h u2 u3) u4
  have hul := abs_toRat_le h u2 u3
  have k0 : (0 : ℚ) < 2 ^ (max e S.minExp - S.precision + 1) := by positivity
  obtain ⟨y, y1, y2, y3⟩ := exists_of_grid h s1 (by rw [abs_of_pos (by linarith)]; rw [abs_of_pos (by linarith)] at hul; linarith)
  have hge := u5 y y1 y2 (by rw [y3]; linarith)
  have ed : u.toRat - x.abs.toRat = 2 ^ (max e S.minExp - S.precision + 1) := by rw [y3] at hge; linarith
  have dl : |u.toRat - x.abs.toRat| ≤ S.fmt.largest := by
    rw [abs_of_pos (by linarith)]; rw [abs_of_pos (by linarith)] at hul; linarith
  obtain ⟨d, d1, d2, d3⟩ := C05_sub_correctly_rounded h u2 a1 u3 a2 mode (directedOK_of_ge h _ (_root_.abs_le.1 dl).1)
  obtain ⟨x1, x2, x3⟩ := Rounds.exact d3 (by
    rw [ed]; exact grid_two_pow (by show 1 ≤ S.precision; omega) (by show S.minExp - S.precision + 1 ≤ _; have := le_max_right e S.minExp; omega)) dl
  exact ⟨e, _, d, e1, u1, d1, x1, x2, x3.trans ed⟩

/-- Any correctly rounded result, with the distance computed from it. -/
theorem rounds_within (h : S.OK) {mode : Round} {v : ℚ} {zs : Bool} {r : StatusAnd (IeeeFloat S)} (hr : r.value.Valid) (hv : Rounds S mode v zs r)
    (fr : r.value.isFinite = true) (hl : |r.value.toRat| ≠ S.fmt.largest) (m₂ : Round) :
    ∃ u d, nextUp r.value.abs = .ok u ∧ subR u.value r.value.abs m₂ = .ok d ∧ d.status = Status.OK ∧ WithinUlp mode v r.value.toRat d.value.toRat := by
  have hp := h.p_ge
  obtain ⟨e, u, d, e1, u1, d1, d2, d3, d4⟩ := C130_spacing h hr fr hl m₂
  obtain ⟨e', e1', e2, e3⟩ := ilogb_unit h hr fr
  rw [e1, Except.ok.injEq] at e1'
  subst e1'
  refine ⟨u, d, u1, d1, d2, ?_⟩
  rw [d4]
  obtain ⟨⟨g, g1, g2⟩, -⟩ := hv
  rcases g2 with ⟨-, dd, -⟩ | ⟨-, dd⟩
  · obtain ⟨-, er⟩ := datum_num dd
    rw [er] at e2 e3 ⊢
    exact within_unit (F := S.fmt) (by show 1 ≤ S.precision; omega) g1 (by show S.minExp - S.precision + 1 ≤ _; have := le_max_right e S.minExp; omega) e2 e3
  · exfalso
    rw [datum_finite fr] at dd
    obtain ⟨b, hb⟩ : ∃ b : Bool, overflowed S.fmt mode r.value.sign = if b then
        (if S.fmt.hasInf then .inf r.value.sign else .nan, { overflow := true, inexact := true })
      else (.num r.value.sign (signed r.value.sign S.fmt.largest), { inexact := true }) := ⟨_, rfl⟩
    rw [hb] at dd
    cases b
    · simp only [Bool.false_eq_true, if_false, Prod.mk.injEq, Datum.num.injEq] at dd
      exact hl (by rw [dd.1.2, abs_signed _ (largest_pos h).le])
    · rw [if_pos rfl] at dd
      split_ifs at dd <;> simp at dd

/-- The error of the result `r` for the exact value `v`, measured with the distance from the magnitude of `r` to the next number, which the operations of the
library compute exactly. -/
def MeasuredError (mode m₂ : Round) (v : ℚ) (r : IeeeFloat S) : Prop :=
  r.isFinite = true → |r.toRat| ≠ S.fmt.largest →
    ∃ u d, nextUp r.abs = .ok u ∧ subR u.value r.abs m₂ = .ok d ∧ d.status = Status.OK ∧ WithinUlp mode v r.toRat d.value.toRat

/-- **C130.** The four operations and the fused one: the error is less than the distance from the magnitude of the result to the next number, to nearest at
most half of it. -/
theorem C130_error (h : S.OK) {x y z : IeeeFloat S} (hx : x.Valid) (hy : y.Valid) (hz : z.Valid) (fx : x.isFinite = true) (fy : y.isFinite = true)
    (fz : z.isFinite = true) {mode : Round} (hm : ModeOK S mode) (m₂ : Round) :
    (∃ r, addR x y mode = .ok r ∧ MeasuredError mode m₂ (x.toRat + y.toRat) r.value) ∧
    (∃ r, subR x y mode = .ok r ∧ MeasuredError mode m₂ (x.toRat - y.toRat) r.value) ∧
    (∃ r, mulR x y mode = .ok r ∧ MeasuredError mode m₂ (x.toRat * y.toRat) r.value) ∧
    (y.toRat ≠ 0 → ∃ r, divR x y mode = .ok r ∧ MeasuredError mode m₂ (x.toRat / y.toRat) r.value) ∧
    (¬ FmaExcluded S (x.toRat * y.toRat) z.toRat → ∃ r, mulAddR x y z mode = .ok r ∧ MeasuredError mode m₂ (x.toRat * y.toRat + z.toRat) r.value) := by
  refine ⟨?_, ?_, ?_, fun y0 => ?_, fun hE => ?_⟩
  · obtain ⟨r, r1, r2, r3⟩ := C04_add_correctly_rounded h hx hy fx fy mode (hm.directed _)
    exact ⟨r, r1, fun a b => rounds_within h r2 r3 a b m₂⟩
  · obtain ⟨r, r1, r2, r3⟩ := C05_sub_correctly_rounded h hx hy fx fy mode (hm.directed _)
    exact ⟨r, r1, fun a b => rounds_within h r2 r3 a b m₂⟩
  · obtain ⟨r, r1, r2, r3⟩ := C06_mul_correctly_rounded h hx hy fx fy mode (hm.directed _)
    exact ⟨r, r1, fun a b => rounds_within h r2 r3 a b m₂⟩
  · obtain ⟨r, r1, r2, r3⟩ := C07_div_correctly_rounded h hx hy fx fy y0 mode (hm.directed _)
    exact ⟨r, r1, fun a b => rounds_within h r2 r3 a b m₂⟩
  · obtain ⟨r, r1, r2, r3⟩ := C08_mul_add_partial h hx hy hz fx fy fz mode (hm.directed _) hE
    exact ⟨r, r1, fun a b => rounds_within h r2 r3 a b m₂⟩

/-- Thirds in single precision: the unit of a third is `2^-25`. -/
example := C130_error singleS_ok (x := ⟨8388608, 0, .normal, false⟩) (y := ⟨12582912, 1, .normal, true⟩) (z := ⟨1, -126, .normal, false⟩) (by decide) (by decide)
  (by decide) rfl rfl rfl (mode := .nearestTiesToEven) (by unfold ModeOK; decide) .towardZero

example := C130_spacing singleS_ok (x := ⟨11184811, -2, .normal, true⟩) (by decide) rfl (by decide +kernel) .towardZero

example : ∃ u, nextUp (S := singleS) ⟨11184811, -2, .normal, false⟩ = .ok ⟨Status.OK, u⟩ ∧
    subR u ⟨11184811, -2, .normal, false⟩ .towardZero = .ok ⟨Status.OK, ⟨8388608, -25, .normal, false⟩⟩ :=
  ⟨⟨11184812, -2, .normal, false⟩, by decide +kernel, by decide +kernel⟩

end Apf
