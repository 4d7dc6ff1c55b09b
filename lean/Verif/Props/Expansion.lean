import Verif.Spec.Expansion
import Verif.Props.Extremes
import Verif.Props.Midpoint
/-!
# C144: the binary digits of a fraction
-/

namespace Apf
open Spec IeeeFloat
variable {S : Sem}

theorem ge_toRat (h : S.OK) {x y : IeeeFloat S} (hx : x.Valid) (hy : y.Valid) (fx : x.isFinite = true) (fy : y.isFinite = true) :
    ge x y = .ok (decide (y.toRat ≤ x.toRat)) := by
  unfold ge
  rw [partialCmp_finite h hx hy fx fy, M.ok_bind]
  congr 1
  rw [decide_eq_decide]
  simp only [Option.some.injEq, compare_gt_iff_gt, compare_eq_iff_eq]
  constructor
  · rintro (c | c)
    exacts [le_of_lt c, c.ge]
  · intro c
    rcases c.lt_or_eq with d | d
    exacts [.inl d, .inr d.symm]

/-- **C144.** Doubling and taking off one gives the binary digits of a number in `[0, 1)`, in any rounding modes: `n` digits are all of it if it is a multiple of `2^-n`. -/
theorem C144_bits (h : S.OK) {one two : IeeeFloat S} (v1 : one.Valid) (f1 : one.isFinite = true) (e1 : one.toRat = 1) (v2 : two.Valid)
    (f2 : two.isFinite = true) (e2 : two.toRat = 2) (m1 m2 : Round) : ∀ (n : ℕ) (x : IeeeFloat S), x.Valid → x.isFinite = true → 0 ≤ x.toRat →
      x.toRat < 1 → (∃ k : ℤ, x.toRat = k / 2 ^ n) →
      ∃ bs, peelBits one two m1 m2 n x = .ok bs ∧ bs.length = n ∧ binaryFraction bs = x.toRat
  | 0, x, _, _, x0, x1, ⟨k, hk⟩ => by
    rw [pow_zero, div_one] at hk
    refine ⟨[], rfl, rfl, ?_⟩
    rw [hk] at x0 x1 ⊢
    have a : 0 ≤ k := by exact_mod_cast x0
    have b : k < 1 := by exact_mod_cast x1
    obtain rfl : k = 0 := by omega
    simp [binaryFraction]
  | n + 1, x, vx, fx, x0, x1, ⟨k, hk⟩ => by
    have hp : 1 ≤ S.fmt.p := by have := h.p_ge; show 1 ≤ S.precision; omega
    have hm : S.fmt.emin ≤ 0 := by rw [fmt_emin]; exact h.min_lt.le
    have big := pow_le_largest' h
    have p0 : (0 : ℚ) < 2 ^ S.precision := by positivity
    have gx := grid_toRat h vx fx
    have g2 : S.fmt.Grid (x.toRat * two.toRat) := by rw [e2, mul_comm]; exact gx.double
    have L : |x.toRat * two.toRat| ≤ S.fmt.largest := by rw [e2, _root_.abs_of_nonneg (by linarith)]; linarith
    obtain ⟨y, y1, y2, y3⟩ := mulR_finite h vx v2 fx f2 m1 (directedOK_of_ge h _ (_root_.abs_le.1 L).1)
    obtain ⟨y4, y5, -⟩ := exact_step h y3 g2 L
    rw [e2] at y5
    have hk2 : x.toRat * 2 = k / 2 ^ n := by rw [hk, pow_succ]; field_simp
    have gy := ge_toRat h y2 v1 y4 f1
    rw [e1, y5] at gy
    rw [peelBits, y1, M.ok_bind, gy, M.ok_bind]
    by_cases c : 1 ≤ x.toRat * 2
    · have gz : S.fmt.Grid (y.value.toRat - one.toRat) := by
        rw [y5, e1]
        have g2' : S.fmt.Grid (x.toRat * 2) := by rw [e2] at g2; exact g2
        obtain ⟨j, hj⟩ := mult_of_grid_ge g2' (k := 1 - S.fmt.p) (by
          rw [show (S.fmt.p : ℤ) - 1 + (1 - S.fmt.p) = 0 by ring, zpow_zero, _root_.abs_of_nonneg (by linarith)]; exact c)
        have mj : Mult (1 - S.fmt.p) (x.toRat * 2) := ⟨j, hj⟩
        have m1 : Mult (1 - (S.fmt.p : ℤ)) 1 := Mult.mono (k := 0) ⟨1, by simp⟩ (by omega)
        refine grid_of_mult hp (mj.sub m1) (by omega) ?_
        rw [show (S.fmt.p : ℤ) + (1 - S.fmt.p) = 1 by ring, zpow_one, _root_.abs_of_nonneg (by linarith)]
        linarith
      have Lz : |y.value.toRat - one.toRat| ≤ S.fmt.largest := by rw [y5, e1, _root_.abs_of_nonneg (by linarith)]; linarith
      obtain ⟨z, z1, z2, z3⟩ := subR_finite h y2 v1 y4 f1 m2 (directedOK_of_ge h _ (_root_.abs_le.1 Lz).1)
      obtain ⟨z4, z5, -⟩ := exact_step h z3 gz Lz
      rw [y5, e1] at z5
      obtain ⟨bs, b1, b2, b3⟩ := C144_bits h v1 f1 e1 v2 f2 e2 m1 m2 n z.value z2 z4 (by rw [z5]; linarith) (by rw [z5]; linarith)
        ⟨k - 2 ^ n, by rw [z5, hk2]; push_cast; field_simp⟩
      refine ⟨true :: bs, ?_, by simp [b2], ?_⟩
      · rw [decide_eq_true c]
        simp only [if_true]
        rw [z1, M.ok_bind, b1]; rfl
      · simp only [binaryFraction, if_true]
        rw [b3, z5]; ring
    · obtain ⟨bs, b1, b2, b3⟩ := C144_bits h v1 f1 e1 v2 f2 e2 m1 m2 n y.value y2 y4 (by rw [y5]; linarith) (by rw [y5]; linarith)
        ⟨k, by rw [y5, hk2]⟩
      refine ⟨false :: bs, ?_, by simp [b2], ?_⟩
      · rw [decide_eq_false c]
        simp only [Bool.false_eq_true, if_false]
        rw [b1]; rfl
      · simp only [binaryFraction, Bool.false_eq_true, if_false]
        rw [b3, y5]; ring

/-- **C144.** A number of the format has finitely many digits: with `p - 1 - emin` of them the expansion is complete. -/
theorem C144_complete (h : S.OK) {one two x : IeeeFloat S} (v1 : one.Valid) (f1 : one.isFinite = true) (e1 : one.toRat = 1) (v2 : two.Valid)
    (f2 : two.isFinite = true) (e2 : two.toRat = 2) (m1 m2 : Round) (vx : x.Valid) (fx : x.isFinite = true) (x0 : 0 ≤ x.toRat) (x1 : x.toRat < 1) :
    ∃ bs, peelBits one two m1 m2 ((S.precision : ℤ) - 1 - S.minExp).toNat x = .ok bs ∧ binaryFraction bs = x.toRat := by
  obtain ⟨k, hk⟩ := (grid_toRat h vx fx).mult
  have hm : S.fmt.emin ≤ 0 := by rw [fmt_emin]; exact h.min_lt.le
  have hp := h.p_ge
  obtain ⟨bs, b1, -, b3⟩ := C144_bits h v1 f1 e1 v2 f2 e2 m1 m2 ((S.precision : ℤ) - 1 - S.minExp).toNat x vx fx x0 x1 ⟨k, by
    rw [hk, div_eq_mul_inv, ← zpow_natCast, ← zpow_neg]
    congr 2
    rw [fmt_emin] at hm ⊢
    rw [fmt_p]
    omega⟩
  exact ⟨bs, b1, b3⟩

/-! ### Concrete cases: `0.625` in `Half`. -/

example := C144_bits halfS_ok (one := ⟨1024, 0, .normal, false⟩) (two := ⟨1024, 1, .normal, false⟩) (by decide) rfl (by decide +kernel) (by decide) rfl (by decide +kernel)
  .towardPositive .towardNegative 3 ⟨1280, -1, .normal, false⟩ (by decide) rfl (by decide +kernel) (by decide +kernel) ⟨5, by decide +kernel⟩
example := C144_complete halfS_ok (one := ⟨1024, 0, .normal, false⟩) (two := ⟨1024, 1, .normal, false⟩) (x := ⟨1280, -1, .normal, false⟩) (by decide) rfl
  (by decide +kernel) (by decide) rfl (by decide +kernel) .towardPositive .towardNegative (by decide) rfl (by decide +kernel) (by decide +kernel)
example : peelBits (⟨1024, 0, .normal, false⟩ : IeeeFloat halfS) ⟨1024, 1, .normal, false⟩ .towardPositive .towardNegative 3 ⟨1280, -1, .normal, false⟩ =
    .ok [true, false, true] := by decide +kernel

end Apf
