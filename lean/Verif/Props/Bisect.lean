import Verif.Spec.Bisect
import Verif.Props.Midpoint
/-!
# C141: bisection ends, next to the place looked for
-/

namespace Apf
open Spec IeeeFloat
variable {S : Sem}

theorem lt_toRat (h : S.OK) {x y : IeeeFloat S} (hx : x.Valid) (hy : y.Valid) (fx : x.isFinite = true) (fy : y.isFinite = true) :
    lt x y = .ok (decide (x.toRat < y.toRat)) := by
  unfold lt
  rw [partialCmp_finite h hx hy fx fy, M.ok_bind]
  congr 1
  rw [decide_eq_decide, Option.some.injEq, compare_lt_iff_lt]

theorem bisect_steps (h : S.OK) (above : IeeeFloat S → Bool) {two : IeeeFloat S} (h2 : two.Valid) (f2 : two.isFinite = true) (htwo : two.toRat = 2)
    (m1 m2 : Round) : ∀ (W : ℕ) (lo hi : IeeeFloat S), lo.Valid → hi.Valid → lo.isFinite = true → hi.isFinite = true → lo.toRat < hi.toRat →
      2 * |lo.toRat| ≤ S.fmt.largest → 2 * |hi.toRat| ≤ S.fmt.largest → above lo = false → above hi = true →
      hi.toRat - lo.toRat ≤ W * 2 ^ (S.fmt.emin - S.fmt.p + 1) → ∀ n ≥ W,
      ∃ a b, bisect above two m1 m2 n lo hi = .ok (some (a, b)) ∧ a.Valid ∧ b.Valid ∧ a.isFinite = true ∧ b.isFinite = true ∧
        above a = false ∧ above b = true ∧ lo.toRat ≤ a.toRat ∧ a.toRat < b.toRat ∧ b.toRat ≤ hi.toRat ∧
        (m1 = .nearestTiesToEven ∨ m1 = .nearestTiesToAway →
          ¬ ∃ z : IeeeFloat S, z.Valid ∧ z.isFinite = true ∧ a.toRat < z.toRat ∧ z.toRat < b.toRat)
  | 0, lo, hi, _, _, _, _, hlt, _, _, _, _, hW, _, _ => by
    rw [Nat.cast_zero, zero_mul] at hW
    linarith
  | W + 1, lo, hi, vl, vh, fl, fh, hlt, bl, bh, al, ah, hW, n, hn => by
    obtain ⟨k, rfl⟩ : ∃ k, n = k + 1 := ⟨n - 1, by omega⟩
    have hv : |lo.toRat + hi.toRat| ≤ S.fmt.largest := by have := abs_add_le lo.toRat hi.toRat; linarith
    obtain ⟨s, r, s1, r1, r2, r3, r4, r5, r6⟩ := C96_midpoint h vl vh h2 fl fh f2 htwo hlt.le hv m1 m2
    have step : bisect above two m1 m2 (k + 1) lo hi = (if lo.toRat < r.value.toRat ∧ r.value.toRat < hi.toRat then
        (if above r.value then bisect above two m1 m2 k lo r.value else bisect above two m1 m2 k r.value hi) else .ok (some (lo, hi))) := by
      rw [bisect, s1, M.ok_bind, r1, M.ok_bind, lt_toRat h vl r2 fl r3, M.ok_bind, lt_toRat h r2 vh r3 fh, M.ok_bind]
      by_cases c : lo.toRat < r.value.toRat <;> by_cases d : r.value.toRat < hi.toRat <;> simp [c, d] <;> rfl
    rw [step]
    split
    · rename_i c
      have hb : 2 * |r.value.toRat| ≤ S.fmt.largest := by
        have : |r.value.toRat| ≤ Max.max |lo.toRat| |hi.toRat| := abs_le_max_abs_abs c.1.le c.2.le
        rcases le_max_iff.1 this with q | q <;> linarith
      have gl := (grid_toRat h vl fl).mult
      have gh := (grid_toRat h vh fh).mult
      have gr := (grid_toRat h r2 r3).mult
      have t1 := gl.lt_step gr c.1
      have t2 := gr.lt_step gh c.2
      rw [Nat.cast_succ, add_mul, one_mul] at hW
      cases q : above r.value with
      | true =>
        obtain ⟨a, b, e, va, vb, fa, fb, a1, b1, o1, o2, o3, o4⟩ := bisect_steps h above h2 f2 htwo m1 m2 W lo r.value vl r2 fl r3 c.1 bl hb al q
          (by linarith) k (by omega)
        exact ⟨a, b, by simpa using e, va, vb, fa, fb, a1, b1, o1, o2, o3.trans c.2.le, o4⟩
      | false =>
        obtain ⟨a, b, e, va, vb, fa, fb, a1, b1, o1, o2, o3, o4⟩ := bisect_steps h above h2 f2 htwo m1 m2 W r.value hi r2 vh r3 fh c.2 hb bh q ah
          (by linarith) k (by omega)
        exact ⟨a, b, by simpa using e, va, vb, fa, fb, a1, b1, c.1.le.trans o1, o2, o3, o4⟩
    · rename_i c
      exact ⟨lo, hi, rfl, vl, vh, fl, fh, al, ah, le_rfl, hlt, le_rfl, fun m z => c (r6 m z)⟩

/-- **C141.** Bisection between `lo < hi` (in the lower half of the range), with `(lo + hi) / 2` as the middle, ends in any rounding modes and for any
condition, false at `lo` and true at `hi`: with bounds between the given ones at which the condition is false and true.  If sums are rounded to nearest, no number
of the format lies between them. -/
theorem C141_bisection (h : S.OK) (above : IeeeFloat S → Bool) {two lo hi : IeeeFloat S} (h2 : two.Valid) (f2 : two.isFinite = true)
    (htwo : two.toRat = 2) (m1 m2 : Round) (vl : lo.Valid) (vh : hi.Valid) (fl : lo.isFinite = true) (fh : hi.isFinite = true)
    (hlt : lo.toRat < hi.toRat) (bl : 2 * |lo.toRat| ≤ S.fmt.largest) (bh : 2 * |hi.toRat| ≤ S.fmt.largest) (al : above lo = false)
    (ah : above hi = true) :
    ∃ N, ∀ n ≥ N, ∃ a b, bisect above two m1 m2 n lo hi = .ok (some (a, b)) ∧ a.Valid ∧ b.Valid ∧ a.isFinite = true ∧ b.isFinite = true ∧
      above a = false ∧ above b = true ∧ lo.toRat ≤ a.toRat ∧ a.toRat < b.toRat ∧ b.toRat ≤ hi.toRat ∧
      (m1 = .nearestTiesToEven ∨ m1 = .nearestTiesToAway →
        ¬ ∃ z : IeeeFloat S, z.Valid ∧ z.isFinite = true ∧ a.toRat < z.toRat ∧ z.toRat < b.toRat) := by
  have u0 := two_zpow_pos (S.fmt.emin - S.fmt.p + 1)
  obtain ⟨N, hN⟩ := exists_nat_ge ((hi.toRat - lo.toRat) / 2 ^ (S.fmt.emin - S.fmt.p + 1))
  exact ⟨N, bisect_steps h above h2 f2 htwo m1 m2 N lo hi vl vh fl fh hlt bl bh al ah ((div_le_iff₀ u0).1 hN)⟩

/-- The hypotheses hold for the square root of `2` between `1` and `2`. -/
example := C141_bisection singleS_ok (fun x => decide (2 < x.toRat * x.toRat)) (two := ⟨2 ^ 23, 1, .normal, false⟩) (lo := ⟨2 ^ 23, 0, .normal, false⟩)
  (hi := ⟨2 ^ 23, 1, .normal, false⟩) (by decide) rfl (by decide +kernel) .nearestTiesToEven .nearestTiesToEven (by decide) (by decide) rfl rfl
  (by decide +kernel) (by decide +kernel) (by decide +kernel) (by decide +kernel) (by decide +kernel)

/-- In `Half`: eleven steps suffice, and the bounds found are neighbours. -/
example : bisect (fun x => decide (2 < x.toRat * x.toRat)) (⟨1024, 1, .normal, false⟩ : IeeeFloat halfS) .nearestTiesToEven .nearestTiesToEven 11
    ⟨1024, 0, .normal, false⟩ ⟨1024, 1, .normal, false⟩ = .ok (some (⟨1448, 0, .normal, false⟩, ⟨1449, 0, .normal, false⟩)) := by
  decide +kernel

end Apf
