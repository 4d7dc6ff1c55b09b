import Verif.Spec.Euclid
import Verif.Props.Digits
/-!
# C143: Euclid's algorithm with floats
-/

namespace Apf
open Spec IeeeFloat
variable {S : Sem}

/-- **C143.** Euclid's algorithm with `c_fmod` ends and gives the greatest common divisor of any two integers of the format, however large. -/
theorem C143_gcd (h : S.OK) : ∀ (n a b : ℕ) (x y : IeeeFloat S), x.Valid → y.Valid → x.isFinite = true → y.isFinite = true → x.toRat = a →
    y.toRat = b → b < n → ∃ g, euclid n x y = .ok (some g) ∧ g.Valid ∧ g.isFinite = true ∧ g.toRat = ((Nat.gcd a b : ℕ) : ℚ)
  | 0, _, _, _, _, _, _, _, _, _, _, hn => absurd hn (by omega)
  | n + 1, a, b, x, y, vx, vy, fx, fy, ex, ey, hn => by
    rw [euclid]
    by_cases z : y.isZero = true
    · have := (isZero_iff_nat vy fy).1 z
      rw [ey] at this
      obtain rfl : b = 0 := by exact_mod_cast this
      exact ⟨x, by rw [if_pos z], vx, fx, by rw [ex, Nat.gcd_zero_right]⟩
    · have b0 : b ≠ 0 := fun c => z ((isZero_iff_nat vy fy).2 (by rw [ey, c]; simp))
      obtain ⟨⟨r, r1, r2, r3, r4⟩, -⟩ := C95_remainder h vx vy fx fy (a := a) (b := b) (by rw [ex]; simp) (by rw [ey]; simp) (by omega)
      have r5 : r.toRat = ((a % b : ℕ) : ℚ) := by rw [r4]; norm_cast
      have lt := Nat.mod_lt a (Nat.pos_of_ne_zero b0)
      obtain ⟨g, g1, g2, g3, g4⟩ := C143_gcd h n b (a % b) y r vy r2 fy r3 ey r5 (by omega)
      refine ⟨g, by rw [if_neg z, r1, M.ok_bind]; exact g1, g2, g3, ?_⟩
      rw [g4, Nat.gcd_comm b, ← Nat.gcd_rec, Nat.gcd_comm]

/-! In single precision: the greatest common divisor of `2^60 * 3` and `2^40 * 9`. -/

example := C143_gcd singleS_ok (2 ^ 40 * 9 + 1) (2 ^ 60 * 3) (2 ^ 40 * 9) ⟨3 * 2 ^ 22, 61, .normal, false⟩ ⟨9 * 2 ^ 20, 43, .normal, false⟩ (by decide) (by decide) rfl rfl
  (by decide +kernel) (by decide +kernel) (by omega)
example : euclid 5 (⟨3 * 2 ^ 22, 61, .normal, false⟩ : IeeeFloat singleS) ⟨9 * 2 ^ 20, 43, .normal, false⟩ = .ok (some ⟨3 * 2 ^ 22, 41, .normal, false⟩) := by
  decide +kernel

end Apf
