import Verif.Spec.Power
import Verif.Props.Horner
/-!
# C148: powers by repeated multiplication
-/

namespace Apf
open Spec IeeeFloat
variable {S : Sem}

/-- **C148.** Powers of positive numbers by repeated multiplication, in any rounding modes, keep the order of the numbers, overflow and underflow included;
they are never negative or NaN. -/
theorem C148_monotone (h : S.OK) (hS : S.nonfinite = .ieee754) (modes : ℕ → Round) {x y : IeeeFloat S} (hx : x.Valid) (hy : y.Valid)
    (x0 : 0 < x.toRat) (xy : x.toRat ≤ y.toRat) : ∀ (n : ℕ) (a b : IeeeFloat S), a.Valid → b.Valid → ge a (ZERO S) = .ok true → ge b a = .ok true →
    ∃ r r', power modes x n a = .ok r ∧ power modes y n b = .ok r' ∧ r.Valid ∧ r'.Valid ∧ ge r (ZERO S) = .ok true ∧ ge r' r = .ok true
  | 0, a, b, ha, hb, a0, ab => ⟨a, b, rfl, rfl, ha, hb, a0, ab⟩
  | n + 1, a, b, ha, hb, a0, ab => by
    obtain ⟨p, p', e1, e2, e3, e4, e5, e6⟩ := mul_mono_step h hS ha hb hx hy a0 ab x0 xy (modes n)
    obtain ⟨r, r', g1, g2, g3⟩ := C148_monotone h hS modes hx hy x0 xy n p.value p'.value e3 e4 e5 e6
    exact ⟨r, r', by rw [power, e1, M.ok_bind, g1], by rw [power, e2, M.ok_bind, g2], g3⟩

/-- **C148.** The computed power of an integer is exact, in any rounding modes and every format, as long as it has at most `p` bits. -/
theorem C148_exact (h : S.OK) (modes : ℕ → Round) {x : IeeeFloat S} (hx : x.Valid) (fx : x.isFinite = true) {k : ℤ} (k0 : k ≠ 0) (xk : x.toRat = k) :
    ∀ (n : ℕ) (a : IeeeFloat S) (m : ℤ), a.Valid → a.isFinite = true → a.toRat = m → |m * k ^ n| ≤ 2 ^ S.precision →
    ∃ r, power modes x n a = .ok r ∧ r.Valid ∧ r.isFinite = true ∧ r.toRat = ((m * k ^ n : ℤ) : ℚ)
  | 0, a, m, ha, fa, am, _ => ⟨a, rfl, ha, fa, by rw [am]; simp⟩
  | n + 1, a, m, ha, fa, am, hb => by
    have e : m * k ^ (n + 1) = m * k * k ^ n := by ring
    have one : 1 ≤ |k ^ n| := Int.one_le_abs (pow_ne_zero n k0)
    have hk : |m * k| ≤ 2 ^ S.precision := by
      rw [e, abs_mul] at hb
      exact (le_mul_of_one_le_right (abs_nonneg _) one).trans hb
    have ev : a.toRat * x.toRat = ((m * k : ℤ) : ℚ) := by rw [am, xk]; push_cast; rfl
    have B : |((m * k : ℤ) : ℚ)| ≤ 2 ^ S.precision := by exact_mod_cast hk
    have L : |a.toRat * x.toRat| ≤ S.fmt.largest := by rw [ev]; exact B.trans (pow_le_largest h)
    obtain ⟨p, p1, p2, p3⟩ := mulR_finite h ha hx fa fx (modes n) (directedOK_of_ge h _ (_root_.abs_le.1 L).1)
    obtain ⟨p4, p5, -⟩ := exact_step h p3 (by rw [ev]; exact grid_intq h B) L
    obtain ⟨r, r1, r2, r3, r4⟩ := C148_exact h modes hx fx k0 xk n p.value (m * k) p2 p4 (p5.trans ev) (by rwa [← e])
    exact ⟨r, by rw [power, p1, M.ok_bind, r1], r2, r3, by rw [r4, e]⟩

/-- A product with a number of at least one does not shrink; one with a number of at most one does not grow. -/
theorem mul_one_step (h : S.OK) (hS : S.nonfinite = .ieee754) {a x : IeeeFloat S} (ha : a.Valid) (hx : x.Valid) (a0 : ge a (ZERO S) = .ok true)
    (x0 : 0 < x.toRat) (mode : Round) :
    ∃ r, mulR a x mode = .ok r ∧ r.value.Valid ∧ ge r.value (ZERO S) = .ok true ∧ (1 ≤ x.toRat → ge r.value a = .ok true) ∧
      (x.toRat ≤ 1 → ge a r.value = .ok true) := by
  obtain ⟨r, r1, r2, r3, r4, r5⟩ := mul_nonneg_step h hS ha hx a0 x0 mode
  refine ⟨r, r1, r2, r3, ?_⟩
  rw [ge_iff h r2 ha, ge_iff h ha r2]
  rcases nonneg_cases h ha a0 with ⟨fa, pa⟩ | ⟨ca, ga⟩
  · have z0 : (ZERO S).toRat = 0 := toRat_zero rfl
    obtain ⟨t, t1, t2, t3⟩ := addR_finite h ha zero_valid fa rfl mode (directedOK_of_ieee hS _ _)
    rw [z0, add_zero] at t3
    obtain ⟨t4, t5, -⟩ := exact_step h t3 (grid_toRat h ha fa) (abs_toRat_le h ha fa)
    have q := r4 fa
    have nt := rounds_not_nan hS t3
    have nr := rounds_not_nan hS q
    constructor
    · intro k
      refine Datum.le_trans ?_ (C37_rounding_monotone h t3 q (le_mul_of_one_le_right pa k) nt nr)
      rw [datum_finite fa, datum_finite t4, t5]
      exact le_refl a.toRat
    · intro k
      refine Datum.le_trans (C37_rounding_monotone h q t3 (mul_le_of_le_one_right pa k) nr nt) ?_
      rw [datum_finite fa, datum_finite t4, t5]
      exact le_refl a.toRat
  · exact ⟨fun _ => le_top (r5 ca).1 (r5 ca).2 (not_nan_of_nonneg h ha a0), fun _ => le_top ca ga (not_nan_of_nonneg h r2 r3)⟩

/-- **C148.** Multiplying on, `n` more times, by a number of at least one never makes the result smaller; by a positive number of at most one never larger. -/
theorem C148_onwards (h : S.OK) (hS : S.nonfinite = .ieee754) (modes : ℕ → Round) {x : IeeeFloat S} (hx : x.Valid) (x0 : 0 < x.toRat) :
    ∀ (n : ℕ) (a : IeeeFloat S), a.Valid → ge a (ZERO S) = .ok true →
    ∃ r, power modes x n a = .ok r ∧ r.Valid ∧ ge r (ZERO S) = .ok true ∧ (1 ≤ x.toRat → ge r a = .ok true) ∧ (x.toRat ≤ 1 → ge a r = .ok true)
  | 0, a, ha, a0 => by
    have e : ge a a = .ok true := (ge_iff h ha ha).2 (Datum.le_refl (not_nan_of_nonneg h ha a0))
    exact ⟨a, rfl, ha, a0, fun _ => e, fun _ => e⟩
  | n + 1, a, ha, a0 => by
    obtain ⟨p, p1, p2, p3, p4, p5⟩ := mul_one_step h hS ha hx a0 x0 (modes n)
    obtain ⟨r, r1, r2, r3, r4, r5⟩ := C148_onwards h hS modes hx x0 n p.value p2 p3
    refine ⟨r, by rw [power, p1, M.ok_bind, r1], r2, r3, fun k => ?_, fun k => ?_⟩
    · exact (ge_iff h r2 ha).2 (Datum.le_trans ((ge_iff h p2 ha).1 (p4 k)) ((ge_iff h r2 p2).1 (r4 k)))
    · exact (ge_iff h ha r2).2 (Datum.le_trans ((ge_iff h p2 r2).1 (r5 k)) ((ge_iff h ha p2).1 (p5 k)))

/-- In `Half`: the powers `0.75^40` and `1^40`, and `(-3)^6 = 729`. -/
example := C148_monotone halfS_ok rfl (fun _ => .towardPositive) (x := ⟨1536, -1, .normal, false⟩) (y := ⟨1024, 0, .normal, false⟩)
  (by decide +kernel) (by decide +kernel) (by decide +kernel) (by decide +kernel) 40 ⟨1024, 0, .normal, false⟩ ⟨1024, 0, .normal, false⟩
  (by decide +kernel) (by decide +kernel) (by decide +kernel) (by decide +kernel)
example := C148_exact halfS_ok (fun _ => .towardPositive) (x := ⟨1536, 1, .normal, true⟩) (by decide +kernel) rfl (k := -3) (by decide) (by decide +kernel)
  6 ⟨1024, 0, .normal, false⟩ 1 (by decide +kernel) rfl (by decide +kernel) (by decide +kernel)
example := C148_onwards halfS_ok rfl (fun _ => .towardPositive) (x := ⟨1536, -1, .normal, false⟩) (by decide +kernel) (by decide +kernel) 40
  ⟨1536, 3, .normal, false⟩ (by decide +kernel) (by decide +kernel)

end Apf
