import Verif.Spec.Horner
import Verif.Props.Running
import Verif.Props.Total
import Verif.Props.Identities
/-!
# C147: polynomials with coefficients that are not negative
-/

namespace Apf
open Spec IeeeFloat
variable {S : Sem}

theorem not_nan_of_nonneg (h : S.OK) {x : IeeeFloat S} (hx : x.Valid) (x0 : ge x (ZERO S) = .ok true) : x.datum ≠ .nan :=
  (Datum.le_nan ((ge_iff h hx zero_valid).1 x0)).2

theorem le_top {y : IeeeFloat S} (c : y.category = .infinity) (g : y.sign = false) {d : Datum} (hd : d ≠ .nan) : d.le y.datum := by
  rw [show y.datum = .inf false by simp [datum, c, g]]; exact Datum.le_inf_right d hd

/-- One product of a number that is not negative and a positive one: rounded, or infinite. -/
theorem mul_nonneg_step (h : S.OK) (hS : S.nonfinite = .ieee754) {a x : IeeeFloat S} (ha : a.Valid) (hx : x.Valid) (a0 : ge a (ZERO S) = .ok true)
    (x0 : 0 < x.toRat) (mode : Round) :
    ∃ r, mulR a x mode = .ok r ∧ r.value.Valid ∧ ge r.value (ZERO S) = .ok true ∧
      (a.isFinite = true → Rounds S mode (a.toRat * x.toRat) (xor a.sign x.sign) r) ∧
      (a.category = .infinity → r.value.category = .infinity ∧ r.value.sign = false) := by
  have fx := finite_of_toRat x0.ne'
  have cx : x.category = .normal := Apf.normal_of_toRat x0.ne'
  have zd : (ZERO S).datum = .num false 0 := by rw [datum_finite (x := ZERO S) rfl, toRat_zero rfl]; rfl
  rcases nonneg_cases h ha a0 with ⟨fa, pa⟩ | ⟨ca, ga⟩
  · obtain ⟨r, r1, r2, r3⟩ := mulR_finite h ha hx fa fx mode (directedOK_of_ieee hS _ _)
    obtain ⟨t, t1, t2, t3⟩ := addR_finite h (zero_valid (S := S)) zero_valid rfl rfl mode (directedOK_of_ieee hS _ _)
    have z0 : (ZERO S).toRat = 0 := toRat_zero rfl
    have m := C37_rounding_monotone h t3 r3 (by rw [z0]; simpa using mul_nonneg pa x0.le) (rounds_not_nan hS t3) (rounds_not_nan hS r3)
    rw [z0, add_zero, ← z0] at t3
    obtain ⟨t4, t5, -⟩ := exact_step h t3 (grid_toRat h zero_valid rfl) (abs_toRat_le h zero_valid rfl)
    refine ⟨r, r1, r2, (ge_iff h r2 zero_valid).2 (Datum.le_trans ?_ m), fun _ => r3, fun c => ?_⟩
    · rw [datum_finite (x := ZERO S) rfl, datum_finite t4, t5]
      exact le_refl (ZERO S).toRat
    · rcases isFinite_iff.1 fa with e | e <;> rw [e] at c <;> cases c
  · obtain ⟨r, r1, -, r3⟩ := C10_mul_inf ha hx mode (by rw [ca]; decide) (by rw [cx]; decide) (.inl ca)
    obtain ⟨-, r4, r5⟩ := r3 (by rw [ca]; decide) (by rw [cx]; decide)
    rw [ga, sign_of_pos hx x0] at r5
    obtain ⟨r', q1, q2⟩ := total_mul h ha hx mode
    obtain rfl : r = r' := by rw [r1] at q1; exact Except.ok.inj q1
    refine ⟨r, r1, q2, (ge_iff h q2 zero_valid).2 (le_top r4 r5 (by rw [zd]; simp)), fun f => ?_, fun _ => ⟨r4, r5⟩⟩
    rcases isFinite_iff.1 f with e | e <;> rw [e] at ca <;> cases ca

/-- Products with a positive number grow with both factors. -/
theorem mul_mono_step (h : S.OK) (hS : S.nonfinite = .ieee754) {a b x y : IeeeFloat S} (ha : a.Valid) (hb : b.Valid) (hx : x.Valid) (hy : y.Valid)
    (a0 : ge a (ZERO S) = .ok true) (ab : ge b a = .ok true) (x0 : 0 < x.toRat) (xy : x.toRat ≤ y.toRat) (mode : Round) :
    ∃ r r', mulR a x mode = .ok r ∧ mulR b y mode = .ok r' ∧ r.value.Valid ∧ r'.value.Valid ∧ ge r.value (ZERO S) = .ok true ∧
      ge r'.value r.value = .ok true := by
  have ab' := (ge_iff h hb ha).1 ab
  have b0 : ge b (ZERO S) = .ok true := (ge_iff h hb zero_valid).2 (Datum.le_trans ((ge_iff h ha zero_valid).1 a0) ab')
  obtain ⟨r, r1, r2, r3, r4, r5⟩ := mul_nonneg_step h hS ha hx a0 x0 mode
  obtain ⟨q, q1, q2, q3, q4, q5⟩ := mul_nonneg_step h hS hb hy b0 (x0.trans_le xy) mode
  refine ⟨r, q, r1, q1, r2, q2, r3, (ge_iff h q2 r2).2 ?_⟩
  rcases nonneg_cases h hb b0 with ⟨fb, pb⟩ | ⟨cb, gb⟩
  · rcases nonneg_cases h ha a0 with ⟨fa, pa⟩ | ⟨ca, ga⟩
    · rw [datum_finite fa, datum_finite fb] at ab'
      have le : a.toRat ≤ b.toRat := ab'
      exact C37_rounding_monotone h (r4 fa) (q4 fb) (mul_le_mul le xy x0.le pb) (rounds_not_nan hS (r4 fa)) (rounds_not_nan hS (q4 fb))
    · rw [show a.datum = .inf false by simp [datum, ca, ga], datum_finite fb] at ab'
      simp [Datum.le] at ab'
  · exact le_top (q5 cb).1 (q5 cb).2 (not_nan_of_nonneg h r2 r3)

/-- Sums of numbers that are not negative grow with the first. -/
theorem add_mono_step (h : S.OK) (hS : S.nonfinite = .ieee754) {a b c : IeeeFloat S} (ha : a.Valid) (hb : b.Valid) (hc : c.Valid)
    (a0 : ge a (ZERO S) = .ok true) (ab : ge b a = .ok true) (c0 : ge c (ZERO S) = .ok true) (mode : Round) :
    ∃ r r', addR a c mode = .ok r ∧ addR b c mode = .ok r' ∧ r.value.Valid ∧ r'.value.Valid ∧ ge r.value (ZERO S) = .ok true ∧
      ge r'.value r.value = .ok true := by
  have ab' := (ge_iff h hb ha).1 ab
  have b0 : ge b (ZERO S) = .ok true := (ge_iff h hb zero_valid).2 (Datum.le_trans ((ge_iff h ha zero_valid).1 a0) ab')
  obtain ⟨r, r1, r2, r3, -⟩ := add_nonneg_step h hS ha hc a0 c0 mode
  obtain ⟨q, q1, q2, q3, q4⟩ := add_nonneg_step h hS hb hc b0 c0 mode
  have r0 : ge r.value (ZERO S) = .ok true := (ge_iff h r2 zero_valid).2 (Datum.le_trans ((ge_iff h ha zero_valid).1 a0) r3)
  refine ⟨r, q, r1, q1, r2, q2, r0, (ge_iff h q2 r2).2 ?_⟩
  have up : ∀ {z : IeeeFloat S}, z.category = .infinity → z.sign = false → z.datum.le q.value.datum → r.value.datum.le q.value.datum := fun cz gz le =>
    Datum.le_trans (le_top cz gz (not_nan_of_nonneg h r2 r0)) le
  rcases nonneg_cases h hb b0 with ⟨fb, pb⟩ | ⟨cb, gb⟩
  · rcases nonneg_cases h hc c0 with ⟨fc, pc⟩ | ⟨cc, gc⟩
    · rcases nonneg_cases h ha a0 with ⟨fa, pa⟩ | ⟨ca, ga⟩
      · rw [datum_finite fa, datum_finite fb] at ab'
        have le : a.toRat ≤ b.toRat := ab'
        obtain ⟨r', s1, -, s3⟩ := addR_finite h ha hc fa fc mode (directedOK_of_ieee hS _ _)
        obtain ⟨q', t1, -, t3⟩ := addR_finite h hb hc fb fc mode (directedOK_of_ieee hS _ _)
        obtain rfl : r = r' := by rw [r1] at s1; exact Except.ok.inj s1
        obtain rfl : q = q' := by rw [q1] at t1; exact Except.ok.inj t1
        exact C37_rounding_monotone h s3 t3 (by linarith) (rounds_not_nan hS s3) (rounds_not_nan hS t3)
      · rw [show a.datum = .inf false by simp [datum, ca, ga], datum_finite fb] at ab'
        simp [Datum.le] at ab'
    · exact up cc gc q4
  · exact up cb gb q3

/-- **C147.** Horner's rule for a polynomial whose coefficients are not negative, in any rounding modes: the computed value never decreases when the positive
argument grows, and never when the leading coefficient grows; it is not negative, and never NaN, overflow and infinite coefficients included. -/
theorem C147_horner (h : S.OK) (hS : S.nonfinite = .ieee754) (m1 m2 : ℕ → Round) {x y : IeeeFloat S} (hx : x.Valid) (hy : y.Valid)
    (x0 : 0 < x.toRat) (xy : x.toRat ≤ y.toRat) : ∀ (cs : List (IeeeFloat S)) (i : ℕ) (a b : IeeeFloat S), a.Valid → b.Valid →
    ge a (ZERO S) = .ok true → ge b a = .ok true → (∀ c ∈ cs, c.Valid ∧ ge c (ZERO S) = .ok true) →
    ∃ r r', horner m1 m2 x i a cs = .ok r ∧ horner m1 m2 y i b cs = .ok r' ∧ r.Valid ∧ r'.Valid ∧ ge r (ZERO S) = .ok true ∧ ge r' r = .ok true
  | [], _, a, b, ha, hb, a0, ab, _ => ⟨a, b, rfl, rfl, ha, hb, a0, ab⟩
  | c :: cs, i, a, b, ha, hb, a0, ab, hv => by
    obtain ⟨vc, c0⟩ := hv c (by simp)
    obtain ⟨p, p', e1, e2, e3, e4, e5, e6⟩ := mul_mono_step h hS ha hb hx hy a0 ab x0 xy (m1 i)
    obtain ⟨q, q', f1, f2, f3, f4, f5, f6⟩ := add_mono_step h hS e3 e4 vc e5 e6 c0 (m2 i)
    obtain ⟨r, r', g1, g2, g3⟩ := C147_horner h hS m1 m2 hx hy x0 xy cs (i + 1) q.value q'.value f3 f4 f5 f6 (fun e he => hv e (by simp [he]))
    exact ⟨r, r', by rw [horner, e1, M.ok_bind, f1, M.ok_bind, g1], by rw [horner, e2, M.ok_bind, f2, M.ok_bind, g2], g3⟩

/-- In `Half`: `3 x² + 1.5 x + ∞` at `0.75` and `1`. -/
example := C147_horner halfS_ok rfl (fun _ => .towardZero) (fun _ => .towardPositive) (x := ⟨1536, -1, .normal, false⟩) (y := ⟨1024, 0, .normal, false⟩)
  (by decide +kernel) (by decide +kernel) (by decide +kernel) (by decide +kernel) [⟨1536, 0, .normal, false⟩, INFINITY halfS] 0
  ⟨1536, 1, .normal, false⟩ ⟨1536, 1, .normal, false⟩ (by decide +kernel) (by decide +kernel) (by decide +kernel) (by decide +kernel) (by decide +kernel)

/-- **C147.** The computed value is never below the constant coefficient. -/
theorem C147_constant (h : S.OK) (hS : S.nonfinite = .ieee754) (m1 m2 : ℕ → Round) {y : IeeeFloat S} (hy : y.Valid) (y0 : 0 < y.toRat) :
    ∀ (cs : List (IeeeFloat S)) (i : ℕ) (a : IeeeFloat S), (∀ c ∈ a :: cs, c.Valid ∧ ge c (ZERO S) = .ok true) →
    ∃ r, horner m1 m2 y i a cs = .ok r ∧ r.Valid ∧ ge r ((a :: cs).getLast (by simp)) = .ok true
  | [], _, a, hv => by
    obtain ⟨ha, a0⟩ := hv a (by simp)
    exact ⟨a, rfl, ha, (ge_iff h ha ha).2 (Datum.le_refl (not_nan_of_nonneg h ha a0))⟩
  | c :: cs, i, a, hv => by
    obtain ⟨ha, a0⟩ := hv a (by simp)
    obtain ⟨vc, c0⟩ := hv c (by simp)
    obtain ⟨p, p1, p2, p3, -⟩ := mul_nonneg_step h hS ha hy a0 y0 (m1 i)
    obtain ⟨q, q1, q2, q3, q4⟩ := add_nonneg_step h hS p2 vc p3 c0 (m2 i)
    have q0 : ge q.value (ZERO S) = .ok true := (ge_iff h q2 zero_valid).2 (Datum.le_trans ((ge_iff h p2 zero_valid).1 p3) q3)
    obtain ⟨r, r1, r2, r3⟩ := C147_constant h hS m1 m2 hy y0 cs (i + 1) q.value (fun e he => by
      rcases List.mem_cons.1 he with rfl | k
      exacts [⟨q2, q0⟩, hv e (by simp [k])])
    refine ⟨r, by rw [horner, p1, M.ok_bind, q1, M.ok_bind, r1], r2, ?_⟩
    cases cs with
    | nil => exact (ge_iff h r2 vc).2 (Datum.le_trans q4 ((ge_iff h r2 q2).1 r3))
    | cons d ds => simpa [List.getLast_cons] using r3

/-- **C147.** At zero, with finite coefficients of any sign, the computed value is the constant coefficient, in any rounding modes and every format. -/
theorem C147_at_zero (h : S.OK) (m1 m2 : ℕ → Round) {x : IeeeFloat S} (hx : x.Valid) (cx : x.category = .zero) :
    ∀ (cs : List (IeeeFloat S)) (i : ℕ) (a : IeeeFloat S), (∀ c ∈ a :: cs, c.Valid ∧ c.isFinite = true) →
    ∃ r, horner m1 m2 x i a cs = .ok r ∧ r.Valid ∧ r.isFinite = true ∧ eq r ((a :: cs).getLast (by simp)) = .ok true ∧
      r.toRat = ((a :: cs).getLast (by simp)).toRat := by
  have fx : x.isFinite = true := isFinite_iff.2 (.inr cx)
  have x0 : x.toRat = 0 := toRat_zero cx
  have key : ∀ (cs : List (IeeeFloat S)) (i : ℕ) (a : IeeeFloat S), (∀ c ∈ a :: cs, c.Valid ∧ c.isFinite = true) →
      ∃ r, horner m1 m2 x i a cs = .ok r ∧ r.Valid ∧ r.isFinite = true ∧ r.toRat = ((a :: cs).getLast (by simp)).toRat := by
    intro cs
    induction cs with
    | nil => intro i a hv; obtain ⟨ha, fa⟩ := hv a (by simp); exact ⟨a, rfl, ha, fa, rfl⟩
    | cons c cs ih =>
      intro i a hv
      obtain ⟨ha, fa⟩ := hv a (by simp)
      obtain ⟨vc, fc⟩ := hv c (by simp)
      have zx : |a.toRat * x.toRat| ≤ S.fmt.largest := by rw [x0, mul_zero, ← x0]; exact abs_toRat_le h hx fx
      obtain ⟨p, p1, p2, p3⟩ := mulR_finite h ha hx fa fx (m1 i) (directedOK_of_ge h _ (_root_.abs_le.1 zx).1)
      obtain ⟨p4, p5, -⟩ := exact_step h p3 (by rw [x0, mul_zero, ← x0]; exact grid_toRat h hx fx) zx
      rw [x0, mul_zero] at p5
      have ec : p.value.toRat + c.toRat = c.toRat := by rw [p5, zero_add]
      have zc : |p.value.toRat + c.toRat| ≤ S.fmt.largest := by rw [ec]; exact abs_toRat_le h vc fc
      obtain ⟨q, q1, q2, q3⟩ := addR_finite h p2 vc p4 fc (m2 i) (directedOK_of_ge h _ (_root_.abs_le.1 zc).1)
      obtain ⟨q4, q5, -⟩ := exact_step h q3 (by rw [ec]; exact grid_toRat h vc fc) zc
      rw [ec] at q5
      obtain ⟨r, r1, r2, r3, r4⟩ := ih (i + 1) q.value (fun e he => by
        rcases List.mem_cons.1 he with rfl | k
        exacts [⟨q2, q4⟩, hv e (by simp [k])])
      refine ⟨r, by rw [horner, p1, M.ok_bind, q1, M.ok_bind, r1], r2, r3, ?_⟩
      cases cs with
      | nil => simpa using r4.trans q5
      | cons d ds => simpa [List.getLast_cons] using r4
  intro cs i a hv
  obtain ⟨r, r1, r2, r3, r4⟩ := key cs i a hv
  obtain ⟨vl, fl⟩ := hv _ (List.getLast_mem (l := a :: cs) (by simp))
  refine ⟨r, r1, r2, r3, ?_, r4⟩
  refine (eq_iff_le h r2 vl).2 ?_
  rw [datum_finite r3, datum_finite fl]
  exact ⟨r4.le, r4.ge⟩

/-- In `Half`: `3 x² + 1.5 x + 0.75` at one and at negative zero. -/
example := C147_constant halfS_ok rfl (fun _ => .towardZero) (fun _ => .towardPositive) (y := ⟨1024, 0, .normal, false⟩)
  (by decide +kernel) (by decide +kernel) [⟨1536, 0, .normal, false⟩, ⟨1536, -1, .normal, false⟩] 0 ⟨1536, 1, .normal, false⟩ (by decide +kernel)
example := C147_at_zero halfS_ok (fun _ => .towardZero) (fun _ => .towardPositive) (x := (ZERO halfS).neg)
  (by decide +kernel) (by decide +kernel) [⟨1536, 0, .normal, false⟩, ⟨1536, -1, .normal, false⟩] 0 ⟨1536, 1, .normal, false⟩ (by decide +kernel)

end Apf
