import Verif.Spec.Running
import Verif.Props.Sorting
import Verif.Props.Accumulate
import Verif.Props.Monotone
/-!
# C145: running sums of numbers that are not negative
-/

namespace Apf
open Spec IeeeFloat
variable {S : Sem}

theorem nonneg_cases (h : S.OK) {x : IeeeFloat S} (hx : x.Valid) (h0 : ge x (ZERO S) = .ok true) :
    x.isFinite = true ∧ 0 ≤ x.toRat ∨ x.category = .infinity ∧ x.sign = false := by
  have d := (ge_iff h hx zero_valid).1 h0
  rw [datum_finite (x := ZERO S) rfl, toRat_zero rfl] at d
  cases c : x.category with
  | nan => rw [show x.datum = .nan by simp [datum, c]] at d; simp [Datum.le] at d
  | infinity =>
    rw [show x.datum = .inf x.sign by simp [datum, c]] at d
    cases s : x.sign
    · exact .inr ⟨rfl, rfl⟩
    · rw [s] at d; simp [Datum.le] at d
  | normal =>
    have f : x.isFinite = true := isFinite_iff.2 (.inl c)
    rw [datum_finite f] at d
    exact .inl ⟨f, d⟩
  | zero =>
    have f : x.isFinite = true := isFinite_iff.2 (.inr c)
    rw [datum_finite f] at d
    exact .inl ⟨f, d⟩

/-- One addition of numbers that are not negative. -/
theorem add_nonneg_step (h : S.OK) (hS : S.nonfinite = .ieee754) {s x : IeeeFloat S} (hs : s.Valid) (hx : x.Valid) (s0 : ge s (ZERO S) = .ok true)
    (x0 : ge x (ZERO S) = .ok true) (mode : Round) :
    ∃ r, addR s x mode = .ok r ∧ r.value.Valid ∧ s.datum.le r.value.datum ∧ x.datum.le r.value.datum := by
  have ns := (Datum.le_nan ((ge_iff h hs zero_valid).1 s0)).2
  have nx := (Datum.le_nan ((ge_iff h hx zero_valid).1 x0)).2
  have top : ∀ {y : IeeeFloat S}, y.category = .infinity → y.sign = false → ∀ d : Datum, d ≠ .nan → d.le y.datum := fun {y} c g d hd => by
    rw [show y.datum = .inf false by simp [datum, c, g]]; exact Datum.le_inf_right d hd
  rcases nonneg_cases h hs s0 with ⟨fs, ps⟩ | ⟨cs, gs⟩ <;> rcases nonneg_cases h hx x0 with ⟨fx, px⟩ | ⟨cx, gx⟩
  · obtain ⟨r, r1, r2, r3⟩ := addR_finite h hs hx fs fx mode (directedOK_of_ieee hS _ _)
    have z0 : (ZERO S).toRat = 0 := toRat_zero rfl
    have low : ∀ {y : IeeeFloat S}, y.Valid → y.isFinite = true → y.toRat ≤ s.toRat + x.toRat → y.datum.le r.value.datum := by
      intro y hy fy le
      obtain ⟨t, t1, t2, t3⟩ := addR_finite h hy zero_valid fy rfl mode (directedOK_of_ieee hS _ _)
      have m := C37_rounding_monotone h t3 r3 (by rw [z0]; linarith) (rounds_not_nan hS t3) (rounds_not_nan hS r3)
      rw [z0, add_zero] at t3
      obtain ⟨t4, t5, -⟩ := exact_step h t3 (grid_toRat h hy fy) (abs_toRat_le h hy fy)
      refine Datum.le_trans ?_ m
      rw [datum_finite fy, datum_finite t4, t5]
      exact le_refl y.toRat
    exact ⟨r, r1, r2, low hs fs (by linarith), low hx fx (by linarith)⟩
  · exact ⟨_, (C10_add_inf_finite mode).2 fs cx, hx, top cx gx _ ns, Datum.le_refl nx⟩
  · exact ⟨_, (C10_add_inf_finite mode).1 cs fx, hs, Datum.le_refl ns, top cs gs _ nx⟩
  · obtain ⟨r, r1, -, r2⟩ := C10_add_inf_inf cs cx mode
    rw [r2 (by rw [gs, gx])] at r1
    exact ⟨_, r1, hs, Datum.le_refl ns, top cs gs _ nx⟩

/-- **C145.** Running sums of numbers that are not negative never decrease and never fall below a number added so far, in any rounding modes,
overflow and infinities included; they are never NaN. -/
theorem C145_running (h : S.OK) (hS : S.nonfinite = .ieee754) (modes : ℕ → Round) : ∀ (xs : List (IeeeFloat S)) (i : ℕ) (s : IeeeFloat S), s.Valid →
    ge s (ZERO S) = .ok true → (∀ x ∈ xs, x.Valid ∧ ge x (ZERO S) = .ok true) →
    ∃ rs, runningSums modes i s xs = .ok rs ∧ Ascending (s :: rs) ∧ (∀ r ∈ rs, r.Valid) ∧
      List.Forall₂ (fun x r => ge r x = .ok true) xs rs
  | [], _, s, _, _, _ => ⟨[], rfl, List.pairwise_singleton _ _, by simp, List.Forall₂.nil⟩
  | x :: xs, i, s, hs, s0, hv => by
    obtain ⟨vx, x0⟩ := hv x (by simp)
    obtain ⟨r, r1, r2, r3, r4⟩ := add_nonneg_step h hS hs vx s0 x0 (modes i)
    have r0 : ge r.value (ZERO S) = .ok true := (ge_iff h r2 zero_valid).2 (Datum.le_trans ((ge_iff h hs zero_valid).1 s0) r3)
    obtain ⟨rs, q1, q2, q3, q4⟩ := C145_running h hS modes xs (i + 1) r.value r2 r0 (fun e he => hv e (by simp [he]))
    refine ⟨r.value :: rs, by rw [runningSums, r1, M.ok_bind, q1]; rfl, ?_, ?_, List.Forall₂.cons ((ge_iff h r2 vx).2 r4) q4⟩
    · refine List.pairwise_cons.2 ⟨fun e he => ?_, q2⟩
      rcases List.mem_cons.1 he with rfl | c
      · exact (ge_iff h r2 hs).2 r3
      · have := (List.pairwise_cons.1 q2).1 e c
        exact (ge_iff h (q3 e c) hs).2 (Datum.le_trans r3 ((ge_iff h (q3 e c) r2).1 this))
    · intro e he
      rcases List.mem_cons.1 he with rfl | c
      exacts [r2, q3 e c]

/-- **C145.** So drawing from a table of running sums by bisection (C140) finds a place for every value. -/
theorem C145_lookup (h : S.OK) (hS : S.nonfinite = .ieee754) (modes : ℕ → Round) {xs : List (IeeeFloat S)} {y : IeeeFloat S} (hy : y.Valid)
    (hv : ∀ x ∈ xs, x.Valid ∧ ge x (ZERO S) = .ok true) :
    ∃ rs k, runningSums modes 0 (ZERO S) xs = .ok rs ∧ rs.length = xs.length ∧ k ≤ xs.length ∧
      ∀ i (hi : i < rs.length), lt rs[i] y = .ok (decide (i < k)) := by
  obtain ⟨rs, r1, r2, r3, r4⟩ := C145_running h hS modes xs 0 (ZERO S) zero_valid
    ((ge_iff h zero_valid zero_valid).2 (Datum.le_refl (by rw [datum_finite (x := ZERO S) rfl]; simp))) hv
  obtain ⟨k, k1, k2⟩ := C140_search h hy r3 (List.pairwise_cons.1 r2).2
  have e := r4.length_eq
  exact ⟨rs, k, r1, e.symm, by omega, k2⟩

/-! ### Concrete cases: the largest number of `Half`, three halves, infinity. -/

example := C145_running halfS_ok rfl (fun _ => .nearestTiesToEven) [largest halfS, ⟨1536, 0, .normal, false⟩, INFINITY halfS] 0 (ZERO halfS) (by decide) (by decide +kernel)
  (by decide +kernel)
example := C145_lookup halfS_ok rfl (fun _ => .towardZero) (xs := [⟨1536, 0, .normal, false⟩, ⟨1536, -13, .normal, false⟩, ⟨1536, 4, .normal, false⟩])
  (y := ⟨1536, 1, .normal, false⟩) (by decide) (by decide +kernel)

end Apf
