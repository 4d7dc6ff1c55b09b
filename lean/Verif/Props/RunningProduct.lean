import Verif.Spec.RunningProduct
import Verif.Props.Accumulate
import Verif.Props.Expansion
/-!
# C146: running products of factors between zero and one
-/

namespace Apf
open Spec IeeeFloat
variable {S : Sem}

/-- A finite number between zero and one. -/
def Share (x : IeeeFloat S) : Prop := x.Valid ∧ x.isFinite = true ∧ 0 ≤ x.toRat ∧ x.toRat ≤ 1

/-- **C146.** Running products of factors between zero and one, in any rounding modes: every product is between zero and one, none is above an earlier one,
and none is above the factor just multiplied in. -/
theorem C146_products (h : S.OK) (modes : ℕ → Round) : ∀ (xs : List (IeeeFloat S)) (i : ℕ) (s : IeeeFloat S), Share s → (∀ x ∈ xs, Share x) →
    ∃ rs, runningProducts modes i s xs = .ok rs ∧ (∀ r ∈ rs, Share r) ∧ (s :: rs).Pairwise (fun a b => ge a b = .ok true) ∧
      List.Forall₂ (fun x r => ge x r = .ok true) xs rs
  | [], _, s, _, _ => ⟨[], rfl, by simp, List.pairwise_singleton _ _, List.Forall₂.nil⟩
  | x :: xs, i, s, ⟨vs, fs, s0, s1⟩, hv => by
    obtain ⟨vx, fx, x0, x1⟩ := hv x (by simp)
    have gs := grid_toRat h vs fs
    have gx := grid_toRat h vx fx
    have p0 : 0 ≤ s.toRat * x.toRat := mul_nonneg s0 x0
    have ps : s.toRat * x.toRat ≤ s.toRat := mul_le_of_le_one_right s0 x1
    have px : s.toRat * x.toRat ≤ x.toRat := mul_le_of_le_one_left x0 s1
    have L : |s.toRat * x.toRat| ≤ S.fmt.largest := by
      rw [_root_.abs_of_nonneg p0]
      exact ps.trans ((le_abs_self _).trans (abs_toRat_le h vs fs))
    obtain ⟨r, r1, r2, r3⟩ := mulR_finite h vs vx fs fx (modes i) (directedOK_of_ge h _ (_root_.abs_le.1 L).1)
    obtain ⟨r4, r5, -⟩ := rounds_fine h r3 L
    have rs' : r.value.toRat ≤ s.toRat := r5.le_of_grid gs ps
    have rx : r.value.toRat ≤ x.toRat := r5.le_of_grid gx px
    obtain ⟨rs, q1, q2, q3, q4⟩ := C146_products h modes xs (i + 1) r.value ⟨r2, r4, r5.nonneg p0, rs'.trans s1⟩ (fun e he => hv e (by simp [he]))
    have ges : ∀ {a b : IeeeFloat S}, a.Valid → b.Valid → a.isFinite = true → b.isFinite = true → (ge a b = .ok true ↔ b.toRat ≤ a.toRat) := by
      intro a b ha hb fa fb
      rw [ge_toRat h ha hb fa fb, Except.ok.injEq, decide_eq_true_iff]
    refine ⟨r.value :: rs, by rw [runningProducts, r1, M.ok_bind, q1]; rfl, ?_, ?_, List.Forall₂.cons ((ges vx r2 fx r4).2 rx) q4⟩
    · intro e he
      rcases List.mem_cons.1 he with rfl | c
      exacts [⟨r2, r4, r5.nonneg p0, rs'.trans s1⟩, q2 e c]
    · refine List.pairwise_cons.2 ⟨fun e he => ?_, q3⟩
      rcases List.mem_cons.1 he with rfl | c
      · exact (ges vs r2 fs r4).2 rs'
      · obtain ⟨ve, fe, -⟩ := q2 e c
        exact (ges vs ve fs fe).2 (((ges r2 ve r4 fe).1 ((List.pairwise_cons.1 q3).1 e c)).trans rs')

/-- In `Half`: `0.75`, `1.5 * 2^-14` and one, rounded upwards. -/
example := C146_products halfS_ok (fun _ => .towardPositive) [⟨1536, -14, .normal, false⟩, ⟨1024, 0, .normal, false⟩] 0 ⟨1536, -1, .normal, false⟩
  (by unfold Share; decide +kernel) (by unfold Share; decide +kernel)

end Apf
