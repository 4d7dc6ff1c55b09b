import Verif.Spec.Sorting
import Verif.Props.Extremes
import Mathlib.Order.WithBot
import Mathlib.Data.List.Sort
/-!
# C140: sorting and searching
-/

namespace Apf
open Spec IeeeFloat
variable {S : Sem}

theorem insertFloat_ok (h : S.OK) {x : IeeeFloat S} (hx : x.Valid) (nx : x.isNan = false) : ∀ {l : List (IeeeFloat S)},
    (∀ e ∈ l, e.Valid ∧ e.isNan = false) → Ascending l → ∃ s, insertFloat x l = .ok s ∧ s.Perm (x :: l) ∧ Ascending s
  | [], _, _ => ⟨[x], rfl, .refl _, List.pairwise_singleton _ _⟩
  | y :: ys, hv, hs => by
    obtain ⟨vy, ny⟩ := hv y (by simp)
    have vs : ∀ e ∈ ys, e.Valid ∧ e.isNan = false := fun e he => hv e (by simp [he])
    unfold Ascending at hs
    obtain ⟨h1, h2⟩ := List.pairwise_cons.1 hs
    obtain ⟨e, lt', g, k, -, -, -, a, -, -, -, b⟩ := C15_operators h vy hx
    cases k with
    | true =>
      refine ⟨x :: y :: ys, ?_, .refl _, List.pairwise_cons.2 ⟨fun e he => ?_, hs⟩⟩
      · unfold insertFloat; rw [a]; rfl
      · have ve := (hv e he).1
        rw [ge_iff h ve hx]
        rcases List.mem_cons.1 he with rfl | c
        · exact b.1 rfl
        · exact Datum.le_trans (b.1 rfl) ((ge_iff h ve vy).1 (h1 e c))
    | false =>
      obtain ⟨s, s1, s2, s3⟩ := insertFloat_ok h hx nx vs h2
      have yx : y.datum.le x.datum := by
        rcases Datum.le_total ((not_nan_iff y).1 ny) ((not_nan_iff x).1 nx) with c | c
        · exact c
        · exact absurd (b.2 c) (by decide)
      refine ⟨y :: s, ?_, (s2.cons y).trans (List.Perm.swap _ _ _), List.pairwise_cons.2 ⟨fun e he => ?_, s3⟩⟩
      · unfold insertFloat; rw [a, M.ok_bind]
        simp only [Bool.false_eq_true, if_false]
        rw [s1]; rfl
      · rcases List.mem_cons.1 (s2.mem_iff.1 he) with rfl | c
        · exact (ge_iff h hx vy).2 yx
        · exact h1 e c

/-- **C140.** Numbers and infinities are sorted: the result has the same elements, each `>=` all before it. -/
theorem C140_sort (h : S.OK) : ∀ {l : List (IeeeFloat S)}, (∀ e ∈ l, e.Valid ∧ e.isNan = false) →
    ∃ s, sortFloats l = .ok s ∧ s.Perm l ∧ Ascending s
  | [], _ => ⟨[], rfl, .refl _, List.Pairwise.nil⟩
  | x :: xs, hv => by
    obtain ⟨r, r1, r2, r3⟩ := C140_sort h (l := xs) (fun e he => hv e (by simp [he]))
    obtain ⟨s, s1, s2, s3⟩ := insertFloat_ok h (hv x (by simp)).1 (hv x (by simp)).2 (l := r)
      (fun e he => hv e (by simp [r2.mem_iff.1 he])) r3
    exact ⟨s, by unfold sortFloats; rw [r1]; exact s1, s2.trans (r2.cons x), s3⟩

/-- The place of a datum on the extended number line. -/
def lineKey : Datum → WithBot (WithTop ℚ)
  | .nan => ⊥
  | .inf true => ⊥
  | .inf false => ((⊤ : WithTop ℚ) : WithBot (WithTop ℚ))
  | .num _ v => ((v : WithTop ℚ) : WithBot (WithTop ℚ))

theorem lineKey_le {a b : Datum} (ha : a ≠ .nan) (hb : b ≠ .nan) : lineKey a ≤ lineKey b ↔ a.le b := by
  cases a <;> cases b
  all_goals first | exact absurd rfl ha | exact absurd rfl hb | skip
  · rename_i m n; cases m <;> cases n <;> simp [Datum.le, lineKey]
  · rename_i m n v; cases m <;> simp [Datum.le, lineKey]
  · rename_i m n v; cases v <;> simp [Datum.le, lineKey]
  · simp [Datum.le, lineKey]

/-- **C140.** Whatever the way of sorting: two ascending arrangements of the same numbers compare equal place by place. -/
theorem C140_unique (h : S.OK) {s t : List (IeeeFloat S)} (hv : ∀ e ∈ s, e.Valid ∧ e.isNan = false) (hp : s.Perm t) (hs : Ascending s)
    (ht : Ascending t) : List.Forall₂ (fun a b => eq a b = .ok true) s t := by
  have hw : ∀ e ∈ t, e.Valid ∧ e.isNan = false := fun e he => hv e (hp.mem_iff.2 he)
  have up : ∀ {l : List (IeeeFloat S)}, (∀ e ∈ l, e.Valid ∧ e.isNan = false) → Ascending l →
      (l.map fun e => lineKey e.datum).Pairwise (· ≤ ·) := fun {l} hv hl => by
    rw [List.pairwise_map]
    refine List.Pairwise.imp_of_mem (fun {a b} ha hb c => ?_) hl
    exact (lineKey_le ((not_nan_iff a).1 (hv a ha).2) ((not_nan_iff b).1 (hv b hb).2)).2 ((ge_iff h (hv b hb).1 (hv a ha).1).1 c)
  have key := (hp.map fun e => lineKey e.datum).eq_of_pairwise' (up hv hs) (up hw ht)
  rw [List.forall₂_iff_get]
  refine ⟨hp.length_eq, fun i h1 h2 => ?_⟩
  have a := hv _ (List.get_mem s ⟨i, h1⟩)
  have b := hw _ (List.get_mem t ⟨i, h2⟩)
  have e : lineKey (s.get ⟨i, h1⟩).datum = lineKey (t.get ⟨i, h2⟩).datum := by
    have := List.getElem_of_eq key (i := i) (by simpa using h1)
    simpa using this
  rw [eq_iff_le h a.1 b.1, ← lineKey_le ((not_nan_iff _).1 a.2) ((not_nan_iff _).1 b.2),
    ← lineKey_le ((not_nan_iff _).1 b.2) ((not_nan_iff _).1 a.2)]
  exact ⟨e.le, e.ge⟩

/-- **C140.** In an ascending list `e < y` holds for the elements up to some place and for none after it, so that bisection finds that place. -/
theorem C140_search (h : S.OK) {y : IeeeFloat S} (hy : y.Valid) : ∀ {l : List (IeeeFloat S)}, (∀ e ∈ l, e.Valid) → Ascending l →
    ∃ k ≤ l.length, ∀ i (hi : i < l.length), lt l[i] y = .ok (decide (i < k))
  | [], _, _ => ⟨0, le_rfl, fun i hi => absurd hi (by simp)⟩
  | x :: xs, hv, hs => by
    unfold Ascending at hs
    obtain ⟨h1, h2⟩ := List.pairwise_cons.1 hs
    have vx := hv x (by simp)
    obtain ⟨k, k1, k2⟩ := C140_search h hy (l := xs) (fun e he => hv e (by simp [he])) h2
    obtain ⟨e, l, g, q, -, a, -, -, -, b, -, -⟩ := C15_operators h vx hy
    cases l with
    | true =>
      refine ⟨k + 1, by simpa using k1, fun i hi => ?_⟩
      cases i with
      | zero => simpa using a
      | succ i => simpa using k2 i (by simpa using hi)
    | false =>
      refine ⟨0, Nat.zero_le _, fun i hi => ?_⟩
      have nx : ¬ x.datum.lt y.datum := fun c => absurd (b.2 c) (by decide)
      have vi := hv _ (List.getElem_mem hi)
      obtain ⟨e', l', g', q', -, a', -, -, -, b', -, -⟩ := C15_operators h vi hy
      rw [a', Except.ok.injEq]
      simp only [not_lt_zero, decide_false]
      rw [← Bool.not_eq_true, b']
      intro c
      cases i with
      | zero => exact nx c
      | succ i =>
        have m : xs[i]'(by simpa using hi) ∈ xs := List.getElem_mem _
        have le := (ge_iff h (hv _ (by simp [m])) vx).1 (h1 _ m)
        unfold Datum.lt at c nx
        exact nx ⟨Datum.le_trans le c.1, fun d => c.2 (Datum.le_trans d le)⟩

/-! ### Concrete cases -/

theorem sort_example : sortFloats [⟨3 * 2 ^ 22, 0, .normal, false⟩, ZERO singleS, INFINITY singleS, (ZERO singleS).neg] =
    .ok [ZERO singleS, (ZERO singleS).neg, ⟨3 * 2 ^ 22, 0, .normal, false⟩, INFINITY singleS] := by decide +kernel

theorem ascending_example : Ascending [ZERO singleS, (ZERO singleS).neg, ⟨3 * 2 ^ 22, 0, .normal, false⟩] := by
  unfold Ascending; decide +kernel
theorem ascending_example' : Ascending [(ZERO singleS).neg, ZERO singleS, ⟨3 * 2 ^ 22, 0, .normal, false⟩] := by
  unfold Ascending; decide +kernel

example := C140_sort singleS_ok (l := [⟨3 * 2 ^ 22, 0, .normal, false⟩, ZERO singleS, INFINITY singleS, (ZERO singleS).neg]) (by decide)
example := C140_unique singleS_ok (by decide) (List.Perm.swap _ _ _) ascending_example ascending_example'
example := C140_search singleS_ok (y := ⟨3 * 2 ^ 22, -5, .normal, false⟩) (by decide) (by decide) ascending_example

end Apf
