import Verif.Props.Extremes
import Verif.Props.PpcOps
import Verif.Props.PpcOrder
/-!
# C139: the largest and the smallest of a list of DoubleDouble values, and clamping
-/

namespace Apf
open Spec DoubleFloat
variable {S : Sem}

theorem pair_ge_iff (h : S.OK) {x y : DoubleFloat S} (hx : x.Proper) (hy : y.Proper) : x.ge y = .ok true ↔ y.datum.le x.datum := by
  obtain ⟨e, l, g, le, k, -, -, -, -, a, -, -, -, -, b⟩ := C89_values h hx hy
  rw [a, Except.ok.injEq, b]

theorem pair_eq_iff (h : S.OK) {x y : DoubleFloat S} (hx : x.Proper) (hy : y.Proper) :
    x.eq y = .ok true ↔ x.datum.le y.datum ∧ y.datum.le x.datum := by
  obtain ⟨e, l, g, le, k, a, -, -, -, -, b, -⟩ := C89_values h hx hy
  rw [a, Except.ok.injEq, b]

theorem pair_nan_iff' (x : DoubleFloat S) : x.isNan = true ↔ x.datum = .nan := by
  have := pair_nan_iff x
  cases c : x.isNan <;> rw [c] at this <;> simp_all

theorem proper_of_mem {x r : DoubleFloat S} {xs : List (DoubleFloat S)} (hx : x.Proper) (hv : ∀ e ∈ xs, e.Proper) (hr : r ∈ x :: xs) : r.Proper := by
  rcases List.mem_cons.1 hr with rfl | c
  exacts [hx, hv _ c]

/-- **C139.** `max` and `min` through a list of pairs: one of the elements, a NaN only if all are NaNs, and at least (at most) every element that is not a NaN. -/
theorem C139_max_min (h : S.OK) {x : DoubleFloat S} {xs : List (DoubleFloat S)} (hx : x.Proper) (hv : ∀ e ∈ xs, e.Proper) :
    (∃ r, xs.foldlM DoubleFloat.max x = .ok r ∧ r ∈ x :: xs ∧ (r.isNan = true ↔ ∀ e ∈ x :: xs, e.isNan = true) ∧
      ∀ e ∈ x :: xs, e.isNan = false → r.ge e = .ok true) ∧
    (∃ r, xs.foldlM DoubleFloat.min x = .ok r ∧ r ∈ x :: xs ∧ (r.isNan = true ↔ ∀ e ∈ x :: xs, e.isNan = true) ∧
      ∀ e ∈ x :: xs, e.isNan = false → e.ge r = .ok true) := by
  constructor
  · obtain ⟨r, r1, r2, r3, r4⟩ := fold_avoid (D := DoubleFloat.datum) (V := DoubleFloat.Proper) (R := Datum.le) (f := DoubleFloat.max)
      (fun x y a b => by
        obtain ⟨r, t, -, c2, -, c4, c5, c6, c7⟩ := C44_min_max h a b
        exact ⟨t, c2, c4, fun q => (c5 q).2, fun q q' => (c6 q q').2, fun q q' => (c7 q q').2.2⟩) Datum.le_refl Datum.le_trans xs x hx hv
    refine ⟨r, r1, r2, by simpa only [pair_nan_iff'] using r3, fun e he ne => ?_⟩
    exact (pair_ge_iff h (proper_of_mem hx hv r2) (proper_of_mem hx hv he)).2 (r4 e he ((pair_nan_iff e).1 ne))
  · obtain ⟨r, r1, r2, r3, r4⟩ := fold_avoid (D := DoubleFloat.datum) (V := DoubleFloat.Proper) (R := fun a b => b.le a) (f := DoubleFloat.min)
      (fun x y a b => by
        obtain ⟨r, t, c1, -, c3, -, c5, c6, c7⟩ := C44_min_max h a b
        exact ⟨r, c1, c3, fun q => (c5 q).1, fun q q' => (c6 q q').1, fun q q' => ⟨(c7 q q').1, (c7 q q').2.1⟩⟩) Datum.le_refl
      (fun p q => Datum.le_trans q p) xs x hx hv
    refine ⟨r, r1, r2, by simpa only [pair_nan_iff'] using r3, fun e he ne => ?_⟩
    exact (pair_ge_iff h (proper_of_mem hx hv he) (proper_of_mem hx hv r2)).2 (r4 e he ((pair_nan_iff e).1 ne))

/-- **C139.** `maximum` and `minimum` through a list of pairs: one of the elements, a NaN if there is one, otherwise at least (at most) every element,
with `-0` below `+0`. -/
theorem C139_maximum_minimum (h : S.OK) {x : DoubleFloat S} {xs : List (DoubleFloat S)} (hx : x.Proper) (hv : ∀ e ∈ xs, e.Proper) :
    (∃ r, xs.foldlM DoubleFloat.maximum x = .ok r ∧ r ∈ x :: xs ∧ (r.isNan = true ↔ ∃ e ∈ x :: xs, e.isNan = true) ∧
      (r.isNan = false → ∀ e ∈ x :: xs, e.datum.leZ r.datum)) ∧
    (∃ r, xs.foldlM DoubleFloat.minimum x = .ok r ∧ r ∈ x :: xs ∧ (r.isNan = true ↔ ∃ e ∈ x :: xs, e.isNan = true) ∧
      (r.isNan = false → ∀ e ∈ x :: xs, r.datum.leZ e.datum)) := by
  constructor
  · obtain ⟨r, r1, r2, r3, r4⟩ := fold_spread (D := DoubleFloat.datum) (V := DoubleFloat.Proper) (R := Datum.leZ) (f := DoubleFloat.maximum)
      (fun x y a b => by
        obtain ⟨r, t, -, c2, -, c4, c5, c6, c7⟩ := C44_minimum_maximum h a b
        exact ⟨t, c2, c4, fun q => (c5 q).2, fun q q' => (c6 q q').2, fun q q' => (c7 q q').2.2⟩) leZ_refl leZ_trans xs x hx hv
    exact ⟨r, r1, r2, by simpa only [pair_nan_iff'] using r3, fun nr => r4 ((pair_nan_iff r).1 nr)⟩
  · obtain ⟨r, r1, r2, r3, r4⟩ := fold_spread (D := DoubleFloat.datum) (V := DoubleFloat.Proper) (R := fun a b => b.leZ a) (f := DoubleFloat.minimum)
      (fun x y a b => by
        obtain ⟨r, t, c1, -, c3, -, c5, c6, c7⟩ := C44_minimum_maximum h a b
        exact ⟨r, c1, c3, fun q => (c5 q).1, fun q q' => (c6 q q').1, fun q q' => ⟨(c7 q q').1, (c7 q q').2.1⟩⟩) leZ_refl
      (fun p q => leZ_trans q p) xs x hx hv
    exact ⟨r, r1, r2, by simpa only [pair_nan_iff'] using r3, fun nr => r4 ((pair_nan_iff r).1 nr)⟩

/-- **C139.** Whatever the order of the elements, `max` and `min` give pairs that compare equal, or NaNs both times. -/
theorem C139_order (h : S.OK) {x y : DoubleFloat S} {xs ys : List (DoubleFloat S)} (hx : x.Proper) (hv : ∀ e ∈ xs, e.Proper)
    (hp : (x :: xs).Perm (y :: ys)) :
    (∃ r s, xs.foldlM DoubleFloat.max x = .ok r ∧ ys.foldlM DoubleFloat.max y = .ok s ∧ (r.eq s = .ok true ∨ r.isNan = true ∧ s.isNan = true)) ∧
    (∃ r s, xs.foldlM DoubleFloat.min x = .ok r ∧ ys.foldlM DoubleFloat.min y = .ok s ∧ (r.eq s = .ok true ∨ r.isNan = true ∧ s.isNan = true)) := by
  have all : ∀ e ∈ x :: xs, e.Proper := fun e => proper_of_mem hx hv
  have hy : y.Proper := all y (hp.mem_iff.2 (by simp))
  have hw : ∀ e ∈ ys, e.Proper := fun e he => all e (hp.mem_iff.2 (by simp [he]))
  have mem : ∀ {e}, e ∈ y :: ys ↔ e ∈ x :: xs := fun {e} => hp.mem_iff.symm
  constructor
  · obtain ⟨r, r1, r2, r3, r4⟩ := (C139_max_min h hx hv).1
    obtain ⟨s, s1, s2, s3, s4⟩ := (C139_max_min h hy hw).1
    simp only [mem] at s2 s3 s4
    refine ⟨r, s, r1, s1, ?_⟩
    cases c : r.isNan
    · have d : s.isNan = false := by rw [← Bool.not_eq_true, s3, ← r3, c]; decide
      refine .inl ((pair_eq_iff h (all r r2) (all s s2)).2 ⟨?_, ?_⟩)
      · exact (pair_ge_iff h (all s s2) (all r r2)).1 (s4 r r2 c)
      · exact (pair_ge_iff h (all r r2) (all s s2)).1 (r4 s s2 d)
    · exact .inr ⟨rfl, s3.2 (r3.1 c)⟩
  · obtain ⟨r, r1, r2, r3, r4⟩ := (C139_max_min h hx hv).2
    obtain ⟨s, s1, s2, s3, s4⟩ := (C139_max_min h hy hw).2
    simp only [mem] at s2 s3 s4
    refine ⟨r, s, r1, s1, ?_⟩
    cases c : r.isNan
    · have d : s.isNan = false := by rw [← Bool.not_eq_true, s3, ← r3, c]; decide
      refine .inl ((pair_eq_iff h (all r r2) (all s s2)).2 ⟨?_, ?_⟩)
      · exact (pair_ge_iff h (all s s2) (all r r2)).1 (r4 s s2 d)
      · exact (pair_ge_iff h (all r r2) (all s s2)).1 (s4 r r2 c)
    · exact .inr ⟨rfl, s3.2 (r3.1 c)⟩

/-- **C139.** `x.max(lo).min(hi)` with `lo <= hi`: always within the bounds; `x` if it is within them, the nearer bound if not, the lower bound for a NaN. -/
theorem C139_clamp (h : S.OK) {x lo hi : DoubleFloat S} (hx : x.Proper) (hl : lo.Proper) (hh : hi.Proper) (hb : hi.ge lo = .ok true) :
    ∃ a r, x.max lo = .ok a ∧ a.min hi = .ok r ∧ r.ge lo = .ok true ∧ hi.ge r = .ok true ∧
      (x.ge lo = .ok true → hi.ge x = .ok true → r.eq x = .ok true) ∧
      (lo.ge x = .ok true ∨ x.isNan = true → r.eq lo = .ok true) ∧
      (x.ge hi = .ok true → r.eq hi = .ok true) := by
  obtain ⟨_, a, -, a1, -, a2, a3, -, a5⟩ := C44_min_max h hx hl
  have va : a.Proper := by rcases a2 with rfl | rfl; exacts [hx, hl]
  obtain ⟨r, _, r1, -, r2, -, -, -, r5⟩ := C44_min_max h va hh
  have vr : r.Proper := by rcases r2 with rfl | rfl; exacts [va, hh]
  have b := (pair_ge_iff h hh hl).1 hb
  obtain ⟨nl, nh⟩ := Datum.le_nan b
  have la : lo.datum.le a.datum := by
    by_cases c : x.datum = .nan
    · rw [(a3 c).2]; exact Datum.le_refl nl
    · exact (a5 c nl).2.2.2
  obtain ⟨ra, rh, -⟩ := r5 (Datum.le_nan la).2 nh
  have lr : lo.datum.le r.datum := by rcases r2 with rfl | rfl; exacts [la, b]
  refine ⟨a, r, a1, r1, ?_⟩
  simp only [pair_ge_iff h vr hl, pair_ge_iff h hh vr, pair_ge_iff h hx hl, pair_ge_iff h hh hx, pair_ge_iff h hl hx, pair_ge_iff h hx hh,
    pair_eq_iff h vr hx, pair_eq_iff h vr hl, pair_eq_iff h vr hh]
  refine ⟨lr, rh, fun p q => ?_, fun p => ⟨?_, lr⟩, fun p => ⟨rh, ?_⟩⟩
  · have xa := (a5 (Datum.le_nan q).1 nl).2.2.1
    refine ⟨?_, ?_⟩
    · rcases a2 with rfl | rfl
      exacts [ra, Datum.le_trans ra p]
    · rcases r2 with rfl | rfl
      exacts [xa, q]
  · rcases p with p | p
    · rcases a2 with rfl | rfl
      exacts [Datum.le_trans ra p, ra]
    · rwa [(a3 ((pair_nan_iff' x).1 p)).2] at ra
  · have xa := (a5 (Datum.le_nan p).2 nl).2.2.1
    rcases r2 with rfl | rfl
    exacts [Datum.le_trans p xa, Datum.le_refl nh]

/-! ### Concrete cases: a pair a little below one, an infinity, a NaN. -/

theorem extremes_example : (⟨⟨2 ^ 52, 0, .normal, false⟩, ⟨2 ^ 52, -60, .normal, true⟩⟩ : DoubleDouble).Proper ∧ (DoubleFloat.INFINITY doubleS).Proper ∧
    (DoubleFloat.NAN doubleS).Proper :=
  ⟨⟨fits_example.1.1, Or.inl fits_example.1.2.1⟩, ⟨by decide +kernel, Or.inr ⟨rfl, by decide +kernel, rfl⟩⟩,
    ⟨by decide +kernel, Or.inr ⟨rfl, by decide +kernel, rfl⟩⟩⟩

example := C139_max_min doubleS_ok (xs := [_, _]) extremes_example.2.2 (List.forall_mem_cons.2 ⟨extremes_example.1, List.forall_mem_cons.2
  ⟨extremes_example.2.1, by simp⟩⟩)
example := C139_maximum_minimum doubleS_ok (xs := [_]) extremes_example.1 (List.forall_mem_cons.2 ⟨extremes_example.2.1, by simp⟩)
example := C139_order doubleS_ok (xs := [_, _]) extremes_example.2.2 (List.forall_mem_cons.2 ⟨extremes_example.1, List.forall_mem_cons.2
  ⟨extremes_example.2.1, by simp⟩⟩) (List.Perm.swap _ _ _)
example := C139_clamp doubleS_ok extremes_example.2.2 extremes_example.1 extremes_example.2.1 (by decide +kernel)

end Apf
