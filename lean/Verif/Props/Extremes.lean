import Verif.Props.Order
/-!
# C138: the largest and the smallest of a list, and clamping
-/

namespace Apf
open Spec IeeeFloat
variable {S : Sem}

theorem ge_iff (h : S.OK) {x y : IeeeFloat S} (hx : x.Valid) (hy : y.Valid) : ge x y = .ok true ↔ y.datum.le x.datum := by
  obtain ⟨e, l, g, k, -, -, -, a, -, -, -, b⟩ := C15_operators h hx hy
  rw [a, Except.ok.injEq, b]

theorem eq_iff_le (h : S.OK) {x y : IeeeFloat S} (hx : x.Valid) (hy : y.Valid) :
    eq x y = .ok true ↔ x.datum.le y.datum ∧ y.datum.le x.datum := by
  obtain ⟨e, l, g, k, a, -, -, -, b, -⟩ := C15_operators h hx hy
  rw [a, Except.ok.injEq, b]

theorem nan_iff (x : IeeeFloat S) : x.isNan = true ↔ x.datum = .nan := by
  have := not_nan_iff x
  cases c : x.isNan <;> rw [c] at this <;> simp_all

/-- Folding a function that picks one of its operands and avoids NaNs. -/
theorem fold_avoid {α : Type} {D : α → Datum} {V : α → Prop} {f : α → α → M α} {R : Datum → Datum → Prop}
    (hf : ∀ x y : α, V x → V y → ∃ r, f x y = .ok r ∧ (r = x ∨ r = y) ∧ (D x = .nan → r = y) ∧
      (D x ≠ .nan → D y = .nan → r = x) ∧ (D x ≠ .nan → D y ≠ .nan → R (D x) (D r) ∧ R (D y) (D r)))
    (rf : ∀ {a}, a ≠ .nan → R a a) (tr : ∀ {a b c}, R a b → R b c → R a c) :
    ∀ (xs : List α) (x : α), V x → (∀ e ∈ xs, V e) →
      ∃ r, xs.foldlM f x = .ok r ∧ r ∈ x :: xs ∧ (D r = .nan ↔ ∀ e ∈ x :: xs, D e = .nan) ∧
        ∀ e ∈ x :: xs, D e ≠ .nan → R (D e) (D r)
  | [], x, _, _ => ⟨x, rfl, by simp, by simp, by simpa using rf⟩
  | y :: ys, x, hx, hv => by
    obtain ⟨s, s1, s2, s3, s4, s5⟩ := hf x y hx (hv y (by simp))
    have vs : V s := by rcases s2 with rfl | rfl; exacts [hx, hv _ (by simp)]
    obtain ⟨r, r1, r2, r3, r4⟩ := fold_avoid hf rf tr ys s vs (fun e he => hv e (by simp [he]))
    have sn : D s = .nan ↔ D x = .nan ∧ D y = .nan := by
      by_cases a : D x = .nan
      · rw [s3 a]; simp [a]
      · by_cases b : D y = .nan
        · rw [s4 a b]; simp [a]
        · rcases s2 with rfl | rfl <;> simp [a, b]
    have rs : D s ≠ .nan → R (D s) (D r) := r4 s (by simp)
    refine ⟨r, by rw [List.foldlM_cons, s1]; exact r1, ?_, ?_, ?_⟩
    · rcases List.mem_cons.1 r2 with rfl | c
      · rcases s2 with rfl | rfl <;> simp
      · simp [c]
    · rw [r3]
      simp only [List.forall_mem_cons, sn, and_assoc]
    · intro e he ne
      have two : ∀ d : α, d = x ∨ d = y → D d ≠ .nan → R (D d) (D r) := by
        intro d hd nd
        have ns : D s ≠ .nan := fun c => by rcases hd with rfl | rfl; exacts [nd (sn.1 c).1, nd (sn.1 c).2]
        refine tr ?_ (rs ns)
        by_cases a : D x = .nan
        · rcases hd with rfl | rfl
          · exact absurd a nd
          · rw [s3 a]; exact rf nd
        · by_cases b : D y = .nan
          · rcases hd with rfl | rfl
            · rw [s4 a b]; exact rf nd
            · exact absurd b nd
          · rcases hd with rfl | rfl
            exacts [(s5 a b).1, (s5 a b).2]
      simp only [List.mem_cons] at he
      rcases he with c | c | c
      exacts [two e (.inl c) ne, two e (.inr c) ne, r4 e (by simp [c]) ne]

/-- Folding a function that picks one of its operands, a NaN if there is one. -/
theorem fold_spread {α : Type} {D : α → Datum} {V : α → Prop} {f : α → α → M α} {R : Datum → Datum → Prop}
    (hf : ∀ x y : α, V x → V y → ∃ r, f x y = .ok r ∧ (r = x ∨ r = y) ∧ (D x = .nan → r = x) ∧
      (D x ≠ .nan → D y = .nan → r = y) ∧ (D x ≠ .nan → D y ≠ .nan → R (D x) (D r) ∧ R (D y) (D r)))
    (rf : ∀ {a}, a ≠ .nan → R a a) (tr : ∀ {a b c}, R a b → R b c → R a c) :
    ∀ (xs : List α) (x : α), V x → (∀ e ∈ xs, V e) →
      ∃ r, xs.foldlM f x = .ok r ∧ r ∈ x :: xs ∧ (D r = .nan ↔ ∃ e ∈ x :: xs, D e = .nan) ∧
        (D r ≠ .nan → ∀ e ∈ x :: xs, R (D e) (D r))
  | [], x, _, _ => ⟨x, rfl, by simp, by simp, by simpa using rf⟩
  | y :: ys, x, hx, hv => by
    obtain ⟨s, s1, s2, s3, s4, s5⟩ := hf x y hx (hv y (by simp))
    have vs : V s := by rcases s2 with rfl | rfl; exacts [hx, hv _ (by simp)]
    obtain ⟨r, r1, r2, r3, r4⟩ := fold_spread hf rf tr ys s vs (fun e he => hv e (by simp [he]))
    have sn : D s = .nan ↔ D x = .nan ∨ D y = .nan := by
      by_cases a : D x = .nan
      · rw [s3 a]; simp [a]
      · by_cases b : D y = .nan
        · rw [s4 a b]; simp [b]
        · rcases s2 with rfl | rfl <;> simp [a, b]
    refine ⟨r, by rw [List.foldlM_cons, s1]; exact r1, ?_, ?_, ?_⟩
    · rcases List.mem_cons.1 r2 with rfl | c
      · rcases s2 with rfl | rfl <;> simp
      · simp [c]
    · rw [r3]
      simp only [List.mem_cons, exists_eq_or_imp, sn, or_assoc]
    · intro nr e he
      have ns : D s ≠ .nan := fun c => nr (r3.2 ⟨s, by simp, c⟩)
      have na : D x ≠ .nan := fun c => ns (sn.2 (.inl c))
      have nb : D y ≠ .nan := fun c => ns (sn.2 (.inr c))
      have rs := r4 nr s (by simp)
      simp only [List.mem_cons] at he
      rcases he with rfl | rfl | c
      exacts [tr (s5 na nb).1 rs, tr (s5 na nb).2 rs, r4 nr e (by simp [c])]

theorem valid_of_mem {x r : IeeeFloat S} {xs : List (IeeeFloat S)} (hx : x.Valid) (hv : ∀ e ∈ xs, e.Valid) (hr : r ∈ x :: xs) : r.Valid := by
  rcases List.mem_cons.1 hr with rfl | c
  exacts [hx, hv _ c]

/-- **C138.** `max` through a list, in any order of the elements: one of the elements, a NaN only if all are NaNs, and at least every element that is not a NaN. -/
theorem C138_max (h : S.OK) {x : IeeeFloat S} {xs : List (IeeeFloat S)} (hx : x.Valid) (hv : ∀ e ∈ xs, e.Valid) :
    ∃ r, xs.foldlM IeeeFloat.max x = .ok r ∧ r ∈ x :: xs ∧ (r.isNan = true ↔ ∀ e ∈ x :: xs, e.isNan = true) ∧
      ∀ e ∈ x :: xs, e.isNan = false → ge r e = .ok true := by
  obtain ⟨r, r1, r2, r3, r4⟩ := fold_avoid (D := datum) (V := Valid) (R := Datum.le) (fun x y a b => C16_max h a b) Datum.le_refl Datum.le_trans xs x hx hv
  refine ⟨r, r1, r2, by simpa only [nan_iff] using r3, fun e he ne => ?_⟩
  exact (ge_iff h (valid_of_mem hx hv r2) (valid_of_mem hx hv he)).2 (r4 e he ((not_nan_iff e).1 ne))

/-- **C138.** `min` through a list. -/
theorem C138_min (h : S.OK) {x : IeeeFloat S} {xs : List (IeeeFloat S)} (hx : x.Valid) (hv : ∀ e ∈ xs, e.Valid) :
    ∃ r, xs.foldlM IeeeFloat.min x = .ok r ∧ r ∈ x :: xs ∧ (r.isNan = true ↔ ∀ e ∈ x :: xs, e.isNan = true) ∧
      ∀ e ∈ x :: xs, e.isNan = false → ge e r = .ok true := by
  obtain ⟨r, r1, r2, r3, r4⟩ := fold_avoid (D := datum) (V := Valid) (R := fun a b => b.le a) (fun x y a b => C16_min h a b) Datum.le_refl
    (fun p q => Datum.le_trans q p) xs x hx hv
  refine ⟨r, r1, r2, by simpa only [nan_iff] using r3, fun e he ne => ?_⟩
  exact (ge_iff h (valid_of_mem hx hv he) (valid_of_mem hx hv r2)).2 (r4 e he ((not_nan_iff e).1 ne))

/-- **C138.** `maximum` through a list: one of the elements, a NaN if there is one, otherwise at least every element, with `-0` below `+0`. -/
theorem C138_maximum (h : S.OK) {x : IeeeFloat S} {xs : List (IeeeFloat S)} (hx : x.Valid) (hv : ∀ e ∈ xs, e.Valid) :
    ∃ r, xs.foldlM maximum x = .ok r ∧ r ∈ x :: xs ∧ (r.isNan = true ↔ ∃ e ∈ x :: xs, e.isNan = true) ∧
      (r.isNan = false → ∀ e ∈ x :: xs, e.datum.leZ r.datum) := by
  obtain ⟨r, r1, r2, r3, r4⟩ := fold_spread (D := datum) (V := Valid) (R := Datum.leZ) (fun x y a b => C16_maximum h a b) leZ_refl leZ_trans xs x hx hv
  exact ⟨r, r1, r2, by simpa only [nan_iff] using r3, fun nr => r4 ((not_nan_iff r).1 nr)⟩

/-- **C138.** `minimum` through a list. -/
theorem C138_minimum (h : S.OK) {x : IeeeFloat S} {xs : List (IeeeFloat S)} (hx : x.Valid) (hv : ∀ e ∈ xs, e.Valid) :
    ∃ r, xs.foldlM minimum x = .ok r ∧ r ∈ x :: xs ∧ (r.isNan = true ↔ ∃ e ∈ x :: xs, e.isNan = true) ∧
      (r.isNan = false → ∀ e ∈ x :: xs, r.datum.leZ e.datum) := by
  obtain ⟨r, r1, r2, r3, r4⟩ := fold_spread (D := datum) (V := Valid) (R := fun a b => b.leZ a) (fun x y a b => C16_minimum h a b) leZ_refl
    (fun p q => leZ_trans q p) xs x hx hv
  exact ⟨r, r1, r2, by simpa only [nan_iff] using r3, fun nr => r4 ((not_nan_iff r).1 nr)⟩

/-- **C138.** The order of the elements does not matter: `max` gives numbers that compare equal or NaNs both times, `maximum` the same
number with the same sign or NaNs both times. -/
theorem C138_order (h : S.OK) {x y : IeeeFloat S} {xs ys : List (IeeeFloat S)} (hx : x.Valid) (hv : ∀ e ∈ xs, e.Valid)
    (hp : (x :: xs).Perm (y :: ys)) :
    (∃ r s, xs.foldlM IeeeFloat.max x = .ok r ∧ ys.foldlM IeeeFloat.max y = .ok s ∧ (eq r s = .ok true ∨ r.isNan = true ∧ s.isNan = true)) ∧
    (∃ r s, xs.foldlM IeeeFloat.min x = .ok r ∧ ys.foldlM IeeeFloat.min y = .ok s ∧ (eq r s = .ok true ∨ r.isNan = true ∧ s.isNan = true)) ∧
    (∃ r s, xs.foldlM maximum x = .ok r ∧ ys.foldlM maximum y = .ok s ∧ r.datum = s.datum) ∧
    (∃ r s, xs.foldlM minimum x = .ok r ∧ ys.foldlM minimum y = .ok s ∧ r.datum = s.datum) := by
  have all : ∀ e ∈ x :: xs, e.Valid := fun e => valid_of_mem hx hv
  have hy : y.Valid := all y (hp.mem_iff.2 (by simp))
  have hw : ∀ e ∈ ys, e.Valid := fun e he => all e (hp.mem_iff.2 (by simp [he]))
  have mem : ∀ {e}, e ∈ y :: ys ↔ e ∈ x :: xs := fun {e} => hp.mem_iff.symm
  refine ⟨?_, ?_, ?_, ?_⟩
  · obtain ⟨r, r1, r2, r3, r4⟩ := C138_max h hx hv
    obtain ⟨s, s1, s2, s3, s4⟩ := C138_max h hy hw
    simp only [mem] at s2 s3 s4
    refine ⟨r, s, r1, s1, ?_⟩
    cases c : r.isNan
    · have d : s.isNan = false := by rw [← Bool.not_eq_true, s3, ← r3, c]; decide
      refine .inl ((eq_iff_le h (all r r2) (all s s2)).2 ⟨?_, ?_⟩)
      · exact (ge_iff h (all s s2) (all r r2)).1 (s4 r r2 c)
      · exact (ge_iff h (all r r2) (all s s2)).1 (r4 s s2 d)
    · exact .inr ⟨rfl, s3.2 (r3.1 c)⟩
  · obtain ⟨r, r1, r2, r3, r4⟩ := C138_min h hx hv
    obtain ⟨s, s1, s2, s3, s4⟩ := C138_min h hy hw
    simp only [mem] at s2 s3 s4
    refine ⟨r, s, r1, s1, ?_⟩
    cases c : r.isNan
    · have d : s.isNan = false := by rw [← Bool.not_eq_true, s3, ← r3, c]; decide
      refine .inl ((eq_iff_le h (all r r2) (all s s2)).2 ⟨?_, ?_⟩)
      · exact (ge_iff h (all s s2) (all r r2)).1 (r4 s s2 d)
      · exact (ge_iff h (all r r2) (all s s2)).1 (s4 r r2 c)
    · exact .inr ⟨rfl, s3.2 (r3.1 c)⟩
  · obtain ⟨r, r1, r2, r3, r4⟩ := C138_maximum h hx hv
    obtain ⟨s, s1, s2, s3, s4⟩ := C138_maximum h hy hw
    simp only [mem] at s2 s3 s4
    refine ⟨r, s, r1, s1, ?_⟩
    cases c : r.isNan
    · have d : s.isNan = false := by rw [← Bool.not_eq_true, s3, ← r3, c]; decide
      exact leZ_antisymm (all r r2) (all s s2) (s4 d r r2) (r4 c s s2)
    · rw [(nan_iff r).1 c, (nan_iff s).1 (s3.2 (r3.1 c))]
  · obtain ⟨r, r1, r2, r3, r4⟩ := C138_minimum h hx hv
    obtain ⟨s, s1, s2, s3, s4⟩ := C138_minimum h hy hw
    simp only [mem] at s2 s3 s4
    refine ⟨r, s, r1, s1, ?_⟩
    cases c : r.isNan
    · have d : s.isNan = false := by rw [← Bool.not_eq_true, s3, ← r3, c]; decide
      exact leZ_antisymm (all r r2) (all s s2) (r4 c s s2) (s4 d r r2)
    · rw [(nan_iff r).1 c, (nan_iff s).1 (s3.2 (r3.1 c))]

/-- **C138.** `x.max(lo).min(hi)` with `lo <= hi`: never a NaN, always within the bounds; `x` if it is within them, the nearer bound if not, the lower
bound for a NaN. -/
theorem C138_clamp (h : S.OK) {x lo hi : IeeeFloat S} (hx : x.Valid) (hl : lo.Valid) (hh : hi.Valid) (hb : ge hi lo = .ok true) :
    ∃ a r, IeeeFloat.max x lo = .ok a ∧ IeeeFloat.min a hi = .ok r ∧ ge r lo = .ok true ∧ ge hi r = .ok true ∧
      (ge x lo = .ok true → ge hi x = .ok true → eq r x = .ok true) ∧
      (ge lo x = .ok true ∨ x.isNan = true → eq r lo = .ok true) ∧
      (ge x hi = .ok true → eq r hi = .ok true) := by
  obtain ⟨a, a1, a2, a3, -, a5⟩ := C16_max h hx hl
  have va : a.Valid := by rcases a2 with rfl | rfl; exacts [hx, hl]
  obtain ⟨r, r1, r2, -, -, r5⟩ := C16_min h va hh
  have vr : r.Valid := by rcases r2 with rfl | rfl; exacts [va, hh]
  have b := (ge_iff h hh hl).1 hb
  obtain ⟨nl, nh⟩ := Datum.le_nan b
  have la : lo.datum.le a.datum := by
    by_cases c : x.datum = .nan
    · rw [a3 c]; exact Datum.le_refl nl
    · exact (a5 c nl).2
  obtain ⟨ra, rh⟩ := r5 (Datum.le_nan la).2 nh
  have lr : lo.datum.le r.datum := by rcases r2 with rfl | rfl; exacts [la, b]
  refine ⟨a, r, a1, r1, ?_⟩
  simp only [ge_iff h vr hl, ge_iff h hh vr, ge_iff h hx hl, ge_iff h hh hx, ge_iff h hl hx, ge_iff h hx hh, eq_iff_le h vr hx,
    eq_iff_le h vr hl, eq_iff_le h vr hh]
  refine ⟨lr, rh, fun p q => ?_, fun p => ⟨?_, lr⟩, fun p => ⟨rh, ?_⟩⟩
  · have xa := (a5 (Datum.le_nan q).1 nl).1
    refine ⟨?_, ?_⟩
    · rcases a2 with rfl | rfl
      exacts [ra, Datum.le_trans ra p]
    · rcases r2 with rfl | rfl
      exacts [xa, q]
  · rcases p with p | p
    · rcases a2 with rfl | rfl
      exacts [Datum.le_trans ra p, ra]
    · rwa [a3 ((nan_iff x).1 p)] at ra
  · have xa := (a5 (Datum.le_nan p).2 nl).1
    rcases r2 with rfl | rfl
    exacts [Datum.le_trans p xa, Datum.le_refl nh]

/-! ### Concrete cases: `1.5`, a NaN, `+0`, `-0`. -/

example := C138_max singleS_ok (x := ⟨5, 128, .nan, false⟩) (xs := [⟨3 * 2 ^ 22, 0, .normal, false⟩, (ZERO singleS).neg, ZERO singleS]) (by decide)
  (by decide)
example := C138_min singleS_ok (x := ⟨5, 128, .nan, false⟩) (xs := [⟨3 * 2 ^ 22, 0, .normal, false⟩, (ZERO singleS).neg, ZERO singleS]) (by decide)
  (by decide)
example := C138_maximum singleS_ok (x := ⟨3 * 2 ^ 22, 0, .normal, false⟩) (xs := [(ZERO singleS).neg, ZERO singleS]) (by decide) (by decide)
example := C138_minimum singleS_ok (x := ⟨3 * 2 ^ 22, 0, .normal, false⟩) (xs := [(ZERO singleS).neg, ZERO singleS]) (by decide) (by decide)
example := C138_order singleS_ok (x := ⟨3 * 2 ^ 22, 0, .normal, false⟩) (y := ZERO singleS) (xs := [ZERO singleS, (ZERO singleS).neg])
  (ys := [⟨3 * 2 ^ 22, 0, .normal, false⟩, (ZERO singleS).neg]) (by decide) (by decide) (List.Perm.swap _ _ _)
example := C138_clamp singleS_ok (x := ⟨3 * 2 ^ 22, 5, .normal, false⟩) (lo := ZERO singleS) (hi := ⟨3 * 2 ^ 22, 0, .normal, false⟩) (by decide)
  (by decide) (by decide) (by decide +kernel)
/-- The smallest of the list above is a negative zero whatever the order; `min` would keep the first zero it meets. -/
example : ([⟨3 * 2 ^ 22, 0, .normal, false⟩, ZERO singleS, (ZERO singleS).neg] : List (IeeeFloat singleS)).foldlM minimum (ZERO singleS) =
    .ok (ZERO singleS).neg := by decide +kernel

end Apf
