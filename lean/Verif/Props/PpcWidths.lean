import Verif.Props.PpcTotal
import Verif.Props.Widths
/-! # C83 for `DoubleDouble`: integer conversions with any width, and programs with any arguments -/

namespace Apf
open Spec IeeeFloat
variable {S : Sem}

/-- When `to_u128_r` of a float panics (`C83_to_u128_positive`, `C83_to_u128_negative`). -/
def U128Stops (u : IeeeFloat S) (w : ℕ) : Prop := if u.isNegative then NegativeTooWide u w else w = 0 ∨ 128 < w

theorem u128Stops_iff (h : S.OK) {u : IeeeFloat S} (hu : u.Valid) (w : ℕ) (mode : Round) :
    (U128Stops u w → toU128R u w mode = .error .arith) ∧ (¬ U128Stops u w → ∃ r, toU128R u w mode = .ok r) := by
  unfold U128Stops
  cases hs : u.isNegative
  · simpa using C83_to_u128_positive h hu hs w mode
  · simpa using C83_to_u128_negative h hu hs w mode

/-- When `to_u128_r` of a pair panics: the pair cannot be read, or its reading in the 106-bit format stops the conversion. -/
def PairU128Stops (x : DoubleFloat S) (w : ℕ) : Prop := x.Signals ∨ ∃ u, x.toFallback = .ok u ∧ U128Stops u w

/-- When `to_i128_r` of a pair panics.  Below zero it converts the negated pair with the same width, and then shifts by `width - 1`; otherwise
it converts the pair with `width - 1`. -/
def PairI128Stops (x : DoubleFloat S) (w : ℕ) : Prop :=
  if x.isNegative then PairU128Stops x.neg w ∨ w = 0 ∨ 128 < w else w = 0 ∨ PairU128Stops x (w - 1)

/-- **C83.** `to_u128_r` of a pair, with any width. -/
theorem C83_pair_to_u128 (h : S.Pair) (hx : S.explicitIntBit = false) {x : DoubleFloat S} (vx : x.Valid) (w : ℕ) (mode : Round) :
    (PairU128Stops x w → ∃ e, x.toU128R w mode = .error e) ∧ (¬ PairU128Stops x w → ∃ r, x.toU128R w mode = .ok r) := by
  obtain ⟨a1, a2⟩ := C75_read h hx vx
  unfold DoubleFloat.toU128R PairU128Stops
  by_cases s : x.Signals
  · exact ⟨fun _ => ⟨.assert, by rw [a1 s]; rfl⟩, fun n => absurd (Or.inl s) n⟩
  · obtain ⟨u, u1, u2, -⟩ := a2 s
    obtain ⟨b1, b2⟩ := u128Stops_iff h.fb u2 w mode
    rw [u1]
    by_cases e : U128Stops u w
    · exact ⟨fun _ => ⟨_, b1 e⟩, fun n => absurd (Or.inr ⟨u, rfl, e⟩) n⟩
    · refine ⟨?_, fun _ => b2 e⟩
      rintro (q | ⟨v, v1, v2⟩)
      · exact absurd q s
      · injection v1 with v1
        exact absurd (v1 ▸ v2) e

example := C83_pair_to_u128 doubleS_pair rfl (x := ⟨⟨2 ^ 52, 0, .normal, false⟩, ⟨2 ^ 52, -60, .normal, true⟩⟩) (by decide +kernel) 0 .towardZero

/-- **C83.** `to_i128_r` of a pair, with any width. -/
theorem C83_pair_to_i128 (h : S.Pair) (hx : S.explicitIntBit = false) {x : DoubleFloat S} (vx : x.Valid) (w : ℕ) (mode : Round) :
    (PairI128Stops x w → ∃ e, x.toI128R w mode = .error e) ∧ (¬ PairI128Stops x w → ∃ r, x.toI128R w mode = .ok r) := by
  unfold DoubleFloat.toI128R PairI128Stops
  cases hs : x.isNegative
  · simp only [Bool.false_eq_true, if_false]
    by_cases w0 : w = 0
    · subst w0
      refine ⟨fun _ => ⟨.arith, rfl⟩, fun n => absurd (Or.inl rfl) n⟩
    · obtain ⟨b1, b2⟩ := C83_pair_to_u128 h hx vx (w - 1) mode
      rw [usub_ok (by omega), M.ok_bind]
      by_cases e : PairU128Stops x (w - 1)
      · obtain ⟨er, e1⟩ := b1 e
        exact ⟨fun _ => ⟨er, by rw [e1]; rfl⟩, fun n => absurd (Or.inr e) n⟩
      · obtain ⟨r, r1⟩ := b2 e
        refine ⟨fun n => ?_, fun _ => ⟨_, by rw [r1]; rfl⟩⟩
        exact absurd n (not_or.2 ⟨w0, e⟩)
  · simp only [if_true]
    obtain ⟨b1, b2⟩ := C83_pair_to_u128 h hx (pair_neg_valid vx) w mode.neg
    by_cases e : PairU128Stops x.neg w
    · obtain ⟨er, e1⟩ := b1 e
      exact ⟨fun _ => ⟨er, by rw [e1]; rfl⟩, fun n => absurd (Or.inl e) n⟩
    · obtain ⟨r, r1⟩ := b2 e
      rw [r1, M.ok_bind]
      by_cases w0 : w = 0
      · subst w0
        exact ⟨fun _ => ⟨.arith, rfl⟩, fun n => absurd (Or.inr (Or.inl rfl)) n⟩
      · rw [usub_ok (by omega), M.ok_bind]
        by_cases w1 : 128 < w
        · refine ⟨fun _ => ⟨.arith, by rw [(shift_bad (a := 1) (by omega)).1]; rfl⟩, fun n => absurd (Or.inr (Or.inr w1)) n⟩
        · rw [shl_ok (by omega), M.ok_bind]
          refine ⟨fun n => ?_, fun _ => ?_⟩
          · rcases n with n | n | n
            · exact absurd n e
            · exact absurd n w0
            · exact absurd n w1
          · split_ifs <;> exact ⟨_, rfl⟩

example := C83_pair_to_i128 doubleS_pair rfl (x := ⟨⟨2 ^ 52, 0, .normal, false⟩, ⟨2 ^ 52, -60, .normal, true⟩⟩) (by decide +kernel) 1 .towardZero

/-- The arguments are values of their types; the string is shorter than `2^27` characters. -/
def PCall.Typed : PCall → Prop
  | .fromBits _ b => b < 2 ^ 128
  | .fromU128 _ n _ => n < 2 ^ 128
  | .fromI128 _ n _ => -2 ^ 127 ≤ n ∧ n < 2 ^ 127
  | .fromStr _ fuel s _ => 23 ≤ fuel ∧ s.length < 2 ^ 27
  | _ => True

/-- What makes formatting a pair panic: it cannot be read, or formatting what it reads as panics (C83). -/
def PairDisplayStops (x : DoubleFloat doubleS) (prec : Option ℕ) : Prop :=
  x.Signals ∨ ∃ u, x.toFallback = .ok u ∧ (DisplayPanics u prec ∨ (u.isFinite = true ∧ u.isZero = false ∧ HugePrecision prec))

/-- **C83** (formatting).  With any precision whatsoever, formatting a pair panics exactly if `PairDisplayStops` holds. -/
theorem C83_pair_display {x : DoubleFloat doubleS} (vx : x.Valid) (width prec : Option ℕ) (alt : Bool) :
    (PairDisplayStops x prec → ∃ e, x.display width prec alt = .error e) ∧
    (¬ PairDisplayStops x prec → ∃ s, x.display width prec alt = .ok s) := by
  obtain ⟨a1, a2⟩ := C75_read doubleS_pair rfl vx
  unfold DoubleFloat.display PairDisplayStops
  by_cases hs : x.Signals
  · exact ⟨fun _ => ⟨_, by rw [a1 hs]; rfl⟩, fun n => absurd (Or.inl hs) n⟩
  · obtain ⟨u, u1, u2, -⟩ := a2 hs
    obtain ⟨p1, p2⟩ := C83_display doubleS_pair.fb u2 width prec alt
    rw [u1]
    refine ⟨fun n => ?_, fun n => p2 fun q => n (Or.inr ⟨u, rfl, q⟩)⟩
    rcases n with n | ⟨u', e, n⟩
    · exact absurd n hs
    · cases e
      exact p1 n

example := C83_pair_display (x := ⟨⟨2 ^ 52, 0, .normal, false⟩, ⟨2 ^ 52, -60, .normal, true⟩⟩) (by decide +kernel) none (some (2 ^ 60)) false

/-- What stops a call: the causes of `PCall.Cause`, a width outside the documented range, or a huge formatting precision. -/
def PCall.StopsTyped (st : PStore) : PCall → Prop
  | .toU128 a w _ => PairU128Stops (st a) w
  | .toI128 a w _ => PairI128Stops (st a) w
  | .display a _ p _ => PairDisplayStops (st a) p
  | c => c.Cause st

/-- One call with any arguments. -/
theorem PCall.run_typed {st : PStore} (hst : st.WellFormed) (c : PCall) (hc : c.Typed) :
    (¬ c.StopsTyped st ∧ ∃ st', c.run st = .ok st' ∧ st'.WellFormed) ∨ (c.StopsTyped st ∧ ∃ e, c.run st = .error e) := by
  have inr : ∀ c : PCall, c.InRange → (c.StopsTyped st ↔ c.Cause st) →
      (¬ c.StopsTyped st ∧ ∃ st', c.run st = .ok st' ∧ st'.WellFormed) ∨ (c.StopsTyped st ∧ ∃ e, c.run st = .error e) := by
    intro c hc e
    rw [e]
    rcases PCall.run_total hst c hc with ⟨st', e, h⟩ | ⟨h, e⟩
    · refine Or.inl ⟨fun hh => ?_, st', e, h⟩
      rw [PCall.run_stops hst hc hh] at e
      cases e
    · exact Or.inr ⟨h, _, e⟩
  cases c
  case toU128 a w mode =>
    obtain ⟨p1, p2⟩ := C83_pair_to_u128 doubleS_pair rfl (hst a) w mode
    by_cases hw : PairU128Stops (st a) w
    · obtain ⟨e, e1⟩ := p1 hw
      exact Or.inr ⟨hw, e, by simp only [PCall.run, e1]; rfl⟩
    · obtain ⟨r, hr⟩ := p2 hw
      exact Or.inl ⟨hw, st, by simp only [PCall.run, hr]; rfl, hst⟩
  case toI128 a w mode =>
    obtain ⟨p1, p2⟩ := C83_pair_to_i128 doubleS_pair rfl (hst a) w mode
    by_cases hw : PairI128Stops (st a) w
    · obtain ⟨e, e1⟩ := p1 hw
      exact Or.inr ⟨hw, e, by simp only [PCall.run, e1]; rfl⟩
    · obtain ⟨r, hr⟩ := p2 hw
      exact Or.inl ⟨hw, st, by simp only [PCall.run, hr]; rfl, hst⟩
  case display a w p alt =>
    obtain ⟨p1, p2⟩ := C83_pair_display (hst a) w p alt
    by_cases hw : PairDisplayStops (st a) p
    · obtain ⟨e, e1⟩ := p1 hw
      exact Or.inr ⟨hw, e, by simp only [PCall.run, e1]; rfl⟩
    · obtain ⟨r, hr⟩ := p2 hw
      exact Or.inl ⟨hw, st, by simp only [PCall.run, hr]; rfl, hst⟩
  all_goals exact inr _ hc Iff.rfl

/-- **C83.** Every program of `DoubleDouble` calls, with any arguments of the right types, keeps every value well formed until a call stops it. -/
theorem C83_pair_histories (calls : List PCall) (hr : ∀ c ∈ calls, c.Typed) :
    (∃ st, runPairs calls .start = .ok st ∧ st.WellFormed) ∨
    (∃ (pre : List PCall) (c : PCall) (post : List PCall) (st : PStore), calls = pre ++ c :: post ∧
      runPairs pre .start = .ok st ∧ st.WellFormed ∧ c.StopsTyped st ∧ ∃ e, runPairs calls .start = .error e) := by
  have key : ∀ (calls : List PCall) (st : PStore), st.WellFormed → (∀ c ∈ calls, c.Typed) →
      (∃ st', runPairs calls st = .ok st' ∧ st'.WellFormed) ∨
      (∃ (pre : List PCall) (c : PCall) (post : List PCall) (st' : PStore), calls = pre ++ c :: post ∧
        runPairs pre st = .ok st' ∧ st'.WellFormed ∧ c.StopsTyped st' ∧ ∃ e, runPairs calls st = .error e) := by
    intro calls
    induction calls with
    | nil => exact fun st hst _ => Or.inl ⟨st, rfl, hst⟩
    | cons c cs ih =>
      intro st hst hr
      rcases PCall.run_typed hst c (hr c List.mem_cons_self) with ⟨-, st1, e1, h1⟩ | ⟨h1, e, e1⟩
      · rcases ih st1 h1 (fun c' hc' => hr c' (List.mem_cons_of_mem _ hc')) with ⟨st2, e2, h2⟩ | ⟨pre, c', post, st2, e2, e3, h2, h3, e, h4⟩
        · exact Or.inl ⟨st2, by rw [runPairs, e1]; exact e2, h2⟩
        · exact Or.inr ⟨c :: pre, c', post, st2, by rw [e2]; rfl, by rw [runPairs, e1]; exact e3, h2, h3, e, by rw [runPairs, e1]; exact h4⟩
      · exact Or.inr ⟨[], c, cs, st, rfl, rfl, hst, h1, e, by rw [runPairs, e1]; rfl⟩
  exact key calls .start (fun _ => ⟨zero_valid, zero_valid⟩) hr

/-- **C83.** In any reachable memory, a call on pairs with arguments of the right types panics if and only if `PCall.StopsTyped` describes it. -/
theorem C83_pair_panics_iff (pre : List PCall) (hr : ∀ c ∈ pre, c.Typed) {st : PStore} (hp : runPairs pre .start = .ok st)
    (c : PCall) (hc : c.Typed) : (∃ e, c.run st = .error e) ↔ c.StopsTyped st := by
  have hst : st.WellFormed := by
    rcases C83_pair_histories pre hr with ⟨st', e, h⟩ | ⟨p, c', q, st', -, -, -, -, er, e⟩
    · rw [hp] at e; injection e with e; exact e ▸ h
    · rw [hp] at e; cases e
  rcases PCall.run_typed hst c hc with ⟨h, st', e, -⟩ | ⟨h, e⟩
  · refine ⟨?_, fun hh => absurd hh h⟩
    rintro ⟨er, e'⟩
    rw [e] at e'; cases e'
  · exact ⟨fun _ => h, fun _ => e⟩

/-- A program that `C75_histories` does not cover: a negative pair, converted to width 1, and to unsigned width 0. -/
example : (∀ c ∈ ([.fromI128 0 (-5) .towardZero, .toI128 0 1 .towardZero, .toU128 0 0 .towardZero] : List PCall), c.Typed) ∧
    (∃ st, runPairs [.fromI128 0 (-5) .towardZero, .toI128 0 1 .towardZero, .toU128 0 0 .towardZero] .start = .ok st) ∧
    runPairs [.fromI128 0 (-5) .towardZero, .toI128 0 0 .towardZero] .start = .error .arith := by
  refine ⟨?_, ?_, ?_⟩
  · intro c hc
    simp only [List.mem_cons, List.not_mem_nil, or_false] at hc
    rcases hc with rfl | rfl | rfl <;> simp [PCall.Typed]
  · have e : ∀ m : M PStore, (match m with | .ok _ => true | _ => false) = true → ∃ st, m = .ok st := by
      intro m hm
      split at hm
      · exact ⟨_, rfl⟩
      · cases hm
    exact e _ (by decide +kernel)
  · have e : ∀ m : M PStore, (match m with | .error .arith => true | _ => false) = true → m = .error .arith := by
      intro m hm
      split at hm
      · rfl
      · cases hm
    exact e _ (by decide +kernel)

end Apf
