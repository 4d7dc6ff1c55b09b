import Verif.Props.Accumulate
/-! # C86: long DoubleDouble computations -/

namespace Apf
open Spec DoubleFloat IeeeFloat
variable {S : Sem}

/-- What a computation in range delivers: a finite pair within the excess of the inflated over the plain computation, no `OVERFLOW`, no `INVALID_OP`. -/
def PairAccurate (S : Sem) (e : Expr (DoubleFloat S)) (ε η : Round → ℚ) (r : StatusAnd (DoubleFloat S)) : Prop :=
  r.value.Valid ∧ r.value.Near ∧ |r.value.toRat - e.exact DoubleFloat.toRat| ≤ e.grown DoubleFloat.toRat ε η - e.size DoubleFloat.toRat ∧
    r.status.overflow = false ∧ r.status.invalidOp = false

/-- The relative error of a `DoubleDouble` operation, in units of `2^-2p`. -/
def pairError (S : Sem) (_ : Round) : ℚ := 272 * 2 ^ (-2 * (S.precision : ℤ))

/-- The absolute error of a `DoubleDouble` product near the bottom of the range. -/
def pairTiny (S : Sem) (_ : Round) : ℚ := 6 * 2 ^ (S.minExp - S.precision + 1)

theorem near_le {v a s G : ℚ} (h1 : |a| ≤ s) (h2 : |v - a| ≤ G - s) : |v| ≤ G := by
  have := abs_add_le (v - a) a
  rw [sub_add_cancel] at this; linarith

theorem pair_aux (h : S.Pair) (hp : 10 ≤ S.precision) (e : Expr (DoubleFloat S)) (hd : e.NoDiv) (hl : e.All fun x => x.Valid ∧ x.Near)
    (hr : e.InRange DoubleFloat.toRat (pairError S) (pairTiny S) (2 ^ (S.maxExp - 4))) :
    |e.exact DoubleFloat.toRat| ≤ e.size DoubleFloat.toRat ∧
      ((¬ e.Linear ∧ e.eval = .error .assert) ∨ ∃ r, e.eval = .ok r ∧ PairAccurate S e (pairError S) (pairTiny S) r) := by
  have u2 : (0 : ℚ) < 2 ^ (-2 * (S.precision : ℤ)) := two_zpow_pos _
  have hε : ∀ m, 0 ≤ pairError S m := fun m => by unfold pairError; positivity
  have h128 : ∀ m, 128 * (2 : ℚ) ^ (-2 * (S.precision : ℤ)) ≤ pairError S m := fun m => by unfold pairError; linarith
  induction e with
  | lit x =>
    refine ⟨le_refl _, .inr ⟨⟨Status.OK, x⟩, rfl, hl.1, hl.2, ?_, rfl, rfl⟩⟩
    simp [Expr.exact, Expr.grown, Expr.size]
  | neg a ih =>
    obtain ⟨i1, i⟩ := ih hd hl hr
    refine ⟨by simpa [Expr.exact, Expr.size] using i1, ?_⟩
    rcases i with ⟨i2, i3⟩ | ⟨r, i2, i3, i4, i5, i6, i7⟩
    · refine .inl ⟨i2, ?_⟩
      show (a.eval >>= fun x => _) = _
      rw [i3]; rfl
    · obtain ⟨n1, n2⟩ := neg_near i3 i4
      obtain ⟨m1, -⟩ := C43_neg i4.1
      refine .inr ⟨⟨r.status, r.value.neg⟩, ?_, n1, n2, ?_, i6, i7⟩
      · show (a.eval >>= fun x => _) = _
        rw [i2]; rfl
      · show |r.value.neg.toRat - -(a.exact DoubleFloat.toRat)| ≤ _
        rw [m1, show -r.value.toRat - -(a.exact DoubleFloat.toRat) = -(r.value.toRat - a.exact DoubleFloat.toRat) by ring, abs_neg]
        exact i5
  | add m a b iha ihb =>
    obtain ⟨a1, ia⟩ := iha hd.1 hl.1 hr.1
    obtain ⟨b1, ib⟩ := ihb hd.2 hl.2 hr.2.1
    refine ⟨(abs_add_le _ _).trans (add_le_add a1 b1), ?_⟩
    rcases ia with ⟨i2, i3⟩ | ⟨r, a2, a3, a4, a5, a6, a7⟩
    · refine .inl ⟨fun hh => i2 hh.1, ?_⟩
      show (a.eval >>= fun x => _) = _
      rw [i3]; rfl
    rcases ib with ⟨i2, i3⟩ | ⟨s, b2, b3, b4, b5, b6, b7⟩
    · refine .inl ⟨fun hh => i2 hh.2, ?_⟩
      show (a.eval >>= fun x => _) = _
      rw [a2, M.ok_bind, i3]; rfl
    right
    have ga := near_le a1 a5
    have gb := near_le b1 b5
    obtain ⟨t, t1, t2, t3, t4, t5, t6⟩ := C81_add h hp m a3 a4 b3 b4
      (by have := (abs_nonneg _).trans gb; have := hr.2.2; linarith) (by have := (abs_nonneg _).trans ga; have := hr.2.2; linarith)
    obtain ⟨k1, -⟩ := grow_add (hε m) a1 b1 a5 b5 (t6.trans (mul_le_mul_of_nonneg_right (h128 m) (by positivity)))
    refine ⟨⟨r.status ||| s.status ||| t.status, t.value⟩, ?_, t2, t3, k1, ?_, ?_⟩
    · show (a.eval >>= fun x => _) = _
      rw [a2, M.ok_bind, b2, M.ok_bind]
      show (DoubleFloat.addR r.value s.value m >>= fun x => _) = _
      rw [t1]; rfl
    · simp only [Status.or_overflow, a6, b6, t4, Bool.or_false]
    · simp only [Status.or_invalidOp, a7, b7, t5, Bool.or_false]
  | sub m a b iha ihb =>
    obtain ⟨a1, ia⟩ := iha hd.1 hl.1 hr.1
    obtain ⟨b1, ib⟩ := ihb hd.2 hl.2 hr.2.1
    refine ⟨(abs_sub _ _).trans (add_le_add a1 b1), ?_⟩
    rcases ia with ⟨i2, i3⟩ | ⟨r, a2, a3, a4, a5, a6, a7⟩
    · refine .inl ⟨fun hh => i2 hh.1, ?_⟩
      show (a.eval >>= fun x => _) = _
      rw [i3]; rfl
    rcases ib with ⟨i2, i3⟩ | ⟨s, b2, b3, b4, b5, b6, b7⟩
    · refine .inl ⟨fun hh => i2 hh.2, ?_⟩
      show (a.eval >>= fun x => _) = _
      rw [a2, M.ok_bind, i3]; rfl
    right
    have ga := near_le a1 a5
    have gb := near_le b1 b5
    obtain ⟨t, t1, t2, t3, t4, t5, t6⟩ := C81_sub h hp m a3 a4 b3 b4
      (by have := (abs_nonneg _).trans gb; have := hr.2.2; linarith) (by have := (abs_nonneg _).trans ga; have := hr.2.2; linarith)
    obtain ⟨k1, -⟩ := grow_sub (hε m) a1 b1 a5 b5 (t6.trans (mul_le_mul_of_nonneg_right (h128 m) (by positivity)))
    refine ⟨⟨r.status ||| s.status ||| t.status, t.value⟩, ?_, t2, t3, k1, ?_, ?_⟩
    · show (a.eval >>= fun x => _) = _
      rw [a2, M.ok_bind, b2, M.ok_bind]
      show (DoubleFloat.subR r.value s.value m >>= fun x => _) = _
      rw [t1]; rfl
    · simp only [Status.or_overflow, a6, b6, t4, Bool.or_false]
    · simp only [Status.or_invalidOp, a7, b7, t5, Bool.or_false]
  | mul m a b iha ihb =>
    obtain ⟨a1, ia⟩ := iha hd.1 hl.1 hr.1
    obtain ⟨b1, ib⟩ := ihb hd.2 hl.2 hr.2.1
    refine ⟨by show |_ * _| ≤ _; rw [abs_mul]; exact mul_le_mul a1 b1 (abs_nonneg _) (a.size_nonneg _), ?_⟩
    rcases ia with ⟨i2, i3⟩ | ⟨r, a2, a3, a4, a5, a6, a7⟩
    · refine .inl ⟨id, ?_⟩
      show (a.eval >>= fun x => _) = _
      rw [i3]; rfl
    rcases ib with ⟨i2, i3⟩ | ⟨s, b2, b3, b4, b5, b6, b7⟩
    · refine .inl ⟨id, ?_⟩
      show (a.eval >>= fun x => _) = _
      rw [a2, M.ok_bind, i3]; rfl
    have ga := near_le a1 a5
    have gb := near_le b1 b5
    have gab : |r.value.toRat * s.value.toRat| ≤ a.grown DoubleFloat.toRat (pairError S) (pairTiny S) * b.grown DoubleFloat.toRat (pairError S) (pairTiny S) := by
      rw [abs_mul]; exact mul_le_mul ga gb (abs_nonneg _) ((abs_nonneg _).trans ga)
    have l43 : (2 : ℚ) ^ (S.maxExp - 4) ≤ 2 ^ (S.maxExp - 3) := two_zpow_le (by omega)
    rcases C82_mul h hp m a3 a4 b3 b4 ((gab.trans hr.2.2).trans l43) with ⟨-, t1⟩ | ⟨-, t, t1, t2, t3, t4, t5, t6⟩
    · refine .inl ⟨id, ?_⟩
      show (a.eval >>= fun x => _) = _
      rw [a2, M.ok_bind, b2, M.ok_bind]
      show (DoubleFloat.mulR r.value s.value m >>= fun x => _) = _
      rw [t1]; rfl
    · obtain ⟨k1, -⟩ := grow_mul (hε m) a1 b1 a5 b5 (η := pairTiny S m) t6
      refine .inr ⟨⟨r.status ||| s.status ||| t.status, t.value⟩, ?_, t2, t3, k1, ?_, ?_⟩
      · show (a.eval >>= fun x => _) = _
        rw [a2, M.ok_bind, b2, M.ok_bind]
        show (DoubleFloat.mulR r.value s.value m >>= fun x => _) = _
        rw [t1]; rfl
      · simp only [Status.or_overflow, a6, b6, t4, Bool.or_false]
      · simp only [Status.or_invalidOp, a7, b7, t5, Bool.or_false]
  | div m a b iha ihb => exact hd.elim

/-- **C86.** A `DoubleDouble` computation with `+`, `-`, `*` and negation, of any length, in any rounding modes, that stays in range and returns: the result is
a finite pair, differs from the exact value by at most the excess of the inflated over the plain computation, and neither `OVERFLOW` nor `INVALID_OP` was
raised. If it does not return, a product panicked. -/
theorem C86_expression (h : S.Pair) (hp : 10 ≤ S.precision) (e : Expr (DoubleFloat S)) (hd : e.NoDiv) (hl : e.All fun x => x.Valid ∧ x.Near)
    (hr : e.InRange DoubleFloat.toRat (pairError S) (pairTiny S) (2 ^ (S.maxExp - 4))) :
    (¬ e.Linear ∧ e.eval = .error .assert) ∨ ∃ r, e.eval = .ok r ∧ PairAccurate S e (pairError S) (pairTiny S) r := (pair_aux h hp e hd hl hr).2

/-- A linear computation has no divisions. -/
theorem Expr.Linear.noDiv {F : Type} {e : Expr F} (hl : e.Linear) : e.NoDiv := by
  induction e with
  | lit x => trivial
  | neg a ih => exact ih hl
  | add m a b iha ihb => exact ⟨iha hl.1, ihb hl.2⟩
  | sub m a b iha ihb => exact ⟨iha hl.1, ihb hl.2⟩
  | mul m a b => exact hl.elim
  | div m a b => exact hl.elim

theorem Expr.modes_of {F : Type} {P : Round → Prop} (e : Expr F) (h : ∀ m, P m) : e.Modes P := by
  induction e with
  | lit x => trivial
  | neg a ih => exact ih
  | add m a b iha ihb => exact ⟨h m, iha, ihb⟩
  | sub m a b iha ihb => exact ⟨h m, iha, ihb⟩
  | mul m a b iha ihb => exact ⟨h m, iha, ihb⟩
  | div m a b iha ihb => exact ⟨h m, iha, ihb⟩

/-- **C86.** Sums and differences always return, and their relative error, measured against the sum of the absolute values, is at most
`(1 + 272 * 2^(-2p))^d - 1`, `d` the number of operations on the longest path. -/
theorem C86_sums (h : S.Pair) (hp : 10 ≤ S.precision) (e : Expr (DoubleFloat S)) (hlin : e.Linear) (hl : e.All fun x => x.Valid ∧ x.Near)
    (hL : (1 + 272 * 2 ^ (-2 * (S.precision : ℤ))) ^ e.depth * e.size DoubleFloat.toRat ≤ 2 ^ (S.maxExp - 4)) :
    ∃ r, e.eval = .ok r ∧ r.value.Valid ∧ r.value.Near ∧ r.status.overflow = false ∧ r.status.invalidOp = false ∧
      |r.value.toRat - e.exact DoubleFloat.toRat| ≤ ((1 + 272 * 2 ^ (-2 * (S.precision : ℤ))) ^ e.depth - 1) * e.size DoubleFloat.toRat := by
  have h0 : ∀ m, 0 ≤ pairError S m := fun m => by unfold pairError; positivity
  have hu : (0 : ℚ) ≤ 272 * 2 ^ (-2 * (S.precision : ℤ)) := h0 .towardZero
  have hm : e.Modes fun m => pairError S m ≤ 272 * 2 ^ (-2 * (S.precision : ℤ)) := e.modes_of fun _ => le_refl _
  rcases C86_expression h hp e hlin.noDiv hl (Expr.inRange_linear h0 hu e hlin hm hL) with ⟨n, -⟩ | ⟨r, r1, r2, r3, r4, r5, r6⟩
  · exact absurd hlin n
  · refine ⟨r, r1, r2, r3, r5, r6, r4.trans ?_⟩
    have := Expr.grown_linear (v := DoubleFloat.toRat) (η := pairTiny S) h0 hu e hlin hm
    linarith

/-! Non-vacuity: `(1 + 2^-60) * 3 - 3`, whose result a `Double` could not hold together with its intermediate values. -/
def exPairA : DoubleDouble := ⟨⟨2 ^ 52, 0, .normal, false⟩, ⟨2 ^ 52, -60, .normal, false⟩⟩
def exPairB : DoubleDouble := ⟨⟨3 * 2 ^ 51, 1, .normal, false⟩, IeeeFloat.ZERO doubleS⟩
def exPairE : Expr DoubleDouble := .sub .towardPositive (.mul .nearestTiesToEven (.lit exPairA) (.lit exPairB)) (.lit exPairB)

example : doubleS.Pair ∧ 10 ≤ doubleS.precision ∧ exPairE.NoDiv ∧ exPairE.All (fun x => x.Valid ∧ x.Near) ∧
    exPairE.InRange DoubleFloat.toRat (pairError doubleS) (pairTiny doubleS) (2 ^ (doubleS.maxExp - 4)) ∧ exPairE.exact DoubleFloat.toRat = 3 / 2 ^ 60 := by
  have z1 : exPairA.Valid ∧ exPairA.Near := ⟨by decide +kernel, by decide, by decide +kernel⟩
  have z2 : exPairB.Valid ∧ exPairB.Near := ⟨by decide +kernel, by decide, by decide +kernel⟩
  refine ⟨doubleS_pair, by decide, ⟨⟨trivial, trivial⟩, trivial⟩, ⟨⟨z1, z2⟩, z2⟩, ⟨⟨trivial, trivial, ?_⟩, trivial, ?_⟩, ?_⟩ <;> decide +kernel

end Apf
