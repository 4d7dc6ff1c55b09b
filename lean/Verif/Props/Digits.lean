import Verif.Spec.Digits
import Verif.Props.IntDiv
import Mathlib.Data.Nat.Digits.Lemmas
/-!
# C142: the digits of an integer held in a float
-/

namespace Apf
open Spec IeeeFloat
variable {S : Sem}

theorem isZero_iff_nat {x : IeeeFloat S} (hx : x.Valid) (fx : x.isFinite = true) : x.isZero = true ↔ x.toRat = 0 := by
  rcases isFinite_iff.1 fx with c | c
  · have := (toRat_ne_zero hx c)
    simp [isZero, c, this]
  · simp [isZero, c, toRat_zero c]

/-- **C142.** The remainder by the base and the exact quotient, again and again, give the digits of an integer of at most `p` bits, in any rounding modes. -/
theorem C142_digits (h : S.OK) {base : IeeeFloat S} (vb : base.Valid) (fb : base.isFinite = true) {b : ℕ} (eb : base.toRat = b) (b2 : 2 ≤ b)
    (m1 m2 : Round) : ∀ (n N : ℕ) (x : IeeeFloat S), x.Valid → x.isFinite = true → x.toRat = N → N ≤ 2 ^ S.precision → N ≤ n →
      ∃ ds, peelDigits base m1 m2 n x = .ok ds ∧ ds.map toRat = (Nat.digits b N).map (fun d : ℕ => (d : ℚ)) ∧
        ∀ d ∈ ds, d.Valid ∧ d.isFinite = true
  | 0, N, x, _, _, _, _, hn => by
    obtain rfl : N = 0 := by omega
    exact ⟨[], rfl, by simp, by simp⟩
  | n + 1, N, x, vx, fx, ex, hp, hn => by
    rw [peelDigits]
    by_cases z : x.isZero = true
    · have := (isZero_iff_nat vx fx).1 z
      rw [ex] at this
      obtain rfl : N = 0 := by exact_mod_cast this
      exact ⟨[], by rw [if_pos z], by simp, by simp⟩
    · have N0 : N ≠ 0 := fun c => z ((isZero_iff_nat vx fx).2 (by rw [ex, c]; simp))
      obtain ⟨⟨d, d1, d2, d3, d4⟩, -⟩ := C95_remainder h vx vb fx fb (a := N) (b := b) (by rw [ex]; simp) (by rw [eb]; simp) (by omega)
      have d5 : d.toRat = ((N % b : ℕ) : ℚ) := by rw [d4]; norm_cast
      have dm := Nat.div_add_mod N b
      have e1 : x.toRat - d.toRat = ((b * (N / b) : ℕ) : ℚ) := by
        rw [ex, d5, sub_eq_iff_eq_add]
        exact_mod_cast dm.symm
      have le1 : b * (N / b) ≤ 2 ^ S.precision := (Nat.mul_div_le N b).trans hp
      have le2 : N / b ≤ 2 ^ S.precision := (Nat.div_le_self N b).trans hp
      have big : ∀ k : ℕ, k ≤ 2 ^ S.precision → |((k : ℤ) : ℚ)| ≤ 2 ^ S.precision := fun k hk => by
        rw [abs_of_nonneg (by positivity)]
        exact_mod_cast hk
      have B1 := big _ le1
      have B2 := big _ le2
      have L1 := B1.trans (pow_le_largest h)
      have L2 := B2.trans (pow_le_largest h)
      rw [Int.cast_natCast] at L1 L2
      have G1 := grid_intq h B1
      have G2 := grid_intq h B2
      rw [Int.cast_natCast] at G1 G2
      obtain ⟨t, t1, t2, t3⟩ := subR_finite h vx d2 fx d3 m1 (directedOK_of_ge h _ (by rw [e1]; exact (_root_.abs_le.1 L1).1))
      rw [e1] at t3
      obtain ⟨t4, t5, -⟩ := exact_step h t3 G1 L1
      have bq : (b : ℚ) ≠ 0 := by exact_mod_cast (by omega : b ≠ 0)
      have e2 : t.value.toRat / base.toRat = ((N / b : ℕ) : ℚ) := by
        rw [t5, eb, Nat.cast_mul, mul_div_cancel_left₀ _ bq]
      obtain ⟨q, q1, q2, q3⟩ := divR_finite h t2 vb t4 fb (by rw [eb]; exact bq) m2 (directedOK_of_ge h _ (by rw [e2]; exact (_root_.abs_le.1 L2).1))
      rw [e2] at q3
      obtain ⟨q4, q5, -⟩ := exact_step h q3 G2 L2
      have lt := Nat.div_lt_self (Nat.pos_of_ne_zero N0) b2
      obtain ⟨ds, s1, s2, s3⟩ := C142_digits h vb fb eb b2 m1 m2 n (N / b) q.value q2 q4 q5 le2 (by omega)
      refine ⟨d :: ds, ?_, ?_, ?_⟩
      · rw [if_neg z, d1, M.ok_bind, t1, M.ok_bind, q1, M.ok_bind, s1, M.ok_bind]
        rfl
      · rw [Nat.digits_def' (by omega) (Nat.pos_of_ne_zero N0), List.map_cons, List.map_cons, s2, d5]
      · intro e he
        rcases List.mem_cons.1 he with rfl | c
        exacts [⟨d2, d3⟩, s3 e c]

/-- **C142.** Horner's rule is exact on the digits of an integer of at most `p` bits, in any rounding modes. -/
theorem C142_horner (h : S.OK) {base : IeeeFloat S} (vb : base.Valid) (fb : base.isFinite = true) {b : ℕ} (eb : base.toRat = b) (b1 : 1 ≤ b) (m1 m2 : Round) :
    ∀ (l : List ℕ) (ds : List (IeeeFloat S)), (∀ d ∈ ds, d.Valid ∧ d.isFinite = true) → ds.map toRat = l.map (fun d : ℕ => (d : ℚ)) →
      Nat.ofDigits b l ≤ 2 ^ S.precision →
      ∃ r, fromDigits base m1 m2 ds = .ok r ∧ r.Valid ∧ r.isFinite = true ∧ r.toRat = ((Nat.ofDigits b l : ℕ) : ℚ)
  | [], ds, _, e, _ => by
    obtain rfl : ds = [] := by simpa using e
    exact ⟨ZERO S, rfl, zero_valid, rfl, by rw [toRat_zero rfl]; simp⟩
  | k :: l, ds, hv, e, hp => by
    cases ds with
    | nil => simp at e
    | cons d ds =>
      rw [List.map_cons, List.map_cons, List.cons.injEq] at e
      obtain ⟨vd, fd⟩ := hv d (by simp)
      have ed := e.1
      rw [Nat.ofDigits_cons] at hp ⊢
      have le0 : Nat.ofDigits b l ≤ b * Nat.ofDigits b l := Nat.le_mul_of_pos_left _ b1
      have hp' : k + b * Nat.ofDigits b l ≤ 2 ^ S.precision := by simpa using hp
      obtain ⟨r, r1, r2, r3, r4⟩ := C142_horner h vb fb eb b1 m1 m2 l ds (fun e he => hv e (by simp [he])) e.2 (by omega)
      have big : ∀ k : ℕ, k ≤ 2 ^ S.precision → S.fmt.Grid (k : ℚ) ∧ |(k : ℚ)| ≤ S.fmt.largest := fun k hk => by
        have B : |((k : ℤ) : ℚ)| ≤ 2 ^ S.precision := by
          rw [abs_of_nonneg (by positivity)]
          exact_mod_cast hk
        have G := grid_intq h B
        rw [Int.cast_natCast] at G B
        exact ⟨G, B.trans (pow_le_largest h)⟩
      obtain ⟨G1, L1⟩ := big (b * Nat.ofDigits b l) (by omega)
      obtain ⟨G2, L2⟩ := big (k + b * Nat.ofDigits b l) hp'
      have e1 : r.toRat * base.toRat = ((b * Nat.ofDigits b l : ℕ) : ℚ) := by rw [r4, eb, mul_comm, Nat.cast_mul]
      obtain ⟨t, t1, t2, t3⟩ := mulR_finite h r2 vb r3 fb m1 (directedOK_of_ge h _ (by rw [e1]; exact (_root_.abs_le.1 L1).1))
      rw [e1] at t3
      obtain ⟨t4, t5, -⟩ := exact_step h t3 G1 L1
      have e2 : t.value.toRat + d.toRat = ((k + b * Nat.ofDigits b l : ℕ) : ℚ) := by rw [t5, ed, add_comm, Nat.cast_add]
      obtain ⟨q, q1, q2, q3⟩ := addR_finite h t2 vd t4 fd m2 (directedOK_of_ge h _ (by rw [e2]; exact (_root_.abs_le.1 L2).1))
      rw [e2] at q3
      obtain ⟨q4, q5, -⟩ := exact_step h q3 G2 L2
      exact ⟨q.value, by rw [fromDigits, r1, M.ok_bind, t1, M.ok_bind, q1, M.ok_bind]; rfl, q2, q4, by rw [q5]⟩

/-- **C142.** Taking an integer of at most `p` bits apart and putting it together gives it back. -/
theorem C142_round_trip (h : S.OK) {base x : IeeeFloat S} (vb : base.Valid) (fb : base.isFinite = true) {b : ℕ} (eb : base.toRat = b) (b2 : 2 ≤ b)
    (m1 m2 m3 m4 : Round) {n N : ℕ} (vx : x.Valid) (fx : x.isFinite = true) (ex : x.toRat = N) (hp : N ≤ 2 ^ S.precision) (hn : N ≤ n) :
    ∃ ds r, peelDigits base m1 m2 n x = .ok ds ∧ fromDigits base m3 m4 ds = .ok r ∧ r.toRat = x.toRat ∧ r.isFinite = true := by
  obtain ⟨ds, d1, d2, d3⟩ := C142_digits h vb fb eb b2 m1 m2 n N x vx fx ex hp hn
  obtain ⟨r, r1, -, r3, r4⟩ := C142_horner h vb fb eb (by omega) m3 m4 (Nat.digits b N) ds d3 d2 (by rwa [Nat.ofDigits_digits])
  exact ⟨ds, r, d1, r1, by rw [r4, Nat.ofDigits_digits, ex], r3⟩

/-! ### Concrete cases: `1234` in `Half`. -/

example := C142_digits halfS_ok (base := ⟨1280, 3, .normal, false⟩) (by decide) rfl (b := 10) (by decide +kernel) (by norm_num) .towardPositive .towardNegative 1234 1234
  ⟨1234, 10, .normal, false⟩ (by decide) rfl (by decide +kernel) (by decide) le_rfl
example := C142_round_trip halfS_ok (base := ⟨1280, 3, .normal, false⟩) (x := ⟨1234, 10, .normal, false⟩) (by decide) rfl (b := 10) (by decide +kernel) (by norm_num)
  .towardPositive .towardNegative .towardZero .nearestTiesToEven (n := 1234) (N := 1234) (by decide) rfl (by decide +kernel) (by decide) le_rfl
example := C142_horner halfS_ok (base := ⟨1280, 3, .normal, false⟩) (by decide) rfl (b := 10) (by decide +kernel) (by norm_num) .towardPositive .towardZero [4, 3]
  [⟨1024, 2, .normal, false⟩, ⟨1536, 1, .normal, false⟩] (by decide) (by decide +kernel) (by decide)
example : peelDigits (⟨1280, 3, .normal, false⟩ : IeeeFloat halfS) .towardPositive .towardNegative 5 ⟨1234, 10, .normal, false⟩ =
    .ok [⟨1024, 2, .normal, false⟩, ⟨1536, 1, .normal, false⟩, ⟨1024, 1, .normal, false⟩, ⟨1024, 0, .normal, false⟩] := by decide +kernel

end Apf
