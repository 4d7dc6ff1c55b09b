import Verif.Spec.Doubling
import Verif.Props.Accumulate
import Verif.Props.Total
/-!
# C136: repeated doubling
-/

namespace Apf
open Spec IeeeFloat
variable {F : Fmt} {S : Sem}

theorem grid_twice {v : ℚ} (h : F.Grid v) : F.Grid (v * 2) := by
  obtain ⟨m, k, h1, h2, h3⟩ := h
  exact ⟨m, k + 1, h1, by omega, by rw [h3, zpow_add_one₀ (by norm_num)]; ring⟩

/-- Doubling a number of more than half the largest one. -/
theorem double_over (h : S.OK) (hS : S.nonfinite = .ieee754) {c two : IeeeFloat S} (h2 : two.Valid) (f2 : two.isFinite = true) (e2 : two.toRat = 2) (mode : Round)
    (hv : c.Valid) (hf : c.isFinite = true) (hc : S.fmt.largest < c.toRat * 2) :
    ∃ r, mulR c two mode = .ok r ∧ r.value.Valid ∧
      (mode ≠ .towardZero ∧ mode ≠ .towardNegative → r.value.datum = .inf false ∧ r.status = Status.OVERFLOW ||| Status.INEXACT) ∧
      (mode = .towardZero ∨ mode = .towardNegative → r.value.isFinite = true ∧ r.value.toRat = S.fmt.largest ∧ r.status = Status.INEXACT) := by
  have hI : S.fmt.hasInf = true := fmt_hasInf_iff.2 hS
  have l0 : 0 < S.fmt.largest := lt_of_lt_of_le (by positivity) (pow_le_largest h)
  obtain ⟨r, r1, r2, ⟨g, g1, g2⟩, r3⟩ := mulR_finite h hv h2 hf f2 mode (directedOK_of_ieee hS _ _)
  rw [e2] at g1 r3
  have s : r.value.sign = false := r3.1 (by linarith)
  have eg : g = c.toRat * 2 := (Faith.of_rounded g1).exact (grid_twice (grid_toRat h hv hf))
  rcases g2 with ⟨g2, -⟩ | ⟨-, g2⟩
  · rw [eg] at g2
    exact absurd (lt_of_lt_of_le hc (le_abs_self _)) (not_lt.2 g2)
  rw [s] at g2
  refine ⟨r, r1, r2, fun hm => ?_, fun hm => ?_⟩
  · have : overflowed S.fmt mode false = (.inf false, { overflow := true, inexact := true }) := by
      cases mode <;> simp_all [overflowed]
    rw [this] at g2
    injection g2 with a b
    exact ⟨a, b⟩
  · have : overflowed S.fmt mode false = (.num false S.fmt.largest, { inexact := true }) := by
      rcases hm with rfl | rfl <;> simp [overflowed, signed]
    rw [this] at g2
    injection g2 with a b
    have hf' : r.value.isFinite = true := by
      rw [isFinite_iff]
      unfold datum at a
      cases c : r.value.category <;> rw [c] at a <;> simp_all
    rw [datum_finite hf'] at a
    injection a with _ a
    exact ⟨hf', a, b⟩

variable {one two : IeeeFloat S} {e : ℕ}

/-- **C136.** One doubled `n` times is `2^n` exactly, and no flag is raised, up to the largest exponent; in any rounding modes. -/
theorem C136_exact (h : S.OK) (h1 : one.Valid) (f1 : one.isFinite = true) (e1 : one.toRat = 1) (h2 : two.Valid) (f2 : two.isFinite = true) (e2 : two.toRat = 2)
    (he : (2 : ℚ) ^ e ≤ S.fmt.largest) (modes : ℕ → Round) : ∀ n : ℕ, n ≤ e →
    ∃ c, doubledBy one two modes n = .ok c ∧ c.Valid ∧ c.isFinite = true ∧ c.toRat = 2 ^ n ∧
      (n < e → ∃ r, mulR c two (modes n) = .ok r ∧ r.status = Status.OK) := by
  have step : ∀ (n : ℕ) (c : IeeeFloat S), n < e → c.Valid → c.isFinite = true → c.toRat = 2 ^ n →
      ∃ r, mulR c two (modes n) = .ok r ∧ r.value.Valid ∧ r.value.isFinite = true ∧ r.value.toRat = 2 ^ (n + 1) ∧ r.status = Status.OK := by
    intro n c hn hv hf hc
    have b : |c.toRat * 2| ≤ S.fmt.largest := by
      rw [hc, ← pow_succ, abs_of_pos (by positivity)]
      exact (pow_le_pow_right₀ (by norm_num) hn).trans he
    obtain ⟨r, r1, r2, r3⟩ := mulR_finite h hv h2 hf f2 (modes n) (directedOK_of_ge h _ (by rw [e2]; exact (_root_.abs_le.1 b).1))
    rw [e2] at r3
    obtain ⟨x1, x2, x3⟩ := exact_step h r3 (grid_twice (grid_toRat h hv hf)) b
    exact ⟨r, r1, r2, x1, by rw [x2, hc, pow_succ], x3⟩
  intro n
  induction n with
  | zero =>
    intro _
    refine ⟨one, rfl, h1, f1, by rw [e1]; simp, fun hn => ?_⟩
    obtain ⟨r, r1, -, -, -, r5⟩ := step 0 one hn h1 f1 (by rw [e1]; simp)
    exact ⟨r, r1, r5⟩
  | succ n ih =>
    intro hn
    obtain ⟨c, c1, c2, c3, c4, -⟩ := ih (by omega)
    obtain ⟨r, r1, r2, r3, r4, -⟩ := step n c (by omega) c2 c3 c4
    refine ⟨r.value, by rw [doubledBy, c1, M.ok_bind, r1, M.ok_bind]; rfl, r2, r3, r4, fun hn' => ?_⟩
    obtain ⟨t, t1, -, -, -, t5⟩ := step (n + 1) r.value hn' r2 r3 r4
    exact ⟨t, t1, t5⟩

/-- **C136.** The next doubling gives infinity, except rounding down or toward zero, and raises `OVERFLOW | INEXACT`; the value then stays infinite, with no flag. -/
theorem C136_infinite (h : S.OK) (hS : S.nonfinite = .ieee754) (h1 : one.Valid) (f1 : one.isFinite = true) (e1 : one.toRat = 1) (h2 : two.Valid) (f2 : two.isFinite = true)
    (e2 : two.toRat = 2) (he : (2 : ℚ) ^ e ≤ S.fmt.largest) (he' : S.fmt.largest < 2 ^ (e + 1)) {modes : ℕ → Round}
    (hm : modes e ≠ .towardZero ∧ modes e ≠ .towardNegative) :
    (∃ c r, doubledBy one two modes e = .ok c ∧ mulR c two (modes e) = .ok r ∧ r.status = Status.OVERFLOW ||| Status.INEXACT) ∧
    ∀ n, e < n → ∃ c r, doubledBy one two modes n = .ok c ∧ c.datum = .inf false ∧ mulR c two (modes n) = .ok r ∧ r.status = Status.OK := by
  obtain ⟨c, c1, c2, c3, c4, -⟩ := C136_exact h h1 f1 e1 h2 f2 e2 he modes e le_rfl
  obtain ⟨r, r1, r2, r3, -⟩ := double_over h hS h2 f2 e2 (modes e) c2 c3 (by rw [c4, ← pow_succ]; exact he')
  obtain ⟨r3, r4⟩ := r3 hm
  refine ⟨⟨c, r, c1, r1, r4⟩, ?_⟩
  have c2' : two.category = .normal := by
    rcases isFinite_iff.1 f2 with z | z
    · exact z
    · rw [toRat_zero z] at e2; norm_num at e2
  have s2 : two.sign = false := by
    cases s : two.sign
    · rfl
    · have := (sign_neg h2 c2' s).2
      exfalso
      have n := abs_nonneg two.toRat
      linarith
  have step : ∀ (i : ℕ) (d : IeeeFloat S), d.Valid → d.datum = .inf false →
      ∃ t, mulR d two (modes i) = .ok t ∧ t.value.Valid ∧ t.value.datum = .inf false ∧ t.status = Status.OK := by
    intro i d hv hd
    have cd : d.category = .infinity ∧ d.sign = false := by
      unfold datum at hd
      cases z : d.category <;> rw [z] at hd <;> simp_all
    obtain ⟨t, t1, -, t3⟩ := C10_mul_inf hv h2 (modes i) (by rw [cd.1]; decide) (by rw [c2']; decide) (Or.inl cd.1)
    obtain ⟨w, w1, w2⟩ := total_mul h hv h2 (modes i)
    rw [t1] at w1
    cases w1
    obtain ⟨u1, u2, u3⟩ := t3 (by rw [cd.1]; decide) (by rw [c2']; decide)
    rw [cd.2, s2] at u3
    exact ⟨t, t1, w2, by unfold datum; rw [u2, u3]; rfl, u1⟩
  have main : ∀ k : ℕ, ∃ d, doubledBy one two modes (e + 1 + k) = .ok d ∧ d.Valid ∧ d.datum = .inf false := by
    intro k
    induction k with
    | zero => exact ⟨r.value, by rw [Nat.add_zero, doubledBy, c1, M.ok_bind, r1, M.ok_bind]; rfl, r2, r3⟩
    | succ k ih =>
      obtain ⟨d, d1, d2, d3⟩ := ih
      obtain ⟨t, t1, t2, t3, -⟩ := step _ d d2 d3
      exact ⟨t.value, by rw [← Nat.add_assoc, doubledBy, d1, M.ok_bind, t1, M.ok_bind]; rfl, t2, t3⟩
  intro n hn
  obtain ⟨k, rfl⟩ := Nat.exists_eq_add_of_le (show e + 1 ≤ n from hn)
  obtain ⟨d, d1, d2, d3⟩ := main k
  obtain ⟨t, t1, -, -, t4⟩ := step _ d d2 d3
  exact ⟨d, t, d1, d3, t1, t4⟩

/-- **C136.** Rounding down or toward zero it never becomes infinite: it stays at the largest finite number for ever, with `INEXACT` alone. -/
theorem C136_never_infinite (h : S.OK) (hS : S.nonfinite = .ieee754) (h1 : one.Valid) (f1 : one.isFinite = true) (e1 : one.toRat = 1) (h2 : two.Valid)
    (f2 : two.isFinite = true) (e2 : two.toRat = 2) (he : (2 : ℚ) ^ e ≤ S.fmt.largest) (he' : S.fmt.largest < 2 ^ (e + 1)) {modes : ℕ → Round}
    (hm : ∀ i, e ≤ i → modes i = .towardZero ∨ modes i = .towardNegative) (n : ℕ) (hn : e < n) :
    ∃ c r, doubledBy one two modes n = .ok c ∧ c.isFinite = true ∧ c.toRat = (largest S).toRat ∧ mulR c two (modes n) = .ok r ∧ r.status = Status.INEXACT := by
  have l0 : 0 < S.fmt.largest := lt_of_lt_of_le (by positivity) (pow_le_largest h)
  have main : ∀ k : ℕ, ∃ d, doubledBy one two modes (e + 1 + k) = .ok d ∧ d.Valid ∧ d.isFinite = true ∧ d.toRat = S.fmt.largest := by
    intro k
    induction k with
    | zero =>
      obtain ⟨c, c1, c2, c3, c4, -⟩ := C136_exact h h1 f1 e1 h2 f2 e2 he modes e le_rfl
      obtain ⟨r, r1, r2, -, r3⟩ := double_over h hS h2 f2 e2 (modes e) c2 c3 (by rw [c4, ← pow_succ]; exact he')
      obtain ⟨r3, r4, -⟩ := r3 (hm e le_rfl)
      exact ⟨r.value, by rw [Nat.add_zero, doubledBy, c1, M.ok_bind, r1, M.ok_bind]; rfl, r2, r3, r4⟩
    | succ k ih =>
      obtain ⟨d, d1, d2, d3, d4⟩ := ih
      obtain ⟨r, r1, r2, -, r3⟩ := double_over h hS h2 f2 e2 (modes (e + 1 + k)) d2 d3 (by rw [d4]; linarith)
      obtain ⟨r3, r4, -⟩ := r3 (hm _ (by omega))
      exact ⟨r.value, by rw [← Nat.add_assoc, doubledBy, d1, M.ok_bind, r1, M.ok_bind]; rfl, r2, r3, r4⟩
  obtain ⟨k, rfl⟩ := Nat.exists_eq_add_of_le (show e + 1 ≤ n from hn)
  obtain ⟨d, d1, d2, d3, d4⟩ := main k
  obtain ⟨r, r1, -, -, r3⟩ := double_over h hS h2 f2 e2 (modes (e + 1 + k)) d2 d3 (by rw [d4]; linarith)
  exact ⟨d, r, d1, d3, by rw [d4, toRat_largest h], r1, (r3 (hm _ (by omega))).2.2⟩

/-! In single precision the largest power of two is `2^127`. -/
example := C136_exact singleS_ok (one := ⟨2 ^ 23, 0, .normal, false⟩) (two := ⟨2 ^ 23, 1, .normal, false⟩) (by decide) rfl (by decide +kernel) (by decide) rfl (by decide +kernel)
  (e := 127) (by decide +kernel) (fun _ => .towardPositive) 100 (by decide)
example := C136_infinite singleS_ok rfl (one := ⟨2 ^ 23, 0, .normal, false⟩) (two := ⟨2 ^ 23, 1, .normal, false⟩) (by decide) rfl (by decide +kernel) (by decide) rfl
  (by decide +kernel) (e := 127) (by decide +kernel) (by decide +kernel) (modes := fun _ => .nearestTiesToEven) ⟨by decide, by decide⟩
example := C136_never_infinite singleS_ok rfl (one := ⟨2 ^ 23, 0, .normal, false⟩) (two := ⟨2 ^ 23, 1, .normal, false⟩) (by decide) rfl (by decide +kernel) (by decide) rfl
  (by decide +kernel) (e := 127) (by decide +kernel) (by decide +kernel) (modes := fun _ => .towardZero) (fun _ _ => Or.inl rfl) 1000000 (by decide)

end Apf
