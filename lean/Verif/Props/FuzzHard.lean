import Verif.Props.FuzzEval

/-! # C108: comparison with the hardware -/

namespace Apf
open Fuzz IeeeFloat Spec

variable {R : FloatRepr}

theorem hard_reprs (h : R ∈ reprs) (hh : R.hasHard = true) :
    R = { sem := singleS, reprBytes := 4, tag := 32, hasHard := true } ∨ R = { sem := doubleS, reprBytes := 8, tag := 64, hasHard := true } := by
  simp only [reprs, List.mem_cons, List.not_mem_nil, or_false] at h
  rcases h with rfl | rfl | rfl | rfl | rfl | rfl | rfl | rfl <;> simp_all

/-- What is used of the two formats the hardware has. -/
structure MasksOK (R : FloatRepr) : Prop where
  mem : R ∈ reprs
  style : R.sem.style = .hidden
  eq : masks R.sem = .ok (2 ^ (R.sem.bits - 1), (2 ^ R.sem.expBits - 1) * 2 ^ R.sem.sigBits, 2 ^ R.sem.sigBits - 1, 2 ^ (R.sem.sigBits - 1))
  nan : (IeeeFloat.NAN R.sem).toBits = .ok (freshNan R)
  bits : R.sem.bits = R.sem.expBits + R.sem.sigBits + 1
  sig : 2 ≤ R.sem.sigBits
  exp : 2 ≤ R.sem.expBits
  le : R.sem.bits ≤ 64

theorem masks_ok (h : R ∈ reprs) (hh : R.hasHard = true) : MasksOK R := by
  rcases hard_reprs h hh with rfl | rfl
  · exact ⟨h, by decide, by decide +kernel, by decide +kernel, by decide, by decide, by decide, by decide⟩
  · exact ⟨h, by decide, by decide +kernel, by decide +kernel, by decide, by decide, by decide, by decide⟩

/-- Patterns of NaNs. -/
def nanPat (R : FloatRepr) (b : ℕ) : Bool := decide (exponentField R.sem.expBits R.sem.sigBits b = 2 ^ R.sem.expBits - 1 ∧ sigField R.sem.sigBits b ≠ 0)

theorem MasksOK.nanPat_iff (h : MasksOK R) (b : ℕ) : nanPat R b = true ↔ R.denotes b = .nan := by
  unfold nanPat FloatRepr.denotes decode
  rw [h.style, decide_eq_true_iff]
  dsimp only
  split_ifs <;> simp_all

theorem and_top_field (w t b : ℕ) : b &&& ((2 ^ w - 1) * 2 ^ t) = b / 2 ^ t % 2 ^ w * 2 ^ t := by
  apply Nat.eq_of_testBit_eq
  intro i
  rw [← Nat.shiftLeft_eq, ← Nat.shiftLeft_eq, Nat.testBit_and, Nat.testBit_shiftLeft, Nat.testBit_shiftLeft, Nat.testBit_two_pow_sub_one,
    Nat.testBit_mod_two_pow, ← Nat.shiftRight_eq_div_pow, Nat.testBit_shiftRight]
  by_cases hi : t ≤ i
  · rw [show t + (i - t) = i by omega]
    cases b.testBit i <;> simp
  · simp [hi]

theorem MasksOK.isNan (h : MasksOK R) {b : ℕ} (hb : b < 2 ^ R.sem.bits) :
    isNanBits R.sem ((2 ^ R.sem.expBits - 1) * 2 ^ R.sem.sigBits) (2 ^ R.sem.sigBits - 1) b = .ok (nanPat R b) := by
  have e1 : (b &&& (2 ^ R.sem.expBits - 1) * 2 ^ R.sem.sigBits == (2 ^ R.sem.expBits - 1) * 2 ^ R.sem.sigBits) =
      decide (exponentField R.sem.expBits R.sem.sigBits b = 2 ^ R.sem.expBits - 1) := by
    rw [and_top_field, Bool.eq_iff_iff, beq_iff_eq, decide_eq_true_iff]
    unfold exponentField
    exact Nat.mul_left_inj (by positivity)
  have e2 : (b &&& 2 ^ R.sem.sigBits - 1 != 0) = decide (sigField R.sem.sigBits b ≠ 0) := by
    rw [Nat.and_two_pow_sub_one_eq_mod, Bool.eq_iff_iff, bne_iff_ne, decide_eq_true_iff]
    rfl
  obtain ⟨x, x1, -, x3, -⟩ := C02_from_bits_decodes (reprs_enc h.mem) hb
  have e3 : x.isNan = nanPat R b := by
    rw [Bool.eq_iff_iff, h.nanPat_iff]
    unfold FloatRepr.denotes
    rw [← x3]
    unfold IeeeFloat.isNan datum
    cases x.category <;> simp
  have e4 : nanPat R b = (decide (exponentField R.sem.expBits R.sem.sigBits b = 2 ^ R.sem.expBits - 1) && decide (sigField R.sem.sigBits b ≠ 0)) := by
    unfold nanPat; rw [Bool.decide_and]
  unfold isNanBits
  rw [e1, e2, ← e4, x1, M.ok_bind, massert, if_pos e3]
  rfl

theorem lnot_testBit (a i : ℕ) : (lnot a).testBit i = (decide (i < 128) && !a.testBit i) := by
  unfold lnot
  rw [show (2 : ℕ) ^ 128 - 1 - a % 2 ^ 128 = 2 ^ 128 - (a % 2 ^ 128 + 1) by omega, Nat.testBit_two_pow_sub_succ (Nat.mod_lt _ (by norm_num)),
    Nat.testBit_mod_two_pow]
  by_cases hi : i < 128 <;> simp [hi]

theorem limbMax_testBit (i : ℕ) : limbMax.testBit i = decide (i < 128) := by
  rw [show limbMax = 2 ^ 128 - 1 from rfl, Nat.testBit_two_pow_sub_one]

/-- The mask of the bits that count. -/
def strictMask (R : FloatRepr) (s : Bool) : ℕ := if s then limbMax else limbMax &&& lnot (2 ^ (R.sem.bits - 1))

theorem MasksOK.strict_testBit (_ : MasksOK R) (s : Bool) (i : ℕ) :
    (strictMask R s).testBit i = (decide (i < 128) && (s || decide (i ≠ R.sem.bits - 1))) := by
  unfold strictMask
  cases s
  · rw [if_neg (by simp), Nat.testBit_and, limbMax_testBit, lnot_testBit, Nat.testBit_two_pow]
    by_cases hi : i < 128 <;> simp [hi, eq_comm]
  · rw [if_pos rfl, limbMax_testBit]; simp

theorem testBit_high {n b i : ℕ} (hb : b < 2 ^ n) (hi : n ≤ i) : b.testBit i = false :=
  Nat.testBit_lt_two_pow (lt_of_lt_of_le hb (Nat.pow_le_pow_right (by norm_num) hi))

theorem MasksOK.agree_iff (h : MasksOK R) (s : Bool) {a b : ℕ} (ha : a < 2 ^ R.sem.bits) (hb : b < 2 ^ R.sem.bits) :
    a &&& strictMask R s = b &&& strictMask R s ↔ Agree R s a b := by
  have hle := h.le
  have e : (a &&& strictMask R s = b &&& strictMask R s) ↔ ∀ i, i < R.sem.bits → (s = true ∨ i ≠ R.sem.bits - 1) → a.testBit i = b.testBit i := by
    constructor
    · intro k i hi hs
      have := congrArg (·.testBit i) k
      simp only [Nat.testBit_and, h.strict_testBit] at this
      have h1 : (decide (i < 128) && (s || decide (i ≠ R.sem.bits - 1))) = true := by
        rw [Bool.and_eq_true, Bool.or_eq_true, decide_eq_true_iff, decide_eq_true_iff]
        exact ⟨by omega, hs⟩
      rw [h1, Bool.and_true, Bool.and_true] at this
      exact this
    · intro k
      apply Nat.eq_of_testBit_eq
      intro i
      rw [Nat.testBit_and, Nat.testBit_and, h.strict_testBit]
      by_cases hi : i < R.sem.bits
      · by_cases hs : s = true ∨ i ≠ R.sem.bits - 1
        · rw [k i hi hs]
        · push Not at hs
          simp [hs.1, hs.2]
      · rw [testBit_high ha (by omega), testBit_high hb (by omega)]
  rw [e]
  unfold Agree
  cases s
  · rw [if_neg (by simp)]
    constructor
    · intro k
      apply Nat.eq_of_testBit_eq
      intro i
      rw [Nat.testBit_mod_two_pow, Nat.testBit_mod_two_pow]
      by_cases hi : i < R.sem.bits - 1
      · rw [k i (by omega) (.inr (by omega))]
      · simp [hi]
    · intro k i hi hs
      have hs' : i ≠ R.sem.bits - 1 := by simpa using hs
      have := congrArg (·.testBit i) k
      simp only [Nat.testBit_mod_two_pow] at this
      rw [decide_eq_true (by omega), Bool.true_and, Bool.true_and] at this
      exact this
  · rw [if_pos rfl]
    constructor
    · intro k
      apply Nat.eq_of_testBit_eq
      intro i
      by_cases hi : i < R.sem.bits
      · exact k i hi (.inl rfl)
      · rw [testBit_high ha (by omega), testBit_high hb (by omega)]
    · intro k i _ _; rw [k]

/-- The pattern of the hardware with the bits that do not count replaced. -/
theorem MasksOK.merged (h : MasksOK R) (s : Bool) {rs hard : ℕ} (hr : rs < 2 ^ R.sem.bits) (hh : hard < 2 ^ R.sem.bits) :
    ∃ m, (hard &&& strictMask R s) ||| (rs &&& lnot (strictMask R s)) = m ∧ m < 2 ^ R.sem.bits ∧ m &&& strictMask R s = hard &&& strictMask R s ∧
      (m = rs ↔ Agree R s hard rs) ∧ nanPat R m = nanPat R hard := by
  have hle := h.le
  have hbits := h.bits
  refine ⟨_, rfl, ?_, ?_, ?_, ?_⟩
  · apply Nat.or_lt_two_pow
    · exact lt_of_le_of_lt Nat.and_le_left hh
    · exact lt_of_le_of_lt Nat.and_le_left hr
  · apply Nat.eq_of_testBit_eq
    intro i
    simp only [Nat.testBit_and, Nat.testBit_or, lnot_testBit]
    cases hard.testBit i <;> cases rs.testBit i <;> cases (strictMask R s).testBit i <;> simp
  · rw [← h.agree_iff s hh hr]
    constructor
    · intro k
      apply Nat.eq_of_testBit_eq
      intro i
      have := congrArg (·.testBit i) k
      simp only [Nat.testBit_and, Nat.testBit_or, lnot_testBit] at this ⊢
      revert this
      cases hard.testBit i <;> cases rs.testBit i <;> cases (strictMask R s).testBit i <;> simp
    · intro k
      rw [k]
      apply Nat.eq_of_testBit_eq
      intro i
      simp only [Nat.testBit_and, Nat.testBit_or, lnot_testBit]
      by_cases hi : i < R.sem.bits
      · rw [decide_eq_true (by omega : i < 128)]
        cases rs.testBit i <;> cases (strictMask R s).testBit i <;> simp
      · rw [testBit_high hr (by omega)]; simp
  · have key : ∀ i, i ≠ R.sem.bits - 1 → ((hard &&& strictMask R s) ||| (rs &&& lnot (strictMask R s))).testBit i = hard.testBit i := by
      intro i hi
      simp only [Nat.testBit_and, Nat.testBit_or, lnot_testBit, h.strict_testBit]
      by_cases h' : i < 128
      · simp [h', hi]
      · rw [testBit_high hr (by omega), testBit_high hh (by omega)]; simp
    generalize (hard &&& strictMask R s) ||| (rs &&& lnot (strictMask R s)) = m at key
    have f1 : exponentField R.sem.expBits R.sem.sigBits m = exponentField R.sem.expBits R.sem.sigBits hard := by
      unfold exponentField
      apply Nat.eq_of_testBit_eq
      intro i
      rw [Nat.testBit_mod_two_pow, Nat.testBit_mod_two_pow, ← Nat.shiftRight_eq_div_pow, ← Nat.shiftRight_eq_div_pow, Nat.testBit_shiftRight,
        Nat.testBit_shiftRight]
      by_cases hi : i < R.sem.expBits
      · rw [key _ (by omega)]
      · simp [hi]
    have f2 : sigField R.sem.sigBits m = sigField R.sem.sigBits hard := by
      unfold sigField
      apply Nat.eq_of_testBit_eq
      intro i
      rw [Nat.testBit_mod_two_pow, Nat.testBit_mod_two_pow]
      by_cases hi : i < R.sem.sigBits
      · rw [key _ (by omega)]
      · simp [hi]
    unfold nanPat
    rw [f1, f2]

/-- `map` with a closure that only looks for an input. -/
theorem any_input {op : FuzzOp ℕ} {f : ℕ → Bool → M (Unit × Bool)} {p : ℕ → Bool} (hf : ∀ x ∈ inputsOf op, ∀ b, f x b = .ok ((), p x || b)) :
    ∃ op', op.mapM f false = .ok (op', (inputsOf op).any p) := by
  cases op <;> simp only [inputsOf, List.mem_cons, List.not_mem_nil, or_false, forall_eq_or_imp, forall_eq] at hf <;>
    simp only [FuzzOp.mapM, hf, M.ok_bind, inputsOf, List.any_cons, List.any_nil, Bool.or_false]
  all_goals first
    | exact ⟨_, rfl⟩
    | exact ⟨_, by rw [Bool.or_comm]⟩
    | exact ⟨.mulAdd () () (), by congr 2; ac_rfl⟩

theorem MasksOK.quieted_lt (h : MasksOK R) {a : ℕ} (ha : a < 2 ^ R.sem.bits) : quieted R a < 2 ^ R.sem.bits := by
  apply Nat.or_lt_two_pow ha
  apply Nat.pow_lt_pow_right (by norm_num)
  have := h.bits
  omega

theorem MasksOK.propagated_eq (h : MasksOK R) (s : Bool) {op : FuzzOp ℕ} (hc : IsCase R op) {out : ℕ} (ho : out < 2 ^ R.sem.bits) (hn : nanPat R out = true) :
    ∃ v, propagated R.sem ((2 ^ R.sem.expBits - 1) * 2 ^ R.sem.sigBits) (2 ^ R.sem.sigBits - 1) (2 ^ (R.sem.sigBits - 1)) (strictMask R s) op out = .ok v ∧
      (v = true ↔ FromInput R s op out) := by
  obtain ⟨op', e⟩ := any_input (op := op) (f := fun x (found : Bool) => do
    let n ← isNanBits R.sem ((2 ^ R.sem.expBits - 1) * 2 ^ R.sem.sigBits) (2 ^ R.sem.sigBits - 1) x
    if n && ((x ||| 2 ^ (R.sem.sigBits - 1)) &&& strictMask R s == out &&& strictMask R s) then .ok ((), true) else .ok ((), found))
    (p := fun x => nanPat R x && (quieted R x &&& strictMask R s == out &&& strictMask R s)) (by
      intro x hx b
      simp only [h.isNan (hc x hx), M.ok_bind]
      unfold quieted
      split_ifs with k
      · rw [k]; rfl
      · rw [Bool.not_eq_true] at k; rw [k]; rfl)
  refine ⟨(inputsOf op).any (fun x => nanPat R x && (quieted R x &&& strictMask R s == out &&& strictMask R s)), ?_, ?_⟩
  · unfold propagated
    rw [h.isNan ho, M.ok_bind, massert, if_pos hn, M.ok_bind, e, M.ok_bind]
  · rw [List.any_eq_true]
    unfold FromInput
    refine exists_congr fun a => and_congr_right fun ha => ?_
    rw [Bool.and_eq_true, h.nanPat_iff, beq_iff_eq, h.agree_iff s (h.quieted_lt (hc a ha)) ho]

theorem MasksOK.excuse_eq (h : MasksOK R) (s : Bool) {op : FuzzOp ℕ} (hc : IsCase R op) {rs hard : ℕ} (hh : hard < 2 ^ R.sem.bits) :
    ∃ v, fmaExcuse R.sem ((2 ^ R.sem.expBits - 1) * 2 ^ R.sem.sigBits) (2 ^ R.sem.sigBits - 1) (2 ^ (R.sem.sigBits - 1)) (strictMask R s) op rs hard = .ok v ∧
      (v = true ↔ ∃ a b c, op = .mulAdd a b c ∧ R.denotes a ≠ .nan ∧ R.denotes b ≠ .nan ∧ R.denotes c = .nan ∧ Agree R s (quieted R c) hard ∧
        rs = freshNan R) := by
  cases op
  case mulAdd a b c =>
    have ha := hc a (by simp [inputsOf])
    have hb := hc b (by simp [inputsOf])
    have hc' := hc c (by simp [inputsOf])
    unfold fmaExcuse
    simp only [h.isNan ha, h.isNan hb, h.isNan hc', M.ok_bind, h.nan, FuzzOp.mulAdd.injEq]
    rw [show c ||| 2 ^ (R.sem.sigBits - 1) = quieted R c from rfl]
    have n1 := h.nanPat_iff a
    have n2 := h.nanPat_iff b
    have n3 := h.nanPat_iff c
    have n4 := h.agree_iff s (h.quieted_lt hc') hh
    split_ifs with k1 k2 k3
    · refine ⟨false, rfl, iff_of_false Bool.false_ne_true ?_⟩
      rintro ⟨a', b', c', ⟨rfl, rfl, rfl⟩, m1, -⟩
      exact m1 (n1.1 k1)
    · refine ⟨false, rfl, iff_of_false Bool.false_ne_true ?_⟩
      rintro ⟨a', b', c', ⟨rfl, rfl, rfl⟩, -, m2, -⟩
      exact m2 (n2.1 k2)
    · refine ⟨false, rfl, iff_of_false Bool.false_ne_true ?_⟩
      rintro ⟨a', b', c', ⟨rfl, rfl, rfl⟩, -, -, m3, -⟩
      rw [n3.2 m3] at k3
      cases k3
    · refine ⟨_, rfl, ?_⟩
      rw [Bool.and_eq_true, beq_iff_eq, beq_iff_eq, eq_comm, n4]
      constructor
      · rintro ⟨k4, k5⟩
        exact ⟨a, b, c, ⟨rfl, rfl, rfl⟩, fun hn => k1 (n1.2 hn), fun hn => k2 (n2.2 hn), n3.1 (by simpa using k3), k4, k5⟩
      · rintro ⟨a', b', c', ⟨rfl, rfl, rfl⟩, -, -, -, k4, k5⟩
        exact ⟨k4, k5⟩
  all_goals exact ⟨false, rfl, by simp⟩

theorem MasksOK.agree_trans (_ : MasksOK R) {s : Bool} {a b c : ℕ} (h1 : Agree R s a b) (h2 : Agree R s b c) : Agree R s a c := by
  unfold Agree at *
  split_ifs at * with hs
  · exact h1.trans h2
  · exact h1.trans h2

/-- **C108.** The answer of the hardware is replaced by that of the library exactly when the difference is to be tolerated, and none of the assertions of the
comparison fails. -/
theorem C108_reconcile (h : R ∈ reprs) (hH : R.hasHard = true) (args : Args) {op : FuzzOp ℕ} (hc : IsCase R op) {rs hard : ℕ} (hr : rs < 2 ^ R.sem.bits)
    (hh : hard < 2 ^ R.sem.bits) :
    ∃ v, reconcile args R.sem op rs hard = .ok v ∧ v < 2 ^ R.sem.bits ∧ (v = rs ↔ Tolerated args R op rs hard) ∧ (v ≠ rs → Agree R args.strictHardNanSign v hard) := by
  have H := masks_ok h hH
  have hs : (if args.strictHardNanSign then limbMax else limbMax &&& lnot (2 ^ (R.sem.bits - 1))) = strictMask R args.strictHardNanSign := rfl
  unfold reconcile
  rw [H.eq, M.ok_bind]
  dsimp only
  rw [hs, H.isNan hh, M.ok_bind]
  by_cases nh : nanPat R hard = true
  swap
  · rw [if_neg nh, M.ok_bind, if_neg (by simp)]
    refine ⟨hard, rfl, hh, ?_, fun _ => by unfold Agree; split_ifs <;> rfl⟩
    unfold Tolerated
    rw [← H.nanPat_iff hard]
    constructor
    · intro e; exact .inl e.symm
    · rintro (e | ⟨-, e, -⟩)
      · exact e.symm
      · exact absurd e nh
  rw [if_pos nh, H.isNan hr, M.ok_bind]
  by_cases nr : nanPat R rs = true
  swap
  · rw [if_neg nr]
    refine ⟨hard, rfl, hh, ?_, fun _ => by unfold Agree; split_ifs <;> rfl⟩
    unfold Tolerated
    rw [← H.nanPat_iff rs]
    constructor
    · intro e; exact .inl e.symm
    · rintro (e | ⟨e, -⟩)
      · exact e.symm
      · exact absurd e nr
  rw [if_pos nr]
  obtain ⟨m, m1, m2, m3, m4, m5⟩ := H.merged args.strictHardNanSign hr hh
  rw [m1]
  have am : Agree R args.strictHardNanSign m hard := (H.agree_iff _ m2 hh).1 m3
  have hrefl : ∀ a, Agree R args.strictHardNanSign a a := fun a => by unfold Agree; split_ifs <;> rfl
  have hsymm : ∀ {a b}, Agree R args.strictHardNanSign a b → Agree R args.strictHardNanSign b a := fun {a b} k => by
    unfold Agree at *; split_ifs at * <;> exact k.symm
  have dr := (H.nanPat_iff rs).1 nr
  have dh := (H.nanPat_iff hard).1 nh
  have tol : Tolerated args R op rs hard ↔ m = rs ∨
      ((args.strictHardNanInputChoice = false ∧ FromInput R args.strictHardNanSign op hard ∧ FromInput R args.strictHardNanSign op rs) ∨
     (args.ignoreFmaNan = true ∧ ∃ a b c, op = .mulAdd a b c ∧ R.denotes a ≠ .nan ∧ R.denotes b ≠ .nan ∧ R.denotes c = .nan ∧
        Agree R args.strictHardNanSign (quieted R c) hard ∧ rs = freshNan R)) := by
    unfold Tolerated
    rw [m4]
    constructor
    · rintro (e | ⟨-, -, e⟩)
      · rw [e]; exact .inl (hrefl _)
      · exact e
    · intro e; exact .inr ⟨dr, dh, e⟩
  have fromI : FromInput R args.strictHardNanSign op m ↔ FromInput R args.strictHardNanSign op hard := by
    unfold FromInput
    refine exists_congr fun a => and_congr_right fun ha => and_congr_right fun _ => ?_
    exact ⟨fun k => H.agree_trans k am, fun k => H.agree_trans k (hsymm am)⟩
  rw [tol]
  by_cases e0 : m = rs
  · subst e0
    refine ⟨m, ?_, m2, by simp, fun k => absurd rfl k⟩
    simp
  have ne : (m != rs) = true := by simpa using e0
  -- the choice of the input
  obtain ⟨v1, p1, q1⟩ := H.propagated_eq args.strictHardNanSign hc m2 (by rw [m5]; exact nh)
  obtain ⟨v2, p2, q2⟩ := H.propagated_eq args.strictHardNanSign hc hr nr
  have step1 : ∃ k, (if (!args.strictHardNanInputChoice && m != rs) = true then do
        let a ← propagated R.sem ((2 ^ R.sem.expBits - 1) * 2 ^ R.sem.sigBits) (2 ^ R.sem.sigBits - 1) (2 ^ (R.sem.sigBits - 1)) (strictMask R args.strictHardNanSign) op m
        if a then do
          let b ← propagated R.sem ((2 ^ R.sem.expBits - 1) * 2 ^ R.sem.sigBits) (2 ^ R.sem.sigBits - 1) (2 ^ (R.sem.sigBits - 1)) (strictMask R args.strictHardNanSign) op rs
          .ok (if b then rs else m)
        else .ok m
      else .ok m : M ℕ) = .ok k ∧ (k = rs ∨ k = m) ∧
      (k = rs ↔ args.strictHardNanInputChoice = false ∧ FromInput R args.strictHardNanSign op hard ∧ FromInput R args.strictHardNanSign op rs) := by
    rw [ne, Bool.and_true]
    cases hch : args.strictHardNanInputChoice
    · rw [show (!false) = true from rfl, if_pos rfl, p1, M.ok_bind]
      cases v1
      · refine ⟨m, rfl, .inr rfl, ?_⟩
        rw [← fromI, ← q1]
        simp [e0]
      · rw [if_pos rfl, p2, M.ok_bind]
        refine ⟨_, rfl, ?_, ?_⟩
        · cases v2 <;> simp
        · rw [← fromI, ← q1, ← q2]
          cases v2 <;> simp [e0]
    · refine ⟨m, rfl, .inr rfl, by simp [e0]⟩
  obtain ⟨k, k1, k2, k3⟩ := step1
  rw [k1, M.ok_bind, ← k3]
  by_cases e1 : k = rs
  · subst e1
    exact ⟨k, by simp, hr, by simp, fun c => absurd rfl c⟩
  · have ek : k = m := k2.resolve_left e1
    subst ek
    rw [ne, Bool.and_true]
    obtain ⟨v3, p3, q3⟩ := H.excuse_eq args.strictHardNanSign (rs := rs) hc m2
    have q3' : v3 = true ↔ ∃ a b c, op = .mulAdd a b c ∧ R.denotes a ≠ .nan ∧ R.denotes b ≠ .nan ∧ R.denotes c = .nan ∧
        Agree R args.strictHardNanSign (quieted R c) hard ∧ rs = freshNan R := by
      rw [q3]
      refine exists_congr fun a => exists_congr fun b => exists_congr fun c => ?_
      refine and_congr_right fun _ => and_congr_right fun _ => and_congr_right fun _ => and_congr_right fun _ => and_congr_left fun _ => ?_
      exact ⟨fun k => H.agree_trans k am, fun k => H.agree_trans k (hsymm am)⟩
    rw [← q3']
    cases args.ignoreFmaNan
    · exact ⟨k, rfl, m2, by simp [e0], fun _ => am⟩
    · rw [if_pos rfl, p3, M.ok_bind]
      cases v3
      · exact ⟨k, rfl, m2, by simp [e0], fun _ => am⟩
      · exact ⟨rs, rfl, hr, by simp, fun c => absurd rfl c⟩

/-- **C108.** Evaluation of a case with the three implementations: the outputs match if and only if the answers of LLVM and of the hardware are those of the
library, up to the tolerated differences. -/
theorem C108_eval (h : R ∈ reprs) (args : Args) (orc : Oracle) {op : FuzzOp ℕ} (hc : IsCase R op) (hh : R.hasHard = true → orc.hard R op < 2 ^ R.sem.bits)
    {rs : ℕ} (hr : evalBits R op = .ok rs) :
    ∃ o, eval args orc R op = .ok o ∧ o.rsApf = rs ∧ (o.allMatch = true ↔ Matches args orc R op rs) := by
  have hlt : rs < 2 ^ R.sem.bits := by
    obtain ⟨h1, h2⟩ := C106_eval h hc
    by_cases hf : FmaStops R op
    · rw [h1 hf] at hr; cases hr
    · obtain ⟨b, b1, b2⟩ := h2 hf
      rw [b1, Except.ok.injEq] at hr
      exact hr ▸ b2
  have am : ∀ c d, (Outputs.allMatch ⟨rs, c, d⟩ = true ↔ (∀ x, c = some x → x = rs) ∧ (∀ x, d = some x → x = rs)) := by
    intro c d
    unfold Outputs.allMatch
    cases c <;> cases d <;> simp
  have hx : ∀ x, (if args.ignoreCxx = true then none else some (orc.cxx R op)) = some x ↔ args.ignoreCxx = false ∧ orc.cxx R op = x := by
    intro x; cases args.ignoreCxx <;> simp
  have hcx : (∀ x, (if args.ignoreCxx = true then none else some (orc.cxx R op)) = some x → x = rs) ↔ (args.ignoreCxx = false → orc.cxx R op = rs) := by
    cases args.ignoreCxx <;> simp
  unfold eval
  rw [hr, M.ok_bind]
  dsimp only
  by_cases hi : args.ignoreHard = false ∧ R.hasHard = true
  · rw [if_neg (by simp [hi.1]), if_pos hi.2]
    dsimp only
    obtain ⟨v, v1, v2, v3, -⟩ := C108_reconcile h hi.2 args hc hlt (hh hi.2)
    have hf : v < 256 ^ R.reprBytes := by
      rw [(reprs_ok h).pow] at v2
      exact lt_of_lt_of_le v2 (Nat.pow_le_pow_right (by norm_num) (reprs_ok h).fits)
    refine ⟨_, by rw [v1, M.ok_bind, FloatRepr.fromBitsU128, if_pos hf, M.ok_bind], rfl, ?_⟩
    rw [am, hcx]
    unfold Matches
    refine and_congr_right fun _ => ?_
    simp only [Option.some.injEq, forall_eq', v3, hi.1, hi.2, forall_true_left]
  · have e : (if args.ignoreHard = true then none else if R.hasHard = true then some (orc.hard R op) else none) = none := by
      cases h1 : args.ignoreHard <;> cases h2 : R.hasHard <;> simp_all
    rw [e]
    dsimp only
    refine ⟨_, rfl, rfl, ?_⟩
    rw [am, hcx]
    unfold Matches
    refine and_congr_right fun _ => ?_
    simp only [reduceCtorEq, false_imp_iff, forall_const, true_iff]
    intro h1 h2
    exact absurd ⟨h1, h2⟩ hi

/-- **C108.** The fuzzer's entry point, on every byte string: what is not a test file is skipped; a test file is reported (by a panic) exactly when the library
panics or the answers do not match. -/
theorem C108_fuzz_one (args : Args) (orc : Oracle) (hh : ∀ R ∈ reprs, R.hasHard = true → ∀ op, IsCase R op → orc.hard R op < 2 ^ R.sem.bits)
    {data : List ℕ} (hb : ∀ b ∈ data, b < 256) :
    (fuzzOne args orc data = .ok none ↔ ¬ ∃ R op, IsTestFile data R op) ∧
    (fuzzOne args orc data = .ok (some ()) ↔ ∃ R op rs, IsTestFile data R op ∧ evalBits R op = .ok rs ∧ Matches args orc R op rs) ∧
    (fuzzOne args orc data = .error .assert ↔
      ∃ R op, IsTestFile data R op ∧ (FmaStops R op ∨ ∃ rs, evalBits R op = .ok rs ∧ ¬ Matches args orc R op rs)) := by
  -- what happens to a test file
  have file : ∀ R op, IsTestFile data R op →
      (FmaStops R op → fuzzOne args orc data = .error .assert) ∧
      (∀ rs, evalBits R op = .ok rs → (Matches args orc R op rs → fuzzOne args orc data = .ok (some ())) ∧
        (¬ Matches args orc R op rs → fuzzOne args orc data = .error .assert)) := by
    rintro R op ⟨hR, hc, rfl⟩
    obtain ⟨-, e2, -⟩ := C105_encode hR hc
    have e1 := (C105_format_tags.1 R hR).1
    constructor
    · intro hf
      unfold fuzzOne
      dsimp only
      rw [e1]
      dsimp only
      rw [e2, M.ok_bind]
      dsimp only
      unfold eval
      rw [(C106_eval hR hc).1 hf]
      rfl
    · intro rs hr
      obtain ⟨o, o1, -, o3⟩ := C108_eval hR args orc hc (fun k => hh R hR k op hc) hr
      have e3 : fuzzOne args orc (R.tag :: caseBytes R op) = (massert o.allMatch >>= fun _ => .ok (some ())) := by
        unfold fuzzOne
        dsimp only
        rw [e1]
        dsimp only
        rw [e2, M.ok_bind]
        dsimp only
        rw [o1, M.ok_bind]
      constructor
      · intro hm
        rw [e3, massert, if_pos (o3.2 hm)]
        rfl
      · intro hm
        rw [e3, massert, if_neg (fun k => hm (o3.1 k))]
        rfl
  -- everything else is skipped
  have skip : (¬ ∃ R op, IsTestFile data R op) → fuzzOne args orc data = .ok none := by
    intro hn
    cases data with
    | nil => rfl
    | cons tag l =>
      unfold fuzzOne
      dsimp only
      cases ht : reprOfTag tag with
      | none => rfl
      | some R =>
        have hR : R ∈ reprs := List.mem_of_find?_eq_some ht
        have htag : R.tag = tag := by simpa using List.find?_some ht
        have hl : ∀ b ∈ l, b < 256 := fun b hb' => hb b (List.mem_cons_of_mem _ hb')
        obtain ⟨r, r1⟩ := C105_decode_total hR hl
        dsimp only
        rw [r1, M.ok_bind]
        cases r with
        | error _ => rfl
        | ok op =>
          obtain ⟨k1, k2⟩ := (C105_decode_iff hR hl op).1 r1
          exact absurd ⟨R, op, hR, k1, by rw [htag, k2]⟩ hn
  have uniq : ∀ R op R' op', IsTestFile data R op → IsTestFile data R' op' → R = R' ∧ op = op' := by
    rintro R op R' op' ⟨hR, hc, e⟩ ⟨hR', hc', e'⟩
    obtain ⟨k1, k2⟩ := C105_format_tags.2 R hR R' hR' op op' hc hc' (e ▸ e')
    refine ⟨?_, k2⟩
    have a := (C105_format_tags.1 R hR).1
    have b := (C105_format_tags.1 R' hR').1
    rw [k1, b, Option.some.injEq] at a
    exact a.symm
  by_cases ht : ∃ R op, IsTestFile data R op
  · obtain ⟨R, op, ht'⟩ := ht
    obtain ⟨f1, f2⟩ := file R op ht'
    by_cases hf : FmaStops R op
    · have e := f1 hf
      have nok : ∀ rs, evalBits R op ≠ .ok rs := fun rs k => by rw [(C106_eval ht'.1 ht'.2.1).1 hf] at k; cases k
      rw [e]
      refine ⟨by simp; exact ⟨R, op, ht'⟩, ?_, iff_of_true rfl ⟨R, op, ht', .inl hf⟩⟩
      refine iff_of_false (by simp) ?_
      rintro ⟨R', op', rs, k1, k2, -⟩
      obtain ⟨rfl, rfl⟩ := uniq _ _ _ _ ht' k1
      exact nok _ k2
    · obtain ⟨rs, r1, -⟩ := (C106_eval ht'.1 ht'.2.1).2 hf
      obtain ⟨g1, g2⟩ := f2 rs r1
      by_cases hm : Matches args orc R op rs
      · rw [g1 hm]
        refine ⟨by simp; exact ⟨R, op, ht'⟩, iff_of_true rfl ⟨R, op, rs, ht', r1, hm⟩, ?_⟩
        refine iff_of_false (by simp) ?_
        rintro ⟨R', op', k1, k2⟩
        obtain ⟨rfl, rfl⟩ := uniq _ _ _ _ ht' k1
        rcases k2 with k2 | ⟨rs', k2, k3⟩
        · exact hf k2
        · rw [r1, Except.ok.injEq] at k2
          exact k3 (k2 ▸ hm)
      · rw [g2 hm]
        refine ⟨by simp; exact ⟨R, op, ht'⟩, ?_, iff_of_true rfl ⟨R, op, ht', .inr ⟨rs, r1, hm⟩⟩⟩
        refine iff_of_false (by simp) ?_
        rintro ⟨R', op', rs', k1, k2, k3⟩
        obtain ⟨rfl, rfl⟩ := uniq _ _ _ _ ht' k1
        rw [r1, Except.ok.injEq] at k2
        exact hm (k2 ▸ k3)
  · rw [skip ht]
    refine ⟨iff_of_true rfl ht, iff_of_false (by simp) ?_, iff_of_false (by simp) ?_⟩
    · rintro ⟨R, op, rs, k, -⟩; exact ht ⟨R, op, k⟩
    · rintro ⟨R, op, k, -⟩; exact ht ⟨R, op, k⟩

/-! Concrete cases in `f32`: the signs of two NaNs differ; the inputs propagated differ (`x + y` of two NaNs); a NaN against a number is never tolerated. -/
example : reconcile {} singleS (.add 0x7fc00001 0x7fc00002) 0x7fc00001 0xffc00001 = .ok 0x7fc00001 := by decide +kernel
example : reconcile {} singleS (.add 0x7fc00001 0x7fc00002) 0x7fc00001 0x7fc00002 = .ok 0x7fc00001 := by decide +kernel
example : reconcile { strictHardNanInputChoice := true } singleS (.add 0x7fc00001 0x7fc00002) 0x7fc00001 0x7fc00002 = .ok 0x7fc00002 := by decide +kernel
example : reconcile {} singleS (.add 0x7fc00001 0x3f800000) 0x7fc00001 0x3f800000 = .ok 0x3f800000 := by decide +kernel
example : reconcile { ignoreFmaNan := true } singleS (.mulAdd 0x7f800000 0 0x7fc00005) 0x7fc00000 0x7fc00005 = .ok 0x7fc00000 := by decide +kernel
example : (fuzzOne {} ⟨fun _ _ => 0x40000000, fun _ _ => 0x40000000⟩ [32, 1, 0, 0, 0x80, 0x3f, 0, 0, 0x80, 0x3f] : M _) = .ok (some ()) := by decide +kernel
example : (fuzzOne {} ⟨fun _ _ => 0x40000000, fun _ _ => 0x40000001⟩ [32, 1, 0, 0, 0x80, 0x3f, 0, 0, 0x80, 0x3f] : M _) = .error .assert := by decide +kernel
example : (fuzzOne {} ⟨fun _ _ => 0, fun _ _ => 0⟩ [33, 1, 0, 0, 0x80, 0x3f, 0, 0, 0x80, 0x3f] : M _) = .ok none := by decide +kernel

end Apf
