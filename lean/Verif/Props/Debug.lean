import Verif.Model.Debug
import Verif.Props.DisplayZero
import Verif.Props.Accumulate
/-! # C87, C88: `Debug`, `unwrap` and the bits of a status -/

namespace Apf
open Spec IeeeFloat
variable {S : Sem}

/-- Two texts that agree have the same last occurrence of a character. -/
theorem split_last {α : Type} {c : α} {s₁ s₂ t₁ t₂ : List α} (h : s₁ ++ c :: t₁ = s₂ ++ c :: t₂) (h₁ : c ∉ t₁) (h₂ : c ∉ t₂) : s₁ = s₂ ∧ t₁ = t₂ := by
  rcases List.append_eq_append_iff.1 h with ⟨a, a1, a2⟩ | ⟨a, a1, a2⟩
  · cases a with
    | nil => simp at a1 a2; exact ⟨a1.symm, a2⟩
    | cons b a =>
      rw [List.cons_append, List.cons.injEq] at a2
      exact absurd (by rw [a2.2]; simp) h₁
  · cases a with
    | nil => simp at a1 a2; exact ⟨a1, a2.symm⟩
    | cons b a =>
      rw [List.cons_append, List.cons.injEq] at a2
      exact absurd (by rw [a2.2]; simp) h₂

theorem toDigits_inj {a b : ℕ} (h : Nat.toDigits 10 a = Nat.toDigits 10 b) : a = b := by
  rw [← (toDigits_ok a).2, ← (toDigits_ok b).2, h]

theorem toDigits_mem {n : ℕ} {c : Char} (hc : c ∈ Nat.toDigits 10 n) : (digit? c).isSome = true := by
  obtain ⟨d, hd, h10⟩ := (toDigits_ok n).1 c hc
  rw [hd]; rfl

theorem fmtInt_inj {a b : ℤ} (h : fmtInt a = fmtInt b) : a = b := by
  have key : ∀ {n : ℕ} {l : List Char}, Nat.toDigits 10 n ≠ '-' :: l := by
    intro n l hh
    have := toDigits_mem (n := n) (c := '-') (by rw [hh]; simp)
    exact absurd this (by decide)
  unfold fmtInt at h
  split_ifs at h with ha hb hb
  · simp only [List.cons_append, List.nil_append, List.cons.injEq, true_and] at h
    have := toDigits_inj h; omega
  · exact absurd h.symm key
  · exact absurd h key
  · have := toDigits_inj h; omega

theorem fmtInt_mem {n : ℤ} {c : Char} (hc : c ∈ fmtInt n) : (digit? c).isSome = true ∨ c = '-' := by
  unfold fmtInt at hc
  split_ifs at hc
  · rcases List.mem_cons.1 hc with h | h
    · exact .inr h
    · exact .inl (toDigits_mem h)
  · exact .inl (toDigits_mem hc)

theorem category_debug_inj {a b : Category} (h : a.debug = b.debug) : a = b := by
  revert h; cases a <;> cases b <;> decide

/-- The text of `IeeeFloat::fmt`, given the text of `Display`. -/
def debugText (disp : List Char) (c : Category) (neg : Bool) (sig : ℕ) (exp : ℤ) : List Char :=
  disp ++ "(".toList ++ c.debug ++ " | ".toList ++ (if neg then ['-'] else ['+']) ++
    ("[".toList ++ Nat.toDigits 10 sig ++ "]".toList) ++ " * 2^".toList ++ fmtInt exp ++ ")".toList

theorem debugText_inj {d₁ d₂ : List Char} {c₁ c₂ : Category} {n₁ n₂ : Bool} {s₁ s₂ : ℕ} {e₁ e₂ : ℤ}
    (h : debugText d₁ c₁ n₁ s₁ e₁ = debugText d₂ c₂ n₂ s₂ e₂) : d₁ = d₂ ∧ c₁ = c₂ ∧ n₁ = n₂ ∧ s₁ = s₂ ∧ e₁ = e₂ := by
  have norm : ∀ d c n s e, debugText d c n s e =
      ((((d ++ '(' :: (c.debug ++ [' '])) ++ '|' :: (' ' :: (if n then ['-'] else ['+']))) ++ '[' :: (Nat.toDigits 10 s ++ "] * 2".toList)) ++ '^' :: (fmtInt e ++ [')'])) := by
    intro d c n s e
    unfold debugText
    simp
  rw [norm, norm] at h
  have nd : ∀ c : Char, (digit? c).isSome = false → ∀ n, c ∉ Nat.toDigits 10 n := fun c hc n hm => by rw [toDigits_mem hm] at hc; exact absurd hc (by decide)
  have n1 : ∀ e : ℤ, '^' ∉ fmtInt e ++ [')'] := by
    intro e hm
    rcases List.mem_append.1 hm with hm | hm
    · rcases fmtInt_mem hm with q | q <;> exact absurd q (by decide)
    · exact absurd hm (by decide)
  have n2 : ∀ n : ℕ, '[' ∉ Nat.toDigits 10 n ++ "] * 2".toList := by
    intro n hm
    rcases List.mem_append.1 hm with hm | hm
    · exact nd '[' (by decide) n hm
    · exact absurd hm (by decide)
  have n3 : ∀ n : Bool, '|' ∉ ' ' :: (if n then ['-'] else ['+']) := by decide
  have n4 : ∀ c : Category, '(' ∉ c.debug ++ [' '] := by intro c; cases c <;> decide
  obtain ⟨h, h1⟩ := split_last h (n1 _) (n1 _)
  obtain ⟨h, h2⟩ := split_last h (n2 _) (n2 _)
  obtain ⟨h, h3⟩ := split_last h (n3 _) (n3 _)
  obtain ⟨h, h4⟩ := split_last h (n4 _) (n4 _)
  refine ⟨h, category_debug_inj (List.append_cancel_right h4), ?_, toDigits_inj (List.append_cancel_right h2), fmtInt_inj (List.append_cancel_right h1)⟩
  clear * - h3
  revert n₁ n₂; decide

theorem debug_eq {x : IeeeFloat S} {s : List Char} (h : x.debug = .ok s) :
    ∃ d, x.display none none false = .ok d ∧ s = debugText d x.category x.sign x.sig x.exp := by
  unfold IeeeFloat.debug at h
  cases c : x.display none none false with
  | error e => rw [c] at h; exact nomatch h
  | ok d =>
    rw [c, M.ok_bind] at h
    injection h with h
    exact ⟨d, rfl, h.symm⟩

/-- **C87.** `{:?}` of a well-formed float does not panic, whatever the options of the formatter. -/
theorem C87_debug_total (h : S.OK) {x : IeeeFloat S} (hx : x.Valid) : ∃ s, x.debug = .ok s := by
  obtain ⟨s, hs⟩ := C48_display_total_partial h hx none none false (by simp) (by simp)
  unfold IeeeFloat.debug
  rw [hs]
  exact ⟨_, rfl⟩

example := C87_debug_total halfS_ok (x := ⟨5, 16, .nan, true⟩) (by decide)

/-- **C87.** `{:?}` tells any two floats apart, NaN payloads and the sign of zero included. -/
theorem C87_debug_injective {x y : IeeeFloat S} {s : List Char} (hx : x.debug = .ok s) (hy : y.debug = .ok s) : x = y := by
  obtain ⟨d, -, e⟩ := debug_eq hx
  obtain ⟨d', -, e'⟩ := debug_eq hy
  obtain ⟨-, h1, h2, h3, h4⟩ := debugText_inj (e.symm.trans e')
  cases x; cases y; simp_all

example := C87_debug_injective (S := singleS) (x := ⟨3 * 2 ^ 22, 1, .normal, true⟩) (y := ⟨3 * 2 ^ 22, 1, .normal, true⟩) (s := "-3(Normal | -[12582912] * 2^1)".toList)
  (by decide +kernel) (by decide +kernel)

theorem pair_debug_eq {x : DoubleFloat S} {s : List Char} (h : x.debug = .ok s) :
    ∃ a b, x.hi.debug = .ok a ∧ x.lo.debug = .ok b ∧ s = "DoubleFloat(".toList ++ a ++ ", ".toList ++ b ++ ")".toList := by
  unfold DoubleFloat.debug at h
  cases c : x.hi.debug with
  | error e => rw [c] at h; exact nomatch h
  | ok a =>
    rw [c, M.ok_bind] at h
    cases c' : x.lo.debug with
    | error e => rw [c'] at h; exact nomatch h
    | ok b =>
      rw [c', M.ok_bind] at h
      injection h with h
      exact ⟨a, b, rfl, rfl, h.symm⟩

/-- **C87.** The same for pairs. -/
theorem C87_pair_debug (h : S.OK) {x : DoubleFloat S} (hx : x.Valid) :
    (∃ s, x.debug = .ok s) ∧ ∀ (y : DoubleFloat S) (s : List Char), x.debug = .ok s → y.debug = .ok s → x = y := by
  constructor
  · obtain ⟨a, ha⟩ := C87_debug_total h hx.1
    obtain ⟨b, hb⟩ := C87_debug_total h hx.2
    unfold DoubleFloat.debug
    rw [ha, M.ok_bind, hb]
    exact ⟨_, rfl⟩
  · intro y s h1 h2
    obtain ⟨a, b, a1, a2, a3⟩ := pair_debug_eq h1
    obtain ⟨a', b', b1, b2, b3⟩ := pair_debug_eq h2
    obtain ⟨d, d1, d2⟩ := debug_eq a2
    obtain ⟨d', d1', d2'⟩ := debug_eq b2
    have e := a3.symm.trans b3
    have e := List.append_cancel_right e
    rw [d2, d2'] at e
    have mv : ∀ p d c n s e, p ++ debugText d c n s e = debugText (p ++ d) c n s e := by
      intro p d c n s e; unfold debugText; simp only [List.append_assoc]
    rw [mv, mv] at e
    obtain ⟨e1, h1, h2, h3, h4⟩ := debugText_inj e
    have hlo : x.lo = y.lo := by
      cases hx : x.lo; cases hy : y.lo
      rw [hx, hy] at h1 h2 h3 h4
      simp_all
    rw [hlo, d1'] at d1
    injection d1 with d1
    rw [d1] at e1
    have e1 := List.append_cancel_right (List.append_cancel_right e1)
    have e1 := List.append_cancel_left e1
    have hhi : x.hi = y.hi := C87_debug_injective a1 (e1 ▸ b1)
    cases x; cases y; simp_all

example := C87_pair_debug doubleS_ok (x := ⟨⟨2 ^ 52, 0, .normal, false⟩, ⟨2 ^ 52, -60, .normal, true⟩⟩) (by decide +kernel)

/-- The text of `{:#?}` contains the text of `{:?}` of both parts, so it tells pairs apart when `{:?}` does. -/
theorem C87_pair_debug_pretty (h : S.OK) {x : DoubleFloat S} (hx : x.Valid) :
    (∃ s, x.debugPretty = .ok s) ∧ ∀ (y : DoubleFloat S) (s : List Char), x.debugPretty = .ok s → y.debugPretty = .ok s → x = y := by
  have key : ∀ {z : DoubleFloat S} {s : List Char}, z.debugPretty = .ok s → ∃ a b, z.hi.debug = .ok a ∧ z.lo.debug = .ok b ∧
      s = "DoubleFloat(\n    ".toList ++ a ++ ",\n    ".toList ++ b ++ ",\n)".toList := by
    intro z s hz
    unfold DoubleFloat.debugPretty at hz
    cases c : z.hi.debug with
    | error e => rw [c] at hz; exact nomatch hz
    | ok a =>
      rw [c, M.ok_bind] at hz
      cases c' : z.lo.debug with
      | error e => rw [c'] at hz; exact nomatch hz
      | ok b =>
        rw [c', M.ok_bind] at hz
        injection hz with hz
        exact ⟨a, b, rfl, rfl, hz.symm⟩
  constructor
  · obtain ⟨a, ha⟩ := C87_debug_total h hx.1
    obtain ⟨b, hb⟩ := C87_debug_total h hx.2
    unfold DoubleFloat.debugPretty
    rw [ha, M.ok_bind, hb]
    exact ⟨_, rfl⟩
  · intro y s h1 h2
    obtain ⟨a, b, a1, a2, a3⟩ := key h1
    obtain ⟨a', b', b1, b2, b3⟩ := key h2
    obtain ⟨d, d1, d2⟩ := debug_eq a2
    obtain ⟨d', d1', d2'⟩ := debug_eq b2
    have e := a3.symm.trans b3
    have e := List.append_cancel_right e
    rw [d2, d2'] at e
    have mv : ∀ p d c n s e, p ++ debugText d c n s e = debugText (p ++ d) c n s e := by
      intro p d c n s e; unfold debugText; simp only [List.append_assoc]
    rw [mv, mv] at e
    obtain ⟨e1, h1, h2, h3, h4⟩ := debugText_inj e
    have hlo : x.lo = y.lo := by
      cases hx : x.lo; cases hy : y.lo
      rw [hx, hy] at h1 h2 h3 h4
      simp_all
    rw [hlo, d1'] at d1
    injection d1 with d1
    rw [d1] at e1
    have e1 := List.append_cancel_right (List.append_cancel_right e1)
    have e1 := List.append_cancel_left e1
    have hhi : x.hi = y.hi := C87_debug_injective a1 (e1 ▸ b1)
    cases x; cases y; simp_all

example := C87_pair_debug_pretty doubleS_ok (x := ⟨⟨2 ^ 52, 0, .normal, false⟩, ⟨2 ^ 52, -60, .normal, true⟩⟩) (by decide +kernel)

/-! ## C88 -/

theorem delivers_ok (h : S.OK) {mode : Round} {v : ℚ} {zs : Bool} {r : StatusAnd (IeeeFloat S)} (hr : Rounds S mode v zs r) :
    (r.status = Status.OK ↔ S.fmt.Finite v) ∧ (S.fmt.Finite v → r.value.isFinite = true ∧ r.value.toRat = v) := by
  by_cases hL : |v| ≤ S.fmt.largest
  · obtain ⟨f, i, s⟩ := rounds_fine h hr hL
    have k : S.fmt.Finite v → r.value.toRat = v := fun hf => (Faith.of_rounded i).exact hf.1
    refine ⟨⟨fun hs => ?_, fun hf => ?_⟩, fun hf => ⟨f, k hf⟩⟩
    · have : r.value.toRat = v := by
        rw [hs] at s
        have := congrArg Status.inexact s
        simpa [Status.OK] using this
      exact ⟨this ▸ i.1, hL⟩
    · rw [s]; simp [k hf, Status.OK]
  · have nf : ¬ S.fmt.Finite v := fun hf => hL hf.2
    refine ⟨⟨fun hs => ?_, fun hf => absurd hf nf⟩, fun hf => absurd hf nf⟩
    obtain ⟨⟨g, g1, g2⟩, -⟩ := hr
    rcases g2 with ⟨g2, -, g3⟩ | ⟨-, g3⟩
    · rw [hs] at g3
      have := congrArg Status.inexact g3
      have : g = v := by simpa [Status.OK] using this
      exact absurd (this ▸ g2) hL
    · have h2 : r.status = (overflowed S.fmt mode r.value.sign).2 := congrArg Prod.snd g3
      have h3 : (overflowed S.fmt mode r.value.sign).2.inexact = true := by
        unfold overflowed
        dsimp only
        split_ifs <;> rfl
      rw [← h2, hs] at h3
      exact absurd h3 (by decide)

/-- `unwrap` of a correctly rounded result. -/
theorem unwrap_rounds (h : S.OK) {mode : Round} {v : ℚ} {zs : Bool} {r : StatusAnd (IeeeFloat S)} (hv : r.value.Valid) (hr : Rounds S mode v zs r) :
    (S.fmt.Finite v → ∃ z, r.unwrap IeeeFloat.debug = .ok z ∧ z.Valid ∧ z.isFinite = true ∧ z.toRat = v) ∧
      (¬ S.fmt.Finite v → r.unwrap IeeeFloat.debug = .error .assert) := by
  obtain ⟨h1, h2⟩ := delivers_ok h hr
  refine ⟨fun hf => ⟨r.value, by unfold StatusAnd.unwrap; rw [if_pos (h1.2 hf)], hv, h2 hf⟩, fun hf => ?_⟩
  unfold StatusAnd.unwrap
  rw [if_neg fun q => hf (h1.1 q)]
  obtain ⟨s, hs⟩ := C87_debug_total h hv
  rw [hs]; rfl

/-- **C88.** `(x + y).unwrap()` on finite operands returns the exact sum if it is a float of the format, and panics otherwise; in every mode. -/
theorem C88_unwrap_add (h : S.OK) {x y : IeeeFloat S} (hx : x.Valid) (hy : y.Valid) (fx : x.isFinite = true) (fy : y.isFinite = true) (mode : Round) :
    ∃ r, addR x y mode = .ok r ∧
      (S.fmt.Finite (x.toRat + y.toRat) → ∃ z, r.unwrap IeeeFloat.debug = .ok z ∧ z.Valid ∧ z.isFinite = true ∧ z.toRat = x.toRat + y.toRat) ∧
      (¬ S.fmt.Finite (x.toRat + y.toRat) → r.unwrap IeeeFloat.debug = .error .assert) := by
  obtain ⟨om, hom⟩ := exists_effective S mode (x.toRat + y.toRat)
  obtain ⟨r, r1, r2, r3⟩ := addR_eff h hx hy fx fy mode hom
  exact ⟨r, r1, unwrap_rounds h r2 r3⟩

example := C88_unwrap_add singleS_ok ex15_valid exM3_valid rfl rfl .towardZero

/-- **C88.** The same for differences. -/
theorem C88_unwrap_sub (h : S.OK) {x y : IeeeFloat S} (hx : x.Valid) (hy : y.Valid) (fx : x.isFinite = true) (fy : y.isFinite = true) (mode : Round) :
    ∃ r, subR x y mode = .ok r ∧
      (S.fmt.Finite (x.toRat - y.toRat) → ∃ z, r.unwrap IeeeFloat.debug = .ok z ∧ z.Valid ∧ z.isFinite = true ∧ z.toRat = x.toRat - y.toRat) ∧
      (¬ S.fmt.Finite (x.toRat - y.toRat) → r.unwrap IeeeFloat.debug = .error .assert) := by
  obtain ⟨om, hom⟩ := exists_effective S mode (x.toRat - y.toRat)
  obtain ⟨r, r1, r2, r3⟩ := subR_eff h hx hy fx fy mode hom
  exact ⟨r, r1, unwrap_rounds h r2 r3⟩

example := C88_unwrap_sub singleS_ok ex15_valid exM3_valid rfl rfl .towardZero

/-- **C88.** The same for products. -/
theorem C88_unwrap_mul (h : S.OK) {x y : IeeeFloat S} (hx : x.Valid) (hy : y.Valid) (fx : x.isFinite = true) (fy : y.isFinite = true) (mode : Round) :
    ∃ r, mulR x y mode = .ok r ∧
      (S.fmt.Finite (x.toRat * y.toRat) → ∃ z, r.unwrap IeeeFloat.debug = .ok z ∧ z.Valid ∧ z.isFinite = true ∧ z.toRat = x.toRat * y.toRat) ∧
      (¬ S.fmt.Finite (x.toRat * y.toRat) → r.unwrap IeeeFloat.debug = .error .assert) := by
  obtain ⟨om, hom⟩ := exists_effective S mode (x.toRat * y.toRat)
  obtain ⟨r, r1, r2, r3⟩ := mulR_eff h hx hy fx fy mode hom
  exact ⟨r, r1, unwrap_rounds h r2 r3⟩

example := C88_unwrap_mul singleS_ok ex15_valid exM3_valid rfl rfl .towardZero

/-- **C88.** The same for quotients by a nonzero number. -/
theorem C88_unwrap_div (h : S.OK) {x y : IeeeFloat S} (hx : x.Valid) (hy : y.Valid) (fx : x.isFinite = true) (fy : y.isFinite = true) (y0 : y.toRat ≠ 0)
    (mode : Round) :
    ∃ r, divR x y mode = .ok r ∧
      (S.fmt.Finite (x.toRat / y.toRat) → ∃ z, r.unwrap IeeeFloat.debug = .ok z ∧ z.Valid ∧ z.isFinite = true ∧ z.toRat = x.toRat / y.toRat) ∧
      (¬ S.fmt.Finite (x.toRat / y.toRat) → r.unwrap IeeeFloat.debug = .error .assert) := by
  obtain ⟨om, hom⟩ := exists_effective S mode (x.toRat / y.toRat)
  obtain ⟨r, r1, r2, r3⟩ := divR_eff h hx hy fx fy y0 mode hom
  exact ⟨r, r1, unwrap_rounds h r2 r3⟩

example := C88_unwrap_div singleS_ok ex15_valid exM3_valid rfl rfl exM3_ne .towardZero

/-- **C88.** The same for conversions between formats. -/
theorem C88_unwrap_convert {T : Sem} (hS : S.OK) (hT : T.OK) {x : IeeeFloat S} (hx : x.Valid) (fx : x.isFinite = true) (mode : Round) :
    ∃ c, convertR S T x mode = .ok c ∧
      (T.fmt.Finite x.toRat → ∃ z, StatusAnd.unwrap IeeeFloat.debug ⟨c.status, c.value⟩ = .ok z ∧ z.Valid ∧ z.isFinite = true ∧ z.toRat = x.toRat) ∧
      (¬ T.fmt.Finite x.toRat → StatusAnd.unwrap IeeeFloat.debug ⟨c.status, c.value⟩ = .error .assert) := by
  obtain ⟨om, hom⟩ := exists_effective T mode x.toRat
  obtain ⟨c, r1, r2, -, r3⟩ := convertR_eff hS hT hx fx mode hom
  exact ⟨c, r1, unwrap_rounds hT (r := ⟨c.status, c.value⟩) r2 r3⟩

example := C88_unwrap_convert singleS_ok halfS_ok (x := ⟨2 ^ 23 + 1, 1, .normal, true⟩) (by decide) rfl .towardZero

/-- **C88.** The same for the fused multiply-add (partial: without the operands `FmaExcluded` describes, on which the code is wrong). -/
theorem C88_unwrap_mul_add_partial (h : S.OK) {x m z : IeeeFloat S} (hx : x.Valid) (hm : m.Valid) (hz : z.Valid)
    (fx : x.isFinite = true) (fm : m.isFinite = true) (fz : z.isFinite = true) (mode : Round) (hE : ¬ FmaExcluded S (x.toRat * m.toRat) z.toRat) :
    ∃ r, mulAddR x m z mode = .ok r ∧
      (S.fmt.Finite (x.toRat * m.toRat + z.toRat) →
        ∃ w, r.unwrap IeeeFloat.debug = .ok w ∧ w.Valid ∧ w.isFinite = true ∧ w.toRat = x.toRat * m.toRat + z.toRat) ∧
      (¬ S.fmt.Finite (x.toRat * m.toRat + z.toRat) → r.unwrap IeeeFloat.debug = .error .assert) := by
  obtain ⟨om, hom⟩ := exists_effective S mode (x.toRat * m.toRat + z.toRat)
  obtain ⟨r, r1, r2, r3⟩ := mulAddR_eff h hx hm hz fx fm fz mode hom hE
  exact ⟨r, r1, unwrap_rounds h r2 r3⟩

example := C88_unwrap_mul_add_partial singleS_ok ex15_valid exM3_valid ex15_valid rfl rfl rfl .towardZero
  (fma_not_excluded (Or.inr (by decide +kernel)))

/-- **C88.** The same for integers: `from_u128(n).unwrap()` succeeds exactly when `n` is a value of the format. -/
theorem C88_unwrap_from_u128 (h : S.OK) {n : ℕ} (hn : n < 2 ^ 128) (mode : Round) :
    ∃ r, fromU128R S n mode = .ok r ∧
      (S.fmt.Finite n → ∃ z, r.unwrap IeeeFloat.debug = .ok z ∧ z.Valid ∧ z.isFinite = true ∧ z.toRat = n) ∧
      (¬ S.fmt.Finite n → r.unwrap IeeeFloat.debug = .error .assert) := by
  obtain ⟨r, r1, r2, r3⟩ := C17_from_u128 h hn mode
  exact ⟨r, r1, unwrap_rounds h r2 r3⟩

example := C88_unwrap_from_u128 singleS_ok (n := 2 ^ 24 + 1) (by norm_num) .towardZero

/-- **C88.** The same for signed integers. -/
theorem C88_unwrap_from_i128 (h : S.OK) {n : ℤ} (h1 : -2 ^ 127 ≤ n) (h2 : n < 2 ^ 127) (mode : Round) :
    ∃ r, fromI128R S n mode = .ok r ∧
      (S.fmt.Finite n → ∃ z, r.unwrap IeeeFloat.debug = .ok z ∧ z.Valid ∧ z.isFinite = true ∧ z.toRat = n) ∧
      (¬ S.fmt.Finite n → r.unwrap IeeeFloat.debug = .error .assert) := by
  obtain ⟨r, r1, r2, r3⟩ := C17_from_i128 h h1 h2 mode
  exact ⟨r, r1, unwrap_rounds h r2 r3⟩

example := C88_unwrap_from_i128 singleS_ok (n := -(2 ^ 24 + 1)) (by norm_num) (by norm_num) .towardZero

/-- **C88.** `round_to_integral(..).unwrap()` of a finite number succeeds exactly on integers, and then changes nothing; in every mode. -/
theorem C88_unwrap_integral (h : S.OK) {x : IeeeFloat S} (hx : x.Valid) (fx : x.isFinite = true) (mode : Round) :
    ∃ r, roundToIntegral x mode = .ok r ∧
      ((∃ n : ℤ, x.toRat = n) → ∃ z, r.unwrap IeeeFloat.debug = .ok z ∧ z.bitwiseEq x = true) ∧
      ((¬ ∃ n : ℤ, x.toRat = n) → r.unwrap IeeeFloat.debug = .error .assert) := by
  obtain ⟨r, h1, h2, -, -, n, -, h6, h7⟩ := C13_round_to_integral h hx fx mode
  refine ⟨r, h1, fun hi => ?_, fun hi => ?_⟩
  · obtain ⟨r', q1, q2, q3⟩ := C13_integers_unchanged h hx fx mode hi
    obtain rfl : r = r' := Except.ok.inj (h1.symm.trans q1)
    exact ⟨r.value, by unfold StatusAnd.unwrap; rw [if_pos q2], q3⟩
  · have ne : r.status ≠ Status.OK := by
      intro q
      rw [h7] at q
      have := congrArg Status.inexact q
      exact hi ⟨n, (not_not.1 (of_decide_eq_false this)).symm⟩
    unfold StatusAnd.unwrap
    rw [if_neg ne]
    obtain ⟨s, hs⟩ := C87_debug_total h h2
    rw [hs]; rfl

example := C88_unwrap_integral singleS_ok ex15_valid rfl .towardZero

/-- **C88.** `(x % y).unwrap()` and `ieee_rem(..).unwrap()` of finite operands, `y` not zero, never panic. -/
theorem C88_unwrap_rem (h : S.OK) {x y : IeeeFloat S} (hx : x.Valid) (hy : y.Valid) (fx : x.isFinite = true) (fy : y.isFinite = true) (y0 : y.toRat ≠ 0) :
    (∃ r, cFmod x y = .ok r ∧ r.unwrap IeeeFloat.debug = .ok r.value) ∧ (∃ r, ieeeRem x y = .ok r ∧ r.unwrap IeeeFloat.debug = .ok r.value) := by
  obtain ⟨r, h1, -⟩ := C23_c_fmod h hx hy fx fy y0
  obtain ⟨r', h1', -⟩ := C24_ieee_rem h hx hy fx fy y0
  exact ⟨⟨_, h1, rfl⟩, ⟨_, h1', rfl⟩⟩

example := C88_unwrap_rem singleS_ok ex15_valid exM3_valid rfl rfl exM3_ne

/-- **C88.** The flags of the model are the bits of the `u8`: every set of flags has its own byte below 32, `|` and `-` of flags are those of the bytes. -/
theorem C88_status_bits (a b : Status) : a.bits < 32 ∧ Status.ofBits a.bits = a ∧ (a.bits = b.bits → a = b) ∧ (a ||| b).bits = a.bits ||| b.bits ∧
    (a.diff b).bits = a.bits &&& (0xff ^^^ b.bits) := by
  obtain ⟨a1, a2, a3, a4, a5⟩ := a
  obtain ⟨b1, b2, b3, b4, b5⟩ := b
  revert a1 a2 a3 a4 a5 b1 b2 b3 b4 b5
  decide

/-- **C88.** Every byte below 32 is a set of flags. -/
theorem C88_status_of_bits (n : ℕ) (hn : n < 32) : (Status.ofBits n).bits = n := by
  revert n; decide

/-! Non-vacuity and samples. -/
example : ex15.Valid ∧ exM3.Valid ∧ ex15.isFinite = true ∧ exM3.isFinite = true ∧ exM3.toRat ≠ 0 := by
  refine ⟨by decide, by decide, by decide, by decide, by decide +kernel⟩

example : ex15.debug = .ok "1.5(Normal | +[12582912] * 2^0)".toList := by decide +kernel
example : exM3.debug = .ok "-3(Normal | -[12582912] * 2^1)".toList := by decide +kernel
example : Status.OK.bits = 0 ∧ Status.INVALID_OP.bits = 0x01 ∧ Status.DIV_BY_ZERO.bits = 0x02 ∧ Status.OVERFLOW.bits = 0x04 ∧ Status.UNDERFLOW.bits = 0x08 ∧
    Status.INEXACT.bits = 0x10 := by decide

end Apf
