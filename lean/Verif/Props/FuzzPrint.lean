import Verif.Model.FuzzPrint
import Verif.Props.FuzzHard
import Verif.Props.Display
/-! # C112: the subcommand `decode` of the fuzzing tool -/

namespace Apf
open Fuzz IeeeFloat Spec

variable {R : FloatRepr}

/-- A text without line breaks and exclamation marks. -/
def Plain (s : List Char) : Prop := '\n' ∉ s ∧ '!' ∉ s

theorem Plain.append {s t : List Char} (hs : Plain s) (ht : Plain t) : Plain (s ++ t) := by
  unfold Plain at *; simp only [List.mem_append, not_or]; tauto

theorem Plain.cons {c : Char} {t : List Char} (hc : c ≠ '\n' ∧ c ≠ '!') (ht : Plain t) : Plain (c :: t) := by
  unfold Plain at *; simp only [List.mem_cons, not_or]; tauto

theorem plain_digits {b : ℕ} {l : List Char} (h : ∀ c ∈ l, IsDigit b c) : Plain l := by
  have : ∀ c : Char, digit? c = none → c ∉ l := by
    intro c hc hm
    obtain ⟨d, d1, -⟩ := h c hm
    rw [hc] at d1; cases d1
  exact ⟨this _ (by decide), this _ (by decide)⟩

theorem IsDec.plain {s : List Char} {v : ℚ} (h : IsDec s v) : Plain s := by
  obtain ⟨m, ip, fp, ⟨h1, h2, -, h3⟩, h4⟩ := h
  have hm : Plain m := by
    rcases h3 with ⟨-, rfl⟩ | rfl
    · exact plain_digits h1
    · exact (plain_digits h1).append (.cons (by decide) (plain_digits h2))
  rcases h4 with ⟨rfl, -⟩ | ⟨x, ds, e, ⟨d1, d2⟩, h5, -⟩
  · exact hm
  · have hx : Plain x := by
      rcases d2 with ⟨rfl, -⟩ | ⟨rfl, -⟩ | ⟨rfl, -⟩
      · exact plain_digits d1
      · exact .cons (by decide) (plain_digits d1)
      · exact .cons (by decide) (plain_digits d1)
    rcases h5 with rfl | rfl
    · exact hm.append (.cons (by decide) hx)
    · exact hm.append (.cons (by decide) hx)

theorem display_plain {S : Sem} (h : S.OK) {x : IeeeFloat S} (hx : x.Valid) : ∃ t, x.display none none false = .ok t ∧ Plain t := by
  have hs : ∀ b, Plain (signText b) := by unfold signText Plain; decide
  cases hc : x.category with
  | infinity =>
    unfold display; simp only [hc]; refine ⟨_, rfl, ?_⟩
    unfold Plain; cases x.isNegative <;> decide
  | nan => unfold display; simp only [hc]; exact ⟨_, rfl, by unfold Plain; decide⟩
  | zero =>
    obtain ⟨t, t1, t2, -⟩ := C34_zero (x := x) (by simp [isZero, hc]) none none false
    exact ⟨_, t1, (hs _).append (IsDec.plain t2)⟩
  | normal =>
    obtain ⟨w, -, w2⟩ := display_ok h hx hc (prec := none) rfl (by rw [Option.getD_none]; omega) (by have := h.p_le; rw [Option.getD_none]; omega)
    obtain ⟨t, t1, t2, -⟩ := w2 none false
    exact ⟨_, t1, (hs _).append (IsDec.plain t2)⟩

/-! ### Hexadecimal digits -/

theorem toDigits16_ok (n : ℕ) : (∀ c ∈ Nat.toDigits 16 n, IsDigit 16 c) ∧ number 16 (Nat.toDigits 16 n) = n := by
  have hdc : ∀ d < 16, digit? (Nat.digitChar d) = some d := by decide
  induction n using Nat.strong_induction_on with
  | _ n ih =>
    by_cases h : n < 16
    · rw [Nat.toDigits_of_lt_base h]
      refine ⟨?_, ?_⟩
      · intro c hc
        rw [List.mem_singleton] at hc
        subst hc
        exact ⟨n, hdc n h, h⟩
      · rw [show [n.digitChar] = [] ++ [n.digitChar] from rfl, number_snoc, hdc n h]; simp [number_nil]
    · rw [Nat.toDigits_of_base_le (by norm_num) (by omega)]
      obtain ⟨a1, a2⟩ := ih (n / 16) (by omega)
      have hr := hdc (n % 16) (Nat.mod_lt _ (by norm_num))
      refine ⟨?_, ?_⟩
      · intro c hc
        rcases List.mem_append.1 hc with hc | hc
        · exact a1 c hc
        · rw [List.mem_singleton] at hc
          subst hc
          exact ⟨n % 16, hr, Nat.mod_lt _ (by norm_num)⟩
      · rw [number_snoc, a2, hr, Option.getD_some]; omega

theorem toDigits16_length {w : ℕ} (hw : 1 ≤ w) : ∀ {n : ℕ}, n < 16 ^ w → (Nat.toDigits 16 n).length ≤ w := by
  induction w, hw using Nat.le_induction with
  | base => intro n hn; rw [Nat.toDigits_of_lt_base (by simpa using hn)]; simp
  | succ w hw ih =>
    intro n hn
    by_cases h : n < 16
    · rw [Nat.toDigits_of_lt_base h]; simp
    · rw [Nat.toDigits_of_base_le (by norm_num) (by omega), List.length_append]
      have := ih (n := n / 16) (by rw [pow_succ] at hn; omega)
      simpa using this

theorem hexPadded_ok {w n : ℕ} (hw : 1 ≤ w) (hn : n < 16 ^ w) : (hexPadded w n).length = w ∧ (∀ c ∈ hexPadded w n, IsDigit 16 c) ∧ number 16 (hexPadded w n) = n := by
  have := toDigits16_length hw hn
  obtain ⟨h1, h2⟩ := toDigits16_ok n
  unfold hexPadded
  refine ⟨by simp; omega, ?_, ?_⟩
  · intro c hc
    rcases List.mem_append.1 hc with hc | hc
    · rw [List.eq_of_mem_replicate hc]; exact ⟨0, by decide, by decide⟩
    · exact h1 c hc
  · rw [number_append, h2]
    have : ∀ k, number 16 (List.replicate k '0') = 0 := by
      intro k
      induction k with
      | zero => rfl
      | succ k ih => rw [List.replicate_succ', number_snoc, ih]; decide
    rw [this]; omega

/-! ### The pieces of the output -/

theorem ifTerminal_plain {s : String} (h : Plain s.toList) (term : Bool) : Plain (ifTerminal term s) := by
  unfold ifTerminal; cases term
  · exact ⟨by simp, by simp⟩
  · exact h

variable {native : FloatRepr → ℕ → List Char} {term : Bool}

theorem displayBits_ok (hR : R ∈ reprs) (hn : ∀ R b, Plain (native R b)) {b : ℕ} (hb : R.hasHard = false → b < 2 ^ R.sem.bits) :
    ∃ t, displayBits native R b = .ok t ∧ Plain t := by
  unfold displayBits
  cases hh : R.hasHard with
  | true => exact ⟨_, rfl, hn R b⟩
  | false =>
    have hE := reprs_enc hR
    obtain ⟨x, x1, x2, -⟩ := C02_from_bits_decodes hE (hb hh)
    obtain ⟨t, t1, t2⟩ := display_plain hE.toOK x2
    refine ⟨t, ?_, t2⟩
    simp only [Bool.false_eq_true, if_false, x1, bind, Except.bind]
    exact t1

theorem valueText_ok (hR : R ∈ reprs) (hn : ∀ R b, Plain (native R b)) {b : ℕ} (hb : R.hasHard = false → b < 2 ^ R.sem.bits) :
    ∃ t, valueText native term R b = .ok t ∧ Plain t := by
  obtain ⟨d, d1, d2⟩ := displayBits_ok hR hn hb
  refine ⟨_, by unfold valueText; rw [d1]; rfl, ?_⟩
  have hx : Plain (hexPadded (R.byteLen * 2) b) := by
    unfold hexPadded
    refine .append ?_ (plain_digits (toDigits16_ok b).1)
    exact plain_digits (b := 10) (fun c hc => by rw [List.eq_of_mem_replicate hc]; exact isDigit_zero)
  have n : Plain (ifTerminal term "\x1b[m") := ifTerminal_plain (by unfold Plain; decide) _
  refine ((((((((Plain.append ?_ ?_).append hx).append n).append ?_).append ?_).append ?_).append d2).append ?_).append n
  · exact ifTerminal_plain (by unfold Plain; decide) _
  · unfold Plain; decide
  · unfold Plain; decide
  · exact ifTerminal_plain (by unfold Plain; decide) _
  · unfold Plain; decide
  · unfold Plain; decide

theorem hex_width (hR : R ∈ reprs) : 1 ≤ R.byteLen * 2 ∧ 16 ^ (R.byteLen * 2) = 2 ^ R.sem.bits := by
  have h := reprs_ok hR
  have h1 := h.pos
  have h2 := h.eight
  rw [h.byteLen, show (16 : ℕ) = 2 ^ 4 by norm_num, ← pow_mul]
  exact ⟨by omega, by congr 1; omega⟩

/-- The text of a value starts with its bits: texts of different values differ, and the text of a value is not the beginning of another one. -/
theorem valueText_inj (hR : R ∈ reprs) {b b' : ℕ} (hb : b < 2 ^ R.sem.bits) (hb' : b' < 2 ^ R.sem.bits) {t t' r r' : List Char}
    (h : valueText native term R b = .ok t) (h' : valueText native term R b' = .ok t') (e : t ++ r = t' ++ r') : b = b' ∧ r = r' := by
  obtain ⟨w1, w2⟩ := hex_width hR
  obtain ⟨l1, -, v1⟩ := hexPadded_ok (n := b) w1 (by rw [w2]; exact hb)
  obtain ⟨l2, -, v2⟩ := hexPadded_ok (n := b') w1 (by rw [w2]; exact hb')
  have hbb : b = b' := by
    have h0 := h
    have h0' := h'
    unfold valueText at h0 h0'
    cases d : displayBits native R b with
    | error => rw [d] at h0; cases h0
    | ok d1 =>
      cases d' : displayBits native R b' with
      | error => rw [d'] at h0'; cases h0'
      | ok d2 =>
        rw [d, M.ok_bind, Except.ok.injEq] at h0
        rw [d', M.ok_bind, Except.ok.injEq] at h0'
        rw [← h0, ← h0'] at e
        simp only [List.append_assoc] at e
        have e2 := (List.append_inj (List.append_cancel_left (List.append_cancel_left e)) (by rw [l1, l2])).1
        rw [← v1, ← v2, e2]
  subst hbb
  rw [h] at h'
  cases h'
  exact ⟨rfl, List.append_cancel_left e⟩

/-- The texts of the inputs in a line. -/
theorem join_inj (hR : R ∈ reprs) {r r' : List Char} : ∀ {xs ys : List ℕ} {ts us : List (List Char)}, (∀ x ∈ xs, x < 2 ^ R.sem.bits) → (∀ x ∈ ys, x < 2 ^ R.sem.bits) →
    List.Forall₂ (fun x t => valueText native term R x = .ok t) xs ts → List.Forall₂ (fun x t => valueText native term R x = .ok t) ys us → xs.length = ys.length →
    (List.intersperse ", ".toList ts).flatten ++ r = (List.intersperse ", ".toList us).flatten ++ r' → xs = ys
  | [], [], _, _, _, _, _, _, _, _ => rfl
  | [x], [y], _, _, hx, hy, .cons h1 .nil, .cons h2 .nil, _, e => by
    simp only [List.intersperse_singleton, List.flatten_cons, List.flatten_nil, List.append_nil] at e
    rw [(valueText_inj hR (hx x (by simp)) (hy y (by simp)) h1 h2 e).1]
  | x :: x2 :: xs, y :: y2 :: ys, _, _, hx, hy, .cons (b := t1) (l₂ := _ :: ts) h1 (.cons h3 h4), .cons (b := t2) (l₂ := _ :: us) h2 (.cons h5 h6), hl, e => by
    simp only [List.intersperse_cons₂, List.flatten_cons, List.append_assoc] at e
    obtain ⟨e1, e2⟩ := valueText_inj hR (hx x (by simp)) (hy y (by simp)) h1 h2 e
    rw [e1, join_inj hR (fun a ha => hx a (by simp [List.mem_cons.1 ha])) (fun a ha => hy a (by simp [List.mem_cons.1 ha])) (.cons h3 h4) (.cons h5 h6)
      (by simpa using hl) (by simpa using List.append_cancel_left e2)]

theorem opLine_ok (hR : R ∈ reprs) (hn : ∀ R b, Plain (native R b)) {op : FuzzOp ℕ} (hc : IsCase R op) :
    ∃ ts, List.Forall₂ (fun x t => valueText native term R x = .ok t ∧ Plain t) (inputsOf op) ts ∧
      opLine native term R op = .ok ("  ".toList ++ R.shortName ++ ".".toList ++ op.name ++ "(".toList ++ (List.intersperse ", ".toList ts).flatten ++ ")\n".toList) := by
  have key : ∀ x ∈ inputsOf op, ∃ t, valueText native term R x = .ok t ∧ Plain t := fun x hx => valueText_ok hR hn (fun _ => hc x hx)
  unfold opLine
  cases op with
  | neg a =>
    obtain ⟨t, t1, t2⟩ := key a (by simp [inputsOf])
    exact ⟨[t], .cons ⟨t1, t2⟩ .nil, by simp only [FuzzOp.mapM, t1, M.ok_bind]; rfl⟩
  | viaI128 a =>
    obtain ⟨t, t1, t2⟩ := key a (by simp [inputsOf])
    exact ⟨[t], .cons ⟨t1, t2⟩ .nil, by simp only [FuzzOp.mapM, t1, M.ok_bind]; rfl⟩
  | viaU128 a =>
    obtain ⟨t, t1, t2⟩ := key a (by simp [inputsOf])
    exact ⟨[t], .cons ⟨t1, t2⟩ .nil, by simp only [FuzzOp.mapM, t1, M.ok_bind]; rfl⟩
  | viaSingle a =>
    obtain ⟨t, t1, t2⟩ := key a (by simp [inputsOf])
    exact ⟨[t], .cons ⟨t1, t2⟩ .nil, by simp only [FuzzOp.mapM, t1, M.ok_bind]; rfl⟩
  | viaDouble a =>
    obtain ⟨t, t1, t2⟩ := key a (by simp [inputsOf])
    exact ⟨[t], .cons ⟨t1, t2⟩ .nil, by simp only [FuzzOp.mapM, t1, M.ok_bind]; rfl⟩
  | mulAdd a b c =>
    obtain ⟨t, t1, t2⟩ := key a (by simp [inputsOf])
    obtain ⟨u, u1, u2⟩ := key b (by simp [inputsOf])
    obtain ⟨v, v1, v2⟩ := key c (by simp [inputsOf])
    exact ⟨[t, u, v], .cons ⟨t1, t2⟩ (.cons ⟨u1, u2⟩ (.cons ⟨v1, v2⟩ .nil)), by simp only [FuzzOp.mapM, t1, u1, v1, M.ok_bind]; rfl⟩
  | add a b | sub a b | mul a b | div a b | rem a b =>
    obtain ⟨t, t1, t2⟩ := key a (by simp [inputsOf])
    obtain ⟨u, u1, u2⟩ := key b (by simp [inputsOf])
    exact ⟨[t, u], .cons ⟨t1, t2⟩ (.cons ⟨u1, u2⟩ .nil), by simp only [FuzzOp.mapM, t1, u1, M.ok_bind]; rfl⟩

theorem split_first {α : Type} {c : α} {s₁ s₂ t₁ t₂ : List α} (h : s₁ ++ c :: t₁ = s₂ ++ c :: t₂) (h₁ : c ∉ s₁) (h₂ : c ∉ s₂) : s₁ = s₂ ∧ t₁ = t₂ := by
  rcases List.append_eq_append_iff.1 h with ⟨a, a1, a2⟩ | ⟨a, a1, a2⟩
  · cases a with
    | nil => simp at a1 a2; exact ⟨a1.symm, a2⟩
    | cons b a =>
      rw [List.cons_append, List.cons.injEq] at a2
      exact absurd (by rw [a1, a2.1]; simp) h₂
  · cases a with
    | nil => simp at a1 a2; exact ⟨a1, a2.symm⟩
    | cons b a =>
      rw [List.cons_append, List.cons.injEq] at a2
      exact absurd (by rw [a1, a2.1]; simp) h₁

theorem shortName_ok : (∀ R ∈ reprs, '.' ∉ R.shortName ∧ '\n' ∉ R.shortName ∧ '!' ∉ R.shortName ∧ R.shortName.head? ≠ some 'i' ∧ R.shortName ≠ []) ∧
    ∀ R ∈ reprs, ∀ R' ∈ reprs, R.shortName = R'.shortName → R.tag = R'.tag := by
  constructor <;> decide +kernel

theorem opName_eq (op : FuzzOp ℕ) : op.tag < 11 ∧ op.name = (["Neg", "Add", "Sub", "Mul", "Div", "Rem", "MulAdd", "FToI128ToF", "FToU128ToF", "FToSingleToF",
    "FToDoubleToF"].map String.toList)[op.tag]! := by
  cases op <;> exact ⟨by simp only [FuzzOp.tag]; decide, rfl⟩

theorem opName_ok (op : FuzzOp ℕ) : '(' ∉ op.name ∧ '\n' ∉ op.name ∧ '!' ∉ op.name := by
  obtain ⟨h1, h2⟩ := opName_eq op
  rw [h2]
  generalize op.tag = i at h1
  revert i
  decide +kernel

theorem opName_inj {op op' : FuzzOp ℕ} (h : op.name = op'.name) : op.tag = op'.tag ∧ (inputsOf op).length = (inputsOf op').length := by
  obtain ⟨h1, h2⟩ := opName_eq op
  obtain ⟨h1', h2'⟩ := opName_eq op'
  rw [h2, h2'] at h
  have e : op.tag = op'.tag := by
    generalize op.tag = i at *
    generalize op'.tag = j at *
    clear h2 h2'
    revert i j
    decide +kernel
  refine ⟨e, ?_⟩
  clear h h1 h2 h1' h2'
  revert e
  cases op <;> cases op' <;> simp [FuzzOp.tag, inputsOf]

theorem op_of_inputs {op op' : FuzzOp ℕ} (h : op.tag = op'.tag) (h' : inputsOf op = inputsOf op') : op = op' := by
  cases op <;> cases op' <;> simp_all [inputsOf, FuzzOp.tag]

/-- The mark of an answer that differs. -/
def mismatchMark : List Char := "!!! MISMATCH !!!".toList

theorem answerLine_ok (hR : R ∈ reprs) (hn : ∀ R b, Plain (native R b)) (rs : ℕ) {x : ℕ} (hx : R.hasHard = false → x < 2 ^ R.sem.bits) {label : String}
    (hl : Plain label.toList) :
    ∃ s, answerLine native term R rs x label = .ok (s ++ ['\n']) ∧ '\n' ∉ s ∧ (x = rs → '!' ∉ s) ∧ (x ≠ rs → mismatchMark <:+: s) := by
  obtain ⟨t, t1, t2⟩ := valueText_ok (term := term) hR hn hx
  have a1 : Plain "   => ".toList := by unfold Plain; decide
  have a2 : Plain " (".toList := by unfold Plain; decide
  have a3 : Plain ")".toList := by unfold Plain; decide
  have p := (((a1.append t2).append a2).append hl).append a3
  refine ⟨_, by unfold answerLine; rw [t1, M.ok_bind]; rfl, ?_, ?_, ?_⟩
  · split
    · have n : ∀ {s}, '\n' ∉ s.toList → '\n' ∉ ifTerminal term s := by intro s hs; unfold ifTerminal; cases term <;> simp [hs]
      simp only [List.mem_append, not_or]
      have n1 := n (s := "\x1b[1m\x1b[91m") (by decide)
      have n2 := n (s := "\x1b[m") (by decide)
      have p1 := p.1
      simp only [List.mem_append, not_or] at p1
      exact ⟨p1, ⟨⟨by decide, n1⟩, by decide⟩, n2⟩
    · simpa using p.1
  · intro e
    rw [if_neg (not_not.2 e), List.append_nil]
    exact p.2
  · intro e
    rw [if_pos e]
    refine ⟨"   => ".toList ++ t ++ " (".toList ++ label.toList ++ ")".toList ++ (" <- ".toList ++ ifTerminal term "\x1b[1m\x1b[91m"), ifTerminal term "\x1b[m", ?_⟩
    unfold mismatchMark
    simp only [List.append_assoc]

theorem answerLine?_ok (hR : R ∈ reprs) (hn : ∀ R b, Plain (native R b)) (rs : ℕ) {x : Option ℕ} (hx : R.hasHard = false → ∀ y, x = some y → y < 2 ^ R.sem.bits)
    {label : String} (hl : Plain label.toList) :
    ∃ s, answerLine? native term R rs x label = .ok s ∧ s.count '\n' = (if x.isSome then 1 else 0) ∧ ((∀ y, x = some y → y = rs) → '!' ∉ s) ∧
      (∀ y, x = some y → y ≠ rs → mismatchMark <:+: s) := by
  cases x with
  | none => exact ⟨[], rfl, rfl, by simp, by simp⟩
  | some y =>
    obtain ⟨s, s1, s2, s3, s4⟩ := answerLine_ok (term := term) hR hn rs (x := y) (fun hh => hx hh y rfl) hl
    refine ⟨_, s1, ?_, fun h => ?_, fun z hz hne => ?_⟩
    · rw [List.count_append, List.count_eq_zero_of_not_mem s2]; rfl
    · have := s3 (h y rfl)
      simp only [List.mem_append, not_or]
      exact ⟨this, by decide⟩
    · cases hz
      exact (s4 hne).trans (List.prefix_append _ _).isInfix

/-- The answers of LLVM and of the hardware are bit patterns of the format. -/
structure InFormat (orc : Oracle) : Prop where
  cxx : ∀ R ∈ reprs, ∀ op, IsCase R op → orc.cxx R op < 2 ^ R.sem.bits
  hard : ∀ R ∈ reprs, R.hasHard = true → ∀ op, IsCase R op → orc.hard R op < 2 ^ R.sem.bits

/-- The number of answers that are compared with that of the library. -/
def others (args : Args) (R : FloatRepr) : ℕ := (if args.ignoreCxx then 0 else 1) + (if args.ignoreHard then 0 else if R.hasHard then 1 else 0)

theorem eval_shape {args : Args} {orc : Oracle} {op : FuzzOp ℕ} {o : Outputs} (h : eval args orc R op = .ok o) :
    o.cxxApf = (if args.ignoreCxx then none else some (orc.cxx R op)) ∧ o.hard.isSome = (!args.ignoreHard && R.hasHard) := by
  unfold eval at h
  cases e : evalBits R op with
  | error => rw [e] at h; cases h
  | ok rs =>
    rw [e, M.ok_bind] at h
    cases h1 : args.ignoreHard with
    | true =>
      simp only [h1, if_true] at h
      cases h; exact ⟨rfl, rfl⟩
    | false =>
      cases h2 : R.hasHard with
      | false =>
        simp only [h1, h2, Bool.false_eq_true, if_false] at h
        cases h; exact ⟨rfl, rfl⟩
      | true =>
        simp only [h1, h2, Bool.false_eq_true, if_false, if_true] at h
        cases e1 : reconcile args R.sem op rs (orc.hard R op) with
        | error => rw [e1] at h; cases h
        | ok k =>
          rw [e1, M.ok_bind] at h
          cases e2 : R.fromBitsU128 k with
          | error => rw [e2] at h; cases h
          | ok k' =>
            rw [e2, M.ok_bind] at h
            cases h; exact ⟨rfl, rfl⟩

theorem allMatch_iff (o : Outputs) : o.allMatch = true ↔ (∀ y, o.cxxApf = some y → y = o.rsApf) ∧ (∀ y, o.hard = some y → y = o.rsApf) := by
  obtain ⟨rs, c, d⟩ := o
  unfold Outputs.allMatch
  cases c <;> cases d <;> simp

/-- The first line. -/
theorem opLine_body (hR : R ∈ reprs) (hn : ∀ R b, Plain (native R b)) {op : FuzzOp ℕ} (hc : IsCase R op) :
    ∃ ts, List.Forall₂ (fun x t => valueText native term R x = .ok t) (inputsOf op) ts ∧
      Plain ("  ".toList ++ R.shortName ++ ".".toList ++ op.name ++ "(".toList ++ (List.intersperse ", ".toList ts).flatten ++ ")".toList) ∧
      opLine native term R op = .ok (("  ".toList ++ R.shortName ++ ".".toList ++ op.name ++ "(".toList ++ (List.intersperse ", ".toList ts).flatten ++ ")".toList) ++ '\n' :: []) := by
  obtain ⟨ts, t1, t2⟩ := opLine_ok (term := term) hR hn hc
  have tp : ∀ t ∈ ts, Plain t := by
    clear t2
    generalize inputsOf op = xs at t1
    induction t1 with
    | nil => simp
    | cons h _ ih => intro t ht; rcases List.mem_cons.1 ht with rfl | ht; exacts [h.2, ih t ht]
  have tv : List.Forall₂ (fun x t => valueText native term R x = .ok t) (inputsOf op) ts := t1.imp (fun _ _ h => h.1)
  have jp : Plain (List.intersperse ", ".toList ts).flatten := by
    clear t1 t2 tv
    have sp : Plain ", ".toList := by unfold Plain; decide
    induction ts with
    | nil => exact ⟨by simp, by simp⟩
    | cons a l ih =>
      cases l with
      | nil => simpa using tp a (by simp)
      | cons b l =>
        rw [List.intersperse_cons₂, List.flatten_cons, List.flatten_cons]
        exact (tp a (by simp)).append (sp.append (ih (fun t ht => tp t (List.mem_cons_of_mem _ ht))))
  have bp : Plain ("  ".toList ++ R.shortName ++ ".".toList ++ op.name ++ "(".toList ++ (List.intersperse ", ".toList ts).flatten ++ ")".toList) := by
    obtain ⟨-, s1, s2, -⟩ := shortName_ok.1 R hR
    refine ((((((Plain.append ?_ ⟨s1, s2⟩).append ?_).append (opName_ok op).2).append ?_).append jp).append ?_) <;> (unfold Plain; decide)
  have t2' : opLine native term R op = .ok (("  ".toList ++ R.shortName ++ ".".toList ++ op.name ++ "(".toList ++ (List.intersperse ", ".toList ts).flatten ++ ")".toList) ++ '\n' :: []) := by
    rw [t2]; congr 1; simp
  exact ⟨ts, tv, bp, t2'⟩

/-- What is printed for a case. -/
theorem printOp_ok (hR : R ∈ reprs) (hn : ∀ R b, Plain (native R b)) (args : Args) {orc : Oracle} (ho : InFormat orc) {op : FuzzOp ℕ} (hc : IsCase R op) :
    ∃ ts rest, List.Forall₂ (fun x t => valueText native term R x = .ok t) (inputsOf op) ts ∧
      (let body := "  ".toList ++ R.shortName ++ ".".toList ++ op.name ++ "(".toList ++ (List.intersperse ", ".toList ts).flatten ++ ")".toList
       Plain body ∧ printOp native term args orc R op = .ok (body ++ '\n' :: rest)) ∧
      (FmaStops R op → rest = []) ∧
      ∀ rs, evalBits R op = .ok rs → rest.count '\n' = 1 + others args R ∧ (Matches args orc R op rs → '!' ∉ rest) ∧
        (¬ Matches args orc R op rs → mismatchMark <:+: rest) := by
  obtain ⟨ts, tv, bp, t2'⟩ := opLine_body (term := term) hR hn hc
  generalize hb : "  ".toList ++ R.shortName ++ ".".toList ++ op.name ++ "(".toList ++ (List.intersperse ", ".toList ts).flatten ++ ")".toList = body at bp t2'
  by_cases hf : FmaStops R op
  · have he := (C106_eval hR hc).1 hf
    refine ⟨ts, [], tv, ⟨by rw [hb]; exact bp, ?_⟩, fun _ => rfl, fun rs hrs => by rw [he] at hrs; cases hrs⟩
    have : eval args orc R op = .error .assert := by unfold eval; rw [he]; rfl
    unfold printOp
    rw [hb, t2', M.ok_bind, this]
  · obtain ⟨rs, r1, r2⟩ := (C106_eval hR hc).2 hf
    obtain ⟨o, o1, o2, o3⟩ := C108_eval hR args orc hc (fun hh => ho.hard R hR hh op hc) r1
    obtain ⟨e1, e2⟩ := eval_shape o1
    have hx1 : R.hasHard = false → ∀ y, o.cxxApf = some y → y < 2 ^ R.sem.bits := by
      intro _ y hy
      rw [e1] at hy
      split at hy
      · cases hy
      · cases hy; exact ho.cxx R hR op hc
    have hx2 : R.hasHard = false → ∀ y, o.hard = some y → y < 2 ^ R.sem.bits := by
      intro hh y hy
      rw [hy, hh] at e2
      simp at e2
    obtain ⟨a, a1, a2, a3, -⟩ := answerLine?_ok (term := term) hR hn o.rsApf (x := some o.rsApf) (label := "Rust / rustc_apfloat")
      (fun _ y hy => by cases hy; rw [o2]; exact r2) (by unfold Plain; decide)
    obtain ⟨b, b1, b2, b3, b4⟩ := answerLine?_ok (term := term) hR hn o.rsApf (x := o.cxxApf) (label := "C++ / llvm::APFloat") hx1 (by unfold Plain; decide)
    obtain ⟨c, c1, c2, c3, c4⟩ := answerLine?_ok (term := term) hR hn o.rsApf (x := o.hard) (label := "native hardware floats") hx2 (by unfold Plain; decide)
    have a1' : answerLine native term R o.rsApf o.rsApf "Rust / rustc_apfloat" = .ok a := a1
    refine ⟨ts, a ++ (b ++ c), tv, ⟨by rw [hb]; exact bp, ?_⟩, fun h => absurd h hf, ?_⟩
    · unfold printOp
      rw [hb, t2', M.ok_bind, o1]
      dsimp only
      rw [a1', M.ok_bind, b1, M.ok_bind, c1, M.ok_bind]
      simp
    · intro rs' hrs'
      rw [r1] at hrs'
      cases hrs'
      refine ⟨?_, fun hm => ?_, fun hm => ?_⟩
      · rw [List.count_append, List.count_append, a2, b2, c2, e1, e2]
        unfold others
        cases args.ignoreCxx <;> cases args.ignoreHard <;> cases R.hasHard <;> rfl
      · obtain ⟨m1, m2⟩ := (allMatch_iff o).1 (o3.2 hm)
        simp only [List.mem_append, not_or]
        exact ⟨a3 (fun y hy => by cases hy; rfl), b3 m1, c3 m2⟩
      · have h1 : ¬ (o.allMatch = true) := fun h => hm (o3.1 h)
        rw [allMatch_iff, not_and_or] at h1
        rcases h1 with h1 | h1
        · push Not at h1
          obtain ⟨y, y1, y2⟩ := h1
          exact (b4 y y1 y2).trans ⟨a, c, by simp⟩
        · push Not at h1
          obtain ⟨y, y1, y2⟩ := h1
          exact (c4 y y1 y2).trans ⟨a ++ b, [], by simp⟩

/-! ### The property -/

variable {typeName : FloatRepr → List Char}

theorem printFile_test {data : List ℕ} (hb : ∀ b ∈ data, b < 256) {op : FuzzOp ℕ} (hf : IsTestFile data R op) (args : Args) (orc : Oracle) :
    printFile native typeName term args orc data = printOp native term args orc R op := by
  obtain ⟨h1, h2, rfl⟩ := hf
  unfold printFile
  dsimp only
  rw [(C105_format_tags.1 R h1).1]
  dsimp only
  rw [(C105_decode_iff h1 (fun b hb' => hb b (by simp [hb'])) op).2 ⟨h2, rfl⟩, M.ok_bind]

theorem printFile_other {data : List ℕ} (hb : ∀ b ∈ data, b < 256) (hf : ¬ ∃ R op, IsTestFile data R op) (args : Args) (orc : Oracle) :
    ∃ e, printFile native typeName term args orc data = .ok ("  invalid data (".toList ++ e ++ ")\n".toList) := by
  unfold printFile
  cases data with
  | nil => exact ⟨_, rfl⟩
  | cons tag l =>
    dsimp only
    cases h : reprOfTag tag with
    | none => exact ⟨_, rfl⟩
    | some R =>
      dsimp only
      have hm : R ∈ reprs := List.mem_of_find?_eq_some h
      have ht : R.tag = tag := by
        have := List.find?_some h
        simpa using this
      obtain ⟨r, hr⟩ := C105_decode_total hm (fun b hb' => hb b (by simp [hb']) : ∀ b ∈ l, b < 256)
      rw [hr, M.ok_bind]
      cases r with
      | error => exact ⟨_, rfl⟩
      | ok op =>
        exfalso
        obtain ⟨c1, c2⟩ := (C105_decode_iff hm (fun b hb' => hb b (by simp [hb'])) op).1 hr
        exact hf ⟨R, op, hm, c1, by rw [c2, ht]⟩

/-- **C112.** `decode` prints something for every file, whatever it contains and whatever the library does with it; it says `invalid data` for exactly the files that
are no test files. -/
theorem C112_total (hn : ∀ R b, Plain (native R b)) (term : Bool) (args : Args) {orc : Oracle} (ho : InFormat orc) {data : List ℕ} (hb : ∀ b ∈ data, b < 256) :
    ∃ out, printFile native typeName term args orc data = .ok out ∧ ("  invalid data (".toList <+: out ↔ ¬ ∃ R op, IsTestFile data R op) := by
  by_cases hf : ∃ R op, IsTestFile data R op
  · obtain ⟨R, op, hf⟩ := hf
    obtain ⟨ts, rest, -, ⟨-, p⟩, -⟩ := printOp_ok (term := term) hf.1 hn args ho hf.2.1
    rw [printFile_test hb hf]
    refine ⟨_, p, fun h => ?_, fun h => absurd ⟨R, op, hf⟩ h⟩
    exfalso
    obtain ⟨-, -, -, s1, s2⟩ := shortName_ok.1 R hf.1
    cases hs : R.shortName with
    | nil => exact s2 hs
    | cons c l =>
      rw [hs] at h s1
      obtain ⟨u, hu⟩ := h
      have e := congrArg (fun l => l[2]?) hu
      simp at e
      exact s1 (by simp [← e])
  · obtain ⟨e, h⟩ := printFile_other (native := native) (typeName := typeName) (term := term) hb hf args orc
    exact ⟨_, h, fun _ => hf, fun _ => ⟨e ++ ")\n".toList, by simp⟩⟩

/-- **C112.** The first line shows the whole test case: test files whose first lines are equal are equal, whatever the options and whatever the other programs
answer. -/
theorem C112_first_line (hn : ∀ R b, Plain (native R b)) (term : Bool) (args args' : Args) {orc orc' : Oracle} (ho : InFormat orc) (ho' : InFormat orc')
    {data data' : List ℕ} (hb : ∀ b ∈ data, b < 256) (hb' : ∀ b ∈ data', b < 256) {R R' : FloatRepr} {op op' : FuzzOp ℕ} (hf : IsTestFile data R op)
    (hf' : IsTestFile data' R' op') {out out' : List Char} (h : printFile native typeName term args orc data = .ok out)
    (h' : printFile native typeName term args' orc' data' = .ok out') (e : out.takeWhile (· ≠ '\n') = out'.takeWhile (· ≠ '\n')) : data = data' := by
  obtain ⟨ts, rest, t1, ⟨b1, p⟩, -⟩ := printOp_ok (term := term) hf.1 hn args ho hf.2.1
  obtain ⟨ts', rest', t1', ⟨b1', p'⟩, -⟩ := printOp_ok (term := term) hf'.1 hn args' ho' hf'.2.1
  rw [printFile_test hb hf, p, Except.ok.injEq] at h
  rw [printFile_test hb' hf', p', Except.ok.injEq] at h'
  subst h h'
  have tw : ∀ {s r : List Char}, '\n' ∉ s → (s ++ '\n' :: r).takeWhile (· ≠ '\n') = s := by
    intro s r hs
    rw [List.takeWhile_append_of_pos (fun a ha => by simp only [ne_eq, decide_not, Bool.not_eq_eq_eq_not, Bool.not_true, decide_eq_false_iff_not]; rintro rfl; exact hs ha)]
    simp
  rw [tw b1.1, tw b1'.1] at e
  have e1 : ("  ".toList ++ R.shortName) ++ '.' :: (op.name ++ '(' :: ((List.intersperse ", ".toList ts).flatten ++ ")".toList)) =
      ("  ".toList ++ R'.shortName) ++ '.' :: (op'.name ++ '(' :: ((List.intersperse ", ".toList ts').flatten ++ ")".toList)) := by
    simpa using e
  have nd : ∀ R ∈ reprs, '.' ∉ "  ".toList ++ R.shortName := by
    intro R hR hm
    rcases List.mem_append.1 hm with hm | hm
    · exact absurd hm (by decide)
    · exact (shortName_ok.1 R hR).1 hm
  obtain ⟨f1, f2⟩ := split_first e1 (nd R hf.1) (nd R' hf'.1)
  obtain ⟨g1, g2⟩ := split_first f2 (opName_ok op).1 (opName_ok op').1
  have ht := shortName_ok.2 R hf.1 R' hf'.1 (List.append_cancel_left f1)
  have : R = R' := by
    have h1 := (C105_format_tags.1 R hf.1).1
    have h2 := (C105_format_tags.1 R' hf'.1).1
    rw [ht] at h1
    exact Option.some.inj (h1.symm.trans h2)
  subst this
  obtain ⟨k1, k2⟩ := opName_inj g1
  have hi := join_inj hf.1 hf.2.1 hf'.2.1 t1 t1' k2 g2
  have := op_of_inputs k1 hi
  subst this
  rw [hf.2.2, hf'.2.2]

/-- **C112.** The answers follow, one per line: none if the library panics, otherwise its own and those asked for.  The mark `!!! MISMATCH !!!` is printed exactly if
one of them counts as different, that is, if the fuzzer would report the file (C108). -/
theorem C112_mismatch (hn : ∀ R b, Plain (native R b)) (term : Bool) (args : Args) {orc : Oracle} (ho : InFormat orc) {data : List ℕ} (hb : ∀ b ∈ data, b < 256)
    {R : FloatRepr} {op : FuzzOp ℕ} (hf : IsTestFile data R op) :
    ∃ out, printFile native typeName term args orc data = .ok out ∧
      (FmaStops R op → out.count '\n' = 1 ∧ '!' ∉ out) ∧
      ∀ rs, evalBits R op = .ok rs → out.count '\n' = 2 + others args R ∧ ("!!! MISMATCH !!!".toList <:+: out ↔ ¬ Matches args orc R op rs) := by
  obtain ⟨ts, rest, -, ⟨b1, p⟩, q1, q2⟩ := printOp_ok (term := term) hf.1 hn args ho hf.2.1
  rw [printFile_test hb hf]
  generalize "  ".toList ++ R.shortName ++ ".".toList ++ op.name ++ "(".toList ++ (List.intersperse ", ".toList ts).flatten ++ ")".toList = body at b1 p
  refine ⟨_, p, fun h => ?_, fun rs hrs => ?_⟩
  · rw [q1 h, List.count_append, List.count_eq_zero_of_not_mem b1.1]
    refine ⟨rfl, ?_⟩
    simp only [List.mem_append, not_or]
    exact ⟨b1.2, by decide⟩
  · obtain ⟨r1, r2, r3⟩ := q2 rs hrs
    refine ⟨?_, fun h hm => ?_, fun h => ?_⟩
    · rw [List.count_append, List.count_eq_zero_of_not_mem b1.1, List.count_cons_self, r1]; omega
    · have : '!' ∈ body ++ '\n' :: rest := h.subset (by decide)
      rcases List.mem_append.1 this with h1 | h1
      · exact b1.2 h1
      · rcases List.mem_cons.1 h1 with h1 | h1
        · exact absurd h1 (by decide)
        · exact r2 hm h1
    · exact (r3 h).trans ⟨body ++ ['\n'], [], by simp⟩

/-- One line of an answer: it has the label, if `bits` is given the pattern in hexadecimal digits, twice as many as the format has bytes, and the mark exactly if the
answer differs. -/
def AnswerLine (R : FloatRepr) (label : String) (bits : Option ℕ) (differs : Prop) (line : List Char) : Prop :=
  '\n' ∉ line ∧ (" (".toList ++ label.toList ++ ")".toList) <:+: line ∧
  (∀ b, bits = some b → ∃ ds, ("0x".toList ++ ds) <:+: line ∧ (∀ c ∈ ds, IsDigit 16 c) ∧ ds.length = 2 * (R.sem.bits / 8) ∧ number 16 ds = b) ∧
  (differs → "!!! MISMATCH !!!".toList <:+: line) ∧ (¬ differs → '!' ∉ line)

theorem answerLine_line (hR : R ∈ reprs) (hn : ∀ R b, Plain (native R b)) (rs : ℕ) {x : ℕ} (hx : x < 2 ^ R.sem.bits) {label : String}
    (hl : Plain label.toList) : ∃ s, answerLine native term R rs x label = .ok (s ++ ['\n']) ∧ AnswerLine R label (some x) (x ≠ rs) s := by
  obtain ⟨s, s1, s2, s3, s4⟩ := answerLine_ok (term := term) hR hn rs (fun _ => hx) hl
  refine ⟨s, s1, s2, ?_, fun b hb => ?_, s4, fun h => s3 (not_not.1 h)⟩
  · unfold answerLine at s1
    obtain ⟨t, t1, -⟩ := valueText_ok (term := term) hR hn (fun _ => hx)
    rw [t1, M.ok_bind, Except.ok.injEq] at s1
    have := List.append_inj_left' s1 rfl
    rw [← this]
    exact ⟨"   => ".toList ++ t, _, by simp only [List.append_assoc]; rfl⟩
  · cases hb
    unfold answerLine valueText at s1
    obtain ⟨d, d1, -⟩ := displayBits_ok hR hn (fun _ => hx)
    rw [d1, M.ok_bind, M.ok_bind, Except.ok.injEq] at s1
    have := List.append_inj_left' s1 rfl
    rw [← this]
    obtain ⟨w1, w2⟩ := hex_width hR
    obtain ⟨l1, l2, l3⟩ := hexPadded_ok (n := x) w1 (by rw [w2]; exact hx)
    refine ⟨hexPadded (R.byteLen * 2) x, ⟨"   => ".toList ++ ifTerminal term "\x1b[93m", _, by simp only [List.append_assoc]; rfl⟩, l2, ?_, l3⟩
    rw [l1, (reprs_ok hR).byteLen, Nat.mul_comm]

/-- **C112.** The lines after the first, if the library does not panic: the library's answer; LLVM's, marked if it is another pattern; the hardware's, if the format has
one, marked if the difference is not tolerated. -/
theorem C112_answers (hn : ∀ R b, Plain (native R b)) (term : Bool) (args : Args) {orc : Oracle} (ho : InFormat orc) {data : List ℕ} (hb : ∀ b ∈ data, b < 256)
    {R : FloatRepr} {op : FuzzOp ℕ} (hf : IsTestFile data R op) {rs : ℕ} (hrs : evalBits R op = .ok rs) :
    ∃ first a cs hs, printFile native typeName term args orc data = .ok (((first :: a :: cs ++ hs).map (· ++ ['\n'])).flatten) ∧ '\n' ∉ first ∧
      AnswerLine R "Rust / rustc_apfloat" (some rs) False a ∧
      (if args.ignoreCxx then cs = [] else ∃ c, cs = [c] ∧ AnswerLine R "C++ / llvm::APFloat" (some (orc.cxx R op)) (orc.cxx R op ≠ rs) c) ∧
      (if args.ignoreHard = false ∧ R.hasHard = true then
        ∃ h, hs = [h] ∧ AnswerLine R "native hardware floats" none (¬ Tolerated args R op rs (orc.hard R op)) h
       else hs = []) := by
  have hR := hf.1
  have hc := hf.2.1
  have hlt : rs < 2 ^ R.sem.bits := by
    obtain ⟨h1, h2⟩ := C106_eval hR hc
    by_cases hf : FmaStops R op
    · rw [h1 hf] at hrs; cases hrs
    · obtain ⟨b, b1, b2⟩ := h2 hf
      rw [b1, Except.ok.injEq] at hrs
      exact hrs ▸ b2
  rw [printFile_test hb hf]
  obtain ⟨ts, -, f2, f1⟩ := opLine_body (term := term) hR hn hc
  generalize "  ".toList ++ R.shortName ++ ".".toList ++ op.name ++ "(".toList ++ (List.intersperse ", ".toList ts).flatten ++ ")".toList = first at f1 f2
  obtain ⟨a, a1, a2⟩ := answerLine_line (term := term) hR hn rs hlt (label := "Rust / rustc_apfloat") (by unfold Plain; decide)
  obtain ⟨c, c1, c2⟩ := answerLine_line (term := term) hR hn rs (ho.cxx R hR op hc) (label := "C++ / llvm::APFloat") (by unfold Plain; decide)
  -- LLVM's answer
  have hC : ∃ cs, answerLine? native term R rs (if args.ignoreCxx then none else some (orc.cxx R op)) "C++ / llvm::APFloat" = .ok ((cs.map (· ++ ['\n'])).flatten) ∧
      (if args.ignoreCxx then cs = [] else ∃ c, cs = [c] ∧ AnswerLine R "C++ / llvm::APFloat" (some (orc.cxx R op)) (orc.cxx R op ≠ rs) c) := by
    cases args.ignoreCxx with
    | true => exact ⟨[], rfl, rfl⟩
    | false => exact ⟨[c], by simpa [answerLine?] using c1, c, rfl, c2⟩
  obtain ⟨cs, d1, d2⟩ := hC
  have a2' : AnswerLine R "Rust / rustc_apfloat" (some rs) False a := by
    obtain ⟨x1, x2, x3, x4, x5⟩ := a2
    exact ⟨x1, x2, x3, False.elim, fun _ => x5 (by simp)⟩
  by_cases hi : args.ignoreHard = false ∧ R.hasHard = true
  · obtain ⟨v, v1, v2, v3, -⟩ := C108_reconcile hR hi.2 args hc hlt (ho.hard R hR hi.2 op hc)
    have hv : v < 256 ^ R.reprBytes := by
      rw [(reprs_ok hR).pow] at v2
      exact lt_of_lt_of_le v2 (Nat.pow_le_pow_right (by norm_num) (reprs_ok hR).fits)
    have ev : eval args orc R op = .ok ⟨rs, if args.ignoreCxx then none else some (orc.cxx R op), some v⟩ := by
      unfold eval
      rw [hrs, M.ok_bind]
      dsimp only
      rw [if_neg (by simp [hi.1]), if_pos hi.2]
      dsimp only
      rw [v1, M.ok_bind, FloatRepr.fromBitsU128, if_pos hv, M.ok_bind]
    obtain ⟨h, h1, ⟨x1, x2, -, x4, x5⟩⟩ := answerLine_line (term := term) hR hn rs v2 (label := "native hardware floats") (by unfold Plain; decide)
    refine ⟨first, a, cs, [h], ?_, f2.1, a2', d2, ?_⟩
    · unfold printOp
      rw [f1, M.ok_bind, ev]
      dsimp only
      rw [a1, M.ok_bind, d1, M.ok_bind, answerLine?, h1, M.ok_bind]
      simp
    · rw [if_pos hi]
      exact ⟨h, rfl, x1, x2, by simp, fun hd => x4 (fun e => hd (v3.1 e)), fun hd => x5 (fun e => e (v3.2 (not_not.1 hd)))⟩
  · have ev : eval args orc R op = .ok ⟨rs, if args.ignoreCxx then none else some (orc.cxx R op), none⟩ := by
      unfold eval
      rw [hrs, M.ok_bind]
      dsimp only
      have e : (if args.ignoreHard = true then none else if R.hasHard = true then some (orc.hard R op) else none) = none := by
        cases h1 : args.ignoreHard <;> cases h2 : R.hasHard <;> simp_all
      rw [e]
    refine ⟨first, a, cs, [], ?_, f2.1, a2', d2, by rw [if_neg hi]⟩
    unfold printOp
    rw [f1, M.ok_bind, ev]
    dsimp only
    rw [a1, M.ok_bind, d1, M.ok_bind, answerLine?, M.ok_bind]
    simp

/-- **C112.** With readable files the subcommand gets through the whole list, and prints for each its path and the text of its contents. -/
theorem C112_files (hn : ∀ R b, Plain (native R b)) (term : Bool) (args : Args) {orc : Oracle} (ho : InFormat orc) :
    ∀ (files : List (List Char × List ℕ)), (∀ f ∈ files, ∀ b ∈ f.2, b < 256) →
      ∃ outs, List.Forall₂ (fun f out => printFile native typeName term args orc f.2 = .ok out) files outs ∧
        decodeMain native typeName term args orc (files.map fun f => (f.1, some f.2)) =
          ((List.zipWith (fun f out => f.1 ++ ":\n".toList ++ out) files outs).flatten, none)
  | [], _ => ⟨[], .nil, rfl⟩
  | (path, data) :: files, hb => by
    obtain ⟨out, o1, -⟩ := C112_total (typeName := typeName) hn term args ho (data := data) (hb (path, data) (by simp))
    obtain ⟨outs, h1, h2⟩ := C112_files hn term args ho files (fun f hf => hb f (by simp [hf]))
    refine ⟨out :: outs, .cons o1 h1, ?_⟩
    rw [List.map_cons]
    unfold decodeMain
    rw [o1, h2]
    simp

/-! Concrete cases: `1.0 * 3.0 + -2.0` in `f16`, with LLVM answering 1.0 and then 2.0; a file with an unknown format. -/
example : printFile (fun _ _ => []) (fun _ => []) false {} ⟨fun _ _ => 0x3c00, fun _ _ => 0⟩ [16, 6, 0, 0x3c, 0, 0x42, 0, 0xc0] =
    .ok "  f16.MulAdd(0x3c00 /* 1 */, 0x4200 /* 3 */, 0xc000 /* -2 */)\n   => 0x3c00 /* 1 */ (Rust / rustc_apfloat)\n   => 0x3c00 /* 1 */ (C++ / llvm::APFloat)\n".toList := by
  decide +kernel
example : printFile (fun _ _ => []) (fun _ => []) true {} ⟨fun _ _ => 0x4000, fun _ _ => 0⟩ [16, 0, 0, 0xbc] =
    .ok ("  f16.Neg(\x1b[93m0xbc00\x1b[m \x1b[90m/* -1 */\x1b[m)\n   => \x1b[93m0x3c00\x1b[m \x1b[90m/* 1 */\x1b[m (Rust / rustc_apfloat)\n" ++
      "   => \x1b[93m0x4000\x1b[m \x1b[90m/* 2 */\x1b[m (C++ / llvm::APFloat) <- \x1b[1m\x1b[91m!!! MISMATCH !!!\x1b[m\n").toList := by
  decide +kernel
example : printFile (fun _ _ => []) (fun _ => []) false {} ⟨fun _ _ => 0, fun _ _ => 0⟩ [10, 0, 0] =
    .ok "  invalid data (first byte not valid `FloatRepr::REPR_TAG`)\n".toList := by decide +kernel
example : reprs.map FloatRepr.shortName = ["f16", "f32", "f64", "f128", "f8e5m2", "f8e4m3fn", "brainf16", "x87_f80"].map String.toList := by decide +kernel
example : InFormat ⟨fun _ _ => 0, fun _ _ => 0⟩ := ⟨fun R _ _ _ => by positivity, fun R _ _ _ _ => by positivity⟩
example : IsTestFile [16, 6, 0, 0x3c, 0, 0x42, 0, 0xc0] { sem := halfS, reprBytes := 2, tag := 16 } (.mulAdd 0x3c00 0x4200 0xc000) :=
  ⟨by simp [reprs], by unfold IsCase inputsOf; decide, by decide +kernel⟩

example : printFile (fun _ _ => "nan".toList) (fun _ => []) false {} ⟨fun _ _ => 0x7fc00001, fun _ _ => 0xffc00001⟩ [32, 2, 1, 0, 0xc0, 0x7f, 0, 0, 0, 0] =
    .ok ("  f32.Sub(0x7fc00001 /* nan */, 0x00000000 /* nan */)\n   => 0x7fc00001 /* nan */ (Rust / rustc_apfloat)\n" ++
      "   => 0x7fc00001 /* nan */ (C++ / llvm::APFloat)\n   => 0x7fc00001 /* nan */ (native hardware floats)\n").toList := by
  decide +kernel

end Apf
