import Verif.Props.FuzzHard
import Mathlib.Data.List.Nodup
import Mathlib.Data.List.Perm.Basic

/-! # C107: exhaustive search -/

namespace Apf
open Fuzz IeeeFloat Spec

variable {R : FloatRepr}

/-! ## The cases -/

theorem op_ext {α : Type} {op op' : FuzzOp α} (h1 : op.tag = op'.tag) (h2 : inputsOf op = inputsOf op') : op = op' := by
  cases op <;> cases op' <;> simp_all [FuzzOp.tag, inputsOf]

/-- The number of inputs. -/
abbrev arity {α : Type} (op : FuzzOp α) : ℕ := (inputsOf op).length

theorem arity_of_tag {α β : Type} {op : FuzzOp α} {op' : FuzzOp β} (h : op.tag = op'.tag) : arity op = arity op' := by
  cases op <;> cases op' <;> first | rfl | (simp only [FuzzOp.tag] at h; omega)

theorem arity_pos {α : Type} (op : FuzzOp α) : 1 ≤ arity op := by cases op <;> simp [arity, inputsOf]
theorem arity_le {α : Type} (op : FuzzOp α) : arity op ≤ 3 := by cases op <;> simp [arity, inputsOf]

/-- The digits of a number, the lowest first. -/
def fieldsOf (b : ℕ) : ℕ → ℕ → List ℕ
  | 0, _ => []
  | n + 1, i => i % 2 ^ b :: fieldsOf b n (i / 2 ^ b)

/-- The number with the given digits. -/
def indexOf (b : ℕ) : List ℕ → ℕ
  | [] => 0
  | x :: xs => x + 2 ^ b * indexOf b xs

theorem fieldsOf_length (b n i : ℕ) : (fieldsOf b n i).length = n := by
  induction n generalizing i with
  | zero => rfl
  | succ n ih => simp [fieldsOf, ih]

theorem fieldsOf_lt {b n i x : ℕ} (h : x ∈ fieldsOf b n i) : x < 2 ^ b := by
  induction n generalizing i with
  | zero => simp [fieldsOf] at h
  | succ n ih =>
    rcases List.mem_cons.1 h with rfl | h
    · exact Nat.mod_lt _ (by positivity)
    · exact ih h

theorem indexOf_fieldsOf {b n i : ℕ} (h : i < 2 ^ (n * b)) : indexOf b (fieldsOf b n i) = i := by
  induction n generalizing i with
  | zero => simp at h; simp [fieldsOf, indexOf, h]
  | succ n ih =>
    have : i / 2 ^ b < 2 ^ (n * b) := by
      rw [Nat.div_lt_iff_lt_mul (by positivity), ← pow_add]
      convert h using 2
      ring
    rw [fieldsOf, indexOf, ih this]
    exact Nat.mod_add_div i (2 ^ b)

theorem fieldsOf_indexOf {b : ℕ} {l : List ℕ} (h : ∀ x ∈ l, x < 2 ^ b) : fieldsOf b l.length (indexOf b l) = l ∧ indexOf b l < 2 ^ (l.length * b) := by
  induction l with
  | nil => simp [fieldsOf, indexOf]
  | cons x xs ih =>
    have hx := h x (by simp)
    obtain ⟨i1, i2⟩ := ih (fun y hy => h y (by simp [hy]))
    have hp : 0 < 2 ^ b := by positivity
    constructor
    · rw [List.length_cons, fieldsOf, indexOf, Nat.add_mul_mod_self_left, Nat.mod_eq_of_lt hx, Nat.add_mul_div_left _ _ hp, Nat.div_eq_of_lt hx, zero_add, i1]
    · rw [List.length_cons, indexOf, show (xs.length + 1) * b = b + xs.length * b by ring, pow_add]
      generalize 2 ^ (xs.length * b) = P at i2 ⊢
      generalize indexOf b xs = I at i2 ⊢
      calc x + 2 ^ b * I < 2 ^ b * 1 + 2 ^ b * I := by omega
        _ = 2 ^ b * (I + 1) := by ring
        _ ≤ 2 ^ b * P := Nat.mul_le_mul_left _ i2

/-- Formats narrow enough for three inputs to fit in 128 bits. -/
structure Narrow (R : FloatRepr) : Prop where
  mem : R ∈ reprs
  le : 3 * R.sem.bits < 128

theorem Narrow.digit (h : Narrow R) (c : ℕ) : (do
    let one ← shl 1 R.bitWidth
    let mask ← usub one 1
    let rest ← shr c R.bitWidth
    let x ← R.fromBitsU128 (c &&& mask)
    .ok (x, rest) : M (ℕ × ℕ)) = .ok (c % 2 ^ R.sem.bits, c / 2 ^ R.sem.bits) := by
  have hle := h.le
  have hb : R.bitWidth = R.sem.bits := rfl
  have hp : 1 ≤ 2 ^ R.sem.bits := Nat.one_le_two_pow
  have e1 : shl 1 R.bitWidth = .ok (2 ^ R.sem.bits) := by
    unfold shl
    rw [hb, if_pos (by omega), Nat.one_shiftLeft, Nat.mod_eq_of_lt (Nat.pow_lt_pow_right (by norm_num) (by omega))]
  have e2 : usub (2 ^ R.sem.bits) 1 = .ok (2 ^ R.sem.bits - 1) := by unfold usub; rw [if_pos hp]
  have e3 : shr c R.bitWidth = .ok (c / 2 ^ R.sem.bits) := by unfold shr; rw [hb, if_pos (by omega), Nat.shiftRight_eq_div_pow]
  have e4 : R.fromBitsU128 (c % 2 ^ R.sem.bits) = .ok (c % 2 ^ R.sem.bits) := by
    have : c % 2 ^ R.sem.bits < 2 ^ R.sem.bits := Nat.mod_lt _ (by positivity)
    have hf : c % 2 ^ R.sem.bits < 256 ^ R.reprBytes := by
      refine lt_of_lt_of_le this ?_
      rw [(reprs_ok h.mem).pow]
      exact Nat.pow_le_pow_right (by norm_num) (reprs_ok h.mem).fits
    unfold FloatRepr.fromBitsU128
    rw [if_pos hf]
  rw [e1, M.ok_bind, e2, M.ok_bind, e3, M.ok_bind, Nat.and_two_pow_sub_one_eq_mod, e4, M.ok_bind]

theorem Narrow.caseOf_eq (h : Narrow R) (op : FuzzOp Unit) {i : ℕ} (hi : i < 2 ^ (arity op * R.sem.bits)) :
    ∃ op', caseOf R op i = .ok op' ∧ op'.tag = op.tag ∧ inputsOf op' = fieldsOf R.sem.bits (arity op) i := by
  have hz : ∀ k, i < 2 ^ (k * R.sem.bits) → i / 2 ^ (k * R.sem.bits) = 0 := fun k hk => Nat.div_eq_of_lt hk
  unfold caseOf
  simp only [h.digit]
  have h1 := hz 1
  have h2 := hz 2
  have h3 := hz 3
  simp only [one_mul] at h1
  rw [show 2 * R.sem.bits = R.sem.bits + R.sem.bits by ring, pow_add, ← Nat.div_div_eq_div_mul] at h2
  rw [show 3 * R.sem.bits = R.sem.bits + R.sem.bits + R.sem.bits by ring, pow_add, pow_add, ← Nat.div_div_eq_div_mul, ← Nat.div_div_eq_div_mul] at h3
  cases op <;> simp only [arity, inputsOf, List.length_cons, List.length_nil, zero_add, one_mul] at hi <;>
    simp only [FuzzOp.mapM, M.ok_bind, massert]
  case mulAdd =>
    rw [show (1 + 1 + 1) * R.sem.bits = R.sem.bits + R.sem.bits + R.sem.bits by ring, pow_add, pow_add] at hi
    rw [if_pos (h3 hi)]
    exact ⟨_, rfl, rfl, rfl⟩
  case neg => rw [if_pos (h1 hi)]; exact ⟨_, rfl, rfl, rfl⟩
  case viaI128 => rw [if_pos (h1 hi)]; exact ⟨_, rfl, rfl, rfl⟩
  case viaU128 => rw [if_pos (h1 hi)]; exact ⟨_, rfl, rfl, rfl⟩
  case viaSingle => rw [if_pos (h1 hi)]; exact ⟨_, rfl, rfl, rfl⟩
  case viaDouble => rw [if_pos (h1 hi)]; exact ⟨_, rfl, rfl, rfl⟩
  all_goals
    rw [show (1 + 1) * R.sem.bits = R.sem.bits + R.sem.bits by ring, pow_add] at hi
    rw [if_pos (h2 hi)]
    exact ⟨_, rfl, rfl, rfl⟩

/-- The first number of the range of an operation. -/
def firstOf (R : FloatRepr) (onlyFma : Bool) (op : FuzzOp Unit) : ℕ := if onlyFma then 2 ^ ((arity op - 1) * R.sem.bits) else 0

theorem Narrow.range_eq (h : Narrow R) (onlyFma : Bool) (op : FuzzOp Unit) :
    combinedRange R.bitWidth onlyFma op = .ok (firstOf R onlyFma op, 2 ^ (arity op * R.sem.bits)) := by
  have hle := h.le
  have hb : R.bitWidth = R.sem.bits := rfl
  have ha1 := arity_pos op
  have ha3 := arity_le op
  have hu : ∀ n, n ≤ 3 * R.sem.bits → usize n = .ok n := fun n hn => by unfold usize; rw [if_pos (by omega)]
  have e : ∃ op', op.mapM (fun () (t : Nat) => do let t ← usize (t + R.bitWidth); .ok ((), t)) 0 = .ok (op', arity op * R.sem.bits) := by
    rw [hb]
    cases op <;> simp only [FuzzOp.mapM, zero_add, hu R.sem.bits (by omega), hu (R.sem.bits + R.sem.bits) (by omega),
      hu (R.sem.bits + R.sem.bits + R.sem.bits) (by omega), M.ok_bind, arity, inputsOf, List.length_cons, List.length_nil, one_mul]
    case mulAdd => exact ⟨.mulAdd () () (), by congr 2; ring⟩
    all_goals first
      | exact ⟨_, rfl⟩
      | exact ⟨_, by congr 2; ring⟩
  obtain ⟨op', e⟩ := e
  have hle2 : arity op * R.sem.bits ≤ 3 * R.sem.bits := Nat.mul_le_mul_right _ ha3
  have hle1 : R.sem.bits ≤ arity op * R.sem.bits := Nat.le_mul_of_pos_left _ ha1
  unfold combinedRange
  rw [e, M.ok_bind]
  dsimp only
  unfold firstOf
  cases onlyFma
  · rw [if_neg (by simp), M.ok_bind, if_pos (by omega), if_neg (by simp)]
  · rw [if_pos rfl, hb, usub, if_pos hle1, M.ok_bind, shl, if_pos (by omega), M.ok_bind, if_pos (by omega), if_pos rfl, Nat.one_shiftLeft,
      Nat.mod_eq_of_lt (Nat.pow_lt_pow_right (by norm_num) (by omega)), Nat.sub_mul, one_mul]

theorem mem_range {lo hi i : ℕ} : i ∈ Fuzz.range lo hi ↔ lo ≤ i ∧ i < hi := by
  unfold Fuzz.range
  simp only [List.mem_map, List.mem_range]
  constructor
  · rintro ⟨a, h1, rfl⟩; omega
  · rintro ⟨h1, h2⟩; exact ⟨i - lo, by omega, by omega⟩

theorem nodup_range (lo hi : ℕ) : (Fuzz.range lo hi).Nodup := by
  unfold Fuzz.range
  exact List.nodup_range.map (fun a b e => by simpa using e)

theorem mapM_ok {α β : Type} {f : α → M β} {P : α → β → Prop} : ∀ {l : List α}, (∀ a ∈ l, ∃ b, f a = .ok b ∧ P a b) →
    ∃ bs, l.mapM f = .ok bs ∧ List.Forall₂ P l bs
  | [], _ => ⟨[], rfl, .nil⟩
  | a :: l, h => by
    obtain ⟨b, b1, b2⟩ := h a (by simp)
    obtain ⟨bs, b3, b4⟩ := mapM_ok (l := l) (fun c hc => h c (by simp [hc]))
    refine ⟨b :: bs, ?_, .cons b2 b4⟩
    rw [List.mapM_cons, b1]
    show (l.mapM f >>= _) = _
    rw [b3]
    rfl

theorem indexOf_last_pos {b : ℕ} {l : List ℕ} {c : ℕ} (h : ∀ x ∈ l, x < 2 ^ b) : 2 ^ (l.length * b) ≤ indexOf b (l ++ [c]) ↔ c ≠ 0 := by
  induction l with
  | nil => simp [indexOf]; omega
  | cons x xs ih =>
    have hx := h x (by simp)
    rw [← ih (fun y hy => h y (by simp [hy]))]
    rw [List.cons_append, indexOf, List.length_cons, show (xs.length + 1) * b = b + xs.length * b by ring, pow_add]
    generalize indexOf b (xs ++ [c]) = I
    generalize 2 ^ (xs.length * b) = P
    constructor
    · intro k
      by_contra hc
      have : I + 1 ≤ P := by omega
      have := Nat.mul_le_mul_left (2 ^ b) this
      rw [Nat.mul_add, mul_one] at this
      omega
    · intro k
      have := Nat.mul_le_mul_left (2 ^ b) k
      omega

theorem mapM_map {α β : Type} {f : α → M β} {g : α → β} : ∀ {l : List α}, (∀ a ∈ l, f a = .ok (g a)) → l.mapM f = .ok (l.map g)
  | [], _ => rfl
  | a :: l, h => by
    rw [List.mapM_cons, h a (by simp)]
    show (l.mapM f >>= _) = _
    rw [mapM_map (l := l) (g := g) (fun c hc => h c (by simp [hc]))]
    rfl

/-- The cases of an operation: each exactly once. -/
theorem Narrow.cases_eq (h : Narrow R) (onlyFma : Bool) (op : FuzzOp Unit) (hf : onlyFma = true → op = .mulAdd () () ()) :
    ∃ l, casesOf R onlyFma op = .ok l ∧ l.Nodup ∧ l.length = 2 ^ (arity op * R.sem.bits) - firstOf R onlyFma op ∧
      ∀ op', op' ∈ l ↔ op'.tag = op.tag ∧ Covered R onlyFma op' := by
  obtain ⟨g, hg⟩ : ∃ g : ℕ → FuzzOp ℕ, ∀ i, i < 2 ^ (arity op * R.sem.bits) →
      caseOf R op i = .ok (g i) ∧ (g i).tag = op.tag ∧ inputsOf (g i) = fieldsOf R.sem.bits (arity op) i := by
    refine ⟨fun i => match caseOf R op i with | .ok x => x | .error _ => .neg 0, fun i hi => ?_⟩
    obtain ⟨op', o1, o2, o3⟩ := h.caseOf_eq op hi
    dsimp only
    rw [o1]
    exact ⟨rfl, o2, o3⟩
  refine ⟨(Fuzz.range (firstOf R onlyFma op) (2 ^ (arity op * R.sem.bits))).map g, ?_, ?_, ?_, ?_⟩
  · unfold casesOf
    rw [h.range_eq, M.ok_bind]
    exact mapM_map (fun i hi => (hg i (mem_range.1 hi).2).1)
  · refine (nodup_range _ _).map_on (fun i hi j hj e => ?_)
    have hi' := (mem_range.1 hi).2
    have hj' := (mem_range.1 hj).2
    have := (hg i hi').2.2
    rw [e, (hg j hj').2.2] at this
    have := congrArg (indexOf R.sem.bits) this
    rw [indexOf_fieldsOf hi', indexOf_fieldsOf hj'] at this
    exact this.symm
  · simp [Fuzz.range]
  · intro op'
    rw [List.mem_map]
    -- the bound at the lower end
    have low : ∀ {op'}, op'.tag = op.tag → IsCase R op' →
        (firstOf R onlyFma op ≤ indexOf R.sem.bits (inputsOf op') ↔ (onlyFma = true → ∃ a b c, op' = .mulAdd a b c ∧ c ≠ 0)) := by
      intro op' ht hc
      unfold firstOf
      cases onlyFma
      · simp
      · obtain rfl := hf rfl
        cases op' <;> simp only [FuzzOp.tag] at ht <;> try omega
        rename_i a b c
        have ha := hc a (by simp [inputsOf])
        have hb := hc b (by simp [inputsOf])
        have := indexOf_last_pos (b := R.sem.bits) (l := [a, b]) (c := c) (by simp [ha, hb])
        rw [if_pos rfl]
        show 2 ^ ([a, b].length * R.sem.bits) ≤ indexOf R.sem.bits ([a, b] ++ [c]) ↔ _
        rw [this]
        constructor
        · intro k _; exact ⟨a, b, c, rfl, k⟩
        · intro k
          obtain ⟨a', b', c', e, k⟩ := k rfl
          injection e with _ _ e
          rw [e]; exact k
    constructor
    · rintro ⟨i, hi, rfl⟩
      obtain ⟨hi1, hi2⟩ := mem_range.1 hi
      obtain ⟨-, g2, g3⟩ := hg i hi2
      have hc : IsCase R (g i) := fun x hx => fieldsOf_lt (g3 ▸ hx)
      refine ⟨g2, hc, (low g2 hc).1 ?_⟩
      rw [g3, indexOf_fieldsOf hi2]
      exact hi1
    · rintro ⟨ht, hc, hl⟩
      obtain ⟨d1, d2⟩ := fieldsOf_indexOf hc
      have ha : (inputsOf op').length = arity op := arity_of_tag ht
      rw [ha] at d1 d2
      refine ⟨indexOf R.sem.bits (inputsOf op'), mem_range.2 ⟨(low ht hc).2 hl, d2⟩, ?_⟩
      obtain ⟨-, g2, g3⟩ := hg _ d2
      exact op_ext (g2.trans ht.symm) (g3.trans d1)

theorem allOps_false : allOps false = [.neg (), .add () (), .sub () (), .mul () (), .div () (), .rem () (), .mulAdd () () (), .viaI128 (), .viaU128 (), .viaSingle (),
    .viaDouble ()] := by decide +kernel
theorem allOps_true : allOps true = [.mulAdd () () ()] := by decide +kernel

theorem allOps_nodup (onlyFma : Bool) : ((allOps onlyFma).map FuzzOp.tag).Nodup := by
  cases onlyFma
  · rw [allOps_false]; decide
  · rw [allOps_true]; decide

theorem mem_allOps {onlyFma : Bool} {op : FuzzOp Unit} : op ∈ allOps onlyFma ↔ (onlyFma = true → op = .mulAdd () () ()) := by
  cases onlyFma
  · rw [allOps_false]; cases op <;> simp
  · rw [allOps_true]; simp

theorem tag_in_ops (onlyFma : Bool) {op : FuzzOp ℕ} (h : Covered R onlyFma op) : ∃ o ∈ allOps onlyFma, o.tag = op.tag := by
  cases onlyFma
  · rw [allOps_false]; cases op <;> simp [FuzzOp.tag]
  · obtain ⟨a, b, c, rfl, -⟩ := h.2 rfl
    rw [allOps_true]; simp [FuzzOp.tag]

/-- The number of cases of a search. -/
def caseCount (R : FloatRepr) (onlyFma : Bool) : ℕ :=
  ((allOps onlyFma).map fun op => 2 ^ (arity op * R.sem.bits) - firstOf R onlyFma op).sum

/-- The list of all cases contains each of them exactly once. -/
theorem Narrow.all_cases (h : Narrow R) (onlyFma : Bool) :
    ∃ ls, (allOps onlyFma).mapM (casesOf R onlyFma) = .ok ls ∧ ls.flatten.Nodup ∧ ls.flatten.length = caseCount R onlyFma ∧
      ∀ op, op ∈ ls.flatten ↔ Covered R onlyFma op := by
  have key : ∀ ops : List (FuzzOp Unit), (∀ op ∈ ops, op ∈ allOps onlyFma) → (ops.map FuzzOp.tag).Nodup →
      ∃ ls, ops.mapM (casesOf R onlyFma) = .ok ls ∧ ls.flatten.Nodup ∧
        ls.flatten.length = (ops.map fun op => 2 ^ (arity op * R.sem.bits) - firstOf R onlyFma op).sum ∧
        ∀ op, op ∈ ls.flatten ↔ op.tag ∈ ops.map FuzzOp.tag ∧ Covered R onlyFma op := by
    intro ops
    induction ops with
    | nil => intro _ _; exact ⟨[], rfl, by simp, by simp, by simp⟩
    | cons o ops ih =>
      intro hm hn
      rw [List.map_cons, List.nodup_cons] at hn
      obtain ⟨ls, l1, l2, l3, l4⟩ := ih (fun op hop => hm op (by simp [hop])) hn.2
      obtain ⟨l, k1, k2, k3, k4⟩ := h.cases_eq onlyFma o (mem_allOps.1 (hm o (by simp)))
      refine ⟨l :: ls, ?_, ?_, ?_, ?_⟩
      · rw [List.mapM_cons, k1]
        show (ops.mapM (casesOf R onlyFma) >>= _) = _
        rw [l1]
        rfl
      · rw [List.flatten_cons, List.nodup_append']
        refine ⟨k2, l2, fun op h1 h2 => ?_⟩
        rw [k4] at h1
        rw [l4] at h2
        exact hn.1 (h1.1 ▸ h2.1)
      · rw [List.flatten_cons, List.length_append, k3, l3, List.map_cons, List.sum_cons]
      · intro op
        rw [List.flatten_cons, List.mem_append, k4, l4, List.map_cons, List.mem_cons]
        tauto
  obtain ⟨ls, l1, l2, l3, l4⟩ := key (allOps onlyFma) (fun _ h => h) (allOps_nodup onlyFma)
  refine ⟨ls, l1, l2, l3, fun op => ?_⟩
  rw [l4]
  refine and_iff_right_of_imp fun hc => ?_
  obtain ⟨o, o1, o2⟩ := tag_in_ops onlyFma hc
  exact List.mem_map.2 ⟨o, o1, o2⟩

/-! ## Distribution to threads -/

/-- Every case goes to exactly one thread. -/
theorem slices_perm {α : Type} {n : ℕ} (hn : 1 ≤ n) (l : List α) : ((List.range n).map (fun k => stepFrom n k l)).flatten.Perm l := by
  induction l with
  | nil => 
    have : ∀ k, stepFrom n k ([] : List α) = [] := fun k => by cases k <;> rfl
    simp [this]
  | cons x xs ih =>
    obtain ⟨m, rfl⟩ : ∃ m, n = m + 1 := ⟨n - 1, by omega⟩
    refine List.Perm.trans ?_ (ih.cons x)
    rw [List.range_succ_eq_map, List.map_cons, List.flatten_cons, List.map_map]
    rw [show stepFrom (m + 1) 0 (x :: xs) = x :: stepFrom (m + 1) m xs from rfl, List.cons_append]
    refine List.Perm.cons x ?_
    rw [← List.range_succ_eq_map, List.range_succ, List.map_append, List.flatten_append, List.map_singleton, List.flatten_singleton]
    exact List.perm_append_comm

/-- A channel delivers every message of every sender exactly once. -/
theorem merge_perm {α : Type} {qs : List (List α)} {ms : List α} (h : Merge qs ms) : ms.Perm qs.flatten := by
  induction h with
  | @done qs h => rw [List.flatten_eq_nil_iff.2 h]
  | @step pre q post m ms _ ih =>
    refine (ih.cons m).trans ?_
    rw [List.flatten_append, List.flatten_append, List.flatten_cons, List.flatten_cons, List.cons_append]
    exact List.perm_middle.symm

/-- There is always an order of arrival. -/
theorem merge_exists {α : Type} (qs : List (List α)) : ∃ ms, Merge qs ms := by
  have key : ∀ (post pre : List (List α)), (∀ q ∈ pre, q = []) → ∃ ms, Merge (pre ++ post) ms := by
    intro post
    induction post with
    | nil => intro pre hp; exact ⟨[], .done (by simpa using hp)⟩
    | cons q post ih =>
      intro pre hp
      induction q with
      | nil =>
        obtain ⟨ms, hm⟩ := ih (pre ++ [[]]) (by
          intro q hq
          rcases List.mem_append.1 hq with k | k
          · exact hp q k
          · simpa using k)
        exact ⟨ms, by simpa using hm⟩
      | cons m q ihq =>
        obtain ⟨ms, hm⟩ := ihq
        exact ⟨m :: ms, .step hm⟩
  exact key qs [] (by simp)

/-! ## Workers -/

/-- The failures in a list of messages. -/
def failures (ms : List Update) : List (FuzzOp ℕ × Bool) := ms.filterMap (·.failure)

/-- The failing cases of a list of cases. -/
def failing (check : FuzzOp ℕ → M Bool) (l : List (FuzzOp ℕ)) : List (FuzzOp ℕ × Bool) :=
  l.filterMap fun op => match check op with | .ok true => none | .ok false => some (op, false) | .error _ => some (op, true)

theorem outcomes_length (u : Update) : (outcomesOf u).length = u.successes + (if u.failure.isSome then 1 else 0) := by
  unfold outcomesOf
  rcases u with ⟨s, _ | ⟨op, _ | _⟩⟩ <;> simp

theorem replicate_succ_perm (s : ℕ) (l : List Mark) : (List.replicate (s + 1) Mark.fine ++ l).Perm (List.replicate s Mark.fine ++ Mark.fine :: l) := by
  rw [List.replicate_succ', List.append_assoc, List.singleton_append]

/-- A worker reports each of its cases once. -/
theorem worker_reports (batch : ℕ) (check : FuzzOp ℕ → M Bool) (l : List (FuzzOp ℕ)) (s : ℕ) :
    ((worker batch check s l).flatMap outcomesOf).Perm (List.replicate s .fine ++ l.map (outcome check)) ∧
      failures (worker batch check s l) = failing check l := by
  induction l generalizing s with
  | nil => simp [worker, outcomesOf, failures, failing]
  | cons op l ih =>
    unfold worker
    rcases hc : check op with e | _ | _ <;> dsimp only
    · obtain ⟨i1, i2⟩ := ih 0
      constructor
      · rw [List.flatMap_cons, List.map_cons]
        have : outcome check op = .panic := by unfold outcome; rw [hc]
        rw [this]
        have i1 : ((worker batch check 0 l).flatMap outcomesOf).Perm (l.map (outcome check)) := by simpa using i1
        refine List.Perm.trans (List.Perm.of_eq ?_) ((List.Perm.cons _ i1).append_left _)
        show (_ ++ [_]) ++ _ = _
        rw [List.append_assoc, List.singleton_append]
      · simp only [failures, failing, List.filterMap_cons, hc] at i2 ⊢
        rw [i2]
    · obtain ⟨i1, i2⟩ := ih 0
      constructor
      · rw [List.flatMap_cons, List.map_cons]
        have : outcome check op = .mismatch := by unfold outcome; rw [hc]
        rw [this]
        have i1 : ((worker batch check 0 l).flatMap outcomesOf).Perm (l.map (outcome check)) := by simpa using i1
        refine List.Perm.trans (List.Perm.of_eq ?_) ((List.Perm.cons _ i1).append_left _)
        show (_ ++ [_]) ++ _ = _
        rw [List.append_assoc, List.singleton_append]
      · simp only [failures, failing, List.filterMap_cons, hc] at i2 ⊢
        rw [i2]
    · have ef : failing check (op :: l) = failing check l := by simp [failing, hc]
      have eo : outcome check op = .fine := by unfold outcome; rw [hc]
      rw [ef, List.map_cons, eo]
      split_ifs
      · obtain ⟨i1, i2⟩ := ih 0
        constructor
        · rw [List.flatMap_cons]
          have i1 : ((worker batch check 0 l).flatMap outcomesOf).Perm (l.map (outcome check)) := by simpa using i1
          refine List.Perm.trans (List.Perm.of_eq ?_) ((i1.append_left _).trans (replicate_succ_perm s _))
          show (_ ++ []) ++ _ = _
          rw [List.append_nil]
        · simp only [failures, List.filterMap_cons] at i2 ⊢
          rw [i2]
      · obtain ⟨i1, i2⟩ := ih (s + 1)
        exact ⟨i1.trans (replicate_succ_perm s _), i2⟩

/-- The messages of all workers, in any order of arrival. -/
theorem workers_report {batch threads : ℕ} (ht : 1 ≤ threads) (check : FuzzOp ℕ → M Bool) (cases : List (FuzzOp ℕ)) {ms : List Update}
    (hm : Merge (workers batch threads check cases) ms) :
    (ms.flatMap outcomesOf).Perm (cases.map (outcome check)) ∧ (failures ms).Perm (failing check cases) := by
  have hp := merge_perm hm
  have e : ∀ ks : List ℕ, ((ks.map fun k => worker batch check 0 (stepFrom threads k cases)).flatten.flatMap outcomesOf).Perm
        ((ks.map fun k => stepFrom threads k cases).flatten.map (outcome check)) ∧
      failures (ks.map fun k => worker batch check 0 (stepFrom threads k cases)).flatten =
        failing check (ks.map fun k => stepFrom threads k cases).flatten := by
    intro ks
    induction ks with
    | nil => simp [failures, failing]
    | cons k ks ih =>
      obtain ⟨w1, w2⟩ := worker_reports batch check (stepFrom threads k cases) 0
      constructor
      · simp only [List.map_cons, List.flatten_cons, List.flatMap_append, List.map_append]
        exact List.Perm.append (by simpa using w1) ih.1
      · simp only [List.map_cons, List.flatten_cons, failures, failing, List.filterMap_append] at *
        rw [w2, ih.2]
  obtain ⟨e1, e2⟩ := e (List.range threads)
  have hs := slices_perm ht cases
  constructor
  · exact (hp.flatMap_right outcomesOf).trans (e1.trans (hs.map _))
  · refine (hp.filterMap _).trans ?_
    show (failures (workers batch threads check cases).flatten).Perm _
    unfold workers
    rw [e2]
    exact hs.filterMap _

/-! ## The receiving loop -/

/-- Some index from `d` on holds `m`. -/
def Later (m : Mark) (T : List Mark) (d : ℕ) : Prop := ∃ j, d ≤ j ∧ T[j]? = some m

/-- The state agrees with the outcomes `T` received so far. -/
structure RecvOK (p : ℕ) (T : List Mark) (r : Recv) : Prop where
  idx : r.caseIdx = T.length
  first : r.dotFirst = r.marks.length * p
  le : r.dotFirst ≤ T.length
  panic : ∀ d, r.lastPanic.any (fun i => decide (i ≥ d)) = true ↔ Later .panic T d
  mismatch : ∀ d, r.lastMismatch.any (fun i => decide (i ≥ d)) = true ↔ Later .mismatch T d
  near : ∀ j, T[j]? = some .panic ∨ T[j]? = some .mismatch → j < r.dotFirst + p
  shown : ∀ i, i < r.marks.length → r.marks[i]? = some (worst ((T.drop (i * p)).take p))

theorem mem_window {T : List Mark} {a p : ℕ} {m : Mark} (hn : ∀ j, T[j]? = some m → j < a + p) : m ∈ (T.drop a).take p ↔ Later m T a := by
  unfold Later
  rw [List.mem_iff_getElem?]
  constructor
  · rintro ⟨j, hj⟩
    rw [List.getElem?_take] at hj
    split_ifs at hj
    rw [List.getElem?_drop] at hj
    exact ⟨a + j, by omega, hj⟩
  · rintro ⟨j, h1, h2⟩
    have := hn j h2
    refine ⟨j - a, ?_⟩
    rw [List.getElem?_take, if_pos (by omega), List.getElem?_drop, show a + (j - a) = j by omega, h2]

theorem RecvOK.mark_eq {p : ℕ} {T : List Mark} {r : Recv} (h : RecvOK p T r) : r.mark = worst ((T.drop r.dotFirst).take p) := by
  have e1 := mem_window (T := T) (a := r.dotFirst) (p := p) (m := .panic) (fun j hj => h.near j (.inl hj))
  have e2 := mem_window (T := T) (a := r.dotFirst) (p := p) (m := .mismatch) (fun j hj => h.near j (.inr hj))
  unfold Recv.mark worst
  rw [← h.panic] at e1
  rw [← h.mismatch] at e2
  simp only [e1, e2]

/-- The loop printing marks. -/
theorem dotLoop_ok {p : ℕ} (hp : 1 ≤ p) {T : List Mark} (hT : T.length + p < 2 ^ 64) (fuel : ℕ) {r : Recv} (h : RecvOK p T r)
    (hf : T.length - r.dotFirst < fuel) :
    ∃ r', dotLoop p fuel r = .ok r' ∧ RecvOK p T r' ∧ T.length < r'.dotFirst + p ∧ r'.mismatches = r.mismatches ∧ r'.panics = r.panics := by
  induction fuel generalizing r with
  | zero => omega
  | succ fuel ih =>
    have hle := h.le
    have hi := h.idx
    unfold dotLoop
    rw [usize, if_pos (by omega), M.ok_bind]
    split_ifs with hc
    · exact ⟨r, rfl, h, by omega, rfl, rfl⟩
    · obtain ⟨r', r1, r2, r3, r4, r5⟩ := ih (r := { r with marks := r.marks ++ [r.mark], dotFirst := r.dotFirst + p }) ⟨hi, by
          have := h.first
          simp only [List.length_append, List.length_cons, List.length_nil, zero_add, add_mul, one_mul]
          omega, by show r.dotFirst + p ≤ _; omega, h.panic, h.mismatch, fun j hj => by
          have := h.near j hj
          show j < r.dotFirst + p + p
          omega, by
          intro i hi'
          show (r.marks ++ [r.mark])[i]? = _
          simp only [List.length_append, List.length_cons, List.length_nil, zero_add] at hi'
          by_cases hi2 : i < r.marks.length
          · rw [List.getElem?_append_left hi2, h.shown i hi2]
          · have e : i = r.marks.length := by omega
            rw [e, List.getElem?_append_right le_rfl, Nat.sub_self, List.getElem?_cons_zero, h.mark_eq, h.first]⟩ (by
          show T.length - (r.dotFirst + p) < fuel
          omega)
      exact ⟨r', r1, r2, r3, r4, r5⟩

theorem drop_take_append {α : Type} {T T' : List α} {a p : ℕ} (h : a + p ≤ T.length) : ((T ++ T').drop a).take p = (T.drop a).take p := by
  rw [List.drop_append_of_le_length (by omega), List.take_append_of_le_length (by rw [List.length_drop]; omega)]

/-- Windows that are complete do not change. -/
theorem RecvOK.shown_append {p : ℕ} {T : List Mark} {r : Recv} (h : RecvOK p T r) (T' : List Mark) (i : ℕ) (hi : i < r.marks.length) :
    r.marks[i]? = some (worst (((T ++ T').drop (i * p)).take p)) := by
  rw [drop_take_append, h.shown i hi]
  have h1 := h.first
  have h2 := h.le
  have : (i + 1) * p ≤ r.marks.length * p := Nat.mul_le_mul_right _ hi
  rw [add_mul, one_mul] at this
  omega

theorem later_append_fine {m : Mark} (hm : m ≠ .fine) (T : List Mark) (n d : ℕ) : Later m (T ++ List.replicate n Mark.fine) d ↔ Later m T d := by
  unfold Later
  refine exists_congr fun j => and_congr_right fun _ => ?_
  by_cases hj : j < T.length
  · rw [List.getElem?_append_left hj]
  · rw [List.getElem?_append_right (by omega), List.getElem?_replicate, List.getElem?_eq_none (by omega : T.length ≤ j)]
    split_ifs <;> simp [hm.symm]

theorem later_append_one (m m' : Mark) (T : List Mark) (d : ℕ) : Later m (T ++ [m']) d ↔ Later m T d ∨ (m = m' ∧ d ≤ T.length) := by
  unfold Later
  constructor
  · rintro ⟨j, h1, h2⟩
    by_cases hj : j < T.length
    · rw [List.getElem?_append_left hj] at h2
      exact .inl ⟨j, h1, h2⟩
    · rw [List.getElem?_append_right (by omega)] at h2
      have hj' : j - T.length = 0 := by
        by_contra hne
        rw [List.getElem?_eq_none (by simp; omega)] at h2
        cases h2
      rw [hj'] at h2
      simp at h2
      exact .inr ⟨h2.symm, by omega⟩
  · rintro (⟨j, h1, h2⟩ | ⟨rfl, h1⟩)
    · have hj : j < T.length := by
        by_contra hc
        rw [List.getElem?_eq_none (by omega)] at h2
        cases h2
      exact ⟨j, h1, by rw [List.getElem?_append_left hj, h2]⟩
    · exact ⟨T.length, h1, by simp⟩

theorem near_of_later {T : List Mark} {m : Mark} {j : ℕ} (h : T[j]? = some m) : j < T.length := by
  by_contra hc
  rw [List.getElem?_eq_none (by omega)] at h
  cases h

/-- One message. -/
theorem receive_ok {p : ℕ} (hp : 1 ≤ p) {T : List Mark} {u : Update} (hT : (T ++ outcomesOf u).length + p < 2 ^ 64) {r : Recv} (h : RecvOK p T r)
    (hl : T.length < r.dotFirst + p) :
    ∃ r', receive p r u = .ok r' ∧ RecvOK p (T ++ outcomesOf u) r' ∧ (T ++ outcomesOf u).length < r'.dotFirst + p ∧
      r'.mismatches = r.mismatches ++ ([u].filterMap (·.failure)).filterMap (fun x => if x.2 then none else some x.1) ∧
      r'.panics = r.panics ++ ([u].filterMap (·.failure)).filterMap (fun x => if x.2 then some x.1 else none) := by
  rcases u with ⟨n, f⟩
  rw [List.length_append, outcomes_length] at hT
  -- the successes
  have step1 : ∃ r1, (if n > 0 then do
      let k ← usize (r.caseIdx + n)
      dotLoop p (k + 1) { r with caseIdx := k }
    else .ok r : M Recv) = .ok r1 ∧ RecvOK p (T ++ List.replicate n Mark.fine) r1 ∧ (T ++ List.replicate n Mark.fine).length < r1.dotFirst + p ∧
      r1.mismatches = r.mismatches ∧ r1.panics = r.panics := by
    by_cases hn : n > 0
    · have e : r.caseIdx + n = (T ++ List.replicate n Mark.fine).length := by simp [h.idx]
      have hlen : (T ++ List.replicate n Mark.fine).length = T.length + n := by simp
      rw [if_pos hn, usize, if_pos (by rw [e, hlen]; dsimp only at hT; omega), M.ok_bind]
      exact dotLoop_ok hp (by rw [hlen]; dsimp only at hT; omega) (r.caseIdx + n + 1) (r := { r with caseIdx := r.caseIdx + n })
        ⟨e, h.first, by have := h.le; rw [hlen]; show r.dotFirst ≤ _; omega,
          fun d => by rw [later_append_fine (by decide)]; exact h.panic d,
          fun d => by rw [later_append_fine (by decide)]; exact h.mismatch d,
          fun j hj => h.near j (by
            rcases hj with hj | hj
            · left
              by_cases hjl : j < T.length
              · rwa [List.getElem?_append_left hjl] at hj
              · rw [List.getElem?_append_right (by omega), List.getElem?_replicate] at hj
                split_ifs at hj; simp at hj
            · right
              by_cases hjl : j < T.length
              · rwa [List.getElem?_append_left hjl] at hj
              · rw [List.getElem?_append_right (by omega), List.getElem?_replicate] at hj
                split_ifs at hj; simp at hj),
          h.shown_append _⟩ (by rw [← e]; show r.caseIdx + n - r.dotFirst < _; omega)
    · have : n = 0 := by omega
      subst this
      rw [if_neg hn]
      exact ⟨r, rfl, by simpa using h, by simpa using hl, rfl, rfl⟩
  obtain ⟨r1, s1, s2, s3, s4, s5⟩ := step1
  unfold receive
  dsimp only
  rw [s1, M.ok_bind]
  unfold outcomesOf
  dsimp only
  set T1 := T ++ List.replicate n Mark.fine with hT1
  have hlen : T1.length = T.length + n := by simp [hT1]
  rcases f with _ | ⟨op, _ | _⟩
  · dsimp only
    rw [List.append_nil, ← hT1]
    exact ⟨r1, rfl, s2, s3, by simp [s4], by simp [s5]⟩
  · dsimp only at hT ⊢
    simp only [Option.isSome_some, if_true] at hT
    rw [← List.append_assoc, ← hT1]
    have e : r1.caseIdx + 1 = (T1 ++ [Mark.mismatch]).length := by simp [s2.idx]
    have hlen1 : (T1 ++ [Mark.mismatch]).length = T.length + n + 1 := by simp [hlen]
    rw [usize, if_pos (by rw [e, hlen1]; omega), M.ok_bind]
    obtain ⟨r', k1, k2, k3, k4, k5⟩ := dotLoop_ok hp (T := T1 ++ [Mark.mismatch]) (by rw [hlen1]; omega) (r1.caseIdx + 1 + 1)
      (r := { r1 with lastMismatch := some r1.caseIdx, mismatches := r1.mismatches ++ [op], caseIdx := r1.caseIdx + 1 })
      ⟨e, s2.first, by have := s2.le; rw [hlen1]; show r1.dotFirst ≤ _; omega,
        fun d => by
          rw [later_append_one]
          simpa using s2.panic d,
        fun d => by
          rw [later_append_one]
          have := s2.idx
          simp only [Option.any_some, decide_eq_true_eq, true_and]
          constructor
          · intro k; right; omega
          · rintro (⟨j, k1, k2⟩ | k)
            · have := near_of_later k2; omega
            · omega,
        fun j hj => by
          have := s2.near j
          have hj' : j < T1.length + 1 := by
            rcases hj with hj | hj <;> · have := near_of_later hj; simpa using this
          show j < r1.dotFirst + p
          by_cases hjl : j < T1.length
          · rw [List.getElem?_append_left hjl] at hj
            exact this hj
          · omega,
        s2.shown_append _⟩ (by rw [← e]; show r1.caseIdx + 1 - r1.dotFirst < _; omega)
    exact ⟨r', k1, k2, k3, by rw [k4]; simp [s4], by rw [k5]; simp [s5]⟩
  · dsimp only at hT ⊢
    simp only [Option.isSome_some, if_true] at hT
    rw [← List.append_assoc, ← hT1]
    have e : r1.caseIdx + 1 = (T1 ++ [Mark.panic]).length := by simp [s2.idx]
    have hlen1 : (T1 ++ [Mark.panic]).length = T.length + n + 1 := by simp [hlen]
    rw [usize, if_pos (by rw [e, hlen1]; omega), M.ok_bind]
    obtain ⟨r', k1, k2, k3, k4, k5⟩ := dotLoop_ok hp (T := T1 ++ [Mark.panic]) (by rw [hlen1]; omega) (r1.caseIdx + 1 + 1)
      (r := { r1 with lastPanic := some r1.caseIdx, panics := r1.panics ++ [op], caseIdx := r1.caseIdx + 1 })
      ⟨e, s2.first, by have := s2.le; rw [hlen1]; show r1.dotFirst ≤ _; omega,
        fun d => by
          rw [later_append_one]
          have := s2.idx
          simp only [Option.any_some, decide_eq_true_eq, true_and]
          constructor
          · intro k; right; omega
          · rintro (⟨j, k1, k2⟩ | k)
            · have := near_of_later k2; omega
            · omega,
        fun d => by
          rw [later_append_one]
          simpa using s2.mismatch d,
        fun j hj => by
          have := s2.near j
          have hj' : j < T1.length + 1 := by
            rcases hj with hj | hj <;> · have := near_of_later hj; simpa using this
          show j < r1.dotFirst + p
          by_cases hjl : j < T1.length
          · rw [List.getElem?_append_left hjl] at hj
            exact this hj
          · omega,
        s2.shown_append _⟩ (by rw [← e]; show r1.caseIdx + 1 - r1.dotFirst < _; omega)
    exact ⟨r', k1, k2, k3, by rw [k4]; simp [s4], by rw [k5]; simp [s5]⟩

/-- All messages. -/
theorem receive_all {p : ℕ} (hp : 1 ≤ p) (ms : List Update) : ∀ {T : List Mark} {r : Recv}, (T ++ ms.flatMap outcomesOf).length + p < 2 ^ 64 → RecvOK p T r →
    T.length < r.dotFirst + p →
    ∃ r', ms.foldlM (receive p) r = .ok r' ∧ RecvOK p (T ++ ms.flatMap outcomesOf) r' ∧ (T ++ ms.flatMap outcomesOf).length < r'.dotFirst + p ∧
      r'.mismatches = r.mismatches ++ (failures ms).filterMap (fun x => if x.2 then none else some x.1) ∧
      r'.panics = r.panics ++ (failures ms).filterMap (fun x => if x.2 then some x.1 else none) := by
  induction ms with
  | nil => intro T r _ h hl; exact ⟨r, rfl, by simpa using h, by simpa using hl, by simp [failures], by simp [failures]⟩
  | cons u ms ih =>
    intro T r hT h hl
    rw [List.flatMap_cons, ← List.append_assoc] at hT
    obtain ⟨r1, a1, a2, a3, a4, a5⟩ := receive_ok hp (T := T) (u := u) (by rw [List.length_append] at hT; omega) h hl
    obtain ⟨r2, b1, b2, b3, b4, b5⟩ := ih (r := r1) hT a2 a3
    have ef : failures (u :: ms) = [u].filterMap (·.failure) ++ failures ms := by
      unfold failures
      rw [← List.filterMap_append]
      rfl
    refine ⟨r2, ?_, ?_, ?_, ?_, ?_⟩
    · rw [List.foldlM_cons, a1]; exact b1
    · rw [List.flatMap_cons, ← List.append_assoc]; exact b2
    · rw [List.flatMap_cons, ← List.append_assoc]; exact b3
    · rw [b4, a4, ef, List.filterMap_append, List.append_assoc]
    · rw [b5, a5, ef, List.filterMap_append, List.append_assoc]

theorem recv_init (p : ℕ) : RecvOK p [] {} :=
  ⟨rfl, by simp, by simp, fun d => by simp [Later], fun d => by simp [Later], fun j hj => by simp at hj, fun i hi => by simp at hi⟩


/-! ## The search -/

theorem firstOf_le (R : FloatRepr) (onlyFma : Bool) (op : FuzzOp Unit) : firstOf R onlyFma op ≤ 2 ^ (arity op * R.sem.bits) := by
  unfold firstOf
  split_ifs
  · exact Nat.pow_le_pow_right (by norm_num) (Nat.mul_le_mul_right _ (by omega))
  · exact Nat.zero_le _

theorem nextPow2_le {n k : ℕ} (h : n ≤ 2 ^ k) : nextPow2 n ≤ 2 ^ (k + 1) := by
  unfold nextPow2
  split_ifs with h1
  · exact Nat.one_le_two_pow
  · have := Nat.log2_self_le (n := n - 1) (by omega)
    rw [pow_succ, pow_succ]
    omega

theorem nextPow2_pos (n : ℕ) : 1 ≤ nextPow2 n := by
  unfold nextPow2
  split_ifs
  · exact le_rfl
  · exact Nat.one_le_two_pow

/-- How many cases a mark stands for. -/
def casesPerMark (total : ℕ) : ℕ := total / max (total / 2 ^ 23) 40

theorem Narrow.sizes_eq (h : Narrow R) (onlyFma : Bool) {threads : ℕ} (hc : caseCount R onlyFma < 2 ^ 63) :
    ∃ batch, sizes R onlyFma threads = .ok (caseCount R onlyFma, casesPerMark (caseCount R onlyFma), batch) := by
  have key : ∀ (ops : List (FuzzOp Unit)) (t : ℕ), t + (ops.map fun op => 2 ^ (arity op * R.sem.bits) - firstOf R onlyFma op).sum < 2 ^ 128 →
      ops.foldlM (fun (t : ℕ) op => do
        let (lo, hi) ← combinedRange R.bitWidth onlyFma op
        if hi < lo then .error .unwrap
        else if t + (hi - lo) < 2 ^ 128 then .ok (t + (hi - lo)) else .error .unwrap : ℕ → FuzzOp Unit → M ℕ) t =
      .ok (t + (ops.map fun op => 2 ^ (arity op * R.sem.bits) - firstOf R onlyFma op).sum) := by
    intro ops
    induction ops with
    | nil => intro t _; rfl
    | cons o ops ih =>
      intro t ht
      rw [List.map_cons, List.sum_cons] at ht
      rw [List.foldlM_cons, h.range_eq, M.ok_bind]
      dsimp only
      have := firstOf_le R onlyFma o
      rw [if_neg (by omega), if_pos (by omega), M.ok_bind, ih _ (by omega), List.map_cons, List.sum_cons]
      congr 1
      omega
  have e : _ := key (allOps onlyFma) 0 (by rw [zero_add]; exact lt_trans hc (by norm_num))
  rw [zero_add] at e
  change _ = Except.ok (caseCount R onlyFma) at e
  unfold sizes
  rw [e, M.ok_bind]
  dsimp only
  have hd : caseCount R onlyFma / 2 ^ 23 < 2 ^ 64 := lt_of_le_of_lt (Nat.div_le_self _ _) (lt_trans hc (by norm_num))
  have hp : casesPerMark (caseCount R onlyFma) ≤ 2 ^ 58 := by
    unfold casesPerMark
    have h1 : caseCount R onlyFma / max (caseCount R onlyFma / 2 ^ 23) 40 ≤ caseCount R onlyFma / 40 := Nat.div_le_div_left (le_max_right _ _) (by norm_num)
    omega
  rw [if_pos hd]
  change ∃ batch, (if casesPerMark (caseCount R onlyFma) < 2 ^ 64 then _ else _) = _
  rw [if_pos (by omega)]
  have hb : nextPow2 (casesPerMark (caseCount R onlyFma) / threads) ≤ 2 ^ 59 := nextPow2_le (le_trans (Nat.div_le_self _ _) hp)
  refine ⟨nextPow2 (casesPerMark (caseCount R onlyFma) / threads), ?_⟩
  change (usize (nextPow2 (casesPerMark (caseCount R onlyFma) / threads)) >>= _) = _
  rw [usize, if_pos (by omega), M.ok_bind]
  rfl

theorem narrow_of_le (h : R ∈ reprs) (hb : R.sem.bits ≤ 16) : Narrow R := ⟨h, by omega⟩

theorem count_bounds (h : R ∈ reprs) (hb : R.sem.bits ≤ 16) (onlyFma : Bool) : 2 ^ 23 ≤ caseCount R onlyFma ∧ caseCount R onlyFma < 2 ^ 62 := by
  simp only [reprs, List.mem_cons, List.not_mem_nil, or_false] at h
  rcases h with rfl | rfl | rfl | rfl | rfl | rfl | rfl | rfl <;> first
    | (exfalso; revert hb; decide)
    | (revert onlyFma; decide +kernel)

theorem dedup_mem {last : Option ℕ} {l : List (FuzzOp ℕ)} : (∀ op ∈ dedupByTag last l, op ∈ l) ∧
    ∀ op ∈ l, last = some op.tag ∨ ∃ op' ∈ dedupByTag last l, op'.tag = op.tag := by
  induction l generalizing last with
  | nil => simp [dedupByTag]
  | cons o l ih =>
    unfold dedupByTag
    split_ifs with hc
    · obtain ⟨i1, i2⟩ := ih (last := last)
      refine ⟨fun op h => List.mem_cons_of_mem _ (i1 op h), fun op h => ?_⟩
      rcases List.mem_cons.1 h with rfl | h
      · exact .inl hc
      · exact i2 op h
    · obtain ⟨i1, i2⟩ := ih (last := some o.tag)
      refine ⟨fun op h => ?_, fun op h => ?_⟩
      · rcases List.mem_cons.1 h with rfl | h
        · simp
        · exact List.mem_cons_of_mem _ (i1 op h)
      · rcases List.mem_cons.1 h with rfl | h
        · exact .inr ⟨op, by simp, rfl⟩
        · rcases i2 op h with k | ⟨op', k1, k2⟩
          · exact .inr ⟨o, by simp, by simpa using k⟩
          · exact .inr ⟨op', by simp [k1], k2⟩

/-- **C107.** The exhaustive search of a format of 8 or 16 bits, with any number of threads and in every order in which their messages can arrive: it always ends;
every case is checked exactly once; the mismatches and the panics reported are exactly those of the cases, each once; the search succeeds if and only if all
cases match; at least one mismatch of every operation that has any is shown; and the marks printed are those of consecutive groups of cases, in the order in
which their outcomes arrive. -/
theorem C107_bruteforce (h : R ∈ reprs) (hb : R.sem.bits ≤ 16) (onlyFma : Bool) {threads : ℕ} (ht : 1 ≤ threads) (check : FuzzOp ℕ → M Bool) {out : M Recv}
    (ho : Bruteforce R onlyFma threads check out) :
    ∃ r, out = .ok r ∧
      (r.mismatches.Nodup ∧ ∀ op, op ∈ r.mismatches ↔ Covered R onlyFma op ∧ check op = .ok false) ∧
      (r.panics.Nodup ∧ ∀ op, op ∈ r.panics ↔ Covered R onlyFma op ∧ ∃ e, check op = .error e) ∧
      (r.result = none ↔ ∀ op, Covered R onlyFma op → check op = .ok true) ∧
      (∀ op ∈ r.shown, op ∈ r.mismatches) ∧ (∀ op ∈ r.mismatches, ∃ op' ∈ r.shown, op'.tag = op.tag) ∧
      ∃ cases : List (FuzzOp ℕ), cases.Nodup ∧ (∀ op, op ∈ cases ↔ Covered R onlyFma op) ∧ r.caseIdx = cases.length ∧
        ∃ order : List Mark, order.Perm (cases.map (outcome check)) ∧ r.marks.length = cases.length / casesPerMark cases.length ∧
          ∀ i, i < r.marks.length → r.marks[i]? = some (worst ((order.drop (i * casesPerMark cases.length)).take (casesPerMark cases.length))) := by
  have hN := narrow_of_le h hb
  obtain ⟨hc1, hc2⟩ := count_bounds h hb onlyFma
  obtain ⟨batch, hs⟩ := hN.sizes_eq onlyFma (threads := threads) (by omega)
  obtain ⟨ls, l1, l2, l3, l4⟩ := hN.all_cases onlyFma
  unfold Bruteforce at ho
  rw [hs, l1] at ho
  dsimp only at ho
  obtain ⟨ms, m1, m2⟩ := ho
  obtain ⟨w1, w2⟩ := workers_report ht check ls.flatten m1
  have hlen : (ms.flatMap outcomesOf).length = caseCount R onlyFma := by rw [w1.length_eq, List.length_map, l3]
  have hp1 : 1 ≤ casesPerMark (caseCount R onlyFma) := by
    unfold casesPerMark
    rw [Nat.one_le_div_iff (by positivity)]
    apply max_le
    · exact Nat.div_le_self _ _
    · omega
  have hp2 : casesPerMark (caseCount R onlyFma) ≤ caseCount R onlyFma := Nat.div_le_self _ _
  obtain ⟨r, r1, r2, r3, r4, r5⟩ := receive_all hp1 ms (T := []) (r := {}) (by rw [List.nil_append, hlen]; omega) (recv_init _) (by
    show 0 < 0 + casesPerMark (caseCount R onlyFma)
    omega)
  rw [List.nil_append] at r2 r3
  rw [List.nil_append] at r4 r5
  -- the reported failures
  have pm : r.mismatches.Perm (ls.flatten.filter (fun op => decide (outcome check op = .mismatch))) := by
    rw [r4]
    refine (w2.filterMap _).trans ?_
    rw [failing, List.filterMap_filterMap, ← List.filterMap_eq_filter]
    refine List.Perm.of_eq (List.filterMap_congr fun op _ => ?_)
    rcases hk : check op with e | _ | _ <;> simp [Option.guard, outcome, hk]
  have pp : r.panics.Perm (ls.flatten.filter (fun op => decide (outcome check op = .panic))) := by
    rw [r5]
    refine (w2.filterMap _).trans ?_
    rw [failing, List.filterMap_filterMap, ← List.filterMap_eq_filter]
    refine List.Perm.of_eq (List.filterMap_congr fun op _ => ?_)
    rcases hk : check op with e | _ | _ <;> simp [Option.guard, outcome, hk]
  have hm : ∀ op, op ∈ r.mismatches ↔ Covered R onlyFma op ∧ check op = .ok false := by
    intro op
    rw [pm.mem_iff, List.mem_filter, l4, decide_eq_true_iff]
    refine and_congr_right fun _ => ?_
    rcases hk : check op with e | _ | _ <;> simp [outcome, hk]
  have hpn : ∀ op, op ∈ r.panics ↔ Covered R onlyFma op ∧ ∃ e, check op = .error e := by
    intro op
    rw [pp.mem_iff, List.mem_filter, l4, decide_eq_true_iff]
    refine and_congr_right fun _ => ?_
    rcases hk : check op with e | _ | _ <;> simp [outcome, hk]
  refine ⟨r, by rw [m2, r1], ⟨pm.nodup_iff.2 (l2.filter _), hm⟩, ⟨pp.nodup_iff.2 (l2.filter _), hpn⟩, ?_, fun op k => dedup_mem.1 op k, ?_, ls.flatten, l2, l4, ?_,
    ms.flatMap outcomesOf, w1, ?_, ?_⟩
  · unfold Recv.result
    rw [← List.length_append]
    have : (r.mismatches ++ r.panics).length = 0 ↔ ∀ op, Covered R onlyFma op → check op = .ok true := by
      rw [List.length_eq_zero_iff, List.eq_nil_iff_forall_not_mem]
      refine forall_congr' fun op => ?_
      rw [List.mem_append, hm, hpn]
      rcases hcheck : check op with e | _ | _ <;> simp
    split_ifs with k
    · simpa using this.1 k
    · simp only [reduceCtorEq, false_iff]
      exact fun k' => k (this.2 k')
  · intro op k
    rcases (dedup_mem (last := none)).2 op k with e | e
    · cases e
    · exact e
  · rw [r2.idx, hlen, l3]
  · have a := r2.first
    have b := r2.le
    rw [hlen] at b r3
    rw [l3]
    rw [a] at b r3
    exact (Nat.div_eq_of_lt_le b (by rw [add_mul, one_mul]; exact r3)).symm
  · rw [l3]
    exact r2.shown

/-- **C107.** There is always an order in which the messages can arrive. -/
theorem C107_exists (R : FloatRepr) (onlyFma : Bool) (threads : ℕ) (check : FuzzOp ℕ → M Bool) : ∃ out, Bruteforce R onlyFma threads check out := by
  unfold Bruteforce
  rcases sizes R onlyFma threads with e | ⟨t, p, b⟩
  · exact ⟨.error e, rfl⟩
  · rcases (allOps onlyFma).mapM (casesOf R onlyFma) with e | ls
    · exact ⟨.error e, rfl⟩
    · obtain ⟨ms, hm⟩ := merge_exists (workers b threads check ls.flatten)
      exact ⟨_, ms, hm, rfl⟩

/-- The check of one case (fuzz/src/main.rs:618-619). -/
def checkCase (args : Args) (orc : Oracle) (R : FloatRepr) (op : FuzzOp ℕ) : M Bool := do
  let o ← eval args orc R op
  .ok o.allMatch

theorem no_hard (h : R ∈ reprs) (hb : R.sem.bits ≤ 16) : R.hasHard = false := by
  simp only [reprs, List.mem_cons, List.not_mem_nil, or_false] at h
  rcases h with rfl | rfl | rfl | rfl | rfl | rfl | rfl | rfl <;> first
    | (exfalso; revert hb; decide)
    | rfl

/-- **C107.** What the search finds with the library under test, whatever LLVM answers: it reports as panics exactly the multiplications-additions on which
the library stops, as mismatches exactly the cases where LLVM answers something else, and nothing exactly when there is neither. -/
theorem C107_search (h : R ∈ reprs) (hb : R.sem.bits ≤ 16) (onlyFma : Bool) {threads : ℕ} (ht : 1 ≤ threads) (args : Args) (orc : Oracle) {out : M Recv}
    (ho : Bruteforce R onlyFma threads (checkCase args orc R) out) :
    ∃ r, out = .ok r ∧
      (∀ op, op ∈ r.panics ↔ Covered R onlyFma op ∧ FmaStops R op) ∧
      (∀ op, op ∈ r.mismatches ↔ Covered R onlyFma op ∧ ∃ rs, evalBits R op = .ok rs ∧ args.ignoreCxx = false ∧ orc.cxx R op ≠ rs) ∧
      (r.result = none ↔ ∀ op, Covered R onlyFma op → ∃ rs, evalBits R op = .ok rs ∧ (args.ignoreCxx = false → orc.cxx R op = rs)) := by
  obtain ⟨r, r1, ⟨-, r2⟩, ⟨-, r3⟩, r4, -⟩ := C107_bruteforce h hb onlyFma ht _ ho
  have hh := no_hard h hb
  have key : ∀ op, Covered R onlyFma op → (FmaStops R op ∧ checkCase args orc R op = .error .assert ∧ evalBits R op = .error .assert) ∨
      (¬ FmaStops R op ∧ ∃ rs, evalBits R op = .ok rs ∧ checkCase args orc R op = .ok (decide (args.ignoreCxx = false → orc.cxx R op = rs))) := by
    intro op hc
    obtain ⟨e1, e2⟩ := C106_eval h hc.1
    by_cases hs : FmaStops R op
    · refine .inl ⟨hs, ?_, e1 hs⟩
      unfold checkCase eval
      rw [e1 hs]
      rfl
    · obtain ⟨b, hb1, -⟩ := e2 hs
      obtain ⟨o, o1, -, o3⟩ := C108_eval h args orc hc.1 (by rw [hh]; intro k; cases k) hb1
      refine .inr ⟨hs, b, hb1, ?_⟩
      unfold checkCase
      rw [o1, M.ok_bind]
      congr 1
      rw [Bool.eq_iff_iff, o3, decide_eq_true_iff]
      unfold Matches
      rw [hh]
      simp
  refine ⟨r, r1, fun op => ?_, fun op => ?_, ?_⟩
  · rw [r3]
    refine and_congr_right fun hc => ?_
    rcases key op hc with ⟨k1, k2, -⟩ | ⟨k1, b, -, k2⟩ <;> simp [k1, k2]
  · rw [r2]
    refine and_congr_right fun hc => ?_
    rcases key op hc with ⟨k1, k2, k3⟩ | ⟨k1, b, k3, k2⟩ <;> simp [k2, k3]
  · rw [r4]
    refine forall₂_congr fun op hc => ?_
    rcases key op hc with ⟨k1, k2, k3⟩ | ⟨k1, b, k3, k2⟩
    · simp [k2, k3]
    · rw [k2, Except.ok.injEq, decide_eq_true_iff, k3]
      simp

/-- **C107.** The exhaustive search of `Float8E4M3FN` never succeeds: the library panics on `5 * 37 + 129` (bit patterns) -- 5·2⁻⁹ · 13·2⁻⁶ − 2⁻⁹. -/
theorem C107_e4m3fn {R : FloatRepr} (h : R ∈ reprs) (hR : R.tag = 9) (onlyFma : Bool) {threads : ℕ} (ht : 1 ≤ threads) (args : Args) (orc : Oracle) {out : M Recv}
    (ho : Bruteforce R onlyFma threads (checkCase args orc R) out) :
    ∃ r n, out = .ok r ∧ .mulAdd 5 37 129 ∈ r.panics ∧ r.result = some n := by
  have eR : R = { sem := float8E4M3FNS, reprBytes := 1, tag := 8 + 1 } := by
    simp only [reprs, List.mem_cons, List.not_mem_nil, or_false] at h
    rcases h with rfl | rfl | rfl | rfl | rfl | rfl | rfl | rfl <;> first
      | rfl
      | (exfalso; revert hR; decide)
  subst eR
  obtain ⟨r, r1, r2, -, r4⟩ := C107_search h (by decide) onlyFma ht args orc ho
  have hc : Covered { sem := float8E4M3FNS, reprBytes := 1, tag := 8 + 1 } onlyFma (.mulAdd 5 37 129) := by
    refine ⟨?_, fun _ => ⟨5, 37, 129, rfl, by norm_num⟩⟩
    unfold IsCase inputsOf
    decide
  have he : evalBits { sem := float8E4M3FNS, reprBytes := 1, tag := 8 + 1 } (.mulAdd 5 37 129) = .error .assert := by decide +kernel
  have hs : FmaStops { sem := float8E4M3FNS, reprBytes := 1, tag := 8 + 1 } (.mulAdd 5 37 129) := by
    by_contra k
    obtain ⟨b, hb, -⟩ := (C106_eval h hc.1).2 k
    rw [he] at hb
    cases hb
  have hr : r.result ≠ none := by
    intro k
    obtain ⟨b, hb, -⟩ := r4.1 k _ hc
    rw [he] at hb
    cases hb
  obtain ⟨n, hn⟩ := Option.ne_none_iff_exists'.1 hr
  exact ⟨r, n, r1, (r2 _).2 ⟨hc, hs⟩, hn⟩

/-- **C107.** The search stops at once for the formats of 64, 80 and 128 bits: the number of cases is not a `u128`. -/
theorem C107_wide {R : FloatRepr} (h : R ∈ reprs) (hb : 64 ≤ R.sem.bits) (onlyFma : Bool) (threads : ℕ) (check : FuzzOp ℕ → M Bool) {out : M Recv}
    (ho : Bruteforce R onlyFma threads check out) : ∃ e, out = .error e := by
  have key : ∃ e, (allOps onlyFma).foldlM (fun (t : ℕ) op => do
        let (lo, hi) ← combinedRange R.bitWidth onlyFma op
        if hi < lo then .error .unwrap
        else if t + (hi - lo) < 2 ^ 128 then .ok (t + (hi - lo)) else .error .unwrap : ℕ → FuzzOp Unit → M ℕ) 0 = .error e := by
    simp only [reprs, List.mem_cons, List.not_mem_nil, or_false] at h
    rcases h with rfl | rfl | rfl | rfl | rfl | rfl | rfl | rfl <;> first
      | (exfalso; revert hb; decide)
      | (cases onlyFma <;> first
          | exact ⟨.unwrap, by decide +kernel⟩
          | exact ⟨.arith, by decide +kernel⟩)
  obtain ⟨e, he⟩ := key
  have hs : sizes R onlyFma threads = .error e := by
    unfold sizes
    rw [he]
    rfl
  unfold Bruteforce at ho
  rw [hs] at ho
  exact ⟨e, ho⟩

/-! The hypotheses are met: the formats of 8 and 16 bits, and the searches that exist by `C107_exists`. -/
example : (reprs.filter (fun R => decide (R.sem.bits ≤ 16))).map (fun R => (R.tag, R.sem.bits, caseCount R false, caseCount R true)) =
    [(16, 16, 281496451874816, 281470681743360), (8, 8, 17106176, 16711680), (9, 8, 17106176, 16711680), (17, 16, 281496451874816, 281470681743360)] := by
  decide +kernel
example : (reprs.filter (fun R => decide (64 ≤ R.sem.bits))).map (·.tag) = [64, 128, 80] := by decide
/-- A small search carried out: three cases, two threads, one order of arrival. -/
example : workers 1 2 (fun op => .ok (decide (op.tag = 0))) [.neg 1, .neg 2, .add 1 1] =
    [[⟨1, none⟩, ⟨0, some (.add 1 1, false)⟩, ⟨0, none⟩], [⟨1, none⟩, ⟨0, none⟩]] := by rfl
example : ([⟨1, none⟩, ⟨1, none⟩, ⟨0, none⟩, ⟨0, some (.add 1 1, false)⟩, ⟨0, none⟩] : List Update).foldlM (receive 2) {} =
    .ok { caseIdx := 3, dotFirst := 2, lastMismatch := some 2, mismatches := [.add 1 1], marks := [.fine] } := by rfl
theorem main_loop {minWidth maxWidth : ℕ} (hw : maxWidth ≤ 16) (onlyFma : Bool) {threads : ℕ} (ht : 1 ≤ threads) (check : FloatRepr → FuzzOp ℕ → M Bool)
    (tags : List ℕ) (any : Bool) {out : M Bool} (ho : BruteforceMain minWidth maxWidth onlyFma threads check tags any out) :
    ∃ b, out = .ok b ∧ (b = true ↔ any = true ∨ ∃ tag ∈ tags, ∃ R, reprOfTag tag = some R ∧ minWidth ≤ R.sem.bits ∧ R.sem.bits ≤ maxWidth ∧
      ∃ op, Covered R onlyFma op ∧ check R op ≠ .ok true) := by
  induction tags generalizing any with
  | nil => exact ⟨any, ho, by simp⟩
  | cons tag tags ih =>
    unfold BruteforceMain at ho
    rcases hR : reprOfTag tag with _ | R
    · rw [hR] at ho
      obtain ⟨b, b1, b2⟩ := ih any ho
      refine ⟨b, b1, ?_⟩
      rw [b2]
      simp [hR]
    · rw [hR] at ho
      dsimp only at ho
      split_ifs at ho with hw'
      · have hm : R ∈ reprs := List.mem_of_find?_eq_some hR
        obtain ⟨o, o1, o2⟩ := ho
        obtain ⟨r, rfl, -, -, r1, -⟩ := C107_bruteforce hm (le_trans hw'.2 hw) onlyFma ht _ o1
        obtain ⟨b, b1, b2⟩ := ih _ o2
        refine ⟨b, b1, ?_⟩
        rw [b2, Bool.or_eq_true]
        have : r.result.isSome = true ↔ ∃ op, Covered R onlyFma op ∧ check R op ≠ .ok true := by
          rw [Option.isSome_iff_ne_none, Ne, r1]
          push Not
          rfl
        rw [this]
        simp only [List.mem_cons, exists_eq_or_imp, hR, Option.some.injEq, exists_eq_left']
        rw [or_assoc]
        refine or_congr_right (or_congr_left ?_)
        exact ⟨fun k => ⟨hw'.1, hw'.2, k⟩, fun k => k.2.2⟩
      · obtain ⟨b, b1, b2⟩ := ih any ho
        refine ⟨b, b1, ?_⟩
        rw [b2]
        simp only [List.mem_cons, exists_eq_or_imp, hR, Option.some.injEq, exists_eq_left']
        refine or_congr_right ⟨.inr, fun k => k.resolve_left fun k => hw' ⟨k.1, k.2.1⟩⟩

/-- **C107.** The exit status of the subcommand, for widths up to 16 bits: 1 if and only if some case of a format in the range does not match (or panics). -/
theorem C107_main {minWidth maxWidth : ℕ} (hw : maxWidth ≤ 16) (onlyFma : Bool) {threads : ℕ} (ht : 1 ≤ threads) (check : FloatRepr → FuzzOp ℕ → M Bool)
    {out : M Bool} (ho : BruteforceMain minWidth maxWidth onlyFma threads check (List.range 256) false out) :
    ∃ b, out = .ok b ∧ (b = true ↔ ∃ R ∈ reprs, minWidth ≤ R.sem.bits ∧ R.sem.bits ≤ maxWidth ∧ ∃ op, Covered R onlyFma op ∧ check R op ≠ .ok true) := by
  obtain ⟨b, b1, b2⟩ := main_loop hw onlyFma ht check _ _ ho
  refine ⟨b, b1, ?_⟩
  rw [b2]
  simp only [Bool.false_eq_true, false_or]
  constructor
  · rintro ⟨tag, -, R, h, k⟩
    exact ⟨R, List.mem_of_find?_eq_some h, k⟩
  · rintro ⟨R, h, k⟩
    obtain ⟨t1, t2⟩ := C105_format_tags.1 R h
    exact ⟨R.tag, List.mem_range.2 t2, R, t1, k⟩

/-- **C107.** With the default range of widths (0 to 8), and every range up to 16 bits that contains 8, the tool exits with status 1, whatever LLVM answers. -/
theorem C107_default_fails {minWidth maxWidth : ℕ} (h8 : minWidth ≤ 8) (h8' : 8 ≤ maxWidth) (hw : maxWidth ≤ 16) (onlyFma : Bool) {threads : ℕ} (ht : 1 ≤ threads)
    (args : Args) (orc : Oracle) {out : M Bool} (ho : BruteforceMain minWidth maxWidth onlyFma threads (checkCase args orc) (List.range 256) false out) :
    out = .ok true := by
  obtain ⟨b, b1, b2⟩ := C107_main hw onlyFma ht _ ho
  have : b = true := by
    refine b2.2 ⟨{ sem := float8E4M3FNS, reprBytes := 1, tag := 8 + 1 }, by simp [reprs], h8, h8', .mulAdd 5 37 129, ⟨?_, fun _ => ⟨5, 37, 129, rfl, by norm_num⟩⟩, ?_⟩
    · unfold IsCase inputsOf
      decide
    · unfold checkCase eval
      rw [show evalBits { sem := float8E4M3FNS, reprBytes := 1, tag := 8 + 1 } (.mulAdd 5 37 129) = .error .assert by decide +kernel]
      intro k
      cases k
  rw [b1, this]

/-- Runs exist. -/
theorem C107_main_exists (minWidth maxWidth : ℕ) (onlyFma : Bool) (threads : ℕ) (check : FloatRepr → FuzzOp ℕ → M Bool) (tags : List ℕ) (any : Bool) :
    ∃ out, BruteforceMain minWidth maxWidth onlyFma threads check tags any out := by
  induction tags generalizing any with
  | nil => exact ⟨_, rfl⟩
  | cons tag tags ih =>
    unfold BruteforceMain
    rcases reprOfTag tag with _ | R
    · exact ih any
    · dsimp only
      split_ifs
      · obtain ⟨o, ho⟩ := C107_exists R onlyFma threads (check R)
        rcases o with e | r
        · exact ⟨.error e, _, ho, rfl⟩
        · obtain ⟨out, h⟩ := ih (any || r.result.isSome)
          exact ⟨out, _, ho, h⟩
      · exact ih any

end Apf
