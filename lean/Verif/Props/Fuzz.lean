import Verif.Spec.Fuzz
import Verif.Props.Total

/-! # C105, C106: test files and evaluation of test cases -/

namespace Apf
open Fuzz IeeeFloat

/-! ## Bytes -/

theorem lowBytes_succ (n x : ℕ) : lowBytes (n + 1) x = x % 256 :: lowBytes n (x / 256) := by
  unfold lowBytes
  rw [List.range_succ_eq_map, List.map_cons, List.map_map]
  congr 1
  · simp
  · apply List.map_congr_left
    intro i _
    simp only [Function.comp, pow_succ]
    rw [Nat.div_div_eq_div_mul, mul_comm]

theorem leBytes_eq (n x : ℕ) : leBytes n x = lowBytes n x := by
  induction n generalizing x with
  | zero => rfl
  | succ n ih => rw [leBytes, ih, lowBytes_succ]

theorem lowBytes_length (n x : ℕ) : (lowBytes n x).length = n := by simp [lowBytes]

theorem lowBytes_lt {n x b : ℕ} (hb : b ∈ lowBytes n x) : b < 256 := by
  unfold lowBytes at hb
  obtain ⟨i, -, rfl⟩ := List.mem_map.1 hb
  exact Nat.mod_lt _ (by norm_num)

theorem take_lowBytes {n k x : ℕ} (h : n ≤ k) : (lowBytes k x).take n = lowBytes n x := by
  unfold lowBytes
  rw [← List.map_take, List.take_range, min_eq_left h]

theorem leNat_lowBytes {n x : ℕ} (h : x < 256 ^ n) : leNat (lowBytes n x) = x := by
  induction n generalizing x with
  | zero => simp at h; subst h; rfl
  | succ n ih =>
    rw [lowBytes_succ, leNat, ih (by rw [Nat.div_lt_iff_lt_mul (by norm_num)]; rw [pow_succ] at h; exact h)]
    omega

theorem lowBytes_leNat {l : List ℕ} (h : ∀ b ∈ l, b < 256) : lowBytes l.length (leNat l) = l := by
  induction l with
  | nil => rfl
  | cons b l ih =>
    have hb := h b (by simp)
    rw [List.length_cons, lowBytes_succ, leNat]
    rw [show (b + 256 * leNat l) % 256 = b by omega, show (b + 256 * leNat l) / 256 = leNat l by omega, ih (fun c hc => h c (by simp [hc]))]

theorem leNat_lt {l : List ℕ} (h : ∀ b ∈ l, b < 256) : leNat l < 256 ^ l.length := by
  induction l with
  | nil => simp [leNat]
  | cons b l ih =>
    have hb := h b (by simp)
    have := ih (fun c hc => h c (by simp [hc]))
    rw [List.length_cons, leNat, pow_succ]
    omega

theorem leNat_append_zeros (l : List ℕ) (k : ℕ) : leNat (l ++ List.replicate k 0) = leNat l := by
  induction l with
  | nil =>
    induction k with
    | zero => rfl
    | succ k ih => rw [List.replicate_succ]; simp only [List.nil_append, leNat] at ih ⊢; rw [ih]
  | cons b l ih => simp only [List.cons_append, leNat, ih]

/-- What the codec needs of a format. -/
structure ReprOK (R : FloatRepr) : Prop where
  pos : 1 ≤ R.sem.bits / 8
  eight : R.sem.bits = 8 * (R.sem.bits / 8)
  fits : R.sem.bits / 8 ≤ R.reprBytes

theorem reprs_ok {R : FloatRepr} (h : R ∈ reprs) : ReprOK R := by
  simp only [reprs, List.mem_cons, List.not_mem_nil, or_false] at h
  rcases h with rfl | rfl | rfl | rfl | rfl | rfl | rfl | rfl <;> exact ⟨by decide, by decide, by decide⟩

variable {R : FloatRepr}

theorem ReprOK.byteLen (h : ReprOK R) : R.byteLen = R.sem.bits / 8 := by
  have := h.eight
  unfold FloatRepr.byteLen FloatRepr.bitWidth
  omega

theorem ReprOK.pow (h : ReprOK R) : 2 ^ R.sem.bits = 256 ^ (R.sem.bits / 8) := by
  conv_lhs => rw [h.eight, pow_mul]
  norm_num

theorem ReprOK.toLe (h : ReprOK R) (x : ℕ) : R.toLeBytes x = .ok (lowBytes (R.sem.bits / 8) x) := by
  unfold FloatRepr.toLeBytes
  rw [h.byteLen, if_neg (by have := h.fits; omega), leBytes_eq, take_lowBytes h.fits]

theorem ReprOK.fromLe (h : ReprOK R) {bytes : List ℕ} (hl : bytes.length = R.sem.bits / 8) : R.fromLeBytes bytes = .ok (leNat bytes) := by
  unfold FloatRepr.fromLeBytes
  rw [h.byteLen, if_neg (by have := h.fits; omega), if_neg (by omega), leNat_append_zeros]

theorem ReprOK.next_nil : R.nextInput [] = .ok (none, []) := rfl

theorem ReprOK.next (h : ReprOK R) {l : List ℕ} {k : ℕ} (hl : l.length = (R.sem.bits / 8) * (k + 1)) :
    R.nextInput l = .ok (some (leNat (l.take (R.sem.bits / 8))), l.drop (R.sem.bits / 8)) ∧
      (l.drop (R.sem.bits / 8)).length = (R.sem.bits / 8) * k := by
  have hp := h.pos
  have e : R.sem.bits / 8 * (k + 1) = R.sem.bits / 8 * k + R.sem.bits / 8 := by ring
  constructor
  · unfold FloatRepr.nextInput
    have : l.isEmpty = false := by
      cases l with
      | nil => simp at hl; omega
      | cons _ _ => rfl
    rw [this, if_neg (by decide), h.byteLen, h.fromLe (by rw [List.length_take]; omega)]
    rfl
  · rw [List.length_drop]; omega

theorem encode_eq (h : ReprOK R) (op : FuzzOp ℕ) : R.encode op = .ok (caseBytes R op) := by
  unfold FloatRepr.encode caseBytes
  cases op <;> simp [FuzzOp.mapM, h.toLe, M.ok_bind, inputsOf, FuzzOp.tag, bind, Except.bind, List.flatMap]
theorem ReprOK.next_app (h : ReprOK R) {x : ℕ} (hx : x < 2 ^ R.sem.bits) (rest : List ℕ) :
    R.nextInput (lowBytes (R.sem.bits / 8) x ++ rest) = .ok (some x, rest) := by
  have hp := h.pos
  unfold FloatRepr.nextInput
  have e : (lowBytes (R.sem.bits / 8) x ++ rest).isEmpty = false := by
    cases hl : lowBytes (R.sem.bits / 8) x with
    | nil => have := lowBytes_length (R.sem.bits / 8) x; rw [hl] at this; simp at this; omega
    | cons _ _ => rfl
  rw [e, if_neg (by decide), h.byteLen, List.take_left' (lowBytes_length _ _), List.drop_left' (lowBytes_length _ _),
    h.fromLe (lowBytes_length _ _), leNat_lowBytes (by rw [← h.pow]; exact hx)]
  rfl

/-- A chunk of bytes read and written again. -/
theorem chunk (L : ℕ) {l : List ℕ} (hb : ∀ b ∈ l, b < 256) (hl : L ≤ l.length) :
    lowBytes L (leNat (l.take L)) = l.take L ∧ leNat (l.take L) < 256 ^ L := by
  have hb' : ∀ b ∈ l.take L, b < 256 := fun b hb' => hb b (List.mem_of_mem_take hb')
  have e : (l.take L).length = L := by rw [List.length_take]; omega
  have h1 := lowBytes_leNat hb'
  have h2 := leNat_lt hb'
  rw [e] at h1 h2
  exact ⟨h1, h2⟩

theorem fromTag_tag {tag : ℕ} {op : FuzzOp Unit} (h : FuzzOp.fromTag tag = some op) : op.tag = tag := by
  unfold FuzzOp.fromTag at h
  split at h <;> first | (injection h with h; subst h; rfl) | cases h

theorem tryDecode_cases (h : ReprOK R) (tag : ℕ) {l : List ℕ} (hb : ∀ b ∈ l, b < 256) :
    R.tryDecode (tag :: l) = .ok (.error ()) ∨
    ∃ op, R.tryDecode (tag :: l) = .ok (.ok op) ∧ IsCase R op ∧ tag :: l = caseBytes R op := by
  have hp := h.pos
  have hbl := h.byteLen
  unfold FloatRepr.tryDecode
  dsimp only
  rw [hbl, if_neg (by omega)]
  by_cases hm : l.length % (R.sem.bits / 8) ≠ 0
  · rw [if_pos hm]; exact .inl rfl
  rw [if_neg hm]
  push Not at hm
  obtain ⟨k, hk⟩ := Nat.dvd_of_mod_eq_zero hm
  have nil := ReprOK.next_nil (R := R)
  have pw := h.pow
  rcases ht : FuzzOp.fromTag tag with _ | op0
  · exact .inl rfl
  have tg := fromTag_tag ht
  subst tg
  dsimp only
  unfold IsCase caseBytes
  rw [pw]
  generalize hL : R.sem.bits / 8 = L at *
  rcases k with _ | _ | _ | _ | k
  · have e0 : l = [] := List.eq_nil_of_length_eq_zero (by simpa using hk)
    subst e0
    left
    cases op0 <;> simp [FuzzOp.mapM, bind, Except.bind, nil]
  · obtain ⟨n1, l1⟩ := h.next (l := l) (k := 0) (by rw [hL]; exact hk)
    rw [hL] at n1 l1
    obtain ⟨c1, d1⟩ := chunk L hb (by rw [hk]; omega)
    have e0 : l.drop L = [] := List.eq_nil_of_length_eq_zero (by simpa using l1)
    rw [e0] at n1
    have e : l = l.take L := by rw [← List.append_nil (l.take L), ← e0, List.take_append_drop]
    rw [← e] at n1 c1 d1
    cases op0 <;> simp [FuzzOp.mapM, bind, Except.bind, nil, n1, inputsOf, FuzzOp.tag, c1, d1]
  · obtain ⟨n1, l1⟩ := h.next (l := l) (k := 1) (by rw [hL]; exact hk)
    obtain ⟨n2, l2⟩ := h.next (k := 0) l1
    rw [hL] at n1 n2 l1 l2
    have hb1 : ∀ b ∈ l.drop L, b < 256 := fun b hb' => hb b (List.mem_of_mem_drop hb')
    obtain ⟨c1, d1⟩ := chunk L hb (by rw [hk]; nlinarith)
    obtain ⟨c2, d2⟩ := chunk L hb1 (by rw [l1]; omega)
    have e1 := List.take_append_drop L l
    have e2 := List.take_append_drop L (l.drop L)
    generalize l.take L = t at *
    generalize l.drop L = l' at *
    generalize l'.take L = t' at *
    have e0 : l'.drop L = [] := List.eq_nil_of_length_eq_zero (by simpa using l2)
    rw [e0] at n2 e2
    rw [List.append_nil] at e2
    subst e2
    cases op0 <;> simp [FuzzOp.mapM, bind, Except.bind, nil, n1, n2, inputsOf, FuzzOp.tag, c1, d1, c2, d2, e1]
  · obtain ⟨n1, l1⟩ := h.next (l := l) (k := 2) (by rw [hL]; exact hk)
    obtain ⟨n2, l2⟩ := h.next (k := 1) l1
    obtain ⟨n3, l3⟩ := h.next (k := 0) l2
    rw [hL] at n1 n2 n3 l1 l2 l3
    have hb1 : ∀ b ∈ l.drop L, b < 256 := fun b hb' => hb b (List.mem_of_mem_drop hb')
    have hb2 : ∀ b ∈ (l.drop L).drop L, b < 256 := fun b hb' => hb1 b (List.mem_of_mem_drop hb')
    obtain ⟨c1, d1⟩ := chunk L hb (by rw [hk]; nlinarith)
    obtain ⟨c2, d2⟩ := chunk L hb1 (by rw [l1]; nlinarith)
    obtain ⟨c3, d3⟩ := chunk L hb2 (by rw [l2]; omega)
    have e1 := List.take_append_drop L l
    have e2 := List.take_append_drop L (l.drop L)
    have e3 := List.take_append_drop L ((l.drop L).drop L)
    generalize l.take L = t at *
    generalize l.drop L = l' at *
    generalize l'.take L = t' at *
    generalize l'.drop L = l'' at *
    generalize l''.take L = t'' at *
    have e0 : l''.drop L = [] := List.eq_nil_of_length_eq_zero (by simpa using l3)
    rw [e0] at n3 e3
    rw [List.append_nil] at e3
    subst e3
    cases op0 <;> simp [FuzzOp.mapM, bind, Except.bind, nil, n1, n2, n3, inputsOf, FuzzOp.tag, c1, d1, c2, d2, c3, d3, e1, e2]
  · obtain ⟨n1, l1⟩ := h.next (l := l) (k := k + 3) (by rw [hL]; exact hk)
    obtain ⟨n2, l2⟩ := h.next (k := k + 2) l1
    obtain ⟨n3, l3⟩ := h.next (k := k + 1) l2
    obtain ⟨n4, l4⟩ := h.next (k := k) l3
    rw [hL] at n1 n2 n3 n4
    left
    clear l1 l2 l3 l4
    generalize l.drop L = l' at *
    generalize l'.drop L = l'' at *
    cases op0 <;> simp [FuzzOp.mapM, bind, Except.bind, n1, n2, n3, n4]

/-- **C105.** Decoding never panics, whatever the bytes. -/
theorem C105_decode_total (hR : R ∈ reprs) {data : List ℕ} (hb : ∀ b ∈ data, b < 256) : ∃ r, R.tryDecode data = .ok r := by
  cases data with
  | nil => exact ⟨_, rfl⟩
  | cons tag l =>
    rcases tryDecode_cases (reprs_ok hR) tag (l := l) (fun b hb' => hb b (by simp [hb'])) with e | ⟨op, e, -⟩ <;> exact ⟨_, e⟩

/-- **C105.** Writing a test case gives the bytes of the file format, and reading them gives the test case back. -/
theorem C105_encode (hR : R ∈ reprs) {op : FuzzOp ℕ} (hc : IsCase R op) :
    R.encode op = .ok (caseBytes R op) ∧ R.tryDecode (caseBytes R op) = .ok (.ok op) ∧ (∀ b ∈ caseBytes R op, b < 256) ∧
      (caseBytes R op).length = 1 + (inputsOf op).length * (R.sem.bits / 8) := by
  have h := reprs_ok hR
  have hp := h.pos
  refine ⟨encode_eq h op, ?_, ?_, ?_⟩
  · have nil := ReprOK.next_nil (R := R)
    have next := fun {x : ℕ} (hx : x < 2 ^ R.sem.bits) rest => h.next_app hx rest
    have next' : ∀ {x : ℕ}, x < 2 ^ R.sem.bits → R.nextInput (lowBytes (R.sem.bits / 8) x) = .ok (some x, []) := by
      intro x hx
      have := h.next_app hx []
      rwa [List.append_nil] at this
    unfold caseBytes FloatRepr.tryDecode
    unfold IsCase at hc
    dsimp only
    rw [h.byteLen, if_neg (by omega)]
    cases op <;> simp only [inputsOf, List.mem_cons, List.not_mem_nil, or_false, forall_eq_or_imp, forall_eq] at hc <;>
      simp [FuzzOp.mapM, bind, Except.bind, nil, next, next', inputsOf, FuzzOp.tag, FuzzOp.fromTag, hc, lowBytes_length]
  · intro b hb
    unfold caseBytes at hb
    rcases List.mem_cons.1 hb with rfl | hb
    · cases op <;> simp [FuzzOp.tag]
    · obtain ⟨x, -, hx⟩ := List.mem_flatMap.1 hb
      exact lowBytes_lt hx
  · unfold caseBytes
    rw [List.length_cons, List.length_flatMap]
    cases op <;> simp [inputsOf, lowBytes_length] <;> ring

/-- **C105.** Decoding accepts exactly the files of test cases, and gives the one test case a file stands for. -/
theorem C105_decode_iff (hR : R ∈ reprs) {data : List ℕ} (hb : ∀ b ∈ data, b < 256) (op : FuzzOp ℕ) :
    R.tryDecode data = .ok (.ok op) ↔ IsCase R op ∧ data = caseBytes R op := by
  constructor
  · intro e
    cases data with
    | nil => cases e
    | cons tag l =>
      rcases tryDecode_cases (reprs_ok hR) tag (l := l) (fun b hb' => hb b (by simp [hb'])) with e' | ⟨op', e', h1, h2⟩
      · rw [e] at e'; cases e'
      · rw [e] at e'; cases e'; exact ⟨h1, h2⟩
  · rintro ⟨h1, rfl⟩
    exact (C105_encode hR h1).2.1

/-- **C105.** The byte for the format identifies it, so that no two test cases, of whatever formats, share a file. -/
theorem C105_format_tags : (∀ R ∈ reprs, reprOfTag R.tag = some R ∧ R.tag < 256) ∧
    ∀ R ∈ reprs, ∀ R' ∈ reprs, ∀ op op', IsCase R op → IsCase R' op' → R.tag :: caseBytes R op = R'.tag :: caseBytes R' op' →
      R.tag = R'.tag ∧ op = op' := by
  have a : ∀ R ∈ reprs, reprOfTag R.tag = some R ∧ R.tag < 256 := by
    intro R h
    simp only [reprs, List.mem_cons, List.not_mem_nil, or_false] at h
    rcases h with rfl | rfl | rfl | rfl | rfl | rfl | rfl | rfl <;> exact ⟨rfl, by decide⟩
  refine ⟨a, fun R hR R' hR' op op' h1 h2 e => ?_⟩
  obtain ⟨e1, e2⟩ := List.cons.inj e
  have : R = R' := by
    have h1 := (a R hR).1
    have h2 := (a R' hR').1
    rw [e1] at h1
    exact Option.some.inj (h1.symm.trans h2)
  subst this
  have d1 := (C105_encode hR h1).2.1
  have d2 := (C105_encode hR h2).2.1
  rw [e2] at d1
  refine ⟨rfl, ?_⟩
  rw [d1] at d2
  injection d2 with d2
  injection d2

/-! Concrete cases: `1.0 * 3.0 + -2.0` in `f16` (LLVM's tests use such files), a file that is a byte too long and one with an unknown operation. -/
example : ({ sem := halfS, reprBytes := 2, tag := 16 } : FloatRepr).encode (.mulAdd 0x3c00 0x4200 0xc000) = .ok [6, 0, 0x3c, 0, 0x42, 0, 0xc0] := by decide +kernel
example : ({ sem := halfS, reprBytes := 2, tag := 16 } : FloatRepr).tryDecode [6, 0, 0x3c, 0, 0x42, 0, 0xc0] = .ok (.ok (.mulAdd 0x3c00 0x4200 0xc000)) := by
  decide +kernel
example : ({ sem := halfS, reprBytes := 2, tag := 16 } : FloatRepr).tryDecode [6, 0, 0x3c, 0, 0x42, 0, 0xc0, 1] = .ok (.error ()) := by decide +kernel
example : ({ sem := halfS, reprBytes := 2, tag := 16 } : FloatRepr).tryDecode [11, 0, 0x3c] = .ok (.error ()) := by decide +kernel
example : IsCase { sem := halfS, reprBytes := 2, tag := 16 } (.mulAdd 0x3c00 0x4200 0xc000) := by unfold IsCase inputsOf; decide
example : reprs.map (·.tag) = [16, 32, 64, 128, 8, 9, 17, 80] := by decide

end Apf
