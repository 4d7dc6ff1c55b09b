import Verif.Model.Build
import Verif.Spec.Build
import Verif.Proof.Basic
import Mathlib.Data.List.Basic
/-! # C109: what the build script accepts -/

namespace Apf
open Build

theorem linkHead_eq : expectedPrefix = linkHead := by decide +kernel

theorem stripPrefix_eq {p s r : List Char} : stripPrefix p s = some r ↔ s = p ++ r := by
  induction p generalizing s with
  | nil => simp [stripPrefix, eq_comm]
  | cons a p ih =>
    cases s with
    | nil => simp [stripPrefix]
    | cons c s =>
      unfold stripPrefix
      split_ifs with h
      · rw [ih, h]; simp
      · simp only [reduceCtorEq, List.cons_append, List.cons.injEq, false_iff, not_and]
        exact fun e => absurd e.symm h

theorem stripSuffix_eq {p s r : List Char} : stripSuffix p s = some r ↔ s = r ++ p := by
  unfold stripSuffix
  rw [Option.map_eq_some_iff]
  constructor
  · rintro ⟨a, h1, rfl⟩
    rw [stripPrefix_eq] at h1
    rw [← List.reverse_reverse s, h1]
    simp
  · rintro rfl
    exact ⟨r.reverse, by rw [stripPrefix_eq]; simp, by simp⟩

theorem endsWith_iff {s p : List Char} : endsWith s p = true ↔ ∃ r, s = r ++ p := by
  unfold endsWith
  rw [Option.isSome_iff_exists]
  exact exists_congr fun r => stripSuffix_eq

theorem splitOnce_eq {c : Char} {s a b : List Char} : splitOnce c s = some (a, b) ↔ s = a ++ c :: b ∧ c ∉ a := by
  induction s generalizing a with
  | nil => simp [splitOnce]
  | cons d s ih =>
    unfold splitOnce
    split_ifs with h
    · subst h
      constructor
      · intro e
        simp only [Option.some.injEq, Prod.mk.injEq] at e
        obtain ⟨rfl, rfl⟩ := e
        simp
      · rintro ⟨e, hn⟩
        cases a with
        | nil => simp at e; simp [e]
        | cons x a => simp at e; simp [e.1] at hn
    · rw [Option.map_eq_some_iff]
      constructor
      · rintro ⟨⟨a', b'⟩, h1, h2⟩
        simp only [Prod.mk.injEq] at h2
        obtain ⟨rfl, rfl⟩ := h2
        obtain ⟨e, hn⟩ := ih.1 h1
        refine ⟨by rw [e]; rfl, ?_⟩
        simp only [List.mem_cons, not_or]
        exact ⟨fun k => h k.symm, hn⟩
      · rintro ⟨e, hn⟩
        cases a with
        | nil => simp at e; exact absurd e.1 h
        | cons x a =>
          simp only [List.cons_append, List.cons.injEq] at e
          simp only [List.mem_cons, not_or] at hn
          exact ⟨(a, b), ih.2 ⟨e.2, hn.2⟩, by rw [e.1]⟩

theorem isHex_iff (c : Char) : isHex c = true ↔ IsHexDigit c := by
  have e : IsHexDigit c ↔ c ∈ ['0', '1', '2', '3', '4', '5', '6', '7', '8', '9', 'a', 'b', 'c', 'd', 'e', 'f'] := Iff.rfl
  have l : ∀ a b : Char, a ≤ b ↔ a.val.toNat ≤ b.val.toNat := fun a b => Iff.rfl
  have q : ∀ a b : Char, a = b ↔ a.val.toNat = b.val.toNat := fun a b => by rw [UInt32.toNat_inj, Char.ext_iff]
  rw [e]
  simp only [List.mem_cons, List.not_mem_nil, or_false, q, isHex, Bool.or_eq_true, Bool.and_eq_true, decide_eq_true_eq, l]
  simp only [show ('0' : Char).val.toNat = 48 from rfl, show ('1' : Char).val.toNat = 49 from rfl, show ('2' : Char).val.toNat = 50 from rfl,
    show ('3' : Char).val.toNat = 51 from rfl, show ('4' : Char).val.toNat = 52 from rfl, show ('5' : Char).val.toNat = 53 from rfl,
    show ('6' : Char).val.toNat = 54 from rfl, show ('7' : Char).val.toNat = 55 from rfl, show ('8' : Char).val.toNat = 56 from rfl,
    show ('9' : Char).val.toNat = 57 from rfl, show ('a' : Char).val.toNat = 97 from rfl, show ('b' : Char).val.toNat = 98 from rfl,
    show ('c' : Char).val.toNat = 99 from rfl, show ('d' : Char).val.toNat = 100 from rfl, show ('e' : Char).val.toNat = 101 from rfl,
    show ('f' : Char).val.toNat = 102 from rfl]
  omega

theorem hex_size {c : Char} (h : isHex c = true) : c.utf8Size = 1 := by
  have e : c ∈ ['0', '1', '2', '3', '4', '5', '6', '7', '8', '9', 'a', 'b', 'c', 'd', 'e', 'f'] := (isHex_iff c).1 h
  simp only [List.mem_cons, List.not_mem_nil, or_false] at e
  rcases e with rfl | rfl | rfl | rfl | rfl | rfl | rfl | rfl | rfl | rfl | rfl | rfl | rfl | rfl | rfl | rfl <;> rfl

theorem hex_len {l : List Char} (h : ∀ c ∈ l, isHex c = true) : utf8Len l = l.length := by
  induction l with
  | nil => rfl
  | cons c l ih =>
    unfold utf8Len at *
    rw [List.map_cons, List.sum_cons, hex_size (h c (by simp)), ih fun c hc => h c (by simp [hc]), List.length_cons]
    omega

theorem hex_slice {l : List Char} (h : ∀ c ∈ l, isHex c = true) {n : ℕ} (hn : n ≤ l.length) : sliceTo n l = .ok (l.take n) := by
  induction l generalizing n with
  | nil =>
    have : n = 0 := by simpa using hn
    subst this
    unfold sliceTo
    rfl
  | cons c l ih =>
    cases n with
    | zero => unfold sliceTo; rfl
    | succ n =>
      unfold sliceTo
      have hs := hex_size (h c (by simp))
      rw [hs, if_pos (by omega), show n + 1 - 1 = n from rfl, ih (fun c hc => h c (by simp [hc])) (by simpa using hn), M.ok_bind]
      rfl

/-- The hash found. -/
theorem commitHash_cases (src : List Char) :
    (∃ hash rest, src = headOf hash ++ rest ∧ hash.length = 40 ∧ (∀ c ∈ hash, isHex c = true) ∧ commitHash src = .ok hash) ∨
    ((¬ ∃ hash rest, src = headOf hash ++ rest ∧ hash.length = 40 ∧ ∀ c ∈ hash, isHex c = true) ∧ commitHash src = .error .assert) := by
  have hd : ∀ hash, headOf hash = expectedPrefix ++ (hash ++ ['>'] ++ ['\n']) := fun hash => by
    rw [linkHead_eq]
    unfold headOf
    simp
  have nl : ∀ {hash : List Char}, (∀ c ∈ hash, isHex c = true) → '\n' ∉ hash ++ ['>'] := by
    intro hash hh k
    rcases List.mem_append.1 k with k | k
    · have := hh _ k; revert this; decide
    · revert k; decide
  have key : (∃ hash rest, src = headOf hash ++ rest ∧ hash.length = 40 ∧ ∀ c ∈ hash, isHex c = true) → ∃ hash rest, src = headOf hash ++ rest ∧
      hash.length = 40 ∧ (∀ c ∈ hash, isHex c = true) ∧ commitHash src = .ok hash := by
    rintro ⟨hash, rest, e, h1, h2⟩
    refine ⟨hash, rest, e, h1, h2, ?_⟩
    unfold commitHash
    rw [show stripPrefix expectedPrefix src = some (hash ++ ['>'] ++ '\n' :: rest) from stripPrefix_eq.2 (by rw [e, hd]; simp)]
    dsimp only
    rw [show splitOnce '\n' (hash ++ ['>'] ++ '\n' :: rest) = some (hash ++ ['>'], rest) from splitOnce_eq.2 ⟨rfl, nl h2⟩]
    dsimp only
    rw [show stripSuffix ['>'] (hash ++ ['>']) = some hash from stripSuffix_eq.2 rfl]
    dsimp only
    rw [hex_len h2, h1, List.all_eq_true.2 h2]
    rfl
  by_cases hc : ∃ hash rest, src = headOf hash ++ rest ∧ hash.length = 40 ∧ ∀ c ∈ hash, isHex c = true
  · exact .inl (key hc)
  · refine .inr ⟨hc, ?_⟩
    unfold commitHash
    rcases h1 : stripPrefix expectedPrefix src with _ | r
    · rfl
    · dsimp only
      rcases h2 : splitOnce '\n' r with _ | ⟨line, rest⟩
      · rfl
      · dsimp only
        rcases h3 : stripSuffix ['>'] line with _ | hash
        · rfl
        · dsimp only
          refine if_pos ?_
          by_contra k
          simp only [ne_eq, Bool.or_eq_true, decide_eq_true_eq, Bool.not_eq_true', not_or, not_not, Bool.not_eq_false] at k
          have hh := List.all_eq_true.1 k.2
          refine hc ⟨hash, rest, ?_, by rw [← hex_len hh]; exact k.1, hh⟩
          rw [stripPrefix_eq.1 h1, (splitOnce_eq.1 h2).1, stripSuffix_eq.1 h3, hd]
          simp

/-- **C109.** The package builds if and only if `src/lib.rs` begins with the two fixed lines and the link to an LLVM commit with a full hash of 40 lower-case
hexadecimal digits, and the version of the package ends with `+llvm-` and the first 12 of these digits.  Otherwise the script stops with one of its two messages; it
never stops for another reason. -/
theorem C109_build (src version : List Char) :
    (main src version = .ok () ↔ ∃ hash rest v, src = headOf hash ++ rest ∧ hash.length = 40 ∧ (∀ c ∈ hash, IsHexDigit c) ∧
      version = v ++ "+llvm-".toList ++ hash.take 12) ∧
    (main src version = .ok () ∨ main src version = .error .assert) := by
  have hx : ∀ hash : List Char, (∀ c ∈ hash, IsHexDigit c) ↔ ∀ c ∈ hash, isHex c = true := fun hash => forall₂_congr fun c _ => (isHex_iff c).symm
  simp only [hx]
  rcases commitHash_cases src with ⟨hash, rest, e, h1, h2, h3⟩ | ⟨h1, h2⟩
  · have em : main src version = massert (endsWith version ("+llvm-".toList ++ hash.take 12)) := by
      unfold main
      rw [h3, M.ok_bind, hex_slice h2 (by omega), M.ok_bind]
    have uniq : ∀ hash' rest', src = headOf hash' ++ rest' → hash'.length = 40 → hash' = hash := by
      intro hash' rest' e' hl
      rw [e] at e'
      unfold headOf at e'
      simp only [List.append_assoc, List.append_cancel_left_eq] at e'
      exact (List.append_inj_left e' (by omega)).symm
    rw [em]
    rcases hE : endsWith version ("+llvm-".toList ++ hash.take 12) with _ | _
    · refine ⟨⟨fun k => (by cases k), ?_⟩, .inr rfl⟩
      rintro ⟨hash', rest', v, e', hl, -, hv⟩
      rw [uniq hash' rest' e' hl] at hv
      rw [endsWith_iff.2 ⟨v, by rw [hv, List.append_assoc]⟩] at hE
      cases hE
    · obtain ⟨v, hv⟩ := endsWith_iff.1 hE
      exact ⟨⟨fun _ => ⟨hash, rest, v, e, h1, h2, by rw [hv, List.append_assoc]⟩, fun _ => rfl⟩, .inl rfl⟩
  · have em : main src version = .error .assert := by
      unfold main
      rw [h2]
      rfl
    rw [em]
    refine ⟨⟨fun k => (by cases k), ?_⟩, .inr rfl⟩
    rintro ⟨hash, rest, v, e, hl, hh, -⟩
    exact absurd ⟨hash, rest, e, hl, hh⟩ h1

/-- The sources of the pinned commit: src/lib.rs:1-3 and the version in Cargo.toml:5. -/
example : ∃ hash rest v, (headOf "462a31f5a5abb905869ea93cc49b096079b11aa4".toList ++ "//!".toList) = headOf hash ++ rest ∧ hash.length = 40 ∧ (∀ c ∈ hash, IsHexDigit c) ∧
    "0.2.2+llvm-462a31f5a5ab".toList = v ++ "+llvm-".toList ++ hash.take 12 := ⟨"462a31f5a5abb905869ea93cc49b096079b11aa4".toList, "//!".toList, "0.2.2".toList, rfl, rfl, by unfold IsHexDigit; decide, rfl⟩
example : main (headOf "462a31f5a5abb905869ea93cc49b096079b11aa4".toList) "0.2.2+llvm-462a31f5a5ab".toList = .ok () := by decide +kernel
example : main (headOf "462a31f5a5abb905869ea93cc49b096079b11aa4".toList) "0.2.2+llvm-462a31f5a5ab0".toList = .error .assert := by decide +kernel

theorem splitOnceStr_spec (p s : List Char) :
    (∀ a b, splitOnceStr p s = some (a, b) → s = a ++ p ++ b ∧ ∀ a' b', s = a' ++ p ++ b' → a.length ≤ a'.length) ∧
    (splitOnceStr p s = none → ∀ a' b', s ≠ a' ++ p ++ b') := by
  induction s with
  | nil =>
    unfold splitOnceStr
    rcases h : stripPrefix p [] with _ | r
    · refine ⟨fun a b k => (by cases k), fun _ a' b' k => ?_⟩
      have : p = [] ∧ b' = [] := by simp at k; exact ⟨k.2.1, k.2.2⟩
      rw [this.1] at h
      cases h
    · rw [stripPrefix_eq] at h
      refine ⟨fun a b k => ?_, fun k => (by cases k)⟩
      simp only [Option.map_some, Option.some.injEq, Prod.mk.injEq] at k
      obtain ⟨rfl, rfl⟩ := k
      exact ⟨by simpa using h, by simp⟩
  | cons c s ih =>
    unfold splitOnceStr
    rcases h : stripPrefix p (c :: s) with _ | r
    · have hno : ∀ b', c :: s ≠ p ++ b' := fun b' k => by rw [stripPrefix_eq.2 k] at h; cases h
      dsimp only
      refine ⟨fun a b k => ?_, fun k a' b' e => ?_⟩
      · rw [Option.map_eq_some_iff] at k
        obtain ⟨⟨a1, b1⟩, k1, k2⟩ := k
        simp only [Prod.mk.injEq] at k2
        obtain ⟨rfl, rfl⟩ := k2
        obtain ⟨i1, i2⟩ := ih.1 _ _ k1
        refine ⟨by rw [i1]; rfl, fun a' b' e => ?_⟩
        cases a' with
        | nil => exact absurd e (by simpa using hno b')
        | cons x a' =>
          simp only [List.cons_append, List.cons.injEq] at e
          have := i2 a' b' e.2
          simp only [List.length_cons]
          omega
      · rw [Option.map_eq_none_iff] at k
        cases a' with
        | nil => exact absurd e (by simpa using hno b')
        | cons x a' =>
          simp only [List.cons_append, List.cons.injEq] at e
          exact ih.2 k a' b' e.2
    · rw [stripPrefix_eq] at h
      refine ⟨fun a b k => ?_, fun k => (by cases k)⟩
      simp only [Option.some.injEq, Prod.mk.injEq] at k
      obtain ⟨rfl, rfl⟩ := k
      exact ⟨by simpa using h, by simp⟩

theorem length_le_utf8 (l : List Char) : l.length ≤ utf8Len l := by
  induction l with
  | nil => exact le_rfl
  | cons c l ih =>
    have := c.utf8Size_pos
    unfold utf8Len at *
    rw [List.map_cons, List.sum_cons, List.length_cons]
    omega

/-- **C120.** Whenever the library builds, the fuzzing tool (which has the same version) compares it with the revision of LLVM that `src/lib.rs` names, if it builds at
all; and it does unless `+llvm-` occurs twice in the version, which no version with a single `+` (as semantic versioning demands) does. -/
theorem C120_revision {src version : List Char} (hm : main src version = .ok ()) :
    ∃ hash rest, src = headOf hash ++ rest ∧ hash.length = 40 ∧ (∀ c ∈ hash, IsHexDigit c) ∧
      (∀ r, fuzzCommit version = .ok r → r = hash.take 12) ∧
      (version.count '+' = 1 → fuzzCommit version = .ok (hash.take 12)) ∧
      (fuzzCommit version = .ok (hash.take 12) ↔ ∀ a b, version = a ++ "+llvm-".toList ++ b → b = hash.take 12) ∧
      (fuzzCommit version = .ok (hash.take 12) ∨ fuzzCommit version = .error .assert) := by
  obtain ⟨hash, rest, v, e1, e2, e3, e4⟩ := (C109_build src version).1.1 hm
  have h12 : (hash.take 12).length = 12 := by rw [List.length_take, e2]; rfl
  have hu : utf8Len (hash.take 12) = 12 := by
    rw [hex_len fun c hc => (isHex_iff c).2 (e3 c (List.mem_of_mem_take hc)), h12]
  obtain ⟨s1, s2⟩ := splitOnceStr_spec "+llvm-".toList version
  rcases hs : splitOnceStr "+llvm-".toList version with _ | ⟨a, b⟩
  · exact absurd e4 (s2 hs v _)
  obtain ⟨t1, t2⟩ := s1 a b hs
  have hle := t2 v _ e4
  have ef : fuzzCommit version = (massert (utf8Len b = 12) >>= fun _ => .ok b) := by
    unfold fuzzCommit
    rw [hs]
  have el : version.length = v.length + 6 + 12 := by rw [e4, List.length_append, List.length_append, h12]; rfl
  have el' : version.length = a.length + 6 + b.length := by rw [t1, List.length_append, List.length_append]; rfl
  have hab : a.length = v.length → fuzzCommit version = .ok (hash.take 12) := by
    intro k
    have eb : b = hash.take 12 := by
      rw [e4] at t1
      exact (List.append_inj_right t1 (by simp [k])).symm
    rw [ef, eb, hu]
    rfl
  have hne : a.length ≠ v.length → fuzzCommit version = .error .assert := by
    intro k
    have := length_le_utf8 b
    rw [ef, massert, if_neg (by omega)]
    rfl
  refine ⟨hash, rest, e1, e2, e3, fun r hr => ?_, fun hc => ?_, ⟨fun hr a' b' e' => ?_, fun hr => ?_⟩, ?_⟩
  · by_cases k : a.length = v.length
    · rw [hab k] at hr; cases hr; rfl
    · rw [hne k] at hr; cases hr
  · by_contra k
    have k1 : a.length < v.length := lt_of_le_of_ne hle fun k' => k (hab k')
    -- two occurrences of the sign
    have c1 : version.count '+' = a.count '+' + 1 + b.count '+' := by rw [t1, List.count_append, List.count_append]; rfl
    have c2 : version.count '+' = v.count '+' + 1 + (hash.take 12).count '+' := by rw [e4, List.count_append, List.count_append]; rfl
    have c3 : v.count '+' = 0 := by omega
    have p1 : version[a.length]? = some '+' := by rw [t1, List.append_assoc, List.getElem?_append_right le_rfl]; simp
    rw [e4, List.append_assoc, List.getElem?_append_left k1] at p1
    exact List.count_eq_zero.1 c3 (List.mem_of_getElem? p1)
  · have k : a.length = v.length := by
      by_contra k
      rw [hne k] at hr
      cases hr
    have ht := t2 a' b' e'
    have hv : a'.length = v.length := by
      by_contra k'
      have p1 : version[a'.length]? = some '+' := by rw [e', List.append_assoc, List.getElem?_append_right le_rfl]; simp
      rw [e4, List.append_assoc, List.getElem?_append_right (by omega), show "+llvm-".toList = '+' :: "llvm-".toList from rfl, List.cons_append,
        show a'.length - v.length = (a'.length - v.length - 1) + 1 by omega, List.getElem?_cons_succ] at p1
      rcases List.mem_append.1 (List.mem_of_getElem? p1) with m | m
      · revert m; decide
      · have := e3 _ (List.mem_of_mem_take m)
        revert this
        unfold IsHexDigit
        decide
    rw [e4] at e'
    exact (List.append_inj_right e' (by simp [hv])).symm
  · have := hr a b t1
    exact hab (by rw [this, h12] at el'; omega)
  · by_cases k : a.length = v.length
    · exact .inl (hab k)
    · exact .inr (hne k)

/-- The version of the pinned commit, and one that the library accepts but the fuzzing tool does not. -/
example : main (headOf "462a31f5a5abb905869ea93cc49b096079b11aa4".toList) "0.2.2+llvm-462a31f5a5ab".toList = .ok () ∧ "0.2.2+llvm-462a31f5a5ab".toList.count '+' = 1 ∧
    fuzzCommit "0.2.2+llvm-462a31f5a5ab".toList = .ok "462a31f5a5ab".toList := by decide +kernel
example : main (headOf "462a31f5a5abb905869ea93cc49b096079b11aa4".toList) "0+llvm-0+llvm-462a31f5a5ab".toList = .ok () ∧
    fuzzCommit "0+llvm-0+llvm-462a31f5a5ab".toList = .error .assert := by decide +kernel

end Apf
