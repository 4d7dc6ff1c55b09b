import Verif.Model.FuzzReport
import Verif.Props.FuzzAll
import Verif.Props.FuzzPrint

/-! # C119: what the exhaustive search prints -/

namespace Apf
open Fuzz Spec

variable {R : FloatRepr} {native : FloatRepr → ℕ → List Char} {typeName : FloatRepr → List Char} {percent : ℕ → ℕ → List Char}

theorem mapM_forall₂ {α β : Type} {f : α → M β} {P : α → β → Prop} : ∀ {l : List α}, (∀ a ∈ l, ∃ b, f a = .ok b ∧ P a b) →
    ∃ bs, l.mapM f = .ok bs ∧ List.Forall₂ P l bs
  | [], _ => ⟨[], rfl, .nil⟩
  | a :: l, h => by
    obtain ⟨b, b1, b2⟩ := h a (by simp)
    obtain ⟨bs, c1, c2⟩ := mapM_forall₂ (l := l) (fun a ha => h a (by simp [ha]))
    refine ⟨b :: bs, ?_, .cons b2 c2⟩
    rw [List.mapM_cons, b1, M.ok_bind, c1]
    rfl

/-- The text printed for a case is what `decode` prints for the file holding it. -/
theorem printOp_file (hR : R ∈ reprs) (hn : ∀ R b, Plain (native R b)) (term : Bool) (args : Args) {orc : Oracle} (ho : InFormat orc) {op : FuzzOp ℕ}
    (hc : IsCase R op) :
    ∃ b, printOp native term args orc R op = .ok b ∧ printFile native typeName term args orc (R.tag :: caseBytes R op) = .ok b := by
  obtain ⟨ts, rest, -, ⟨-, p⟩, -⟩ := printOp_ok (term := term) hR hn args ho hc
  refine ⟨_, p, ?_⟩
  rw [printFile_test (R := R) (op := op) ?_ ⟨hR, hc, rfl⟩]
  · exact p
  · intro b hb
    rcases List.mem_cons.1 hb with rfl | hb
    · revert hR
      simp only [reprs, List.mem_cons, List.not_mem_nil, or_false]
      rintro (rfl | rfl | rfl | rfl | rfl | rfl | rfl | rfl) <;> decide
    · exact (C105_encode hR hc).2.2.1 b hb

open Classical in
theorem mark_char (f : FuzzOp ℕ → Mark) (l : List (FuzzOp ℕ)) :
    (worst (l.map f)).char = if ∃ op ∈ l, f op = .panic then '🕱' else if ∃ op ∈ l, f op = .mismatch then '≠' else '.' := by
  unfold worst
  simp only [List.mem_map]
  split_ifs <;> first | rfl | (exfalso; simp_all)

open Classical in
/-- **C119.** What the exhaustive search prints is determined, up to the order in which the threads report, by the cases, the answers and the panics: the first line
tells the number of cases; the second consists of marks; then come the number of mismatches, with an example for each operation that has one, the number of panics,
with all of them, and the confirmation if there are neither.  Each case is shown as `decode` shows the test file holding it. -/
theorem C119_report (h : R ∈ reprs) (hb : R.sem.bits ≤ 16) (onlyFma : Bool) {threads : ℕ} (ht : 1 ≤ threads) (hn : ∀ R b, Plain (native R b)) (term : Bool)
    (args : Args) {orc : Oracle} (ho : InFormat orc) {out : M (List Char)}
    (hp : Printed percent native term args orc R onlyFma threads (checkCase args orc R) out) :
    ∃ (cases mism pan shown : List (FuzzOp ℕ)) (marks : List Char) (shownTexts panTexts : List (List Char)),
      cases.Nodup ∧ (∀ op, op ∈ cases ↔ Covered R onlyFma op) ∧
      mism.Nodup ∧ (∀ op, op ∈ mism ↔ Covered R onlyFma op ∧ ∃ rs, evalBits R op = .ok rs ∧ args.ignoreCxx = false ∧ orc.cxx R op ≠ rs) ∧
      pan.Nodup ∧ (∀ op, op ∈ pan ↔ Covered R onlyFma op ∧ FmaStops R op) ∧
      (∀ op ∈ shown, op ∈ mism) ∧ (∀ op ∈ mism, ∃ op' ∈ shown, op'.tag = op.tag) ∧
      (∃ order : List (FuzzOp ℕ), order.Perm cases ∧ marks.length = cases.length / casesPerMark cases.length ∧
        ∀ i, i < marks.length → marks[i]? = some (
          if ∃ op ∈ (order.drop (i * casesPerMark cases.length)).take (casesPerMark cases.length), op ∈ pan then '🕱'
          else if ∃ op ∈ (order.drop (i * casesPerMark cases.length)).take (casesPerMark cases.length), op ∈ mism then '≠' else '.')) ∧
      List.Forall₂ (fun op text => printFile native typeName term args orc (R.tag :: caseBytes R op) = .ok text) shown shownTexts ∧
      List.Forall₂ (fun op text => printFile native typeName term { args with ignoreCxx := true } orc (R.tag :: caseBytes R op) = .ok text) pan panTexts ∧
      out = .ok ("Exhaustively checking ".toList ++ Nat.toDigits 10 cases.length ++ " cases for ".toList ++ R.shortName ++ ":\n".toList ++
        marks ++ "\n".toList ++
        (if mism = [] then [] else "\n⚠ found ".toList ++ Nat.toDigits 10 mism.length ++ " (".toList ++ percent mism.length cases.length ++
          "%) mismatches for ".toList ++ R.shortName ++ ", showing ".toList ++ Nat.toDigits 10 shown.length ++ " of them:\n".toList ++ shownTexts.flatten) ++
        (if pan = [] then [] else "\n⚠ found ".toList ++ Nat.toDigits 10 pan.length ++ " panics for ".toList ++ R.shortName ++
          ", showing them (without trying C++):\n".toList ++ panTexts.flatten) ++
        (if mism = [] ∧ pan = [] then "✔️ all ".toList ++ Nat.toDigits 10 cases.length ++ " cases match\n".toList else []) ++ "\n".toList) := by
  obtain ⟨o, o1, rfl⟩ := hp
  obtain ⟨r, rfl, ⟨n1, u1⟩, ⟨n2, u2⟩, -, s1, s2, cases, c1, c2, -, order, k1, k2, k3⟩ := C107_bruteforce h hb onlyFma ht _ o1
  obtain ⟨r', e, p1, p2, -⟩ := C107_search h hb onlyFma ht args orc o1
  cases e
  obtain ⟨ms, m1, m2⟩ := mapM_forall₂ (f := printOp native term args orc R)
    (P := fun op text => printFile native typeName term args orc (R.tag :: caseBytes R op) = .ok text) (l := r.shown)
    (fun op hop => printOp_file h hn term args ho ((p2 op).1 (s1 op hop)).1.1)
  obtain ⟨ps, q1, q2⟩ := mapM_forall₂ (f := printOp native term { args with ignoreCxx := true } orc R)
    (P := fun op text => printFile native typeName term { args with ignoreCxx := true } orc (R.tag :: caseBytes R op) = .ok text) (l := r.panics)
    (fun op hop => printOp_file h hn term _ ho ((p1 op).1 hop).1.1)
  obtain ⟨ls, -, l2, l3, l4⟩ := (narrow_of_le h hb).all_cases onlyFma
  obtain ⟨b, st⟩ := (narrow_of_le h hb).sizes_eq onlyFma (threads := threads) (by have := (count_bounds h hb onlyFma).2; omega)
  have hl : caseCount R onlyFma = cases.length := by
    rw [← l3]
    exact ((List.perm_ext_iff_of_nodup l2 c1).2 fun op => by rw [l4, c2]).length_eq
  rw [hl] at st
  refine ⟨cases, r.mismatches, r.panics, r.shown, r.marks.map Mark.char, ms, ps, c1, c2, n1, p2, n2, p1, s1, s2, ?_, m2, q2, ?_⟩
  · rw [List.length_map]
    have k4 : Relation.Comp (· = List.map (outcome (checkCase args orc R)) ·) List.Perm order cases := by exact (congrFun (congrFun (List.eq_map_comp_perm _) _) _).mpr k1
    obtain ⟨l, rfl, k5⟩ := k4
    refine ⟨l, k5, k2, fun i hi => ?_⟩
    rw [List.getElem?_map, k3 i hi, ← List.map_drop, ← List.map_take, Option.map_some, mark_char]
    have hl : ∀ op ∈ (l.drop (i * casesPerMark cases.length)).take (casesPerMark cases.length), Covered R onlyFma op := fun op ho =>
      (c2 op).1 (k5.mem_iff.1 (List.mem_of_mem_drop (List.mem_of_mem_take ho)))
    congr 2
    · refine propext (exists_congr fun op => and_congr_right fun ho => ?_)
      rw [u2]
      have := hl op ho
      rcases hk : checkCase args orc R op with e | _ | _ <;> simp [outcome, hk, this]
    · congr 1
      refine propext (exists_congr fun op => and_congr_right fun ho => ?_)
      rw [u1]
      have := hl op ho
      rcases hk : checkCase args orc R op with e | _ | _ <;> simp [outcome, hk, this]
  · rw [st, M.ok_bind]
    dsimp only
    rw [M.ok_bind]
    unfold report reportMismatches reportPanics reportHeader
    rw [m1, q1]
    rcases hm : r.mismatches with _ | ⟨x, xs⟩ <;> rcases hq : r.panics with _ | ⟨y, ys⟩ <;>
      simp [M.ok_bind]

/-- **C119.** The third line confirms that all cases match exactly if every case has an answer, the same on both sides; otherwise it is empty and the fourth begins
with a warning. -/
theorem C119_verdict (h : R ∈ reprs) (hb : R.sem.bits ≤ 16) (onlyFma : Bool) {threads : ℕ} (ht : 1 ≤ threads) (hn : ∀ R b, Plain (native R b)) (term : Bool)
    (args : Args) {orc : Oracle} (ho : InFormat orc) {out : M (List Char)}
    (hp : Printed percent native term args orc R onlyFma threads (checkCase args orc R) out) :
    ∃ (cases : List (FuzzOp ℕ)) (marks rest : List Char), cases.Nodup ∧ (∀ op, op ∈ cases ↔ Covered R onlyFma op) ∧ '\n' ∉ marks ∧
      out = .ok ("Exhaustively checking ".toList ++ Nat.toDigits 10 cases.length ++ " cases for ".toList ++ R.shortName ++ ":\n".toList ++
        marks ++ "\n".toList ++ rest) ∧
      ((∀ op, Covered R onlyFma op → ∃ rs, evalBits R op = .ok rs ∧ (args.ignoreCxx = false → orc.cxx R op = rs)) →
        rest = "✔️ all ".toList ++ Nat.toDigits 10 cases.length ++ " cases match\n\n".toList) ∧
      ((∃ op, Covered R onlyFma op ∧ ¬ ∃ rs, evalBits R op = .ok rs ∧ (args.ignoreCxx = false → orc.cxx R op = rs)) → "\n⚠ found ".toList <+: rest) := by
  obtain ⟨cases, mism, pan, shown, marks, ts, us, c1, c2, -, m1, -, p1, -, -, ⟨order, -, k2, k3⟩, -, -, rfl⟩ :=
    C119_report (typeName := fun _ => []) h hb onlyFma ht hn term args ho hp
  refine ⟨cases, marks, (if mism = [] then [] else "\n⚠ found ".toList ++ Nat.toDigits 10 mism.length ++ " (".toList ++ percent mism.length cases.length ++
          "%) mismatches for ".toList ++ R.shortName ++ ", showing ".toList ++ Nat.toDigits 10 shown.length ++ " of them:\n".toList ++ ts.flatten) ++
        (if pan = [] then [] else "\n⚠ found ".toList ++ Nat.toDigits 10 pan.length ++ " panics for ".toList ++ R.shortName ++
          ", showing them (without trying C++):\n".toList ++ us.flatten) ++
        (if mism = [] ∧ pan = [] then "✔️ all ".toList ++ Nat.toDigits 10 cases.length ++ " cases match\n".toList else []) ++ "\n".toList, c1, c2, ?_, ?_, ?_, ?_⟩
  rotate_left 1
  · simp only [List.append_assoc]
  · intro hall
    have e1 : mism = [] := by
      rw [List.eq_nil_iff_forall_not_mem]
      intro op hop
      obtain ⟨c, rs, r1, r2, r3⟩ := (m1 op).1 hop
      obtain ⟨rs', r1', r2'⟩ := hall op c
      rw [r1] at r1'
      cases r1'
      exact r3 (r2' r2)
    have e2 : pan = [] := by
      rw [List.eq_nil_iff_forall_not_mem]
      intro op hop
      obtain ⟨c, s⟩ := (p1 op).1 hop
      obtain ⟨rs', r1', -⟩ := hall op c
      rw [(C106_eval h c.1).1 s] at r1'
      cases r1'
    subst e1 e2
    simp
  · rintro ⟨op, c, hno⟩
    by_cases e1 : mism = []
    · have e2 : pan ≠ [] := by
        intro e2
        subst e1 e2
        have hs : ¬ FmaStops R op := fun k => by simpa using (p1 op).2 ⟨c, k⟩
        obtain ⟨b, b1, -⟩ := (C106_eval h c.1).2 hs
        refine hno ⟨b, b1, fun hi => ?_⟩
        by_contra k
        simpa using (m1 op).2 ⟨c, b, b1, hi, k⟩
      subst e1
      simp [e2]
    · simp [e1]
  · intro hc
    obtain ⟨i, hi, e⟩ := List.getElem_of_mem hc
    have := k3 i hi
    rw [List.getElem?_eq_getElem hi, e] at this
    split_ifs at this <;> exact absurd this (by decide)

/-- **C119.** For the format `Float8E4M3FN` the search always warns: its fused multiply-add panics on some inputs (finding 21). -/
theorem C119_e4m3fn (h : R ∈ reprs) (hR : R.tag = 9) (onlyFma : Bool) {threads : ℕ} (ht : 1 ≤ threads) (hn : ∀ R b, Plain (native R b)) (term : Bool)
    (args : Args) {orc : Oracle} (ho : InFormat orc) {out : M (List Char)}
    (hp : Printed percent native term args orc R onlyFma threads (checkCase args orc R) out) :
    ∃ (first marks rest : List Char), '\n' ∉ marks ∧ out = .ok (first ++ ":\n".toList ++ marks ++ "\n\n⚠ found ".toList ++ rest) := by
  have hb : R.sem.bits ≤ 16 := by
    simp only [reprs, List.mem_cons, List.not_mem_nil, or_false] at h
    rcases h with rfl | rfl | rfl | rfl | rfl | rfl | rfl | rfl <;> first
      | (exfalso; revert hR; decide)
      | decide
  obtain ⟨cases, marks, rest, -, -, hm, rfl, -, hw⟩ := C119_verdict h hb onlyFma ht hn term args ho hp
  obtain ⟨o, o1, -⟩ := hp
  obtain ⟨r, n, rfl, r2, -⟩ := C107_e4m3fn h hR onlyFma ht args orc o1
  obtain ⟨r', e, p1, -⟩ := C107_search h hb onlyFma ht args orc o1
  cases e
  obtain ⟨c, s⟩ := (p1 _).1 r2
  obtain ⟨t, rfl⟩ := hw ⟨_, c, fun ⟨rs, k, _⟩ => by rw [(C106_eval h c.1).1 s] at k; cases k⟩
  refine ⟨"Exhaustively checking ".toList ++ Nat.toDigits 10 cases.length ++ " cases for ".toList ++ R.shortName, marks, t, hm, ?_⟩
  simp

/-- An output exists, whatever the checks say. -/
theorem C119_exists (percent : ℕ → ℕ → List Char) (native : FloatRepr → ℕ → List Char) (term : Bool) (args : Args) (orc : Oracle) (R : FloatRepr) (onlyFma : Bool)
    (threads : ℕ) (check : FuzzOp ℕ → M Bool) : ∃ out, Printed percent native term args orc R onlyFma threads check out := by
  obtain ⟨o, ho⟩ := C107_exists R onlyFma threads check
  exact ⟨_, o, ho, rfl⟩

/-! The hypotheses are met: the formats of 8 and 16 bits, answers and texts of the native side as below, and the outputs that exist by `C119_exists`. -/
example : (reprs.filter (fun R => decide (R.sem.bits ≤ 16))).map (·.tag) = [16, 8, 9, 17] := by decide
example : Plain [] ∧ InFormat ⟨fun _ _ => 0, fun _ _ => 0⟩ := ⟨by simp [Plain], fun R _ _ _ => by positivity, fun R _ _ _ _ => by positivity⟩
/-- Reports of small searches. -/
example : report (fun _ _ => "50.0".toList) (fun _ _ => []) false {} ⟨fun _ _ => 0x4000, fun _ _ => 0⟩ { sem := halfS, reprBytes := 2, tag := 16 } 4
      { caseIdx := 4, mismatches := [.neg 0xbc00, .neg 0x3c00] } =
    .ok ("\n\n⚠ found 2 (50.0%) mismatches for f16, showing 1 of them:\n  f16.Neg(0xbc00 /* -1 */)\n   => 0x3c00 /* 1 */ (Rust / rustc_apfloat)\n" ++
      "   => 0x4000 /* 2 */ (C++ / llvm::APFloat) <- !!! MISMATCH !!!\n\n").toList := by decide +kernel
example : report (fun _ _ => []) (fun _ _ => []) false {} ⟨fun _ _ => 0, fun _ _ => 0⟩ { sem := halfS, reprBytes := 2, tag := 16 } 4 { caseIdx := 4 } =
    .ok "\n✔️ all 4 cases match\n\n".toList := by decide +kernel
example : reportHeader { sem := halfS, reprBytes := 2, tag := 16 } 281496451874816 =
    "Exhaustively checking 281496451874816 cases for f16:\n".toList := by decide +kernel

end Apf
