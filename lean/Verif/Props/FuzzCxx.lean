import Verif.Spec.FuzzCxx
import Verif.Props.FuzzEval

/-! # C115: the answers of LLVM and of the hardware -/

namespace Apf
open Fuzz IeeeFloat Spec

variable {R : FloatRepr} {F : CxxFormat}

/-! ## Words -/

theorem words_value (b : ℕ) (n k : ℕ) :
    ((List.range' k n).map (fun k => (b >>> (64 * k)) % 2 ^ 64)).foldr (fun x acc => x + 2 ^ 64 * acc) 0 = (b >>> (64 * k)) % 2 ^ (64 * n) := by
  induction n generalizing k with
  | zero => simp [Nat.mod_one]
  | succ n ih =>
    rw [List.range'_succ, List.map_cons, List.foldr_cons, ih, show 64 * (k + 1) = 64 * k + 64 by ring, Nat.shiftRight_add,
      show 64 * (n + 1) = 64 + 64 * n by ring, pow_add, Nat.mod_mul, Nat.shiftRight_eq_div_pow (b >>> (64 * k))]

theorem words_id (hw : F.w ≤ 64 * F.wordCount) {b : ℕ} (hb : b < 2 ^ F.w) : F.apInt (F.words b) = b := by
  unfold CxxFormat.apInt CxxFormat.words
  rw [List.range_eq_range', words_value]
  simp only [Nat.mul_zero, Nat.shiftRight_zero]
  rw [Nat.mod_eq_of_lt (lt_of_lt_of_le hb (Nat.pow_le_pow_right (by norm_num) hw)), Nat.mod_eq_of_lt hb]

theorem orWords (F : CxxFormat) {v : ℕ} (hv : v < 2 ^ F.uintWidth) (n : ℕ) : (List.range n).foldl (F.orWord v) 0 = v % 2 ^ (64 * n) := by
  induction n with
  | zero => simp [Nat.mod_one]
  | succ n ih =>
    rw [List.range_succ, List.foldl_append, ih, List.foldl_cons, List.foldl_nil]
    unfold CxxFormat.orWord
    have e : v >>> (64 * n) % 2 ^ 64 * 2 ^ (64 * n) ≤ v := by
      rw [Nat.shiftRight_eq_div_pow]
      exact le_trans (Nat.mul_le_mul_right _ (Nat.mod_le _ _)) (Nat.div_mul_le_self _ _)
    have e1 : v >>> (64 * n) % 2 ^ 64 < 2 ^ F.uintWidth :=
      lt_of_le_of_lt (le_trans (Nat.le_mul_of_pos_right _ (by positivity)) e) hv
    rw [Nat.mod_eq_of_lt e1, Nat.shiftLeft_eq, Nat.mod_eq_of_lt (lt_of_le_of_lt e hv), ← Nat.shiftLeft_eq, Nat.or_comm,
      ← Nat.shiftLeft_add_eq_or_of_lt (Nat.mod_lt _ (by positivity)), Nat.shiftLeft_eq, show 64 * (n + 1) = 64 * n + 64 by ring, pow_add, Nat.mod_mul,
      Nat.shiftRight_eq_div_pow]
    ring

/-- The structs generated for C++ fit those of Rust. -/
structure Fits (F : CxxFormat) (R : FloatRepr) : Prop where
  sem : F.sem = R.sem
  w : F.w = R.sem.bits
  words : F.w ≤ 64 * F.wordCount
  uint : F.w ≤ F.uintWidth
  bytes : F.uintWidth / 8 = R.reprBytes
  width : F.uintWidth = 8 * R.reprBytes

/-- **C115.** Every `extern fn` of the Rust side is defined once on the C++ side, for the same format and with integers of the same size. -/
theorem C115_symbols (hR : R ∈ reprs) :
    ∃ F, linked R.externFn = [F] ∧ F ∈ cxxFormats ∧ F.sem = R.sem ∧ F.w = R.sem.bits ∧ F.uintWidth = 8 * R.reprBytes := by
  have key : (reprs.all (fun R => match linked R.externFn with
      | [F] => F.sem == R.sem && F.w == R.sem.bits && F.uintWidth == 8 * R.reprBytes
      | _ => false)) = true := by decide +kernel
  have h := List.all_eq_true.1 key R hR
  rcases hl : linked R.externFn with _ | ⟨F, _ | ⟨G, t⟩⟩ <;> rw [hl] at h <;> simp only [Bool.false_eq_true] at h
  simp only [Bool.and_eq_true, beq_iff_eq] at h
  exact ⟨F, rfl, (List.mem_filter.1 (show F ∈ linked R.externFn by rw [hl]; simp)).1, h.1.1, h.1.2, h.2⟩

theorem formats_fit (hF : F ∈ cxxFormats) : F.w ≤ 64 * F.wordCount ∧ F.w ≤ F.uintWidth := by
  have key : (cxxFormats.all (fun F => decide (F.w ≤ 64 * F.wordCount ∧ F.w ≤ F.uintWidth))) = true := by decide +kernel
  exact of_decide_eq_true (List.all_eq_true.1 key F hF)

theorem linked_fits (hR : R ∈ reprs) : ∃ F, linked R.externFn = [F] ∧ Fits F R := by
  obtain ⟨F, h1, h2, h3, h4, h5⟩ := C115_symbols hR
  obtain ⟨h6, h7⟩ := formats_fit h2
  exact ⟨F, h1, h3, h4, h6, h7, by omega, h5⟩

/-! ## Memory -/

theorem leBytes_length (n x : ℕ) : (leBytes n x).length = n := by rw [leBytes_eq, lowBytes_length]

theorem inMemory_eq (R : FloatRepr) (op : FuzzOp ℕ) (rest : List ℕ) :
    R.inMemory op rest = .ok (op.tag :: ((inputsOf op).flatMap (leBytes R.reprBytes) ++ rest)) := by
  unfold FloatRepr.inMemory
  cases op <;> simp [FuzzOp.mapM, M.ok_bind, inputsOf, FuzzOp.tag, bind, Except.bind, List.flatMap]

/-- Reading an input back. -/
theorem field_eq (hf : Fits F R) {t : ℕ} {l l' rest : List ℕ} {x : ℕ} (hx : x < 2 ^ R.sem.bits) :
    F.field (t :: ((l ++ x :: l').flatMap (leBytes R.reprBytes) ++ rest)) l.length = x := by
  unfold CxxFormat.field
  rw [hf.bytes, List.flatMap_append, List.flatMap_cons, List.append_assoc, List.append_assoc]
  have hl : ((l.flatMap (leBytes R.reprBytes))).length = l.length * R.reprBytes := by
    rw [List.length_flatMap]
    simp [leBytes_length]
  rw [Nat.add_comm, List.drop_succ_cons, List.drop_append_of_le_length (by omega), List.drop_eq_nil_of_le (by omega), List.nil_append,
    List.take_append_of_le_length (by rw [leBytes_length]), List.take_of_length_le (by rw [leBytes_length]), leBytes_eq]
  refine leNat_lowBytes (lt_of_lt_of_le hx ?_)
  rw [show (256 : ℕ) = 2 ^ 8 by norm_num, ← pow_mul, ← hf.width, ← hf.w]
  exact Nat.pow_le_pow_right (by norm_num) hf.uint

/-! ## The call -/

theorem fromApf_eq (hf : Fits F R) {L : Llvm} (hL : LlvmSane L) (x : L.V R.sem) : F.fromApf L x = .ok (L.bitcast x).2 := by
  obtain ⟨h1, h2⟩ := hL _ x
  rw [← hf.w] at h1 h2
  unfold CxxFormat.fromApf
  rw [massert, if_pos h1, M.ok_bind, orWords F (lt_of_lt_of_le h2 (Nat.pow_le_pow_right (by norm_num) hf.uint)),
    Nat.mod_eq_of_lt (lt_of_lt_of_le h2 (Nat.pow_le_pow_right (by norm_num) hf.words))]

theorem eval_direct (hf : Fits F R) {L : Llvm} (hL : LlvmSane L) {op : FuzzOp ℕ} (hc : IsCase R op) (rest : List ℕ) :
    F.eval L (op.tag :: ((inputsOf op).flatMap (leBytes R.reprBytes) ++ rest)) = .ok (L.direct R.sem op) := by
  obtain ⟨w, nm, sem⟩ := F
  obtain ⟨h1, h2, h3, h4, h5, h6⟩ := id hf
  simp only at h1 h2
  subst h1 h2
  have hb : ∀ x, x < 2 ^ R.sem.bits → (CxxFormat.mk R.sem.bits nm R.sem).toApf L x = L.ofBits R.sem R.sem.bits x := fun x hx => by
    unfold CxxFormat.toApf
    rw [words_id h3 hx]
  cases op <;> simp only [IsCase, inputsOf, List.mem_cons, List.not_mem_nil, or_false, forall_eq_or_imp, forall_eq] at hc
  case mulAdd a b c =>
    have f0 := field_eq hf (t := 6) (l := []) (l' := [b, c]) (rest := rest) hc.1
    have f1 := field_eq hf (t := 6) (l := [a]) (l' := [c]) (rest := rest) hc.2.1
    have f2 := field_eq hf (t := 6) (l := [a, b]) (l' := []) (rest := rest) hc.2.2
    simp only [List.nil_append, List.cons_append, List.length_nil, List.length_cons, Nat.zero_add] at f0 f1 f2
    simp only [CxxFormat.eval, FuzzOp.tag, List.head?_cons, inputsOf]
    rw [f0, f1, f2, hb _ hc.1, hb _ hc.2.1, hb _ hc.2.2, fromApf_eq hf hL]
    rfl
  case add a b | sub a b | mul a b | div a b | rem a b =>
    have f0 := fun t => field_eq hf (t := t) (l := []) (l' := [b]) (rest := rest) hc.1
    have f1 := fun t => field_eq hf (t := t) (l := [a]) (l' := []) (rest := rest) hc.2
    simp only [List.nil_append, List.cons_append, List.length_nil, List.length_cons, Nat.zero_add] at f0 f1
    simp only [CxxFormat.eval, FuzzOp.tag, List.head?_cons, inputsOf]
    rw [f0, f1, hb _ hc.1, hb _ hc.2, fromApf_eq hf hL]
    rfl
  all_goals
    rename_i a
    have f0 := fun t => field_eq hf (t := t) (l := []) (l' := []) (rest := rest) hc
    simp only [List.nil_append, List.length_nil] at f0
    simp only [CxxFormat.eval, FuzzOp.tag, List.head?_cons, inputsOf]
    rw [f0, hb _ hc, fromApf_eq hf hL]
    rfl

theorem direct_lt {L : Llvm} (hL : LlvmSane L) (S : Sem) (op : FuzzOp ℕ) : L.direct S op < 2 ^ S.bits := (hL _ _).2

/-- **C115.** Whatever LLVM computes, and whatever bytes lie behind the inputs in memory: the call into C++ returns LLVM's answer on the very bits given. -/
theorem C115_llvm_answer (hR : R ∈ reprs) {op : FuzzOp ℕ} (hc : IsCase R op) {L : Llvm} (hL : LlvmSane L) (rest : List ℕ) :
    cxxApfEval L R op rest = .ok (L.direct R.sem op) := by
  obtain ⟨F, h1, hf⟩ := linked_fits hR
  unfold cxxApfEval
  rw [inMemory_eq, M.ok_bind, h1]
  simp only [CxxFormat.entry]
  rw [eval_direct hf hL hc, M.ok_bind, M.ok_bind, hf.bytes, List.take_of_length_le (by rw [leBytes_length]), leBytes_eq]
  rw [leNat_lowBytes]
  refine lt_of_lt_of_le (direct_lt hL _ _) ?_
  rw [show (256 : ℕ) = 2 ^ 8 by norm_num, ← pow_mul, ← hf.width, ← hf.w]
  exact Nat.pow_le_pow_right (by norm_num) hf.uint

/-! ## Agreement -/

/-- The answer of the library, step by step. -/
theorem answer_steps (hR : R ∈ reprs) {op : FuzzOp ℕ} (hc : IsCase R op) {b : ℕ} (hb : evalBits R op = .ok b) :
    ∃ op' r, op.mapPure (fromBits R.sem) = .ok op' ∧ evalRsApf op' = .ok r ∧ r.Valid ∧ r.toBits = .ok b ∧ ∀ x ∈ inputsOf op', x.Valid := by
  obtain ⟨op', e1, e2, -, -⟩ := map_fromBits (reprs_enc hR) op hc
  rcases evalRsApf_total (reprs_enc hR).toOK e2 with ⟨r, r1, r2⟩ | ⟨x, m, z, -, -, -, -, -, r1⟩
  · obtain ⟨b', b1, b2, -, -⟩ := eval_finish hR e1 r1 r2
    rw [b1] at hb
    injection hb with hb
    exact ⟨op', r, e1, r1, r2, hb ▸ b2, e2⟩
  · unfold evalBits at hb
    rw [e1, M.ok_bind, r1] at hb
    cases hb

theorem value_parts {S : Sem} {m : M (StatusAnd (IeeeFloat S))} {y : IeeeFloat S} (e : (do let r ← m; .ok r.value) = .ok y) :
    ∃ r, m = .ok r ∧ r.value = y := by
  obtain ⟨c, c1, c2⟩ := M.bind_ok e
  injection c2 with c2
  exact ⟨c, c1, c2⟩

theorem to_i128_parts {S : Sem} (h : S.OK) {x : IeeeFloat S} (hx : x.Valid) {r : IeeeFloat S}
    (e : (do
      let i ← Api.to_i128 x 128
      let r ← Api.from_i128 (F := IeeeFloat S) i.value
      .ok r.value) = .ok r) :
    ∃ i, toI128R x 128 .towardZero = .ok i ∧ -2 ^ 127 ≤ i.value ∧ i.value < 2 ^ 127 ∧
      ∃ q, fromI128R S i.value .nearestTiesToEven = .ok q ∧ q.value = r := by
  obtain ⟨i, i1, i2, i3⟩ := to_i128_range h hx .towardZero
  have e' : ∃ st, Api.to_i128 x 128 = .ok ⟨st, i.value⟩ := ⟨i.status, by
    show (ApiFloat.to_i128_r x 128 .towardZero >>= _) = _
    simp only [ApiFloat.to_i128_r, i1, M.ok_bind]⟩
  obtain ⟨st, e'⟩ := e'
  rw [e', M.ok_bind] at e
  exact ⟨i, i1, i2, i3, value_parts e⟩

theorem to_u128_parts {S : Sem} (h : S.OK) {x : IeeeFloat S} (hx : x.Valid) {r : IeeeFloat S}
    (e : (do
      let i ← Api.to_u128 x 128
      let r ← Api.from_u128 (F := IeeeFloat S) i.value
      .ok r.value) = .ok r) :
    ∃ i, toU128R x 128 .towardZero = .ok i ∧ i.value < 2 ^ 128 ∧
      ∃ q, fromU128R S i.value .nearestTiesToEven = .ok q ∧ q.value = r := by
  obtain ⟨i, i1, i2⟩ := to_u128_range h hx .towardZero
  have e' : ∃ st, Api.to_u128 x 128 = .ok ⟨st, i.value⟩ := ⟨i.status, by
    show (ApiFloat.to_u128_r x 128 .towardZero >>= _) = _
    simp only [ApiFloat.to_u128_r, i1, M.ok_bind]⟩
  obtain ⟨st, e'⟩ := e'
  rw [e', M.ok_bind] at e
  exact ⟨i, i1, i2, value_parts e⟩

theorem convert_parts {S T : Sem} {x : IeeeFloat S} {y : IeeeFloat T} (e : Fuzz.convert S T x = .ok y) :
    ∃ c, convertR S T x .nearestTiesToEven = .ok c ∧ c.value = y := by
  obtain ⟨c, c1, c2⟩ := M.bind_ok e
  injection c2 with c2
  exact ⟨c, c1, c2⟩

theorem like_direct {L : Llvm} {rel : (S : Sem) → L.V S → IeeeFloat S → Prop} (hL : LlvmLike L rel) (hR : R ∈ reprs) {op : FuzzOp ℕ}
    (hc : IsCase R op) {b : ℕ} (hb : evalBits R op = .ok b) : L.direct R.sem op = b := by
  obtain ⟨op', r, e1, e2, e3, e4, e5⟩ := answer_steps hR hc hb
  have hE := reprs_enc hR
  have dec : ∀ a, a < 2 ^ R.sem.bits → ∃ x, fromBits R.sem a = .ok x ∧ x.Valid ∧ rel R.sem (L.ofBits R.sem R.sem.bits a) x := fun a ha => by
    obtain ⟨x, x1, x2, -⟩ := C02_from_bits_decodes hE ha
    exact ⟨x, x1, x2, hL.ofBits hE ha x1⟩
  refine hL.bitcast hE e3 ?_ e4
  clear hb e4 e3
  cases op <;> simp only [IsCase, inputsOf, List.mem_cons, List.not_mem_nil, or_false, forall_eq_or_imp, forall_eq] at hc
  case mulAdd a b c =>
    obtain ⟨x, x1, x2, x3⟩ := dec a hc.1
    obtain ⟨y, y1, y2, y3⟩ := dec b hc.2.1
    obtain ⟨z, z1, z2, z3⟩ := dec c hc.2.2
    simp only [FuzzOp.mapPure, FuzzOp.mapM, x1, y1, z1, M.ok_bind] at e1
    injection e1 with e1
    subst e1
    obtain ⟨q, q1, rfl⟩ := value_parts e2
    exact hL.fma x2 y2 z2 x3 y3 z3 q1
  case add a b | sub a b | mul a b | div a b | rem a b =>
    obtain ⟨x, x1, x2, x3⟩ := dec a hc.1
    obtain ⟨y, y1, y2, y3⟩ := dec b hc.2
    simp only [FuzzOp.mapPure, FuzzOp.mapM, x1, y1, M.ok_bind] at e1
    injection e1 with e1
    subst e1
    obtain ⟨q, q1, rfl⟩ := value_parts e2
    first
    | exact hL.add x2 y2 x3 y3 q1
    | exact hL.sub x2 y2 x3 y3 q1
    | exact hL.mul x2 y2 x3 y3 q1
    | exact hL.div x2 y2 x3 y3 q1
    | exact hL.mod x2 y2 x3 y3 q1
  all_goals
    obtain ⟨x, x1, x2, x3⟩ := dec _ hc
    simp only [FuzzOp.mapPure, FuzzOp.mapM, x1, M.ok_bind] at e1
    injection e1 with e1
    subst e1
  case neg =>
    injection e2 with e2
    subst e2
    exact hL.neg x3
  case viaI128 =>
    obtain ⟨i, i1, i2, i3, q, q1, rfl⟩ := to_i128_parts hE.toOK x2 e2
    exact hL.ofSigned _ i2 i3 (hL.toSigned x2 x3 i1) q1
  case viaU128 =>
    obtain ⟨i, i1, i2, q, q1, rfl⟩ := to_u128_parts hE.toOK x2 e2
    have hi := hL.toUnsigned x2 x3 i1
    exact hL.ofUnsigned _ (by rw [hi]; exact i2) (by rw [hi]; exact q1)
  case viaSingle =>
    obtain ⟨t, t1, t2⟩ := M.bind_ok e2
    obtain ⟨c, c1, rfl⟩ := convert_parts t1
    obtain ⟨d, d1, rfl⟩ := convert_parts t2
    obtain ⟨c', c2, c3⟩ := total_convert hE.toOK singleS_ok x2 .nearestTiesToEven
    rw [c1] at c2
    injection c2 with c2
    subst c2
    exact hL.convert c3 (hL.convert x2 x3 c1) d1
  case viaDouble =>
    obtain ⟨t, t1, t2⟩ := M.bind_ok e2
    obtain ⟨c, c1, rfl⟩ := convert_parts t1
    obtain ⟨d, d1, rfl⟩ := convert_parts t2
    obtain ⟨c', c2, c3⟩ := total_convert hE.toOK doubleS_ok x2 .nearestTiesToEven
    rw [c1] at c2
    injection c2 with c2
    subst c2
    exact hL.convert c3 (hL.convert x2 x3 c1) d1

/-- **C115.** If every function of LLVM does what the corresponding function of the library does, the call into C++ returns the bits the library computes. -/
theorem C115_llvm_agrees (hR : R ∈ reprs) {op : FuzzOp ℕ} (hc : IsCase R op) {L : Llvm} (hS : LlvmSane L)
    {rel : (S : Sem) → L.V S → IeeeFloat S → Prop} (hL : LlvmLike L rel) (rest : List ℕ) {b : ℕ} (hb : evalBits R op = .ok b) :
    cxxApfEval L R op rest = .ok b := by
  rw [C115_llvm_answer hR hc hS, like_direct hL hR hc hb]

/-- **C115.** The same for the native floats, for the formats that have one. -/
theorem C115_hardware_agrees (hR : R ∈ reprs) {op : FuzzOp ℕ} (hc : IsCase R op) {H : Hardware}
    {rel : (S : Sem) → H.V S → IeeeFloat S → Prop} (hH : HardwareLike H rel) {b : ℕ} (hb : evalBits R op = .ok b) :
    hardEval H R op = .ok (if R.hasHard then some b else none) := by
  unfold hardEval
  split_ifs with hh
  swap
  · rfl
  obtain ⟨op', r, e1, e2, e3, e4, e5⟩ := answer_steps hR hc hb
  have hE := reprs_enc hR
  have dec : ∀ a, a < 2 ^ R.sem.bits → ∃ x, fromBits R.sem a = .ok x ∧ x.Valid ∧ rel R.sem (H.ofBits R.sem a) x := fun a ha => by
    obtain ⟨x, x1, x2, -⟩ := C02_from_bits_decodes hE ha
    exact ⟨x, x1, x2, hH.ofBits hE ha x1⟩
  suffices ∃ opv : FuzzOp (H.V R.sem), op.mapPure (fun x => .ok (H.ofBits R.sem x)) = .ok opv ∧ rel R.sem (evalHard H opv) r by
    obtain ⟨opv, o1, o2⟩ := this
    rw [o1, M.ok_bind, hH.toBits hE e3 o2 e4]
  clear hb e4 e3
  cases op <;> simp only [IsCase, inputsOf, List.mem_cons, List.not_mem_nil, or_false, forall_eq_or_imp, forall_eq] at hc <;>
    refine ⟨_, rfl, ?_⟩
  case mulAdd a b c =>
    obtain ⟨x, x1, x2, x3⟩ := dec a hc.1
    obtain ⟨y, y1, y2, y3⟩ := dec b hc.2.1
    obtain ⟨z, z1, z2, z3⟩ := dec c hc.2.2
    simp only [FuzzOp.mapPure, FuzzOp.mapM, x1, y1, z1, M.ok_bind] at e1
    injection e1 with e1
    subst e1
    obtain ⟨q, q1, rfl⟩ := value_parts e2
    exact hH.fma x2 y2 z2 x3 y3 z3 q1
  case add a b | sub a b | mul a b | div a b | rem a b =>
    obtain ⟨x, x1, x2, x3⟩ := dec a hc.1
    obtain ⟨y, y1, y2, y3⟩ := dec b hc.2
    simp only [FuzzOp.mapPure, FuzzOp.mapM, x1, y1, M.ok_bind] at e1
    injection e1 with e1
    subst e1
    obtain ⟨q, q1, rfl⟩ := value_parts e2
    first
    | exact hH.add x2 y2 x3 y3 q1
    | exact hH.sub x2 y2 x3 y3 q1
    | exact hH.mul x2 y2 x3 y3 q1
    | exact hH.div x2 y2 x3 y3 q1
    | exact hH.rem x2 y2 x3 y3 q1
  all_goals
    obtain ⟨x, x1, x2, x3⟩ := dec _ hc
    simp only [FuzzOp.mapPure, FuzzOp.mapM, x1, M.ok_bind] at e1
    injection e1 with e1
    subst e1
  case neg =>
    injection e2 with e2
    subst e2
    exact hH.neg x3
  case viaI128 =>
    obtain ⟨i, i1, i2, i3, q, q1, rfl⟩ := to_i128_parts hE.toOK x2 e2
    have hi := hH.asI128 x2 x3 i1
    exact hH.ofI128 (by rw [hi]; exact i2) (by rw [hi]; exact i3) (by rw [hi]; exact q1)
  case viaU128 =>
    obtain ⟨i, i1, i2, q, q1, rfl⟩ := to_u128_parts hE.toOK x2 e2
    have hi := hH.asU128 x2 x3 i1
    exact hH.ofU128 (by rw [hi]; exact i2) (by rw [hi]; exact q1)
  case viaSingle =>
    obtain ⟨t, t1, t2⟩ := M.bind_ok e2
    obtain ⟨c, c1, rfl⟩ := convert_parts t1
    obtain ⟨d, d1, rfl⟩ := convert_parts t2
    obtain ⟨c', c2, c3⟩ := total_convert hE.toOK singleS_ok x2 .nearestTiesToEven
    rw [c1] at c2
    injection c2 with c2
    subst c2
    exact hH.asFloat c3 (hH.asFloat x2 x3 c1) d1
  case viaDouble =>
    obtain ⟨t, t1, t2⟩ := M.bind_ok e2
    obtain ⟨c, c1, rfl⟩ := convert_parts t1
    obtain ⟨d, d1, rfl⟩ := convert_parts t2
    obtain ⟨c', c2, c3⟩ := total_convert hE.toOK doubleS_ok x2 .nearestTiesToEven
    rw [c1] at c2
    injection c2 with c2
    subst c2
    exact hH.asFloat c3 (hH.asFloat x2 x3 c1) d1

/-! ## The hypotheses can be met -/

/-- The value of a result, or a NaN. -/
def valueOr {S : Sem} (m : M (StatusAnd (IeeeFloat S))) : IeeeFloat S := match m with | .ok r => r.value | .error _ => NAN S

/-- An LLVM made of the library itself. -/
def libraryLlvm : Llvm where
  V := IeeeFloat
  ofBits S _ b := match fromBits S b with | .ok x => x | .error _ => NAN S
  bitcast {S} x := (S.bits, (match x.toBits with | .ok b => b | .error _ => 0) % 2 ^ S.bits)
  neg x := x.neg
  add x y := valueOr (x.addR y .nearestTiesToEven)
  sub x y := valueOr (x.subR y .nearestTiesToEven)
  mul x y := valueOr (x.mulR y .nearestTiesToEven)
  div x y := valueOr (x.divR y .nearestTiesToEven)
  mod x y := valueOr (x.cFmod y)
  fusedMultiplyAdd x y z mode := valueOr (x.mulAddR y z mode)
  convertToInteger x w u mode :=
    if u then (match x.toU128R w mode with | .ok r => r.value | .error _ => 0)
    else (match x.toI128R w mode with | .ok r => (r.value % 2 ^ 128).toNat | .error _ => 0)
  convertFromAPInt {S} _ _ n s mode :=
    valueOr (if s then fromI128R S (if n < 2 ^ 127 then n else (n : ℤ) - 2 ^ 128) mode else fromU128R S n mode)
  convert {S} x T mode := match convertR S T x mode with | .ok r => r.value | .error _ => NAN T

theorem valueOr_ok {S : Sem} {m : M (StatusAnd (IeeeFloat S))} {r : StatusAnd (IeeeFloat S)} (h : m = .ok r) : valueOr m = r.value := by
  rw [h]; rfl

theorem libraryLlvm_sane : LlvmSane libraryLlvm := fun _ _ => ⟨rfl, Nat.mod_lt _ (by positivity)⟩

theorem libraryLlvm_like : LlvmLike libraryLlvm (fun _ x y => x = y) where
  ofBits _ _ h := by simp only [libraryLlvm, h]
  bitcast {S x y b} hE hy h hb := by
    subst h
    obtain ⟨b', y, b1, b2, -⟩ := C03_value_round_trip hE hy
    rw [hb] at b1
    injection b1 with b1
    subst b1
    simp only [libraryLlvm, hb]
    exact Nat.mod_eq_of_lt b2
  neg h := by subst h; rfl
  add _ _ h h' e := by subst h h'; exact valueOr_ok e
  sub _ _ h h' e := by subst h h'; exact valueOr_ok e
  mul _ _ h h' e := by subst h h'; exact valueOr_ok e
  div _ _ h h' e := by subst h h'; exact valueOr_ok e
  mod _ _ h h' e := by subst h h'; exact valueOr_ok e
  fma _ _ _ h h' h'' e := by subst h h' h''; exact valueOr_ok e
  toSigned {S x y r} _ h e := by
    subst h
    simp only [libraryLlvm, Bool.false_eq_true, if_false, e]
    exact Int.toNat_of_nonneg (Int.emod_nonneg _ (by norm_num))
  toUnsigned _ h e := by
    subst h
    simp only [libraryLlvm, if_true, e]
  ofSigned {S r} x {n i} h1 h2 h3 e := by
    refine valueOr_ok ?_
    rw [if_pos rfl, ← e]
    congr 1
    split_ifs <;> omega
  ofUnsigned {S r} x {n} _ e := by
    refine valueOr_ok ?_
    rw [if_neg (by simp)]
    exact e
  convert _ h e := by subst h; simp only [libraryLlvm, e]

/-- Hardware made of the library itself. -/
def libraryHardware : Hardware where
  V := IeeeFloat
  ofBits S b := match fromBits S b with | .ok x => x | .error _ => NAN S
  toBits x := match x.toBits with | .ok b => b | .error _ => 0
  neg x := x.neg
  add x y := valueOr (x.addR y .nearestTiesToEven)
  sub x y := valueOr (x.subR y .nearestTiesToEven)
  mul x y := valueOr (x.mulR y .nearestTiesToEven)
  div x y := valueOr (x.divR y .nearestTiesToEven)
  rem x y := valueOr (x.cFmod y)
  mul_add x y z := valueOr (x.mulAddR y z .nearestTiesToEven)
  asI128 x := match x.toI128R 128 .towardZero with | .ok r => r.value | .error _ => 0
  asU128 x := match x.toU128R 128 .towardZero with | .ok r => r.value | .error _ => 0
  ofI128 S i := valueOr (fromI128R S i .nearestTiesToEven)
  ofU128 S n := valueOr (fromU128R S n .nearestTiesToEven)
  asFloat {S} x T := match convertR S T x .nearestTiesToEven with | .ok r => r.value | .error _ => NAN T

theorem libraryHardware_like : HardwareLike libraryHardware (fun _ x y => x = y) where
  ofBits _ _ h := by simp only [libraryHardware, h]
  toBits _ _ h e := by subst h; simp only [libraryHardware, e]
  neg h := by subst h; rfl
  add _ _ h h' e := by subst h h'; exact valueOr_ok e
  sub _ _ h h' e := by subst h h'; exact valueOr_ok e
  mul _ _ h h' e := by subst h h'; exact valueOr_ok e
  div _ _ h h' e := by subst h h'; exact valueOr_ok e
  rem _ _ h h' e := by subst h h'; exact valueOr_ok e
  fma _ _ _ h h' h'' e := by subst h h' h''; exact valueOr_ok e
  asI128 _ h e := by subst h; simp only [libraryHardware, e]
  asU128 _ h e := by subst h; simp only [libraryHardware, e]
  ofI128 _ _ e := valueOr_ok e
  ofU128 _ e := valueOr_ok e
  asFloat _ h e := by subst h; simp only [libraryHardware, e]

/-- Adding 1 and 2 in the 80-bit format, which takes two words. -/
example : let R : FloatRepr := { sem := x87S, reprBytes := 16, tag := 80 }
    let op := FuzzOp.add 0x3FFF8000000000000000 0x40008000000000000000
    R ∈ reprs ∧ IsCase R op ∧ evalBits R op = .ok 0x4000C000000000000000 ∧
      cxxApfEval libraryLlvm R op [1, 2, 3] = .ok 0x4000C000000000000000 := by
  intro R op
  have hR : R ∈ reprs := by simp [R, reprs]
  have hc : IsCase R op := by
    intro x hx
    simp only [op, inputsOf, List.mem_cons, List.not_mem_nil, or_false] at hx
    rcases hx with rfl | rfl <;> decide
  have hb : evalBits R op = .ok 0x4000C000000000000000 := by
    have : (match evalBits R op with | .ok b => b == 0x4000C000000000000000 | .error _ => false) = true := by decide +kernel
    split at this
    · next h => rw [h, beq_iff_eq.1 this]
    · cases this
  exact ⟨hR, hc, hb, C115_llvm_agrees hR hc libraryLlvm_sane libraryLlvm_like _ hb⟩

/-- -1.5 through `i128`, as an `f32`. -/
example : let R : FloatRepr := { sem := singleS, reprBytes := 4, tag := 32, hasHard := true }
    hardEval libraryHardware R (.viaI128 0xBFC00000) = .ok (some 0xBF800000) := by
  intro R
  have hR : R ∈ reprs := by simp [R, reprs]
  have hc : IsCase R (.viaI128 0xBFC00000) := by
    intro x hx
    simp only [inputsOf, List.mem_cons, List.not_mem_nil, or_false] at hx
    subst hx
    decide
  have hb : evalBits R (.viaI128 0xBFC00000) = .ok 0xBF800000 := by
    have : (match evalBits R (.viaI128 0xBFC00000) with | .ok b => b == 0xBF800000 | .error _ => false) = true := by decide +kernel
    split at this
    · next h => rw [h, beq_iff_eq.1 this]
    · cases this
  exact C115_hardware_agrees hR hc libraryHardware_like hb

/-- **C115.** What the tool compares: with the answers of the call into C++ and of the native floats, the test case passes when both do what the library
does; and a difference to LLVM is reported exactly if LLVM's own answer on these bits is different. -/
theorem C115_report (hR : R ∈ reprs) {op : FuzzOp ℕ} (hc : IsCase R op) {L : Llvm} (hS : LlvmSane L) (rest : List ℕ) {orc : Oracle}
    (ho : cxxApfEval L R op rest = .ok (orc.cxx R op)) {args : Args} {b : ℕ} (hb : evalBits R op = .ok b) :
    (∃ o, Fuzz.eval { args with ignoreHard := true, ignoreCxx := false } orc R op = .ok o ∧ (o.allMatch = true ↔ L.direct R.sem op = b)) ∧
    (∀ rel : (S : Sem) → L.V S → IeeeFloat S → Prop, LlvmLike L rel → L.direct R.sem op = b) := by
  refine ⟨?_, fun rel h => like_direct h hR hc hb⟩
  rw [C115_llvm_answer hR hc hS] at ho
  injection ho with ho
  unfold Fuzz.eval
  rw [hb, M.ok_bind]
  refine ⟨_, rfl, ?_⟩
  simp [Outputs.allMatch, ho]

/-- An LLVM that subtracts instead of adding is reported for `1 + 1` in half precision. -/
example : let R : FloatRepr := { sem := halfS, reprBytes := 2, tag := 16 }
    let L : Llvm := { libraryLlvm with add := fun x y => valueOr (x.subR y .nearestTiesToEven) }
    ∃ orc : Oracle, cxxApfEval L R (.add 0x3C00 0x3C00) [] = .ok (orc.cxx R (.add 0x3C00 0x3C00)) ∧
      ∃ o, Fuzz.eval { ignoreHard := true } orc R (.add 0x3C00 0x3C00) = .ok o ∧ o.allMatch = false := by
  intro R L
  have hR : R ∈ reprs := by simp [R, reprs]
  have hc : IsCase R (.add 0x3C00 0x3C00) := by
    intro x hx
    simp only [inputsOf, List.mem_cons, List.not_mem_nil, or_false] at hx
    rcases hx with rfl | rfl <;> decide
  have hS : LlvmSane L := fun _ _ => ⟨rfl, Nat.mod_lt _ (by positivity)⟩
  have hb : evalBits R (.add 0x3C00 0x3C00) = .ok 0x4000 := by
    have : (match evalBits R (.add 0x3C00 0x3C00) with | .ok b => b == 0x4000 | .error _ => false) = true := by decide +kernel
    split at this
    · next h => rw [h, beq_iff_eq.1 this]
    · cases this
  have hd : L.direct R.sem (.add 0x3C00 0x3C00) ≠ 0x4000 := by decide +kernel
  have ha := C115_llvm_answer hR hc hS []
  obtain ⟨⟨o, o1, o2⟩, -⟩ := C115_report hR hc hS [] (orc := ⟨fun _ _ => L.direct R.sem (.add 0x3C00 0x3C00), fun _ _ => 0⟩) ha (args := {}) hb
  exact ⟨_, ha, o, o1, by rw [Bool.eq_false_iff]; exact fun h => hd (o2.1 h)⟩

end Apf
