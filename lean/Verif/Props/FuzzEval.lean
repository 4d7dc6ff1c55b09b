import Verif.Props.Fuzz
import Verif.Props.Widths
import Verif.Props.Casts
import Verif.Props.NanBits

/-! # C106: evaluation of test cases -/

namespace Apf
open Fuzz IeeeFloat Spec

variable {S : Sem} {R : FloatRepr}

theorem reprs_enc (h : R ∈ reprs) : R.sem.Enc := by
  simp only [reprs, List.mem_cons, List.not_mem_nil, or_false] at h
  rcases h with rfl | rfl | rfl | rfl | rfl | rfl | rfl | rfl
  · exact halfS_enc
  · exact singleS_enc
  · exact doubleS_enc
  · exact quadS_enc
  · exact float8E5M2S_enc
  · exact float8E4M3FNS_enc
  · exact bfloatS_enc
  · exact x87S_enc

/-- The results of `to_i128` and `to_u128` are in range. -/
theorem to_i128_range (h : S.OK) {x : IeeeFloat S} (hx : x.Valid) (mode : Round) :
    ∃ r, toI128R x 128 mode = .ok r ∧ -2 ^ 127 ≤ r.value ∧ r.value < 2 ^ 127 := by
  obtain ⟨s2, s3, s4⟩ := C19_to_i128_specials (x := x) (w := 128) (by norm_num) le_rfl mode
  rcases category_cases x with c | c | c
  · exact ⟨_, s2 (isNan_of c), by norm_num, by norm_num⟩
  · cases hs : x.sign
    · exact ⟨_, s4 (isInfinite_of c) hs, by norm_num, by norm_num⟩
    · exact ⟨_, s3 (isInfinite_of c) hs, by norm_num, by norm_num⟩
  · obtain ⟨r, r1, n, -, r2⟩ := C19_to_i128 h hx c (w := 128) (by norm_num) le_rfl mode
    refine ⟨r, r1, ?_⟩
    norm_num at r2 ⊢
    omega

theorem to_u128_range (h : S.OK) {x : IeeeFloat S} (hx : x.Valid) (mode : Round) :
    ∃ r, toU128R x 128 mode = .ok r ∧ r.value < 2 ^ 128 := by
  obtain ⟨s1, s2, s3, s4⟩ := C18_to_u128_specials (x := x) (w := 128) (by norm_num) le_rfl mode
  rcases category_cases x with c | c | c
  · exact ⟨_, s2 (isNan_of c), by norm_num⟩
  · cases hs : x.sign
    · exact ⟨_, s4 (isInfinite_of c) hs, by norm_num⟩
    · exact ⟨_, s3 (isInfinite_of c) hs, by norm_num⟩
  · by_cases hz : x.isZero = true ∧ x.sign = true
    · exact ⟨_, s1 hz.1 hz.2, by norm_num⟩
    · obtain ⟨r, r1, n, -, r2⟩ := C18_to_u128 h hx c hz (w := 128) (by norm_num) le_rfl mode
      refine ⟨r, r1, ?_⟩
      norm_num at r2 ⊢
      omega

theorem datum_num_iff {x : IeeeFloat S} : (∃ s v, x.datum = .num s v) ↔ x.isFinite = true := by
  rw [isFinite_iff]
  unfold datum
  cases x.category <;> simp

theorem datum_toRat {x : IeeeFloat S} (hx : x.Valid) {s : Bool} {v : ℚ} (h : x.datum = .num s v) : x.toRat = v := by
  unfold datum at h
  rcases hc : x.category <;> rw [hc] at h <;> simp only [Datum.num.injEq, reduceCtorEq] at h
  · exact h.2
  · rw [← h.2, toRat_zero hc]

/-- The library answers every operation on well-formed numbers, except the multiplications-additions of C76. -/
theorem evalRsApf_total (h : S.OK) {op : FuzzOp (IeeeFloat S)} (hv : ∀ x ∈ inputsOf op, x.Valid) :
    (∃ r, evalRsApf op = .ok r ∧ r.Valid) ∨
    (∃ x m z, op = .mulAdd x m z ∧ x.isFinite = true ∧ m.isFinite = true ∧ z.isFinite = true ∧
      FmaPanics S (x.toRat * m.toRat) z.toRat ∧ evalRsApf op = .error .assert) := by
  cases op <;> simp only [inputsOf, List.mem_cons, List.not_mem_nil, or_false, forall_eq_or_imp, forall_eq] at hv
  case neg a => exact .inl ⟨_, rfl, neg_valid hv⟩
  case add a b =>
    obtain ⟨r, r1, r2⟩ := total_add h hv.1 hv.2 .nearestTiesToEven
    exact .inl ⟨r.value, by show (Api.add a b >>= _) = _; rw [show Api.add a b = .ok r from r1]; rfl, r2⟩
  case sub a b =>
    obtain ⟨r, r1, r2⟩ := total_sub h hv.1 hv.2 .nearestTiesToEven
    exact .inl ⟨r.value, by show (Api.sub a b >>= _) = _; rw [show Api.sub a b = .ok r from r1]; rfl, r2⟩
  case mul a b =>
    obtain ⟨r, r1, r2⟩ := total_mul h hv.1 hv.2 .nearestTiesToEven
    exact .inl ⟨r.value, by show (Api.mul a b >>= _) = _; rw [show Api.mul a b = .ok r from r1]; rfl, r2⟩
  case div a b =>
    obtain ⟨r, r1, r2⟩ := total_div h hv.1 hv.2 .nearestTiesToEven
    exact .inl ⟨r.value, by show (Api.div a b >>= _) = _; rw [show Api.div a b = .ok r from r1]; rfl, r2⟩
  case rem a b =>
    obtain ⟨r, r1, r2⟩ := (total_fmod h hv.1 hv.2).1
    exact .inl ⟨r.value, by show (Api.rem a b >>= _) = _; rw [show Api.rem a b = .ok r from r1]; rfl, r2⟩
  case mulAdd a b c =>
    rcases total_mul_add h hv.1 hv.2.1 hv.2.2 .nearestTiesToEven with ⟨r, r1, r2⟩ | ⟨f1, f2, f3, f4, f5⟩
    · exact .inl ⟨r.value, by show (Api.mul_add a b c >>= _) = _; rw [show Api.mul_add a b c = .ok r from r1]; rfl, r2⟩
    · exact .inr ⟨a, b, c, rfl, f1, f2, f3, f4, by
        show (Api.mul_add a b c >>= _) = _; rw [show Api.mul_add a b c = .error .assert from f5]; rfl⟩
  case viaI128 a =>
    obtain ⟨i, i1, i2, i3⟩ := to_i128_range h hv .towardZero
    obtain ⟨r, r1, r2, -⟩ := C17_from_i128 h i2 i3 .nearestTiesToEven
    refine .inl ⟨r.value, ?_, r2⟩
    have e : ∃ st, Api.to_i128 a 128 = .ok ⟨st, i.value⟩ := ⟨i.status, by
      show (ApiFloat.to_i128_r a 128 .towardZero >>= _) = _
      simp only [ApiFloat.to_i128_r, i1, M.ok_bind]⟩
    obtain ⟨st, e⟩ := e
    show (Api.to_i128 a 128 >>= _) = _
    rw [e, M.ok_bind, show Api.from_i128 (F := IeeeFloat S) i.value = .ok r from r1]
    rfl
  case viaU128 a =>
    obtain ⟨i, i1, i2⟩ := to_u128_range h hv .towardZero
    obtain ⟨r, r1, r2, -⟩ := C17_from_u128 h i2 .nearestTiesToEven
    refine .inl ⟨r.value, ?_, r2⟩
    have e : ∃ st, Api.to_u128 a 128 = .ok ⟨st, i.value⟩ := ⟨i.status, by
      show (ApiFloat.to_u128_r a 128 .towardZero >>= _) = _
      simp only [ApiFloat.to_u128_r, i1, M.ok_bind]⟩
    obtain ⟨st, e⟩ := e
    show (Api.to_u128 a 128 >>= _) = _
    rw [e, M.ok_bind, show Api.from_u128 (F := IeeeFloat S) i.value = .ok r from r1]
    rfl
  case viaSingle a =>
    obtain ⟨c, c1, c2⟩ := total_convert h singleS_ok hv .nearestTiesToEven
    obtain ⟨d, d1, d2⟩ := total_convert singleS_ok h c2 .nearestTiesToEven
    exact .inl ⟨d.value, by simp only [evalRsApf, Fuzz.convert, c1, M.ok_bind, d1], d2⟩
  case viaDouble a =>
    obtain ⟨c, c1, c2⟩ := total_convert h doubleS_ok hv .nearestTiesToEven
    obtain ⟨d, d1, d2⟩ := total_convert doubleS_ok h c2 .nearestTiesToEven
    exact .inl ⟨d.value, by simp only [evalRsApf, Fuzz.convert, c1, M.ok_bind, d1], d2⟩

/-- Decoding the inputs. -/
theorem map_fromBits (h : S.Enc) (op : FuzzOp ℕ) (hc : ∀ b ∈ inputsOf op, b < 2 ^ S.bits) :
    ∃ op', op.mapPure (fromBits S) = .ok op' ∧ (∀ x ∈ inputsOf op', x.Valid) ∧ op'.tag = op.tag ∧
      List.Forall₂ (fun b x => fromBits S b = .ok x ∧ x.datum = decode S.style S.expBits S.sigBits b) (inputsOf op) (inputsOf op') := by
  have key : ∀ b, b < 2 ^ S.bits → ∃ x, fromBits S b = .ok x ∧ x.Valid ∧ x.datum = decode S.style S.expBits S.sigBits b := fun b hb => by
    obtain ⟨x, x1, x2, x3, -⟩ := C02_from_bits_decodes h hb
    exact ⟨x, x1, x2, x3⟩
  cases op <;> simp only [inputsOf, List.mem_cons, List.not_mem_nil, or_false, forall_eq_or_imp, forall_eq] at hc
  case mulAdd a b c =>
    obtain ⟨x, x1, x2, x3⟩ := key a hc.1
    obtain ⟨y, y1, y2, y3⟩ := key b hc.2.1
    obtain ⟨z, z1, z2, z3⟩ := key c hc.2.2
    exact ⟨.mulAdd x y z, by simp only [FuzzOp.mapPure, FuzzOp.mapM, x1, y1, z1, M.ok_bind],
      by simp [inputsOf, x2, y2, z2], rfl, by simp [inputsOf, x1, y1, z1, x3, y3, z3]⟩
  case add a b =>
    obtain ⟨x, x1, x2, x3⟩ := key a hc.1
    obtain ⟨y, y1, y2, y3⟩ := key b hc.2
    exact ⟨.add x y, by simp only [FuzzOp.mapPure, FuzzOp.mapM, x1, y1, M.ok_bind],
      by simp [inputsOf, x2, y2], rfl, by simp [inputsOf, x1, y1, x3, y3]⟩
  case sub a b =>
    obtain ⟨x, x1, x2, x3⟩ := key a hc.1
    obtain ⟨y, y1, y2, y3⟩ := key b hc.2
    exact ⟨.sub x y, by simp only [FuzzOp.mapPure, FuzzOp.mapM, x1, y1, M.ok_bind],
      by simp [inputsOf, x2, y2], rfl, by simp [inputsOf, x1, y1, x3, y3]⟩
  case mul a b =>
    obtain ⟨x, x1, x2, x3⟩ := key a hc.1
    obtain ⟨y, y1, y2, y3⟩ := key b hc.2
    exact ⟨.mul x y, by simp only [FuzzOp.mapPure, FuzzOp.mapM, x1, y1, M.ok_bind],
      by simp [inputsOf, x2, y2], rfl, by simp [inputsOf, x1, y1, x3, y3]⟩
  case div a b =>
    obtain ⟨x, x1, x2, x3⟩ := key a hc.1
    obtain ⟨y, y1, y2, y3⟩ := key b hc.2
    exact ⟨.div x y, by simp only [FuzzOp.mapPure, FuzzOp.mapM, x1, y1, M.ok_bind],
      by simp [inputsOf, x2, y2], rfl, by simp [inputsOf, x1, y1, x3, y3]⟩
  case rem a b =>
    obtain ⟨x, x1, x2, x3⟩ := key a hc.1
    obtain ⟨y, y1, y2, y3⟩ := key b hc.2
    exact ⟨.rem x y, by simp only [FuzzOp.mapPure, FuzzOp.mapM, x1, y1, M.ok_bind],
      by simp [inputsOf, x2, y2], rfl, by simp [inputsOf, x1, y1, x3, y3]⟩
  case neg a =>
    obtain ⟨x, x1, x2, x3⟩ := key a hc
    exact ⟨.neg x, by simp only [FuzzOp.mapPure, FuzzOp.mapM, x1, M.ok_bind], by simp [inputsOf, x2], rfl, by simp [inputsOf, x1, x3]⟩
  case viaI128 a =>
    obtain ⟨x, x1, x2, x3⟩ := key a hc
    exact ⟨.viaI128 x, by simp only [FuzzOp.mapPure, FuzzOp.mapM, x1, M.ok_bind], by simp [inputsOf, x2], rfl, by simp [inputsOf, x1, x3]⟩
  case viaU128 a =>
    obtain ⟨x, x1, x2, x3⟩ := key a hc
    exact ⟨.viaU128 x, by simp only [FuzzOp.mapPure, FuzzOp.mapM, x1, M.ok_bind], by simp [inputsOf, x2], rfl, by simp [inputsOf, x1, x3]⟩
  case viaSingle a =>
    obtain ⟨x, x1, x2, x3⟩ := key a hc
    exact ⟨.viaSingle x, by simp only [FuzzOp.mapPure, FuzzOp.mapM, x1, M.ok_bind], by simp [inputsOf, x2], rfl, by simp [inputsOf, x1, x3]⟩
  case viaDouble a =>
    obtain ⟨x, x1, x2, x3⟩ := key a hc
    exact ⟨.viaDouble x, by simp only [FuzzOp.mapPure, FuzzOp.mapM, x1, M.ok_bind], by simp [inputsOf, x2], rfl, by simp [inputsOf, x1, x3]⟩

/-- The end of `evalBits`. -/
theorem eval_finish (h : R ∈ reprs) {op : FuzzOp ℕ} {op' : FuzzOp (IeeeFloat R.sem)} (e : op.mapPure (fromBits R.sem) = .ok op')
    {r : IeeeFloat R.sem} (e' : evalRsApf op' = .ok r) (hr : r.Valid) :
    ∃ b, evalBits R op = .ok b ∧ r.toBits = .ok b ∧ b < 2 ^ R.sem.bits ∧ R.denotes b = r.datum := by
  obtain ⟨b, y, b1, b2, b3, b4⟩ := C03_value_round_trip (reprs_enc h) hr
  obtain ⟨z, z1, z2, z3, -⟩ := C02_from_bits_decodes (reprs_enc h) b2
  have hf : b < 256 ^ R.reprBytes := by
    rw [(reprs_ok h).pow] at b2
    exact lt_of_lt_of_le b2 (Nat.pow_le_pow_right (by norm_num) (reprs_ok h).fits)
  refine ⟨b, ?_, b1, b2, ?_⟩
  · unfold evalBits
    rw [e, M.ok_bind, e', M.ok_bind, b1, M.ok_bind, FloatRepr.fromBitsU128, if_pos hf]
  · unfold FloatRepr.denotes
    rw [← z3]
    rw [b3] at z1
    injection z1 with z1
    rw [← z1]
    exact ((bitwiseEq_iff _ _).1 b4).datum

/-- **C106.** Every case is answered with a bit pattern of the format; only the multiplications-additions of C76 end in a panic. -/
theorem C106_eval (h : R ∈ reprs) {op : FuzzOp ℕ} (hc : IsCase R op) :
    (FmaStops R op → evalBits R op = .error .assert) ∧ (¬ FmaStops R op → ∃ b, evalBits R op = .ok b ∧ b < 2 ^ R.sem.bits) := by
  have hE := reprs_enc h
  obtain ⟨op', e, ev, et, ef⟩ := map_fromBits hE op hc
  rcases evalRsApf_total hE.toOK ev with ⟨r, r1, r2⟩ | ⟨x, m, z, rfl, fx, fm, fz, hp, he⟩
  · obtain ⟨b, b1, b2, b3, -⟩ := eval_finish h e r1 r2
    refine ⟨?_, fun _ => ⟨b, b1, b3⟩⟩
    rintro ⟨a, b, c, s, t, u, x, y, z, rfl, d1, d2, d3, hp⟩
    exfalso
    cases op' <;> simp only [FuzzOp.tag] at et <;> try omega
    rename_i a' b' c'
    simp only [inputsOf, List.forall₂_cons, List.forall₂_nil_right_iff, and_true] at ef
    simp only [inputsOf, List.mem_cons, List.not_mem_nil, or_false, forall_eq_or_imp, forall_eq] at ev
    obtain ⟨⟨-, f1⟩, ⟨-, f2⟩, -, f3⟩ := ef
    unfold FloatRepr.denotes at d1 d2 d3
    rw [d1] at f1; rw [d2] at f2; rw [d3] at f3
    have g := (C76_panics_iff hE.toOK ev.1 ev.2.1 ev.2.2 (datum_num_iff.1 ⟨_, _, f1⟩) (datum_num_iff.1 ⟨_, _, f2⟩) (datum_num_iff.1 ⟨_, _, f3⟩)
      .nearestTiesToEven).1 (by rw [datum_toRat ev.1 f1, datum_toRat ev.2.1 f2, datum_toRat ev.2.2 f3]; exact hp)
    have g' : evalRsApf (.mulAdd a' b' c') = .error .assert := by
      show (Api.mul_add a' b' c' >>= _) = _; rw [show Api.mul_add a' b' c' = .error .assert from g]; rfl
    rw [r1] at g'
    cases g'
  · cases op <;> simp only [FuzzOp.tag] at et <;> try omega
    rename_i a b c
    simp only [inputsOf, List.forall₂_cons, List.forall₂_nil_right_iff, and_true] at ef
    simp only [inputsOf, List.mem_cons, List.not_mem_nil, or_false, forall_eq_or_imp, forall_eq] at ev
    obtain ⟨⟨-, f1⟩, ⟨-, f2⟩, -, f3⟩ := ef
    obtain ⟨s, x', e1⟩ := datum_num_iff.2 fx
    obtain ⟨t, m', e2⟩ := datum_num_iff.2 fm
    obtain ⟨u, z', e3⟩ := datum_num_iff.2 fz
    rw [datum_toRat ev.1 e1, datum_toRat ev.2.1 e2, datum_toRat ev.2.2 e3] at hp
    refine ⟨fun _ => ?_, fun hn => absurd ⟨a, b, c, s, t, u, x', m', z', rfl, f1.symm.trans e1, f2.symm.trans e2, f3.symm.trans e3, hp⟩ hn⟩
    unfold evalBits
    rw [e, M.ok_bind, he]
    rfl

/-- **C106.** Negation is answered with the other sign bit; only the non-canonical patterns of the 80-bit format are also rewritten. -/
theorem C106_neg (h : R ∈ reprs) {a : ℕ} (ha : a < 2 ^ R.sem.bits) (hn : ¬ NonCanonical R.sem.style R.sem.expBits R.sem.sigBits a) :
    evalBits R (.neg a) = .ok (a ^^^ 2 ^ (R.sem.bits - 1)) := by
  have hE := reprs_enc h
  obtain ⟨x, x1, x2⟩ := C01_bits_round_trip hE ha
  obtain ⟨x', x3, x4, -⟩ := C02_from_bits_decodes hE ha
  rw [x1, Except.ok.injEq] at x3
  subst x3
  have e : (FuzzOp.neg a).mapPure (fromBits R.sem) = .ok (.neg x) := by simp only [FuzzOp.mapPure, FuzzOp.mapM, x1, M.ok_bind]
  obtain ⟨b, b1, b2, -⟩ := eval_finish h e (r := x.neg) rfl (neg_valid x4)
  obtain ⟨c, d, c1, c2, c3⟩ := C35_neg_bits hE x4
  rw [x2 hn, Except.ok.injEq] at c1
  rw [b2, Except.ok.injEq] at c2
  subst c1 c2
  rw [b1]
  congr 1
  apply Nat.eq_of_testBit_eq
  intro i
  rw [c3, Nat.testBit_xor, Nat.testBit_two_pow]
  by_cases hi : i = R.sem.bits - 1
  · rw [if_pos hi, decide_eq_true hi.symm, Bool.xor_true]
  · rw [if_neg hi, decide_eq_false (fun e => hi e.symm), Bool.xor_false]

private theorem nteF (v : ℚ) : DirectedOK S .nearestTiesToEven v := directedOK_of_mode _ (by decide) (by decide) _

/-- **C106.** The four basic operations on finite numbers are answered with the bits of the exact result rounded to nearest, ties to even (divisors not zero). -/
theorem C106_arith (h : R ∈ reprs) {op : FuzzOp ℕ} {a b : ℕ} {f : ℚ → ℚ → ℚ} (hop : ArithOf op a b f) (ha : a < 2 ^ R.sem.bits) (hb : b < 2 ^ R.sem.bits)
    {s t : Bool} {x y : ℚ} (da : R.denotes a = .num s x) (db : R.denotes b = .num t y) (hd : op = .div a b → y ≠ 0) :
    ∃ r st sg, evalBits R op = .ok r ∧ r < 2 ^ R.sem.bits ∧ Delivers R.sem.fmt .nearestTiesToEven (f x y) sg (R.denotes r) st := by
  have hE := reprs_enc h
  obtain ⟨x', x1, x2, x3, -⟩ := C02_from_bits_decodes hE ha
  obtain ⟨y', y1, y2, y3, -⟩ := C02_from_bits_decodes hE hb
  have x4 : x'.datum = .num s x := x3.trans da
  have y4 : y'.datum = .num t y := y3.trans db
  have fx := datum_num_iff.1 ⟨_, _, x4⟩
  have fy := datum_num_iff.1 ⟨_, _, y4⟩
  have ex := datum_toRat x2 x4
  have ey := datum_toRat y2 y4
  cases hop
  · obtain ⟨r, r1, r2, r3⟩ := C04_add_correctly_rounded hE.toOK x2 y2 fx fy _ (nteF _)
    obtain ⟨k, k1, -, k2, k3⟩ := eval_finish h (op := .add a b) (op' := .add x' y') (r := r.value)
      (by simp only [FuzzOp.mapPure, FuzzOp.mapM, x1, y1, M.ok_bind])
      (by show (Api.add x' y' >>= _) = _; rw [show Api.add x' y' = .ok r from r1]; rfl) r2
    refine ⟨k, r.status, r.value.sign, k1, k2, ?_⟩
    rw [k3, ← ex, ← ey]; exact r3.1
  · obtain ⟨r, r1, r2, r3⟩ := C05_sub_correctly_rounded hE.toOK x2 y2 fx fy _ (nteF _)
    obtain ⟨k, k1, -, k2, k3⟩ := eval_finish h (op := .sub a b) (op' := .sub x' y') (r := r.value)
      (by simp only [FuzzOp.mapPure, FuzzOp.mapM, x1, y1, M.ok_bind])
      (by show (Api.sub x' y' >>= _) = _; rw [show Api.sub x' y' = .ok r from r1]; rfl) r2
    refine ⟨k, r.status, r.value.sign, k1, k2, ?_⟩
    rw [k3, ← ex, ← ey]; exact r3.1
  · obtain ⟨r, r1, r2, r3⟩ := C06_mul_correctly_rounded hE.toOK x2 y2 fx fy _ (nteF _)
    obtain ⟨k, k1, -, k2, k3⟩ := eval_finish h (op := .mul a b) (op' := .mul x' y') (r := r.value)
      (by simp only [FuzzOp.mapPure, FuzzOp.mapM, x1, y1, M.ok_bind])
      (by show (Api.mul x' y' >>= _) = _; rw [show Api.mul x' y' = .ok r from r1]; rfl) r2
    refine ⟨k, r.status, r.value.sign, k1, k2, ?_⟩
    rw [k3, ← ex, ← ey]; exact r3.1
  · obtain ⟨r, r1, r2, r3⟩ := C07_div_correctly_rounded hE.toOK x2 y2 fx fy (by rw [ey]; exact hd rfl) _ (nteF _)
    obtain ⟨k, k1, -, k2, k3⟩ := eval_finish h (op := .div a b) (op' := .div x' y') (r := r.value)
      (by simp only [FuzzOp.mapPure, FuzzOp.mapM, x1, y1, M.ok_bind])
      (by show (Api.div x' y' >>= _) = _; rw [show Api.div x' y' = .ok r from r1]; rfl) r2
    refine ⟨k, r.status, r.value.sign, k1, k2, ?_⟩
    rw [k3, ← ex, ← ey]; exact r3.1

/-- **C106.** Multiplications-additions of finite numbers, outside the set where the library is known to fail: the tool's answer is the correctly rounded one. -/
theorem C106_mul_add (h : R ∈ reprs) {a b c : ℕ} (ha : a < 2 ^ R.sem.bits) (hb : b < 2 ^ R.sem.bits) (hc : c < 2 ^ R.sem.bits)
    {s t u : Bool} {x y z : ℚ} (da : R.denotes a = .num s x) (db : R.denotes b = .num t y) (dc : R.denotes c = .num u z)
    (hw : ¬ FmaWrong R.sem .nearestTiesToEven (x * y) z) :
    ∃ r st sg, evalBits R (.mulAdd a b c) = .ok r ∧ r < 2 ^ R.sem.bits ∧ Delivers R.sem.fmt .nearestTiesToEven (x * y + z) sg (R.denotes r) st := by
  have hE := reprs_enc h
  obtain ⟨x', x1, x2, x3, -⟩ := C02_from_bits_decodes hE ha
  obtain ⟨y', y1, y2, y3, -⟩ := C02_from_bits_decodes hE hb
  obtain ⟨z', z1, z2, z3, -⟩ := C02_from_bits_decodes hE hc
  have x4 : x'.datum = .num s x := x3.trans da
  have y4 : y'.datum = .num t y := y3.trans db
  have z4 : z'.datum = .num u z := z3.trans dc
  have ex := datum_toRat x2 x4
  have ey := datum_toRat y2 y4
  have ez := datum_toRat z2 z4
  obtain ⟨r, r1, r2, r3⟩ := (C76_correct_iff hE.toOK x2 y2 z2 (datum_num_iff.1 ⟨_, _, x4⟩) (datum_num_iff.1 ⟨_, _, y4⟩) (datum_num_iff.1 ⟨_, _, z4⟩) .nearestTiesToEven
    (nteF _)).2 (by rw [ex, ey, ez]; exact hw)
  obtain ⟨k, k1, -, k2, k3⟩ := eval_finish h (op := .mulAdd a b c) (op' := .mulAdd x' y' z') (r := r.value)
    (by simp only [FuzzOp.mapPure, FuzzOp.mapM, x1, y1, z1, M.ok_bind])
    (by show (Api.mul_add x' y' z' >>= _) = _; rw [show Api.mul_add x' y' z' = .ok r from r1]; rfl) r2
  refine ⟨k, r.status, r.value.sign, k1, k2, ?_⟩
  rw [k3, ← ex, ← ey, ← ez]; exact r3.1

/-- **C106.** Remainders of finite numbers: the tool's answer denotes `x - y * trunc (x / y)`, with the sign of `x`. -/
theorem C106_rem (h : R ∈ reprs) {a b : ℕ} (ha : a < 2 ^ R.sem.bits) (hb : b < 2 ^ R.sem.bits) {s t : Bool} {x y : ℚ} (da : R.denotes a = .num s x)
    (db : R.denotes b = .num t y) (hy : y ≠ 0) :
    ∃ r, evalBits R (.rem a b) = .ok r ∧ r < 2 ^ R.sem.bits ∧ R.denotes r = .num s (x - truncQ (x / y) * y) := by
  have hE := reprs_enc h
  obtain ⟨x', x1, x2, x3, -⟩ := C02_from_bits_decodes hE ha
  obtain ⟨y', y1, y2, y3, -⟩ := C02_from_bits_decodes hE hb
  have x4 : x'.datum = .num s x := x3.trans da
  have y4 : y'.datum = .num t y := y3.trans db
  have ex := datum_toRat x2 x4
  have ey := datum_toRat y2 y4
  obtain ⟨r, r1, r2, r3, r4, n, n1, n2⟩ := C23_c_fmod hE.toOK x2 y2 (datum_num_iff.1 ⟨_, _, x4⟩) (datum_num_iff.1 ⟨_, _, y4⟩) (by rw [ey]; exact hy)
  obtain ⟨k, k1, -, k2, k3⟩ := eval_finish h (op := .rem a b) (op' := .rem x' y') (r := r)
    (by simp only [FuzzOp.mapPure, FuzzOp.mapM, x1, y1, M.ok_bind])
    (by show (Api.rem x' y' >>= _) = _; rw [show Api.rem x' y' = .ok ⟨Status.OK, r⟩ from r1]; rfl) r2
  refine ⟨k, k1, k2, ?_⟩
  rw [k3, datum_finite r3, r4, n2, ex, ey]
  rw [ex, ey] at n1
  rw [n1.unique (rounds_truncQ _)]
  rw [datum_finite (datum_num_iff.1 ⟨_, _, x4⟩), Datum.num.injEq] at x4
  rw [x4.1]

/-- **C106.** Going through `i128` or `u128`: the tool's answer is the rounded value of the cast -- the integer part, saturated, and 0 for NaN. -/
theorem C106_via_int (h : R ∈ reprs) {a : ℕ} (ha : a < 2 ^ R.sem.bits) :
    (∃ r st sg, evalBits R (.viaI128 a) = .ok r ∧ r < 2 ^ R.sem.bits ∧
      Delivers R.sem.fmt .nearestTiesToEven (castTo (-2 ^ 127) (2 ^ 127 - 1) (R.denotes a) : ℤ) sg (R.denotes r) st) ∧
    (∃ r st sg, evalBits R (.viaU128 a) = .ok r ∧ r < 2 ^ R.sem.bits ∧
      Delivers R.sem.fmt .nearestTiesToEven (castTo 0 (2 ^ 128 - 1) (R.denotes a) : ℤ) sg (R.denotes r) st) := by
  have hE := reprs_enc h
  obtain ⟨x, x1, x2, x3, -⟩ := C02_from_bits_decodes hE ha
  have x4 : x.datum = R.denotes a := x3
  rw [← x4]
  constructor
  · obtain ⟨i, i1, i2, i3⟩ := to_i128_range hE.toOK x2 .towardZero
    obtain ⟨i', j1, j2, -⟩ := C104_cast_signed hE.toOK x2 (w := 128) (by norm_num) le_rfl
    rw [i1, Except.ok.injEq] at j1
    obtain ⟨r, r1, r2, r3⟩ := C17_from_i128 hE.toOK i2 i3 .nearestTiesToEven
    obtain ⟨k, k1, -, k2, k3⟩ := eval_finish h (op := .viaI128 a) (op' := .viaI128 x) (r := r.value)
      (by simp only [FuzzOp.mapPure, FuzzOp.mapM, x1, M.ok_bind])
      (by
        have e : Api.to_i128 x 128 = .ok ⟨i.status, i.value⟩ := by
          show (ApiFloat.to_i128_r x 128 .towardZero >>= _) = _
          simp only [ApiFloat.to_i128_r, i1, M.ok_bind]
        show (Api.to_i128 x 128 >>= _) = _
        rw [e, M.ok_bind, show Api.from_i128 (F := IeeeFloat R.sem) i.value = .ok r from r1]
        rfl) r2
    refine ⟨k, r.status, r.value.sign, k1, k2, ?_⟩
    rw [k3]
    have := r3.1
    rw [j1, j2] at this
    exact this
  · obtain ⟨i, i1, i2⟩ := to_u128_range hE.toOK x2 .towardZero
    obtain ⟨i', j1, j2, -⟩ := C104_cast_unsigned hE.toOK x2 (w := 128) (by norm_num) le_rfl
    rw [i1, Except.ok.injEq] at j1
    obtain ⟨r, r1, r2, r3⟩ := C17_from_u128 hE.toOK i2 .nearestTiesToEven
    obtain ⟨k, k1, -, k2, k3⟩ := eval_finish h (op := .viaU128 a) (op' := .viaU128 x) (r := r.value)
      (by simp only [FuzzOp.mapPure, FuzzOp.mapM, x1, M.ok_bind])
      (by
        have e : Api.to_u128 x 128 = .ok ⟨i.status, i.value⟩ := by
          show (ApiFloat.to_u128_r x 128 .towardZero >>= _) = _
          simp only [ApiFloat.to_u128_r, i1, M.ok_bind]
        show (Api.to_u128 x 128 >>= _) = _
        rw [e, M.ok_bind, show Api.from_u128 (F := IeeeFloat R.sem) i.value = .ok r from r1]
        rfl) r2
    refine ⟨k, r.status, r.value.sign, k1, k2, ?_⟩
    rw [k3]
    have := r3.1
    rw [show ((i.value : ℕ) : ℚ) = ((i.value : ℤ) : ℚ) by norm_cast, j1, j2] at this
    exact this

/-- A canonical pattern and the number it stands for. -/
theorem canonical_float (h : R ∈ reprs) {a : ℕ} (ha : a < 2 ^ R.sem.bits) (hn : ¬ NonCanonical R.sem.style R.sem.expBits R.sem.sigBits a) :
    ∃ x, fromBits R.sem a = .ok x ∧ x.Valid ∧ x.toBits = .ok a ∧ x.datum = R.denotes a ∧ (x.isNan = true ↔ R.denotes a = .nan) := by
  have hE := reprs_enc h
  obtain ⟨x, x1, x2⟩ := C01_bits_round_trip hE ha
  obtain ⟨x', x3, x4, x5, -⟩ := C02_from_bits_decodes hE ha
  rw [x1, Except.ok.injEq] at x3
  subst x3
  refine ⟨x, x1, x4, x2 hn, x5, ?_⟩
  rw [show R.denotes a = x.datum from x5.symm]
  unfold IeeeFloat.isNan datum
  cases x.category <;> simp

/-- **C106.** Binary operations with a NaN among the inputs: the tool's answer is the first NaN input, made quiet. -/
theorem C106_nan (h : R ∈ reprs) {a b : ℕ} (ha : a < 2 ^ R.sem.bits) (hb : b < 2 ^ R.sem.bits)
    (na : ¬ NonCanonical R.sem.style R.sem.expBits R.sem.sigBits a) (nb : ¬ NonCanonical R.sem.style R.sem.expBits R.sem.sigBits b) {op : FuzzOp ℕ}
    (hop : op ∈ [FuzzOp.add a b, .sub a b, .mul a b, .div a b, .rem a b]) :
    (R.denotes a = .nan → evalBits R op = .ok (a ||| quietBit R.sem)) ∧
    (R.denotes a ≠ .nan → R.denotes b = .nan → evalBits R op = .ok (b ||| quietBit R.sem)) := by
  obtain ⟨x, x1, x2, x3, -, x4⟩ := canonical_float h ha na
  obtain ⟨y, y1, y2, y3, -, y4⟩ := canonical_float h hb nb
  have key : x.isNan = true ∨ y.isNan = true → evalBits R op = .ok ((if x.isNan then a else b) ||| quietBit R.sem) := by
    intro hn
    obtain ⟨r, ⟨r1, r2, r3, r4⟩, r5, r6⟩ := C11_nan_bits (reprs_enc h) x2 y2 .nearestTiesToEven x3 y3 hn
    obtain ⟨q, ⟨q1, -⟩, q5, q6⟩ := C11_rem_nan_bits (reprs_enc h) x2 y2 x3 y3 hn
    simp only [List.mem_cons, List.not_mem_nil, or_false] at hop
    rcases hop with rfl | rfl | rfl | rfl | rfl
    · obtain ⟨k, k1, k2, -⟩ := eval_finish h (op := .add a b) (op' := .add x y) (r := r.value)
        (by simp only [FuzzOp.mapPure, FuzzOp.mapM, x1, y1, M.ok_bind])
        (by show (Api.add x y >>= _) = _; rw [show Api.add x y = .ok r from r1]; rfl) r5
      rw [k1, ← k2, r6]
    · obtain ⟨k, k1, k2, -⟩ := eval_finish h (op := .sub a b) (op' := .sub x y) (r := r.value)
        (by simp only [FuzzOp.mapPure, FuzzOp.mapM, x1, y1, M.ok_bind])
        (by show (Api.sub x y >>= _) = _; rw [show Api.sub x y = .ok r from r2]; rfl) r5
      rw [k1, ← k2, r6]
    · obtain ⟨k, k1, k2, -⟩ := eval_finish h (op := .mul a b) (op' := .mul x y) (r := r.value)
        (by simp only [FuzzOp.mapPure, FuzzOp.mapM, x1, y1, M.ok_bind])
        (by show (Api.mul x y >>= _) = _; rw [show Api.mul x y = .ok r from r3]; rfl) r5
      rw [k1, ← k2, r6]
    · obtain ⟨k, k1, k2, -⟩ := eval_finish h (op := .div a b) (op' := .div x y) (r := r.value)
        (by simp only [FuzzOp.mapPure, FuzzOp.mapM, x1, y1, M.ok_bind])
        (by show (Api.div x y >>= _) = _; rw [show Api.div x y = .ok r from r4]; rfl) r5
      rw [k1, ← k2, r6]
    · obtain ⟨k, k1, k2, -⟩ := eval_finish h (op := .rem a b) (op' := .rem x y) (r := q.value)
        (by simp only [FuzzOp.mapPure, FuzzOp.mapM, x1, y1, M.ok_bind])
        (by show (Api.rem x y >>= _) = _; rw [show Api.rem x y = .ok q from q1]; rfl) q5
      rw [k1, ← k2, q6]
  constructor
  · intro k
    rw [key (.inl (x4.2 k)), if_pos (x4.2 k)]
  · intro k k'
    rw [key (.inr (y4.2 k')), if_neg (fun j => k (x4.1 j))]

/-- Through a type that contains the format and back. -/
theorem via_trip {T : Sem} (hS : S.Enc) (hT : T.OK) (hx : S.explicitIntBit = false) (hp : S.precision ≤ T.precision) (h1 : T.minExp ≤ S.minExp)
    (h2 : S.maxExp ≤ T.maxExp) (h3 : T.nonfinite = .nanOnly → S.nonfinite = .nanOnly) {a : ℕ} (ha : a < 2 ^ S.bits)
    (hn : decode S.style S.expBits S.sigBits a ≠ .nan) :
    ∃ x t y, fromBits S a = .ok x ∧ Fuzz.convert S T x = .ok t ∧ Fuzz.convert T S t = .ok y ∧ y.Valid ∧ y.toBits = .ok a := by
  obtain ⟨x, x1, x2, x3, -⟩ := C02_from_bits_decodes hS ha
  obtain ⟨x', x4, x5⟩ := C01_bits_round_trip_all hS hx ha
  rw [x1, Except.ok.injEq] at x4
  subst x4
  have nx : x.isNan = false := by
    rw [← x3] at hn
    unfold datum at hn
    unfold isNan
    cases hc : x.category <;> simp_all
  obtain ⟨c, c1, c2, c3, c4, c5⟩ := C22_widening hS.toOK hT hp h1 h2 h3 x2 nx .nearestTiesToEven
  obtain ⟨d, d1, d2, -⟩ := C22_round_trip hS.toOK hT x2 nx (mode' := .nearestTiesToEven) c1 c5
  obtain ⟨d', d3, d4⟩ := total_convert hT hS.toOK c2 .nearestTiesToEven
  rw [d1, Except.ok.injEq] at d3
  subst d3
  refine ⟨x, c.value, d.value, x1, by simp only [Fuzz.convert, c1, M.ok_bind], by simp only [Fuzz.convert, d1, M.ok_bind], d4, ?_⟩
  rw [(C03_bitwise_eq_iff_bits hS d4 x2).1 d2, x5]

/-- **C106.** The round trips through `Single` and `Double` give back the input, when it is not a NaN and the format is contained in the other. -/
theorem C106_via_wider (h : R ∈ reprs) {a : ℕ} (ha : a < 2 ^ R.sem.bits) (hn : R.denotes a ≠ .nan) :
    (R.tag ≤ 32 → evalBits R (.viaSingle a) = .ok a) ∧ (R.tag ≤ 64 → evalBits R (.viaDouble a) = .ok a) := by
  have hE := reprs_enc h
  have key : (R.tag ≤ 32 → R.sem.explicitIntBit = false ∧ R.sem.precision ≤ singleS.precision ∧ singleS.minExp ≤ R.sem.minExp ∧
      R.sem.maxExp ≤ singleS.maxExp) ∧ (R.tag ≤ 64 → R.sem.explicitIntBit = false ∧ R.sem.precision ≤ doubleS.precision ∧
      doubleS.minExp ≤ R.sem.minExp ∧ R.sem.maxExp ≤ doubleS.maxExp) := by
    simp only [reprs, List.mem_cons, List.not_mem_nil, or_false] at h
    rcases h with rfl | rfl | rfl | rfl | rfl | rfl | rfl | rfl <;> decide
  constructor
  · intro ht
    obtain ⟨k1, k2, k3, k4⟩ := key.1 ht
    obtain ⟨x, t, y, e1, e2, e3, e4, e5⟩ := via_trip hE singleS_ok k1 k2 k3 k4 (fun e => by cases e) ha hn
    obtain ⟨b, b1, b2, -⟩ := eval_finish h (op := .viaSingle a) (op' := .viaSingle x) (r := y)
      (by simp only [FuzzOp.mapPure, FuzzOp.mapM, e1, M.ok_bind]) (by simp only [evalRsApf, e2, e3, M.ok_bind]) e4
    rw [b1]; rw [e5] at b2; exact b2.symm
  · intro ht
    obtain ⟨k1, k2, k3, k4⟩ := key.2 ht
    obtain ⟨x, t, y, e1, e2, e3, e4, e5⟩ := via_trip hE doubleS_ok k1 k2 k3 k4 (fun e => by cases e) ha hn
    obtain ⟨b, b1, b2, -⟩ := eval_finish h (op := .viaDouble a) (op' := .viaDouble x) (r := y)
      (by simp only [FuzzOp.mapPure, FuzzOp.mapM, e1, M.ok_bind]) (by simp only [evalRsApf, e2, e3, M.ok_bind]) e4
    rw [b1]; rw [e5] at b2; exact b2.symm

/-! Concrete cases: a signaling NaN added; `1.0 + 3.0` in `f16`; a multiplication-addition on which the library panics; -1.5 via `i128` and via `f32`. -/
example : evalBits { sem := halfS, reprBytes := 2, tag := 16 } (.add 0x3c00 0xfc01) = .ok 0xfe01 := by decide +kernel
example : evalBits { sem := halfS, reprBytes := 2, tag := 16 } (.rem 0xc700 0x4200) = .ok 0xbc00 := by decide +kernel
example : evalBits { sem := halfS, reprBytes := 2, tag := 16 } (.add 0x3c00 0x4200) = .ok 0x4400 := by decide +kernel
example : evalBits { sem := float8E4M3FNS, reprBytes := 1, tag := 9 } (.mulAdd 5 37 129) = .error .assert := by decide +kernel
example : evalBits { sem := float8E4M3FNS, reprBytes := 1, tag := 9 } (.mulAdd 5 37 1) = .ok 2 := by decide +kernel
example : evalBits { sem := halfS, reprBytes := 2, tag := 16 } (.viaI128 0xbe00) = .ok 0xbc00 := by decide +kernel
example : evalBits { sem := halfS, reprBytes := 2, tag := 16 } (.viaSingle 0xbe00) = .ok 0xbe00 := by decide +kernel
example : evalBits { sem := halfS, reprBytes := 2, tag := 16 } (.neg 0xbe00) = .ok 0x3e00 := by decide +kernel
example : ({ sem := halfS, reprBytes := 2, tag := 16 } : FloatRepr).denotes 0x3c00 = .num false 1 := by
  simp only [Fuzz.FloatRepr.denotes, show halfS.style = .hidden from rfl, show halfS.expBits = 5 from rfl, show halfS.sigBits = 10 from rfl, Spec.decode]
  norm_num [Spec.exponentField, Spec.sigField, Spec.signField, Spec.bias, Spec.signed]

end Apf
