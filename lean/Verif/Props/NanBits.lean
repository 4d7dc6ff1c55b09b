import Verif.Props.Bits
import Verif.Props.Fma
/-! # C11 in terms of bit patterns -/

namespace Apf
open Spec IeeeFloat
variable {S : Sem}

theorem encode_or_low {w t s E T q : ℕ} (hT : T < 2 ^ t) (hq : q < 2 ^ t) :
    s * 2 ^ (w + t) + (E * 2 ^ t + (T ||| q)) = s * 2 ^ (w + t) + (E * 2 ^ t + T) ||| q := by
  have e : ∀ a, s * 2 ^ (w + t) + (E * 2 ^ t + a) = 2 ^ t * (s * 2 ^ w + E) + a := fun a => by rw [pow_add]; ring
  rw [e, e, Nat.two_pow_add_eq_or_of_lt (Nat.or_lt_two_pow hT hq), Nat.two_pow_add_eq_or_of_lt hT, Nat.or_assoc]

/-- The pattern of a NaN made quiet is that of the NaN with the quiet bit set. -/
theorem quieted_bits (h : S.Enc) {x r : IeeeFloat S} (hx : x.Valid) (hr : r.Valid) (c : x.category = .nan) (hq : IsQuieted x r) :
    ∃ a, x.toBits = .ok a ∧ r.toBits = .ok (a ||| quietBit S) := by
  refine ⟨_, toBits_eq h hx, ?_⟩
  rw [toBits_eq h hr, Except.ok.injEq]
  have hb : quietBit S < 2 ^ S.sigBits := by
    unfold quietBit Sem.sigBits
    have := h.p_ge
    split_ifs
    · exact Nat.pow_lt_pow_right (by norm_num) (by omega)
    · exact Nat.pow_lt_pow_right (by norm_num) (by omega)
    · positivity
    · positivity
  have ht := fieldT_lt h hx
  obtain ⟨q1, q2, q3⟩ := hq
  have e1 : r.fieldE = x.fieldE := by unfold fieldE; rw [q1, c]
  have e2 : r.fieldT = x.fieldT ||| quietBit S := by unfold fieldT; rw [q1, c]; exact q3
  rw [q2, e1, e2]
  unfold encode
  exact encode_or_low ht hb

/-- **C11.** NaN operands in terms of bit patterns: the result is the pattern of the first NaN operand with the quiet bit set. -/
theorem C11_nan_bits (h : S.Enc) {x y : IeeeFloat S} (hx : x.Valid) (hy : y.Valid) (mode : Round) {a b : ℕ} (ha : x.toBits = .ok a) (hb : y.toBits = .ok b)
    (hn : x.isNan = true ∨ y.isNan = true) :
    ∃ r : StatusAnd (IeeeFloat S), (addR x y mode = .ok r ∧ subR x y mode = .ok r ∧ mulR x y mode = .ok r ∧ divR x y mode = .ok r) ∧
      r.value.Valid ∧ r.value.toBits = .ok ((if x.isNan then a else b) ||| quietBit S) := by
  have n1 : ∀ z : IeeeFloat S, z.isNan = true ↔ z.category = .nan := fun z => by unfold isNan; cases z.category <;> simp
  rw [n1, n1] at hn
  obtain ⟨r, r1, r2, r3, -⟩ := C11_nan_propagation h.toOK hx hy mode hn
  refine ⟨r, r1, r2, ?_⟩
  by_cases c : x.category = .nan
  · rw [if_pos c] at r3
    rw [if_pos ((n1 x).2 c)]
    obtain ⟨a', q1, q2⟩ := quieted_bits h hx r2 c r3
    rw [ha, Except.ok.injEq] at q1
    rw [q2, q1]
  · rw [if_neg c] at r3
    rw [if_neg (fun k => c ((n1 x).1 k))]
    obtain ⟨a', q1, q2⟩ := quieted_bits h hy r2 (hn.resolve_left c) r3
    rw [hb, Except.ok.injEq] at q1
    rw [q2, q1]

/-- **C11.** The same for both remainders. -/
theorem C11_rem_nan_bits (h : S.Enc) {x y : IeeeFloat S} (hx : x.Valid) (hy : y.Valid) {a b : ℕ} (ha : x.toBits = .ok a) (hb : y.toBits = .ok b)
    (hn : x.isNan = true ∨ y.isNan = true) :
    ∃ r : StatusAnd (IeeeFloat S), (cFmod x y = .ok r ∧ ieeeRem x y = .ok r) ∧ r.value.Valid ∧ r.value.toBits = .ok ((if x.isNan then a else b) ||| quietBit S) := by
  have n1 : ∀ z : IeeeFloat S, z.isNan = true ↔ z.category = .nan := fun z => by unfold isNan; cases z.category <;> simp
  rw [n1, n1] at hn
  obtain ⟨r, r0, r1, r2, r3, -⟩ := C11_rem_nan h.toOK hx hy hn
  refine ⟨r, ⟨r0, r1⟩, r2, ?_⟩
  by_cases c : x.category = .nan
  · rw [if_pos c] at r3
    rw [if_pos ((n1 x).2 c)]
    obtain ⟨a', q1, q2⟩ := quieted_bits h hx r2 c r3
    rw [ha, Except.ok.injEq] at q1
    rw [q2, q1]
  · rw [if_neg c] at r3
    rw [if_neg (fun k => c ((n1 x).1 k))]
    obtain ⟨a', q1, q2⟩ := quieted_bits h hy r2 (hn.resolve_left c) r3
    rw [hb, Except.ok.injEq] at q1
    rw [q2, q1]

/-- **C11.** The same for multiplication-addition, unless the factors are a zero and an infinity. -/
theorem C11_mul_add_nan_bits (h : S.Enc) {x m z : IeeeFloat S} (hx : x.Valid) (hm : m.Valid) (hz : z.Valid) (mode : Round) {a b c : ℕ}
    (ha : x.toBits = .ok a) (hb : m.toBits = .ok b) (hc : z.toBits = .ok c) (hn : x.isNan = true ∨ m.isNan = true ∨ z.isNan = true)
    (hi : ¬ (x.isInfinite = true ∧ m.isZero = true ∨ x.isZero = true ∧ m.isInfinite = true)) :
    ∃ r : StatusAnd (IeeeFloat S), mulAddR x m z mode = .ok r ∧ r.value.Valid ∧ r.value.toBits = .ok ((if x.isNan then a else if m.isNan then b else c) ||| quietBit S) := by
  have n1 : ∀ z : IeeeFloat S, z.isNan = true ↔ z.category = .nan := fun z => by unfold isNan; cases z.category <;> simp
  have n2 : ∀ z : IeeeFloat S, z.isInfinite = true ↔ z.category = .infinity := fun z => by unfold isInfinite; cases z.category <;> simp
  have n3 : ∀ z : IeeeFloat S, z.isZero = true ↔ z.category = .zero := fun z => by unfold isZero; cases z.category <;> simp
  rw [n1, n1, n1] at hn
  rw [n2, n2, n3, n3] at hi
  obtain ⟨r, r1, r2, r3, -⟩ := C11_mul_add_nan h.toOK hx hm hz mode hn hi
  refine ⟨r, r1, r2, ?_⟩
  by_cases cx : x.category = .nan
  · rw [if_pos cx] at r3
    rw [if_pos ((n1 x).2 cx)]
    obtain ⟨a', q1, q2⟩ := quieted_bits h hx r2 cx r3
    rw [ha, Except.ok.injEq] at q1
    rw [q2, q1]
  · rw [if_neg cx] at r3
    rw [if_neg (fun k => cx ((n1 x).1 k))]
    by_cases cm : m.category = .nan
    · rw [if_pos cm] at r3
      rw [if_pos ((n1 m).2 cm)]
      obtain ⟨a', q1, q2⟩ := quieted_bits h hm r2 cm r3
      rw [hb, Except.ok.injEq] at q1
      rw [q2, q1]
    · rw [if_neg cm] at r3
      rw [if_neg (fun k => cm ((n1 m).1 k))]
      obtain ⟨a', q1, q2⟩ := quieted_bits h hz r2 ((hn.resolve_left cx).resolve_left cm) r3
      rw [hc, Except.ok.injEq] at q1
      rw [q2, q1]

/-- In `f32`: the signaling NaN 0xff812345 plus the quiet NaN 0x7fc00001 is 0xffc12345. -/
example : (do let x ← fromBits singleS 0xff812345; let y ← fromBits singleS 0x7fc00001; let r ← addR x y .nearestTiesToEven; r.value.toBits : M ℕ) = .ok 0xffc12345 := by
  decide +kernel
example : quietBit singleS = 0x400000 := by decide

end Apf
