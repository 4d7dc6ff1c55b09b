import Verif.Proof.Normalize2
/-! # `sig::add_or_sub` -/

namespace Apf
open Spec

theorem signed_mul (s : Bool) (a b : ℚ) : signed s (a * b) = signed s a * b := by
  cases s <;> simp [signed]

theorem lossIs_invert {l : Loss} {f : ℚ} (h : LossIs l f) (hl : l ≠ .exactlyZero) : LossIs (Sig.invertLoss l) (1 - f) := by
  cases l <;> simp only [LossIs, Sig.invertLoss] at h ⊢
  · exact absurd rfl hl
  · constructor <;> linarith [h.1, h.2]
  · linarith
  · constructor <;> linarith [h.1, h.2]

theorem invertLoss_zero {l : Loss} : Sig.invertLoss l = .exactlyZero ↔ l = .exactlyZero := by
  cases l <;> simp [Sig.invertLoss]

/-- The subtraction half, once the operands are aligned: `b` carries a fraction `g` that has been shifted out. -/
theorem subStep_ok {a b : List Nat} {e : Int} {s : Bool} {loss : Loss} {g : ℚ} (ha : Limbs a) (hb : Limbs b)
    (hl : a.length = b.length) (hg : LossIs loss g) (hcond : loss = .exactlyZero ∨ val b < val a) :
    ∃ o : Sig.AddOrSubOut, (do
      let c ← Sig.cmp a b
      if c = .lt then do
        let (r, o) ← Sig.sub b a (decide (loss ≠ .exactlyZero)).toNat
        massert (o = 0)
        .ok ⟨r, e, !s, Sig.invertLoss loss⟩
      else do
        let (r, o) ← Sig.sub a b (decide (loss ≠ .exactlyZero)).toNat
        massert (o = 0)
        .ok ⟨r, e, s, Sig.invertLoss loss⟩ : M Sig.AddOrSubOut) = .ok o ∧
      o.sig.length = a.length ∧ Limbs o.sig ∧ o.exp = e ∧
      (∃ f, LossIs o.loss f ∧ signed o.sign ((val o.sig : ℚ) + f) = signed s ((val a : ℚ) - (val b + g))) ∧
      (o.loss ≠ .exactlyZero → val a = val o.sig + val b + 1) ∧ (val a = val b → o.sign = s) := by
  rw [cmp_ok ha hb hl, M.ok_bind]
  by_cases hlt : val a < val b
  · have hz : loss = .exactlyZero := by rcases hcond with h | h; exact h; omega
    subst hz
    have hg0 : g = 0 := hg
    subst hg0
    rw [if_pos (by rw [compare_lt_iff_lt]; exact hlt)]
    simp only [ne_eq, not_true_eq_false, decide_false, Bool.toNat_false]
    obtain ⟨r, h1, h2, h3, h4⟩ := sub_ok_fit hb ha hl.symm (c := 0) (by omega) (by omega)
    rw [h1]
    refine ⟨⟨r, e, !s, .exactlyZero⟩, by simp [Sig.invertLoss], by simp [h2, hl], h3, rfl, ⟨0, rfl, ?_⟩, by simp, by omega⟩
    simp only [h4]
    rw [Nat.sub_zero, Nat.cast_sub hlt.le]
    cases s <;> simp [signed]
  · rw [if_neg (by rw [compare_lt_iff_lt]; exact hlt)]
    by_cases hz : loss = .exactlyZero
    · subst hz
      have hg0 : g = 0 := hg
      subst hg0
      simp only [ne_eq, not_true_eq_false, decide_false, Bool.toNat_false]
      obtain ⟨r, h1, h2, h3, h4⟩ := sub_ok_fit ha hb hl (c := 0) (by omega) (by omega)
      rw [h1]
      refine ⟨⟨r, e, s, .exactlyZero⟩, by simp [Sig.invertLoss], h2, h3, rfl, ⟨0, rfl, ?_⟩, by simp, fun _ => rfl⟩
      simp only [h4]
      rw [Nat.sub_zero, Nat.cast_sub (by omega)]
      simp
    · have hgt : val b < val a := by tauto
      simp only [ne_eq, hz, not_false_iff, decide_true, Bool.toNat_true]
      obtain ⟨r, h1, h2, h3, h4⟩ := sub_ok_fit ha hb hl (c := 1) (by omega) (by omega)
      rw [h1]
      refine ⟨⟨r, e, s, Sig.invertLoss loss⟩, by simp, h2, h3, rfl, ⟨1 - g, lossIs_invert hg hz, ?_⟩,
        fun _ => by simp only [h4]; omega, fun _ => rfl⟩
      simp only [h4]
      rw [Nat.cast_sub (by omega), Nat.cast_sub (by omega)]
      congr 1
      push_cast; ring

/-- Swapped form: the fraction is on the minuend `a`, which must then be the smaller one. -/
theorem subStep_ok' {a b : List Nat} {e : Int} {s : Bool} {loss : Loss} {g : ℚ} (ha : Limbs a) (hb : Limbs b)
    (hl : a.length = b.length) (hg : LossIs loss g) (hcond : loss = .exactlyZero ∨ val a < val b) :
    ∃ o : Sig.AddOrSubOut, (do
      let c ← Sig.cmp a b
      if c = .lt then do
        let (r, o) ← Sig.sub b a (decide (loss ≠ .exactlyZero)).toNat
        massert (o = 0)
        .ok ⟨r, e, !s, Sig.invertLoss loss⟩
      else do
        let (r, o) ← Sig.sub a b (decide (loss ≠ .exactlyZero)).toNat
        massert (o = 0)
        .ok ⟨r, e, s, Sig.invertLoss loss⟩ : M Sig.AddOrSubOut) = .ok o ∧
      o.sig.length = a.length ∧ Limbs o.sig ∧ o.exp = e ∧
      (∃ f, LossIs o.loss f ∧ signed o.sign ((val o.sig : ℚ) + f) = signed s ((val a : ℚ) + g - val b)) ∧
      (o.loss ≠ .exactlyZero → val b = val o.sig + val a + 1) := by
  by_cases hz : loss = .exactlyZero
  · subst hz
    have hg0 : g = 0 := hg
    subst hg0
    obtain ⟨o, h1, h2, h3, h4, ⟨f, h5, h6⟩, h7, -⟩ := subStep_ok (e := e) (s := s) ha hb hl hg (Or.inl rfl)
    refine ⟨o, h1, h2, h3, h4, ⟨f, h5, ?_⟩, ?_⟩
    · rw [h6]; simp
    · intro hne
      exfalso
      apply hne
      -- the loss of the result is the inverted (zero) loss
      have : o.loss = .exactlyZero := by
        rw [cmp_ok ha hb hl, M.ok_bind] at h1
        split_ifs at h1 with hc
        · cases hr : Sig.sub b a (decide (Loss.exactlyZero ≠ .exactlyZero)).toNat with
          | error e => rw [hr] at h1; simp [M.error_bind] at h1
          | ok p =>
            rw [hr] at h1
            obtain ⟨r, c⟩ := p
            simp only [M.ok_bind] at h1
            by_cases hcz : c = 0
            · rw [massert_pos hcz, M.ok_bind] at h1
              cases h1; rfl
            · unfold massert at h1; rw [if_neg hcz, M.error_bind] at h1; cases h1
        · cases hr : Sig.sub a b (decide (Loss.exactlyZero ≠ .exactlyZero)).toNat with
          | error e => rw [hr] at h1; simp [M.error_bind] at h1
          | ok p =>
            rw [hr] at h1
            obtain ⟨r, c⟩ := p
            simp only [M.ok_bind] at h1
            by_cases hcz : c = 0
            · rw [massert_pos hcz, M.ok_bind] at h1
              cases h1; rfl
            · unfold massert at h1; rw [if_neg hcz, M.error_bind] at h1; cases h1
      exact this
  · have hlt : val a < val b := by tauto
    rw [cmp_ok ha hb hl, M.ok_bind, if_pos (by rw [compare_lt_iff_lt]; exact hlt)]
    simp only [ne_eq, hz, not_false_iff, decide_true, Bool.toNat_true]
    obtain ⟨r, h1, h2, h3, h4⟩ := sub_ok_fit hb ha hl.symm (c := 1) (by omega) (by omega)
    rw [h1]
    refine ⟨⟨r, e, !s, Sig.invertLoss loss⟩, by simp, by simp [h2, hl], h3, rfl, ⟨1 - g, lossIs_invert hg hz, ?_⟩,
      fun _ => by simp only [h4]; omega⟩
    simp only [h4]
    rw [Nat.cast_sub (by omega), Nat.cast_sub (by omega)]
    cases s <;> simp [signed] <;> ring

/-- What `add_or_sub` returns. -/
theorem addOrSub_ok {a b : List Nat} {ea eb : Int} {sa sb : Bool} (ha : Limbs a) (hb : Limbs b) (hl : a.length = b.length)
    (hga : 2 * val a < 2 ^ (128 * a.length)) (hgb : 2 * val b < 2 ^ (128 * a.length))
    (h1 : -1000000 ≤ ea) (h2 : ea ≤ 1000000) (h3 : -1000000 ≤ eb) (h4 : eb ≤ 1000000)
    (hab : sa ≠ sb → eb + 1 < ea → val b % 2 ^ (ea - eb - 1).toNat = 0 ∨ val b / 2 ^ (ea - eb - 1).toNat < 2 * val a)
    (hba : sa ≠ sb → ea + 1 < eb → val a % 2 ^ (eb - ea - 1).toNat = 0 ∨ val a / 2 ^ (eb - ea - 1).toNat < 2 * val b) :
    ∃ o, Sig.addOrSub a ea sa b eb sb = .ok o ∧ o.sig.length = a.length ∧ Limbs o.sig ∧
      min ea eb - 1 ≤ o.exp ∧ o.exp ≤ max ea eb ∧
      (∃ f, LossIs o.loss f ∧
        signed o.sign (((val o.sig : ℚ) + f) * 2 ^ o.exp) = signed sa ((val a : ℚ) * 2 ^ ea) + signed sb ((val b : ℚ) * 2 ^ eb)) ∧
      (o.loss ≠ .exactlyZero → ∃ big small : Nat,
        ((big = val a ∧ small = val b ∧ eb < ea) ∨ (big = val b ∧ small = val a ∧ ea < eb)) ∧
        (sa = sb → big ≤ val o.sig) ∧ (sa ≠ sb → 2 * big ≤ val o.sig + small / 2 + 1)) ∧
      (sa = sb → o.sign = sa) ∧ (sa ≠ sb → ea ≠ eb → o.exp = max ea eb - 1) := by
  unfold Sig.addOrSub
  rw [i32_ok (by omega) (by omega), M.ok_bind]
  have divq : ∀ (n k : Nat), (n : ℚ) = 2 ^ k * (((n / 2 ^ k : ℕ) : ℚ) + ((n % 2 ^ k : ℕ) : ℚ) / 2 ^ k) := by
    intro n k
    have h : (n : ℚ) = 2 ^ k * ((n / 2 ^ k : ℕ) : ℚ) + ((n % 2 ^ k : ℕ) : ℚ) := by
      exact_mod_cast (Nat.div_add_mod n (2 ^ k)).symm
    have h0 : (2 : ℚ) ^ k ≠ 0 := by positivity
    rw [mul_add, mul_div_cancel₀ _ h0]
    exact h
  have lossq : ∀ (n k : Nat), LossIs (lossOf (n % 2 ^ k) (2 ^ k)) (((n % 2 ^ k : ℕ) : ℚ) / 2 ^ k) := by
    intro n k
    have := lossIs_lossOf (Nat.mod_lt n (show 0 < 2 ^ k by positivity))
    push_cast at this ⊢
    exact this
  have divle : ∀ n k : Nat, n / 2 ^ k ≤ n := fun n k => Nat.div_le_self _ _
  by_cases hs : sa = sb
  · subst hs
    simp only [Bool.xor_self, Bool.false_eq_true, if_false]
    by_cases hbits : ea - eb > 0
    · rw [if_pos hbits]
      obtain ⟨k, hk⟩ : ∃ k : ℕ, ea - eb = k := ⟨(ea - eb).toNat, by omega⟩
      rw [hk, Int.toNat_natCast]
      obtain ⟨r, r1, r2, r3, r4⟩ := shiftRight_ok hb (exp := 0) (bits := k) (by omega) (by omega) (by omega)
      have := divle (val b) k
      obtain ⟨q, q1, q2, q3, q4⟩ := add_ok_fit ha r3 (by omega) (by rw [r4]; omega)
      rw [r1, M.ok_bind]
      simp only []
      rw [q1, M.ok_bind]
      simp only [massert_true, M.ok_bind]
      refine ⟨_, rfl, q2, q3, by simp only []; omega, by simp, ⟨_, lossq (val b) k, ?_⟩, ?_, fun _ => rfl, fun h => absurd rfl h⟩
      · simp only [q4, r4]
        have e1 : (2 : ℚ) ^ ea = 2 ^ k * 2 ^ eb := by
          rw [show ea = (k : ℤ) + eb by omega, two_zpow_add, zpow_natCast]
        have e2 := divq (val b) k
        have : ((((val a + val b / 2 ^ k : ℕ) : ℚ) + ((val b % 2 ^ k : ℕ) : ℚ) / 2 ^ k) * 2 ^ ea) =
            (val a : ℚ) * 2 ^ ea + (val b : ℚ) * 2 ^ eb := by
          rw [Nat.cast_add]
          conv_rhs => rw [e2]
          rw [e1]; ring
        rw [this]
        cases sa <;> simp [signed]; ring
      · intro _
        refine ⟨val a, val b, Or.inl ⟨rfl, rfl, by omega⟩, fun _ => by simp only [q4]; omega, fun h => absurd rfl h⟩
    · rw [if_neg hbits]
      obtain ⟨k, hk⟩ : ∃ k : ℕ, -(ea - eb) = k := ⟨(-(ea - eb)).toNat, by omega⟩
      rw [hk, Int.toNat_natCast]
      obtain ⟨r, r1, r2, r3, r4⟩ := shiftRight_ok ha (exp := ea) (bits := k) (by omega) (by omega) (by omega)
      have := divle (val a) k
      obtain ⟨q, q1, q2, q3, q4⟩ := add_ok_fit r3 hb (by omega) (by rw [r4, r2]; omega)
      rw [r1, M.ok_bind]
      simp only []
      rw [q1, M.ok_bind]
      simp only [massert_true, M.ok_bind]
      refine ⟨_, rfl, by simp [q2, r2], q3, by simp; omega, by simp; omega, ⟨_, lossq (val a) k, ?_⟩, ?_, fun _ => rfl, fun h => absurd rfl h⟩
      · simp only [q4, r4]
        rw [show ea + (k : ℤ) = eb by omega]
        have e1 : (2 : ℚ) ^ eb = 2 ^ k * 2 ^ ea := by
          rw [show eb = (k : ℤ) + ea by omega, two_zpow_add, zpow_natCast]
        have e2 := divq (val a) k
        have : ((((val a / 2 ^ k + val b : ℕ) : ℚ) + ((val a % 2 ^ k : ℕ) : ℚ) / 2 ^ k) * 2 ^ eb) =
            (val a : ℚ) * 2 ^ ea + (val b : ℚ) * 2 ^ eb := by
          rw [Nat.cast_add]
          conv_rhs => rw [e2]
          rw [e1]; ring
        rw [this]
        cases sa <;> simp [signed]; ring
      · intro hne
        have : 0 < k := by
          rcases Nat.eq_zero_or_pos k with h | h
          · subst h; simp [lossOf, Nat.mod_one] at hne
          · exact h
        refine ⟨val b, val a, Or.inr ⟨rfl, rfl, by omega⟩, fun _ => by simp only [q4]; omega, fun h => absurd rfl h⟩
  · have hx : (sa ^^ sb) = true := by cases sa <;> cases sb <;> simp_all
    rw [if_pos hx]
    have hsb : ∀ t : ℚ, signed sb t = -signed sa t := by
      intro t; cases sa <;> cases sb <;> simp_all [signed]
    have hab' := hab hs
    have hba' := hba hs
    unfold Sig.subAlign
    rcases lt_trichotomy (ea - eb) 0 with hbits | hbits | hbits
    · rw [if_neg (by omega), if_neg (by omega)]
      obtain ⟨k, hk⟩ : ∃ k : ℕ, -(ea - eb) - 1 = k := ⟨(-(ea - eb) - 1).toNat, by omega⟩
      rw [hk, Int.toNat_natCast]
      obtain ⟨r, r1, r2, r3, r4⟩ := shiftRight_ok ha (exp := ea) (bits := k) (by omega) (by omega) (by omega)
      obtain ⟨t, t1, t2, t3, t4⟩ := shiftLeft_ok hb (exp := 0) (bits := 1) (by omega) (by omega) (by omega)
      rw [pow_one, ← hl, Nat.mod_eq_of_lt (by omega)] at t4
      rw [r1, M.ok_bind]
      simp only []
      rw [t1, M.ok_bind]
      simp only [M.ok_bind]
      have hcond : lossOf (val a % 2 ^ k) (2 ^ k) = .exactlyZero ∨ val r < val t := by
        rcases Nat.eq_zero_or_pos k with h | h
        · subst h; left; simp [lossOf, Nat.mod_one]
        · have := hba' (by omega)
          rw [show (eb - ea - 1).toNat = k by omega] at this
          rcases this with h | h
          · left; simp [lossOf, h]
          · right; rw [r4, t4]; omega
      obtain ⟨o, o1, o2, o3, o4, ⟨f, o5, o6⟩, o7⟩ := subStep_ok' (e := ea + k) (s := sa) r3 t3 (by omega) (lossq (val a) k) hcond
      refine ⟨o, o1, by omega, o3, by rw [o4]; omega, by rw [o4]; omega, ⟨f, o5, ?_⟩, ?_, fun h => absurd h hs, fun _ _ => by rw [o4]; omega⟩
      · have : signed o.sign (((val o.sig : ℚ) + f) * 2 ^ o.exp) = signed o.sign ((val o.sig : ℚ) + f) * 2 ^ o.exp := signed_mul _ _ _
        rw [this, o6, o4, hsb, r4, t4]
        have e1 : (2 : ℚ) ^ (ea + k) = 2 ^ k * 2 ^ ea := by rw [add_comm, two_zpow_add, zpow_natCast]
        have e3 : (2 : ℚ) ^ eb = 2 * 2 ^ (ea + k) := by
          rw [show eb = 1 + (ea + k) by omega, two_zpow_add 1]; norm_num
        have e2 := divq (val a) k
        have e4 : (val a : ℚ) * 2 ^ ea = (((val a / 2 ^ k : ℕ) : ℚ) + ((val a % 2 ^ k : ℕ) : ℚ) / 2 ^ k) * 2 ^ (ea + k) := by
          conv_lhs => rw [e2]
          rw [e1]; ring
        rw [e3, e4]
        cases sa <;> simp [signed] <;> ring
      · intro hne
        have o7' := o7 hne
        have hkpos : 0 < k := by
          rcases Nat.eq_zero_or_pos k with h | h
          · exfalso
            subst h
            have hf : f = 0 ∨ f ≠ 0 := em _
            -- no fraction was lost
            have q6 := o6
            simp only [pow_zero, Nat.mod_one, Nat.cast_zero, zero_div, add_zero] at q6
            have fpos := o5.pos hne
            have flt := o5.lt_one
            have : ((val o.sig : ℚ) + f) = |((val r : ℚ) - val t)| := by
              have := congrArg abs q6
              rw [abs_signed _ (by positivity)] at this
              rw [this]
              cases sa <;> simp [signed, abs_sub_comm]
            have i1 : ((val t : ℤ) - val r : ℤ) = val o.sig + 1 := by omega
            have i2 : |((val r : ℚ) - val t)| = (val o.sig : ℚ) + 1 := by
              rw [abs_sub_comm]
              have : ((val t : ℚ) - val r) = (val o.sig : ℚ) + 1 := by exact_mod_cast i1
              rw [this, abs_of_nonneg (by positivity)]
            linarith
          · exact h
        refine ⟨val b, val a, Or.inr ⟨rfl, rfl, by omega⟩, fun h => absurd h hs, fun _ => ?_⟩
        rw [t4, r4] at o7'
        have : val a / 2 ^ k ≤ val a / 2 := Nat.div_le_div_left (by
          calc 2 = 2 ^ 1 := by norm_num
            _ ≤ 2 ^ k := Nat.pow_le_pow_right (by norm_num) hkpos) (by norm_num)
        omega
    · rw [if_pos hbits]
      simp only [M.ok_bind]
      have he : ea = eb := by omega
      subst he
      obtain ⟨o, o1, o2, o3, o4, ⟨f, o5, o6⟩, o7, o8⟩ := subStep_ok (e := ea) (s := sa) (loss := .exactlyZero) (g := 0) ha hb hl rfl (Or.inl rfl)
      refine ⟨o, o1, o2, o3, by rw [o4]; omega, by rw [o4]; omega, ⟨f, o5, ?_⟩, ?_, fun h => absurd h hs, fun _ h => absurd rfl h⟩
      · have : signed o.sign (((val o.sig : ℚ) + f) * 2 ^ o.exp) = signed o.sign ((val o.sig : ℚ) + f) * 2 ^ o.exp := signed_mul _ _ _
        rw [this, o6, o4, hsb]
        cases sa <;> simp [signed] <;> ring
      · intro hne
        exfalso
        have o7' := o7 hne
        have fpos := o5.pos hne
        have flt := o5.lt_one
        have i1 : ((val a : ℚ)) = val o.sig + val b + 1 := by exact_mod_cast o7'
        have := congrArg abs o6
        rw [abs_signed _ (by positivity)] at this
        have h5 : |signed sa ((val a : ℚ) - (val b + 0))| = (val o.sig : ℚ) + 1 := by
          rw [show ((val a : ℚ) - (val b + 0)) = (val o.sig : ℚ) + 1 by rw [i1]; ring, abs_signed _ (by positivity)]
        linarith
    · rw [if_neg (by omega), if_pos hbits]
      obtain ⟨k, hk⟩ : ∃ k : ℕ, ea - eb - 1 = k := ⟨(ea - eb - 1).toNat, by omega⟩
      rw [hk, Int.toNat_natCast]
      obtain ⟨r, r1, r2, r3, r4⟩ := shiftRight_ok hb (exp := 0) (bits := k) (by omega) (by omega) (by omega)
      obtain ⟨t, t1, t2, t3, t4⟩ := shiftLeft_ok ha (exp := ea) (bits := 1) (by omega) (by omega) (by omega)
      rw [pow_one, Nat.mod_eq_of_lt (by omega)] at t4
      rw [r1, M.ok_bind]
      simp only []
      rw [t1, M.ok_bind]
      simp only [M.ok_bind]
      have hcond : lossOf (val b % 2 ^ k) (2 ^ k) = .exactlyZero ∨ val r < val t := by
        rcases Nat.eq_zero_or_pos k with h | h
        · subst h; left; simp [lossOf, Nat.mod_one]
        · have := hab' (by omega)
          rw [hk, Int.toNat_natCast] at this
          rcases this with h | h
          · left; simp [lossOf, h]
          · right; rw [r4, t4]; omega
      obtain ⟨o, o1, o2, o3, o4, ⟨f, o5, o6⟩, o7, o8⟩ := subStep_ok (e := ea - ((1 : ℕ) : ℤ)) (s := sa) t3 r3 (by omega) (lossq (val b) k) hcond
      refine ⟨o, o1, by omega, o3, by rw [o4]; omega, by rw [o4]; omega, ⟨f, o5, ?_⟩, ?_, fun h => absurd h hs, fun _ _ => by rw [o4]; omega⟩
      · have : signed o.sign (((val o.sig : ℚ) + f) * 2 ^ o.exp) = signed o.sign ((val o.sig : ℚ) + f) * 2 ^ o.exp := signed_mul _ _ _
        rw [this, o6, o4, hsb, r4, t4]
        have e1 : (2 : ℚ) ^ (ea - ((1 : ℕ) : ℤ)) = 2 ^ k * 2 ^ eb := by
          rw [show ea - ((1 : ℕ) : ℤ) = (k : ℤ) + eb by omega, two_zpow_add, zpow_natCast]
        have e3 : (2 : ℚ) ^ ea = 2 * 2 ^ (ea - ((1 : ℕ) : ℤ)) := by
          conv_lhs => rw [show ea = 1 + (ea - ((1 : ℕ) : ℤ)) by omega, two_zpow_add 1]
          norm_num
        have e2 := divq (val b) k
        have e4 : (val b : ℚ) * 2 ^ eb = (((val b / 2 ^ k : ℕ) : ℚ) + ((val b % 2 ^ k : ℕ) : ℚ) / 2 ^ k) * 2 ^ (ea - ((1 : ℕ) : ℤ)) := by
          conv_lhs => rw [e2]
          rw [e1]; ring
        rw [e3, e4]
        cases sa <;> simp [signed] <;> ring
      · intro hne
        have o7' := o7 hne
        have hkpos : 0 < k := by
          rcases Nat.eq_zero_or_pos k with h | h
          · exfalso
            subst h
            have q6 := o6
            simp only [pow_zero, Nat.mod_one, Nat.cast_zero, zero_div, add_zero] at q6
            have fpos := o5.pos hne
            have flt := o5.lt_one
            have i1 : ((val t : ℚ)) = val o.sig + val r + 1 := by exact_mod_cast o7'
            have := congrArg abs q6
            rw [abs_signed _ (by positivity)] at this
            have h5 : |signed sa ((val t : ℚ) - val r)| = (val o.sig : ℚ) + 1 := by
              rw [show ((val t : ℚ) - val r) = (val o.sig : ℚ) + 1 by rw [i1]; ring, abs_signed _ (by positivity)]
            linarith
          · exact h
        refine ⟨val a, val b, Or.inl ⟨rfl, rfl, by omega⟩, fun h => absurd h hs, fun _ => ?_⟩
        rw [t4, r4] at o7'
        have : val b / 2 ^ k ≤ val b / 2 := Nat.div_le_div_left (by
          calc 2 = 2 ^ 1 := by norm_num
            _ ≤ 2 ^ k := Nat.pow_le_pow_right (by norm_num) hkpos) (by norm_num)
        omega

end Apf
