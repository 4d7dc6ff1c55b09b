import Verif.Proof.Fma
import Verif.Proof.Special
/-! # Totality: nothing but an assertion can stop a fused multiply-add

The operands for which `add_or_sub` and `normalize` are called outside their preconditions (the known defect of `mul_add_r`) lead
either to a failed debug assertion or to a well-formed value. -/

namespace Apf
open Spec IeeeFloat

variable {S : Sem}

/-- A computation that stops at an assertion, or returns a value satisfying `P`. -/
def AssertOr {α : Type} (P : α → Prop) (m : M α) : Prop := m = .error .assert ∨ ∃ a, m = .ok a ∧ P a

theorem AssertOr.bind {α β : Type} {P : α → Prop} {Q : β → Prop} {m : M α} {f : α → M β} (h : AssertOr P m)
    (hf : ∀ a, P a → AssertOr Q (f a)) : AssertOr Q (bind m f) := by
  rcases h with rfl | ⟨a, rfl, ha⟩
  · exact Or.inl rfl
  · exact hf a ha

theorem subStep_total {a b : List Nat} {e : Int} {s : Bool} {loss : Loss} (ha : Limbs a) (hb : Limbs b) (hl : a.length = b.length) :
    AssertOr (fun o : Sig.AddOrSubOut => o.sig.length = a.length ∧ Limbs o.sig ∧ o.exp = e) (do
      let c ← Sig.cmp a b
      if c = .lt then do
        let (r, o) ← Sig.sub b a (decide (loss ≠ .exactlyZero)).toNat
        massert (o = 0)
        .ok ⟨r, e, !s, Sig.invertLoss loss⟩
      else do
        let (r, o) ← Sig.sub a b (decide (loss ≠ .exactlyZero)).toNat
        massert (o = 0)
        .ok ⟨r, e, s, Sig.invertLoss loss⟩ : M Sig.AddOrSubOut) := by
  rw [cmp_ok ha hb hl, M.ok_bind]
  split
  · obtain ⟨r, c, h1, h2, h3, h4, h5⟩ := sub_ok hb ha hl.symm (c := (decide (loss ≠ .exactlyZero)).toNat) (Bool.toNat_le _)
    rw [h1, M.ok_bind]
    dsimp only
    by_cases hc : c = 0
    · rw [massert_pos hc, M.ok_bind]
      exact Or.inr ⟨_, rfl, by dsimp only; omega, h3, rfl⟩
    · left
      unfold massert
      rw [if_neg hc]
      rfl
  · obtain ⟨r, c, h1, h2, h3, h4, h5⟩ := sub_ok ha hb hl (c := (decide (loss ≠ .exactlyZero)).toNat) (Bool.toNat_le _)
    rw [h1, M.ok_bind]
    dsimp only
    by_cases hc : c = 0
    · rw [massert_pos hc, M.ok_bind]
      exact Or.inr ⟨_, rfl, by dsimp only; omega, h3, rfl⟩
    · left
      unfold massert
      rw [if_neg hc]
      rfl

theorem addOrSub_total {a b : List Nat} {ea eb : Int} {sa sb : Bool} (ha : Limbs a) (hb : Limbs b) (hl : a.length = b.length)
    (hga : 2 * val a < 2 ^ (128 * a.length)) (hgb : 2 * val b < 2 ^ (128 * a.length))
    (h1 : -1000000 ≤ ea) (h2 : ea ≤ 1000000) (h3 : -1000000 ≤ eb) (h4 : eb ≤ 1000000) :
    AssertOr (fun o : Sig.AddOrSubOut => o.sig.length = a.length ∧ Limbs o.sig ∧ -1000001 ≤ o.exp ∧ o.exp ≤ 1000000)
      (Sig.addOrSub a ea sa b eb sb) := by
  by_cases hs : sa = sb
  · obtain ⟨o, o1, o2, o3, o4, o5, -⟩ := addOrSub_ok (sa := sa) (sb := sb) ha hb hl hga hgb h1 h2 h3 h4 (fun h => absurd hs h)
      (fun h => absurd hs h)
    exact Or.inr ⟨o, o1, o2, o3, by omega, by omega⟩
  have hx : (sa ^^ sb) = true := by cases sa <;> cases sb <;> simp_all
  unfold Sig.addOrSub
  rw [i32_ok (by omega) (by omega), M.ok_bind, if_pos hx]
  unfold Sig.subAlign
  rcases lt_trichotomy (ea - eb) 0 with hbits | hbits | hbits
  · rw [if_neg (by omega), if_neg (by omega)]
    obtain ⟨k, hk⟩ : ∃ k : ℕ, -(ea - eb) - 1 = k := ⟨(-(ea - eb) - 1).toNat, by omega⟩
    rw [hk, Int.toNat_natCast]
    obtain ⟨r, r1, r2, r3, r4⟩ := shiftRight_ok ha (exp := ea) (bits := k) (by omega) (by omega) (by omega)
    obtain ⟨t, t1, t2, t3, t4⟩ := shiftLeft_ok hb (exp := 0) (bits := 1) (by omega) (by omega) (by omega)
    rw [r1, M.ok_bind]
    dsimp only
    rw [t1, M.ok_bind]
    dsimp only
    rw [M.ok_bind]
    dsimp only
    rcases subStep_total (e := ea + k) (s := sa) (loss := lossOf (val a % 2 ^ k) (2 ^ k)) r3 t3 (by omega) with h | ⟨o, o1, o2, o3, o4⟩
    · exact Or.inl h
    · exact Or.inr ⟨o, o1, by omega, o3, by omega, by omega⟩
  · rw [if_pos hbits, M.ok_bind]
    dsimp only
    rcases subStep_total (e := ea) (s := sa) (loss := .exactlyZero) ha hb hl with h | ⟨o, o1, o2, o3, o4⟩
    · exact Or.inl h
    · exact Or.inr ⟨o, o1, by omega, o3, by omega, by omega⟩
  · rw [if_neg (by omega), if_pos hbits]
    obtain ⟨k, hk⟩ : ∃ k : ℕ, ea - eb - 1 = k := ⟨(ea - eb - 1).toNat, by omega⟩
    rw [hk, Int.toNat_natCast]
    obtain ⟨r, r1, r2, r3, r4⟩ := shiftRight_ok hb (exp := 0) (bits := k) (by omega) (by omega) (by omega)
    obtain ⟨t, t1, t2, t3, t4⟩ := shiftLeft_ok ha (exp := ea) (bits := 1) (by omega) (by omega) (by omega)
    rw [r1, M.ok_bind]
    dsimp only
    rw [t1, M.ok_bind]
    dsimp only
    rw [M.ok_bind]
    dsimp only
    rcases subStep_total (e := ea - ((1 : ℕ) : ℤ)) (s := sa) (loss := lossOf (val b % 2 ^ k) (2 ^ k)) t3 r3 (by omega) with h | ⟨o, o1, o2, o3, o4⟩
    · exact Or.inl h
    · exact Or.inr ⟨o, o1, by omega, o3, by omega, by omega⟩

theorem exists_lossIs (l : Loss) : ∃ f, LossIs l f := by
  cases l
  · exact ⟨0, rfl⟩
  · exact ⟨1 / 4, by norm_num [LossIs]⟩
  · exact ⟨1 / 2, by norm_num [LossIs]⟩
  · exact ⟨3 / 4, by norm_num [LossIs]⟩

theorem normalize_total (h : S.OK) {x : IeeeFloat S} (hcat : x.category = .normal) (mode : Round) (loss : Loss)
    (hs : x.sig < 2 ^ 128) (he1 : -1200000000 ≤ x.exp) (he2 : x.exp ≤ 1200000000) :
    AssertOr (fun r : StatusAnd (IeeeFloat S) => r.value.Valid) (x.normalize mode loss) := by
  have hpl := h.p_le; have hpg := h.p_ge
  have hmin := h.min_lt; have hmin' := h.min_ge; have hmax := h.max_le
  obtain ⟨f, hf⟩ := exists_lossIs loss
  by_cases hc : loss ≠ .exactlyZero → x.sig ≠ 0 → S.precision ≤ Nat.size x.sig ∨ x.exp ≤ S.minExp
  · obtain ⟨om, hO⟩ := exists_effective S mode (signed x.sign (((x.sig : ℚ) + f) *
      2 ^ ((if x.sig = 0 then S.minExp else x.exp) - S.precision + 1)))
    obtain ⟨r, r1, r2, -⟩ := normalize_eff' h hcat hs he1 he2 hf hc rfl hO
    exact Or.inr ⟨r, r1, r2⟩
  · push Not at hc
    obtain ⟨hl, h0, c1, c2⟩ := hc
    unfold normalize
    have hfin : x.isFiniteNonZero = true := by simp [isFiniteNonZero, isFinite, isNan, isInfinite, isZero, hcat]
    have hsz : 0 < Nat.size x.sig := Nat.size_pos.2 (Nat.pos_of_ne_zero h0)
    have hos : Sig.omsb [x.sig] = Nat.size x.sig := by
      rw [omsb_eq (Limbs.one hs)]; simp
    simp only [hfin, Bool.not_true, Bool.false_eq_true, if_false, hos]
    rw [if_pos hsz, asI32_of_lt (by omega), asI32_of_lt (by omega)]
    have hsat : sat32 (x.exp + (((Nat.size x.sig : ℕ) : ℤ) - ((S.precision : ℕ) : ℤ))) = x.exp + (((Nat.size x.sig : ℕ) : ℤ) - ((S.precision : ℕ) : ℤ)) := by
      unfold sat32; omega
    rw [hsat]
    by_cases hov : x.exp + (((Nat.size x.sig : ℕ) : ℤ) - ((S.precision : ℕ) : ℤ)) > S.maxExp
    · rw [if_pos hov]
      refine Or.inr ⟨_, rfl, ?_⟩
      simp only [StatusAnd.map]
      unfold overflowResult
      rw [copySign_eq, valid_sign]
      split <;> first | exact infinity_valid h | exact largest_valid h
    · rw [if_neg hov]
      left
      rw [if_pos (by split_ifs <;> omega)]
      unfold massert
      rw [if_neg hl]
      rfl

theorem fmaFinish_total (h : S.OK) {x : IeeeFloat S} (cx : x.category = .normal) {mid : FmaMid} (mode : Round)
    (m1 : Limbs mid.wide) (m2 : mid.wide.length = 2) (m3 : mid.omsb = Nat.size (val mid.wide))
    (e1 : -2000000 ≤ mid.exp) (e2 : mid.exp ≤ 2000000) :
    AssertOr (fun r : StatusAnd (IeeeFloat S) => r.value.Valid) (fmaFinish x mid mode) := by
  have hpl := h.p_le; have hpg := h.p_ge; have h4 := h.pow_le
  have hmin := h.min_lt; have hmin' := h.min_ge
  unfold fmaFinish
  have hw := val_lt m1
  rw [m2] at hw
  rw [asI32_of_lt (by omega), i32_ok (by omega) (by omega), M.ok_bind, i32_ok (by omega) (by omega), M.ok_bind]
  generalize hN : val mid.wide = N at *
  have hsz : Nat.size N ≤ 256 := Nat.size_le.2 (by omega)
  have fin : ∀ (s : Nat) (e : Int) (loss : Loss), s < 2 ^ 128 → -10000000 ≤ e → e ≤ 10000000 →
      AssertOr (fun r : StatusAnd (IeeeFloat S) => r.value.Valid) (do
        let r ← ({ x with sig := s, exp := e } : IeeeFloat S).normalize mode loss
        .ok (orInexact r loss)) := by
    intro s e loss hs he1 he2
    refine (normalize_total h (x := { x with sig := s, exp := e }) cx mode loss hs (by simp only []; omega) (by simp only []; omega)).bind ?_
    intro r hr
    refine Or.inr ⟨_, rfl, ?_⟩
    unfold orInexact
    split_ifs <;> exact hr
  by_cases hc : mid.omsb > S.precision
  · rw [if_pos hc]
    obtain ⟨k, hk⟩ : ∃ k, mid.omsb - S.precision = k := ⟨_, rfl⟩
    obtain ⟨r, r1, r2, r3, r4⟩ := shiftRight_ok m1 (exp := mid.exp - (S.precision + 1)) (bits := mid.omsb - S.precision) (by omega)
      (by omega) (by omega)
    rw [hN, hk] at r4 r1
    rw [hk]
    have hsq : Nat.size (N / 2 ^ k) = S.precision := by rw [size_div]; omega
    have hqlt : N / 2 ^ k < 2 ^ S.precision := Nat.size_le.1 hsq.le
    rw [r1, M.ok_bind]
    dsimp only
    rw [M.ok_bind]
    dsimp only
    rw [idx_two_zero r3 (by omega) (by rw [r4]; omega), M.ok_bind, r4]
    exact fin _ _ _ (by omega) (by omega) (by omega)
  · rw [if_neg hc, M.ok_bind]
    dsimp only
    have hsN : Nat.size N ≤ S.precision := by omega
    have hNlt : N < 2 ^ S.precision := Nat.size_le.1 hsN
    rw [idx_two_zero m1 m2 (by rw [hN]; omega), M.ok_bind, hN]
    exact fin _ _ _ (by omega) (by omega) (by omega)

theorem fmaAddend_total (h : S.OK) {wide : List Nat} {E : ℤ} {s : Bool} {z : IeeeFloat S} (hw : Limbs wide) (hw2 : wide.length = 2)
    (hN2 : val wide < 2 ^ (2 * S.precision)) (hE1 : -100000 ≤ E) (hE2 : E ≤ 100000)
    (hz : z.Valid) (cz : z.category = .normal) :
    AssertOr (fun mid : FmaMid => Limbs mid.wide ∧ mid.wide.length = 2 ∧ mid.omsb = Nat.size (val mid.wide) ∧
      -2000000 ≤ mid.exp ∧ mid.exp ≤ 2000000) (fmaAddend S wide E s (Nat.size (val wide)) z) := by
  have hpl := h.p_le; have hpg := h.p_ge; have h4 := h.pow_le
  have hmin := h.min_lt; have hmin' := h.min_ge; have hmax := h.max_le; have h2 := h.two_pow
  obtain ⟨v1, v2, v3, v4, v5, v6⟩ := hz.normal cz
  have p2b : 2 ^ (2 * S.precision) = 2 ^ S.precision * 2 ^ S.precision := by rw [two_mul, pow_add]
  have p2d : 2 ^ (2 * S.precision) ≤ 2 ^ 252 := Nat.pow_le_pow_right (by norm_num) (by omega)
  have szN : Nat.size (val wide) ≤ 2 * S.precision := Nat.size_le.2 hN2
  obtain ⟨k, hk⟩ : ∃ k, 2 * S.precision - Nat.size (val wide) = k := ⟨_, rfl⟩
  have hfit : val wide * 2 ^ k < 2 ^ (2 * S.precision) := by
    have : val wide * 2 ^ k < 2 ^ Nat.size (val wide) * 2 ^ k := by
      exact Nat.mul_lt_mul_of_pos_right (Nat.lt_size_self _) (by positivity)
    rw [← pow_add, show Nat.size (val wide) + k = 2 * S.precision by omega] at this
    exact this
  have shifted : ∃ w, (if Nat.size (val wide) ≠ 2 * S.precision + 1 - 1 then do
        massert (2 * S.precision + 1 > Nat.size (val wide))
        let k ← usub (2 * S.precision + 1 - 1) (Nat.size (val wide))
        Sig.shiftLeft wide E k
      else .ok (wide, E) : M (List Nat × Int)) = .ok (w, E - k) ∧ Limbs w ∧ w.length = 2 ∧ val w = val wide * 2 ^ k := by
    by_cases hc : Nat.size (val wide) ≠ 2 * S.precision + 1 - 1
    · rw [if_pos hc, massert_pos (by omega), M.ok_bind]
      unfold usub
      rw [if_pos (by omega), M.ok_bind]
      obtain ⟨r, r1, r2, r3, r4⟩ := shiftLeft_ok hw (exp := E) (bits := k) (by omega) (by omega) (by omega)
      rw [show 2 * S.precision + 1 - 1 - Nat.size (val wide) = k by omega]
      refine ⟨r, r1, r3, by omega, ?_⟩
      rw [r4, hw2]
      apply Nat.mod_eq_of_lt
      omega
    · rw [if_neg hc]
      have : k = 0 := by omega
      exact ⟨wide, by rw [this]; simp, hw, hw2, by rw [this]; simp⟩
  obtain ⟨w, ew, lw, lw2, vw⟩ := shifted
  obtain ⟨x, x1, x2, x3, x4⟩ := shiftLeft_ok (show Limbs [z.sig, 0] from Limbs.two (by omega) (by norm_num)) (exp := 0) (bits := S.precision)
    (by omega) (by omega) (by omega)
  have hzs : z.sig * 2 ^ S.precision < 2 ^ S.precision * 2 ^ S.precision := Nat.mul_lt_mul_of_pos_right v4 (by positivity)
  have vx : val x = z.sig * 2 ^ S.precision := by
    rw [x4]
    simp only [val_cons, val_nil, List.length_cons, List.length_nil, Nat.mul_zero, Nat.add_zero]
    apply Nat.mod_eq_of_lt
    have e : 128 * (0 + 1 + 1) = 256 := rfl
    rw [e]
    omega
  have x2' : x.length = 2 := x2
  unfold fmaAddend
  rw [if_pos (by unfold isNonZero isZero; rw [cz]; decide)]
  dsimp only
  rw [ew, M.ok_bind]
  dsimp only
  rw [show 2 * S.precision + 1 - 1 - S.precision = S.precision by omega, x1, M.ok_bind]
  dsimp only
  rw [i32_ok (by omega) (by omega), M.ok_bind]
  refine (addOrSub_total lw x3 (by omega) ?_ ?_ (by omega) (by omega) (by omega) (by omega)).bind ?_
  · rw [lw2, vw]; omega
  · rw [lw2, vx]; omega
  · rintro o ⟨o1, o2, o3, o4⟩
    exact Or.inr ⟨_, rfl, o2, by dsimp only; omega, by dsimp only; rw [omsb_eq o2], by dsimp only; omega, by dsimp only; omega⟩

/-- For *every* finite operands, `mul_add_r` on non-zero factors stops at an assertion or returns a well-formed value. -/
theorem fmaNormals_total (h : S.OK) {x m z : IeeeFloat S} (hx : x.Valid) (hm : m.Valid) (hz : z.Valid)
    (cx : x.category = .normal) (cm : m.category = .normal) (cz : z.category = .normal) (mode : Round) :
    AssertOr (fun r : StatusAnd (IeeeFloat S) => r.value.Valid) (fmaNormals x m z mode) := by
  have hpl := h.p_le; have hpg := h.p_ge; have h4 := h.pow_le
  have hmin := h.min_lt; have hmin' := h.min_ge; have hmax := h.max_le; have h2 := h.two_pow
  obtain ⟨v1, v2, v3, v4, v5, v6⟩ := hx.normal cx
  obtain ⟨u1, u2, u3, u4, u5, u6⟩ := hm.normal cm
  obtain ⟨wide, w1, w2, w3, w4⟩ := wideningMul_ok (a := x.sig) (b := m.sig) (by omega) (by omega)
  have hlt : val wide < 2 ^ (2 * S.precision) := by
    rw [w4, two_mul, pow_add]; exact Nat.mul_lt_mul'' v4 u4
  unfold fmaNormals
  dsimp only
  rw [massert_pos (by unfold limbsForBits; omega), M.ok_bind]
  rw [show (x.negateIf m.isNegative).sig = x.sig by rw [negateIf_eq], show (x.negateIf m.isNegative).exp = x.exp by rw [negateIf_eq],
    w1, M.ok_bind, i32_ok (by omega) (by omega), M.ok_bind, i32_ok (by omega) (by omega), M.ok_bind, omsb_eq w3]
  refine (fmaAddend_total h w3 w2 hlt (by omega) (by omega) hz cz).bind ?_
  rintro mid ⟨m1, m2, m3, m4, m5⟩
  refine (fmaFinish_total h (x := (x.negateIf m.isNegative).withSign mid.sign)
    (by rw [withSign_eq, negateIf_eq]; exact cx) mode m1 m2 m3 m4 m5).bind ?_
  intro r hr
  split_ifs
  · refine Or.inr ⟨_, rfl, ?_⟩
    simp only [StatusAnd.map]
    rw [withSign_eq, valid_sign]; exact hr
  · exact Or.inr ⟨_, rfl, hr⟩

end Apf
