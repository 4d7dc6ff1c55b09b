import Verif.Proof.Arith
import Verif.Spec.Fma
/-! # Fused multiply-add of finite floats -/

namespace Apf
open Spec IeeeFloat

variable {S : Sem}

theorem M.bind_ok {α β : Type} {m : M α} {f : α → M β} {b : β} (h : (bind m f) = .ok b) : ∃ a, m = .ok a ∧ f a = .ok b := by
  cases m with
  | ok a => exact ⟨a, rfl, h⟩
  | error e => cases h

theorem massert_ok {p : Prop} [Decidable p] {u : Unit} (h : massert p = .ok u) : p := by
  unfold massert at h
  split at h
  · assumption
  · cases h

/-- The sign of an exact zero difference is that of the first operand. -/
theorem subStep_zero_sign {a b : List Nat} {e : Int} {s : Bool} {loss : Loss} (ha : Limbs a) (hb : Limbs b)
    (hl : a.length = b.length) {o : Sig.AddOrSubOut}
    (eq : (do
      let c ← Sig.cmp a b
      if c = .lt then do
        let (r, o) ← Sig.sub b a (decide (loss ≠ .exactlyZero)).toNat
        massert (o = 0)
        .ok ⟨r, e, !s, Sig.invertLoss loss⟩
      else do
        let (r, o) ← Sig.sub a b (decide (loss ≠ .exactlyZero)).toNat
        massert (o = 0)
        .ok ⟨r, e, s, Sig.invertLoss loss⟩ : M Sig.AddOrSubOut) = .ok o)
    (h0 : val o.sig = 0) (hz : o.loss = .exactlyZero) : o.sign = s := by
  rw [cmp_ok ha hb hl, M.ok_bind] at eq
  split at eq
  · rename_i hc
    rw [compare_lt_iff_lt] at hc
    exfalso
    obtain ⟨r, c, h1, h2, h3, h4, h5⟩ := sub_ok hb ha hl.symm (c := (decide (loss ≠ .exactlyZero)).toNat) (Bool.toNat_le _)
    rw [h1, M.ok_bind] at eq
    dsimp only at eq
    obtain ⟨u, hu, eq⟩ := M.bind_ok eq
    have := massert_ok hu
    subst this
    injection eq with eq
    subst eq
    dsimp only at h0 hz
    rw [invertLoss_zero] at hz
    subst hz
    simp at h5
    omega
  · obtain ⟨⟨r, c⟩, h1, eq⟩ := M.bind_ok eq
    dsimp only at eq
    obtain ⟨u, hu, eq⟩ := M.bind_ok eq
    injection eq with eq
    subst eq
    rfl

theorem addOrSub_zero_sign {a b : List Nat} {ea eb : Int} {sa sb : Bool} (ha : Limbs a) (hb : Limbs b) (hl : a.length = b.length)
    (h1 : -1000000 ≤ ea) (h2 : ea ≤ 1000000) (h3 : -1000000 ≤ eb) (h4 : eb ≤ 1000000) (hs : sa ≠ sb) {o : Sig.AddOrSubOut}
    (eq : Sig.addOrSub a ea sa b eb sb = .ok o) (h0 : val o.sig = 0) (hz : o.loss = .exactlyZero) : o.sign = sa := by
  have hx : (sa ^^ sb) = true := by cases sa <;> cases sb <;> simp_all
  unfold Sig.addOrSub at eq
  rw [i32_ok (by omega) (by omega), M.ok_bind, if_pos hx] at eq
  unfold Sig.subAlign at eq
  rcases lt_trichotomy (ea - eb) 0 with hbits | hbits | hbits
  · rw [if_neg (by omega), if_neg (by omega)] at eq
    obtain ⟨k, hk⟩ : ∃ k : ℕ, -(ea - eb) - 1 = k := ⟨(-(ea - eb) - 1).toNat, by omega⟩
    rw [hk, Int.toNat_natCast] at eq
    obtain ⟨r, r1, r2, r3, r4⟩ := shiftRight_ok ha (exp := ea) (bits := k) (by omega) (by omega) (by omega)
    obtain ⟨t, t1, t2, t3, t4⟩ := shiftLeft_ok hb (exp := 0) (bits := 1) (by omega) (by omega) (by omega)
    rw [r1, M.ok_bind] at eq
    dsimp only at eq
    rw [t1, M.ok_bind] at eq
    dsimp only at eq
    rw [M.ok_bind] at eq
    exact subStep_zero_sign r3 t3 (by omega) eq h0 hz
  · rw [if_pos hbits, M.ok_bind] at eq
    exact subStep_zero_sign ha hb hl eq h0 hz
  · rw [if_neg (by omega), if_pos hbits] at eq
    obtain ⟨k, hk⟩ : ∃ k : ℕ, ea - eb - 1 = k := ⟨(ea - eb - 1).toNat, by omega⟩
    rw [hk, Int.toNat_natCast] at eq
    obtain ⟨r, r1, r2, r3, r4⟩ := shiftRight_ok hb (exp := 0) (bits := k) (by omega) (by omega) (by omega)
    obtain ⟨t, t1, t2, t3, t4⟩ := shiftLeft_ok ha (exp := ea) (bits := 1) (by omega) (by omega) (by omega)
    rw [r1, M.ok_bind] at eq
    dsimp only at eq
    rw [t1, M.ok_bind] at eq
    dsimp only at eq
    rw [M.ok_bind] at eq
    exact subStep_zero_sign t3 r3 (by omega) eq h0 hz

/-- Values finer than the subnormal unit are not representable. -/
theorem not_grid_of_frac_low {F : Fmt} {n : ℕ} {e : ℤ} {f : ℚ} (he : e ≤ F.emin) (f0 : 0 < f) (f1 : f < 1) :
    ¬ F.Grid (((n : ℚ) + f) * 2 ^ (e - F.p + 1)) := by
  intro hg
  obtain ⟨k, hk⟩ := hg.unit
  have e1 : (2 : ℚ) ^ (F.emin - F.p + 1) = 2 ^ (F.emin - e).toNat * 2 ^ (e - F.p + 1) := by
    rw [← zpow_natCast, ← two_zpow_add]; congr 1; omega
  rw [e1, ← mul_assoc] at hk
  have h2 := mul_right_cancel₀ (two_zpow_pos (e - F.p + 1)).ne' hk
  have h3 : ((n : ℤ) : ℚ) + f = ((k * 2 ^ (F.emin - e).toNat : ℤ) : ℚ) := by push_cast; exact h2
  have h4 : (n : ℤ) < k * 2 ^ (F.emin - e).toNat := by
    have : ((n : ℤ) : ℚ) < ((k * 2 ^ (F.emin - e).toNat : ℤ) : ℚ) := by linarith
    exact_mod_cast this
  have h5 : k * 2 ^ (F.emin - e).toNat < (n : ℤ) + 1 := by
    have : ((k * 2 ^ (F.emin - e).toNat : ℤ) : ℚ) < ((n : ℤ) : ℚ) + 1 := by linarith
    exact_mod_cast this
  omega

theorem idx_two_zero {l : List Nat} (hl : Limbs l) (h2 : l.length = 2) (hv : val l < 2 ^ 128) : idx l 0 = .ok (val l) := by
  match l, h2 with
  | [a, b], _ =>
    simp only [val_cons, val_nil] at hv ⊢
    have : b = 0 := by
      by_contra hb0
      have : 2 ^ 128 * 1 ≤ 2 ^ 128 * b := Nat.mul_le_mul_left _ (by omega)
      omega
    subst this
    simp [idx]

theorem fmaFinish_eff (h : S.OK) {x : IeeeFloat S} (cx : x.category = .normal) {mid : FmaMid} {f : ℚ} {v : ℚ} {mode om : Round}
    (m1 : Limbs mid.wide) (m2 : mid.wide.length = 2) (m3 : mid.omsb = Nat.size (val mid.wide)) (m4 : LossIs mid.loss f)
    (e1 : -1000000 ≤ mid.exp) (e2 : mid.exp ≤ 1000000) (hx : x.sign = mid.sign)
    (hv : v = signed mid.sign (((val mid.wide : ℚ) + f) * 2 ^ (mid.exp - 2 * S.precision)))
    (hl : mid.loss ≠ .exactlyZero → S.precision < Nat.size (val mid.wide) ∨ mid.exp ≤ S.minExp + 1)
    (hn0 : mid.loss ≠ .exactlyZero → val mid.wide ≠ 0) (hO : Effective S mode v om) :
    Good S om v mid.sign (fmaFinish x mid mode) := by
  have hpl := h.p_le; have hpg := h.p_ge; have h4 := h.pow_le
  have hmin := h.min_lt; have hmin' := h.min_ge
  unfold fmaFinish
  have hw := val_lt m1
  rw [m2] at hw
  rw [asI32_of_lt (by omega), i32_ok (by omega) (by omega), M.ok_bind, i32_ok (by omega) (by omega), M.ok_bind]
  generalize hN : val mid.wide = N at *
  have hsz : Nat.size N ≤ 256 := Nat.size_le.2 (by omega)
  by_cases hc : mid.omsb > S.precision
  · rw [if_pos hc]
    obtain ⟨k, hk⟩ : ∃ k, mid.omsb - S.precision = k := ⟨_, rfl⟩
    obtain ⟨r, r1, r2, r3, r4⟩ := shiftRight_ok m1 (exp := mid.exp - (S.precision + 1)) (bits := mid.omsb - S.precision) (by omega)
      (by omega) (by omega)
    rw [hN, hk] at r4 r1
    rw [hk] 
    have hsq : Nat.size (N / 2 ^ k) = S.precision := by rw [size_div]; omega
    have hqlt : N / 2 ^ k < 2 ^ S.precision := Nat.size_le.1 hsq.le
    rw [r1, M.ok_bind]
    dsimp only
    rw [M.ok_bind]
    dsimp only
    rw [idx_two_zero r3 (by omega) (by rw [r4]; omega), M.ok_bind, r4]
    have hq0 : N / 2 ^ k ≠ 0 := by
      intro hz
      have : Nat.size (N / 2 ^ k) = 0 := by rw [hz]; rfl
      omega
    have hkpos : 0 < k := by omega
    have hf : LossIs ((lossOf (N % 2 ^ k) (2 ^ k)).combine mid.loss) ((((N % 2 ^ k : ℕ) : ℚ) + f) / 2 ^ k) := by
      exact lossIs_combine (by omega) (Nat.mod_lt _ (by positivity)) m4
    have hval : v = signed mid.sign ((((N / 2 ^ k : ℕ) : ℚ) + (((N % 2 ^ k : ℕ) : ℚ) + f) / 2 ^ k) *
        2 ^ (mid.exp - (S.precision + 1) + (k : ℤ) - S.precision + 1)) := by
      rw [hv]
      congr 1
      have hd : (N : ℚ) = 2 ^ k * ((N / 2 ^ k : ℕ) : ℚ) + ((N % 2 ^ k : ℕ) : ℚ) := by
        exact_mod_cast (Nat.div_add_mod N (2 ^ k)).symm
      rw [show mid.exp - (S.precision + 1) + (k : ℤ) - S.precision + 1 = (k : ℤ) + (mid.exp - 2 * S.precision) by ring, two_zpow_add k,
        zpow_natCast]
      have h0 : (2 : ℚ) ^ k ≠ 0 := by positivity
      rw [hd]
      field_simp
      ring
    apply orInexact_good
    · rw [← hx]
      refine normalize_eff' h (x := { x with sig := N / 2 ^ k, exp := mid.exp - (S.precision + 1) + (k : ℤ) }) cx
        (by simp only []; omega) (by simp only []; omega) (by simp only []; omega) hf
        (fun hne _ => Or.inl (by simp only []; omega)) ?_ hO
      simp only [if_neg hq0]
      rw [hx]
      exact hval
    · intro hne
      rw [hval, grid_signed]
      apply not_grid_of_frac (F := S.fmt) (by simp; omega) _ hqlt (hf.pos hne) hf.lt_one
      show 2 ^ (S.precision - 1) ≤ _
      rw [← hsq]
      exact two_pow_size_le (Nat.pos_of_ne_zero hq0)
  · rw [if_neg hc, M.ok_bind]
    dsimp only
    have hsN : Nat.size N ≤ S.precision := by omega
    have hNlt : N < 2 ^ S.precision := Nat.size_le.1 hsN
    rw [idx_two_zero m1 m2 (by rw [hN]; omega), M.ok_bind, hN]
    have hval : v = signed mid.sign (((N : ℚ) + f) * 2 ^ (mid.exp - (S.precision + 1) - S.precision + 1)) := by
      rw [hv]; congr 3; ring
    have hlow : mid.loss ≠ .exactlyZero → mid.exp - (S.precision + 1) ≤ S.minExp := fun hne => by
      rcases hl hne with a | a
      · omega
      · omega
    apply orInexact_good
    · rw [← hx]
      refine normalize_eff' h (x := { x with sig := N, exp := mid.exp - (S.precision + 1) }) cx
        (by simp only []; omega) (by simp only []; omega) (by simp only []; omega) m4
        (fun hne _ => Or.inr (hlow hne)) ?_ hO
      by_cases hz : N = 0
      · have hl0 : mid.loss = .exactlyZero := by
          by_contra hne; exact hn0 hne hz
        have f0 : f = 0 := m4.zero_iff.1 hl0
        rw [hval, hx]
        simp [hz, f0]
      · simp only [if_neg hz]
        rw [hx]; exact hval
    · intro hne
      rw [hval, grid_signed]
      exact not_grid_of_frac_low (F := S.fmt) (hlow hne) (m4.pos hne) m4.lt_one

theorem abs_signed_sub {s t : Bool} {a b : ℚ} (hs : s ≠ t) : |signed s a + signed t b| = |a - b| := by
  cases s <;> cases t <;> simp_all [signed]
  · rw [← sub_eq_add_neg]
  · rw [← abs_neg]; congr 1; ring

theorem signed_mul_neg {s t : Bool} {a b : ℚ} (hs : s ≠ t) (ha : 0 < a) (hb : 0 < b) : signed s a * signed t b < 0 := by
  cases s <;> cases t <;> simp_all [signed]

set_option maxHeartbeats 1000000 in
/-- The addition step of `mul_add_r`: the exact sum. -/
theorem fmaAddend_ok (h : S.OK) {wide : List Nat} {E : ℤ} {s : Bool} {z : IeeeFloat S} (hw : Limbs wide) (hw2 : wide.length = 2)
    (hN : 0 < val wide) (hN2 : val wide < 2 ^ (2 * S.precision)) (hE1 : -100000 ≤ E) (hE2 : E ≤ 100000)
    (hz : z.Valid) (cz : z.category = .normal)
    (hx : ¬ FmaExcluded S (signed s ((val wide : ℚ) * 2 ^ (E - 2 * S.precision))) z.toRat) :
    ∃ mid f, fmaAddend S wide E s (Nat.size (val wide)) z = .ok mid ∧ Limbs mid.wide ∧ mid.wide.length = 2 ∧
      mid.omsb = Nat.size (val mid.wide) ∧ LossIs mid.loss f ∧ -1000000 ≤ mid.exp ∧ mid.exp ≤ 1000000 ∧
      signed s ((val wide : ℚ) * 2 ^ (E - 2 * S.precision)) + z.toRat =
        signed mid.sign (((val mid.wide : ℚ) + f) * 2 ^ (mid.exp - 2 * S.precision)) ∧
      (mid.loss ≠ .exactlyZero → S.precision < Nat.size (val mid.wide) ∨ mid.exp ≤ S.minExp + 1) ∧
      (mid.loss ≠ .exactlyZero → val mid.wide ≠ 0) ∧
      (signed s ((val wide : ℚ) * 2 ^ (E - 2 * S.precision)) + z.toRat = 0 → mid.sign = s ∧ s ≠ z.sign) := by
  have hpl := h.p_le; have hpg := h.p_ge; have h4 := h.pow_le
  have hmin := h.min_lt; have hmin' := h.min_ge; have hmax := h.max_le; have h2 := h.two_pow
  obtain ⟨v1, v2, v3, v4, v5, v6⟩ := hz.normal cz
  -- powers used below
  have p2a : 2 ^ (2 * S.precision) = 2 * 2 ^ (2 * S.precision - 1) := by
    rw [← pow_succ']; congr 1; omega
  have p2b : 2 ^ (2 * S.precision) = 2 ^ S.precision * 2 ^ S.precision := by rw [two_mul, pow_add]
  have p2c : 2 ^ (2 * S.precision - 1) = 2 ^ (S.precision - 1) * 2 ^ S.precision := by
    rw [← pow_add]; congr 1; omega
  have p2d : 2 ^ (2 * S.precision) ≤ 2 ^ 252 := Nat.pow_le_pow_right (by norm_num) (by omega)
  have p2e : 2 ^ S.precision ≤ 2 ^ (2 * S.precision - 1) := Nat.pow_le_pow_right (by norm_num) (by omega)
  have szN : Nat.size (val wide) ≤ 2 * S.precision := Nat.size_le.2 hN2
  have szpos : 0 < Nat.size (val wide) := Nat.size_pos.2 hN
  -- the aligned product
  obtain ⟨k, hk⟩ : ∃ k, 2 * S.precision - Nat.size (val wide) = k := ⟨_, rfl⟩
  have shifted : ∃ w, (if Nat.size (val wide) ≠ 2 * S.precision + 1 - 1 then do
        massert (2 * S.precision + 1 > Nat.size (val wide))
        let k ← usub (2 * S.precision + 1 - 1) (Nat.size (val wide))
        Sig.shiftLeft wide E k
      else .ok (wide, E) : M (List Nat × Int)) = .ok (w, E - k) ∧ Limbs w ∧ w.length = 2 ∧ val w = val wide * 2 ^ k := by
    by_cases hc : Nat.size (val wide) ≠ 2 * S.precision + 1 - 1
    · rw [if_pos hc, massert_pos (by omega), M.ok_bind]
      unfold usub
      rw [if_pos (by omega), M.ok_bind]
      obtain ⟨r, r1, r2, r3, r4⟩ := shiftLeft_ok hw (exp := E) (bits := k) (by omega) (by omega) (by omega)
      rw [show 2 * S.precision + 1 - 1 - Nat.size (val wide) = k by omega]
      refine ⟨r, r1, r3, by omega, ?_⟩
      rw [r4, hw2]
      apply Nat.mod_eq_of_lt
      have hs : val wide * 2 ^ k < 2 ^ (2 * S.precision) := by
        have : val wide * 2 ^ k < 2 ^ Nat.size (val wide) * 2 ^ k := by
          exact Nat.mul_lt_mul_of_pos_right (Nat.lt_size_self _) (by positivity)
        rw [← pow_add, show Nat.size (val wide) + k = 2 * S.precision by omega] at this
        exact this
      omega
    · rw [if_neg hc]
      have : k = 0 := by omega
      exact ⟨wide, by rw [this]; simp, hw, hw2, by rw [this]; simp⟩
  obtain ⟨w, ew, lw, lw2, vw⟩ := shifted
  have w1 : val w < 2 ^ (2 * S.precision) := by
    rw [vw]
    have : val wide * 2 ^ k < 2 ^ Nat.size (val wide) * 2 ^ k :=
      Nat.mul_lt_mul_of_pos_right (Nat.lt_size_self _) (by positivity)
    rw [← pow_add, show Nat.size (val wide) + k = 2 * S.precision by omega] at this
    exact this
  have w2 : 2 ^ (2 * S.precision - 1) ≤ val w := by
    rw [vw, show 2 * S.precision - 1 = (Nat.size (val wide) - 1) + k by omega, pow_add]
    exact Nat.mul_le_mul_right _ (two_pow_size_le hN)
  -- the aligned addend
  obtain ⟨x, x1, x2, x3, x4⟩ := shiftLeft_ok (show Limbs [z.sig, 0] from Limbs.two (by omega) (by norm_num)) (exp := 0) (bits := S.precision)
    (by omega) (by omega) (by omega)
  have vx : val x = z.sig * 2 ^ S.precision := by
    rw [x4]
    simp only [val_cons, val_nil, List.length_cons, List.length_nil, Nat.mul_zero, Nat.add_zero]
    apply Nat.mod_eq_of_lt
    have : z.sig * 2 ^ S.precision < 2 ^ S.precision * 2 ^ S.precision := Nat.mul_lt_mul_of_pos_right v4 (by positivity)
    have e : 128 * (0 + 1 + 1) = 256 := rfl
    rw [e]
    omega
  have x5 : val x < 2 ^ (2 * S.precision) := by
    rw [vx, p2b]; exact Nat.mul_lt_mul_of_pos_right v4 (by positivity)
  have x6 : 2 ^ S.precision ≤ val x := by rw [vx]; exact Nat.le_mul_of_pos_left _ v3
  have x7 : 2 ^ (S.precision - 1) ≤ z.sig → 2 ^ (2 * S.precision - 1) ≤ val x := by
    intro hh; rw [vx, p2c]; exact Nat.mul_le_mul_right _ hh
  -- the two operands as rationals
  obtain ⟨e, he⟩ : ∃ e, E - (k : ℤ) = e := ⟨_, rfl⟩
  have qw : (val wide : ℚ) * 2 ^ (E - 2 * S.precision) = (val w : ℚ) * 2 ^ (e - 2 * S.precision) := by
    rw [vw, ← he]
    push_cast
    rw [mul_assoc, ← zpow_natCast, ← two_zpow_add]
    congr 2; ring
  have qz : (z.sig : ℚ) * 2 ^ (z.exp - S.precision + 1) = (val x : ℚ) * 2 ^ (z.exp + 1 - 2 * S.precision) := by
    rw [vx]
    push_cast
    rw [mul_assoc, ← zpow_natCast, ← two_zpow_add]
    congr 2; ring
  have tz : z.toRat = signed z.sign ((val x : ℚ) * 2 ^ (z.exp + 1 - 2 * S.precision)) := by rw [toRat_normal cz, qz]
  rw [qw, tz] at hx ⊢
  have hw0 : (0 : ℚ) < val w := by
    have : 0 < val w := lt_of_lt_of_le (by positivity) w2
    exact_mod_cast this
  have hx0 : (0 : ℚ) < val x := by
    have : 0 < val x := lt_of_lt_of_le (by positivity) x6
    exact_mod_cast this
  -- what the exclusion means for a subnormal addend of the opposite sign
  have excl : s ≠ z.sign → z.sig < 2 ^ (S.precision - 1) → z.exp = S.minExp ∧
      ((val w : ℚ) * 2 ^ (e - 2 * S.precision) + 2 ^ (S.minExp - 2 * S.precision) ≤ (val x : ℚ) * 2 ^ (S.minExp + 1 - 2 * S.precision) ∨
        ∃ j : ℤ, (val w : ℚ) * 2 ^ (e - 2 * S.precision) = j * 2 ^ (S.minExp - 2 * S.precision)) := by
    intro hs hd
    have hme : z.exp = S.minExp := by
      rcases v5 with a | a
      · omega
      · exact a
    refine ⟨hme, ?_⟩
    by_contra hc
    push Not at hc
    obtain ⟨c1, c2⟩ := hc
    apply hx
    have q1 : (0 : ℚ) < (val w : ℚ) * 2 ^ (e - 2 * S.precision) := mul_pos hw0 (two_zpow_pos _)
    have q2 : (0 : ℚ) < (val x : ℚ) * 2 ^ (z.exp + 1 - 2 * S.precision) := mul_pos hx0 (two_zpow_pos _)
    refine ⟨signed_mul_neg hs q1 q2, ?_, ?_, ?_⟩
    · rw [abs_signed _ q2.le, ← qz, hme]
      have : (z.sig : ℚ) < 2 ^ (S.precision - 1) := by exact_mod_cast hd
      calc (z.sig : ℚ) * 2 ^ (S.minExp - S.precision + 1) < 2 ^ (S.precision - 1) * 2 ^ (S.minExp - S.precision + 1) :=
            mul_lt_mul_of_pos_right this (two_zpow_pos _)
        _ = 2 ^ S.minExp := by
            rw [← zpow_natCast, ← two_zpow_add]; congr 1; omega
    · rw [abs_signed _ q1.le, abs_signed _ q2.le, hme]; exact c1
    · rintro ⟨j, hj⟩
      cases s
      · exact c2 j hj
      · refine c2 (-j) ?_
        simp only [signed, if_true] at hj
        push_cast; linarith
  have hu := two_zpow_pos (S.minExp - 2 * S.precision)
  have hzu : (2 : ℚ) ^ (S.minExp + 1 - 2 * S.precision) = 2 * 2 ^ (S.minExp - 2 * S.precision) := by
    rw [show S.minExp + 1 - 2 * (S.precision : ℤ) = 1 + (S.minExp - 2 * S.precision) by ring, two_zpow_add 1]; norm_num
  have divle : ∀ n k : Nat, n / 2 ^ k ≤ n := fun n k => Nat.div_le_self _ _
  obtain ⟨o, o1, o2, o3, o4, o5, ⟨f, o6, o7⟩, o8, o9, o10⟩ := addOrSub_ok (a := w) (b := x) (ea := e) (eb := z.exp + 1)
    (sa := s) (sb := z.sign) lw x3 (by rw [lw2, x2]; rfl) (by rw [lw2]; omega) (by rw [lw2]; omega) (by omega) (by omega) (by omega) (by omega)
    (by
      intro _ hlt
      right
      have := divle (val x) (e - (z.exp + 1) - 1).toNat
      omega)
    (by
      intro hs hlt
      rcases Nat.lt_or_ge z.sig (2 ^ (S.precision - 1)) with hd | hd
      swap
      · right
        have := divle (val w) (z.exp + 1 - e - 1).toNat
        have := x7 hd
        omega
      · obtain ⟨hme, c⟩ := excl hs hd
        rw [hme] at hlt ⊢
        obtain ⟨j, hj⟩ : ∃ j : ℕ, S.minExp + 1 - e - 1 = j := ⟨(S.minExp + 1 - e - 1).toNat, by omega⟩
        rw [hj, Int.toNat_natCast]
        have eu : (2 : ℚ) ^ (S.minExp - 2 * S.precision) = 2 ^ j * 2 ^ (e - 2 * S.precision) := by
          rw [← zpow_natCast, ← two_zpow_add]; congr 1; omega
        have he0 := two_zpow_pos (e - 2 * S.precision)
        rcases c with c | ⟨i, c⟩
        · right
          rw [Nat.div_lt_iff_lt_mul (by positivity)]
          rw [hzu, eu] at c
          have : (val w : ℚ) * 2 ^ (e - 2 * S.precision) < (2 * val x * 2 ^ j) * 2 ^ (e - 2 * S.precision) := by
            have : (0 : ℚ) < 2 ^ j * 2 ^ (e - 2 * S.precision) := by positivity
            calc _ < _ := lt_add_of_pos_right _ this
              _ ≤ _ := c
              _ = _ := by ring
          have := lt_of_mul_lt_mul_right this he0.le
          exact_mod_cast this
        · left
          rw [eu, ← mul_assoc] at c
          have := mul_right_cancel₀ he0.ne' c
          have : ((val w : ℕ) : ℤ) = i * 2 ^ j := by exact_mod_cast this
          have hdvd : ((2 ^ j : ℕ) : ℤ) ∣ (val w : ℤ) := ⟨i, by rw [this]; push_cast; ring⟩
          exact Nat.mod_eq_zero_of_dvd (Int.natCast_dvd_natCast.1 hdvd))
  refine ⟨⟨o.sig, o.exp, o.sign, o.loss, Sig.omsb o.sig⟩, f, ?_, o3, by show o.sig.length = 2; omega, omsb_eq o3, o6, by show _ ≤ o.exp; omega,
    by show o.exp ≤ _; omega, ?_, ?_, ?_, ?_⟩
  · unfold fmaAddend
    have nz : z.isNonZero = true := by unfold isNonZero isZero; rw [cz]; rfl
    rw [if_pos nz]
    dsimp only
    rw [ew, M.ok_bind]
    dsimp only
    rw [show 2 * S.precision + 1 - 1 - S.precision = S.precision by omega, x1, M.ok_bind]
    dsimp only
    rw [i32_ok (by omega) (by omega), M.ok_bind, he]
    unfold isNegative
    rw [o1, M.ok_bind]
  · have hsc : ∀ e : ℤ, (2 : ℚ) ^ (e - 2 * S.precision) = 2 ^ e * 2 ^ (-(2 * S.precision) : ℤ) := by
      intro e; rw [← two_zpow_add]; congr 1
    rw [hsc, hsc, hsc, ← mul_assoc, ← mul_assoc, ← mul_assoc, signed_mul _ ((val w : ℚ) * 2 ^ e), signed_mul _ ((val x : ℚ) * 2 ^ (z.exp + 1)),
      signed_mul _ (((val o.sig : ℚ) + f) * 2 ^ o.exp), ← add_mul, ← o7]
  · intro hne
    dsimp only at hne ⊢
    obtain ⟨big, small, hbs, hb1, hb2⟩ := o8 hne
    by_cases hss : s = z.sign
    · left
      have := hb1 hss
      exact Nat.lt_size.2 (by omega)
    · have hb := hb2 hss
      rcases hbs with ⟨rfl, rfl, hlt⟩ | ⟨rfl, rfl, hlt⟩
      · left; exact Nat.lt_size.2 (by omega)
      · rcases Nat.lt_or_ge z.sig (2 ^ (S.precision - 1)) with hd | hd
        · right
          have := (excl hss hd).1
          omega
        · left
          have := x7 hd
          exact Nat.lt_size.2 (by omega)
  · intro hne hv0
    dsimp only at hne hv0
    obtain ⟨big, small, hbs, hb1, hb2⟩ := o8 hne
    by_cases hss : s = z.sign
    · have := hb1 hss
      omega
    · have hb := hb2 hss
      rcases hbs with ⟨rfl, rfl, hlt⟩ | ⟨rfl, rfl, hlt⟩
      · omega
      · rcases Nat.lt_or_ge z.sig (2 ^ (S.precision - 1)) with hd | hd
        swap
        · have := x7 hd
          omega
        · obtain ⟨hme, c⟩ := excl hss hd
          have hexp := o10 hss (by omega)
          have hoe : o.exp = S.minExp := by omega
          have f0 := o6.pos hne
          have f1 := o6.lt_one
          have hsum : |(val w : ℚ) * 2 ^ (e - 2 * S.precision) - (val x : ℚ) * 2 ^ (S.minExp + 1 - 2 * S.precision)| =
              f * 2 ^ (S.minExp - 2 * S.precision) := by
            have hsc : ∀ e : ℤ, (2 : ℚ) ^ (e - 2 * S.precision) = 2 ^ e * 2 ^ (-(2 * S.precision) : ℤ) := by
              intro e; rw [← two_zpow_add]; congr 1
            have o7' := congrArg (fun q : ℚ => |q|) o7
            rw [abs_signed_sub hss, hv0, abs_signed _ (by positivity), hoe, hme] at o7'
            rw [hsc, hsc, hsc, ← mul_assoc, ← mul_assoc, ← sub_mul, abs_mul, ← o7', abs_of_pos (two_zpow_pos _)]
            push_cast; ring
          rcases c with c | ⟨j, c⟩
          · rw [abs_sub_comm, abs_of_nonneg (by linarith)] at hsum
            have hfu : f * 2 ^ (S.minExp - 2 * S.precision) < 1 * 2 ^ (S.minExp - 2 * S.precision) := mul_lt_mul_of_pos_right f1 hu
            linarith only [hfu, hsum, c]
          · rw [c, hzu] at hsum
            have : |(j : ℚ) - 2 * val x| = f := by
              have h1 : (j : ℚ) * 2 ^ (S.minExp - 2 * S.precision) - (val x : ℚ) * (2 * 2 ^ (S.minExp - 2 * S.precision)) =
                ((j : ℚ) - 2 * val x) * 2 ^ (S.minExp - 2 * S.precision) := by ring
              rw [h1, abs_mul, abs_of_pos hu] at hsum
              exact mul_right_cancel₀ hu.ne' hsum
            have h2 : ((|j - 2 * (val x : ℤ)| : ℤ) : ℚ) = f := by push_cast; exact this
            have h3 : (0 : ℤ) < |j - 2 * (val x : ℤ)| := by
              have : (0 : ℚ) < ((|j - 2 * (val x : ℤ)| : ℤ) : ℚ) := by rw [h2]; exact f0
              exact_mod_cast this
            have h4 : |j - 2 * (val x : ℤ)| < (1 : ℤ) := by
              have : ((|j - 2 * (val x : ℤ)| : ℤ) : ℚ) < 1 := by rw [h2]; exact f1
              exact_mod_cast this
            omega
  · intro hv0
    have q1 : (0 : ℚ) < (val w : ℚ) * 2 ^ (e - 2 * S.precision) := mul_pos hw0 (two_zpow_pos _)
    have q2 : (0 : ℚ) < (val x : ℚ) * 2 ^ (z.exp + 1 - 2 * S.precision) := mul_pos hx0 (two_zpow_pos _)
    have hss : s ≠ z.sign := by
      intro hs
      rw [← hs, ← signed_add, signed_eq_zero] at hv0
      linarith
    refine ⟨?_, hss⟩
    have hsc : ∀ e : ℤ, (2 : ℚ) ^ (e - 2 * S.precision) = 2 ^ e * 2 ^ (-(2 * S.precision) : ℤ) := by
      intro e; rw [← two_zpow_add]; congr 1
    rw [hsc, hsc, ← mul_assoc, ← mul_assoc, signed_mul _ ((val w : ℚ) * 2 ^ e), signed_mul _ ((val x : ℚ) * 2 ^ (z.exp + 1)),
      ← add_mul, ← o7] at hv0
    have hv1 := (mul_eq_zero.1 hv0).resolve_right (two_zpow_pos _).ne'
    rw [signed_eq_zero] at hv1
    have hv2 := (mul_eq_zero.1 hv1).resolve_right (two_zpow_pos _).ne'
    have f0 := o6.nonneg
    have n0 : (0 : ℚ) ≤ val o.sig := by positivity
    have hf : f = 0 := by linarith
    have hn : (val o.sig : ℚ) = 0 := by linarith
    exact addOrSub_zero_sign lw x3 (by rw [lw2, x2]; rfl) (by omega) (by omega) (by omega) (by omega) hss o1 (by exact_mod_cast hn)
      (o6.zero_iff.2 hf)

/-- A zero delivered without the `UNDERFLOW` flag is exact. -/
theorem exact_of_no_underflow (h : S.OK) {x : IeeeFloat S} (hc : x.category = .zero) {mode : Round} {v : ℚ} {s : Bool} {st : Status}
    (hd : Delivers S.fmt mode v s x.datum st) (hu : st.underflow = false) : v = 0 ∧ st = Status.OK := by
  have hdat : x.datum = .num x.sign 0 := by simp [datum, hc]
  rw [hdat] at hd
  obtain ⟨g, hg, ⟨g1, g2, g3⟩ | ⟨g1, g2⟩⟩ := hd
  · injection g2 with _ g2
    subst g2
    rw [g3] at hu
    have h0 : v = 0 := by
      by_contra hne
      have : (0 : ℚ) ≠ v ∧ |(0 : ℚ)| < S.fmt.smallestNormal := ⟨fun e => hne e.symm, by
        rw [abs_zero]; exact two_zpow_pos _⟩
      exact absurd this (of_decide_eq_false hu)
    subst h0
    refine ⟨rfl, ?_⟩
    rw [g3]; simp [Status.OK]
  · exact absurd (Prod.ext_iff.1 g2).1 (overflowed_ne_zero h _ _ _)

theorem fmaNormals_eff (h : S.OK) {x m z : IeeeFloat S} (hx : x.Valid) (hm : m.Valid) (hz : z.Valid)
    (cx : x.category = .normal) (cm : m.category = .normal) (fz : z.isFinite = true) (mode : Round)
    {om : Round} (hO : Effective S mode (x.toRat * m.toRat + z.toRat) om) (hE : ¬ FmaExcluded S (x.toRat * m.toRat) z.toRat) :
    ∃ r, fmaNormals x m z mode = .ok r ∧ r.value.Valid ∧
      Rounds S om (x.toRat * m.toRat + z.toRat) (zeroSum mode (xor x.sign m.sign) z.sign) r := by
  have hpl := h.p_le; have hpg := h.p_ge; have h4 := h.pow_le
  have hmin := h.min_lt; have hmin' := h.min_ge; have hmax := h.max_le; have h2 := h.two_pow
  obtain ⟨v1, v2, v3, v4, v5, v6⟩ := hx.normal cx
  obtain ⟨u1, u2, u3, u4, u5, u6⟩ := hm.normal cm
  obtain ⟨wide, w1, w2, w3, w4⟩ := wideningMul_ok (a := x.sig) (b := m.sig) (by omega) (by omega)
  have hpos : 0 < val wide := by rw [w4]; exact Nat.mul_pos v3 u3
  have hlt : val wide < 2 ^ (2 * S.precision) := by
    rw [w4, two_mul, pow_add]; exact Nat.mul_lt_mul'' v4 u4
  obtain ⟨s, hs⟩ : ∃ s, xor x.sign m.sign = s := ⟨_, rfl⟩
  have hP : x.toRat * m.toRat = signed s ((val wide : ℚ) * 2 ^ (x.exp + m.exp + 2 - 2 * S.precision)) := by
    rw [toRat_normal cx, toRat_normal cm, ← hs, w4]
    have : (2 : ℚ) ^ (x.exp + m.exp + 2 - 2 * S.precision) = 2 ^ (x.exp - S.precision + 1) * 2 ^ (m.exp - S.precision + 1) := by
      rw [← two_zpow_add]; congr 1; ring
    rw [this]
    push_cast
    cases x.sign <;> cases m.sign <;> simp [signed] <;> ring
  have hPne : x.toRat * m.toRat ≠ 0 := mul_ne_zero (toRat_ne_zero hx cx) (toRat_ne_zero hm cm)
  have hmid : ∃ mid f, fmaAddend S wide (x.exp + m.exp + 2) s (Nat.size (val wide)) z = .ok mid ∧ Limbs mid.wide ∧
      mid.wide.length = 2 ∧
      mid.omsb = Nat.size (val mid.wide) ∧ LossIs mid.loss f ∧ -1000000 ≤ mid.exp ∧ mid.exp ≤ 1000000 ∧
      x.toRat * m.toRat + z.toRat = signed mid.sign (((val mid.wide : ℚ) + f) * 2 ^ (mid.exp - 2 * S.precision)) ∧
      (mid.loss ≠ .exactlyZero → S.precision < Nat.size (val mid.wide) ∨ mid.exp ≤ S.minExp + 1) ∧
      (mid.loss ≠ .exactlyZero → val mid.wide ≠ 0) ∧
      (x.toRat * m.toRat + z.toRat = 0 → mid.sign = s ∧ s ≠ z.sign) := by
    rcases isFinite_iff.1 fz with cz | cz
    · rw [hP] at hE ⊢
      exact fmaAddend_ok h w3 w2 hpos hlt (by omega) (by omega) hz cz hE
    · refine ⟨⟨wide, x.exp + m.exp + 2, s, .exactlyZero, Nat.size (val wide)⟩, 0, ?_, w3, w2, rfl, (show LossIs .exactlyZero 0 from rfl), by show _ ≤ x.exp + m.exp + 2; omega,
        by show x.exp + m.exp + 2 ≤ _; omega, ?_, fun hne => absurd rfl hne, fun hne => absurd rfl hne, ?_⟩
      · unfold fmaAddend
        rw [if_neg (by unfold isNonZero isZero; rw [cz]; decide)]
      · rw [toRat_zero cz, hP, add_zero, add_zero]
      · rw [toRat_zero cz, add_zero]
        exact fun hh => absurd hh hPne
  obtain ⟨mid, f, m0, m1, m2, m3, m4, m5, m6, m7, m8, m9, m10⟩ := hmid
  have hg := fmaFinish_eff h (x := (x.negateIf m.isNegative).withSign mid.sign) (mode := mode)
    (by rw [withSign_eq, negateIf_eq]; exact cx) m1 m2 m3 m4 m5 m6 (by rw [withSign_eq]) m7 m8 m9 hO
  obtain ⟨r, r1, r2, r3, r4⟩ := hg
  have en : (x.negateIf m.isNegative).isNegative = s := by rw [negateIf_eq]; exact hs
  have e : fmaNormals x m z mode = .ok (if r.value.category = .zero ∧ r.status.underflow = false ∧ r.value.isNegative ≠ z.isNegative then
      r.map (·.withSign (mode = .towardNegative)) else r) := by
    unfold fmaNormals
    dsimp only
    rw [massert_pos (by unfold limbsForBits; omega), M.ok_bind]
    rw [show (x.negateIf m.isNegative).sig = x.sig by rw [negateIf_eq], show (x.negateIf m.isNegative).exp = x.exp by rw [negateIf_eq],
      w1, M.ok_bind, i32_ok (by omega) (by omega), M.ok_bind, i32_ok (by omega) (by omega), M.ok_bind, omsb_eq w3, en, m0, M.ok_bind, r1, M.ok_bind]
    split_ifs <;> rfl
  by_cases hfix : r.value.category = .zero ∧ r.status.underflow = false ∧ r.value.isNegative ≠ z.isNegative
  · rw [if_pos hfix] at e
    obtain ⟨hv0, hst⟩ := exact_of_no_underflow h hfix.1 r4 hfix.2.1
    refine ⟨_, e, ?_, ?_⟩
    · simp only [StatusAnd.map]
      rw [withSign_eq, valid_sign]; exact r2
    · have := exact_rounds h (x := { r.value with sign := decide (mode = .towardNegative) }) ((valid_sign _).2 r2)
          (isFinite_iff.2 (Or.inr hfix.1)) om (zs := zeroSum mode s z.sign)
          (fun _ => by simp [zeroSum, (m10 hv0).2])
      rw [toRat_zero (x := { r.value with sign := decide (mode = .towardNegative) }) hfix.1, ← hv0] at this
      rw [hs]
      simp only [StatusAnd.map, withSign_eq, hst]
      exact this
  · rw [if_neg hfix] at e
    have f0 := m4.nonneg
    obtain ⟨r', q1, q2, q3⟩ := Good.rounds (zs := zeroSum mode (xor x.sign m.sign) z.sign) (res := .ok r)
      (⟨r, rfl, r2, r3, r4⟩ : Good S om (x.toRat * m.toRat + z.toRat) mid.sign (.ok r)) ⟨_, by positivity, m7⟩
      (fun hv0 => by
        exfalso
        apply hfix
        have hd : Delivers S.fmt om 0 mid.sign r.value.datum r.status := by rw [← hv0]; exact r4
        have hc := category_of_delivers_zero h r2 hd
        refine ⟨hc, ?_, ?_⟩
        · rw [(exact_of_zero h hc hd ⟨0, by simp⟩).2]; rfl
        · unfold isNegative
          rw [r3, (m10 hv0).1]; exact (m10 hv0).2)
    injection q1 with q1
    subst q1
    exact ⟨r, e, q2, q3⟩

end Apf
