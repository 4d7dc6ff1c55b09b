import Verif.Proof.Shift
/-! Correctness of limb addition, subtraction and multiplication. -/

namespace Apf

theorem increment_ok {l : List Nat} (h : Limbs l) :
    (Sig.increment l).1.length = l.length ∧ Limbs (Sig.increment l).1 ∧ (Sig.increment l).2 ≤ 1 ∧
    val (Sig.increment l).1 + (Sig.increment l).2 * 2 ^ (128 * l.length) = val l + 1 := by
  induction l with
  | nil => simp [Sig.increment, Limbs.nil]
  | cons x xs ih =>
    have hx := h.head
    obtain ⟨i1, i2, i3, i4⟩ := ih h.tail
    unfold Sig.increment
    simp only []
    by_cases hy : (x + 1) % 2 ^ 128 ≠ 0
    · rw [if_pos hy]
      have e : (x + 1) % 2 ^ 128 = x + 1 := by
        apply Nat.mod_eq_of_lt
        by_contra hc
        have : x + 1 = 2 ^ 128 := by omega
        rw [this] at hy; exact hy (Nat.mod_self _)
      refine ⟨by simp, ?_, by simp, ?_⟩
      · exact Limbs.cons (Nat.mod_lt _ (by positivity)) h.tail
      · rw [e]; simp; ring
    · rw [if_neg hy]
      have e : x + 1 = 2 ^ 128 := by omega
      have hy' : (x + 1) % 2 ^ 128 = 0 := by omega
      refine ⟨by simpa using i1, Limbs.cons (by rw [hy']; positivity) i2, i3, ?_⟩
      simp only [hy', val_cons, List.length_cons]
      rw [show 128 * (xs.length + 1) = 128 + 128 * xs.length by ring, pow_add]
      linear_combination (2 ^ 128) * i4 - e

theorem increment_one {s : Nat} (h : s + 1 < 2 ^ 128) : Sig.increment [s] = ([s + 1], 0) := by
  have e : (s + 1) % 2 ^ 128 = s + 1 := Nat.mod_eq_of_lt h
  unfold Sig.increment
  simp only [e]
  rw [if_pos (by omega)]

theorem decrement_ok {l : List Nat} (h : Limbs l) :
    (Sig.decrement l).1.length = l.length ∧ Limbs (Sig.decrement l).1 ∧ (Sig.decrement l).2 ≤ 1 ∧
    val (Sig.decrement l).1 + 1 = val l + (Sig.decrement l).2 * 2 ^ (128 * l.length) := by
  induction l with
  | nil => simp [Sig.decrement, Limbs.nil]
  | cons x xs ih =>
    have hx := h.head
    obtain ⟨i1, i2, i3, i4⟩ := ih h.tail
    unfold Sig.decrement
    simp only []
    by_cases hx0 : x = 0
    · subst hx0
      have e : wsub 0 1 = limbMax := by decide
      rw [e]
      simp only [ne_eq, not_true, if_false]
      refine ⟨by simpa using i1, Limbs.cons (by simp [limbMax]) i2, i3, ?_⟩
      simp only [val_cons, List.length_cons]
      rw [show 128 * (xs.length + 1) = 128 + 128 * xs.length by ring, pow_add]
      have : limbMax + 1 = 2 ^ 128 := by decide
      linear_combination (2 ^ 128) * i4 + this
    · have e : wsub x 1 = x - 1 := wsub_of_le hx (by omega)
      rw [e]
      have hne : x - 1 ≠ limbMax := by simp only [limbMax]; omega
      rw [if_pos hne]
      refine ⟨by simp, Limbs.cons (by omega) h.tail, by simp, ?_⟩
      simp; omega

theorem decrement_one {s : Nat} (h : s < 2 ^ 128) (h0 : 0 < s) : Sig.decrement [s] = ([s - 1], 0) := by
  unfold Sig.decrement
  rw [wsub_of_le h (by omega)]
  simp only []
  rw [if_pos (by simp only [limbMax]; omega)]

theorem addLoop_ok {a b : List Nat} (ha : Limbs a) (hb : Limbs b) (hl : a.length = b.length) :
    ∀ c, c ≤ 1 → (Sig.addLoop a b c).1.length = a.length ∧ Limbs (Sig.addLoop a b c).1 ∧
    (Sig.addLoop a b c).2 ≤ 1 ∧
    val (Sig.addLoop a b c).1 + (Sig.addLoop a b c).2 * 2 ^ (128 * a.length) = val a + val b + c := by
  induction a generalizing b with
  | nil => cases b with
    | nil => intro c hc; simp [Sig.addLoop, Limbs.nil, hc]
    | cons => simp at hl
  | cons x xs ih => cases b with
    | nil => simp at hl
    | cons y ys =>
      intro c hc
      have hx := ha.head
      have hy := hb.head
      unfold Sig.addLoop
      simp only []
      have key : ∃ o, (decide (2 ^ 128 ≤ x + y) || decide (2 ^ 128 ≤ (x + y) % 2 ^ 128 + c)).toNat = o ∧
          o ≤ 1 ∧ ((x + y) % 2 ^ 128 + c) % 2 ^ 128 + o * 2 ^ 128 = x + y + c := by
        refine ⟨_, rfl, Bool.toNat_le _, ?_⟩
        by_cases h1 : 2 ^ 128 ≤ x + y
        · have e : (x + y) % 2 ^ 128 = x + y - 2 ^ 128 := by omega
          simp only [h1, decide_true, Bool.true_or, Bool.toNat_true, e]
          omega
        · have e : (x + y) % 2 ^ 128 = x + y := by omega
          by_cases h2 : 2 ^ 128 ≤ x + y + c
          · simp only [h1, h2, decide_true, Bool.or_true, Bool.toNat_true, e]; omega
          · simp only [h1, h2, decide_false, Bool.or_false, Bool.toNat_false, e]; omega
      obtain ⟨o, ho, ho1, hov⟩ := key
      rw [ho]
      obtain ⟨i1, i2, i3, i4⟩ := ih ha.tail hb.tail (by simpa using hl) o ho1
      refine ⟨by simpa using i1, Limbs.cons (Nat.mod_lt _ (by positivity)) i2, i3, ?_⟩
      simp only [val_cons, List.length_cons]
      rw [show 128 * (xs.length + 1) = 128 + 128 * xs.length by ring, pow_add]
      linear_combination (2 ^ 128) * i4 + hov

theorem add_ok {a b : List Nat} (ha : Limbs a) (hb : Limbs b) (hl : a.length = b.length) {c : Nat} (hc : c ≤ 1) :
    ∃ r o, Sig.add a b c = .ok (r, o) ∧ r.length = a.length ∧ Limbs r ∧ o ≤ 1 ∧
      val r + o * 2 ^ (128 * a.length) = val a + val b + c := by
  unfold Sig.add
  rw [massert_pos hc, M.ok_bind]
  obtain ⟨i1, i2, i3, i4⟩ := addLoop_ok ha hb hl c hc
  exact ⟨_, _, rfl, i1, i2, i3, i4⟩

/-- Addition that does not overflow the slice. -/
theorem add_ok_fit {a b : List Nat} (ha : Limbs a) (hb : Limbs b) (hl : a.length = b.length)
    (hf : val a + val b < 2 ^ (128 * a.length)) :
    ∃ r, Sig.add a b 0 = .ok (r, 0) ∧ r.length = a.length ∧ Limbs r ∧ val r = val a + val b := by
  obtain ⟨r, o, h1, h2, h3, h4, h5⟩ := add_ok ha hb hl (c := 0) (by omega)
  have : o = 0 := by
    rcases Nat.eq_zero_or_pos o with h | h
    · exact h
    · exfalso
      have : 1 * 2 ^ (128 * a.length) ≤ o * 2 ^ (128 * a.length) := Nat.mul_le_mul_right _ h
      omega
  subst this
  exact ⟨r, h1, h2, h3, by omega⟩

theorem subLoop_ok {a b : List Nat} (ha : Limbs a) (hb : Limbs b) (hl : a.length = b.length) :
    ∀ c, c ≤ 1 → (Sig.subLoop a b c).1.length = a.length ∧ Limbs (Sig.subLoop a b c).1 ∧
    (Sig.subLoop a b c).2 ≤ 1 ∧
    val (Sig.subLoop a b c).1 + val b + c = val a + (Sig.subLoop a b c).2 * 2 ^ (128 * a.length) := by
  induction a generalizing b with
  | nil => cases b with
    | nil => intro c hc; simp [Sig.subLoop, Limbs.nil, hc]
    | cons => simp at hl
  | cons x xs ih => cases b with
    | nil => simp at hl
    | cons y ys =>
      intro c hc
      have hx := ha.head
      have hy := hb.head
      unfold Sig.subLoop
      simp only []
      have key : ∃ o, (decide (x < y) || decide (wsub x y < c)).toNat = o ∧
          o ≤ 1 ∧ wsub (wsub x y) c < 2 ^ 128 ∧ wsub (wsub x y) c + y + c = x + o * 2 ^ 128 := by
        refine ⟨_, rfl, Bool.toNat_le _, Nat.mod_lt _ (by positivity), ?_⟩
        by_cases h1 : x < y
        · rw [wsub_of_lt hy h1]
          simp only [h1, decide_true, Bool.true_or, Bool.toNat_true]
          rw [wsub_of_le (by omega) (by omega)]
          omega
        · rw [wsub_of_le hx (by omega)]
          by_cases h2 : x - y < c
          · simp only [h1, h2, decide_true, Bool.or_true, Bool.toNat_true]
            rw [wsub_of_lt (by omega) h2]
            omega
          · simp only [h1, h2, decide_false, Bool.or_false, Bool.toNat_false]
            rw [wsub_of_le (by omega) (by omega)]
            omega
      obtain ⟨o, ho, ho1, hlt, hov⟩ := key
      rw [ho]
      obtain ⟨i1, i2, i3, i4⟩ := ih ha.tail hb.tail (by simpa using hl) o ho1
      refine ⟨by simpa using i1, Limbs.cons hlt i2, i3, ?_⟩
      simp only [val_cons, List.length_cons]
      rw [show 128 * (xs.length + 1) = 128 + 128 * xs.length by ring, pow_add]
      linear_combination (2 ^ 128) * i4 + hov

theorem sub_ok {a b : List Nat} (ha : Limbs a) (hb : Limbs b) (hl : a.length = b.length) {c : Nat} (hc : c ≤ 1) :
    ∃ r o, Sig.sub a b c = .ok (r, o) ∧ r.length = a.length ∧ Limbs r ∧ o ≤ 1 ∧
      val r + val b + c = val a + o * 2 ^ (128 * a.length) := by
  unfold Sig.sub
  rw [massert_pos hc, M.ok_bind]
  obtain ⟨i1, i2, i3, i4⟩ := subLoop_ok ha hb hl c hc
  exact ⟨_, _, rfl, i1, i2, i3, i4⟩

/-- Subtraction without a final borrow. -/
theorem sub_ok_fit {a b : List Nat} (ha : Limbs a) (hb : Limbs b) (hl : a.length = b.length) {c : Nat} (hc : c ≤ 1)
    (hf : val b + c ≤ val a) :
    ∃ r, Sig.sub a b c = .ok (r, 0) ∧ r.length = a.length ∧ Limbs r ∧ val r = val a - val b - c := by
  obtain ⟨r, o, h1, h2, h3, h4, h5⟩ := sub_ok ha hb hl hc
  have hr := val_lt h3
  rw [h2] at hr
  have : o = 0 := by
    rcases Nat.eq_zero_or_pos o with h | h
    · exact h
    · exfalso
      have : 1 * 2 ^ (128 * a.length) ≤ o * 2 ^ (128 * a.length) := Nat.mul_le_mul_right _ h
      omega
  subst this
  exact ⟨r, h1, h2, h3, by omega⟩

/-! ### Multiplication -/

theorem wideningMulStep_ok {a b : Nat} {w : List Nat} (i j : Nat) (hi : i ≤ 1) (hj : j ≤ 1)
    (hw : Limbs w) (hl : w.length = 2)
    (hf : val w + (a / 2 ^ (i * 64) % 2 ^ 64) * (b / 2 ^ (j * 64) % 2 ^ 64) * 2 ^ ((i + j) * 64) < 2 ^ 256) :
    ∃ r, Sig.wideningMulStep a b w i j = .ok r ∧ r.length = 2 ∧ Limbs r ∧
      val r = val w + (a / 2 ^ (i * 64) % 2 ^ 64) * (b / 2 ^ (j * 64) % 2 ^ 64) * 2 ^ ((i + j) * 64) := by
  unfold Sig.wideningMulStep
  rw [Nat.and_two_pow_sub_one_eq_mod, Nat.and_two_pow_sub_one_eq_mod, Nat.shiftRight_eq_div_pow,
    Nat.shiftRight_eq_div_pow]
  have ha : a / 2 ^ (i * 64) % 2 ^ 64 < 2 ^ 64 := Nat.mod_lt _ (by positivity)
  have hb : b / 2 ^ (j * 64) % 2 ^ 64 < 2 ^ 64 := Nat.mod_lt _ (by positivity)
  generalize a / 2 ^ (i * 64) % 2 ^ 64 = A at *
  generalize b / 2 ^ (j * 64) % 2 ^ 64 = B at *
  have hAB : A * B < 2 ^ 128 := by
    calc A * B ≤ (2 ^ 64 - 1) * (2 ^ 64 - 1) := Nat.mul_le_mul (by omega) (by omega)
      _ < 2 ^ 128 := by norm_num
  rw [u128_ok hAB, M.ok_bind]
  have hij : (i + j) * 64 ≤ 128 := by omega
  obtain ⟨x, e1, e2, e3, e4⟩ := shiftLeft_ok (l := [A * B, 0]) (Limbs.two hAB (by positivity)) (exp := 0)
    (bits := (i + j) * 64) (by omega) (by omega) (by omega)
  rw [e1, M.ok_bind]
  simp only [List.length_cons, List.length_nil, val_cons, val_nil] at e4 e2
  have e4' : val x = A * B * 2 ^ ((i + j) * 64) := by
    rw [e4]
    simp only [Nat.mul_zero, Nat.add_zero]
    apply Nat.mod_eq_of_lt
    have : (2 : Nat) ^ (128 * (0 + 1 + 1)) = 2 ^ 256 := by norm_num
    rw [this]; omega
  obtain ⟨r, f1, f2, f3, f4⟩ := add_ok_fit hw e3 (by omega) (by rw [hl, e4']; simpa using hf)
  simp only []
  rw [f1, M.ok_bind]
  simp only [massert_true, M.ok_bind]
  exact ⟨r, rfl, by omega, f3, by rw [f4, e4']⟩

theorem wideningMul_ok {a b : Nat} (ha : a < 2 ^ 128) (hb : b < 2 ^ 128) :
    ∃ r, Sig.wideningMul a b = .ok r ∧ r.length = 2 ∧ Limbs r ∧ val r = a * b := by
  unfold Sig.wideningMul
  split
  · rename_i h
    refine ⟨[0, 0], rfl, rfl, Limbs.two (by positivity) (by positivity), ?_⟩
    rcases h with h | h <;> simp [h]
  · have a0 : a / 2 ^ (0 * 64) % 2 ^ 64 = a % 2 ^ 64 := by simp
    have b0 : b / 2 ^ (0 * 64) % 2 ^ 64 = b % 2 ^ 64 := by simp
    have a1 : a / 2 ^ (1 * 64) % 2 ^ 64 = a / 2 ^ 64 := by
      rw [Nat.one_mul]; apply Nat.mod_eq_of_lt; omega
    have b1 : b / 2 ^ (1 * 64) % 2 ^ 64 = b / 2 ^ 64 := by
      rw [Nat.one_mul]; apply Nat.mod_eq_of_lt; omega
    have ea : a = a % 2 ^ 64 + 2 ^ 64 * (a / 2 ^ 64) := (Nat.mod_add_div _ _).symm
    have eb : b = b % 2 ^ 64 + 2 ^ 64 * (b / 2 ^ 64) := (Nat.mod_add_div _ _).symm
    have hab : a * b < 2 ^ 256 := by
      calc a * b ≤ (2 ^ 128 - 1) * (2 ^ 128 - 1) := Nat.mul_le_mul (by omega) (by omega)
        _ < 2 ^ 256 := by norm_num
    have etot : a * b = (a % 2 ^ 64) * (b % 2 ^ 64) + (a % 2 ^ 64) * (b / 2 ^ 64) * 2 ^ 64
        + (a / 2 ^ 64) * (b % 2 ^ 64) * 2 ^ 64 + (a / 2 ^ 64) * (b / 2 ^ 64) * 2 ^ 128 := by
      conv_lhs => rw [ea, eb]
      ring
    obtain ⟨w1, p1, p2, p3, p4⟩ := wideningMulStep_ok (a := a) (b := b) (w := [0, 0]) 0 0 (by omega) (by omega)
      (Limbs.two (by positivity) (by positivity)) rfl (by
        rw [a0, b0]; simp only [val_cons, val_nil, Nat.zero_add, Nat.zero_mul, Nat.mul_zero, Nat.pow_zero, Nat.mul_one]; omega)
    rw [a0, b0] at p4
    simp only [val_cons, val_nil, Nat.zero_add, Nat.zero_mul, Nat.mul_zero, Nat.pow_zero, Nat.mul_one] at p4
    rw [p1, M.ok_bind]
    obtain ⟨w2, q1, q2, q3, q4⟩ := wideningMulStep_ok (a := a) (b := b) (w := w1) 0 1 (by omega) (by omega)
      p3 p2 (by rw [a0, b1, p4]; simp only [Nat.zero_add, Nat.one_mul]; omega)
    rw [a0, b1, p4] at q4
    simp only [Nat.zero_add, Nat.one_mul] at q4
    rw [q1, M.ok_bind]
    obtain ⟨w3, r1, r2, r3, r4⟩ := wideningMulStep_ok (a := a) (b := b) (w := w2) 1 0 (by omega) (by omega)
      q3 q2 (by rw [a1, b0, q4]; simp only [Nat.add_zero, Nat.one_mul]; omega)
    rw [a1, b0, q4] at r4
    simp only [Nat.add_zero, Nat.one_mul] at r4
    rw [r1, M.ok_bind]
    obtain ⟨w4, s1, s2, s3, s4⟩ := wideningMulStep_ok (a := a) (b := b) (w := w3) 1 1 (by omega) (by omega)
      r3 r2 (by rw [a1, b1, r4]; simp only [show (1 + 1) * 64 = 128 from rfl]; omega)
    rw [a1, b1, r4] at s4
    simp only [show (1 + 1) * 64 = 128 from rfl] at s4
    exact ⟨w4, s1, s2, s3, by rw [s4, etot]⟩

theorem pair_ok {w : List Nat} (h : w.length = 2) : ∃ lo hi, w = [lo, hi] ∧ Sig.pair w = .ok (lo, hi) := by
  match w, h with
  | [lo, hi], _ => exact ⟨lo, hi, rfl, rfl⟩

theorem val_drop_set (l : List Nat) (k v : Nat) (h : k < l.length) :
    val (l.set k v) + 2 ^ (128 * k) * l.getD k 0 = val l + 2 ^ (128 * k) * v := by
  induction l generalizing k with
  | nil => simp at h
  | cons x xs ih =>
    cases k with
    | zero => simp; ring
    | succ k =>
      have := ih k (by simpa using h)
      simp only [List.set_cons_succ, val_cons, List.getD_cons_succ]
      rw [show 128 * (k + 1) = 128 + 128 * k by ring, pow_add]
      linear_combination (2 ^ 128) * this

theorem Limbs.set {l : List Nat} (h : Limbs l) (k : Nat) {v : Nat} (hv : v < 2 ^ 128) : Limbs (l.set k v) := by
  intro x hx
  rcases List.mem_or_eq_of_mem_set hx with h' | h'
  · exact h _ h'
  · rw [h']; exact hv

theorem carry_split {a b : Nat} (ha : a < 2 ^ 128) (hb : b < 2 ^ 128) :
    (decide (2 ^ 128 ≤ a + b)).toNat * 2 ^ 128 + (a + b) % 2 ^ 128 = a + b := by
  by_cases h : 2 ^ 128 ≤ a + b
  · simp only [h, decide_true, Bool.toNat_true]; omega
  · simp only [h, decide_false, Bool.toNat_false]; omega

theorem mulInner_ok {ai : Nat} (hai : ai < 2 ^ 128) {b : List Nat} (hb : Limbs b) :
    ∀ (k carry : Nat) (dst : List Nat), Limbs dst → carry < 2 ^ 128 → k + b.length ≤ dst.length →
    ∃ r c, Sig.mulInner ai b k carry dst = .ok (r, c) ∧ r.length = dst.length ∧ Limbs r ∧ c < 2 ^ 128 ∧
      val r + 2 ^ (128 * (k + b.length)) * c = val dst + 2 ^ (128 * k) * (ai * val b + carry) ∧
      ∀ j, k + b.length ≤ j → r.getD j 0 = dst.getD j 0 := by
  induction b with
  | nil =>
    intro k carry dst hd hc hl
    refine ⟨dst, carry, rfl, rfl, hd, hc, by simp, by simp⟩
  | cons y ys ih =>
    intro k carry dst hd hc hl
    simp only [List.length_cons] at hl
    have hy := hb.head
    unfold Sig.mulInner
    obtain ⟨w, w1, w2, w3, w4⟩ := wideningMul_ok hai hy
    obtain ⟨lo, hi, rfl, p2⟩ := pair_ok w2
    rw [w1, M.ok_bind, p2, M.ok_bind]
    have hlo : lo < 2 ^ 128 := w3.head
    have hhi : hi < 2 ^ 128 := w3.tail.head
    simp only [val_cons, val_nil, Nat.mul_zero, Nat.add_zero] at w4
    simp only []
    have hdk := hd.getD k
    generalize hdd : dst.getD k 0 = d at *
    have hprod : ai * y ≤ 2 ^ 256 - 2 * 2 ^ 128 + 1 :=
      le_trans (Nat.mul_le_mul (show ai ≤ 2 ^ 128 - 1 by omega) (show y ≤ 2 ^ 128 - 1 by omega)) (by norm_num)
    have e1 := carry_split hlo hc
    have l1 : (lo + carry) % 2 ^ 128 < 2 ^ 128 := Nat.mod_lt _ (by positivity)
    generalize (decide (2 ^ 128 ≤ lo + carry)).toNat = o1 at *
    generalize (lo + carry) % 2 ^ 128 = lo1 at *
    have e2 := carry_split l1 hdk
    have l2 : (lo1 + d) % 2 ^ 128 < 2 ^ 128 := Nat.mod_lt _ (by positivity)
    have hi1 : hi + o1 < 2 ^ 128 := by omega
    rw [u128_ok hi1, M.ok_bind, idx_getD (by omega), hdd, M.ok_bind]
    generalize (decide (2 ^ 128 ≤ lo1 + d)).toNat = o2 at *
    generalize (lo1 + d) % 2 ^ 128 = lo2 at *
    have hi2 : hi + o1 + o2 < 2 ^ 128 := by omega
    rw [u128_ok hi2, M.ok_bind, setIdx_ok (by omega), M.ok_bind]
    obtain ⟨r, c, r1, r2, r3, r4, r5, r6⟩ := ih hb.tail (k + 1) (hi + o1 + o2) (dst.set k lo2) (hd.set k l2) hi2
      (by simp; omega)
    refine ⟨r, c, r1, by simpa using r2, r3, r4, ?_, ?_⟩
    · have hs := val_drop_set dst k lo2 (by omega)
      rw [hdd] at hs
      simp only [List.length_cons, val_cons]
      rw [show k + (ys.length + 1) = k + 1 + ys.length by ring]
      rw [show 128 * (k + 1) = 128 * k + 128 by ring, pow_add] at r5
      generalize 2 ^ (128 * (k + 1 + ys.length)) = P at *
      generalize 2 ^ (128 * k) = Q at *
      have : val r + P * c + Q * d = val dst + Q * (ai * (y + 2 ^ 128 * val ys) + carry) + Q * d := by
        linear_combination r5 + hs + Q * e1 + Q * e2 + Q * w4
      exact Nat.add_right_cancel this
    · intro j hj
      simp only [List.length_cons] at hj
      rw [r6 j (by omega), getD_set _ _ _ _ (by omega), if_neg (by omega)]

theorem val_take_drop (l : List Nat) (k : Nat) (h : k ≤ l.length) :
    val l = val (l.take k) + 2 ^ (128 * k) * val (l.drop k) := by
  conv_lhs => rw [← List.take_append_drop k l]
  rw [val_append, List.length_take, Nat.min_eq_left h]

theorem mulOuter_ok {b : List Nat} (hb : Limbs b) {a : List Nat} (ha : Limbs a) :
    ∀ (i : Nat) (dst : List Nat), Limbs dst → i + a.length + b.length ≤ dst.length →
    ∃ r, Sig.mulOuter b a i dst = .ok r ∧ r.length = dst.length ∧ Limbs r ∧
      val (r.take (i + a.length + b.length)) = val (dst.take (i + b.length)) + 2 ^ (128 * i) * (val a * val b) := by
  induction a with
  | nil => intro i dst hd hl; exact ⟨dst, rfl, rfl, hd, by simp⟩
  | cons x xs ih =>
    intro i dst hd hl
    simp only [List.length_cons] at hl
    unfold Sig.mulOuter
    obtain ⟨r, c, r1, r2, r3, r4, r5, r6⟩ := mulInner_ok ha.head hb i 0 dst hd (by positivity) (by omega)
    rw [r1, M.ok_bind]
    simp only []
    rw [setIdx_ok (by omega), M.ok_bind]
    obtain ⟨r', s1, s2, s3, s4⟩ := ih ha.tail (i + 1) (r.set (i + b.length) c) (r3.set _ r4) (by simp; omega)
    refine ⟨r', s1, by simp at s2; omega, s3, ?_⟩
    have hdrop : r.drop (i + b.length) = dst.drop (i + b.length) := by
      apply ext_getD
      · simp [r2]
      · intro j hj
        have := r6 (i + b.length + j) (by omega)
        simpa [List.getD_eq_getElem?_getD, List.getElem?_drop] using this
    have t1 : val ((r.set (i + b.length) c).take (i + 1 + b.length)) = val (r.take (i + b.length)) + 2 ^ (128 * (i + b.length)) * c := by
      rw [show i + 1 + b.length = i + b.length + 1 by ring, List.take_succ_eq_append_getElem (by simp; omega), val_append,
        List.take_set_of_le (le_refl _), List.getElem_set_self, val_singleton, List.length_take,
        Nat.min_eq_left (by omega)]
    have t2 := val_take_drop r (i + b.length) (by omega)
    have t3 := val_take_drop dst (i + b.length) (by omega)
    rw [hdrop] at t2
    rw [show i + (x :: xs).length + b.length = i + 1 + xs.length + b.length by simp only [List.length_cons]; ring, s4, t1]
    simp only [val_cons]
    rw [show 128 * (i + 1) = 128 * i + 128 by ring, pow_add]
    have : val (r.take (i + b.length)) + 2 ^ (128 * (i + b.length)) * c =
        val (dst.take (i + b.length)) + 2 ^ (128 * i) * (x * val b + 0) := by
      rw [t2, t3] at r5
      generalize 2 ^ (128 * (i + b.length)) * val (dst.drop (i + b.length)) = Z at *
      omega
    linear_combination this

/-- The limb product: exact, then reduced to `precision` bits with the lost fraction. -/
theorem mul_ok {dst a b : List Nat} (hd : Limbs dst) (ha : Limbs a) (hb : Limbs b)
    (hl : dst.length = a.length + b.length) (hlb : dst.length < 8500000) {exp : Int} {precision : Nat}
    (hp : precision < 1000000000) (he1 : -1000000000 ≤ exp) (he2 : exp ≤ 1000000000) :
    ∃ r, Sig.mul dst exp a b precision =
        .ok (r, exp + 1 - precision + (Nat.size (val a * val b) - precision : Nat),
          lossOf (val a * val b % 2 ^ (Nat.size (val a * val b) - precision))
            (2 ^ (Nat.size (val a * val b) - precision))) ∧
      r.length = dst.length ∧ Limbs r ∧
      val r = val a * val b / 2 ^ (Nat.size (val a * val b) - precision) := by
  have main : ∀ a b : List Nat, Limbs a → Limbs b → a.length ≤ b.length → dst.length = a.length + b.length →
      ∃ r, (do
        let dst ← Sig.zeroLow dst b.length
        let dst ← Sig.mulOuter b a 0 dst
        let exp ← i32 (exp + 2)
        let d ← i32 (asI32 precision + 1)
        let exp ← i32 (exp - d)
        let om := Sig.omsb dst
        if om ≤ precision then .ok (dst, exp, Loss.exactlyZero)
        else Sig.shiftRight dst exp (om - precision)) =
        .ok (r, exp + 1 - precision + (Nat.size (val a * val b) - precision : Nat),
          lossOf (val a * val b % 2 ^ (Nat.size (val a * val b) - precision))
            (2 ^ (Nat.size (val a * val b) - precision))) ∧
      r.length = dst.length ∧ Limbs r ∧
      val r = val a * val b / 2 ^ (Nat.size (val a * val b) - precision) := by
    intro a b ha hb hle hl
    unfold Sig.zeroLow
    rw [if_pos (by omega), M.ok_bind]
    have hz : Limbs (List.replicate b.length 0 ++ dst.drop b.length) := by
      intro x hx
      rcases List.mem_append.1 hx with h | h
      · rw [List.eq_of_mem_replicate h]; positivity
      · exact hd x (List.mem_of_mem_drop h)
    obtain ⟨r, r1, r2, r3, r4⟩ := mulOuter_ok hb ha 0 _ hz (by simp; omega)
    have hrl : r.length = dst.length := by rw [r2]; simp; omega
    rw [List.take_of_length_le (by omega)] at r4
    have : val r = val a * val b := by
      rw [r4]
      simp [val_replicate]
    clear r4
    rw [r1, M.ok_bind, i32_ok (by omega) (by omega), M.ok_bind, asI32_of_lt (by omega), i32_ok (by omega) (by omega),
      M.ok_bind, i32_ok (by omega) (by omega), M.ok_bind]
    simp only []
    rw [omsb_eq r3, this]
    have hsz : Nat.size (val a * val b) ≤ 128 * dst.length := by
      rw [Nat.size_le, ← this, ← hrl]; exact val_lt r3
    split
    · rename_i hc
      have h0 : Nat.size (val a * val b) - precision = 0 := by omega
      refine ⟨r, ?_, hrl, r3, by rw [h0]; simp [this]⟩
      rw [h0]
      congr 2
      · simp only [Prod.mk.injEq]; refine ⟨by push_cast; ring, ?_⟩
        simp [lossOf, Nat.mod_one]
    · obtain ⟨q, q1, q2, q3, q4⟩ := shiftRight_ok r3 (exp := exp + 2 - (precision + 1))
        (bits := Nat.size (val a * val b) - precision) (by omega) (by omega) (by omega)
      refine ⟨q, ?_, by omega, q3, by rw [q4, this]⟩
      rw [q1, this]
      congr 2
      simp only [Prod.mk.injEq, and_true]
      ring
  unfold Sig.mul
  by_cases hab : a.length > b.length
  · simp only [hab, if_true]
    have := main b a hb ha (by omega) (by omega)
    rw [Nat.mul_comm (val b) (val a)] at this
    exact this
  · simp only [hab, if_false]
    exact main a b ha hb (by omega) hl

end Apf
