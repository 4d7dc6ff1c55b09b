import Verif.Proof.Limbs
/-! Correctness of the shifts, bit searches and comparison on limb slices. -/

namespace Apf

theorem idx_getD {l : List Nat} {i : Nat} (h : i < l.length) : idx l i = .ok (l.getD i 0) := by
  rw [idx_ok h, getD_lt h]

theorem getD_set (l : List Nat) (i j v : Nat) (h : i < l.length) :
    (l.set i v).getD j 0 = if j = i then v else l.getD j 0 := by
  simp only [List.getD_eq_getElem?_getD, List.getElem?_set]
  by_cases hij : i = j
  · subst hij; simp [h]
  · simp [hij, Ne.symm hij]

theorem ext_getD {a b : List Nat} (hl : a.length = b.length)
    (h : ∀ j, j < a.length → a.getD j 0 = b.getD j 0) : a = b := by
  apply List.ext_getElem hl
  intro i h1 h2
  have := h i h1
  rwa [getD_lt h1, getD_lt h2] at this

theorem limbs_of_getD {l : List Nat} (h : ∀ j, j < l.length → l.getD j 0 < 2 ^ 128) : Limbs l := by
  intro x hx
  obtain ⟨i, hi, rfl⟩ := List.getElem_of_mem hx
  rw [← getD_lt hi]; exact h i hi

/-- Limb `j` of a left shift. -/
def newL (l : List Nat) (jump shift j : Nat) : Nat :=
  if j < jump then 0
  else if shift > 0 then
    (l.getD (j - jump) 0 * 2 ^ shift % 2 ^ 128) |||
      (if j ≥ jump + 1 then l.getD (j - jump - 1) 0 / 2 ^ (128 - shift) else 0)
  else l.getD (j - jump) 0

theorem shiftLeftLimb_ok {l : List Nat} {jump shift i : Nat} (hi : i < l.length) (hs : shift < 128) :
    Sig.shiftLeftLimb l jump shift i = .ok (newL l jump shift i) := by
  unfold Sig.shiftLeftLimb newL
  split
  · rfl
  · rw [idx_getD (by omega)]
    simp only [M.ok_bind]
    split
    · rw [shl_ok hs]
      simp only [M.ok_bind]
      split
      · rw [idx_getD (by omega)]
        simp only [M.ok_bind]
        rw [shr_ok (by simp only [limbBits]; omega)]
        rfl
      · simp
    · rfl

theorem shiftLeftLoop_ok (jump shift : Nat) (hs : shift < 128) (n : Nat) :
    ∀ (dst : List Nat), n ≤ dst.length →
    ∃ r, Sig.shiftLeftLoop jump shift n dst = .ok r ∧ r.length = dst.length ∧
      ∀ j, r.getD j 0 = if j < n then newL dst jump shift j else dst.getD j 0 := by
  induction n with
  | zero => intro dst _; exact ⟨dst, rfl, rfl, by simp⟩
  | succ n ih =>
    intro dst hn
    unfold Sig.shiftLeftLoop
    rw [shiftLeftLimb_ok (by omega) hs, M.ok_bind, setIdx_ok (by omega), M.ok_bind]
    obtain ⟨r, h1, h2, h3⟩ := ih (dst.set n (newL dst jump shift n)) (by simp; omega)
    refine ⟨r, h1, by simpa using h2, ?_⟩
    intro j
    rw [h3 j]
    by_cases hj : j < n
    · rw [if_pos hj, if_pos (by omega)]
      unfold newL
      rw [getD_set _ _ _ _ (by omega), getD_set _ _ _ _ (by omega)]
      rw [if_neg (show ¬ j - jump = n by omega), if_neg (show ¬ j - jump - 1 = n by omega)]
    · rw [if_neg hj, getD_set _ _ _ _ (by omega)]
      by_cases hj2 : j = n
      · subst hj2; simp
      · rw [if_neg hj2, if_neg (by omega)]

theorem newL_testBit {l : List Nat} (h : Limbs l) (bits j t : Nat) (ht : t < 128) :
    (newL l (bits / 128) (bits % 128) j).testBit t = (val l * 2 ^ bits).testBit (128 * j + t) := by
  rw [Nat.testBit_mul_two_pow, val_testBit h]
  unfold newL
  by_cases h1 : j < bits / 128
  · simp only [h1, if_true, Nat.zero_testBit]
    have : ¬ (128 * j + t ≥ bits) := by omega
    simp [this]
  · rw [if_neg h1]
    by_cases h2 : bits % 128 > 0
    · rw [if_pos h2, Nat.testBit_or, Nat.testBit_mod_two_pow, Nat.testBit_mul_two_pow]
      by_cases h3 : t ≥ bits % 128
      · have h4 : 128 * j + t ≥ bits := by omega
        have e1 : (128 * j + t - bits) / 128 = j - bits / 128 := by omega
        have e2 : (128 * j + t - bits) % 128 = t - bits % 128 := by omega
        have h5 : (if j ≥ bits / 128 + 1 then l.getD (j - bits / 128 - 1) 0 / 2 ^ (128 - bits % 128) else 0).testBit t
            = false := by
          split
          · rw [Nat.testBit_div_two_pow]
            apply Nat.testBit_lt_two_pow
            apply lt_of_lt_of_le (h.getD _)
            apply Nat.pow_le_pow_right (by omega); omega
          · simp
        rw [h5, e1, e2]
        simp [h3, h4, ht]
      · have h6 : (decide (t < 128) && (decide (bits % 128 ≤ t) && (l.getD (j - bits / 128) 0).testBit (t - bits % 128)))
            = false := by
          simp; omega
        rw [h6, Bool.false_or]
        by_cases h7 : j ≥ bits / 128 + 1
        · rw [if_pos h7, Nat.testBit_div_two_pow]
          have h4 : bits ≤ 128 * j + t := by omega
          have e1 : (128 * j + t - bits) / 128 = j - bits / 128 - 1 := by omega
          have e2 : (128 * j + t - bits) % 128 = t + (128 - bits % 128) := by omega
          rw [e1, e2]; simp [h4]
        · have : ¬ (bits ≤ 128 * j + t) := by omega
          rw [if_neg h7]; simp [this]
    · rw [if_neg h2]
      have h4 : bits ≤ 128 * j + t := by omega
      have e1 : (128 * j + t - bits) / 128 = j - bits / 128 := by omega
      have e2 : (128 * j + t - bits) % 128 = t := by omega
      rw [e1, e2]; simp [h4]

theorem newL_lt {l : List Nat} (h : Limbs l) (jump shift j : Nat) :
    newL l jump shift j < 2 ^ 128 := by
  unfold newL
  split
  · positivity
  · split
    · apply Nat.or_lt_two_pow
      · exact Nat.mod_lt _ (by positivity)
      · split
        · exact lt_of_le_of_lt (Nat.div_le_self _ _) (h.getD _)
        · positivity
    · exact h.getD _

/-- Left shift multiplies by a power of two, modulo the size of the slice. -/
theorem shiftLeft_ok {l : List Nat} (h : Limbs l) {exp : Int} {bits : Nat} (hb : bits < 2147483648)
    (h1 : -2147483648 ≤ exp - bits) (h2 : exp - bits ≤ 2147483647) :
    ∃ r, Sig.shiftLeft l exp bits = .ok (r, exp - bits) ∧ r.length = l.length ∧ Limbs r ∧
      val r = val l * 2 ^ bits % 2 ^ (128 * l.length) := by
  unfold Sig.shiftLeft
  by_cases h0 : bits > 0
  · rw [if_pos h0, asI32_of_lt hb, i32_ok h1 h2, M.ok_bind]
    obtain ⟨r, e1, e2, e3⟩ := shiftLeftLoop_ok (bits / 128) (bits % 128) (Nat.mod_lt _ (by omega)) l.length l (le_refl _)
    have hr : Limbs r := by
      apply limbs_of_getD
      intro j hj
      rw [e3, if_pos (by omega)]; exact newL_lt h _ _ _
    refine ⟨r, ?_, e2, hr, ?_⟩
    · simp only [limbBits]; rw [e1]; rfl
    · apply Nat.eq_of_testBit_eq
      intro k
      rw [val_testBit hr, Nat.testBit_mod_two_pow]
      by_cases hk : k / 128 < l.length
      · rw [e3, if_pos hk, newL_testBit h _ _ _ (Nat.mod_lt _ (by omega)), Nat.div_add_mod]
        have : k < 128 * l.length := by omega
        simp [this]
      · rw [getD_ge (by omega)]
        have : ¬ k < 128 * l.length := by omega
        simp [this]
  · have : bits = 0 := by omega
    subst this
    exact ⟨l, by simp, rfl, h, by simpa using (Nat.mod_eq_of_lt (val_lt h)).symm⟩

/-- Limb `j` of a right shift. -/
def newR (l : List Nat) (jump shift j : Nat) : Nat :=
  if shift > 0 then
    (l.getD (j + jump) 0 / 2 ^ shift) ||| (l.getD (j + jump + 1) 0 * 2 ^ (128 - shift) % 2 ^ 128)
  else l.getD (j + jump) 0

theorem shiftRightLimb_ok {l : List Nat} {jump shift i : Nat} (hs : shift < 128) :
    Sig.shiftRightLimb l jump shift i = .ok (newR l jump shift i) := by
  unfold Sig.shiftRightLimb newR
  split
  · rename_i h
    rw [getD_ge (show l.length ≤ i + jump by omega), getD_ge (show l.length ≤ i + jump + 1 by omega)]
    simp
  · rw [idx_getD (by omega)]
    simp only [M.ok_bind]
    split
    · rw [shr_ok hs]
      simp only [M.ok_bind]
      split
      · rw [idx_getD (by omega)]
        simp only [M.ok_bind]
        rw [shl_ok (by simp only [limbBits]; omega)]
        rfl
      · rw [getD_ge (show l.length ≤ i + jump + 1 by omega)]
        simp
    · rfl

theorem shiftRightLoop_ok (jump shift : Nat) (hs : shift < 128) (n : Nat) :
    ∀ (i : Nat) (dst : List Nat), i + n ≤ dst.length →
    ∃ r, Sig.shiftRightLoop jump shift n i dst = .ok r ∧ r.length = dst.length ∧
      ∀ j, r.getD j 0 = if i ≤ j ∧ j < i + n then newR dst jump shift j else dst.getD j 0 := by
  induction n with
  | zero => intro i dst _; exact ⟨dst, rfl, rfl, by intro j; rw [if_neg (by omega)]⟩
  | succ n ih =>
    intro i dst hn
    unfold Sig.shiftRightLoop
    rw [shiftRightLimb_ok hs, M.ok_bind, setIdx_ok (by omega), M.ok_bind]
    obtain ⟨r, h1, h2, h3⟩ := ih (i + 1) (dst.set i (newR dst jump shift i)) (by simp; omega)
    refine ⟨r, h1, by simpa using h2, ?_⟩
    intro j
    rw [h3 j]
    by_cases hj : i + 1 ≤ j ∧ j < i + 1 + n
    · rw [if_pos hj, if_pos (by omega)]
      unfold newR
      rw [getD_set _ _ _ _ (by omega), getD_set _ _ _ _ (by omega)]
      rw [if_neg (show ¬ j + jump = i by omega), if_neg (show ¬ j + jump + 1 = i by omega)]
    · rw [if_neg hj, getD_set _ _ _ _ (by omega)]
      by_cases hj2 : j = i
      · subst hj2; simp
      · rw [if_neg hj2, if_neg (by omega)]

theorem newR_testBit {l : List Nat} (h : Limbs l) (bits j t : Nat) (ht : t < 128) :
    (newR l (bits / 128) (bits % 128) j).testBit t = (val l / 2 ^ bits).testBit (128 * j + t) := by
  rw [Nat.testBit_div_two_pow, val_testBit h]
  unfold newR
  by_cases h2 : bits % 128 > 0
  · rw [if_pos h2, Nat.testBit_or, Nat.testBit_div_two_pow, Nat.testBit_mod_two_pow, Nat.testBit_mul_two_pow]
    by_cases h3 : t + bits % 128 < 128
    · have e1 : (128 * j + t + bits) / 128 = j + bits / 128 := by omega
      have e2 : (128 * j + t + bits) % 128 = t + bits % 128 := by omega
      have e3 : ¬ (128 - bits % 128 ≤ t) := by omega
      rw [e1, e2]; simp [e3]
    · have e1 : (128 * j + t + bits) / 128 = j + bits / 128 + 1 := by omega
      have e2 : (128 * j + t + bits) % 128 = t - (128 - bits % 128) := by omega
      have e3 : (128 - bits % 128 ≤ t) := by omega
      have e4 : (l.getD (j + bits / 128) 0).testBit (t + bits % 128) = false := by
        apply Nat.testBit_lt_two_pow
        apply lt_of_lt_of_le (h.getD _)
        apply Nat.pow_le_pow_right (by omega); omega
      rw [e4, e1, e2]; simp [e3, ht]
  · rw [if_neg h2]
    have e1 : (128 * j + t + bits) / 128 = j + bits / 128 := by omega
    have e2 : (128 * j + t + bits) % 128 = t := by omega
    rw [e1, e2]

theorem newR_lt {l : List Nat} (h : Limbs l) (jump shift j : Nat) :
    newR l jump shift j < 2 ^ 128 := by
  unfold newR
  split
  · apply Nat.or_lt_two_pow
    · exact lt_of_le_of_lt (Nat.div_le_self _ _) (h.getD _)
    · exact Nat.mod_lt _ (by positivity)
  · exact h.getD _

/-- Right shift divides by a power of two and classifies the remainder. -/
theorem shiftRight_ok {l : List Nat} (h : Limbs l) {exp : Int} {bits : Nat} (hb : bits < 2147483648)
    (h1 : -2147483648 ≤ exp + bits) (h2 : exp + bits ≤ 2147483647) :
    ∃ r, Sig.shiftRight l exp bits = .ok (r, exp + bits, lossOf (val l % 2 ^ bits) (2 ^ bits)) ∧
      r.length = l.length ∧ Limbs r ∧ val r = val l / 2 ^ bits := by
  unfold Sig.shiftRight
  rw [throughTruncation_eq h]
  by_cases h0 : bits > 0
  · simp only []
    rw [if_pos h0, asI32_of_lt hb, i32_ok h1 h2, M.ok_bind]
    obtain ⟨r, e1, e2, e3⟩ := shiftRightLoop_ok (bits / 128) (bits % 128) (Nat.mod_lt _ (by omega)) l.length 0 l
      (by omega)
    have hr : Limbs r := by
      apply limbs_of_getD
      intro j hj
      rw [e3, if_pos (by omega)]; exact newR_lt h _ _ _
    refine ⟨r, ?_, e2, hr, ?_⟩
    · simp only [limbBits]; rw [e1]; rfl
    · apply Nat.eq_of_testBit_eq
      intro k
      rw [val_testBit hr]
      by_cases hk : k / 128 < l.length
      · rw [e3, if_pos (by omega), newR_testBit h _ _ _ (Nat.mod_lt _ (by omega)), Nat.div_add_mod]
      · rw [getD_ge (by omega)]
        have : (val l / 2 ^ bits).testBit k = false := by
          apply Nat.testBit_lt_two_pow
          apply lt_of_le_of_lt (Nat.div_le_self _ _)
          apply lt_of_lt_of_le (val_lt h)
          apply Nat.pow_le_pow_right (by omega); omega
        simp [this]
  · have : bits = 0 := by omega
    subst this
    exact ⟨l, by simp, rfl, h, by simp⟩

/-! ### One limb -/

theorem shiftLeft1_ok {s : Nat} (hs : s < 2 ^ 128) {exp : Int} {bits : Nat} (hb : bits < 2147483648)
    (h1 : -2147483648 ≤ exp - bits) (h2 : exp - bits ≤ 2147483647) :
    Sig.shiftLeft1 s exp bits = .ok (s * 2 ^ bits % 2 ^ 128, exp - bits) := by
  obtain ⟨r, e1, e2, e3, e4⟩ := shiftLeft_ok (Limbs.one hs) hb h1 h2
  match r, e2 with
  | [y], _ =>
    simp only [val_singleton, List.length_cons, List.length_nil, Nat.zero_add, Nat.mul_one] at e4
    unfold Sig.shiftLeft1
    rw [e1, M.ok_bind]
    simp only [idx_singleton, M.ok_bind, e4]

theorem shiftRight1_ok {s : Nat} (hs : s < 2 ^ 128) {exp : Int} {bits : Nat} (hb : bits < 2147483648)
    (h1 : -2147483648 ≤ exp + bits) (h2 : exp + bits ≤ 2147483647) :
    Sig.shiftRight1 s exp bits = .ok (s / 2 ^ bits, exp + bits, lossOf (s % 2 ^ bits) (2 ^ bits)) := by
  obtain ⟨r, e1, e2, e3, e4⟩ := shiftRight_ok (Limbs.one hs) hb h1 h2
  match r, e2 with
  | [y], _ =>
    simp only [val_singleton] at e4 e1
    unfold Sig.shiftRight1
    rw [e1, M.ok_bind]
    simp only [idx_singleton, M.ok_bind, e4]

/-! ### Bit searches -/

theorem omsbLoop_eq {l : List Nat} (h : Limbs l) (n : Nat) :
    Sig.omsbLoop l n = Nat.size (val (l.take n)) := by
  induction n with
  | zero => simp [Sig.omsbLoop]
  | succ n ih =>
    unfold Sig.omsbLoop
    by_cases hn : n < l.length
    · have hx := h.getD n
      have e : val (l.take (n + 1)) = val (l.take n) + 2 ^ (128 * n) * l.getD n 0 := by
        rw [List.take_succ_eq_append_getElem hn, val_append, val_singleton, getD_lt hn, List.length_take,
          Nat.min_eq_left (by omega)]
      have hlt : val (l.take n) < 2 ^ (128 * n) := by
        have := val_lt (l := l.take n) (fun x hx => h x (List.mem_of_mem_take hx))
        rwa [List.length_take, Nat.min_eq_left (by omega)] at this
      split
      · rename_i hne
        rw [leadingZeros_eq hx, e]
        have hs : Nat.size (l.getD n 0) ≤ 128 := Nat.size_le.2 hx
        have hp : 0 < Nat.size (l.getD n 0) := size_pos (by omega)
        symm
        simp only [limbBits]
        have : (n + 1) * 128 - (128 - Nat.size (l.getD n 0)) = (128 * n + (Nat.size (l.getD n 0) - 1)) + 1 := by
          omega
        rw [this]
        have a1 := two_pow_size_le (x := l.getD n 0) (by omega)
        have a2 := lt_two_pow_size (l.getD n 0)
        apply size_eq
        · rw [pow_add]
          calc _ ≤ 2 ^ (128 * n) * l.getD n 0 := Nat.mul_le_mul_left _ a1
            _ ≤ _ := Nat.le_add_left _ _
        · rw [show 128 * n + (Nat.size (l.getD n 0) - 1) + 1 = 128 * n + Nat.size (l.getD n 0) by omega, pow_add]
          calc _ < 2 ^ (128 * n) + 2 ^ (128 * n) * l.getD n 0 := by omega
            _ = 2 ^ (128 * n) * (l.getD n 0 + 1) := by ring
            _ ≤ _ := Nat.mul_le_mul_left _ a2
      · rename_i h0
        rw [ih, e]
        have : l.getD n 0 = 0 := by simpa using h0
        rw [this]; simp
    · rw [getD_ge (by omega)]
      simp only [ne_eq, not_true, if_false]
      rw [ih, List.take_of_length_le (by omega), List.take_of_length_le (by omega)]

/-- `omsb` is the bit length. -/
theorem omsb_eq {l : List Nat} (h : Limbs l) : Sig.omsb l = Nat.size (val l) := by
  unfold Sig.omsb
  rw [omsbLoop_eq h, List.take_length]

theorem omsb_one {s : Nat} (h : s < 2 ^ 128) : Sig.omsb [s] = Nat.size s := by
  rw [omsb_eq (Limbs.one h), val_singleton]

theorem trailingZeros_spec {x : Nat} (hx : x < 2 ^ 128) (h0 : x ≠ 0) :
    x.testBit (trailingZeros x) = true ∧ ∀ i < trailingZeros x, x.testBit i = false := by
  unfold trailingZeros
  cases hf : (List.range 128).find? (fun i => x.testBit i) with
  | none =>
    exfalso
    rw [List.find?_eq_none] at hf
    apply h0
    apply Nat.eq_of_testBit_eq
    intro i
    rw [Nat.zero_testBit]
    by_cases hi : i < 128
    · have := hf i (by simpa using hi)
      simpa using this
    · apply Nat.testBit_lt_two_pow
      apply lt_of_lt_of_le hx
      apply Nat.pow_le_pow_right (by omega); omega
  | some k =>
    rw [Option.getD_some]
    rw [List.find?_range_eq_some] at hf
    refine ⟨hf.1, ?_⟩
    intro i hi
    have := hf.2.2 i hi
    simpa using this

theorem olsbLoop_spec {l : List Nat} (h : Limbs l) : ∀ (i : Nat), val l ≠ 0 →
    ∃ k, Sig.olsbLoop i l = 128 * i + k + 1 ∧ (val l).testBit k = true ∧ ∀ j < k, (val l).testBit j = false := by
  induction l with
  | nil => intro i h0; simp at h0
  | cons x xs ih =>
    intro i h0
    unfold Sig.olsbLoop
    have hx := h.head
    by_cases hx0 : x = 0
    · subst hx0
      have hv : val xs ≠ 0 := by intro hc; apply h0; simp [hc]
      obtain ⟨k, e1, e2, e3⟩ := ih h.tail (i + 1) hv
      refine ⟨128 + k, ?_, ?_, ?_⟩
      · simp only [ne_eq, not_true, if_false]; rw [e1]; ring
      · rw [val_cons, add_comm, Nat.testBit_two_pow_mul_add _ (by positivity)]
        simp [e2]
      · intro j hj
        rw [val_cons, add_comm, Nat.testBit_two_pow_mul_add _ (by positivity)]
        split
        · simp
        · apply e3; omega
    · obtain ⟨e2, e3⟩ := trailingZeros_spec hx hx0
      have hlt : trailingZeros x < 128 := by
        by_contra hc
        have : x.testBit (trailingZeros x) = false := by
          apply Nat.testBit_lt_two_pow
          apply lt_of_lt_of_le hx
          apply Nat.pow_le_pow_right (by omega); omega
        rw [e2] at this; cases this
      refine ⟨trailingZeros x, ?_, ?_, ?_⟩
      · simp only [ne_eq, hx0, not_false_eq_true, if_true, limbBits]; ring
      · rw [val_cons, add_comm, Nat.testBit_two_pow_mul_add _ hx, if_pos hlt, e2]
      · intro j hj
        rw [val_cons, add_comm, Nat.testBit_two_pow_mul_add _ hx, if_pos (by omega)]
        exact e3 j hj

theorem dvd_of_testBit_false {x k : Nat} (h : ∀ j < k, x.testBit j = false) : 2 ^ k ∣ x := by
  have : x % 2 ^ k = 0 := by
    apply Nat.eq_of_testBit_eq
    intro i
    rw [Nat.testBit_mod_two_pow, Nat.zero_testBit]
    by_cases hi : i < k
    · simp [h i hi]
    · simp [hi]
  exact Nat.dvd_of_mod_eq_zero this

/-- `olsb` counts the factors of two, plus one. -/
theorem olsb_spec {l : List Nat} (h : Limbs l) (h0 : val l ≠ 0) :
    ∃ k, Sig.olsb l = k + 1 ∧ 2 ^ k ∣ val l ∧ (val l / 2 ^ k) % 2 = 1 := by
  obtain ⟨k, e1, e2, e3⟩ := olsbLoop_spec h 0 h0
  refine ⟨k, by unfold Sig.olsb; rw [e1]; ring, dvd_of_testBit_false e3, ?_⟩
  rw [Nat.testBit_eq_decide_div_mod_eq] at e2
  simpa using e2

theorem olsb_zero {l : List Nat} (h0 : val l = 0) : Sig.olsb l = 0 := by
  unfold Sig.olsb
  suffices H : ∀ i, Sig.olsbLoop i l = 0 from H 0
  induction l with
  | nil => intro i; rfl
  | cons x xs ih =>
    intro i
    have hx : x = 0 := by simp at h0; omega
    have hxs : val xs = 0 := by
      simp at h0; omega
    unfold Sig.olsbLoop
    simp [hx, ih hxs]

/-! ### Comparison -/

theorem cmpLoop_append (p q : List (Nat × Nat)) :
    Sig.cmpLoop (p ++ q) = (Sig.cmpLoop p).then (Sig.cmpLoop q) := by
  induction p with
  | nil => rfl
  | cons x xs ih =>
    obtain ⟨a, b⟩ := x
    simp only [List.cons_append, Sig.cmpLoop]
    cases compare a b <;> simp [ih]

theorem cmpLoop_eq {a b : List Nat} (ha : Limbs a) (hb : Limbs b) (hl : a.length = b.length) :
    Sig.cmpLoop (a.zip b).reverse = compare (val a) (val b) := by
  induction a generalizing b with
  | nil => cases b with
    | nil => simp [Sig.cmpLoop]
    | cons => simp at hl
  | cons x xs ih => cases b with
    | nil => simp at hl
    | cons y ys =>
      have hx := ha.head
      have hy := hb.head
      rw [List.zip_cons_cons, List.reverse_cons, cmpLoop_append, ih ha.tail hb.tail (by simpa using hl)]
      simp only [Sig.cmpLoop, val_cons]
      rcases Nat.lt_trichotomy (val xs) (val ys) with h | h | h
      · rw [Nat.compare_eq_lt.2 h]
        rw [Nat.compare_eq_lt.2 (show x + 2 ^ 128 * val xs < y + 2 ^ 128 * val ys by omega)]; rfl
      · rw [h, Nat.compare_eq_eq.2 rfl]
        rcases Nat.lt_trichotomy x y with h' | h' | h'
        · rw [Nat.compare_eq_lt.2 h']; symm; apply Nat.compare_eq_lt.2; omega
        · subst h'; simp
        · rw [Nat.compare_eq_gt.2 h']; symm; apply Nat.compare_eq_gt.2; omega
      · rw [Nat.compare_eq_gt.2 h]
        rw [Nat.compare_eq_gt.2 (show x + 2 ^ 128 * val xs > y + 2 ^ 128 * val ys by omega)]; rfl

theorem cmp_ok {a b : List Nat} (ha : Limbs a) (hb : Limbs b) (hl : a.length = b.length) :
    Sig.cmp a b = .ok (compare (val a) (val b)) := by
  unfold Sig.cmp
  rw [massert_pos hl, M.ok_bind, cmpLoop_eq ha hb hl]

/-! ### Single bits -/

theorem getBit_ok {l : List Nat} (h : Limbs l) {bit : Nat} (hb : bit < 128 * l.length) :
    Sig.getBit l bit = .ok ((val l).testBit bit) := by
  unfold Sig.getBit
  simp only [limbBits]
  rw [idx_getD (by omega), M.ok_bind, and_two_pow_ne_zero, val_testBit h]

theorem getBit_one {s : Nat} (h : s < 2 ^ 128) {bit : Nat} (hb : bit < 128) :
    Sig.getBit [s] bit = .ok (s.testBit bit) := by
  rw [getBit_ok (Limbs.one h) (by simpa using hb), val_singleton]

theorem getBit_panics {l : List Nat} {bit : Nat} (hb : 128 * l.length ≤ bit) :
    Sig.getBit l bit = .error .index := by
  unfold Sig.getBit idx
  rw [List.getElem?_eq_none (by simp only [limbBits]; omega)]
  rfl

theorem setBit_ok {l : List Nat} (h : Limbs l) {bit : Nat} (hb : bit < 128 * l.length) :
    ∃ r, Sig.setBit l bit = .ok r ∧ r.length = l.length ∧ Limbs r ∧ val r = val l ||| 2 ^ bit := by
  unfold Sig.setBit
  simp only [limbBits]
  rw [idx_getD (by omega), M.ok_bind, setIdx_ok (by omega)]
  have hi : bit / 128 < l.length := by omega
  have hr : Limbs (l.set (bit / 128) (l.getD (bit / 128) 0 ||| 1 <<< (bit % 128))) := by
    apply limbs_of_getD
    intro j hj
    rw [getD_set _ _ _ _ hi]
    split
    · apply Nat.or_lt_two_pow (h.getD _)
      rw [Nat.one_shiftLeft]
      apply Nat.pow_lt_pow_right (by omega) (Nat.mod_lt _ (by omega))
    · exact h.getD _
  refine ⟨_, rfl, by simp, hr, ?_⟩
  apply Nat.eq_of_testBit_eq
  intro k
  rw [val_testBit hr, getD_set _ _ _ _ hi, Nat.testBit_or, val_testBit h, Nat.testBit_two_pow]
  by_cases hk : k / 128 = bit / 128
  · rw [if_pos hk, Nat.testBit_or, Nat.one_shiftLeft, Nat.testBit_two_pow, hk]
    congr 1
    have : (bit % 128 = k % 128) ↔ (bit = k) := by omega
    simp [this]
  · rw [if_neg hk]
    have : ¬ bit = k := by intro hc; subst hc; exact hk rfl
    simp [this]

end Apf
