import Verif.Proof.Basic
/-! Correctness of the multi-limb primitives against the number a limb list denotes. -/

namespace Apf

/-- The natural number denoted by a little-endian list of 128-bit limbs. -/
def val : List Nat → Nat
  | [] => 0
  | x :: xs => x + 2 ^ 128 * val xs

/-- Every limb fits 128 bits. -/
def Limbs (l : List Nat) : Prop := ∀ x ∈ l, x < 2 ^ 128

@[simp] theorem val_nil : val [] = 0 := rfl
@[simp] theorem val_cons (x : Nat) (xs : List Nat) : val (x :: xs) = x + 2 ^ 128 * val xs := rfl
theorem val_singleton (x : Nat) : val [x] = x := by simp [val]

theorem Limbs.nil : Limbs [] := by intro x h; cases h
theorem Limbs.cons {x : Nat} {xs : List Nat} (h : x < 2 ^ 128) (hs : Limbs xs) : Limbs (x :: xs) := by
  intro y hy
  rcases List.mem_cons.1 hy with rfl | h'
  · exact h
  · exact hs _ h'
theorem Limbs.head {x : Nat} {xs : List Nat} (h : Limbs (x :: xs)) : x < 2 ^ 128 := h x (by simp)
theorem Limbs.tail {x : Nat} {xs : List Nat} (h : Limbs (x :: xs)) : Limbs xs :=
  fun y hy => h y (by simp [hy])
theorem Limbs.one {x : Nat} (h : x < 2 ^ 128) : Limbs [x] := Limbs.cons h Limbs.nil
theorem Limbs.two {x y : Nat} (h : x < 2 ^ 128) (h' : y < 2 ^ 128) : Limbs [x, y] :=
  Limbs.cons h (Limbs.one h')
theorem Limbs.getD {l : List Nat} (h : Limbs l) (i : Nat) : l.getD i 0 < 2 ^ 128 := by
  by_cases hi : i < l.length
  · rw [getD_lt hi]; exact h _ (List.getElem_mem hi)
  · rw [getD_ge (by omega)]; positivity

theorem val_lt {l : List Nat} (h : Limbs l) : val l < 2 ^ (128 * l.length) := by
  induction l with
  | nil => simp
  | cons x xs ih =>
    have h1 := h.head
    have h2 := ih h.tail
    have : 2 ^ (128 * (x :: xs).length) = 2 ^ 128 * 2 ^ (128 * xs.length) := by
      rw [← pow_add]; congr 1; simp; ring
    rw [this, val_cons]
    generalize 2 ^ (128 * xs.length) = A at *
    have : val xs + 1 ≤ A := h2
    nlinarith

theorem val_append (a b : List Nat) : val (a ++ b) = val a + 2 ^ (128 * a.length) * val b := by
  induction a with
  | nil => simp
  | cons x xs ih =>
    simp only [List.cons_append, val_cons, ih, List.length_cons]
    rw [show 128 * (xs.length + 1) = 128 + 128 * xs.length by ring, pow_add]
    ring

theorem val_replicate (n : Nat) : val (List.replicate n 0) = 0 := by
  induction n with
  | zero => rfl
  | succ n ih => simp [List.replicate_succ, ih]

theorem val_testBit {l : List Nat} (h : Limbs l) (k : Nat) :
    (val l).testBit k = (l.getD (k / 128) 0).testBit (k % 128) := by
  induction l generalizing k with
  | nil => simp
  | cons x xs ih =>
    have hx := h.head
    rw [val_cons, add_comm, Nat.testBit_two_pow_mul_add _ hx]
    split
    · rename_i hk
      rw [Nat.div_eq_of_lt hk, Nat.mod_eq_of_lt hk]; simp
    · rename_i hk
      rw [ih h.tail]
      have h1 : k / 128 = (k - 128) / 128 + 1 := by omega
      have h2 : (k - 128) % 128 = k % 128 := by omega
      rw [h1, h2, List.getD_cons_succ]

theorem val_inj {a b : List Nat} (ha : Limbs a) (hb : Limbs b) (hl : a.length = b.length)
    (h : val a = val b) : a = b := by
  induction a generalizing b with
  | nil => cases b with
    | nil => rfl
    | cons => simp at hl
  | cons x xs ih => cases b with
    | nil => simp at hl
    | cons y ys =>
      simp only [val_cons] at h
      have hx := ha.head
      have hy := hb.head
      have e : x = y := by omega
      subst e
      rw [ih ha.tail hb.tail (by simpa using hl) (by omega)]

/-! ### Loss of a truncated remainder -/

/-- The loss classification of the fraction `r / d`, `r < d`. -/
def lossOf (r d : Nat) : Loss :=
  if r = 0 then .exactlyZero
  else if 2 * r < d then .lessThanHalf
  else if 2 * r = d then .exactlyHalf
  else .moreThanHalf

theorem lossOf_exactlyZero (r d : ℕ) : lossOf r d = .exactlyZero ↔ r = 0 := by
  unfold lossOf; split_ifs <;> simp_all

theorem isAllZeros_iff (l : List Nat) : Sig.isAllZeros l = true ↔ val l = 0 := by
  unfold Sig.isAllZeros
  induction l with
  | nil => simp
  | cons x xs ih =>
    simp only [List.all_cons, Bool.and_eq_true, beq_iff_eq, val_cons, ih]
    constructor
    · rintro ⟨h1, h2⟩; simp [h1, h2]
    · intro h
      have : val xs = 0 := by
        rcases Nat.eq_zero_or_pos (val xs) with h' | h'
        · exact h'
        · have : 0 < 2 ^ 128 * val xs := by positivity
          omega
      omega

theorem val_take_mod {l : List Nat} (h : Limbs l) (i : Nat) :
    val l % 2 ^ (128 * i) = val (l.take i) := by
  by_cases hi : i ≤ l.length
  · conv_lhs => rw [← List.take_append_drop i l]
    rw [val_append, List.length_take, Nat.min_eq_left hi, Nat.add_mul_mod_self_left]
    apply Nat.mod_eq_of_lt
    have := val_lt (l := l.take i) (fun x hx => h x (List.mem_of_mem_take hx))
    rwa [List.length_take, Nat.min_eq_left hi] at this
  · rw [List.take_of_length_le (by omega)]
    apply Nat.mod_eq_of_lt
    apply lt_of_lt_of_le (val_lt h)
    apply Nat.pow_le_pow_right (by omega); omega

theorem throughTruncation_eq {l : List Nat} (h : Limbs l) (bits : Nat) :
    Loss.throughTruncation l bits = lossOf (val l % 2 ^ bits) (2 ^ bits) := by
  unfold Loss.throughTruncation
  split
  · subst_vars; simp [lossOf, Nat.mod_one]
  · rename_i hb
    obtain ⟨k, rfl⟩ : ∃ k, bits = k + 1 := ⟨bits - 1, by omega⟩
    simp only [Nat.add_sub_cancel, limbBits]
    have hhalf : (if k / 128 < l.length then l.getD (k / 128) 0 else 0) = l.getD (k / 128) 0 := by
      split
      · rfl
      · rw [getD_ge (by omega)]
    have hrest : (if k / 128 < l.length then l.take (k / 128) else l) = l.take (k / 128) := by
      split
      · rfl
      · rw [List.take_of_length_le (by omega)]
    rw [hhalf, hrest, and_two_pow_ne_zero, ← val_testBit h]
    have hR : ((l.getD (k / 128) 0 &&& (1 <<< (k % 128) - 1)) != 0 ||
        !(Sig.isAllZeros (l.take (k / 128)))) = decide (val l % 2 ^ k ≠ 0) := by
      have e1 : val l % 2 ^ k = val (l.take (k / 128)) +
          2 ^ (128 * (k / 128)) * (l.getD (k / 128) 0 % 2 ^ (k % 128)) := by
        have hk : k = 128 * (k / 128) + k % 128 := by omega
        have e2 : val l % 2 ^ k = val l % 2 ^ (128 * (k / 128)) +
            2 ^ (128 * (k / 128)) * (val l / 2 ^ (128 * (k / 128)) % 2 ^ (k % 128)) := by
          conv_lhs => rw [hk, pow_add]
          rw [Nat.mod_mul]
        rw [e2, val_take_mod h]
        congr 2
        -- val l / 2^(128 j) = l[j] + 2^128 * ...
        apply Nat.eq_of_testBit_eq
        intro i
        simp only [Nat.testBit_mod_two_pow, Nat.testBit_div_two_pow]
        by_cases hi : i < k % 128
        · rw [val_testBit h]
          have a1 : (i + 128 * (k / 128)) / 128 = k / 128 := by omega
          have a2 : (i + 128 * (k / 128)) % 128 = i := by omega
          rw [a1, a2]
        · simp [hi]
      rw [e1, Nat.one_shiftLeft, Nat.and_two_pow_sub_one_eq_mod]
      by_cases hA : val (l.take (k / 128)) = 0
      · have : Sig.isAllZeros (l.take (k / 128)) = true := (isAllZeros_iff _).2 hA
        rw [this, hA]
        have hp : (2 ^ (128 * (k / 128)) : Nat) ≠ 0 := by positivity
        generalize l.getD (k / 128) 0 % 2 ^ (k % 128) = B
        by_cases hB : B = 0
        · simp [hB]
        · simp [hB]
      · have : Sig.isAllZeros (l.take (k / 128)) = false := by
          rw [Bool.eq_false_iff]; intro hc; exact hA ((isAllZeros_iff _).1 hc)
        rw [this]
        simp [hA]
    rw [hR, mod_two_pow_succ]
    unfold lossOf
    have hlt : val l % 2 ^ k < 2 ^ k := Nat.mod_lt _ (by positivity)
    rw [pow_succ]
    generalize hq : (2 : Nat) ^ k = A at *
    generalize hm : val l % A = m at *
    cases hT : (val l).testBit k
    · by_cases hm0 : m = 0
      · simp [hm0]
      · simp [hm0]; omega
    · by_cases hm0 : m = 0
      · simp [hm0]; rw [if_neg (by omega), if_neg (by omega), if_pos (by omega)]
      · simp [hm0]; rw [if_neg (by omega), if_neg (by omega)]

end Apf
