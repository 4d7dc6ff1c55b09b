import Verif.Model.Ieee
import Mathlib.Data.Nat.Size
import Mathlib.Tactic.Ring
import Mathlib.Tactic.Linarith
import Mathlib.Tactic.Positivity
import Mathlib.Tactic.NormNum
import Mathlib.Tactic.LinearCombination
/-! Basic lemmas about the `M` monad and the Rust primitives. -/

namespace Apf

@[simp] theorem M.ok_bind {α β : Type} (a : α) (f : α → M β) :
    (bind (Except.ok a : M α) f) = f a := rfl
@[simp] theorem M.pure_eq {α : Type} (a : α) : (pure a : M α) = .ok a := rfl
@[simp] theorem M.error_bind {α β : Type} (e : Panic) (f : α → M β) :
    (bind (Except.error e : M α) f) = .error e := rfl

@[simp] theorem massert_pos {c : Prop} [Decidable c] (h : c) : massert c = .ok () := by
  simp [massert, h]

@[simp] theorem massert_true : massert True = .ok () := rfl

theorem i32_ok {x : Int} (h1 : -2147483648 ≤ x) (h2 : x ≤ 2147483647) : i32 x = .ok x := by
  simp [i32, h1, h2]

theorem asI32_of_lt {n : Nat} (h : n < 2147483648) : asI32 n = n := by
  unfold asI32
  have : n % 4294967296 = n := Nat.mod_eq_of_lt (by omega)
  simp [this, h]

theorem usub_ok {a b : Nat} (h : b ≤ a) : usub a b = .ok (a - b) := by simp [usub, h]

theorem u128_ok {x : Nat} (h : x < 2 ^ 128) : u128 x = .ok x := by unfold u128; rw [if_pos (by simpa [limbMod] using h)]

theorem shl_ok {a n : Nat} (h : n < 128) : shl a n = .ok (a * 2 ^ n % 2 ^ 128) := by
  simp [shl, h, Nat.shiftLeft_eq]

theorem shr_ok {a n : Nat} (h : n < 128) : shr a n = .ok (a / 2 ^ n) := by
  simp [shr, h, Nat.shiftRight_eq_div_pow]

theorem idx_ok {l : List Nat} {i : Nat} (h : i < l.length) : idx l i = .ok l[i] := by
  simp [idx, h]

theorem setIdx_ok {l : List Nat} {i v : Nat} (h : i < l.length) : setIdx l i v = .ok (l.set i v) := by
  simp [setIdx, h]

@[simp] theorem idx_singleton (a : Nat) : idx [a] 0 = .ok a := rfl

theorem sat32_of {x : Int} (h1 : -2147483648 ≤ x) (h2 : x ≤ 2147483647) : sat32 x = x := by
  unfold sat32; omega

theorem sat32_le (x : Int) : sat32 x ≤ 2147483647 := by unfold sat32; omega
theorem le_sat32 (x : Int) : -2147483648 ≤ sat32 x := by unfold sat32; omega

theorem lnot_eq {a : Nat} (h : a < 2 ^ 128) : lnot a = 2 ^ 128 - 1 - a := by
  unfold lnot; rw [Nat.mod_eq_of_lt h]

theorem wsub_of_le {a b : Nat} (ha : a < 2 ^ 128) (h : b ≤ a) : wsub a b = a - b := by
  unfold wsub; omega

theorem wsub_of_lt {a b : Nat} (hb : b < 2 ^ 128) (h : a < b) :
    wsub a b = a + 2 ^ 128 - b := by
  unfold wsub; omega

theorem leadingZeros_eq {x : Nat} (h : x < 2 ^ 128) : leadingZeros x = 128 - Nat.size x := by
  unfold leadingZeros
  split
  · subst_vars; simp
  · rename_i h0
    have h1 : Nat.size x = Nat.log2 x + 1 := by
      apply Nat.le_antisymm
      · rw [Nat.size_le]; exact Nat.lt_log2_self
      · have : Nat.log2 x < Nat.size x := by
          rw [Nat.lt_size]; exact Nat.log2_self_le h0
        omega
    omega

theorem size_pos {x : Nat} (h : 0 < x) : 0 < Nat.size x := Nat.size_pos.2 h

theorem lt_two_pow_size (x : Nat) : x < 2 ^ Nat.size x := Nat.lt_size_self x

theorem two_pow_size_le {x : Nat} (h : 0 < x) : 2 ^ (Nat.size x - 1) ≤ x := by
  rw [← Nat.lt_size]
  have := size_pos h
  omega

theorem size_eq {x k : Nat} (h1 : 2 ^ k ≤ x) (h2 : x < 2 ^ (k + 1)) : Nat.size x = k + 1 := by
  have a := Nat.size_le.2 h2
  have b := Nat.lt_size.2 h1
  omega

theorem getD_lt {l : List Nat} {i : Nat} (h : i < l.length) : l.getD i 0 = l[i] := by
  simp [List.getD_eq_getElem?_getD, h]

theorem getD_ge {l : List Nat} {i : Nat} (h : l.length ≤ i) : l.getD i 0 = 0 := by
  simp [List.getD_eq_getElem?_getD, h]

theorem mod_two_pow_succ (x i : Nat) : x % 2 ^ (i + 1) = x % 2 ^ i + 2 ^ i * (x.testBit i).toNat := by
  rw [pow_succ, Nat.mod_mul, Nat.testBit_eq_decide_div_mod_eq]
  congr 2
  rcases Nat.mod_two_eq_zero_or_one (x / 2 ^ i) with h | h <;> simp [h]

theorem and_two_pow_ne_zero (a k : Nat) : ((a &&& (1 <<< k)) != 0) = a.testBit k := by
  rw [Nat.one_shiftLeft]
  cases h : a.testBit k
  · have : a &&& 2 ^ k = 0 := by
      apply Nat.eq_of_testBit_eq
      intro i
      simp only [Nat.testBit_and, Nat.testBit_two_pow, Nat.zero_testBit]
      by_cases hk : k = i
      · subst hk; simp [h]
      · simp [hk]
    simp [this]
  · have : a &&& 2 ^ k ≠ 0 := by
      intro h0
      have h1 := congrArg (fun n => n.testBit k) h0
      simp [h] at h1
    simpa using this

end Apf
