import Verif.Proof.DecConv
import Verif.Proof.Div
import Verif.Spec.Display
import Mathlib.Data.Nat.Digits.Lemmas
/-! # Formatting: the decimal integer, its digits, their rounding -/

namespace Apf
open Spec IeeeFloat

variable {S : Sem}

/-! ### Scaling to a decimal integer -/

theorem scalePow5_ok {B : ℕ} (hB0 : B ≤ 20000000) (fuel : ℕ) : ∀ (texp nxt : ℕ) (p5 sig : List ℕ), texp < 2 ^ fuel → Limbs sig →
    0 < val sig → 128 * (sig.length - 1) < Nat.size (val sig) →
    (p5 = [] ∧ nxt = 5 ∨ Limbs p5 ∧ p5 ≠ [] ∧ 1 < val p5 ∧ 128 * (p5.length - 1) < Nat.size (val p5) ∧ nxt = val p5 ^ 2) →
    val sig * nxt ^ texp < 2 ^ B →
    ∃ q, scalePow5 (fuel + 1) texp p5 sig = .ok q ∧ Limbs q ∧ val q = val sig * nxt ^ texp := by
  induction fuel with
  | zero =>
    intro texp nxt p5 sig hp hs _ _ _ _
    have : texp = 0 := by omega
    subst this
    exact ⟨sig, by rw [scalePow5, if_pos rfl], hs, by simp⟩
  | succ fuel ih =>
    intro texp nxt p5 sig hp hs vs ls h5 hB
    rw [scalePow5]
    by_cases h0 : texp = 0
    · rw [if_pos h0]
      exact ⟨sig, rfl, hs, by rw [h0]; simp⟩
    rw [if_neg h0]
    have hn1 : 1 < nxt := by
      rcases h5 with ⟨-, h⟩ | ⟨-, -, h1, -, h⟩
      · omega
      · rw [h]; nlinarith
    have hsq : val sig * nxt < 2 ^ B :=
      lt_of_le_of_lt (Nat.mul_le_mul_left _ (Nat.le_self_pow h0 _)) hB
    have hs1 : Nat.size nxt ≤ B := by
      rw [Nat.size_le]
      exact lt_of_le_of_lt (Nat.le_mul_of_pos_left _ vs) hsq
    have hs2 : Nat.size (val sig) ≤ B := by
      rw [Nat.size_le]
      exact lt_of_le_of_lt (Nat.le_mul_of_pos_right _ (by omega)) hsq
    obtain ⟨p, e1, e2, e3, e4, e5⟩ : ∃ p, (if p5 = [] then .ok [5]
        else do
          let (sq, _, _) ← Sig.mul (List.replicate (p5.length * 2) 0) 0 p5 p5 (p5.length * 2 * limbBits)
          .ok (popZeros sq) : M (List Nat)) = .ok p ∧ Limbs p ∧ val p = nxt ∧ 128 * (p.length - 1) < Nat.size (val p) ∧ p ≠ [] := by
      rcases h5 with ⟨h, hn⟩ | ⟨h1, h2, h3, h4, h6⟩
      · refine ⟨[5], by rw [if_pos h], Limbs.one (by norm_num), by rw [hn]; rfl, ?_, by simp⟩
        simp only [List.length_singleton, val_singleton]
        exact size_pos (by norm_num)
      · have hs3 : Nat.size (val p5) ≤ B := by
          refine le_trans (Nat.size_le_size ?_) hs1
          rw [h6]; exact Nat.le_self_pow (by norm_num) _
        obtain ⟨sq, e, l, m1, m2, m3⟩ := mul_exact h1 h1 (by omega)
        rw [if_neg h2, show p5.length * 2 = p5.length + p5.length by ring, m1, M.ok_bind]
        obtain ⟨z1, z2, z3⟩ := popZeros_ok m2
        have hv : val (popZeros sq) = nxt := by rw [z2, m3, h6]; ring
        refine ⟨_, rfl, z1, hv, ?_, ?_⟩
        · rw [z2] at hv ⊢; exact z3 (by omega)
        · intro h; rw [h] at hv; simp at hv; omega
    rw [e1, M.ok_bind]
    have hvp : 1 < val p := by omega
    by_cases hodd : texp % 2 ≠ 0
    · rw [if_pos hodd]
      have : Nat.size (val p) ≤ B := by rw [e3]; exact hs1
      obtain ⟨m, e', l', n1, n2, n3⟩ := mul_exact hs e2 (by omega)
      rw [n1, M.ok_bind]
      dsimp only
      obtain ⟨y1, y2, y3⟩ := popZeros_ok n2
      have vy : val (popZeros m) = val sig * nxt := by rw [y2, n3, e3]
      have vyp : 0 < val (popZeros m) := by rw [vy]; positivity
      have hpow : val sig * nxt ^ texp = val (popZeros m) * (val p ^ 2) ^ (texp / 2) := by
        rw [vy, e3]
        conv_lhs => rw [show texp = 1 + 2 * (texp / 2) by omega]
        rw [pow_add, pow_mul, pow_one]; ring
      obtain ⟨q, q1, q2, q3⟩ := ih (texp / 2) _ p (popZeros m) (by omega) y1 vyp (by rw [y2] at vyp ⊢; exact y3 vyp)
        (Or.inr ⟨e2, e5, hvp, e4, rfl⟩) (by rw [← hpow]; exact hB)
      exact ⟨q, q1, q2, by rw [q3, hpow]⟩
    · rw [if_neg hodd]
      have hpow : val sig * nxt ^ texp = val sig * (val p ^ 2) ^ (texp / 2) := by
        rw [e3]
        conv_lhs => rw [show texp = 2 * (texp / 2) by omega]
        rw [pow_mul]
      obtain ⟨q, q1, q2, q3⟩ := ih (texp / 2) _ p sig (by omega) hs vs ls
        (Or.inr ⟨e2, e5, hvp, e4, rfl⟩) (by rw [← hpow]; exact hB)
      exact ⟨q, q1, q2, by rw [q3, hpow]⟩

theorem trailingZeros_ok {s : ℕ} (hs : s < 2 ^ 128) (h0 : 0 < s) : 2 ^ trailingZeros s ∣ s ∧ trailingZeros s < 128 := by
  obtain ⟨h1, h2⟩ := trailingZeros_spec hs (by omega)
  refine ⟨dvd_of_testBit_false h2, ?_⟩
  by_contra h
  have := Nat.testBit_lt_two_pow (x := s) (i := trailingZeros s) (lt_of_lt_of_le hs (Nat.pow_le_pow_right (by norm_num) (by omega)))
  rw [this] at h1
  exact absurd h1 (by decide)

/-- The decimal integer is the magnitude of the float, exactly. -/
theorem dispScale_ok (h : S.OK) {sig : ℕ} {exp : ℤ} (h1 : S.minExp ≤ exp) (h2 : exp ≤ S.maxExp) (s0 : 0 < sig) (s1 : sig < 2 ^ S.precision) :
    ∃ big e, dispScale S sig exp = .ok (big, e) ∧ Limbs big ∧ 0 < val big ∧ -21000 ≤ e ∧ e ≤ 0 ∧ val big < 2 ^ 70000 ∧
      (val big : ℚ) * 10 ^ e = sig * 2 ^ (exp - S.precision + 1) ∧ (e < 0 → val big % 2 = 1) := by
  have a1 := h.p_ge; have a2 := h.p_le; have a3 := h.min_ge; have a4 := h.max_le; have a5 := h.min_lt; have a6 := h.p_max
  have s2 : sig < 2 ^ 128 := lt_of_lt_of_le s1 (Nat.pow_le_pow_right (by norm_num) (by omega))
  obtain ⟨t1, t2⟩ := trailingZeros_ok s2 s0
  have t3 := (trailingZeros_spec s2 (by omega)).1
  unfold dispScale
  rw [asI32_of_lt (by omega), i32_ok (by omega) (by omega), M.ok_bind, i32_ok (by omega) (by omega), M.ok_bind]
  generalize hz : trailingZeros sig = z at *
  obtain ⟨r, e1, e2, e3, e4⟩ := shiftRight_ok (Limbs.one s2) (exp := exp - (S.precision - 1)) (bits := z) (by omega) (by omega) (by omega)
  rw [e1, M.ok_bind]
  dsimp only
  rw [val_singleton] at e4
  obtain ⟨o, ho⟩ := t1
  have hr : val r = o := by rw [e4, ho]; exact Nat.mul_div_cancel_left _ (by positivity)
  have o0 : 0 < o := by
    rcases Nat.eq_zero_or_pos o with h | h
    · rw [h] at ho; omega
    · exact h
  have o2 : o % 2 = 1 := by
    rw [ho, Nat.testBit_two_pow_mul] at t3
    simpa using t3
  have o1 : o ≤ sig := by rw [ho]; exact Nat.le_mul_of_pos_left _ (by positivity)
  have hval : (sig : ℚ) * 2 ^ (exp - S.precision + 1) = o * 2 ^ (exp - (S.precision - 1) + z) := by
    rw [ho]; push_cast
    rw [show exp - (S.precision - 1) + (z : ℤ) = (exp - S.precision + 1) + z by ring, two_zpow_add (exp - S.precision + 1) z, zpow_natCast]; ring
  have hob : o < 2 ^ 126 := lt_of_le_of_lt o1 (lt_of_lt_of_le s1 (Nat.pow_le_pow_right (by norm_num) (by omega)))
  rw [hval]
  generalize hE : exp - (S.precision - 1 : ℤ) + z = E at *
  obtain ⟨C, hC⟩ : ∃ C : ℕ, C = 70000 := ⟨_, rfl⟩
  rw [← hC]
  by_cases hE0 : E = 0
  · rw [if_pos hE0]
    refine ⟨r, E, rfl, e3, by omega, by omega, by omega, ?_, ?_, by omega⟩
    · rw [hr]; exact lt_of_lt_of_le hob (Nat.pow_le_pow_right (by norm_num) (by omega))
    · rw [hr, hE0]; simp
  rw [if_neg hE0]
  by_cases hE1 : E > 0
  · rw [if_pos hE1]
    obtain ⟨n, hn⟩ : ∃ n : ℕ, E = n := ⟨E.toNat, by omega⟩
    subst hn
    have hn0 : n < 21000 := by omega
    have hob' : o < 2 ^ S.precision := lt_of_le_of_lt o1 s1
    rw [Int.toNat_natCast]
    have hlm : S.precision + n ≤ 128 * limbsForBits (S.precision + n) := by unfold limbsForBits; omega
    have hlm1 : 1 ≤ limbsForBits (S.precision + n) := by omega
    have hlm2 : 128 * limbsForBits (S.precision + n) ≤ S.precision + n + 128 := by unfold limbsForBits; omega
    generalize limbsForBits (S.precision + n) = k at *
    have e2' : r.length = 1 := e2
    have hext : (r ++ List.replicate (k - r.length) 0).take k = r ++ List.replicate (k - r.length) 0 := by
      apply List.take_of_length_le
      rw [List.length_append, List.length_replicate]; omega
    rw [hext]
    have hlr : Limbs (r ++ List.replicate (k - r.length) 0) := by
      intro y hy
      rcases List.mem_append.1 hy with hy | hy
      · exact e3 y hy
      · exact limbs_replicate_zero _ y hy
    have hlen : (r ++ List.replicate (k - r.length) 0).length = k := by
      rw [List.length_append, List.length_replicate]; omega
    have hvr : val (r ++ List.replicate (k - r.length) 0) = o := by
      rw [val_append, hr, val_replicate]; simp
    obtain ⟨q, q1, q2, q3, q4⟩ := shiftLeft_ok hlr (exp := (n : ℤ)) (bits := n) (by omega) (by omega) (by omega)
    have hq : val q = o * 2 ^ n := by
      rw [q4, hlen, hvr]
      apply Nat.mod_eq_of_lt
      refine lt_of_lt_of_le ?_ (Nat.pow_le_pow_right (by norm_num) hlm)
      rw [pow_add]
      exact Nat.mul_lt_mul_of_pos_right hob' (by positivity)
    refine ⟨q, _, q1, q3, by rw [hq]; positivity, by omega, by omega, ?_, ?_, by omega⟩
    · rw [hq]
      have : o * 2 ^ n < 2 ^ (S.precision + n) := by
        rw [pow_add]; exact Nat.mul_lt_mul_of_pos_right hob' (by positivity)
      exact lt_of_lt_of_le this (Nat.pow_le_pow_right (by norm_num) (by omega))
    · rw [hq]; simp
  · rw [if_neg hE1, i32_ok (by omega) (by omega), M.ok_bind]
    obtain ⟨n, hn⟩ : ∃ n : ℕ, E = -(n : ℤ) := ⟨(-E).toNat, by omega⟩
    subst hn
    have hn0 : n < 20500 := by omega
    rw [neg_neg, Int.toNat_natCast]
    have hb : o * 5 ^ n < 2 ^ C := by
      have h5 : 5 ^ n ≤ 2 ^ (3 * n) := by rw [pow_mul]; exact Nat.pow_le_pow_left (by norm_num) _
      calc o * 5 ^ n < 2 ^ 126 * 2 ^ (3 * n) := Nat.mul_lt_mul_of_lt_of_le hob h5 (by positivity)
        _ = 2 ^ (126 + 3 * n) := by rw [pow_add]
        _ ≤ 2 ^ C := Nat.pow_le_pow_right (by norm_num) (by omega)
    obtain ⟨q, q1, q2, q3⟩ := scalePow5_ok (B := C) (by omega) 63 n 5 [] r (by omega) e3 (by omega)
      (by rw [e2]; simp only [List.length_singleton]; exact size_pos (by omega)) (Or.inl ⟨rfl, rfl⟩) (by rw [hr]; exact hb)
    rw [q1, M.ok_bind]
    rw [hr] at q3
    refine ⟨q, _, rfl, q2, by rw [q3]; positivity, by omega, by omega, by rw [q3]; exact hb, ?_, fun _ => ?_⟩
    rotate_left
    · rw [q3, Nat.mul_mod, o2, Nat.pow_mod]; simp
    rw [q3]; push_cast
    rw [zpow_neg, zpow_neg, zpow_natCast, zpow_natCast, show (10 : ℚ) = 2 * 5 by norm_num, mul_pow]
    field_simp

/-! ### The digit loop -/

theorem div10Step_eq : div10Step = Sig.shortDivStep 32 10 := by
  funext rem chunk
  unfold div10Step Sig.shortDivStep
  dsimp only
  rw [Nat.mod_eq_of_lt (show (_ % 10) < 2 ^ 8 by have := Nat.mod_lt (((rem <<< 32) % 2 ^ 64) ||| (chunk % 2 ^ 32)) (show 0 < 10 by norm_num); omega),
    Nat.mod_eq_of_lt (a := _ % 10) (b := 2 ^ 32)]
  have := Nat.mod_lt (((rem <<< 32) % 2 ^ (2 * 32)) ||| (chunk % 2 ^ 32)) (show 0 < 10 by norm_num)
  omega

theorem popZeros_nil {l : List ℕ} (h : val (popZeros l) = 0) : popZeros l = [] := by
  induction l using List.reverseRecOn with
  | nil => rfl
  | append_singleton l x ih =>
    unfold popZeros at ih h ⊢
    rw [List.reverse_append, List.reverse_singleton, List.singleton_append] at h ⊢
    by_cases hx : x = 0
    · subst hx
      rw [List.dropWhile_cons_of_pos (by simp)] at h ⊢
      exact ih h
    · rw [List.dropWhile_cons_of_neg (by simpa using hx), List.reverse_cons, List.reverse_reverse, val_append, val_singleton] at h
      have := Nat.le_mul_of_pos_right (2 ^ (128 * l.length)) (Nat.pos_of_ne_zero hx)
      have : 0 < 2 ^ (128 * l.length) := by positivity
      omega

/-- One division by ten. -/
theorem div10_ok {sig : List ℕ} (h : Limbs sig) : ∃ q, Sig.eachChunk 32 div10Step sig 0 = (q, val sig % 10) ∧
    Limbs (popZeros q) ∧ val (popZeros q) = val sig / 10 := by
  obtain ⟨q, d, e1, e2, e3, e4, e5⟩ := eachChunk_ok (half := 32) (d := 10) (by norm_num) (by norm_num) h 0 (by norm_num)
  obtain ⟨z1, z2, -⟩ := popZeros_ok e3
  rw [Nat.zero_mul, Nat.zero_add] at e5
  refine ⟨q, ?_, z1, ?_⟩
  · rw [div10Step_eq, e1]; congr 1; omega
  · rw [z2]; omega

/-- Limbs without superfluous zeros on top, as far as emptiness is concerned. -/
def Trim (l : List ℕ) : Prop := val l = 0 → l = []

theorem dispDigits_discard (fuel k : ℕ) : ∀ (sig : List ℕ) (exp : ℤ) (t : Bool) (b : List ℕ), Limbs sig → Trim sig → val sig < 2 ^ fuel →
    0 < val sig / 10 ^ k → -100000 ≤ exp → exp + k ≤ 100000 →
    ∃ fuel' sig', dispDigits (fuel + 1) sig k t exp b = dispDigits (fuel' + 1) sig' 0 t (exp + k) b ∧ Limbs sig' ∧ Trim sig' ∧
      val sig' < 2 ^ fuel' ∧ val sig' = val sig / 10 ^ k := by
  induction k generalizing fuel with
  | zero => intro sig exp t b h1 h2 h3 _ _ _; exact ⟨fuel, sig, by simp, h1, h2, h3, by simp⟩
  | succ k ih =>
    intro sig exp t b h1 h2 h3 h4 h5 h6
    have hp : 0 < val sig := Nat.pos_of_ne_zero (fun h => by rw [h] at h4; simp at h4)
    obtain ⟨fuel, rfl⟩ : ∃ f, fuel = f + 1 := ⟨fuel - 1, by
      rcases Nat.eq_zero_or_pos fuel with h | h
      · subst h; simp at h3; omega
      · omega⟩
    obtain ⟨q, q1, q2, q3⟩ := div10_ok h1
    rw [dispDigits, if_neg (fun h => by rw [h] at hp; simp at hp), q1]
    dsimp only
    rw [if_pos (by omega), i32_ok (by omega) (by omega), M.ok_bind, Nat.add_sub_cancel]
    have hd : val (popZeros q) / 10 ^ k = val sig / 10 ^ (k + 1) := by
      rw [q3, Nat.div_div_eq_div_mul, pow_succ']
    obtain ⟨f', s', r1, r2, r3, r4, r5⟩ := ih fuel (popZeros q) (exp + 1) t b q2 popZeros_nil (by rw [q3]; omega) (by rw [hd]; exact h4)
      (by omega) (by push_cast at h6; omega)
    refine ⟨f', s', ?_, r2, r3, r4, by rw [r5, hd]⟩
    rw [r1]; congr 1; push_cast; ring

theorem dispDigits_trail (fuel : ℕ) : ∀ (C : ℕ) (sig : List ℕ) (exp : ℤ) (b : List ℕ), Limbs sig → Trim sig → val sig < 2 ^ fuel →
    val sig < 2 ^ C → 0 < val sig → -100000 ≤ exp → exp + C ≤ 100000 →
    ∃ fuel' sig' j, dispDigits (fuel + 1) sig 0 true exp b = dispDigits (fuel' + 1) sig' 0 true (exp + (j : ℕ)) b ∧ Limbs sig' ∧ Trim sig' ∧
      val sig' < 2 ^ fuel' ∧ val sig = val sig' * 10 ^ j ∧ ¬ 10 ∣ val sig' ∧ j ≤ C := by
  induction fuel with
  | zero => intro C sig exp b h1 h2 h3 _ h4; simp at h3; omega
  | succ fuel ih =>
    intro C sig exp b h1 h2 h3 hC hp h5 h6
    by_cases hd : 10 ∣ val sig
    · obtain ⟨C, rfl⟩ : ∃ f, C = f + 1 := ⟨C - 1, by
        rcases Nat.eq_zero_or_pos C with h | h
        · subst h; simp at hC; omega
        · omega⟩
      obtain ⟨q, q1, q2, q3⟩ := div10_ok h1
      rw [dispDigits, if_neg (fun h => by rw [h] at hp; simp at hp), q1]
      dsimp only
      have hz : val sig % 10 = 0 := Nat.mod_eq_zero_of_dvd hd
      push_cast at h6
      rw [if_neg (by omega), hz, if_pos (by simp), i32_ok (by omega) (by omega), M.ok_bind]
      obtain ⟨f', s', j, r1, r2, r3, r4, r5, r6, r7⟩ := ih C (popZeros q) (exp + 1) b q2 popZeros_nil (by rw [q3]; omega) (by rw [q3]; omega) (by omega)
        (by omega) (by omega)
      refine ⟨f', s', j + 1, ?_, r2, r3, r4, ?_, r6, by omega⟩
      · rw [r1]; congr 1; push_cast; ring
      · rw [pow_succ, ← mul_assoc, ← r5, q3]; omega
    · exact ⟨fuel + 1, sig, 0, by simp, h1, h2, h3, by simp, hd, by omega⟩

theorem dispDigits_rest (fuel : ℕ) : ∀ (sig : List ℕ) (exp : ℤ) (t : Bool) (b : List ℕ), Limbs sig → Trim sig → val sig < 2 ^ fuel →
    (t = true → val sig ≠ 0 → ¬ 10 ∣ val sig) →
    dispDigits (fuel + 1) sig 0 t exp b = .ok (b ++ Nat.digits 10 (val sig), exp) := by
  induction fuel with
  | zero =>
    intro sig exp t b h1 h2 h3 _
    have : sig = [] := h2 (by simp at h3; omega)
    subst this
    simp [dispDigits]
  | succ fuel ih =>
    intro sig exp t b h1 h2 h3 h4
    by_cases h0 : val sig = 0
    · have := h2 h0
      subst this
      simp [dispDigits]
    obtain ⟨q, q1, q2, q3⟩ := div10_ok h1
    rw [dispDigits, if_neg (fun h => by rw [h] at h0; simp at h0), q1]
    dsimp only
    rw [if_neg (by omega), if_neg, ih (popZeros q) exp false _ q2 popZeros_nil (by rw [q3]; omega) (by simp), q3,
      Nat.digits_def' (by norm_num) (Nat.pos_of_ne_zero h0)]
    · simp
    · intro h
      simp only [Bool.and_eq_true, beq_iff_eq] at h
      exact h4 h.1 h0 (Nat.dvd_of_mod_eq_zero h.2)

/-- The digit loop: after discarding `k` digits, the digits of what is left without its trailing zeros. -/
theorem dispDigits_ok {fuel k : ℕ} {sig : List ℕ} {exp : ℤ} (h1 : Limbs sig) (h2 : 0 < val sig / 10 ^ k) (h3 : val sig < 2 ^ fuel)
    (h4 : val sig < 2 ^ 70000) (h5 : -21000 ≤ exp) (h6 : exp ≤ 0) (h7 : k ≤ 21300) :
    ∃ m j, dispDigits (fuel + 1) sig k true exp [] = .ok (Nat.digits 10 m, exp + k + (j : ℕ)) ∧ val sig / 10 ^ k = m * 10 ^ j ∧ ¬ 10 ∣ m ∧ j ≤ 70000 := by
  have hp : 0 < val sig := Nat.pos_of_ne_zero (fun h => by rw [h] at h2; simp at h2)
  have ht : Trim sig := fun h => absurd h (by omega)
  obtain ⟨C, hC⟩ : ∃ C : ℕ, C = 70000 := ⟨_, rfl⟩
  rw [← hC] at h4 ⊢
  obtain ⟨f1, s1, r1, r2, r3, r4, r5⟩ := dispDigits_discard fuel k sig exp true [] h1 ht h3 h2 (by omega) (by omega)
  obtain ⟨f2, s2, j, t1, t2, t3, t4, t5, t6, t7⟩ := dispDigits_trail f1 C s1 (exp + k) [] r2 r3 r4
    (by rw [r5]; exact lt_of_le_of_lt (Nat.div_le_self _ _) h4) (by rw [r5]; exact h2) (by omega) (by omega)
  have e := dispDigits_rest f2 s2 (exp + k + j) true [] t2 t3 t4 (fun _ _ => t6)
  refine ⟨val s2, j, ?_, by rw [← r5, t5], t6, t7⟩
  rw [r1, t1, e, List.nil_append]

/-! ### Rounding the digits -/

theorem digits_drop (m k : ℕ) : (Nat.digits 10 m).drop k = Nat.digits 10 (m / 10 ^ k) := by
  induction k generalizing m with
  | zero => simp
  | succ k ih =>
    rcases Nat.eq_zero_or_pos m with h | h
    · subst h; simp
    · rw [Nat.digits_def' (by norm_num) h, List.drop_succ_cons, ih, Nat.div_div_eq_div_mul, pow_succ']

theorem digits_getElem (m k : ℕ) (h : k < (Nat.digits 10 m).length) : (Nat.digits 10 m)[k] = m / 10 ^ k % 10 := by
  have h1 := List.drop_eq_getElem_cons h
  have h2 := digits_drop m k
  have hpos : 0 < m / 10 ^ k := by
    apply Nat.div_pos _ (by positivity)
    exact (Nat.lt_digits_length_iff (by norm_num) _).1 h
  rw [h1, Nat.digits_def' (by norm_num) hpos] at h2
  exact (List.cons.inj h2).1

theorem skipZeros_ok (n : ℕ) (h : 0 < n) : ∃ m j, skipZeros (Nat.digits 10 n) = Nat.digits 10 m ∧ n = m * 10 ^ j ∧ ¬ 10 ∣ m ∧
    (Nat.digits 10 n).length = (Nat.digits 10 m).length + j := by
  induction n using Nat.strong_induction_on with
  | _ n ih =>
    rw [Nat.digits_def' (by norm_num) h]
    by_cases hd : n % 10 = 0
    · rw [hd, skipZeros]
      obtain ⟨m, j, e1, e2, e3, e4⟩ := ih (n / 10) (by omega) (by omega)
      refine ⟨m, j + 1, e1, ?_, e3, by rw [List.length_cons, e4]; ring⟩
      rw [pow_succ, ← mul_assoc, ← e2]; omega
    · refine ⟨n, 0, ?_, by simp, by omega, ?_⟩
      · rw [Nat.digits_def' (by norm_num) h]
        generalize n % 10 = a at *
        cases a with
        | zero => exact absurd rfl hd
        | succ a => rfl
      · rw [Nat.digits_def' (by norm_num) h]; simp

theorem carryUp_ok (n : ℕ) : ∃ m j, carryUp (Nat.digits 10 n) = (if m = 1 ∧ n + 1 = 10 ^ (Nat.digits 10 n).length then [] else Nat.digits 10 m) ∧
    n + 1 = m * 10 ^ j ∧ ¬ 10 ∣ m ∧ (if m = 1 ∧ n + 1 = 10 ^ (Nat.digits 10 n).length then j = (Nat.digits 10 n).length else
      (Nat.digits 10 n).length = (Nat.digits 10 m).length + j) := by
  induction n using Nat.strong_induction_on with
  | _ n ih =>
    rcases Nat.eq_zero_or_pos n with h | h
    · subst h
      exact ⟨1, 0, by simp [carryUp], by norm_num, by norm_num, by simp⟩
    · have hlen : (Nat.digits 10 n).length = (Nat.digits 10 (n / 10)).length + 1 := by
        rw [Nat.digits_def' (by norm_num) h, List.length_cons]
      by_cases hd : n % 10 = 9
      · obtain ⟨m, j, e1, e2, e3, e4⟩ := ih (n / 10) (by omega)
        have hc : carryUp (Nat.digits 10 n) = carryUp (Nat.digits 10 (n / 10)) := by
          rw [Nat.digits_def' (by norm_num) h, hd, carryUp, if_pos rfl]
        have hn : n + 1 = (n / 10 + 1) * 10 := by omega
        have hiff : (m = 1 ∧ n + 1 = 10 ^ (Nat.digits 10 n).length) ↔ (m = 1 ∧ n / 10 + 1 = 10 ^ (Nat.digits 10 (n / 10)).length) := by
          rw [hlen, hn, pow_succ]
          constructor
          · rintro ⟨a, b⟩; exact ⟨a, Nat.eq_of_mul_eq_mul_right (by norm_num) b⟩
          · rintro ⟨a, b⟩; exact ⟨a, by rw [b]⟩
        refine ⟨m, j + 1, ?_, ?_, e3, ?_⟩
        · rw [hc, e1]; simp only [hiff]
        · rw [hn, e2]; ring
        · simp only [hiff]
          split_ifs at e4 ⊢ with hh
          · rw [hlen, e4]
          · rw [hlen, e4]; ring
      · have hne : ¬ (n + 1 = 1 ∧ n + 1 = 10 ^ (Nat.digits 10 n).length) := by omega
        have hnx : Nat.digits 10 (n + 1) = (n % 10 + 1) :: Nat.digits 10 (n / 10) := by
          rw [Nat.digits_def' (by norm_num) (by omega)]
          have a : (n + 1) % 10 = n % 10 + 1 := by omega
          have b : (n + 1) / 10 = n / 10 := by omega
          rw [a, b]
        refine ⟨n + 1, 0, ?_, by simp, ?_, ?_⟩
        · rw [if_neg hne, Nat.digits_def' (by norm_num) h, carryUp, if_neg hd, hnx]
        · omega
        · rw [if_neg hne, hlen, hnx]; simp

theorem digits_length_bounds {m : ℕ} (h : 0 < m) : 1 ≤ (Nat.digits 10 m).length ∧ 10 ^ ((Nat.digits 10 m).length - 1) ≤ m ∧
    m < 10 ^ (Nat.digits 10 m).length := by
  have h1 : 1 ≤ (Nat.digits 10 m).length := by
    have := (Nat.lt_digits_length_iff (b := 10) (k := 0) (by norm_num) m).2 (by rw [pow_zero]; exact h)
    omega
  refine ⟨h1, ?_, ?_⟩
  · rw [← Nat.lt_digits_length_iff (by norm_num)]; omega
  · rw [← Nat.digits_length_le_iff (by norm_num)]

theorem pos_of_not_ten {m : ℕ} (h : ¬ 10 ∣ m) : 0 < m := Nat.pos_of_ne_zero (fun h0 => h (by rw [h0]; exact dvd_zero _))

/-- Rounding to `P` digits: nothing to do, or half up. -/
theorem dispRound_ok {P m : ℕ} {e : ℤ} (hP : 1 ≤ P) (hm : ¬ 10 ∣ m) (he : -100000 ≤ e) (he' : e ≤ 100000) (hl : (Nat.digits 10 m).length ≤ 100000) :
    ∃ m' c, dispRound P (Nat.digits 10 m) e = .ok (Nat.digits 10 m', e + (c : ℕ)) ∧ ¬ 10 ∣ m' ∧ m' < 10 ^ P ∧ c ≤ (Nat.digits 10 m).length ∧
      ((Nat.digits 10 m).length ≤ P ∧ m' = m ∧ c = 0 ∨
       ∃ f, (Nat.digits 10 m).length = P + (f + 1) ∧
        m' * 10 ^ c = (if m / 10 ^ f % 10 < 5 then m / 10 ^ f / 10 else m / 10 ^ f / 10 + 1) * 10 ^ (f + 1)) := by
  have hm0 := pos_of_not_ten hm
  obtain ⟨l1, l2, l3⟩ := digits_length_bounds hm0
  unfold dispRound
  by_cases hlen : (Nat.digits 10 m).length > P
  · rw [if_pos hlen]
    obtain ⟨f, hf⟩ : ∃ f, (Nat.digits 10 m).length = P + (f + 1) := ⟨(Nat.digits 10 m).length - P - 1, by omega⟩
    have hfs : (Nat.digits 10 m).length - P = f + 1 := by omega
    dsimp only
    rw [hfs, Nat.add_sub_cancel, idx_ok (by omega), M.ok_bind, digits_getElem, digits_drop]
    have hn : m / 10 ^ f / 10 = m / 10 ^ (f + 1) := by rw [Nat.div_div_eq_div_mul, pow_succ]
    have hnl : (Nat.digits 10 (m / 10 ^ (f + 1))).length = P := by
      rw [← digits_drop, List.length_drop]; omega
    have hnp : 0 < m / 10 ^ (f + 1) := by
      apply Nat.div_pos _ (by positivity)
      exact le_trans (Nat.pow_le_pow_right (by norm_num) (by omega)) l2
    have hnu : m / 10 ^ (f + 1) < 10 ^ P := by
      rw [← Nat.digits_length_le_iff (by norm_num)]; omega
    obtain ⟨n, hnd⟩ : ∃ n, n = m / 10 ^ (f + 1) := ⟨_, rfl⟩
    rw [← hnd] at hn hnl hnp hnu ⊢
    by_cases hd : m / 10 ^ f % 10 < 5
    · simp only [if_pos hd]
      obtain ⟨m1, j, e1, e2, e3, e4⟩ := skipZeros_ok n hnp
      have hm1 := digits_length_bounds (pos_of_not_ten e3)
      rw [e1, show (Nat.digits 10 m).length - (Nat.digits 10 m1).length = f + 1 + j by omega, asI32_of_lt (by omega),
        i32_ok (by omega) (by omega), M.ok_bind, if_neg (by intro h; rw [h] at hm1; simp at hm1)]
      refine ⟨m1, f + 1 + j, rfl, e3, ?_, by omega, Or.inr ⟨f, hf, ?_⟩⟩
      · exact lt_of_le_of_lt (by rw [e2]; exact Nat.le_mul_of_pos_right _ (by positivity)) hnu
      · rw [if_pos hd, hn, e2, pow_add]; ring
    · simp only [if_neg hd]
      obtain ⟨m1, j, e1, e2, e3, e4⟩ := carryUp_ok n
      have hm1 := digits_length_bounds (pos_of_not_ten e3)
      rw [e1]
      rw [hnl] at e4 ⊢
      by_cases hc : m1 = 1 ∧ n + 1 = 10 ^ P
      · rw [if_pos hc] at e4
        simp only [if_pos hc]
        rw [List.length_nil, Nat.sub_zero, asI32_of_lt (by omega), i32_ok (by omega) (by omega), M.ok_bind]
        refine ⟨1, (Nat.digits 10 m).length, by simp, by norm_num, Nat.one_lt_pow (by omega) (by norm_num), le_refl _, Or.inr ⟨f, hf, ?_⟩⟩
        rw [if_neg hd, hn, hc.2, hf, pow_add]; ring
      · rw [if_neg hc] at e4
        simp only [if_neg hc]
        rw [show (Nat.digits 10 m).length - (Nat.digits 10 m1).length = f + 1 + j by omega, asI32_of_lt (by omega),
          i32_ok (by omega) (by omega), M.ok_bind, if_neg (by intro h; rw [h] at hm1; simp at hm1)]
        refine ⟨m1, f + 1 + j, rfl, e3, ?_, by omega, Or.inr ⟨f, hf, ?_⟩⟩
        · rw [← Nat.digits_length_le_iff (by norm_num)]; omega
        · rw [if_neg hd, hn, e2, pow_add]; ring
  · rw [if_neg hlen]
    refine ⟨m, 0, by simp, hm, ?_, by omega, Or.inl ⟨by omega, rfl, rfl⟩⟩
    exact lt_of_lt_of_le l3 (Nat.pow_le_pow_right (by norm_num) (by omega))

/-- How `W` rounds the integer `B` to `P` digits. -/
def Acc (P B W : ℕ) : Prop :=
  ∃ N, 10 ^ N ≤ B ∧ B < 10 ^ (N + 1) ∧ (N + 1 ≤ P → W = B) ∧
    ∀ g, N + 1 = P + g → 0 < g → 10 ^ g ∣ W ∧ (10 ^ g ∣ B → W = B) ∧
      ((2 * W ≤ 2 * B + 10 ^ g ∧ 2 * B ≤ 2 * W + 10 ^ g) ∨ (5 * 10 ^ N ≤ B ∧ W ≤ B ∧ B < W + 10 ^ g))

theorem acc_ok {P B k m j m' c : ℕ} (hM : B / 10 ^ k = m * 10 ^ j) (hm : ¬ 10 ∣ m) (hk : 0 < k → 10 ^ (P + k) ≤ 2 * B)
    (h : (Nat.digits 10 m).length ≤ P ∧ m' = m ∧ c = 0 ∨ ∃ f, (Nat.digits 10 m).length = P + (f + 1) ∧
        m' * 10 ^ c = (if m / 10 ^ f % 10 < 5 then m / 10 ^ f / 10 else m / 10 ^ f / 10 + 1) * 10 ^ (f + 1)) :
    Acc P B (m' * 10 ^ (c + j + k)) := by
  obtain ⟨l1, l2, l3⟩ := digits_length_bounds (pos_of_not_ten hm)
  generalize (Nat.digits 10 m).length = L at *
  obtain ⟨L, rfl⟩ : ∃ l, L = l + 1 := ⟨L - 1, by omega⟩
  rw [Nat.add_sub_cancel] at l2
  have hB : B = m * 10 ^ (j + k) + B % 10 ^ k := by
    have := Nat.div_add_mod B (10 ^ k)
    rw [hM] at this
    rw [pow_add]
    linarith
  have hs : B % 10 ^ k < 10 ^ k := Nat.mod_lt _ (by positivity)
  generalize B % 10 ^ k = s at *
  have p1 : 10 ^ (L + j + k) ≤ B := by
    rw [hB, add_assoc L, pow_add]
    exact le_trans (Nat.mul_le_mul_right _ l2) (Nat.le_add_right _ _)
  have hjk : 10 ^ k ≤ 10 ^ (j + k) := Nat.pow_le_pow_right (by norm_num) (by omega)
  have p2 : B < 10 ^ (L + j + k + 1) := by
    have : (m + 1) * 10 ^ (j + k) ≤ 10 ^ (L + 1) * 10 ^ (j + k) := Nat.mul_le_mul_right _ l3
    rw [← pow_add, show L + 1 + (j + k) = L + j + k + 1 by ring] at this
    refine lt_of_lt_of_le ?_ this
    rw [hB, add_mul, one_mul]
    omega
  refine ⟨L + j + k, p1, p2, ?_⟩
  rcases h with ⟨hL, rfl, rfl⟩ | ⟨f, hL, hW⟩
  · rw [Nat.zero_add]
    rcases Nat.eq_zero_or_pos k with h0 | h0
    · subst h0
      have hs0 : s = 0 := by simpa using hs
      have hWB : m' * 10 ^ (j + 0) = B := by omega
      rw [hWB]
      refine ⟨fun _ => rfl, fun g hg hg0 => ⟨?_, fun _ => rfl, Or.inl ⟨Nat.le_add_right _ _, Nat.le_add_right _ _⟩⟩⟩
      rw [← hWB]
      exact dvd_mul_of_dvd_right (pow_dvd_pow _ (by omega)) _
    · have hk' := hk h0
      have hPL : P ≤ L + 1 + j := by
        by_contra hcon
        have : 10 ^ (L + j + k + 1 + 1) ≤ 10 ^ (P + k) := Nat.pow_le_pow_right (by norm_num) (by omega)
        rw [pow_succ] at this
        omega
      refine ⟨fun hc => by omega, fun g hg hg0 => ⟨?_, fun hd => ?_, ?_⟩⟩
      · exact dvd_mul_of_dvd_right (pow_dvd_pow _ (by omega)) _
      · have hd' : 10 ^ k ∣ B := dvd_trans (pow_dvd_pow _ (by omega)) hd
        rw [hB, Nat.dvd_add_right (dvd_mul_of_dvd_right (pow_dvd_pow _ (by omega)) _)] at hd'
        have := Nat.eq_zero_of_dvd_of_lt hd' hs
        omega
      · rcases Nat.eq_or_lt_of_le hPL with h1 | h1
        · right
          have hgk : g = k := by omega
          subst hgk
          refine ⟨?_, by omega, by omega⟩
          have e1 : P + g = L + j + g + 1 := by omega
          rw [e1, pow_succ] at hk'
          omega
        · left
          have : 10 ^ (k + 1) ≤ 10 ^ g := Nat.pow_le_pow_right (by norm_num) (by omega)
          rw [pow_succ] at this
          constructor <;> omega
  · have hWe : m' * 10 ^ (c + j + k) = (if m / 10 ^ f % 10 < 5 then m / 10 ^ f / 10 else m / 10 ^ f / 10 + 1) * 10 ^ (f + 1 + (j + k)) := by
      rw [pow_add _ (f + 1), ← mul_assoc, ← hW, add_assoc, pow_add]; ring
    refine ⟨fun hc => by omega, fun g hg hg0 => ?_⟩
    have hgf : g = f + 1 + (j + k) := by omega
    rw [hWe]
    subst hgf
    have hm1 := Nat.div_add_mod m (10 ^ f)
    have hm2 : m % 10 ^ f < 10 ^ f := Nat.mod_lt _ (by positivity)
    have hq := Nat.div_add_mod (m / 10 ^ f) 10
    have hd : m / 10 ^ f % 10 < 10 := Nat.mod_lt _ (by norm_num)
    generalize m % 10 ^ f = r at *
    generalize m / 10 ^ f / 10 = n at *
    generalize m / 10 ^ f % 10 = d at *
    have hU : 10 ^ (f + 1 + (j + k)) = 10 * (10 ^ f * 10 ^ (j + k)) := by rw [pow_add, pow_succ]; ring
    have hρ : r * 10 ^ (j + k) + s < 10 ^ f * 10 ^ (j + k) := by
      have : (r + 1) * 10 ^ (j + k) ≤ 10 ^ f * 10 ^ (j + k) := Nat.mul_le_mul_right _ hm2
      rw [add_mul, one_mul] at this
      omega
    have hBX : B = n * (10 * (10 ^ f * 10 ^ (j + k))) + (d * (10 ^ f * 10 ^ (j + k)) + (r * 10 ^ (j + k) + s)) := by
      rw [hB, ← hm1, ← hq]; ring
    rw [hU]
    generalize 10 ^ f * 10 ^ (j + k) = X at *
    generalize r * 10 ^ (j + k) + s = ρ at *
    have hdX : d * X ≤ 9 * X := Nat.mul_le_mul_right _ (by omega)
    refine ⟨dvd_mul_left _ _, fun hdv => ?_, ?_⟩
    · rw [hBX, Nat.dvd_add_right (dvd_mul_left _ _)] at hdv
      have := Nat.eq_zero_of_dvd_of_lt hdv (by omega)
      have hd0 : d = 0 := by
        rcases Nat.eq_zero_or_pos d with h | h
        · exact h
        · have := Nat.le_mul_of_pos_left X h
          omega
      rw [hd0, if_pos (by norm_num), hBX]
      omega
    · left
      split_ifs with h5
      · have : d * X ≤ 4 * X := Nat.mul_le_mul_right _ (by omega)
        omega
      · have : 5 * X ≤ d * X := Nat.mul_le_mul_right _ (by omega)
        rw [add_mul, one_mul]
        omega

/-- The number of digits that are discarded leaves at least `P`. -/
theorem discard_ok {P B : ℕ} (hB : 0 < B) : 10 ^ (P + (Nat.size B - (P * 196 + 58) / 59) * 59 / 196) ≤ 2 * B ∨
    (Nat.size B - (P * 196 + 58) / 59) * 59 / 196 = 0 := by
  generalize hk : (Nat.size B - (P * 196 + 58) / 59) * 59 / 196 = k
  rcases Nat.eq_zero_or_pos k with h | h
  · exact Or.inr h
  · left
    have h1 : 196 * (P + k) ≤ 59 * Nat.size B := by omega
    have h2 : (10 ^ (P + k)) ^ 59 ≤ (2 ^ Nat.size B) ^ 59 := by
      calc (10 ^ (P + k)) ^ 59 = (10 ^ 59) ^ (P + k) := by rw [← pow_mul, ← pow_mul, mul_comm]
        _ ≤ (2 ^ 196) ^ (P + k) := Nat.pow_le_pow_left (by norm_num) _
        _ = 2 ^ (196 * (P + k)) := by rw [← pow_mul]
        _ ≤ 2 ^ (59 * Nat.size B) := Nat.pow_le_pow_right (by norm_num) h1
        _ = _ := by rw [← pow_mul, mul_comm]
    have h3 := (Nat.pow_le_pow_iff_left (by norm_num)).1 h2
    have h4 := two_pow_size_le hB
    have h5 : 2 ^ Nat.size B = 2 * 2 ^ (Nat.size B - 1) := by
      rw [← pow_succ']; congr 1
      have := size_pos hB
      omega
    omega

theorem ten_zpow_add (a b : ℤ) : (10 : ℚ) ^ (a + b) = 10 ^ a * 10 ^ b := zpow_add₀ (by norm_num) a b

theorem renders_of_acc {P B W : ℕ} (e : ℤ) (h : Acc P B W) : Renders P (B * 10 ^ e) (W * 10 ^ e) := by
  obtain ⟨N, h1, h2, h3, h4⟩ := h
  have he : (0 : ℚ) < 10 ^ e := by positivity
  have hcast : ∀ n : ℕ, (10 : ℚ) ^ ((n : ℤ) + e) = ((10 ^ n : ℕ) : ℚ) * 10 ^ e := by
    intro n; rw [ten_zpow_add, zpow_natCast]; push_cast; rfl
  refine ⟨N + e, ⟨?_, ?_⟩, ?_⟩
  · rw [hcast]; exact mul_le_mul_of_nonneg_right (by exact_mod_cast h1) he.le
  · rw [show (N : ℤ) + e + 1 = ((N + 1 : ℕ) : ℤ) + e by push_cast; ring, hcast]
    exact mul_lt_mul_of_pos_right (by exact_mod_cast h2) he
  by_cases hP : N + 1 ≤ P
  · have hW := h3 hP
    subst hW
    refine ⟨⟨W * 10 ^ (P - (N + 1)), ?_⟩, fun _ => rfl, Or.inl (by rw [sub_self, abs_zero, mul_zero]; positivity)⟩
    push_cast
    rw [mul_assoc, ← zpow_natCast, ← ten_zpow_add]
    congr 2
    rw [Nat.cast_sub hP]; push_cast; ring
  · obtain ⟨g, hg⟩ : ∃ g, N + 1 = P + g := ⟨N + 1 - P, by omega⟩
    obtain ⟨⟨n, hn⟩, a2, a3⟩ := h4 g hg (by omega)
    have hu : (N : ℤ) + e + 1 - P = (g : ℤ) + e := by omega
    rw [hu, hcast, hcast]
    refine ⟨⟨n, ?_⟩, ?_, ?_⟩
    · rw [hn]; push_cast; ring
    · rintro ⟨m, hm⟩
      rw [a2 ⟨m, ?_⟩]
      have : (B : ℚ) = m * (10 ^ g : ℕ) := by
        apply mul_right_cancel₀ he.ne'
        rw [hm]; ring
      have : B = m * 10 ^ g := by exact_mod_cast this
      rw [this]; ring
    · rcases a3 with ⟨b1, b2⟩ | ⟨b1, b2, b3⟩
      · left
        rw [← sub_mul, abs_mul, abs_of_pos he, ← mul_assoc]
        apply mul_le_mul_of_nonneg_right _ he.le
        have c1 : (2 : ℚ) * W ≤ 2 * B + (10 ^ g : ℕ) := by exact_mod_cast b1
        have c2 : (2 : ℚ) * B ≤ 2 * W + (10 ^ g : ℕ) := by exact_mod_cast b2
        rcases abs_cases ((W : ℚ) - B) with ⟨h, -⟩ | ⟨h, -⟩ <;> rw [h] <;> linarith
      · right
        refine ⟨?_, ?_, ?_⟩
        · rw [← mul_assoc]
          exact mul_le_mul_of_nonneg_right (by exact_mod_cast b1) he.le
        · exact mul_le_mul_of_nonneg_right (by exact_mod_cast b2) he.le
        · rw [← sub_mul]
          apply mul_lt_mul_of_pos_right _ he
          have : (B : ℚ) < W + (10 ^ g : ℕ) := by exact_mod_cast b3
          linarith

/-! ### The text -/

theorem digit_digitChar {d : ℕ} (h : d < 10) : digit? (digitChar d) = some d := by
  have : ∀ d < 10, digit? (digitChar d) = some d := by decide
  exact this d h

theorem isDigit_digitChar {d : ℕ} (h : d < 10) : IsDigit 10 (digitChar d) := ⟨d, digit_digitChar h, h⟩

theorem isDigit_zero : IsDigit 10 '0' := ⟨0, by decide, by norm_num⟩

/-- The digits `ds` (least significant first) as text. -/
def digitText (ds : List ℕ) : List Char := ds.reverse.map digitChar

theorem digitText_digits {ds : List ℕ} (h : ∀ d ∈ ds, d < 10) : ∀ c ∈ digitText ds, IsDigit 10 c := by
  intro c hc
  unfold digitText at hc
  simp only [List.mem_map, List.mem_reverse] at hc
  obtain ⟨d, hd, rfl⟩ := hc
  exact isDigit_digitChar (h d hd)

theorem number_digitText {ds : List ℕ} (h : ∀ d ∈ ds, d < 10) : number 10 (digitText ds) = Nat.ofDigits 10 ds := by
  induction ds with
  | nil => rfl
  | cons d ds ih =>
    unfold digitText at ih ⊢
    rw [List.reverse_cons, List.map_append, List.map_singleton, number_snoc, ih (fun x hx => h x (by simp [hx])),
      digit_digitChar (h d (by simp)), Option.getD_some, Nat.ofDigits_cons, add_comm]

theorem number_zeros (n : ℕ) : number 10 (List.replicate n '0') = 0 := by
  induction n with
  | zero => rfl
  | succ n ih => rw [List.replicate_succ', number_snoc, ih]; rfl

theorem zeros_digits (n : ℕ) : ∀ c ∈ List.replicate n '0', IsDigit 10 c := by
  intro c hc
  rw [(List.mem_replicate.1 hc).2]; exact isDigit_zero

theorem digits_lt (m : ℕ) : ∀ d ∈ Nat.digits 10 m, d < 10 := fun _ hd => Nat.digits_lt_base (by norm_num) hd

theorem digits_append {a b : List Char} (ha : ∀ c ∈ a, IsDigit 10 c) (hb : ∀ c ∈ b, IsDigit 10 c) : ∀ c ∈ a ++ b, IsDigit 10 c := by
  intro c hc
  rcases List.mem_append.1 hc with h | h
  · exact ha c h
  · exact hb c h

/-- Positional notation. -/
theorem dispPlain_ok {m : ℕ} (hm : 0 < m) (e : ℤ) : IsDec (dispPlain (Nat.digits 10 m) e) (m * 10 ^ e) := by
  have hdg := digitText_digits (digits_lt m)
  have hnum : number 10 (digitText (Nat.digits 10 m)) = m := by rw [number_digitText (digits_lt m), Nat.ofDigits_digits]
  have hne := (digits_length_bounds hm).1
  unfold dispPlain
  by_cases he : e ≥ 0
  · rw [if_pos he]
    refine ⟨_, digitText (Nat.digits 10 m) ++ List.replicate e.toNat '0', [], ⟨digits_append hdg (zeros_digits _), by simp, ?_, Or.inl ⟨rfl, rfl⟩⟩,
      Or.inl ⟨rfl, ?_⟩⟩
    · intro h
      have := congrArg List.length h
      simp only [digitText, List.length_append, List.length_map, List.length_reverse, List.length_replicate, List.length_nil] at this
      omega
    · unfold significandValue
      rw [List.append_nil, number_append, number_zeros, hnum, List.length_replicate]
      push_cast
      rw [← zpow_natCast, Int.toNat_of_nonneg he]; simp
  rw [if_neg he]
  obtain ⟨n, hn⟩ : ∃ n : ℕ, e = -(n : ℤ) := ⟨(-e).toNat, by omega⟩
  subst hn
  rw [neg_neg, Int.toNat_natCast, zpow_neg, zpow_natCast]
  dsimp only
  by_cases hl : n < (Nat.digits 10 m).length
  · rw [if_pos hl]
    have hcat : digitText ((Nat.digits 10 m).drop n) ++ digitText ((Nat.digits 10 m).take n) = digitText (Nat.digits 10 m) := by
      unfold digitText
      rw [← List.map_append, ← List.reverse_append, List.take_append_drop]
    refine ⟨_, digitText ((Nat.digits 10 m).drop n), digitText ((Nat.digits 10 m).take n),
      ⟨digitText_digits (fun d hd => digits_lt m d (List.mem_of_mem_drop hd)), digitText_digits (fun d hd => digits_lt m d (List.mem_of_mem_take hd)), ?_, Or.inr rfl⟩,
      Or.inl ⟨rfl, ?_⟩⟩
    · rw [hcat]
      intro h
      have := congrArg List.length h
      simp only [digitText, List.length_append, List.length_map, List.length_reverse, List.length_replicate, List.length_nil] at this
      omega
    · unfold significandValue
      rw [hcat, hnum]
      have : (digitText ((Nat.digits 10 m).take n)).length = n := by
        unfold digitText; rw [List.length_map, List.length_reverse, List.length_take]; omega
      rw [this]; rfl
  · rw [if_neg hl]
    refine ⟨_, ['0'], List.replicate (n - (Nat.digits 10 m).length) '0' ++ digitText (Nat.digits 10 m),
      ⟨zeros_digits 1, digits_append (zeros_digits _) hdg, by simp, Or.inr rfl⟩, Or.inl ⟨rfl, ?_⟩⟩
    unfold significandValue
    rw [show ['0'] ++ (List.replicate (n - (Nat.digits 10 m).length) '0' ++ digitText (Nat.digits 10 m)) =
      List.replicate (n - (Nat.digits 10 m).length + 1) '0' ++ digitText (Nat.digits 10 m) by rw [List.replicate_succ]; rfl,
      number_append, number_zeros, hnum, Nat.zero_mul, Nat.zero_add]
    have : (List.replicate (n - (Nat.digits 10 m).length) '0' ++ digitText (Nat.digits 10 m)).length = n := by
      unfold digitText; simp; omega
    rw [this]; rfl

theorem toDigits_ok (n : ℕ) : (∀ c ∈ Nat.toDigits 10 n, IsDigit 10 c) ∧ number 10 (Nat.toDigits 10 n) = n := by
  have hdc : ∀ d < 10, digit? (Nat.digitChar d) = some d := by decide
  induction n using Nat.strong_induction_on with
  | _ n ih =>
    by_cases h : n < 10
    · rw [Nat.toDigits_of_lt_base h]
      refine ⟨?_, ?_⟩
      · intro c hc
        rw [List.mem_singleton] at hc
        subst hc
        exact ⟨n, hdc n h, h⟩
      · rw [show [n.digitChar] = [] ++ [n.digitChar] from rfl, number_snoc, hdc n h]; simp [number_nil]
    · rw [Nat.toDigits_of_base_le (by norm_num) (by omega)]
      obtain ⟨a1, a2⟩ := ih (n / 10) (by omega)
      have hr := hdc (n % 10) (Nat.mod_lt _ (by norm_num))
      refine ⟨digits_append a1 ?_, ?_⟩
      · intro c hc
        rw [List.mem_singleton] at hc
        subst hc
        exact ⟨n % 10, hr, Nat.mod_lt _ (by norm_num)⟩
      · rw [number_snoc, a2, hr, Option.getD_some]; omega

theorem fmtExp_ok (pad : ℕ) (e : ℤ) : ∃ ds, IsExponent (fmtExp pad e) ds e ∧ ds.length = (pad - 1 - (Nat.toDigits 10 e.natAbs).length) + (Nat.toDigits 10 e.natAbs).length := by
  obtain ⟨h1, h2⟩ := toDigits_ok e.natAbs
  refine ⟨List.replicate (pad - 1 - (Nat.toDigits 10 e.natAbs).length) '0' ++ Nat.toDigits 10 e.natAbs, ⟨digits_append (zeros_digits _) h1, ?_⟩, by simp⟩
  unfold fmtExp
  have hn : number 10 (List.replicate (pad - 1 - (Nat.toDigits 10 e.natAbs).length) '0' ++ Nat.toDigits 10 e.natAbs) = e.natAbs := by
    rw [number_append, number_zeros, h2]; simp
  dsimp only
  rw [hn]
  by_cases h0 : e < 0
  · rw [if_pos h0]; exact Or.inr (Or.inr ⟨rfl, by omega⟩)
  · rw [if_neg h0]; exact Or.inr (Or.inl ⟨rfl, by omega⟩)

/-- Scientific notation. -/
theorem dispSci_ok {m : ℕ} (hm : 0 < m) {e : ℤ} (h1 : -300000 ≤ e) (h2 : e ≤ 300000) (hl : (Nat.digits 10 m).length ≤ 300000) (P : ℕ) (alt : Bool) :
    ∃ s, dispSci P alt (Nat.digits 10 m) e = .ok s ∧ IsDec s (m * 10 ^ e) ∧ s.length ≤ 400000 + (if alt then P else 0) := by
  have hdg := digitText_digits (digits_lt m)
  have hnum : number 10 (digitText (Nat.digits 10 m)) = m := by rw [number_digitText (digits_lt m), Nat.ofDigits_digits]
  have hne := (digits_length_bounds hm).1
  unfold dispSci
  dsimp only
  obtain ⟨top, hidx, htop⟩ : ∃ top, idx (Nat.digits 10 m) ((Nat.digits 10 m).length - 1) = .ok top ∧
      digitText (Nat.digits 10 m) = digitChar top :: digitText ((Nat.digits 10 m).take ((Nat.digits 10 m).length - 1)) := by
    refine ⟨_, idx_ok (by omega), ?_⟩
    unfold digitText
    conv_lhs => rw [← List.take_append_drop ((Nat.digits 10 m).length - 1) (Nat.digits 10 m)]
    rw [List.reverse_append, List.map_append, List.drop_eq_getElem_cons (by omega), show (Nat.digits 10 m).length - 1 + 1 = (Nat.digits 10 m).length by omega,
      List.drop_length]
    rfl
  generalize hL : (Nat.digits 10 m).length = L at *
  rw [asI32_of_lt (by omega), i32_ok (by omega) (by omega), M.ok_bind, i32_ok (by omega) (by omega), M.ok_bind,
    hidx, M.ok_bind]
  have hfr : digitText ((Nat.digits 10 m).take (L - 1)) = ((Nat.digits 10 m).take (L - 1)).reverse.map digitChar := rfl
  rw [← hfr]
  have hfl : (digitText ((Nat.digits 10 m).take (L - 1))).length = L - 1 := by
    unfold digitText; rw [List.length_map, List.length_reverse, List.length_take]; omega
  generalize hfr' : digitText ((Nat.digits 10 m).take (L - 1)) = fr at *
  have hdfr : ∀ c ∈ digitChar top :: fr, IsDigit 10 c := by rw [← htop]; exact hdg
  -- the fraction is the rest of the digits, then zeros
  obtain ⟨z, hz, hzl⟩ : ∃ z, (if L = 1 ∧ alt = false then ['0'] else fr) ++
      (if alt = true ∧ P > L - 1 then List.replicate (P - L + 1) '0' else []) = fr ++ List.replicate z '0' ∧ z ≤ 1 + (if alt then P else 0) := by
    by_cases c1 : L = 1 ∧ alt = false
    · have : fr = [] := List.eq_nil_of_length_eq_zero (by omega)
      rw [if_pos c1, if_neg (by rw [c1.2]; simp), this]
      exact ⟨1, rfl, by omega⟩
    · rw [if_neg c1]
      split_ifs with c2 c3
      · exact ⟨_, rfl, by omega⟩
      · exact absurd c2.1 c3
      · exact ⟨0, by simp, by omega⟩
      · exact ⟨0, by simp, by omega⟩
  rw [hz]
  obtain ⟨ds, x1, x2⟩ := fmtExp_ok (if alt = true then 3 else 0) (e + (L - 1))
  have hxl : (fmtExp (if alt = true then 3 else 0) (e + (L - 1))).length ≤ 30 := by
    have hd : (Nat.toDigits 10 (e + (L - 1)).natAbs).length ≤ 10 := by
      apply Nat.toDigits_length _ _ _ (by norm_num)
      norm_num
      omega
    have : (if alt = true then 3 else 0) ≤ 3 := by split_ifs <;> omega
    rcases x1.2 with ⟨h, -⟩ | ⟨h, -⟩ | ⟨h, -⟩ <;> rw [h] <;> simp <;> omega
  refine ⟨_, rfl, ⟨digitChar top :: '.' :: (fr ++ List.replicate z '0'), [digitChar top], fr ++ List.replicate z '0', ⟨?_, ?_, by simp, Or.inr rfl⟩,
    Or.inr ⟨_, ds, _, x1, ?_, ?_⟩⟩, ?_⟩
  · intro c hc; exact hdfr c (by simp only [List.mem_singleton] at hc; simp [hc])
  · exact digits_append (fun c hc => hdfr c (by simp [hc])) (zeros_digits _)
  · cases alt <;> simp
  · unfold significandValue
    rw [show [digitChar top] ++ (fr ++ List.replicate z '0') = (digitChar top :: fr) ++ List.replicate z '0' by simp, number_append, number_zeros, ← htop, hnum,
      List.length_append, List.length_replicate, hfl, Nat.add_zero]
    push_cast
    rw [pow_add, ten_zpow_add, show ((L : ℤ) - 1) = ((L - 1 : ℕ) : ℤ) by omega, zpow_natCast]
    field_simp
  · simp only [List.length_cons, List.length_append, List.length_replicate, hfl]
    omega

theorem dispPlain_length (m : ℕ) (e : ℤ) : (dispPlain (Nat.digits 10 m) e).length ≤ (Nat.digits 10 m).length + e.natAbs + 2 := by
  unfold dispPlain
  split
  · rw [List.length_append, List.length_map, List.length_reverse, List.length_replicate]; omega
  · dsimp only
    split
    · rw [List.length_append, List.length_map, List.length_reverse, List.length_cons, List.length_map, List.length_reverse, List.length_take, List.length_drop]
      omega
    · rw [List.length_cons, List.length_cons, List.length_append, List.length_map, List.length_reverse, List.length_replicate]; omega

/-- Formatting a finite non-zero magnitude with `P ≥ 1` digits: the decimal digits and exponent, before they are laid
out. -/
theorem dispNormal_form (h : S.OK) {sig : ℕ} {exp : ℤ} (h1 : S.minExp ≤ exp) (h2 : exp ≤ S.maxExp) (s0 : 0 < sig) (s1 : sig < 2 ^ S.precision)
    {prec : Option ℕ} {P : ℕ} (hP : P = prec.getD (2 + S.precision * 59 / 196)) (hP1 : 1 ≤ P)
    (hP2 : P * 196 + 58 < 2 ^ 64) :
    ∃ (N : ℕ) (E : ℤ), ¬ 10 ∣ N ∧ N < 10 ^ P ∧ Renders P (sig * 2 ^ (exp - S.precision + 1)) (N * 10 ^ E) ∧
      -200000 ≤ E ∧ E ≤ 200000 ∧ (Nat.digits 10 N).length ≤ 70000 ∧
      ∀ (width : ℕ) (alt : Bool), dispNormal S sig exp width prec alt =
        (dispScientific width P (Nat.digits 10 N).length E >>= fun sci =>
          if sci = true then dispSci P alt (Nat.digits 10 N) E else .ok (dispPlain (Nat.digits 10 N) E)) := by
  obtain ⟨big, e, d1, d2, d3, d4, d5, d6, d7, -⟩ := dispScale_ok h h1 h2 s0 s1
  obtain ⟨C, hC⟩ : ∃ C : ℕ, C = 70000 := ⟨_, rfl⟩
  have hsz : Nat.size (val big) ≤ C := by rw [Nat.size_le, hC]; exact d6
  generalize hk : (Nat.size (val big) - (P * 196 + 58) / 59) * 59 / 196 = k
  have hk1 : k ≤ 21300 := by omega
  have hk2 : 0 < k → 10 ^ (P + k) ≤ 2 * val big := by
    intro hk0
    have := discard_ok (P := P) d3
    rw [hk] at this
    rcases this with h | h
    · exact h
    · omega
  have hk3 : 0 < val big / 10 ^ k := by
    rcases Nat.eq_zero_or_pos k with h0 | h0
    · rw [h0]; simpa using d3
    · apply Nat.div_pos _ (by positivity)
      have := hk2 h0
      obtain ⟨Q, rfl⟩ : ∃ Q, P = Q + 1 := ⟨P - 1, by omega⟩
      have h3 : 10 ^ (k + 1) ≤ 10 ^ (Q + 1 + k) := Nat.pow_le_pow_right (by norm_num) (by omega)
      rw [pow_succ] at h3
      omega
  obtain ⟨m, j, g1, g2, g3, g4⟩ := dispDigits_ok (fuel := 128 * big.length) (exp := e) d2 hk3 (val_lt d2) d6 d4 d5 hk1
  have hm0 := pos_of_not_ten g3
  have hml : (Nat.digits 10 m).length ≤ C := by
    rw [Nat.digits_length_le_iff (by norm_num)]
    have e1 : m ≤ val big := by
      refine le_trans ?_ (Nat.div_le_self _ (10 ^ k))
      rw [g2]; exact Nat.le_mul_of_pos_right _ (by positivity)
    have e2 : val big < 2 ^ C := Nat.size_le.1 hsz
    exact lt_of_le_of_lt e1 (lt_of_lt_of_le e2 (Nat.pow_le_pow_left (by norm_num) _))
  obtain ⟨m', c, r1, r2, r3, r4, r5⟩ := dispRound_ok (e := e + k + j) hP1 g3 (by omega) (by omega) (by omega)
  have hml' : (Nat.digits 10 m').length ≤ C := by
    rcases r5 with ⟨-, rfl, -⟩ | ⟨f, hf, -⟩
    · exact hml
    · have := (Nat.digits_length_le_iff (by norm_num) _).2 r3
      omega
  have hmP' : (Nat.digits 10 m').length ≤ P := (Nat.digits_length_le_iff (by norm_num) _).2 r3
  have hm0' := pos_of_not_ten r2
  have hl0 := (digits_length_bounds hm0').1
  have hacc := renders_of_acc e (acc_ok g2 g3 hk2 r5)
  rw [d7] at hacc
  have hw : ((m' * 10 ^ (c + j + k) : ℕ) : ℚ) * 10 ^ e = m' * 10 ^ (e + k + j + (c : ℤ)) := by
    push_cast
    rw [mul_assoc, ← zpow_natCast, ← ten_zpow_add]
    congr 2; push_cast; ring
  rw [hw] at hacc
  refine ⟨m', _, r2, r3, hacc, by omega, by omega, by omega, fun width alt => ?_⟩
  unfold dispNormal
  rw [← hP]
  dsimp only
  rw [d1, M.ok_bind]
  dsimp only
  rw [usize, if_pos (by omega), M.ok_bind, omsb_eq d2, hk, g1, M.ok_bind]
  dsimp only
  have hnil : Nat.digits 10 m ≠ [] := by
    intro hnil
    have := (digits_length_bounds hm0).1
    rw [hnil] at this; simp at this
  rw [massert_pos hnil, M.ok_bind, r1, M.ok_bind]

/-- Formatting a finite non-zero magnitude with `P ≥ 1` digits. -/
theorem dispNormal_ok (h : S.OK) {sig : ℕ} {exp : ℤ} (h1 : S.minExp ≤ exp) (h2 : exp ≤ S.maxExp) (s0 : 0 < sig) (s1 : sig < 2 ^ S.precision)
    {prec : Option ℕ} {P : ℕ} (hP : P = prec.getD (2 + S.precision * 59 / 196)) (hP1 : 1 ≤ P)
    (hP2 : P * 196 + 58 < 2 ^ 64) :
    ∃ w : ℚ, Renders P (sig * 2 ^ (exp - S.precision + 1)) w ∧
      ∀ (width : ℕ) (alt : Bool), ∃ s, dispNormal S sig exp width prec alt = .ok s ∧ IsDec s w ∧ s.length ≤ 1000000 + P := by
  obtain ⟨m, E, hm, -, hacc, hE1, hE2, hml, hd⟩ := dispNormal_form h h1 h2 s0 s1 hP hP1 hP2
  have hm0 := pos_of_not_ten hm
  have hl0 := (digits_length_bounds hm0).1
  refine ⟨_, hacc, fun width alt => ?_⟩
  rw [hd]
  obtain ⟨t, ht1, ht2⟩ : ∃ t, dispScientific width P (Nat.digits 10 m).length E = .ok t ∧ (t = false → 0 ≤ E → E ≤ P) := by
    unfold dispScientific
    split
    · exact ⟨_, rfl, by simp⟩
    split
    · refine ⟨_, rfl, ?_⟩
      intro ht _
      simp only [decide_eq_false_iff_not, not_or, not_lt] at ht
      omega
    · rw [asI32_of_lt (by omega), i32_ok (by omega) (by omega), M.ok_bind]
      split
      · exact ⟨_, rfl, fun _ _ => by omega⟩
      · exact ⟨_, rfl, fun _ _ => by omega⟩
  rw [ht1, M.ok_bind]
  cases t with
  | true =>
    rw [if_pos rfl]
    obtain ⟨s, q1, q2, q3⟩ := dispSci_ok hm0 (e := E) (by omega) (by omega) (by omega) P alt
    refine ⟨s, q1, q2, le_trans q3 ?_⟩
    split_ifs <;> omega
  | false =>
    rw [if_neg (by decide)]
    refine ⟨_, rfl, dispPlain_ok hm0 E, le_trans (dispPlain_length m E) ?_⟩
    have := ht2 rfl
    omega

end Apf
