import Verif.Proof.Dec
import Verif.Proof.AddMul
/-! # The numbers behind a decimal literal: its digits as limbs, powers of five -/

namespace Apf
open Spec IeeeFloat

/-- The digits of a text, without the point. -/
def digitsOf (cs : List Char) : List Char := cs.filter (· ≠ '.')

theorem digitsOf_append (a b : List Char) : digitsOf (a ++ b) = digitsOf a ++ digitsOf b := List.filter_append ..

theorem digitsOf_digits {cs : List Char} (h : ∀ c ∈ cs, IsDigit 10 c) : digitsOf cs = cs := by
  apply List.filter_eq_self.2
  intro c hc
  have : c ≠ '.' := by
    rintro rfl
    exact absurd (h _ hc) (by decide)
  simpa using this

theorem decChunk_ok (cs : List Char) : ∀ (k val : ℕ), (∀ c ∈ digitsOf cs, IsDigit 10 c) → k ≤ 37 → val < 10 ^ k →
    ∃ pre rest, cs = pre ++ rest ∧
      decChunk cs val (10 ^ k) = .ok (val * 10 ^ (digitsOf pre).length + number 10 (digitsOf pre),
        10 ^ (k + (digitsOf pre).length), rest) ∧
      k + (digitsOf pre).length ≤ 38 ∧ (rest = [] ∨ k + (digitsOf pre).length = 38) := by
  induction cs with
  | nil =>
    intro k val _ hk _
    exact ⟨[], [], rfl, by simp [decChunk, digitsOf, number_nil], by simp [digitsOf]; omega, Or.inl rfl⟩
  | cons c cs ih =>
    intro k val hd hk hv
    rw [decChunk]
    by_cases hc : c = '.'
    · subst hc
      rw [if_pos rfl]
      have e : ∀ x, digitsOf ('.' :: x) = digitsOf x := by intro x; simp [digitsOf]
      rw [e] at hd
      obtain ⟨pre, rest, h1, h2, h3, h4⟩ := ih k val hd hk hv
      refine ⟨'.' :: pre, rest, by rw [h1]; rfl, ?_, by rw [e]; exact h3, by rw [e]; exact h4⟩
      rw [e]; exact h2
    · rw [if_neg hc]
      have e : ∀ x, digitsOf (c :: x) = c :: digitsOf x := by intro x; simp [digitsOf, hc]
      rw [e] at hd
      obtain ⟨t1, t2⟩ := toDigit_of (base := 10) (by norm_num) (hd c (by simp))
      rw [t1]
      dsimp only
      generalize hdv : (digit? c).getD 0 = d at *
      have hpk : (10 : ℕ) ^ k ≤ 10 ^ 37 := Nat.pow_le_pow_right (by norm_num) hk
      have p1 : (10 : ℕ) ^ (k + 1) = 10 ^ k * 10 := pow_succ _ _
      have hb : (10 : ℕ) ^ 38 < 2 ^ 128 := by norm_num
      have hb2 : (10 : ℕ) ^ 38 = 10 ^ 37 * 10 := by norm_num
      rw [u128_ok (by omega), M.ok_bind, u128_ok (by omega), M.ok_bind, u128_ok (by omega), M.ok_bind]
      have hnum : ∀ x, number 10 (c :: x) = d * 10 ^ x.length + number 10 x := by
        intro x
        rw [show c :: x = [c] ++ x from rfl, number_append]
        congr 2
        simp [number, hdv]
      by_cases hm : 10 ^ k * 10 > (limbMax - 9) / 10
      · rw [if_pos hm]
        refine ⟨[c], cs, rfl, ?_, ?_, ?_⟩
        · rw [e, show digitsOf [] = [] from rfl, hnum, List.length_singleton]
          simp only [List.length_nil, pow_zero, mul_one, number_nil, add_zero]
          rw [p1, pow_one]
        · rw [e]; simp [digitsOf]; omega
        · right
          rw [e]
          simp only [digitsOf, List.filter_nil, List.length_singleton]
          by_contra hne
          have : k + 1 ≤ 37 := by omega
          have h' : (10 : ℕ) ^ (k + 1) ≤ 10 ^ 37 := Nat.pow_le_pow_right (by norm_num) this
          have hl : (limbMax - 9) / 10 = 34028236692093846346337460743176821144 := by unfold limbMax; norm_num
          omega
      · rw [if_neg hm]
        have hk' : k + 1 ≤ 37 := by
          by_contra hne
          have h' : (10 : ℕ) ^ 38 ≤ 10 ^ (k + 1) := Nat.pow_le_pow_right (by norm_num) (by omega)
          have hl : (limbMax - 9) / 10 = 34028236692093846346337460743176821144 := by unfold limbMax; norm_num
          omega
        obtain ⟨pre, rest, h1, h2, h3, h4⟩ := ih (k + 1) (val * 10 + d) (fun x hx => hd x (by simp [hx])) hk' (by omega)
        refine ⟨c :: pre, rest, by rw [h1]; rfl, ?_, ?_, ?_⟩
        · rw [← p1, h2, e, List.length_cons, hnum]
          have : (val * 10 + d) * 10 ^ (digitsOf pre).length + number 10 (digitsOf pre) =
            val * 10 ^ ((digitsOf pre).length + 1) + (d * 10 ^ (digitsOf pre).length + number 10 (digitsOf pre)) := by ring
          rw [this, show k + 1 + (digitsOf pre).length = k + ((digitsOf pre).length + 1) by omega]
        · rw [e, List.length_cons]; omega
        · rw [e, List.length_cons]
          rcases h4 with h4 | h4
          · exact Or.inl h4
          · right; omega

theorem mulSmall_ok {mult : ℕ} (hm : mult < 2 ^ 128) (l : List ℕ) : ∀ carry, Limbs l → carry < 2 ^ 128 →
    ∃ r c, mulSmall mult l carry = .ok (r, c) ∧ r.length = l.length ∧ Limbs r ∧ c < 2 ^ 128 ∧
      val r + 2 ^ (128 * l.length) * c = val l * mult + carry := by
  induction l with
  | nil => intro carry _ hc; exact ⟨[], carry, rfl, rfl, Limbs.nil, hc, by simp⟩
  | cons x xs ih =>
    intro carry hl hc
    have hx := hl.head
    obtain ⟨w, w1, w2, w3, w4⟩ := wideningMul_ok hx hm
    obtain ⟨lo, hi, rfl, p2⟩ := pair_ok w2
    have hlo := w3.head
    have hhi := w3.tail.head
    simp only [val_cons, val_nil] at w4
    rw [mulSmall, w1, M.ok_bind, p2, M.ok_bind]
    dsimp only
    have hxm : x * mult ≤ (2 ^ 128 - 1) * (2 ^ 128 - 1) := Nat.mul_le_mul (by omega) (by omega)
    have hhi2 : hi ≤ 2 ^ 128 - 2 := by
      by_contra hcon
      have : hi = 2 ^ 128 - 1 := by omega
      subst this
      omega
    have hdec : (decide (2 ^ 128 ≤ lo + carry)).toNat = (lo + carry) / 2 ^ 128 := by
      by_cases h : 2 ^ 128 ≤ lo + carry
      · rw [decide_eq_true h]; simp; omega
      · rw [decide_eq_false h]; simp; omega
    rw [hdec, u128_ok (by omega), M.ok_bind]
    obtain ⟨r, c, r1, r2, r3, r4, r5⟩ := ih (hi + (lo + carry) / 2 ^ 128) hl.tail (by omega)
    rw [r1, M.ok_bind]
    refine ⟨_, c, rfl, by simp [r2], Limbs.cons (Nat.mod_lt _ (by norm_num)) r3, r4, ?_⟩
    rw [val_cons, List.length_cons, val_cons, show 128 * (xs.length + 1) = 128 + 128 * xs.length by ring, pow_add]
    have e1 : (2 : ℕ) ^ 128 * (val r + 2 ^ (128 * xs.length) * c) = 2 ^ 128 * (val xs * mult + (hi + (lo + carry) / 2 ^ 128)) := by rw [r5]
    have e2 : (x + 2 ^ 128 * val xs) * mult = x * mult + 2 ^ 128 * (val xs * mult) := by ring
    have e3 : 2 ^ 128 * 2 ^ (128 * xs.length) * c = 2 ^ 128 * (2 ^ (128 * xs.length) * c) := by ring
    rw [e2, e3]
    dsimp only
    clear e2 e3 hxm
    generalize 2 ^ (128 * xs.length) * c = A at *
    generalize val xs * mult = B at *
    generalize x * mult = C at *
    omega

/-- No leading zero limbs. -/
def Canon (l : List ℕ) : Prop := l = [] ∨ 2 ^ (128 * (l.length - 1)) ≤ val l

theorem canon_length {a b : List ℕ} (hb : Limbs b) (ca : Canon a) (e : val a = val b) : a.length ≤ b.length := by
  rcases ca with rfl | ca
  · simp
  · by_contra hlt
    have h1 := val_lt hb
    have h2 : 2 ^ (128 * b.length) ≤ 2 ^ (128 * (a.length - 1)) := Nat.pow_le_pow_right (by norm_num) (by omega)
    omega

theorem canon_unique {a b : List ℕ} (ha : Limbs a) (hb : Limbs b) (ca : Canon a) (cb : Canon b) (e : val a = val b) : a = b :=
  val_inj ha hb (le_antisymm (canon_length hb ca e) (canon_length ha cb e.symm)) e

theorem decSigLoop_ok (fuel : ℕ) : ∀ (cs : List Char) (l : List ℕ), cs.length < fuel → (∀ c ∈ digitsOf cs, IsDigit 10 c) →
    Limbs l → ∃ r, decSigLoop fuel cs l = .ok r ∧ Limbs r ∧
      val r = val l * 10 ^ (digitsOf cs).length + number 10 (digitsOf cs) ∧ (Canon l → Canon r) := by
  induction fuel with
  | zero => intro cs l h; omega
  | succ fuel ih =>
    intro cs l hlen hd hl
    rw [decSigLoop]
    obtain ⟨pre, rest, h1, h2, h3, h4⟩ := decChunk_ok cs 0 0 hd (by omega) (by norm_num)
    rw [pow_zero] at h2
    rw [h2, M.ok_bind]
    dsimp only
    rw [Nat.zero_add] at h3 h4
    rw [Nat.zero_add, zero_mul, zero_add]
    have hdig : digitsOf cs = digitsOf pre ++ digitsOf rest := by rw [h1, digitsOf_append]
    by_cases hm : 10 ^ (digitsOf pre).length = 1
    · rw [if_pos hm]
      have hz : (digitsOf pre).length = 0 := by
        by_contra hne
        have : 10 ^ 1 ≤ 10 ^ (digitsOf pre).length := Nat.pow_le_pow_right (by norm_num) (by omega)
        omega
      have hr : rest = [] := by
        rcases h4 with h4 | h4
        · exact h4
        · omega
      have hz2 : digitsOf pre = [] := List.length_eq_zero_iff.1 hz
      refine ⟨l, rfl, hl, ?_, id⟩
      rw [hdig, hr, hz2]
      simp [digitsOf, number_nil]
    · rw [if_neg hm]
      have hpos : 0 < (digitsOf pre).length := by
        by_contra hne
        have : (digitsOf pre).length = 0 := by omega
        rw [this] at hm; simp at hm
      have hpre : 0 < pre.length := lt_of_lt_of_le hpos (List.length_filter_le _ _)
      have hmul : 10 ^ (digitsOf pre).length ≤ 10 ^ 38 := Nat.pow_le_pow_right (by norm_num) h3
      have hb : (10 : ℕ) ^ 38 < 2 ^ 128 := by norm_num
      have hn : number 10 (digitsOf pre) < 10 ^ (digitsOf pre).length :=
        number_lt (base := 10) (by norm_num) (fun c hc => hd c (by rw [hdig]; simp [hc]))
      obtain ⟨r, c, r1, r2, r3, r4, r5⟩ := mulSmall_ok (mult := 10 ^ (digitsOf pre).length) (by omega) l
        (number 10 (digitsOf pre)) hl (by omega)
      rw [r1, M.ok_bind]
      dsimp only
      have key : ∃ l', (if c > 0 then r ++ [c] else r) = l' ∧ Limbs l' ∧ val l' = val l * 10 ^ (digitsOf pre).length + number 10 (digitsOf pre) ∧
          (Canon l → Canon l') := by
        by_cases hc : c > 0
        · refine ⟨r ++ [c], if_pos hc, ?_, ?_, fun _ => Or.inr ?_⟩
          · intro y hy
            rcases List.mem_append.1 hy with hy | hy
            · exact r3 y hy
            · rw [List.mem_singleton.1 hy]; exact r4
          · rw [val_append, val_singleton, r2, r5]
          · rw [val_append, val_singleton, List.length_append, List.length_singleton, Nat.add_sub_cancel]
            exact le_trans (Nat.le_mul_of_pos_right _ hc) (Nat.le_add_left _ _)
        · have : c = 0 := by omega
          rw [this, Nat.mul_zero, Nat.add_zero] at r5
          refine ⟨r, if_neg hc, r3, r5, ?_⟩
          rintro (rfl | cl)
          · exact Or.inl (List.length_eq_zero_iff.1 r2)
          · right
            rw [r2, r5]
            exact le_trans cl (le_trans (Nat.le_mul_of_pos_right _ (by positivity)) (Nat.le_add_right _ _))
      obtain ⟨l', e1, e2, e3, e4⟩ := key
      rw [e1]
      have hlen2 : cs.length = pre.length + rest.length := by rw [h1, List.length_append]
      obtain ⟨r', a1, a2, a3, a4⟩ := ih rest l' (by omega) (fun c hc => hd c (by rw [hdig]; simp [hc])) e2
      refine ⟨r', a1, a2, ?_, fun q => a4 (e4 q)⟩
      rw [a3, e3, hdig, number_append, List.length_append, pow_add]
      ring

/-! ### Powers of five -/

theorem popZeros_ok {l : List ℕ} (h : Limbs l) : Limbs (popZeros l) ∧ val (popZeros l) = val l ∧
    (0 < val l → 128 * ((popZeros l).length - 1) < Nat.size (val l)) := by
  induction l using List.reverseRecOn with
  | nil => exact ⟨h, rfl, fun h => absurd h (by simp)⟩
  | append_singleton l x ih =>
    unfold popZeros at ih ⊢
    rw [List.reverse_append, List.reverse_singleton, List.singleton_append]
    have hl : Limbs l := fun y hy => h y (by simp [hy])
    by_cases hx : x = 0
    · subst hx
      rw [List.dropWhile_cons_of_pos (by simp)]
      obtain ⟨a, b, c⟩ := ih hl
      have hv : val (l ++ [0]) = val l := by rw [val_append]; simp
      rw [hv]
      exact ⟨a, b, c⟩
    · rw [List.dropWhile_cons_of_neg (by simpa using hx), List.reverse_cons, List.reverse_reverse]
      refine ⟨h, rfl, fun _ => ?_⟩
      rw [List.length_append, List.length_singleton, Nat.add_sub_cancel]
      rw [Nat.lt_size, val_append, val_singleton]
      have := Nat.le_mul_of_pos_right (2 ^ (128 * l.length)) (Nat.pos_of_ne_zero hx)
      omega

theorem limbs_replicate_zero (n : ℕ) : Limbs (List.replicate n 0) := by
  intro x hx
  rw [(List.mem_replicate.1 hx).2]
  norm_num

/-- Multiplication at full precision is exact. -/
theorem mul_exact {a b : List ℕ} (ha : Limbs a) (hb : Limbs b) (hlen : a.length + b.length < 6000000) :
    ∃ r e l, Sig.mul (List.replicate (a.length + b.length) 0) 0 a b ((a.length + b.length) * limbBits) = .ok (r, e, l) ∧
      Limbs r ∧ val r = val a * val b := by
  have hl : (List.replicate (a.length + b.length) 0 : List ℕ).length = a.length + b.length := List.length_replicate
  obtain ⟨r, e1, e2, e3, e4⟩ := mul_ok (dst := List.replicate (a.length + b.length) 0) (limbs_replicate_zero _) ha hb
    hl (by omega) (exp := 0) (precision := (a.length + b.length) * limbBits) (by unfold limbBits; omega) (by norm_num) (by norm_num)
  refine ⟨r, _, _, e1, e3, ?_⟩
  have hsz : Nat.size (val a * val b) - (a.length + b.length) * limbBits = 0 := by
    have : val a * val b < 2 ^ (128 * (a.length + b.length)) := by
      rw [mul_add, pow_add]
      exact Nat.mul_lt_mul'' (val_lt ha) (val_lt hb)
    have := Nat.size_le.2 this
    unfold limbBits
    omega
  rw [e4, hsz]
  simp

theorem pow5Loop_ok {B : ℕ} (hB0 : B ≤ 350000000) (fuel : ℕ) : ∀ (power : ℕ) (p5 r : List ℕ), power < 2 ^ fuel → Limbs p5 → Limbs r → 0 < val p5 → 0 < val r →
    128 * (p5.length - 1) < Nat.size (val p5) → 128 * (r.length - 1) < Nat.size (val r) →
    val r * (val p5 ^ 2) ^ power < 2 ^ B →
    ∃ q, pow5Loop (fuel + 1) power p5 r = .ok q ∧ Limbs q ∧ val q = val r * (val p5 ^ 2) ^ power := by
  induction fuel with
  | zero =>
    intro power p5 r hp _ hr _ _ _ _ _
    have : power = 0 := by omega
    subst this
    exact ⟨r, by rw [pow5Loop, if_pos rfl], hr, by simp⟩
  | succ fuel ih =>
    intro power p5 r hp h5 hr v5 vr l5 lr hB
    rw [pow5Loop]
    by_cases h0 : power = 0
    · rw [if_pos h0]
      exact ⟨r, rfl, hr, by rw [h0]; simp⟩
    · rw [if_neg h0]
      have hsq : val r * val p5 ^ 2 < 2 ^ B := by
        refine lt_of_le_of_lt (Nat.mul_le_mul_left _ ?_) hB
        exact Nat.le_self_pow h0 _
      have hs1 : Nat.size (val p5) ≤ B := by
        rw [Nat.size_le]
        refine lt_of_le_of_lt ?_ hsq
        calc val p5 ≤ val p5 ^ 2 := Nat.le_self_pow (by norm_num) _
          _ ≤ val r * val p5 ^ 2 := Nat.le_mul_of_pos_left _ vr
      have hs2 : Nat.size (val r) ≤ B := by
        rw [Nat.size_le]
        refine lt_of_le_of_lt ?_ hsq
        exact Nat.le_mul_of_pos_right _ (by positivity)
      obtain ⟨sq, e, l, m1, m2, m3⟩ := mul_exact h5 h5 (by omega)
      rw [show p5.length * 2 = p5.length + p5.length by ring, m1, M.ok_bind]
      dsimp only
      obtain ⟨z1, z2, z3⟩ := popZeros_ok m2
      have vz : val (popZeros sq) = val p5 ^ 2 := by rw [z2, m3]; ring
      have vzp : 0 < val (popZeros sq) := by rw [vz]; positivity
      have lz : 128 * ((popZeros sq).length - 1) < Nat.size (val (popZeros sq)) := by
        rw [z2] at vzp ⊢; exact z3 vzp
      have hsz : Nat.size (val (popZeros sq)) ≤ B := by
        rw [vz, Nat.size_le]
        refine lt_of_le_of_lt ?_ hsq
        exact Nat.le_mul_of_pos_left _ vr
      by_cases hodd : power % 2 ≠ 0
      · rw [if_pos hodd]
        obtain ⟨m, e', l', n1, n2, n3⟩ := mul_exact hr z1 (by omega)
        rw [n1, M.ok_bind]
        dsimp only
        obtain ⟨y1, y2, y3⟩ := popZeros_ok n2
        have vy : val (popZeros m) = val r * val p5 ^ 2 := by rw [y2, n3, vz]
        have vyp : 0 < val (popZeros m) := by rw [vy]; positivity
        have hpow : val r * (val p5 ^ 2) ^ power = val (popZeros m) * (val (popZeros sq) ^ 2) ^ (power / 2) := by
          rw [vy, vz]
          conv_lhs => rw [show power = 1 + 2 * (power / 2) by omega]
          rw [pow_add, pow_mul, pow_one]; ring
        obtain ⟨q, q1, q2, q3⟩ := ih (power / 2) (popZeros sq) (popZeros m) (by omega) z1 y1 vzp vyp lz
          (by rw [y2] at vyp ⊢; exact y3 vyp) (by rw [← hpow]; exact hB)
        exact ⟨q, q1, q2, by rw [q3, hpow]⟩
      · rw [if_neg hodd]
        have hpow : val r * (val p5 ^ 2) ^ power = val r * (val (popZeros sq) ^ 2) ^ (power / 2) := by
          rw [vz]
          conv_lhs => rw [show power = 2 * (power / 2) by omega]
          rw [pow_mul]
        obtain ⟨q, q1, q2, q3⟩ := ih (power / 2) (popZeros sq) r (by omega) z1 hr vzp vr lz lr (by rw [← hpow]; exact hB)
        exact ⟨q, q1, q2, by rw [q3, hpow]⟩

theorem pow5_ok {n : ℕ} (hn : n < 140000000) : ∃ q, pow5 n = .ok q ∧ Limbs q ∧ val q = 5 ^ n := by
  unfold pow5
  have h8 : n % 8 < 8 := Nat.mod_lt _ (by norm_num)
  have hr : 5 ^ (n % 8) ≤ 5 ^ 7 := Nat.pow_le_pow_right (by norm_num) (by omega)
  have hp : 0 < 5 ^ (n % 8) := by positivity
  have e : 5 ^ (n % 8) * (625 ^ 2) ^ (n / 8) = 5 ^ n := by
    rw [show (625 : ℕ) ^ 2 = 5 ^ 8 by norm_num, ← pow_mul, ← pow_add]
    congr 1; omega
  obtain ⟨K, hK⟩ : ∃ K : ℕ, K = 70000000 := ⟨_, rfl⟩
  obtain ⟨q, h1, h2, h3⟩ := pow5Loop_ok (B := 5 * K) (by omega) 63 (n / 8) [625] [5 ^ (n % 8)] (by omega) (Limbs.one (by norm_num)) (Limbs.one (by omega))
    (by simp) (by rw [val_singleton]; exact hp) (by simp [Nat.size_pos]) (by simp [Nat.size_pos]) (by
      rw [val_singleton, val_singleton, e]
      calc 5 ^ n ≤ 5 ^ (2 * K) := Nat.pow_le_pow_right (by norm_num) (by omega)
        _ = (5 ^ 2) ^ K := by rw [← pow_mul]
        _ < (2 ^ 5) ^ K := Nat.pow_lt_pow_left (by norm_num) (by omega)
        _ = 2 ^ (5 * K) := by rw [← pow_mul])
  refine ⟨q, h1, h2, ?_⟩
  rw [h3, val_singleton, val_singleton, e]

end Apf
