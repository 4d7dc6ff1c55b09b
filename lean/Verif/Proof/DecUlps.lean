import Verif.Proof.DecCalc
/-! # The distance of a calculated significand from the nearest rounding boundary -/

namespace Apf
open Spec IeeeFloat

theorem wneg_eq {x : ℕ} (h : x < 2 ^ 128) (h0 : 0 < x) : wneg x = 2 ^ 128 - x := by
  unfold wneg; rw [Nat.mod_eq_of_lt h, Nat.mod_eq_of_lt (by omega)]

theorem wneg_zero : wneg 0 = 0 := by unfold wneg; norm_num

theorem wneg_eq_one {x : ℕ} (h : x < 2 ^ 128) : wneg x = 1 ↔ x = 2 ^ 128 - 1 := by
  rcases Nat.eq_zero_or_pos x with rfl | h0
  · rw [wneg_zero]; norm_num
  · rw [wneg_eq h h0]; omega

/-- Either all limbs are full, or the number is at least two short of the maximum plus one. -/
theorem any_not_full {l : List ℕ} (h : Limbs l) :
    (l.any (fun x => wneg x != 1) = false → val l + 1 = 2 ^ (128 * l.length)) ∧
    (l.any (fun x => wneg x != 1) = true → val l + 2 ≤ 2 ^ (128 * l.length)) := by
  induction l with
  | nil => simp
  | cons x xs ih =>
    obtain ⟨i1, i2⟩ := ih h.tail
    have hx := h.head
    have hv := val_lt h.tail
    have e : 2 ^ (128 * (x :: xs).length) = 2 ^ 128 * 2 ^ (128 * xs.length) := by rw [List.length_cons, ← pow_add]; congr 1; ring
    rw [List.any_cons, e, val_cons]
    generalize 2 ^ (128 * xs.length) = B at *
    by_cases h1 : wneg x = 1
    · have hx1 := (wneg_eq_one hx).1 h1
      have hb : (wneg x != 1) = false := by simp [h1]
      rw [hb, Bool.false_or]
      refine ⟨fun hh => ?_, fun hh => ?_⟩
      · have := i1 hh; omega
      · have := i2 hh; omega
    · have hx1 : x ≠ 2 ^ 128 - 1 := fun hh => h1 ((wneg_eq_one hx).2 hh)
      have hb : (wneg x != 1) = true := by simp [h1]
      rw [hb, Bool.true_or]
      refine ⟨fun hh => absurd hh (by simp), fun _ => ?_⟩
      omega

def Nearest (mode : Round) : Prop := mode = .nearestTiesToEven ∨ mode = .nearestTiesToAway

theorem boundaryBit_zero {mode : Round} (h : ¬ Nearest mode) (j : ℕ) : boundaryBit mode j = 0 := by
  unfold Nearest at h
  cases mode <;> first | rfl | simp at h

theorem limb_split {V i j : ℕ} : V % 2 ^ (128 * i + j + 1) = 2 ^ (128 * i) * (V / 2 ^ (128 * i) % 2 ^ (j + 1)) + V % 2 ^ (128 * i) := by
  rw [show 128 * i + j + 1 = 128 * i + (j + 1) by ring, pow_add, Nat.mod_mul]; ring

set_option maxHeartbeats 1000000 in
theorem ulps_ok {sig : List ℕ} (h : Limbs sig) {cp used : ℕ} (hu : used < cp) (hlen : cp < 128 * sig.length) (mode : Round) :
    ∃ u, ulpsFromBoundary mode cp used sig = .ok u ∧
      (Nearest mode → (2 ^ (cp - used - 1) ≤ val sig % 2 ^ (cp - used) → u ≤ val sig % 2 ^ (cp - used) - 2 ^ (cp - used - 1)) ∧
        (val sig % 2 ^ (cp - used) < 2 ^ (cp - used - 1) → u ≤ 2 ^ (cp - used - 1) - val sig % 2 ^ (cp - used))) ∧
      (¬ Nearest mode → 1 ≤ u → 1 ≤ val sig % 2 ^ (cp - used)) ∧
      (128 < cp - used → 2 ^ 128 < val sig % 2 ^ (cp - used) → val sig % 2 ^ (cp - used) + 2 ^ 128 < 2 ^ (cp - used) →
        (2 ^ (cp - used - 1) + 2 ^ 128 < val sig % 2 ^ (cp - used) ∨
          val sig % 2 ^ (cp - used) + 2 ^ 128 < 2 ^ (cp - used - 1)) → u = limbMax) := by
  unfold ulpsFromBoundary
  rw [usub_ok hu.le, M.ok_bind, usub_ok (by omega), M.ok_bind]
  obtain ⟨bits, hb⟩ : ∃ b, b = cp - used - 1 := ⟨_, rfl⟩
  have hb1 : cp - used = bits + 1 := by omega
  rw [hb1, Nat.add_sub_cancel]
  obtain ⟨i, hi⟩ : ∃ i, i = bits / 128 := ⟨_, rfl⟩
  obtain ⟨j, hj⟩ : ∃ j, j = bits % 128 := ⟨_, rfl⟩
  have hij : bits = 128 * i + j := by omega
  have hj128 : j < 128 := by omega
  simp only [limbBits]
  rw [← hi, ← hj, idx_getD (by omega), M.ok_bind, shr_ok (by omega), M.ok_bind]
  have hmask : limbMax / 2 ^ (128 - 1 - j) = 2 ^ (j + 1) - 1 := by
    have e : (2 : ℕ) ^ 128 = 2 ^ (j + 1) * 2 ^ (128 - 1 - j) := by rw [← pow_add]; congr 1; omega
    have hp : 0 < 2 ^ (128 - 1 - j) := by positivity
    have hp2 : 0 < 2 ^ (j + 1) := by positivity
    have hm : limbMax = (2 ^ (j + 1) - 1) * 2 ^ (128 - 1 - j) + (2 ^ (128 - 1 - j) - 1) := by
      have : limbMax = 2 ^ 128 - 1 := by unfold limbMax; norm_num
      rw [this, e, Nat.sub_mul, one_mul]
      have := Nat.le_mul_of_pos_left (2 ^ (128 - 1 - j)) hp2
      omega
    rw [hm, Nat.mul_comm, Nat.mul_add_div hp, Nat.div_eq_of_lt (by omega), add_zero]
  rw [hmask, Nat.and_two_pow_sub_one_eq_mod, getD_eq_val h]
  have hmod : val sig / 2 ^ (128 * i) % 2 ^ 128 % 2 ^ (j + 1) = val sig / 2 ^ (128 * i) % 2 ^ (j + 1) :=
    Nat.mod_mod_of_dvd _ (Nat.pow_dvd_pow 2 (by omega))
  rw [hmod]
  have hsplit := limb_split (V := val sig) (i := i) (j := j)
  rw [← hij] at hsplit
  obtain ⟨m, hm⟩ : ∃ m, m = val sig % 2 ^ (bits + 1) := ⟨_, rfl⟩
  obtain ⟨limb, hlimb⟩ : ∃ l, l = val sig / 2 ^ (128 * i) % 2 ^ (j + 1) := ⟨_, rfl⟩
  obtain ⟨low, hlow⟩ : ∃ l, l = val sig % 2 ^ (128 * i) := ⟨_, rfl⟩
  rw [← hm] at hsplit ⊢
  rw [← hlimb] at hsplit ⊢
  rw [← hlow] at hsplit
  have hll : limb < 2 ^ (j + 1) := by rw [hlimb]; exact Nat.mod_lt _ (by positivity)
  have hlow' : low < 2 ^ (128 * i) := by rw [hlow]; exact Nat.mod_lt _ (by positivity)
  have hj1 : 2 ^ (j + 1) = 2 * 2 ^ j := by ring
  have hj2 : 2 ^ j ≤ 2 ^ 127 := Nat.pow_le_pow_right (by norm_num) (by omega)
  have hj0 : 0 < 2 ^ j := by positivity
  have hlm : limbMax = 2 ^ 128 - 1 := by unfold limbMax; norm_num
  have hpb : 2 ^ bits = 2 ^ (128 * i) * 2 ^ j := by rw [← pow_add, hij]
  have hpb1 : 2 ^ (bits + 1) = 2 ^ (128 * i) * 2 ^ (j + 1) := by rw [← pow_add, hij]; congr 1
  by_cases hi0 : i = 0
  · -- one limb
    rw [if_pos hi0]
    have hm' : m = limb := by
      rw [hi0] at hsplit hlow'
      simp at hsplit hlow'
      omega
    have hbj : bits = j := by omega
    refine ⟨_, rfl, ?_, ?_, ?_⟩
    · intro hn
      have hbd : boundaryBit mode j = 2 ^ j := by
        rcases hn with rfl | rfl <;> simp [boundaryBit, Nat.shiftLeft_eq]
      rw [hbd, hm', hbj]
      refine ⟨fun hle => ?_, fun hlt => ?_⟩
      · rw [wsub_of_le (by omega) hle]; exact Nat.min_le_left _ _
      · rw [wsub_of_lt (by omega) hlt, wneg_eq (by omega) (by omega)]
        refine le_trans (Nat.min_le_right _ _) (by omega)
    · intro hn h1
      have hbd : boundaryBit mode j = 0 := by
        exact boundaryBit_zero hn j
      rw [hbd, wsub_of_le (by omega) (Nat.zero_le _), Nat.sub_zero] at h1
      have := Nat.min_le_left limb (wneg limb)
      omega
    · intro h128; omega
  · rw [if_neg hi0, idx_getD (by omega), M.ok_bind]
    -- the limbs below
    obtain ⟨i', rfl⟩ : ∃ i', i = i' + 1 := ⟨i - 1, by omega⟩
    have hlv : low = val (sig.take (i' + 1)) := by rw [hlow, val_take_mod h]
    have hlen' : i' + 1 < sig.length := by omega
    obtain ⟨s0, rest, rfl⟩ : ∃ a b, sig = a :: b := by
      cases sig with
      | nil => simp at hlen'
      | cons a b => exact ⟨a, b, rfl⟩
    rw [List.take_succ_cons] at hlv ⊢
    have hs0 := h.head
    have hmidL : Limbs (rest.take i') := limbs_take h.tail _
    have hmlen : (rest.take i').length = i' := by rw [List.length_take]; rw [List.length_cons] at hlen'; omega
    rw [val_cons] at hlv
    have hidx : (s0 :: rest).getD 0 0 = s0 := rfl
    have hdrop : (s0 :: rest.take i').drop 1 = rest.take i' := rfl
    rw [hidx, hdrop]
    generalize rest.take i' = mids at *
    have hmv := val_lt hmidL
    obtain ⟨n1, n2⟩ := any_not_full hmidL
    rw [hmlen] at hmv n1 n2
    have hpw : 2 ^ (128 * (i' + 1)) = 2 ^ 128 * 2 ^ (128 * i') := by rw [← pow_add]; congr 1; ring
    rw [hpw] at hsplit hlow' hpb hpb1
    obtain ⟨C, hC⟩ : ∃ C, C = 2 ^ (128 * i') := ⟨_, rfl⟩
    rw [← hC] at hsplit hlow' hpb hpb1 hmv n1 n2
    have hC1 : 1 ≤ C := by rw [hC]; exact Nat.one_le_two_pow
    have hz := isAllZeros_iff mids
    clear hlow hpw hm hmask hlimb
    -- products as atoms
    obtain ⟨W, hW⟩ : ∃ W, W = 2 ^ 128 * C := ⟨_, rfl⟩
    rw [← hW] at hsplit hlow' hpb hpb1
    have hW1 : 2 ^ 128 ≤ W := by rw [hW]; omega
    have hWj : W ≤ W * 2 ^ j := Nat.le_mul_of_pos_right _ hj0
    have hW2 : W * 2 ^ (j + 1) = 2 * (W * 2 ^ j) := by rw [hj1]; ring
    have mul_ge : ∀ a b : ℕ, a + 1 ≤ b → W * a + W ≤ W * b := by
      intro a b hab
      calc W * a + W = W * (a + 1) := by ring
        _ ≤ W * b := Nat.mul_le_mul_left _ hab
    by_cases hn : Nearest mode
    · have hbd : boundaryBit mode j = 2 ^ j := by
        rcases hn with rfl | rfl <;> simp [boundaryBit, Nat.shiftLeft_eq]
      rw [hbd, wsub_of_le (by omega) (by omega : 1 ≤ 2 ^ j)]
      by_cases h1 : limb = 2 ^ j
      · rw [if_pos h1]
        refine ⟨_, rfl, fun _ => ?_, fun hh => absurd hn hh, ?_⟩
        · rw [h1] at hsplit
          by_cases hm0 : Sig.isAllZeros mids = true
          · have := hz.1 hm0
            simp only [hm0, Bool.not_true, Bool.false_eq_true, if_false]
            omega
          · have : val mids ≠ 0 := fun hh => hm0 (hz.2 hh)
            simp only [Bool.not_eq_true] at hm0
            simp only [hm0, Bool.not_false, if_true]
            omega
        · intro _ _ _ hfar
          rw [h1] at hsplit
          by_cases hm0 : Sig.isAllZeros mids = true
          · have := hz.1 hm0
            omega
          · simp only [Bool.not_eq_true] at hm0
            simp only [hm0, Bool.not_false, if_true]
      · rw [if_neg h1]
        by_cases h2 : limb = 2 ^ j - 1
        · rw [if_pos h2]
          have hWs : W * limb + W = W * 2 ^ j := by
            rw [h2]
            have : W * 2 ^ j = W * (2 ^ j - 1 + 1) := by congr 1; omega
            rw [this]; ring
          refine ⟨_, rfl, fun _ => ?_, fun hh => absurd hn hh, ?_⟩
          · by_cases hm0 : mids.any (fun x => wneg x != 1) = true
            · have := n2 hm0
              simp only [hm0, if_true]
              omega
            · simp only [Bool.not_eq_true] at hm0
              have := n1 hm0
              simp only [hm0, Bool.false_eq_true, if_false]
              rcases Nat.eq_zero_or_pos s0 with hs | hs
              · rw [hs, wneg_zero]; omega
              · rw [wneg_eq hs0 hs]; omega
          · intro _ _ _ hfar
            by_cases hm0 : mids.any (fun x => wneg x != 1) = true
            · simp only [hm0, if_true]
            · simp only [Bool.not_eq_true] at hm0
              have := n1 hm0
              omega
        · rw [if_neg h2]
          refine ⟨_, rfl, fun _ => ?_, fun hh => absurd hn hh, fun _ _ _ _ => rfl⟩
          rcases Nat.lt_or_ge limb (2 ^ j) with hl | hl
          · have := mul_ge (limb + 1) (2 ^ j) (by omega)
            rw [mul_add, mul_one] at this
            omega
          · have := mul_ge (2 ^ j) limb (by omega)
            omega
    · have hbd : boundaryBit mode j = 0 := by
        exact boundaryBit_zero hn j
      rw [hbd]
      by_cases h1 : limb = 0
      · rw [if_pos h1]
        rw [h1, mul_zero, zero_add] at hsplit
        refine ⟨_, rfl, fun hh => absurd hh hn, fun _ hge => ?_, ?_⟩
        · by_cases hm0 : Sig.isAllZeros mids = true
          · have := hz.1 hm0
            simp only [hm0, Bool.not_true, Bool.false_eq_true, if_false] at hge
            omega
          · have : val mids ≠ 0 := fun hh => hm0 (hz.2 hh)
            omega
        · intro _ hfar _ _
          by_cases hm0 : Sig.isAllZeros mids = true
          · have := hz.1 hm0
            omega
          · simp only [Bool.not_eq_true] at hm0
            simp only [hm0, Bool.not_false, if_true]
      · rw [if_neg h1]
        have hmpos : 1 ≤ m := by
          have := mul_ge 0 limb (by omega)
          omega
        by_cases h2 : limb = wsub 0 1
        · rw [if_pos h2]
          have hws : wsub 0 1 = 2 ^ 128 - 1 := by unfold wsub; norm_num
          rw [hws] at h2
          refine ⟨_, rfl, fun hh => absurd hh hn, fun _ _ => hmpos, ?_⟩
          intro _ _ hfar _
          by_cases hm0 : mids.any (fun x => wneg x != 1) = true
          · simp only [hm0, if_true]
          · simp only [Bool.not_eq_true] at hm0
            have := n1 hm0
            have hjj : 2 ^ (j + 1) = 2 ^ 128 := by
              have : 2 ^ (j + 1) ≤ 2 ^ 128 := Nat.pow_le_pow_right (by norm_num) (by omega)
              omega
            have hWs : W * limb + W = W * 2 ^ (j + 1) := by
              rw [h2, hjj]
              have : W * 2 ^ 128 = W * (2 ^ 128 - 1 + 1) := by norm_num
              rw [this]; ring
            omega
        · rw [if_neg h2]
          exact ⟨_, rfl, fun hh => absurd hh hn, fun _ _ => hmpos, fun _ _ _ _ => rfl⟩

end Apf
