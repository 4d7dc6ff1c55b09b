import Verif.Proof.AddMul
import Verif.Proof.Div
/-! # `extract` and `from_limbs` -/

namespace Apf
open Sig

theorem limbs_drop {l : List Nat} (h : Limbs l) (k : Nat) : Limbs (l.drop k) :=
  fun x hx => h x (List.mem_of_mem_drop hx)

theorem limbs_take {l : List Nat} (h : Limbs l) (k : Nat) : Limbs (l.take k) :=
  fun x hx => h x (List.mem_of_mem_take hx)

theorem limbs_append {a b : List Nat} (ha : Limbs a) (hb : Limbs b) : Limbs (a ++ b) := by
  intro x hx
  rcases List.mem_append.1 hx with h | h
  · exact ha x h
  · exact hb x h

theorem val_drop_eq {l : List Nat} (h : Limbs l) (k : Nat) : val (l.drop k) = val l / 2 ^ (128 * k) := by
  by_cases hk : k ≤ l.length
  · rw [val_take_drop l k hk, Nat.add_mul_div_left _ _ (by positivity), Nat.div_eq_of_lt, Nat.zero_add]
    have := val_lt (limbs_take h k)
    rwa [List.length_take, Nat.min_eq_left hk] at this
  · rw [List.drop_of_length_le (by omega), val_nil, Nat.div_eq_of_lt]
    exact lt_of_lt_of_le (val_lt h) (Nat.pow_le_pow_right (by omega) (by omega))

/-- Limb `k` of a number. -/
theorem getD_eq_val {l : List Nat} (h : Limbs l) (k : Nat) : l.getD k 0 = val l / 2 ^ (128 * k) % 2 ^ 128 := by
  rw [← val_drop_eq h]
  by_cases hk : k < l.length
  · rw [List.drop_eq_getElem_cons hk, val_cons, Nat.add_mul_mod_self_left, getD_lt hk, Nat.mod_eq_of_lt]
    exact h _ (List.getElem_mem hk)
  · rw [getD_ge (by omega), List.drop_of_length_le (by omega), val_nil, Nat.zero_mod]

theorem set_last_mask {l : List Nat} (h : Limbs l) {d t : Nat} (hl : l.length = d) (hd : 0 < d) (ht : t ≤ 128) :
    val (l.set (d - 1) (l.getD (d - 1) 0 % 2 ^ t)) = val l % 2 ^ (128 * (d - 1) + t) := by
  have h1 := val_drop_set l (d - 1) (l.getD (d - 1) 0 % 2 ^ t) (by omega)
  have h2 := val_take_drop l (d - 1) (by omega)
  have h3 : val (l.drop (d - 1)) = l.getD (d - 1) 0 := by
    rw [List.drop_eq_getElem_cons (by omega : d - 1 < l.length), List.drop_of_length_le (by omega),
      getD_lt (by omega : d - 1 < l.length), val_singleton]
  have h4 := val_lt (limbs_take h (d - 1))
  rw [List.length_take, Nat.min_eq_left (by omega)] at h4
  rw [h3] at h2
  rw [pow_add, Nat.mod_mul, h2, Nat.add_mul_mod_self_left, Nat.mod_eq_of_lt h4, Nat.add_mul_div_left _ _ (by positivity),
    Nat.div_eq_of_lt h4, Nat.zero_add]
  rw [h2] at h1
  omega

theorem extract_ok {dst src : List Nat} (hs : Limbs src) (hd : Limbs dst) {srcBits srcLsb : Nat}
    (h0 : 0 < srcBits) (hl : limbsForBits srcBits ≤ dst.length) (hb : srcLsb + srcBits ≤ 128 * src.length) :
    ∃ r, Sig.extract dst src srcBits srcLsb = .ok r ∧ r.length = dst.length ∧ Limbs r ∧
      val r = val src / 2 ^ srcLsb % 2 ^ srcBits := by
  unfold Sig.extract
  rw [if_neg (by omega)]
  dsimp only
  rw [massert_pos hl, M.ok_bind]
  have hdl : limbsForBits srcBits = (srcBits + 127) / 128 := rfl
  simp only [limbBits]
  generalize hD : limbsForBits srcBits = d at *
  rw [if_neg (by omega)]
  have hlen : (src.drop (srcLsb / 128)).length = src.length - srcLsb / 128 := by simp
  have hs' : Limbs (src.drop (srcLsb / 128)) := limbs_drop hs _
  have hv' : val (src.drop (srcLsb / 128)) = val src / 2 ^ (128 * (srcLsb / 128)) := val_drop_eq hs _
  generalize src.drop (srcLsb / 128) = src' at *
  rw [if_neg (by omega)]
  have hsh : srcLsb % 128 < 128 := Nat.mod_lt _ (by omega)
  have hdecomp : srcLsb = 128 * (srcLsb / 128) + srcLsb % 128 := by omega
  obtain ⟨low, e1, e2, e3, e4⟩ := shiftRight_ok (limbs_take hs' d) (exp := 0) (bits := srcLsb % 128) (by omega)
    (by omega) (by omega)
  rw [e1, M.ok_bind]
  have hdpos : 0 < d := by omega
  have hd' : d ≤ src'.length := by omega
  rw [List.length_take, Nat.min_eq_left hd'] at e2
  rw [← val_take_mod hs'] at e4
  dsimp only
  generalize hsh' : srcLsb % 128 = sh at *
  have hV : val src / 2 ^ srcLsb = val src' / 2 ^ sh := by
    rw [hv', Nat.div_div_eq_div_mul, ← pow_add, ← hdecomp]
  rw [hV]
  have hpd : 2 ^ (128 * d) = 2 ^ sh * 2 ^ (128 * d - sh) := by
    rw [← pow_add]; congr 1; omega
  have hlow : val low = val src' / 2 ^ sh % 2 ^ (128 * d - sh) := by
    rw [e4, hpd, Nat.mod_mul_right_div_self]
  have hdst : Limbs (List.replicate (dst.length - d) 0) := limbs_replicate _
  have fin : ∀ l : List Nat, l.length = d → Limbs l → val l = val src' / 2 ^ sh % 2 ^ srcBits →
      ∃ r, (Except.ok (l ++ List.replicate (dst.length - d) 0) : M (List Nat)) = .ok r ∧ r.length = dst.length ∧ Limbs r ∧
      val r = val src' / 2 ^ sh % 2 ^ srcBits := by
    intro l hl1 hl2 hl3
    refine ⟨_, rfl, ?_, limbs_append hl2 hdst, ?_⟩
    · rw [List.length_append, List.length_replicate, hl1]; omega
    · rw [val_append, val_replicate, hl3]; ring
  have hidx : idx low (d - 1) = .ok (low.getD (d - 1) 0) := idx_getD (by omega)
  by_cases c1 : 128 * d - sh < srcBits
  · rw [Nat.mul_comm d 128, if_pos c1]
    have hk : srcBits - (128 * d - sh) < 128 := by omega
    rw [shl_ok hk, M.ok_bind, usub_ok, M.ok_bind, idx_getD (by omega), M.ok_bind, shl_ok (Nat.mod_lt _ (by omega)), M.ok_bind,
      hidx, M.ok_bind, setIdx_ok (by omega), M.ok_bind]
    · generalize hN : 128 * d - sh = n at *
      generalize hK : srcBits - n = k at *
      have hk1 : 1 * 2 ^ k % 2 ^ 128 = 2 ^ k := by
        rw [one_mul, Nat.mod_eq_of_lt]; exact Nat.pow_lt_pow_right (by omega) hk
      rw [hk1, Nat.and_two_pow_sub_one_eq_mod]
      have hnm : n % 128 = 128 - sh := by omega
      rw [hnm]
      have hks : k ≤ sh := by omega
      have hsm : src'.getD d 0 % 2 ^ k * 2 ^ (128 - sh) < 2 ^ 128 := by
        calc src'.getD d 0 % 2 ^ k * 2 ^ (128 - sh) < 2 ^ k * 2 ^ (128 - sh) :=
              Nat.mul_lt_mul_of_pos_right (Nat.mod_lt _ (by positivity)) (by positivity)
          _ ≤ 2 ^ 128 := by rw [← pow_add]; exact Nat.pow_le_pow_right (by omega) (by omega)
      rw [Nat.mod_eq_of_lt hsm]
      have hlo : low.getD (d - 1) 0 < 2 ^ (128 - sh) := by
        rw [getD_eq_val e3]
        refine lt_of_le_of_lt (Nat.mod_le _ _) ?_
        rw [Nat.div_lt_iff_lt_mul (by positivity), ← pow_add]
        have : 128 - sh + 128 * (d - 1) = n := by omega
        rw [this, hlow]
        exact Nat.mod_lt _ (by positivity)
      have hor : low.getD (d - 1) 0 ||| src'.getD d 0 % 2 ^ k * 2 ^ (128 - sh) =
          low.getD (d - 1) 0 + src'.getD d 0 % 2 ^ k * 2 ^ (128 - sh) := by
        rw [Nat.or_comm, or_eq_add (Dvd.intro_left _ rfl) hlo, Nat.add_comm]
      rw [hor]
      have hlt : low.getD (d - 1) 0 + src'.getD d 0 % 2 ^ k * 2 ^ (128 - sh) < 2 ^ 128 := by
        rw [← hor]
        exact Nat.or_lt_two_pow (e3.getD _) hsm
      apply fin _ (by simp [e2]) (e3.set _ hlt)
      have h5 := val_drop_set low (d - 1) (low.getD (d - 1) 0 + src'.getD d 0 % 2 ^ k * 2 ^ (128 - sh)) (by omega)
      have h6 : 2 ^ srcBits = 2 ^ n * 2 ^ k := by rw [← pow_add]; congr 1; omega
      rw [h6, Nat.mod_mul, ← hlow]
      have h7 : val src' / 2 ^ sh / 2 ^ n % 2 ^ k = src'.getD d 0 % 2 ^ k := by
        rw [getD_eq_val hs', Nat.mod_mod_of_dvd _ (Nat.pow_dvd_pow 2 (by omega)), Nat.div_div_eq_div_mul, ← pow_add]
        congr 3; omega
      rw [h7]
      have h8 : 2 ^ n = 2 ^ (128 * (d - 1)) * 2 ^ (128 - sh) := by rw [← pow_add]; congr 1; omega
      rw [h8]
      generalize 2 ^ (128 * (d - 1)) = A at *
      generalize 2 ^ (128 - sh) = B at *
      generalize src'.getD d 0 % 2 ^ k = C at *
      have : A * (low.getD (d - 1) 0 + C * B) = A * low.getD (d - 1) 0 + A * B * C := by ring
      rw [this] at h5
      omega
    · rw [one_mul, Nat.mod_eq_of_lt (Nat.pow_lt_pow_right (by omega) hk)]
      exact Nat.one_le_two_pow
  · rw [Nat.mul_comm d 128, if_neg c1]
    by_cases c2 : 128 * d - sh > srcBits ∧ srcBits % 128 > 0
    · rw [if_pos c2, hidx, M.ok_bind, setIdx_ok (by omega), M.ok_bind]
      have hand : low.getD (d - 1) 0 &&& 1 <<< (srcBits % 128) - 1 = low.getD (d - 1) 0 % 2 ^ (srcBits % 128) := by
        rw [Nat.one_shiftLeft, Nat.and_two_pow_sub_one_eq_mod]
      rw [hand]
      apply fin _ (by simp [e2]) (e3.set _ (lt_of_le_of_lt (Nat.mod_le _ _) (e3.getD _)))
      rw [set_last_mask e3 e2 hdpos (by omega)]
      have : 128 * (d - 1) + srcBits % 128 = srcBits := by omega
      rw [this, hlow, Nat.mod_mod_of_dvd]
      exact Nat.pow_dvd_pow 2 (by omega)
    · rw [if_neg c2, M.ok_bind]
      apply fin _ e2 e3
      rw [hlow]
      congr 2
      have : ¬ (128 * d - sh > srcBits) ∨ ¬ (srcBits % 128 > 0) := by tauto
      omega

theorem extract_zero (dst src : List Nat) (lsb : Nat) : Sig.extract dst src 0 lsb = .ok dst := by
  unfold Sig.extract; rw [if_pos rfl]

/-- `from_limbs`: the top `precision` bits of a number and what they leave out. -/
theorem fromLimbs_big {dst src : List Nat} (hs : Limbs src) (hd : Limbs dst) {p : Nat} (hp : 0 < p)
    (hl : limbsForBits p ≤ dst.length) (hb : p ≤ Nat.size (val src)) (hn : Nat.size (val src) < 2147483648) :
    ∃ r, Sig.fromLimbs dst src p =
        .ok (r, lossOf (val src % 2 ^ (Nat.size (val src) - p)) (2 ^ (Nat.size (val src) - p)), (Nat.size (val src) : Int) - 1) ∧
      r.length = dst.length ∧ Limbs r ∧ val r = val src / 2 ^ (Nat.size (val src) - p) := by
  unfold Sig.fromLimbs
  simp only [omsb_eq hs]
  rw [if_pos hb]
  have hsz : Nat.size (val src) ≤ 128 * src.length := Nat.size_le.2 (val_lt hs)
  obtain ⟨r, e1, e2, e3, e4⟩ := extract_ok hs hd (srcLsb := Nat.size (val src) - p) hp hl (by omega)
  rw [e1, M.ok_bind, asI32_of_lt hn, i32_ok (by omega) (by omega), M.ok_bind, throughTruncation_eq hs]
  refine ⟨r, rfl, e2, e3, ?_⟩
  rw [e4, Nat.mod_eq_of_lt]
  rw [Nat.div_lt_iff_lt_mul (by positivity), ← pow_add]
  have : p + (Nat.size (val src) - p) = Nat.size (val src) := by omega
  rw [this]
  exact lt_two_pow_size _

theorem fromLimbs_small {dst src : List Nat} (hs : Limbs src) (hd : Limbs dst) {p : Nat} (h0 : 0 < val src)
    (hl : limbsForBits p ≤ dst.length) (hb : Nat.size (val src) < p) (hn : p < 2147483648) :
    ∃ r, Sig.fromLimbs dst src p = .ok (r, .exactlyZero, (p : Int) - 1) ∧
      r.length = dst.length ∧ Limbs r ∧ val r = val src := by
  unfold Sig.fromLimbs
  simp only [omsb_eq hs]
  rw [if_neg (by omega)]
  have hsz : Nat.size (val src) ≤ 128 * src.length := Nat.size_le.2 (val_lt hs)
  have hl' : limbsForBits (Nat.size (val src)) ≤ dst.length := by
    refine le_trans ?_ hl
    unfold limbsForBits; omega
  obtain ⟨r, e1, e2, e3, e4⟩ := extract_ok hs hd (srcLsb := 0) (size_pos h0) hl' (by omega)
  rw [e1, M.ok_bind, asI32_of_lt hn, i32_ok (by omega) (by omega), M.ok_bind]
  refine ⟨r, rfl, e2, e3, ?_⟩
  rw [e4, pow_zero, Nat.div_one, Nat.mod_eq_of_lt (lt_two_pow_size _)]

end Apf
