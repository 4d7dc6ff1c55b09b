import Verif.Proof.Hex
import Verif.Props.Scale
/-! # `normalize` with saturated exponents -/

namespace Apf
open Spec IeeeFloat
variable {S : Sem}

theorem normalize_hi (h : S.OK) {x : IeeeFloat S} (hcat : x.category = .normal) (hs : x.sig < 2 ^ 128) (h0 : x.sig ≠ 0)
    (h1 : 1000000 ≤ x.exp) (mode : Round) (loss : Loss) :
    x.normalize mode loss = .ok ((overflowResult S (mode.negateIf x.isNegative)).map (·.copySign x)) := by
  have hpl := h.p_le
  have hMl := h.max_le
  unfold normalize
  rw [isFiniteNonZero_of hcat]
  simp only [Bool.not_true, Bool.false_eq_true, if_false, omsb_one hs]
  have hsp : 0 < Nat.size x.sig := Nat.size_pos.2 (by omega)
  have hsl : Nat.size x.sig ≤ 128 := Nat.size_le.2 hs
  rw [if_pos hsp, asI32_of_lt (by omega), asI32_of_lt (by omega), if_pos]
  unfold sat32
  omega

theorem normalize_lo (h : S.OK) {x : IeeeFloat S} (hcat : x.category = .normal) (hs : x.sig < 2 ^ 128) (h0 : x.sig ≠ 0)
    (h1 : x.exp ≤ -1000000) (h2 : -2147483648 ≤ x.exp) (mode : Round) (loss : Loss) :
    x.normalize mode loss = normalizeRound { x with sig := 0, exp := S.minExp } mode .lessThanHalf 0 := by
  have hpl := h.p_le
  have hpg := h.p_ge
  have hml := h.min_lt
  have hmg := h.min_ge
  have hMl := h.max_le
  have hpm := h.p_max
  unfold normalize
  rw [isFiniteNonZero_of hcat]
  simp only [Bool.not_true, Bool.false_eq_true, if_false, omsb_one hs]
  have hsp : 0 < Nat.size x.sig := Nat.size_pos.2 (by omega)
  have hsl : Nat.size x.sig ≤ 128 := Nat.size_le.2 hs
  rw [if_pos hsp, asI32_of_lt (by omega), asI32_of_lt (by omega)]
  have hlt : sat32 (x.exp + ((Nat.size x.sig : ℤ) - (S.precision : ℤ))) < S.minExp := by unfold sat32; omega
  rw [if_neg (by omega), if_pos hlt, if_neg (by omega), if_pos (by omega), i32_ok (by omega) (by omega), M.ok_bind]
  obtain ⟨k, hk⟩ : ∃ k : ℕ, S.minExp - x.exp = k := ⟨(S.minExp - x.exp).toNat, by omega⟩
  rw [hk, Int.toNat_natCast, shiftRight1_ok hs (by omega) (by omega) (by omega), M.ok_bind]
  have hbig : 2 * x.sig < 2 ^ k := by
    calc 2 * x.sig < 2 * 2 ^ 128 := by omega
      _ = 2 ^ 129 := by norm_num
      _ ≤ 2 ^ k := Nat.pow_le_pow_right (by omega) (by omega)
  have hz : x.sig / 2 ^ k = 0 := Nat.div_eq_of_lt (by omega)
  have hm : x.sig % 2 ^ k = x.sig := Nat.mod_eq_of_lt (by omega)
  have hl : (lossOf x.sig (2 ^ k)).combine loss = .lessThanHalf := by
    unfold lossOf
    rw [if_neg h0, if_pos hbig]
    cases loss <;> rfl
  dsimp only
  rw [hz, hm, hl, show x.exp + (k : ℤ) = S.minExp by omega, show Nat.size x.sig - k = 0 by omega]

/-- `normalize` of a positive number whose exponent may have been saturated on the way. -/
theorem normalize_sat (h : S.OK) {sig : ℕ} {e E : ℤ} {mode : Round} {loss : Loss} {f : ℚ} (hs : sig < 2 ^ 128) (h0 : sig ≠ 0)
    (h1 : -2147483648 ≤ e)
    (hE : e = E ∨ (1000000 ≤ E ∧ 1000000 ≤ e) ∨ (E ≤ -1000000 ∧ e ≤ -1000000)) (hf : LossIs loss f)
    (hleft : loss ≠ .exactlyZero → S.precision ≤ Nat.size sig) :
    Good S mode (((sig : ℚ) + f) * 2 ^ (E - S.precision + 1)) false
      (({ sig, exp := e, category := .normal, sign := false } : IeeeFloat S).normalize mode loss) := by
  have hpl := h.p_le
  have hpg := h.p_ge
  have hml := h.min_lt
  have hmg := h.min_ge
  have hMl := h.max_le
  have hpm := h.p_max
  have f0 := hf.nonneg
  have f1 := hf.lt_one
  have hq0 : (1 : ℚ) ≤ (sig : ℚ) + f := by
    have : (1 : ℚ) ≤ sig := by exact_mod_cast Nat.pos_of_ne_zero h0
    linarith
  have hq1 : (sig : ℚ) + f < 2 ^ (128 : ℤ) := by
    have : (sig : ℚ) + 1 ≤ 2 ^ (128 : ℤ) := by exact_mod_cast hs
    linarith
  suffices H : Good S mode (signed false (((sig : ℚ) + f) * 2 ^ (E - S.precision + 1))) false
      (({ sig, exp := e, category := .normal, sign := false } : IeeeFloat S).normalize mode loss) from H
  have base : ∀ c : ℤ, -1200000000 ≤ c → c ≤ 1200000000 → Good S mode (signed false (((sig : ℚ) + f) * 2 ^ (c - S.precision + 1))) false
      (({ sig, exp := c, category := .normal, sign := false } : IeeeFloat S).normalize mode loss) := by
    intro c c1 c2
    have hnn : 0 ≤ ((sig : ℚ) + f) * 2 ^ (c - S.precision + 1) := mul_nonneg (by linarith) (two_zpow_pos _).le
    exact normalize_good' h (x := { sig, exp := c, category := .normal, sign := false }) rfl hs c1 c2 hf
      (fun a _ => Or.inl (hleft a)) (by rw [if_neg h0])
      (directedOK_of_nonneg h mode hnn)
  have hiv : ∀ c : ℤ, 1000000 ≤ c → (2 : ℚ) ^ (S.maxExp + 1) ≤ ((sig : ℚ) + f) * 2 ^ (c - S.precision + 1) := by
    intro c hc
    calc (2 : ℚ) ^ (S.maxExp + 1) ≤ 1 * 2 ^ (c - S.precision + 1) := by rw [one_mul]; exact two_zpow_le (by omega)
      _ ≤ _ := mul_le_mul_of_nonneg_right hq0 (two_zpow_pos _).le
  have lov : ∀ c : ℤ, c ≤ -1000000 → ((sig : ℚ) + f) * 2 ^ (c - S.precision + 1) < 2 ^ (S.minExp - S.precision) := by
    intro c hc
    calc ((sig : ℚ) + f) * 2 ^ (c - S.precision + 1) < 2 ^ (128 : ℤ) * 2 ^ (c - S.precision + 1) :=
          mul_lt_mul_of_pos_right hq1 (two_zpow_pos _)
      _ = 2 ^ (128 + (c - S.precision + 1)) := (two_zpow_add _ _).symm
      _ ≤ _ := two_zpow_le (by omega)
  have pv : ∀ c : ℤ, 0 < ((sig : ℚ) + f) * 2 ^ (c - S.precision + 1) := fun c => mul_pos (by linarith) (two_zpow_pos _)
  obtain ⟨B, hB⟩ : ∃ B : ℤ, B = 1000000 := ⟨_, rfl⟩
  obtain ⟨A, hA⟩ : ∃ A : ℤ, A = -1000000 := ⟨_, rfl⟩

  rcases hE with rfl | ⟨a, b⟩ | ⟨a, b⟩
  · by_cases c1 : e < A
    · obtain ⟨r, r1, r2, r3, r4⟩ := base A (by omega) (by omega)
      refine ⟨r, ?_, r2, r3, r4.of_tiny (s := false) h (pv _) (lov _ (by omega)) (pv _) (lov _ (by omega))⟩
      rw [← r1, normalize_lo h (x := { sig, exp := e, category := .normal, sign := false }) rfl hs h0 (by dsimp only; omega) h1,
        normalize_lo h (x := { sig, exp := A, category := .normal, sign := false }) rfl hs h0 (by dsimp only; omega) (by dsimp only; omega)]
    · by_cases c2 : B < e
      · obtain ⟨r, r1, r2, r3, r4⟩ := base B (by omega) (by omega)
        refine ⟨r, ?_, r2, r3, r4.of_big (s := false) h (hiv _ (by omega)) (hiv _ (by omega))⟩
        rw [← r1, normalize_hi h (x := { sig, exp := e, category := .normal, sign := false }) rfl hs h0 (by dsimp only; omega),
          normalize_hi h (x := { sig, exp := B, category := .normal, sign := false }) rfl hs h0 (by dsimp only; omega)]
        rfl
      · exact base e (by omega) (by omega)
  · obtain ⟨r, r1, r2, r3, r4⟩ := base B (by omega) (by omega)
    refine ⟨r, ?_, r2, r3, r4.of_big (s := false) h (hiv _ (by omega)) (hiv _ (by omega))⟩
    rw [← r1, normalize_hi h (x := { sig, exp := e, category := .normal, sign := false }) rfl hs h0 (by dsimp only; omega),
      normalize_hi h (x := { sig, exp := B, category := .normal, sign := false }) rfl hs h0 (by dsimp only; omega)]
    rfl
  · obtain ⟨r, r1, r2, r3, r4⟩ := base A (by omega) (by omega)
    refine ⟨r, ?_, r2, r3, r4.of_tiny (s := false) h (pv _) (lov _ (by omega)) (pv _) (lov _ (by omega))⟩
    rw [← r1, normalize_lo h (x := { sig, exp := e, category := .normal, sign := false }) rfl hs h0 (by dsimp only; omega) h1,
      normalize_lo h (x := { sig, exp := A, category := .normal, sign := false }) rfl hs h0 (by dsimp only; omega) (by dsimp only; omega)]

theorem zero_rounds (h : S.OK) (mode : Round) : (ZERO S).Valid ∧ Rounds S mode 0 false ⟨Status.OK, ZERO S⟩ :=
  ⟨rfl, delivers_zero h mode false, by simp, by simp, fun _ => rfl⟩

/-- `from_hexadecimal_string` rounds the number a hexadecimal literal denotes. -/
theorem fromHexString_ok (h : S.OK) (hp : S.precision ≤ 125) {s : List Char} (hlen : s.length < 2 ^ 28) {v : ℚ} (hs : IsHex s v)
    (mode : Round) :
    0 ≤ v ∧ ∃ r, fromHexString S s mode = .ok (.ok r) ∧ r.value.Valid ∧ Rounds S mode v false r := by
  have hpg := h.p_ge
  obtain ⟨m, ip, fp, x, ds, E, hm, hx, hd, hs', hv⟩ := hs
  have hv0 : 0 ≤ v := by
    rw [hv]; unfold significandValue
    exact mul_nonneg (div_nonneg (Nat.cast_nonneg _) (by positivity)) (two_zpow_pos _).le
  refine ⟨hv0, ?_⟩
  have hlen2 : ip.length + fp.length < 2 ^ 28 := by
    have h1 : ip.length + fp.length ≤ m.length := by
      rcases hm.2.2.2 with ⟨h1, h2⟩ | h2
      · rw [h1, h2]; simp
      · rw [h2]; simp
    have h2 : m.length ≤ s.length := by rcases hs' with h | h <;> rw [h] <;> simp
    omega
  obtain ⟨st, e, e1, e2, e3⟩ := hexLoop_ok hm hx hd hs'
  unfold fromHexString
  rw [e1]
  have hany : st.anyDigits = true := by
    rw [e3.any]
    cases hh : ip ++ fp with
    | nil => exact absurd hh hm.2.2.1
    | cons => rfl
  dsimp only
  rw [hany, if_neg (by simp)]
  cases hf : st.firstSig with
  | none =>
    dsimp only
    obtain ⟨z1, -⟩ := e3.zero hf
    have : v = 0 := by rw [hv]; unfold significandValue; rw [z1]; simp
    rw [this]
    exact ⟨_, rfl, zero_rounds h mode⟩
  | some k =>
    dsimp only
    obtain ⟨i, i1, i2, i3, i4, i5⟩ := e3.nz k hf
    rw [List.length_append] at i1
    obtain ⟨f, f1, f2, f3, f4⟩ := i5.value
    have hsig := f4 (by simpa using i4) (by simp; omega)
    have hsz : 125 ≤ Nat.size st.sig := by
      by_contra hcon
      have := lt_two_pow_size st.sig
      have : 2 ^ Nat.size st.sig ≤ 2 ^ 124 := Nat.pow_le_pow_right (by omega) (by omega)
      omega
    have hdot := e3.dot
    have hadj : (if st.dot > k then expTryFrom (st.dot - k) else do
        let d ← usub (k - st.dot) 1
        let d ← expTryFrom d
        i32 (-d) : M Int) = .ok ((ip.length : ℤ) - i) := by
      by_cases hi : i < ip.length
      · rw [if_pos hi] at i2
        rw [if_pos (by omega)]
        unfold expTryFrom
        rw [if_pos (by omega)]
        congr 1; omega
      · rw [if_neg hi] at i2
        rw [if_neg (by omega), usub_ok (by omega), M.ok_bind]
        unfold expTryFrom
        rw [if_pos (by omega), M.ok_bind, i32_ok (by omega) (by omega)]
        congr 1; omega
    unfold hexFinish
    rw [hadj, M.ok_bind]
    have hE : sat32 (e + sat32 (sat32 (sat32 (sat32 (((ip.length : ℤ) - i) * 4) - 1) + asI32 S.precision) - 128)) =
        sat32 (e + (((ip.length : ℤ) - i) * 4 - 129 + S.precision)) := by
      rw [asI32_of_lt (by omega)]
      rw [sat32_of (x := ((ip.length : ℤ) - i) * 4) (by omega) (by omega), sat32_of (x := _ - 1) (by omega) (by omega),
        sat32_of (x := _ + (S.precision : ℤ)) (by omega) (by omega), sat32_of (x := _ - 128) (by omega) (by omega)]
      congr 2; ring
    dsimp only
    rw [hE]
    have hg := normalize_sat h (mode := mode) (e := sat32 (e + (((ip.length : ℤ) - i) * 4 - 129 + S.precision)))
      (E := E + (((ip.length : ℤ) - i) * 4 - 129 + S.precision)) f3 (by omega) (by unfold sat32; omega)
      (by unfold SatTo at e2; unfold sat32; omega) f1 (fun _ => by omega)
    have hval : ((st.sig : ℚ) + f) * 2 ^ (E + (((ip.length : ℤ) - i) * 4 - 129 + S.precision) - S.precision + 1) = v := by
      rw [f2, hv]
      unfold significandValue
      rw [List.length_append, Nat.cast_sub (by omega), mul_assoc, ← two_zpow_add]
      have h16 : ((16 : ℕ) : ℚ) ^ fp.length = 2 ^ (4 * (fp.length : ℤ)) := by
        rw [show (4 * (fp.length : ℤ)) = ((4 * fp.length : ℕ) : ℤ) by push_cast; ring, zpow_natCast, pow_mul]; norm_num
      rw [h16, div_mul_eq_mul_div, mul_div_assoc, ← zpow_sub₀ (by norm_num : (2 : ℚ) ≠ 0)]
      congr 2
      push_cast
      ring
    rw [hval] at hg
    obtain ⟨r, r1, r2, r3⟩ := Good.rounds (zs := false) hg ⟨v, hv0, rfl⟩ (fun _ => rfl)
    rw [r1, M.ok_bind]
    exact ⟨r, rfl, r2, r3⟩

/-- `from_hexadecimal_string` returns an error on everything else. -/
theorem fromHexString_err {s : List Char} (hs : ¬ ∃ v, IsHex s v) (mode : Round) :
    ∃ e, fromHexString S s mode = .ok (.error e) := by
  unfold fromHexString
  cases hl : hexLoop s.length 0 s ⟨0, false, 128, none, none, s.length⟩ with
  | error e => exact ⟨e, rfl⟩
  | ok p =>
    obtain ⟨st, oe⟩ := p
    dsimp only
    split
    · exact ⟨_, rfl⟩
    · cases oe with
      | none => exact ⟨_, rfl⟩
      | some e => exact absurd (hexLoop_accepts hl) hs

end Apf
