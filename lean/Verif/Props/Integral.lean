import Verif.Props.Ints
/-! # C13: rounding to integral values -/

namespace Apf
open Spec IeeeFloat

variable {S : Sem}

/-- Grid numbers of magnitude at least `2^(p-1)` are integers, even ones if their significand is even. -/
theorem grid_big_int (h : S.OK) {g : ℚ} (hg : S.fmt.Grid g) (hb : (2 : ℚ) ^ (S.precision - 1) ≤ |g|) :
    ∃ n : ℤ, g = n := by
  obtain ⟨m, k, h1, h2, rfl⟩ := hg
  have hp : S.fmt.p = S.precision := rfl
  rw [hp] at h1
  have h3 := h.p_ge
  by_cases hk : 0 ≤ k
  · lift k to ℕ using hk
    exact ⟨m * 2 ^ k, by push_cast; rw [zpow_natCast]⟩
  · exfalso
    have hm : (|m| : ℚ) < 2 ^ S.precision := by exact_mod_cast h1
    have : (2 : ℚ) ^ k ≤ 2 ^ (-1 : ℤ) := two_zpow_le (by omega)
    rw [abs_mul, abs_of_pos (two_zpow_pos k)] at hb
    have h4 : (2 : ℚ) ^ S.precision = 2 * 2 ^ (S.precision - 1) := by rw [← pow_succ']; congr 1; omega
    have h5 : |(m : ℚ)| * 2 ^ k ≤ |(m : ℚ)| * 2 ^ (-1 : ℤ) := mul_le_mul_of_nonneg_left this (abs_nonneg _)
    rw [zpow_neg_one] at h5
    linarith

theorem evenGrid_big_int (h : S.OK) {n : ℤ} (hg : S.fmt.EvenGrid n) (hb : (2 : ℚ) ^ (S.precision - 1) ≤ |(n : ℚ)|) :
    n % 2 = 0 := by
  obtain ⟨m, k, h1, h2, h3⟩ := hg
  have hp : S.fmt.p = S.precision := rfl
  rw [hp] at h1
  have h3' := h.p_ge
  by_cases hk : 0 ≤ k
  · lift k to ℕ using hk
    rw [zpow_natCast] at h3
    have : n = 2 * (m * 2 ^ k) := by exact_mod_cast (by rw [h3]; ring : (n : ℚ) = 2 * (m * 2 ^ k))
    omega
  · exfalso
    have hm : (|2 * m| : ℚ) < 2 ^ S.precision := by exact_mod_cast h1
    have : (2 : ℚ) ^ k ≤ 2 ^ (-1 : ℤ) := two_zpow_le (by omega)
    rw [h3, abs_mul, abs_of_pos (two_zpow_pos k)] at hb
    have h4 : (2 : ℚ) ^ S.precision = 2 * 2 ^ (S.precision - 1) := by rw [← pow_succ']; congr 1; omega
    have h5 : |(2 * m : ℚ)| * 2 ^ k ≤ |(2 * m : ℚ)| * 2 ^ (-1 : ℤ) := mul_le_mul_of_nonneg_left this (abs_nonneg _)
    rw [zpow_neg_one] at h5
    linarith

/-- Between `2^(p-1)` and `2^p` the format's rounding is the rounding to integers. -/
theorem isRounded_int (h : S.OK) {mode : Round} {v G : ℚ} (h1 : (2 : ℚ) ^ (S.precision - 1) ≤ v)
    (h2 : v ≤ 2 ^ S.precision) (hr : IsRounded S.fmt mode v G) :
    ∃ n : ℤ, G = n ∧ RoundsToInt mode v n ∧ 2 ^ (S.precision - 1) ≤ n ∧ n ≤ 2 ^ S.precision := by
  have h4 : (2 : ℤ) ^ S.precision = 2 * 2 ^ (S.precision - 1) := by
    have := h.two_pow; exact_mod_cast this
  have hpos : (0 : ℤ) < 2 ^ (S.precision - 1) := by positivity
  have gM : S.fmt.Grid (((2 ^ (S.precision - 1) : ℤ)) : ℚ) := grid_int h (by rw [abs_of_pos hpos]; omega)
  have gM2 : S.fmt.Grid (((2 ^ S.precision : ℤ)) : ℚ) := grid_int h (by rw [abs_of_pos (by positivity)])
  have a1 := hr.ge_of_grid gM (by push_cast; exact h1)
  have a2 := hr.le_of_grid gM2 (by push_cast; exact h2)
  have hM0 : (0 : ℚ) < ((2 ^ (S.precision - 1) : ℤ) : ℚ) := by exact_mod_cast hpos
  obtain ⟨n, rfl⟩ := grid_big_int h hr.1 (by rw [abs_of_pos (by linarith)]; push_cast at a1; exact a1)
  have n1 : 2 ^ (S.precision - 1) ≤ n := by exact_mod_cast a1
  have n2 : n ≤ 2 ^ S.precision := by exact_mod_cast a2
  refine ⟨n, rfl, ?_, n1, n2⟩
  have gi : ∀ k : ℤ, 0 ≤ k → k ≤ 2 ^ S.precision → S.fmt.Grid (k : ℚ) := fun k k0 k1 =>
    grid_int h (by rw [abs_of_nonneg k0]; exact k1)
  have hv0 : 0 ≤ v := by push_cast at hM0; linarith
  -- a value above `n` leaves room for `n + 1`
  have room : (n : ℚ) < v → n + 1 ≤ 2 ^ S.precision := by
    intro k
    have : (n : ℚ) < ((2 ^ S.precision : ℤ) : ℚ) := by push_cast; linarith
    have : n < 2 ^ S.precision := by exact_mod_cast this
    omega
  have room' : v < n → 2 ^ (S.precision - 1) ≤ n - 1 := by
    intro k
    have : ((2 ^ (S.precision - 1) : ℤ) : ℚ) < (n : ℚ) := by push_cast; linarith
    have : 2 ^ (S.precision - 1) < n := by exact_mod_cast this
    omega
  have down : (∀ g, S.fmt.Grid g → g ≤ v → g ≤ n) → v < n + 1 := by
    intro k
    by_contra c
    push Not at c
    have := k ((n + 1 : ℤ) : ℚ) (gi _ (by omega) (room (by linarith))) (by push_cast; exact c)
    push_cast at this; linarith
  have dn : (∀ g, S.fmt.Grid g → |v - n| ≤ |v - g|) → 2 * |v - n| ≤ 1 := by
    intro k
    by_contra c
    push Not at c
    rcases le_total (n : ℚ) v with d | d
    · rw [abs_of_nonneg (by linarith)] at c
      have := k ((n + 1 : ℤ) : ℚ) (gi _ (by omega) (room (by linarith)))
      rw [abs_of_nonneg (by linarith : (0 : ℚ) ≤ v - n)] at this
      push_cast at this
      rcases abs_cases (v - (n + 1)) with e | e <;> linarith
    · rw [abs_of_nonpos (by linarith)] at c
      have := k ((n - 1 : ℤ) : ℚ) (gi _ (by have := room' (by linarith); omega) (by omega))
      rw [abs_of_nonpos (by linarith : v - n ≤ (0 : ℚ))] at this
      push_cast at this
      rcases abs_cases (v - (n - 1)) with e | e <;> linarith
  -- in a tie, the other integer
  have tie : 2 * |v - n| = 1 → ∃ k : ℤ, S.fmt.Grid (k : ℚ) ∧ (k : ℚ) ≠ n ∧ |v - k| = |v - n| ∧ 0 ≤ k ∧ 2 * v = n + k := by
    intro c
    rcases le_total (n : ℚ) v with d | d
    · rw [abs_of_nonneg (by linarith)] at c ⊢
      refine ⟨n + 1, gi _ (by omega) (room (by linarith)), by push_cast; linarith, ?_, by omega, by push_cast; linarith⟩
      push_cast
      rw [abs_of_nonpos (by linarith)]; linarith
    · rw [abs_of_nonpos (by linarith)] at c ⊢
      have := room' (by linarith)
      refine ⟨n - 1, gi _ (by omega) (by omega), by push_cast; linarith, ?_, by omega, by push_cast; linarith⟩
      push_cast
      rw [abs_of_nonneg (by linarith)]; linarith
  obtain ⟨-, hr⟩ := hr
  cases mode <;> simp only [RoundsToInt] at hr ⊢
  · refine ⟨dn hr.1, fun c => ?_⟩
    obtain ⟨k, k1, k2, k3, -⟩ := tie c
    exact evenGrid_big_int h (hr.2 _ k1 k2 k3) (by rw [abs_of_pos (by linarith)]; push_cast at a1; exact a1)
  · refine ⟨?_, hr.1⟩
    by_contra c
    push Not at c
    have := hr.2 ((n - 1 : ℤ) : ℚ) (gi _ (by have := room' (by linarith); omega) (by omega)) (by push_cast; exact c)
    push_cast at this; linarith
  · exact ⟨hr.1, down hr.2⟩
  · refine ⟨fun _ => ⟨(hr.1 hv0).1, down (hr.1 hv0).2⟩, fun c => ?_⟩
    push_cast at hM0; exfalso; linarith
  · refine ⟨dn hr.1, fun c => ?_⟩
    obtain ⟨k, k1, k2, k3, k4, k5⟩ := tie c
    have := hr.2 _ k1 k2 k3
    have k4' : (0 : ℚ) ≤ k := by exact_mod_cast k4
    rw [abs_of_nonneg k4', abs_of_nonneg (by linarith)] at this
    rw [abs_of_nonneg hv0, abs_of_nonneg (by linarith)]
    linarith

theorem Spec.RoundsToInt.sub_even {mode : Round} {v : ℚ} {n M : ℤ} (h : RoundsToInt mode v n) (hM : M % 2 = 0) (hv : (M : ℚ) ≤ v)
    (hn : M ≤ n) (hM0 : 0 ≤ M) : RoundsToInt mode (v - M) (n - M) := by
  have e : |v - M - ((n - M : ℤ) : ℚ)| = |v - n| := by push_cast; congr 1; ring
  have hn' : (M : ℚ) ≤ n := by exact_mod_cast hn
  have hM0' : (0 : ℚ) ≤ M := by exact_mod_cast hM0
  cases mode <;> simp only [RoundsToInt] at h ⊢
  · rw [e]; exact ⟨h.1, fun c => by have := h.2 c; omega⟩
  · push_cast; exact ⟨by linarith [h.1], by linarith [h.2]⟩
  · push_cast; exact ⟨by linarith [h.1], by linarith [h.2]⟩
  · push_cast
    have h1 := h.1 (by linarith)
    refine ⟨fun _ => ⟨by linarith, by linarith⟩, fun c => ?_⟩
    have hvM : v = M := by linarith
    have : n = M := by
      have h11 := h1.1
      rw [hvM] at h11
      have : n ≤ M := by exact_mod_cast h11
      omega
    rw [this, hvM]; constructor <;> linarith
  · rw [e]
    refine ⟨h.1, fun c => ?_⟩
    have := h.2 c
    rw [abs_of_nonneg (by linarith), abs_of_nonneg (by linarith)] at this
    push_cast
    rw [abs_of_nonneg (by linarith), abs_of_nonneg (by linarith)]
    linarith

theorem mag_lt_pow (h : S.OK) {x : IeeeFloat S} (hx : x.Valid) (cx : x.category = .normal) :
    (x.sig : ℚ) * 2 ^ (x.exp - S.precision + 1) < 2 ^ (x.exp + 1) := by
  obtain ⟨x1, x2, x3, x4, x5, x6⟩ := Valid.normal hx cx
  rw [← pow_full h x.exp]
  exact mul_lt_mul_of_pos_right (by exact_mod_cast x4) (two_zpow_pos _)

/-- Magnitudes from `2^(p-1)` on are integers. -/
theorem int_of_exp {x : IeeeFloat S} (cx : x.category = .normal) (he : (S.precision : ℤ) ≤ x.exp + 1) :
    ∃ n : ℤ, x.toRat = n := by
  rw [toRat_normal cx]
  obtain ⟨k, hk⟩ : ∃ k : ℕ, x.exp - S.precision + 1 = k := ⟨(x.exp - S.precision + 1).toNat, by omega⟩
  rw [hk, zpow_natCast]
  unfold signed
  split_ifs
  · exact ⟨-(x.sig * 2 ^ k), by push_cast; rfl⟩
  · exact ⟨x.sig * 2 ^ k, by push_cast; rfl⟩

/-- **C13.** `round_to_integral` of a finite value: the rounded integer, the sign of the operand, exactly `INEXACT` when the
value changes, and the operand itself when it is an integer. -/
theorem C13_round_to_integral (h : S.OK) {x : IeeeFloat S} (hx : x.Valid) (fx : x.isFinite = true) (mode : Round) :
    ∃ r, roundToIntegral x mode = .ok r ∧ r.value.Valid ∧ r.value.isFinite = true ∧ r.value.sign = x.sign ∧
      ∃ n : ℤ, RoundsToInt mode x.toRat n ∧ r.value.toRat = n ∧ r.status = { inexact := decide ((n : ℚ) ≠ x.toRat) } := by
  have h3 := h.p_ge; have hp := h.p_le; have hple := h.pow_le
  have hmin := h.min_lt; have hmin' := h.min_ge; have hmax := h.max_le
  have same : ∀ n : ℤ, x.toRat = n → ∃ r : StatusAnd (IeeeFloat S), (.ok (Status.OK.and x) : M _) = .ok r ∧ r.value.Valid ∧ r.value.isFinite = true ∧
      r.value.sign = x.sign ∧ ∃ n : ℤ, RoundsToInt mode x.toRat n ∧ r.value.toRat = n ∧
        r.status = { inexact := decide ((n : ℚ) ≠ x.toRat) } := fun n hn =>
    ⟨_, rfl, hx, fx, rfl, n, by rw [hn]; exact RoundsToInt_self _ _, hn, by simp [hn, Status.and, Status.OK]⟩
  unfold roundToIntegral
  rcases isFinite_iff.1 fx with cx | cx
  · obtain ⟨x1, x2, x3, x4, x5, x6⟩ := Valid.normal hx cx
    simp only [cx]
    rw [i32_ok (by omega) (by omega), M.ok_bind, asI32_of_lt (by omega)]
    split_ifs with c
    · obtain ⟨n, hn⟩ := int_of_exp cx c
      exact same n hn
    · rw [massert_pos (by omega), M.ok_bind, shl_ok (by omega), M.ok_bind, one_mul]
      have h2 := h.two_pow
      rw [Nat.mod_eq_of_lt (by omega)]
      set M0 : ℕ := 2 ^ (S.precision - 1) with hM0
      have hMpos : 0 < M0 := by positivity
      obtain ⟨g, g1, g2, g3⟩ := C17_from_u128 h (n := M0) (by omega) .nearestTiesToEven
      have gn' : |(M0 : ℤ)| ≤ 2 ^ S.precision := by
        rw [abs_of_nonneg (by positivity)]; exact_mod_cast (by omega : M0 ≤ 2 ^ S.precision)
      obtain ⟨e1, e2, e3⟩ := Rounds.exact g3 (by exact_mod_cast grid_int h gn') (by exact_mod_cast int_le_largest h gn')
      have gs : g.value.sign = false := g3.2.1 (by exact_mod_cast hMpos)
      rw [g1, M.ok_bind, massert_pos e1, M.ok_bind]
      have cv : (g.value.copySign x).Valid := by rw [copySign_eq]; exact (valid_sign _).2 g2
      have cf : (g.value.copySign x).isFinite = true := by rw [copySign_eq]; exact e2
      have cn : g.value.category = .normal := by
        rcases isFinite_iff.1 e2 with k | k
        · exact k
        · rw [toRat_zero k] at e3; exact absurd e3 (by exact_mod_cast hMpos.ne)
      have ct : (g.value.copySign x).toRat = signed x.sign M0 := by
        rw [copySign_eq, toRat_normal (by exact cn)]
        simp only
        rw [← e3, toRat_normal cn, gs]; rfl
      have cs : (g.value.copySign x).sign = x.sign := by rw [copySign_eq]
      set magic := g.value.copySign x with hmagic
      -- the addition
      have hm0 := toRat_pos_of_normal hx cx
      have hm1 := mag_lt_pow h hx cx
      set m : ℚ := (x.sig : ℚ) * 2 ^ (x.exp - S.precision + 1) with hm
      have hM0q : (M0 : ℚ) = 2 ^ (S.precision - 1) := by rw [hM0]; push_cast; rfl
      have hmM : m < M0 := by
        refine hm1.trans_le ?_
        rw [hM0q, ← zpow_natCast]
        exact two_zpow_le (by omega)
      have h2q : (2 : ℚ) ^ S.precision = 2 * M0 := by rw [hM0q]; exact_mod_cast h2
      have xt : x.toRat = signed x.sign m := toRat_normal cx
      have sum : x.toRat + magic.toRat = signed x.sign (m + M0) := by rw [xt, ct, signed_add]
      have small : ∀ k : ℤ, 0 ≤ k → k ≤ M0 → |k| ≤ 2 ^ S.precision := by
        intro k k0 k1
        rw [abs_of_nonneg k0]
        have : ((2 ^ S.precision : ℕ) : ℤ) = 2 * (M0 : ℤ) := by exact_mod_cast h2
        push_cast at this; omega
      have lar : (2 : ℚ) ^ S.precision ≤ S.fmt.largest := by
        have := int_le_largest h (n := 2 ^ S.precision) (by rw [abs_of_nonneg (by positivity)])
        push_cast at this
        rwa [abs_of_nonneg (by positivity)] at this
      have hM0p : (0 : ℚ) < M0 := by exact_mod_cast hMpos
      obtain ⟨a, a1, a2, ⟨G, b1, b2⟩, a4⟩ := addR_finite h hx cv fx cf mode (directedOK_of_ge h mode (by
        rw [sum]; unfold signed; split_ifs <;> linarith))
      rw [a1, M.ok_bind]
      rw [sum] at b1 b2 a4
      -- the rounding of the magnitude
      obtain ⟨G', hG'⟩ := exists_rounded (F := S.fmt) (by show 2 ≤ S.precision; omega) (mode.negateIf x.sign) (m + M0)
      have hGG : G = signed x.sign G' := b1.unique hG'.signed
      obtain ⟨n, n1, n2, n3, n4⟩ := isRounded_int h (by rw [← hM0q]; linarith) (by rw [h2q]; linarith) hG'
      rw [n1] at hGG
      have nz : (M0 : ℤ) ≤ n := by rw [hM0]; push_cast; exact n3
      have nq : (M0 : ℚ) ≤ n := by exact_mod_cast nz
      have n4q : (n : ℚ) ≤ 2 ^ S.precision := by exact_mod_cast n4
      have hGabs : |G| = n := by rw [hGG, abs_signed _ (by linarith)]
      have hsn : (2 : ℚ) ^ S.minExp ≤ M0 := by
        have : (1 : ℚ) ≤ M0 := by exact_mod_cast hMpos
        refine le_trans ?_ this
        exact zpow_le_one_of_nonpos₀ (by norm_num) (by omega)
      rcases b2 with ⟨-, b3, b4⟩ | ⟨b3, -⟩
      swap
      · rw [hGabs] at b3; linarith
      have hsm : S.fmt.smallestNormal = (2 : ℚ) ^ S.minExp := rfl
      have hst : a.status = { inexact := decide (G ≠ signed x.sign (m + M0)) } := by
        rw [b4]
        have : ¬ (|G| < S.fmt.smallestNormal) := by rw [hGabs, hsm]; linarith
        simp [this]
      have av : a.value.isFinite = true ∧ a.value.toRat = G ∧ a.value.sign = x.sign := by
        have hs : a.value.sign = x.sign := by
          cases hsx : x.sign
          · exact a4.1 (by rw [hsx]; simp only [signed, Bool.false_eq_true, if_false]; linarith)
          · exact a4.2.1 (by rw [hsx]; simp only [signed, if_true]; linarith)
        unfold datum at b3
        cases c : a.value.category <;> simp only [c, reduceCtorEq, Datum.num.injEq] at b3
        · exact ⟨isFinite_iff.2 (Or.inl c), b3.2, hs⟩
        · exact ⟨isFinite_iff.2 (Or.inr c), by rw [toRat_zero c]; exact b3.2, hs⟩
      obtain ⟨av1, av2, av3⟩ := av
      have dif : a.value.toRat - magic.toRat = signed x.sign ((n - (M0 : ℤ) : ℤ) : ℚ) := by
        rw [av2, ct, hGG]; unfold signed; split_ifs <;> push_cast <;> ring
      have hk0 : 0 ≤ n - (M0 : ℤ) := by omega
      have hk1 : n - (M0 : ℤ) ≤ M0 := by
        have : ((2 ^ S.precision : ℕ) : ℤ) = 2 * (M0 : ℤ) := by exact_mod_cast h2
        push_cast at this; omega
      have hgd : S.fmt.Grid (a.value.toRat - magic.toRat) := by
        rw [dif, grid_signed]; exact grid_int h (small _ hk0 hk1)
      have hld : |a.value.toRat - magic.toRat| ≤ S.fmt.largest := by
        rw [dif, abs_signed _ (by exact_mod_cast hk0)]
        have := int_le_largest h (small _ hk0 hk1)
        rwa [abs_of_nonneg (by exact_mod_cast hk0)] at this
      obtain ⟨b, b1, b2, b5⟩ := subR_finite h a2 cv av1 cf mode (directedOK_of_ge h mode (by
        have := abs_le.1 hld; linarith))
      obtain ⟨f1, f2, f3⟩ := Rounds.exact b5 hgd hld
      rw [b1, M.ok_bind]
      have bs := b5.2
      rw [dif] at f3 bs
      have cval : (b.value.copySign x).Valid := by rw [copySign_eq]; exact (valid_sign _).2 b2
      have ctr : (b.value.copySign x).toRat = signed x.sign ((n - (M0 : ℤ) : ℤ) : ℚ) := by
        rw [copySign_eq, ← f3]
        rcases isFinite_iff.1 f2 with k | k
        · have hne := toRat_ne_zero b2 k
          have : b.value.sign = x.sign := by
            rw [f3] at hne
            have hkp : (0 : ℚ) < ((n - (M0 : ℤ) : ℤ) : ℚ) := by
              refine lt_of_le_of_ne (by exact_mod_cast hk0) (fun e => hne ?_)
              rw [← e, signed_eq_zero]
            cases hsx : x.sign
            · exact bs.1 (by rw [hsx]; simpa only [signed, Bool.false_eq_true, if_false] using hkp)
            · exact bs.2.1 (by rw [hsx]; simp only [signed, if_true]; linarith)
          rw [toRat_normal k, toRat_normal (by exact k), ← this]
        · rw [toRat_zero k, toRat_zero (by exact k)]
      refine ⟨_, rfl, cval, by rw [copySign_eq]; exact f2, by rw [copySign_eq]; rfl, if x.sign then -(n - (M0 : ℤ)) else n - (M0 : ℤ), ?_, ?_, ?_⟩
      · rw [xt]
        have := n2.sub_even (M := (M0 : ℤ)) (by
          have : (2 : ℕ) ^ (S.precision - 1) = 2 * 2 ^ (S.precision - 2) := by rw [← pow_succ']; congr 1; omega
          omega) (by push_cast; linarith) nz (by positivity)
        rw [show m + (M0 : ℚ) - ((M0 : ℤ) : ℚ) = m by push_cast; ring] at this
        exact this.signed
      · show (b.value.copySign x).toRat = _
        rw [ctr]; unfold signed; split_ifs <;> push_cast <;> rfl
      · show a.status = _
        rw [hst, xt, hGG]
        congr 1
        rw [decide_eq_decide]
        unfold signed
        split_ifs
        · push_cast
          constructor <;> (intro k e; apply k; linarith)
        · push_cast
          constructor <;> (intro k e; apply k; linarith)
  · simp only [cx]
    exact same 0 (by rw [toRat_zero cx]; simp)

example := C13_round_to_integral singleS_ok (x := ⟨3 * 2 ^ 22, 0, .normal, true⟩) (by decide) rfl .nearestTiesToEven

/-- **C13.** An operand that is an integer is returned unchanged with status `OK`. -/
theorem C13_integers_unchanged (h : S.OK) {x : IeeeFloat S} (hx : x.Valid) (fx : x.isFinite = true) (mode : Round)
    (hi : ∃ n : ℤ, x.toRat = n) :
    ∃ r, roundToIntegral x mode = .ok r ∧ r.status = Status.OK ∧ r.value.bitwiseEq x = true := by
  obtain ⟨r, h1, h2, h3, h4, n, h5, h6, h7⟩ := C13_round_to_integral h hx fx mode
  obtain ⟨k, hk⟩ := hi
  rw [hk] at h5
  have := h5.of_int
  subst this
  refine ⟨r, h1, by rw [h7]; simp [hk, Status.OK], ?_⟩
  rw [C03_bitwise_eq_iff_datum h h2 hx (not_nan_of_finite h3), datum_finite h3, datum_finite fx, h4, h6, hk]

example := C13_integers_unchanged singleS_ok (x := ⟨3 * 2 ^ 22, 1, .normal, true⟩) (by decide) rfl .towardZero ⟨-3, by decide +kernel⟩

/-- **C13.** Infinities are returned as they are, NaNs are quieted (raising `INVALID_OP` if signaling). -/
theorem C13_specials (h : S.OK) {x : IeeeFloat S} (hx : x.Valid) (mode : Round) :
    (x.isInfinite = true → roundToIntegral x mode = .ok ⟨Status.OK, x⟩) ∧
    (x.isNan = true → ∃ r, roundToIntegral x mode = .ok ⟨if x.isSignaling then Status.INVALID_OP else Status.OK, r⟩ ∧
      r.Valid ∧ IsQuieted x r) := by
  unfold roundToIntegral
  constructor
  · intro c
    have c : x.category = .infinity := by simpa [isInfinite] using c
    simp only [c]; rfl
  · intro c
    have c : x.category = .nan := by simpa [isNan] using c
    simp only [c]
    exact resultFromNan_ok h hx c

example := C13_specials singleS_ok (x := ⟨5, 128, .nan, true⟩) (by decide) .towardZero

/-- **C13.** `is_integer` decides integrality. -/
theorem C13_is_integer (h : S.OK) {x : IeeeFloat S} (hx : x.Valid) :
    ∃ b, isInteger x = .ok b ∧ (b = true ↔ x.isFinite = true ∧ ∃ n : ℤ, x.toRat = n) := by
  unfold isInteger
  cases fx : x.isFinite
  · exact ⟨false, by simp, by simp⟩
  · obtain ⟨r, h1, h2, h3, h4, n, h5, h6, h7⟩ := C13_round_to_integral h hx fx .towardZero
    simp only [Bool.not_true, Bool.false_eq_true, if_false]
    rw [h1]
    refine ⟨_, rfl, ?_⟩
    rw [C03_bitwise_eq_iff_datum h h2 hx (not_nan_of_finite h3), datum_finite h3, datum_finite fx, h4, h6]
    simp only [Datum.num.injEq, true_and]
    constructor
    · intro e; exact ⟨n, e.symm⟩
    · rintro ⟨k, hk⟩
      rw [hk] at h5 ⊢
      rw [h5.of_int]

/-- `2.5` rounds to `2` (ties to even), `-2.5` to `-3` away from zero; `0.25` rounds to `+0`. -/
example : (⟨0x500, 1, .normal, false⟩ : IeeeFloat halfS).Valid ∧
    roundToIntegral (⟨0x500, 1, .normal, false⟩ : IeeeFloat halfS) .nearestTiesToEven =
      .ok ⟨Status.INEXACT, ⟨0x400, 1, .normal, false⟩⟩ ∧
    roundToIntegral (⟨0x500, 1, .normal, true⟩ : IeeeFloat halfS) .nearestTiesToAway =
      .ok ⟨Status.INEXACT, ⟨0x600, 1, .normal, true⟩⟩ := by
  refine ⟨by decide +kernel, by decide +kernel, by decide +kernel⟩

end Apf
