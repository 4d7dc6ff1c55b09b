import Verif.Proof.DecNum
import Verif.Proof.DecRound
import Verif.Props.Consts
/-! # Conversion of a scanned decimal literal -/

namespace Apf
open Spec IeeeFloat

variable {S : Sem}

/-! ### The attempts -/

/-- What `ulps_from_boundary` guarantees, see `ulps_ok`. -/
def UlpsOK (mode : Round) (cp used : ℕ) (sig : List ℕ) (u : ℕ) : Prop :=
  (Nearest mode → (2 ^ (cp - used - 1) ≤ val sig % 2 ^ (cp - used) → u ≤ val sig % 2 ^ (cp - used) - 2 ^ (cp - used - 1)) ∧
    (val sig % 2 ^ (cp - used) < 2 ^ (cp - used - 1) → u ≤ 2 ^ (cp - used - 1) - val sig % 2 ^ (cp - used))) ∧
  (¬ Nearest mode → 1 ≤ u → 1 ≤ val sig % 2 ^ (cp - used)) ∧
  (128 < cp - used → 2 ^ 128 < val sig % 2 ^ (cp - used) → val sig % 2 ^ (cp - used) + 2 ^ 128 < 2 ^ (cp - used) →
    (2 ^ (cp - used - 1) + 2 ^ 128 < val sig % 2 ^ (cp - used) ∨
      val sig % 2 ^ (cp - used) + 2 ^ 128 < 2 ^ (cp - used - 1)) → u = limbMax)

theorem attempts_ok (hS : S.OK) {mode : Round} {ds p5 : List ℕ} {D : ℤ} {v : ℚ} {fine : ℕ → Prop} {T : ℕ}
    (hcalc : ∀ t ≤ T, ∃ c, decCalc S (128 * 2 ^ t - 1) ds D p5 = .ok c ∧ CalcOK S (128 * 2 ^ t - 1) v (fine t) c)
    (hlast : ∀ c u, CalcOK S (128 * 2 ^ T - 1) v (fine T) c → UlpsOK mode (128 * 2 ^ T - 1) c.usedBits c.sig u →
      Min.min (u * 2) limbMax ≥ c.halfUlpErr)
    {Post : M (StatusAnd (IeeeFloat S)) → Prop}
    (hpost : ∀ t ≤ T, ∀ c u, CalcOK S (128 * 2 ^ t - 1) v (fine t) c → UlpsOK mode (128 * 2 ^ t - 1) c.usedBits c.sig u →
      Min.min (u * 2) limbMax ≥ c.halfUlpErr → Post (decRound S mode (128 * 2 ^ t - 1) c)) :
    ∀ (fuel t : ℕ), t ≤ T → T < t + fuel → Post (decAttempts S mode ds D p5 fuel t) := by
  intro fuel
  induction fuel with
  | zero => intro t h1 h2; omega
  | succ fuel ih =>
    intro t h1 h2
    rw [decAttempts]
    have hcp : (limbBits <<< t) - 1 = 128 * 2 ^ t - 1 := by rw [Nat.shiftLeft_eq]
    rw [hcp]
    have hge : 127 ≤ 128 * 2 ^ t - 1 := by have := Nat.one_le_two_pow (n := t); omega
    obtain ⟨c, c1, c2⟩ := hcalc t h1
    rw [c1, M.ok_bind]
    obtain ⟨hb1, -, -⟩ := c2.bits_le hS hge
    have h126 := hS.p_le
    obtain ⟨u, u1, u2⟩ := ulps_ok c2.limbs (used := c.usedBits) (by omega) c2.len mode
    rw [u1, M.ok_bind]
    by_cases hacc : Min.min (u * 2) limbMax ≥ c.halfUlpErr
    · rw [if_pos hacc]
      exact hpost t h1 c u c2 u2 hacc
    · rw [if_neg hacc]
      rcases h1.lt_or_eq with h1 | rfl
      · exact ih (t + 1) (by omega) (by omega)
      · exact absurd (hlast c u c2 u2) hacc

/-! ### Powers of ten -/

theorem ten_pow_le {n m : ℕ} (h : 10 * n ≤ 3 * m) : 10 ^ n ≤ 2 ^ m := by
  have h1 : (10 ^ n) ^ 3 ≤ (2 ^ m) ^ 3 := by
    rw [← pow_mul, ← pow_mul]
    calc 10 ^ (n * 3) = (10 ^ 3) ^ n := by rw [← pow_mul]; congr 1; ring
      _ ≤ (2 ^ 10) ^ n := Nat.pow_le_pow_left (by norm_num) n
      _ = 2 ^ (10 * n) := by rw [← pow_mul]
      _ ≤ 2 ^ (m * 3) := Nat.pow_le_pow_right (by norm_num) (by omega)
  exact (Nat.pow_le_pow_iff_left (by norm_num)).1 h1

theorem size_ten_pow {N d : ℕ} (h : N < 10 ^ d) : Nat.size N ≤ 10 * d / 3 + 1 := by
  rw [Nat.size_le]
  exact lt_of_lt_of_le h (ten_pow_le (by omega))

theorem size_five_pow (k : ℕ) : Nat.size (5 ^ k) ≤ 7 * k / 3 + 2 := by
  rw [Nat.size_le]
  have h1 : (5 ^ k) ^ 3 < (2 ^ (7 * k / 3 + 2)) ^ 3 := by
    rw [← pow_mul, ← pow_mul]
    calc 5 ^ (k * 3) = (5 ^ 3) ^ k := by rw [← pow_mul]; congr 1; ring
      _ ≤ (2 ^ 7) ^ k := Nat.pow_le_pow_left (by norm_num) k
      _ = 2 ^ (7 * k) := by rw [← pow_mul]
      _ < 2 ^ ((7 * k / 3 + 2) * 3) := Nat.pow_lt_pow_right (by norm_num) (by omega)
  exact (Nat.pow_lt_pow_iff_left (by norm_num)).1 h1

/-- `42039 / 12655 < log2 10`. -/
theorem ten_ge {m : ℕ} {M : ℕ} (h : 12655 * M ≤ 42039 * m) : 2 ^ M ≤ 10 ^ m := by
  obtain ⟨a, ha⟩ : ∃ a, a = 12655 := ⟨_, rfl⟩
  obtain ⟨b, hb⟩ : ∃ b, b = 42039 := ⟨_, rfl⟩
  have hk : 2 ^ b ≤ 10 ^ a := by subst ha hb; decide +kernel
  rw [← ha, ← hb] at h
  have h1 : (2 ^ M) ^ a ≤ (10 ^ m) ^ a := by
    rw [← pow_mul, ← pow_mul]
    calc 2 ^ (M * a) ≤ 2 ^ (b * m) := Nat.pow_le_pow_right (by norm_num) (by nlinarith)
      _ = (2 ^ b) ^ m := by rw [← pow_mul]
      _ ≤ (10 ^ a) ^ m := Nat.pow_le_pow_left hk m
      _ = 10 ^ (m * a) := by rw [← pow_mul]; congr 1; ring
  exact (Nat.pow_le_pow_iff_left (by omega)).1 h1

/-- The bound of the underflow check, in the range of the exponents of a format. -/
theorem ten_ge' {k d : ℕ} (h : 8651 * d ≤ 28738 * k) (hd : d < 28738) : 2 ^ d ≤ 10 ^ k := by
  apply ten_ge
  -- `28738 * 12655 - 42039 * 8651 = 1`
  omega

/-! ### Results beyond the range -/

theorem big_good (hS : S.OK) {v : ℚ} (hv : (2 : ℚ) ^ (S.maxExp + 1) ≤ v) (mode : Round) :
    Good S mode v false (.ok (overflowResult S mode)) := by
  obtain ⟨g, hg⟩ := exists_rounded (F := S.fmt) (by have := hS.p_ge; rw [fmt_p]; omega) mode v
  have := overflowResult_good hS (mode := mode) (mode' := mode) (s := false) (x := ZERO S) rfl (m := v) (g := g) hg
    ((full_gt hS).trans_le (hg.ge_of_grid (grid_pow_max hS) hv)) (Or.inr ⟨rfl, Or.inr rfl⟩)
  obtain ⟨r, r1, r2, r3, r4⟩ := this
  have e : (overflowResult S mode).map (·.copySign (ZERO S)) = overflowResult S mode := by
    unfold overflowResult
    cases mode <;> simp only [StatusAnd.map, Status.and, copySign_eq] <;> congr 1 <;>
      (unfold INFINITY; cases hn : S.nonfinite <;> simp [ZERO, NAN, qnan])
  rw [e] at r1
  exact ⟨r, r1, r2, r3, r4⟩

theorem tiny_good (hS : S.OK) {v : ℚ} (h0 : 0 < v) (hv : v < 2 ^ (S.minExp - S.precision)) (mode : Round) :
    Good S mode v false (.ok ((Status.UNDERFLOW ||| Status.INEXACT).and
        (if mode = .towardPositive then SMALLEST S else ZERO S))) := by
  have h3 := hS.p_ge
  set u : ℚ := 2 ^ (S.minExp - S.precision + 1) with hu
  have u0 : 0 < u := two_zpow_pos _
  have hu2 : (2 : ℚ) ^ (S.minExp - S.precision) = u / 2 := by
    rw [hu, two_zpow_add (S.minExp - S.precision) 1, zpow_one]; ring
  rw [hu2] at hv
  have key : IsRounded S.fmt mode v (if awayB mode false .lessThanHalf false then u else 0) := by
    have := awayB_rounded (F := S.fmt) (by rw [fmt_p]; omega) (n := 0) (e := S.minExp) (Nat.two_pow_pos _) (le_refl _) (Or.inr rfl)
      (loss := .lessThanHalf) (f := v / u) ⟨div_pos h0 u0, by rw [div_lt_iff₀ u0]; linarith⟩ (by decide) mode false
    rw [fmt_p, ← hu] at this
    simp only [Nat.cast_zero, zero_add, Nat.cast_one, one_mul, zero_mul, Nat.zero_mod, zero_ne_one, decide_false] at this
    rwa [div_mul_cancel₀ _ u0.ne'] at this
  have hsn : u < S.fmt.smallestNormal := by
    show u < (2 : ℚ) ^ S.minExp
    rw [hu]
    exact (two_zpow_lt (by omega))
  refine ⟨_, rfl, ?_, ?_, ?_⟩
  · show (if mode = .towardPositive then SMALLEST S else ZERO S).Valid
    split_ifs
    · exact smallest_valid hS
    · trivial
  · show (if mode = .towardPositive then SMALLEST S else ZERO S).sign = false
    split_ifs <;> rfl
  · have big : u ≤ S.fmt.largest := by
      have : S.fmt.smallestNormal ≤ S.fmt.largest := smallestNormal_le_largest hS
      linarith
    by_cases hm : mode = .towardPositive
    · have ha : awayB mode false .lessThanHalf false = true := by rw [hm]; decide
      rw [ha, if_pos rfl] at key
      refine ⟨u, key, Or.inl ⟨by rwa [abs_of_pos u0], ?_, ?_⟩⟩
      · show (if mode = .towardPositive then SMALLEST S else ZERO S).datum = _
        rw [if_pos hm, datum_normal rfl]; simp [SMALLEST, signed, hu]
      · have : u ≠ v := by linarith
        rw [abs_of_pos u0]
        simp [this, hsn]
        rfl
    · have ha : awayB mode false .lessThanHalf false = false := by cases mode <;> first | rfl | exact absurd rfl hm
      rw [ha, if_neg (by simp)] at key
      refine ⟨0, key, Or.inl ⟨by rw [abs_zero]; linarith, ?_, ?_⟩⟩
      · show (if mode = .towardPositive then SMALLEST S else ZERO S).datum = _
        rw [if_neg hm]; rfl
      · have : (0 : ℚ) ≠ v := h0.ne
        simp [this, u0.trans hsn]
        rfl

/-! ### The conversion -/

/-- The precision of attempt `t`. -/
theorem cp_facts {t : ℕ} (ht : t ≤ 22) : 127 ≤ 128 * 2 ^ t - 1 ∧ 128 * 2 ^ t - 1 < 128 * limbsForBits (128 * 2 ^ t - 1) ∧
    limbsForBits (128 * 2 ^ t - 1) < 4200000 ∧ 128 * 2 ^ t - 1 < 1000000000 := by
  have h1 := Nat.one_le_two_pow (n := t)
  have h2 : 2 ^ t ≤ 2 ^ 22 := Nat.pow_le_pow_right (by norm_num) ht
  have h3 : limbsForBits (128 * 2 ^ t - 1) = 2 ^ t := by
    unfold limbsForBits
    generalize 2 ^ t = x at *
    omega
  rw [h3]
  generalize 2 ^ t = x at *
  norm_num at h2
  omega

theorem dec_value_pos {N : ℕ} {D : ℤ} (hD : 0 ≤ D) : (N : ℚ) * 10 ^ D = N * (5 ^ D.natAbs : ℕ) * 2 ^ D := by
  obtain ⟨n, rfl⟩ := Int.eq_ofNat_of_zero_le hD
  simp only [Int.natAbs_natCast, zpow_natCast]
  push_cast
  rw [mul_assoc, ← mul_pow]; norm_num

theorem dec_value_neg {N : ℕ} {D : ℤ} (hD : D < 0) : (N : ℚ) * 10 ^ D = N / (5 ^ D.natAbs : ℕ) * 2 ^ D := by
  obtain ⟨n, hn⟩ := Int.eq_ofNat_of_zero_le (show 0 ≤ -D by omega)
  have : D = -(n : ℤ) := by omega
  subst this
  simp only [Int.natAbs_neg, Int.natAbs_natCast, zpow_neg, zpow_natCast]
  push_cast
  rw [show (10 : ℚ) = 5 * 2 by norm_num, mul_pow]
  field_simp

theorem dec_bounds {N d : ℕ} {D : ℤ} (h1 : 10 ^ d ≤ N) (h2 : N < 10 ^ (d + 1)) :
    (10 : ℚ) ^ (D + d) ≤ N * 10 ^ D ∧ (N : ℚ) * 10 ^ D < 10 ^ (D + d + 1) := by
  have h0 : (0 : ℚ) < 10 ^ D := by positivity
  have e1 : (10 : ℚ) ^ (D + d) = 10 ^ d * 10 ^ D := by rw [zpow_add₀ (by norm_num), zpow_natCast]; ring
  have e2 : (10 : ℚ) ^ (D + d + 1) = 10 ^ (d + 1) * 10 ^ D := by
    rw [zpow_add₀ (by norm_num), e1, zpow_one, pow_succ]; ring
  rw [e1, e2]
  constructor
  · exact mul_le_mul_of_nonneg_right (by exact_mod_cast h1) h0.le
  · exact mul_lt_mul_of_pos_right (by exact_mod_cast h2) h0

theorem dec_range {v : ℚ} {e K : ℤ} (h1 : (10 : ℚ) ^ e ≤ v) (h2 : v < 10 ^ (e + 1)) (hK1 : 10 * (e + 1) ≤ 3 * K) (hK2 : -10 * e ≤ 3 * K)
    (hK : 0 ≤ K) : (2 : ℚ) ^ (-K) ≤ v ∧ v < 2 ^ K := by
  obtain ⟨k, rfl⟩ := Int.eq_ofNat_of_zero_le hK
  have hub : ∀ n : ℕ, 10 * n ≤ 3 * k → (10 : ℚ) ^ n ≤ 2 ^ k := by
    intro n hn; exact_mod_cast ten_pow_le hn
  constructor
  · refine le_trans ?_ h1
    rcases le_or_gt 0 e with he | he
    · have a1 : (1 : ℚ) ≤ 10 ^ e := one_le_zpow₀ (by norm_num) he
      have a2 : (2 : ℚ) ^ (-(k : ℤ)) ≤ 1 := by
        rw [← zpow_zero (2 : ℚ)]; exact two_zpow_le (by omega)
      linarith
    · obtain ⟨n, hn⟩ := Int.eq_ofNat_of_zero_le (show 0 ≤ -e by omega)
      have : e = -(n : ℤ) := by omega
      subst this
      rw [zpow_neg, zpow_neg, zpow_natCast, zpow_natCast]
      exact inv_anti₀ (by positivity) (hub n (by omega))
  · refine lt_of_lt_of_le h2 ?_
    rcases le_or_gt 0 (e + 1) with he | he
    · obtain ⟨n, hn⟩ := Int.eq_ofNat_of_zero_le he
      rw [hn, zpow_natCast, zpow_natCast]
      exact hub n (by omega)
    · have a1 : (10 : ℚ) ^ (e + 1) ≤ 1 := by
        rw [← zpow_zero (10 : ℚ)]; exact zpow_le_zpow_right₀ (by norm_num) (by omega)
      have a2 : (1 : ℚ) ≤ 2 ^ (k : ℤ) := one_le_zpow₀ (by norm_num) (by omega)
      linarith

/-- What is known of the result of a conversion. -/
def DecPost (S : Sem) (mode : Round) (v : ℚ) (small ex : Prop) (res : M (StatusAnd (IeeeFloat S))) : Prop :=
  ∃ r, res = .ok r ∧ r.value.Valid ∧ r.value.sign = false ∧ (S.precision ≤ 120 → Nearest mode → NearestOK S mode v r) ∧
    ((small → ¬ Nearest mode → Delivers S.fmt mode v false r.value.datum r.status) ∧ (ex → Delivers S.fmt mode v false r.value.datum r.status)) ∧
    ∃ w : ℚ, 0 ≤ w ∧ |w - v| ≤ v / 2 ^ 123 ∧ Delivers S.fmt mode w false r.value.datum r.status

/-- The rounded value is close to the exact one. -/
theorem CalcOK.close {cp : ℕ} {v : ℚ} {fine : Prop} {c : DecCalc} (h : CalcOK S cp v fine c) (hc0 : 127 ≤ cp) :
    |val c.sig * ulp cp c.exp - v| ≤ v / 2 ^ 123 := by
  have hu := ulp_pos cp c.exp
  have e : |val c.sig * ulp cp c.exp - v| ≤ 4 * ulp cp c.exp := by
    by_cases h0 : c.halfUlpErr = 0
    · rw [← h.exact h0, sub_self, abs_zero]; positivity
    · have h1 := h.near h0
      have h7 := h.err7
      have h4 : (((c.halfUlpErr + 1) / 2 : ℕ) : ℚ) ≤ 4 := by exact_mod_cast (by omega : (c.halfUlpErr + 1) / 2 ≤ 4)
      rw [abs_sub_comm]
      exact le_trans h1.le (mul_le_mul_of_nonneg_right h4 hu.le)
  have hlo : (2 : ℚ) ^ 126 ≤ val c.sig := by
    have : 2 ^ 126 ≤ val c.sig := le_trans (Nat.pow_le_pow_right (by norm_num) (by omega)) h.lo
    exact_mod_cast this
  have hlo' := mul_le_mul_of_nonneg_right hlo hu.le
  rw [abs_le] at e
  have hv : (2 ^ 126 - 4) * ulp cp c.exp ≤ v := by linarith [e.2]
  refine le_trans (abs_le.2 e) ?_
  rw [le_div_iff₀ (by positivity)]
  have : 4 * ulp cp c.exp * 2 ^ 123 ≤ (2 ^ 126 - 4) * ulp cp c.exp := by
    have : (4 : ℚ) * 2 ^ 123 ≤ 2 ^ 126 - 4 := by norm_num
    calc 4 * ulp cp c.exp * 2 ^ 123 = (4 * 2 ^ 123) * ulp cp c.exp := by ring
      _ ≤ _ := mul_le_mul_of_nonneg_right this hu.le
  linarith

theorem DecPost.of_good (hS : S.OK) {mode : Round} {v : ℚ} (hv : 0 ≤ v) {small ex : Prop} {res : M (StatusAnd (IeeeFloat S))}
    (h : Good S mode v false res) : DecPost S mode v small ex res := by
  obtain ⟨r, r1, r2, r3, r4⟩ := h
  have hf : r.status.invalidOp = false ∧ r.status.divByZero = false := by
    obtain ⟨g, -, ⟨-, -, e⟩ | ⟨-, e⟩⟩ := r4
    · rw [e]; exact ⟨rfl, rfl⟩
    · have e2 : r.status = (overflowed S.fmt mode false).2 := by rw [← e]
      rw [e2]
      unfold overflowed
      cases mode <;> simp
  exact ⟨r, r1, r2, r3, fun _ _ => ⟨_, r4, rfl, hf⟩, ⟨fun _ _ => r4, fun _ => r4⟩, v, hv, by rw [sub_self, abs_zero]; positivity, r4⟩

set_option maxHeartbeats 1000000 in
theorem convert_attempts (hS : S.OK) {N d : ℕ} {D : ℤ} (h1 : 10 ^ d ≤ N) (h2 : N < 10 ^ (d + 1)) (hd : d < 134217728)
    (he1 : -6059 ≤ D + d) (he2 : D + d ≤ 6021) {ds p5 : List ℕ} (hds : Limbs ds) (hdv : val ds = N) (h5 : Limbs p5)
    (h5v : val p5 = 5 ^ D.natAbs) (mode : Round) {fuel : ℕ} (hfuel : 23 ≤ fuel) :
    DecPost S mode (N * 10 ^ D) (N < 2 ^ 127 ∧ 5 ^ D.natAbs < 2 ^ 127)
      (N < 2 ^ 127 ∧ 5 ^ D.natAbs < 2 ^ 127 ∧ ∃ W : ℕ, (N : ℚ) * 10 ^ D = W * 2 ^ D ∧ W < 2 ^ 127) (decAttempts S mode ds D p5 fuel 0) := by
  have hN0 : 0 < N := lt_of_lt_of_le (by positivity) h1
  have hP0 : 0 < 5 ^ D.natAbs := by positivity
  have hsN := size_ten_pow h2
  have hs5 := size_five_pow D.natAbs
  have hk : D.natAbs ≤ 134223787 := by omega
  obtain ⟨b1, b2⟩ := dec_bounds (D := D) h1 h2
  have hv0 : (0 : ℚ) < N * 10 ^ D := by positivity
  obtain ⟨K, hK⟩ : ∃ K : ℤ, K = 30000 := ⟨_, rfl⟩
  obtain ⟨k1, k2⟩ := dec_range (K := K) b1 b2 (by omega) (by omega) (by omega)
  have h17 : 128 * 2 ^ 22 - 1 = 536870911 := by norm_num
  refine attempts_ok hS (T := 22) (v := N * 10 ^ D)
    (fine := fun t => Nat.size N ≤ 128 * 2 ^ t - 1 ∧ Nat.size (5 ^ D.natAbs) ≤ 128 * 2 ^ t - 1) ?_ ?_ ?_ fuel 0 (by omega) (by omega)
  · intro t ht
    obtain ⟨c1, c2, c3, c4⟩ := cp_facts ht
    rcases le_or_gt 0 D with hD | hD
    · have := decCalc_mul hS c1 c2 c3 hds h5 (by omega) (by omega) (by rw [hdv]; omega) (by rw [h5v]; omega) hD (by omega)
      rw [hdv, h5v, ← dec_value_pos hD] at this
      exact this
    · have := decCalc_div hS c1 c2 c3 hds h5 (by omega) (by omega) (by rw [hdv]; omega) (by rw [h5v]; omega) hD (by omega)
      rw [hdv, h5v, ← dec_value_neg hD] at this
      exact this
  · intro c u hc hu
    rw [h17] at hc hu
    have hfine : Nat.size N ≤ 128 * 2 ^ 22 - 1 ∧ Nat.size (5 ^ D.natAbs) ≤ 128 * 2 ^ 22 - 1 := by rw [h17]; omega
    have hex : ∀ {W : ℕ}, (N : ℚ) * 10 ^ D = W * 2 ^ D → W < 2 ^ 536870911 → Min.min (u * 2) limbMax ≥ c.halfUlpErr := by
      intro W e1 e2
      rw [exact_of_dyadic (by norm_num) hc hfine e1 e2]; omega
    have hcp : ∃ cp, cp = 536870911 := ⟨_, rfl⟩
    obtain ⟨cp, hcp⟩ := hcp
    rw [← hcp] at hc hu hex
    rcases le_or_gt 0 D with hD | hD
    · apply hex (W := N * 5 ^ D.natAbs)
      · rw [dec_value_pos hD]; push_cast; ring
      · calc N * 5 ^ D.natAbs < 10 ^ (d + 1) * 5 ^ D.natAbs := Nat.mul_lt_mul_of_pos_right h2 hP0
          _ ≤ 10 ^ (d + 1) * 10 ^ D.natAbs := Nat.mul_le_mul_left _ (Nat.pow_le_pow_left (by norm_num) _)
          _ = 10 ^ (d + 1 + D.natAbs) := by rw [← pow_add]
          _ ≤ 2 ^ cp := ten_pow_le (by omega)
    · by_cases hdvd : 5 ^ D.natAbs ∣ N
      · obtain ⟨W, hW⟩ := hdvd
        apply hex (W := W)
        · rw [dec_value_neg hD, hW]; push_cast; field_simp
        · calc W ≤ N := by rw [hW]; exact Nat.le_mul_of_pos_left _ hP0
            _ < 2 ^ Nat.size N := lt_two_pow_size N
            _ ≤ 2 ^ cp := Nat.pow_le_pow_right (by norm_num) (by omega)
      · rw [dec_value_neg hD] at hc k1 k2
        exact accept_far hS (by omega) hc hP0 (Nat.Coprime.pow_left _ (by decide)) hdvd (K := K) (by omega) k1 k2 (by omega) hu.2.2
  · intro t ht c u hc hu hacc
    obtain ⟨c1, c2, c3, c4⟩ := cp_facts ht
    obtain ⟨r, r1, r2, r3, r4⟩ := decRound_good hS c1 c4 hc mode
    refine ⟨r, r1, r2, r3, fun hp hm => ?_, ⟨fun hsm hm => ?_, fun hsm => ?_⟩, _, mul_nonneg (by positivity) (ulp_pos _ _).le, hc.close c1, r4⟩
    · obtain ⟨r', r1', -, -, r4'⟩ := accept_nearest hS hp c1 hv0.le c4 hc hm (hu.1 hm).1 (hu.1 hm).2 hacc
      rw [r1] at r1'; injection r1' with r1'; subst r1'
      exact r4'
    · obtain ⟨r', r1', -, -, r4'⟩ := accept_directed hS c1 c4 hc ⟨le_trans (Nat.size_le.2 hsm.1) c1, le_trans (Nat.size_le.2 hsm.2) c1⟩ hm (hu.2.1 hm) hacc
      rw [r1] at r1'; injection r1' with r1'; subst r1'
      exact r4'
    · obtain ⟨W, w1, w2⟩ := hsm.2.2
      have herr := exact_of_dyadic c1 hc ⟨le_trans (Nat.size_le.2 hsm.1) c1, le_trans (Nat.size_le.2 hsm.2.1) c1⟩ w1
        (lt_of_lt_of_le w2 (Nat.pow_le_pow_right (by norm_num) c1))
      obtain ⟨r', r1', -, -, r4'⟩ := accept_exact hS c1 c4 hc mode herr
      rw [r1] at r1'; injection r1' with r1'; subst r1'
      exact r4'

/-- A number with few digits that is a multiple of a power of two, so that it is calculated exactly. -/
def ExactDec (v : ℚ) : Prop :=
  ∃ (N : ℕ) (D : ℤ) (W : ℕ), v = N * 10 ^ D ∧ ¬ 10 ∣ N ∧ N < 2 ^ 127 ∧ 5 ^ D.natAbs < 2 ^ 127 ∧ v = W * 2 ^ D ∧ W < 2 ^ 127

/-! ### From the scan to the number -/

theorem digits_slice {m ip fp t : List Char} (hm : IsSignificand 10 m ip fp) {i j : ℕ} (hij : i ≤ j) (hj : j < (ip ++ fp).length) :
    digitsOf (((m ++ t).take (digitPos ip j + 1)).drop (digitPos ip i)) = ((ip ++ fp).take (j + 1)).drop i := by
  obtain ⟨h1, h2, h3, h4⟩ := hm
  have hdig : ∀ c ∈ ip ++ fp, IsDigit 10 c := by
    intro c hc
    rcases List.mem_append.1 hc with hc | hc
    · exact h1 c hc
    · exact h2 c hc
  have hdd : digitsOf (((ip ++ fp).take (j + 1)).drop i) = ((ip ++ fp).take (j + 1)).drop i :=
    digitsOf_digits (fun c hc => hdig c (List.mem_of_mem_take (List.mem_of_mem_drop hc)))
  have hcase : j < ip.length → (∃ q, m = ip ++ q) →
      digitsOf (((m ++ t).take (digitPos ip j + 1)).drop (digitPos ip i)) = ((ip ++ fp).take (j + 1)).drop i := by
    rintro hjl ⟨q, rfl⟩
    unfold digitPos
    rw [if_pos hjl, if_pos (by omega), List.append_assoc, List.take_append_of_le_length (by omega), ← hdd,
      List.take_append_of_le_length (by omega)]
  by_cases hjl : j < ip.length
  · apply hcase hjl
    rcases h4 with ⟨-, rfl⟩ | rfl
    · exact ⟨[], by simp⟩
    · exact ⟨_, rfl⟩
  · rcases h4 with ⟨rfl, rfl⟩ | rfl
    · simp at hj; omega
    · obtain ⟨k, rfl⟩ : ∃ k, j = ip.length + k := ⟨j - ip.length, by omega⟩
      rw [List.length_append] at hj
      have e1 : (ip ++ '.' :: fp ++ t).take (digitPos ip (ip.length + k) + 1) = ip ++ '.' :: fp.take (k + 1) := by
        unfold digitPos
        rw [if_neg (by omega), List.append_assoc, show ip.length + k + 1 + 1 = ip.length + (k + 1 + 1) by omega,
          List.take_length_add_append, List.cons_append, List.take_succ_cons, List.take_append_of_le_length (by omega)]
      have e2 : (ip ++ fp).take (ip.length + k + 1) = ip ++ fp.take (k + 1) := by
        rw [show ip.length + k + 1 = ip.length + (k + 1) by omega, List.take_length_add_append]
      rw [e1, e2]
      rw [e2] at hdd
      rw [← hdd]
      by_cases hil : i < ip.length
      · unfold digitPos
        rw [if_pos hil, List.drop_append_of_le_length (by omega), List.drop_append_of_le_length (by omega), digitsOf_append,
          digitsOf_append]
        congr 1
      · obtain ⟨l, rfl⟩ : ∃ l, i = ip.length + l := ⟨i - ip.length, by omega⟩
        unfold digitPos
        rw [if_neg (by omega), show ip.length + l + 1 = ip.length + (l + 1) by omega, List.drop_length_add_append,
          List.drop_length_add_append, List.drop_succ_cons]

/-- The first and last nonzero digits, as numbers. -/
theorem number_slice {ds : List Char} (hd : ∀ c ∈ ds, IsDigit 10 c) {i j : ℕ} (hij : i ≤ j) (hj : j < ds.length)
    (h0 : number 10 (ds.take i) = 0) :
    number 10 ((ds.take (j + 1)).drop i) = number 10 (ds.take (j + 1)) ∧ number 10 (ds.take (j + 1)) < 10 ^ (j - i + 1) := by
  have e : number 10 (ds.take (j + 1)) = number 10 ((ds.take (j + 1)).drop i) := by
    conv_lhs => rw [← List.take_append_drop i (ds.take (j + 1)), number_append, List.take_take, Nat.min_eq_left (by omega), h0]
    simp
  refine ⟨e.symm, ?_⟩
  rw [e]
  have := number_lt (base := 10) (by norm_num) (cs := (ds.take (j + 1)).drop i)
    (fun c hc => hd c (List.mem_of_mem_take (List.mem_of_mem_drop hc)))
  rwa [List.length_drop, List.length_take, Nat.min_eq_left (by omega), show j + 1 - i = j - i + 1 by omega] at this

/-- A number has one representation `N * 10^D` with `N` not divisible by ten. -/
theorem dec_repr_unique {N N' : ℕ} {D D' : ℤ} (h : ¬ 10 ∣ N) (h' : ¬ 10 ∣ N') (e : (N : ℚ) * 10 ^ D = N' * 10 ^ D') : N = N' ∧ D = D' := by
  have key : ∀ {N N' : ℕ} {D D' : ℤ}, ¬ 10 ∣ N → ¬ 10 ∣ N' → (N : ℚ) * 10 ^ D = N' * 10 ^ D' → D ≤ D' → N = N' ∧ D = D' := by
    intro N N' D D' h h' e hle
    obtain ⟨k, hk⟩ := Int.eq_ofNat_of_zero_le (show 0 ≤ D' - D by omega)
    have hD : D' = D + k := by omega
    subst hD
    have h0 : (10 : ℚ) ^ D ≠ 0 := by positivity
    rw [zpow_add₀ (by norm_num), zpow_natCast, mul_comm ((10 : ℚ) ^ D), ← mul_assoc] at e
    have e1 := mul_right_cancel₀ h0 e
    have e2 : N = N' * 10 ^ k := by exact_mod_cast e1
    rcases Nat.eq_zero_or_pos k with rfl | hk0
    · exact ⟨by simpa using e2, by simp⟩
    · exact absurd (e2 ▸ Dvd.dvd.mul_left (dvd_pow_self 10 (by omega)) N') h
  rcases le_total D D' with hl | hl
  · exact key h h' e hl
  · obtain ⟨a, b⟩ := key h' h e.symm hl
    exact ⟨a.symm, b.symm⟩

set_option maxHeartbeats 1000000 in
theorem decConvert_ok (hS : S.OK) {m ip fp t : List Char} (hm : IsSignificand 10 m ip fp) (hlen : (m ++ t).length < 134217728)
    {st : DecSt} {e E : ℤ} (hsat : SatTo e E) (hs : DScan st (ip ++ fp) (digitPos ip) ip.length) {first : ℕ}
    (hf : st.firstSig = some first) {v : ℚ} (hv : v = significandValue 10 ip fp * 10 ^ E) (mode : Round) {fuel : ℕ} (hfuel : 23 ≤ fuel) :
    DecPost S mode v (∃ (N : ℕ) (D : ℤ), v = N * 10 ^ D ∧ ¬ 10 ∣ N ∧ N < 2 ^ 127 ∧ |D| ≤ 54) (ExactDec v)
      (decConvert S fuel (m ++ t) mode st first e) := by
  have h3 := hS.p_ge
  have h126 := hS.p_le
  have hmin := hS.min_ge
  have hmin' := hS.min_lt
  have hmax := hS.max_le
  have hpm := hS.p_max
  obtain ⟨i, j, a1, a2, a3, a4, a5, a6, a7, a8⟩ := hs.nz _ hf
  have hdig : ∀ c ∈ ip ++ fp, IsDigit 10 c := by
    intro c hc
    rcases List.mem_append.1 hc with hc | hc
    · exact hm.1 c hc
    · exact hm.2.1 c hc
  obtain ⟨n1, n2⟩ := number_slice hdig a1 a2 a5
  obtain ⟨N, hN⟩ : ∃ N, N = number 10 ((ip ++ fp).take (j + 1)) := ⟨_, rfl⟩
  rw [← hN] at a6 a7 a8 n1 n2
  have hL : (ip ++ fp).length < 134217728 := by
    refine lt_of_le_of_lt ?_ hlen
    rcases hm.2.2.2 with ⟨rfl, rfl⟩ | rfl <;> simp
    omega
  rw [List.length_append] at a2 hL
  -- the exponents
  obtain ⟨D, hD⟩ : ∃ D : ℤ, D = E + (ip.length - 1 - j) := ⟨_, rfl⟩
  have hvD : v = N * 10 ^ D := by
    rw [hv, hD]
    unfold significandValue
    rw [a7, List.length_append]
    push_cast
    have e1 : (10 : ℚ) ^ (E + ((ip.length : ℤ) - 1 - j)) = 10 ^ E * 10 ^ (ip.length + fp.length - 1 - j) / 10 ^ fp.length := by
      rw [eq_div_iff (by positivity), ← zpow_natCast, ← zpow_natCast, ← zpow_add₀ (by norm_num), ← zpow_add₀ (by norm_num)]
      congr 1; omega
    rw [e1]; ring
  obtain ⟨b1, b2⟩ := dec_bounds (D := D) a6 n2
  have hv0 : 0 < v := by
    rw [hvD]
    have : 0 < N := lt_of_lt_of_le (by positivity) a6
    positivity
  rw [← hvD] at b1 b2
  have hst := hs.dot
  have hPi : digitPos ip i = if i < ip.length then i else i + 1 := rfl
  have hPj : digitPos ip j = if j < ip.length then j else j + 1 := rfl
  obtain ⟨D1, hD1⟩ : ∃ D1, D1 = sat32 (e + (ip.length - 1 - j)) := ⟨_, rfl⟩
  have hadj : adjustDecExp st e = .ok D1 := by
    unfold adjustDecExp
    rw [hst, a4]
    by_cases hjl : j < ip.length
    · rw [hPj, if_pos hjl, if_pos hjl, asI32_of_lt (by omega), hD1]
      congr 2; omega
    · rw [hPj, if_neg hjl, if_neg (by omega), asI32_of_lt (by omega), hD1]
      congr 2; omega
  have hdigits : usub (digitPos ip j - digitPos ip i + 1) (decide (ip.length > digitPos ip i ∧ ip.length < digitPos ip j)).toNat = .ok (j - i + 1) := by
    by_cases hc : ip.length > digitPos ip i ∧ ip.length < digitPos ip j
    · rw [decide_eq_true hc, usub_ok (by simp)]
      congr 1
      rw [hPi, hPj] at *
      split_ifs at hc ⊢ <;> simp <;> omega
    · rw [decide_eq_false hc, usub_ok (by simp)]
      congr 1
      rw [hPi, hPj] at *
      split_ifs at hc ⊢ <;> simp <;> omega
  unfold decConvert
  rw [hadj, M.ok_bind, a4, a3, hst, usub_ok (by rw [hPi, hPj]; split_ifs <;> omega), M.ok_bind, hdigits, M.ok_bind, asI32_of_lt (by omega),
    i32_ok (by omega) (by omega), M.ok_bind]
  obtain ⟨d, hd⟩ : ∃ d, d = j - i := ⟨_, rfl⟩
  rw [← hd] at a6 n2 b1 b2 ⊢
  obtain ⟨nE, hnE⟩ : ∃ x, x = sat32 (D1 + (((d + 1 : ℕ) : ℤ) - 1)) := ⟨_, rfl⟩
  dsimp only
  rw [← hnE, i32_ok (by omega) (by omega), M.ok_bind]
  have hrel : (nE = D + d ∧ D1 = D) ∨ (2000000000 < nE ∧ 2000000000 < D + d) ∨ (nE < -2000000000 ∧ D + d < -2000000000) := by
    unfold SatTo at hsat
    unfold sat32 at hnE hD1
    omega
  by_cases hbig : sat32 (sat32 (nE - 1) * 42039) ≥ 12655 * S.maxExp
  · rw [if_pos hbig]
    apply DecPost.of_good hS hv0.le
    apply big_good hS
    have h42 : (D + d - 1) * 42039 ≥ 12655 * S.maxExp := by
      unfold sat32 at hbig
      omega
    obtain ⟨q, hq⟩ := Int.eq_ofNat_of_zero_le (show 0 ≤ D + d - 1 by omega)
    obtain ⟨M, hM⟩ := Int.eq_ofNat_of_zero_le (show 0 ≤ S.maxExp by omega)
    have := ten_ge (m := q) (M := M) (by omega)
    refine le_trans ?_ b1
    rw [show D + (d : ℤ) = q + 1 by omega, hM, two_zpow_add, zpow_add₀ (by norm_num), zpow_natCast, zpow_natCast, zpow_one, zpow_one]
    have t1 : (2 : ℚ) ^ M ≤ 10 ^ q := by exact_mod_cast this
    have t2 : (0 : ℚ) < 2 ^ M := by positivity
    nlinarith
  · rw [if_neg hbig, asI32_of_lt (by omega), i32_ok (by omega) (by omega), M.ok_bind, i32_ok (by omega) (by omega), M.ok_bind]
    by_cases htiny : sat32 (sat32 (nE + 1) * 28738) ≤ 8651 * (S.minExp - S.precision)
    · rw [if_pos htiny]
      apply DecPost.of_good hS hv0.le
      apply tiny_good hS hv0
      have h28 : (D + d + 1) * 28738 ≤ 8651 * (S.minExp - S.precision) := by
        unfold sat32 at htiny
        omega
      obtain ⟨q, hq⟩ := Int.eq_ofNat_of_zero_le (show 0 ≤ -(D + d + 1) by omega)
      obtain ⟨M, hM⟩ := Int.eq_ofNat_of_zero_le (show 0 ≤ -(S.minExp - S.precision) by omega)
      have := ten_ge' (k := q) (d := M) (by omega) (by omega)
      refine lt_of_lt_of_le b2 ?_
      rw [show D + (d : ℤ) + 1 = -(q : ℤ) by omega, show S.minExp - (S.precision : ℤ) = -(M : ℤ) by omega, zpow_neg, zpow_neg, zpow_natCast, zpow_natCast]
      exact inv_anti₀ (by positivity) (by exact_mod_cast this)
    · rw [if_neg htiny]
      unfold sat32 at hbig htiny
      have hre : nE = D + d ∧ D1 = D := by omega
      obtain ⟨r1, r2⟩ := hre
      rw [r2]
      have hsl := digits_slice (t := t) hm a1 (by rw [List.length_append]; exact a2)
      obtain ⟨ds, s1, s2, s3, -⟩ := decSigLoop_ok (((m ++ t).take (digitPos ip j + 1)).drop (digitPos ip i) |>.length |> (· + 1))
        (((m ++ t).take (digitPos ip j + 1)).drop (digitPos ip i)) [] (by simp) (by
          rw [hsl]
          exact fun c hc => hdig c (List.mem_of_mem_take (List.mem_of_mem_drop hc))) (by intro x hx; simp at hx)
      rw [s1, M.ok_bind]
      rw [hsl, n1] at s3
      have hpw : (if D < 0 then -D else D) = (D.natAbs : ℤ) := by split_ifs <;> omega
      rw [hpw, i32_ok (by omega) (by omega), M.ok_bind, Int.toNat_natCast]
      obtain ⟨q, q1, q2, q3⟩ := pow5_ok (n := D.natAbs) (by omega)
      rw [q1, M.ok_bind]
      have hfin := convert_attempts hS a6 n2 (by omega) (by omega) (by omega) s2 (by rw [s3]; simp) q2 q3 mode hfuel (D := D)
      rw [← hvD] at hfin
      obtain ⟨r, f1, f2, f3, f4, ⟨f5, f5'⟩, f6⟩ := hfin
      refine ⟨r, f1, f2, f3, f4, ⟨?_, ?_⟩, f6⟩
      rotate_left 1
      · rintro ⟨N', D', W, g1, g2, g3, g4, g5, g6⟩
        obtain ⟨u1, u2⟩ := dec_repr_unique a8 g2 (by rw [← hvD, ← g1])
        subst u1 u2
        exact f5' ⟨g3, g4, W, g5, g6⟩
      rintro ⟨N', D', g1, g2, g3, g4⟩
      obtain ⟨u1, u2⟩ := dec_repr_unique a8 g2 (by rw [← hvD, ← g1])
      subst u1 u2
      apply f5 ⟨g3, ?_⟩
      refine lt_of_le_of_lt (Nat.pow_le_pow_right (by norm_num) (show D.natAbs ≤ 54 by
        have := Int.natCast_natAbs D
        omega)) (by norm_num)

/-- `from_decimal_string` on every decimal literal. -/
theorem fromDecString_ok (hS : S.OK) {s : List Char} (hlen : s.length < 134217728) {v : ℚ} (hs : IsDec s v) (mode : Round)
    {fuel : ℕ} (hfuel : 23 ≤ fuel) : 0 ≤ v ∧ ∃ r, fromDecString S fuel s mode = .ok (.ok r) ∧
      DecPost S mode v (v = 0 ∨ ∃ (N : ℕ) (D : ℤ), v = N * 10 ^ D ∧ ¬ 10 ∣ N ∧ N < 2 ^ 127 ∧ |D| ≤ 54) (ExactDec v) (.ok r) := by
  obtain ⟨m, ip, fp, t, E, hm, rfl, ht, hv⟩ := isDec_iff.1 hs
  have hv0 : 0 ≤ v := by
    rw [hv]; unfold significandValue; positivity
  refine ⟨hv0, ?_⟩
  obtain ⟨st, e, e1, e2, e3⟩ := decLoop_ok hm rfl ht
  unfold fromDecString
  rw [e1]
  dsimp only
  have hany : st.anyDigits = true := by
    rw [e3.any]
    cases hh : ip ++ fp with
    | nil => exact absurd hh hm.2.2.1
    | cons => rfl
  rw [hany, if_neg (by simp)]
  cases hf : st.firstSig with
  | none =>
    have hz := e3.zero hf
    have hv' : v = 0 := by rw [hv]; unfold significandValue; rw [hz]; simp
    refine ⟨_, rfl, DecPost.of_good hS hv0 ⟨_, rfl, zero_valid, rfl, ?_⟩⟩
    rw [hv']
    exact delivers_zero hS mode false
  | some first =>
    obtain ⟨r, r1, r2, r3, r4, ⟨r5, r5'⟩, r6⟩ := decConvert_ok hS hm hlen e2 e3 hf hv mode hfuel
    dsimp only
    rw [r1, M.ok_bind]
    refine ⟨r, rfl, r, rfl, r2, r3, r4, ⟨?_, r5'⟩, r6⟩
    rintro (h | h)
    · obtain ⟨i, j, a1, a2, a3, a4, a5, a6, a7, a8⟩ := e3.nz _ hf
      exfalso
      rw [hv] at h
      unfold significandValue at h
      rw [a7] at h
      have : 0 < number 10 ((ip ++ fp).take (j + 1)) := lt_of_lt_of_le (by positivity) a6
      have : (0 : ℚ) < ((number 10 ((ip ++ fp).take (j + 1)) * 10 ^ ((ip ++ fp).length - 1 - j) : ℕ) : ℚ) / ((10 : ℕ) : ℚ) ^ fp.length * 10 ^ E := by
        positivity
      exact this.ne' h
    · exact r5 h

end Apf
