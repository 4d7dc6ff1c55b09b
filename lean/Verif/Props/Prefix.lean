import Verif.Spec.Prefix
import Verif.Props.BitOrder
import Verif.Props.Convert
import Verif.Props.Enclosure
import Verif.Props.DoubleRounding

/-! **C102**: conversion between a format and a prefix of it (`Single` and `BFloat`, `Half` and `Float8E5M2`) in terms of the bits. -/

namespace Apf
open Spec IeeeFloat
variable {S T : Sem}

namespace IeeeFloat

theorem low_normal (h : S.Enc) (hi : S.explicitIntBit = false) {x : IeeeFloat S} (hx : x.Valid) (c : x.category = .normal) :
    x.low = (x.exp - S.minExp).toNat * 2 ^ (S.precision - 1) + x.sig := by
  obtain ⟨v1, v2, v3, v4, v5, v6⟩ := Valid.normal hx c
  have h2 := h.ok.two_pow
  have hs : S.sigBits = S.precision - 1 := by simp [Sem.sigBits, hi]
  unfold low fieldE fieldT
  simp only [c, hi, Bool.false_eq_true, if_false]
  rw [hs]
  split_ifs with k
  · have : x.exp = S.minExp := by omega
    rw [this, Nat.mod_eq_of_lt k]; simp
  · rw [Nat.mod_eq_sub_mod (by omega), Nat.mod_eq_of_lt (by omega),
      show (x.exp - S.minExp + 1).toNat = (x.exp - S.minExp).toNat + 1 by omega, Nat.add_mul]
    omega

theorem low_infinite (h : S.Enc) (hi : S.explicitIntBit = false) (hn : S.nonfinite = .ieee754) {x : IeeeFloat S}
    (c : x.category = .infinity) : x.low = (S.maxExp - S.minExp).toNat * 2 ^ (S.precision - 1) + 2 ^ S.precision := by
  have h2 := h.ok.two_pow
  have hs : S.sigBits = S.precision - 1 := by simp [Sem.sigBits, hi]
  have h3 := h.max_eq
  have h4 := h.min_eq
  have h5 := h.w_ge
  rw [if_pos hn] at h3
  unfold low fieldE fieldT
  simp only [c, hi, Bool.false_eq_true, if_false]
  have e : 2 ^ S.expBits - 1 = (S.maxExp - S.minExp).toNat + 2 := by
    rw [h3, h4]
    have : (2:ℕ) ^ S.expBits = 2 * 2 ^ (S.expBits - 1) := by
      rw [← Nat.pow_succ']; congr 1; omega
    rw [this]
    have h6 : 2 ^ 1 ≤ 2 ^ (S.expBits - 1) := Nat.pow_le_pow_right (by norm_num) (by omega)
    have h7 : ((2 ^ (S.expBits - 1) : ℕ) : ℤ) = 2 ^ (S.expBits - 1) := by push_cast; rfl
    rw [← h7]
    generalize 2 ^ (S.expBits - 1) = W at *
    omega
  rw [e, hs, h2, Nat.add_mul]
  rfl

/-- The magnitude bits of the float with a given absolute value. -/
theorem low_of_value (h : S.Enc) (hi : S.explicitIntBit = false) {z : IeeeFloat S} (hz : z.Valid) (fz : z.isFinite = true)
    {m : ℕ} {e : ℤ} (he : S.minExp ≤ e) (hm : m ≤ 2 ^ S.precision) (hc : 2 ^ (S.precision - 1) ≤ m ∨ e = S.minExp)
    (hv : |z.toRat| = (m : ℚ) * 2 ^ (e - S.precision + 1)) :
    z.low = (e - S.minExp).toNat * 2 ^ (S.precision - 1) + m := by
  have h2 := h.ok.two_pow
  have h3 := h.ok.half_ge
  have hu := two_zpow_pos (e - S.precision + 1)
  rcases isFinite_iff.1 fz with c | c
  · obtain ⟨v1, v2, v3, v4, v5, v6⟩ := Valid.normal hz c
    rw [low_normal h hi hz c]
    rw [abs_toRat c] at hv
    -- compare the two representations
    have key : ∀ {a b : ℕ} {i j : ℤ}, a < 2 ^ S.precision → 2 ^ (S.precision - 1) ≤ b → i < j →
        (a : ℚ) * 2 ^ (i - S.precision + 1) = (b : ℚ) * 2 ^ (j - S.precision + 1) → False := by
      intro a b i j ha hb hij he
      have k1 : (2:ℚ) ^ (j - S.precision + 1) = 2 ^ (i - S.precision + 1) * 2 ^ (j - i) := by
        rw [← two_zpow_add]; congr 1; ring
      have k2 : (2:ℚ) ≤ 2 ^ (j - i) := by
        calc (2:ℚ) = 2 ^ (1:ℤ) := by norm_num
          _ ≤ _ := zpow_le_zpow_right₀ (by norm_num) (by omega)
      have k3 := two_zpow_pos (i - S.precision + 1)
      rw [k1] at he
      have k4 : (a : ℚ) = b * 2 ^ (j - i) := by
        apply mul_right_cancel₀ k3.ne'
        rw [he]; ring
      have k5 : (a : ℚ) < 2 ^ S.precision := by exact_mod_cast ha
      have k6 : (2:ℚ) ^ (S.precision - 1) ≤ b := by exact_mod_cast hb
      have k7 : (2:ℚ) ^ S.precision = 2 * 2 ^ (S.precision - 1) := by exact_mod_cast h2
      have k8 : (0:ℚ) ≤ b := by positivity
      nlinarith
    by_cases hM : m = 2 ^ S.precision
    · have hv' : (z.sig : ℚ) * 2 ^ (z.exp - S.precision + 1) = ((2 ^ (S.precision - 1) : ℕ) : ℚ) * 2 ^ ((e + 1) - S.precision + 1) := by
        rw [hv, hM, h2]; push_cast
        rw [show e + 1 - (S.precision : ℤ) + 1 = (e - S.precision + 1) + 1 by ring, two_zpow_add (e - S.precision + 1) 1]
        norm_num; ring
      have e1 : z.exp = e + 1 := by
        rcases lt_trichotomy z.exp (e + 1) with q | q | q
        · exact (key v4 le_rfl q hv').elim
        · exact q
        · exact (key (by omega) (by omega) q hv'.symm).elim
      rw [e1] at hv' ⊢
      have : z.sig = 2 ^ (S.precision - 1) := by
        have := mul_right_cancel₀ (two_zpow_pos (e + 1 - S.precision + 1)).ne' hv'
        exact_mod_cast this
      rw [this, hM, show (e + 1 - S.minExp).toNat = (e - S.minExp).toNat + 1 by omega, Nat.add_mul, h2]
      omega
    · have e1 : z.exp = e := by
        rcases lt_trichotomy z.exp e with q | q | q
        · exact (key v4 (by omega) q hv).elim
        · exact q
        · exact (key (by omega) (by omega) q hv.symm).elim
      rw [e1] at hv ⊢
      have : z.sig = m := by
        have := mul_right_cancel₀ hu.ne' hv
        exact_mod_cast this
      rw [this]
  · rw [low_zero c]
    have : z.toRat = 0 := by simp [toRat, c]
    rw [this, abs_zero] at hv
    have hm0 : m = 0 := by
      have := (mul_eq_zero.1 hv.symm).resolve_right hu.ne'
      exact_mod_cast this
    subst hm0
    have : e = S.minExp := by omega
    rw [this]; simp

end IeeeFloat

/-- Whether the discarded part `r` of `k` bits, below the kept part `q`, carries. -/
def Prefix.carry (mode : Round) (k q r : ℕ) : ℕ :=
  match mode with
  | .towardZero | .towardNegative => 0
  | .towardPositive => if r = 0 then 0 else 1
  | .nearestTiesToAway => if 2 ^ k ≤ 2 * r then 1 else 0
  | .nearestTiesToEven => if 2 ^ k < 2 * r ∨ (2 * r = 2 ^ k ∧ q % 2 = 1) then 1 else 0

theorem Prefix.carry_le (mode : Round) (k q r : ℕ) : Prefix.carry mode k q r ≤ 1 := by
  unfold Prefix.carry; cases mode <;> simp <;> split_ifs <;> simp

theorem Prefix.roundOff_eq (mode : Round) (s : Bool) {k b : ℕ} (hk : 1 ≤ k) {q : ℕ} (hq : q % 2 = b / 2 ^ k % 2) :
    roundOff mode s k b = b / 2 ^ k + Prefix.carry (mode.negateIf s) k q (b % 2 ^ k) := by
  obtain ⟨H, hH⟩ : ∃ H, H = 2 ^ (k - 1) := ⟨_, rfl⟩
  have hK : 2 ^ k = 2 * H := by rw [hH, ← Nat.pow_succ']; congr 1; omega
  have hp : 0 < H := by rw [hH]; positivity
  have hd := Nat.div_add_mod b (2 ^ k)
  have hr := Nat.mod_lt b (Nat.two_pow_pos k)
  have step : ∀ c, c ≤ 2 ^ k → ∀ u, u = (if 2 ^ k ≤ b % 2 ^ k + c then 1 else 0) → (b + c) / 2 ^ k = b / 2 ^ k + u := by
    intro c hc u hu
    have : b + c = (b % 2 ^ k + c) + 2 ^ k * (b / 2 ^ k) := by omega
    rw [this, Nat.add_mul_div_left _ _ (Nat.two_pow_pos k), Nat.add_comm, hu]
    congr 1
    split_ifs with g
    · apply Nat.div_eq_of_lt_le <;> omega
    · exact Nat.div_eq_of_lt (by omega)
  unfold roundOff Prefix.carry
  rw [← hH]
  have hm2 := Nat.mod_lt (b / 2 ^ k) (show 0 < 2 by norm_num)
  rw [hq]
  cases mode <;> cases s <;> simp only [Round.negateIf, Round.neg, if_true, Bool.false_eq_true, if_false, Nat.add_zero]
  all_goals
    first
    | rfl
    | (rw [Nat.add_assoc]; apply step _ (by omega); split_ifs <;> omega)
    | (apply step _ (by omega); split_ifs <;> omega)

theorem Prefix.pick {F : Fmt} (mode : Round) {k q r : ℕ} {e : ℤ} (hp : 2 ≤ F.p) (hq : q < 2 ^ F.p) (he : F.emin ≤ e)
    (hc : 2 ^ (F.p - 1) ≤ q ∨ e = F.emin) (hr : r < 2 ^ k) :
    IsRounded F mode (((q : ℚ) + (r : ℚ) / ((2 ^ k : ℕ) : ℚ)) * 2 ^ (e - F.p + 1))
      (((q + Prefix.carry mode k q r : ℕ) : ℚ) * 2 ^ (e - F.p + 1)) := by
  have hnb := neighbours_mk (F := F) (n := q) (e := e) (by omega) hq he hc
  have ev0 : q % 2 = 0 → F.EvenGrid ((q : ℚ) * 2 ^ (e - F.p + 1)) := fun g => evenGrid_mk hp hq.le he g
  have ev1 : q % 2 = 1 → F.EvenGrid (((q + 1 : ℕ) : ℚ) * 2 ^ (e - F.p + 1)) := fun g => evenGrid_mk hp hq he (by omega)
  have hu := two_zpow_pos (e - F.p + 1)
  unfold Prefix.carry
  have hK : (0:ℚ) < ((2 ^ k : ℕ) : ℚ) := by positivity
  generalize (2:ℚ) ^ (e - F.p + 1) = u at *
  generalize 2 ^ k = K at *
  have fl : (r : ℚ) = (r : ℚ) / K * K := by field_simp
  have f0 : (0:ℚ) ≤ (r : ℚ) / K := by positivity
  have fp : r ≠ 0 → (0:ℚ) < (r : ℚ) / K := fun g => div_pos (by exact_mod_cast Nat.pos_of_ne_zero g) hK
  have f1 : (r : ℚ) / K < 1 := by rw [div_lt_one hK]; exact_mod_cast hr
  have frac_lt : 2 * r < K → (r : ℚ) / K < 1 - (r : ℚ) / K := by
    intro g
    have : (2 * r : ℚ) < K := by exact_mod_cast g
    have : 2 * (r : ℚ) / K < 1 := by rw [div_lt_one hK]; exact this
    rw [mul_div_assoc] at this; linarith
  have frac_gt : K < 2 * r → 1 - (r : ℚ) / K < (r : ℚ) / K := by
    intro g
    have : (K : ℚ) < 2 * r := by exact_mod_cast g
    have : 1 < 2 * (r : ℚ) / K := by rw [lt_div_iff₀ hK, one_mul]; exact this
    rw [mul_div_assoc] at this; linarith
  have frac_eq : 2 * r = K → (r : ℚ) / K = 1 - (r : ℚ) / K := by
    intro g
    have : (2 * r : ℚ) = K := by exact_mod_cast g
    have : 2 * (r : ℚ) / K = 1 := by rw [div_eq_one_iff_eq hK.ne']; exact this
    rw [mul_div_assoc] at this; linarith
  have frac_0 : r = 0 → (r : ℚ) / K = 0 := by intro g; rw [g]; simp
  generalize (r : ℚ) / K = f at *
  have l1 : (q : ℚ) * u ≤ (q + f) * u := mul_le_mul_of_nonneg_right (by linarith) hu.le
  have l2 : (q + f) * u < ((q + 1 : ℕ) : ℚ) * u := by
    push_cast; exact mul_lt_mul_of_pos_right (by linarith) hu
  have l0 : (0:ℚ) ≤ (q : ℚ) * u := by positivity
  have LO : (r = 0 ∨ mode = .towardNegative ∨ mode = .towardZero ∨
      ((mode = .nearestTiesToEven ∨ mode = .nearestTiesToAway) ∧ 2 * r < K) ∨
      (mode = .nearestTiesToEven ∧ 2 * r = K ∧ q % 2 = 0)) → IsRounded F mode ((q + f) * u) ((q : ℚ) * u) := by
    intro g
    apply isRounded_lo hnb l0 l1 l2
    rcases g with g | g | g | ⟨g, g'⟩ | ⟨g, g', g''⟩
    · left; rw [frac_0 g, add_zero]
    · exact Or.inr (Or.inl g)
    · exact Or.inr (Or.inr (Or.inl g))
    · refine Or.inr (Or.inr (Or.inr (Or.inl ⟨g, ?_⟩)))
      have := mul_lt_mul_of_pos_right (frac_lt g') hu
      push_cast; linarith
    · refine Or.inr (Or.inr (Or.inr (Or.inr ⟨g, ?_, ev0 g''⟩)))
      push_cast; linear_combination u * frac_eq g'
  have HI : r ≠ 0 → (mode = .towardPositive ∨
      ((mode = .nearestTiesToEven ∨ mode = .nearestTiesToAway) ∧ K < 2 * r) ∨
      (mode = .nearestTiesToAway ∧ 2 * r = K) ∨
      (mode = .nearestTiesToEven ∧ 2 * r = K ∧ q % 2 = 1)) →
      IsRounded F mode ((q + f) * u) (((q + 1 : ℕ) : ℚ) * u) := by
    intro r0 g
    apply isRounded_hi hnb l0 (mul_lt_mul_of_pos_right (by linarith [fp r0]) hu) l2
    rcases g with g | ⟨g, g'⟩ | ⟨g, g'⟩ | ⟨g, g', g''⟩
    · exact Or.inl g
    · refine Or.inr (Or.inl ⟨g, ?_⟩)
      have := mul_lt_mul_of_pos_right (frac_gt g') hu
      push_cast; linarith
    · refine Or.inr (Or.inr (Or.inl ⟨g, ?_⟩))
      push_cast; linear_combination -u * frac_eq g'
    · refine Or.inr (Or.inr (Or.inr ⟨g, ?_, ev1 g''⟩))
      push_cast; linear_combination -u * frac_eq g'
  clear frac_lt frac_gt frac_eq frac_0
  cases mode <;> dsimp only
  · split_ifs with g
    · apply HI (by omega)
      rcases g with g | ⟨g, g'⟩ <;> simp [*]
    · rw [Nat.add_zero]; apply LO
      simp only [reduceCtorEq, false_or, true_or, true_and]; omega
  · split_ifs with g
    · rw [Nat.add_zero]; exact LO (Or.inl g)
    · exact HI g (Or.inl rfl)
  · rw [Nat.add_zero]; exact LO (by simp)
  · rw [Nat.add_zero]; exact LO (by simp)
  · split_ifs with g
    · apply HI (by omega)
      simp only [reduceCtorEq, false_or, or_true, true_and, false_and, or_false]; omega
    · rw [Nat.add_zero]; apply LO
      simp only [reduceCtorEq, false_or, or_true, true_and, false_and, or_false]; omega

namespace Sem.Prefix
variable {k : ℕ} (h : Sem.Prefix T S k)
include h

theorem min : S.minExp = T.minExp := by rw [h.encS.min_eq, h.encT.min_eq, h.exp]
theorem max : S.maxExp = T.maxExp := by rw [h.encS.max_eq, h.encT.max_eq, h.exp, h.nonfT, h.nonfS]
theorem sigS : S.sigBits = S.precision - 1 := by simp [Sem.sigBits, h.intS]
theorem sigT : T.sigBits = T.precision - 1 := by simp [Sem.sigBits, h.intT]
theorem bits : S.bits = T.bits + k := by
  have := h.encT.ok.p_ge; have := h.prec
  rw [h.encS.bits_eq, h.encT.bits_eq, h.exp, h.sigS, h.sigT]; omega

/-- The rounding of a number of the long format in the short one. -/
theorem rounded (mode : Round) {n : ℕ} {e : ℤ} (hn : n < 2 ^ S.precision) (he : T.minExp ≤ e)
    (hc : 2 ^ (S.precision - 1) ≤ n ∨ e = T.minExp) :
    IsRounded T.fmt mode ((n : ℚ) * 2 ^ (e - S.precision + 1))
      (((n / 2 ^ k + Prefix.carry mode k (n / 2 ^ k) (n % 2 ^ k) : ℕ) : ℚ) * 2 ^ (e - T.precision + 1)) := by
  have p3 := h.encT.ok.p_ge
  have hp := h.prec
  have hq : n / 2 ^ k < 2 ^ T.precision := by
    rw [Nat.div_lt_iff_lt_mul (Nat.two_pow_pos k), ← pow_add, ← hp]; exact hn
  have hc' : 2 ^ (T.precision - 1) ≤ n / 2 ^ k ∨ e = T.minExp := by
    rcases hc with hc | hc
    · left
      rw [Nat.le_div_iff_mul_le (Nat.two_pow_pos k), ← pow_add, show T.precision - 1 + k = S.precision - 1 by omega]; exact hc
    · exact Or.inr hc
  have hv := div_add_frac n k (e - S.precision + 1)
  rw [show e - (S.precision : ℤ) + 1 + k = e - T.precision + 1 by rw [hp]; push_cast; ring] at hv
  rw [← hv]
  exact Prefix.pick (F := T.fmt) mode (by show 2 ≤ T.precision; omega) hq he hc' (Nat.mod_lt n (Nat.two_pow_pos k))

theorem narrow_low {x : IeeeFloat S} (hx : x.Valid) (cx : x.category = .normal) {mode : Round} {r : StatusAnd (IeeeFloat T)}
    (hv : r.value.Valid) (hs : r.value.sign = x.sign) (hr : Rounds T mode x.toRat x.sign r) :
    r.value.low = (x.exp - T.minExp).toNat * 2 ^ (T.precision - 1) +
        (x.sig / 2 ^ k + Prefix.carry (mode.negateIf x.sign) k (x.sig / 2 ^ k) (x.sig % 2 ^ k)) ∧
      (r.status.inexact = decide (x.sig % 2 ^ k ≠ 0)) ∧ (r.value.datum = x.datum ↔ x.sig % 2 ^ k = 0) := by
  obtain ⟨v1, v2, v3, v4, v5, v6⟩ := Valid.normal hx cx
  have hp := h.prec
  have p3 := h.encT.ok.p_ge
  have h2 := h.encT.ok.two_pow
  rw [h.min] at v1 v5
  rw [h.max] at v2
  have hg := h.rounded (mode.negateIf x.sign) v4 v1 v5
  have hq : x.sig / 2 ^ k < 2 ^ T.precision := by
    rw [Nat.div_lt_iff_lt_mul (Nat.two_pow_pos k), ← pow_add, ← hp]; exact v4
  have hc' : 2 ^ (T.precision - 1) ≤ x.sig / 2 ^ k ∨ x.exp = T.minExp := by
    rcases v5 with hc | hc
    · left
      rw [Nat.le_div_iff_mul_le (Nat.two_pow_pos k), ← pow_add, show T.precision - 1 + k = S.precision - 1 by omega]; exact hc
    · exact Or.inr hc
  have hval := div_add_frac x.sig k (x.exp - S.precision + 1)
  rw [show x.exp - (S.precision : ℤ) + 1 + k = x.exp - T.precision + 1 by rw [hp]; push_cast; ring] at hval
  have hcar := Prefix.carry_le (mode.negateIf x.sign) k (x.sig / 2 ^ k) (x.sig % 2 ^ k)
  have hcar0 : x.sig % 2 ^ k = 0 → Prefix.carry (mode.negateIf x.sign) k (x.sig / 2 ^ k) (x.sig % 2 ^ k) = 0 := by
    intro g
    rw [g]
    have := Nat.two_pow_pos k
    unfold Prefix.carry
    cases mode.negateIf x.sign <;> simp
    omega
  have hrm := Nat.mod_lt x.sig (Nat.two_pow_pos k)
  have hu := two_zpow_pos (x.exp - T.precision + 1)
  have hcinf : Prefix.carry (mode.negateIf x.sign) k (x.sig / 2 ^ k) (x.sig % 2 ^ k) = 1 →
      (overflowed T.fmt mode x.sign).1 = .inf x.sign ∧ (overflowed T.fmt mode x.sign).2.inexact = true := by
    have hI : T.fmt.hasInf = true := by simp [Sem.fmt, h.nonfT]
    intro g
    unfold Prefix.carry at g
    unfold overflowed
    cases mode <;> cases hsx : x.sign <;> simp [Round.negateIf, Round.neg, hsx, hI] at g ⊢
  generalize hC : Prefix.carry (mode.negateIf x.sign) k (x.sig / 2 ^ k) (x.sig % 2 ^ k) = C at *
  have hrq : (((x.sig / 2 ^ k + C : ℕ) : ℚ) * 2 ^ (x.exp - T.precision + 1) = (x.sig : ℚ) * 2 ^ (x.exp - S.precision + 1)) ↔
      x.sig % 2 ^ k = 0 := by
    rw [← hval]
    constructor
    · intro g
      have g := mul_right_cancel₀ hu.ne' g
      have hK : (0:ℚ) < ((2 ^ k : ℕ) : ℚ) := by positivity
      have f1 : ((x.sig % 2 ^ k : ℕ) : ℚ) / ((2 ^ k : ℕ) : ℚ) < 1 := by rw [div_lt_one hK]; exact_mod_cast hrm
      rw [Nat.cast_add] at g
      have g : (C : ℚ) = ((x.sig % 2 ^ k : ℕ) : ℚ) / ((2 ^ k : ℕ) : ℚ) := by linarith
      have : C = 0 := by
        rw [← g] at f1
        have : C < 1 := by exact_mod_cast f1
        omega
      rw [this] at g
      have := (div_eq_zero_iff.1 g.symm).resolve_right hK.ne'
      exact_mod_cast this
    · intro g
      rw [hcar0 g, g]; simp
  generalize x.sig / 2 ^ k = q at *
  have g0 : (0:ℚ) ≤ ((q + C : ℕ) : ℚ) * 2 ^ (x.exp - T.precision + 1) := by positivity
  rw [toRat_normal cx] at hr
  obtain ⟨⟨g, g1, g2⟩, -⟩ := hr
  have ge := g1.unique hg.signed
  rw [ge] at g2
  rw [abs_signed _ g0] at g2
  have hdx : x.datum = .num x.sign (signed x.sign ((x.sig : ℚ) * 2 ^ (x.exp - S.precision + 1))) := datum_normal cx
  rcases g2 with ⟨a, b, c⟩ | ⟨a, b⟩
  · obtain ⟨f, f2⟩ := datum_num b
    refine ⟨low_of_value h.encT h.intT hv f v1 (by omega) (by omega) (by rw [f2, abs_signed _ g0]), ?_, ?_⟩
    · rw [c]; simp only [ne_eq, signed_inj, hrq]
    · rw [b, hdx, hs, Datum.num.injEq, signed_inj, hrq]; simp
  · have hqC : q + C ≤ 2 ^ T.precision := by omega
    have hlarge : T.fmt.largest = ((2 ^ T.precision - 1 : ℕ) : ℚ) * 2 ^ (T.maxExp - T.precision + 1) := by
      have hI : T.fmt.hasInf = true := by simp [Sem.fmt, h.nonfT]
      show (2 ^ T.precision - (if T.fmt.hasInf then 1 else 2)) * 2 ^ (T.maxExp - T.precision + 1) = _
      rw [hI, if_pos rfl, Nat.cast_sub Nat.one_le_two_pow]; push_cast; rfl
    rw [hlarge] at a
    have hemax : x.exp = T.maxExp := by
      by_contra hne
      have e1 : x.exp + 1 ≤ T.maxExp := by omega
      have e2 : (2:ℚ) * 2 ^ (x.exp - T.precision + 1) ≤ 2 ^ (T.maxExp - T.precision + 1) := by
        have := two_zpow_add 1 (x.exp - T.precision + 1)
        rw [zpow_one] at this
        rw [← this]
        exact zpow_le_zpow_right₀ (by norm_num) (by omega)
      have e3 : ((q + C : ℕ) : ℚ) ≤ 2 * ((2 ^ T.precision - 1 : ℕ) : ℚ) := by
        have : q + C ≤ 2 * (2 ^ T.precision - 1) := by
          have := h.encT.ok.half_ge; omega
        exact_mod_cast this
      have e4 := mul_le_mul_of_nonneg_right e3 hu.le
      have e5 : (0:ℚ) ≤ ((2 ^ T.precision - 1 : ℕ) : ℚ) := by positivity
      have e6 := mul_le_mul_of_nonneg_left e2 e5
      linarith
    rw [hemax] at a
    have a' := lt_of_mul_lt_mul_right a (two_zpow_pos _).le
    have a' : 2 ^ T.precision - 1 < q + C := by exact_mod_cast a'
    have hC1 : C = 1 := by omega
    obtain ⟨o1, o2⟩ := hcinf hC1
    rw [hs] at b
    have b1 := congrArg Prod.fst b
    have b2 := congrArg Prod.snd b
    dsimp only at b1 b2
    rw [o1] at b1
    have ci : r.value.category = .infinity := by
      unfold datum at b1
      revert b1; cases r.value.category <;> simp
    have hne : x.sig % 2 ^ k ≠ 0 := fun g => by have := hcar0 g; omega
    refine ⟨?_, ?_, ?_⟩
    · rw [low_infinite h.encT h.intT h.nonfT ci, hemax]; omega
    · rw [b2, o2]; simp [hne]
    · rw [b1, hdx]; simp [hne]

theorem two_bits : 2 ^ (S.bits - 1) = 2 ^ k * 2 ^ (T.bits - 1) := by
  have := h.bits; have := h.encT.bits_eq
  rw [← pow_add]; congr 1; omega

theorem two_prec : 2 ^ (S.precision - 1) = 2 ^ k * 2 ^ (T.precision - 1) := by
  have := h.prec; have := h.encT.ok.p_ge
  rw [← pow_add]; congr 1; omega

end Sem.Prefix

/-- **C102.** Narrowing a number or infinity with bits `b` to a prefix of its format drops the last `k` bits of `b`, rounding on the
bits: by adding a constant to the word beforehand, whatever the exponent, the carry running into the exponent field and up to the
pattern of the infinity.  The conversion is inexact, and loses information, exactly when one of the bits dropped was set. -/
theorem C102_narrow_bits {k : ℕ} (h : Sem.Prefix T S k) {x : IeeeFloat S} (hx : x.Valid) (hn : x.isNan = false) {b : ℕ}
    (hb : x.toBits = .ok b) (mode : Round) :
    ∃ c, convertR S T x mode = .ok c ∧ c.value.toBits = .ok (roundOff mode x.sign k b) ∧
      c.status.inexact = decide (b % 2 ^ k ≠ 0) ∧ c.losesInfo = decide (b % 2 ^ k ≠ 0) := by
  have hS := h.encS.ok
  have hT := h.encT.ok
  have p3 := hT.p_ge
  have hbe : b = x.sign.toNat * 2 ^ (S.bits - 1) + x.low := by
    have := toBits_of h.encS hx
    rw [hb] at this; exact Except.ok.inj this
  rw [h.two_bits] at hbe
  have hK := Nat.two_pow_pos k
  have even_b : 2 ^ (T.bits - 1) % 2 = 0 := by
    have := h.encT.bits_eq; have := h.encT.w_ge
    rw [show T.bits - 1 = T.bits - 2 + 1 by omega, pow_succ]; omega
  have even_p : 2 ^ (T.precision - 1) % 2 = 0 := by
    rw [show T.precision - 1 = T.precision - 2 + 1 by omega, pow_succ]; omega
  have hcd := C22_loses_info hS hT hx hn mode
  -- the common shape of the magnitude bits
  have fin : ∀ {A n : ℕ} {c : ConvOut T}, convertR S T x mode = .ok c → c.value.Valid → c.value.sign = x.sign →
      x.low = 2 ^ k * (A * 2 ^ (T.precision - 1)) + n →
      c.value.low = A * 2 ^ (T.precision - 1) + (n / 2 ^ k + Prefix.carry (mode.negateIf x.sign) k (n / 2 ^ k) (n % 2 ^ k)) →
      c.value.toBits = .ok (roundOff mode x.sign k b) ∧ b % 2 ^ k = n % 2 ^ k := by
    intro A n c c1 c2 c3 hl hlc
    have e : b = n + 2 ^ k * (x.sign.toNat * 2 ^ (T.bits - 1) + A * 2 ^ (T.precision - 1)) := by
      rw [hbe, hl]; ring
    have ed : b / 2 ^ k = n / 2 ^ k + (x.sign.toNat * 2 ^ (T.bits - 1) + A * 2 ^ (T.precision - 1)) := by
      rw [e, Nat.add_mul_div_left _ _ hK]
    have em : b % 2 ^ k = n % 2 ^ k := by rw [e, Nat.add_mul_mod_self_left]
    refine ⟨?_, em⟩
    rw [Prefix.roundOff_eq mode x.sign h.pos (q := n / 2 ^ k), toBits_of h.encT c2, hlc, c3, em, ed]
    · congr 1; omega
    · rw [ed]
      have m1 : x.sign.toNat * 2 ^ (T.bits - 1) % 2 = 0 := by rw [Nat.mul_mod, even_b]; simp
      have m2 : A * 2 ^ (T.precision - 1) % 2 = 0 := by rw [Nat.mul_mod, even_p]; simp
      omega
  have carry0 : ∀ m q, Prefix.carry m k q 0 = 0 := by
    intro m q; unfold Prefix.carry; cases m <;> simp; omega
  rcases datum_not_nan hn with fx | cx
  · rcases isFinite_iff.1 fx with cx | cx
    · obtain ⟨c, c1, c2, c3, c4⟩ := C21_convert_finite hS hT hx fx mode (directedOK_of_ieee h.nonfT _ _)
      obtain ⟨n1, n2, n3⟩ := h.narrow_low (r := ⟨c.status, c.value⟩) hx cx c2 c3 c4
      have hl := low_normal h.encS h.intS hx cx
      rw [h.min, h.two_prec] at hl
      obtain ⟨f1, f2⟩ := fin c1 c2 c3 (by rw [hl]; ring) n1
      obtain ⟨c', d1, d2, d3⟩ := hcd
      rw [c1, Except.ok.injEq] at d1
      subst d1
      refine ⟨c, c1, f1, by rw [f2]; exact n2, ?_⟩
      rw [f2]
      rw [n3] at d3
      by_cases g : x.sig % 2 ^ k = 0
      · rw [d3.2 g]; simp [g]
      · have : c.losesInfo = true := by
          cases q : c.losesInfo
          · exact absurd (d3.1 q) g
          · rfl
        rw [this]; simp [g]
    · have c1 := convertR_zero hS hT cx mode
      obtain ⟨f1, f2⟩ := fin (A := 0) (n := 0) c1 (by simp [Valid, ZERO]) rfl (by rw [low_zero cx]; simp)
        (by rw [low_zero (by rfl)]; simp [carry0])
      refine ⟨_, c1, f1, ?_, ?_⟩ <;> rw [f2] <;> simp [Status.OK]
  · have c1 := convertR_inf hS hT cx mode
    rw [if_pos h.nonfT] at c1
    have ci : ({ INFINITY T with sign := x.sign } : IeeeFloat T).category = .infinity := by unfold INFINITY; simp [h.nonfT]
    have hv : ({ INFINITY T with sign := x.sign } : IeeeFloat T).Valid := by
      have := infinity_valid hT (S := T)
      unfold Valid at this ⊢
      exact this
    have hl := low_infinite h.encS h.intS h.nonfS cx
    have hlt := low_infinite h.encT h.intT h.nonfT ci
    rw [h.min, h.max, hS.two_pow, h.two_prec] at hl
    rw [hT.two_pow] at hlt
    obtain ⟨f1, f2⟩ := fin (A := (T.maxExp - T.minExp).toNat + 2) (n := 0) c1 hv rfl (by rw [hl]; ring) (by
      rw [hlt]; simp [carry0]; ring)
    refine ⟨_, c1, f1, ?_, ?_⟩ <;> rw [f2] <;> simp [Status.OK]

example := C102_narrow_bits bfloat_prefix (x := ⟨2 ^ 24 - 1, 127, .normal, true⟩) (by decide) rfl (b := 0xff7fffff) (by decide +kernel)
  .nearestTiesToEven
example : roundOff .nearestTiesToEven true 16 0xff7fffff = 0xff80 := by decide +kernel
example := C102_narrow_bits float8E5M2_prefix (x := ⟨0x580, -14, .normal, false⟩) (by decide) rfl (b := 0x580) (by decide +kernel)
  .nearestTiesToEven
example : roundOff .nearestTiesToEven false 8 0x580 = 6 ∧ roundOff .nearestTiesToEven false 8 0x480 = 4 := by decide +kernel

/-- **C102.** Widening a number or infinity to a format it is a prefix of appends `k` zero bits: exactly and without flags. -/
theorem C102_widen_bits {k : ℕ} (h : Sem.Prefix T S k) {x : IeeeFloat T} (hx : x.Valid) (hn : x.isNan = false) {b : ℕ}
    (hb : x.toBits = .ok b) (mode : Round) :
    ∃ c, convertR T S x mode = .ok c ∧ c.value.toBits = .ok (b * 2 ^ k) ∧ c.status = Status.OK ∧ c.losesInfo = false := by
  have hS := h.encS.ok
  have hT := h.encT.ok
  have p3 := hT.p_ge
  have hp := h.prec
  have hbe : b = x.sign.toNat * 2 ^ (T.bits - 1) + x.low := by
    have := toBits_of h.encT hx
    rw [hb] at this; exact Except.ok.inj this
  obtain ⟨c, c1, c2, c3, c4, c5⟩ := C22_widening hT hS (by omega) (by rw [h.min]) (by rw [h.max]) (by rw [h.nonfS]; intro g; cases g) hx hn mode
  refine ⟨c, c1, ?_, c4, c5⟩
  have key : c.value.sign = x.sign ∧ c.value.low = x.low * 2 ^ k := by
    rcases datum_not_nan hn with fx | cx
    · rw [datum_finite fx] at c3
      obtain ⟨f1, f2⟩ := datum_num c3
      have hs : c.value.sign = x.sign := by
        rw [datum_finite f1, Datum.num.injEq] at c3; exact c3.1
      refine ⟨hs, ?_⟩
      rcases isFinite_iff.1 fx with cx | cx
      · obtain ⟨v1, v2, v3, v4, v5, v6⟩ := Valid.normal hx cx
        rw [low_of_value h.encS h.intS c2 f1 (m := x.sig * 2 ^ k) (e := x.exp) (by rw [h.min]; exact v1) ?_ ?_ ?_,
          low_normal h.encT h.intT hx cx, h.min, h.two_prec]
        · ring
        · rw [hp, pow_add]; exact Nat.mul_le_mul_right _ v4.le
        · rw [h.two_prec, h.min, Nat.mul_comm]
          exact v5.imp (fun g => Nat.mul_le_mul_right _ g) id
        · rw [f2, abs_toRat cx, Nat.cast_mul, Nat.cast_pow, Nat.cast_ofNat, mul_assoc, ← zpow_natCast, ← two_zpow_add, hp]
          congr 2; push_cast; ring
      · have c0 : c.value.category = .zero := by
          have : x.toRat = 0 := by simp [toRat, cx]
          rw [this] at f2
          rcases isFinite_iff.1 f1 with q | q
          · obtain ⟨v1, v2, v3, v4, v5, v6⟩ := Valid.normal c2 q
            have := abs_toRat q
            rw [f2, abs_zero] at this
            have v3 : (0:ℚ) < c.value.sig := by exact_mod_cast v3
            have := mul_pos v3 (two_zpow_pos (c.value.exp - S.precision + 1))
            linarith
          · exact q
        rw [low_zero cx, low_zero c0]; simp
    · have hd : x.datum = .inf x.sign := by simp [datum, cx]
      rw [hd] at c3
      have ci : c.value.category = .infinity := by
        unfold datum at c3
        revert c3; cases c.value.category <;> simp
      have hs : c.value.sign = x.sign := by simpa [datum, ci] using c3
      refine ⟨hs, ?_⟩
      rw [low_infinite h.encS h.intS h.nonfS ci, low_infinite h.encT h.intT h.nonfT cx, h.min, h.max, hS.two_pow, hT.two_pow, h.two_prec]
      ring
  rw [toBits_of h.encS c2, key.1, key.2, hbe, h.two_bits]
  congr 1; ring

example := C102_widen_bits bfloat_prefix (x := ⟨3, -126, .normal, true⟩) (by decide) rfl (b := 0x8003) (by decide +kernel) .towardZero
example := C102_widen_bits float8E5M2_prefix (x := INFINITY float8E5M2S) (by decide) rfl (b := 0x7c) (by decide +kernel) .towardZero

theorem Prefix.or_top {t m : ℕ} (ht : t < 2 ^ (m + 1)) : t ||| 2 ^ m = 2 ^ m + t % 2 ^ m := by
  have hl := Nat.mod_lt t (Nat.two_pow_pos m)
  have e := Nat.two_pow_add_eq_or_of_lt hl 1
  rw [Nat.mul_one] at e
  rw [e]
  rw [pow_succ] at ht
  by_cases g : t < 2 ^ m
  · rw [Nat.mod_eq_of_lt g, Nat.or_comm]
  · have : t = 2 ^ m ||| t % 2 ^ m := by
      rw [← e, Nat.mod_eq_sub_mod (by omega), Nat.mod_eq_of_lt (by omega)]; omega
    rw [Nat.or_comm]
    conv_lhs => rw [this]
    rw [← Nat.or_assoc, Nat.or_self]

theorem Prefix.or_quiet {t m A : ℕ} (ht : t < 2 ^ (m + 1)) : (A * 2 ^ (m + 1) + t) ||| 2 ^ m = A * 2 ^ (m + 1) + (2 ^ m + t % 2 ^ m) := by
  have hl := Nat.mod_lt t (Nat.two_pow_pos m)
  have e1 := Nat.two_pow_add_eq_or_of_lt ht A
  have e2 := Nat.two_pow_add_eq_or_of_lt (i := m + 1) (b := 2 ^ m + t % 2 ^ m) (by rw [pow_succ]; omega) A
  rw [Nat.mul_comm A, e1, e2, Nat.or_assoc, Prefix.or_top ht]

/-- A quiet NaN's significand from its quiet bit and its payload. -/
theorem Prefix.quiet_sig {s m : ℕ} (hs : s < 2 ^ (m + 1)) (ht : s.testBit m = true) : s = 2 ^ m + s % 2 ^ m := by
  have := Nat.ge_two_pow_of_testBit ht
  rw [pow_succ] at hs
  rw [Nat.mod_eq_sub_mod (by omega), Nat.mod_eq_of_lt (by omega)]; omega

namespace Sem.Enc
variable (h : S.Enc) (hi : S.explicitIntBit = false) (hn : S.nonfinite = .ieee754)
include h hi hn

theorem nan_low {x : IeeeFloat S} (hx : x.Valid) (c : x.category = .nan) :
    x.low = (2 ^ S.expBits - 1) * 2 ^ (S.precision - 2 + 1) + x.sig ∧ x.sig < 2 ^ (S.precision - 2 + 1) := by
  have p3 := h.ok.p_ge
  rw [show S.precision - 2 + 1 = S.precision - 1 by omega]
  have hs : S.sigBits = S.precision - 1 := by simp [Sem.sigBits, hi]
  constructor
  · unfold IeeeFloat.low fieldE fieldT; simp only [c, hs]
  · unfold Valid at hx
    simp only [c, hn, hi, Bool.false_eq_true, if_false] at hx
    exact hx.2

end Sem.Enc

/-- **C102.** Narrowing a NaN to a prefix of its format drops the last `k` bits and sets the quiet bit. -/
theorem C102_narrow_nan {k : ℕ} (h : Sem.Prefix T S k) {x : IeeeFloat S} (hx : x.Valid) (hn : x.isNan = true) {b : ℕ}
    (hb : x.toBits = .ok b) (mode : Round) :
    ∃ c, convertR S T x mode = .ok c ∧ c.value.toBits = .ok (b / 2 ^ k ||| 2 ^ (T.precision - 2)) ∧
      c.status = (if x.isSignaling then Status.INVALID_OP else Status.OK) ∧ c.losesInfo = decide (b % 2 ^ k ≠ 0) := by
  have hS := h.encS.ok
  have hT := h.encT.ok
  have p3 := hT.p_ge
  have hp := h.prec
  have hk := h.pos
  have hK := Nat.two_pow_pos k
  have hbe : b = x.sign.toNat * 2 ^ (S.bits - 1) + x.low := by
    have := toBits_of h.encS hx
    rw [hb] at this; exact Except.ok.inj this
  have cx : x.category = .nan := by simpa [isNan] using hn
  obtain ⟨l1, l2⟩ := h.encS.nan_low h.intS h.nonfS hx cx
  obtain ⟨c, c1, c2, c3, c4, c5, c6, c7, c8⟩ := convertR_nan hS hT hx hn mode
  obtain ⟨t1, t2⟩ := c7 h.nonfS h.nonfT
  have cc : c.value.category = .nan := by simpa [isNan] using c3
  obtain ⟨m1, m2⟩ := h.encT.nan_low h.intT h.nonfT c2 cc
  have q := Prefix.quiet_sig m2 t1
  rw [t2, if_pos (by omega), show S.precision - T.precision = k by omega] at q
  have hsp : S.precision - 2 + 1 = k + (T.precision - 2 + 1) := by omega
  have hsp' : S.precision - 2 = k + (T.precision - 2) := by omega
  have hbt : T.bits - 1 = T.expBits + (T.precision - 2 + 1) := by
    have := h.encT.bits_eq; have := h.sigT; omega
  have e : b = x.sig + 2 ^ k * ((x.sign.toNat * 2 ^ T.expBits + (2 ^ T.expBits - 1)) * 2 ^ (T.precision - 2 + 1)) := by
    rw [hbe, l1, h.two_bits, h.exp, hsp, hbt, pow_add, pow_add]; ring
  have ed : b / 2 ^ k = (x.sign.toNat * 2 ^ T.expBits + (2 ^ T.expBits - 1)) * 2 ^ (T.precision - 2 + 1) + x.sig / 2 ^ k := by
    rw [e, Nat.add_mul_div_left _ _ hK, Nat.add_comm]
  have em : b % 2 ^ k = x.sig % 2 ^ k := by rw [e, Nat.add_mul_mod_self_left]
  refine ⟨c, c1, ?_, c6, ?_⟩
  · rw [toBits_of h.encT c2, m1, c5, ed, Prefix.or_quiet, q, hbt, hsp', pow_add 2 k, Nat.mod_mul_right_div_self, pow_add 2 T.expBits]
    · congr 1; ring
    · rw [Nat.div_lt_iff_lt_mul hK, ← pow_add, Nat.add_comm, ← hsp]; exact l2
  · rw [em]
    have : c.losesInfo = true ↔ x.sig % 2 ^ k ≠ 0 := by
      rw [c8, show S.precision - T.precision = k by omega, Nat.dvd_iff_mod_eq_zero]
      simp only [h.nonfS, h.nonfT, h.intS, Bool.false_eq_true, false_and, or_false, reduceCtorEq, false_or, true_and]
      constructor
      · exact fun g => g.2
      · exact fun g => ⟨by omega, g⟩
    cases g : c.losesInfo
    · rw [g] at this; simp at this; simp [this]
    · simp [this.1 g]

/-- **C102.** Widening a NaN to a format it is a prefix of appends `k` zero bits and sets the quiet bit. -/
theorem C102_widen_nan {k : ℕ} (h : Sem.Prefix T S k) {x : IeeeFloat T} (hx : x.Valid) (hn : x.isNan = true) {b : ℕ}
    (hb : x.toBits = .ok b) (mode : Round) :
    ∃ c, convertR T S x mode = .ok c ∧ c.value.toBits = .ok (b * 2 ^ k ||| 2 ^ (S.precision - 2)) ∧
      c.status = (if x.isSignaling then Status.INVALID_OP else Status.OK) ∧ c.losesInfo = false := by
  have hS := h.encS.ok
  have hT := h.encT.ok
  have p3 := hT.p_ge
  have hp := h.prec
  have hk := h.pos
  have hK := Nat.two_pow_pos k
  have hbe : b = x.sign.toNat * 2 ^ (T.bits - 1) + x.low := by
    have := toBits_of h.encT hx
    rw [hb] at this; exact Except.ok.inj this
  have cx : x.category = .nan := by simpa [isNan] using hn
  obtain ⟨l1, l2⟩ := h.encT.nan_low h.intT h.nonfT hx cx
  obtain ⟨c, c1, c2, c3, c4, c5, c6, c7, c8⟩ := convertR_nan hT hS hx hn mode
  obtain ⟨t1, t2⟩ := c7 h.nonfT h.nonfS
  have cc : c.value.category = .nan := by simpa [isNan] using c3
  obtain ⟨m1, m2⟩ := h.encS.nan_low h.intS h.nonfS c2 cc
  have q := Prefix.quiet_sig m2 t1
  rw [t2, if_neg (by omega), show S.precision - T.precision = k by omega] at q
  have hsp : S.precision - 2 + 1 = T.precision - 2 + 1 + k := by omega
  have hsp' : S.precision - 2 = T.precision - 2 + k := by omega
  have hbt : T.bits - 1 = T.expBits + (T.precision - 2 + 1) := by
    have := h.encT.bits_eq; have := h.sigT; omega
  have e : b * 2 ^ k = (x.sign.toNat * 2 ^ T.expBits + (2 ^ T.expBits - 1)) * 2 ^ (S.precision - 2 + 1) + x.sig * 2 ^ k := by
    rw [hbe, l1, hsp, hbt, pow_add 2 T.expBits, pow_add 2 (T.precision - 2 + 1) k]; ring
  have hlt : x.sig * 2 ^ k < 2 ^ (S.precision - 2 + 1) := by
    rw [hsp, pow_add]; exact Nat.mul_lt_mul_of_pos_right l2 hK
  have hmm : x.sig * 2 ^ k % 2 ^ (S.precision - 2) = x.sig % 2 ^ (T.precision - 2) * 2 ^ k := by
    rw [hsp', pow_add, Nat.mul_mod_mul_right]
  refine ⟨c, c1, ?_, c6, ?_⟩
  · rw [toBits_of h.encS c2, m1, c5, e, Prefix.or_quiet hlt, q, hmm, h.two_bits, h.exp, hbt]
    congr 1
    rw [hsp, pow_add 2 T.expBits, pow_add 2 (T.precision - 2 + 1) k]; ring
  · cases g : c.losesInfo
    · rfl
    · exfalso
      obtain ⟨-, g | g | g⟩ := c8.1 g
      · rw [h.nonfS] at g; cases g
      · omega
      · rw [h.intT] at g; cases g.1

example := C102_narrow_nan bfloat_prefix (x := ⟨1, 0, .nan, true⟩) (by decide) rfl (b := 0xff800001) (by decide +kernel) .towardZero
example : (0xff800001 / 2 ^ 16 ||| 2 ^ 6 : ℕ) = 0xffc0 := by decide +kernel
example := C102_widen_nan float8E5M2_prefix (x := ⟨1, 0, .nan, false⟩) (by decide) rfl (b := 0x7d) (by decide +kernel) .towardZero
example : (0x7d * 2 ^ 8 ||| 2 ^ 9 : ℕ) = 0x7f00 := by decide +kernel

end Apf
