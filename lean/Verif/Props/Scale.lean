import Verif.Props.Next
import Mathlib.Data.Nat.Prime.Basic
/-! # C25 to C28: `scalbn`, `ilogb`, `frexp`, `get_exact_inverse` -/

namespace Apf
open Spec IeeeFloat

variable {S : Sem}

/-! ## Magnitudes -/

theorem abs_toRat {x : IeeeFloat S} (cx : x.category = .normal) :
    |x.toRat| = (x.sig : ℚ) * 2 ^ (x.exp - S.precision + 1) := by
  rw [toRat_normal cx, abs_signed _ (by positivity)]

theorem mag_ge_pow (h : S.OK) {x : IeeeFloat S} (hs : 2 ^ (S.precision - 1) ≤ x.sig) :
    (2 : ℚ) ^ x.exp ≤ (x.sig : ℚ) * 2 ^ (x.exp - S.precision + 1) := by
  rw [← pow_half h x.exp]
  exact mul_le_mul_of_nonneg_right (by exact_mod_cast hs) (two_zpow_pos _).le

theorem zpow_two_inj {a b : ℤ} (h1 : (2 : ℚ) ^ a < 2 ^ (b + 1)) (h2 : (2 : ℚ) ^ b < 2 ^ (a + 1)) : a = b := by
  have h1' := (zpow_lt_zpow_iff_right₀ (a := (2 : ℚ)) (by norm_num)).1 h1
  have h2' := (zpow_lt_zpow_iff_right₀ (a := (2 : ℚ)) (by norm_num)).1 h2
  omega

theorem isDenormal_iff (h : S.OK) {x : IeeeFloat S} (hx : x.Valid) (cx : x.category = .normal) :
    x.isDenormal = decide (x.sig < 2 ^ (S.precision - 1)) := by
  obtain ⟨x1, x2, x3, x4, x5, x6⟩ := Valid.normal hx cx
  unfold isDenormal
  rw [isFiniteNonZero_of cx, testBit_top_iff h x4]
  by_cases c : 2 ^ (S.precision - 1) ≤ x.sig
  · simp [c, Nat.not_lt.2 c]
  · simp [c, x5.resolve_left c, Nat.lt_of_not_le c]

/-- An exact, in-range delivery is the value itself. -/
theorem good_exact {mode : Round} {v : ℚ} {s : Bool} {res : M (StatusAnd (IeeeFloat S))} (hg : Good S mode v s res)
    (hv : S.fmt.Grid v) (hl : |v| ≤ S.fmt.largest) :
    ∃ r, res = .ok ⟨Status.OK, r⟩ ∧ r.Valid ∧ r.sign = s ∧ r.isFinite = true ∧ r.toRat = v := by
  obtain ⟨⟨st, r⟩, h1, h2, h3, g, g1, g2⟩ := hg
  have : g = v := g1.unique (isRounded_self mode hv)
  subst this
  simp only at h2 h3 g2
  rcases g2 with ⟨-, a, b⟩ | ⟨a, -⟩
  · have hst : st = Status.OK := by simp [b, Status.OK]
    subst hst
    refine ⟨r, h1, h2, h3, ?_, ?_⟩
    · unfold datum at a
      rw [isFinite_iff]
      cases c : r.category <;> simp [c] at a ⊢
    · unfold datum at a
      cases c : r.category <;> simp only [c, reduceCtorEq, Datum.num.injEq] at a
      · exact a.2
      · rw [toRat_zero c]; exact a.2
  · exact absurd hl (not_le.2 a)

/-- Scaling keeps a value on the grid as long as it does not fall below the normal range. -/
theorem grid_scale {F : Fmt} {v : ℚ} (hv : F.Grid v) {n : ℤ} (hn : (2 : ℚ) ^ F.emin ≤ |v * 2 ^ n|) : F.Grid (v * 2 ^ n) := by
  obtain ⟨m, k, h1, h2, rfl⟩ := hv
  refine ⟨m, k + n, h1, ?_, by rw [two_zpow_add k n, mul_assoc]⟩
  by_contra hc
  have e1 : |(m : ℚ) * 2 ^ k * 2 ^ n| = |(m : ℚ)| * 2 ^ (k + n) := by
    rw [abs_mul, abs_mul, abs_of_pos (two_zpow_pos k), abs_of_pos (two_zpow_pos n), two_zpow_add k n, mul_assoc]
  have e2 : |(m : ℚ)| < 2 ^ (F.p : ℤ) := by rw [zpow_natCast]; exact_mod_cast h1
  have e3 : |(m : ℚ)| * 2 ^ (k + n) < 2 ^ (F.p : ℤ) * 2 ^ (F.emin - F.p) :=
    mul_lt_mul e2 (two_zpow_le (by omega)) (two_zpow_pos _) (two_zpow_pos _).le
  rw [← two_zpow_add (F.p : ℤ) (F.emin - F.p), show (F.p : ℤ) + (F.emin - F.p) = F.emin by ring] at e3
  rw [e1] at hn
  exact absurd hn (not_le.2 e3)

/-! ## C26 -/

/-- **C26.** `ilogb` of a finite non-zero value, subnormals included, is the exponent of the binade it lies in. -/
theorem C26_ilogb (h : S.OK) {x : IeeeFloat S} (hx : x.Valid) (fx : x.isFinite = true) (h0 : x.toRat ≠ 0) :
    ∃ e, ilogb x = .ok e ∧ (2 : ℚ) ^ e ≤ |x.toRat| ∧ |x.toRat| < 2 ^ (e + 1) := by
  have h3 := h.p_ge; have hp := h.p_le; have hple := h.pow_le; have h2 := h.two_pow
  have hmin := h.min_lt; have hmin' := h.min_ge; have hmax := h.max_le; have hpm := h.p_max
  have cx : x.category = .normal := by
    rcases isFinite_iff.1 fx with c | c
    · exact c
    · exact absurd (toRat_zero c) h0
  obtain ⟨x1, x2, x3, x4, x5, x6⟩ := Valid.normal hx cx
  rw [abs_toRat cx]
  unfold ilogb isNan isZero isInfinite
  simp only [cx, reduceCtorEq, decide_false, beq_iff_eq, Bool.false_eq_true, if_false]
  rw [isDenormal_iff h hx cx]
  by_cases c : x.sig < 2 ^ (S.precision - 1)
  · simp only [c, decide_true, Bool.not_true, Bool.false_eq_true, if_false]
    have xe : x.exp = S.minExp := x5.resolve_left (by omega)
    rw [asI32_of_lt (by omega), i32_ok (by omega) (by omega), M.ok_bind]
    have hd : (x.sig : ℚ) * 2 ^ (x.exp + ((S.precision - 1 : ℕ) : ℤ) - S.precision + 1) = (x.sig : ℚ) * 2 ^ S.minExp := by
      rw [xe]; congr 2; omega
    have hsig : (x.sig : ℚ) < 2 ^ ((S.precision : ℤ) - 1) := by
      rw [show (S.precision : ℤ) - 1 = ((S.precision - 1 : ℕ) : ℤ) by omega, zpow_natCast]; exact_mod_cast c
    have hub : (x.sig : ℚ) * 2 ^ S.minExp < 2 ^ (S.minExp + (S.precision : ℤ) - 1) := by
      rw [show S.minExp + (S.precision : ℤ) - 1 = ((S.precision : ℤ) - 1) + S.minExp by ring, two_zpow_add ((S.precision : ℤ) - 1)]
      exact mul_lt_mul_of_pos_right hsig (two_zpow_pos _)
    have hlb : (2 : ℚ) ^ S.minExp ≤ (x.sig : ℚ) * 2 ^ S.minExp :=
      le_mul_of_one_le_left (two_zpow_pos _).le (by exact_mod_cast x3)
    have hgrid : S.fmt.Grid ((x.sig : ℚ) * 2 ^ S.minExp) :=
      ⟨x.sig, S.minExp, by rw [abs_of_nonneg (by positivity), fmt_p]; exact_mod_cast x4, by rw [fmt_emin, fmt_p]; omega, by push_cast; rfl⟩
    have hlar : (x.sig : ℚ) * 2 ^ S.minExp ≤ S.fmt.largest := by
      refine hub.le.trans ((two_zpow_le (by omega)).trans (le_largest h (n := 2 ^ (S.precision - 1)) (e := S.maxExp) (by omega) (le_refl _) ?_ |>.trans' (pow_half h S.maxExp).ge))
      intro _ _
      have : 4 ≤ 2 ^ (S.precision - 1) := by
        calc 4 = 2 ^ 2 := rfl
          _ ≤ _ := Nat.pow_le_pow_right (by norm_num) (by omega)
      omega
    have hvg : S.fmt.Grid (signed x.sign ((x.sig : ℚ) * 2 ^ S.minExp)) := grid_signed.2 hgrid
    have hvl : |signed x.sign ((x.sig : ℚ) * 2 ^ S.minExp)| ≤ S.fmt.largest := by rwa [abs_signed _ (by positivity)]
    have hg := normalize_good' (S := S) h (x := { x with exp := x.exp + ((S.precision - 1 : ℕ) : ℤ) }) cx (mode := .nearestTiesToEven) (f := 0)
      (by show x.sig < _; omega) (by show -1200000000 ≤ x.exp + _; omega) (by show x.exp + _ ≤ 1200000000; omega) (show LossIs .exactlyZero 0 from rfl)
      (fun e => absurd rfl e) (v := signed x.sign ((x.sig : ℚ) * 2 ^ S.minExp))
      (by show _ = signed x.sign (((x.sig : ℚ) + 0) * 2 ^ ((if x.sig = 0 then S.minExp else x.exp + ((S.precision - 1 : ℕ) : ℤ)) - S.precision + 1))
          rw [if_neg (by omega), add_zero, hd])
      (directedOK_of_mode _ (by decide) (by decide) _)
    obtain ⟨r, r1, r2, r3, r4, r5⟩ := good_exact hg hvg hvl
    have cr : r.category = .normal := by
      rcases isFinite_iff.1 r4 with c | c
      · exact c
      · rw [toRat_zero c] at r5
        have := signed_eq_zero.1 r5.symm
        rw [this] at hlb
        exact absurd hlb (not_le.2 (two_zpow_pos _))
    have hr : (r.sig : ℚ) * 2 ^ (r.exp - S.precision + 1) = (x.sig : ℚ) * 2 ^ S.minExp := by
      rw [← abs_toRat cr, r5, abs_signed _ (by positivity)]
    obtain ⟨v1, v2, v3, v4, v5, v6⟩ := Valid.normal r2 cr
    have hrs : 2 ^ (S.precision - 1) ≤ r.sig := by
      by_contra hc
      have e : r.exp = S.minExp := v5.resolve_left hc
      rw [e] at hr
      have : (r.sig : ℚ) * 2 ^ (S.minExp - S.precision + 1) < (2 ^ (S.precision - 1) : ℕ) * 2 ^ (S.minExp - S.precision + 1) :=
        mul_lt_mul_of_pos_right (by exact_mod_cast Nat.lt_of_not_le hc) (two_zpow_pos _)
      rw [pow_half h, hr] at this
      linarith
    rw [cx] at r1
    rw [r1, M.ok_bind]
    simp only
    rw [i32_ok (by omega) (by omega)]
    have key : (x.sig : ℚ) * 2 ^ (x.exp - S.precision + 1) =
        (r.sig : ℚ) * 2 ^ (r.exp - S.precision + 1) * 2 ^ (1 - (S.precision : ℤ)) := by
      rw [hr, xe, mul_assoc, ← two_zpow_add S.minExp (1 - (S.precision : ℤ))]; congr 2; ring
    refine ⟨_, rfl, ?_, ?_⟩
    · rw [key, show r.exp - ((S.precision - 1 : ℕ) : ℤ) = r.exp + (1 - (S.precision : ℤ)) by omega, two_zpow_add r.exp (1 - (S.precision : ℤ))]
      exact mul_le_mul_of_nonneg_right (mag_ge_pow h hrs) (two_zpow_pos _).le
    · rw [key, show r.exp - ((S.precision - 1 : ℕ) : ℤ) + 1 = (r.exp + 1) + (1 - (S.precision : ℤ)) by omega,
        two_zpow_add (r.exp + 1) (1 - (S.precision : ℤ))]
      exact mul_lt_mul_of_pos_right (mag_lt_pow h r2 cr) (two_zpow_pos _)
  · simp only [c, decide_false, Bool.not_false, if_true]
    exact ⟨_, rfl, mag_ge_pow h (Nat.le_of_not_lt c), mag_lt_pow h hx cx⟩

example := C26_ilogb singleS_ok (x := ⟨1, -126, .normal, true⟩) (by decide) rfl (by decide +kernel)

/-- The bounds of C26 determine the exponent. -/
theorem ilogb_unique {v : ℚ} {a b : ℤ} (a1 : (2 : ℚ) ^ a ≤ v) (a2 : v < 2 ^ (a + 1)) (b1 : (2 : ℚ) ^ b ≤ v)
    (b2 : v < 2 ^ (b + 1)) : a = b := zpow_two_inj (a1.trans_lt b2) (b1.trans_lt a2)

/-- **C26.** The other operands give the three reserved results, whatever their sign and payload. -/
theorem C26_specials {x : IeeeFloat S} :
    (x.isNan = true → ilogb x = .ok (-2147483648)) ∧ (x.isZero = true → ilogb x = .ok (-2147483647)) ∧
    (x.isInfinite = true → ilogb x = .ok 2147483647) := by
  unfold ilogb isNan isZero isInfinite
  refine ⟨fun c => ?_, fun c => ?_, fun c => ?_⟩ <;> simp only [beq_iff_eq] at c <;> simp [c, iekNan, iekZero, iekInf]

/-- The smallest subnormal of `Single` is `2^-149`. -/
example : ilogb (SMALLEST singleS) = .ok (-149) := by decide +kernel

/-! ## C25 -/

theorem grid_pow_max (h : S.OK) : S.fmt.Grid (2 ^ (S.maxExp + 1)) := by
  rw [← pow_full h S.maxExp]
  exact grid_mk (F := S.fmt) (by have := h.p_ge; rw [fmt_p]; omega) (le_refl _) (by
    have := h.min_lt; have := h.p_max; rw [fmt_emin]; omega)

/-- All values beyond the overflow threshold are delivered alike. -/
theorem Spec.Delivers.of_big (h : S.OK) {mode : Round} {s : Bool} {m m' : ℚ} {d : Datum} {st : Status}
    (hd : Delivers S.fmt mode (signed s m') s d st) (hm : (2 : ℚ) ^ (S.maxExp + 1) ≤ m)
    (hm' : (2 : ℚ) ^ (S.maxExp + 1) ≤ m') : Delivers S.fmt mode (signed s m) s d st := by
  have hgr := grid_pow_max h
  have hfull := full_gt h
  have big : ∀ {w g : ℚ}, (2 : ℚ) ^ (S.maxExp + 1) ≤ w → IsRounded S.fmt mode (signed s w) g → S.fmt.largest < |g| := by
    intro w g hw hg
    refine hfull.trans_le ?_
    cases s
    · exact (hg.ge_of_grid hgr hw).trans (le_abs_self g)
    · have := hg.le_of_grid (Fmt.Grid.neg hgr) (show signed true w ≤ _ by simp only [signed, if_true]; linarith)
      exact (le_neg.1 this).trans (neg_le_abs g)
  obtain ⟨g', g1, g2⟩ := hd
  obtain ⟨g, hg⟩ := exists_rounded (F := S.fmt) (by have := h.p_ge; rw [fmt_p]; omega) mode (signed s m)
  refine ⟨g, hg, Or.inr ⟨big hm hg, ?_⟩⟩
  rcases g2 with ⟨a, -⟩ | ⟨-, a⟩
  · exact absurd a (not_le.2 (big hm' g1))
  · exact a

/-- All non-zero values below half the smallest positive value are delivered alike. -/
theorem Spec.Delivers.of_tiny (h : S.OK) {mode : Round} {s : Bool} {m m' : ℚ} {d : Datum} {st : Status}
    (hd : Delivers S.fmt mode (signed s m') s d st) (m0 : 0 < m) (hm : m < 2 ^ (S.minExp - S.precision))
    (m0' : 0 < m') (hm' : m' < 2 ^ (S.minExp - S.precision)) : Delivers S.fmt mode (signed s m) s d st := by
  have h3 := h.p_ge
  set u : ℚ := 2 ^ (S.minExp - S.precision + 1) with hu
  have u0 : 0 < u := two_zpow_pos _
  have hu2 : (2 : ℚ) ^ (S.minExp - S.precision) = u / 2 := by
    rw [hu, two_zpow_add (S.minExp - S.precision) 1, zpow_one]; ring
  rw [hu2] at hm hm'
  have key : ∀ {w : ℚ}, 0 < w → w < u / 2 → IsRounded S.fmt (mode.negateIf s) w (if awayB mode s .lessThanHalf false then u else 0) := by
    intro w w0 w1
    have := awayB_rounded (F := S.fmt) (by rw [fmt_p]; omega) (n := 0) (e := S.minExp) (Nat.two_pow_pos _) (le_refl _) (Or.inr rfl)
      (loss := .lessThanHalf) (f := w / u) ⟨div_pos w0 u0, by rw [div_lt_iff₀ u0]; linarith⟩ (by decide) mode s
    rw [fmt_p, ← hu] at this
    simp only [Nat.cast_zero, zero_add, Nat.cast_one, one_mul, zero_mul, Nat.zero_mod, zero_ne_one, decide_false] at this
    rwa [div_mul_cancel₀ _ u0.ne'] at this
  have ne : ∀ {w : ℚ}, 0 < w → w < u / 2 → (if awayB mode s .lessThanHalf false then u else 0) ≠ w := by
    intro w w0 w1
    split_ifs
    · intro e; rw [← e] at w1; linarith
    · exact w0.ne
  obtain ⟨g', g1, g2⟩ := hd
  have e := g1.unique (IsRounded.signed (key m0' hm'))
  refine ⟨g', e ▸ IsRounded.signed (key m0 hm), ?_⟩
  rcases g2 with ⟨a, b, c⟩ | a
  · refine Or.inl ⟨a, b, ?_⟩
    rw [c]
    have n1 : g' ≠ signed s m := by rw [e]; exact fun e => ne m0 hm (signed_inj.1 e)
    have n2 : g' ≠ signed s m' := by rw [e]; exact fun e => ne m0' hm' (signed_inj.1 e)
    simp [n1, n2]
  · exact Or.inr a

theorem delivers_zero (h : S.OK) (mode : Round) (s : Bool) : Delivers S.fmt mode 0 s (.num s 0) Status.OK := by
  refine ⟨0, isRounded_self mode grid_zero, Or.inl ⟨?_, rfl, ?_⟩⟩
  · rw [abs_zero]; exact (largest_pos h).le
  · simp [Status.OK]

/-- A magnitude of `2^(maxExp+1)` or more is outside the excluded case. -/
theorem directedOK_of_big (h : S.OK) (mode : Round) {s : Bool} {q : ℚ} (hq : (2 : ℚ) ^ (S.maxExp + 1) ≤ q) :
    DirectedOK S mode (signed s q) := by
  have h3 := h.p_ge
  have hpos := largest_pos h
  have h0 : (0 : ℚ) < q := (two_zpow_pos _).trans_le hq
  intro _
  cases s
  · refine ⟨fun _ e => ?_, fun _ e => ?_⟩
    · have hp : (0 : ℚ) < ((2 ^ S.precision - 1 : ℕ) : ℚ) * 2 ^ (S.maxExp - S.precision + 1) := by
        have : 0 < 2 ^ S.precision - 1 := by have := Nat.one_lt_two_pow (n := S.precision) (by omega); omega
        exact mul_pos (by exact_mod_cast this) (two_zpow_pos _)
      simp only [signed, Bool.false_eq_true, if_false] at e
      linarith
    · simp only [signed, Bool.false_eq_true, if_false] at e
      linarith
  · have : signed true q ≤ -2 ^ (S.maxExp + 1) := by simp only [signed, if_true]; linarith
    exact ⟨fun _ _ => this, fun _ _ => this⟩

/-- `scalbn_r` of a finite value, in the mode the code effectively rounds in. -/
theorem scalbnR_eff (h : S.OK) {x : IeeeFloat S} (hx : x.Valid) (fx : x.isFinite = true) (n : ℤ) (mode : Round)
    {om : Round} (hO : Effective S mode (x.toRat * 2 ^ n) om) :
    ∃ r st, scalbnR x n mode = .ok r ∧ r.Valid ∧ r.sign = x.sign ∧ Rounds S om (x.toRat * 2 ^ n) x.sign ⟨st, r⟩ := by
  have h3 := h.p_ge; have hp := h.p_le; have hple := h.pow_le; have h2 := h.two_pow
  have hmin := h.min_lt; have hmin' := h.min_ge; have hmax := h.max_le; have hpm := h.p_max
  unfold scalbnR
  rw [asI32_of_lt (by omega)]
  dsimp only
  rw [i32_ok (by omega) (by omega), M.ok_bind, i32_ok (by omega) (by omega), M.ok_bind,
    i32_ok (by omega) (by omega), M.ok_bind, i32_ok (by omega) (by omega), M.ok_bind]
  generalize hA : S.maxExp - (S.minExp - ((S.precision - 1 : ℕ) : ℤ)) + 1 = A
  generalize hc : Min.min (Max.max n (-A - 1)) A = c
  have c1 : -A - 1 ≤ c := by omega
  have c2 : c ≤ A := by omega
  rcases isFinite_iff.1 fx with cx | cx
  · obtain ⟨x1, x2, x3, x4, x5, x6⟩ := Valid.normal hx cx
    rw [sat32_of (by omega) (by omega)]
    have hm0 := toRat_pos_of_normal hx cx
    have hlt := mag_lt_pow h hx cx
    have hge : (2 : ℚ) ^ (S.minExp - S.precision + 1) ≤ (x.sig : ℚ) * 2 ^ (x.exp - S.precision + 1) := by
      calc (2 : ℚ) ^ (S.minExp - S.precision + 1) ≤ 2 ^ (x.exp - S.precision + 1) := two_zpow_le (by omega)
        _ ≤ _ := le_mul_of_one_le_left (two_zpow_pos _).le (by exact_mod_cast x3)
    have e0 : (x.sig : ℚ) * 2 ^ (x.exp + c - S.precision + 1) = (x.sig : ℚ) * 2 ^ (x.exp - S.precision + 1) * 2 ^ c := by
      rw [mul_assoc, ← two_zpow_add (x.exp - S.precision + 1) c]; congr 2; ring
    have e1 : x.toRat * 2 ^ n = signed x.sign ((x.sig : ℚ) * 2 ^ (x.exp - S.precision + 1) * 2 ^ n) := by
      rw [toRat_normal cx]; cases x.sign <;> simp [signed]
    rw [e1] at hO ⊢
    generalize hm : (x.sig : ℚ) * 2 ^ (x.exp - S.precision + 1) = m at *
    -- how the clamped exponent compares
    have big : A < n → (2 : ℚ) ^ (S.maxExp + 1) ≤ m * 2 ^ n ∧ (2 : ℚ) ^ (S.maxExp + 1) ≤ m * 2 ^ c := by
      intro hn
      have e : c = A := by omega
      have : ∀ k : ℤ, A ≤ k → (2 : ℚ) ^ (S.maxExp + 1) ≤ m * 2 ^ k := by
        intro k hk
        calc (2 : ℚ) ^ (S.maxExp + 1) = 2 ^ (S.minExp - S.precision + 1) * 2 ^ A := by
              rw [← two_zpow_add]; congr 1; omega
          _ ≤ m * 2 ^ k := mul_le_mul hge (two_zpow_le hk) (two_zpow_pos _).le hm0.le
      exact ⟨this n hn.le, this c e.ge⟩
    have tiny : n < -A - 1 → m * 2 ^ n < (2 : ℚ) ^ (S.minExp - S.precision) ∧ m * 2 ^ c < (2 : ℚ) ^ (S.minExp - S.precision) := by
      intro hn
      have e : c = -A - 1 := by omega
      have : ∀ k : ℤ, k ≤ -A - 1 → m * 2 ^ k < (2 : ℚ) ^ (S.minExp - S.precision) := by
        intro k hk
        calc m * 2 ^ k < 2 ^ (S.maxExp + 1) * 2 ^ (-A - 1) :=
              mul_lt_mul (hlt.trans_le (two_zpow_le (by omega))) (two_zpow_le hk) (two_zpow_pos _) (two_zpow_pos _).le
          _ = (2 : ℚ) ^ (S.minExp - S.precision) := by rw [← two_zpow_add]; congr 1; omega
      exact ⟨this n hn.le, this c e.le⟩
    have hO' : Effective S mode (signed x.sign (m * 2 ^ c)) om := by
      rcases lt_trichotomy c n with d | d | d
      · have := big (by omega)
        rw [hO.eq (directedOK_of_big h mode this.1)]
        exact .of (directedOK_of_big h mode this.2)
      · rwa [d]
      · have := tiny (by omega)
        have low : ∀ q : ℚ, 0 ≤ q → q < 2 ^ (S.minExp - S.precision) → DirectedOK S mode (signed x.sign q) := by
          intro q h0 hq
          apply directedOK_of_ge h
          have hl : q ≤ S.fmt.largest := hq.le.trans ((two_zpow_le (by omega)).trans (smallestNormal_le_largest h))
          have := abs_le.1 ((abs_signed x.sign h0).le)
          linarith [this.1]
        rw [hO.eq (low _ (mul_nonneg hm0.le (two_zpow_pos _).le) this.1)]
        exact .of (low _ (mul_nonneg hm0.le (two_zpow_pos _).le) this.2)
    have hg := normalize_eff' (S := S) h (x := { x with exp := x.exp + c }) cx (mode := mode) (f := 0)
      (by show x.sig < _; omega) (by show -1200000000 ≤ x.exp + _; omega) (by show x.exp + _ ≤ 1200000000; omega) (show LossIs .exactlyZero 0 from rfl)
      (fun e => absurd rfl e) (v := signed x.sign (m * 2 ^ c))
      (by show _ = signed x.sign (((x.sig : ℚ) + 0) * 2 ^ ((if x.sig = 0 then S.minExp else x.exp + c) - S.precision + 1))
          rw [if_neg (by omega), add_zero, e0]) hO'
    obtain ⟨⟨st, r⟩, r1, r2, r3, r4⟩ := hg
    simp only at r2 r3 r4
    have hn0 : 0 < m * 2 ^ n := mul_pos hm0 (two_zpow_pos _)
    have hc0 : 0 < m * 2 ^ c := mul_pos hm0 (two_zpow_pos _)
    have hD : Delivers S.fmt om (signed x.sign (m * 2 ^ n)) x.sign r.datum st := by
      rcases lt_trichotomy c n with d | d | d
      · have := big (by omega)
        exact r4.of_big h this.1 this.2
      · rwa [← d]
      · have := tiny (by omega)
        exact r4.of_tiny h hn0 this.1 hc0 this.2
    have hSR : SignRule (signed x.sign (m * 2 ^ n)) x.sign x.sign := by
      refine ⟨fun e => ?_, fun e => ?_, fun _ => rfl⟩ <;> cases hs : x.sign <;> simp only [hs, signed, if_true, Bool.false_eq_true, if_false] at e
      · rfl
      · linarith
      · linarith
      · rfl
    rw [r1, M.ok_bind]
    simp only
    by_cases hn : r.isNan = true
    · rw [if_pos hn]
      have cr : r.category = .nan := by simpa [isNan] using hn
      obtain ⟨q, q1, q2, q3, q4, -⟩ := resultFromNan_ok h r2 cr
      rw [q1]
      have hdat : q.datum = r.datum := by unfold datum; rw [q3, cr]
      refine ⟨q, st, rfl, q2, q4.trans r3, ?_, ?_⟩
      · show Delivers _ _ _ q.sign q.datum st
        rw [hdat, q4, r3]; exact hD
      · show SignRule _ _ q.sign
        rw [q4, r3]; exact hSR
    · rw [if_neg hn]
      refine ⟨r, st, rfl, r2, r3, ?_, ?_⟩
      · show Delivers _ _ _ r.sign r.datum st
        rw [r3]; exact hD
      · show SignRule _ _ r.sign
        rw [r3]; exact hSR
  · have e : ({ x with exp := sat32 (x.exp + c) } : IeeeFloat S).normalize mode .exactlyZero =
        .ok ⟨Status.OK, { x with exp := sat32 (x.exp + c) }⟩ := by
      unfold normalize isFiniteNonZero isFinite isNan isInfinite isZero
      simp [cx, Status.and]
    rw [e, M.ok_bind, toRat_zero cx, zero_mul]
    simp only [isNan, cx]
    refine ⟨_, Status.OK, rfl, ?_, rfl, delivers_zero h om x.sign, ?_⟩
    · unfold Valid at hx ⊢
      rw [cx] at hx
      exact hx
    · exact ⟨fun a => absurd a (lt_irrefl _), fun a => absurd a (lt_irrefl _), fun _ => rfl⟩

/-- **C25.** `scalbn_r` is the correctly rounded `x * 2^n`, for every finite `x` and every `n` whatsoever (the code's
argument is an `i32`); the sign bit is that of `x`. -/
theorem C25_scalbn (h : S.OK) {x : IeeeFloat S} (hx : x.Valid) (fx : x.isFinite = true) (n : ℤ) (mode : Round)
    (hO : DirectedOK S mode (x.toRat * 2 ^ n)) :
    ∃ r st, scalbnR x n mode = .ok r ∧ r.Valid ∧ r.sign = x.sign ∧ Rounds S mode (x.toRat * 2 ^ n) x.sign ⟨st, r⟩ :=
  scalbnR_eff h hx fx n mode (.of hO)

/-- **C25.** Infinities are unchanged and NaNs quieted. -/
theorem C25_specials (h : S.OK) {x : IeeeFloat S} (hx : x.Valid) (n : ℤ) (mode : Round) :
    (x.isInfinite = true → ∃ r, scalbnR x n mode = .ok r ∧ r.Valid ∧ r.datum = x.datum) ∧
    (x.isNan = true → ∃ r, scalbnR x n mode = .ok r ∧ r.Valid ∧ IsQuieted x r) := by
  have h3 := h.p_ge; have hp := h.p_le
  have hmin := h.min_lt; have hmin' := h.min_ge; have hmax := h.max_le; have hpm := h.p_max
  unfold scalbnR
  rw [asI32_of_lt (by omega)]
  dsimp only
  rw [i32_ok (by omega) (by omega), M.ok_bind, i32_ok (by omega) (by omega), M.ok_bind,
    i32_ok (by omega) (by omega), M.ok_bind, i32_ok (by omega) (by omega), M.ok_bind]
  generalize hA : S.maxExp - (S.minExp - ((S.precision - 1 : ℕ) : ℤ)) + 1 = A
  generalize hc : Min.min (Max.max n (-A - 1)) A = c
  have key : x.category ≠ .normal → ({ x with exp := sat32 (x.exp + c) } : IeeeFloat S).normalize mode .exactlyZero =
        .ok ⟨Status.OK, { x with exp := sat32 (x.exp + c) }⟩ := by
    intro cx
    unfold normalize isFiniteNonZero isFinite isNan isInfinite isZero
    cases e : x.category <;> simp_all [Status.and]
  constructor
  · intro cx
    have cx : x.category = .infinity := by simpa [isInfinite] using cx
    rw [key (by simp [cx]), M.ok_bind]
    simp only [isNan, cx]
    refine ⟨_, rfl, ?_, ?_⟩
    · unfold Valid at hx ⊢
      rw [cx] at hx
      exact hx
    · unfold datum; rw [cx]
  · intro cx
    have cx : x.category = .nan := by simpa [isNan] using cx
    rw [key (by simp [cx]), M.ok_bind]
    rw [if_pos (by simp [isNan, cx])]
    have hv : ({ x with exp := sat32 (x.exp + c) } : IeeeFloat S).Valid := by
      unfold Valid at hx ⊢
      rw [cx] at hx
      simp only [cx]
      exact hx
    obtain ⟨r, r1, r2, r3⟩ := resultFromNan_ok h hv cx
    dsimp only
    rw [r1]
    exact ⟨r, rfl, r2, r3⟩

/-- Halving the smallest subnormal of `Single` is a tie and goes to zero. -/
example : ∃ r, scalbnR (SMALLEST singleS) (-1) .nearestTiesToEven = .ok r ∧ r.category = .zero := ⟨_, rfl, by decide +kernel⟩

example : ∃ r st, scalbnR (SMALLEST singleS) 2147483647 .towardZero = .ok r ∧ r.Valid ∧ r.sign = false ∧
    Rounds singleS .towardZero ((SMALLEST singleS).toRat * 2 ^ (2147483647 : ℤ)) false ⟨st, r⟩ :=
  C25_scalbn singleS_ok (by decide +kernel) rfl _ _ (directedOK_of_ieee rfl _ _)

/-! ## C27 -/

/-- **C27.** `frexp_r` splits a finite non-zero value exactly, whatever the rounding mode. -/
theorem C27_frexp (h : S.OK) {x : IeeeFloat S} (hx : x.Valid) (fx : x.isFinite = true) (h0 : x.toRat ≠ 0) (mode : Round) :
    ∃ f e, frexpR x mode = .ok (f, e) ∧ f.Valid ∧ f.isFinite = true ∧ x.toRat = f.toRat * 2 ^ e ∧
      1 / 2 ≤ |f.toRat| ∧ |f.toRat| < 1 := by
  have h3 := h.p_ge; have hp := h.p_le
  have hmin := h.min_lt; have hmin' := h.min_ge; have hmax := h.max_le; have hpm := h.p_max
  obtain ⟨e, e1, e2, e3⟩ := C26_ilogb h hx fx h0
  have cx : x.category = .normal := by
    rcases isFinite_iff.1 fx with c | c
    · exact c
    · exact absurd (toRat_zero c) h0
  obtain ⟨x1, x2, x3, x4, x5, x6⟩ := Valid.normal hx cx
  -- the exponent is small
  have he1 : e ≤ 20001 := by
    have := mag_lt_pow h hx cx
    rw [← abs_toRat cx] at this
    have := (zpow_lt_zpow_iff_right₀ (a := (2 : ℚ)) (by norm_num)).1 (e2.trans_lt this)
    omega
  have he2 : -30000 ≤ e := by
    have : (2 : ℚ) ^ (x.exp - S.precision + 1) ≤ |x.toRat| := by
      rw [abs_toRat cx]; exact le_mul_of_one_le_left (two_zpow_pos _).le (by exact_mod_cast x3)
    have := (zpow_lt_zpow_iff_right₀ (a := (2 : ℚ)) (by norm_num)).1 (this.trans_lt e3)
    omega
  have m1 : |x.toRat * 2 ^ (-(e + 1))| = |x.toRat| * 2 ^ (-(e + 1)) := by rw [abs_mul, abs_of_pos (two_zpow_pos _)]
  have m2 : 1 / 2 ≤ |x.toRat * 2 ^ (-(e + 1))| := by
    rw [m1]
    calc (1 : ℚ) / 2 = 2 ^ e * 2 ^ (-(e + 1)) := by
          rw [← two_zpow_add, show e + -(e + 1) = -1 by ring]; norm_num
      _ ≤ _ := mul_le_mul_of_nonneg_right e2 (two_zpow_pos _).le
  have m3 : |x.toRat * 2 ^ (-(e + 1))| < 1 := by
    rw [m1]
    calc |x.toRat| * 2 ^ (-(e + 1)) < 2 ^ (e + 1) * 2 ^ (-(e + 1)) := mul_lt_mul_of_pos_right e3 (two_zpow_pos _)
      _ = 1 := by rw [← two_zpow_add, show e + 1 + -(e + 1) = 0 by ring, zpow_zero]
  have hgr : S.fmt.Grid (x.toRat * 2 ^ (-(e + 1))) := by
    apply grid_scale (grid_toRat h hx fx)
    refine le_trans ?_ m2
    calc (2 : ℚ) ^ S.fmt.emin ≤ 2 ^ (-1 : ℤ) := two_zpow_le (by rw [fmt_emin]; omega)
      _ = 1 / 2 := by norm_num
  have hlar : |x.toRat * 2 ^ (-(e + 1))| ≤ S.fmt.largest := by
    refine m3.le.trans ?_
    have := int_le_largest h (n := 1) (by rw [abs_one]; exact one_le_pow₀ (by norm_num))
    simpa using this
  obtain ⟨r, st, r1, r2, r3, r4⟩ := C25_scalbn h hx fx (-(e + 1)) mode (directedOK_of_ge h mode (by linarith [(abs_le.1 hlar).1]))
  obtain ⟨-, r5, r6⟩ := r4.exact hgr hlar
  refine ⟨r, e + 1, ?_, r2, r5, ?_, ?_, ?_⟩
  · unfold frexpR
    rw [e1, M.ok_bind, if_neg (by unfold iekNan; omega), if_neg (by unfold iekInf; omega), if_neg (by unfold iekZero; omega),
      i32_ok (by omega) (by omega), M.ok_bind, i32_ok (by omega) (by omega), M.ok_bind, r1, M.ok_bind]
  · show _ = r.toRat * _
    rw [show r.toRat = _ from r6, mul_assoc, ← two_zpow_add, show -(e + 1) + (e + 1) = 0 by ring, zpow_zero, mul_one]
  · rw [show r.toRat = _ from r6]; exact m2
  · rw [show r.toRat = _ from r6]; exact m3

example := C27_frexp singleS_ok (x := ⟨1, -126, .normal, true⟩) (by decide) rfl (by decide +kernel) .towardZero

/-- **C27.** Zeros give themselves and exponent 0, infinities are returned unchanged, NaNs are quieted. -/
theorem C27_specials (h : S.OK) {x : IeeeFloat S} (hx : x.Valid) (mode : Round) :
    (x.isZero = true → ∃ r, frexpR x mode = .ok (r, 0) ∧ r.Valid ∧ r.datum = x.datum) ∧
    (x.isInfinite = true → frexpR x mode = .ok (x, 2147483647)) ∧
    (x.isNan = true → ∃ r, frexpR x mode = .ok (r, -2147483648) ∧ r.Valid ∧ IsQuieted x r) := by
  refine ⟨fun c => ?_, fun c => ?_, fun c => ?_⟩
  · have cx : x.category = .zero := by simpa [isZero] using c
    have fx : x.isFinite = true := isFinite_iff.2 (Or.inr cx)
    obtain ⟨r, st, r1, r2, r3, r4⟩ := C25_scalbn h hx fx 0 mode (directedOK_of_ge h mode (by
      rw [toRat_zero cx, zero_mul]; have := largest_pos h; linarith))
    rw [toRat_zero cx, zero_mul] at r4
    obtain ⟨-, r5, r6⟩ := r4.exact grid_zero (by rw [abs_zero]; exact (largest_pos h).le)
    refine ⟨r, ?_, r2, ?_⟩
    · unfold frexpR
      rw [C26_specials.2.1 c, M.ok_bind, if_neg (by decide), if_neg (by decide), if_pos (by decide), M.ok_bind,
        i32_ok (by omega) (by omega), M.ok_bind, neg_zero, r1, M.ok_bind]
    · rw [datum_finite fx, datum_finite (show r.isFinite = true from r5), r3, toRat_zero cx, show r.toRat = 0 from r6]
  · unfold frexpR
    rw [C26_specials.2.2 c, M.ok_bind, if_neg (by decide), if_pos (by decide)]
  · have cx : x.category = .nan := by simpa [isNan] using c
    obtain ⟨r, r1, r2, r3⟩ := resultFromNan_ok h hx cx
    refine ⟨r, ?_, r2, r3⟩
    unfold frexpR
    rw [C26_specials.1 c, M.ok_bind, if_pos (by decide), r1, M.ok_bind]

/-- The smallest subnormal of `Single` splits into `0.5 * 2^-148`. -/
example : ∃ f e, frexpR (SMALLEST singleS) .towardZero = .ok (f, e) ∧ e = -148 ∧ f.exp = -1 ∧ f.sig = 2 ^ 23 :=
  ⟨_, _, rfl, by decide +kernel⟩

/-! ## C28 -/

theorem Rounds.ok {mode : Round} {v : ℚ} {zs : Bool} {r : StatusAnd (IeeeFloat S)} (hr : Rounds S mode v zs r)
    (hs : r.status = Status.OK) : r.value.isFinite = true ∧ r.value.toRat = v := by
  obtain ⟨⟨g, g1, g2⟩, -⟩ := hr
  rcases g2 with ⟨-, a, b⟩ | ⟨-, b⟩
  · have e : g = v := by
      rw [hs] at b
      have := congrArg Status.inexact b
      simpa [Status.OK] using this.symm
    subst e
    unfold datum at a
    rw [isFinite_iff]
    cases c : r.value.category <;> simp only [c, reduceCtorEq, Datum.num.injEq] at a
    · exact ⟨Or.inl rfl, a.2⟩
    · exact ⟨Or.inr rfl, by rw [toRat_zero c]; exact a.2⟩
  · exfalso
    have := congrArg (fun p => p.2.inexact) b
    rcases overflowed_cases S.fmt mode r.value.sign with e | e <;> rw [hs, e] at this <;> simp [Status.OK] at this

/-- `v` is a normal number of the format. -/
def Spec.Fmt.NormalNumber (F : Fmt) (v : ℚ) : Prop := F.Finite v ∧ F.smallestNormal ≤ |v|

/-- A normal float with a representable reciprocal is a power of two. -/
theorem sig_of_inverse (h : S.OK) {x : IeeeFloat S} (hx : x.Valid) (cx : x.category = .normal)
    (hn : (2 : ℚ) ^ S.minExp ≤ |x.toRat|) {w : ℚ} (hw : S.fmt.Grid w) (he : x.toRat * w = 1) : x.sig = 2 ^ (S.precision - 1) := by
  have h2 := h.two_pow
  obtain ⟨x1, x2, x3, x4, x5, x6⟩ := Valid.normal hx cx
  have hs : 2 ^ (S.precision - 1) ≤ x.sig := by
    by_contra hc
    have e := x5.resolve_left hc
    rw [abs_toRat cx, e, ← pow_half h] at hn
    have := (mul_le_mul_iff_left₀ (two_zpow_pos _)).1 hn
    exact hc (by exact_mod_cast this)
  obtain ⟨m, k, m1, -, rfl⟩ := hw
  -- the product of two integers is a power of two
  have e1 : |x.toRat| * |(m : ℚ) * 2 ^ k| = 1 := by rw [← abs_mul, he, abs_one]
  rw [abs_toRat cx, abs_mul, abs_of_pos (two_zpow_pos k)] at e1
  have e2 : ((x.sig * m.natAbs : ℕ) : ℚ) = 2 ^ (-(x.exp - S.precision + 1 + k)) := by
    have hz := two_zpow_pos (x.exp - S.precision + 1 + k)
    have : ((x.sig * m.natAbs : ℕ) : ℚ) * 2 ^ (x.exp - S.precision + 1 + k) = 1 := by
      rw [two_zpow_add (x.exp - S.precision + 1) k, ← e1]
      push_cast [Nat.cast_natAbs]
      ring
    rw [zpow_neg]
    exact eq_inv_of_mul_eq_one_left this
  have e3 : ∃ j : ℕ, x.sig * m.natAbs = 2 ^ j := by
    have hpos : 1 ≤ x.sig * m.natAbs := by
      by_contra hc
      have : x.sig * m.natAbs = 0 := by omega
      rw [this, Nat.cast_zero] at e2
      exact absurd e2 (two_zpow_pos _).ne
    have hj : 0 ≤ -(x.exp - S.precision + 1 + k) := by
      by_contra hc
      have : (2 : ℚ) ^ (-(x.exp - S.precision + 1 + k)) < 2 ^ (0 : ℤ) := two_zpow_lt (by omega)
      rw [← e2, zpow_zero] at this
      have : x.sig * m.natAbs < 1 := by exact_mod_cast this
      omega
    obtain ⟨j, hj⟩ := Int.eq_ofNat_of_zero_le hj
    rw [hj, zpow_natCast] at e2
    exact ⟨j, by exact_mod_cast e2⟩
  obtain ⟨j, e3⟩ := e3
  obtain ⟨i, -, e4⟩ := (Nat.dvd_prime_pow Nat.prime_two).1 ⟨m.natAbs, e3.symm⟩
  rw [e4] at hs x4 ⊢
  have i1 := (Nat.pow_le_pow_iff_right (by norm_num)).1 hs
  have i2 := (Nat.pow_lt_pow_iff_right (by norm_num)).1 x4
  congr 1; omega

theorem sig_of_pow (h : S.OK) {x : IeeeFloat S} (hx : x.Valid) (cx : x.category = .normal) (hs : 2 ^ (S.precision - 1) ≤ x.sig)
    {k : ℤ} (he : |x.toRat| = 2 ^ k) : x.sig = 2 ^ (S.precision - 1) := by
  have a := mag_ge_pow h hs
  have b := mag_lt_pow h hx cx
  rw [← abs_toRat cx, he] at a b
  have : k = x.exp := zpow_two_inj (b.trans_le (le_refl _)) (a.trans_lt (two_zpow_lt (by omega)))
  rw [abs_toRat cx, this, ← pow_half h x.exp] at he
  have := mul_right_cancel₀ (two_zpow_pos _).ne' he
  exact_mod_cast this

/-- **C28.** `get_exact_inverse` returns the reciprocal when the operand is a normal number with a normal,
exactly representable reciprocal, and nothing in every other case.  It never panics. -/
theorem C28_get_exact_inverse (h : S.OK) {x : IeeeFloat S} (hx : x.Valid) :
    ∃ o, getExactInverse x = .ok o ∧
      (∀ y, o = some y → y.Valid ∧ y.isNormal = true ∧ x.toRat * y.toRat = 1) ∧
      (o.isSome = true ↔ x.isNormal = true ∧ ∃ w, S.fmt.NormalNumber w ∧ x.toRat * w = 1) := by
  have h3 := h.p_ge; have hp := h.p_le; have hple := h.pow_le; have h2 := h.two_pow
  have nrm : ∀ {y : IeeeFloat S}, y.Valid → (y.isNormal = true ↔ y.isFinite = true ∧ (2 : ℚ) ^ S.minExp ≤ |y.toRat|) := by
    intro y hy
    rw [(C39_denormal h hy).2]
    constructor
    · rintro ⟨s, v, hd, hv⟩
      have hf : y.isFinite = true := ((C39_categories hy).2.2.2.1).2 ⟨s, v, hd⟩
      rw [datum_finite hf] at hd
      cases hd
      exact ⟨hf, hv⟩
    · rintro ⟨hf, hv⟩
      exact ⟨_, _, datum_finite hf, hv⟩
  unfold getExactInverse
  by_cases cx : x.category = .normal
  · rw [isFiniteNonZero_of cx]
    simp only [Bool.not_true, Bool.false_eq_true, if_false]
    have fx : x.isFinite = true := isFinite_iff.2 (Or.inl cx)
    rw [shl_ok (by omega), M.ok_bind, one_mul, Nat.mod_eq_of_lt (by omega)]
    by_cases hs : x.sig = 2 ^ (S.precision - 1)
    · rw [if_neg (by simpa using hs)]
      obtain ⟨o, o1, o2, o3⟩ := C17_from_u128 h (n := 1) (by norm_num) .nearestTiesToEven
      rw [Nat.cast_one] at o3
      obtain ⟨-, o4, o5⟩ := o3.exact (by simpa using grid_int h (n := 1) (by rw [abs_one]; exact one_le_pow₀ (by norm_num)))
        (by simpa using int_le_largest h (n := 1) (by rw [abs_one]; exact one_le_pow₀ (by norm_num)))
      have hx0 : x.toRat ≠ 0 := toRat_ne_zero hx cx
      obtain ⟨q, q1, q2, q3⟩ := divR_finite h o2 hx o4 fx hx0 .nearestTiesToEven (directedOK_of_mode _ (by decide) (by decide) _)
      rw [o5] at q3
      have ax : |x.toRat| = 2 ^ x.exp := by rw [abs_toRat cx, hs, pow_half h]
      have xn : x.isNormal = true := (nrm hx).2 ⟨fx, by rw [ax]; exact two_zpow_le (Valid.normal hx cx).1⟩
      rw [o1, M.ok_bind, q1, M.ok_bind]
      -- any witness is the quotient
      have wit : ∀ w, x.toRat * w = 1 → w = 1 / x.toRat := fun w hw => (eq_div_of_mul_eq hx0 (by rw [mul_comm]; exact hw))
      by_cases hst : q.status = Status.OK
      · obtain ⟨q4, q5⟩ := q3.ok hst
        rw [if_neg (by simpa using hst)]
        have q0 : q.value.toRat ≠ 0 := by rw [q5]; exact one_div_ne_zero hx0
        have cq : q.value.category = .normal := by
          rcases isFinite_iff.1 q4 with c | c
          · exact c
          · exact absurd (toRat_zero c) q0
        have hmul : x.toRat * q.value.toRat = 1 := by rw [q5, mul_one_div_cancel hx0]
        by_cases hd : q.value.isDenormal = true
        · rw [if_pos hd]
          refine ⟨none, rfl, fun y hy => (by cases hy), by simp, ?_⟩
          rintro ⟨-, w, ⟨-, w2⟩, w3⟩
          exfalso
          rw [wit w w3, ← q5] at w2
          obtain ⟨s, v, hdt, -, hv⟩ := ((C39_denormal h q2).1).1 hd
          rw [datum_finite q4] at hdt
          cases hdt
          exact absurd w2 (not_le.2 hv)
        · rw [if_neg hd]
          have hqs : 2 ^ (S.precision - 1) ≤ q.value.sig := by
            rw [isDenormal_iff h q2 cq] at hd
            simpa using hd
          have aq : |q.value.toRat| = 2 ^ (-x.exp) := by rw [q5, abs_div, abs_one, ax, zpow_neg, one_div]
          rw [massert_pos (isFiniteNonZero_of cq), M.ok_bind, massert_pos (sig_of_pow h q2 cq hqs aq), M.ok_bind]
          have qn : (2 : ℚ) ^ S.minExp ≤ |q.value.toRat| := by
            rw [abs_toRat cq]
            exact (two_zpow_le (Valid.normal q2 cq).1).trans (mag_ge_pow h hqs)
          refine ⟨_, rfl, ?_, ?_⟩
          · intro y hy
            cases hy
            exact ⟨q2, (nrm q2).2 ⟨q4, qn⟩, hmul⟩
          · simp only [Option.isSome_some, true_iff]
            exact ⟨xn, q.value.toRat, ⟨finite_toRat h q2 q4, qn⟩, hmul⟩
      · rw [if_pos (by simpa using hst)]
        refine ⟨none, rfl, fun y hy => (by cases hy), by simp, ?_⟩
        rintro ⟨-, w, ⟨⟨w1, w2⟩, -⟩, w3⟩
        exfalso
        rw [wit w w3] at w1 w2
        exact hst (q3.exact w1 w2).1
    · rw [if_pos (by simpa using hs)]
      refine ⟨none, rfl, fun y hy => (by cases hy), by simp, ?_⟩
      rintro ⟨xn, w, ⟨⟨w1, -⟩, -⟩, w3⟩
      exact absurd (sig_of_inverse h hx cx ((nrm hx).1 xn).2 w1 w3) hs
  · have : x.isFiniteNonZero = false := by
      unfold isFiniteNonZero isFinite isNan isInfinite isZero
      cases e : x.category <;> simp_all
    rw [this]
    refine ⟨none, rfl, fun y hy => (by cases hy), by simp, ?_⟩
    rintro ⟨-, w, -, w3⟩
    exfalso
    have : x.toRat = 0 := by unfold toRat; cases e : x.category <;> simp_all
    rw [this, zero_mul] at w3
    exact zero_ne_one w3

/-- `-2` has the exact inverse `-1/2`; `3` has none; neither has the largest power of two of `Half`,
whose inverse is subnormal. -/
example : (∃ y, getExactInverse (⟨2 ^ 23, 1, .normal, true⟩ : IeeeFloat singleS) = .ok (some y) ∧ y.exp = -1 ∧ y.sign = true) ∧
    getExactInverse (⟨3 * 2 ^ 22, 1, .normal, false⟩ : IeeeFloat singleS) = .ok none ∧
    getExactInverse (⟨2 ^ 10, 15, .normal, false⟩ : IeeeFloat halfS) = .ok none := ⟨⟨_, rfl, by decide +kernel⟩, rfl, rfl⟩

end Apf
