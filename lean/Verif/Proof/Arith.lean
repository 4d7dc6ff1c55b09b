import Verif.Proof.AddOrSub
/-! # Addition, multiplication and division of finite floats -/

namespace Apf
open Spec

/-- Exact values that need more than `p` bits are not representable. -/
theorem not_grid_of_frac {F : Fmt} (hp : 1 ≤ F.p) {n : ℕ} {e : ℤ} {f : ℚ} (hn : 2 ^ (F.p - 1) ≤ n) (hn2 : n < 2 ^ F.p)
    (f0 : 0 < f) (f1 : f < 1) : ¬ F.Grid (((n : ℚ) + f) * 2 ^ (e - F.p + 1)) := by
  intro hg
  let F' : Fmt := { F with emin := min F.emin e }
  have hg' : F'.Grid (((n : ℚ) + f) * 2 ^ (e - F.p + 1)) := by
    obtain ⟨m, k, h1, h2, h3⟩ := hg
    exact ⟨m, k, h1, by show min F.emin e - F.p + 1 ≤ k; omega, h3⟩
  have hN := neighbours_mk (F := F') (n := n) (e := e) hp hn2 (by show min F.emin e ≤ e; omega) (Or.inl hn)
  have hu := two_zpow_pos (e - F.p + 1)
  rcases hN.gap _ hg' with h | h
  · have : (n : ℚ) * 2 ^ (e - F.p + 1) < ((n : ℚ) + f) * 2 ^ (e - F.p + 1) := mul_lt_mul_of_pos_right (by linarith) hu
    have h' : ((n : ℚ) + f) * 2 ^ (e - F.p + 1) ≤ (n : ℚ) * 2 ^ (e - F.p + 1) := h
    linarith
  · have : ((n : ℚ) + f) * 2 ^ (e - F.p + 1) < ((n + 1 : ℕ) : ℚ) * 2 ^ (e - F.p + 1) :=
      mul_lt_mul_of_pos_right (by push_cast; linarith) hu
    have h' : ((n + 1 : ℕ) : ℚ) * 2 ^ (e - F.p + 1) ≤ ((n : ℚ) + f) * 2 ^ (e - F.p + 1) := h
    linarith

theorem Spec.Delivers.inexact {F : Fmt} {mode : Round} {v : ℚ} {s : Bool} {d : Datum} {st : Status}
    (h : Delivers F mode v s d st) (hv : ¬ F.Grid v) : st.inexact = true := by
  obtain ⟨g, hg, h | ⟨h1, h2⟩⟩ := h
  · obtain ⟨-, -, h⟩ := h
    rw [h]
    simp only [decide_eq_true_eq]
    rintro rfl
    exact hv hg.1
  · unfold overflowed at h2
    have := (Prod.ext_iff.1 h2).2
    simp only [] at this
    rw [this]
    split_ifs <;> rfl

theorem signed_eq_zero {s : Bool} {a : ℚ} : signed s a = 0 ↔ a = 0 := by cases s <;> simp [signed]

theorem signed_add (s : Bool) (a b : ℚ) : signed s (a + b) = signed s a + signed s b := by
  cases s <;> simp [signed]; ring

theorem grid_signed {F : Fmt} {s : Bool} {v : ℚ} : F.Grid (signed s v) ↔ F.Grid v := by
  cases s
  · simp [signed]
  · simp [signed, grid_neg_iff]

theorem Spec.Fmt.Grid.unit {F : Fmt} {v : ℚ} (h : F.Grid v) : ∃ k : ℤ, v = k * 2 ^ (F.emin - F.p + 1) := by
  obtain ⟨m, k, h1, h2, h3⟩ := h
  refine ⟨m * 2 ^ (k - (F.emin - F.p + 1)).toNat, ?_⟩
  rw [h3]
  push_cast
  rw [← zpow_natCast, mul_assoc, ← two_zpow_add]
  congr 2
  omega

theorem grid_unit_self {F : Fmt} (hp : 1 ≤ F.p) : F.Grid (2 ^ (F.emin - F.p + 1)) :=
  ⟨1, F.emin - F.p + 1, by rw [abs_one]; exact one_lt_pow₀ (by norm_num) (by omega), le_refl _, by simp⟩

/-- A non-zero multiple of the smallest positive value does not round to zero. -/
theorem Spec.IsRounded.zero_of_unit {F : Fmt} (hp : 1 ≤ F.p) {mode : Round} {v : ℚ} (h : IsRounded F mode v 0)
    (hv : ∃ k : ℤ, v = k * 2 ^ (F.emin - F.p + 1)) : v = 0 := by
  obtain ⟨k, rfl⟩ := hv
  have hpos := two_zpow_pos (F.emin - F.p + 1)
  have hg := grid_unit_self hp
  rcases lt_trichotomy k 0 with hk | hk | hk
  · exfalso
    have : (k : ℚ) ≤ -1 := by exact_mod_cast (show k ≤ -1 by omega)
    have := h.le_of_grid hg.neg (by nlinarith)
    linarith
  · simp [hk]
  · exfalso
    have : (1 : ℚ) ≤ k := by exact_mod_cast hk
    have := h.ge_of_grid hg (by nlinarith)
    linarith

namespace IeeeFloat
variable {S : Sem}

/-- The facts a valid normal-category float provides. -/
theorem Valid.normal {x : IeeeFloat S} (hv : x.Valid) (hc : x.category = .normal) :
    S.minExp ≤ x.exp ∧ x.exp ≤ S.maxExp ∧ 0 < x.sig ∧ x.sig < 2 ^ S.precision ∧
    (2 ^ (S.precision - 1) ≤ x.sig ∨ x.exp = S.minExp) ∧
    (S.nonfinite = .nanOnly → x.exp = S.maxExp → x.sig ≠ 2 ^ S.precision - 1) := by
  simpa only [Valid, hc] using hv

theorem toRat_normal {x : IeeeFloat S} (h : x.category = .normal) :
    x.toRat = signed x.sign ((x.sig : ℚ) * 2 ^ (x.exp - S.precision + 1)) := by simp [toRat, h]

theorem toRat_zero {x : IeeeFloat S} (h : x.category = .zero) : x.toRat = 0 := by simp [toRat, h]

theorem isFinite_iff {x : IeeeFloat S} : x.isFinite = true ↔ x.category = .normal ∨ x.category = .zero := by
  unfold isFinite isNan isInfinite
  cases x.category <;> simp

/-- Zero iff the category is zero, for valid finite floats. -/
theorem toRat_pos_of_normal {x : IeeeFloat S} (hv : x.Valid) (h : x.category = .normal) :
    0 < (x.sig : ℚ) * 2 ^ (x.exp - S.precision + 1) := by
  have := (hv.normal h).2.2.1
  have := two_zpow_pos (x.exp - S.precision + 1)
  positivity

theorem toRat_ne_zero {x : IeeeFloat S} (hv : x.Valid) (h : x.category = .normal) : x.toRat ≠ 0 := by
  have := toRat_pos_of_normal hv h
  rw [toRat_normal h]
  cases x.sign <;> simp [signed] <;> constructor <;> intro h <;> simp [h] at this

theorem grid_toRat (h : S.OK) {x : IeeeFloat S} (hv : x.Valid) (hf : x.isFinite = true) : S.fmt.Grid x.toRat := by
  rcases isFinite_iff.1 hf with hc | hc
  · obtain ⟨v1, v2, v3, v4, v5, v6⟩ := hv.normal hc
    rw [toRat_normal hc, grid_signed]
    exact grid_mk (F := S.fmt) (by have := h.p_ge; simp; omega) v4.le v1
  · rw [toRat_zero hc]; exact grid_zero

theorem abs_toRat_le (h : S.OK) {x : IeeeFloat S} (hv : x.Valid) (hf : x.isFinite = true) : |x.toRat| ≤ S.fmt.largest := by
  rcases isFinite_iff.1 hf with hc | hc
  · obtain ⟨v1, v2, v3, v4, v5, v6⟩ := hv.normal hc
    rw [toRat_normal hc, abs_signed _ (by positivity)]
    exact le_largest h v4 v2 v6
  · rw [toRat_zero hc, abs_zero, ← largest_toRat h]; positivity

/-- The spec's finite values. -/
theorem finite_toRat (h : S.OK) {x : IeeeFloat S} (hv : x.Valid) (hf : x.isFinite = true) : S.fmt.Finite x.toRat :=
  ⟨grid_toRat h hv hf, abs_toRat_le h hv hf⟩

theorem datum_finite {x : IeeeFloat S} (hf : x.isFinite = true) : x.datum = .num x.sign x.toRat := by
  rcases isFinite_iff.1 hf with hc | hc
  · simp [datum, hc]
  · simp [datum, hc, toRat]

/-- An exact result. -/
theorem exact_delivers (h : S.OK) {x : IeeeFloat S} (hv : x.Valid) (hf : x.isFinite = true) (mode : Round) :
    Delivers S.fmt mode x.toRat x.sign x.datum Status.OK := by
  refine ⟨x.toRat, isRounded_self _ (grid_toRat h hv hf), Or.inl ⟨abs_toRat_le h hv hf, datum_finite hf, ?_⟩⟩
  simp [Status.OK]

theorem signRule_self {x : IeeeFloat S} (hv : x.Valid) (hf : x.isFinite = true) {zs : Bool}
    (hz : x.category = .zero → x.sign = zs) : SignRule x.toRat zs x.sign := by
  rcases isFinite_iff.1 hf with hc | hc
  · have := toRat_pos_of_normal hv hc
    rw [toRat_normal hc]
    refine ⟨fun h => ?_, fun h => ?_, fun h => ?_⟩
    · by_contra hs
      have hs : x.sign = true := by simpa using hs
      rw [hs] at h; simp only [signed, if_true] at h; linarith
    · by_contra hs
      have hs : x.sign = false := by simpa using hs
      rw [hs] at h; simp only [signed, Bool.false_eq_true, if_false] at h; linarith
    · exfalso
      rw [← toRat_normal hc] at h
      exact toRat_ne_zero hv hc h
  · rw [toRat_zero hc]
    exact ⟨fun h => absurd h (lt_irrefl _), fun h => absurd h (lt_irrefl _), fun _ => hz hc⟩

theorem exact_rounds (h : S.OK) {x : IeeeFloat S} (hv : x.Valid) (hf : x.isFinite = true) (mode : Round) {zs : Bool}
    (hz : x.category = .zero → x.sign = zs) : Rounds S mode x.toRat zs ⟨Status.OK, x⟩ :=
  ⟨exact_delivers h hv hf mode, signRule_self hv hf hz⟩

/-- `normalize`, with the value given signed. -/
theorem normalize_eff' (h : S.OK) {x : IeeeFloat S} (hcat : x.category = .normal) {mode om : Round} {loss : Loss} {f : ℚ}
    (hs : x.sig < 2 ^ 128) (he1 : -1200000000 ≤ x.exp) (he2 : x.exp ≤ 1200000000) (hf : LossIs loss f)
    (hleft : loss ≠ .exactlyZero → x.sig ≠ 0 → S.precision ≤ Nat.size x.sig ∨ x.exp ≤ S.minExp) {v : ℚ}
    (hv : v = signed x.sign (((x.sig : ℚ) + f) * 2 ^ ((if x.sig = 0 then S.minExp else x.exp) - S.precision + 1)))
    (hO : Effective S mode v om) :
    Good S om v x.sign (x.normalize mode loss) := by
  rw [hv]
  apply normalize_eff h hcat hs he1 he2 hf hleft rfl
  have key : DirectedOK S mode v ↔ NanOnlyOK S mode x.sign
      (((x.sig : ℚ) + f) * 2 ^ ((if x.sig = 0 then S.minExp else x.exp) - S.precision + 1)) := by
    have hm : 0 ≤ ((x.sig : ℚ) + f) * 2 ^ ((if x.sig = 0 then S.minExp else x.exp) - S.precision + 1) :=
      mul_nonneg (add_nonneg (Nat.cast_nonneg _) hf.nonneg) (two_zpow_pos _).le
    unfold DirectedOK NanOnlyOK
    rw [hv]
    cases hsg : x.sign
    · simp only [signed, Bool.false_eq_true, if_false, false_implies, implies_true, iff_true]
      intro _
      have p1 : 0 < ((2 ^ S.precision - 1 : ℕ) : ℚ) * 2 ^ (S.maxExp - S.precision + 1) := by
        have : 1 ≤ 2 ^ S.precision - 1 := by have := h.half_ge; have := h.two_pow; omega
        exact mul_pos (by exact_mod_cast this) (two_zpow_pos _)
      have p2 : 0 < S.fmt.largest := by
        rw [← largest_toRat h]
        exact toRat_pos_of_normal (largest_valid h) rfl
      exact ⟨fun _ q => by linarith, fun _ q => by linarith⟩
    · simp only [signed, if_true, neg_le_neg_iff, neg_lt_neg_iff, forall_const]
  unfold Effective at hO
  rw [key] at hO
  exact hO

/-- `normalize` in the modes and values `DirectedOK` covers. -/
theorem normalize_good' (h : S.OK) {x : IeeeFloat S} (hcat : x.category = .normal) {mode : Round} {loss : Loss} {f : ℚ}
    (hs : x.sig < 2 ^ 128) (he1 : -1200000000 ≤ x.exp) (he2 : x.exp ≤ 1200000000) (hf : LossIs loss f)
    (hleft : loss ≠ .exactlyZero → x.sig ≠ 0 → S.precision ≤ Nat.size x.sig ∨ x.exp ≤ S.minExp) {v : ℚ}
    (hv : v = signed x.sign (((x.sig : ℚ) + f) * 2 ^ ((if x.sig = 0 then S.minExp else x.exp) - S.precision + 1)))
    (hO : DirectedOK S mode v) :
    Good S mode v x.sign (x.normalize mode loss) := normalize_eff' h hcat hs he1 he2 hf hleft hv (.of hO)

/-- From a correctly delivered signed magnitude to the full result. -/
theorem Good.rounds {mode : Round} {v : ℚ} {s zs : Bool} {res : M (StatusAnd (IeeeFloat S))} (hg : Good S mode v s res)
    (hs : ∃ m, 0 ≤ m ∧ v = signed s m) (hz : v = 0 → s = zs) :
    ∃ r, res = .ok r ∧ r.value.Valid ∧ Rounds S mode v zs r := by
  obtain ⟨r, h1, h2, h3, h4⟩ := hg
  refine ⟨r, h1, h2, by rw [h3]; exact h4, ?_⟩
  obtain ⟨m, hm, rfl⟩ := hs
  rw [h3]
  refine ⟨fun h => ?_, fun h => ?_, hz⟩
  · cases s
    · rfl
    · simp only [signed, if_true] at h; linarith
  · cases s
    · simp only [signed, Bool.false_eq_true, if_false] at h; linarith
    · rfl

/-! ### Multiplication -/

theorem signed_mul_signed (s t : Bool) (a b : ℚ) : signed (xor s t) (a * b) = signed s a * signed t b := by
  cases s <;> cases t <;> simp [signed]

theorem signed_div_signed (s t : Bool) (a b : ℚ) : signed (xor s t) (a / b) = signed s a / signed t b := by
  cases s <;> cases t <;> simp [signed, neg_div, div_neg]

theorem orInexact_good {mode : Round} {v : ℚ} {s : Bool} {loss : Loss} {res : M (StatusAnd (IeeeFloat S))}
    (hg : Good S mode v s res) (hl : loss ≠ .exactlyZero → ¬ S.fmt.Grid v) :
    Good S mode v s (do let r ← res; .ok (orInexact r loss)) := by
  obtain ⟨r, h1, h2, h3, h4⟩ := hg
  refine ⟨r, ?_, h2, h3, h4⟩
  rw [h1, M.ok_bind]
  unfold orInexact
  by_cases h : loss = .exactlyZero
  · simp [h]
  · have hi := h4.inexact (hl h)
    rw [if_pos h]
    congr 1
    have : r.status ||| Status.INEXACT = r.status := by
      show Status.or _ _ = _
      obtain ⟨⟨a, b, c, d, e⟩, _⟩ := r
      simp only [] at hi
      simp [Status.or, Status.INEXACT, hi]
    rw [this]

theorem mulNormals_eff (h : S.OK) {x y : IeeeFloat S} (hx : x.Valid) (hy : y.Valid) (cx : x.category = .normal)
    (cy : y.category = .normal) (s : Bool) (mode : Round) {v : ℚ}
    (hv : v = signed s (((x.sig : ℚ) * 2 ^ (x.exp - S.precision + 1)) * ((y.sig : ℚ) * 2 ^ (y.exp - S.precision + 1))))
    {om : Round} (hO : Effective S mode v om) :
    Good S om v s (mulNormals { x with sign := s } y mode) := by
  have hpl := h.p_le
  have hpg := h.p_ge
  have hmg := h.min_ge
  have hMl := h.max_le
  have h4 := h.pow_le
  obtain ⟨v1, v2, v3, v4, v5, v6⟩ := hx.normal cx
  obtain ⟨w1, w2, w3, w4, w5, w6⟩ := hy.normal cy
  unfold mulNormals
  simp only []
  rw [i32_ok (by omega) (by omega), M.ok_bind]
  obtain ⟨r, r1, r2, r3, r4⟩ := mul_ok (dst := [0, 0]) (a := [x.sig]) (b := [y.sig]) (Limbs.two (by norm_num) (by norm_num))
    (Limbs.one (by omega)) (Limbs.one (by omega)) (by simp) (by simp) (exp := x.exp + y.exp) (precision := S.precision)
    (by omega) (by omega) (by omega)
  simp only [val_singleton] at r1 r4
  rw [r1, M.ok_bind]
  have hpos : 0 < x.sig * y.sig := Nat.mul_pos v3 w3
  generalize hN : x.sig * y.sig = N at *
  generalize hk : Nat.size N - S.precision = k at *
  have hsz : Nat.size N ≤ 2 * S.precision := by
    rw [Nat.size_le, ← hN, two_mul, pow_add]
    exact Nat.mul_lt_mul_of_lt_of_lt v4 w4
  have hsq : Nat.size (N / 2 ^ k) ≤ S.precision := by rw [size_div]; omega
  have hqlt : N / 2 ^ k < 2 ^ S.precision := Nat.size_le.1 hsq
  -- the product fits one limb
  have h0 : idx r 0 = .ok (N / 2 ^ k) := by
    match r, r2 with
    | [a, b], _ =>
      have ha := r3.head
      have hb := r3.tail.head
      simp only [val_cons, val_nil] at r4
      have : b = 0 := by
        by_contra hb0
        have : 2 ^ 128 * 1 ≤ 2 ^ 128 * b := Nat.mul_le_mul_left _ (by omega)
        omega
      subst this
      rw [← r4]; rfl
  simp only []
  rw [h0, M.ok_bind]
  have hsz0 : 0 < Nat.size N := Nat.size_pos.2 hpos
  have hq0 : N / 2 ^ k ≠ 0 := by
    intro hz
    have : Nat.size (N / 2 ^ k) = 0 := by rw [hz]; rfl
    rw [size_div] at this
    omega
  have hf : LossIs (lossOf (N % 2 ^ k) (2 ^ k)) (((N % 2 ^ k : ℕ) : ℚ) / 2 ^ k) := by
    have := lossIs_lossOf (Nat.mod_lt N (show 0 < 2 ^ k by positivity))
    push_cast at this ⊢
    exact this
  have hfull : lossOf (N % 2 ^ k) (2 ^ k) ≠ .exactlyZero → Nat.size (N / 2 ^ k) = S.precision := by
    intro hne
    have : 0 < k := by
      rcases Nat.eq_zero_or_pos k with h | h
      · subst h; simp [lossOf, Nat.mod_one] at hne
      · exact h
    rw [size_div]; omega
  have hval : v = signed s ((((N / 2 ^ k : ℕ) : ℚ) + ((N % 2 ^ k : ℕ) : ℚ) / 2 ^ k) *
      2 ^ (x.exp + y.exp + 1 - S.precision + (k : ℤ) - S.precision + 1)) := by
    rw [hv]
    congr 1
    have hd : (N : ℚ) = 2 ^ k * ((N / 2 ^ k : ℕ) : ℚ) + ((N % 2 ^ k : ℕ) : ℚ) := by
      exact_mod_cast (Nat.div_add_mod N (2 ^ k)).symm
    have hNq : (x.sig : ℚ) * y.sig = N := by rw [← hN]; push_cast; rfl
    rw [show x.exp + y.exp + 1 - S.precision + (k : ℤ) - S.precision + 1 =
      (k : ℤ) + ((x.exp - S.precision + 1) + (y.exp - S.precision + 1)) by ring, two_zpow_add k, zpow_natCast,
      two_zpow_add (x.exp - S.precision + 1) (y.exp - S.precision + 1)]
    have h0 : (2 : ℚ) ^ k ≠ 0 := by positivity
    calc (x.sig : ℚ) * 2 ^ (x.exp - S.precision + 1) * ((y.sig : ℚ) * 2 ^ (y.exp - S.precision + 1))
        = ((x.sig : ℚ) * y.sig) * (2 ^ (x.exp - S.precision + 1) * 2 ^ (y.exp - S.precision + 1)) := by ring
      _ = (2 ^ k * ((N / 2 ^ k : ℕ) : ℚ) + ((N % 2 ^ k : ℕ) : ℚ)) *
            (2 ^ (x.exp - S.precision + 1) * 2 ^ (y.exp - S.precision + 1)) := by rw [hNq, hd]
      _ = _ := by rw [← mul_assoc _ ((2 : ℚ) ^ k), add_mul _ _ ((2 : ℚ) ^ k), div_mul_cancel₀ _ h0]; ring
  apply orInexact_good
  · refine normalize_eff' h (x := { x with sig := N / 2 ^ k, exp := x.exp + y.exp + 1 - S.precision + (k : ℤ), sign := s }) cx
      (by simp only []; omega) (by simp only []; omega) (by simp only []; omega) hf
      (fun hne _ => Or.inl (by simp only []; rw [hfull hne])) ?_ hO
    simp only [if_neg hq0]
    exact hval
  · intro hne
    rw [hval, grid_signed]
    apply not_grid_of_frac (F := S.fmt) (by simp; omega) _ hqlt (hf.pos hne) hf.lt_one
    show 2 ^ (S.precision - 1) ≤ _
    rw [← hfull hne]
    exact two_pow_size_le (Nat.pos_of_ne_zero hq0)

theorem mulNormals_good (h : S.OK) {x y : IeeeFloat S} (hx : x.Valid) (hy : y.Valid) (cx : x.category = .normal)
    (cy : y.category = .normal) (s : Bool) (mode : Round) {v : ℚ}
    (hv : v = signed s (((x.sig : ℚ) * 2 ^ (x.exp - S.precision + 1)) * ((y.sig : ℚ) * 2 ^ (y.exp - S.precision + 1))))
    (hO : DirectedOK S mode v) :
    Good S mode v s (mulNormals { x with sign := s } y mode) := mulNormals_eff h hx hy cx cy s mode hv (.of hO)

/-! ### Division -/

theorem divNormals_eff (h : S.OK) {x y : IeeeFloat S} (hx : x.Valid) (hy : y.Valid) (cx : x.category = .normal)
    (cy : y.category = .normal) (s : Bool) (mode : Round) {v : ℚ}
    (hv : v = signed s (((x.sig : ℚ) * 2 ^ (x.exp - S.precision + 1)) / ((y.sig : ℚ) * 2 ^ (y.exp - S.precision + 1))))
    {om : Round} (hO : Effective S mode v om) :
    Good S om v s (divNormals { x with sign := s } y mode) := by
  have hpl := h.p_le
  have hpg := h.p_ge
  have hmg := h.min_ge
  have hMl := h.max_le
  have h4 := h.pow_le
  obtain ⟨v1, v2, v3, v4, v5, v6⟩ := hx.normal cx
  obtain ⟨w1, w2, w3, w4, w5, w6⟩ := hy.normal cy
  unfold divNormals
  simp only []
  rw [i32_ok (by omega) (by omega), M.ok_bind]
  obtain ⟨q, a, b, r1, r2, r3, r4, r5, r6, r7, r8⟩ := div_ok (quotient := [x.sig]) (dividend := [x.sig]) (divisor := [y.sig])
    (exp := x.exp - y.exp) (p := S.precision) (Limbs.one (by omega)) (Limbs.one (by omega)) rfl rfl (by simp; omega) (by omega)
    (by unfold limbsForBits; simp; omega) (by omega) (by rw [val_singleton]; exact v3) (by rw [val_singleton]; exact w3)
    (by rw [val_singleton, Nat.size_le]; exact v4) (by rw [val_singleton, Nat.size_le]; exact w4) (by omega) (by omega)
  simp only [val_singleton] at r1 r4 r5 r6
  rw [r1, M.ok_bind]
  simp only []
  have hDpos : 0 < y.sig * 2 ^ b := Nat.mul_pos w3 (by positivity)
  have hNa : x.sig * 2 ^ a * 2 ^ (S.precision - 1) = x.sig * 2 ^ a * 2 ^ (S.precision - 1) := rfl
  generalize hD : y.sig * 2 ^ b = D at *
  generalize hX : x.sig * 2 ^ a = X at *
  generalize hN : X * 2 ^ (S.precision - 1) = N at *
  have hq1 : 2 ^ (S.precision - 1) ≤ N / D := by
    rw [Nat.le_div_iff_mul_le hDpos, ← hN, Nat.mul_comm X]
    exact Nat.mul_le_mul_left _ r4
  have hq2 : N / D < 2 ^ S.precision := by
    rw [Nat.div_lt_iff_lt_mul hDpos, ← hN, h.two_pow]
    calc X * 2 ^ (S.precision - 1) < 2 * D * 2 ^ (S.precision - 1) := Nat.mul_lt_mul_of_pos_right r5 (by positivity)
      _ = _ := by ring
  have h0 : idx q 0 = .ok (N / D) := by
    match q, r2 with
    | [c], _ =>
      simp only [val_singleton] at r6
      rw [← r6]; rfl
  rw [h0, M.ok_bind]
  have hhalf := h.half_ge
  have hq0 : N / D ≠ 0 := by omega
  have hsz : Nat.size (N / D) = S.precision := by
    rw [show S.precision = S.precision - 1 + 1 by omega]
    exact size_eq hq1 (by rw [show S.precision - 1 + 1 = S.precision by omega]; exact hq2)
  have hf := lossIs_lossOf (Nat.mod_lt N hDpos)
  have hval : v = signed s ((((N / D : ℕ) : ℚ) + ((N % D : ℕ) : ℚ) / D) *
      2 ^ (x.exp - y.exp + (b : ℤ) - (a : ℤ) - S.precision + 1)) := by
    rw [hv]
    congr 1
    have hDq : (D : ℚ) ≠ 0 := by exact_mod_cast hDpos.ne'
    have hd : (N : ℚ) = D * ((N / D : ℕ) : ℚ) + ((N % D : ℕ) : ℚ) := by
      exact_mod_cast (Nat.div_add_mod N D).symm
    have e1 : ((N / D : ℕ) : ℚ) + ((N % D : ℕ) : ℚ) / D = (N : ℚ) / D := by
      rw [eq_div_iff hDq, add_mul, div_mul_cancel₀ _ hDq, hd]; ring
    rw [e1, ← hN, ← hX, ← hD]
    push_cast
    have hy0 : (y.sig : ℚ) ≠ 0 := by exact_mod_cast w3.ne'
    rw [← zpow_natCast, ← zpow_natCast, ← zpow_natCast]
    rw [div_mul_eq_mul_div, div_eq_div_iff (by have := two_zpow_pos (y.exp - S.precision + 1); positivity)
      (by have := two_zpow_pos (b : ℤ); positivity)]
    have e2 : (2 : ℚ) ^ (x.exp - S.precision + 1) * 2 ^ (b : ℤ) =
        2 ^ (a : ℤ) * 2 ^ ((S.precision - 1 : ℕ) : ℤ) * 2 ^ (x.exp - y.exp + (b : ℤ) - (a : ℤ) - S.precision + 1) *
          2 ^ (y.exp - S.precision + 1) := by
      rw [← two_zpow_add, ← two_zpow_add, ← two_zpow_add, ← two_zpow_add]
      congr 1
      push_cast [Nat.cast_sub (show 1 ≤ S.precision by omega)]
      ring
    linear_combination (x.sig : ℚ) * y.sig * e2
  apply orInexact_good
  · refine normalize_eff' h (x := { x with sig := N / D, exp := x.exp - y.exp + (b : ℤ) - (a : ℤ), sign := s }) cx
      (by simp only []; omega) (by simp only []; omega) (by simp only []; omega) hf
      (fun hne _ => Or.inl (by simp only []; rw [hsz])) ?_ hO
    simp only [if_neg hq0]
    exact hval
  · intro hne
    rw [hval, grid_signed]
    exact not_grid_of_frac (F := S.fmt) (by simp; omega) hq1 hq2 (hf.pos hne) hf.lt_one

theorem divNormals_good (h : S.OK) {x y : IeeeFloat S} (hx : x.Valid) (hy : y.Valid) (cx : x.category = .normal)
    (cy : y.category = .normal) (s : Bool) (mode : Round) {v : ℚ}
    (hv : v = signed s (((x.sig : ℚ) * 2 ^ (x.exp - S.precision + 1)) / ((y.sig : ℚ) * 2 ^ (y.exp - S.precision + 1))))
    (hO : DirectedOK S mode v) :
    Good S mode v s (divNormals { x with sign := s } y mode) := divNormals_eff h hx hy cx cy s mode hv (.of hO)

/-! ### Addition -/

theorem largest_pos (h : S.OK) : 0 < S.fmt.largest := by
  have := toRat_pos_of_normal (largest_valid h) rfl
  have e := largest_toRat h
  rw [← e]
  exact this

theorem overflowed_ne_zero (h : S.OK) (mode : Round) (s t : Bool) : Datum.num t 0 ≠ (overflowed S.fmt mode s).1 := by
  have hl := largest_pos h
  intro hh
  unfold overflowed at hh
  have aux : ∀ b : Bool, Datum.num t 0 = ((if b = true then
        ((if S.fmt.hasInf = true then Datum.inf s else Datum.nan), ({ overflow := true, inexact := true } : Status))
      else (Datum.num s (signed s S.fmt.largest), { inexact := true })).1) → False := by
    intro b hb
    cases b
    · rw [if_neg (by simp)] at hb
      injection hb with _ h0
      cases s <;> simp [signed] at h0 <;> linarith
    · rw [if_pos rfl] at hb
      simp only [] at hb
      split_ifs at hb
  exact aux _ hh

theorem sum_unit (h : S.OK) {x y : IeeeFloat S} (hx : x.Valid) (hy : y.Valid) (cx : x.category = .normal)
    (cy : y.category = .normal) : ∃ k : ℤ, x.toRat + y.toRat = k * 2 ^ (S.fmt.emin - S.fmt.p + 1) := by
  obtain ⟨a, ha⟩ := (grid_toRat h hx (isFinite_iff.2 (Or.inl cx))).unit
  obtain ⟨b, hb⟩ := (grid_toRat h hy (isFinite_iff.2 (Or.inl cy))).unit
  exact ⟨a + b, by rw [ha, hb]; push_cast; ring⟩

theorem addNormals_eff (h : S.OK) {x y : IeeeFloat S} (hx : x.Valid) (hy : y.Valid) (cx : x.category = .normal)
    (cy : y.category = .normal) (mode : Round) {om : Round} (hO : Effective S mode (x.toRat + y.toRat) om) :
    ∃ s m, 0 ≤ m ∧ x.toRat + y.toRat = signed s m ∧ Good S om (x.toRat + y.toRat) s (addNormals x y mode) := by
  have hpl := h.p_le
  have hpg := h.p_ge
  have hmg := h.min_ge
  have hMl := h.max_le
  have h4 := h.pow_le
  have h2 := h.two_pow
  have hmin := h.min_lt
  obtain ⟨v1, v2, v3, v4, v5, v6⟩ := hx.normal cx
  obtain ⟨w1, w2, w3, w4, w5, w6⟩ := hy.normal cy
  unfold addNormals
  have hdl : ∀ n k : ℕ, n / 2 ^ k ≤ n := fun n k => Nat.div_le_self _ _
  obtain ⟨o, o1, o2, o3, o4, o5, ⟨f, o6, o7⟩, o8, o9⟩ := addOrSub_ok (a := [x.sig]) (b := [y.sig]) (ea := x.exp) (eb := y.exp)
    (sa := x.sign) (sb := y.sign) (Limbs.one (by omega)) (Limbs.one (by omega)) rfl
    (by simp only [val_singleton, List.length_cons, List.length_nil]; omega)
    (by simp only [val_singleton, List.length_cons, List.length_nil]; omega) (by omega) (by omega) (by omega) (by omega)
    (by
      intro _ he
      right
      simp only [val_singleton]
      have := hdl y.sig (x.exp - y.exp - 1).toNat
      omega)
    (by
      intro _ he
      right
      simp only [val_singleton]
      have := hdl x.sig (y.exp - x.exp - 1).toNat
      omega)
  unfold isNegative
  rw [o1, M.ok_bind]
  simp only [val_singleton] at o7 o8
  have hsig : ∃ n, o.sig = [n] ∧ n < 2 ^ 128 := by
    match hh : o.sig, o2 with
    | [n], _ =>
      refine ⟨n, rfl, ?_⟩
      rw [hh] at o3
      exact o3.head
  obtain ⟨n, hn, hn2⟩ := hsig
  rw [hn] at o7 o8 ⊢
  simp only [val_singleton] at o7 o8
  rw [idx_singleton, M.ok_bind]
  simp only [withSign_eq]
  -- the exact sum
  have hsum : x.toRat + y.toRat = signed o.sign (((n : ℚ) + f) * 2 ^ (o.exp - S.precision + 1)) := by
    rw [toRat_normal cx, toRat_normal cy]
    have hsc : ∀ e : ℤ, (2 : ℚ) ^ (e - S.precision + 1) = 2 ^ e * 2 ^ (1 - S.precision : ℤ) := by
      intro e; rw [← two_zpow_add]; congr 1; ring
    rw [hsc, hsc, hsc, ← mul_assoc, ← mul_assoc, ← mul_assoc,
      signed_mul _ ((x.sig : ℚ) * 2 ^ x.exp), signed_mul _ ((y.sig : ℚ) * 2 ^ y.exp), signed_mul _ (((n : ℚ) + f) * 2 ^ o.exp),
      ← add_mul, ← o7]
  have hf0 := o6.nonneg
  have hm0 : 0 ≤ ((n : ℚ) + f) * 2 ^ (o.exp - S.precision + 1) :=
    mul_nonneg (by positivity) (two_zpow_pos _).le
  have hnl : o.loss ≠ .exactlyZero → S.precision ≤ Nat.size n := by
    intro hne
    obtain ⟨big, small, hbs, hb1, hb2⟩ := o8 hne
    have hbig : 2 ^ (S.precision - 1) ≤ big := by omega
    have hsmall : small < 2 ^ S.precision := by omega
    have : 2 ^ (S.precision - 1) ≤ n := by
      by_cases hss : x.sign = y.sign
      · have := hb1 hss; omega
      · have := hb2 hss; omega
    by_contra hc
    have : n < 2 ^ (S.precision - 1) := Nat.size_le.1 (by omega)
    omega
  refine ⟨o.sign, _, hm0, hsum, ?_⟩
  have hG : Good S om (x.toRat + y.toRat) o.sign
      (({ x with sig := n, exp := o.exp, sign := o.sign } : IeeeFloat S).normalize mode o.loss) := by
    refine normalize_eff' h (x := { x with sig := n, exp := o.exp, sign := o.sign }) cx hn2 (by simp only []; omega)
      (by simp only []; omega) o6 (fun hne _ => Or.inl (hnl hne)) ?_ hO
    rw [hsum]
    simp only []
    by_cases hn0 : n = 0
    · have hz : o.loss = .exactlyZero := by
        by_contra hne
        have := hnl hne
        rw [hn0] at this
        simp at this
        omega
      have : f = 0 := o6.zero_iff.1 hz
      simp [hn0, this]
    · simp only [if_neg hn0]
  obtain ⟨r, r1, r2, r3, r4⟩ := hG
  refine ⟨r, ?_, r2, r3, r4⟩
  rw [r1, M.ok_bind]
  have hass : r.value.category ≠ .zero ∨ o.loss = .exactlyZero := by
    by_contra hc
    push Not at hc
    obtain ⟨hc1, hc2⟩ := hc
    obtain ⟨g, hg, ⟨g1, g2, g3⟩ | ⟨g1, g2⟩⟩ := r4
    · have : g = 0 := by
        have := g2
        simp only [datum, hc1] at this
        injection this with _ this
        exact this.symm
      subst this
      have h0 := hg.zero_of_unit (by simp; omega) (sum_unit h hx hy cx cy)
      have hn1 := hnl hc2
      have hn0 : 0 < n := by
        by_contra hz
        have : n = 0 := by omega
        rw [this] at hn1; simp at hn1; omega
      rw [hsum] at h0
      have hnq : (0 : ℚ) < n := by exact_mod_cast hn0
      have : 0 < ((n : ℚ) + f) * 2 ^ (o.exp - S.precision + 1) := mul_pos (by linarith) (two_zpow_pos _)
      rw [signed_eq_zero] at h0
      linarith
    · have := (Prod.ext_iff.1 g2).1
      simp only [datum, hc1] at this
      exact overflowed_ne_zero h _ _ _ this
  rw [massert_pos hass, M.ok_bind]

theorem addNormals_good (h : S.OK) {x y : IeeeFloat S} (hx : x.Valid) (hy : y.Valid) (cx : x.category = .normal)
    (cy : y.category = .normal) (mode : Round) (hO : DirectedOK S mode (x.toRat + y.toRat)) :
    ∃ s m, 0 ≤ m ∧ x.toRat + y.toRat = signed s m ∧ Good S mode (x.toRat + y.toRat) s (addNormals x y mode) := addNormals_eff h hx hy cx cy mode (.of hO)

/-! ### The operations on finite operands -/

theorem neg_valid {x : IeeeFloat S} (hx : x.Valid) : x.neg.Valid := by
  rw [neg_eq]; exact (valid_sign _).2 hx

theorem neg_toRat (x : IeeeFloat S) : x.neg.toRat = -x.toRat := by
  rw [neg_eq]
  unfold toRat
  cases x.category <;> simp
  cases x.sign <;> simp [signed]

theorem neg_finite {x : IeeeFloat S} : x.neg.isFinite = x.isFinite := by
  rw [neg_eq]; rfl

/-- A delivered zero value belongs to a float of category zero. -/
theorem category_of_delivers_zero (h : S.OK) {x : IeeeFloat S} (hx : x.Valid) {mode : Round} {s : Bool} {st : Status}
    (hd : Delivers S.fmt mode 0 s x.datum st) : x.category = .zero := by
  have hp := h.p_ge
  obtain ⟨g, hg, hd⟩ := hd
  have hg0 : g = 0 := hg.unique (isRounded_self _ grid_zero)
  subst hg0
  rcases hd with ⟨-, h2, -⟩ | ⟨h1, -⟩
  · unfold datum at h2
    cases hc : x.category <;> rw [hc] at h2 <;> simp only [] at h2 <;> try cases h2
    · injection h2 with _ h2
      exact absurd h2 (toRat_ne_zero hx hc)
  · rw [abs_zero] at h1
    exact absurd (largest_pos h) (by linarith)

/-- A delivered zero that stands for a multiple of the unit is exact. -/
theorem exact_of_zero (h : S.OK) {x : IeeeFloat S} (hc : x.category = .zero) {mode : Round} {v : ℚ} {s : Bool} {st : Status}
    (hd : Delivers S.fmt mode v s x.datum st) (hu : ∃ k : ℤ, v = k * 2 ^ (S.fmt.emin - S.fmt.p + 1)) :
    v = 0 ∧ st = Status.OK := by
  have hp := h.p_ge
  have hdat : x.datum = .num x.sign 0 := by simp [datum, hc]
  rw [hdat] at hd
  obtain ⟨g, hg, ⟨g1, g2, g3⟩ | ⟨g1, g2⟩⟩ := hd
  · injection g2 with _ g2
    subst g2
    have h0 := hg.zero_of_unit (by simp; omega) hu
    subst h0
    refine ⟨rfl, ?_⟩
    rw [g3]; simp [Status.OK]
  · exact absurd (Prod.ext_iff.1 g2).1 (overflowed_ne_zero h _ _ _)

theorem addR_eff (h : S.OK) {x y : IeeeFloat S} (hx : x.Valid) (hy : y.Valid) (fx : x.isFinite = true) (fy : y.isFinite = true)
    (mode : Round) {om : Round} (hO : Effective S mode (x.toRat + y.toRat) om) :
    ∃ r, addR x y mode = .ok r ∧ r.value.Valid ∧ Rounds S om (x.toRat + y.toRat) (zeroSum mode x.sign y.sign) r := by
  rcases isFinite_iff.1 fx with cx | cx <;> rcases isFinite_iff.1 fy with cy | cy
  · obtain ⟨s, m, hm, hsum, hg⟩ := addNormals_eff h hx hy cx cy mode hO
    obtain ⟨r, r1, r2, r3, r4⟩ := hg
    have e : addR x y mode = .ok (r.map (fixZeroSign · y mode)) := by
      unfold addR
      rw [cx, cy]
      simp only []
      rw [r1, M.ok_bind]
    refine ⟨_, e, ?_, ?_⟩
    · simp only [StatusAnd.map, fixZeroSign]
      split_ifs
      · rw [withSign_eq, valid_sign]; exact r2
      · exact r2
    · by_cases hz : r.value.category = .zero
      · obtain ⟨hv0, hst⟩ := exact_of_zero h hz r4 (sum_unit h hx hy cx cy)
        have hfix : fixZeroSign r.value y mode = { r.value with sign := decide (mode = .towardNegative) } := by
          unfold fixZeroSign
          rw [if_pos ⟨hz, Or.inl (by rw [cy]; simp)⟩, withSign_eq]
        have hne : x.sign ≠ y.sign := by
          intro hs
          have h1 := toRat_pos_of_normal hx cx
          have h2 := toRat_pos_of_normal hy cy
          rw [toRat_normal cx, toRat_normal cy, hs] at hv0
          rw [← signed_add, signed_eq_zero] at hv0
          linarith
        have := exact_rounds h (x := { r.value with sign := decide (mode = .towardNegative) }) ((valid_sign _).2 r2)
          (isFinite_iff.2 (Or.inr hz)) om (zs := zeroSum mode x.sign y.sign)
          (fun _ => by simp [zeroSum, hne])
        rw [toRat_zero (x := { r.value with sign := decide (mode = .towardNegative) }) hz, ← hv0] at this
        simp only [StatusAnd.map, hfix, hst]
        exact this
      · have hfix : fixZeroSign r.value y mode = r.value := by
          unfold fixZeroSign
          rw [if_neg (fun hh => hz hh.1)]
        obtain ⟨r', q1, q2, q3⟩ := Good.rounds (zs := zeroSum mode x.sign y.sign)
          (⟨r, r1, r2, r3, r4⟩ : Good S om (x.toRat + y.toRat) s (addNormals x y mode)) ⟨m, hm, hsum⟩
          (fun hv0 => absurd (category_of_delivers_zero h r2 (by rw [← hv0]; exact r4)) hz)
        rw [r1] at q1
        injection q1 with q1
        subst q1
        simp only [StatusAnd.map, hfix]
        exact q3
  · have e : addR x y mode = .ok ⟨Status.OK, x⟩ := by
      unfold addR
      rw [cx, cy]
      simp only [fixZeroSign, cx, Status.and]
      simp
    refine ⟨_, e, hx, ?_⟩
    rw [toRat_zero cy, add_zero]
    exact exact_rounds h hx fx om (fun hc => by rw [cx] at hc; cases hc)
  · have e : addR x y mode = .ok ⟨Status.OK, y⟩ := by
      unfold addR
      rw [cx, cy]
      simp only [fixZeroSign, cy, Status.and]
      simp
    refine ⟨_, e, hy, ?_⟩
    rw [toRat_zero cx, zero_add]
    exact exact_rounds h hy fy om (fun hc => by rw [cy] at hc; cases hc)
  · have e : addR x y mode = .ok ⟨Status.OK, { x with sign := zeroSum mode x.sign y.sign }⟩ := by
      unfold addR
      rw [cx, cy]
      simp only [fixZeroSign, cx, cy, Status.and, withSign_eq, isNegative, zeroSum]
      by_cases hs : x.sign = y.sign <;> simp [hs]
      rw [← hs, ← cx]
    refine ⟨_, e, (valid_sign _).2 hx, ?_⟩
    have := exact_rounds h (x := { x with sign := zeroSum mode x.sign y.sign }) ((valid_sign _).2 hx)
          (isFinite_iff.2 (Or.inr cx)) om (zs := zeroSum mode x.sign y.sign) (fun _ => rfl)
    rw [toRat_zero (x := { x with sign := zeroSum mode x.sign y.sign }) cx] at this
    rw [toRat_zero cx, toRat_zero cy, add_zero]
    exact this

theorem addR_finite (h : S.OK) {x y : IeeeFloat S} (hx : x.Valid) (hy : y.Valid) (fx : x.isFinite = true) (fy : y.isFinite = true)
    (mode : Round) (hO : DirectedOK S mode (x.toRat + y.toRat)) :
    ∃ r, addR x y mode = .ok r ∧ r.value.Valid ∧ Rounds S mode (x.toRat + y.toRat) (zeroSum mode x.sign y.sign) r := addR_eff h hx hy fx fy mode (.of hO)

theorem subR_eq {x y : IeeeFloat S} (fx : x.isNan = false) (fy : y.isNan = false) (mode : Round) :
    subR x y mode = addR x y.neg mode := by
  unfold isNan at fx fy
  unfold subR
  cases hx : x.category <;> cases hy : y.category <;> simp [hx, hy] at fx fy ⊢

theorem not_nan_of_finite {x : IeeeFloat S} (fx : x.isFinite = true) : x.isNan = false := by
  rcases isFinite_iff.1 fx with c | c <;> simp [isNan, c]

theorem subR_eff (h : S.OK) {x y : IeeeFloat S} (hx : x.Valid) (hy : y.Valid) (fx : x.isFinite = true) (fy : y.isFinite = true)
    (mode : Round) {om : Round} (hO : Effective S mode (x.toRat - y.toRat) om) :
    ∃ r, subR x y mode = .ok r ∧ r.value.Valid ∧ Rounds S om (x.toRat - y.toRat) (zeroSum mode x.sign (!y.sign)) r := by
  have := addR_eff h hx (neg_valid hy) fx (by rw [neg_finite]; exact fy) mode
    (by rw [neg_toRat, ← sub_eq_add_neg]; exact hO)
  rw [neg_toRat, ← sub_eq_add_neg, ← subR_eq (not_nan_of_finite fx) (not_nan_of_finite fy)] at this
  rw [neg_eq] at this
  exact this

theorem subR_finite (h : S.OK) {x y : IeeeFloat S} (hx : x.Valid) (hy : y.Valid) (fx : x.isFinite = true) (fy : y.isFinite = true)
    (mode : Round) (hO : DirectedOK S mode (x.toRat - y.toRat)) :
    ∃ r, subR x y mode = .ok r ∧ r.value.Valid ∧ Rounds S mode (x.toRat - y.toRat) (zeroSum mode x.sign (!y.sign)) r := subR_eff h hx hy fx fy mode (.of hO)

/-- A zero delivered by a sign-copying arm. -/
theorem zero_rounds (h : S.OK) (mode : Round) (s : Bool) :
    ({ ZERO S with sign := s } : IeeeFloat S).Valid ∧ Rounds S mode 0 s ⟨Status.OK, { ZERO S with sign := s }⟩ := by
  have hv : ({ ZERO S with sign := s } : IeeeFloat S).Valid := rfl
  refine ⟨hv, ?_⟩
  exact exact_rounds h (x := { ZERO S with sign := s }) hv rfl mode (fun _ => rfl)

theorem mulR_eff (h : S.OK) {x y : IeeeFloat S} (hx : x.Valid) (hy : y.Valid) (fx : x.isFinite = true) (fy : y.isFinite = true)
    (mode : Round) {om : Round} (hO : Effective S mode (x.toRat * y.toRat) om) :
    ∃ r, mulR x y mode = .ok r ∧ r.value.Valid ∧ Rounds S om (x.toRat * y.toRat) (xor x.sign y.sign) r := by
  have hcat : (x.negateIf y.isNegative).category = x.category := by rw [negateIf_eq]
  have hzero : x.category = .zero ∨ y.category = .zero →
      mulR x y mode = .ok ⟨Status.OK, { ZERO S with sign := xor x.sign y.sign }⟩ := by
    intro hz
    unfold mulR
    simp only [hcat]
    rcases isFinite_iff.1 fx with cx | cx <;> rcases isFinite_iff.1 fy with cy | cy <;> rw [cx, cy] <;>
      simp only [copySign_eq, negateIf_eq, isNegative, Status.and]
    rw [cx, cy] at hz
    simp at hz
  rcases isFinite_iff.1 fx with cx | cx <;> rcases isFinite_iff.1 fy with cy | cy
  · have e : mulR x y mode = mulNormals { x with sign := xor x.sign y.sign } y mode := by
      unfold mulR
      simp only [hcat]
      rw [cx, cy]
      simp only [negateIf_eq, isNegative, cx]
    rw [e]
    have hv : x.toRat * y.toRat = signed (xor x.sign y.sign)
        (((x.sig : ℚ) * 2 ^ (x.exp - S.precision + 1)) * ((y.sig : ℚ) * 2 ^ (y.exp - S.precision + 1))) := by
      rw [signed_mul_signed, toRat_normal cx, toRat_normal cy]
    refine (mulNormals_eff h hx hy cx cy _ mode hv hO).rounds ⟨_, ?_, hv⟩ ?_
    · exact (mul_pos (toRat_pos_of_normal hx cx) (toRat_pos_of_normal hy cy)).le
    · intro h0
      exact absurd h0 (mul_ne_zero (toRat_ne_zero hx cx) (toRat_ne_zero hy cy))
  all_goals
    refine ⟨_, hzero (by simp [cx, cy]), ?_⟩
    have hv : x.toRat * y.toRat = 0 := by simp [toRat, cx, cy]
    rw [hv]
    exact zero_rounds h om _

theorem mulR_finite (h : S.OK) {x y : IeeeFloat S} (hx : x.Valid) (hy : y.Valid) (fx : x.isFinite = true) (fy : y.isFinite = true)
    (mode : Round) (hO : DirectedOK S mode (x.toRat * y.toRat)) :
    ∃ r, mulR x y mode = .ok r ∧ r.value.Valid ∧ Rounds S mode (x.toRat * y.toRat) (xor x.sign y.sign) r := mulR_eff h hx hy fx fy mode (.of hO)

theorem divR_eff (h : S.OK) {x y : IeeeFloat S} (hx : x.Valid) (hy : y.Valid) (fx : x.isFinite = true) (fy : y.isFinite = true)
    (hy0 : y.toRat ≠ 0) (mode : Round) {om : Round} (hO : Effective S mode (x.toRat / y.toRat) om) :
    ∃ r, divR x y mode = .ok r ∧ r.value.Valid ∧ Rounds S om (x.toRat / y.toRat) (xor x.sign y.sign) r := by
  have hcat : (x.negateIf y.isNegative).category = x.category := by rw [negateIf_eq]
  rcases isFinite_iff.1 fy with cy | cy
  rcases isFinite_iff.1 fx with cx | cx
  · have e : divR x y mode = divNormals { x with sign := xor x.sign y.sign } y mode := by
      unfold divR
      simp only [hcat]
      rw [cx, cy]
      simp only [negateIf_eq, isNegative, cx]
    rw [e]
    have hv : x.toRat / y.toRat = signed (xor x.sign y.sign)
        (((x.sig : ℚ) * 2 ^ (x.exp - S.precision + 1)) / ((y.sig : ℚ) * 2 ^ (y.exp - S.precision + 1))) := by
      rw [signed_div_signed, toRat_normal cx, toRat_normal cy]
    refine (divNormals_eff h hx hy cx cy _ mode hv hO).rounds ⟨_, ?_, hv⟩ ?_
    · exact (div_pos (toRat_pos_of_normal hx cx) (toRat_pos_of_normal hy cy)).le
    · intro h0
      exact absurd h0 (div_ne_zero (toRat_ne_zero hx cx) (toRat_ne_zero hy cy))
  · have e : divR x y mode = .ok ⟨Status.OK, { x with sign := xor x.sign y.sign }⟩ := by
      unfold divR
      simp only [hcat]
      rw [cx, cy]
      simp only [negateIf_eq, isNegative, Status.and, cx]
    refine ⟨_, e, (valid_sign _).2 hx, ?_⟩
    have := exact_rounds h (x := { x with sign := xor x.sign y.sign }) ((valid_sign _).2 hx)
          (isFinite_iff.2 (Or.inr cx)) om (zs := xor x.sign y.sign) (fun _ => rfl)
    rw [toRat_zero (x := { x with sign := xor x.sign y.sign }) cx] at this
    rw [toRat_zero cx, zero_div]
    exact this
  · exact absurd (toRat_zero cy) hy0

theorem divR_finite (h : S.OK) {x y : IeeeFloat S} (hx : x.Valid) (hy : y.Valid) (fx : x.isFinite = true) (fy : y.isFinite = true)
    (hy0 : y.toRat ≠ 0) (mode : Round) (hO : DirectedOK S mode (x.toRat / y.toRat)) :
    ∃ r, divR x y mode = .ok r ∧ r.value.Valid ∧ Rounds S mode (x.toRat / y.toRat) (xor x.sign y.sign) r := divR_eff h hx hy fx fy hy0 mode (.of hO)

end IeeeFloat
end Apf
