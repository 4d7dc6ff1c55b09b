import Verif.Props.Bits
/-! # C15 and C16: comparison, minimum and maximum -/

namespace Apf
open Spec IeeeFloat

variable {S : Sem}

/-- The strict order of the extended reals. -/
def Spec.Datum.lt (a b : Datum) : Prop := Datum.le a b ∧ ¬ Datum.le b a

/-- The part of well-formedness that comparison relies on: significands are normalized unless the exponent is the least. -/
def IeeeFloat.Canon (x : IeeeFloat S) : Prop :=
  x.category = .normal →
    S.minExp ≤ x.exp ∧ 0 < x.sig ∧ x.sig < 2 ^ S.precision ∧ (2 ^ (S.precision - 1) ≤ x.sig ∨ x.exp = S.minExp)

theorem Valid.canon {x : IeeeFloat S} (hx : x.Valid) : x.Canon := fun cx =>
  ⟨(Valid.normal hx cx).1, (Valid.normal hx cx).2.2.1, (Valid.normal hx cx).2.2.2.1, (Valid.normal hx cx).2.2.2.2.1⟩

/-- A larger exponent is a larger magnitude. -/
theorem mag_lt_of_exp_canon {x y : IeeeFloat S} (h : S.OK) (hx : x.Canon) (hy : y.Canon) (cx : x.category = .normal)
    (cy : y.category = .normal) (he : x.exp < y.exp) :
    (x.sig : ℚ) * 2 ^ (x.exp - S.precision + 1) < (y.sig : ℚ) * 2 ^ (y.exp - S.precision + 1) := by
  have h2 := h.two_pow
  obtain ⟨x1, x3, x4, x5⟩ := hx cx
  obtain ⟨y1, y3, y4, y5⟩ := hy cy
  have hy2 : 2 ^ (S.precision - 1) ≤ y.sig := by omega
  calc (x.sig : ℚ) * 2 ^ (x.exp - S.precision + 1) < (2 * 2 ^ (S.precision - 1) : ℕ) * 2 ^ (x.exp - S.precision + 1) := by
        apply mul_lt_mul_of_pos_right _ (two_zpow_pos _)
        exact_mod_cast (by omega : x.sig < 2 * 2 ^ (S.precision - 1))
    _ = (2 ^ (S.precision - 1) : ℕ) * 2 ^ (x.exp + 1 - S.precision + 1) := by
        rw [show x.exp + 1 - (S.precision : ℤ) + 1 = (x.exp - S.precision + 1) + 1 by ring, two_zpow_add (x.exp - (S.precision : ℤ) + 1) 1,
          zpow_one]
        push_cast
        generalize (2:ℚ) ^ (x.exp - (S.precision : ℤ) + 1) = a
        ring
    _ ≤ (y.sig : ℚ) * 2 ^ (y.exp - S.precision + 1) := by
        apply mul_le_mul _ _ (two_zpow_pos _).le (by positivity)
        · exact_mod_cast hy2
        · exact zpow_le_zpow_right₀ (by norm_num) (by omega)

theorem cmpAbsNormal_eq_canon (h : S.OK) {x y : IeeeFloat S} (hx : x.Canon) (hy : y.Canon) (cx : x.category = .normal)
    (cy : y.category = .normal) : cmpAbsNormal x y = .ok (compare |x.toRat| |y.toRat|) := by
  have hple := h.pow_le
  rw [toRat_normal cx, toRat_normal cy, abs_signed _ (by positivity), abs_signed _ (by positivity)]
  obtain ⟨x1, x3, x4, x5⟩ := hx cx
  obtain ⟨y1, y3, y4, y5⟩ := hy cy
  unfold cmpAbsNormal
  rw [massert_pos (isFiniteNonZero_of cx), massert_pos (isFiniteNonZero_of cy)]
  simp only [bind, Except.bind]
  rcases lt_trichotomy x.exp y.exp with c | c | c
  · rw [show compare x.exp y.exp = .lt from compare_lt_iff_lt.2 c]
    simp only
    rw [(compare_lt_iff_lt.2 (mag_lt_of_exp_canon h hx hy cx cy c))]
  · rw [show compare x.exp y.exp = .eq from compare_eq_iff_eq.2 c]
    simp only
    rw [cmp_ok (Limbs.one (show x.sig < _ by omega)) (Limbs.one (show y.sig < _ by omega)) rfl, val_singleton, val_singleton, c]
    congr 1
    rcases lt_trichotomy x.sig y.sig with d | d | d
    · rw [compare_lt_iff_lt.2 d, eq_comm, compare_lt_iff_lt]
      exact mul_lt_mul_of_pos_right (by exact_mod_cast d) (two_zpow_pos _)
    · rw [compare_eq_iff_eq.2 d, eq_comm, compare_eq_iff_eq, d]
    · rw [compare_gt_iff_gt.2 d, eq_comm, compare_gt_iff_gt]
      exact mul_lt_mul_of_pos_right (by exact_mod_cast d) (two_zpow_pos _)
  · rw [show compare x.exp y.exp = .gt from compare_gt_iff_gt.2 c]
    simp only
    rw [(compare_gt_iff_gt.2 (mag_lt_of_exp_canon h hy hx cy cx c))]

theorem sign_pos_canon {x : IeeeFloat S} (hx : x.Canon) (c : x.category = .normal) (s : x.sign = false) :
    0 < x.toRat ∧ |x.toRat| = x.toRat := by
  have hp : 0 < (x.sig : ℚ) * 2 ^ (x.exp - S.precision + 1) := mul_pos (by exact_mod_cast (hx c).2.1) (two_zpow_pos _)
  rw [toRat_normal c, s]
  simp only [signed, Bool.false_eq_true, if_false]
  exact ⟨hp, abs_of_pos hp⟩

theorem sign_neg_canon {x : IeeeFloat S} (hx : x.Canon) (c : x.category = .normal) (s : x.sign = true) :
    x.toRat < 0 ∧ |x.toRat| = -x.toRat := by
  have hp : 0 < (x.sig : ℚ) * 2 ^ (x.exp - S.precision + 1) := mul_pos (by exact_mod_cast (hx c).2.1) (two_zpow_pos _)
  rw [toRat_normal c, s]
  simp only [signed, if_true]
  exact ⟨by linarith, by rw [abs_neg, abs_of_pos hp]; ring⟩

theorem boolCmp_ff : boolCmp false false = .eq := rfl
theorem boolCmp_ft : boolCmp false true = .lt := rfl
theorem boolCmp_tf : boolCmp true false = .gt := rfl
theorem boolCmp_tt : boolCmp true true = .eq := rfl

/-- Comparison of finite values. -/
theorem partialCmp_finite_canon (h : S.OK) {x y : IeeeFloat S} (hx : x.Canon) (hy : y.Canon) (fx : x.isFinite = true)
    (fy : y.isFinite = true) : partialCmp x y = .ok (some (compare x.toRat y.toRat)) := by
  unfold partialCmp isNegative
  rcases isFinite_iff.1 fx with cx | cx <;> rcases isFinite_iff.1 fy with cy | cy <;> simp only [cx, cy]
  · cases sx : x.sign <;> cases sy : y.sign
    · simp only [show boolCmp (!false) (!false) = .eq from rfl]
      rw [cmpAbsNormal_eq_canon h hx hy cx cy, (sign_pos_canon hx cx sx).2, (sign_pos_canon hy cy sy).2]
      rfl
    · have a := (sign_pos_canon hx cx sx).1
      have b := (sign_neg_canon hy cy sy).1
      simp only [show boolCmp (!false) (!true) = .gt from rfl]
      rw [compare_gt_iff_gt.2 (b.trans a)]
    · have a := (sign_neg_canon hx cx sx).1
      have b := (sign_pos_canon hy cy sy).1
      simp only [show boolCmp (!true) (!false) = .lt from rfl]
      rw [compare_lt_iff_lt.2 (a.trans b)]
    · simp only [show boolCmp (!true) (!true) = .eq from rfl]
      rw [cmpAbsNormal_eq_canon h hx hy cx cy, (sign_neg_canon hx cx sx).2, (sign_neg_canon hy cy sy).2]
      simp only [bind, Except.bind, if_true]
      congr 2
      rcases lt_trichotomy x.toRat y.toRat with d | d | d
      · rw [compare_lt_iff_lt.2 d, (compare_gt_iff_gt (a := -x.toRat) (b := -y.toRat)).2 (by show -y.toRat < _; linarith)]; rfl
      · rw [compare_eq_iff_eq.2 d, (compare_eq_iff_eq (a := -x.toRat) (b := -y.toRat)).2 (by linarith)]; rfl
      · rw [compare_gt_iff_gt.2 d, (compare_lt_iff_lt (a := -x.toRat) (b := -y.toRat)).2 (by linarith)]; rfl
  · rw [toRat_zero cy]
    cases sx : x.sign
    · rw [compare_gt_iff_gt.2 (sign_pos_canon hx cx sx).1]; rfl
    · rw [compare_lt_iff_lt.2 (sign_neg_canon hx cx sx).1]; rfl
  · rw [toRat_zero cx]
    cases sy : y.sign
    · rw [compare_lt_iff_lt.2 (sign_pos_canon hy cy sy).1]; rfl
    · rw [compare_gt_iff_gt.2 (sign_neg_canon hy cy sy).1]; rfl
  · rw [toRat_zero cx, toRat_zero cy, compare_eq_iff_eq.2 rfl]

theorem mag_lt_of_exp {x y : IeeeFloat S} (h : S.OK) (hx : x.Valid) (hy : y.Valid) (cx : x.category = .normal)
    (cy : y.category = .normal) (he : x.exp < y.exp) :
    (x.sig : ℚ) * 2 ^ (x.exp - S.precision + 1) < (y.sig : ℚ) * 2 ^ (y.exp - S.precision + 1) :=
  mag_lt_of_exp_canon h (Valid.canon hx) (Valid.canon hy) cx cy he

theorem cmpAbsNormal_eq (h : S.OK) {x y : IeeeFloat S} (hx : x.Valid) (hy : y.Valid) (cx : x.category = .normal)
    (cy : y.category = .normal) : cmpAbsNormal x y = .ok (compare |x.toRat| |y.toRat|) :=
  cmpAbsNormal_eq_canon h (Valid.canon hx) (Valid.canon hy) cx cy

/-- **C15.** `cmp_abs_normal` orders the absolute values. -/
theorem C15_cmp_abs_normal (h : S.OK) {x y : IeeeFloat S} (hx : x.Valid) (hy : y.Valid)
    (nx : x.isFiniteNonZero = true) (ny : y.isFiniteNonZero = true) :
    ∃ o, cmpAbsNormal x y = .ok o ∧ (o = .lt ↔ |x.toRat| < |y.toRat|) ∧ (o = .eq ↔ |x.toRat| = |y.toRat|) ∧
      (o = .gt ↔ |y.toRat| < |x.toRat|) :=
  ⟨_, cmpAbsNormal_eq h hx hy ((isFiniteNonZero_iff x).1 nx) ((isFiniteNonZero_iff y).1 ny),
    compare_lt_iff_lt, compare_eq_iff_eq, compare_gt_iff_gt⟩

example := C15_cmp_abs_normal singleS_ok (x := ⟨3 * 2 ^ 22, 0, .normal, false⟩) (y := ⟨3 * 2 ^ 22, 1, .normal, true⟩) (by decide) (by decide) rfl rfl

theorem sign_pos {x : IeeeFloat S} (hx : x.Valid) (c : x.category = .normal) (s : x.sign = false) :
    0 < x.toRat ∧ |x.toRat| = x.toRat := sign_pos_canon (Valid.canon hx) c s

theorem sign_neg {x : IeeeFloat S} (hx : x.Valid) (c : x.category = .normal) (s : x.sign = true) :
    x.toRat < 0 ∧ |x.toRat| = -x.toRat := sign_neg_canon (Valid.canon hx) c s

theorem partialCmp_finite (h : S.OK) {x y : IeeeFloat S} (hx : x.Valid) (hy : y.Valid) (fx : x.isFinite = true)
    (fy : y.isFinite = true) : partialCmp x y = .ok (some (compare x.toRat y.toRat)) :=
  partialCmp_finite_canon h (Valid.canon hx) (Valid.canon hy) fx fy

/-- **C15.** `partial_cmp` returns normally, gives `None` exactly when an operand is NaN, and otherwise the order of the
extended real numbers the operands denote (the two zeros being equal). -/
theorem C15_partial_cmp (h : S.OK) {x y : IeeeFloat S} (hx : x.Valid) (hy : y.Valid) :
    ∃ o, partialCmp x y = .ok o ∧ (o = none ↔ x.datum = .nan ∨ y.datum = .nan) ∧
      (o = some .lt ↔ x.datum.lt y.datum) ∧ (o = some .gt ↔ y.datum.lt x.datum) ∧
      (o = some .eq ↔ x.datum.le y.datum ∧ y.datum.le x.datum) := by
  by_cases fx : x.isFinite = true
  · by_cases fy : y.isFinite = true
    · refine ⟨_, partialCmp_finite h hx hy fx fy, ?_⟩
      rw [datum_finite fx, datum_finite fy]
      simp only [Datum.lt, Datum.le, reduceCtorEq, or_self, Option.some.injEq, true_and, compare_lt_iff_lt,
        compare_gt_iff_gt, compare_eq_iff_eq]
      refine ⟨?_, ?_, ?_⟩
      · constructor
        · intro e; exact ⟨e.le, not_le.2 e⟩
        · rintro ⟨-, e⟩; exact not_le.1 e
      · constructor
        · intro e; exact ⟨e.le, not_le.2 e⟩
        · rintro ⟨-, e⟩; exact not_le.1 e
      · constructor
        · intro e; exact ⟨e.le, e.ge⟩
        · rintro ⟨a, b⟩; exact le_antisymm a b
    · rw [datum_finite fx]
      rw [isFinite_iff] at fx fy
      unfold partialCmp isNegative datum
      cases cy : y.category
      · rcases fx with cx | cx <;> simp only [cx] <;> cases sy : y.sign <;>
          exact ⟨_, rfl, by simp [Datum.lt, Datum.le, boolCmp_ft, boolCmp_tf]⟩
      · rcases fx with cx | cx <;> simp only [cx] <;> exact ⟨_, rfl, by simp [Datum.lt, Datum.le]⟩
      · exact absurd (Or.inl cy) fy
      · exact absurd (Or.inr cy) fy
  · rw [isFinite_iff] at fx
    unfold partialCmp isNegative datum
    cases cx : x.category
    · cases cy : y.category <;> simp only <;> cases sx : x.sign <;> cases sy : y.sign <;>
        exact ⟨_, rfl, by simp [Datum.lt, Datum.le, boolCmp_ff, boolCmp_ft, boolCmp_tf, boolCmp_tt]⟩
    · cases cy : y.category <;> exact ⟨_, rfl, by simp [Datum.lt, Datum.le]⟩
    · exact absurd (Or.inl cx) fx
    · exact absurd (Or.inr cx) fx

example := C15_partial_cmp singleS_ok (x := ⟨3 * 2 ^ 22, 1, .normal, true⟩) (y := (ZERO singleS).neg) (by decide) (by decide)

/-- The comparison operators never panic and agree with `partial_cmp`, hence with the order of the extended reals. -/
theorem C15_operators (h : S.OK) {x y : IeeeFloat S} (hx : x.Valid) (hy : y.Valid) :
    ∃ e l g k, eq x y = .ok e ∧ lt x y = .ok l ∧ gt x y = .ok g ∧ ge x y = .ok k ∧
      (e = true ↔ x.datum.le y.datum ∧ y.datum.le x.datum) ∧ (l = true ↔ x.datum.lt y.datum) ∧
      (g = true ↔ y.datum.lt x.datum) ∧ (k = true ↔ y.datum.le x.datum) := by
  obtain ⟨o, h1, h2, h3, h4, h5⟩ := C15_partial_cmp h hx hy
  unfold eq lt gt ge
  rw [h1]
  refine ⟨_, _, _, _, rfl, rfl, rfl, rfl, ?_, ?_, ?_, ?_⟩
  · rw [decide_eq_true_iff, h5]
  · rw [decide_eq_true_iff, h3]
  · rw [decide_eq_true_iff, h4]
  · rw [decide_eq_true_iff, h4, h5]
    unfold Datum.lt
    constructor
    · rintro (a | a); exacts [a.1, a.2]
    · intro a
      by_cases b : x.datum.le y.datum
      · exact Or.inr ⟨b, a⟩
      · exact Or.inl ⟨a, b⟩

example := C15_operators singleS_ok (x := ⟨3 * 2 ^ 22, 1, .normal, true⟩) (y := ⟨5, 128, .nan, true⟩) (by decide) (by decide)

/-- Two finite values compare equal exactly when they are the same real number; `partial_cmp` is the comparison of the
two real numbers. -/
theorem C15_finite (h : S.OK) {x y : IeeeFloat S} (hx : x.Valid) (hy : y.Valid) (fx : x.isFinite = true)
    (fy : y.isFinite = true) :
    ∃ o, partialCmp x y = .ok (some o) ∧ (o = .lt ↔ x.toRat < y.toRat) ∧ (o = .eq ↔ x.toRat = y.toRat) ∧
      (o = .gt ↔ x.toRat > y.toRat) :=
  ⟨_, partialCmp_finite h hx hy fx fy, compare_lt_iff_lt, compare_eq_iff_eq, compare_gt_iff_gt⟩

example : ∃ x y : IeeeFloat doubleS, x.Valid ∧ y.Valid ∧ x.isFinite = true ∧ y.isFinite = true ∧ x.sign ≠ y.sign ∧
    partialCmp x y = .ok (some .eq) :=
  ⟨ZERO doubleS, (ZERO doubleS).neg, by decide +kernel, by decide +kernel, rfl, rfl, by decide, rfl⟩

/-! ## C16 -/

theorem not_nan_iff (x : IeeeFloat S) : x.isNan = false ↔ x.datum ≠ .nan := by
  unfold isNan datum
  cases x.category <;> simp

theorem Spec.Datum.le_total {a b : Datum} (ha : a ≠ .nan) (hb : b ≠ .nan) : a.le b ∨ b.le a := by
  cases a <;> cases b
  all_goals first | exact absurd rfl ha | exact absurd rfl hb | skip
  · rename_i m n; cases m <;> cases n <;> simp [Datum.le]
  · rename_i m n v; cases m <;> simp [Datum.le]
  · rename_i m n v; cases v <;> simp [Datum.le]
  · simp only [Datum.le]; exact _root_.le_total _ _

/-- The order in which, besides, `-0` comes before `+0`. -/
def Spec.Datum.leZ (a b : Datum) : Prop :=
  a.le b ∧ ∀ m n, a = .num m 0 → b = .num n 0 → (n = true → m = true)

theorem lt_cases (h : S.OK) {x y : IeeeFloat S} (hx : x.Valid) (hy : y.Valid) (nx : x.isNan = false)
    (ny : y.isNan = false) :
    (lt x y = .ok true ∧ x.datum.le y.datum) ∨ (lt x y = .ok false ∧ y.datum.le x.datum) := by
  obtain ⟨e, l, g, k, -, h2, -, -, -, h6, -, -⟩ := C15_operators h hx hy
  cases l
  · right
    refine ⟨h2, ?_⟩
    have : ¬ x.datum.lt y.datum := by simp [← h6]
    rcases Datum.le_total ((not_nan_iff x).1 nx) ((not_nan_iff y).1 ny) with a | a
    · by_contra b; exact this ⟨a, b⟩
    · exact a
  · exact Or.inl ⟨h2, (h6.1 rfl).1⟩

theorem Spec.Datum.le_refl {a : Datum} (ha : a ≠ .nan) : a.le a := by
  rcases Datum.le_total ha ha with h | h <;> exact h

/-- **C16.** `min`: the other operand when one is NaN, otherwise one of the operands that is below both. -/
theorem C16_min (h : S.OK) {x y : IeeeFloat S} (hx : x.Valid) (hy : y.Valid) :
    ∃ r, IeeeFloat.min x y = .ok r ∧ (r = x ∨ r = y) ∧ (x.datum = .nan → r = y) ∧ (x.datum ≠ .nan → y.datum = .nan → r = x) ∧
      (x.datum ≠ .nan → y.datum ≠ .nan → r.datum.le x.datum ∧ r.datum.le y.datum) := by
  unfold IeeeFloat.min
  cases nx : x.isNan
  · have nx' := (not_nan_iff x).1 nx
    cases ny : y.isNan
    · have ny' := (not_nan_iff y).1 ny
      rcases lt_cases h hy hx ny nx with ⟨a, b⟩ | ⟨a, b⟩
      · refine ⟨y, by simp [a, bind, Except.bind], Or.inr rfl, fun _ => rfl, fun _ e => absurd e ny',
          fun _ _ => ⟨b, Datum.le_refl ny'⟩⟩
      · refine ⟨x, by simp [a, bind, Except.bind], Or.inl rfl, fun e => absurd e nx', fun _ _ => rfl,
          fun _ _ => ⟨Datum.le_refl nx', b⟩⟩
    · have ny' : y.datum = .nan := by by_contra e; rw [(not_nan_iff y).2 e] at ny; cases ny
      exact ⟨x, by simp, Or.inl rfl, fun e => absurd e nx', fun _ _ => rfl, fun _ e => absurd ny' e⟩
  · have nx' : x.datum = .nan := by by_contra e; rw [(not_nan_iff x).2 e] at nx; cases nx
    exact ⟨y, by simp, Or.inr rfl, fun _ => rfl, fun e => absurd nx' e, fun e => absurd nx' e⟩

example := C16_min singleS_ok (x := ⟨3 * 2 ^ 22, 0, .normal, false⟩) (y := ⟨3 * 2 ^ 22, 1, .normal, true⟩) (by decide) (by decide)

/-- **C16.** `max`. -/
theorem C16_max (h : S.OK) {x y : IeeeFloat S} (hx : x.Valid) (hy : y.Valid) :
    ∃ r, IeeeFloat.max x y = .ok r ∧ (r = x ∨ r = y) ∧ (x.datum = .nan → r = y) ∧ (x.datum ≠ .nan → y.datum = .nan → r = x) ∧
      (x.datum ≠ .nan → y.datum ≠ .nan → x.datum.le r.datum ∧ y.datum.le r.datum) := by
  unfold IeeeFloat.max
  cases nx : x.isNan
  · have nx' := (not_nan_iff x).1 nx
    cases ny : y.isNan
    · have ny' := (not_nan_iff y).1 ny
      rcases lt_cases h hx hy nx ny with ⟨a, b⟩ | ⟨a, b⟩
      · refine ⟨y, by simp [a, bind, Except.bind], Or.inr rfl, fun _ => rfl, fun _ e => absurd e ny',
          fun _ _ => ⟨b, Datum.le_refl ny'⟩⟩
      · refine ⟨x, by simp [a, bind, Except.bind], Or.inl rfl, fun e => absurd e nx', fun _ _ => rfl,
          fun _ _ => ⟨Datum.le_refl nx', b⟩⟩
    · have ny' : y.datum = .nan := by by_contra e; rw [(not_nan_iff y).2 e] at ny; cases ny
      exact ⟨x, by simp, Or.inl rfl, fun e => absurd e nx', fun _ _ => rfl, fun _ e => absurd ny' e⟩
  · have nx' : x.datum = .nan := by by_contra e; rw [(not_nan_iff x).2 e] at nx; cases nx
    exact ⟨y, by simp, Or.inr rfl, fun _ => rfl, fun e => absurd nx' e, fun e => absurd nx' e⟩

example := C16_max singleS_ok (x := ⟨3 * 2 ^ 22, 0, .normal, false⟩) (y := ⟨3 * 2 ^ 22, 1, .normal, true⟩) (by decide) (by decide)

theorem datum_zero_sign {x : IeeeFloat S} (hx : x.Valid) {m : Bool} (e : x.datum = .num m 0) :
    x.isZero = true ∧ x.sign = m := by
  unfold datum at e
  cases c : x.category <;> rw [c] at e <;> simp only [reduceCtorEq, Datum.num.injEq] at e
  · exact absurd e.2 (toRat_ne_zero hx c)
  · simp [isZero, c, e.1]

theorem datum_of_zero {x : IeeeFloat S} (c : x.isZero = true) : x.datum = .num x.sign 0 := by
  have c : x.category = .zero := by simpa [isZero] using c
  simp [datum, c]

/-- The zero test of `minimum` and `maximum` fails: the zeros, if both operands are, have equal signs. -/
theorem same_zero_sign {x y : IeeeFloat S} (hx : x.Valid) (hy : y.Valid)
    (z : ¬ (x.isZero && y.isZero && (x.isNegative != y.isNegative)) = true) {m n : Bool}
    (e : x.datum = .num m 0) (e' : y.datum = .num n 0) : m = n := by
  obtain ⟨a, b⟩ := datum_zero_sign hx e
  obtain ⟨a', b'⟩ := datum_zero_sign hy e'
  simp only [a, a', isNegative, b, b', Bool.and_true, Bool.true_and, bne_iff_ne, ne_eq, not_not] at z
  exact z

theorem leZ_refl {a : Datum} (ha : a ≠ .nan) : a.leZ a :=
  ⟨Datum.le_refl ha, fun m n e e' => by rw [e] at e'; cases e'; exact id⟩

/-- **C16.** `minimum` propagates NaN and puts `-0` before `+0`. -/
theorem C16_minimum (h : S.OK) {x y : IeeeFloat S} (hx : x.Valid) (hy : y.Valid) :
    ∃ r, minimum x y = .ok r ∧ (r = x ∨ r = y) ∧ (x.datum = .nan → r = x) ∧ (x.datum ≠ .nan → y.datum = .nan → r = y) ∧
      (x.datum ≠ .nan → y.datum ≠ .nan → r.datum.leZ x.datum ∧ r.datum.leZ y.datum) := by
  unfold minimum
  cases nx : x.isNan
  · have nx' := (not_nan_iff x).1 nx
    cases ny : y.isNan
    · have ny' := (not_nan_iff y).1 ny
      simp only [Bool.false_eq_true, if_false]
      split_ifs with z s
      · simp only [Bool.and_eq_true, bne_iff_ne, isNegative] at z s
        refine ⟨x, rfl, Or.inl rfl, fun _ => rfl, fun _ e => absurd e ny', fun _ _ => ⟨leZ_refl nx', ?_⟩⟩
        rw [datum_of_zero z.1.1, datum_of_zero z.1.2]
        exact ⟨by simp [Datum.le], fun m n e _ _ => by cases e; exact s⟩
      · simp only [Bool.and_eq_true, bne_iff_ne, isNegative] at z s
        refine ⟨y, rfl, Or.inr rfl, fun e => absurd e nx', fun _ _ => rfl, fun _ _ => ⟨?_, leZ_refl ny'⟩⟩
        rw [datum_of_zero z.1.1, datum_of_zero z.1.2]
        exact ⟨by simp [Datum.le], fun m n _ e f => by cases e; exact absurd f s⟩
      · rcases lt_cases h hy hx ny nx with ⟨a, b⟩ | ⟨a, b⟩
        · refine ⟨y, by simp [a, bind, Except.bind], Or.inr rfl, fun e => absurd e nx', fun _ e => absurd e ny',
            fun _ _ => ⟨⟨b, fun m n e e' => ?_⟩, leZ_refl ny'⟩⟩
          rw [same_zero_sign hx hy z e' e]; exact id
        · refine ⟨x, by simp [a, bind, Except.bind], Or.inl rfl, fun e => absurd e nx', fun _ e => absurd e ny',
            fun _ _ => ⟨leZ_refl nx', ⟨b, fun m n e e' => ?_⟩⟩⟩
          rw [same_zero_sign hx hy z e e']; exact id
    · have ny' : y.datum = .nan := by by_contra e; rw [(not_nan_iff y).2 e] at ny; cases ny
      exact ⟨y, by simp, Or.inr rfl, fun e => absurd e nx', fun _ _ => rfl, fun _ e => absurd ny' e⟩
  · have nx' : x.datum = .nan := by by_contra e; rw [(not_nan_iff x).2 e] at nx; cases nx
    exact ⟨x, by simp, Or.inl rfl, fun _ => rfl, fun e => absurd nx' e, fun e => absurd nx' e⟩

example := C16_minimum singleS_ok (x := ZERO singleS) (y := (ZERO singleS).neg) (by decide) (by decide)

/-- **C16.** `maximum`. -/
theorem C16_maximum (h : S.OK) {x y : IeeeFloat S} (hx : x.Valid) (hy : y.Valid) :
    ∃ r, maximum x y = .ok r ∧ (r = x ∨ r = y) ∧ (x.datum = .nan → r = x) ∧ (x.datum ≠ .nan → y.datum = .nan → r = y) ∧
      (x.datum ≠ .nan → y.datum ≠ .nan → x.datum.leZ r.datum ∧ y.datum.leZ r.datum) := by
  unfold maximum
  cases nx : x.isNan
  · have nx' := (not_nan_iff x).1 nx
    cases ny : y.isNan
    · have ny' := (not_nan_iff y).1 ny
      simp only [Bool.false_eq_true, if_false]
      split_ifs with z s
      · simp only [Bool.and_eq_true, bne_iff_ne, isNegative] at z s
        refine ⟨y, rfl, Or.inr rfl, fun e => absurd e nx', fun _ _ => rfl, fun _ _ => ⟨?_, leZ_refl ny'⟩⟩
        rw [datum_of_zero z.1.1, datum_of_zero z.1.2]
        exact ⟨by simp [Datum.le], fun m n e _ _ => by cases e; exact s⟩
      · simp only [Bool.and_eq_true, bne_iff_ne, isNegative] at z s
        refine ⟨x, rfl, Or.inl rfl, fun e => absurd e nx', fun _ e => absurd e ny', fun _ _ => ⟨leZ_refl nx', ?_⟩⟩
        rw [datum_of_zero z.1.1, datum_of_zero z.1.2]
        exact ⟨by simp [Datum.le], fun m n _ e f => by cases e; exact absurd f s⟩
      · rcases lt_cases h hx hy nx ny with ⟨a, b⟩ | ⟨a, b⟩
        · refine ⟨y, by simp [a, bind, Except.bind], Or.inr rfl, fun e => absurd e nx', fun _ e => absurd e ny',
            fun _ _ => ⟨⟨b, fun m n e e' => ?_⟩, leZ_refl ny'⟩⟩
          rw [same_zero_sign hx hy z e e']; exact id
        · refine ⟨x, by simp [a, bind, Except.bind], Or.inl rfl, fun e => absurd e nx', fun _ e => absurd e ny',
            fun _ _ => ⟨leZ_refl nx', ⟨b, fun m n e e' => ?_⟩⟩⟩
          rw [same_zero_sign hx hy z e' e]; exact id
    · have ny' : y.datum = .nan := by by_contra e; rw [(not_nan_iff y).2 e] at ny; cases ny
      exact ⟨y, by simp, Or.inr rfl, fun e => absurd e nx', fun _ _ => rfl, fun _ e => absurd ny' e⟩
  · have nx' : x.datum = .nan := by by_contra e; rw [(not_nan_iff x).2 e] at nx; cases nx
    exact ⟨x, by simp, Or.inl rfl, fun _ => rfl, fun e => absurd nx' e, fun e => absurd nx' e⟩

example : ∃ x y : IeeeFloat singleS, x.Valid ∧ y.Valid ∧ x.datum ≠ .nan ∧ y.datum ≠ .nan ∧ x.sign = false ∧
    y.sign = true ∧ minimum x y = .ok y ∧ IeeeFloat.min x y = .ok x :=
  ⟨ZERO singleS, (ZERO singleS).neg, by decide +kernel, by decide +kernel, nofun, nofun, rfl, rfl, rfl, rfl⟩

end Apf
