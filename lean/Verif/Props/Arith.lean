import Verif.Proof.Special
import Verif.Spec.Formats
/-!
# C04 – C07, C09 – C12, C36, C37: addition, subtraction, multiplication, division

The specification is `Verif.Spec.Rounding` (`IsRounded`, `overflowed`, `Delivers`) and the small vocabulary
of `Verif.Spec.Float` (`toRat`, `datum`, `Valid`, `SignRule`, `Rounds`).  Every statement is for an arbitrary
format `S` meeting `Sem.OK`; `formats_ok` (`Verif.Spec.Formats`) shows that all formats of the crate do.

`∃ r, op = .ok r` also says that the call does not panic.
-/

namespace Apf
open Spec IeeeFloat
variable {S : Sem}

/-- The rounding specification prescribes one result: value, sign and flags. -/
theorem rounds_unique {mode : Round} {v : ℚ} {zs : Bool} {r r' : StatusAnd (IeeeFloat S)}
    (h : Rounds S mode v zs r) (h' : Rounds S mode v zs r') :
    r.value.datum = r'.value.datum ∧ r.value.sign = r'.value.sign ∧ r.status = r'.status := h.unique h'

/-- The rounding specification is satisfiable for every exact value, mode and (proper) format. -/
theorem delivers_exists (h : S.OK) (mode : Round) (v : ℚ) (s : Bool) : ∃ d st, Delivers S.fmt mode v s d st := by
  obtain ⟨g, hg⟩ := exists_rounded (F := S.fmt) (by have := h.p_ge; simp; omega) mode v
  rcases le_or_gt |g| S.fmt.largest with hle | hgt
  · exact ⟨_, _, g, hg, Or.inl ⟨hle, rfl, rfl⟩⟩
  · exact ⟨(overflowed S.fmt mode s).1, (overflowed S.fmt mode s).2, g, hg, Or.inr ⟨hgt, rfl⟩⟩

/-- `DirectedOK` only restricts the format without infinities... -/
theorem directedOK_of_ieee (h : S.nonfinite = .ieee754) (mode : Round) (v : ℚ) : DirectedOK S mode v := by
  intro h'; rw [h] at h'; cases h'

/-- ... and there only two rounding modes. -/
theorem directedOK_of_mode (mode : Round) (hm : mode ≠ .towardPositive) (hm' : mode ≠ .towardNegative) (v : ℚ) :
    DirectedOK S mode v := fun _ => ⟨fun h => absurd h hm, fun h => absurd h hm'⟩

/-- In particular every exact value in the range of the format is fine. -/
theorem directedOK_of_ge (h : S.OK) (mode : Round) {v : ℚ} (hv : -S.fmt.largest ≤ v) : DirectedOK S mode v := by
  intro hn
  refine ⟨fun _ h' => ?_, fun _ h' => ?_⟩
  · have := pattern_gt h hn
    linarith
  · linarith

/-! ## C04 – C07 -/

/-- **C04.** Addition of finite floats is correctly rounded, with the prescribed flags and sign. -/
theorem C04_add_correctly_rounded (h : S.OK) {x y : IeeeFloat S} (hx : x.Valid) (hy : y.Valid)
    (fx : x.isFinite = true) (fy : y.isFinite = true) (mode : Round) (hO : DirectedOK S mode (x.toRat + y.toRat)) :
    ∃ r, addR x y mode = .ok r ∧ r.value.Valid ∧
      Rounds S mode (x.toRat + y.toRat) (zeroSum mode x.sign y.sign) r := addR_finite h hx hy fx fy mode hO

/-- **C05.** Subtraction of finite floats is correctly rounded. -/
theorem C05_sub_correctly_rounded (h : S.OK) {x y : IeeeFloat S} (hx : x.Valid) (hy : y.Valid)
    (fx : x.isFinite = true) (fy : y.isFinite = true) (mode : Round) (hO : DirectedOK S mode (x.toRat - y.toRat)) :
    ∃ r, subR x y mode = .ok r ∧ r.value.Valid ∧
      Rounds S mode (x.toRat - y.toRat) (zeroSum mode x.sign (!y.sign)) r := subR_finite h hx hy fx fy mode hO

/-- **C06.** Multiplication of finite floats is correctly rounded; the sign is the exclusive or. -/
theorem C06_mul_correctly_rounded (h : S.OK) {x y : IeeeFloat S} (hx : x.Valid) (hy : y.Valid)
    (fx : x.isFinite = true) (fy : y.isFinite = true) (mode : Round) (hO : DirectedOK S mode (x.toRat * y.toRat)) :
    ∃ r, mulR x y mode = .ok r ∧ r.value.Valid ∧
      Rounds S mode (x.toRat * y.toRat) (xor x.sign y.sign) r := mulR_finite h hx hy fx fy mode hO

/-- **C07.** Division of finite floats by non-zero finite floats is correctly rounded. -/
theorem C07_div_correctly_rounded (h : S.OK) {x y : IeeeFloat S} (hx : x.Valid) (hy : y.Valid)
    (fx : x.isFinite = true) (fy : y.isFinite = true) (hy0 : y.toRat ≠ 0) (mode : Round)
    (hO : DirectedOK S mode (x.toRat / y.toRat)) :
    ∃ r, divR x y mode = .ok r ∧ r.value.Valid ∧
      Rounds S mode (x.toRat / y.toRat) (xor x.sign y.sign) r := divR_finite h hx hy fx fy hy0 mode hO

/-! Non-vacuity: 1.5 (single) and -3 (single) meet all hypotheses; so do 448 and -448 in the format without
infinities, in a directed mode. -/

/-- 1.5 in `Single`. -/
def ex15 : IeeeFloat singleS := ⟨3 * 2 ^ 22, 0, .normal, false⟩
/-- -3 in `Single`. -/
def exM3 : IeeeFloat singleS := ⟨3 * 2 ^ 22, 1, .normal, true⟩

theorem ex15_valid : ex15.Valid := by decide
theorem exM3_valid : exM3.Valid := by decide

theorem exM3_ne : exM3.toRat ≠ 0 := toRat_ne_zero exM3_valid rfl

example : ∃ r, addR ex15 exM3 .towardPositive = .ok r ∧ r.value.Valid ∧
    Rounds singleS .towardPositive (ex15.toRat + exM3.toRat) false r :=
  C04_add_correctly_rounded singleS_ok ex15_valid exM3_valid rfl rfl _ (directedOK_of_ieee rfl _ _)
example : ∃ r, subR ex15 exM3 .nearestTiesToEven = .ok r ∧ r.value.Valid ∧
    Rounds singleS .nearestTiesToEven (ex15.toRat - exM3.toRat) false r :=
  C05_sub_correctly_rounded singleS_ok ex15_valid exM3_valid rfl rfl _ (directedOK_of_ieee rfl _ _)
example : ∃ r, mulR ex15 exM3 .towardZero = .ok r ∧ r.value.Valid ∧
    Rounds singleS .towardZero (ex15.toRat * exM3.toRat) true r :=
  C06_mul_correctly_rounded singleS_ok ex15_valid exM3_valid rfl rfl _ (directedOK_of_ieee rfl _ _)
example : ∃ r, divR ex15 exM3 .nearestTiesToAway = .ok r ∧ r.value.Valid ∧
    Rounds singleS .nearestTiesToAway (ex15.toRat / exM3.toRat) true r :=
  C07_div_correctly_rounded singleS_ok ex15_valid exM3_valid rfl rfl exM3_ne _ (directedOK_of_ieee rfl _ _)

/-- 448, the largest `Float8E4M3FN`. -/
def ex448 : IeeeFloat float8E4M3FNS := ⟨14, 8, .normal, false⟩
theorem ex448_valid : ex448.Valid := by decide +kernel

example : ∃ r, addR ex448 ex448.neg .towardPositive = .ok r ∧ r.value.Valid ∧
    Rounds float8E4M3FNS .towardPositive (ex448.toRat + ex448.neg.toRat) false r :=
  C04_add_correctly_rounded float8E4M3FNS_ok ex448_valid (neg_valid ex448_valid) rfl rfl _
    (directedOK_of_ge float8E4M3FNS_ok _ (by
      rw [neg_toRat, add_neg_cancel]; exact neg_nonpos.2 (largest_pos float8E4M3FNS_ok).le))

/-! ## C09 -/

/-- **C09** (sums). When the exact sum is zero, the delivered result is a zero of the prescribed sign with no
flag: the common sign of the operands if they have one, else `-` exactly when rounding toward negative. -/
theorem C09_add_zero_sign (h : S.OK) {x y : IeeeFloat S} (hx : x.Valid) (hy : y.Valid) (fx : x.isFinite = true)
    (fy : y.isFinite = true) (mode : Round) (h0 : x.toRat + y.toRat = 0) :
    ∃ r, addR x y mode = .ok r ∧ r.value.category = .zero ∧ r.status = Status.OK ∧
      r.value.sign = (if x.sign = y.sign then x.sign else decide (mode = .towardNegative)) := by
  obtain ⟨r, h1, h2, h3⟩ := addR_finite h hx hy fx fy mode
    (directedOK_of_ge h mode (by rw [h0]; exact neg_nonpos.2 (largest_pos h).le))
  rw [h0] at h3
  have hc := category_of_delivers_zero h h2 h3.1
  exact ⟨r, h1, hc, (exact_of_zero h hc h3.1 ⟨0, by simp⟩).2, h3.2.2.2 rfl⟩

/-- **C09** (differences). -/
theorem C09_sub_zero_sign (h : S.OK) {x y : IeeeFloat S} (hx : x.Valid) (hy : y.Valid) (fx : x.isFinite = true)
    (fy : y.isFinite = true) (mode : Round) (h0 : x.toRat - y.toRat = 0) :
    ∃ r, subR x y mode = .ok r ∧ r.value.category = .zero ∧ r.status = Status.OK ∧
      r.value.sign = (if x.sign = !y.sign then x.sign else decide (mode = .towardNegative)) := by
  have := C09_add_zero_sign h hx (neg_valid hy) fx (by rw [neg_finite]; exact fy) mode
    (by rw [neg_toRat, ← sub_eq_add_neg]; exact h0)
  rw [← subR_eq (not_nan_of_finite fx) (not_nan_of_finite fy)] at this
  exact this

example := C09_sub_zero_sign singleS_ok ex15_valid ex15_valid rfl rfl .towardNegative (sub_self _)

/-- **C09** (products and quotients). The sign of a non-NaN product or quotient is the exclusive or of the
signs, also when the result is zero or infinite.  (Non-NaN: 0·inf, 0/0, inf/inf are C10.) -/
theorem C09_mul_sign (h : S.OK) {x y : IeeeFloat S} (hx : x.Valid) (hy : y.Valid) (mode : Round)
    (nx : x.category ≠ .nan) (ny : y.category ≠ .nan) :
    ∃ r, mulR x y mode = .ok r ∧ (r.value.category ≠ .nan → r.value.sign = xor x.sign y.sign) := by
  obtain ⟨om, hO⟩ := exists_effective S mode (x.toRat * y.toRat)
  by_cases hf : x.isFinite = true ∧ y.isFinite = true
  · obtain ⟨r, h1, h2, h3⟩ := mulR_eff h hx hy hf.1 hf.2 mode hO
    refine ⟨r, h1, fun _ => ?_⟩
    by_cases hv : x.toRat * y.toRat = 0
    · exact h3.2.2.2 hv
    · have cx : x.category = .normal := by
        rcases isFinite_iff.1 hf.1 with c | c
        · exact c
        · exact absurd (by rw [toRat_zero c, zero_mul]) hv
      have cy : y.category = .normal := by
        rcases isFinite_iff.1 hf.2 with c | c
        · exact c
        · exact absurd (by rw [toRat_zero c, mul_zero]) hv
      have e : x.toRat * y.toRat = signed (xor x.sign y.sign)
          (((x.sig : ℚ) * 2 ^ (x.exp - S.precision + 1)) * ((y.sig : ℚ) * 2 ^ (y.exp - S.precision + 1))) := by
        rw [toRat_normal cx, toRat_normal cy, ← signed_mul_signed]
      have hp := mul_pos (toRat_pos_of_normal hx cx) (toRat_pos_of_normal hy cy)
      cases hs : xor x.sign y.sign
      · exact h3.2.1 (by rw [e, hs]; simp only [signed, Bool.false_eq_true, if_false]; exact hp)
      · exact h3.2.2.1 (by rw [e, hs]; simp only [signed, if_true]; linarith)
  · have hcat : (x.negateIf y.isNegative).category = x.category := by rw [negateIf_eq]
    unfold mulR
    simp only [hcat]
    rw [isFinite_iff, isFinite_iff] at hf
    cases cx : x.category <;> cases cy : y.category <;> simp [cx, cy] at hf nx ny ⊢ <;>
      simp [Status.and, NAN, qnan, copySign_eq, negateIf_eq, isNegative]

example := C09_mul_sign singleS_ok (x := ⟨3 * 2 ^ 22, 1, .normal, true⟩) (y := INFINITY singleS) (by decide) (by decide) .towardZero (by decide) (by decide)

/-- **C09** (quotients). -/
theorem C09_div_sign (h : S.OK) {x y : IeeeFloat S} (hx : x.Valid) (hy : y.Valid) (mode : Round)
    (nx : x.category ≠ .nan) (ny : y.category ≠ .nan) :
    ∃ r, divR x y mode = .ok r ∧ (r.value.category ≠ .nan → r.value.sign = xor x.sign y.sign) := by
  obtain ⟨om, hO⟩ := exists_effective S mode (x.toRat / y.toRat)
  by_cases hf : x.isFinite = true ∧ y.category = .normal
  · have fy : y.isFinite = true := isFinite_iff.2 (Or.inl hf.2)
    obtain ⟨r, h1, h2, h3⟩ := divR_eff h hx hy hf.1 fy (toRat_ne_zero hy hf.2) mode hO
    refine ⟨r, h1, fun _ => ?_⟩
    by_cases hv : x.toRat / y.toRat = 0
    · exact h3.2.2.2 hv
    · have cx : x.category = .normal := by
        rcases isFinite_iff.1 hf.1 with c | c
        · exact c
        · exact absurd (by rw [toRat_zero c, zero_div]) hv
      have cy := hf.2
      have e : x.toRat / y.toRat = signed (xor x.sign y.sign)
          (((x.sig : ℚ) * 2 ^ (x.exp - S.precision + 1)) / ((y.sig : ℚ) * 2 ^ (y.exp - S.precision + 1))) := by
        rw [toRat_normal cx, toRat_normal cy, ← signed_div_signed]
      have hp := div_pos (toRat_pos_of_normal hx cx) (toRat_pos_of_normal hy cy)
      cases hs : xor x.sign y.sign
      · exact h3.2.1 (by rw [e, hs]; simp only [signed, Bool.false_eq_true, if_false]; exact hp)
      · exact h3.2.2.1 (by rw [e, hs]; simp only [signed, if_true]; linarith)
  · have hcat : (x.negateIf y.isNegative).category = x.category := by rw [negateIf_eq]
    unfold divR
    simp only [hcat]
    rw [isFinite_iff] at hf
    cases cx : x.category <;> cases cy : y.category <;> simp [cx, cy] at hf nx ny ⊢ <;>
      simp [Status.and, NAN, qnan, copySign_eq, negateIf_eq, isNegative]

example := C09_div_sign singleS_ok (x := ⟨3 * 2 ^ 22, 1, .normal, true⟩) (y := ZERO singleS) (by decide) (by decide) .towardZero (by decide) (by decide)

/-- **C09** (underflow). A correctly delivered zero that stands for a non-zero exact value has that value's sign. -/
theorem C09_underflow_sign {mode : Round} {v : ℚ} {zs : Bool} {r : StatusAnd (IeeeFloat S)} (hr : Rounds S mode v zs r)
    (hv : v ≠ 0) : r.value.sign = decide (v < 0) := by
  rcases lt_or_gt_of_ne hv with c | c
  · rw [hr.2.2.1 c]; simp [c]
  · rw [hr.2.1 c]; simp [not_lt.2 c.le]

example : ∃ r, addR ex15 ex15.neg .towardNegative = .ok r ∧ r.value.category = .zero ∧ r.status = Status.OK ∧
    r.value.sign = true :=
  C09_add_zero_sign singleS_ok ex15_valid (neg_valid ex15_valid) rfl rfl _ (by rw [neg_toRat]; ring)

/-! ## C10 -/

/-- An infinity with sign `s`; in a format without infinities, a NaN in its place. -/
def IsInf (s : Bool) (x : IeeeFloat S) : Prop :=
  x.sign = s ∧ (S.nonfinite = .ieee754 → x.category = .infinity) ∧ (S.nonfinite = .nanOnly → x.category = .nan)

/-- A quiet NaN delivered for an invalid operation: the constant `NAN` of the type (positive, payload 0; C40). -/
def IsInvalid (r : StatusAnd (IeeeFloat S)) : Prop :=
  r.status = Status.INVALID_OP ∧ r.value.category = .nan ∧ r.value.isSignaling = false ∧ r.value = NAN S

theorem isInvalid_nan : IsInvalid (S := S) (Status.INVALID_OP.and (NAN S)) := ⟨rfl, rfl, nan_quiet, rfl⟩

theorem isInf_infinity (s : Bool) : IsInf (S := S) s { INFINITY S with sign := s } := by
  refine ⟨rfl, ?_, ?_⟩ <;> intro h <;> simp [INFINITY, h, NAN, qnan]

/-- **C10** inf - inf and its variants. -/
theorem C10_add_inf_inf {x y : IeeeFloat S} (cx : x.category = .infinity) (cy : y.category = .infinity) (mode : Round) :
    ∃ r, addR x y mode = .ok r ∧
      (x.sign ≠ y.sign → IsInvalid r) ∧ (x.sign = y.sign → r = ⟨Status.OK, x⟩) := by
  unfold addR
  rw [cx, cy]
  simp only [isNegative, fixZeroSign, cx]
  by_cases hs : x.sign = y.sign
  · exact ⟨⟨Status.OK, x⟩, by simp [hs, Status.and], by simp [hs], fun _ => rfl⟩
  · refine ⟨Status.INVALID_OP.and (NAN S), ?_, fun _ => isInvalid_nan, by simp [hs]⟩
    simp [hs, NAN, qnan]

/-- **C10** infinity plus a finite number. -/
theorem C10_add_inf_finite {x y : IeeeFloat S} (mode : Round) :
    (x.category = .infinity → y.isFinite = true → addR x y mode = .ok ⟨Status.OK, x⟩) ∧
    (x.isFinite = true → y.category = .infinity → addR x y mode = .ok ⟨Status.OK, y⟩) := by
  constructor
  · intro cx fy
    unfold addR
    rcases isFinite_iff.1 fy with cy | cy <;> rw [cx, cy] <;> simp [fixZeroSign, cx, Status.and]
  · intro fx cy
    unfold addR
    rcases isFinite_iff.1 fx with cx | cx <;> rw [cx, cy] <;> simp [fixZeroSign, cy, Status.and]

/-- **C10** subtraction of infinities is addition of the opposite. -/
theorem C10_sub {x y : IeeeFloat S} (nx : x.category ≠ .nan) (ny : y.category ≠ .nan) (mode : Round) :
    subR x y mode = addR x y.neg mode :=
  subR_eq (by simp [isNan, nx]) (by simp [isNan, ny]) mode

example := C10_sub (S := singleS) (x := ⟨3 * 2 ^ 22, 1, .normal, true⟩) (y := INFINITY singleS) (by decide) (by decide) .towardZero

/-- **C10** products with an infinite operand. -/
theorem C10_mul_inf {x y : IeeeFloat S} (hx : x.Valid) (hy : y.Valid) (mode : Round) (nx : x.category ≠ .nan)
    (ny : y.category ≠ .nan) (hi : x.category = .infinity ∨ y.category = .infinity) :
    ∃ r, mulR x y mode = .ok r ∧
      ((x.category = .zero ∨ y.category = .zero) → IsInvalid r) ∧
      (x.category ≠ .zero → y.category ≠ .zero →
        r.status = Status.OK ∧ r.value.category = .infinity ∧ r.value.sign = xor x.sign y.sign) := by
  have hinf : S.nonfinite = .ieee754 := by
    rcases hi with c | c
    · simp only [Valid, c] at hx; exact hx.1
    · simp only [Valid, c] at hy; exact hy.1
  have hcat : (x.negateIf y.isNegative).category = x.category := by rw [negateIf_eq]
  unfold mulR
  simp only [hcat]
  cases cx : x.category <;> cases cy : y.category <;> simp [cx, cy] at hi nx ny ⊢ <;>
    first
    | exact isInvalid_nan
    | simp [Status.and, copySign_eq, negateIf_eq, isNegative, INFINITY, hinf]

example := C10_mul_inf (x := ⟨3 * 2 ^ 22, 1, .normal, true⟩) (y := INFINITY singleS) (by decide) (by decide) .towardZero (by decide) (by decide) (by decide)

/-- **C10** quotients with an infinite operand or a zero divisor. -/
theorem C10_div_special {x y : IeeeFloat S} (mode : Round) :
    -- inf / inf and 0 / 0
    ((x.category = .infinity ∧ y.category = .infinity) ∨ (x.category = .zero ∧ y.category = .zero) →
      ∃ r, divR x y mode = .ok r ∧ IsInvalid r) ∧
    -- finite non-zero / 0
    (x.category = .normal → y.category = .zero →
      ∃ r, divR x y mode = .ok r ∧ r.status = Status.DIV_BY_ZERO ∧ IsInf (xor x.sign y.sign) r.value) ∧
    -- inf / finite
    (x.category = .infinity → y.isFinite = true →
      ∃ r, divR x y mode = .ok r ∧ r.status = Status.OK ∧ r.value.category = .infinity ∧ r.value.sign = xor x.sign y.sign) ∧
    -- finite / inf
    (x.isFinite = true → y.category = .infinity →
      ∃ r, divR x y mode = .ok r ∧ r.status = Status.OK ∧ r.value.category = .zero ∧ r.value.sign = xor x.sign y.sign) := by
  have hcat : (x.negateIf y.isNegative).category = x.category := by rw [negateIf_eq]
  unfold divR
  simp only [hcat, isFinite_iff]
  refine ⟨?_, ?_, ?_, ?_⟩
  · rintro (⟨cx, cy⟩ | ⟨cx, cy⟩) <;> rw [cx, cy] <;> exact ⟨_, rfl, isInvalid_nan⟩
  · intro cx cy
    rw [cx, cy]
    exact ⟨_, rfl, rfl, by rw [copySign_eq, negateIf_eq]; exact isInf_infinity _⟩
  · rintro cx (cy | cy) <;> rw [cx, cy] <;> exact ⟨_, rfl, by simp [Status.and, negateIf_eq, isNegative, cx]⟩
  · rintro (cx | cx) cy <;> rw [cx, cy] <;>
      exact ⟨_, rfl, by simp [Status.and, negateIf_eq, isNegative, cx, copySign_eq, ZERO]⟩

/-- 2.0 / 0.0 in `Single` divides by zero. -/
example : ∃ r, divR exM3 (ZERO singleS) .towardZero = .ok r ∧ r.status = Status.DIV_BY_ZERO ∧ IsInf true r.value :=
  (C10_div_special (x := exM3) (y := ZERO singleS) .towardZero).2.1 rfl rfl
example : ∃ r, addR (INFINITY halfS) (INFINITY halfS).neg .towardZero = .ok r ∧ IsInvalid r := by
  obtain ⟨r, h1, h2, -⟩ := C10_add_inf_inf (x := INFINITY halfS) (y := (INFINITY halfS).neg) rfl rfl .towardZero
  exact ⟨r, h1, h2 (by decide)⟩

/-! ## C11 -/

/-- **C11.** If an operand of `+`, `-`, `*`, `/` is a NaN, the result is the first NaN operand, quieted, and the
flags are `INVALID_OP` exactly when one of the operands is signaling. -/
theorem C11_nan_propagation (h : S.OK) {x y : IeeeFloat S} (hx : x.Valid) (hy : y.Valid) (mode : Round)
    (hn : x.category = .nan ∨ y.category = .nan) :
    ∃ r : StatusAnd (IeeeFloat S),
      (addR x y mode = .ok r ∧ subR x y mode = .ok r ∧ mulR x y mode = .ok r ∧ divR x y mode = .ok r) ∧
      r.value.Valid ∧ IsQuieted (if x.category = .nan then x else y) r.value ∧
      r.status = if x.isSignaling ∨ y.isSignaling then Status.INVALID_OP else Status.OK := by
  obtain ⟨r, r1, r2, r3⟩ := binop_nan h hx hy hn
  refine ⟨⟨if x.isSignaling ∨ y.isSignaling then Status.INVALID_OP else Status.OK, r⟩, ⟨?_, ?_, ?_, ?_⟩, r2, ?_, rfl⟩
  · rw [← r1]; unfold addR
    cases cx : x.category <;> cases cy : y.category <;> simp [cx, cy] at hn ⊢
  · rw [← r1]; unfold subR
    cases cx : x.category <;> cases cy : y.category <;> simp [cx, cy] at hn ⊢
  · rw [← r1]; unfold mulR
    have e : (x.negateIf y.isNegative).negateIf y.isNegative = x := by
      simp only [negateIf_eq, isNegative, Bool.xor_assoc, Bool.xor_self, Bool.xor_false]
    have hcat : (x.negateIf y.isNegative).category = x.category := by rw [negateIf_eq]
    simp only [hcat, e]
    cases cx : x.category <;> cases cy : y.category <;> simp [cx, cy] at hn ⊢
  · rw [← r1]; unfold divR
    have e : (x.negateIf y.isNegative).negateIf y.isNegative = x := by
      simp only [negateIf_eq, isNegative, Bool.xor_assoc, Bool.xor_self, Bool.xor_false]
    have hcat : (x.negateIf y.isNegative).category = x.category := by rw [negateIf_eq]
    simp only [hcat, e]
    cases cx : x.category <;> cases cy : y.category <;> simp [cx, cy] at hn ⊢
  · have : (x.isNan = true) = (x.category = .nan) := by simp [isNan]
    simp only [this] at r3
    exact r3

/-- **C11** (the result is quiet). A quieted NaN is not signaling; for the x87 format this needs the explicit
integer bit (pseudo-NaNs lack it). -/
theorem C11_quiet (h : S.OK) {x r : IeeeFloat S} (hq : IsQuieted x r)
    (hi : S.explicitIntBit = true → x.sig.testBit (S.precision - 1) = true) : r.isSignaling = false := hq.quiet h hi

/-- The exclusion is necessary: the x87 pseudo-NaN with bits 0x7fff_0000000000000001 stays signaling. -/
theorem C11_pseudo_nan_stays_signaling :
    ∃ x : IeeeFloat x87S, x.Valid ∧ fromBits x87S (0x7fff * 2 ^ 64 + 1) = .ok x ∧
      ∃ r, addR x x .nearestTiesToEven = .ok r ∧ r.value.isSignaling = true :=
  ⟨⟨1, 16384, .nan, false⟩, by decide, by decide +kernel,
    ⟨Status.INVALID_OP, ⟨1 + 2 ^ 62, 16384, .nan, false⟩⟩, by decide +kernel, by decide +kernel⟩

/-- A signaling NaN in `Half`. -/
example : ∃ r, addR (snan halfS (some 5)) (ZERO halfS) .towardZero = .ok r ∧ r.status = Status.INVALID_OP := by
  obtain ⟨r, hr, -, -, hs⟩ := C11_nan_propagation halfS_ok (x := snan halfS (some 5)) (y := ZERO halfS)
    (by have : (snan halfS (some 5)) = ⟨5, 16, .nan, false⟩ := by decide +kernel
        rw [this]; decide) rfl .towardZero (Or.inl rfl)
  exact ⟨r, hr.1, by rw [hs]; decide +kernel⟩

/-! ## C12 -/

/-- **C12.** Flag discipline of every correctly rounded result (C04–C08, C17, C21, C25 …): `OVERFLOW` and
`UNDERFLOW` come with `INEXACT`, `INVALID_OP` and `DIV_BY_ZERO` are not raised, and the status is `OK` exactly
when the delivered value is the exact one. -/
theorem C12_status_discipline (h : S.OK) {mode : Round} {v : ℚ} {zs : Bool} {r : StatusAnd (IeeeFloat S)}
    (hr : Rounds S mode v zs r) :
    (r.status.overflow = true → r.status.inexact = true) ∧ (r.status.underflow = true → r.status.inexact = true) ∧
    r.status.invalidOp = false ∧ r.status.divByZero = false ∧
    (r.status = Status.OK ↔ r.value.isFinite = true ∧ r.value.toRat = v) ∧
    (r.status.overflow = true ↔ r.value.isFinite = false) ∧
    (r.status.inexact = true ↔ ¬ (r.value.isFinite = true ∧ r.value.toRat = v)) ∧
    (r.status.underflow = true ↔ r.value.isFinite = true ∧ r.value.toRat ≠ v ∧ |r.value.toRat| < 2 ^ S.minExp) := by
  have hdat : ∀ s q, r.value.datum = .num s q → r.value.isFinite = true ∧ r.value.toRat = q := by
    intro s q hd
    unfold datum at hd
    cases hc : r.value.category <;> rw [hc] at hd <;> simp only [] at hd
    · cases hd
    · cases hd
    · injection hd with _ hd
      exact ⟨isFinite_iff.2 (Or.inl hc), hd⟩
    · injection hd with _ hd
      exact ⟨isFinite_iff.2 (Or.inr hc), by rw [toRat_zero hc]; exact hd⟩
  obtain ⟨⟨g, hg, ⟨a, b, c⟩ | ⟨a, b⟩⟩, -⟩ := hr
  · obtain ⟨d1, d2⟩ := hdat _ _ b
    rw [c, d1, d2]
    simp only [Fmt.smallestNormal, fmt_emin]
    by_cases hgv : g = v <;> simp [hgv, Status.OK]
  · obtain ⟨b1, b2⟩ := Prod.ext_iff.1 b
    have hgv : g ≠ v ∨ S.fmt.largest < |v| := by
      by_cases hh : g = v
      · right; rw [← hh]; exact a
      · left; exact hh
    have hne : ¬ (S.fmt.largest = |v|) := by
      intro hh
      -- the largest value is representable, so `v` would have been delivered exactly
      have hl : S.fmt.Grid v := by
        have := (finite_toRat h (x := largest S) (largest_valid h) rfl).1
        rw [toRat_normal rfl] at this
        have e := largest_toRat h
        have hs : (largest S).sign = false := rfl
        rw [hs] at this
        simp only [signed, Bool.false_eq_true, if_false, e, hh] at this
        rcases abs_choice v with hv | hv <;> rw [hv] at this
        · exact this
        · exact grid_neg_iff.1 this
      have := hg.unique (isRounded_self mode hl)
      rw [this, ← hh] at a
      exact lt_irrefl _ a
    have hmin : (2 : ℚ) ^ S.minExp ≤ S.fmt.largest := smallestNormal_le_largest h
    have hlp := largest_pos h
    rcases overflowed_cases S.fmt mode r.value.sign with e | e <;> rw [e] at b1 b2 <;> simp only [] at b1 b2 <;> rw [b2]
    · have hnf : r.value.isFinite = false := by
        by_contra hh
        have hh : r.value.isFinite = true := by simpa using hh
        rw [datum_finite hh] at b1
        split_ifs at b1
      simp [hnf, Status.OK]
    · obtain ⟨d1, d2⟩ := hdat _ _ b1
      have hnv : signed r.value.sign S.fmt.largest ≠ v := by
        intro hh
        apply hne
        rw [← hh, abs_signed _ hlp.le]
      rw [d1, d2, abs_signed _ hlp.le]
      simp [Status.OK, hnv, hmin]

/-- The hypothesis of C12 is what C04 to C07 provide. -/
example : ∃ r, divR ex15 exM3 .towardZero = .ok r ∧ r.status.invalidOp = false := by
  obtain ⟨r, hr, -, h⟩ := C07_div_correctly_rounded singleS_ok ex15_valid exM3_valid rfl rfl exM3_ne .towardZero (directedOK_of_ieee rfl _ _)
  exact ⟨r, hr, (C12_status_discipline singleS_ok h).2.2.1⟩

end Apf
