import Verif.Props.Algebra
import Verif.Props.Convert
import Verif.Props.Scale
import Verif.Props.Ints
import Verif.Props.Integral
import Verif.Props.FmaExact
import Verif.Props.Decimal

/-! **C71**: the conversions, scaling, rounding to integral values and parsing preserve the order of the extended reals. -/

namespace Apf
open Spec IeeeFloat
variable {S T : Sem}

/-- Rounding to an integer is monotone. -/
theorem Spec.RoundsToInt.mono {mode : Round} {v w : ℚ} {n k : ℤ} (hv : RoundsToInt mode v n) (hw : RoundsToInt mode w k)
    (h : v ≤ w) : n ≤ k := by
  by_contra c
  push Not at c
  have c' : (k : ℚ) + 1 ≤ n := by exact_mod_cast c
  cases mode with
  | towardNegative => simp only [RoundsToInt] at hv hw; linarith [hv.1, hw.2]
  | towardPositive => simp only [RoundsToInt] at hv hw; linarith [hv.1, hw.2]
  | towardZero =>
    simp only [RoundsToInt] at hv hw
    rcases le_total 0 v with a | a
    · have := (hv.1 a).1; have := (hw.1 (a.trans h)).2; linarith
    · rcases le_total w 0 with b | b
      · have := (hv.2 a).1; have := (hw.2 b).2; linarith
      · have h1 := (hv.2 a).1
        have h2 := (hw.1 b).2
        have h3 : (n : ℚ) < 1 := by linarith
        have h4 : (-1 : ℚ) < k := by linarith
        have h3' : n < 1 := by exact_mod_cast h3
        have h4' : -1 < k := by exact_mod_cast h4
        omega
  | nearestTiesToEven =>
    simp only [RoundsToInt] at hv hw
    obtain ⟨a1, a2⟩ := hv
    obtain ⟨b1, b2⟩ := hw
    have e1 : v - n ≤ -(1/2) → v = n - 1/2 := fun _ => by
      have := neg_abs_le (v - n); linarith
    have a3 := neg_abs_le (v - n)
    have b3 := le_abs_self (w - k)
    have hvn : v = n - 1/2 := by linarith
    have hwk : w = k + 1/2 := by linarith
    have hnk : (n : ℚ) = k + 1 := by linarith
    have hnk' : n = k + 1 := by exact_mod_cast hnk
    have p := a2 (by rw [hvn, show (n : ℚ) - 1/2 - n = -(1/2) by ring, abs_neg, abs_of_pos (by norm_num)]; norm_num)
    have q := b2 (by rw [hwk, show (k : ℚ) + 1/2 - k = 1/2 by ring, abs_of_pos (by norm_num)]; norm_num)
    omega
  | nearestTiesToAway =>
    simp only [RoundsToInt] at hv hw
    obtain ⟨a1, a2⟩ := hv
    obtain ⟨b1, b2⟩ := hw
    have a3 := neg_abs_le (v - n)
    have b3 := le_abs_self (w - k)
    have hvn : v = n - 1/2 := by linarith
    have hwk : w = k + 1/2 := by linarith
    have hvw : v = w := by linarith
    have hnk : (n : ℚ) = k + 1 := by linarith
    have p := a2 (by rw [hvn, show (n : ℚ) - 1/2 - n = -(1/2) by ring, abs_neg, abs_of_pos (by norm_num)]; norm_num)
    have q := b2 (by rw [hwk, show (k : ℚ) + 1/2 - k = 1/2 by ring, abs_of_pos (by norm_num)]; norm_num)
    rw [hvw, hnk] at p
    rw [hwk] at p q
    rcases le_total 0 (k : ℚ) with s | s
    · rw [abs_of_nonneg (by linarith), abs_of_nonneg s] at q; linarith
    · have hk : k ≤ -1 ∨ k = 0 := by
        have : k ≤ 0 := by exact_mod_cast s
        omega
      rcases hk with hk | hk
      · have hk' : (k : ℚ) ≤ -1 := by exact_mod_cast hk
        rw [abs_of_nonpos (by linarith), abs_of_nonpos (by linarith)] at p; linarith
      · rw [hk] at q; norm_num at q

/-- Either both are finite, or the order is decided by an infinity. -/
theorem Spec.Datum.le_inf_left (d : Datum) (h : d ≠ .nan) : (Datum.inf true).le d := by
  cases d with
  | nan => exact absurd rfl h
  | inf s => cases s <;> trivial
  | num => trivial

theorem Spec.Datum.le_inf_right (d : Datum) (h : d ≠ .nan) : d.le (.inf false) := by
  cases d with
  | nan => exact absurd rfl h
  | inf s => cases s <;> trivial
  | num => trivial

theorem Spec.Datum.inf_false_le {d : Datum} (h : (Datum.inf false).le d) : d = .inf false := by
  cases d with
  | nan => exact absurd h (by simp [Datum.le])
  | inf s => cases s <;> simp_all [Datum.le]
  | num => exact absurd h (by simp [Datum.le])

theorem Spec.Datum.le_inf_true {d : Datum} (h : d.le (.inf true)) : d = .inf true := by
  cases d with
  | nan => exact absurd h (by simp [Datum.le])
  | inf s => cases s <;> simp_all [Datum.le]
  | num => exact absurd h (by simp [Datum.le])

/-- A function on values that is monotone on the finite ones, keeps infinities and produces no NaN is monotone. -/
theorem mono_extend {f : IeeeFloat S → Datum} (hf : ∀ x, x.Valid → x.isNan = false → f x ≠ .nan)
    (hi : ∀ x, x.Valid → x.isInfinite = true → f x = .inf x.sign)
    (hm : ∀ x y, x.Valid → y.Valid → x.isFinite = true → y.isFinite = true → x.toRat ≤ y.toRat → (f x).le (f y))
    {x y : IeeeFloat S} (hx : x.Valid) (hy : y.Valid) (h : x.datum.le y.datum) : (f x).le (f y) := by
  have nx : x.isNan = false := by
    rw [not_nan_iff]; intro e; rw [e] at h; simp [Datum.le] at h
  have ny : y.isNan = false := by
    rw [not_nan_iff]; intro e; rw [e] at h; revert h; cases x.datum <;> simp [Datum.le]
  have inf : ∀ {z : IeeeFloat S}, z.isInfinite = true → z.datum = .inf z.sign := by
    intro z hz; have : z.category = .infinity := by simpa [isInfinite] using hz
    simp [datum, this]
  have fin : ∀ {z : IeeeFloat S}, z.isNan = false → z.isInfinite = true ∨ z.isFinite = true := by
    intro z hz; unfold isFinite; rw [hz]; cases z.isInfinite <;> simp
  rcases fin nx with ix | fx
  · rw [hi x hx ix]
    cases s : x.sign
    · rw [inf ix, s] at h
      have e := Spec.Datum.inf_false_le h
      have iy : y.isInfinite = true := by
        rcases fin ny with c | c
        · exact c
        · rw [datum_finite c] at e; simp at e
      rw [inf iy, Datum.inf.injEq] at e
      rw [hi y hy iy, e]; trivial
    · exact Spec.Datum.le_inf_left _ (hf y hy ny)
  · rcases fin ny with iy | fy
    · rw [hi y hy iy]
      cases s : y.sign
      · exact Spec.Datum.le_inf_right _ (hf x hx nx)
      · rw [inf iy, s] at h
        have e := Spec.Datum.le_inf_true h
        rw [datum_finite fx] at e; simp at e
    · rw [datum_finite fx, datum_finite fy] at h
      exact hm x y hx hy fx fy h

/-- **C71.** Subtraction is increasing in its first and decreasing in its second operand. -/
theorem C71_sub (h : S.OK) (hS : S.nonfinite = .ieee754) {x x' y y' : IeeeFloat S} (hx : x.Valid) (hx' : x'.Valid)
    (hy : y.Valid) (hy' : y'.Valid) (fx : x.isFinite = true) (fx' : x'.isFinite = true) (fy : y.isFinite = true)
    (fy' : y'.isFinite = true) (mode : Round) (h1 : x.toRat ≤ x'.toRat) (h2 : y'.toRat ≤ y.toRat) :
    ∃ r r', subR x y mode = .ok r ∧ subR x' y' mode = .ok r' ∧ r.value.datum.le r'.value.datum := by
  obtain ⟨r, a1, a2, a3⟩ := subR_finite h hx hy fx fy mode (directedOK_of_ieee hS _ _)
  obtain ⟨r', b1, b2, b3⟩ := subR_finite h hx' hy' fx' fy' mode (directedOK_of_ieee hS _ _)
  exact ⟨r, r', a1, b1, C37_rounding_monotone h a3 b3 (by linarith) (rounds_not_nan hS a3) (rounds_not_nan hS b3)⟩

example := C71_sub singleS_ok rfl (x := ⟨3 * 2 ^ 22, 1, .normal, true⟩) (x' := ⟨3 * 2 ^ 22, 0, .normal, false⟩) (y := ⟨3 * 2 ^ 22, 0, .normal, false⟩)
  (y' := ⟨1, -126, .normal, false⟩) (by decide) (by decide) (by decide) (by decide) rfl rfl rfl rfl .towardPositive
  (by norm_num [toRat, signed, singleS, Sem.default]) (by norm_num [toRat, signed, singleS, Sem.default])

/-- **C71.** Conversion to another format preserves the order of all values that are not NaN. -/
theorem C71_convert (h : S.OK) (hT : T.OK) (hi : T.nonfinite = .ieee754) {x y : IeeeFloat S} (hx : x.Valid)
    (hy : y.Valid) (mode : Round) (hxy : x.datum.le y.datum) :
    ∃ c d, convertR S T x mode = .ok c ∧ convertR S T y mode = .ok d ∧ c.value.datum.le d.value.datum := by
  have key : ∀ x : IeeeFloat S, x.Valid → x.isFinite = true →
      ∃ c, convertR S T x mode = .ok c ∧ Rounds T mode x.toRat x.sign ⟨c.status, c.value⟩ := fun x hx fx => by
    obtain ⟨c, a1, -, -, a2⟩ := C21_convert_finite h hT hx fx mode (directedOK_of_ieee hi _ _)
    exact ⟨c, a1, a2⟩
  have kinf : ∀ x : IeeeFloat S, x.isInfinite = true → ∃ c, convertR S T x mode = .ok c ∧ c.value.datum = .inf x.sign :=
    fun x ix => by
      obtain ⟨c, a1, -, -, a2, -⟩ := C21_convert_infinity h hT ix mode
      exact ⟨c, a1, (a2 hi).1⟩
  have tot : ∀ x : IeeeFloat S, x.Valid → x.isNan = false → ∃ c, convertR S T x mode = .ok c := fun x hx nx => by
    by_cases fx : x.isFinite = true
    · obtain ⟨c, a, -⟩ := key x hx fx; exact ⟨c, a⟩
    · obtain ⟨c, a, -⟩ := kinf x (by unfold isFinite at fx; rw [nx] at fx; simpa using fx); exact ⟨c, a⟩
  have nx : x.isNan = false := by
    rw [not_nan_iff]; intro e; rw [e] at hxy; simp [Datum.le] at hxy
  have ny : y.isNan = false := by
    rw [not_nan_iff]; intro e; rw [e] at hxy; revert hxy; cases x.datum <;> simp [Datum.le]
  obtain ⟨c, hc⟩ := tot x hx nx
  obtain ⟨d, hd⟩ := tot y hy ny
  refine ⟨c, d, hc, hd, ?_⟩
  let f : IeeeFloat S → Datum := fun x => match convertR S T x mode with | .ok c => c.value.datum | .error _ => .nan
  have hf : ∀ {x c}, convertR S T x mode = .ok c → f x = c.value.datum := fun e => by simp only [f]; rw [e]
  rw [← hf hc, ← hf hd]
  refine mono_extend (fun z hz nz => ?_) (fun z hz iz => ?_) (fun z w hz hw fz fw zw => ?_) hx hy hxy
  · by_cases fz : z.isFinite = true
    · obtain ⟨c, a, b⟩ := key z hz fz
      rw [hf a]
      have := rounds_not_nan hi b
      intro e
      apply this
      have q := (not_nan_iff c.value).not.2 (not_not.2 e)
      simpa [isNan] using q
    · obtain ⟨c, a, b⟩ := kinf z (by unfold isFinite at fz; rw [nz] at fz; simpa using fz)
      rw [hf a, b]; simp
  · obtain ⟨c, a, b⟩ := kinf z iz
    rw [hf a, b]
  · obtain ⟨c, a, b⟩ := key z hz fz
    obtain ⟨d, a', b'⟩ := key w hw fw
    rw [hf a, hf a']
    exact C37_rounding_monotone hT b b' zw (rounds_not_nan hi b) (rounds_not_nan hi b')

/-- **C71.** Scaling by a power of two preserves the order. -/
theorem C71_scalbn (h : S.OK) (hS : S.nonfinite = .ieee754) {x y : IeeeFloat S} (hx : x.Valid) (hy : y.Valid)
    (fx : x.isFinite = true) (fy : y.isFinite = true) (n : ℤ) (mode : Round) (hxy : x.toRat ≤ y.toRat) :
    ∃ r r', scalbnR x n mode = .ok r ∧ scalbnR y n mode = .ok r' ∧ r.datum.le r'.datum := by
  obtain ⟨r, st, a1, -, -, a3⟩ := C25_scalbn h hx fx n mode (directedOK_of_ieee hS _ _)
  obtain ⟨r', st', b1, -, -, b3⟩ := C25_scalbn h hy fy n mode (directedOK_of_ieee hS _ _)
  exact ⟨r, r', a1, b1, C37_rounding_monotone h a3 b3 (mul_le_mul_of_nonneg_right hxy (two_zpow_pos _).le)
    (rounds_not_nan hS a3) (rounds_not_nan hS b3)⟩

example := C71_scalbn singleS_ok rfl (x := ⟨3 * 2 ^ 22, 1, .normal, true⟩) (y := ⟨3 * 2 ^ 22, 0, .normal, false⟩) (by decide) (by decide) rfl rfl (-130) .towardZero
  (by norm_num [toRat, signed, singleS, Sem.default])

/-- **C71.** Scaling a non-negative number is increasing in the exponent too. -/
theorem C71_scalbn_exponent (h : S.OK) (hS : S.nonfinite = .ieee754) {x : IeeeFloat S} (hx : x.Valid)
    (fx : x.isFinite = true) (h0 : 0 ≤ x.toRat) {m n : ℤ} (hmn : m ≤ n) (mode : Round) :
    ∃ r r', scalbnR x m mode = .ok r ∧ scalbnR x n mode = .ok r' ∧ r.datum.le r'.datum := by
  obtain ⟨r, st, a1, -, -, a3⟩ := C25_scalbn h hx fx m mode (directedOK_of_ieee hS _ _)
  obtain ⟨r', st', b1, -, -, b3⟩ := C25_scalbn h hx fx n mode (directedOK_of_ieee hS _ _)
  exact ⟨r, r', a1, b1, C37_rounding_monotone h a3 b3
    (mul_le_mul_of_nonneg_left (zpow_le_zpow_right₀ (by norm_num) hmn) h0) (rounds_not_nan hS a3) (rounds_not_nan hS b3)⟩

example := C71_scalbn_exponent singleS_ok rfl (x := ⟨3 * 2 ^ 22, 1, .normal, false⟩) (by decide) rfl (by norm_num [toRat, signed, singleS, Sem.default])
  (m := -140) (n := 5) (by decide) .towardZero

/-- **C71.** Conversion from integers preserves the order. -/
theorem C71_from_int (h : S.OK) (hS : S.nonfinite = .ieee754) (mode : Round) :
    (∀ m n : ℕ, m ≤ n → n < 2 ^ 128 → ∃ r r', fromU128R S m mode = .ok r ∧ fromU128R S n mode = .ok r' ∧
      r.value.datum.le r'.value.datum) ∧
    (∀ m n : ℤ, -2 ^ 127 ≤ m → m ≤ n → n < 2 ^ 127 → ∃ r r', fromI128R S m mode = .ok r ∧ fromI128R S n mode = .ok r' ∧
      r.value.datum.le r'.value.datum) := by
  refine ⟨fun m n h1 h2 => ?_, fun m n h0 h1 h2 => ?_⟩
  · obtain ⟨r, a1, -, a3⟩ := C17_from_u128 h (n := m) (by omega) mode
    obtain ⟨r', b1, -, b3⟩ := C17_from_u128 h (n := n) (by omega) mode
    exact ⟨r, r', a1, b1, C37_rounding_monotone h a3 b3 (by exact_mod_cast h1) (rounds_not_nan hS a3) (rounds_not_nan hS b3)⟩
  · obtain ⟨r, a1, -, a3⟩ := C17_from_i128 h (n := m) (by omega) (by omega) mode
    obtain ⟨r', b1, -, b3⟩ := C17_from_i128 h (n := n) (by omega) (by omega) mode
    exact ⟨r, r', a1, b1, C37_rounding_monotone h a3 b3 (by exact_mod_cast h1) (rounds_not_nan hS a3) (rounds_not_nan hS b3)⟩

example := (C71_from_int halfS_ok rfl .towardZero).2 (-70000) 2049 (by norm_num) (by norm_num) (by norm_num)

/-- **C71.** `round_to_integral` preserves the order of all values that are not NaN, in every format. -/
theorem C71_round_to_integral (h : S.OK) {x y : IeeeFloat S} (hx : x.Valid) (hy : y.Valid) (mode : Round)
    (hxy : x.datum.le y.datum) :
    ∃ r r', roundToIntegral x mode = .ok r ∧ roundToIntegral y mode = .ok r' ∧ r.value.datum.le r'.value.datum := by
  have tot : ∀ x : IeeeFloat S, x.Valid → x.isNan = false → ∃ c, roundToIntegral x mode = .ok c := fun x hx nx => by
    by_cases fx : x.isFinite = true
    · obtain ⟨c, a, -⟩ := C13_round_to_integral h hx fx mode; exact ⟨c, a⟩
    · exact ⟨_, (C13_specials h hx mode).1 (by unfold isFinite at fx; rw [nx] at fx; simpa using fx)⟩
  have nx : x.isNan = false := by
    rw [not_nan_iff]; intro e; rw [e] at hxy; simp [Datum.le] at hxy
  have ny : y.isNan = false := by
    rw [not_nan_iff]; intro e; rw [e] at hxy; revert hxy; cases x.datum <;> simp [Datum.le]
  obtain ⟨c, hc⟩ := tot x hx nx
  obtain ⟨d, hd⟩ := tot y hy ny
  refine ⟨c, d, hc, hd, ?_⟩
  let f : IeeeFloat S → Datum := fun x => match roundToIntegral x mode with | .ok c => c.value.datum | .error _ => .nan
  have hf : ∀ {x c}, roundToIntegral x mode = .ok c → f x = c.value.datum := fun e => by simp only [f]; rw [e]
  have inf : ∀ {z : IeeeFloat S}, z.isInfinite = true → z.datum = .inf z.sign := by
    intro z hz; have : z.category = .infinity := by simpa [isInfinite] using hz
    simp [datum, this]
  rw [← hf hc, ← hf hd]
  refine mono_extend (fun z hz nz => ?_) (fun z hz iz => ?_) (fun z w hz hw fz fw zw => ?_) hx hy hxy
  · by_cases fz : z.isFinite = true
    · obtain ⟨r, a1, a2, a3, -⟩ := C13_round_to_integral h hz fz mode
      rw [hf a1, datum_finite a3]; simp
    · have iz : z.isInfinite = true := by unfold isFinite at fz; rw [nz] at fz; simpa using fz
      rw [hf ((C13_specials h hz mode).1 iz), inf iz]; simp
  · rw [hf ((C13_specials h hz mode).1 iz)]; exact inf iz
  · obtain ⟨r, a1, a2, a3, -, n, a4, a5, -⟩ := C13_round_to_integral h hz fz mode
    obtain ⟨r', b1, b2, b3, -, k, b4, b5, -⟩ := C13_round_to_integral h hw fw mode
    rw [hf a1, hf b1, datum_finite a3, datum_finite b3]
    show r.value.toRat ≤ r'.value.toRat
    rw [a5, b5]
    exact_mod_cast a4.mono b4 zw

example := C71_round_to_integral singleS_ok (x := ⟨3 * 2 ^ 22, 0, .normal, false⟩) (y := INFINITY singleS) (by decide) (by decide) .towardZero trivial

theorem ConvertsToInt.clamp {lo hi : ℤ} {mode : Round} {v : ℚ} {st : Status} {a : ℤ} {e : Bool} (hl : lo ≤ hi)
    (ha : ConvertsToInt lo hi mode v st a e) : ∃ n, RoundsToInt mode v n ∧ a = max lo (min hi n) := by
  obtain ⟨n, n1, n2⟩ := ha
  refine ⟨n, n1, ?_⟩
  rcases n2 with ⟨p1, p2, p3, -⟩ | ⟨p1, p2, -⟩ | ⟨p1, p2, -⟩ <;> omega

theorem int_extend {lo hi : ℤ} (hl : lo ≤ hi) {mode : Round} {f : IeeeFloat S → ℤ}
    (hfin : ∀ x, x.Valid → x.isFinite = true → ∃ n, RoundsToInt mode x.toRat n ∧ f x = max lo (min hi n))
    (hinf : ∀ x, x.isInfinite = true → f x = if x.sign then lo else hi)
    {x y : IeeeFloat S} (hx : x.Valid) (hy : y.Valid) (h : x.datum.le y.datum) : f x ≤ f y := by
  have nx : x.isNan = false := by
    rw [not_nan_iff]; intro e; rw [e] at h; simp [Datum.le] at h
  have ny : y.isNan = false := by
    rw [not_nan_iff]; intro e; rw [e] at h; revert h; cases x.datum <;> simp [Datum.le]
  have inf : ∀ {z : IeeeFloat S}, z.isInfinite = true → z.datum = .inf z.sign := by
    intro z hz; have : z.category = .infinity := by simpa [isInfinite] using hz
    simp [datum, this]
  have fin : ∀ {z : IeeeFloat S}, z.isNan = false → z.isInfinite = true ∨ z.isFinite = true := by
    intro z hz; unfold isFinite; rw [hz]; cases z.isInfinite <;> simp
  rcases fin nx with ix | fx <;> rcases fin ny with iy | fy
  · rw [inf ix, inf iy] at h
    rw [hinf x ix, hinf y iy]
    cases s : x.sign <;> cases t : y.sign <;> rw [s, t] at h <;> simp [Datum.le] at h ⊢
    exact hl
  · obtain ⟨n, n1, n2⟩ := hfin y hy fy
    rw [inf ix, datum_finite fy] at h
    rw [hinf x ix, n2]
    cases s : x.sign <;> rw [s] at h <;> simp [Datum.le] at h ⊢
  · obtain ⟨n, n1, n2⟩ := hfin x hx fx
    rw [inf iy, datum_finite fx] at h
    rw [hinf y iy, n2]
    cases s : y.sign <;> rw [s] at h <;> simp [Datum.le] at h ⊢
    exact hl
  · obtain ⟨n, n1, n2⟩ := hfin x hx fx
    obtain ⟨k, k1, k2⟩ := hfin y hy fy
    rw [datum_finite fx, datum_finite fy] at h
    have := n1.mono k1 h
    omega

/-- **C71.** Conversion to integers, saturating included, preserves the order of all values that are not NaN. -/
theorem C71_to_int (h : S.OK) {x y : IeeeFloat S} (hx : x.Valid) (hy : y.Valid) (mode : Round) (hxy : x.datum.le y.datum) :
    (∀ w, 1 ≤ w → w ≤ 128 → ∃ r r', toU128R x w mode = .ok r ∧ toU128R y w mode = .ok r' ∧ r.value ≤ r'.value) ∧
    (∀ w, 2 ≤ w → w ≤ 128 → ∃ r r', toI128R x w mode = .ok r ∧ toI128R y w mode = .ok r' ∧ r.value ≤ r'.value) := by
  have nx : x.isNan = false := by
    rw [not_nan_iff]; intro e; rw [e] at hxy; simp [Datum.le] at hxy
  have ny : y.isNan = false := by
    rw [not_nan_iff]; intro e; rw [e] at hxy; revert hxy; cases x.datum <;> simp [Datum.le]
  have inf : ∀ {z : IeeeFloat S}, z.isNan = false → ¬ z.isFinite = true → z.isInfinite = true := by
    intro z nz fz; unfold isFinite at fz; rw [nz] at fz; simpa using fz
  constructor
  · intro w w1 w2
    have hw : (0 : ℤ) ≤ 2 ^ w - 1 := by have : (1 : ℤ) ≤ 2 ^ w := one_le_pow₀ (by norm_num); omega
    have hw' : ((2 ^ w - 1 : ℕ) : ℤ) = 2 ^ w - 1 := by
      have := Nat.one_le_two_pow (n := w); push_cast [this]; rfl
    have fin : ∀ x : IeeeFloat S, x.Valid → x.isFinite = true → ∃ r, toU128R x w mode = .ok r ∧
        ∃ n, RoundsToInt mode x.toRat n ∧ (r.value : ℤ) = max 0 (min (2 ^ w - 1) n) := fun x hx fx => by
      by_cases hz : x.isZero = true ∧ x.sign = true
      · refine ⟨_, (C18_to_u128_specials w1 w2 mode).1 hz.1 hz.2, 0, ?_, ?_⟩
        · have : x.category = .zero := by simpa [isZero] using hz.1
          rw [toRat_zero this]; exact_mod_cast RoundsToInt_self mode 0
        · simp
      · obtain ⟨r, r1, r2⟩ := C18_to_u128 h hx fx hz w1 w2 mode
        exact ⟨r, r1, ConvertsToInt.clamp hw r2⟩
    have ninf : ∀ x : IeeeFloat S, x.isInfinite = true → ∃ r, toU128R x w mode = .ok r ∧
        (r.value : ℤ) = if x.sign then 0 else 2 ^ w - 1 := fun x ix => by
      obtain ⟨-, -, a, b⟩ := C18_to_u128_specials (x := x) w1 w2 mode
      cases s : x.sign
      · exact ⟨_, b ix s, by simp [hw']⟩
      · exact ⟨_, a ix s, by simp⟩
    have tot : ∀ x : IeeeFloat S, x.Valid → x.isNan = false → ∃ r, toU128R x w mode = .ok r := fun x hx nx => by
      by_cases fx : x.isFinite = true
      · obtain ⟨r, a, -⟩ := fin x hx fx; exact ⟨r, a⟩
      · obtain ⟨r, a, -⟩ := ninf x (inf nx fx); exact ⟨r, a⟩
    obtain ⟨c, hc⟩ := tot x hx nx
    obtain ⟨d, hd⟩ := tot y hy ny
    refine ⟨c, d, hc, hd, ?_⟩
    let f : IeeeFloat S → ℤ := fun x => match toU128R x w mode with | .ok c => c.value | .error _ => 0
    have hf : ∀ {x c}, toU128R x w mode = .ok c → f x = c.value := fun e => by simp only [f]; rw [e]
    have : f x ≤ f y := by
      refine int_extend hw (mode := mode) (fun z hz fz => ?_) (fun z iz => ?_) hx hy hxy
      · obtain ⟨r, r1, n, r2, r3⟩ := fin z hz fz
        exact ⟨n, r2, by rw [hf r1, r3]⟩
      · obtain ⟨r, r1, r2⟩ := ninf z iz
        rw [hf r1, r2]
    rw [hf hc, hf hd] at this
    exact_mod_cast this
  · intro w w1 w2
    have hw : -(2 : ℤ) ^ (w - 1) ≤ 2 ^ (w - 1) - 1 := by have : (1 : ℤ) ≤ 2 ^ (w - 1) := one_le_pow₀ (by norm_num); omega
    have fin : ∀ x : IeeeFloat S, x.Valid → x.isFinite = true → ∃ r, toI128R x w mode = .ok r ∧
        ∃ n, RoundsToInt mode x.toRat n ∧ r.value = max (-2 ^ (w - 1)) (min (2 ^ (w - 1) - 1) n) := fun x hx fx => by
      obtain ⟨r, r1, r2⟩ := C19_to_i128 h hx fx w1 w2 mode
      exact ⟨r, r1, ConvertsToInt.clamp hw r2⟩
    have ninf : ∀ x : IeeeFloat S, x.isInfinite = true → ∃ r, toI128R x w mode = .ok r ∧
        r.value = if x.sign then -2 ^ (w - 1) else 2 ^ (w - 1) - 1 := fun x ix => by
      obtain ⟨-, a, b⟩ := C19_to_i128_specials (x := x) w1 w2 mode
      cases s : x.sign
      · exact ⟨_, b ix s, by simp⟩
      · exact ⟨_, a ix s, by simp⟩
    have tot : ∀ x : IeeeFloat S, x.Valid → x.isNan = false → ∃ r, toI128R x w mode = .ok r := fun x hx nx => by
      by_cases fx : x.isFinite = true
      · obtain ⟨r, a, -⟩ := fin x hx fx; exact ⟨r, a⟩
      · obtain ⟨r, a, -⟩ := ninf x (inf nx fx); exact ⟨r, a⟩
    obtain ⟨c, hc⟩ := tot x hx nx
    obtain ⟨d, hd⟩ := tot y hy ny
    refine ⟨c, d, hc, hd, ?_⟩
    let f : IeeeFloat S → ℤ := fun x => match toI128R x w mode with | .ok c => c.value | .error _ => 0
    have hf : ∀ {x c}, toI128R x w mode = .ok c → f x = c.value := fun e => by simp only [f]; rw [e]
    have : f x ≤ f y := by
      refine int_extend hw (mode := mode) (fun z hz fz => ?_) (fun z iz => ?_) hx hy hxy
      · obtain ⟨r, r1, n, r2, r3⟩ := fin z hz fz
        exact ⟨n, r2, by rw [hf r1, r3]⟩
      · obtain ⟨r, r1, r2⟩ := ninf z iz
        rw [hf r1, r2]
    rw [hf hc, hf hd] at this
    exact this

example := C71_to_int singleS_ok (x := ⟨3 * 2 ^ 22, 1, .normal, true⟩) (y := INFINITY singleS) (by decide) (by decide) .towardZero (by trivial)

/-- **C71.** The fused multiply-add is increasing in the addend (where it is correctly rounded, see C08). -/
theorem C71_mul_add (h : S.OK) (hS : S.nonfinite = .ieee754) {x m z z' : IeeeFloat S} (hx : x.Valid) (hm : m.Valid)
    (hz : z.Valid) (hz' : z'.Valid) (fx : x.isFinite = true) (fm : m.isFinite = true) (fz : z.isFinite = true)
    (fz' : z'.isFinite = true) (mode : Round) (hE : ¬ FmaWrong S mode (x.toRat * m.toRat) z.toRat)
    (hE' : ¬ FmaWrong S mode (x.toRat * m.toRat) z'.toRat) (hzz : z.toRat ≤ z'.toRat) :
    ∃ r r', mulAddR x m z mode = .ok r ∧ mulAddR x m z' mode = .ok r' ∧ r.value.datum.le r'.value.datum := by
  obtain ⟨r, a1, -, a3⟩ := mulAddR_exact h hx hm hz fx fm fz mode (.of (directedOK_of_ieee hS _ _)) hE
  obtain ⟨r', b1, -, b3⟩ := mulAddR_exact h hx hm hz' fx fm fz' mode (.of (directedOK_of_ieee hS _ _)) hE'
  exact ⟨r, r', a1, b1, C37_rounding_monotone h a3 b3 (by linarith) (rounds_not_nan hS a3) (rounds_not_nan hS b3)⟩

/-- **C71.** Larger decimal literals parse to larger floats, in the nearest modes. -/
theorem C71_from_str (h : S.OK) (hS : S.nonfinite = .ieee754) (hp : S.precision ≤ 120) {mode : Round}
    (hm : mode = .nearestTiesToEven ∨ mode = .nearestTiesToAway) (sg sg' : LitSign) {t t' : List Char}
    (hlen : t.length < 2 ^ 27) (hlen' : t'.length < 2 ^ 27) {v v' : ℚ} (ht : IsDec t v) (ht' : IsDec t' v')
    (hv : signed (sg == .minus) v ≤ signed (sg' == .minus) v') :
    ∃ r r', fromStrR S 23 (sg.chars ++ t) mode = .ok (.ok r) ∧ fromStrR S 23 (sg'.chars ++ t') mode = .ok (.ok r') ∧
      r.value.datum.le r'.value.datum := by
  obtain ⟨r, st, a1, -, a3, -⟩ := C31_nearest h hp (le_refl 23) sg hlen ht hm
  obtain ⟨r', st', b1, -, b3, -⟩ := C31_nearest h hp (le_refl 23) sg' hlen' ht' hm
  have n1 := rounds_not_nan hS a3
  have n2 := rounds_not_nan hS b3
  have := C37_rounding_monotone h a3 b3 hv n1 n2
  exact ⟨r, r', a1, b1, this⟩

/-- The hypotheses are met by numbers on the two sides of a rounding boundary and by infinities. -/
example : (∃ x y : IeeeFloat doubleS, x.Valid ∧ y.Valid ∧ x.datum.le y.datum ∧
    ∃ c d, convertR doubleS singleS x .nearestTiesToEven = .ok c ∧ convertR doubleS singleS y .nearestTiesToEven = .ok d ∧
      c.value.datum.le d.value.datum) :=
  ⟨INFINITY doubleS |>.neg, ⟨2 ^ 52 + 1, 0, .normal, true⟩, by decide +kernel, by decide +kernel, trivial,
    C71_convert doubleS_ok singleS_ok rfl (by decide +kernel) (by decide +kernel) _ trivial⟩

end Apf
