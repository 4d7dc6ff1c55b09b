import Verif.Spec.Dot
import Verif.Props.DoubleRounding
import Verif.Props.BitOrder
import Verif.Props.FmaExact
import Verif.Props.Accumulate

/-! **C103**: products and dot products of narrow numbers in a wide type. -/

namespace Apf
open Spec IeeeFloat
variable {S T : Sem}

theorem mult_toRat (h : S.OK) {x : IeeeFloat S} (hx : x.Valid) (fx : x.isFinite = true) :
    ∃ n : ℤ, x.toRat = (n : ℚ) * 2 ^ (S.minExp - S.precision + 1) := by
  obtain ⟨m, k, -, h2, e⟩ := grid_toRat h hx fx
  obtain ⟨d, hd⟩ := Int.eq_ofNat_of_zero_le (show 0 ≤ k - (S.minExp - S.precision + 1) by
    have : S.minExp - (S.precision : ℤ) + 1 ≤ k := h2
    omega)
  refine ⟨m * 2 ^ d, ?_⟩
  rw [e, show k = (d : ℤ) + (S.minExp - S.precision + 1) by omega, two_zpow_add, zpow_natCast]
  push_cast; ring

theorem mult_product (h : S.OK) {x y : IeeeFloat S} (hx : x.Valid) (hy : y.Valid) (fx : x.isFinite = true) (fy : y.isFinite = true) :
    ∃ n : ℤ, x.toRat * y.toRat = (n : ℚ) * 2 ^ (2 * (S.minExp - S.precision + 1)) := by
  obtain ⟨a, ha⟩ := mult_toRat h hx fx
  obtain ⟨b, hb⟩ := mult_toRat h hy fy
  refine ⟨a * b, ?_⟩
  rw [ha, hb, show 2 * (S.minExp - (S.precision : ℤ) + 1) = (S.minExp - S.precision + 1) + (S.minExp - S.precision + 1) by ring,
    two_zpow_add (S.minExp - S.precision + 1) (S.minExp - S.precision + 1)]
  generalize (2 : ℚ) ^ (S.minExp - (S.precision : ℤ) + 1) = u
  push_cast; ring

theorem SignRule.of_signed {s t : Bool} {a : ℚ} (ha : 0 ≤ a) (h : SignRule (signed t a) t s) : s = t := by
  rcases ha.eq_or_lt with e | e
  · exact h.2.2 (by rw [← e]; cases t <;> simp [signed])
  · cases t
    · exact h.1 e
    · exact h.2.1 (by simp only [signed, if_true]; linarith)

theorem product_in_range (h : WidePair S T) {x y : IeeeFloat S} (hx : x.Valid) (hy : y.Valid) (fx : x.isFinite = true)
    (fy : y.isFinite = true) : |x.toRat * y.toRat| ≤ 2 ^ (2 * (S.maxExp + 1)) ∧ (2 : ℚ) ^ (2 * (S.maxExp + 1)) ≤ T.fmt.largest := by
  have lx := abs_lt_pow h.okS hx fx
  have ly := abs_lt_pow h.okS hy fy
  refine ⟨?_, (two_zpow_le h.prod).trans (two_pow_le_largest h.okT)⟩
  rw [abs_mul]
  have := mul_lt_mul'' lx ly (abs_nonneg _) (abs_nonneg _)
  rw [← two_zpow_add, ← two_mul] at this
  exact this.le

/-- **C103.** The product of two numbers converted to a type twice as wide is exact: no flag is raised, in any mode. -/
theorem C103_product (h : WidePair S T) {x y : IeeeFloat S} (hx : x.Valid) (hy : y.Valid) (fx : x.isFinite = true) (fy : y.isFinite = true)
    (m1 m2 mode : Round) :
    ∃ X Y p, convertR S T x m1 = .ok X ∧ convertR S T y m2 = .ok Y ∧ mulR X.value Y.value mode = .ok p ∧ p.value.Valid ∧
      p.value.isFinite = true ∧ p.value.toRat = x.toRat * y.toRat ∧ p.value.sign = xor x.sign y.sign ∧
      X.status = Status.OK ∧ Y.status = Status.OK ∧ p.status = Status.OK := by
  obtain ⟨X, X1, X2, X3, X4, X5, X6⟩ := widen h hx fx m1
  obtain ⟨Y, Y1, Y2, Y3, Y4, Y5, Y6⟩ := widen h hy fy m2
  obtain ⟨w, w1, w2, w3⟩ := mulR_finite h.okT X2 Y2 X3 Y3 mode (directedOK_of_ieee h.inf _ _)
  rw [X4, Y4, X5, Y5] at w3
  obtain ⟨l1, l2⟩ := product_in_range h hx hy fx fy
  obtain ⟨s, f, e⟩ := w3.exact (wide_mul h.wide (grid_toRat h.okS hx fx) (grid_toRat h.okS hy fy)) (l1.trans l2)
  refine ⟨X, Y, w, X1, Y1, w1, w2, f, e, ?_, X6, Y6, s⟩
  have sx := toRat_sign hx fx
  have sy := toRat_sign hy fy
  have hs : x.toRat * y.toRat = signed (xor x.sign y.sign) (|x.toRat| * |y.toRat|) := by
    conv_lhs => rw [sx, sy]
    cases x.sign <;> cases y.sign <;> simp [signed]
  have := w3.2
  rw [hs] at this
  exact this.of_signed (by positivity)

example := C103_product single_via_double (x := ⟨2 ^ 24 - 1, 127, .normal, false⟩) (y := ⟨1, -126, .normal, true⟩) (by decide) (by decide) rfl rfl
  .nearestTiesToEven .nearestTiesToEven .towardPositive

/-- In the wide type the products of narrow numbers do not meet the defect of the fused multiply-add (C08). -/
theorem wide_not_excluded (h : WidePair S T) {x y : IeeeFloat S} (hx : x.Valid) (hy : y.Valid) (fx : x.isFinite = true) (fy : y.isFinite = true)
    (z : ℚ) : ¬ FmaExcluded T (x.toRat * y.toRat) z := by
  rintro ⟨-, -, -, hn⟩
  apply hn
  obtain ⟨n, e⟩ := mult_product h.okS hx hy fx fy
  have := h.unit; have := h.okT.p_ge
  obtain ⟨d, hd⟩ := Int.eq_ofNat_of_zero_le (show 0 ≤ 2 * (S.minExp - S.precision + 1) - (T.minExp - 2 * T.precision) by omega)
  refine ⟨n * 2 ^ d, ?_⟩
  rw [e, show 2 * (S.minExp - (S.precision : ℤ) + 1) = (d : ℤ) + (T.minExp - 2 * T.precision) by omega, two_zpow_add d, zpow_natCast]
  push_cast; ring

/-- **C103.** In the wide type a fused multiply-add of two narrow numbers and any wide one is correctly rounded, without the exceptions
of C08, and it does what a multiplication followed by an addition does: the same bits, the same flags. -/
theorem C103_mul_add (h : WidePair S T) {x y : IeeeFloat S} {z : IeeeFloat T} (hx : x.Valid) (hy : y.Valid) (hz : z.Valid)
    (fx : x.isFinite = true) (fy : y.isFinite = true) (fz : z.isFinite = true) (m1 m2 m3 mode : Round) :
    ∃ X Y p r s, convertR S T x m1 = .ok X ∧ convertR S T y m2 = .ok Y ∧ mulR X.value Y.value m3 = .ok p ∧
      addR p.value z mode = .ok s ∧ mulAddR X.value Y.value z mode = .ok r ∧ r.value.Valid ∧
      Rounds T mode (x.toRat * y.toRat + z.toRat) (zeroSum mode (xor x.sign y.sign) z.sign) r ∧
      r.value.bitwiseEq s.value = true ∧ p.status = Status.OK ∧ r.status = s.status := by
  obtain ⟨X, X1, X2, X3, X4, X5, -⟩ := widen h hx fx m1
  obtain ⟨Y, Y1, Y2, Y3, Y4, Y5, -⟩ := widen h hy fy m2
  obtain ⟨X', Y', p, X1', Y1', p1, p2, p3, p4, p5, -, -, p6⟩ := C103_product h hx hy fx fy m1 m2 m3
  rw [X1, Except.ok.injEq] at X1'
  rw [Y1, Except.ok.injEq] at Y1'
  subst X1' Y1'
  obtain ⟨s, s1, s2, s3⟩ := addR_finite h.okT p2 hz p3 fz mode (directedOK_of_ieee h.inf _ _)
  obtain ⟨r, r1, r2, r3⟩ := C08_mul_add_partial h.okT X2 Y2 hz X3 Y3 fz mode (directedOK_of_ieee h.inf _ _)
    (by rw [X4, Y4]; exact wide_not_excluded h hx hy fx fy _)
  rw [X4, Y4, X5, Y5] at r3
  rw [p4, p5] at s3
  obtain ⟨u1, u2, u3⟩ := r3.unique s3
  refine ⟨X, Y, p, r, s, X1, Y1, p1, s1, r1, r2, r3, ?_, p6, u3⟩
  exact (bitwiseEq_iff _ _).2 (same_of_datum h.okT r2 s2 (rounds_not_nan h.inf r3) u1)

example := C103_mul_add half_via_single (x := ⟨1225, -12, .normal, false⟩) (y := ⟨1284, -12, .normal, false⟩) (z := ⟨1, -126, .normal, true⟩)
  (by decide) (by decide) (by decide) rfl rfl rfl .nearestTiesToEven .nearestTiesToEven .nearestTiesToEven .nearestTiesToEven

theorem dotSize_nonneg (l : List (IeeeFloat S × IeeeFloat S)) : 0 ≤ dotSize l := by
  induction l with
  | nil => exact le_refl _
  | cons a l ih => obtain ⟨x, y⟩ := a; exact add_nonneg (abs_nonneg _) ih

theorem dot_aux (h : WidePair S T) (mode : Round) (l : List (IeeeFloat S × IeeeFloat S))
    (hl : ∀ q ∈ l, q.1.Valid ∧ q.2.Valid ∧ q.1.isFinite = true ∧ q.2.isFinite = true) :
    ∀ {a : IeeeFloat T}, a.Valid → a.isFinite = true → (∃ n : ℤ, a.toRat = (n : ℚ) * 2 ^ (2 * (S.minExp - S.precision + 1))) →
      |a.toRat| + dotSize l ≤ 2 ^ (T.precision + 2 * (S.minExp - S.precision + 1)) →
      (∃ r, dotLoop S T mode ⟨Status.OK, a⟩ l = .ok r ∧ r.value.Valid ∧ r.value.isFinite = true ∧ r.value.toRat = a.toRat + dotExact l ∧
        r.status = Status.OK) ∧
      (∃ r, dotFused S T mode ⟨Status.OK, a⟩ l = .ok r ∧ r.value.Valid ∧ r.value.isFinite = true ∧ r.value.toRat = a.toRat + dotExact l ∧
        r.status = Status.OK) := by
  have hT := h.okT
  have hun := h.unit
  have hp : 1 ≤ T.fmt.p := by have := hT.p_ge; show 1 ≤ T.precision; omega
  have hB : (2 : ℚ) ^ (T.precision + 2 * (S.minExp - S.precision + 1)) ≤ T.fmt.largest := by
    have h1 := pow_le_largest' hT
    have h2 : (2 : ℚ) ^ (T.precision + 2 * (S.minExp - S.precision + 1)) ≤ 2 ^ (T.precision : ℤ) := two_zpow_le (by
      have := h.okS.min_lt; have := h.okS.p_ge; omega)
    rw [zpow_natCast] at h2
    linarith
  -- one step, whatever the way the sum is computed
  have step : ∀ {a : IeeeFloat T} {x y : IeeeFloat S} {v : ℚ} {zs : Bool} {s : StatusAnd (IeeeFloat T)} {B : ℚ}, 0 ≤ B →
      x.Valid → y.Valid → x.isFinite = true → y.isFinite = true → (∃ n : ℤ, a.toRat = (n : ℚ) * 2 ^ (2 * (S.minExp - S.precision + 1))) →
      |a.toRat| + (|x.toRat * y.toRat| + B) ≤ 2 ^ (T.precision + 2 * (S.minExp - S.precision + 1)) →
      Rounds T mode v zs s → v = a.toRat + x.toRat * y.toRat →
      s.value.isFinite = true ∧ s.value.toRat = a.toRat + x.toRat * y.toRat ∧ s.status = Status.OK ∧
        (∃ n : ℤ, s.value.toRat = (n : ℚ) * 2 ^ (2 * (S.minExp - S.precision + 1))) ∧
        |s.value.toRat| + B ≤ 2 ^ (T.precision + 2 * (S.minExp - S.precision + 1)) := by
    intro a x y v zs s B b0 hx hy fx fy ⟨n, hn⟩ hb hr hv
    obtain ⟨m, hm⟩ := mult_product h.okS hx hy fx fy
    have e : v = ((n + m : ℤ) : ℚ) * 2 ^ (2 * (S.minExp - S.precision + 1)) := by rw [hv, hn, hm]; push_cast; ring
    have hle : |v| + B ≤ 2 ^ (T.precision + 2 * (S.minExp - S.precision + 1)) := by
      rw [hv]; have := abs_add_le a.toRat (x.toRat * y.toRat); linarith
    obtain ⟨t4, t5, t6⟩ := exact_step hT hr (grid_of_mult (F := T.fmt) hp ⟨_, e⟩ hun (by show |v| ≤ 2 ^ ((T.precision : ℤ) + _); linarith)) (by linarith)
    exact ⟨t4, by rw [t5, hv], t6, ⟨_, by rw [t5, e]⟩, by rw [t5]; exact hle⟩
  induction l with
  | nil =>
    intro a ha fa _ _
    exact ⟨⟨_, rfl, ha, fa, by simp [dotExact], rfl⟩, ⟨_, rfl, ha, fa, by simp [dotExact], rfl⟩⟩
  | cons q l ih =>
    obtain ⟨x, y⟩ := q
    intro a ha fa hn hb
    obtain ⟨hx, hy, fx, fy⟩ := hl (x, y) (List.mem_cons_self ..)
    have hl' : ∀ q ∈ l, q.1.Valid ∧ q.2.Valid ∧ q.1.isFinite = true ∧ q.2.isFinite = true :=
      fun q hq => hl q (List.mem_cons_of_mem _ hq)
    simp only [dotSize] at hb
    have h0 := dotSize_nonneg l
    obtain ⟨X, Y, p, X1, Y1, p1, p2, p3, p4, p5, X6, Y6, p6⟩ := C103_product h hx hy fx fy mode mode mode
    constructor
    · obtain ⟨s, s1, s2, s3⟩ := addR_finite hT ha p2 fa p3 mode (directedOK_of_ieee h.inf _ _)
      obtain ⟨t1, t2, t3, t4, t5⟩ := step h0 hx hy fx fy hn hb s3 (by rw [p4])
      obtain ⟨⟨r, r1, r2, r3, r4, r5⟩, -⟩ := ih hl' s2 t1 t4 t5
      refine ⟨r, ?_, r2, r3, by rw [r4, t2, dotExact]; ring, r5⟩
      simp only [dotLoop]
      rw [X1, M.ok_bind, Y1, M.ok_bind, p1, M.ok_bind, s1, M.ok_bind, X6, Y6, p6, t3]
      exact r1
    · obtain ⟨X', Y', p', s, s', X1', Y1', -, -, s1, s2, s3, -, -, -⟩ := C103_mul_add h hx hy ha fx fy fa mode mode mode mode
      rw [X1, Except.ok.injEq] at X1'
      rw [Y1, Except.ok.injEq] at Y1'
      subst X1' Y1'
      obtain ⟨t1, t2, t3, t4, t5⟩ := step h0 hx hy fx fy hn hb s3 (by ring)
      obtain ⟨-, r, r1, r2, r3, r4, r5⟩ := ih hl' s2 t1 t4 t5
      refine ⟨r, ?_, r2, r3, by rw [r4, t2, dotExact]; ring, r5⟩
      simp only [dotFused]
      rw [X1, M.ok_bind, Y1, M.ok_bind, s1, M.ok_bind, X6, Y6, t3]
      exact r1

/-- **C103.** A dot product of narrow vectors of any length accumulated in a wide type, fused or not, in any mode, is exact and raises no
flag, as long as the magnitudes of its terms add up to at most `2^p` units, the unit being the square of the smallest subnormal. -/
theorem C103_dot (h : WidePair S T) (mode : Round) (l : List (IeeeFloat S × IeeeFloat S))
    (hl : ∀ q ∈ l, q.1.Valid ∧ q.2.Valid ∧ q.1.isFinite = true ∧ q.2.isFinite = true)
    (hs : dotSize l ≤ 2 ^ (T.precision + 2 * (S.minExp - S.precision + 1))) :
    (∃ r, dotLoop S T mode ⟨Status.OK, ZERO T⟩ l = .ok r ∧ r.value.isFinite = true ∧ r.value.toRat = dotExact l ∧ r.status = Status.OK) ∧
    (∃ r, dotFused S T mode ⟨Status.OK, ZERO T⟩ l = .ok r ∧ r.value.isFinite = true ∧ r.value.toRat = dotExact l ∧ r.status = Status.OK) := by
  have hz : (ZERO T).toRat = 0 := rfl
  obtain ⟨⟨r, r1, -, r2, r3, r4⟩, ⟨s, s1, -, s2, s3, s4⟩⟩ := dot_aux h mode l hl (a := ZERO T) rfl rfl ⟨0, by rw [hz]; simp⟩ (by rw [hz]; simpa using hs)
  rw [hz, zero_add] at r3 s3
  exact ⟨⟨r, r1, r2, r3, r4⟩, ⟨s, s1, s2, s3, s4⟩⟩

/-- **C103.** In particular, whatever the elements of the vectors, up to a length that depends on the two types only. -/
theorem C103_dot_length (h : WidePair S T) (mode : Round) (l : List (IeeeFloat S × IeeeFloat S))
    (hl : ∀ q ∈ l, q.1.Valid ∧ q.2.Valid ∧ q.1.isFinite = true ∧ q.2.isFinite = true)
    (hs : (l.length : ℚ) * 2 ^ (2 * (S.maxExp + 1)) ≤ 2 ^ (T.precision + 2 * (S.minExp - S.precision + 1))) :
    (∃ r, dotLoop S T mode ⟨Status.OK, ZERO T⟩ l = .ok r ∧ r.value.isFinite = true ∧ r.value.toRat = dotExact l ∧ r.status = Status.OK) ∧
    (∃ r, dotFused S T mode ⟨Status.OK, ZERO T⟩ l = .ok r ∧ r.value.isFinite = true ∧ r.value.toRat = dotExact l ∧ r.status = Status.OK) := by
  refine C103_dot h mode l hl (le_trans ?_ hs)
  clear hs
  induction l with
  | nil => simp [dotSize]
  | cons q l ih =>
    obtain ⟨x, y⟩ := q
    obtain ⟨hx, hy, fx, fy⟩ := hl (x, y) (List.mem_cons_self ..)
    have := (product_in_range h hx hy fx fy).1
    have := ih (fun q hq => hl q (List.mem_cons_of_mem _ hq))
    simp only [dotSize, List.length_cons]
    push_cast
    linarith

theorem e4m3fn_via_double : WidePair float8E4M3FNS doubleS :=
  ⟨float8E4M3FNS_ok, doubleS_ok, rfl, by decide, by decide, by decide, by decide, by decide⟩
theorem half_via_quad : WidePair halfS quadS :=
  ⟨halfS_ok, quadS_ok, rfl, by decide, by decide, by decide, by decide, by decide⟩

/-- **C103.** Dot products of `Float8E4M3FN` vectors of up to 131072 elements are exact in `Double`... -/
theorem C103_dot_e4m3fn (mode : Round) (l : List (IeeeFloat float8E4M3FNS × IeeeFloat float8E4M3FNS))
    (hl : ∀ q ∈ l, q.1.Valid ∧ q.2.Valid ∧ q.1.isFinite = true ∧ q.2.isFinite = true) (hn : l.length ≤ 2 ^ 17) :
    ∃ r, dotLoop float8E4M3FNS doubleS mode ⟨Status.OK, ZERO doubleS⟩ l = .ok r ∧ r.value.isFinite = true ∧ r.value.toRat = dotExact l ∧
      r.status = Status.OK := by
  refine (C103_dot_length e4m3fn_via_double mode l hl ?_).1
  have h1 : (l.length : ℚ) ≤ 2 ^ 17 := by exact_mod_cast hn
  have e1 : 2 * (float8E4M3FNS.maxExp + 1) = 18 := by decide
  have e2 : (doubleS.precision : ℤ) + 2 * (float8E4M3FNS.minExp - float8E4M3FNS.precision + 1) = 35 := by decide
  rw [e1, e2]
  refine (mul_le_mul_of_nonneg_right h1 (by positivity)).trans ?_
  norm_num

/-- ... and of `Half` vectors of up to `2^33` elements in `Quad`. -/
theorem C103_dot_half (mode : Round) (l : List (IeeeFloat halfS × IeeeFloat halfS))
    (hl : ∀ q ∈ l, q.1.Valid ∧ q.2.Valid ∧ q.1.isFinite = true ∧ q.2.isFinite = true) (hn : l.length ≤ 2 ^ 33) :
    ∃ r, dotLoop halfS quadS mode ⟨Status.OK, ZERO quadS⟩ l = .ok r ∧ r.value.isFinite = true ∧ r.value.toRat = dotExact l ∧
      r.status = Status.OK := by
  refine (C103_dot_length half_via_quad mode l hl ?_).1
  have h1 : (l.length : ℚ) ≤ 2 ^ 33 := by exact_mod_cast hn
  have e1 : 2 * (halfS.maxExp + 1) = 32 := by decide
  have e2 : (quadS.precision : ℤ) + 2 * (halfS.minExp - halfS.precision + 1) = 65 := by decide
  rw [e1, e2]
  refine (mul_le_mul_of_nonneg_right h1 (by positivity)).trans ?_
  norm_num

/-! Non-vacuity: two terms that need 49 bits together, `65504 * 65504 - 2^-24 * 2^-24` in `Half`. -/
def exHalfMax : IeeeFloat halfS := ⟨2047, 15, .normal, false⟩
def exHalfMin : IeeeFloat halfS := ⟨1, -14, .normal, false⟩

example := C103_dot_half .towardZero [(exHalfMax, exHalfMax), (exHalfMin, exHalfMin.neg)] (by decide) (by decide)
example : dotExact [(exHalfMax, exHalfMax), (exHalfMin, exHalfMin.neg)] = 65504 ^ 2 - 2 ^ (-48 : ℤ) := by decide +kernel
example := C103_dot_e4m3fn .towardZero [(⟨14, 8, .normal, false⟩, ⟨1, -6, .normal, true⟩), (⟨8, 0, .normal, false⟩, ⟨8, 0, .normal, false⟩)] (by decide) (by decide)
example := C103_dot half_via_quad .nearestTiesToEven [(exHalfMax, exHalfMax), (exHalfMin, exHalfMin.neg)] (by decide)
  (by decide +kernel)
example := C103_dot_length half_via_quad .nearestTiesToEven [(exHalfMax, exHalfMax), (exHalfMin, exHalfMin.neg)] (by decide)
  (by decide +kernel)

end Apf
