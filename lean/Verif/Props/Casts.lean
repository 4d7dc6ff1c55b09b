import Verif.Spec.Casts
import Verif.Props.Midpoint
import Mathlib.Data.Int.Lemmas

/-! # C104: casts, fractional parts and Euclidean remainders -/

namespace Apf
open Spec IeeeFloat
variable {S T : Sem}

theorem rounds_truncQ (v : ℚ) : RoundsToInt .towardZero v (truncQ v) := by
  unfold truncQ RoundsToInt
  refine ⟨fun h => ?_, fun h => ?_⟩
  · rw [if_pos h]; exact ⟨Int.floor_le v, Int.lt_floor_add_one v⟩
  · rcases h.lt_or_eq with h | rfl
    · rw [if_neg (by linarith)]
      exact ⟨by linarith [Int.ceil_lt_add_one v], Int.le_ceil v⟩
    · simp

theorem Spec.ConvertsToInt.unique {lo hi : ℤ} (hl : lo ≤ hi) {mode : Round} {v : ℚ} {st st' : Status} {a b : ℤ} {e e' : Bool}
    (h : ConvertsToInt lo hi mode v st a e) (h' : ConvertsToInt lo hi mode v st' b e') : st = st' ∧ a = b ∧ e = e' := by
  obtain ⟨n, n1, n2⟩ := h
  obtain ⟨k, k1, k2⟩ := h'
  obtain rfl := n1.unique k1
  rcases n2 with ⟨a1, a2, a3, a4, a5⟩ | ⟨a1, a2, a3, a4⟩ | ⟨a1, a2, a3, a4⟩ <;>
    rcases k2 with ⟨b1, b2, b3, b4, b5⟩ | ⟨b1, b2, b3, b4⟩ | ⟨b1, b2, b3, b4⟩ <;> first | omega | skip
  · exact ⟨a5.trans b5.symm, a3.trans b3.symm, Bool.eq_iff_iff.2 (a4.trans b4.symm)⟩
  · exact ⟨a4.trans b4.symm, a2.trans b2.symm, a3.trans b3.symm⟩
  · exact ⟨a4.trans b4.symm, a2.trans b2.symm, a3.trans b3.symm⟩

theorem convertsTo_cast {lo hi : ℤ} (hl : lo ≤ hi) {v : ℚ} {st : Status} {a : ℤ} {e s : Bool} (h : ConvertsToInt lo hi .towardZero v st a e) :
    a = castTo lo hi (.num s v) ∧ (st.invalidOp = false ↔ castFits lo hi (.num s v)) := by
  obtain ⟨n, n1, n2⟩ := h
  obtain rfl := n1.unique (rounds_truncQ v)
  simp only [castTo, castFits]
  rcases n2 with ⟨a1, a2, a3, a4, a5⟩ | ⟨a1, a2, a3, a4⟩ | ⟨a1, a2, a3, a4⟩
  · refine ⟨by rw [a3, min_eq_right a2, max_eq_right a1], ?_⟩
    rw [a5]; simp [a1, a2]
  · refine ⟨by rw [a2, max_eq_left]; exact (min_le_right _ _).trans a1.le, ?_⟩
    rw [a4]; simp; omega
  · refine ⟨by rw [a2, min_eq_left a1.le, max_eq_right hl], ?_⟩
    rw [a4]; simp; omega

theorem nonfinite_cases {x : IeeeFloat S} (fx : x.isFinite = false) :
    (x.isNan = true ∧ x.datum = .nan) ∨ (x.isInfinite = true ∧ x.datum = .inf x.sign) := by
  rcases hc : x.category <;> simp_all [isFinite, isNan, isInfinite, datum]

/-- **C104.** `to_i128` toward zero is the cast to a signed integer type: toward zero, saturating, NaN to 0; INVALID_OP tells whether the number
was out of range. -/
theorem C104_cast_signed (h : S.OK) {x : IeeeFloat S} (hx : x.Valid) {w : ℕ} (w1 : 2 ≤ w) (w2 : w ≤ 128) :
    ∃ r, toI128R x w .towardZero = .ok r ∧ r.value = castTo (-2 ^ (w - 1)) (2 ^ (w - 1) - 1) x.datum ∧
      (r.status.invalidOp = false ↔ castFits (-2 ^ (w - 1)) (2 ^ (w - 1) - 1) x.datum) := by
  have hk : (1 : ℤ) ≤ 2 ^ (w - 1) := by exact_mod_cast Nat.one_le_two_pow
  cases fx : x.isFinite
  · obtain ⟨a1, a2, a3⟩ := C19_to_i128_specials (x := x) w1 w2 .towardZero
    rcases nonfinite_cases fx with ⟨c, d⟩ | ⟨c, d⟩
    · exact ⟨_, a1 c, by rw [d]; rfl, by rw [d]; simp [castFits, Status.INVALID_OP]⟩
    · cases hs : x.sign
      · exact ⟨_, a3 c hs, by rw [d, hs]; rfl, by rw [d]; simp [castFits, Status.INVALID_OP]⟩
      · exact ⟨_, a2 c hs, by rw [d, hs]; rfl, by rw [d]; simp [castFits, Status.INVALID_OP]⟩
  · obtain ⟨r, r1, r2⟩ := C19_to_i128 h hx fx w1 w2 .towardZero
    rw [datum_finite fx]
    exact ⟨r, r1, convertsTo_cast (by omega) r2⟩

/-- **C104.** `to_u128` toward zero is the cast to an unsigned integer type. -/
theorem C104_cast_unsigned (h : S.OK) {x : IeeeFloat S} (hx : x.Valid) {w : ℕ} (w1 : 1 ≤ w) (w2 : w ≤ 128) :
    ∃ r, toU128R x w .towardZero = .ok r ∧ (r.value : ℤ) = castTo 0 (2 ^ w - 1) x.datum ∧
      (r.status.invalidOp = false ↔ castFits 0 (2 ^ w - 1) x.datum) := by
  have hk : 1 ≤ 2 ^ w := Nat.one_le_two_pow
  have hk' : (1 : ℤ) ≤ 2 ^ w := by exact_mod_cast hk
  obtain ⟨a0, a1, a2, a3⟩ := C18_to_u128_specials (x := x) w1 w2 .towardZero
  cases fx : x.isFinite
  · rcases nonfinite_cases fx with ⟨c, d⟩ | ⟨c, d⟩
    · exact ⟨_, a1 c, by rw [d]; rfl, by rw [d]; simp [castFits, Status.INVALID_OP]⟩
    · cases hs : x.sign
      · exact ⟨_, a3 c hs, by rw [d, hs]; simp [castTo, Nat.cast_sub hk], by rw [d]; simp [castFits, Status.INVALID_OP]⟩
      · exact ⟨_, a2 c hs, by rw [d, hs]; rfl, by rw [d]; simp [castFits, Status.INVALID_OP]⟩
  · by_cases hz : x.isZero = true ∧ x.sign = true
    · refine ⟨_, a0 hz.1 hz.2, ?_, ?_⟩ <;> rw [datum_finite fx, toRat_zero (by simpa [isZero] using hz.1)]
      · simp only [castTo, truncQ]; simp
      · simp only [castFits, truncQ]; simp [Status.OK]; omega
    · obtain ⟨r, r1, r2⟩ := C18_to_u128 h hx fx hz w1 w2 .towardZero
      rw [datum_finite fx]
      exact ⟨r, r1, convertsTo_cast (by omega) r2⟩

/-- **C104.** Floats of any two formats that hold the same number (or are both NaN, or the same infinity) convert to the same integer with the same
flags in every mode; so casting through a format that holds the number changes nothing. -/
theorem C104_cast_same (hS : S.OK) (hT : T.OK) {x : IeeeFloat S} {y : IeeeFloat T} (hx : x.Valid) (hy : y.Valid) (hd : x.datum = y.datum)
    (mode : Round) :
    (∀ w, 2 ≤ w → w ≤ 128 → toI128R x w mode = toI128R y w mode) ∧ (∀ w, 1 ≤ w → w ≤ 128 → toU128R x w mode = toU128R y w mode) := by
  cases fx : x.isFinite
  · have fy : y.isFinite = false := by
      by_contra hc
      rw [datum_finite (x := y) (by simpa using hc)] at hd
      rcases nonfinite_cases fx with ⟨-, d⟩ | ⟨-, d⟩ <;> rw [d] at hd <;> cases hd
    rcases nonfinite_cases fx with ⟨c, d⟩ | ⟨c, d⟩ <;> rcases nonfinite_cases fy with ⟨c', d'⟩ | ⟨c', d'⟩ <;> rw [d, d'] at hd
    · refine ⟨fun w w1 w2 => ?_, fun w w1 w2 => ?_⟩
      · rw [(C19_to_i128_specials w1 w2 mode).1 c, (C19_to_i128_specials w1 w2 mode).1 c']
      · rw [(C18_to_u128_specials w1 w2 mode).2.1 c, (C18_to_u128_specials w1 w2 mode).2.1 c']
    · cases hd
    · cases hd
    · have hs : x.sign = y.sign := by simpa using hd
      refine ⟨fun w w1 w2 => ?_, fun w w1 w2 => ?_⟩
      · obtain ⟨-, a2, a3⟩ := C19_to_i128_specials (x := x) w1 w2 mode
        obtain ⟨-, b2, b3⟩ := C19_to_i128_specials (x := y) w1 w2 mode
        cases e : x.sign
        · rw [a3 c e, b3 c' (hs ▸ e)]
        · rw [a2 c e, b2 c' (hs ▸ e)]
      · obtain ⟨-, -, a2, a3⟩ := C18_to_u128_specials (x := x) w1 w2 mode
        obtain ⟨-, -, b2, b3⟩ := C18_to_u128_specials (x := y) w1 w2 mode
        cases e : x.sign
        · rw [a3 c e, b3 c' (hs ▸ e)]
        · rw [a2 c e, b2 c' (hs ▸ e)]
  · have fy : y.isFinite = true := by
      by_contra hc
      rw [datum_finite fx] at hd
      rcases nonfinite_cases (by simpa using hc : y.isFinite = false) with ⟨-, d⟩ | ⟨-, d⟩ <;> rw [d] at hd <;> cases hd
    rw [datum_finite fx, datum_finite fy, Datum.num.injEq] at hd
    obtain ⟨hs, hv⟩ := hd
    have ext : ∀ {A : Type} {a b : IntOut A}, a.status = b.status → a.value = b.value → a.isExact = b.isExact → a = b := by
      rintro A ⟨_, _, _⟩ ⟨_, _, _⟩ h1 h2 h3
      dsimp only at h1 h2 h3
      rw [h1, h2, h3]
    refine ⟨fun w w1 w2 => ?_, fun w w1 w2 => ?_⟩
    · have hk : (1 : ℤ) ≤ 2 ^ (w - 1) := by exact_mod_cast Nat.one_le_two_pow
      obtain ⟨r, r1, r2⟩ := C19_to_i128 hS hx fx w1 w2 mode
      obtain ⟨q, q1, q2⟩ := C19_to_i128 hT hy fy w1 w2 mode
      rw [hv] at r2
      obtain ⟨u1, u2, u3⟩ := r2.unique (by omega) q2
      rw [r1, q1, ext u1 u2 u3]
    · have hk : (1 : ℤ) ≤ 2 ^ w := by exact_mod_cast Nat.one_le_two_pow
      have zi : x.isZero = true ↔ y.isZero = true := by
        have zx : x.isZero = true ↔ x.toRat = 0 := by
          rcases isFinite_iff.1 fx with c | c
          · exact ⟨fun e => by simp [isZero, c] at e, fun e => absurd e (toRat_ne_zero hx c)⟩
          · exact ⟨fun _ => toRat_zero c, fun _ => by simp [isZero, c]⟩
        have zy : y.isZero = true ↔ y.toRat = 0 := by
          rcases isFinite_iff.1 fy with c | c
          · exact ⟨fun e => by simp [isZero, c] at e, fun e => absurd e (toRat_ne_zero hy c)⟩
          · exact ⟨fun _ => toRat_zero c, fun _ => by simp [isZero, c]⟩
        rw [zx, zy, hv]
      by_cases hz : x.isZero = true ∧ x.sign = true
      · rw [(C18_to_u128_specials w1 w2 mode).1 hz.1 hz.2, (C18_to_u128_specials w1 w2 mode).1 (zi.1 hz.1) (hs ▸ hz.2)]
      · obtain ⟨r, r1, r2⟩ := C18_to_u128 hS hx fx hz w1 w2 mode
        obtain ⟨q, q1, q2⟩ := C18_to_u128 hT hy fy (by rw [← zi, ← hs]; exact hz) w1 w2 mode
        rw [hv] at r2
        obtain ⟨u1, u2, u3⟩ := r2.unique (by omega) q2
        rw [r1, q1, ext u1 (by exact_mod_cast u2) u3]

/-- **C104.** The fractional part `x - trunc(x)` is exact, less than 1 in magnitude, and adding it to the integer part gives `x` back exactly, in all modes. -/
theorem C104_fract (h : S.OK) {x : IeeeFloat S} (hx : x.Valid) (fx : x.isFinite = true) (m1 m2 : Round) :
    ∃ t f s, fract m1 x = .ok (t, f) ∧ t.value.toRat = truncQ x.toRat ∧ f.value.isFinite = true ∧ f.value.toRat = x.toRat - truncQ x.toRat ∧
      |f.value.toRat| < 1 ∧ f.status = Status.OK ∧ addR t.value f.value m2 = .ok s ∧ s.value.isFinite = true ∧ s.value.toRat = x.toRat ∧
      s.status = Status.OK := by
  obtain ⟨t, t1, t2, t3, -, n, t5, t6, -⟩ := C13_round_to_integral h hx fx .towardZero
  obtain rfl := t5.unique (rounds_truncQ _)
  have gx := grid_toRat h hx fx
  have lx := abs_toRat_le h hx fx
  generalize hn : truncQ x.toRat = n at *
  have small : |x.toRat - n| < 1 ∧ |x.toRat - n| ≤ |x.toRat| := by
    obtain ⟨a, b⟩ := t5
    rcases le_total 0 x.toRat with c | c
    · obtain ⟨a1, a2⟩ := a c
      have n0 : (0 : ℚ) ≤ n := by
        have : (0 : ℤ) < n + 1 := by exact_mod_cast (lt_of_le_of_lt c a2)
        exact_mod_cast (by omega : 0 ≤ n)
      rw [abs_of_nonneg (by linarith), abs_of_nonneg c]
      exact ⟨by linarith, by linarith⟩
    · obtain ⟨a1, a2⟩ := b c
      have n0 : (n : ℚ) ≤ 0 := by
        have : n - 1 < (0 : ℤ) := by exact_mod_cast (lt_of_lt_of_le a1 c)
        exact_mod_cast (by omega : n ≤ 0)
      rw [abs_of_nonpos (by linarith), abs_of_nonpos c]
      exact ⟨by linarith, by linarith⟩
  have gf : S.fmt.Grid (x.toRat - n) := by
    obtain ⟨m, k, g1, g2, g3⟩ := gx
    rcases le_or_gt 0 k with c | c
    · obtain ⟨j, rfl⟩ := Int.eq_ofNat_of_zero_le c
      have e : x.toRat = ((m * 2 ^ j : ℤ) : ℚ) := by rw [g3]; push_cast; rw [zpow_natCast]
      rw [e] at t5
      have := t5.of_int
      rw [e, ← this, sub_self]
      exact grid_zero
    · obtain ⟨j, hj⟩ : ∃ j : ℕ, k = -j := ⟨(-k).toNat, by omega⟩
      have e : x.toRat - n = ((m - n * 2 ^ j : ℤ) : ℚ) * 2 ^ k := by
        have : (2 : ℚ) ^ j * 2 ^ k = 1 := by rw [hj, zpow_neg, zpow_natCast]; exact mul_inv_cancel₀ (by positivity)
        rw [g3]; push_cast
        linear_combination (n : ℚ) * this
      refine ⟨m - n * 2 ^ j, k, ?_, g2, e⟩
      have hs := small.2
      rw [e, g3, abs_mul, abs_mul] at hs
      have := le_of_mul_le_mul_right hs (abs_pos.2 (zpow_pos two_pos k).ne')
      have : |m - n * 2 ^ j| ≤ |m| := by exact_mod_cast this
      omega
  have lf : |x.toRat - n| ≤ S.fmt.largest := small.2.trans lx
  obtain ⟨f, f1, f2, f3⟩ := subR_finite h hx t2 fx t3 m1 (by rw [t6]; exact directedOK_of_ge h m1 (_root_.abs_le.1 lf).1)
  rw [t6] at f3
  obtain ⟨f4, f5, f6⟩ := exact_step h f3 gf lf
  have e : t.value.toRat + f.value.toRat = x.toRat := by rw [t6, f5]; ring
  obtain ⟨s, s1, s2, s3⟩ := addR_finite h t2 f2 t3 f4 m2 (by rw [e]; exact directedOK_of_ge h m2 (_root_.abs_le.1 lx).1)
  rw [e] at s3
  obtain ⟨s4, s5, s6⟩ := exact_step h s3 gx lx
  refine ⟨t, f, s, ?_, t6, f4, f5, by rw [f5]; exact small.1, f6, s1, s4, s5, s6⟩
  unfold fract
  rw [t1, M.ok_bind, f1]
  rfl
theorem abs_facts {x : IeeeFloat S} (hx : x.Valid) (fx : x.isFinite = true) : x.abs.Valid ∧ x.abs.isFinite = true ∧ x.abs.toRat = |x.toRat| := by
  have e : (∀ m : ℚ, 0 ≤ m → x.toRat = Spec.signed x.sign m → x.abs.toRat = |x.toRat|) := by
    intro m hm e
    unfold IeeeFloat.abs isNegative
    cases hs : x.sign <;> rw [hs] at e <;> simp only [Spec.signed, Bool.false_eq_true, if_false, if_true] at e ⊢
    · rw [e, abs_of_nonneg hm]
    · rw [neg_toRat, e, abs_neg, neg_neg, abs_of_nonneg hm]
  refine ⟨?_, ?_, ?_⟩
  · unfold IeeeFloat.abs; split_ifs; exacts [neg_valid hx, hx]
  · unfold IeeeFloat.abs; split_ifs; exacts [neg_finite.trans fx, fx]
  · rcases isFinite_iff.1 fx with c | c
    · exact e _ (by positivity) (toRat_normal c)
    · exact e 0 le_rfl (by rw [toRat_zero c]; cases x.sign <;> simp [Spec.signed])

theorem lt_gt_zero (h : S.OK) {x : IeeeFloat S} (hx : x.Valid) (fx : x.isFinite = true) :
    lt x (ZERO S) = .ok (decide (x.toRat < 0)) ∧ gt x (ZERO S) = .ok (decide (0 < x.toRat)) := by
  have z0 : (ZERO S).toRat = 0 := toRat_zero rfl
  obtain ⟨o, o1, o2, o3, o4⟩ := C15_finite h hx (zero_valid (S := S)) fx rfl
  unfold lt gt
  rw [o1]
  rw [z0] at o2 o4
  refine ⟨congrArg Except.ok ?_, congrArg Except.ok ?_⟩ <;> rw [Bool.eq_iff_iff] <;> simp [o2, o4]

/-- **C104.** The Euclidean remainder: always between 0 and `|y|` and the nearest float to the exact remainder `x - |y| * ⌊x / |y|⌋`; it is exact
unless the truncated remainder is negative. -/
theorem C104_rem_euclid (h : S.OK) {x y : IeeeFloat S} (hx : x.Valid) (hy : y.Valid) (fx : x.isFinite = true) (fy : y.isFinite = true)
    (hy0 : y.toRat ≠ 0) :
    ∃ r, remEuclid x y = .ok r ∧ r.Valid ∧ r.isFinite = true ∧ 0 ≤ r.toRat ∧ r.toRat ≤ |y.toRat| ∧
      IsRounded S.fmt .nearestTiesToEven (x.toRat - |y.toRat| * ⌊x.toRat / |y.toRat|⌋) r.toRat ∧
      (0 ≤ x.toRat → r.toRat = x.toRat - |y.toRat| * ⌊x.toRat / |y.toRat|⌋ ∧ r.toRat < |y.toRat|) := by
  obtain ⟨r, e, hr, fr, -, -, lr, ⟨N, hN⟩, s1, s2⟩ := cFmod_ok h hx hy fx fy hy0
  obtain ⟨ha, fa, va⟩ := abs_facts hy fy
  have hp : 0 < |y.toRat| := abs_pos.2 hy0
  obtain ⟨K, hK⟩ : ∃ K : ℤ, (N : ℚ) * y.toRat = K * |y.toRat| := by
    rcases abs_choice y.toRat with c | c <;> rw [c]
    · exact ⟨N, rfl⟩
    · exact ⟨-N, by push_cast; ring⟩
  have key : ∀ j : ℤ, 0 ≤ r.toRat + j * |y.toRat| → r.toRat + j * |y.toRat| < |y.toRat| →
      x.toRat - |y.toRat| * ⌊x.toRat / |y.toRat|⌋ = r.toRat + j * |y.toRat| := by
    intro j h0 h1
    have : ⌊x.toRat / |y.toRat|⌋ = K - j := by
      rw [Int.floor_eq_iff, le_div_iff₀ hp, div_lt_iff₀ hp]
      push_cast
      constructor <;> nlinarith
    rw [this]; push_cast
    linear_combination -hN + hK
  have gr := grid_toRat h hr fr
  unfold remEuclid
  rw [e, M.ok_bind, (lt_gt_zero h hr fr).1, M.ok_bind]
  have l1 := _root_.abs_lt.1 lr
  by_cases c : r.toRat < 0
  · rw [if_pos (by simpa using c)]
    have kk := key 1 (by push_cast; linarith) (by push_cast; linarith)
    rw [Int.cast_one, one_mul] at kk
    have hv : |r.toRat + y.abs.toRat| ≤ S.fmt.largest := by
      rw [va, abs_of_nonneg (by linarith)]
      have := abs_toRat_le h hy fy
      linarith
    obtain ⟨s, t1, t2, t3⟩ := addR_finite h hr ha fr fa .nearestTiesToEven (directedOK_of_ge h _ (_root_.abs_le.1 hv).1)
    obtain ⟨t4, t5, -⟩ := rounds_fine h t3 hv
    rw [va] at t5
    refine ⟨s.value, by rw [t1, M.ok_bind], t2, t4, t5.nonneg (by linarith), t5.le_of_grid (grid_abs (grid_toRat h hy fy)) (by linarith),
      by rw [kk]; exact t5, fun h0 => ?_⟩
    linarith [s1 h0]
  · rw [if_neg (by simpa using c)]
    have kk := key 0 (by simpa using c) (by simpa using l1.2)
    rw [Int.cast_zero, zero_mul, add_zero] at kk
    refine ⟨r, rfl, hr, fr, by linarith, l1.2.le, ?_, fun _ => ⟨kk.symm, l1.2⟩⟩
    rw [kk]
    exact isRounded_self _ gr

theorem emod_of_tmod {a b : ℤ} (hb : b ≠ 0) :
    (a.tmod b < 0 → a % b = a.tmod b + |b| ∧ (0 < b → a / b = a.tdiv b - 1) ∧ (b < 0 → a / b = a.tdiv b + 1)) ∧
    (0 ≤ a.tmod b → a % b = a.tmod b ∧ a / b = a.tdiv b) := by
  have e := Int.tmod_add_mul_tdiv a b
  have l : |a.tmod b| < |b| := by
    rw [← Int.natCast_natAbs, ← Int.natCast_natAbs]
    have := Int.natAbs_tmod a b
    have := Nat.mod_lt a.natAbs (Int.natAbs_pos.2 hb)
    omega
  have l' := _root_.abs_lt.1 l
  generalize a.tmod b = r at *
  generalize a.tdiv b = q at *
  refine ⟨fun c => ?_, fun c => ?_⟩
  · rcases lt_or_gt_of_ne hb with c' | c'
    · obtain ⟨u1, u2⟩ := (Int.ediv_emod_unique'' (a := a) (r := r + |b|) (q := q + 1) hb).2
        ⟨by rw [abs_of_neg c']; linear_combination e, by omega, by omega⟩
      exact ⟨u2, fun _ => by omega, fun _ => u1⟩
    · obtain ⟨u1, u2⟩ := (Int.ediv_emod_unique'' (a := a) (r := r + |b|) (q := q - 1) hb).2
        ⟨by rw [abs_of_pos c']; linear_combination e, by omega, by omega⟩
      exact ⟨u2, fun _ => u1, fun _ => by omega⟩
  · obtain ⟨u1, u2⟩ := (Int.ediv_emod_unique'' (a := a) (r := r) (q := q) hb).2 ⟨e, c, by omega⟩
    exact ⟨u2, u1⟩

/-- **C104.** On integers of at most `p` bits the Euclidean quotient and remainder of floats are the ones of integers, exactly. -/
theorem C104_euclid_integers (h : S.OK) {one x y : IeeeFloat S} (ho : one.Valid) (fo : one.isFinite = true) (eo : one.toRat = 1)
    (hx : x.Valid) (hy : y.Valid) (fx : x.isFinite = true) (fy : y.isFinite = true)
    {a b : ℤ} (ex : x.toRat = a) (ey : y.toRat = b) (hb : b ≠ 0) (la : |a| ≤ 2 ^ S.precision) (lb : |b| ≤ 2 ^ S.precision) :
    (∃ r, remEuclid x y = .ok r ∧ r.isFinite = true ∧ r.toRat = ((a % b : ℤ) : ℚ)) ∧
    (∃ q, divEuclid one x y = .ok q ∧ q.isFinite = true ∧ q.toRat = ((a / b : ℤ) : ℚ)) := by
  have big : ∀ n : ℤ, |n| ≤ 2 ^ S.precision → |(n : ℚ)| ≤ S.fmt.largest := by
    intro n hn
    have : |(n : ℚ)| ≤ 2 ^ S.precision := by exact_mod_cast hn
    exact this.trans (pow_le_largest h)
  constructor
  · obtain ⟨r, r1, r2, r3, -, -, r4, -⟩ := C104_rem_euclid h hx hy fx fy (by rw [ey]; exact_mod_cast hb)
    refine ⟨r, r1, r3, ?_⟩
    have e : x.toRat - |y.toRat| * ⌊x.toRat / |y.toRat|⌋ = ((a % b : ℤ) : ℚ) := by
      have : ⌊x.toRat / |y.toRat|⌋ = a / |b| := by
        rw [ex, ey, ← Int.cast_abs, ← Int.natCast_natAbs, Int.cast_natCast, Rat.floor_intCast_div_natCast]
      rw [this, ex, ey, ← Int.emod_abs, Int.emod_def]
      push_cast; ring
    rw [e] at r4
    have l : |a % b| ≤ 2 ^ S.precision := by
      rw [abs_of_nonneg (Int.emod_nonneg _ hb)]
      exact (Int.emod_lt_abs _ hb).le.trans lb
    have g := grid_int h l
    exact _root_.le_antisymm (IsRounded.le_of_grid r4 g le_rfl) (IsRounded.ge_of_grid r4 g le_rfl)
  · obtain ⟨q, q1, ⟨t, n, t1, t2, t3, t4, -⟩, -⟩ := C95_quotient h hx hy fx fy ex ey hb (mode := .nearestTiesToEven) (.inl ⟨.inl rfl, la⟩) lb
      (m := .towardZero) (.inl rfl)
    obtain rfl := t2.unique (rounds_tdiv hb)
    obtain ⟨q', q1', qv, qf, -⟩ := divR_integers h hx hy fx fy ex ey hb (P := S.precision) (mode := .nearestTiesToEven)
      (.inl ⟨rfl, .inl rfl⟩) la lb
    obtain rfl : q = q' := by simpa using q1.symm.trans q1'
    obtain ⟨t', t1', tv, -⟩ := C13_round_to_integral h qv qf .towardZero
    obtain rfl : t = t' := by simpa using t1.symm.trans t1'
    obtain ⟨⟨r, r1, r2, r3, r4⟩, -⟩ := C95_remainder h hx hy fx fy ex ey hb
    have lq : |a / b| ≤ 2 ^ S.precision := by
      refine le_trans ?_ la
      rw [← Int.natCast_natAbs, ← Int.natCast_natAbs]
      exact_mod_cast Int.natAbs_ediv_le_natAbs a b
    obtain ⟨k1, k2⟩ := emod_of_tmod (a := a) hb
    have ry : gt y (ZERO S) = .ok (decide (0 < b)) := by
      rw [(lt_gt_zero h hy fy).2, ey]
      congr 1
      exact decide_eq_decide.2 (by exact_mod_cast Iff.rfl)
    have rr : lt r (ZERO S) = .ok (decide (a.tmod b < 0)) := by
      rw [(lt_gt_zero h r2 r3).1, r4]
      congr 1
      exact decide_eq_decide.2 (by exact_mod_cast Iff.rfl)
    unfold divEuclid
    rw [q1, M.ok_bind, t1, M.ok_bind, r1, M.ok_bind, rr, M.ok_bind]
    by_cases c : a.tmod b < 0
    · rw [if_pos (by simpa using c), ry, M.ok_bind]
      rcases lt_or_gt_of_ne hb with c' | c'
      · rw [if_neg (by simp; omega)]
        have e : t.value.toRat + one.toRat = ((a / b : ℤ) : ℚ) := by rw [(k1 c).2.2 c', t4, eo]; push_cast; ring
        obtain ⟨s, s1, s2, s3⟩ := addR_finite h tv ho t3 fo .nearestTiesToEven
          (by rw [e]; exact directedOK_of_ge h _ (_root_.abs_le.1 (big _ lq)).1)
        rw [e] at s3
        obtain ⟨s4, s5, -⟩ := exact_step h s3 (grid_int h lq) (big _ lq)
        exact ⟨s.value, by rw [s1, M.ok_bind], s4, s5⟩
      · rw [if_pos (by simpa using c')]
        have e : t.value.toRat - one.toRat = ((a / b : ℤ) : ℚ) := by rw [(k1 c).2.1 c', t4, eo]; push_cast; ring
        obtain ⟨s, s1, s2, s3⟩ := subR_finite h tv ho t3 fo .nearestTiesToEven
          (by rw [e]; exact directedOK_of_ge h _ (_root_.abs_le.1 (big _ lq)).1)
        rw [e] at s3
        obtain ⟨s4, s5, -⟩ := exact_step h s3 (grid_int h lq) (big _ lq)
        exact ⟨s.value, by rw [s1, M.ok_bind], s4, s5⟩
    · rw [if_neg (by simpa using c)]
      exact ⟨t.value, rfl, t3, by rw [t4, (k2 (by omega)).2]⟩

/-- -7 and 2 in `Single`. -/
def m7s : IeeeFloat singleS := ⟨7 * 2 ^ 21, 2, .normal, true⟩
def two32s : IeeeFloat singleS := ⟨2 ^ 23, 1, .normal, false⟩
def one32s : IeeeFloat singleS := ⟨2 ^ 23, 0, .normal, false⟩

/-- -7 = 2 * -4 + 1: the quotient is rounded down and the remainder is positive. -/
example : m7s.Valid ∧ two32s.Valid ∧ one32s.Valid ∧ remEuclid m7s two32s = .ok one32s ∧
    divEuclid one32s m7s two32s = .ok ⟨2 ^ 23, 2, .normal, true⟩ := by decide +kernel

/-- The Euclidean remainder can be `|y|` itself: it is the nearest float to a number just below. -/
theorem C104_rem_euclid_touches : ∃ x : IeeeFloat singleS, x.Valid ∧ x.isFinite = true ∧ x.sign = true ∧ remEuclid x one32s = .ok one32s :=
  ⟨⟨1, -126, .normal, true⟩, by decide +kernel⟩

/-- -3.5 casts to -3 as `i8`, to 0 with INVALID_OP as `u8`; its fractional part is -0.5. -/
example : (toI128R (⟨7 * 2 ^ 21, 1, .normal, true⟩ : IeeeFloat singleS) 8 .towardZero).toOption.map (·.value) = some (-3) ∧
    (toU128R (⟨7 * 2 ^ 21, 1, .normal, true⟩ : IeeeFloat singleS) 8 .towardZero).toOption.map (fun r => (r.value, r.status.invalidOp)) = some (0, true) ∧
    (fract .towardPositive (⟨7 * 2 ^ 21, 1, .normal, true⟩ : IeeeFloat singleS)).toOption.map (·.2.value) =
      some ⟨2 ^ 23, -1, .normal, true⟩ := by decide +kernel

example := C104_cast_signed singleS_ok (x := m7s) (by decide) (w := 8) (by decide) (by decide)
example := C104_cast_unsigned singleS_ok (x := m7s) (by decide) (w := 8) (by decide) (by decide)
example := C104_cast_same singleS_ok halfS_ok (x := one32s) (y := ⟨2 ^ 10, 0, .normal, false⟩) (by decide) (by decide)
  (by rw [datum_finite rfl, datum_finite rfl, toRat_normal rfl, toRat_normal rfl]; norm_num [one32s, Spec.signed, singleS, halfS, Sem.default]) .towardNegative
example := C104_fract singleS_ok (x := m7s) (by decide) rfl .towardNegative .nearestTiesToAway
example := C104_rem_euclid singleS_ok (x := m7s) (y := two32s) (by decide) (by decide) rfl rfl (by rw [toRat_normal rfl]; norm_num [two32s, Spec.signed, singleS, Sem.default])
example := C104_euclid_integers singleS_ok (one := one32s) (x := m7s) (y := two32s) (a := -7) (b := 2) (by decide) rfl
  (by rw [toRat_normal rfl]; norm_num [one32s, Spec.signed, singleS, Sem.default]) (by decide) (by decide) rfl rfl
  (by rw [toRat_normal rfl]; norm_num [m7s, Spec.signed, singleS, Sem.default]) (by rw [toRat_normal rfl]; norm_num [two32s, Spec.signed, singleS, Sem.default]) (by decide)
  (by decide) (by decide)

end Apf
