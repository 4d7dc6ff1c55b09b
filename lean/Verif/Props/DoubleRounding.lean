import Verif.Proof.DoubleRounding
import Verif.Props.ErrorFree
/-! # C69: computing in a wider format and rounding back

Compilers evaluate `half` arithmetic in `single`, and `single` arithmetic in `double`: the operands are widened, the operation is done in the
wide format, and the result is converted back, so it is rounded twice.  With more than twice the precision the second rounding never
changes the result. -/

namespace Apf
open Spec
open IeeeFloat
variable {S T : Sem}

/-- The wide format `T`: at least `2p + 2` bits of precision for `p` bits of `S`, and a range that contains all results. -/
structure WidePair (S T : Sem) : Prop where
  okS : S.OK
  okT : T.OK
  inf : T.nonfinite = .ieee754
  prec : 2 * S.precision + 2 ≤ T.precision
  unit : T.minExp - T.precision + 1 ≤ 2 * (S.minExp - S.precision + 1)
  low : T.minExp < S.minExp - S.precision
  prod : 2 * (S.maxExp + 1) ≤ T.maxExp
  quot : S.maxExp - S.minExp + S.precision ≤ T.maxExp

theorem WidePair.wide (h : WidePair S T) : Wide S.fmt T.fmt :=
  ⟨by have := h.okS.p_ge; show 2 ≤ S.precision; omega, h.prec, h.okS.min_lt.le, h.unit, h.low⟩

theorem half_via_single : WidePair halfS singleS :=
  ⟨halfS_ok, singleS_ok, rfl, by decide, by decide, by decide, by decide, by decide⟩
theorem bfloat_via_double : WidePair bfloatS doubleS :=
  ⟨bfloatS_ok, doubleS_ok, rfl, by decide, by decide, by decide, by decide, by decide⟩
theorem single_via_double : WidePair singleS doubleS :=
  ⟨singleS_ok, doubleS_ok, rfl, by decide, by decide, by decide, by decide, by decide⟩
theorem double_via_quad : WidePair doubleS quadS :=
  ⟨doubleS_ok, quadS_ok, rfl, by decide, by decide, by decide, by decide, by decide⟩
theorem e5m2_via_single : WidePair float8E5M2S singleS :=
  ⟨float8E5M2S_ok, singleS_ok, rfl, by decide, by decide, by decide, by decide, by decide⟩
theorem e4m3fn_via_single : WidePair float8E4M3FNS singleS :=
  ⟨float8E4M3FNS_ok, singleS_ok, rfl, by decide, by decide, by decide, by decide, by decide⟩
theorem x87_not_wide : ¬ WidePair doubleS x87S := fun h => absurd h.prec (by decide)

theorem two_pow_le_largest (h : S.OK) : (2 : ℚ) ^ S.maxExp ≤ S.fmt.largest := by
  have h3 := h.p_ge
  have := le_largest h (n := 2 ^ (S.precision - 1)) (e := S.maxExp) (Nat.pow_lt_pow_right (by norm_num) (by omega)) (le_refl _)
    (fun _ _ => by
      have e : 2 ^ S.precision = 4 * 2 ^ (S.precision - 2) := by
        rw [show (4 : ℕ) = 2 ^ 2 by norm_num, ← pow_add]; congr 1; omega
      have e' : 2 ^ (S.precision - 1) = 2 * 2 ^ (S.precision - 2) := by
        rw [← pow_succ']; congr 1; omega
      have : 2 ≤ 2 ^ (S.precision - 2) := by
        calc 2 = 2 ^ 1 := rfl
          _ ≤ _ := Nat.pow_le_pow_right (by norm_num) (by omega)
      omega)
  refine le_trans (le_of_eq ?_) this
  push_cast
  rw [← zpow_natCast, ← two_zpow_add]
  congr 1
  omega

/-- The mode is not one of the two directed modes in a format without infinities (finding 1). -/
def ModeOK (S : Sem) (mode : Round) : Prop := S.nonfinite = .nanOnly → mode ≠ .towardPositive ∧ mode ≠ .towardNegative

theorem ModeOK.directed {mode : Round} (h : ModeOK S mode) (v : ℚ) : DirectedOK S mode v := fun e =>
  ⟨fun c => absurd c (h e).1, fun c => absurd c (h e).2⟩

/-- Widening an operand is exact. -/
theorem widen (h : WidePair S T) {x : IeeeFloat S} (hx : x.Valid) (fx : x.isFinite = true) (m : Round) :
    ∃ X, convertR S T x m = .ok X ∧ X.value.Valid ∧ X.value.isFinite = true ∧ X.value.toRat = x.toRat ∧ X.value.sign = x.sign ∧
      X.status = Status.OK := by
  obtain ⟨X, X1, X2, X3, X4⟩ := convertR_eff h.okS h.okT hx fx m (.of (directedOK_of_ieee h.inf _ _))
  have hl : |x.toRat| ≤ T.fmt.largest := by
    refine (abs_toRat_le h.okS hx fx).trans ((full_gt h.okS).le.trans ((two_zpow_le ?_).trans (two_pow_le_largest h.okT)))
    have := h.prod; have := h.okS.p_max; omega
  obtain ⟨a, b, c⟩ := X4.exact (h.wide.grid (grid_toRat h.okS hx fx)) hl
  exact ⟨X, X1, X2, b, c, X3, a⟩

/-- What is claimed of the result `c` converted back from the wide result `w`, compared with the result `r` of the narrow operation. -/
structure SameAsNarrow {S T : Sem} (r : StatusAnd (IeeeFloat S)) (w : StatusAnd (IeeeFloat T)) (c : StatusAnd (IeeeFloat S)) : Prop where
  datum : c.value.datum = r.value.datum
  sign : c.value.sign = r.value.sign
  inexact : (w.status.inexact || c.status.inexact) = r.status.inexact
  overflow : c.status.overflow = r.status.overflow
  underflow : c.status.underflow = true → r.status.underflow = true
  wide : w.status.overflow = false

theorem datum_num {x : IeeeFloat S} {s : Bool} {q : ℚ} (a : x.datum = .num s q) : x.isFinite = true ∧ x.toRat = q := by
  unfold datum at a
  rw [isFinite_iff]
  cases c : x.category <;> simp only [c, reduceCtorEq, Datum.num.injEq] at a
  · exact ⟨Or.inl rfl, a.2⟩
  · exact ⟨Or.inr rfl, by rw [toRat_zero c]; exact a.2⟩

theorem narrow_back (h : WidePair S T) {mode : Round} (hm : ModeOK S mode) {v : ℚ} {zs : Bool} {r : StatusAnd (IeeeFloat S)}
    {w : StatusAnd (IeeeFloat T)} (hr : Rounds S mode v zs r) (hw : Rounds T mode v zs w) (vw : w.value.Valid) (hv : |v| ≤ T.fmt.largest)
    (hmid : (mode = .nearestTiesToEven ∨ mode = .nearestTiesToAway) → IsRounded T.fmt mode v w.value.toRat →
      (midFmt S.fmt).Grid w.value.toRat → S.fmt.Grid w.value.toRat ∨ w.value.toRat = v) :
    ∃ c, convertR T S w.value mode = .ok c ∧ c.value.Valid ∧ SameAsNarrow r w ⟨c.status, c.value⟩ := by
  have hW := h.wide
  -- the wide result is finite
  have gl := grid_largest h.okT
  obtain ⟨⟨u, u1, u2⟩, us⟩ := hw
  have ul : |u| ≤ T.fmt.largest := by
    rw [_root_.abs_le] at hv ⊢
    exact ⟨u1.ge_of_grid gl.neg hv.1, u1.le_of_grid gl hv.2⟩
  obtain ⟨-, ud, ust⟩ := u2.resolve_right (fun c => absurd ul (not_le.2 c.1))
  obtain ⟨fw, ew⟩ := datum_num ud
  obtain ⟨c, c1, c2, c3, ⟨k, k1, k2⟩, -⟩ := convertR_eff h.okT h.okS vw fw mode (.of (hm.directed _))
  have k1' : IsRounded S.fmt mode v k := by
    rw [ew] at k1
    rw [ew] at hmid
    by_cases e : mode = .nearestTiesToEven ∨ mode = .nearestTiesToAway
    · exact double_nearest hW e u1 k1 (hmid e u1)
    · push Not at e
      exact double_directed (fun g => hW.grid) e.1 e.2 u1 k1
  obtain ⟨⟨g, g1, g2⟩, gs⟩ := hr
  have hs : c.value.sign = r.value.sign := by rw [c3]; exact us.unique gs
  have ek : k = g := k1'.unique g1
  rw [ek] at k2 k1
  rw [ew] at k2 k1
  refine ⟨c, c1, c2, ?_⟩
  have key : g = v → u = v := fun e => u1.unique (isRounded_self mode (hW.grid (e ▸ g1.1)))
  rcases k2 with ⟨k2, k3, k4⟩ | ⟨k2, k3⟩
  · obtain ⟨-, g3, g4⟩ := g2.resolve_right (fun c => absurd k2 (not_le.2 c.1))
    have k4 : c.status = { inexact := decide (g ≠ u), underflow := decide (g ≠ u ∧ |g| < S.fmt.smallestNormal) } := k4
    refine ⟨by rw [g3, ← hs]; exact k3, hs, ?_, ?_, ?_, by rw [ust]⟩
    · dsimp only
      rw [ust, k4, g4]
      dsimp only
      rw [← Bool.decide_or]
      refine decide_eq_decide.2 ⟨?_, ?_⟩
      · rintro (e | e) e2
        · exact e (key e2)
        · exact e (e2.trans (key e2).symm)
      · intro e
        by_contra e2
        push Not at e2
        exact e (e2.2.trans e2.1)
    · dsimp only; rw [k4, g4]
    · dsimp only
      rw [k4, g4]
      dsimp only
      intro e
      rw [decide_eq_true_iff] at e ⊢
      exact ⟨fun e2 => e.1 (e2.trans (key e2).symm), e.2⟩
  · obtain ⟨-, g3⟩ := g2.resolve_left (fun c => absurd c.1 (not_le.2 k2))
    have k3 : (c.value.datum, c.status) = overflowed S.fmt mode c.value.sign := k3
    rw [hs, ← g3, Prod.mk.injEq] at k3
    have hi : r.status.inexact = true := by
      have := congrArg Prod.snd g3
      dsimp only at this
      rw [this]
      unfold overflowed
      cases mode <;> cases r.value.sign <;> rfl
    refine ⟨k3.1, hs, ?_, ?_, ?_, by rw [ust]⟩
    · dsimp only; rw [k3.2, hi, Bool.or_true]
    · dsimp only; rw [k3.2]
    · dsimp only; rw [k3.2]; exact id

theorem abs_lt_pow (h : S.OK) {x : IeeeFloat S} (hx : x.Valid) (fx : x.isFinite = true) : |x.toRat| < 2 ^ (S.maxExp + 1) :=
  (abs_toRat_le h hx fx).trans_lt (full_gt h)

/-- **C69.** Addition, subtraction and multiplication in a wide format, converted back, give the same value and sign as in the narrow format, and the flags
of the two steps together report the same inexactness and overflow.  In every rounding mode; the wide operation never overflows. -/
theorem C69_add_mul (h : WidePair S T) {x y : IeeeFloat S} (hx : x.Valid) (hy : y.Valid) (fx : x.isFinite = true) (fy : y.isFinite = true)
    {mode : Round} (hm : ModeOK S mode) (m1 m2 : Round) :
    ∃ X Y, convertR S T x m1 = .ok X ∧ convertR S T y m2 = .ok Y ∧
      (∃ r w c, addR x y mode = .ok r ∧ addR X.value Y.value mode = .ok w ∧ convertR T S w.value mode = .ok c ∧ c.value.Valid ∧
        SameAsNarrow r w ⟨c.status, c.value⟩) ∧
      (∃ r w c, subR x y mode = .ok r ∧ subR X.value Y.value mode = .ok w ∧ convertR T S w.value mode = .ok c ∧ c.value.Valid ∧
        SameAsNarrow r w ⟨c.status, c.value⟩) ∧
      (∃ r w c, mulR x y mode = .ok r ∧ mulR X.value Y.value mode = .ok w ∧ convertR T S w.value mode = .ok c ∧ c.value.Valid ∧
        SameAsNarrow r w ⟨c.status, c.value⟩ ∧ w.status = Status.OK) := by
  obtain ⟨X, X1, X2, X3, X4, X5, -⟩ := widen h hx fx m1
  obtain ⟨Y, Y1, Y2, Y3, Y4, Y5, -⟩ := widen h hy fy m2
  have gx := grid_toRat h.okS hx fx
  have gy := grid_toRat h.okS hy fy
  have lx := abs_lt_pow h.okS hx fx
  have ly := abs_lt_pow h.okS hy fy
  have hl := two_pow_le_largest h.okT
  have hmax := h.okS.p_max
  have hprod := h.prod
  have e2 : (2 : ℚ) ^ (S.maxExp + 2) = 2 ^ (S.maxExp + 1) * 2 := by rw [← zpow_add_one₀ (by norm_num)]; congr 1; ring
  have l2 : (2 : ℚ) ^ (S.maxExp + 2) ≤ T.fmt.largest := (two_zpow_le (by omega)).trans hl
  have dT := fun v => directedOK_of_ieee h.inf mode v
  refine ⟨X, Y, X1, Y1, ?_, ?_, ?_⟩
  · obtain ⟨r, r1, -, r3⟩ := addR_finite h.okS hx hy fx fy mode (hm.directed _)
    obtain ⟨w, w1, w2, w3⟩ := addR_finite h.okT X2 Y2 X3 Y3 mode (dT _)
    rw [X4, Y4, X5, Y5] at w3
    obtain ⟨c, c1, c2, c3⟩ := narrow_back h hm r3 w3 w2 ((abs_add_le _ _).trans (by linarith)) (fun e i g => wide_add h.wide e gx gy i g)
    exact ⟨r, w, c, r1, w1, c1, c2, c3⟩
  · obtain ⟨r, r1, -, r3⟩ := subR_finite h.okS hx hy fx fy mode (hm.directed _)
    obtain ⟨w, w1, w2, w3⟩ := subR_finite h.okT X2 Y2 X3 Y3 mode (dT _)
    rw [X4, Y4, X5, Y5] at w3
    obtain ⟨c, c1, c2, c3⟩ := narrow_back h hm r3 w3 w2 ((abs_sub _ _).trans (by linarith))
      (fun e i g => by
        have := wide_add h.wide e gx gy.neg (by rw [← sub_eq_add_neg]; exact i) g
        rwa [← sub_eq_add_neg] at this)
    exact ⟨r, w, c, r1, w1, c1, c2, c3⟩
  · obtain ⟨r, r1, -, r3⟩ := mulR_finite h.okS hx hy fx fy mode (hm.directed _)
    obtain ⟨w, w1, w2, w3⟩ := mulR_finite h.okT X2 Y2 X3 Y3 mode (dT _)
    rw [X4, Y4, X5, Y5] at w3
    have hv : |x.toRat * y.toRat| ≤ T.fmt.largest := by
      rw [abs_mul]
      have := mul_lt_mul'' lx ly (abs_nonneg _) (abs_nonneg _)
      rw [← two_zpow_add] at this
      exact this.le.trans ((two_zpow_le (by omega)).trans hl)
    have g := wide_mul h.wide gx gy
    obtain ⟨s, f, e⟩ := w3.exact g hv
    obtain ⟨c, c1, c2, c3⟩ := narrow_back h hm r3 w3 w2 hv (fun _ _ _ => Or.inr e)
    exact ⟨r, w, c, r1, w1, c1, c2, c3, s⟩

/-- **C69.** So does division by a non-zero number. -/
theorem C69_div (h : WidePair S T) {x y : IeeeFloat S} (hx : x.Valid) (hy : y.Valid) (fx : x.isFinite = true) (fy : y.isFinite = true)
    (y0 : y.toRat ≠ 0) {mode : Round} (hm : ModeOK S mode) (m1 m2 : Round) :
    ∃ X Y r w c, convertR S T x m1 = .ok X ∧ convertR S T y m2 = .ok Y ∧
      divR x y mode = .ok r ∧ divR X.value Y.value mode = .ok w ∧ convertR T S w.value mode = .ok c ∧ c.value.Valid ∧
        SameAsNarrow r w ⟨c.status, c.value⟩ := by
  obtain ⟨X, X1, X2, X3, X4, X5, -⟩ := widen h hx fx m1
  obtain ⟨Y, Y1, Y2, Y3, Y4, Y5, -⟩ := widen h hy fy m2
  have gx := grid_toRat h.okS hx fx
  have gy := grid_toRat h.okS hy fy
  have lx := abs_lt_pow h.okS hx fx
  have hl := two_pow_le_largest h.okT
  have hq := h.quot
  obtain ⟨r, r1, -, r3⟩ := divR_finite h.okS hx hy fx fy y0 mode (hm.directed _)
  obtain ⟨w, w1, w2, w3⟩ := divR_finite h.okT X2 Y2 X3 Y3 (by rw [Y4]; exact y0) mode (directedOK_of_ieee h.inf _ _)
  rw [X4, Y4, X5, Y5] at w3
  have hv : |x.toRat / y.toRat| ≤ T.fmt.largest := by
    have my : (2 : ℚ) ^ (S.minExp - S.precision + 1) ≤ |y.toRat| := (mult_of_grid gy).ge y0
    rw [abs_div, div_le_iff₀ (abs_pos.2 y0)]
    have : (2 : ℚ) ^ (S.maxExp + 1) ≤ 2 ^ T.maxExp * 2 ^ (S.minExp - S.precision + 1) := by
      rw [← two_zpow_add]; exact two_zpow_le (by omega)
    exact lx.le.trans (this.trans (mul_le_mul hl my (two_zpow_pos _).le (largest_pos h.okT).le))
  obtain ⟨c, c1, c2, c3⟩ := narrow_back h hm r3 w3 w2 hv (fun e i g => wide_div h.wide e gx gy y0 i g)
  exact ⟨X, Y, r, w, c, X1, Y1, r1, w1, c1, c2, c3⟩

/-! The hypotheses are met: `1.5` and `-3` in `single`, computed in `double`. -/
example (mode : Round) : ∃ X Y r w c, convertR singleS doubleS ex15 mode = .ok X ∧ convertR singleS doubleS exM3 mode = .ok Y ∧
    divR ex15 exM3 mode = .ok r ∧ divR X.value Y.value mode = .ok w ∧ convertR doubleS singleS w.value mode = .ok c ∧ c.value.Valid ∧
      SameAsNarrow r w ⟨c.status, c.value⟩ :=
  C69_div single_via_double (by decide) (by decide) rfl rfl (by rw [exM3_toRat]; norm_num) (fun e => absurd e (by decide)) mode mode

/-- `1` and `2^-53 + 2^-78`, in `double`. -/
def dr1 : IeeeFloat doubleS := ⟨2 ^ 52, 0, .normal, false⟩
def dr2 : IeeeFloat doubleS := ⟨2 ^ 52 + 2 ^ 27, -53, .normal, false⟩

/-- The precision is needed: in the 64 bits of the x87 format the sum of these doubles falls on the midpoint of two doubles, and converting
back rounds to even, away from the exact sum. -/
theorem C69_x87_double_rounding :
    (do let r ← addR dr1 dr2 .nearestTiesToEven; pure r.value : M _) = .ok ⟨2 ^ 52 + 1, 0, .normal, false⟩ ∧
    (do let X ← convertR doubleS x87S dr1 .nearestTiesToEven
        let Y ← convertR doubleS x87S dr2 .nearestTiesToEven
        let w ← addR X.value Y.value .nearestTiesToEven
        let c ← convertR x87S doubleS w.value .nearestTiesToEven
        pure c.value : M _) = .ok ⟨2 ^ 52, 0, .normal, false⟩ := by
  constructor <;> decide +kernel
/-- `1025/2^15`, `1023/2^16` and `1025/1024`, in `half`. -/
def dr3 : IeeeFloat halfS := ⟨1025, -5, .normal, false⟩
def dr4 : IeeeFloat halfS := ⟨2046, -7, .normal, false⟩
def dr5 : IeeeFloat halfS := ⟨1025, 0, .normal, false⟩

/-- The fused operation is not among those that may be computed in the wide format: in `single` the result of this `mul_add` of halves falls on the
midpoint of two halves. -/
theorem C69_mul_add_double_rounding :
    (do let r ← mulAddR dr3 dr4 dr5 .nearestTiesToEven; pure r.value : M _) = .ok ⟨1025, 0, .normal, false⟩ ∧
    (do let X ← convertR halfS singleS dr3 .nearestTiesToEven
        let Y ← convertR halfS singleS dr4 .nearestTiesToEven
        let Z ← convertR halfS singleS dr5 .nearestTiesToEven
        let w ← mulAddR X.value Y.value Z.value .nearestTiesToEven
        let c ← convertR singleS halfS w.value .nearestTiesToEven
        pure c.value : M _) = .ok ⟨1026, 0, .normal, false⟩ := by
  constructor <;> decide +kernel

end Apf
