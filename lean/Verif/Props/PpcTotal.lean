import Verif.Props.Total
import Verif.Props.Quiet
import Verif.Props.PpcScale
import Verif.Props.PpcMul
/-! # C75: when a `DoubleFloat` call panics, for every pair of well-formed parts (canonical or not) and every history -/

namespace Apf
open Spec IeeeFloat

variable {S : Sem}

theorem two_pow_maxExp_le (h : S.Pair) : (2 : ℚ) ^ S.maxExp ≤ S.fmt.largest := by
  rw [largest_ieee h.ieee]
  have hp := h.ok.p_ge
  have e4 : (2 : ℚ) ^ (S.maxExp + 1) = 2 ^ S.maxExp * 2 := by rw [two_zpow_add S.maxExp 1]; norm_num
  have e5 : (2 : ℚ) ^ (S.maxExp - S.precision + 1) ≤ 2 ^ S.maxExp := zpow_le_zpow_right₀ (by norm_num) (by omega)
  linarith

/-! ## What the property speaks about -/

/-- The operations carried out in the 106-bit format meet a signaling NaN when they read this pair: in its high part, or in its low
part beside a finite non-zero high part. -/
def DoubleFloat.Signals (x : DoubleFloat S) : Prop :=
  x.hi.isSignaling = true ∨ (x.hi.category = .normal ∧ x.lo.isSignaling = true)

/-- A number of the 106-bit format that does not round to a finite number of the parts' format. -/
def TooLarge (v : IeeeFloat (fallbackS S)) : Prop := v.isFinite = true ∧ S.fmt.overflowAt ≤ |v.toRat|

/-- Read in the 106-bit format, `x` gives a result of `op` that is too large for a pair. -/
def TooLarge1 (op : IeeeFloat (fallbackS S) → M (StatusAnd (IeeeFloat (fallbackS S)))) (x : DoubleFloat S) : Prop :=
  ∃ u r, x.toFallback = .ok u ∧ op u = .ok r ∧ TooLarge r.value

/-- The same for two operands. -/
def TooLarge2 (op : IeeeFloat (fallbackS S) → IeeeFloat (fallbackS S) → M (StatusAnd (IeeeFloat (fallbackS S)))) (x y : DoubleFloat S) : Prop :=
  ∃ u v r, x.toFallback = .ok u ∧ y.toFallback = .ok v ∧ op u v = .ok r ∧ TooLarge r.value

/-- The call returns, and both parts of its value are well formed. -/
def PReturns (m : M (StatusAnd (DoubleFloat S))) : Prop := ∃ r, m = .ok r ∧ r.value.Valid

/-- The call returns, and its value is a proper pair (canonical, or an infinity or NaN beside a zero). -/
def PProper (m : M (StatusAnd (DoubleFloat S))) : Prop := ∃ r, m = .ok r ∧ r.value.Proper

/-! ## Reading and writing the 106-bit format -/

theorem fb_regular (x : IeeeFloat (fallbackS S)) : x.Regular := fun e => by cases e

/-- **C75** (reading a pair).  It panics exactly on a signaling NaN. -/
theorem C75_read (h : S.Pair) (hx : S.explicitIntBit = false) {d : DoubleFloat S} (hd : d.Valid) :
    (d.Signals → d.toFallback = .error .assert) ∧
    (¬ d.Signals → ∃ u, d.toFallback = .ok u ∧ u.Valid ∧ u.isSignaling = false) := by
  unfold DoubleFloat.Signals
  rcases category_cases d.hi with c | c | c
  · cases hs : d.hi.isSignaling
    · refine ⟨fun e => ?_, fun _ => ?_⟩
      · rw [c] at e; simp at e
      · obtain ⟨r, r1, r2, -, r3, -⟩ := toFallback_nan h hd.1 (isNan_of c) hs hx
        exact ⟨r, r1, r2, r3⟩
    · exact ⟨fun _ => toFallback_snan h hd.1 (isNan_of c) hs, fun e => absurd (Or.inl rfl) e⟩
  · have hs : d.hi.isSignaling = false := not_signaling_of_not_nan (by simp [isNan, c])
    refine ⟨fun e => ?_, fun _ => ⟨_, toFallback_inf h c, ?_, ?_⟩⟩
    · rw [hs, c] at e; simp at e
    · rw [valid_sign]; exact infinity_valid h.fb
    · exact not_signaling_of_not_nan rfl
  · have hs : d.hi.isSignaling = false := not_signaling_of_not_nan (not_nan_of_finite c)
    rcases isFinite_iff.1 c with cn | cz
    · obtain ⟨a, a1, a2, a3, a4, a5⟩ := convert_exact h.ok h.fb hd.1 (not_nan_of_finite c) .nearestTiesToEven
        (fun _ => h.to_fb (finite_toRat h.ok hd.1 c)) (fun _ => rfl)
      obtain ⟨fa, ra, sa⟩ := datum_eq_finite a3 c
      have ca : a.value.isFiniteNonZero = true := (isFiniteNonZero_iff _).2 (normal_of_ne_zero fa (by rw [ra]; exact toRat_ne_zero hd.1 cn))
      have step : d.toFallback = (do
          let b ← IeeeFloat.convertR S (fallbackS S) d.lo .nearestTiesToEven
          massert (b.status = Status.OK ∧ b.losesInfo = false)
          let r ← IeeeFloat.addR a.value b.value .nearestTiesToEven
          .ok r.value) := by
        unfold DoubleFloat.toFallback
        simp only [a1, M.ok_bind]
        rw [massert_pos ⟨a4, a5⟩]
        simp only [M.ok_bind]
        rw [if_pos ca]
      rw [step]
      cases hl : d.lo.isSignaling
      · refine ⟨fun e => ?_, fun _ => ?_⟩
        · rw [hs] at e; simp at e
        have hb : ∃ b, IeeeFloat.convertR S (fallbackS S) d.lo .nearestTiesToEven = .ok b ∧ b.value.Valid ∧ b.status = Status.OK ∧ b.losesInfo = false := by
          rcases category_cases d.lo with k | k | k
          · obtain ⟨e, e1, e2, e3, e4, e5, e6, -, e8⟩ := convertR_nan h.ok h.fb hd.2 (isNan_of k) .nearestTiesToEven
            rw [hl] at e6
            refine ⟨e, e1, e2, by simpa using e6, ?_⟩
            by_contra hc
            obtain ⟨-, c | c | c⟩ := e8.1 (by simpa using hc)
            · cases c
            · have := c.1
              have h2 : (fallbackS S).precision = S.precision * 2 := rfl
              omega
            · rw [hx] at c; cases c.1
          · rw [convertR_inf h.ok h.fb k, if_pos (show (fallbackS S).nonfinite = .ieee754 from rfl)]
            exact ⟨_, rfl, by simp only [valid_sign]; exact infinity_valid h.fb, rfl, rfl⟩
          · obtain ⟨b, b1, b2, b3, b4, b5⟩ := convert_exact h.ok h.fb hd.2 (not_nan_of_finite k) .nearestTiesToEven
              (fun _ => h.to_fb (finite_toRat h.ok hd.2 k)) (fun _ => rfl)
            exact ⟨b, b1, b2, b4, b5⟩
        obtain ⟨b, b1, b2, b3, b4⟩ := hb
        obtain ⟨r, r1, r2⟩ := total_add h.fb a2 b2 .nearestTiesToEven
        obtain ⟨r', r1', r3⟩ := nanRule_add h.fb a2 b2 (fb_regular _) (fb_regular _) .nearestTiesToEven
        rw [r1] at r1'; cases r1'
        rw [b1]
        simp only [M.ok_bind]
        rw [massert_pos ⟨b3, b4⟩]
        simp only [M.ok_bind]
        rw [r1]
        exact ⟨_, rfl, r2, r3.1⟩
      · refine ⟨fun _ => ?_, fun e => absurd (Or.inr ⟨cn, rfl⟩) e⟩
        have nl : d.lo.isNan = true := by simp only [isSignaling, Bool.and_eq_true] at hl; exact hl.1
        obtain ⟨e, e1, e2, e3, e4, e5, e6, -, e8⟩ := convertR_nan h.ok h.fb hd.2 nl .nearestTiesToEven
        rw [hl] at e6
        rw [e1]
        simp only [M.ok_bind]
        rw [massert_neg (by rw [e6]; rintro ⟨c, -⟩; exact absurd c (by decide))]
        rfl
    · refine ⟨fun e => ?_, fun _ => ⟨_, toFallback_zero h cz, ?_, ?_⟩⟩
      · rw [hs, cz] at e; simp at e
      · rw [valid_sign]; exact zero_valid
      · exact not_signaling_of_not_nan rfl

example := C75_read doubleS_pair rfl (d := ⟨⟨2 ^ 52, 0, .normal, false⟩, ⟨1, 1024, .nan, false⟩⟩) (by decide +kernel)

/-- **C75** (writing a pair).  It panics exactly on a signaling NaN and on a finite number too large for the high part; otherwise the
result is a proper pair. -/
theorem C75_write (h : S.Pair) {u : IeeeFloat (fallbackS S)} (hu : u.Valid) :
    ((u.isSignaling = true ∨ TooLarge u) → DoubleFloat.ofFallback u = .error .assert) ∧
    (¬ (u.isSignaling = true ∨ TooLarge u) → ∃ d, DoubleFloat.ofFallback u = .ok d ∧ d.Proper) := by
  unfold TooLarge
  rcases category_cases u with c | c | c
  · have fu : u.isFinite = false := by simp [isFinite, isNan, c]
    cases hs : u.isSignaling
    · refine ⟨fun e => ?_, fun _ => ?_⟩
      · rw [fu] at e; simp at e
      · obtain ⟨d, d1, d2, d3, -, -, d4⟩ := ofFallback_nan h hu (isNan_of c) hs
        exact ⟨d, d1, d2, Or.inr ⟨by simp [isFinite, d3], by rw [d4]; exact toRat_zero rfl, by rw [d4]; rfl⟩⟩
    · exact ⟨fun _ => ofFallback_snan h hu (isNan_of c) hs, fun e => absurd (Or.inl rfl) e⟩
  · have fu : u.isFinite = false := by simp [isFinite, isInfinite, c]
    have hs : u.isSignaling = false := not_signaling_of_not_nan (by simp [isNan, c])
    refine ⟨fun e => ?_, fun _ => ⟨_, ofFallback_inf h c, ⟨?_, zero_valid⟩, Or.inr ⟨?_, toRat_zero rfl, rfl⟩⟩⟩
    · rw [hs, fu] at e; simp at e
    · rw [valid_sign]; exact infinity_valid h.ok
    · simp [isFinite, isInfinite, isNan, INFINITY, h.ieee]
  · have hs : u.isSignaling = false := not_signaling_of_not_nan (not_nan_of_finite c)
    by_cases hl : S.fmt.overflowAt ≤ |u.toRat|
    · exact ⟨fun _ => ofFallback_overflow h hu c hl, fun e => absurd (Or.inr ⟨c, hl⟩) e⟩
    · refine ⟨fun e => ?_, fun _ => ?_⟩
      · rw [hs] at e; simp [hl] at e
      · obtain ⟨d, d1, d2, d3, -⟩ := ofFallback_ok h hu c (not_le.1 hl)
        exact ⟨d, d1, d2, Or.inl d3⟩

example := C75_write doubleS_pair (u := largest (fallbackS doubleS)) (by decide +kernel)

theorem mapFrom_cases (h : S.Pair) {r : StatusAnd (IeeeFloat (fallbackS S))} (hr : r.value.Valid) (hq : r.value.isSignaling = false) :
    (TooLarge r.value → DoubleFloat.mapFrom r = .error .assert) ∧ (¬ TooLarge r.value → PProper (DoubleFloat.mapFrom r)) := by
  obtain ⟨w1, w2⟩ := C75_write h hr
  unfold DoubleFloat.mapFrom
  refine ⟨fun e => by rw [w1 (Or.inr e)]; rfl, fun e => ?_⟩
  obtain ⟨d, d1, d2⟩ := w2 (by rw [hq]; simpa using e)
  rw [d1]
  exact ⟨_, rfl, d2⟩

/-! ## One theorem per operation -/

theorem one_read (h : S.Pair) (hx : S.explicitIntBit = false) {x : DoubleFloat S} (vx : x.Valid)
    {op : IeeeFloat (fallbackS S) → M (StatusAnd (IeeeFloat (fallbackS S)))}
    (hop : ∀ u, u.Valid → u.isSignaling = false → ∃ r, op u = .ok r ∧ r.value.Valid ∧ r.value.isSignaling = false)
    {m : M (StatusAnd (DoubleFloat S))} (hm : m = (do let u ← x.toFallback; let r ← op u; DoubleFloat.mapFrom r)) :
    ((x.Signals ∨ TooLarge1 op x) → m = .error .assert) ∧ (¬ (x.Signals ∨ TooLarge1 op x) → PProper m) := by
  obtain ⟨a1, a2⟩ := C75_read h hx vx
  subst hm
  by_cases sx : x.Signals
  · exact ⟨fun _ => by rw [a1 sx]; rfl, fun e => absurd (Or.inl sx) e⟩
  · obtain ⟨u, u1, u2, u3⟩ := a2 sx
    obtain ⟨r, r1, r2, r3⟩ := hop u u2 u3
    obtain ⟨m1, m2⟩ := mapFrom_cases h r2 r3
    rw [u1]
    simp only [M.ok_bind]
    rw [r1]
    simp only [M.ok_bind]
    refine ⟨?_, fun e => m2 (fun t => e (Or.inr ⟨u, r, u1, r1, t⟩))⟩
    rintro (e | ⟨u', r', e1, e2, e3⟩)
    · exact absurd e sx
    · rw [u1] at e1; cases e1
      rw [r1] at e2; cases e2
      exact m1 e3

theorem two_read (h : S.Pair) (hx : S.explicitIntBit = false) {x y : DoubleFloat S} (vx : x.Valid) (vy : y.Valid)
    {op : IeeeFloat (fallbackS S) → IeeeFloat (fallbackS S) → M (StatusAnd (IeeeFloat (fallbackS S)))}
    (hop : ∀ u v, u.Valid → u.isSignaling = false → v.Valid → v.isSignaling = false →
      ∃ r, op u v = .ok r ∧ r.value.Valid ∧ r.value.isSignaling = false)
    {m : M (StatusAnd (DoubleFloat S))} (hm : m = (do let u ← x.toFallback; let v ← y.toFallback; let r ← op u v; DoubleFloat.mapFrom r)) :
    ((x.Signals ∨ y.Signals ∨ TooLarge2 op x y) → m = .error .assert) ∧ (¬ (x.Signals ∨ y.Signals ∨ TooLarge2 op x y) → PProper m) := by
  obtain ⟨a1, a2⟩ := C75_read h hx vx
  obtain ⟨b1, b2⟩ := C75_read h hx vy
  subst hm
  by_cases sx : x.Signals
  · exact ⟨fun _ => by rw [a1 sx]; rfl, fun e => absurd (Or.inl sx) e⟩
  obtain ⟨u, u1, u2, u3⟩ := a2 sx
  rw [u1]
  simp only [M.ok_bind]
  by_cases sy : y.Signals
  · exact ⟨fun _ => by rw [b1 sy]; rfl, fun e => absurd (Or.inr (Or.inl sy)) e⟩
  obtain ⟨v, v1, v2, v3⟩ := b2 sy
  obtain ⟨r, r1, r2, r3⟩ := hop u v u2 u3 v2 v3
  obtain ⟨m1, m2⟩ := mapFrom_cases h r2 r3
  rw [v1]
  simp only [M.ok_bind]
  rw [r1]
  simp only [M.ok_bind]
  refine ⟨?_, fun e => m2 (fun t => e (Or.inr (Or.inr ⟨u, v, r, u1, v1, r1, t⟩)))⟩
  rintro (e | e | ⟨u', v', r', e1, e2, e3, e4⟩)
  · exact absurd e sx
  · exact absurd e sy
  · rw [u1] at e1; cases e1
    rw [v1] at e2; cases e2
    rw [r1] at e3; cases e3
    exact m1 e4

theorem both {T : Sem} {m : M (StatusAnd (IeeeFloat T))} {A : Prop} (h1 : Returns m) (h2 : ∃ r, m = .ok r ∧ NanRule A r) :
    ∃ r, m = .ok r ∧ r.value.Valid ∧ r.value.isSignaling = false := by
  obtain ⟨r, r1, r2⟩ := h1
  obtain ⟨r', r1', r3⟩ := h2
  rw [r1] at r1'; cases r1'
  exact ⟨r, r1, r2, r3.1⟩

/-- **C75** (division and remainders).  They panic exactly if an operand reads as a signaling NaN or the result is too large for the
high part; otherwise the result is a proper pair. -/
theorem C75_division (h : S.Pair) (hx : S.explicitIntBit = false) {x y : DoubleFloat S} (vx : x.Valid) (vy : y.Valid) (mode : Round) :
    (((x.Signals ∨ y.Signals ∨ TooLarge2 (fun u v => IeeeFloat.divR u v mode) x y) → x.divR y mode = .error .assert) ∧
      (¬ (x.Signals ∨ y.Signals ∨ TooLarge2 (fun u v => IeeeFloat.divR u v mode) x y) → PProper (x.divR y mode))) ∧
    (((x.Signals ∨ y.Signals ∨ TooLarge2 IeeeFloat.cFmod x y) → x.cFmod y = .error .assert) ∧
      (¬ (x.Signals ∨ y.Signals ∨ TooLarge2 IeeeFloat.cFmod x y) → PProper (x.cFmod y))) ∧
    (((x.Signals ∨ y.Signals ∨ TooLarge2 IeeeFloat.ieeeRem x y) → x.ieeeRem y = .error .assert) ∧
      (¬ (x.Signals ∨ y.Signals ∨ TooLarge2 IeeeFloat.ieeeRem x y) → PProper (x.ieeeRem y))) :=
  ⟨two_read h hx vx vy (fun u v hu _ hv _ => both (total_div h.fb hu hv mode)
      (nanRule_div h.fb hu hv (fb_regular _) (fb_regular _) mode)) rfl,
    two_read h hx vx vy (fun u v hu _ hv _ => both (total_fmod h.fb hu hv).1
      (nanRule_rem h.fb hu hv (fb_regular _) (fb_regular _)).1) rfl,
    two_read h hx vx vy (fun u v hu _ hv _ => both (total_fmod h.fb hu hv).2
      (nanRule_rem h.fb hu hv (fb_regular _) (fb_regular _)).2) rfl⟩

example := C75_division doubleS_pair rfl fits_example.1.1 fits_example.1.1 .towardZero

theorem signals_neg {x : DoubleFloat S} : x.neg.Signals ↔ x.Signals := by
  have e : ∀ y : IeeeFloat S, y.neg.isSignaling = y.isSignaling ∧ y.neg.category = y.category := fun y => by rw [neg_eq]; exact ⟨rfl, rfl⟩
  unfold DoubleFloat.Signals DoubleFloat.neg
  split_ifs <;> simp [(e _).1, (e _).2]

theorem pair_neg_valid {x : DoubleFloat S} (hx : x.Valid) : x.neg.Valid := by
  unfold DoubleFloat.neg
  split_ifs
  · exact ⟨neg_valid hx.1, neg_valid hx.2⟩
  · exact ⟨neg_valid hx.1, hx.2⟩

theorem pair_neg_proper {x : DoubleFloat S} (hx : x.Proper) : x.neg.Proper := by
  obtain ⟨hv, hc | ⟨h1, h2, h3⟩⟩ := hx
  · obtain ⟨a, b⟩ := neg_canonical hv hc
    exact ⟨a, Or.inl b⟩
  · refine ⟨pair_neg_valid hv, Or.inr ?_⟩
    have e : ∀ y : IeeeFloat S, y.neg.isFinite = y.isFinite := fun y => by rw [neg_eq]; rfl
    unfold DoubleFloat.neg
    split_ifs
    · exact ⟨by rw [e]; exact h1, by show x.lo.neg.toRat = 0; rw [neg_toRat, h2, neg_zero], by rw [e]; exact h3⟩
    · exact ⟨by rw [e]; exact h1, h2, h3⟩

/-- **C75** (operations with one operand). -/
theorem C75_unary (h : S.Pair) (hx : S.explicitIntBit = false) {x : DoubleFloat S} (vx : x.Valid) (mode : Round) :
    (((x.Signals ∨ TooLarge1 (fun u => IeeeFloat.roundToIntegral u mode) x) → x.roundToIntegral mode = .error .assert) ∧
      (¬ (x.Signals ∨ TooLarge1 (fun u => IeeeFloat.roundToIntegral u mode) x) → PProper (x.roundToIntegral mode))) ∧
    (((x.Signals ∨ TooLarge1 IeeeFloat.nextUp x) → x.nextUp = .error .assert) ∧
      (¬ (x.Signals ∨ TooLarge1 IeeeFloat.nextUp x) → PProper x.nextUp)) ∧
    (((x.Signals ∨ TooLarge1 IeeeFloat.nextUp x.neg) → x.nextDown = .error .assert) ∧
      (¬ (x.Signals ∨ TooLarge1 IeeeFloat.nextUp x.neg) → PProper x.nextDown)) := by
  have up : ∀ {x : DoubleFloat S}, x.Valid → ((x.Signals ∨ TooLarge1 IeeeFloat.nextUp x) → x.nextUp = .error .assert) ∧
      (¬ (x.Signals ∨ TooLarge1 IeeeFloat.nextUp x) → PProper x.nextUp) := by
    intro x vx
    refine one_read h hx vx (fun u hu _ => ?_) rfl
    obtain ⟨r, r1, r3⟩ := total_next_up h.fb hu
    obtain ⟨-, ⟨r', r1', r2, -⟩, -⟩ := C74_unary (T := fallbackS S) h.fb h.fb hu 0 .towardZero
    rw [r1] at r1'; cases r1'
    exact ⟨r, r1, r3, r2⟩
  refine ⟨one_read h hx vx (fun u hu _ => both (total_round_to_integral h.fb hu mode)
    ((C74_unary (T := fallbackS S) h.fb h.fb hu 0 mode).1 (fb_regular _))) rfl, up vx, ?_⟩
  obtain ⟨n1, n2⟩ := up (pair_neg_valid vx)
  rw [signals_neg] at n1 n2
  unfold DoubleFloat.nextDown
  refine ⟨fun e => by rw [n1 e]; rfl, fun e => ?_⟩
  obtain ⟨r, r1, r2⟩ := n2 e
  rw [r1]
  exact ⟨_, rfl, pair_neg_proper r2⟩

example := C75_unary doubleS_pair rfl fits_example.1.1 .towardZero

/-- **C75** (fused multiply-add).  It returns a proper pair unless an operand reads as a signaling NaN, or the operands, read in the
106-bit format, are among those of the defect C08, or the result is too large for the high part; and it never fails otherwise than by
an assertion. -/
theorem C75_mul_add (h : S.Pair) (hx : S.explicitIntBit = false) {x y z : DoubleFloat S} (vx : x.Valid) (vy : y.Valid) (vz : z.Valid) (mode : Round) :
    (PReturns (x.mulAddR y z mode) ∨ x.mulAddR y z mode = .error .assert) ∧
    ((x.Signals ∨ y.Signals ∨ z.Signals) → x.mulAddR y z mode = .error .assert) ∧
    (¬ (x.Signals ∨ y.Signals ∨ z.Signals) → ∃ u v w, x.toFallback = .ok u ∧ y.toFallback = .ok v ∧ z.toFallback = .ok w ∧
      (¬ (u.isFinite = true ∧ v.isFinite = true ∧ w.isFinite = true ∧ FmaPanics (fallbackS S) (u.toRat * v.toRat) w.toRat) →
        ∃ r, IeeeFloat.mulAddR u v w mode = .ok r ∧ (TooLarge r.value → x.mulAddR y z mode = .error .assert) ∧
          (¬ TooLarge r.value → PProper (x.mulAddR y z mode)))) := by
  obtain ⟨a1, a2⟩ := C75_read h hx vx
  obtain ⟨b1, b2⟩ := C75_read h hx vy
  obtain ⟨c1, c2⟩ := C75_read h hx vz
  unfold DoubleFloat.mulAddR
  by_cases sx : x.Signals
  · rw [a1 sx]
    exact ⟨Or.inr rfl, fun _ => rfl, fun e => absurd (Or.inl sx) e⟩
  obtain ⟨u, u1, u2, u3⟩ := a2 sx
  rw [u1]
  simp only [M.ok_bind]
  by_cases sy : y.Signals
  · rw [b1 sy]
    exact ⟨Or.inr rfl, fun _ => rfl, fun e => absurd (Or.inr (Or.inl sy)) e⟩
  obtain ⟨v, v1, v2, v3⟩ := b2 sy
  rw [v1]
  simp only [M.ok_bind]
  by_cases sz : z.Signals
  · rw [c1 sz]
    exact ⟨Or.inr rfl, fun _ => rfl, fun e => absurd (Or.inr (Or.inr sz)) e⟩
  obtain ⟨w, w1, w2, w3⟩ := c2 sz
  rw [w1]
  simp only [M.ok_bind]
  have proper : ∀ {m : M (StatusAnd (DoubleFloat S))}, PProper m → PReturns m := fun ⟨r, r1, r2⟩ => ⟨r, r1, r2.1⟩
  have hret : ∀ {r : StatusAnd (IeeeFloat (fallbackS S))}, r.value.Valid → PReturns (DoubleFloat.mapFrom r) ∨ DoubleFloat.mapFrom r = .error .assert := by
    intro r hr
    obtain ⟨w1, w2⟩ := C75_write h hr
    unfold DoubleFloat.mapFrom
    by_cases e : r.value.isSignaling = true ∨ TooLarge r.value
    · rw [w1 e]; exact Or.inr rfl
    · obtain ⟨d, d1, d2⟩ := w2 e
      rw [d1]; exact Or.inl ⟨_, rfl, d2.1⟩
  refine ⟨?_, fun e => absurd e (by simp [sx, sy, sz]), fun _ => ⟨u, v, w, rfl, rfl, rfl, fun hE => ?_⟩⟩
  · rcases total_mul_add h.fb u2 v2 w2 mode with ⟨r, r1, r2⟩ | ⟨-, -, -, -, e⟩
    · rw [r1]; exact hret r2
    · rw [e]; exact Or.inr rfl
  · obtain ⟨r, r1, r2⟩ := nanRule_mul_add h.fb u2 v2 w2 (fb_regular _) (fb_regular _) (fb_regular _) mode hE
    rcases total_mul_add h.fb u2 v2 w2 mode with ⟨r', r1', r3⟩ | ⟨e1, e2, e3, e4, -⟩
    · rw [r1] at r1'; cases r1'
      obtain ⟨m1, m2⟩ := mapFrom_cases h r3 r2.1
      refine ⟨r, r1, ?_, ?_⟩
      · rw [r1]; exact m1
      · rw [r1]; exact m2
    · exact absurd ⟨e1, e2, e3, e4⟩ hE

example := C75_mul_add doubleS_pair rfl fits_example.1.1 fits_example.1.1 fits_example.1.1 .towardZero

theorem pair_nan_valid (h : S.OK) : (DoubleFloat.NAN S).Valid := ⟨nan_valid h, zero_valid⟩

theorem pair_copySign_valid {x y : DoubleFloat S} (hx : x.Valid) : (x.copySign y).Valid := by
  unfold DoubleFloat.copySign
  split_ifs
  · exact pair_neg_valid hx
  · exact hx

theorem addFinite_total (h : S.OK) {a aa c cc z : IeeeFloat S} (ha : a.Valid) (haa : aa.Valid) (hc : c.Valid) (hcc : cc.Valid) (hz : z.Valid)
    (st : Status) (mode : Round) : PReturns (DoubleFloat.addFinite a aa c cc z st mode) := by
  unfold DoubleFloat.addFinite PReturns
  obtain ⟨q, q1, q2⟩ := total_sub h ha hz mode
  rw [q1, M.ok_bind]
  obtain ⟨zz, zz1, zz2⟩ := total_add h q2 hc mode
  rw [zz1, M.ok_bind]
  obtain ⟨q', q1', q2'⟩ := total_add h q2 hz mode
  rw [q1', M.ok_bind]
  obtain ⟨q3, q31, q32⟩ := total_sub h q2' ha mode
  rw [q31, M.ok_bind]
  obtain ⟨y1, y11, y12⟩ := total_add h zz2 (neg_valid q32) mode
  rw [y11, M.ok_bind]
  obtain ⟨y2, y21, y22⟩ := total_add h y12 haa mode
  rw [y21, M.ok_bind]
  obtain ⟨y3, y31, y32⟩ := total_add h y22 hcc mode
  rw [y31, M.ok_bind]
  dsimp only
  split_ifs
  · exact ⟨_, rfl, hz, zero_valid⟩
  · obtain ⟨b, b1, b2⟩ := total_add h hz y32 mode
    rw [b1, M.ok_bind]
    split_ifs
    · exact ⟨_, rfl, b2, zero_valid⟩
    · obtain ⟨l, l1, l2⟩ := total_sub h hz b2 mode
      rw [l1, M.ok_bind]
      obtain ⟨l', l1', l2'⟩ := total_add h l2 y32 mode
      rw [l1', M.ok_bind]
      exact ⟨_, rfl, b2, l2'⟩

theorem addOverflowed_total (h : S.OK) {a aa c cc : IeeeFloat S} (ha : a.Valid) (haa : aa.Valid) (hc : c.Valid) (hcc : cc.Valid)
    (ca : a.category = .normal) (kc : c.category = .normal) (mode : Round) : PReturns (DoubleFloat.addOverflowed a aa c cc mode) := by
  unfold DoubleFloat.addOverflowed PReturns
  rw [cmpAbsNormal_eq h ha hc ca kc, M.ok_bind]
  obtain ⟨z, z1, z2⟩ := total_add h hcc haa mode
  rw [z1, M.ok_bind]
  generalize hpq : (if compare |a.toRat| |c.toRat| = Ordering.gt then (c, a) else (a, c) : IeeeFloat S × IeeeFloat S) = pq
  obtain ⟨p, q⟩ := pq
  have hp : p.Valid ∧ q.Valid := by
    split_ifs at hpq <;> cases hpq
    · exact ⟨hc, ha⟩
    · exact ⟨ha, hc⟩
  dsimp only
  obtain ⟨z', z1', z2'⟩ := total_add h z2 hp.1 mode
  rw [z1', M.ok_bind]
  obtain ⟨w, w1, w2⟩ := total_add h z2' hp.2 mode
  rw [w1, M.ok_bind]
  split_ifs
  · exact ⟨_, rfl, w2, zero_valid⟩
  · obtain ⟨zz, zz1, zz2⟩ := total_add h haa hcc mode
    rw [zz1, M.ok_bind]
    obtain ⟨l, l1, l2⟩ := total_sub h hp.2 w2 mode
    rw [l1, M.ok_bind]
    obtain ⟨l', l1', l2'⟩ := total_add h l2 hp.1 mode
    rw [l1', M.ok_bind]
    obtain ⟨k, k1, k2⟩ := total_add h l2' zz2 mode
    rw [k1, M.ok_bind]
    exact ⟨_, rfl, w2, k2⟩

/-- **C75** (addition and subtraction).  They never panic. -/
theorem C75_add_sub (h : S.OK) {x y : DoubleFloat S} (hx : x.Valid) (hy : y.Valid) (mode : Round) :
    PReturns (x.addR y mode) ∧ PReturns (x.subR y mode) := by
  have add : ∀ {y : DoubleFloat S}, y.Valid → PReturns (x.addR y mode) := by
    intro y hy
    unfold DoubleFloat.addR
    split
    · split_ifs
      · exact ⟨_, rfl, pair_copySign_valid (pair_nan_valid h)⟩
      · exact ⟨_, rfl, hx⟩
    · exact ⟨_, rfl, hx⟩
    · exact ⟨_, rfl, hx⟩
    · exact ⟨_, rfl, hx⟩
    · exact ⟨_, rfl, hy⟩
    · exact ⟨_, rfl, hy⟩
    · exact ⟨_, rfl, hy⟩
    · rename_i c1 c2
      obtain ⟨z, z1, z2⟩ := total_add h hx.1 hy.1 mode
      unfold PReturns
      rw [z1, M.ok_bind]
      dsimp only
      split_ifs
      · exact ⟨_, rfl, z2, zero_valid⟩
      · exact addOverflowed_total h hx.1 hx.2 hy.1 hy.2 c1 c2 mode
      · exact addFinite_total h hx.1 hx.2 hy.1 hy.2 z2 _ mode
  exact ⟨add hy, add (pair_neg_valid hy)⟩

example := C75_add_sub doubleS_ok fits_example.1.1 fits_example.1.1 .towardZero

/-- **C75** (multiplication).  It returns a well-formed pair, or it stops at an assertion because the rounded product of the high parts
and their exact product are operands of the defect C08 of the fused multiply-add. -/
theorem C75_mul (h : S.OK) {x y : DoubleFloat S} (hx : x.Valid) (hy : y.Valid) (mode : Round) :
    PReturns (x.mulR y mode) ∨
    (x.mulR y mode = .error .assert ∧ x.hi.isFinite = true ∧ y.hi.isFinite = true ∧
      ∃ t, IeeeFloat.mulR x.hi y.hi mode = .ok t ∧ t.value.isFinite = true ∧
        FmaPanics S (x.hi.toRat * y.hi.toRat) (-t.value.toRat)) := by
  unfold DoubleFloat.mulR
  split
  · exact Or.inl ⟨_, rfl, hx⟩
  · exact Or.inl ⟨_, rfl, hy⟩
  · exact Or.inl ⟨_, rfl, pair_nan_valid h⟩
  · exact Or.inl ⟨_, rfl, pair_nan_valid h⟩
  · exact Or.inl ⟨_, rfl, hx⟩
  · exact Or.inl ⟨_, rfl, hx⟩
  · exact Or.inl ⟨_, rfl, hy⟩
  · exact Or.inl ⟨_, rfl, hy⟩
  · rename_i c1 c2
    dsimp only
    obtain ⟨t, t1, t2⟩ := total_mul h hx.1 hy.1 mode
    rw [t1, M.ok_bind]
    by_cases ht : t.value.isFiniteNonZero = true
    · rw [if_neg (by simp [ht])]
      rcases total_mul_add h hx.1 hy.1 (neg_valid t2) mode with ⟨u, u1, u2⟩ | ⟨e1, e2, e3, e4, e5⟩
      · left
        unfold PReturns
        rw [u1, M.ok_bind]
        obtain ⟨v, v1, v2⟩ := total_mul h hx.1 hy.2 mode
        rw [v1, M.ok_bind]
        obtain ⟨w, w1, w2⟩ := total_mul h hx.2 hy.1 mode
        rw [w1, M.ok_bind]
        obtain ⟨v', v1', v2'⟩ := total_add h v2 w2 mode
        rw [v1', M.ok_bind]
        obtain ⟨u', u1', u2'⟩ := total_add h u2 v2' mode
        rw [u1', M.ok_bind]
        obtain ⟨k, k1, k2⟩ := total_add h t2 u2' mode
        rw [k1, M.ok_bind]
        split_ifs
        · exact ⟨_, rfl, k2, zero_valid⟩
        · obtain ⟨l, l1, l2⟩ := total_sub h t2 k2 mode
          rw [l1, M.ok_bind]
          obtain ⟨l', l1', l2'⟩ := total_add h l2 u2' mode
          rw [l1', M.ok_bind]
          exact ⟨_, rfl, k2, l2'⟩
      · right
        rw [neg_toRat] at e4
        rw [neg_finite] at e3
        rw [e5]
        exact ⟨rfl, e1, e2, t, rfl, e3, e4⟩
    · rw [if_pos (by simpa using ht)]
      exact Or.inl ⟨_, rfl, t2, zero_valid⟩

example := C75_mul doubleS_ok fits_example.1.1 fits_example.1.1 .towardZero

/-- A float with a value other than zero is finite and normal. -/
theorem normal_of_toRat {x : IeeeFloat S} (hx : x.toRat ≠ 0) : x.category = .normal := by
  unfold IeeeFloat.toRat at hx
  cases c : x.category <;> rw [c] at hx <;> first | rfl | exact absurd rfl hx

/-- The operands that make the fused multiply-add panic are finite. -/
theorem finite_of_fmaPanics {x m z : IeeeFloat S} (hE : FmaPanics S (x.toRat * m.toRat) z.toRat) :
    x.category = .normal ∧ m.category = .normal ∧ z.category = .normal := by
  have h1 := hE.1.1
  refine ⟨normal_of_toRat fun e => ?_, normal_of_toRat fun e => ?_, normal_of_toRat fun e => ?_⟩ <;> rw [e] at h1 <;> simp at h1

/-- **C75** (multiplication, converse).  The cause does stop it. -/
theorem C75_mul_panics (h : S.OK) {x y : DoubleFloat S} (hx : x.Valid) (hy : y.Valid) (mode : Round) {t : StatusAnd (IeeeFloat S)}
    (ht : IeeeFloat.mulR x.hi y.hi mode = .ok t) (hE : FmaPanics S (x.hi.toRat * y.hi.toRat) (-t.value.toRat)) :
    x.mulR y mode = .error .assert := by
  rw [← neg_toRat] at hE
  obtain ⟨c1, c2, c3⟩ := finite_of_fmaPanics hE
  have c3' : t.value.category = .normal := c3
  obtain ⟨t', t1, t2⟩ := total_mul h hx.1 hy.1 mode
  rw [ht] at t1
  injection t1 with t1
  subst t1
  have hp := (C76_panics_iff h hx.1 hy.1 (neg_valid t2) (isFinite_iff.2 (Or.inl c1)) (isFinite_iff.2 (Or.inl c2)) (isFinite_iff.2 (Or.inl c3)) mode).1 hE
  unfold DoubleFloat.mulR DoubleFloat.category
  simp only [c1, c2]
  rw [ht, M.ok_bind, if_neg (by simp [isFiniteNonZero, isFinite_iff.2 (Or.inl c3'), isZero, c3']), hp]
  rfl

/-- **C75** (conversions from and to integers, text, bits; `get_exact_inverse`). -/
theorem C75_to_int (h : S.Pair) (hx : S.explicitIntBit = false) {x : DoubleFloat S} (vx : x.Valid) {w : ℕ} (w1 : 2 ≤ w) (w2 : w ≤ 128) (mode : Round) :
    (x.Signals → x.toU128R w mode = .error .assert ∧ x.toI128R w mode = .error .assert) ∧
    (¬ x.Signals → (∃ r, x.toU128R w mode = .ok r) ∧ ∃ r, x.toI128R w mode = .ok r) := by
  have key : ∀ {x : DoubleFloat S}, x.Valid → ∀ {w : ℕ}, 1 ≤ w → w ≤ 128 → ∀ mode,
      (x.Signals → x.toU128R w mode = .error .assert) ∧ (¬ x.Signals → ∃ r, x.toU128R w mode = .ok r) := by
    intro x vx w w1 w2 mode
    obtain ⟨a1, a2⟩ := C75_read h hx vx
    unfold DoubleFloat.toU128R
    refine ⟨fun e => by rw [a1 e]; rfl, fun e => ?_⟩
    obtain ⟨u, u1, u2, -⟩ := a2 e
    rw [u1]
    exact total_to_u128 h.fb u2 w1 w2 mode
  have i128 : (x.Signals → x.toI128R w mode = .error .assert) ∧ (¬ x.Signals → ∃ r, x.toI128R w mode = .ok r) := by
    unfold DoubleFloat.toI128R
    split_ifs with c
    · obtain ⟨k1, k2⟩ := key (pair_neg_valid vx) (by omega : 1 ≤ w) w2 mode.neg
      rw [signals_neg] at k1 k2
      refine ⟨fun e => by rw [k1 e]; rfl, fun e => ?_⟩
      obtain ⟨r, r1⟩ := k2 e
      rw [r1, M.ok_bind, usub_ok (by omega), M.ok_bind, shl_ok (by omega), M.ok_bind]
      split_ifs <;> exact ⟨_, rfl⟩
    · obtain ⟨k1, k2⟩ := key vx (by omega : 1 ≤ w - 1) (by omega) mode
      rw [usub_ok (by omega), M.ok_bind]
      refine ⟨fun e => by rw [k1 e]; rfl, fun e => ?_⟩
      obtain ⟨r, r1⟩ := k2 e
      rw [r1]
      exact ⟨_, rfl⟩
  obtain ⟨k1, k2⟩ := key vx (by omega : 1 ≤ w) w2 mode
  exact ⟨fun e => ⟨k1 e, i128.1 e⟩, fun e => ⟨k2 e, i128.2 e⟩⟩

example := C75_to_int doubleS_pair rfl fits_example.1.1 (w := 64) (by decide) (by decide) .towardZero

/-- **C75** (display).  It panics on what it cannot read, and with precision 0 on the readings on which that panics (C79). -/
theorem C75_display (h : S.Pair) (hx : S.explicitIntBit = false) {x : DoubleFloat S} (vx : x.Valid) (width prec : Option ℕ) (alt : Bool)
    (hP : ∀ P, prec = some P → P * 196 + 58 < 2 ^ 64) :
    (x.Signals → x.display width prec alt = .error .assert) ∧
    (¬ x.Signals → ∃ u, x.toFallback = .ok u ∧ u.Valid ∧ (DisplayPanics u prec → x.display width prec alt = .error .assert) ∧
      (¬ DisplayPanics u prec → ∃ s, x.display width prec alt = .ok s)) := by
  obtain ⟨a1, a2⟩ := C75_read h hx vx
  unfold DoubleFloat.display
  refine ⟨fun e => by rw [a1 e]; rfl, fun e => ?_⟩
  obtain ⟨u, u1, u2, -⟩ := a2 e
  refine ⟨u, u1, u2, fun hp => ?_, fun hp => ?_⟩
  · rw [u1]
    exact ((C79_panics_iff h.fb u2 width prec alt hP).resolve_right fun q => q.1 hp).2
  · rw [u1]
    exact ((C79_panics_iff h.fb u2 width prec alt hP).resolve_left fun q => hp q.1).2

example := C75_display doubleS_pair rfl fits_example.1.1 none (some 0) false (by simp)

/-- **C75** (parsing).  A string that denotes no literal is rejected without a panic; a literal gives a proper pair, unless it is `snan`
or the number is too large for the high part, when the call panics. -/
theorem C75_from_str (h : S.Pair) (hp : S.precision * 2 ≤ 125) {fuel : ℕ} (hfuel : 23 ≤ fuel) {s : List Char} (hlen : s.length < 2 ^ 27) (mode : Round) :
    ((¬ ∃ l, Denotes s l) → ∃ e, DoubleFloat.fromStrR S fuel s mode = .ok (.error e)) ∧
    ((∃ l, Denotes s l) → ∃ r, IeeeFloat.fromStrR (fallbackS S) fuel s mode = .ok (.ok r) ∧
      ((r.value.isSignaling = true ∨ TooLarge r.value) → DoubleFloat.fromStrR S fuel s mode = .error .assert) ∧
      (¬ (r.value.isSignaling = true ∨ TooLarge r.value) → ∃ d, DoubleFloat.fromStrR S fuel s mode = .ok (.ok d) ∧ d.value.Proper)) := by
  obtain ⟨h1, h2⟩ := C32_accepts_iff h.fb hp hfuel hlen mode
  unfold DoubleFloat.fromStrR
  refine ⟨fun e => ?_, fun e => ?_⟩
  · obtain ⟨e, e1⟩ := h2 e
    rw [e1]
    exact ⟨_, rfl⟩
  · obtain ⟨r, r1, r2⟩ := h1 e
    obtain ⟨w1, w2⟩ := C75_write h r2
    rw [r1]
    simp only [M.ok_bind]
    unfold DoubleFloat.mapFrom
    refine ⟨r, rfl, fun e => by rw [w1 e]; rfl, fun e => ?_⟩
    obtain ⟨d, d1, d2⟩ := w2 e
    rw [d1]
    exact ⟨_, rfl, d2⟩

example := C75_from_str doubleS_pair (by decide) (le_refl 23) (s := "1e309".toList) (by decide) .towardZero

/-- **C75** (`get_exact_inverse`): only a signaling NaN makes it panic. -/
theorem C75_get_exact_inverse (h : S.Pair) (hx : S.explicitIntBit = false) (hw : -S.maxExp ≤ S.minExp + S.precision) {x : DoubleFloat S} (vx : x.Valid) :
    (x.Signals → x.getExactInverse = .error .assert) ∧
    (¬ x.Signals → ∃ o, x.getExactInverse = .ok o ∧ ∀ y, o = some y → y.Proper) := by
  obtain ⟨a1, a2⟩ := C75_read h hx vx
  unfold DoubleFloat.getExactInverse
  refine ⟨fun e => by rw [a1 e]; rfl, fun e => ?_⟩
  obtain ⟨u, u1, u2, -⟩ := a2 e
  obtain ⟨o, o1, o2, o3⟩ := C28_get_exact_inverse h.fb u2
  rw [u1]
  simp only [M.ok_bind]
  rw [o1]
  simp only [M.ok_bind]
  cases o with
  | none => exact ⟨none, rfl, fun y e => by cases e⟩
  | some r =>
    obtain ⟨v1, v2, v3⟩ := o2 r rfl
    obtain ⟨hn, -⟩ := o3.1 rfl
    obtain ⟨s, v, hd, hv⟩ := ((C39_denormal h.fb u2).2).1 hn
    have fu : u.isFinite = true := by
      simp only [IeeeFloat.isNormal, IeeeFloat.isFiniteNonZero, Bool.and_eq_true] at hn
      exact hn.2.1
    rw [datum_finite fu] at hd
    cases hd
    have fr : r.isFinite = true := by
      simp only [IeeeFloat.isNormal, IeeeFloat.isFiniteNonZero, Bool.and_eq_true] at v2
      exact v2.2.1
    have hab : |r.toRat| < S.fmt.overflowAt := by
      have e : |u.toRat| * |r.toRat| = 1 := by rw [← abs_mul, v3, abs_one]
      have hx1 : (2 : ℚ) ^ (-S.maxExp) ≤ |u.toRat| := le_trans (zpow_le_zpow_right₀ (by norm_num) hw) hv
      have hr : |r.toRat| ≤ 2 ^ S.maxExp := by
        rw [zpow_neg] at hx1
        have hp := two_zpow_pos S.maxExp
        have h0 := abs_nonneg r.toRat
        have : ((2 : ℚ) ^ S.maxExp)⁻¹ * |r.toRat| ≤ 1 := by rw [← e]; exact mul_le_mul_of_nonneg_right hx1 h0
        rwa [inv_mul_le_iff₀ hp, mul_one] at this
      refine hr.trans_lt ?_
      show (2 : ℚ) ^ S.maxExp < 2 ^ (S.maxExp + 1) - 2 ^ (S.maxExp - S.precision)
      have hp := h.ok.p_ge
      have : (2 : ℚ) ^ (S.maxExp - S.precision) < 2 ^ S.maxExp := zpow_lt_zpow_right₀ (by norm_num) (by omega)
      rw [two_zpow_add S.maxExp 1]
      linarith
    obtain ⟨d, d1, d2, d3, -⟩ := ofFallback_ok h v1 fr hab
    dsimp only
    rw [d1]
    refine ⟨some d, rfl, fun y e => ?_⟩
    cases e
    exact ⟨d2, Or.inl d3⟩

example := C75_get_exact_inverse doubleS_pair rfl (by decide) fits_example.1.1

/-- **C75** (scaling, splitting, comparing, classifying): they never panic. -/
theorem C75_total (h : S.Pair) {x y : DoubleFloat S} (hx : x.Valid) (hy : y.Valid) (n : ℤ) (mode : Round) :
    (∃ r, x.scalbnR n mode = .ok r ∧ r.Valid) ∧ (∃ r e, x.frexpR mode = .ok (r, e) ∧ r.Valid) ∧ (∃ e, x.ilogb = .ok e) ∧
    (∃ b, x.isInteger = .ok b) ∧ (∃ b, x.isDenormal = .ok b) ∧ (∃ b, x.isSmallestNormalized = .ok b) ∧ (∃ b, x.isLargest = .ok b) ∧
    (∃ o, x.partialCmp y = .ok o) ∧ (∃ b, x.eq y = .ok b) ∧
    (∃ r, x.min y = .ok r ∧ r.Valid) ∧ (∃ r, x.max y = .ok r ∧ r.Valid) ∧ (∃ r, x.minimum y = .ok r ∧ r.Valid) ∧ (∃ r, x.maximum y = .ok r ∧ r.Valid) := by
  have cmp : ∀ {x y : DoubleFloat S}, x.Valid → y.Valid → ∃ o, x.partialCmp y = .ok o := by
    intro x y hx hy
    obtain ⟨o, o1, -⟩ := C15_partial_cmp h.ok hx.1 hy.1
    obtain ⟨o', o1', -⟩ := C15_partial_cmp h.ok hx.2 hy.2
    unfold DoubleFloat.partialCmp
    rw [o1]
    simp only [M.ok_bind]
    split
    · exact ⟨_, o1'⟩
    · exact ⟨_, rfl⟩
  have lt : ∀ {x y : DoubleFloat S}, x.Valid → y.Valid → ∃ b, x.lt y = .ok b := by
    intro x y hx hy
    obtain ⟨o, o1⟩ := cmp hx hy
    unfold DoubleFloat.lt
    rw [o1]
    exact ⟨_, rfl⟩
  obtain ⟨b1, l1⟩ := lt hx hy
  obtain ⟨b2, l2⟩ := lt hy hx
  refine ⟨?_, ?_, total_ilogb h.ok hx.1, ?_, ?_, ?_, ?_, cmp hx hy, ?_, ?_, ?_, ?_, ?_⟩
  · obtain ⟨a, a1, a2⟩ := total_scalbn h.ok hx.1 n mode
    obtain ⟨b, b1, b2⟩ := total_scalbn h.ok hx.2 n mode
    unfold DoubleFloat.scalbnR
    rw [a1, M.ok_bind, b1, M.ok_bind]
    exact ⟨_, rfl, a2, b2⟩
  · unfold DoubleFloat.frexpR
    by_cases cx : x.category = .normal
    · have cx' : x.hi.category = .normal := cx
      have fx := isFinite_iff.2 (Or.inl cx')
      obtain ⟨f, e, f1, f2, f3, f4, f5, f6⟩ := C27_frexp h.ok hx.1 fx (toRat_ne_zero hx.1 cx') mode
      have hp := h.ok.p_ge; have hple := h.ok.p_le; have hmin := h.ok.min_ge; have hmax := h.ok.max_le
      have he := two_zpow_pos e
      have hlow : (2 : ℚ) ^ (e - 1) ≤ |x.hi.toRat| := by
        rw [f4, abs_mul, abs_of_pos he]
        have e1 : (2 : ℚ) ^ e = 2 ^ (e - 1) * 2 := by rw [← zpow_add_one₀ (by norm_num)]; congr 1; ring
        nlinarith
      have hup : |x.hi.toRat| < 2 ^ e := by rw [f4, abs_mul, abs_of_pos he]; nlinarith
      obtain ⟨x1, x2, x3, -, -, -⟩ := Valid.normal hx.1 cx'
      have he1 : e ≤ 30000 := by
        have := mag_lt_pow h.ok hx.1 cx'
        rw [← abs_toRat cx'] at this
        have := (zpow_lt_zpow_iff_right₀ (a := (2 : ℚ)) (by norm_num)).1 (hlow.trans_lt this)
        omega
      have he2 : -30000 ≤ e := by
        have : (2 : ℚ) ^ (x.hi.exp - S.precision + 1) ≤ |x.hi.toRat| := by
          rw [abs_toRat cx']; exact le_mul_of_one_le_left (two_zpow_pos _).le (by exact_mod_cast x3)
        have := (zpow_lt_zpow_iff_right₀ (a := (2 : ℚ)) (by norm_num)).1 (this.trans_lt hup)
        omega
      obtain ⟨b, b1, b2⟩ := total_scalbn h.ok hx.2 (-e) mode
      rw [f1, M.ok_bind]
      dsimp only
      rw [if_pos cx, i32_ok (by omega) (by omega), M.ok_bind, b1]
      exact ⟨_, _, rfl, f2, b2⟩
    · obtain ⟨f, e, f1, f2⟩ := total_frexp h.ok hx.1 mode
      rw [f1, M.ok_bind]
      dsimp only
      rw [if_neg cx]
      exact ⟨_, _, rfl, f2, hx.2⟩
  · obtain ⟨a, a1, -⟩ := C13_is_integer h.ok hx.1
    obtain ⟨b, b1, -⟩ := C13_is_integer h.ok hx.2
    unfold DoubleFloat.isInteger
    rw [a1]
    simp only [M.ok_bind]
    split_ifs
    · exact ⟨_, b1⟩
    · exact ⟨_, rfl⟩
  · unfold DoubleFloat.isDenormal
    split_ifs
    · exact ⟨_, rfl⟩
    · obtain ⟨s, s1, s2⟩ := total_add h.ok hx.1 hx.2 .nearestTiesToEven
      obtain ⟨e, _, _, _, e1, -⟩ := C15_operators h.ok hx.1 s2
      rw [s1, M.ok_bind, e1]
      exact ⟨_, rfl⟩
    · exact ⟨_, rfl⟩
  · obtain ⟨c, c1, -⟩ := C60_smallest_normalized h
    unfold DoubleFloat.isSmallestNormalized
    rw [c1]
    exact ⟨_, rfl⟩
  · obtain ⟨c, c1, -⟩ := C60_largest h
    unfold DoubleFloat.isLargest
    rw [c1]
    exact ⟨_, rfl⟩
  · obtain ⟨a, _, _, _, a1, -⟩ := C15_operators h.ok hx.1 hy.1
    obtain ⟨b, _, _, _, b1, -⟩ := C15_operators h.ok hx.2 hy.2
    unfold DoubleFloat.eq
    rw [a1]
    simp only [M.ok_bind]
    split_ifs
    · exact ⟨_, b1⟩
    · exact ⟨_, rfl⟩
  · unfold DoubleFloat.min
    rw [l2]
    split_ifs
    · exact ⟨_, rfl, hy⟩
    · exact ⟨_, rfl, hx⟩
    · exact ⟨_, rfl, by split_ifs; exacts [hy, hx]⟩
  · unfold DoubleFloat.max
    rw [l1]
    split_ifs
    · exact ⟨_, rfl, hy⟩
    · exact ⟨_, rfl, hx⟩
    · exact ⟨_, rfl, by split_ifs; exacts [hy, hx]⟩
  · unfold DoubleFloat.minimum
    rw [l2]
    split_ifs
    · exact ⟨_, rfl, hx⟩
    · exact ⟨_, rfl, hy⟩
    · exact ⟨_, rfl, hx⟩
    · exact ⟨_, rfl, hy⟩
    · exact ⟨_, rfl, by split_ifs; exacts [hy, hx]⟩
  · unfold DoubleFloat.maximum
    rw [l1]
    split_ifs
    · exact ⟨_, rfl, hx⟩
    · exact ⟨_, rfl, hy⟩
    · exact ⟨_, rfl, hy⟩
    · exact ⟨_, rfl, hx⟩
    · exact ⟨_, rfl, by split_ifs; exacts [hy, hx]⟩

example := C75_total doubleS_pair fits_example.1.1 fits_example.1.1 (-1075) .towardZero

/-! ## Programs over `DoubleDouble` -/

/-- One call of the API on `DoubleDouble` registers: `d` receives the result; `a`, `b`, `c` hold the operands. -/
inductive PCall where
  | zero (d : ℕ) | infinity (d : ℕ) | nan (d : ℕ) | qnan (d : ℕ) (payload : Option ℕ) | snan (d : ℕ) (payload : Option ℕ)
  | largest (d : ℕ) | smallest (d : ℕ) | smallestNormalized (d : ℕ)
  | fromBits (d : ℕ) (bits : ℕ) | fromU128 (d : ℕ) (n : ℕ) (mode : Round) | fromI128 (d : ℕ) (n : ℤ) (mode : Round)
  | fromStr (d : ℕ) (fuel : ℕ) (s : List Char) (mode : Round)
  | neg (d a : ℕ) | abs (d a : ℕ) | copySign (d a b : ℕ)
  | add (d a b : ℕ) (mode : Round) | sub (d a b : ℕ) (mode : Round) | mul (d a b : ℕ) (mode : Round)
  | div (d a b : ℕ) (mode : Round) | mulAdd (d a b c : ℕ) (mode : Round) | fmod (d a b : ℕ) | rem (d a b : ℕ)
  | roundToIntegral (d a : ℕ) (mode : Round) | nextUp (d a : ℕ) | nextDown (d a : ℕ)
  | scalbn (d a : ℕ) (n : ℤ) (mode : Round) | frexp (d a : ℕ) (mode : Round) | exactInverse (d a : ℕ)
  | min (d a b : ℕ) | max (d a b : ℕ) | minimum (d a b : ℕ) | maximum (d a b : ℕ)
  -- observers
  | toBits (a : ℕ) | toU128 (a : ℕ) (width : ℕ) (mode : Round) | toI128 (a : ℕ) (width : ℕ) (mode : Round)
  | ilogb (a : ℕ) | isInteger (a : ℕ) | isDenormal (a : ℕ) | isLargest (a : ℕ) | isSmallestNormalized (a : ℕ)
  | partialCmp (a b : ℕ) | eq (a b : ℕ) | operators (a b : ℕ) | display (a : ℕ) (width prec : Option ℕ) (alt : Bool) | debug (a : ℕ)
  | cmpAbsNormal (a b : ℕ)

/-- The arguments are in their documented ranges (compare `Call.InRange`). -/
def PCall.InRange : PCall → Prop
  | .fromBits _ b => b < 2 ^ 128
  | .fromU128 _ n _ => n < 2 ^ 128
  | .fromI128 _ n _ => -2 ^ 127 ≤ n ∧ n < 2 ^ 127
  | .fromStr _ fuel s _ => 23 ≤ fuel ∧ s.length < 2 ^ 27
  | .toU128 _ w _ => 2 ≤ w ∧ w ≤ 128
  | .toI128 _ w _ => 2 ≤ w ∧ w ≤ 128
  | .display _ _ p _ => ∀ P, p = some P → P * 196 + 58 < 2 ^ 64
  | _ => True

/-- A register for every number. -/
abbrev PStore := ℕ → DoubleDouble

/-- Both parts of every register are well formed. -/
def PStore.WellFormed (st : PStore) : Prop := ∀ i, (st i).Valid

/-- All registers are zero. -/
def PStore.start : PStore := fun _ => DoubleFloat.ZERO doubleS

/-- Writes one register. -/
def PStore.set (st : PStore) (i : ℕ) (x : DoubleDouble) : PStore := fun j => if i = j then x else st j

/-- Executes one call. -/
def PCall.run (st : PStore) : PCall → M PStore
  | .zero d => .ok (st.set d (DoubleFloat.ZERO doubleS))
  | .infinity d => .ok (st.set d (DoubleFloat.INFINITY doubleS))
  | .nan d => .ok (st.set d (DoubleFloat.NAN doubleS))
  | .qnan d p => .ok (st.set d (DoubleFloat.qnan doubleS p))
  | .snan d p => .ok (st.set d (DoubleFloat.snan doubleS p))
  | .largest d => do let x ← DoubleFloat.largest doubleS; .ok (st.set d x)
  | .smallest d => .ok (st.set d (DoubleFloat.SMALLEST doubleS))
  | .smallestNormalized d => do let x ← DoubleFloat.smallestNormalized doubleS; .ok (st.set d x)
  | .fromBits d b => do let x ← DoubleFloat.fromBits doubleS b; .ok (st.set d x)
  | .fromU128 d n mode => do let r ← DoubleFloat.fromU128R doubleS n mode; .ok (st.set d r.value)
  | .fromI128 d n mode => do let r ← DoubleFloat.fromI128R doubleS n mode; .ok (st.set d r.value)
  | .fromStr d fuel s mode => do
    let r ← DoubleFloat.fromStrR doubleS fuel s mode
    match r with
    | .ok r => .ok (st.set d r.value)
    | .error _ => .ok st
  | .neg d a => .ok (st.set d (st a).neg)
  | .abs d a => .ok (st.set d (st a).abs)
  | .copySign d a b => .ok (st.set d ((st a).copySign (st b)))
  | .add d a b mode => do let r ← (st a).addR (st b) mode; .ok (st.set d r.value)
  | .sub d a b mode => do let r ← (st a).subR (st b) mode; .ok (st.set d r.value)
  | .mul d a b mode => do let r ← (st a).mulR (st b) mode; .ok (st.set d r.value)
  | .div d a b mode => do let r ← (st a).divR (st b) mode; .ok (st.set d r.value)
  | .mulAdd d a b c mode => do let r ← (st a).mulAddR (st b) (st c) mode; .ok (st.set d r.value)
  | .fmod d a b => do let r ← (st a).cFmod (st b); .ok (st.set d r.value)
  | .rem d a b => do let r ← (st a).ieeeRem (st b); .ok (st.set d r.value)
  | .roundToIntegral d a mode => do let r ← (st a).roundToIntegral mode; .ok (st.set d r.value)
  | .nextUp d a => do let r ← (st a).nextUp; .ok (st.set d r.value)
  | .nextDown d a => do let r ← (st a).nextDown; .ok (st.set d r.value)
  | .scalbn d a n mode => do let r ← (st a).scalbnR n mode; .ok (st.set d r)
  | .frexp d a mode => do let r ← (st a).frexpR mode; .ok (st.set d r.1)
  | .exactInverse d a => do
    let r ← (st a).getExactInverse
    match r with
    | some x => .ok (st.set d x)
    | none => .ok st
  | .min d a b => do let r ← (st a).min (st b); .ok (st.set d r)
  | .max d a b => do let r ← (st a).max (st b); .ok (st.set d r)
  | .minimum d a b => do let r ← (st a).minimum (st b); .ok (st.set d r)
  | .maximum d a b => do let r ← (st a).maximum (st b); .ok (st.set d r)
  | .toBits a => do let _ ← (st a).toBits; .ok st
  | .toU128 a w mode => do let _ ← (st a).toU128R w mode; .ok st
  | .toI128 a w mode => do let _ ← (st a).toI128R w mode; .ok st
  | .ilogb a => do let _ ← (st a).ilogb; .ok st
  | .isInteger a => do let _ ← (st a).isInteger; .ok st
  | .isDenormal a => do let _ ← (st a).isDenormal; .ok st
  | .isLargest a => do let _ ← (st a).isLargest; .ok st
  | .isSmallestNormalized a => do let _ ← (st a).isSmallestNormalized; .ok st
  | .partialCmp a b => do let _ ← (st a).partialCmp (st b); .ok st
  | .eq a b => do let _ ← (st a).eq (st b); .ok st
  | .operators a b => do
    let _ ← (st a).lt (st b)
    let _ ← (st a).le (st b)
    let _ ← (st a).gt (st b)
    let _ ← (st a).ge (st b)
    .ok st
  | .display a w p alt => do let _ ← (st a).display w p alt; .ok st
  | .debug a => do let _ ← (st a).debug; .ok st
  | .cmpAbsNormal a b => do let _ ← (st a).cmpAbsNormal (st b); .ok st

/-- Executes a program. -/
def runPairs : List PCall → PStore → M PStore
  | [], st => .ok st
  | c :: cs, st => do
    let st ← c.run st
    runPairs cs st

/-- `cmp_abs_normal` compares the high parts, and the low parts if the high parts are equal in magnitude; it stops if a part that it compares is
a zero, an infinity or a NaN. -/
def CmpAbsStops (x y : DoubleDouble) : Prop :=
  ¬ (x.hi.isFinite = true ∧ x.hi.isZero = false ∧ y.hi.isFinite = true ∧ y.hi.isZero = false) ∨
  |x.hi.toRat| = |y.hi.toRat| ∧ ¬ (x.lo.isFinite = true ∧ x.lo.isZero = false ∧ y.lo.isFinite = true ∧ y.lo.isZero = false)

theorem cmpAbs_stops {x y : DoubleDouble} (hx : x.Valid) (hy : y.Valid) :
    (CmpAbsStops x y → x.cmpAbsNormal y = .error .assert) ∧ (¬ CmpAbsStops x y → ∃ o, x.cmpAbsNormal y = .ok o) := by
  have h := doubleS_pair.ok
  obtain ⟨a1, a2⟩ := total_cmp_abs_normal h hx.1 hy.1
  obtain ⟨b1, b2⟩ := total_cmp_abs_normal h hx.2 hy.2
  unfold CmpAbsStops DoubleFloat.cmpAbsNormal
  by_cases e : x.hi.isFinite = true ∧ x.hi.isZero = false ∧ y.hi.isFinite = true ∧ y.hi.isZero = false
  · obtain ⟨o, o1, p1, p2, p3⟩ := C15_cmp_abs_normal h hx.1 hy.1 (by simp [IeeeFloat.isFiniteNonZero, e.1, e.2.1])
      (by simp [IeeeFloat.isFiniteNonZero, e.2.2.1, e.2.2.2])
    rw [o1, M.ok_bind]
    by_cases q : |x.hi.toRat| = |y.hi.toRat|
    · obtain rfl : o = .eq := p2.2 q
      by_cases e' : x.lo.isFinite = true ∧ x.lo.isZero = false ∧ y.lo.isFinite = true ∧ y.lo.isZero = false
      · refine ⟨?_, fun _ => ?_⟩
        · rintro (n | ⟨-, n⟩)
          · exact absurd e n
          · exact absurd e' n
        · obtain ⟨o', o1'⟩ := b1 e'
          simp only [o1', M.ok_bind]
          repeat' split
          all_goals exact ⟨_, rfl⟩
      · refine ⟨fun _ => ?_, fun n => absurd (Or.inr ⟨q, e'⟩) n⟩
        simp only [b2 e']
        rfl
    · refine ⟨?_, fun _ => ?_⟩
      · rintro (n | ⟨n, -⟩)
        · exact absurd e n
        · exact absurd n q
      · have : o ≠ .eq := fun n => q (p2.1 n)
        cases o
        · exact ⟨_, rfl⟩
        · exact absurd rfl this
        · exact ⟨_, rfl⟩
  · refine ⟨fun _ => ?_, fun n => absurd (Or.inl e) n⟩
    rw [a2 e]
    rfl

/-- Why a call may stop: it reads a signaling NaN in the 106-bit format, its result there is too large for the high part, its
fused multiply-add meets the defect C08, it formats with precision 0 a number on which that panics (C79), or `cmp_abs_normal` compares parts
that are not finite and non-zero. -/
def PCall.Cause (st : PStore) : PCall → Prop
  | .fromStr _ fuel s mode => ∃ r, IeeeFloat.fromStrR (fallbackS doubleS) fuel s mode = .ok (.ok r) ∧
      (r.value.isSignaling = true ∨ TooLarge r.value)
  | .mul _ a b mode => ∃ t, IeeeFloat.mulR (st a).hi (st b).hi mode = .ok t ∧
      FmaPanics doubleS ((st a).hi.toRat * (st b).hi.toRat) (-t.value.toRat)
  | .div _ a b mode => (st a).Signals ∨ (st b).Signals ∨ TooLarge2 (fun u v => IeeeFloat.divR u v mode) (st a) (st b)
  | .mulAdd _ a b c mode => (st a).Signals ∨ (st b).Signals ∨ (st c).Signals ∨
      ∃ u v w, (st a).toFallback = .ok u ∧ (st b).toFallback = .ok v ∧ (st c).toFallback = .ok w ∧
        (FmaPanics (fallbackS doubleS) (u.toRat * v.toRat) w.toRat ∨ ∃ r, IeeeFloat.mulAddR u v w mode = .ok r ∧ TooLarge r.value)
  | .fmod _ a b => (st a).Signals ∨ (st b).Signals ∨ TooLarge2 IeeeFloat.cFmod (st a) (st b)
  | .rem _ a b => (st a).Signals ∨ (st b).Signals ∨ TooLarge2 IeeeFloat.ieeeRem (st a) (st b)
  | .roundToIntegral _ a mode => (st a).Signals ∨ TooLarge1 (fun u => IeeeFloat.roundToIntegral u mode) (st a)
  | .nextUp _ a => (st a).Signals ∨ TooLarge1 IeeeFloat.nextUp (st a)
  | .nextDown _ a => (st a).Signals ∨ TooLarge1 IeeeFloat.nextUp (st a).neg
  | .exactInverse _ a => (st a).Signals
  | .toU128 a _ _ => (st a).Signals
  | .toI128 a _ _ => (st a).Signals
  | .display a _ p _ => (st a).Signals ∨ ∃ u, (st a).toFallback = .ok u ∧ DisplayPanics u p
  | .cmpAbsNormal a b => CmpAbsStops (st a) (st b)
  | _ => False

theorem PStore.set_wellFormed {st : PStore} (hst : st.WellFormed) (i : ℕ) {x : DoubleDouble} (hx : x.Valid) : (st.set i x).WellFormed := by
  intro j
  unfold PStore.set
  split_ifs
  · exact hx
  · exact hst j

/-- One call returns and keeps the registers well formed, or it stops at an assertion for one of the listed causes. -/
theorem PCall.run_total {st : PStore} (hst : st.WellFormed) (c : PCall) (hc : c.InRange) :
    (∃ st', c.run st = .ok st' ∧ st'.WellFormed) ∨ (c.Cause st ∧ c.run st = .error .assert) := by
  have h := doubleS_pair
  have hx : doubleS.explicitIntBit = false := rfl
  have set1 : ∀ (d : ℕ) {x : DoubleDouble}, x.Valid → ∃ st', (.ok (st.set d x) : M PStore) = .ok st' ∧ st'.WellFormed :=
    fun d _ hx => ⟨_, rfl, PStore.set_wellFormed hst d hx⟩
  have ret : ∀ (d : ℕ) {m : M (StatusAnd DoubleDouble)}, PReturns m →
      ∃ st', (do let r ← m; .ok (st.set d r.value) : M PStore) = .ok st' ∧ st'.WellFormed := by
    rintro d m ⟨r, rfl, hr⟩
    exact set1 d hr
  have ret' : ∀ (d : ℕ) {m : M DoubleDouble}, (∃ r, m = .ok r ∧ r.Valid) →
      ∃ st', (do let r ← m; .ok (st.set d r) : M PStore) = .ok st' ∧ st'.WellFormed := by
    rintro d m ⟨r, rfl, hr⟩
    exact set1 d hr
  have obs : ∀ {α : Type} {m : M α}, (∃ r, m = .ok r) → ∃ st', (do let _ ← m; .ok st : M PStore) = .ok st' ∧ st'.WellFormed := by
    rintro α m ⟨r, rfl⟩
    exact ⟨st, rfl, hst⟩
  have proper : ∀ {m : M (StatusAnd DoubleDouble)}, PProper m → PReturns m := fun ⟨r, r1, r2⟩ => ⟨r, r1, r2.1⟩
  have split : ∀ {A : Prop} (d : ℕ) {m : M (StatusAnd DoubleDouble)}, ((A → m = .error .assert) ∧ (¬ A → PProper m)) →
      (∃ st', (do let r ← m; .ok (st.set d r.value) : M PStore) = .ok st' ∧ st'.WellFormed) ∨
        (A ∧ (do let r ← m; .ok (st.set d r.value) : M PStore) = .error .assert) := by
    intro A d m ⟨m1, m2⟩
    by_cases a : A
    · exact Or.inr ⟨a, by rw [m1 a]; rfl⟩
    · exact Or.inl (ret d (proper (m2 a)))
  have tot := fun (a b : ℕ) (n : ℤ) (mode : Round) => C75_total h (hst a) (hst b) n mode
  cases c
  case zero d => exact Or.inl (set1 d ⟨zero_valid, zero_valid⟩)
  case infinity d => exact Or.inl (set1 d ⟨infinity_valid h.ok, zero_valid⟩)
  case nan d => exact Or.inl (set1 d (pair_nan_valid h.ok))
  case qnan d p => exact Or.inl (set1 d ⟨(C40_qnan h.ok p).1, zero_valid⟩)
  case snan d p => exact Or.inl (set1 d ⟨(C40_snan h.ok p).1, zero_valid⟩)
  case largest d =>
    obtain ⟨x, x1, x2, -⟩ := C60_largest h
    exact Or.inl (ret' d ⟨x, x1, x2.1⟩)
  case smallest d => exact Or.inl (set1 d ⟨smallest_valid h.ok, zero_valid⟩)
  case smallestNormalized d =>
    obtain ⟨x, x1, x2, -⟩ := C60_smallest_normalized h
    exact Or.inl (ret' d ⟨x, x1, x2.1⟩)
  case fromBits d b =>
    obtain ⟨x, x1, x2, -⟩ := C41_bits_round_trip doubleS_enc rfl (by decide) (b := b) hc
    exact Or.inl (ret' d ⟨x, x1, x2⟩)
  case fromU128 d n mode =>
    have hi := C54_from_u128 h (n := n) hc mode
    have hl : |(n : ℚ)| ≤ doubleS.fmt.largest := by
      rw [abs_of_nonneg (by positivity)]
      have e1 : (n : ℚ) ≤ 2 ^ (128 : ℤ) := by
        have : (n : ℚ) ≤ ((2 ^ 128 : ℕ) : ℚ) := by exact_mod_cast le_of_lt hc
        refine this.trans (le_of_eq ?_)
        push_cast; norm_num
      have e2 : (2 : ℚ) ^ (128 : ℤ) ≤ 2 ^ doubleS.maxExp := zpow_le_zpow_right₀ (by norm_num) (by decide)
      exact e1.trans (e2.trans (two_pow_maxExp_le h))
    obtain ⟨r, r1, r2⟩ := hi.in_range h hl
    exact Or.inl (ret d ⟨r, r1, r2.2.2.1⟩)
  case fromI128 d n mode =>
    obtain ⟨r, r1, r2⟩ := C54_from_i128 h (by decide) hc.1 hc.2 mode
    exact Or.inl (ret d ⟨r, r1, r2.2.2.1⟩)
  case fromStr d fuel s mode =>
    obtain ⟨h1, h2⟩ := C75_from_str h (by decide) hc.1 hc.2 mode
    by_cases hd : ∃ l, Denotes s l
    · obtain ⟨r, r1, r2, r3⟩ := h2 hd
      by_cases e : r.value.isSignaling = true ∨ TooLarge r.value
      · refine Or.inr ⟨⟨r, r1, e⟩, ?_⟩
        simp only [PCall.run, r2 e]
        rfl
      · obtain ⟨x, x1, x2⟩ := r3 e
        simp only [PCall.run, x1]
        exact Or.inl (set1 d x2.1)
    · obtain ⟨e, e1⟩ := h1 hd
      simp only [PCall.run, e1]
      exact Or.inl ⟨st, rfl, hst⟩
  case neg d a => exact Or.inl (set1 d (pair_neg_valid (hst a)))
  case abs d a =>
    refine Or.inl (set1 d ?_)
    unfold DoubleFloat.abs
    split_ifs
    · exact pair_neg_valid (hst a)
    · exact hst a
  case copySign d a b => exact Or.inl (set1 d (pair_copySign_valid (hst a)))
  case add d a b mode => exact Or.inl (ret d (C75_add_sub h.ok (hst a) (hst b) mode).1)
  case sub d a b mode => exact Or.inl (ret d (C75_add_sub h.ok (hst a) (hst b) mode).2)
  case mul d a b mode =>
    rcases C75_mul h.ok (hst a) (hst b) mode with e | ⟨e, -, -, t, t1, -, t2⟩
    · exact Or.inl (ret d e)
    · refine Or.inr ⟨⟨t, t1, t2⟩, ?_⟩
      simp only [PCall.run, e]
      rfl
  case div d a b mode => exact split d (C75_division h hx (hst a) (hst b) mode).1
  case fmod d a b => exact split d (C75_division h hx (hst a) (hst b) .towardZero).2.1
  case rem d a b => exact split d (C75_division h hx (hst a) (hst b) .towardZero).2.2
  case roundToIntegral d a mode => exact split d (C75_unary h hx (hst a) mode).1
  case nextUp d a => exact split d (C75_unary h hx (hst a) .towardZero).2.1
  case nextDown d a => exact split d (C75_unary h hx (hst a) .towardZero).2.2
  case mulAdd d a b c mode =>
    obtain ⟨m1, m2, m3⟩ := C75_mul_add h hx (hst a) (hst b) (hst c) mode
    by_cases s : (st a).Signals ∨ (st b).Signals ∨ (st c).Signals
    · refine Or.inr ⟨?_, by simp only [PCall.run, m2 s]; rfl⟩
      rcases s with s | s | s
      · exact Or.inl s
      · exact Or.inr (Or.inl s)
      · exact Or.inr (Or.inr (Or.inl s))
    · obtain ⟨u, v, w, u1, v1, w1, m4⟩ := m3 s
      rcases m1 with e | e
      · exact Or.inl (ret d e)
      · refine Or.inr ⟨Or.inr (Or.inr (Or.inr ⟨u, v, w, u1, v1, w1, ?_⟩)), by simp only [PCall.run, e]; rfl⟩
        by_cases x : u.isFinite = true ∧ v.isFinite = true ∧ w.isFinite = true ∧ FmaPanics (fallbackS doubleS) (u.toRat * v.toRat) w.toRat
        · exact Or.inl x.2.2.2
        · obtain ⟨r, r1, r2, r3⟩ := m4 x
          refine Or.inr ⟨r, r1, ?_⟩
          by_contra t
          obtain ⟨q, q1, -⟩ := r3 t
          rw [e] at q1
          cases q1
  case scalbn d a n mode => exact Or.inl (ret' d (tot a a n mode).1)
  case frexp d a mode =>
    obtain ⟨-, ⟨r, e, r1, r2⟩, -⟩ := tot a a 0 mode
    simp only [PCall.run, r1]
    exact Or.inl (set1 d r2)
  case exactInverse d a =>
    obtain ⟨e1, e2⟩ := C75_get_exact_inverse h hx (by decide) (hst a)
    by_cases s : (st a).Signals
    · exact Or.inr ⟨s, by simp only [PCall.run, e1 s]; rfl⟩
    · obtain ⟨o, o1, o2⟩ := e2 s
      simp only [PCall.run, o1]
      cases o with
      | none => exact Or.inl ⟨st, rfl, hst⟩
      | some y => exact Or.inl (set1 d (o2 y rfl).1)
  case min d a b => exact Or.inl (ret' d (tot a b 0 .towardZero).2.2.2.2.2.2.2.2.2.1)
  case max d a b => exact Or.inl (ret' d (tot a b 0 .towardZero).2.2.2.2.2.2.2.2.2.2.1)
  case minimum d a b => exact Or.inl (ret' d (tot a b 0 .towardZero).2.2.2.2.2.2.2.2.2.2.2.1)
  case maximum d a b => exact Or.inl (ret' d (tot a b 0 .towardZero).2.2.2.2.2.2.2.2.2.2.2.2)
  case toBits a =>
    obtain ⟨b, y, b1, b2, -⟩ := C03_value_round_trip doubleS_enc (hst a).1
    obtain ⟨c, y', c1, c2, -⟩ := C03_value_round_trip doubleS_enc (hst a).2
    refine Or.inl (obs ?_)
    unfold DoubleFloat.toBits
    rw [b1, M.ok_bind, c1, M.ok_bind, shl_ok (by decide)]
    exact ⟨_, rfl⟩
  case toU128 a w mode =>
    obtain ⟨e1, e2⟩ := C75_to_int h hx (hst a) hc.1 hc.2 mode
    by_cases s : (st a).Signals
    · exact Or.inr ⟨s, by simp only [PCall.run, (e1 s).1]; rfl⟩
    · exact Or.inl (obs (e2 s).1)
  case toI128 a w mode =>
    obtain ⟨e1, e2⟩ := C75_to_int h hx (hst a) hc.1 hc.2 mode
    by_cases s : (st a).Signals
    · exact Or.inr ⟨s, by simp only [PCall.run, (e1 s).2]; rfl⟩
    · exact Or.inl (obs (e2 s).2)
  case ilogb a => exact Or.inl (obs (tot a a 0 .towardZero).2.2.1)
  case isInteger a => exact Or.inl (obs (tot a a 0 .towardZero).2.2.2.1)
  case isDenormal a => exact Or.inl (obs (tot a a 0 .towardZero).2.2.2.2.1)
  case isSmallestNormalized a => exact Or.inl (obs (tot a a 0 .towardZero).2.2.2.2.2.1)
  case isLargest a => exact Or.inl (obs (tot a a 0 .towardZero).2.2.2.2.2.2.1)
  case partialCmp a b => exact Or.inl (obs (tot a b 0 .towardZero).2.2.2.2.2.2.2.1)
  case eq a b => exact Or.inl (obs (tot a b 0 .towardZero).2.2.2.2.2.2.2.2.1)
  case display a w p alt =>
    obtain ⟨e1, e2⟩ := C75_display h hx (hst a) w p alt hc
    by_cases s : (st a).Signals
    · exact Or.inr ⟨Or.inl s, by simp only [PCall.run, e1 s]; rfl⟩
    · obtain ⟨u, u1, -, u2, u3⟩ := e2 s
      by_cases q : DisplayPanics u p
      · exact Or.inr ⟨Or.inr ⟨u, u1, q⟩, by simp only [PCall.run, u2 q]; rfl⟩
      · exact Or.inl (obs (u3 q))
  case operators a b =>
    obtain ⟨o, o1⟩ := (tot a b 0 .towardZero).2.2.2.2.2.2.2.1
    simp only [PCall.run, DoubleFloat.lt, DoubleFloat.le, DoubleFloat.gt, DoubleFloat.ge, o1]
    exact Or.inl ⟨st, rfl, hst⟩
  case debug a =>
    have dbg : ∀ {z : IeeeFloat doubleS}, z.Valid → ∃ s, z.debug = .ok s := by
      intro z hz
      obtain ⟨s, hs⟩ := C48_display_total_partial h.ok hz none none false (by simp) (by simp)
      unfold IeeeFloat.debug
      rw [hs]
      exact ⟨_, rfl⟩
    obtain ⟨s, hs⟩ := dbg (hst a).1
    obtain ⟨t, ht⟩ := dbg (hst a).2
    refine Or.inl (obs ?_)
    unfold DoubleFloat.debug
    rw [hs, M.ok_bind, ht]
    exact ⟨_, rfl⟩
  case cmpAbsNormal a b =>
    obtain ⟨e1, e2⟩ := cmpAbs_stops (hst a) (hst b)
    by_cases s : CmpAbsStops (st a) (st b)
    · exact Or.inr ⟨s, by simp only [PCall.run, e1 s]; rfl⟩
    · exact Or.inl (obs (e2 s))

/-- Each cause does stop the call. -/
theorem PCall.run_stops {st : PStore} (hst : st.WellFormed) {c : PCall} (hc : c.InRange) (hs : c.Cause st) : c.run st = .error .assert := by
  have h := doubleS_pair
  have hx : doubleS.explicitIntBit = false := rfl
  cases c
  case fromStr d fuel s mode =>
    obtain ⟨r, r1, r2⟩ := hs
    obtain ⟨h1, h2⟩ := C75_from_str h (by decide) hc.1 hc.2 mode
    by_cases hd : ∃ l, Denotes s l
    · obtain ⟨r', r1', r3, -⟩ := h2 hd
      rw [r1] at r1'
      injection r1' with r1'
      injection r1' with r1'
      subst r1'
      simp only [PCall.run, r3 r2]
      rfl
    · obtain ⟨e, e1⟩ := (C32_accepts_iff h.fb (by decide) hc.1 hc.2 mode).2 hd
      rw [r1] at e1
      cases e1
  case mul d a b mode =>
    obtain ⟨t, t1, t2⟩ := hs
    simp only [PCall.run, C75_mul_panics h.ok (hst a) (hst b) mode t1 t2]
    rfl
  case div d a b mode => simp only [PCall.run, (C75_division h hx (hst a) (hst b) mode).1.1 hs]; rfl
  case fmod d a b => simp only [PCall.run, (C75_division h hx (hst a) (hst b) .towardZero).2.1.1 hs]; rfl
  case rem d a b => simp only [PCall.run, (C75_division h hx (hst a) (hst b) .towardZero).2.2.1 hs]; rfl
  case roundToIntegral d a mode => simp only [PCall.run, (C75_unary h hx (hst a) mode).1.1 hs]; rfl
  case nextUp d a => simp only [PCall.run, (C75_unary h hx (hst a) .towardZero).2.1.1 hs]; rfl
  case nextDown d a => simp only [PCall.run, (C75_unary h hx (hst a) .towardZero).2.2.1 hs]; rfl
  case mulAdd d a b c mode =>
    obtain ⟨m1, m2, m3⟩ := C75_mul_add h hx (hst a) (hst b) (hst c) mode
    have stop : (st a).mulAddR (st b) (st c) mode = .error .assert := by
      by_cases s : (st a).Signals ∨ (st b).Signals ∨ (st c).Signals
      · exact m2 s
      · obtain ⟨u, v, w, u1, v1, w1, hs⟩ := (((hs.resolve_left fun e => s (Or.inl e)).resolve_left fun e => s (Or.inr (Or.inl e))).resolve_left
          fun e => s (Or.inr (Or.inr e)))
        obtain ⟨u', v', w', u1', v1', w1', m4⟩ := m3 s
        rw [u1] at u1'; injection u1' with u1'; subst u1'
        rw [v1] at v1'; injection v1' with v1'; subst v1'
        rw [w1] at w1'; injection w1' with w1'; subst w1'
        obtain ⟨u2, u2', u3, -⟩ := (C75_read h hx (hst a)).2 (fun e => s (Or.inl e))
        obtain ⟨v2, v2', v3, -⟩ := (C75_read h hx (hst b)).2 (fun e => s (Or.inr (Or.inl e)))
        obtain ⟨w2, w2', w3, -⟩ := (C75_read h hx (hst c)).2 (fun e => s (Or.inr (Or.inr e)))
        rw [u1] at u2'; injection u2' with u2'; subst u2'
        rw [v1] at v2'; injection v2' with v2'; subst v2'
        rw [w1] at w2'; injection w2' with w2'; subst w2'
        by_cases hE : FmaPanics (fallbackS doubleS) (u.toRat * v.toRat) w.toRat
        · obtain ⟨c1, c2, c3⟩ := finite_of_fmaPanics hE
          unfold DoubleFloat.mulAddR
          rw [u1, v1, w1]
          simp only [M.ok_bind]
          rw [(C76_panics_iff h.fb u3 v3 w3 (isFinite_iff.2 (Or.inl c1)) (isFinite_iff.2 (Or.inl c2)) (isFinite_iff.2 (Or.inl c3)) mode).1 hE]
          rfl
        · obtain ⟨r, r1, r2⟩ := hs.resolve_left hE
          obtain ⟨r', r1', r3, -⟩ := m4 (fun e => hE e.2.2.2)
          rw [r1] at r1'; injection r1' with r1'; subst r1'
          exact r3 r2
    simp only [PCall.run, stop]
    rfl
  case exactInverse d a => simp only [PCall.run, (C75_get_exact_inverse h hx (by decide) (hst a)).1 hs]; rfl
  case toU128 a w mode => simp only [PCall.run, ((C75_to_int h hx (hst a) hc.1 hc.2 mode).1 hs).1]; rfl
  case toI128 a w mode => simp only [PCall.run, ((C75_to_int h hx (hst a) hc.1 hc.2 mode).1 hs).2]; rfl
  case display a w p alt =>
    have stop : (st a).display w p alt = .error .assert := by
      obtain ⟨e1, e2⟩ := C75_display h hx (hst a) w p alt hc
      by_cases s : (st a).Signals
      · exact e1 s
      · obtain ⟨u, u1, u2⟩ := hs.resolve_left s
        obtain ⟨u', u1', -, u3, -⟩ := e2 s
        rw [u1] at u1'; injection u1' with u1'; subst u1'
        exact u3 u2
    simp only [PCall.run, stop]
    rfl
  case cmpAbsNormal a b => simp only [PCall.run, (cmpAbs_stops (hst a) (hst b)).1 hs]; rfl
  all_goals exact absurd hs (by simp [PCall.Cause])

/-- The general form: from any well-formed memory. -/
theorem runPairs_total (calls : List PCall) : ∀ (st : PStore), st.WellFormed → (∀ c ∈ calls, c.InRange) →
    (∃ st', runPairs calls st = .ok st' ∧ st'.WellFormed) ∨
    (∃ (pre : List PCall) (c : PCall) (post : List PCall) (st' : PStore), calls = pre ++ c :: post ∧
      runPairs pre st = .ok st' ∧ st'.WellFormed ∧ c.Cause st' ∧ runPairs calls st = .error .assert) := by
  induction calls with
  | nil => exact fun st hst _ => Or.inl ⟨st, rfl, hst⟩
  | cons c cs ih =>
    intro st hst hr
    rcases PCall.run_total hst c (hr c List.mem_cons_self) with ⟨st1, e1, h1⟩ | ⟨h1, e1⟩
    · rcases ih st1 h1 (fun c' hc' => hr c' (List.mem_cons_of_mem _ hc')) with ⟨st2, e2, h2⟩ | ⟨pre, c', post, st2, e2, e3, h2, h3, e4⟩
      · exact Or.inl ⟨st2, by rw [runPairs, e1]; exact e2, h2⟩
      · exact Or.inr ⟨c :: pre, c', post, st2, by rw [e2]; rfl, by rw [runPairs, e1]; exact e3, h2, h3, by rw [runPairs, e1]; exact e4⟩
    · exact Or.inr ⟨[], c, cs, st, rfl, rfl, hst, h1, by rw [runPairs, e1]; rfl⟩

/-- **C75** (histories).  Every program of `DoubleDouble` calls either runs to its end with well-formed registers, or is stopped by an
assertion in a call for which one of the causes holds; before that, every register was well formed. -/
theorem C75_histories (calls : List PCall) (hr : ∀ c ∈ calls, c.InRange) :
    (∃ st, runPairs calls .start = .ok st ∧ st.WellFormed) ∨
    (∃ (pre : List PCall) (c : PCall) (post : List PCall) (st : PStore), calls = pre ++ c :: post ∧
      runPairs pre .start = .ok st ∧ st.WellFormed ∧ c.Cause st ∧ runPairs calls .start = .error .assert) :=
  runPairs_total calls .start (fun _ => ⟨zero_valid, zero_valid⟩) hr

/-- **C75** (exactly which calls stop).  In any reachable memory a call either returns or panics; it panics if and only if one of the causes holds. -/
theorem C75_panics_iff (pre : List PCall) (hr : ∀ c ∈ pre, c.InRange) {st : PStore} (hp : runPairs pre .start = .ok st)
    (c : PCall) (hc : c.InRange) : (c.run st = .error .assert ↔ c.Cause st) ∧ ((∃ st', c.run st = .ok st') ↔ ¬ c.Cause st) := by
  have hst : st.WellFormed := by
    rcases C75_histories pre hr with ⟨st', e, h⟩ | ⟨p, c', q, st', e, e1, h1, h2, e3⟩
    · rw [hp] at e; injection e with e; exact e ▸ h
    · rw [hp] at e3; cases e3
  rcases PCall.run_total hst c hc with ⟨st', e, h⟩ | ⟨h, e⟩
  · have hn : ¬ c.Cause st := fun hh => by
      rw [PCall.run_stops hst hc hh] at e
      cases e
    refine ⟨⟨fun e' => ?_, fun e' => absurd e' hn⟩, ⟨fun _ => hn, fun _ => ⟨st', e⟩⟩⟩
    rw [e] at e'
    cases e'
  · refine ⟨⟨fun _ => h, fun _ => e⟩, ⟨?_, fun hn => absurd h hn⟩⟩
    rintro ⟨st', e'⟩
    rw [e] at e'
    cases e'

/-- The calls that need neither the 106-bit format nor a product. -/
def PCall.Direct : PCall → Prop
  | .fromStr .. | .mul .. | .div .. | .mulAdd .. | .fmod .. | .rem .. | .roundToIntegral .. | .nextUp .. | .nextDown ..
  | .exactInverse .. | .toU128 .. | .toI128 .. | .display .. | .cmpAbsNormal .. => False
  | _ => True

/-- **C75** (programs of additions, subtractions, sign operations, comparisons other than `cmp_abs_normal`, minima, scalings, bit and integer constructors):
they always run to the end. -/
theorem C75_direct_histories (calls : List PCall) (hr : ∀ c ∈ calls, c.InRange) (hd : ∀ c ∈ calls, c.Direct) :
    ∃ st, runPairs calls .start = .ok st ∧ st.WellFormed := by
  rcases C75_histories calls hr with e | ⟨pre, c, post, st, e, -, -, hc, -⟩
  · exact e
  · exfalso
    have := hd c (by rw [e]; simp)
    cases c <;> first | exact hc | exact this

/-- A program over non-canonical pairs and NaNs that meets the hypotheses: 2^52 beside 2^52, a signaling NaN in a low part, sums. -/
def samplePairs : List PCall :=
  [.fromBits 1 0x43300000000000004330000000000000, .fromBits 2 0x7ff4000000000001_3ff0000000000000, .add 3 1 2 .towardPositive,
   .largest 4, .add 5 4 4 .nearestTiesToEven, .sub 6 5 5 .towardNegative, .scalbn 7 1 (-1000) .towardZero, .frexp 8 2 .nearestTiesToAway,
   .minimum 9 6 1, .isDenormal 7, .partialCmp 2 2, .fromI128 10 (-2 ^ 127) .towardZero, .debug 2, .operators 1 3]

example : (∀ c ∈ samplePairs, c.InRange) ∧ (∀ c ∈ samplePairs, c.Direct) := by
  constructor <;> intro c hc <;> simp only [samplePairs, List.mem_cons, List.not_mem_nil, or_false] at hc <;>
    rcases hc with rfl | rfl | rfl | rfl | rfl | rfl | rfl | rfl | rfl | rfl | rfl | rfl | rfl | rfl <;> simp [PCall.InRange, PCall.Direct] <;> decide

/-- **C75** (witnesses).  Each cause does stop a program: reading a pair with a signaling NaN beside 1; stepping up from the largest number; reading a
signaling NaN that `add` handed on; a product at the bottom of the range; the magnitude of 1 compared with itself. -/
theorem C75_causes_occur :
    runPairs [.fromBits 1 0x7ff4000000000001_3ff0000000000000, .nextUp 2 1] .start = .error .assert ∧
    runPairs [.largest 1, .nextUp 2 1] .start = .error .assert ∧
    runPairs [.fromBits 1 0x7ff0000000000001, .add 2 1 1 .nearestTiesToEven, .roundToIntegral 3 2 .towardZero] .start = .error .assert ∧
    runPairs [.fromBits 1 0x1E600000075BCD16, .fromBits 2 0x1E5FFFFFF14865DB, .mul 3 1 2 .nearestTiesToEven] .start = .error .assert ∧
    runPairs [.fromBits 1 0x3ff0000000000000, .cmpAbsNormal 1 1] .start = .error .assert := by
  have e : ∀ m : M PStore, (match m with | .error .assert => true | _ => false) = true → m = .error .assert := by
    intro m hm
    split at hm
    · rfl
    · cases hm
  refine ⟨e _ ?_, e _ ?_, e _ ?_, e _ ?_, e _ ?_⟩ <;> decide +kernel

/-- A pair whose negation is read as `u` is converted to a signed integer as the negation of `u` is. -/
theorem toI128R_of_neg {x : DoubleFloat S} {u : IeeeFloat (fallbackS S)} (hs : x.isNegative = true) (e : DoubleFloat.toFallback x.neg = .ok u)
    (hu : u.sign = false) (w : ℕ) (mode : Round) : x.toI128R w mode = toI128R u.neg w mode := by
  have hnn : u.neg.neg = u := by simp [neg, isNegative]
  have hsn : u.neg.isNegative = true := by simp [neg, isNegative, hu]
  unfold DoubleFloat.toI128R DoubleFloat.toU128R toI128R
  rw [if_pos hs, e, if_pos hsn, hnn]
  rfl

/-- A non-negative pair read as `u` is converted to a signed integer as `u` is. -/
theorem toI128R_of_pos {x : DoubleFloat S} {u : IeeeFloat (fallbackS S)} (hs : x.isNegative = false) (e : DoubleFloat.toFallback x = .ok u)
    (hu : u.sign = false) (w : ℕ) (mode : Round) : x.toI128R w mode = toI128R u w mode := by
  unfold DoubleFloat.toI128R DoubleFloat.toU128R toI128R
  rw [if_neg (by simp [hs]), e, if_neg (by simp [isNegative, hu])]
  rfl

/-- **C54.** The operands with no integer: quiet NaNs give 0 and infinities the nearest end of the range, both with INVALID_OP; the unsigned
conversion of -0 gives 0 and is reported as not exact. -/
theorem C54_to_int_specials (h : S.Pair) (hx : S.explicitIntBit = false) {x : DoubleFloat S} (vx : x.Valid) {w : ℕ} (w1 : 2 ≤ w) (w2 : w ≤ 128)
    (mode : Round) :
    (x.Fits → x.isZero = true → x.isNegative = true → x.toU128R w mode = .ok ⟨Status.OK, 0, false⟩) ∧
    (x.isNan = true → x.hi.isSignaling = false →
      x.toU128R w mode = .ok ⟨Status.INVALID_OP, 0, false⟩ ∧ x.toI128R w mode = .ok ⟨Status.INVALID_OP, 0, false⟩) ∧
    (x.category = .infinity → x.isNegative = true →
      x.toU128R w mode = .ok ⟨Status.INVALID_OP, 0, false⟩ ∧ x.toI128R w mode = .ok ⟨Status.INVALID_OP, -2 ^ (w - 1), false⟩) ∧
    (x.category = .infinity → x.isNegative = false →
      x.toU128R w mode = .ok ⟨Status.INVALID_OP, 2 ^ w - 1, false⟩ ∧ x.toI128R w mode = .ok ⟨Status.INVALID_OP, 2 ^ (w - 1) - 1, false⟩) := by
  have hneg : x.neg.Valid := pair_neg_valid vx
  obtain ⟨a1, a2, -⟩ := C42_specials h hx vx
  obtain ⟨b1, b2, -⟩ := C42_specials h hx hneg
  have nhi : x.neg.hi = x.hi.neg := by unfold DoubleFloat.neg; split_ifs <;> rfl
  have nsign : x.neg.hi.sign = !x.isNegative := by rw [nhi]; simp [neg, DoubleFloat.isNegative, isNegative]
  have ncat : x.neg.hi.category = x.hi.category := by rw [nhi]; rfl
  have nsig : x.neg.hi.isSignaling = x.hi.isSignaling := by rw [nhi]; rfl
  have hn : ∀ v, x.isNegative = v → x.hi.sign = v := fun v e => e
  have uOf : ∀ u, DoubleFloat.toFallback x = .ok u → x.toU128R w mode = toU128R u w mode := by
    intro u e; unfold DoubleFloat.toU128R; rw [e]; rfl
  have inf_of : ∀ {T : Sem} {r : IeeeFloat T} {s : Bool}, r.datum = .inf s → r.isInfinite = true ∧ r.sign = s := by
    intro T r s e
    rcases hc : r.category <;> simp_all [datum, isInfinite]
  refine ⟨fun hf hz hs => ?_, fun hc hq => ?_, fun hc hs => ?_, fun hc hs => ?_⟩
  · obtain ⟨u, u1, u2, u3, u4, u5⟩ := toFallback_fits h hf
    have hh : x.hi.toRat = 0 := toRat_zero (by simpa [DoubleFloat.isZero, DoubleFloat.category] using hz)
    have zz : u.toRat = 0 := by
      rw [u4]
      show x.hi.toRat + x.lo.toRat = 0
      rw [hh, Canonical.low_zero h.ok hf.1 hf.2.1 hh, add_zero]
    rcases isFinite_iff.1 u3 with c | c
    · exact absurd zz (toRat_ne_zero u2 c)
    · exact (uOf u u1).trans ((C18_to_u128_specials (by omega) w2 mode).1 (by simp [isZero, c]) (u5.trans hs))
  · have hc' : x.hi.isNan = true := by simpa [DoubleFloat.isNan, DoubleFloat.category, isNan] using hc
    obtain ⟨u, -, u1, u2, u3, -⟩ := a2 hc' hq
    refine ⟨(uOf u u1).trans ((C18_to_u128_specials (by omega) w2 mode).2.1 u2), ?_⟩
    by_cases hs : x.isNegative = true
    · obtain ⟨v, -, v1, v2, v3, -⟩ := b2 (by simpa [isNan, ncat] using hc') (nsig.trans hq)
      rw [toI128R_of_neg hs v1 (by rw [v3, nsign, hs]; rfl)]
      exact (C19_to_i128_specials w1 w2 mode).1 v2
    · rw [toI128R_of_pos (by simpa using hs) u1 (by rw [u3]; exact hn _ (by simpa using hs))]
      exact (C19_to_i128_specials w1 w2 mode).1 u2
  · have hc' : x.hi.isInfinite = true := by simpa [DoubleFloat.category, isInfinite] using hc
    obtain ⟨u, -, u1, u2, -⟩ := a1 hc'
    obtain ⟨u2, u3⟩ := inf_of u2
    obtain ⟨v, -, v1, v2, -⟩ := b1 (by simpa [isInfinite, ncat] using hc')
    obtain ⟨v2, v3⟩ := inf_of v2
    have v4 : v.sign = false := by rw [v3, nsign, hs]; rfl
    refine ⟨(uOf u u1).trans ((C18_to_u128_specials (by omega) w2 mode).2.2.1 u2 (u3.trans hs)), ?_⟩
    rw [toI128R_of_neg hs v1 v4]
    exact (C19_to_i128_specials w1 w2 mode).2.1 v2 (by simp [neg, isNegative, v4])
  · have hc' : x.hi.isInfinite = true := by simpa [DoubleFloat.category, isInfinite] using hc
    obtain ⟨u, -, u1, u2, -⟩ := a1 hc'
    obtain ⟨u2, u3⟩ := inf_of u2
    refine ⟨(uOf u u1).trans ((C18_to_u128_specials (by omega) w2 mode).2.2.2 u2 (u3.trans hs)), ?_⟩
    rw [toI128R_of_pos hs u1 (u3.trans hs)]
    exact (C19_to_i128_specials w1 w2 mode).2.2 u2 (u3.trans hs)

example := C54_to_int_specials doubleS_pair rfl (x := ⟨(INFINITY doubleS).neg, ZERO doubleS⟩) (by decide +kernel) (w := 64) (by decide) (by decide) .towardZero

example : (⟨(ZERO doubleS).neg, ZERO doubleS⟩ : DoubleFloat doubleS).Fits := by
  have z : (⟨(ZERO doubleS).neg, ZERO doubleS⟩ : DoubleFloat doubleS).toRat = 0 := by
    show (ZERO doubleS).neg.toRat + (ZERO doubleS).toRat = 0
    rw [toRat_zero rfl, toRat_zero rfl, add_zero]
  refine ⟨by decide +kernel, ⟨by decide +kernel, ?_⟩, by rw [z]; exact grid_zero⟩
  rw [z, show (⟨(ZERO doubleS).neg, ZERO doubleS⟩ : DoubleFloat doubleS).hi.toRat = 0 from toRat_zero rfl]
  exact isRounded_self _ grid_zero

end Apf
