import Verif.Spec.Chain
import Verif.Props.DoubleRounding
import Verif.Props.Ints
/-! # C124: conversions in two steps -/

namespace Apf
open Spec IeeeFloat
variable {S U T : Sem} {F G : Fmt}

theorem Spec.Fmt.Midpoint.neg {w : ℚ} (h : F.Midpoint w) : F.Midpoint (-w) := by
  obtain ⟨a, b, ha, hb, hab, hg, rfl⟩ := h
  refine ⟨-b, -a, hb.neg, ha.neg, by linarith, fun g gg => ?_, by ring⟩
  rcases hg (-g) gg.neg with c | c
  · right; linarith
  · left; linarith

theorem grid_midFmt {v : ℚ} (h : F.Grid v) : (midFmt F).Grid v := by
  obtain ⟨m, k, h1, h2, h3⟩ := h
  refine ⟨m, k, h1.trans_le (pow_le_pow_right₀ (by norm_num) (Nat.le_succ _)), ?_, h3⟩
  show F.emin - ((F.p + 1 : ℕ) : ℤ) + 1 ≤ k
  push_cast; omega

/-- Rounding to nearest twice is harmless if the first rounding does not land on a midpoint of the second format from outside. -/
theorem double_nearest_mid (hp : 2 ≤ F.p) (hsub : ∀ g, (midFmt F).Grid g → G.Grid g) {mode : Round}
    (hm : mode = .nearestTiesToEven ∨ mode = .nearestTiesToAway) {v w r : ℚ}
    (hw : IsRounded G mode v w) (hr : IsRounded F mode w r) (hmid : F.Midpoint w → w = v) : IsRounded F mode v r := by
  have pos : ∀ {mode : Round} {v w r : ℚ}, (mode = .nearestTiesToEven ∨ mode = .nearestTiesToAway) → 0 ≤ v → IsRounded G mode v w →
      IsRounded F mode w r → (F.Midpoint w → w = v) → IsRounded F mode v r := by
    intro mode v w r hm v0 hw hr hmid
    obtain ⟨n, e, h1, h2, h3, h4, h5⟩ := exists_canonical (F := F) (by omega) v0
    have hn := neighbours_mk (F := F) (by omega) h1 h2 h3
    have mid : (midFmt F).Grid (((n : ℚ) * 2 ^ (e - F.p + 1) + ((n + 1 : ℕ) : ℚ) * 2 ^ (e - F.p + 1)) / 2) := by
      refine ⟨2 * n + 1, e - F.p, ?_, ?_, ?_⟩
      · show |2 * (n : ℤ) + 1| < 2 ^ (F.p + 1)
        rw [abs_of_nonneg (by positivity), pow_succ]
        have : (n : ℤ) < 2 ^ F.p := by exact_mod_cast h1
        omega
      · show F.emin - ((F.p + 1 : ℕ) : ℤ) + 1 ≤ e - F.p
        push_cast; omega
      · rw [two_zpow_add (e - F.p) 1]; push_cast; ring
    have h0 : (0 : ℚ) ≤ (n : ℚ) * 2 ^ (e - F.p + 1) := by positivity
    generalize (n : ℚ) * 2 ^ (e - F.p + 1) = lo at *
    generalize ((n + 1 : ℕ) : ℚ) * 2 ^ (e - F.p + 1) = hi at *
    have wl := hw.ge_of_grid (hsub _ (grid_midFmt hn.glo)) h4
    have wh := hw.le_of_grid (hsub _ (grid_midFmt hn.ghi)) h5.le
    have gm := hsub _ mid
    have hlt := hn.lt
    have side : w = (lo + hi) / 2 → w = v := fun hw2 => hmid ⟨lo, hi, hn.glo, hn.ghi, hlt, hn.gap, hw2⟩
    rcases lt_trichotomy v ((lo + hi) / 2) with c | c | c
    · have wm : w < (lo + hi) / 2 := by
        rcases lt_or_eq_of_le (hw.le_of_grid gm c.le) with d | d
        · exact d
        · have := side d; linarith
      have := hr.unique (isRounded_lo hn h0 wl (by linarith) (Or.inr (Or.inr (Or.inr (Or.inl ⟨hm, by linarith⟩)))))
      rw [this]
      exact isRounded_lo hn h0 h4 h5 (Or.inr (Or.inr (Or.inr (Or.inl ⟨hm, by linarith⟩))))
    · have : w = v := (hw.unique (isRounded_self mode (c ▸ gm)))
      rw [← this]; exact hr
    · have wm : (lo + hi) / 2 < w := by
        rcases lt_or_eq_of_le (hw.ge_of_grid gm c.le) with d | d
        · exact d
        · have := side d.symm; linarith
      have e1 : r = hi := by
        rcases lt_or_eq_of_le wh with d | d
        · exact hr.unique (isRounded_hi hn h0 (by linarith) d (Or.inr (Or.inl ⟨hm, by linarith⟩)))
        · rw [d] at hr; exact hr.unique (isRounded_self mode hn.ghi)
      rw [e1]
      exact isRounded_hi hn h0 (by linarith) h5 (Or.inr (Or.inl ⟨hm, by linarith⟩))
  rcases le_total 0 v with c | c
  · exact pos hm c hw hr hmid
  · have e : mode.neg = mode := by rcases hm with rfl | rfl <;> rfl
    have hw' := hw.neg
    have hr' := hr.neg
    rw [e] at hw' hr'
    have := pos hm (by linarith) hw' hr' (fun hg => by have := hg.neg; rw [neg_neg] at this; rw [hmid this])
    have := this.neg
    rwa [e, neg_neg, neg_neg] at this

theorem Narrower.grid (h : Narrower U T) {g : ℚ} (hg : T.fmt.Grid g) : U.fmt.Grid g := by
  obtain ⟨m, k, h1, h2, h3⟩ := hg
  have e1 : T.fmt.p = T.precision := rfl
  have e2 : T.fmt.emin = T.minExp := rfl
  have := h.unit; have := h.prec
  refine ⟨m, k, h1.trans_le (pow_le_pow_right₀ (by norm_num) h.prec), ?_, h3⟩
  show U.minExp - U.precision + 1 ≤ k
  rw [e1, e2] at h2; omega

theorem StrictlyNarrower.mid (h : StrictlyNarrower U T) {g : ℚ} (hg : (midFmt T.fmt).Grid g) : U.fmt.Grid g := by
  obtain ⟨m, k, h1, h2, h3⟩ := hg
  have e1 : (midFmt T.fmt).p = T.precision + 1 := rfl
  have e2 : (midFmt T.fmt).emin = T.minExp := rfl
  have := h.unit'; have := h.prec'
  refine ⟨m, k, h1.trans_le (pow_le_pow_right₀ (by norm_num) h.prec'), ?_, h3⟩
  show U.minExp - U.precision + 1 ≤ k
  rw [e1, e2] at h2; push_cast at h2; omega

/-- The number before the power of two above the range. -/
theorem largest_le_full (h : S.OK) : S.fmt.largest ≤ 2 ^ (S.maxExp + 1) - 2 ^ (S.maxExp - S.precision + 1) := by
  have e : (2 : ℚ) ^ (S.maxExp + 1) = 2 ^ S.precision * 2 ^ (S.maxExp - S.precision + 1) := by
    rw [← zpow_natCast, ← two_zpow_add]; congr 1; ring
  have := two_zpow_pos (S.maxExp - S.precision + 1)
  show ((2 : ℚ) ^ S.precision - (if S.fmt.hasInf then 1 else 2)) * 2 ^ (S.maxExp - S.precision + 1) ≤ _
  rw [e]
  split_ifs <;> nlinarith

theorem largest_inf (hi : S.nonfinite = .ieee754) :
    S.fmt.largest = 2 ^ (S.maxExp + 1) - 2 ^ (S.maxExp - S.precision + 1) := by
  have e : (2 : ℚ) ^ (S.maxExp + 1) = 2 ^ S.precision * 2 ^ (S.maxExp - S.precision + 1) := by
    rw [← zpow_natCast, ← two_zpow_add]; congr 1; ring
  have hh : S.fmt.hasInf = true := by simp [Sem.fmt, hi]
  show ((2 : ℚ) ^ S.precision - (if S.fmt.hasInf then 1 else 2)) * 2 ^ (S.maxExp - S.precision + 1) = _
  rw [e, hh]; simp; ring

/-- A power below the top of `U`. -/
theorem below_top (h : Narrower U T) {j : ℤ} (h1 : j ≤ T.maxExp) (h2 : U.maxExp - U.precision + 1 ≤ j ∨ T.maxExp < U.maxExp) :
    (2 : ℚ) ^ (T.maxExp + 1) - 2 ^ j ≤ U.fmt.largest := by
  rw [largest_inf h.inf]
  have hU := h.okU.p_ge
  rcases lt_or_eq_of_le h.top with c | c
  · have e1 : (2 : ℚ) ^ (T.maxExp + 1) ≤ 2 ^ U.maxExp := two_zpow_le (by omega)
    have e2 : (2 : ℚ) ^ (U.maxExp - U.precision + 1) ≤ 2 ^ U.maxExp := two_zpow_le (by omega)
    have e3 : (2 : ℚ) ^ (U.maxExp + 1) = 2 ^ U.maxExp * 2 := by rw [two_zpow_add]; norm_num
    have := two_zpow_pos j
    linarith
  · have h3 : U.maxExp - U.precision + 1 ≤ j := h2.resolve_right (by omega)
    have e1 : (2 : ℚ) ^ (U.maxExp - U.precision + 1) ≤ 2 ^ j := two_zpow_le h3
    rw [c]; linarith

theorem Narrower.largest (h : Narrower U T) : T.fmt.largest ≤ U.fmt.largest := by
  refine (largest_le_full h.okT).trans (below_top h ?_ ?_)
  · have := h.okT.p_ge; omega
  · have := h.prec; have := h.top
    rcases lt_or_eq_of_le h.top with c | c
    · exact Or.inr c
    · left; omega

theorem away_out (h : Narrower U T) {mode : Round} (hm : mode = .nearestTiesToEven ∨ mode = .nearestTiesToAway → StrictlyNarrower U T) {v k : ℚ}
    (hk : IsRounded T.fmt mode v k) (hv : U.fmt.largest < v) (ha : mode ≠ .towardZero ∧ mode ≠ .towardNegative) : T.fmt.largest < k := by
  have hL := h.largest
  have near : StrictlyNarrower U T → (∀ g, T.fmt.Grid g → |v - k| ≤ |v - g|) → T.fmt.largest < k := by
    intro hN hd
    by_contra hc
    push Not at hc
    have hp := h.okT.p_ge
    have hf := largest_le_full h.okT
    have ht : (2 : ℚ) ^ (T.maxExp + 1) - 2 ^ (T.maxExp - T.precision) ≤ U.fmt.largest :=
      below_top h (by omega) (by
        have := hN.prec'
        rcases lt_or_eq_of_le h.top with c | c
        · exact Or.inr c
        · left; omega)
    have gB : T.fmt.Grid (2 ^ (T.maxExp + 1)) := by
      refine ⟨1, T.maxExp + 1, ?_, ?_, by simp⟩
      · rw [abs_one]; exact one_lt_pow₀ (by norm_num) (by show T.precision ≠ 0; omega)
      · show T.minExp - T.precision + 1 ≤ T.maxExp + 1
        have := h.okT.min_lt; have := h.okT.p_max; omega
    have hB := hd _ gB
    have e : (2 : ℚ) ^ (T.maxExp - T.precision + 1) = 2 ^ (T.maxExp - T.precision) * 2 := by rw [two_zpow_add]; norm_num
    have := two_zpow_pos (T.maxExp - T.precision)
    rw [abs_of_nonneg (by linarith : 0 ≤ v - k)] at hB
    rcases abs_cases (v - 2 ^ (T.maxExp + 1)) with ⟨q, -⟩ | ⟨q, -⟩ <;> rw [q] at hB <;> linarith
  obtain ⟨-, hk⟩ := hk
  cases mode with
  | nearestTiesToEven => exact near (hm (Or.inl rfl)) hk.1
  | nearestTiesToAway => exact near (hm (Or.inr rfl)) hk.1
  | towardPositive => have := hk.1; linarith
  | towardZero => exact absurd rfl ha.1
  | towardNegative => exact absurd rfl ha.2

/-- The largest number, when the exact value is at least that and the mode does not go beyond it. -/
theorem delivers_top (h : T.OK) {mode : Round} {v : ℚ} {s : Bool} {d : Datum} {st : Status} (hd : Delivers T.fmt mode v s d st)
    (hv : T.fmt.largest < signed s v) (ho : (overflowed T.fmt mode s).1 = .num s (signed s T.fmt.largest)) :
    d = .num s (signed s T.fmt.largest) ∧ st.inexact = true ∧ st.overflow = false := by
  have gl := grid_largest h
  have hp := largest_pos h
  obtain ⟨k, hk, ⟨c, rfl, rfl⟩ | ⟨-, c⟩⟩ := hd
  · have : k = signed s T.fmt.largest := by
      rw [_root_.abs_le] at c
      cases s with
      | false => exact le_antisymm c.2 (hk.ge_of_grid gl hv.le)
      | true =>
        have hv' : T.fmt.largest < -v := hv
        show k = -T.fmt.largest
        exact le_antisymm (hk.le_of_grid gl.neg (by linarith)) c.1
    refine ⟨by rw [this], ?_, rfl⟩
    show decide (k ≠ v) = true
    rw [decide_eq_true_iff, this]
    intro e
    rw [← e] at hv
    cases s with
    | false => exact absurd hv (lt_irrefl _)
    | true => simp [signed] at hv
  · rw [Prod.ext_iff] at c
    refine ⟨c.1.trans ho, ?_⟩
    have c2 : st = _ := c.2
    rw [c2]
    clear c c2 hk hv
    revert ho
    cases mode <;> cases s <;> simp [overflowed] <;> cases T.fmt.hasInf <;> simp

/-- Rounding an exact value to `U` and then converting to `T`, compared with rounding it to `T` directly. -/
theorem chain_rounds (h : Narrower U T) {v : ℚ} {zs : Bool} {mode : Round} {w : StatusAnd (IeeeFloat U)} {d : StatusAnd (IeeeFloat T)}
    (hw : Rounds U mode v zs w) (wv : w.value.Valid) (hd : Rounds T mode v zs d) (hmo : ModeOK T mode)
    (hst : mode = .nearestTiesToEven ∨ mode = .nearestTiesToAway → StrictlyNarrower U T)
    (hmid : mode = .nearestTiesToEven ∨ mode = .nearestTiesToAway → w.value.isFinite = true → T.fmt.Midpoint w.value.toRat → w.value.toRat = v) :
    ∃ c₂, convertR U T w.value mode = .ok c₂ ∧ c₂.value.Valid ∧
      SameAsDirect w.value w.status c₂.value c₂.status d.value d.status := by
  have w2 : w.value.sign = d.value.sign := hw.2.unique hd.2
  obtain ⟨⟨u, u1, u2⟩, us⟩ := hw
  obtain ⟨⟨k, k1, k2⟩, ks⟩ := hd
  rw [w2] at u2 us
  generalize hs : d.value.sign = s at *
  rcases u2 with ⟨ul, ud, ust⟩ | ⟨ul, ud⟩
  · -- the first step is in range
    obtain ⟨fw, ew⟩ := datum_num ud
    obtain ⟨c, c1, c2, c3, ⟨j, j1, j2⟩, -⟩ := convertR_eff h.okU h.okT wv fw mode (.of (hmo.directed _))
    dsimp only at j2
    rw [c3, w2] at j2
    rw [ew] at j1 j2
    have j1' : IsRounded T.fmt mode v j := by
      by_cases e : mode = .nearestTiesToEven ∨ mode = .nearestTiesToAway
      · exact double_nearest_mid (by show 2 ≤ T.precision; have := h.okT.p_ge; omega) (fun g => (hst e).mid) e u1 j1
          (fun q => by have := hmid e fw (ew ▸ q); rwa [ew] at this)
      · push Not at e
        exact double_directed (fun g => h.grid) e.1 e.2 u1 j1
    obtain rfl : j = k := j1'.unique k1
    have key : j = v → u = v := fun e => u1.unique (isRounded_self mode (h.grid (e ▸ k1.1)))
    refine ⟨c, c1, c2, ?_⟩
    rcases j2 with ⟨q1, q2, q3⟩ | ⟨q1, q2⟩
    · obtain ⟨-, r2, r3⟩ := k2.resolve_right (fun c => absurd q1 (not_le.2 c.1))
      refine ⟨q2.trans r2.symm, by rw [c3, w2, hs], ?_, by rw [ust, q3, r3]; rfl⟩
      rw [ust, q3, r3]
      dsimp only
      rw [← Bool.decide_or]
      refine decide_eq_decide.2 ⟨?_, ?_⟩
      · rintro (e | e) e2
        · exact e (key e2)
        · exact e (e2.trans (key e2).symm)
      · intro e
        by_contra e2
        push Not at e2
        exact e (e2.2.trans e2.1)
    · obtain ⟨-, r2⟩ := k2.resolve_left (fun c => absurd c.1 (not_le.2 q1))
      rw [← r2, Prod.mk.injEq] at q2
      have hi : d.status.inexact = true := by
        have := congrArg Prod.snd r2
        dsimp only at this
        rw [this]
        unfold overflowed
        cases mode <;> cases s <;> rfl
      exact ⟨q2.1, by rw [c3, w2, hs], by rw [q2.2, hi, Bool.or_true], by rw [ust, q2.2, Bool.false_or]⟩
  · -- the first step overflows
    have hsv : U.fmt.largest < signed s v := by
      by_contra hcon
      push Not at hcon
      have gl := grid_largest h.okU
      have hpos := largest_pos h.okU
      refine absurd (_root_.abs_le.2 ?_) (not_le.2 ul)
      rcases lt_trichotomy v 0 with q | q | q
      · have := us.2.1 q; subst this
        have hcon : -v ≤ U.fmt.largest := hcon
        exact ⟨u1.ge_of_grid gl.neg (by linarith), u1.le_of_grid gl (by linarith)⟩
      · exact ⟨u1.ge_of_grid gl.neg (by linarith), u1.le_of_grid gl (by linarith)⟩
      · have := us.1 q; subst this
        have hcon : v ≤ U.fmt.largest := hcon
        exact ⟨u1.ge_of_grid gl.neg (by linarith), u1.le_of_grid gl hcon⟩
    have hsT : T.fmt.largest < signed s v := h.largest.trans_lt hsv
    have hU : U.fmt.hasInf = true := by simp [Sem.fmt, h.inf]
    rw [Prod.ext_iff] at ud
    obtain ⟨ud, ust⟩ := ud
    dsimp only at ud ust
    by_cases hout : (overflowed U.fmt mode s).1 = .inf s
    · -- an infinity
      rw [hout] at ud
      have hinf : w.value.isInfinite = true := by
        unfold datum at ud
        unfold isInfinite
        cases e : w.value.category <;> simp only [e, reduceCtorEq] at ud ⊢ <;> rfl
      obtain ⟨c, c1, c2, c3, c4, c5⟩ := C21_convert_infinity h.okU h.okT hinf mode
      have big : T.fmt.largest < |k| := by
        cases s with
        | false =>
          refine lt_of_lt_of_le (away_out h hst k1 hsv ?_) (le_abs_self _)
          revert hout; cases mode <;> simp [overflowed]
        | true =>
          refine lt_of_lt_of_le (away_out (v := -v) h (mode := mode.neg) (fun e => hst (by revert e; cases mode <;> simp [Round.neg])) k1.neg hsv ?_) (neg_le_abs _)
          revert hout; cases mode <;> simp [overflowed, Round.neg]
      obtain ⟨-, r2⟩ := k2.resolve_left (fun c => absurd c.1 (not_le.2 big))
      rw [Prod.ext_iff] at r2
      obtain ⟨r2, r3⟩ := r2
      dsimp only at r2 r3
      have o1 : (overflowed U.fmt mode s).2 = { overflow := true, inexact := true } := by
        revert hout; cases mode <;> cases s <;> simp [overflowed, hU]
      have o2 : overflowed T.fmt mode s = (if T.fmt.hasInf then .inf s else .nan, { overflow := true, inexact := true }) := by
        revert hout; cases mode <;> cases s <;> simp [overflowed, hU]
      rw [o2] at r2 r3
      dsimp only at r2 r3
      refine ⟨c, c1, c2, ?_, by rw [c3, w2, hs], by rw [ust, o1, r3]; rfl, by rw [ust, o1, r3]; rfl⟩
      rw [r2]
      cases hT : T.nonfinite with
      | ieee754 => rw [(c4 hT).1, w2]; simp [Sem.fmt, hT]
      | nanOnly => rw [(c5 hT).1]; simp [Sem.fmt, hT]
    · -- the largest number of the intermediate format
      have o : (overflowed U.fmt mode s).1 = .num s (signed s U.fmt.largest) ∧ (overflowed U.fmt mode s).2 = { inexact := true } ∧
          (overflowed T.fmt mode s).1 = .num s (signed s T.fmt.largest) := by
        revert hout; cases mode <;> cases s <;> simp [overflowed, hU]
      rw [o.1] at ud
      rw [o.2.1] at ust
      obtain ⟨fw, ew⟩ := datum_num ud
      obtain ⟨c, c1, c2, c3, ⟨j, j1, j2⟩, -⟩ := convertR_eff h.okU h.okT wv fw mode (.of (hmo.directed _))
      dsimp only at j2
      rw [c3, w2] at j2
      rw [ew] at j1 j2
      obtain ⟨a1, a2, a3⟩ := delivers_top h.okT ⟨k, k1, k2⟩ hsT o.2.2
      have b : c.value.datum = .num s (signed s T.fmt.largest) ∧ c.status.overflow = false := by
        have ss : signed s (signed s U.fmt.largest) = U.fmt.largest := by cases s <;> simp [signed]
        rcases lt_or_eq_of_le h.largest with q | q
        · obtain ⟨b1, -, b3⟩ := delivers_top h.okT ⟨j, j1, j2⟩ (by rw [ss]; exact q) o.2.2
          exact ⟨b1, b3⟩
        · have gs : T.fmt.Grid (signed s U.fmt.largest) := by rw [← q, grid_signed]; exact grid_largest h.okT
          have e := j1.unique (isRounded_self mode gs)
          rw [e] at j2
          obtain ⟨-, b1, b2⟩ := j2.resolve_right (fun c => by
            have := c.1
            rw [abs_signed _ (largest_pos h.okU).le, q] at this
            exact lt_irrefl _ this)
          exact ⟨by rw [b1, q], by rw [b2]⟩
      exact ⟨c, c1, c2, b.1.trans a1.symm, by rw [c3, w2, hs], by rw [ust, a2]; rfl, by rw [ust, b.2, a3]; rfl⟩

theorem chain_core (h : Narrower U T) (hS : S.OK) {x : IeeeFloat S} (hx : x.Valid) (fx : x.isFinite = true) {mode : Round}
    (hmo : ModeOK T mode) (hst : mode = .nearestTiesToEven ∨ mode = .nearestTiesToAway → StrictlyNarrower U T) {c₁ : ConvOut U}
    (hc : convertR S U x mode = .ok c₁)
    (hmid : mode = .nearestTiesToEven ∨ mode = .nearestTiesToAway → c₁.value.isFinite = true → T.fmt.Midpoint c₁.value.toRat →
      c₁.value.toRat = x.toRat) :
    ∃ c₂ d, convertR U T c₁.value mode = .ok c₂ ∧ convertR S T x mode = .ok d ∧ c₂.value.Valid ∧
      SameAsDirect c₁.value c₁.status c₂.value c₂.status d.value d.status := by
  obtain ⟨X, X1, X2, X3, X4⟩ := convertR_eff hS h.okU hx fx mode (.of (directedOK_of_ieee h.inf _ _))
  obtain rfl : X = c₁ := by rw [X1] at hc; exact Except.ok.inj hc
  obtain ⟨d, d1, d2, d3, d4⟩ := convertR_eff hS h.okT hx fx mode (.of (hmo.directed _))
  obtain ⟨c₂, a, b, c⟩ := chain_rounds h X4 X2 d4 hmo hst hmid
  exact ⟨c₂, d, a, d1, b, c⟩

theorem quad_double : StrictlyNarrower quadS doubleS := ⟨⟨quadS_ok, doubleS_ok, rfl, by decide, by decide, by decide⟩, by decide, by decide⟩
theorem x87_double : StrictlyNarrower x87S doubleS := ⟨⟨x87S_ok, doubleS_ok, rfl, by decide, by decide, by decide⟩, by decide, by decide⟩
theorem double_single : StrictlyNarrower doubleS singleS := ⟨⟨doubleS_ok, singleS_ok, rfl, by decide, by decide, by decide⟩, by decide, by decide⟩
theorem single_half : StrictlyNarrower singleS halfS := ⟨⟨singleS_ok, halfS_ok, rfl, by decide, by decide, by decide⟩, by decide, by decide⟩
theorem single_bfloat : StrictlyNarrower singleS bfloatS := ⟨⟨singleS_ok, bfloatS_ok, rfl, by decide, by decide, by decide⟩, by decide, by decide⟩
theorem half_e5m2 : StrictlyNarrower halfS float8E5M2S := ⟨⟨halfS_ok, float8E5M2S_ok, rfl, by decide, by decide, by decide⟩, by decide, by decide⟩
theorem half_e4m3fn : StrictlyNarrower halfS float8E4M3FNS := ⟨⟨halfS_ok, float8E4M3FNS_ok, rfl, by decide, by decide, by decide⟩, by decide, by decide⟩

/-- **C124.** In the three directed modes a conversion may be done in two steps, through any format that contains the numbers of the last one: the result
is the one of the direct conversion, overflows of either step included, and the flags of the two steps together report the same inexactness and overflow.
(`ModeOK` leaves out the two directed modes with Float8E4M3FN as the last format, finding 1.) -/
theorem C124_directed (h : Narrower U T) (hS : S.OK) {x : IeeeFloat S} (hx : x.Valid) (fx : x.isFinite = true) {mode : Round}
    (hm : mode = .towardZero ∨ mode = .towardPositive ∨ mode = .towardNegative) (hmo : ModeOK T mode) :
    ∃ c₁ c₂ d, convertR S U x mode = .ok c₁ ∧ convertR U T c₁.value mode = .ok c₂ ∧ convertR S T x mode = .ok d ∧ c₂.value.Valid ∧
      SameAsDirect c₁.value c₁.status c₂.value c₂.status d.value d.status := by
  have hn : ¬ (mode = .nearestTiesToEven ∨ mode = .nearestTiesToAway) := by rcases hm with rfl | rfl | rfl <;> simp
  obtain ⟨c₁, e, -⟩ := convertR_eff hS h.okU hx fx mode (.of (directedOK_of_ieee h.inf _ _))
  obtain ⟨c₂, d, a⟩ := chain_core h hS hx fx hmo (fun q => absurd q hn) e (fun q => absurd q hn)
  exact ⟨c₁, c₂, d, e, a⟩

/-! Non-vacuity: `2^500`, which overflows in both steps, and `-(1 + 2^-11 + 2^-40)`. -/
example := C124_directed single_half.toNarrower doubleS_ok (x := ⟨2 ^ 52, 500, .normal, false⟩) (by decide) rfl (mode := .towardZero) (Or.inl rfl)
  (fun e => absurd e (by decide))
example := C124_directed single_half.toNarrower doubleS_ok (x := ⟨2 ^ 52 + 2 ^ 41 + 2 ^ 12, 0, .normal, true⟩) (by decide) rfl (mode := .towardNegative)
  (Or.inr (Or.inr rfl)) (fun e => absurd e (by decide))

/-- **C124.** Rounding to nearest, the two steps give the result of the direct conversion unless the first step changed the value and landed half way
between two numbers of the last format. -/
theorem C124_nearest (h : StrictlyNarrower U T) (hS : S.OK) {x : IeeeFloat S} (hx : x.Valid) (fx : x.isFinite = true) {mode : Round}
    (hm : mode = .nearestTiesToEven ∨ mode = .nearestTiesToAway) {c₁ : ConvOut U} (hc : convertR S U x mode = .ok c₁)
    (hmid : c₁.status.inexact = true → c₁.value.isFinite = true → ¬ T.fmt.Midpoint c₁.value.toRat) :
    ∃ c₂ d, convertR U T c₁.value mode = .ok c₂ ∧ convertR S T x mode = .ok d ∧ c₂.value.Valid ∧
      SameAsDirect c₁.value c₁.status c₂.value c₂.status d.value d.status := by
  refine chain_core h.toNarrower hS hx fx (fun _ => by rcases hm with rfl | rfl <;> simp) (fun _ => h) hc (fun _ f q => ?_)
  by_contra hne
  obtain ⟨X, X1, X2, X3, ⟨⟨u, u1, u2⟩, us⟩⟩ := convertR_eff hS h.okU hx fx mode (.of (directedOK_of_ieee h.inf _ _))
  obtain rfl : X = c₁ := by rw [X1] at hc; exact Except.ok.inj hc
  refine hmid ?_ f q
  rcases u2 with ⟨-, ud, ust⟩ | ⟨-, ud⟩
  · obtain ⟨-, ew⟩ := datum_num ud
    have ust : X.status = _ := ust
    rw [ust]
    dsimp only
    rw [decide_eq_true_iff, ← ew]
    exact hne
  · have := congrArg Prod.snd ud
    dsimp only at this
    rw [this]
    rcases hm with rfl | rfl <;> rfl

theorem not_midpoint_of_grid {w : ℚ} (h : F.Grid w) : ¬ F.Midpoint w := by
  rintro ⟨a, b, -, -, hab, hg, e⟩
  rcases hg w h with c | c <;> linarith

/-! Non-vacuity: `1 + 2^-40` becomes `1` in the first step, which is no midpoint. -/
example := C124_nearest single_half doubleS_ok (x := ⟨2 ^ 52 + 2 ^ 12, 0, .normal, false⟩) (by decide) rfl (mode := .nearestTiesToEven) (Or.inl rfl)
  (c₁ := ⟨Status.INEXACT, ⟨2 ^ 23, 0, .normal, false⟩, true⟩) (by decide +kernel) (fun _ _ => not_midpoint_of_grid
    ⟨1, 0, by decide, by decide, by rw [toRat_normal rfl]; norm_num [signed, singleS, Sem.default]⟩)

/-- **C124.** In whatever modes the two steps are done, and even where they do not give the result of the direct conversion, the result is next to the exact
value: no number of the last format lies strictly between them, and the value itself is delivered if it is one. -/
theorem C124_faithful (h : Narrower U T) (hS : S.OK) {x : IeeeFloat S} (hx : x.Valid) (fx : x.isFinite = true) (hl : |x.toRat| ≤ T.fmt.largest)
    (m₁ m₂ : Round) :
    ∃ c₁ c₂, convertR S U x m₁ = .ok c₁ ∧ convertR U T c₁.value m₂ = .ok c₂ ∧ c₁.value.isFinite = true ∧ c₂.value.Valid ∧ c₂.value.isFinite = true ∧
      c₂.value.sign = x.sign ∧
      (∀ y : IeeeFloat T, y.Valid → y.isFinite = true →
        ¬ (x.toRat < y.toRat ∧ y.toRat < c₂.value.toRat) ∧ ¬ (c₂.value.toRat < y.toRat ∧ y.toRat < x.toRat)) ∧
      (∀ y : IeeeFloat T, y.Valid → y.isFinite = true → y.toRat = x.toRat → c₂.value.toRat = x.toRat) := by
  obtain ⟨c₁, a1, a2, a3, ⟨⟨u, u1, u2⟩, us⟩⟩ := convertR_eff hS h.okU hx fx m₁ (.of (directedOK_of_ieee h.inf _ _))
  dsimp only at u2
  have gT := grid_largest h.okT
  have hT := _root_.abs_le.1 hl
  have ul : |u| ≤ T.fmt.largest := _root_.abs_le.2 ⟨u1.ge_of_grid (h.grid gT.neg) hT.1, u1.le_of_grid (h.grid gT) hT.2⟩
  obtain ⟨-, ud, -⟩ := u2.resolve_right (fun c => absurd (ul.trans h.largest) (not_le.2 c.1))
  obtain ⟨fu, eu⟩ := datum_num ud
  obtain ⟨om, hom⟩ := exists_effective T m₂ c₁.value.toRat
  obtain ⟨c₂, b1, b2, b3, ⟨⟨k, k1, k2⟩, ks⟩⟩ := convertR_eff h.okU h.okT a2 fu m₂ hom
  dsimp only at k2
  rw [eu] at k1
  have hu := _root_.abs_le.1 ul
  have kl : |k| ≤ T.fmt.largest := _root_.abs_le.2 ⟨k1.ge_of_grid gT.neg hu.1, k1.le_of_grid gT hu.2⟩
  obtain ⟨-, kd, -⟩ := k2.resolve_right (fun c => absurd kl (not_le.2 c.1))
  obtain ⟨fk, ek⟩ := datum_num kd
  have lo : ∀ y : IeeeFloat T, y.Valid → y.isFinite = true → y.toRat ≤ x.toRat → y.toRat ≤ k := fun y hy fy q => by
    have g := grid_toRat h.okT hy fy
    exact k1.ge_of_grid g (u1.ge_of_grid (h.grid g) q)
  have hi : ∀ y : IeeeFloat T, y.Valid → y.isFinite = true → x.toRat ≤ y.toRat → k ≤ y.toRat := fun y hy fy q => by
    have g := grid_toRat h.okT hy fy
    exact k1.le_of_grid g (u1.le_of_grid (h.grid g) q)
  refine ⟨c₁, c₂, a1, b1, fu, b2, fk, by rw [b3, a3], fun y hy fy => ⟨fun q => ?_, fun q => ?_⟩, fun y hy fy q => ?_⟩
  · have := hi y hy fy q.1.le; rw [ek] at q; linarith [q.2]
  · have := lo y hy fy q.2.le; rw [ek] at q; linarith [q.1]
  · rw [ek, ← q]; exact le_antisymm (hi y hy fy q.ge) (lo y hy fy q.le)

/-- **C124.** If the first step loses nothing (`loses_info` is false, as it always is when widening), the second step is the direct conversion: same result,
same flags, same `loses_info`.  Any formats, any modes, infinities included. -/
theorem C124_lossless (hS : S.OK) (hU : U.OK) (hT : T.OK) {x : IeeeFloat S} (hx : x.Valid) (hn : x.isNan = false) {m₁ : Round} {c₁ : ConvOut U}
    (hc : convertR S U x m₁ = .ok c₁) (hl : c₁.losesInfo = false) (mode : Round) :
    ∃ c₂ d, convertR U T c₁.value mode = .ok c₂ ∧ convertR S T x mode = .ok d ∧ c₂.value.datum = d.value.datum ∧ c₂.value.sign = d.value.sign ∧
      c₂.status = d.status ∧ c₂.losesInfo = d.losesInfo := by
  obtain ⟨X, X1, X2, X3⟩ := C22_loses_info hS hU hx hn m₁
  obtain rfl : X = c₁ := by rw [X1] at hc; exact Except.ok.inj hc
  have hd := X3.1 hl
  have hn' : X.value.isNan = false := by
    rw [not_nan_iff] at hn ⊢; rw [hd]; exact hn
  have loses : ∀ {c₂ d : ConvOut T}, convertR U T X.value mode = .ok c₂ → convertR S T x mode = .ok d → c₂.value.datum = d.value.datum →
      c₂.losesInfo = d.losesInfo := by
    intro c₂ d e1 e2 e3
    obtain ⟨p, p1, -, p3⟩ := C22_loses_info hU hT X2 hn' mode
    obtain ⟨q, q1, -, q3⟩ := C22_loses_info hS hT hx hn mode
    obtain rfl : p = c₂ := by rw [p1] at e1; exact Except.ok.inj e1
    obtain rfl : q = d := by rw [q1] at e2; exact Except.ok.inj e2
    rw [e3, hd, ← q3] at p3
    cases hp : p.losesInfo <;> cases hq : q.losesInfo <;> simp_all
  rcases datum_not_nan hn with fx | ix
  · have fX : X.value.isFinite = true ∧ X.value.sign = x.sign ∧ X.value.toRat = x.toRat := by
      rw [datum_finite fx] at hd
      obtain ⟨a, b⟩ := datum_num hd
      rw [datum_finite a] at hd
      exact ⟨a, by simpa using congrArg (fun | .num s _ => s | _ => false) hd, b⟩
    obtain ⟨om, hom⟩ := exists_effective T mode x.toRat
    obtain ⟨d, d1, d2, d3, d4⟩ := convertR_eff hS hT hx fx mode hom
    obtain ⟨c, e1, e2, e3, e4⟩ := convertR_eff hU hT X2 fX.1 mode (by rw [fX.2.2]; exact hom)
    rw [fX.2.2, fX.2.1] at e4
    obtain ⟨g1, g2, g3⟩ := rounds_unique e4 d4
    exact ⟨c, d, e1, d1, g1, g2, g3, loses e1 d1 g1⟩
  · have ix' : x.isInfinite = true := by unfold isInfinite; rw [ix]; rfl
    have iX : X.value.isInfinite = true ∧ X.value.sign = x.sign := by
      have hx' : x.datum = .inf x.sign := by unfold datum; rw [ix]
      rw [hx'] at hd
      unfold datum at hd
      unfold isInfinite
      cases e : X.value.category <;> simp only [e, reduceCtorEq, Datum.inf.injEq] at hd ⊢
      exact ⟨rfl, hd⟩
    obtain ⟨d, d1, -, d3, d4, d5⟩ := C21_convert_infinity hS hT ix' mode
    obtain ⟨c, e1, -, e3, e4, e5⟩ := C21_convert_infinity hU hT iX.1 mode
    have g : c.value.datum = d.value.datum ∧ c.status = d.status := by
      cases hk : T.nonfinite with
      | ieee754 => rw [(d4 hk).1, (d4 hk).2, (e4 hk).1, (e4 hk).2, iX.2]; exact ⟨rfl, rfl⟩
      | nanOnly => rw [(d5 hk).1, (d5 hk).2, (e5 hk).1, (e5 hk).2]; exact ⟨rfl, rfl⟩
    exact ⟨c, d, e1, d1, g.1, by rw [e3, d3, iX.2], g.2, loses e1 d1 g.1⟩

example := C124_lossless halfS_ok singleS_ok bfloatS_ok (x := ⟨1025, 0, .normal, true⟩) (by decide) rfl (m₁ := .nearestTiesToEven)
  (c₁ := ⟨Status.OK, ⟨1025 * 2 ^ 13, 0, .normal, true⟩, false⟩) (by decide +kernel) rfl .towardPositive

example := C124_faithful single_half.toNarrower doubleS_ok (x := ⟨2 ^ 52 + 2 ^ 41 + 2 ^ 12, 0, .normal, false⟩) (by decide) rfl
  (by decide +kernel) .nearestTiesToEven .towardPositive

/-- **C124.** The exception of `C124_nearest` is real: `1 + 2^-11 + 2^-40` in Double becomes `1 + 2^-10` in Half, but `1` if it goes through Single, where it
becomes the midpoint `1 + 2^-11`. -/
theorem C124_double_rounding :
    (do let d ← convertR doubleS halfS ⟨2 ^ 52 + 2 ^ 41 + 2 ^ 12, 0, .normal, false⟩ .nearestTiesToEven; pure d.value : M _) =
      .ok ⟨1025, 0, .normal, false⟩ ∧
    (do let c ← convertR doubleS singleS ⟨2 ^ 52 + 2 ^ 41 + 2 ^ 12, 0, .normal, false⟩ .nearestTiesToEven
        let c ← convertR singleS halfS c.value .nearestTiesToEven
        pure c.value : M _) = .ok ⟨1024, 0, .normal, false⟩ := by
  refine ⟨by decide +kernel, by decide +kernel⟩

/-- Widening an operand is exact. -/
theorem Narrower.widen (h : Narrower U T) {x : IeeeFloat T} (hx : x.Valid) (fx : x.isFinite = true) (m : Round) :
    ∃ X, convertR T U x m = .ok X ∧ X.value.Valid ∧ X.value.isFinite = true ∧ X.value.toRat = x.toRat ∧ X.value.sign = x.sign ∧
      X.status = Status.OK := by
  obtain ⟨X, X1, X2, X3, X4⟩ := convertR_eff h.okT h.okU hx fx m (.of (directedOK_of_ieee h.inf _ _))
  obtain ⟨a, b, c⟩ := X4.exact (h.grid (grid_toRat h.okT hx fx)) ((abs_toRat_le h.okT hx fx).trans h.largest)
  exact ⟨X, X1, X2, b, c, X3, a⟩

/-- **C124.** In a directed mode, arithmetic may be done in any format that contains the one of the operands, and the result converted back in the same
mode: it is the result of the operation in the format of the operands.  (To nearest this takes more than twice the precision, C69.) -/
theorem C124_arithmetic (h : Narrower U T) {x y : IeeeFloat T} (hx : x.Valid) (hy : y.Valid) (fx : x.isFinite = true) (fy : y.isFinite = true)
    {mode : Round} (hm : mode = .towardZero ∨ mode = .towardPositive ∨ mode = .towardNegative) (hmo : ModeOK T mode) (m₁ m₂ : Round) :
    ∃ X Y, convertR T U x m₁ = .ok X ∧ convertR T U y m₂ = .ok Y ∧
      (∃ d w c, addR x y mode = .ok d ∧ addR X.value Y.value mode = .ok w ∧ convertR U T w.value mode = .ok c ∧
        SameAsDirect w.value w.status c.value c.status d.value d.status) ∧
      (∃ d w c, subR x y mode = .ok d ∧ subR X.value Y.value mode = .ok w ∧ convertR U T w.value mode = .ok c ∧
        SameAsDirect w.value w.status c.value c.status d.value d.status) ∧
      (∃ d w c, mulR x y mode = .ok d ∧ mulR X.value Y.value mode = .ok w ∧ convertR U T w.value mode = .ok c ∧
        SameAsDirect w.value w.status c.value c.status d.value d.status) ∧
      (y.toRat ≠ 0 → ∃ d w c, divR x y mode = .ok d ∧ divR X.value Y.value mode = .ok w ∧ convertR U T w.value mode = .ok c ∧
        SameAsDirect w.value w.status c.value c.status d.value d.status) := by
  have hn : ¬ (mode = .nearestTiesToEven ∨ mode = .nearestTiesToAway) := by rcases hm with rfl | rfl | rfl <;> simp
  obtain ⟨X, X1, X2, X3, X4, X5, -⟩ := h.widen hx fx m₁
  obtain ⟨Y, Y1, Y2, Y3, Y4, Y5, -⟩ := h.widen hy fy m₂
  have fin : ∀ {v : ℚ} {zs : Bool} {d : StatusAnd (IeeeFloat T)} {w : StatusAnd (IeeeFloat U)}, Rounds T mode v zs d → Rounds U mode v zs w →
      w.value.Valid → ∃ c, convertR U T w.value mode = .ok c ∧ SameAsDirect w.value w.status c.value c.status d.value d.status := by
    intro v zs d w a b c
    obtain ⟨c₂, e, -, f⟩ := chain_rounds h b c a hmo (fun q => absurd q hn) (fun q => absurd q hn)
    exact ⟨c₂, e, f⟩
  refine ⟨X, Y, X1, Y1, ?_, ?_, ?_, fun y0 => ?_⟩
  · obtain ⟨d, d1, d2, d3⟩ := C04_add_correctly_rounded h.okT hx hy fx fy mode (hmo.directed _)
    obtain ⟨w, w1, w2, w3⟩ := C04_add_correctly_rounded h.okU X2 Y2 X3 Y3 mode (directedOK_of_ieee h.inf _ _)
    rw [X4, Y4, X5, Y5] at w3
    obtain ⟨c, c1, c2⟩ := fin d3 w3 w2
    exact ⟨d, w, c, d1, w1, c1, c2⟩
  · obtain ⟨d, d1, d2, d3⟩ := C05_sub_correctly_rounded h.okT hx hy fx fy mode (hmo.directed _)
    obtain ⟨w, w1, w2, w3⟩ := C05_sub_correctly_rounded h.okU X2 Y2 X3 Y3 mode (directedOK_of_ieee h.inf _ _)
    rw [X4, Y4, X5, Y5] at w3
    obtain ⟨c, c1, c2⟩ := fin d3 w3 w2
    exact ⟨d, w, c, d1, w1, c1, c2⟩
  · obtain ⟨d, d1, d2, d3⟩ := C06_mul_correctly_rounded h.okT hx hy fx fy mode (hmo.directed _)
    obtain ⟨w, w1, w2, w3⟩ := C06_mul_correctly_rounded h.okU X2 Y2 X3 Y3 mode (directedOK_of_ieee h.inf _ _)
    rw [X4, Y4, X5, Y5] at w3
    obtain ⟨c, c1, c2⟩ := fin d3 w3 w2
    exact ⟨d, w, c, d1, w1, c1, c2⟩
  · obtain ⟨d, d1, d2, d3⟩ := C07_div_correctly_rounded h.okT hx hy fx fy y0 mode (hmo.directed _)
    obtain ⟨w, w1, w2, w3⟩ := C07_div_correctly_rounded h.okU X2 Y2 X3 Y3 (by rw [Y4]; exact y0) mode (directedOK_of_ieee h.inf _ _)
    rw [X4, Y4, X5, Y5] at w3
    obtain ⟨c, c1, c2⟩ := fin d3 w3 w2
    exact ⟨d, w, c, d1, w1, c1, c2⟩

/-! Non-vacuity: Double through the x87 type, where rounding to nearest twice goes wrong (`C69_x87_double_rounding`). -/
example := C124_arithmetic x87_double.toNarrower (x := dr1) (y := dr2) (by decide) (by decide) rfl rfl (mode := .towardPositive) (Or.inr (Or.inl rfl))
  (fun e => absurd e (by decide)) .towardZero .towardZero

/-- **C124.** Integers likewise: in a directed mode an integer may be converted to a wider format first. -/
theorem C124_from_int (h : Narrower U T) {mode : Round} (hm : mode = .towardZero ∨ mode = .towardPositive ∨ mode = .towardNegative) (hmo : ModeOK T mode) :
    (∀ n : ℕ, n < 2 ^ 128 → ∃ d w c, fromU128R T n mode = .ok d ∧ fromU128R U n mode = .ok w ∧ convertR U T w.value mode = .ok c ∧
      SameAsDirect w.value w.status c.value c.status d.value d.status) ∧
    (∀ n : ℤ, -2 ^ 127 ≤ n → n < 2 ^ 127 → ∃ d w c, fromI128R T n mode = .ok d ∧ fromI128R U n mode = .ok w ∧ convertR U T w.value mode = .ok c ∧
      SameAsDirect w.value w.status c.value c.status d.value d.status) := by
  have hn : ¬ (mode = .nearestTiesToEven ∨ mode = .nearestTiesToAway) := by rcases hm with rfl | rfl | rfl <;> simp
  refine ⟨fun n h1 => ?_, fun n h1 h2 => ?_⟩
  · obtain ⟨d, d1, -, d3⟩ := C17_from_u128 h.okT h1 mode
    obtain ⟨w, w1, w2, w3⟩ := C17_from_u128 h.okU h1 mode
    obtain ⟨c, e, -, f⟩ := chain_rounds h w3 w2 d3 hmo (fun q => absurd q hn) (fun q => absurd q hn)
    exact ⟨d, w, c, d1, w1, e, f⟩
  · obtain ⟨d, d1, -, d3⟩ := C17_from_i128 h.okT h1 h2 mode
    obtain ⟨w, w1, w2, w3⟩ := C17_from_i128 h.okU h1 h2 mode
    obtain ⟨c, e, -, f⟩ := chain_rounds h w3 w2 d3 hmo (fun q => absurd q hn) (fun q => absurd q hn)
    exact ⟨d, w, c, d1, w1, e, f⟩

example := (C124_from_int half_e4m3fn.toNarrower (mode := .towardZero) (Or.inl rfl) (fun _ => by decide)).2 (-70001) (by norm_num) (by norm_num)

/-- **C124** for NaNs, among the formats with infinities: through an intermediate format with at least the precision of one of the ends, a NaN comes out quiet
with the sign and payload it has after the direct conversion, and one of the two steps reports `INVALID_OP` exactly when the direct conversion does. -/
theorem C124_nan (hS : S.OK) (hU : U.OK) (hT : T.OK) (iS : S.nonfinite = .ieee754) (iU : U.nonfinite = .ieee754) (iT : T.nonfinite = .ieee754)
    (hp : S.precision ≤ U.precision ∨ T.precision ≤ U.precision) {x : IeeeFloat S} (hx : x.Valid) (hn : x.isNan = true) (m₁ m₂ m₃ : Round) :
    ∃ c₁ c₂ d, convertR S U x m₁ = .ok c₁ ∧ convertR U T c₁.value m₂ = .ok c₂ ∧ convertR S T x m₃ = .ok d ∧
      c₂.value.isNan = true ∧ c₂.value.isSignaling = false ∧ d.value.isNan = true ∧ c₂.value.sign = d.value.sign ∧
      c₂.value.sig % 2 ^ (T.precision - 2) = d.value.sig % 2 ^ (T.precision - 2) ∧ (c₁.status ||| c₂.status) = d.status := by
  obtain ⟨c₁, a1, a2, a3, a4, a5, a6, a7⟩ := C21_convert_nan hS hU hx hn m₁
  obtain ⟨c₂, b1, b2, b3, b4, b5, b6, b7⟩ := C21_convert_nan hU hT a2 a3 m₂
  obtain ⟨d, d1, d2, d3, d4, d5, d6, d7⟩ := C21_convert_nan hS hT hx hn m₃
  have a7 := (a7 iS iU).2
  have b7 := (b7 iU iT).2
  have d7 := (d7 iS iT).2
  refine ⟨c₁, c₂, d, a1, b1, d1, b3, b4, d3, by rw [b5, a5, d5], ?_, ?_⟩
  · rw [b7, a7, d7]
    generalize x.sig % 2 ^ (S.precision - 2) = n
    generalize S.precision = s at *
    generalize U.precision = u at *
    generalize T.precision = t at *
    have mulpow : ∀ i j k, i + j = k → n * 2 ^ i * 2 ^ j = n * 2 ^ k := fun i j k e => by rw [mul_assoc, ← pow_add, e]
    have divpow : ∀ i j k, i + j = k → n / 2 ^ i / 2 ^ j = n / 2 ^ k := fun i j k e => by rw [Nat.div_div_eq_div_mul, ← pow_add, e]
    have mid1 : ∀ i j, i ≤ j → n * 2 ^ i / 2 ^ j = n / 2 ^ (j - i) := fun i j e => by
      rw [show 2 ^ j = 2 ^ (j - i) * 2 ^ i by rw [← pow_add]; congr 1; omega, Nat.mul_div_mul_right _ _ (by positivity)]
    have mid2 : ∀ i j, j ≤ i → n * 2 ^ i / 2 ^ j = n * 2 ^ (i - j) := fun i j e => by
      rw [show 2 ^ i = 2 ^ (i - j) * 2 ^ j by rw [← pow_add]; congr 1; omega, ← mul_assoc, Nat.mul_div_cancel _ (by positivity)]
    split_ifs with h1 h2 h3 h3
    all_goals first
      | omega
      | (rw [show t - u = 0 by omega, pow_zero, mul_one]; congr 2; omega)
      | exact divpow _ _ _ (by omega)
      | exact mulpow _ _ _ (by omega)
      | (rw [mid1 _ _ (by omega)]; congr 2; omega)
      | (rw [mid2 _ _ (by omega)]; congr 2; omega)
  · rw [b6, a6, d6, a4]
    cases x.isSignaling <;> rfl

example := C124_nan doubleS_ok singleS_ok halfS_ok rfl rfl rfl (Or.inr (by decide)) (x := snan doubleS (some (2 ^ 45 + 1))) (by decide) rfl
  .nearestTiesToEven .towardZero .towardPositive

end Apf
