import Verif.Props.Convert
/-! # C23 and C24: `c_fmod` and `ieee_rem` -/

namespace Apf
open Spec IeeeFloat

variable {S : Sem}

theorem M.bind_eq_ok {α β : Type} {m : M α} {f : α → M β} {b : β} :
    (bind m f) = .ok b ↔ ∃ a, m = .ok a ∧ f a = .ok b := by
  cases m with
  | ok a => simp
  | error e => simp

/-! ### Exact differences -/

/-- Sterbenz' lemma on the grid. -/
theorem sterbenz {F : Fmt} {a b : ℚ} (ha : F.Grid a) (hb : F.Grid b) (h1 : b ≤ a) (h2 : a ≤ 2 * b) : F.Grid (a - b) := by
  obtain ⟨m, j, m1, m2, rfl⟩ := ha
  obtain ⟨n, k, n1, n2, rfl⟩ := hb
  have key : ∀ (c : ℤ) (l : ℤ) (t : ℤ), F.emin - F.p + 1 ≤ l → 0 ≤ (c : ℚ) * 2 ^ l → (c : ℚ) * 2 ^ l ≤ t * 2 ^ l → |t| < 2 ^ F.p →
      F.Grid ((c : ℚ) * 2 ^ l) := by
    intro c l t hl h0 hle ht
    have c0 : 0 ≤ (c : ℚ) := nonneg_of_mul_nonneg_left h0 (two_zpow_pos l)
    have c1 : (c : ℚ) ≤ t := le_of_mul_le_mul_right hle (two_zpow_pos l)
    have c0' : 0 ≤ c := by exact_mod_cast c0
    have c1' : c ≤ t := by exact_mod_cast c1
    refine ⟨c, l, ?_, hl, rfl⟩
    rw [abs_of_nonneg c0']
    exact (c1'.trans (le_abs_self t)).trans_lt ht
  rcases le_total j k with e | e
  · have hk : (2 : ℚ) ^ k = 2 ^ (k - j).toNat * 2 ^ j := by
      rw [← zpow_natCast, ← two_zpow_add]; congr 1; omega
    have : (m : ℚ) * 2 ^ j - n * 2 ^ k = ((m - n * 2 ^ (k - j).toNat : ℤ) : ℚ) * 2 ^ j := by
      rw [hk]; push_cast; ring
    rw [this]
    refine key _ j m m2 (by rw [← this]; linarith) (by rw [← this]; linarith) m1
  · have hj : (2 : ℚ) ^ j = 2 ^ (j - k).toNat * 2 ^ k := by
      rw [← zpow_natCast, ← two_zpow_add]; congr 1; omega
    have : (m : ℚ) * 2 ^ j - n * 2 ^ k = ((m * 2 ^ (j - k).toNat - n : ℤ) : ℚ) * 2 ^ k := by
      rw [hj]; push_cast; ring
    rw [this]
    refine key _ k n n2 (by rw [← this]; linarith) (by rw [← this]; linarith) n1

/-- Zeros produced by arithmetic carry the exponent of `ZERO`. -/
def ZeroExp (x : IeeeFloat S) : Prop := x.category = .zero → x.exp = S.minExp - 1

theorem copySign_zeroExp {x : IeeeFloat S} (y : IeeeFloat S) (hx : ZeroExp x) : ZeroExp (x.copySign y) := by
  rw [copySign_eq]; exact hx

theorem ZERO_zeroExp : ZeroExp (ZERO S) := fun _ => rfl

theorem overflowResult_zeroExp (mode : Round) (y : IeeeFloat S) :
    ZeroExp ((overflowResult S mode).map (IeeeFloat.copySign · y)).value := by
  have hI : ZeroExp (INFINITY S) := by
    intro c; exfalso; revert c; unfold INFINITY; cases S.nonfinite <;> simp [NAN, qnan]
  have hL : ZeroExp (largest S) := by intro c; exfalso; revert c; unfold largest; simp
  cases mode <;> first | exact copySign_zeroExp y hI | exact copySign_zeroExp y hL

theorem zeroExp_normal {x : IeeeFloat S} (cx : x.category = .normal) : ZeroExp x := fun c => by rw [cx] at c; cases c

theorem normalizeEnd_zeroExp {x : IeeeFloat S} (cx : x.category = .normal) {o : ℕ}
    {r : StatusAnd (IeeeFloat S)} (e : normalizeEnd x o = .ok r) : ZeroExp r.value := by
  unfold normalizeEnd at e
  split at e
  · injection e with e; subst e; exact zeroExp_normal cx
  · obtain ⟨_, _, e⟩ := M.bind_eq_ok.1 e
    injection e with e; subst e
    change ZeroExp (if o = 0 then (ZERO S).copySign x else x)
    split
    · exact copySign_zeroExp _ ZERO_zeroExp
    · exact zeroExp_normal cx

theorem normalizeRound_zeroExp {x : IeeeFloat S} (cx : x.category = .normal) {mode : Round} {loss : Loss} {o : ℕ}
    {r : StatusAnd (IeeeFloat S)} (e : normalizeRound x mode loss o = .ok r) : ZeroExp r.value := by
  unfold normalizeRound at e
  split at e
  · injection e with e; subst e; exact overflowResult_zeroExp _ _
  split at e
  · injection e with e; subst e
    change ZeroExp (if o = 0 then (ZERO S).copySign x else x)
    split
    · exact copySign_zeroExp _ ZERO_zeroExp
    · exact zeroExp_normal cx
  obtain ⟨away, _, e⟩ := M.bind_eq_ok.1 e
  split at e
  · have cx' : (if o = 0 then { x with exp := S.minExp } else x).category = .normal := by split <;> exact cx
    generalize (if o = 0 then { x with exp := S.minExp } else x) = x' at e cx'
    dsimp only at e
    obtain ⟨_, _, e⟩ := M.bind_eq_ok.1 e
    obtain ⟨s, _, e⟩ := M.bind_eq_ok.1 e
    split at e
    · split at e
      · injection e with e; subst e
        refine copySign_zeroExp _ ?_
        intro c; exfalso; revert c; unfold INFINITY; cases S.nonfinite <;> simp [NAN, qnan]
      · obtain ⟨⟨_, _, _⟩, _, e⟩ := M.bind_eq_ok.1 e
        injection e with e; subst e; exact zeroExp_normal cx'
    · split at e
      · injection e with e; subst e; exact overflowResult_zeroExp _ _
      · exact normalizeEnd_zeroExp (x := { x' with sig := s }) cx' e
  · exact normalizeEnd_zeroExp cx e

theorem normalize_zeroExp {x : IeeeFloat S} (cx : x.category = .normal) {mode : Round} {loss : Loss}
    {r : StatusAnd (IeeeFloat S)} (e : normalize x mode loss = .ok r) : ZeroExp r.value := by
  unfold normalize at e
  split at e
  · injection e with e; subst e; exact zeroExp_normal cx
  dsimp only at e
  split at e
  · split at e
    · injection e with e; subst e; exact overflowResult_zeroExp _ _
    · generalize (if sat32 (x.exp + (asI32 (Sig.omsb [x.sig]) - asI32 S.precision)) < S.minExp then S.minExp
        else sat32 (x.exp + (asI32 (Sig.omsb [x.sig]) - asI32 S.precision))) = f at e
      split at e
      · obtain ⟨_, _, e⟩ := M.bind_eq_ok.1 e
        obtain ⟨_, _, e⟩ := M.bind_eq_ok.1 e
        obtain ⟨⟨_, _⟩, _, e⟩ := M.bind_eq_ok.1 e
        injection e with e; subst e; exact zeroExp_normal cx
      · split at e
        · obtain ⟨_, _, e⟩ := M.bind_eq_ok.1 e
          obtain ⟨⟨a, b, c⟩, _, e⟩ := M.bind_eq_ok.1 e
          exact normalizeRound_zeroExp (x := { x with sig := a, exp := b }) cx e
        · exact normalizeRound_zeroExp cx e
  · exact normalizeRound_zeroExp cx e

theorem subR_zeroExp {x y : IeeeFloat S} (cx : x.category = .normal) (cy : y.category = .normal) {mode : Round}
    {r : StatusAnd (IeeeFloat S)} (e : subR x y mode = .ok r) : ZeroExp r.value := by
  unfold subR addR at e
  have cy' : y.neg.category = .normal := by rw [neg_eq]; exact cy
  rw [cx, cy, cy'] at e
  obtain ⟨a, ea, e⟩ := M.bind_eq_ok.1 e
  injection e with e; subst e
  unfold addNormals at ea
  obtain ⟨o, _, ea⟩ := M.bind_eq_ok.1 ea
  obtain ⟨s, _, ea⟩ := M.bind_eq_ok.1 ea
  obtain ⟨t, et, ea⟩ := M.bind_eq_ok.1 ea
  obtain ⟨_, _, ea⟩ := M.bind_eq_ok.1 ea
  injection ea with ea; subst ea
  have : ZeroExp t.value := normalize_zeroExp (by rw [withSign_eq]; exact cx) et
  change ZeroExp (fixZeroSign t.value y.neg mode)
  unfold fixZeroSign
  split
  · rw [withSign_eq]; exact this
  · exact this

/-- A subtraction whose exact result is representable. -/
theorem subR_exact (h : S.OK) {x y : IeeeFloat S} (hx : x.Valid) (hy : y.Valid) (cx : x.category = .normal) (cy : y.category = .normal)
    (hg : S.fmt.Grid (x.toRat - y.toRat)) (hl : |x.toRat - y.toRat| ≤ S.fmt.largest) :
    ∃ r, subR x y .nearestTiesToEven = .ok ⟨Status.OK, r⟩ ∧ r.Valid ∧ r.isFinite = true ∧ r.toRat = x.toRat - y.toRat ∧ ZeroExp r := by
  obtain ⟨⟨st, r⟩, e, hv, hr⟩ := subR_finite h hx hy (isFinite_iff.2 (.inl cx)) (isFinite_iff.2 (.inl cy)) .nearestTiesToEven
    (directedOK_of_mode _ (by decide) (by decide) _)
  have hz := subR_zeroExp cx cy e
  obtain ⟨e1, e2, e3⟩ := Rounds.exact hr hg hl
  dsimp only at e1 e2 e3 hz hv
  subst e1
  exact ⟨r, e, hv, e2, e3, hz⟩

theorem grid_scale_up {F : Fmt} {v : ℚ} (hv : F.Grid v) {n : ℤ} (hn : 0 ≤ n) : F.Grid (v * 2 ^ n) := by
  obtain ⟨m, k, a, b, rfl⟩ := hv
  exact ⟨m, k + n, a, by omega, by rw [two_zpow_add k n]; ring⟩

/-- Scaling up by a power of two without leaving the format. -/
theorem scalbn_exact (h : S.OK) {y : IeeeFloat S} (hy : y.Valid) (fy : y.isFinite = true) {n : ℤ} (hn : 0 ≤ n)
    (hl : |y.toRat| * 2 ^ n ≤ S.fmt.largest) :
    ∃ v, scalbn y n = .ok v ∧ v.Valid ∧ v.isFinite = true ∧ v.toRat = y.toRat * 2 ^ n := by
  obtain ⟨v, st, e, hv, -, hr⟩ := C25_scalbn h hy fy n .nearestTiesToEven (directedOK_of_mode _ (by decide) (by decide) _)
  obtain ⟨e1, e2, e3⟩ := Rounds.exact hr (grid_scale_up (grid_toRat h hy fy) hn)
    (by rw [abs_mul, abs_of_pos (two_zpow_pos n)]; exact hl)
  exact ⟨v, e, hv, e2, e3⟩

/-- Scaling up beyond the largest value of a format: the result is not a number. -/
theorem scalbn_over (h : S.OK) {y : IeeeFloat S} (hy : y.Valid) (fy : y.isFinite = true) {n : ℤ} (hn : 0 ≤ n)
    (hl : S.fmt.largest < |y.toRat| * 2 ^ n) (hN : S.nonfinite = .nanOnly) :
    ∃ v, scalbn y n = .ok v ∧ v.isNan = true := by
  obtain ⟨v, st, e, hv, -, hr⟩ := C25_scalbn h hy fy n .nearestTiesToEven (directedOK_of_mode _ (by decide) (by decide) _)
  refine ⟨v, e, ?_⟩
  obtain ⟨⟨g, g1, g2⟩, -⟩ := hr
  have : g = y.toRat * 2 ^ n := g1.unique (isRounded_self _ (grid_scale_up (grid_toRat h hy fy) hn))
  subst this
  rw [abs_mul, abs_of_pos (two_zpow_pos n)] at g2
  rcases g2 with ⟨a, -⟩ | ⟨-, b⟩
  · linarith
  · unfold overflowed at b
    simp only [Sem.fmt, hN] at b
    have := (Prod.mk.inj b).1
    cases hc : v.category <;> simp [datum, hc] at this
    simp [isNan, hc]

theorem zpow_two_le {a b : ℤ} (h : a ≤ b) : (2 : ℚ) ^ a ≤ 2 ^ b := zpow_le_zpow_right₀ (by norm_num) h

/-- In a format with infinities every grid value below the overflow threshold is finite. -/
theorem grid_le_largest (h : S.OK) (hN : S.nonfinite = .ieee754) {v : ℚ} (hg : S.fmt.Grid v) (hv : |v| < 2 ^ (S.maxExp + 1)) :
    |v| ≤ S.fmt.largest := by
  obtain ⟨m, k, m1, k1, rfl⟩ := hg
  simp only [Sem.fmt] at m1 k1
  have hL : S.fmt.largest = (2 ^ S.precision - 1) * 2 ^ (S.maxExp - S.precision + 1) := by
    simp [Fmt.largest, Sem.fmt, hN]
  rw [hL]
  rw [abs_mul, abs_of_pos (two_zpow_pos k)] at hv ⊢
  have key : ∀ t : ℤ, t < 2 ^ S.precision → (t : ℚ) * 2 ^ (S.maxExp - S.precision + 1) ≤ (2 ^ S.precision - 1) * 2 ^ (S.maxExp - S.precision + 1) := by
    intro t ht
    apply mul_le_mul_of_nonneg_right _ (two_zpow_pos _).le
    have : t ≤ 2 ^ S.precision - 1 := by omega
    exact_mod_cast this
  rcases le_total k (S.maxExp - S.precision + 1) with c | c
  · refine le_trans ?_ (key |m| m1)
    push_cast
    exact mul_le_mul_of_nonneg_left (zpow_two_le c) (abs_nonneg _)
  · have hk : (2 : ℚ) ^ k = 2 ^ (k - (S.maxExp - S.precision + 1)).toNat * 2 ^ (S.maxExp - S.precision + 1) := by
      rw [← zpow_natCast, ← two_zpow_add]; congr 1; omega
    have hf : (2 : ℚ) ^ (S.maxExp + 1) = 2 ^ S.precision * 2 ^ (S.maxExp - S.precision + 1) := by
      rw [← zpow_natCast, ← two_zpow_add]; congr 1; omega
    rw [hk, ← mul_assoc] at hv ⊢
    rw [hf] at hv
    have := key (|m| * 2 ^ (k - (S.maxExp - S.precision + 1)).toNat) (by
      have := lt_of_mul_lt_mul_right hv (two_zpow_pos _).le
      exact_mod_cast this)
    push_cast at this
    exact this

/-- The multiple of the divisor the loop subtracts. -/
theorem fmod_pick (h : S.OK) {x y : IeeeFloat S} (hx : x.Valid) (hy : y.Valid) (cx : x.category = .normal) (cy : y.category = .normal)
    {a b : ℤ} (a1 : (2 : ℚ) ^ a ≤ |x.toRat|) (a2 : |x.toRat| < 2 ^ (a + 1)) (b1 : (2 : ℚ) ^ b ≤ |y.toRat|) (b2 : |y.toRat| < 2 ^ (b + 1))
    (hle : |y.toRat| ≤ |x.toRat|) (hi1 : -2147483647 ≤ a - b) (hi2 : a - b ≤ 2147483647) :
    ∃ (v : IeeeFloat S) (n : ℤ), (do
        let v ← scalbn y (a - b)
        (if v.isNan then do
            let e ← i32 (a - b - 1)
            scalbn y e
          else do
            let c ← cmpAbsNormal x v
            if c = Ordering.lt then do
              let e ← i32 (a - b - 1)
              scalbn y e
            else .ok v : M (IeeeFloat S))) = .ok v ∧
      v.Valid ∧ v.category = .normal ∧ 0 ≤ n ∧ v.toRat = y.toRat * 2 ^ n ∧ |v.toRat| ≤ |x.toRat| ∧ |x.toRat| ≤ 2 * |v.toRat| ∧
      |x.toRat| - |v.toRat| < 2 ^ a := by
  have fy : y.isFinite = true := isFinite_iff.2 (.inl cy)
  have fx : x.isFinite = true := isFinite_iff.2 (.inl cx)
  have y0 : 0 < |y.toRat| := (two_zpow_pos b).trans_le b1
  have hxl := abs_toRat_le h hx fx
  have hab : b ≤ a := by
    by_contra hc
    have := zpow_two_le (show a + 1 ≤ b by omega)
    linarith
  have ea : (2 : ℚ) ^ (a + 1) = 2 * 2 ^ a := by rw [two_zpow_add a 1]; ring
  have v1 : (2 : ℚ) ^ a ≤ |y.toRat| * 2 ^ (a - b) := by
    have : (2 : ℚ) ^ a = 2 ^ b * 2 ^ (a - b) := by rw [← two_zpow_add]; congr 1; omega
    rw [this]; exact mul_le_mul_of_nonneg_right b1 (two_zpow_pos _).le
  have v2 : |y.toRat| * 2 ^ (a - b) < 2 ^ (a + 1) := by
    have : (2 : ℚ) ^ (a + 1) = 2 ^ (b + 1) * 2 ^ (a - b) := by rw [← two_zpow_add]; congr 1; omega
    rw [this]; exact mul_lt_mul_of_pos_right b2 (two_zpow_pos _)
  -- when the aligned divisor is too large, half of it is taken
  have half : |x.toRat| < |y.toRat| * 2 ^ (a - b) →
      ∃ v, (do let e ← i32 (a - b - 1); scalbn y e) = .ok v ∧ v.Valid ∧ v.category = .normal ∧ 0 ≤ a - b - 1 ∧
        v.toRat = y.toRat * 2 ^ (a - b - 1) ∧ |v.toRat| ≤ |x.toRat| ∧ |x.toRat| ≤ 2 * |v.toRat| ∧ |x.toRat| - |v.toRat| < 2 ^ a := by
    intro hlt
    have hn : 0 ≤ a - b - 1 := by
      by_contra hc
      have : a - b = 0 := by omega
      rw [this] at hlt; simp at hlt; linarith
    have hh : |y.toRat| * 2 ^ (a - b) = 2 * (|y.toRat| * 2 ^ (a - b - 1)) := by
      have : (2 : ℚ) ^ (a - b) = 2 * 2 ^ (a - b - 1) := by
        rw [show a - b = (a - b - 1) + 1 by ring, two_zpow_add _ 1]
        rw [show a - b - 1 + 1 - 1 = a - b - 1 by ring]; ring
      rw [this]; ring
    obtain ⟨v, e, hv, fv, tv⟩ := scalbn_exact h hy fy hn (by linarith)
    have av : |v.toRat| = |y.toRat| * 2 ^ (a - b - 1) := by rw [tv, abs_mul, abs_of_pos (two_zpow_pos _)]
    refine ⟨v, ?_, hv, ?_, hn, tv, by rw [av]; linarith, by rw [av]; linarith, by rw [av]; linarith⟩
    · rw [i32_ok (by omega) (by omega)]; exact e
    · rcases isFinite_iff.1 fv with c | c
      · exact c
      · exfalso
        have : v.toRat = 0 := by unfold toRat; rw [c]
        rw [this] at av
        have : 0 < |y.toRat| * 2 ^ (a - b - 1) := mul_pos y0 (two_zpow_pos _)
        rw [← av] at this; simp at this
  rcases le_or_gt (|y.toRat| * 2 ^ (a - b)) S.fmt.largest with hl | hl
  · obtain ⟨v, e, hv, fv, tv⟩ := scalbn_exact h hy fy (n := a - b) (by omega) hl
    have av : |v.toRat| = |y.toRat| * 2 ^ (a - b) := by rw [tv, abs_mul, abs_of_pos (two_zpow_pos _)]
    have cv : v.category = .normal := by
      rcases isFinite_iff.1 fv with c | c
      · exact c
      · exfalso
        have : v.toRat = 0 := by unfold toRat; rw [c]
        rw [this] at av
        have : 0 < |y.toRat| * 2 ^ (a - b) := mul_pos y0 (two_zpow_pos _)
        rw [← av] at this; simp at this
    have nn : v.isNan = false := by unfold isNan; rw [cv]; rfl
    rw [e, M.ok_bind, nn, if_neg (by decide), cmpAbsNormal_eq h hx hv cx cv, M.ok_bind]
    rcases lt_or_ge |x.toRat| |v.toRat| with c | c
    · rw [if_pos (compare_lt_iff_lt.2 c)]
      obtain ⟨w, h1, h2, h3, h4⟩ := half (by rw [← av]; exact c)
      exact ⟨w, _, h1, h2, h3, h4⟩
    · rw [if_neg (by rw [compare_lt_iff_lt]; exact not_lt.2 c)]
      exact ⟨v, a - b, rfl, hv, cv, by omega, tv, c, by rw [av]; linarith, by rw [av]; linarith⟩
  · have hN : S.nonfinite = .nanOnly := by
      cases hN : S.nonfinite with
      | nanOnly => rfl
      | ieee754 =>
        exfalso
        have am : a ≤ S.maxExp := by
          by_contra hc
          have := zpow_two_le (show S.maxExp + 1 ≤ a by omega)
          have := full_gt h
          linarith
        have := grid_le_largest h hN (grid_scale_up (grid_toRat h hy fy) (n := a - b) (by omega))
          (by rw [abs_mul, abs_of_pos (two_zpow_pos (a - b))]; exact v2.trans_le (zpow_two_le (by omega)))
        rw [abs_mul, abs_of_pos (two_zpow_pos (a - b))] at this
        linarith
    obtain ⟨v, e, nn⟩ := scalbn_over h hy fy (n := a - b) (by omega) hl hN
    rw [e, M.ok_bind, nn, if_pos rfl]
    obtain ⟨w, h1, h2, h3, h4⟩ := half (by linarith)
    exact ⟨w, _, h1, h2, h3, h4⟩

theorem toRat_ne {x : IeeeFloat S} (hx : x.Valid) (cx : x.category = .normal) : x.toRat ≠ 0 := toRat_ne_zero hx cx

theorem zpow_two_lt_iff {a b : ℤ} (h : (2 : ℚ) ^ a < 2 ^ b) : a < b := (zpow_lt_zpow_iff_right₀ (by norm_num)).1 h

/-- The binary exponent of a finite nonzero float, with its bounds. -/
theorem ilogb_bounds (h : S.OK) {x : IeeeFloat S} (hx : x.Valid) (cx : x.category = .normal) :
    ∃ e, ilogb x = .ok e ∧ (2 : ℚ) ^ e ≤ |x.toRat| ∧ |x.toRat| < 2 ^ (e + 1) ∧ S.minExp - S.precision < e ∧ e ≤ S.maxExp := by
  have fx : x.isFinite = true := isFinite_iff.2 (.inl cx)
  obtain ⟨e, e1, e2, e3⟩ := C26_ilogb h hx fx (toRat_ne hx cx)
  obtain ⟨v1, v2, v3, v4, -, -⟩ := hx.normal cx
  refine ⟨e, e1, e2, e3, ?_, ?_⟩
  · have l1 : (2 : ℚ) ^ (S.minExp - S.precision + 1) ≤ |x.toRat| := by
      rw [abs_toRat cx]
      have : (1 : ℚ) ≤ x.sig := by exact_mod_cast v3
      have h2 := zpow_two_le (show S.minExp - S.precision + 1 ≤ x.exp - S.precision + 1 by omega)
      have := two_zpow_pos (x.exp - S.precision + 1)
      nlinarith
    have := zpow_two_lt_iff (l1.trans_lt e3)
    omega
  · have := zpow_two_lt_iff ((e2.trans (abs_toRat_le h hx fx)).trans_lt (full_gt h))
    omega

theorem isFiniteNonZero_normal {x : IeeeFloat S} (cx : x.category = .normal) : x.isFiniteNonZero = true := by
  unfold isFiniteNonZero isFinite isNan isInfinite isZero; rw [cx]; rfl

theorem isFiniteNonZero_zero {x : IeeeFloat S} (cx : x.category = .zero) : x.isFiniteNonZero = false := by
  unfold isFiniteNonZero isFinite isNan isInfinite isZero; rw [cx]; rfl

/-- One iteration. -/
theorem fmod_step (h : S.OK) {x y : IeeeFloat S} (hx : x.Valid) (hy : y.Valid) (cx : x.category = .normal) (cy : y.category = .normal)
    (hle : |y.toRat| ≤ |x.toRat|) (fuel : ℕ) :
    ∃ (r : IeeeFloat S) (a : ℤ), fmodLoop y (fuel + 1) x = fmodLoop y fuel r ∧ r.Valid ∧ r.isFinite = true ∧ ZeroExp r ∧ (2 : ℚ) ^ a ≤ |x.toRat| ∧
      |r.toRat| < 2 ^ a ∧ (∃ N : ℤ, r.toRat = x.toRat - N * y.toRat) ∧ (0 ≤ x.toRat → 0 ≤ r.toRat) ∧ (x.toRat ≤ 0 → r.toRat ≤ 0) := by
  have h3 := h.p_ge; have hp := h.p_le; have hmin' := h.min_ge; have hmax := h.max_le
  obtain ⟨a, ea, a1, a2, a3, a4⟩ := ilogb_bounds h hx cx
  obtain ⟨b, eb, b1, b2, b3, b4⟩ := ilogb_bounds h hy cy
  obtain ⟨v, n, ev, hv, cv, hn, tv, l1, l2, l3⟩ := fmod_pick h hx hy cx cy a1 a2 b1 b2 hle (by omega) (by omega)
  obtain ⟨v0, ev0, ev⟩ := M.bind_eq_ok.1 ev
  -- the signed multiple
  have hv' : (v.copySign x).Valid := by rw [copySign_eq]; exact (valid_sign _).2 hv
  have cv' : (v.copySign x).category = .normal := by rw [copySign_eq]; exact cv
  have tv' : (v.copySign x).toRat = signed x.sign |v.toRat| := by
    rw [copySign_eq, abs_toRat cv]; unfold toRat; simp only [cv]
  have tx : x.toRat = signed x.sign |x.toRat| := by
    rw [abs_toRat cx]; unfold toRat; simp only [cx]
  have td : x.toRat - (v.copySign x).toRat = signed x.sign (|x.toRat| - |v.toRat|) := by
    rw [tv']; nth_rewrite 1 [tx]; unfold signed; split <;> ring
  have hd : 0 ≤ |x.toRat| - |v.toRat| := by linarith
  have gd : S.fmt.Grid (x.toRat - (v.copySign x).toRat) := by
    rw [td, grid_signed]
    have fx : x.isFinite = true := isFinite_iff.2 (.inl cx)
    have fv : v.isFinite = true := isFinite_iff.2 (.inl cv)
    have g1 : S.fmt.Grid |x.toRat| := by
      rw [abs_toRat cx, ← grid_signed (s := x.sign)]
      have := grid_toRat h hx fx
      unfold toRat at this; simpa only [cx] using this
    have g2 : S.fmt.Grid |v.toRat| := by
      rw [abs_toRat cv, ← grid_signed (s := v.sign)]
      have := grid_toRat h hv fv
      unfold toRat at this; simpa only [cv] using this
    exact sterbenz g1 g2 l1 l2
  have ad : |x.toRat - (v.copySign x).toRat| = |x.toRat| - |v.toRat| := by rw [td, abs_signed _ hd]
  obtain ⟨r, er, hr, fr, tr, zr⟩ := subR_exact h hx hv' cx cv' gd
    (by rw [ad]; have := abs_toRat_le h hx (isFinite_iff.2 (.inl cx)); have := abs_nonneg v.toRat; linarith)
  refine ⟨r, a, ?_, hr, fr, zr, a1, by rw [tr, ad]; exact l3, ?_, ?_, ?_⟩
  · rw [fmodLoop, isFiniteNonZero_normal cx, isFiniteNonZero_normal cy, if_pos (by decide), cmpAbsNormal_eq h hx hy cx cy, M.ok_bind,
      if_pos (by rw [Ne, compare_lt_iff_lt]; exact not_lt.2 hle), ea, M.ok_bind, eb, M.ok_bind, i32_ok (by omega) (by omega), M.ok_bind,
      ev0, M.ok_bind, ev, M.ok_bind]
    dsimp only
    rw [er, M.ok_bind, massert_pos rfl, M.ok_bind]
  · have : (v.copySign x).toRat = y.toRat * 2 ^ n ∨ (v.copySign x).toRat = -(y.toRat * 2 ^ n) := by
      rw [tv', ← tv]
      unfold signed
      rcases abs_choice v.toRat with e | e <;> rw [e] <;> cases x.sign <;> simp
    have e2 : (2 : ℚ) ^ n = ((2 ^ n.toNat : ℤ) : ℚ) := by
      push_cast; rw [← zpow_natCast, Int.toNat_of_nonneg hn]
    rcases this with e | e
    · exact ⟨2 ^ n.toNat, by rw [tr, e, e2]; ring⟩
    · exact ⟨-2 ^ n.toNat, by rw [tr, e, e2]; push_cast; ring⟩
  · intro h0
    rw [tr]
    have h0' : |x.toRat| = x.toRat := abs_of_nonneg h0
    have : x.sign = false := by
      by_contra hs
      have hs : x.sign = true := by simpa using hs
      have := sign_neg hx cx hs
      linarith
    rw [td, this]; exact hd
  · intro h0
    rw [tr]
    have : x.sign = true := by
      by_contra hs
      have hs : x.sign = false := by simpa using hs
      have := sign_pos hx cx hs
      linarith
    rw [td, this]; simp only [signed, if_true]; linarith

theorem fmodLoop_ok (h : S.OK) {y : IeeeFloat S} (hy : y.Valid) (cy : y.category = .normal) {b : ℤ} (b1 : (2 : ℚ) ^ b ≤ |y.toRat|) :
    ∀ (k fuel : ℕ) (x : IeeeFloat S), k < fuel → x.Valid → x.isFinite = true → |x.toRat| < 2 ^ (b + k) →
      ∃ r, fmodLoop y fuel x = .ok r ∧ r.Valid ∧ r.isFinite = true ∧ (ZeroExp x → ZeroExp r) ∧ |r.toRat| < |y.toRat| ∧
        (∃ N : ℤ, r.toRat = x.toRat - N * y.toRat) ∧ (0 ≤ x.toRat → 0 ≤ r.toRat) ∧ (x.toRat ≤ 0 → r.toRat ≤ 0) := by
  have stop : ∀ (fuel : ℕ) (x : IeeeFloat S), 0 < fuel → x.Valid → x.isFinite = true → |x.toRat| < |y.toRat| →
      ∃ r, fmodLoop y fuel x = .ok r ∧ r.Valid ∧ r.isFinite = true ∧ (ZeroExp x → ZeroExp r) ∧ |r.toRat| < |y.toRat| ∧
        (∃ N : ℤ, r.toRat = x.toRat - N * y.toRat) ∧ (0 ≤ x.toRat → 0 ≤ r.toRat) ∧ (x.toRat ≤ 0 → r.toRat ≤ 0) := by
    intro fuel x hf hx fx hlt
    refine ⟨x, ?_, hx, fx, id, hlt, ⟨0, by simp⟩, id, id⟩
    obtain ⟨f, rfl⟩ : ∃ f, fuel = f + 1 := ⟨fuel - 1, by omega⟩
    rw [fmodLoop]
    rcases isFinite_iff.1 fx with cx | cx
    · rw [isFiniteNonZero_normal cx, isFiniteNonZero_normal cy, if_pos (by decide), cmpAbsNormal_eq h hx hy cx cy, M.ok_bind,
        if_neg (by rw [Ne, compare_lt_iff_lt]; exact not_not.2 hlt)]
    · rw [isFiniteNonZero_zero cx, if_neg (by simp)]
  intro k
  induction k with
  | zero =>
    intro fuel x hf hx fx hlt
    exact stop fuel x hf hx fx (by simp only [Nat.cast_zero, add_zero] at hlt; linarith)
  | succ k ih =>
    intro fuel x hf hx fx hlt
    rcases lt_or_ge |x.toRat| |y.toRat| with hc | hc
    · exact stop fuel x (by omega) hx fx hc
    · have cx : x.category = .normal := by
        rcases isFinite_iff.1 fx with cx | cx
        · exact cx
        · exfalso
          rw [toRat_zero cx, abs_zero] at hc
          have := two_zpow_pos b
          linarith
      obtain ⟨f, rfl⟩ : ∃ f, fuel = f + 1 := ⟨fuel - 1, by omega⟩
      obtain ⟨r, a, e, hr, fr, zr, a1, a2, ⟨N, hN⟩, s1, s2⟩ := fmod_step h hx hy cx cy hc f
      have ha : a < b + (k + 1 : ℕ) := zpow_two_lt_iff (a1.trans_lt hlt)
      obtain ⟨t, et, ht, ft, zt, lt, ⟨N', hN'⟩, s1', s2'⟩ := ih f r (by omega) hr fr
        (a2.trans_le (zpow_two_le (by push_cast at ha; omega)))
      refine ⟨t, by rw [e, et], ht, ft, fun _ => zt zr, lt, ⟨N + N', ?_⟩, fun h0 => s1' (s1 h0), fun h0 => s2' (s2 h0)⟩
      rw [hN', hN]; push_cast; ring

/-- A value with remainder `r` of the sign of `x` is `x` minus the truncated quotient times `y`. -/
theorem trunc_of_rem {x y r : ℚ} {N : ℤ} (hy : y ≠ 0) (hr : r = x - N * y) (hlt : |r| < |y|) (s1 : 0 ≤ x → 0 ≤ r) (s2 : x ≤ 0 → r ≤ 0) :
    RoundsToInt .towardZero (x / y) N := by
  have hq : x / y = N + r / y := by rw [hr]; field_simp; ring
  have hb : |r / y| < 1 := by rw [abs_div, div_lt_one (abs_pos.2 hy)]; exact hlt
  obtain ⟨q1, q2⟩ := abs_lt.1 hb
  have key : ∀ (q : ℚ), q = x / y → (0 ≤ q → 0 ≤ r / y) ∧ (q ≤ 0 → r / y ≤ 0) := by
    intro q hq
    subst hq
    rcases lt_or_gt_of_ne hy with c | c
    · constructor
      · intro h0
        have : x ≤ 0 := by
          by_contra hx; push Not at hx
          have := div_neg_of_pos_of_neg hx c; linarith
        exact div_nonneg_of_nonpos (s2 this) c.le
      · intro h0
        have : 0 ≤ x := by
          by_contra hx; push Not at hx
          have := div_pos_of_neg_of_neg hx c; linarith
        exact div_nonpos_of_nonneg_of_nonpos (s1 this) c.le
    · constructor
      · intro h0
        have : 0 ≤ x := by
          by_contra hx; push Not at hx
          have := div_neg_of_neg_of_pos hx c; linarith
        exact div_nonneg (s1 this) c.le
      · intro h0
        have : x ≤ 0 := by
          by_contra hx; push Not at hx
          have := div_pos hx c; linarith
        exact div_nonpos_of_nonpos_of_nonneg (s2 this) c.le
  obtain ⟨k1, k2⟩ := key _ rfl
  refine ⟨fun h0 => ?_, fun h0 => ?_⟩
  · have := k1 h0; constructor <;> linarith
  · have := k2 h0; constructor <;> linarith

/-- The remainder of the loop, with all the facts `ieee_rem` needs. -/
theorem cFmod_ok (h : S.OK) {x y : IeeeFloat S} (hx : x.Valid) (hy : y.Valid) (fx : x.isFinite = true) (fy : y.isFinite = true)
    (hy0 : y.toRat ≠ 0) :
    ∃ r, cFmod x y = .ok ⟨Status.OK, r⟩ ∧ r.Valid ∧ r.isFinite = true ∧ r.sign = x.sign ∧ (ZeroExp x → ZeroExp r) ∧ |r.toRat| < |y.toRat| ∧
      (∃ N : ℤ, r.toRat = x.toRat - N * y.toRat) ∧ (0 ≤ x.toRat → 0 ≤ r.toRat) ∧ (x.toRat ≤ 0 → r.toRat ≤ 0) := by
  have h3 := h.p_ge; have hmm := h.min_lt; have hpm := h.p_max
  have cy : y.category = .normal := by
    rcases isFinite_iff.1 fy with c | c
    · exact c
    · exact absurd (toRat_zero c) hy0
  rcases isFinite_iff.1 fx with cx | cx
  · obtain ⟨b, -, b1, -, b3, b4⟩ := ilogb_bounds h hy cy
    obtain ⟨r, e, hr, fr, zr, lr, hN, s1, s2⟩ := fmodLoop_ok h hy cy b1 (S.maxExp + 1 - b).toNat (fmodFuel S) x
      (by unfold fmodFuel; omega) hx fx ((abs_toRat_le h hx fx).trans_lt
        ((full_gt h).trans_le (zpow_two_le (by omega))))
    refine ⟨if r.isZero then r.copySign x else r, ?_, ?_, ?_, ?_, ?_, ?_⟩
    · unfold cFmod cFmodFuel
      rw [cx, cy]
      dsimp only
      rw [e, M.ok_bind]; rfl
    · split
      · rw [copySign_eq]; exact (valid_sign _).2 hr
      · exact hr
    · split
      · rw [copySign_eq]; exact fr
      · exact fr
    · split
      · rw [copySign_eq]
      · rename_i hz
        have cr : r.category = .normal := by
          rcases isFinite_iff.1 fr with c | c
          · exact c
          · exfalso; apply hz; unfold isZero; rw [c]; rfl
        have hr0 := toRat_ne hr cr
        cases hs : x.sign <;> cases hs' : r.sign <;> try rfl
        · exact absurd (s1 (sign_pos hx cx hs).1.le) (not_le.2 (sign_neg hr cr hs').1)
        · exact absurd (s2 (sign_neg hx cx hs).1.le) (not_le.2 (sign_pos hr cr hs').1)
    · intro hz
      split
      · exact copySign_zeroExp _ (zr hz)
      · exact zr hz
    · have : (if r.isZero then r.copySign x else r).toRat = r.toRat := by
        split
        · rename_i hz
          have cr : r.category = .zero := by revert hz; unfold isZero; cases r.category <;> simp
          rw [copySign_eq]; unfold toRat; simp only [cr]
        · rfl
      rw [this]
      exact ⟨lr, hN, s1, s2⟩
  · refine ⟨x, ?_, hx, fx, rfl, id, ?_, ⟨0, by simp⟩, id, id⟩
    · unfold cFmod cFmodFuel; rw [cx, cy]; rfl
    · rw [toRat_zero cx, abs_zero]; exact abs_pos.2 hy0

/-- **C23.** `c_fmod` of finite operands (divisor not zero) never panics, terminates, and returns exactly `x - n*y` where `n`
is the quotient truncated toward zero, with status OK and the sign of `x` (also when the remainder is zero). -/
theorem C23_c_fmod (h : S.OK) {x y : IeeeFloat S} (hx : x.Valid) (hy : y.Valid) (fx : x.isFinite = true) (fy : y.isFinite = true)
    (hy0 : y.toRat ≠ 0) :
    ∃ r, cFmod x y = .ok ⟨Status.OK, r⟩ ∧ r.Valid ∧ r.isFinite = true ∧ r.sign = x.sign ∧
      ∃ n : ℤ, RoundsToInt .towardZero (x.toRat / y.toRat) n ∧ r.toRat = x.toRat - n * y.toRat := by
  obtain ⟨r, e, hr, fr, sr, -, lr, ⟨N, hN⟩, s1, s2⟩ := cFmod_ok h hx hy fx fy hy0
  exact ⟨r, e, hr, fr, sr, N, trunc_of_rem hy0 hN lr s1 s2, hN⟩

theorem grid_abs {F : Fmt} {v : ℚ} (hv : F.Grid v) : F.Grid |v| := by
  rcases abs_choice v with e | e <;> rw [e]
  · exact hv
  · exact grid_neg_iff.2 hv

/-- `lossless_2x` doubles its argument, possibly past the largest exponent of the format. -/
theorem lossless2x_ok (h : S.OK) {x : IeeeFloat S} (hx : x.Valid) (fx : x.isFinite = true) (hz : ZeroExp x) :
    ∃ d, lossless2x x = .ok d ∧ d.Canon ∧ d.isFinite = true ∧ d.toRat = 2 * x.toRat := by
  have h3 := h.p_ge; have hp := h.p_le; have hple := h.pow_le; have h2 := h.two_pow
  have hmin := h.min_lt; have hmin' := h.min_ge; have hmax := h.max_le; have hpm := h.p_max
  unfold lossless2x
  rcases isFinite_iff.1 fx with cx | cx
  · obtain ⟨v1, v2, v3, v4, v5, v6⟩ := hx.normal cx
    rw [i32_ok (by omega) (by omega), M.ok_bind]
    dsimp only
    have e2 : (2 : ℚ) ^ (x.exp + 1 - S.precision + 1) = 2 * 2 ^ (x.exp - S.precision + 1) := by
      rw [show x.exp + 1 - (S.precision : ℤ) + 1 = (x.exp - S.precision + 1) + 1 by ring, two_zpow_add _ 1]; ring
    have td : signed x.sign ((x.sig : ℚ) * 2 ^ (x.exp + 1 - S.precision + 1)) = 2 * x.toRat := by
      rw [toRat_normal cx, e2]; unfold signed; split <;> ring
    by_cases hc : x.exp + 1 ≥ S.maxExp
    · rw [if_pos hc]
      refine ⟨_, rfl, fun _ => ⟨?_, v3, v4, .inl ?_⟩, fx, ?_⟩
      · show S.minExp ≤ x.exp + 1; omega
      · rcases v5 with a | a
        · exact a
        · omega
      · rw [← td]; exact toRat_normal (x := { x with exp := x.exp + 1 }) cx
    · rw [if_neg hc]
      have hg := normalize_good' (S := S) h (x := { x with exp := x.exp + 1 }) cx (mode := .nearestTiesToEven) (f := 0)
        (by show x.sig < _; omega) (by show -1200000000 ≤ x.exp + _; omega) (by show x.exp + _ ≤ 1200000000; omega)
        (show LossIs .exactlyZero 0 from rfl) (fun e => absurd rfl e) (v := 2 * x.toRat)
        (by show _ = signed x.sign (((x.sig : ℚ) + 0) * 2 ^ ((if x.sig = 0 then S.minExp else x.exp + 1) - S.precision + 1))
            rw [if_neg (by omega), add_zero, td])
        (directedOK_of_mode _ (by decide) (by decide) _)
      obtain ⟨r, r1, r2, r3, r4, r5⟩ := good_exact hg
        (by have := grid_scale_up (grid_toRat h hx fx) (n := 1) (by omega); rw [zpow_one, mul_comm] at this; exact this)
        (by
          rw [abs_mul, abs_of_pos (by norm_num : (0 : ℚ) < 2), abs_toRat cx]
          have l1 := mag_lt_pow h hx cx
          have l2 : (2 : ℚ) * 2 ^ (x.exp + 1) ≤ 2 ^ S.maxExp := by
            have := zpow_two_le (show x.exp + 1 + 1 ≤ S.maxExp by omega)
            rw [two_zpow_add _ 1] at this; linarith
          have l3 := le_largest h (n := 2 ^ (S.precision - 1)) (e := S.maxExp) (by omega) le_rfl (by
            intro _ _ hc
            have : 4 ≤ 2 ^ (S.precision - 1) := by
              calc 4 = 2 ^ 2 := rfl
                _ ≤ _ := Nat.pow_le_pow_right (by norm_num) (by omega)
            omega)
          rw [pow_half h S.maxExp] at l3
          linarith)
      refine ⟨r, ?_, Valid.canon r2, r4, r5⟩
      rw [r1, M.ok_bind, massert_pos rfl, M.ok_bind]
  · have := hz cx
    rw [i32_ok (by omega) (by omega), M.ok_bind]
    dsimp only
    rw [if_neg (by omega)]
    unfold normalize
    rw [isFiniteNonZero_zero (x := { x with exp := x.exp + 1 }) cx, if_pos (by decide), M.ok_bind]
    refine ⟨_, rfl, ?_, fx, ?_⟩
    · intro c; exfalso; change x.category = _ at c; rw [cx] at c; cases c
    · rw [toRat_zero cx, mul_zero]; exact toRat_zero (x := { x with exp := x.exp + 1 }) cx

theorem gt_canon (h : S.OK) {x y : IeeeFloat S} (hx : x.Canon) (hy : y.Canon) (fx : x.isFinite = true) (fy : y.isFinite = true) :
    gt x y = .ok (decide (y.toRat < x.toRat)) := by
  unfold gt
  rw [partialCmp_finite_canon h hx hy fx fy, M.ok_bind]
  congr 1
  simp [compare_gt_iff_gt]

theorem ge_canon (h : S.OK) {x y : IeeeFloat S} (hx : x.Canon) (hy : y.Canon) (fx : x.isFinite = true) (fy : y.isFinite = true) :
    ge x y = .ok (decide (y.toRat ≤ x.toRat)) := by
  unfold ge
  rw [partialCmp_finite_canon h hx hy fx fy, M.ok_bind]
  congr 1
  simp only [compare_gt_iff_gt, compare_eq_iff_eq, Option.some.injEq]
  apply decide_eq_decide.2
  rw [le_iff_lt_or_eq, eq_comm (a := y.toRat)]

/-- The last steps of `ieee_rem`: subtract the divisor never, once or twice. -/
theorem remSteps_ok (h : S.OK) {x p : IeeeFloat S} (hx : x.Valid) (hp : p.Valid) (fx : x.isFinite = true) (cp : p.category = .normal)
    (hz : ZeroExp x) (x0 : 0 ≤ x.toRat) (p0 : 0 < p.toRat) (hlt : x.toRat < 2 * p.toRat) :
    ∃ r, remSteps x p = .ok r ∧ r.Valid ∧ r.isFinite = true ∧ 2 * |r.toRat| ≤ p.toRat ∧
      ∃ k : ℤ, r.toRat = x.toRat - k * p.toRat ∧ (2 * |r.toRat| = p.toRat → k % 2 = 0) := by
  have fp : p.isFinite = true := isFinite_iff.2 (.inl cp)
  have hxl := abs_toRat_le h hx fx
  have hpl := abs_toRat_le h hp fp
  have gx := grid_toRat h hx fx
  have gp := grid_toRat h hp fp
  rw [abs_of_nonneg x0] at hxl
  rw [abs_of_pos p0] at hpl
  unfold remSteps
  obtain ⟨d, ed, hd, fd, td⟩ := lossless2x_ok h hx fx hz
  rw [ed, M.ok_bind, gt_canon h hd (Valid.canon hp) fd fp, M.ok_bind, td]
  by_cases c1 : p.toRat < 2 * x.toRat
  swap
  · rw [decide_eq_false c1, if_neg (by decide)]
    push Not at c1
    exact ⟨x, rfl, hx, fx, by rw [abs_of_nonneg x0]; exact c1, 0, by simp, fun _ => rfl⟩
  have cx : x.category = .normal := by
    rcases isFinite_iff.1 fx with c | c
    · exact c
    · exfalso; rw [toRat_zero c] at c1; linarith
  rw [decide_eq_true c1, if_pos rfl]
  obtain ⟨r, er, hr, fr, tr, zr⟩ := subR_exact h hx hp cx cp
    (by
      rcases le_total p.toRat x.toRat with c | c
      · exact sterbenz gx gp c hlt.le
      · rw [← neg_sub]; exact grid_neg_iff.2 (sterbenz gp gx c c1.le))
    (by rw [abs_le]; constructor <;> linarith)
  rw [er, M.ok_bind, massert_pos rfl, M.ok_bind]
  dsimp only
  obtain ⟨d', ed', hd', fd', td'⟩ := lossless2x_ok h hr fr zr
  rw [ed', M.ok_bind, ge_canon h hd' (Valid.canon hp) fd' fp, M.ok_bind, td', tr]
  by_cases c2 : p.toRat ≤ 2 * (x.toRat - p.toRat)
  swap
  · rw [decide_eq_false c2, if_neg (by decide)]
    push Not at c2
    have hab : 2 * |x.toRat - p.toRat| < p.toRat := by
      rw [← lt_div_iff₀' (by norm_num), abs_lt]; constructor <;> linarith
    exact ⟨r, rfl, hr, fr, by rw [tr]; exact hab.le, 1, by rw [tr]; simp, fun e => by rw [tr] at e; linarith⟩
  rw [decide_eq_true c2, if_pos rfl]
  have cr : r.category = .normal := by
    rcases isFinite_iff.1 fr with c | c
    · exact c
    · exfalso; rw [toRat_zero c] at tr; linarith
  obtain ⟨t, et, ht, ft, tt, -⟩ := subR_exact h hr hp cr cp
    (by
      rw [← neg_sub]
      exact grid_neg_iff.2 (sterbenz gp (grid_toRat h hr fr) (by rw [tr]; linarith) (by rw [tr]; exact c2)))
    (by rw [tr, abs_le]; constructor <;> linarith)
  rw [et, M.ok_bind, massert_pos rfl, M.ok_bind]
  refine ⟨t, rfl, ht, ft, ?_, 2, by rw [tt, tr]; push_cast; ring, fun _ => rfl⟩
  rw [tt, tr, ← le_div_iff₀' (by norm_num), abs_le]
  constructor <;> linarith

/-- **C24.** `ieee_rem` of finite operands (divisor not zero) never panics, terminates, and returns exactly `x - n*y` where `n`
is the integer nearest to `x/y` (the even one in a tie), with status OK; a zero remainder has the sign of `x`. -/
theorem C24_ieee_rem (h : S.OK) {x y : IeeeFloat S} (hx : x.Valid) (hy : y.Valid) (fx : x.isFinite = true) (fy : y.isFinite = true)
    (hy0 : y.toRat ≠ 0) :
    ∃ r, ieeeRem x y = .ok ⟨Status.OK, r⟩ ∧ r.Valid ∧ r.isFinite = true ∧ (r.toRat = 0 → r.sign = x.sign) ∧
      ∃ n : ℤ, RoundsToInt .nearestTiesToEven (x.toRat / y.toRat) n ∧ r.toRat = x.toRat - n * y.toRat := by
  have cy : y.category = .normal := by
    rcases isFinite_iff.1 fy with c | c
    · exact c
    · exact absurd (toRat_zero c) hy0
  rcases isFinite_iff.1 fx with cx | cx
  swap
  · refine ⟨x, ?_, hx, fx, fun _ => rfl, 0, ?_, by simp⟩
    · unfold ieeeRem; rw [cx, cy]; rfl
    · rw [toRat_zero cx]; simp [RoundsToInt]
  -- the reduction modulo twice the divisor
  have red : ∃ p2 w, addR y y .nearestTiesToEven = .ok p2 ∧
      ((if p2.status = Status.OK then do
          let r ← cFmod x p2.value
          massert (r.status = Status.OK)
          .ok r.value
        else .ok x : M (IeeeFloat S)) = .ok w) ∧ w.Valid ∧ w.isFinite = true ∧ w.sign = x.sign ∧ ZeroExp w ∧
      |w.toRat| < 2 * |y.toRat| ∧ ∃ N : ℤ, w.toRat = x.toRat - N * (2 * y.toRat) := by
    obtain ⟨p2, e2, hp2, hr2⟩ := addR_finite h hy hy fy fy .nearestTiesToEven (directedOK_of_mode _ (by decide) (by decide) _)
    by_cases c : p2.status = Status.OK
    · obtain ⟨f2, t2⟩ := Rounds.ok hr2 c
      have t2' : p2.value.toRat = 2 * y.toRat := by rw [t2]; ring
      obtain ⟨w, ew, hw, fw, sw, zw, lw, hN, -, -⟩ := cFmod_ok h hx hp2 fx f2 (by rw [t2']; exact mul_ne_zero two_ne_zero hy0)
      rw [t2', abs_mul, abs_of_pos (by norm_num : (0 : ℚ) < 2)] at lw
      rw [t2'] at hN
      refine ⟨p2, w, e2, ?_, hw, fw, sw, zw (zeroExp_normal cx), lw, hN⟩
      rw [if_pos c, ew, M.ok_bind, massert_pos rfl, M.ok_bind]
    · refine ⟨p2, x, e2, by rw [if_neg c], hx, fx, rfl, zeroExp_normal cx, ?_, 0, by simp⟩
      by_contra hc
      push Not at hc
      apply c
      have e : y.toRat + y.toRat = y.toRat * 2 ^ (1 : ℤ) := by rw [zpow_one]; ring
      refine (Rounds.exact hr2 ?_ ?_).1
      · rw [e]; exact grid_scale_up (grid_toRat h hy fy) (by omega)
      · rw [e, abs_mul, zpow_one, abs_of_pos (by norm_num : (0 : ℚ) < 2)]
        have := abs_toRat_le h hx fx
        linarith
  obtain ⟨p2, w, e2, ew, hw, fw, sw, zw, lw, N, hN⟩ := red
  obtain ⟨-, -, -, -, -, -, -, -, -, -, -, -, wabs, -, wv⟩ := C35_sign_ops w w
  obtain ⟨-, -, -, -, -, -, -, -, -, -, -, -, yabs, -, yv⟩ := C35_sign_ops y y
  obtain ⟨r, er, hr, fr, lr, k, hk, tie⟩ := remSteps_ok h (wv hw).2.1 (yv hy).2.1 (x := w.abs) (p := y.abs)
    (by rw [abs_eq]; exact fw) (by rw [abs_eq]; exact cy) (by rw [abs_eq]; exact zw) (by rw [wabs]; exact abs_nonneg _)
    (by rw [yabs]; exact abs_pos.2 hy0) (by rw [wabs, yabs]; exact lw)
  rw [wabs, yabs] at hk
  rw [yabs] at lr tie
  -- the value in terms of the operands
  have tw : w.toRat = signed x.sign |w.toRat| := by
    rw [← sw]
    rcases isFinite_iff.1 fw with c | c
    · rw [abs_toRat c]; unfold toRat; simp only [c]
    · rw [toRat_zero c]; simp [signed]
  have tn : ∃ n : ℤ, signed x.sign r.toRat = x.toRat - n * y.toRat ∧ (k % 2 = 0 → n % 2 = 0) := by
    have : ∃ k' : ℤ, signed x.sign (k * |y.toRat|) = k' * y.toRat ∧ (k % 2 = 0 → k' % 2 = 0) := by
      unfold signed
      rcases abs_choice y.toRat with e | e <;> rw [e] <;> cases x.sign
      · exact ⟨k, by simp, id⟩
      · exact ⟨-k, by simp, fun _ => by omega⟩
      · exact ⟨-k, by simp, fun _ => by omega⟩
      · exact ⟨k, by simp, id⟩
    obtain ⟨k', e1, e2⟩ := this
    refine ⟨2 * N + k', ?_, fun hk2 => by have := e2 hk2; omega⟩
    have : signed x.sign r.toRat = w.toRat - signed x.sign (k * |y.toRat|) := by
      rw [hk]; nth_rewrite 2 [tw]; unfold signed; split <;> ring
    rw [this, e1, hN]; push_cast; ring
  obtain ⟨n, tn, en⟩ := tn
  have hround : RoundsToInt .nearestTiesToEven (x.toRat / y.toRat) n := by
    have hq : x.toRat / y.toRat - n = signed x.sign r.toRat / y.toRat := by
      rw [tn]; field_simp
    have hab : |x.toRat / y.toRat - n| = |r.toRat| / |y.toRat| := by
      rw [hq, abs_div]; congr 1; unfold signed; split
      · rw [abs_neg]
      · rfl
    have y0 := abs_pos.2 hy0
    constructor
    · rw [hab, ← mul_div_assoc, div_le_one y0]; exact lr
    · intro e
      rw [hab, ← mul_div_assoc, div_eq_one_iff_eq y0.ne'] at e
      exact en (tie e)
  have main : ∀ (r' : IeeeFloat S), (if r.isZero then (.ok (Status.OK.and (r.copySign x)) : M _)
      else .ok (Status.OK.and (r.negateIf x.isNegative))) = .ok ⟨Status.OK, r'⟩ → ieeeRem x y = .ok ⟨Status.OK, r'⟩ := by
    intro r' e
    unfold ieeeRem
    rw [cx, cy]
    dsimp only
    rw [e2, M.ok_bind, ew, M.ok_bind, er, M.ok_bind, e]
  rcases isFinite_iff.1 fr with cr | cr
  · have hz : r.isZero = false := by unfold isZero; rw [cr]; rfl
    refine ⟨r.negateIf x.isNegative, main _ (by rw [hz]; rfl), ?_, ?_, ?_, n, hround, ?_⟩
    · rw [negateIf_eq]; exact (valid_sign _).2 hr
    · rw [negateIf_eq]; exact fr
    · intro e
      exfalso
      have h1 : (r.negateIf x.isNegative).Valid := by rw [negateIf_eq]; exact (valid_sign _).2 hr
      exact toRat_ne h1 (by rw [negateIf_eq]; exact cr) e
    · rw [← tn, negateIf_eq]
      unfold toRat
      simp only [cr]
      unfold signed isNegative
      cases x.sign <;> cases r.sign <;> simp
  · have hz : r.isZero = true := by unfold isZero; rw [cr]; rfl
    refine ⟨r.copySign x, main _ (by rw [hz]; rfl), ?_, ?_, ?_, n, hround, ?_⟩
    · rw [copySign_eq]; exact (valid_sign _).2 hr
    · rw [copySign_eq]; exact fr
    · intro _; rw [copySign_eq]
    · rw [← tn, copySign_eq, toRat_zero (x := { r with sign := x.sign }) cr, toRat_zero cr]; simp [signed]

/-- **C23/C24, C10.** An infinite dividend or a zero divisor is an invalid operation; an infinite divisor returns the (finite)
dividend unchanged. -/
theorem C10_rem_special {x y : IeeeFloat S} :
    (x.isNan = false → y.isNan = false → (x.category = .infinity ∨ y.category = .zero) →
      ∃ r, cFmod x y = .ok r ∧ ieeeRem x y = .ok r ∧ IsInvalid r) ∧
    (x.isFinite = true → y.category = .infinity → cFmod x y = .ok ⟨Status.OK, x⟩ ∧ ieeeRem x y = .ok ⟨Status.OK, x⟩) := by
  refine ⟨?_, ?_⟩
  · intro nx ny hc
    refine ⟨Status.INVALID_OP.and (NAN S), ?_, ?_, isInvalid_nan⟩ <;> unfold isNan at nx ny <;>
      (first | unfold cFmod cFmodFuel | unfold ieeeRem) <;>
      cases cx : x.category <;> cases cy : y.category <;> simp [cx, cy] at nx ny hc ⊢
  · intro fx hc
    rcases isFinite_iff.1 fx with cx | cx <;> unfold cFmod cFmodFuel ieeeRem <;> rw [cx, hc] <;> exact ⟨rfl, rfl⟩

/-- **C23/C24, C11.** A NaN operand of a remainder propagates as in `+`, `-`, `*`, `/`. -/
theorem C11_rem_nan (h : S.OK) {x y : IeeeFloat S} (hx : x.Valid) (hy : y.Valid) (hn : x.category = .nan ∨ y.category = .nan) :
    ∃ r : StatusAnd (IeeeFloat S), cFmod x y = .ok r ∧ ieeeRem x y = .ok r ∧
      r.value.Valid ∧ IsQuieted (if x.category = .nan then x else y) r.value ∧
      r.status = if x.isSignaling ∨ y.isSignaling then Status.INVALID_OP else Status.OK := by
  obtain ⟨r, r1, r2, r3⟩ := binop_nan h hx hy hn
  refine ⟨⟨if x.isSignaling ∨ y.isSignaling then Status.INVALID_OP else Status.OK, r⟩, ?_, ?_, r2, ?_, rfl⟩
  · rw [← r1]; unfold cFmod cFmodFuel
    cases cx : x.category <;> cases cy : y.category <;> simp [cx, cy] at hn ⊢
  · rw [← r1]; unfold ieeeRem
    cases cx : x.category <;> cases cy : y.category <;> simp [cx, cy] at hn ⊢
  · have : (x.isNan = true) = (x.category = .nan) := by simp [isNan]
    simp only [this] at r3
    exact r3

/-! The hypotheses hold of `1.5` and `-3.0` in `Single`; the equations show what the theorems say there. -/
example : ∃ r, cFmod ex15 exM3 = .ok ⟨Status.OK, r⟩ ∧ r.Valid ∧ r.isFinite = true ∧ r.sign = ex15.sign ∧
    ∃ n : ℤ, RoundsToInt .towardZero (ex15.toRat / exM3.toRat) n ∧ r.toRat = ex15.toRat - n * exM3.toRat :=
  C23_c_fmod singleS_ok ex15_valid exM3_valid rfl rfl exM3_ne
example : ∃ r, ieeeRem exM3 ex15 = .ok ⟨Status.OK, r⟩ ∧ r.Valid ∧ r.isFinite = true ∧ (r.toRat = 0 → r.sign = exM3.sign) ∧
    ∃ n : ℤ, RoundsToInt .nearestTiesToEven (exM3.toRat / ex15.toRat) n ∧ r.toRat = exM3.toRat - n * ex15.toRat :=
  C24_ieee_rem singleS_ok exM3_valid ex15_valid rfl rfl (toRat_ne_zero ex15_valid rfl)
/-- `-3.0 rem 1.5` is `-0.0`. -/
example : ieeeRem exM3 ex15 = .ok ⟨Status.OK, ⟨0, -127, .zero, true⟩⟩ := by decide +kernel

end Apf
