import Verif.Spec.FmaExact
import Verif.Props.Fma
/-! # What `mul_add_r` does with the operands `FmaExcluded` describes -/

namespace Apf
open Spec IeeeFloat

variable {S : Sem}

theorem massert_neg' {p : Prop} [Decidable p] (h : ¬ p) : massert p = .error .assert := by unfold massert; rw [if_neg h]

set_option maxHeartbeats 1000000 in
/-- The addition step of `mul_add_r` on excluded operands. -/
theorem fmaAddend_excluded (h : S.OK) {wide : List Nat} {E : ℤ} {s : Bool} {z : IeeeFloat S} (hw : Limbs wide) (hw2 : wide.length = 2)
    (hN : 0 < val wide) (hN2 : val wide < 2 ^ (2 * S.precision)) (hE1 : -100000 ≤ E) (hE2 : E ≤ 100000)
    (hz : z.Valid) (cz : z.category = .normal)
    (hx : FmaExcluded S (signed s ((val wide : ℚ) * 2 ^ (E - 2 * S.precision))) z.toRat) :
    ∃ (q x2 : ℕ) (g : ℚ), 0 < g ∧ g < 1 ∧ q < 2 ^ (2 * S.precision) ∧ z.sign = !s ∧
      (val wide : ℚ) * 2 ^ (E - 2 * S.precision) = (q + g) * fmaUnit S ∧ z.toRat = signed (!s) (x2 * fmaUnit S) ∧ x2 ≤ q + 1 ∧
      (x2 = q → fmaAddend S wide E s (Nat.size (val wide)) z = .error .assert) ∧
      (x2 ≠ q → ∃ mid, fmaAddend S wide E s (Nat.size (val wide)) z = .ok mid ∧ Limbs mid.wide ∧ mid.wide.length = 2 ∧
        mid.omsb = Nat.size (val mid.wide) ∧ LossIs mid.loss (1 - g) ∧ mid.loss ≠ .exactlyZero ∧ mid.exp = S.minExp ∧
        val mid.wide = q - x2 - 1 ∧ mid.sign = if q < x2 then !s else s) := by
  have hpl := h.p_le; have hpg := h.p_ge; have h4 := h.pow_le
  have hmin := h.min_lt; have hmin' := h.min_ge; have hmax := h.max_le; have h2 := h.two_pow
  obtain ⟨v1, v2, v3, v4, v5, v6⟩ := hz.normal cz
  -- powers used below
  have p2a : 2 ^ (2 * S.precision) = 2 * 2 ^ (2 * S.precision - 1) := by
    rw [← pow_succ']; congr 1; omega
  have p2b : 2 ^ (2 * S.precision) = 2 ^ S.precision * 2 ^ S.precision := by rw [two_mul, pow_add]
  have p2d : 2 ^ (2 * S.precision) ≤ 2 ^ 252 := Nat.pow_le_pow_right (by norm_num) (by omega)
  have szN : Nat.size (val wide) ≤ 2 * S.precision := Nat.size_le.2 hN2
  have szpos : 0 < Nat.size (val wide) := Nat.size_pos.2 hN
  -- the aligned product
  obtain ⟨k, hk⟩ : ∃ k, 2 * S.precision - Nat.size (val wide) = k := ⟨_, rfl⟩
  have shifted : ∃ w, (if Nat.size (val wide) ≠ 2 * S.precision + 1 - 1 then do
        massert (2 * S.precision + 1 > Nat.size (val wide))
        let k ← usub (2 * S.precision + 1 - 1) (Nat.size (val wide))
        Sig.shiftLeft wide E k
      else .ok (wide, E) : M (List Nat × Int)) = .ok (w, E - k) ∧ Limbs w ∧ w.length = 2 ∧ val w = val wide * 2 ^ k := by
    by_cases hc : Nat.size (val wide) ≠ 2 * S.precision + 1 - 1
    · rw [if_pos hc, massert_pos (by omega), M.ok_bind]
      unfold usub
      rw [if_pos (by omega), M.ok_bind]
      obtain ⟨r, r1, r2, r3, r4⟩ := shiftLeft_ok hw (exp := E) (bits := k) (by omega) (by omega) (by omega)
      rw [show 2 * S.precision + 1 - 1 - Nat.size (val wide) = k by omega]
      refine ⟨r, r1, r3, by omega, ?_⟩
      rw [r4, hw2]
      apply Nat.mod_eq_of_lt
      have hs : val wide * 2 ^ k < 2 ^ (2 * S.precision) := by
        have : val wide * 2 ^ k < 2 ^ Nat.size (val wide) * 2 ^ k := by
          exact Nat.mul_lt_mul_of_pos_right (Nat.lt_size_self _) (by positivity)
        rw [← pow_add, show Nat.size (val wide) + k = 2 * S.precision by omega] at this
        exact this
      omega
    · rw [if_neg hc]
      have : k = 0 := by omega
      exact ⟨wide, by rw [this]; simp, hw, hw2, by rw [this]; simp⟩
  obtain ⟨w, ew, lw, lw2, vw⟩ := shifted
  have w1 : val w < 2 ^ (2 * S.precision) := by
    rw [vw]
    have : val wide * 2 ^ k < 2 ^ Nat.size (val wide) * 2 ^ k :=
      Nat.mul_lt_mul_of_pos_right (Nat.lt_size_self _) (by positivity)
    rw [← pow_add, show Nat.size (val wide) + k = 2 * S.precision by omega] at this
    exact this
  -- the aligned addend
  obtain ⟨x, x1, xl, x3, x4⟩ := shiftLeft_ok (show Limbs [z.sig, 0] from Limbs.two (by omega) (by norm_num)) (exp := 0) (bits := S.precision)
    (by omega) (by omega) (by omega)
  have vx : val x = z.sig * 2 ^ S.precision := by
    rw [x4]
    simp only [val_cons, val_nil, List.length_cons, List.length_nil, Nat.mul_zero, Nat.add_zero]
    apply Nat.mod_eq_of_lt
    have : z.sig * 2 ^ S.precision < 2 ^ S.precision * 2 ^ S.precision := Nat.mul_lt_mul_of_pos_right v4 (by positivity)
    have e : 128 * (0 + 1 + 1) = 256 := rfl
    rw [e]
    omega
  have x5 : val x < 2 ^ (2 * S.precision) := by
    rw [vx, p2b]; exact Nat.mul_lt_mul_of_pos_right v4 (by positivity)
  -- the two operands as rationals
  obtain ⟨e, he⟩ : ∃ e, E - (k : ℤ) = e := ⟨_, rfl⟩
  have qw : (val wide : ℚ) * 2 ^ (E - 2 * S.precision) = (val w : ℚ) * 2 ^ (e - 2 * S.precision) := by
    rw [vw, ← he]
    push_cast
    rw [mul_assoc, ← zpow_natCast, ← two_zpow_add]
    congr 2; ring
  have qz : (z.sig : ℚ) * 2 ^ (z.exp - S.precision + 1) = (val x : ℚ) * 2 ^ (z.exp + 1 - 2 * S.precision) := by
    rw [vx]
    push_cast
    rw [mul_assoc, ← zpow_natCast, ← two_zpow_add]
    congr 2; ring
  have tz : z.toRat = signed z.sign ((val x : ℚ) * 2 ^ (z.exp + 1 - 2 * S.precision)) := by rw [toRat_normal cz, qz]
  obtain ⟨c1, c2, c3, c4⟩ := hx
  have hw0 : (0 : ℚ) < (val wide : ℚ) * 2 ^ (E - 2 * S.precision) := mul_pos (by exact_mod_cast hN) (two_zpow_pos _)
  have hz0 : (0 : ℚ) < (z.sig : ℚ) * 2 ^ (z.exp - S.precision + 1) := mul_pos (by exact_mod_cast v3) (two_zpow_pos _)
  -- opposite signs
  have hs : z.sign = !s := by
    rw [toRat_normal cz] at c1
    by_contra hne
    have : z.sign = s := by
      revert hne
      generalize z.sign = b
      cases s <;> cases b <;> decide
    rw [this] at c1
    cases s <;> simp only [signed, if_true, if_false, Bool.false_eq_true] at c1 <;> nlinarith [mul_pos hw0 hz0]
  -- the addend is subnormal
  have hme : z.exp = S.minExp := by
    rcases v5 with a | a
    swap
    · exact a
    · rw [toRat_normal cz, abs_signed _ hz0.le] at c2
      by_contra hne
      have e1 : (2 : ℚ) ^ (S.precision - 1) ≤ z.sig := by exact_mod_cast a
      have e2 : (2 : ℚ) ^ (S.precision - 1) * 2 ^ (z.exp - S.precision + 1) ≤ (z.sig : ℚ) * 2 ^ (z.exp - S.precision + 1) :=
        mul_le_mul_of_nonneg_right e1 (two_zpow_pos _).le
      have e3 : (2 : ℚ) ^ (S.precision - 1) * 2 ^ (z.exp - S.precision + 1) = 2 ^ z.exp := by
        rw [← zpow_natCast, ← two_zpow_add]; congr 1; omega
      have e4 : (2 : ℚ) ^ S.minExp ≤ 2 ^ z.exp := zpow_le_zpow_right₀ (by norm_num) v1
      linarith
  -- the product has bits below the unit
  have hlt : e < S.minExp := by
    by_contra hge
    push Not at hge
    apply c4
    obtain ⟨j, hj⟩ : ∃ j : ℕ, e - S.minExp = j := ⟨(e - S.minExp).toNat, by omega⟩
    refine ⟨(if s then -1 else 1) * (val w * 2 ^ j : ℕ), ?_⟩
    have eu : (2 : ℚ) ^ (e - 2 * S.precision) = 2 ^ j * 2 ^ (S.minExp - 2 * S.precision) := by
      rw [← zpow_natCast, ← two_zpow_add]; congr 1; omega
    rw [qw, eu]
    cases s <;> simp [signed] <;> ring
  obtain ⟨j, hj⟩ : ∃ j : ℕ, S.minExp - e = j := ⟨(S.minExp - e).toNat, by omega⟩
  have eu : fmaUnit S = 2 ^ j * 2 ^ (e - 2 * S.precision) := by
    unfold fmaUnit
    rw [← zpow_natCast, ← two_zpow_add]; congr 1; omega
  have he0 := two_zpow_pos (e - 2 * S.precision)
  obtain ⟨q, hq⟩ : ∃ q, val w / 2 ^ j = q := ⟨_, rfl⟩
  obtain ⟨t, ht⟩ : ∃ t, val w % 2 ^ j = t := ⟨_, rfl⟩
  have hqt : val w = 2 ^ j * q + t := by rw [← hq, ← ht]; exact (Nat.div_add_mod _ _).symm
  have htlt : t < 2 ^ j := by rw [← ht]; exact Nat.mod_lt _ (by positivity)
  have hpj : (0 : ℚ) < 2 ^ j := by positivity
  have wval : (val w : ℚ) * 2 ^ (e - 2 * S.precision) = ((q : ℚ) + (t : ℚ) / 2 ^ j) * fmaUnit S := by
    rw [eu, hqt]; push_cast; field_simp
  have ht0 : t ≠ 0 := by
    intro h0
    apply c4
    refine ⟨(if s then -1 else 1) * (q : ℕ), ?_⟩
    rw [qw, wval, h0]
    show _ = _ * fmaUnit S
    cases s <;> simp [signed]
  have hzu : (2 : ℚ) ^ (S.minExp + 1 - 2 * S.precision) = 2 * fmaUnit S := by
    unfold fmaUnit
    rw [show S.minExp + 1 - 2 * (S.precision : ℤ) = 1 + (S.minExp - 2 * S.precision) by ring, two_zpow_add 1]; norm_num
  have g0 : (0 : ℚ) < (t : ℚ) / 2 ^ j := div_pos (by exact_mod_cast Nat.pos_of_ne_zero ht0) hpj
  have g1 : (t : ℚ) / 2 ^ j < 1 := by
    rw [div_lt_one hpj]; exact_mod_cast htlt
  have hu : 0 < fmaUnit S := two_zpow_pos _
  have zval : z.toRat = signed (!s) (((2 * val x : ℕ) : ℚ) * fmaUnit S) := by
    rw [tz, hs, hme, hzu]; congr 1; push_cast; ring
  have hle : 2 * val x ≤ q + 1 := by
    rw [zval, abs_signed _ (by positivity), abs_signed _ hw0.le, qw, wval] at c3
    have c3' : ((2 * val x : ℕ) : ℚ) * fmaUnit S < ((q : ℚ) + (t : ℚ) / 2 ^ j + 1) * fmaUnit S := by
      have : (2 : ℚ) ^ (S.minExp - 2 * S.precision) = fmaUnit S := rfl
      rw [this] at c3
      linarith
    have := lt_of_mul_lt_mul_right c3' hu.le
    have : ((2 * val x : ℕ) : ℚ) < ((q + 2 : ℕ) : ℚ) := by push_cast at this ⊢; linarith
    have := Nat.cast_lt.1 this
    omega
  -- the shifts
  obtain ⟨r, r1, r2, r3, r4⟩ := shiftRight_ok lw (exp := e) (bits := j) (by omega) (by omega) (by omega)
  obtain ⟨y, y1, y2, y3, y4⟩ := shiftLeft_ok x3 (exp := 0) (bits := 1) (by omega) (by omega) (by omega)
  have vy : val y = 2 * val x := by
    rw [y4, xl]
    simp only [List.length_cons, List.length_nil]
    rw [Nat.mod_eq_of_lt]
    · ring
    · have e : 128 * (0 + 1 + 1) = 256 := rfl
      rw [e]; omega
  rw [hq] at r4
  rw [ht] at r1
  have hL : LossIs (lossOf t (2 ^ j)) ((t : ℚ) / 2 ^ j) := by
    have := lossIs_lossOf htlt
    push_cast at this
    exact this
  have hLne : lossOf t (2 ^ j) ≠ .exactlyZero := fun e => g0.ne' (hL.zero_iff.1 e)
  have hlen : r.length = y.length := by rw [r2, y2, xl, lw2]; rfl
  have hadd : fmaAddend S wide E s (Nat.size (val wide)) z = (do
      let o ← (do
        let c ← Sig.cmp r y
        if c = .lt then do
          let (r, o) ← Sig.sub y r 1
          massert (o = 0)
          .ok ⟨r, S.minExp, !s, Sig.invertLoss (lossOf t (2 ^ j))⟩
        else do
          let (r, o) ← Sig.sub r y 1
          massert (o = 0)
          .ok ⟨r, S.minExp, s, Sig.invertLoss (lossOf t (2 ^ j))⟩ : M Sig.AddOrSubOut)
      .ok ⟨o.sig, o.exp, o.sign, o.loss, Sig.omsb o.sig⟩) := by
    unfold fmaAddend
    have nz : z.isNonZero = true := by unfold isNonZero isZero; rw [cz]; rfl
    rw [if_pos nz]
    dsimp only
    rw [ew, M.ok_bind]
    dsimp only
    rw [show 2 * S.precision + 1 - 1 - S.precision = S.precision by omega, x1, M.ok_bind]
    dsimp only
    rw [i32_ok (by omega) (by omega), M.ok_bind, he]
    unfold isNegative Sig.addOrSub
    have hxor : (s ^^ z.sign) = true := by rw [hs]; cases s <;> rfl
    rw [i32_ok (by omega) (by omega), M.ok_bind, if_pos hxor]
    unfold Sig.subAlign
    rw [if_neg (by omega), if_neg (by omega), show (-(e - (z.exp + 1)) - 1).toNat = j by omega, r1, M.ok_bind]
    dsimp only
    rw [y1, M.ok_bind]
    dsimp only
    rw [M.ok_bind]
    dsimp only
    rw [show e + (j : ℤ) = S.minExp by omega, decide_eq_true hLne]
    rfl
  refine ⟨q, 2 * val x, (t : ℚ) / 2 ^ j, g0, g1, ?_, hs, by rw [qw, wval], zval, hle, fun heq => ?_, fun hne => ?_⟩
  · have := Nat.div_le_self (val w) (2 ^ j); omega
  · rw [hadd, cmp_ok r3 y3 hlen, M.ok_bind, if_neg (by rw [compare_lt_iff_lt]; omega)]
    obtain ⟨d, o, d1, d2, d3, d4, d5⟩ := sub_ok r3 y3 hlen (c := 1) (le_refl _)
    rw [d1, M.ok_bind]
    dsimp only
    rw [massert_neg' (by rintro rfl; omega)]
    rfl
  · have inv := lossIs_invert hL hLne
    have inv0 : Sig.invertLoss (lossOf t (2 ^ j)) ≠ .exactlyZero := fun e => hLne (invertLoss_zero.1 e)
    rcases Nat.lt_or_ge q (2 * val x) with hc | hc
    · obtain ⟨d, d1, d2, d3, d4⟩ := sub_ok_fit y3 r3 hlen.symm (c := 1) (le_refl _) (by omega)
      refine ⟨⟨d, S.minExp, !s, Sig.invertLoss (lossOf t (2 ^ j)), Sig.omsb d⟩, ?_, d3, ?_, omsb_eq d3, inv, inv0, rfl, ?_, ?_⟩
      · rw [hadd, cmp_ok r3 y3 hlen, M.ok_bind, if_pos (by rw [compare_lt_iff_lt]; omega), d1, M.ok_bind]
        dsimp only
        rw [massert_pos rfl]
        rfl
      · show d.length = 2
        rw [d2, y2, xl]; rfl
      · show val d = _
        omega
      · rw [if_pos hc]
    · obtain ⟨d, d1, d2, d3, d4⟩ := sub_ok_fit r3 y3 hlen (c := 1) (le_refl _) (by omega)
      refine ⟨⟨d, S.minExp, s, Sig.invertLoss (lossOf t (2 ^ j)), Sig.omsb d⟩, ?_, d3, ?_, omsb_eq d3, inv, inv0, rfl, ?_, ?_⟩
      · rw [hadd, cmp_ok r3 y3 hlen, M.ok_bind, if_neg (by rw [compare_lt_iff_lt]; omega), d1, M.ok_bind]
        dsimp only
        rw [massert_pos rfl]
        rfl
      · show d.length = 2
        rw [d2, r2, lw2]
      · show val d = _
        omega
      · rw [if_neg (by omega)]
/-- `fmaFinish` when nothing but a lost fraction is left: the fraction is taken for one of the smallest subnormal number. -/
theorem fmaFinish_zero (h : S.OK) {x : IeeeFloat S} (cx : x.category = .normal) {mid : FmaMid} {f : ℚ} {mode : Round}
    (m1 : Limbs mid.wide) (m2 : mid.wide.length = 2) (m3 : mid.omsb = Nat.size (val mid.wide)) (m4 : LossIs mid.loss f)
    (e1 : mid.exp = S.minExp) (hx : x.sign = mid.sign) (h0 : val mid.wide = 0) (hne : mid.loss ≠ .exactlyZero)
    (hO : DirectedOK S mode (signed mid.sign (f * 2 ^ (S.minExp - S.precision + 1)))) :
    Good S mode (signed mid.sign (f * 2 ^ (S.minExp - S.precision + 1))) mid.sign (fmaFinish x mid mode) := by
  have hpl := h.p_le; have hpg := h.p_ge; have h4 := h.pow_le
  have hmin := h.min_lt; have hmin' := h.min_ge
  unfold fmaFinish
  rw [asI32_of_lt (by omega), i32_ok (by omega) (by omega), M.ok_bind, i32_ok (by omega) (by omega), M.ok_bind]
  rw [h0] at m3
  simp only [Nat.size_zero] at m3
  rw [if_neg (by omega), M.ok_bind]
  dsimp only
  rw [idx_two_zero m1 m2 (by rw [h0]; norm_num), M.ok_bind, h0]
  apply orInexact_good
  · rw [← hx]
    refine normalize_eff' h (x := { x with sig := 0, exp := mid.exp - (S.precision + 1) }) cx
      (by norm_num) (by simp only []; omega) (by simp only []; omega) m4
      (fun _ hh => absurd rfl hh) ?_ (.of (by rw [hx]; exact hO))
    simp
  · intro _
    rw [grid_signed]
    have := not_grid_of_frac_low (F := S.fmt) (n := 0) (e := S.minExp) (f := f) (le_refl _) (m4.pos hne) m4.lt_one
    simpa using this

/-- What the code rounds instead of `P + z` on excluded operands, where it does not panic. -/
def fmaTaken (S : Sem) (P z : ℚ) : ℚ :=
  if fmaGap S P z = 1 then signed (decide (P < 0)) ((1 - fmaRest S P) * 2 ^ (S.minExp - S.precision + 1))
  else if fmaGap S P z = -1 then signed (!decide (P < 0)) ((1 - fmaRest S P) * 2 ^ (S.minExp - S.precision + 1))
  else signed (decide (P < 0)) ((fmaGap S P z - fmaRest S P) * fmaUnit S)

theorem fmaUnit_pos (S : Sem) : 0 < fmaUnit S := two_zpow_pos _

/-- Gap and rest, read off the operands. -/
theorem fmaGap_eq {q x2 : ℕ} {g : ℚ} {s s' : Bool} (g0 : 0 < g) (g1 : g < 1) {P z : ℚ} (hP : P = signed s ((q + g) * fmaUnit S))
    (hz : z = signed s' (x2 * fmaUnit S)) : fmaGap S P z = q - x2 ∧ fmaRest S P = g := by
  have hu := fmaUnit_pos S
  have e1 : |P| / fmaUnit S = q + g := by
    rw [hP, abs_signed _ (by positivity)]; field_simp
  have e2 : |z| / fmaUnit S = x2 := by
    rw [hz, abs_signed _ (by positivity)]; field_simp
  have e3 : ⌊(q : ℚ) + g⌋ = q := by
    rw [Int.floor_eq_iff]; constructor <;> push_cast <;> linarith
  unfold fmaGap fmaRest
  rw [e1, e2, e3]
  constructor
  · simp
  · push_cast; ring

theorem lt_zero_signed {s : Bool} {a : ℚ} (ha : 0 < a) : decide (signed s a < 0) = s := by
  cases s
  · simp [signed, ha.le]
  · simp [signed, ha]

set_option maxHeartbeats 1000000 in
/-- `mul_add_r` on excluded operands. -/
theorem fmaNormals_excluded (h : S.OK) {x m z : IeeeFloat S} (hx : x.Valid) (hm : m.Valid) (hz : z.Valid)
    (cx : x.category = .normal) (cm : m.category = .normal) (fz : z.isFinite = true) (mode : Round)
    (hE : FmaExcluded S (x.toRat * m.toRat) z.toRat) :
    (∃ (q x2 : ℕ) (g : ℚ) (s : Bool), 0 < g ∧ g < 1 ∧ q < 2 ^ (2 * S.precision) ∧ x.toRat * m.toRat = signed s ((q + g) * fmaUnit S) ∧
      z.toRat = signed (!s) (x2 * fmaUnit S) ∧ x2 ≤ q + 1) ∧
    (fmaGap S (x.toRat * m.toRat) z.toRat = 0 → fmaNormals x m z mode = .error .assert) ∧
    (fmaGap S (x.toRat * m.toRat) z.toRat ≠ 0 → ∃ r, fmaNormals x m z mode = .ok r ∧ r.value.Valid ∧
      Rounds S mode (fmaTaken S (x.toRat * m.toRat) z.toRat) (zeroSum mode (xor x.sign m.sign) z.sign) r) := by
  have hpl := h.p_le; have hpg := h.p_ge; have h4 := h.pow_le
  have hmin := h.min_lt; have hmin' := h.min_ge; have hmax := h.max_le; have h2 := h.two_pow
  obtain ⟨v1, v2, v3, v4, v5, v6⟩ := hx.normal cx
  obtain ⟨u1, u2, u3, u4, u5, u6⟩ := hm.normal cm
  obtain ⟨wide, w1, w2, w3, w4⟩ := wideningMul_ok (a := x.sig) (b := m.sig) (by omega) (by omega)
  have hpos : 0 < val wide := by rw [w4]; exact Nat.mul_pos v3 u3
  have hlt : val wide < 2 ^ (2 * S.precision) := by
    rw [w4, two_mul, pow_add]; exact Nat.mul_lt_mul'' v4 u4
  obtain ⟨s, hs⟩ : ∃ s, xor x.sign m.sign = s := ⟨_, rfl⟩
  have hP : x.toRat * m.toRat = signed s ((val wide : ℚ) * 2 ^ (x.exp + m.exp + 2 - 2 * S.precision)) := by
    rw [toRat_normal cx, toRat_normal cm, ← hs, w4]
    have : (2 : ℚ) ^ (x.exp + m.exp + 2 - 2 * S.precision) = 2 ^ (x.exp - S.precision + 1) * 2 ^ (m.exp - S.precision + 1) := by
      rw [← two_zpow_add]; congr 1; ring
    rw [this]
    push_cast
    cases x.sign <;> cases m.sign <;> simp [signed] <;> ring
  have cz : z.category = .normal := by
    rcases isFinite_iff.1 fz with c | c
    · exact c
    · have := hE.1
      rw [toRat_zero c] at this
      simp at this
  have hE' := hE
  rw [hP] at hE'
  obtain ⟨q, x2, g, g0, g1, hq, zs, pv, zv, hle, hpan, hok⟩ := fmaAddend_excluded h w3 w2 hpos hlt (by omega) (by omega) hz cz hE'
  have hP' : x.toRat * m.toRat = signed s ((q + g) * fmaUnit S) := by rw [hP, pv]
  obtain ⟨hgap, hrest⟩ := fmaGap_eq g0 g1 hP' zv
  have hu := fmaUnit_pos S
  have hneg : decide (x.toRat * m.toRat < 0) = s := by rw [hP']; exact lt_zero_signed (by positivity)
  have en : (x.negateIf m.isNegative).isNegative = s := by rw [negateIf_eq]; exact hs
  have e : fmaNormals x m z mode = (do
      let mid ← fmaAddend S wide (x.exp + m.exp + 2) s (Nat.size (val wide)) z
      let r ← fmaFinish ((x.negateIf m.isNegative).withSign mid.sign) mid mode
      if r.value.category = .zero ∧ r.status.underflow = false ∧ r.value.isNegative ≠ z.isNegative then
        .ok (r.map (·.withSign (mode = .towardNegative)))
      else .ok r) := by
    unfold fmaNormals
    dsimp only
    rw [massert_pos (by unfold limbsForBits; omega), M.ok_bind]
    rw [show (x.negateIf m.isNegative).sig = x.sig by rw [negateIf_eq], show (x.negateIf m.isNegative).exp = x.exp by rw [negateIf_eq],
      w1, M.ok_bind, i32_ok (by omega) (by omega), M.ok_bind, i32_ok (by omega) (by omega), M.ok_bind, omsb_eq w3, en]
  refine ⟨⟨q, x2, g, s, g0, g1, hq, hP', zv, hle⟩, fun hg => ?_, fun hg => ?_⟩
  · rw [e, hpan (by omega)]
    rfl
  · obtain ⟨mid, m0, m1, m2, m3, m4, m5, m6, m7, m8⟩ := hok (by omega)
    -- the magnitude that is rounded
    have key : ∃ a, 0 < a ∧ a < 2 ^ S.minExp ∧ fmaTaken S (x.toRat * m.toRat) z.toRat = signed mid.sign a ∧
        Good S mode (signed mid.sign a) mid.sign (fmaFinish ((x.negateIf m.isNegative).withSign mid.sign) mid mode) := by
      have hL : (2 : ℚ) ^ S.minExp ≤ S.fmt.largest := by
        have := smallestNormal_le_largest h
        exact this
      have dok : ∀ {b : Bool} {a : ℚ}, 0 < a → a < 2 ^ S.minExp → DirectedOK S mode (signed b a) := by
        intro b a ha ha'
        apply directedOK_of_ge h
        cases b <;> simp only [signed, if_true, if_false, Bool.false_eq_true] <;> linarith
      by_cases h0 : val mid.wide = 0
      · refine ⟨(1 - g) * 2 ^ (S.minExp - S.precision + 1), mul_pos (by linarith) (two_zpow_pos _), ?_, ?_, ?_⟩
        · have e1 : (2 : ℚ) ^ (S.minExp - S.precision + 1) ≤ 2 ^ S.minExp := zpow_le_zpow_right₀ (by norm_num) (by omega)
          have e2 := two_zpow_pos (S.minExp - S.precision + 1)
          nlinarith
        · unfold fmaTaken
          rw [hgap, hrest, hneg]
          rcases Nat.lt_or_ge q x2 with c | c
          · rw [if_pos c] at m8
            rw [if_neg (by omega), if_pos (by omega), m8]
          · rw [if_neg (by omega)] at m8
            rw [if_pos (by omega), m8]
        · refine fmaFinish_zero h (by rw [withSign_eq, negateIf_eq]; exact cx) m1 m2 m3 m4 m6 (by rw [withSign_eq]) h0 m5 (dok ?_ ?_)
          · exact mul_pos (by linarith) (two_zpow_pos _)
          · have e1 : (2 : ℚ) ^ (S.minExp - S.precision + 1) ≤ 2 ^ S.minExp := zpow_le_zpow_right₀ (by norm_num) (by omega)
            have e2 := two_zpow_pos (S.minExp - S.precision + 1)
            nlinarith
      · have hqx : x2 + 1 < q := by omega
        have hv : (((val mid.wide : ℕ) : ℚ) + (1 - g)) * 2 ^ (mid.exp - 2 * S.precision) = (((q - x2 : ℤ) : ℚ) - g) * fmaUnit S := by
          rw [m7, m6]
          have : ((q - x2 - 1 : ℕ) : ℚ) = q - x2 - 1 := by
            rw [Nat.sub_sub, Nat.cast_sub (by omega)]; push_cast; ring
          rw [this]
          unfold fmaUnit
          push_cast
          ring
        have hgt : (0 : ℚ) < ((q - x2 : ℤ) : ℚ) - g := by
          have : (1 : ℚ) < q - x2 := by
            have : ((x2 + 1 : ℕ) : ℚ) < q := by exact_mod_cast hqx
            push_cast at this; linarith
          push_cast; linarith
        have hb : (((q - x2 : ℤ) : ℚ) - g) * fmaUnit S < 2 ^ S.minExp := by
          have e1 : ((q - x2 : ℤ) : ℚ) - g < 2 ^ (2 * S.precision) := by
            have : (q : ℚ) < 2 ^ (2 * S.precision) := by exact_mod_cast hq
            have : (0 : ℚ) ≤ x2 := by positivity
            push_cast; linarith
          have e2 : (2 : ℚ) ^ S.minExp = 2 ^ (2 * S.precision) * fmaUnit S := by
            unfold fmaUnit
            rw [← zpow_natCast, ← two_zpow_add]; congr 1; push_cast; ring
          rw [e2]
          exact mul_lt_mul_of_pos_right e1 hu
        rw [if_neg (by omega)] at m8
        refine ⟨(((q - x2 : ℤ) : ℚ) - g) * fmaUnit S, mul_pos hgt hu, hb, ?_, ?_⟩
        · unfold fmaTaken
          rw [hgap, hrest, hneg, if_neg (by omega), if_neg (by omega), m8]
        · refine fmaFinish_eff h (by rw [withSign_eq, negateIf_eq]; exact cx) m1 m2 m3 m4 (by omega) (by omega) (by rw [withSign_eq])
            (by rw [hv]) (fun _ => Or.inr (by omega)) (fun _ => h0) (.of (dok (mul_pos hgt hu) hb))
    obtain ⟨a, a0, -, a2, a3⟩ := key
    obtain ⟨r, r1, r2, r3, r4⟩ := a3
    have hne : signed mid.sign a ≠ 0 := by
      rw [Ne, signed_eq_zero]; exact a0.ne'
    refine ⟨r, ?_, r2, ?_⟩
    · rw [e, m0, M.ok_bind, r1, M.ok_bind, if_neg]
      rintro ⟨c1, c2, -⟩
      exact hne (exact_of_no_underflow h c1 r4 c2).1
    · obtain ⟨r', q1, q2, q3⟩ := Good.rounds (zs := zeroSum mode (xor x.sign m.sign) z.sign) (res := .ok r)
        (⟨r, rfl, r2, r3, r4⟩ : Good S mode (signed mid.sign a) mid.sign (.ok r)) ⟨a, a0.le, rfl⟩ (fun hv0 => absurd hv0 hne)
      injection q1 with q1
      subst q1
      rw [a2]
      exact q3

end Apf
