import Verif.Props.PpcRange
import Verif.Props.CompareBy
/-!
# C133: the sign of a difference of pairs
-/

namespace Apf
open Spec IeeeFloat
variable {S : Sem}

/-- Rounding the sum of the low parts of numbers of the doubled format loses nothing that would leave zero: the larger number positive. -/
theorem low_sum_exact_aux {F : Fmt} (hp : 4 ≤ F.p) {a aa c cc zz : ℚ} (h1 : RN F (a + aa) a) (h2 : RN F (c + cc) c) (gx : F.doubled.Grid (a + aa))
    (gy : F.doubled.Grid (c + cc)) (hle : |c + cc| ≤ |a + aa|) (x0 : 0 < a + aa) (h3 : RN F (aa + cc) zz) (h4 : a + c + zz = 0) : aa + cc = zz := by
  have dp : F.doubled.p = F.p + F.p := by simp [Fmt.doubled]; ring
  have db : F.doubled.emin - F.doubled.p + 1 = F.emin - F.p + 1 := by simp [Fmt.doubled]; ring
  obtain ⟨k, k1, k2, k3, k4⟩ := exists_unit (F := F.doubled) (by omega) gy
  have kx : Mult k (a + aa) := mult_of_unit k4 gx hle
  rw [db] at k1 k4
  rw [dp] at k3
  push_cast at k3
  have ka := RN.mult (by omega) h1 k1 kx
  have kc := RN.mult (by omega) h2 k1 k2
  have ks : Mult k (aa + cc) := by
    have := (kx.add k2).sub (ka.add kc)
    rwa [show a + aa + (c + cc) - (a + c) = aa + cc by ring] at this
  by_contra hne
  have big : (2 : ℚ) ^ (F.p + k) < |aa + cc| := by
    by_contra q
    exact hne (h3.exact (grid_of_mult (by omega) ks k1 (not_lt.1 q))).symm
  have bcc : |cc| ≤ 2 ^ (F.p + k - 1) := by
    have := h2.half_unit (by omega) (k := F.p + k) (by omega) (by rw [← add_assoc]; exact k3.le)
    rwa [add_sub_cancel_left] at this
  have hh : (2 : ℚ) ^ (F.p + k) = 2 * 2 ^ ((F.p : ℤ) + k - 1) := by
    rw [show (F.p : ℤ) + k = 1 + (F.p + k - 1) by ring, two_zpow_add 1 _]; norm_num
  have hd : (2 : ℚ) ^ ((F.p : ℤ) + k + 1) = 2 * 2 ^ ((F.p : ℤ) + k) := by
    rw [show (F.p : ℤ) + k + 1 = 1 + (F.p + k) by ring, two_zpow_add 1 _]; norm_num
  have q0 := two_zpow_pos ((F.p : ℤ) + k - 1)
  have tri := abs_add_le aa cc
  have gT : F.Grid (2 ^ ((F.p : ℤ) + F.p + k)) := grid_two_pow (by omega) (by omega)
  rcases le_or_gt (a + aa) (2 ^ ((F.p : ℤ) + F.p + k)) with c1 | c1
  · have := h1.half_unit (by omega) (k := F.p + k) (by omega) (by rw [abs_of_pos x0, ← add_assoc]; exact c1)
    rw [add_sub_cancel_left] at this
    linarith
  -- the larger number lies above
  set T : ℚ := 2 ^ ((F.p : ℤ) + F.p + k) with hT
  have T0 : 0 < T := two_zpow_pos _
  have aT : T ≤ a := h1.ge_of_grid gT c1.le
  have cT := RN.abs_le h2 gT k3.le
  have cT' := (_root_.abs_le.1 cT).1
  have g2 : F.Grid (2 ^ ((F.p : ℤ) + k)) := grid_two_pow (by omega) (by omega)
  have zb := RN.le_abs h3 g2 big.le
  have zneg : zz ≤ 0 := by linarith
  rw [abs_of_nonpos zneg] at zb
  have sneg : aa + cc < 0 := by
    by_contra q
    have := h3.ge_of_grid grid_zero (not_lt.1 q)
    linarith
  rw [abs_of_neg sneg] at big
  have ccb := _root_.abs_le.1 bcc
  have aan : aa < 0 := by linarith
  have aT2 : T < a := by linarith
  have step : T + 2 ^ ((F.p : ℤ) + k + 1) ≤ a := by
    have eT : T = 2 ^ ((F.p : ℤ) - 1 + (F.p + k + 1)) := by rw [hT]; congr 1; ring
    obtain ⟨i, hi⟩ := mult_of_grid_ge h1.1 (k := F.p + k + 1) (by rw [← eT, abs_of_pos (by linarith)]; exact aT)
    obtain ⟨j, hj⟩ := mult_of_grid_ge gT (k := F.p + k + 1) (by rw [← eT, abs_of_pos T0])
    have u0 := two_zpow_pos ((F.p : ℤ) + k + 1)
    rw [hi, hj] at aT2 ⊢
    have : (j : ℚ) < i := lt_of_mul_lt_mul_right aT2 u0.le
    have : (j : ℚ) + 1 ≤ i := by exact_mod_cast this
    nlinarith
  rcases le_or_gt (a + aa) (2 ^ ((F.p : ℤ) + (F.p + k + 1))) with c2 | c2
  · have e := h1.half_unit (by omega) (k := F.p + k + 1) (by omega) (by rw [abs_of_pos x0]; exact c2)
    rw [add_sub_cancel_left, add_sub_cancel_right] at e
    have g3 : F.Grid (3 * 2 ^ ((F.p : ℤ) + k - 1)) := by
      refine ⟨3, F.p + k - 1, ?_, by omega, by push_cast; rfl⟩
      calc |(3 : ℤ)| = 3 := rfl
        _ < 2 ^ 2 := by norm_num
        _ ≤ 2 ^ F.p := pow_le_pow_right₀ (by norm_num) (by omega)
    have := RN.abs_le h3 g3 (by linarith)
    rw [abs_of_nonpos zneg] at this
    linarith
  · have e2 : (2 : ℚ) ^ ((F.p : ℤ) + (F.p + k + 1)) = 2 * T := by
      rw [hT, show (F.p : ℤ) + (F.p + k + 1) = 1 + (F.p + F.p + k) by ring, two_zpow_add 1 _]; norm_num
    rw [e2] at c2
    have n := h3.2.1 0 grid_zero
    rw [sub_zero, abs_of_neg sneg] at n
    have n' := _root_.abs_le.1 n
    have u1 : (2 : ℚ) ^ (-(F.p : ℤ)) ≤ 1 / 16 := by
      have : (2 : ℚ) ^ (-(F.p : ℤ)) ≤ 2 ^ (-4 : ℤ) := two_zpow_le (by omega)
      norm_num at this ⊢
      exact this
    have ra := h1.rel (by omega) (kx.mono k1)
    rw [add_sub_cancel_left, abs_of_pos x0] at ra
    have ra' := (_root_.abs_le.1 ra).1
    have := mul_le_mul_of_nonneg_right u1 x0.le
    have pT : (2 : ℚ) ^ ((F.p : ℤ) + k - 1) ≤ T / 16 := by
      have : (2 : ℚ) ^ ((F.p : ℤ) + k - 1) * 2 ^ (4 : ℤ) ≤ T := by
        rw [← two_zpow_add, hT]; exact two_zpow_le (by omega)
      norm_num at this
      linarith
    linarith

theorem low_sum_exact {F : Fmt} (hp : 4 ≤ F.p) {a aa c cc zz : ℚ} (h1 : RN F (a + aa) a) (h2 : RN F (c + cc) c) (gx : F.doubled.Grid (a + aa))
    (gy : F.doubled.Grid (c + cc)) (h3 : RN F (aa + cc) zz) (h4 : a + c + zz = 0) : aa + cc = zz := by
  have neg : ∀ {a aa c cc zz : ℚ}, RN F (a + aa) a → RN F (c + cc) c → F.doubled.Grid (a + aa) → F.doubled.Grid (c + cc) → |c + cc| ≤ |a + aa| →
      RN F (aa + cc) zz → a + c + zz = 0 → aa + cc = zz := fun {a aa c cc zz} h1 h2 gx gy hle h3 h4 => by
    rcases lt_trichotomy (a + aa) 0 with q | q | q
    · have := low_sum_exact_aux hp (a := -a) (aa := -aa) (c := -c) (cc := -cc) (zz := -zz) (by have := RN.neg h1; rwa [neg_add] at this)
        (by have := RN.neg h2; rwa [neg_add] at this) (by have := gx.neg; rwa [neg_add] at this) (by have := gy.neg; rwa [neg_add] at this)
        (by rw [← neg_add, ← neg_add, abs_neg, abs_neg]; exact hle) (by linarith) (by have := RN.neg h3; rwa [neg_add] at this) (by linarith)
      linarith
    · rw [q, abs_zero] at hle
      have q' := abs_nonpos_iff.1 hle
      rw [q] at h1
      rw [q'] at h2
      have e1 := h1.exact grid_zero
      have e2 := h2.exact grid_zero
      linarith
    · exact low_sum_exact_aux hp h1 h2 gx gy hle q h3 h4
  rcases le_total |c + cc| |a + aa| with q | q
  · exact neg h1 h2 gx gy q h3 h4
  · have := neg h2 h1 gy gx q (by rwa [add_comm cc aa]) (by linarith)
    linarith

/-- The sum of canonical pairs has no wrong sign. -/
theorem pair_sum_sign (h : S.Pair) (hp : 4 ≤ S.precision) {x y : DoubleFloat S} (hx : x.Valid) (cx : x.Canonical) (hy : y.Valid) (cy : y.Canonical)
    (bx : |x.toRat| ≤ 2 ^ (S.maxExp - 2)) (bY : |y.toRat| ≤ 2 ^ (S.maxExp - 2)) :
    ∃ r, x.addR y .nearestTiesToEven = .ok r ∧ r.value.Valid ∧ r.value.Canonical ∧
      (x.toRat + y.toRat ≤ 0 → r.value.toRat ≤ 0) ∧ (0 ≤ x.toRat + y.toRat → 0 ≤ r.value.toRat) ∧
      ((S.fmt.doubled.Grid x.toRat ∧ S.fmt.doubled.Grid y.toRat ∨ x.hi.toRat + y.hi.toRat = 0 ∨
          5 * 2 ^ (-2 * (S.precision : ℤ)) * (|x.toRat| + |y.toRat|) < |x.toRat + y.toRat|) →
        r.value.toRat = 0 → x.toRat + y.toRat = 0) := by
  have hok := h.ok
  have hpm := hok.p_max; have hmin := hok.min_lt
  have hfp : S.fmt.p = S.precision := rfl
  have hfe : S.fmt.emin = S.minExp := rfl
  obtain ⟨r, r1, r2, r3, r4, -⟩ := C57_add_partial h hp hx cx hy cy bx bY
  refine ⟨r, r1, r2, r3, ?_⟩
  -- where the error is small against the sum
  have far : 5 * 2 ^ (-2 * (S.precision : ℤ)) * (|x.toRat| + |y.toRat|) < |x.toRat + y.toRat| →
      (x.toRat + y.toRat ≤ 0 → r.value.toRat ≤ 0) ∧ (0 ≤ x.toRat + y.toRat → 0 ≤ r.value.toRat) ∧ (r.value.toRat = 0 → x.toRat + y.toRat = 0) := fun c => by
    have k := _root_.abs_le.1 r4
    refine ⟨fun d => ?_, fun d => ?_, fun d => ?_⟩
    · rw [abs_of_nonpos d] at c; linarith
    · rw [abs_of_nonneg d] at c; linarith
    · exfalso
      rw [d, zero_sub, abs_neg] at r4
      linarith
  suffices key : (5 * 2 ^ (-2 * (S.precision : ℤ)) * (|x.toRat| + |y.toRat|) < |x.toRat + y.toRat|) ∨ r.value.toRat = x.toRat + y.toRat ∨
      ∃ z zz, S.fmt.Grid z ∧ RN S.fmt (x.lo.toRat + y.lo.toRat) zz ∧ x.toRat + y.toRat = z + (x.lo.toRat + y.lo.toRat) ∧ r.value.toRat = z + zz ∧
        z = x.hi.toRat + y.hi.toRat by
    rcases key with k | k | ⟨z, zz, k1, k2, k3, k4, k5⟩
    · obtain ⟨a, b, c⟩ := far k
      exact ⟨a, b, fun _ => c⟩
    · rw [k]
      exact ⟨id, id, fun _ => id⟩
    · refine ⟨fun d => ?_, fun d => ?_, fun d e => ?_⟩
      · have := k2.le_of_grid k1.neg (by linarith)
        linarith
      · have := k2.ge_of_grid k1.neg (by linarith)
        linarith
      · rcases d with d | d | d
        · have := low_sum_exact (F := S.fmt) (by omega) cx.2 cy.2 d.1 d.2 k2 (by rw [← k5, ← k4]; exact e)
          rw [k3, this, ← k4]; exact e
        · have z0 : z = 0 := k5.trans d
          have zz0 : zz = 0 := by linarith
          -- a rounding to zero of a multiple of the smallest number
          have gm : S.fmt.Grid (2 ^ (S.minExp - S.precision + 1)) := grid_two_pow (by omega) le_rfl
          have u0 : (0 : ℚ) < 2 ^ (S.minExp - S.precision + 1) := by positivity
          obtain ⟨a, ha⟩ := (mult_of_grid (grid_toRat hok hx.2 cx.1.2)).add (mult_of_grid (grid_toRat hok hy.2 cy.1.2))
          change x.lo.toRat + y.lo.toRat = a * 2 ^ (S.minExp - S.precision + 1) at ha
          rw [k3, z0, zero_add]
          rcases lt_trichotomy a 0 with c | c | c
          · exfalso
            have c' : (a : ℚ) ≤ -1 := by exact_mod_cast (by omega : a ≤ -1)
            have := k2.le_of_grid gm.neg (by rw [ha]; nlinarith)
            linarith
          · rw [ha, c]; simp
          · exfalso
            have c' : (1 : ℚ) ≤ a := by exact_mod_cast (by omega : 1 ≤ a)
            have := k2.ge_of_grid gm (by rw [ha]; nlinarith)
            linarith
        · exact (far d).2.2 e
  have zero : ∀ {x : DoubleFloat S}, x.Valid → x.Canonical → x.hi.category = .zero → x.toRat = 0 := by
    intro x hx cx c
    have h0 := toRat_zero c
    unfold DoubleFloat.toRat
    rw [h0, Canonical.low_zero hok hx cx h0, add_zero]
  rcases isFinite_iff.1 cx.1.1 with c1 | c1
  · rcases isFinite_iff.1 cy.1.1 with c2 | c2
    · have hB : S.fmt.Grid (2 ^ (S.maxExp - 2)) := grid_two_pow (by omega) (by rw [hfp, hfe]; omega)
      have ba := RN.abs_le cx.2 hB bx
      have bc := RN.abs_le cy.2 hB bY
      have e4 : (2 : ℚ) ^ (S.maxExp - 2) * 2 = 2 ^ (S.maxExp - 2 + 1) := by rw [two_zpow_add (S.maxExp - 2) 1, zpow_one]
      have gB : S.fmt.Grid (2 ^ (S.maxExp - 2 + 1)) := grid_two_pow (by omega) (by rw [hfp, hfe]; omega)
      obtain ⟨z, z1, z2, z3, z4⟩ := add_step hok hx.1 cx.1.1 hy.1 cy.1.1 gB (by
          have := grid_le_largest hok h.ieee gB (by rw [abs_of_pos (two_zpow_pos _)]; exact two_zpow_lt (by omega))
          rwa [abs_of_pos (two_zpow_pos _)] at this) ((abs_add_le _ _).trans (by linarith))
      obtain ⟨r', p1, -, -, w, zz, p4, p5, p6⟩ := addFinite_ok h hp (Status.OK ||| z.status) hx.1 cx.1.1 hx.2 cx.1.2 hy.1 cy.1.1 hy.2 cy.1.2 z2 z3 cx.2 cy.2 z4 ba bc
      have p0 : x.addR y .nearestTiesToEven = .ok r' := by
        unfold DoubleFloat.addR DoubleFloat.category
        simp only [c1, c2]
        rw [z1, M.ok_bind]
        rw [if_neg (by rw [z3]; decide)]
        exact p1
      rw [r1, Except.ok.injEq] at p0
      subst p0
      have g1 := grid_toRat hok hx.1 cx.1.1
      have g2 := grid_toRat hok hx.2 cx.1.2
      have g3 := grid_toRat hok hy.1 cy.1.1
      by_cases c : x.hi.toRat + y.hi.toRat = z.value.toRat
      · refine Or.inr (Or.inr ⟨z.value.toRat, zz, grid_toRat hok z2 z3, ?_, ?_, p6, c.symm⟩)
        · rw [c, sub_self, zero_add] at p4
          rwa [RN.exact p4 g2] at p5
        · unfold DoubleFloat.toRat
          rw [← c]; ring
      · left
        have l1 := low_sixteenth hok hp hx cx
        have l2 := low_sixteenth hok hp hy cy
        have ng : ¬ S.fmt.Grid (x.hi.toRat + y.hi.toRat) := fun k => c (RN.exact z4 k).symm
        have ux : |x.toRat| ≤ 17 / 16 * |x.hi.toRat| := by
          have := abs_add_le x.hi.toRat x.lo.toRat
          unfold DoubleFloat.toRat; linarith
        have uy : |y.toRat| ≤ 17 / 16 * |y.hi.toRat| := by
          have := abs_add_le y.hi.toRat y.lo.toRat
          unfold DoubleFloat.toRat; linarith
        have low : |x.hi.toRat + y.hi.toRat| - |x.lo.toRat| - |y.lo.toRat| ≤ |x.toRat + y.toRat| := by
          have e : x.hi.toRat + y.hi.toRat = (x.toRat + y.toRat) - (x.lo.toRat + y.lo.toRat) := by unfold DoubleFloat.toRat; ring
          have := abs_sub (x.toRat + y.toRat) (x.lo.toRat + y.lo.toRat)
          have := abs_add_le x.lo.toRat y.lo.toRat
          rw [e]; linarith
        have u1 : (2 : ℚ) ^ (-2 * (S.precision : ℤ)) ≤ 1 / 256 := by
          have : (2 : ℚ) ^ (-2 * (S.precision : ℤ)) ≤ 2 ^ (-8 : ℤ) := two_zpow_le (by omega)
          norm_num at this ⊢
          exact this
        have x0 : 0 < |x.hi.toRat| := abs_pos.2 (toRat_ne_zero hx.1 c1)
        have y0 : 0 < |y.hi.toRat| := abs_pos.2 (toRat_ne_zero hy.1 c2)
        have third : (|x.hi.toRat| + |y.hi.toRat|) / 3 ≤ |x.hi.toRat + y.hi.toRat| := by
          by_contra k
          push Not at k
          apply ng
          have ss : ∀ {a b : ℚ}, S.fmt.Grid a → S.fmt.Grid b → 0 < a → b < 0 → |a + b| < (a + -b) / 3 → S.fmt.Grid (a + b) := fun {a b} ga gb a0 b0 k => by
            have k' := abs_lt.1 k
            rcases le_total (-b) a with q | q
            · have := sterbenz ga gb.neg q (by linarith)
              rwa [sub_neg_eq_add] at this
            · have := (sterbenz gb.neg ga q (by linarith)).neg
              rwa [show -(-b - a) = a + b by ring] at this
          rcases lt_or_gt_of_ne (toRat_ne_zero hx.1 c1) with q | q <;> rcases lt_or_gt_of_ne (toRat_ne_zero hy.1 c2) with q' | q'
          · exfalso
            rw [abs_of_neg q, abs_of_neg q', abs_of_neg (by linarith)] at k; linarith
          · rw [abs_of_neg q, abs_of_pos q'] at k
            have := ss g3 g1 q' q (by rw [add_comm]; linarith)
            rwa [add_comm] at this
          · rw [abs_of_pos q, abs_of_neg q'] at k
            exact ss g1 g3 q q' k
          · exfalso
            rw [abs_of_pos q, abs_of_pos q', abs_of_pos (by linarith)] at k; linarith
        have := mul_le_mul_of_nonneg_right u1 (add_nonneg (abs_nonneg x.toRat) (abs_nonneg y.toRat))
        linarith
    · have e := zero hy cy c2
      have p0 : x.addR y .nearestTiesToEven = .ok (Status.OK.and x) := by unfold DoubleFloat.addR DoubleFloat.category; simp only [c1, c2]
      rw [r1, Except.ok.injEq] at p0
      subst p0
      exact Or.inr (Or.inl (by show x.toRat = _; rw [e, add_zero]))
  · have e := zero hx cx c1
    rcases isFinite_iff.1 cy.1.1 with c2 | c2
    · have p0 : x.addR y .nearestTiesToEven = .ok (Status.OK.and y) := by unfold DoubleFloat.addR DoubleFloat.category; simp only [c1, c2]
      rw [r1, Except.ok.injEq] at p0
      subst p0
      exact Or.inr (Or.inl (by show y.toRat = _; rw [e, zero_add]))
    · have p0 : x.addR y .nearestTiesToEven = .ok (Status.OK.and x) := by unfold DoubleFloat.addR DoubleFloat.category; simp only [c1, c2]
      rw [r1, Except.ok.injEq] at p0
      subst p0
      exact Or.inr (Or.inl (by show x.toRat = _; rw [zero hy cy c2, add_zero]))
/-- **C133.** The computed difference of canonical pairs is zero or compares with zero as they do with each other. It is zero only for equal pairs if both have
at most `2p` bits, if the leading parts are equal, or if the exact difference is more than the fraction `5 * 2^(-2p)` of the magnitudes. -/
theorem C133_difference (h : S.Pair) (hp : 4 ≤ S.precision) {x y : DoubleFloat S} (hx : x.Valid) (cx : x.Canonical) (hy : y.Valid) (cy : y.Canonical)
    (bx : |x.toRat| ≤ 2 ^ (S.maxExp - 2)) (bY : |y.toRat| ≤ 2 ^ (S.maxExp - 2)) :
    ∃ r o, x.subR y .nearestTiesToEven = .ok r ∧ r.value.Valid ∧ r.value.Canonical ∧ r.value.partialCmp (DoubleFloat.ZERO S) = .ok (some o) ∧
      (o = .eq ∨ x.partialCmp y = .ok (some o)) ∧
      (x.Fits ∧ y.Fits ∨ x.hi.toRat = y.hi.toRat ∨ 5 * 2 ^ (-2 * (S.precision : ℤ)) * (|x.toRat| + |y.toRat|) < |x.toRat - y.toRat| →
        x.partialCmp y = .ok (some o)) := by
  obtain ⟨n1, n2⟩ := neg_canonical hy cy
  obtain ⟨m1, -⟩ := C43_neg cy.1
  obtain ⟨r, r1, r2, r3, r4, r5, r6⟩ := pair_sum_sign h hp hx cx n1 n2 bx (by rw [m1, abs_neg]; exact bY)
  have hh : y.neg.hi.toRat = -y.hi.toRat := by
    rw [show y.neg.hi = y.hi.neg by unfold DoubleFloat.neg; split_ifs <;> rfl, neg_toRat]
  rw [m1, ← sub_eq_add_neg] at r4 r5 r6
  rw [hh, abs_neg, ← sub_eq_add_neg] at r6
  have z0 : (DoubleFloat.ZERO S).toRat = 0 := by
    show (IeeeFloat.ZERO S).toRat + (IeeeFloat.ZERO S).toRat = 0
    rw [toRat_zero (x := IeeeFloat.ZERO S) rfl, add_zero]
  have zc : (DoubleFloat.ZERO S).Canonical := by
    refine ⟨⟨rfl, rfl⟩, ?_⟩
    rw [z0]
    show IsRounded S.fmt .nearestTiesToEven 0 (IeeeFloat.ZERO S).toRat
    rw [toRat_zero (x := IeeeFloat.ZERO S) rfl]
    exact isRounded_self _ grid_zero
  have e1 := partialCmp_canonical h.ok r2 (show (DoubleFloat.ZERO S).Valid from ⟨rfl, rfl⟩) r3 zc
  have e2 := partialCmp_canonical h.ok hx hy cx cy
  rw [z0] at e1
  refine ⟨r, _, r1, r2, r3, e1, ?_, fun c => ?_⟩
  · rw [e2]
    rcases lt_trichotomy r.value.toRat 0 with k | k | k
    · right
      rw [compare_lt_iff_lt.2 k, compare_lt_iff_lt.2 (not_le.1 fun q => absurd (r5 (sub_nonneg.2 q)) (not_le.2 k))]
    · left; rw [k]; exact compare_eq_iff_eq.2 rfl
    · right
      rw [compare_gt_iff_gt.2 k, compare_gt_iff_gt.2 (not_le.1 fun q => absurd (r4 (sub_nonpos.2 q)) (not_le.2 k))]
  · have s := r6 (c.imp (fun q => ⟨q.1.2.2, q.2.2.2.neg⟩) (fun c => c.imp (fun q => by linarith) id))
    rw [e2]
    rcases lt_trichotomy r.value.toRat 0 with k | k | k
    · rw [compare_lt_iff_lt.2 k, compare_lt_iff_lt.2 (not_le.1 fun q => absurd (r5 (sub_nonneg.2 q)) (not_le.2 k))]
    · rw [compare_eq_iff_eq.2 k, compare_eq_iff_eq.2 (by linarith [s k])]
    · rw [compare_gt_iff_gt.2 k, compare_gt_iff_gt.2 (not_le.1 fun q => absurd (r4 (sub_nonpos.2 q)) (not_le.2 k))]

example := C133_difference doubleS_pair (by decide) fits_example.1.1 fits_example.1.2.1 fits_three_halves.1.1 fits_three_halves.1.2.1 (by decide +kernel)
  (by decide +kernel)

/-- **C133.** Canonical pairs of more than 106 bits that are different and whose computed difference is zero, in both orders: `1 + 2^-53 + 2^-106` and `1 + 2^-53`. -/
theorem C133_zero_difference : ∃ x y : DoubleDouble, x.Valid ∧ x.Canonical ∧ y.Valid ∧ y.Canonical ∧
    x.toRat = 1 + 1 / 2 ^ 53 + 1 / 2 ^ 106 ∧ y.toRat = 1 + 1 / 2 ^ 53 ∧ x.partialCmp y = .ok (some .gt) ∧
    x.subR y .nearestTiesToEven = .ok ⟨Status.INEXACT, DoubleFloat.ZERO doubleS⟩ ∧ y.subR x .nearestTiesToEven = .ok ⟨Status.INEXACT, DoubleFloat.ZERO doubleS⟩ :=
  ⟨⟨⟨2 ^ 52 + 1, 0, .normal, false⟩, ⟨2 ^ 53 - 1, -54, .normal, true⟩⟩, ⟨⟨2 ^ 52, 0, .normal, false⟩, ⟨2 ^ 52, -53, .normal, false⟩⟩,
    by decide, canonical_of_add doubleS_pair (by decide +kernel) (by decide) (st := Status.INEXACT) (by decide +kernel), by decide,
    canonical_of_add doubleS_pair (by decide +kernel) (by decide) (st := Status.INEXACT) (by decide +kernel), by decide +kernel, by decide +kernel,
    by decide +kernel, by decide +kernel, by decide +kernel⟩
theorem num_lt_num {s t : Bool} {a b : ℚ} : (Datum.num s a).lt (.num t b) ↔ a < b := ⟨fun q => not_le.1 q.2, fun q => ⟨q.le, not_le.2 q⟩⟩

/-- A delivered datum lies on the same side of a number below the largest as the rounding. -/
theorem delivered_side {F : Fmt} (hF : F.hasInf = true) {mode : Round} {v : ℚ} {neg zs : Bool} {d : Datum} {st : Status} (hd : Delivers F mode v neg d st)
    (hs : SignRule v zs neg) {s : Bool} {c : ℚ} (cl : |c| < F.largest) :
    ∃ g, IsRounded F mode v g ∧ d ≠ .nan ∧ (d.lt (.num s c) ↔ g < c) ∧ ((Datum.num s c).lt d ↔ c < g) := by
  have cl' := abs_lt.1 cl
  obtain ⟨g, g1, g2⟩ := hd
  refine ⟨g, g1, ?_⟩
  rcases g2 with ⟨-, rfl, -⟩ | ⟨gl, d2⟩
  · exact ⟨by simp, num_lt_num, num_lt_num⟩
  · have e := congrArg Prod.fst d2
    simp only [overflowed, hF, if_true] at e
    have hd : d = .inf neg ∨ d = .num neg (signed neg F.largest) := by
      rw [e]; split_ifs <;> simp
    rcases lt_abs.1 gl with k | k
    · have vp : 0 < v := by
        by_contra q
        have := g1.le_of_grid grid_zero (not_lt.1 q)
        linarith [abs_nonneg c]
      rw [hs.1 vp] at hd
      rcases hd with rfl | rfl
      · exact ⟨by simp, by simp [Datum.lt, Datum.le]; linarith, by simp [Datum.lt, Datum.le]; linarith⟩
      · refine ⟨by simp, ?_, ?_⟩ <;> rw [num_lt_num] <;> simp only [signed, if_true, Bool.false_eq_true, if_false] <;> constructor <;> intro <;> linarith
    · have vn : v < 0 := by
        by_contra q
        have := g1.nonneg (not_lt.1 q)
        linarith [abs_nonneg c]
      rw [hs.2.1 vn] at hd
      rcases hd with rfl | rfl
      · exact ⟨by simp, by simp [Datum.lt, Datum.le]; linarith, by simp [Datum.lt, Datum.le]; linarith⟩
      · refine ⟨by simp, ?_, ?_⟩ <;> rw [num_lt_num] <;> simp only [signed, if_true, Bool.false_eq_true, if_false] <;> constructor <;> intro <;> linarith

/-- **C133.** Quotients of pairs of at most `2p` bits, as far as the division returns: below one exactly when `x` is below `y`, whatever the rounding mode; unless
rounding down the quotient compares with one exactly as `x` with `y`. -/
theorem C133_quotient (h : S.Pair) {x y one : DoubleFloat S} (hx : x.Fits) (hy : y.Fits) (h1 : one.Valid) (c1 : one.Canonical) (e1 : one.toRat = 1)
    (y0 : 0 < y.toRat) {mode : Round} {r : StatusAnd (DoubleFloat S)} (hr : x.divR y mode = .ok r) :
    (r.value.partialCmp one = .ok (some .lt) ↔ x.partialCmp y = .ok (some .lt)) ∧
      (mode ≠ .towardZero → mode ≠ .towardNegative → r.value.partialCmp one = x.partialCmp y) := by
  have hok := h.ok
  have hp := hok.p_ge
  have hpm := hok.p_max
  obtain ⟨neg, d, st, d1, d2, d3, d4⟩ := C50_div h hx hy y0.ne' mode
  have nb : ¬ d.Beyond S.fmt := fun q => by rw [d3 q] at hr; cases hr
  obtain ⟨r', q1, q2, q3, -⟩ := d4 nb
  rw [hr, Except.ok.injEq] at q1
  subst q1
  have od : one.datum = .num one.hi.sign 1 := by
    unfold DoubleFloat.datum
    rw [datum_finite c1.1.1, e1]
  have big : (1 : ℚ) < S.fmt.doubled.largest := by
    have := two_pow_le_largest h.fb
    rw [fallback_fmt S h.ieee] at this
    refine lt_of_lt_of_le ?_ this
    have := h.fb.p_max
    have := h.fb.p_ge
    exact one_lt_zpow₀ (by norm_num) (by omega)
  obtain ⟨g, g1, g2, g3, g4⟩ := delivered_side (F := S.fmt.doubled) (by simp [Fmt.doubled, Sem.fmt, h.ieee]) d1 d2 (s := one.hi.sign) (c := 1) (by rw [abs_one]; exact big)
  obtain ⟨o, o1, o2, o3, o4, o5⟩ := C44_order hok q2 (show one.Proper from ⟨h1, Or.inl c1⟩)
  rw [q3, od] at o2 o3 o4 o5
  have oc : o = some (compare g 1) := by
    rcases lt_trichotomy g 1 with k | k | k
    · rw [compare_lt_iff_lt.2 k]; exact o3.2 (g3.2 k)
    · rw [compare_eq_iff_eq.2 k]
      have n1 : o ≠ some .lt := fun q => absurd (g3.1 (o3.1 q)) (by rw [k]; exact lt_irrefl _)
      have n2 : o ≠ some .gt := fun q => absurd (g4.1 (o4.1 q)) (by rw [k]; exact lt_irrefl _)
      have n3 : o ≠ none := fun q => by
        rcases o2.1 q with q | q
        · exact g2 q
        · cases q
      rcases o with _ | ⟨_ | _ | _⟩ <;> simp_all
    · rw [compare_gt_iff_gt.2 k]; exact o4.2 (g4.2 k)
  show (r'.partialCmp one = _ ↔ _) ∧ (_ → _ → r'.partialCmp one = _)
  rw [o1, oc, partialCmp_canonical hok hx.1 hy.1 hx.2.1 hy.2.1]
  obtain ⟨a1, a2⟩ := quotient_apart (F := S.fmt.doubled) (by show 1 ≤ S.precision * 2; omega) hx.2.2 hy.2.2 y0
  obtain ⟨b1, b2, b3, b4⟩ := rounded_apart (F := S.fmt.doubled) (by show 2 ≤ S.precision * 2; omega) h.fb.min_lt g1
  rcases lt_trichotomy x.toRat y.toRat with c | c | c
  · rw [compare_lt_iff_lt.2 c, compare_lt_iff_lt.2 (b1 (a1 c))]
    simp
  · rw [compare_eq_iff_eq.2 c, compare_eq_iff_eq.2 (b2 (by rw [c]; exact div_self y0.ne'))]
    simp
  · have u0 : (0 : ℚ) < 2 ^ (-(S.fmt.doubled.p : ℤ)) := by positivity
    have q1 := b3 (by linarith [a2 c])
    refine ⟨?_, fun n1 n2 => ?_⟩
    · rw [compare_gt_iff_gt.2 c]
      simp [compare_lt_iff_lt, q1]
    · rw [compare_gt_iff_gt.2 c, compare_gt_iff_gt.2 (b4 n1 n2 (a2 c))]

example : ∃ r, (⟨⟨2 ^ 52, 0, .normal, false⟩, ⟨2 ^ 52, -60, .normal, true⟩⟩ : DoubleDouble).divR ⟨⟨2 ^ 52, 0, .normal, false⟩, ⟨2 ^ 52, -60, .normal, true⟩⟩ .towardPositive = .ok r ∧
    r.value.partialCmp ⟨⟨2 ^ 52, 0, .normal, false⟩, ZERO doubleS⟩ = .ok (some .eq) := by
  have o : (⟨⟨2 ^ 52, 0, .normal, false⟩, ZERO doubleS⟩ : DoubleDouble).Canonical :=
    canonical_of_add doubleS_pair (by decide +kernel) (by decide) (st := Status.OK) (by decide +kernel)
  refine ⟨⟨Status.OK, ⟨⟨2 ^ 52, 0, .normal, false⟩, ZERO doubleS⟩⟩, by decide +kernel, ?_⟩
  rw [(C133_quotient doubleS_pair fits_example.1 fits_example.1 (by decide) o (by decide +kernel) (by rw [fits_example.2]; norm_num) (mode := .towardPositive)
    (r := ⟨Status.OK, ⟨⟨2 ^ 52, 0, .normal, false⟩, ZERO doubleS⟩⟩) (by decide +kernel)).2 (by decide) (by decide)]
  decide +kernel

end Apf
