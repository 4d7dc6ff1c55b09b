import Verif.Props.Ulp
/-!
# C131: adding a number too small to matter
-/

namespace Apf
open Spec IeeeFloat
variable {F : Fmt} {S : Sem}

/-- Numbers of the format keep half a unit apart. -/
theorem unit_apart (hp : 2 ≤ F.p) {v w : ℚ} (hv : F.Grid v) (hw : F.Grid w) {k : ℤ} (hk : 2 ^ (F.p - 1 + k) ≤ |v|) (hne : w ≠ v) : (2 : ℚ) ^ (k - 1) ≤ |w - v| := by
  have vm : Mult (k - 1) v := (mult_of_grid_ge hv hk).mono (by omega)
  by_cases c : (2 : ℚ) ^ ((F.p : ℤ) - 1 + (k - 1)) ≤ |w|
  · obtain ⟨a, ha⟩ := (mult_of_grid_ge hw c).sub vm
    rw [ha, abs_mul, abs_of_pos (by positivity : (0 : ℚ) < 2 ^ (k - 1))]
    have a0 : a ≠ 0 := fun e => hne (by rw [e] at ha; simp at ha; linarith)
    have : (1 : ℚ) ≤ |(a : ℚ)| := by exact_mod_cast Int.one_le_abs a0
    exact le_mul_of_one_le_left (by positivity) this
  · push Not at c
    have h1 : (2 : ℚ) ^ ((F.p : ℤ) - 1 + k) = 2 * 2 ^ ((F.p : ℤ) - 1 + (k - 1)) := by
      rw [show (F.p : ℤ) - 1 + k = 1 + (F.p - 1 + (k - 1)) by ring, two_zpow_add 1 _]; norm_num
    have h2 : (2 : ℚ) ^ (k - 1) ≤ 2 ^ ((F.p : ℤ) - 1 + (k - 1)) := zpow_le_zpow_right₀ (by norm_num) (by omega)
    have := abs_sub_abs_le_abs_sub v w
    rw [abs_sub_comm] at this
    linarith

/-- **C131.** Adding to `x` a non-zero number below a quarter of a unit of `x` returns `x` when rounding to nearest, with `INEXACT` alone. -/
theorem C131_nearest (h : S.OK) {x y : IeeeFloat S} (hx : x.Valid) (hy : y.Valid) (fx : x.isFinite = true) (fy : y.isFinite = true) (y0 : y.toRat ≠ 0) {e : ℤ}
    (he : ilogb x = .ok e) (hs : 4 * |y.toRat| < 2 ^ (e - S.precision + 1)) {mode : Round} (hm : mode = .nearestTiesToEven ∨ mode = .nearestTiesToAway) :
    addR x y mode = .ok ⟨Status.INEXACT, x⟩ := by
  have hp := h.p_ge
  have hmo : DirectedOK S mode (x.toRat + y.toRat) := by
    rcases hm with rfl | rfl <;> exact directedOK_of_mode _ (by decide) (by decide) _
  obtain ⟨r, r1, r2, r3⟩ := C04_add_correctly_rounded h hx hy fx fy mode hmo
  have gy := mult_of_grid (grid_toRat h hy fy)
  have ylo : (2 : ℚ) ^ (S.minExp - S.precision + 1) ≤ |y.toRat| := by
    obtain ⟨a, ha⟩ := gy
    change y.toRat = a * 2 ^ (S.minExp - S.precision + 1) at ha
    rw [ha, abs_mul, abs_of_pos (by positivity : (0 : ℚ) < 2 ^ (S.minExp - S.precision + 1))]
    have a0 : a ≠ 0 := fun e => y0 (by rw [ha, e]; simp)
    have : (1 : ℚ) ≤ |(a : ℚ)| := by exact_mod_cast Int.one_le_abs a0
    exact le_mul_of_one_le_left (by positivity) this
  have emin : S.minExp < e := by
    by_contra c
    have : (2 : ℚ) ^ (e - S.precision + 1) ≤ 2 ^ (S.minExp - S.precision + 1) := zpow_le_zpow_right₀ (by norm_num) (by omega)
    have : 0 < |y.toRat| := abs_pos.2 y0
    linarith
  have x0 : x.toRat ≠ 0 := fun c => by
    have cz : x.isZero = true := by
      rcases isFinite_iff.1 fx with d | d
      · exact absurd c (toRat_ne_zero hx d)
      · simp [isZero, d]
    have := C26_specials.2.1 cz
    rw [he, Except.ok.injEq] at this
    have := h.min_ge
    omega
  obtain ⟨e', e1, e2, e3⟩ := C26_ilogb h hx fx x0
  rw [he, Except.ok.injEq] at e1
  subst e1
  have gx := grid_toRat h hx fx
  have xk : (2 : ℚ) ^ ((S.fmt.p : ℤ) - 1 + (e - S.precision + 1)) ≤ |x.toRat| := by
    convert e2 using 2
    show (S.precision : ℤ) - 1 + _ = e
    ring
  have half : (2 : ℚ) ^ (e - S.precision + 1) = 2 * 2 ^ (e - S.precision + 1 - 1) := by
    rw [show e - (S.precision : ℤ) + 1 = 1 + (e - S.precision + 1 - 1) by ring, two_zpow_add 1 _]; norm_num
  have key : ∀ g, IsRounded S.fmt mode (x.toRat + y.toRat) g → g = x.toRat := fun g g1 => by
    have near : ∀ w, S.fmt.Grid w → |x.toRat + y.toRat - g| ≤ |x.toRat + y.toRat - w| := by
      rcases hm with rfl | rfl
      · exact g1.2.1
      · exact g1.2.1
    have n1 := near _ gx
    rw [show x.toRat + y.toRat - x.toRat = y.toRat by ring] at n1
    by_contra c
    have a := unit_apart (F := S.fmt) (by show 2 ≤ S.precision; omega) gx g1.1 xk c
    have b : |g - x.toRat| ≤ |x.toRat + y.toRat - g| + |y.toRat| := by
      have := abs_sub (y.toRat) (x.toRat + y.toRat - g)
      rw [show y.toRat - (x.toRat + y.toRat - g) = g - x.toRat by ring] at this
      linarith
    linarith
  obtain ⟨⟨g, g1, g2⟩, sr⟩ := r3
  have := key g g1
  subst this
  obtain ⟨-, d, st⟩ := g2.resolve_right (fun c => absurd (abs_toRat_le h hx fx) (not_le.2 c.1))
  have big : |y.toRat| < |x.toRat| := by
    have : (2 : ℚ) ^ (e - S.precision + 1) ≤ 2 ^ e := zpow_le_zpow_right₀ (by norm_num) (by omega)
    have : 0 ≤ |y.toRat| := abs_nonneg _
    linarith
  have cx := normal_of_toRat x0
  have hsg : r.value.sign = x.sign := by
    cases hsx : x.sign
    · have xp := (sign_pos hx cx hsx).1
      rw [abs_of_pos xp] at big
      exact sr.1 (by linarith [neg_abs_le y.toRat])
    · have xn := (sign_neg hx cx hsx).1
      rw [abs_of_neg xn] at big
      exact sr.2.1 (by linarith [le_abs_self y.toRat])
  have sm := same_of_datum h hx r2 (by rw [cx]; decide) (show x.datum = r.value.datum by rw [d, hsg, datum_finite fx])
  have ev : r.value = x := by
    obtain ⟨a1, a2, a3, -⟩ := sm
    obtain ⟨a4, a5⟩ := a3 cx
    generalize r.value = z at a1 a2 a4 a5
    cases x; cases z
    simp_all
  rw [r1, ← ev]
  congr 1
  show StatusAnd.mk r.status r.value = _
  congr 1
  rw [st]
  have n1 : x.toRat ≠ x.toRat + y.toRat := fun c => y0 (by linarith)
  have n2 : ¬ |x.toRat| < S.fmt.smallestNormal := by
    rw [not_lt]
    exact le_trans (zpow_le_zpow_right₀ (by norm_num) emin.le) e2
  simp [n1, n2, Status.INEXACT]

/-- **C131.** In the directed modes such a number counts by its sign only: upwards the result is the next number if it is positive and `x` if it is negative,
downwards the other way round, and toward zero as downwards for positive and upwards for negative `x`. -/
theorem C131_directed (h : S.OK) {x y : IeeeFloat S} (hx : x.Valid) (hy : y.Valid) (fx : x.isFinite = true) (fy : y.isFinite = true) (y0 : y.toRat ≠ 0) {e : ℤ}
    (he : ilogb x = .ok e) (hs : 4 * |y.toRat| < 2 ^ (e - S.precision + 1)) (hl : |x.toRat + y.toRat| ≤ S.fmt.largest) :
    ∃ u d a b z, nextUp x = .ok u ∧ nextDown x = .ok d ∧ addR x y .towardPositive = .ok a ∧ addR x y .towardNegative = .ok b ∧
      addR x y .towardZero = .ok z ∧ z.value.datum = (if x.sign then a.value.datum else b.value.datum) ∧
      a.value.datum = (if 0 < y.toRat then u.value.datum else x.datum) ∧ b.value.datum = (if y.toRat < 0 then d.value.datum else x.datum) := by
  have hlo := (_root_.abs_le.1 hl).1
  obtain ⟨p, p1, p2, p3⟩ := C04_add_correctly_rounded h hx hy fx fy .nearestTiesToEven (directedOK_of_ge h _ hlo)
  rw [C131_nearest h hx hy fx fy y0 he hs (Or.inl rfl), Except.ok.injEq] at p1
  subst p1
  obtain ⟨a, a1, a2, a3⟩ := C04_add_correctly_rounded h hx hy fx fy .towardPositive (directedOK_of_ge h _ hlo)
  obtain ⟨b, b1, b2, b3⟩ := C04_add_correctly_rounded h hx hy fx fy .towardNegative (directedOK_of_ge h _ hlo)
  have hp := h.p_ge
  have x0 : x.toRat + y.toRat ≠ 0 := fun c => by
    obtain ⟨⟨g, g1, g2⟩, -⟩ := p3
    rw [c] at g1
    have g0 : g = 0 := g1.unique (isRounded_self _ grid_zero)
    obtain ⟨-, -, st⟩ := g2.resolve_right (fun k => absurd k.1 (by rw [g0, abs_zero]; exact not_lt.2 (largest_pos h).le))
    rw [g0, c] at st
    simp [Status.INEXACT] at st
  have sa : SignRule (x.toRat + y.toRat) (zeroSum .nearestTiesToEven x.sign y.sign) a.value.sign := ⟨a3.2.1, a3.2.2.1, fun c => absurd c x0⟩
  obtain ⟨r1, u, r2, -, r3⟩ := upward_from h p2 hl p3 ⟨a3.1, sa⟩
  have sb : SignRule (x.toRat + y.toRat) (zeroSum .nearestTiesToEven x.sign y.sign) b.value.sign := ⟨b3.2.1, b3.2.2.1, fun c => absurd c x0⟩
  obtain ⟨s1, d, s2, -, s3⟩ := downward_from h p2 hl p3 ⟨b3.1, sb⟩
  obtain ⟨z, z1, z2, z3⟩ := C04_add_correctly_rounded h hx hy fx fy .towardZero (directedOK_of_ge h _ hlo)
  refine ⟨u, d, a, b, z, r2, s2, a1, b1, z1, ?_, ?_, ?_⟩
  · have gT := grid_largest h
    have hhi := (_root_.abs_le.1 hl).2
    have fin : ∀ {m : Round} {t : StatusAnd (IeeeFloat S)} {zs : Bool}, Rounds S m (x.toRat + y.toRat) zs t →
        ∃ g, IsRounded S.fmt m (x.toRat + y.toRat) g ∧ t.value.datum = .num x.sign g := fun {m t zs} ht => by
      obtain ⟨⟨g, g1, g2⟩, sr⟩ := ht
      have gl : |g| ≤ S.fmt.largest := _root_.abs_le.2 ⟨g1.ge_of_grid gT.neg hlo, g1.le_of_grid gT hhi⟩
      obtain ⟨-, gd, -⟩ := g2.resolve_right (fun c => absurd gl (not_le.2 c.1))
      have st : t.value.sign = x.sign := by
        rcases lt_or_gt_of_ne x0 with c | c
        · exact (sr.2.1 c).trans (p3.2.2.1 c).symm
        · exact (sr.1 c).trans (p3.2.1 c).symm
      exact ⟨g, g1, by rw [gd, st]⟩
    obtain ⟨g, g1, g2⟩ := fin z3
    obtain ⟨ga, ga1, ga2⟩ := fin a3
    obtain ⟨gb, gb1, gb2⟩ := fin b3
    rw [g2, ga2, gb2]
    rcases lt_or_gt_of_ne x0 with c | c
    · have sx : x.sign = true := p3.2.2.1 c
      have : g = ga := IsRounded.unique (F := S.fmt) (mode := .towardPositive) ⟨g1.1, g1.2.2 c.le⟩ ga1
      rw [sx, if_pos rfl, this]
    · have sx : x.sign = false := p3.2.1 c
      have : g = gb := IsRounded.unique (F := S.fmt) (mode := .towardNegative) ⟨g1.1, g1.2.1 (le_of_lt c)⟩ gb1
      rw [sx, if_neg (by decide), this]
  · split_ifs with c
    · exact r3 (by show x.toRat < _; linarith)
    · exact r1 (by show _ ≤ x.toRat; linarith)
  · split_ifs with c
    · exact s3 (by show _ < x.toRat; linarith)
    · exact s1 (by show x.toRat ≤ _; linarith)

example := C131_nearest singleS_ok (x := ⟨8388608, 0, .normal, true⟩) (y := ⟨8388608, -26, .normal, false⟩) (by decide) (by decide) rfl rfl (by decide +kernel)
  (e := 0) (by decide +kernel) (by decide +kernel) (mode := .nearestTiesToAway) (Or.inr rfl)

example := C131_directed singleS_ok (x := ⟨8388608, 0, .normal, true⟩) (y := ⟨1, -126, .normal, false⟩) (by decide) (by decide) rfl rfl (by decide +kernel)
  (e := 0) (by decide +kernel) (by decide +kernel) (by decide +kernel)

/-- A quarter of a unit is the limit: below a power of two the numbers are half a unit apart, and `1 - 3 * 2^-26` is not 1. -/
example : addR (S := singleS) ⟨8388608, 0, .normal, false⟩ ⟨12582912, -25, .normal, true⟩ .nearestTiesToEven =
    .ok ⟨Status.INEXACT, ⟨16777215, -1, .normal, false⟩⟩ := by decide +kernel

end Apf
