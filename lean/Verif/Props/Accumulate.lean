import Verif.Spec.Accumulate
import Verif.Props.PpcModes
/-! # C84, C85: computations of any length -/

namespace Apf
open Spec IeeeFloat
variable {S : Sem}

theorem roundoff_pos (p : ℕ) (mode : Round) : 0 < roundoff p mode := by
  unfold roundoff; cases mode <;> exact two_zpow_pos _

theorem tiny_pos (F : Fmt) (mode : Round) : 0 < F.tiny mode := by
  unfold Fmt.tiny; cases mode <;> exact two_zpow_pos _

/-- A rounding to nearest is as close as ties-to-even. -/
theorem away_le {F : Fmt} (hp : 2 ≤ F.p) {v g : ℚ} (h : IsRounded F .nearestTiesToAway v g) : ∃ g', RN F v g' ∧ |v - g| ≤ |v - g'| := by
  obtain ⟨g', h'⟩ := exists_rounded (F := F) hp .nearestTiesToEven v
  exact ⟨g', h', h.2.1 g' h'.1⟩

/-- Error of one rounding. -/
theorem step_err {F : Fmt} (hp : 2 ≤ F.p) {mode : Round} {v g : ℚ} (h : IsRounded F mode v g) :
    |g - v| ≤ roundoff F.p mode * |v| + F.tiny mode := by
  rw [abs_sub_comm]
  have dir : ∀ {a b c d : ℚ}, 0 ≤ c → 0 ≤ b → (a ≤ b ∨ a ≤ c * |d|) → a ≤ c * |d| + b := by
    intro a b c d hc hb hh
    have := mul_nonneg hc (abs_nonneg d)
    rcases hh with hh | hh <;> linarith
  have e := (Faith.of_rounded h).err (by omega)
  cases mode with
  | nearestTiesToEven => exact dir (two_zpow_pos _).le (two_zpow_pos _).le (RN.err (by omega) h)
  | nearestTiesToAway =>
    obtain ⟨g', h', hl⟩ := away_le hp h
    exact hl.trans (dir (two_zpow_pos _).le (two_zpow_pos _).le (RN.err (by omega) h'))
  | _ => exact dir (two_zpow_pos _).le (two_zpow_pos _).le e

/-- Error of one rounding of a multiple of the smallest unit. -/
theorem step_rel {F : Fmt} (hp : 2 ≤ F.p) {mode : Round} {v g : ℚ} (h : IsRounded F mode v g) (hv : Mult (F.emin - F.p + 1) v) :
    |g - v| ≤ roundoff F.p mode * |v| := by
  rw [abs_sub_comm]
  have e := (Faith.of_rounded h).rel (by omega) hv
  cases mode with
  | nearestTiesToEven => exact RN.rel (by omega) h hv
  | nearestTiesToAway =>
    obtain ⟨g', h', hl⟩ := away_le hp h
    exact hl.trans (RN.rel (by omega) h' hv)
  | _ => exact e

/-- A step in range delivers a finite float, rounded, with truthful flags. -/
theorem rounds_fine (h : S.OK) {mode : Round} {v : ℚ} {zs : Bool} {r : StatusAnd (IeeeFloat S)} (hr : Rounds S mode v zs r) (hv : |v| ≤ S.fmt.largest) :
    r.value.isFinite = true ∧ IsRounded S.fmt mode v r.value.toRat ∧
      r.status = { inexact := decide (r.value.toRat ≠ v), underflow := decide (r.value.toRat ≠ v ∧ |r.value.toRat| < S.fmt.smallestNormal) } := by
  obtain ⟨⟨g, g1, g2⟩, -⟩ := hr
  have hl : |g| ≤ S.fmt.largest := by
    have hL := grid_largest h
    rw [_root_.abs_le] at hv ⊢
    exact ⟨g1.ge_of_grid hL.neg hv.1, g1.le_of_grid hL hv.2⟩
  rcases g2 with ⟨-, g2, g3⟩ | ⟨k, g2⟩
  · have hf : r.value.isFinite = true := by
      rw [isFinite_iff]
      unfold datum at g2
      cases c : r.value.category <;> rw [c] at g2 <;> simp_all
    rw [datum_finite hf] at g2
    injection g2 with _ g2
    subst g2
    exact ⟨hf, g1, g3⟩
  · linarith
theorem grow_add {x y a b sa sb Ga Gb z ε : ℚ} (hε : 0 ≤ ε) (ha : |a| ≤ sa) (hb : |b| ≤ sb) (hx : |x - a| ≤ Ga - sa) (hy : |y - b| ≤ Gb - sb)
    (hz : |z - (x + y)| ≤ ε * (|x| + |y|)) : |z - (a + b)| ≤ (1 + ε) * (Ga + Gb) - (sa + sb) ∧ |a + b| ≤ sa + sb := by
  have gx : |x| ≤ Ga := by have := abs_add_le (x - a) a; rw [sub_add_cancel] at this; linarith
  have gy : |y| ≤ Gb := by have := abs_add_le (y - b) b; rw [sub_add_cancel] at this; linarith
  refine ⟨?_, (abs_add_le a b).trans (by linarith)⟩
  have e : z - (a + b) = (z - (x + y)) + ((x - a) + (y - b)) := by ring
  rw [e]
  have h1 := abs_add_le (z - (x + y)) ((x - a) + (y - b))
  have h2 := abs_add_le (x - a) (y - b)
  have h3 := mul_le_mul_of_nonneg_left (add_le_add gx gy) hε
  linarith

theorem grow_sub {x y a b sa sb Ga Gb z ε : ℚ} (hε : 0 ≤ ε) (ha : |a| ≤ sa) (hb : |b| ≤ sb) (hx : |x - a| ≤ Ga - sa) (hy : |y - b| ≤ Gb - sb)
    (hz : |z - (x - y)| ≤ ε * (|x| + |y|)) : |z - (a - b)| ≤ (1 + ε) * (Ga + Gb) - (sa + sb) ∧ |a - b| ≤ sa + sb := by
  have := grow_add (y := -y) (b := -b) (sb := sb) (Gb := Gb) (z := z) hε ha (by rwa [abs_neg]) hx (by rw [show -y - -b = -(y - b) by ring, abs_neg]; exact hy)
    (by rw [abs_neg, ← sub_eq_add_neg]; exact hz)
  rwa [← sub_eq_add_neg] at this

theorem grow_mul {x y a b sa sb Ga Gb z ε η : ℚ} (hε : 0 ≤ ε) (ha : |a| ≤ sa) (hb : |b| ≤ sb) (hx : |x - a| ≤ Ga - sa) (hy : |y - b| ≤ Gb - sb)
    (hz : |z - x * y| ≤ ε * |x * y| + η) : |z - a * b| ≤ (1 + ε) * (Ga * Gb) + η - sa * sb ∧ |a * b| ≤ sa * sb ∧ |x * y| ≤ Ga * Gb := by
  have gx : |x| ≤ Ga := by have := abs_add_le (x - a) a; rw [sub_add_cancel] at this; linarith
  have gy : |y| ≤ Gb := by have := abs_add_le (y - b) b; rw [sub_add_cancel] at this; linarith
  have sa0 := (abs_nonneg a).trans ha
  have sb0 := (abs_nonneg b).trans hb
  have dx := (abs_nonneg _).trans hx
  have dy := (abs_nonneg _).trans hy
  have gxy : |x * y| ≤ Ga * Gb := by rw [abs_mul]; exact mul_le_mul gx gy (abs_nonneg _) (by linarith)
  refine ⟨?_, by rw [abs_mul]; exact mul_le_mul ha hb (abs_nonneg _) sa0, gxy⟩
  have e : z - a * b = (z - x * y) + (x * (y - b) + (x - a) * b) := by ring
  rw [e]
  have h1 := abs_add_le (z - x * y) (x * (y - b) + (x - a) * b)
  have h2 := abs_add_le (x * (y - b)) ((x - a) * b)
  have h3 : |x * (y - b)| ≤ Ga * (Gb - sb) := by rw [abs_mul]; exact mul_le_mul gx hy (abs_nonneg _) (by linarith)
  have h4 : |(x - a) * b| ≤ (Ga - sa) * sb := by rw [abs_mul]; exact mul_le_mul hx hb (abs_nonneg _) dx
  have h5 := mul_le_mul_of_nonneg_left gxy hε
  linarith

theorem grow_div {x y a b sa sb Ga Gb z ε η : ℚ} (hε : 0 ≤ ε) (ha : |a| ≤ sa) (hx : |x - a| ≤ Ga - sa) (hy : |y - b| ≤ Gb - sb)
    (hd : Gb - sb < |b|)
    (hz : |z - x / y| ≤ ε * |x / y| + η) :
    |z - a / b| ≤ (1 + ε) * (Ga / (|b| - (Gb - sb))) + η - sa / |b| ∧ |a / b| ≤ sa / |b| ∧ |x / y| ≤ Ga / (|b| - (Gb - sb)) ∧ y ≠ 0 := by
  obtain ⟨d, hdd⟩ : ∃ d, d = |b| - (Gb - sb) := ⟨_, rfl⟩
  rw [← hdd]
  have d0 : 0 < d := by linarith
  have dy := (abs_nonneg _).trans hy
  have dx := (abs_nonneg _).trans hx
  have b0 : 0 < |b| := by linarith
  have yd : d ≤ |y| := by
    have := abs_add_le (b - y) y
    rw [sub_add_cancel, abs_sub_comm] at this
    linarith
  have y0 : 0 < |y| := by linarith
  have gx : |x| ≤ Ga := by have := abs_add_le (x - a) a; rw [sub_add_cancel] at this; linarith
  have sa0 := (abs_nonneg a).trans ha
  have hq : |x / y| ≤ Ga / d := by rw [abs_div]; exact div_le_div₀ (by linarith) gx d0 yd
  refine ⟨?_, by rw [abs_div]; exact div_le_div_of_nonneg_right ha b0.le, hq, abs_pos.1 y0⟩
  have ny : y ≠ 0 := abs_pos.1 y0
  have nb : b ≠ 0 := abs_pos.1 b0
  have e : z - a / b = (z - x / y) + ((x - a) / y + a * (b - y) / (b * y)) := by field_simp; ring
  rw [e]
  have h1 := abs_add_le (z - x / y) ((x - a) / y + a * (b - y) / (b * y))
  have h2 := abs_add_le ((x - a) / y) (a * (b - y) / (b * y))
  have h3 : |(x - a) / y| ≤ (Ga - sa) / d := by rw [abs_div]; exact div_le_div₀ dx hx d0 yd
  have h4 : |a * (b - y) / (b * y)| ≤ sa * (|b| - d) / (|b| * d) := by
    rw [abs_div, abs_mul, abs_mul]
    have : |b| - d = Gb - sb := by rw [hdd]; ring
    rw [this]
    refine div_le_div₀ (mul_nonneg sa0 dy) (mul_le_mul ha (by rw [abs_sub_comm]; exact hy) (abs_nonneg _) sa0) (mul_pos b0 d0) (mul_le_mul_of_nonneg_left yd b0.le)
  have h5 := mul_le_mul_of_nonneg_left hq hε
  have h6 : (Ga - sa) / d + sa * (|b| - d) / (|b| * d) = Ga / d - sa / |b| := by
    have := b0.ne'; have := d0.ne'
    field_simp; ring
  linarith
theorem Status.or_overflow (a b : Status) : (a ||| b).overflow = (a.overflow || b.overflow) := rfl
theorem Status.or_invalidOp (a b : Status) : (a ||| b).invalidOp = (a.invalidOp || b.invalidOp) := rfl
theorem Status.or_divByZero (a b : Status) : (a ||| b).divByZero = (a.divByZero || b.divByZero) := rfl
theorem Status.or_inexact (a b : Status) : (a ||| b).inexact = (a.inexact || b.inexact) := rfl

/-- What a computation in range delivers: a finite float, within the excess of the inflated over the plain computation; no flag but `INEXACT` and
`UNDERFLOW`, and the exact value if not even those. -/
def Accurate (S : Sem) (e : Expr (IeeeFloat S)) (r : StatusAnd (IeeeFloat S)) : Prop :=
  r.value.Valid ∧ r.value.isFinite = true ∧
    |r.value.toRat - e.exact toRat| ≤ e.grown toRat (roundoff S.precision) S.fmt.tiny - e.size toRat ∧
    r.status.overflow = false ∧ r.status.invalidOp = false ∧ r.status.divByZero = false ∧
    (r.status.inexact = false → r.value.toRat = e.exact toRat)

/-- One binary operation: the flags. -/
theorem flags_step {a b : Status} {v z t w : ℚ} {u : Bool} (ao : a.overflow = false) (ai : a.invalidOp = false) (ad : a.divByZero = false)
    (bo : b.overflow = false) (bi : b.invalidOp = false) (bd : b.divByZero = false) {st : Status}
    (hst : st = { inexact := decide (z ≠ v), underflow := u }) (he : a.inexact = false → b.inexact = false → v = w) (ht : t = z) :
    (a ||| b ||| st).overflow = false ∧ (a ||| b ||| st).invalidOp = false ∧ (a ||| b ||| st).divByZero = false ∧
      ((a ||| b ||| st).inexact = false → t = w) := by
  subst hst; subst ht
  refine ⟨?_, ?_, ?_, fun hh => ?_⟩
  · simp only [Status.or_overflow, ao, bo, Bool.or_false]
  · simp only [Status.or_invalidOp, ai, bi, Bool.or_false]
  · simp only [Status.or_divByZero, ad, bd, Bool.or_false]
  · simp only [Status.or_inexact, Bool.or_eq_false_iff, decide_eq_false_iff_not, not_not] at hh
    rw [hh.2]; exact he hh.1.1 hh.1.2

theorem accurate_aux (h : S.OK) (e : Expr (IeeeFloat S)) (hl : e.All fun x => x.Valid ∧ x.isFinite = true)
    (hr : e.InRange toRat (roundoff S.precision) S.fmt.tiny S.fmt.largest) :
    |e.exact toRat| ≤ e.size toRat ∧ ∃ r, e.eval = .ok r ∧ Accurate S e r := by
  have hp : 2 ≤ S.fmt.p := by have := h.p_ge; show 2 ≤ S.precision; omega
  have hfp : S.fmt.p = S.precision := rfl
  induction e with
  | lit x =>
    refine ⟨le_refl _, ⟨Status.OK, x⟩, rfl, hl.1, hl.2, ?_, rfl, rfl, rfl, fun _ => rfl⟩
    simp [Expr.exact, Expr.grown, Expr.size]
  | neg a ih =>
    obtain ⟨i1, r, i2, i3, i4, i5, i6, i7, i8, i9⟩ := ih hl hr
    refine ⟨by simpa [Expr.exact, Expr.size] using i1, ⟨r.status, r.value.neg⟩, ?_, ?_, ?_, ?_, i6, i7, i8, ?_⟩
    · show (a.eval >>= fun x => _) = _
      rw [i2]; rfl
    · exact neg_valid i3
    · rw [← i4]; rfl
    · show |r.value.neg.toRat - -(a.exact toRat)| ≤ _
      rw [neg_toRat, show -r.value.toRat - -(a.exact toRat) = -(r.value.toRat - a.exact toRat) by ring, abs_neg]
      exact i5
    · intro hh
      show r.value.neg.toRat = -(a.exact toRat)
      rw [neg_toRat, i9 hh]
  | add m a b iha ihb =>
    obtain ⟨a1, r, a2, a3, a4, a5, a6, a7, a8, a9⟩ := iha hl.1 hr.1
    obtain ⟨b1, s, b2, b3, b4, b5, b6, b7, b8, b9⟩ := ihb hl.2 hr.2.1
    have hε := (roundoff_pos S.precision m).le
    have gx : |r.value.toRat + s.value.toRat| ≤ S.fmt.largest := by
      refine le_trans (abs_add_le _ _) (le_trans (add_le_add ?_ ?_) hr.2.2)
      · have := abs_add_le (r.value.toRat - a.exact toRat) (a.exact toRat); rw [sub_add_cancel] at this; linarith
      · have := abs_add_le (s.value.toRat - b.exact toRat) (b.exact toRat); rw [sub_add_cancel] at this; linarith
    obtain ⟨t, t1, t2, t3⟩ := addR_finite h a3 b3 a4 b4 m (directedOK_of_ge h m (_root_.abs_le.1 gx).1)
    obtain ⟨t4, t5, t6⟩ := rounds_fine h t3 gx
    have hm := (mult_of_grid (grid_toRat h a3 a4)).add (mult_of_grid (grid_toRat h b3 b4))
    have k := step_rel hp t5 hm
    obtain ⟨k1, k2⟩ := grow_add hε a1 b1 a5 b5 (k.trans (mul_le_mul_of_nonneg_left (abs_add_le _ _) hε))
    refine ⟨k2, ⟨r.status ||| s.status ||| t.status, t.value⟩, ?_, t2, t4, k1, ?_⟩
    · show (a.eval >>= fun x => _) = _
      rw [a2, M.ok_bind, b2, M.ok_bind]
      show (addR r.value s.value m >>= fun x => _) = _
      rw [t1]; rfl
    · exact flags_step a6 a7 a8 b6 b7 b8 t6 (fun p q => by rw [a9 p, b9 q]; rfl) rfl
  | sub m a b iha ihb =>
    obtain ⟨a1, r, a2, a3, a4, a5, a6, a7, a8, a9⟩ := iha hl.1 hr.1
    obtain ⟨b1, s, b2, b3, b4, b5, b6, b7, b8, b9⟩ := ihb hl.2 hr.2.1
    have hε := (roundoff_pos S.precision m).le
    have gx : |r.value.toRat - s.value.toRat| ≤ S.fmt.largest := by
      refine le_trans (abs_sub _ _) (le_trans (add_le_add ?_ ?_) hr.2.2)
      · have := abs_add_le (r.value.toRat - a.exact toRat) (a.exact toRat); rw [sub_add_cancel] at this; linarith
      · have := abs_add_le (s.value.toRat - b.exact toRat) (b.exact toRat); rw [sub_add_cancel] at this; linarith
    obtain ⟨t, t1, t2, t3⟩ := subR_finite h a3 b3 a4 b4 m (directedOK_of_ge h m (_root_.abs_le.1 gx).1)
    obtain ⟨t4, t5, t6⟩ := rounds_fine h t3 gx
    have hm := (mult_of_grid (grid_toRat h a3 a4)).sub (mult_of_grid (grid_toRat h b3 b4))
    have k := step_rel hp t5 hm
    obtain ⟨k1, k2⟩ := grow_sub hε a1 b1 a5 b5 (k.trans (mul_le_mul_of_nonneg_left (abs_sub _ _) hε))
    refine ⟨k2, ⟨r.status ||| s.status ||| t.status, t.value⟩, ?_, t2, t4, k1, ?_⟩
    · show (a.eval >>= fun x => _) = _
      rw [a2, M.ok_bind, b2, M.ok_bind]
      show (subR r.value s.value m >>= fun x => _) = _
      rw [t1]; rfl
    · exact flags_step a6 a7 a8 b6 b7 b8 t6 (fun p q => by rw [a9 p, b9 q]; rfl) rfl
  | mul m a b iha ihb =>
    obtain ⟨a1, r, a2, a3, a4, a5, a6, a7, a8, a9⟩ := iha hl.1 hr.1
    obtain ⟨b1, s, b2, b3, b4, b5, b6, b7, b8, b9⟩ := ihb hl.2 hr.2.1
    have hε := (roundoff_pos S.precision m).le
    obtain ⟨-, -, gx0⟩ := grow_mul (z := r.value.toRat * s.value.toRat) (η := 0) hε a1 b1 a5 b5
      (by rw [sub_self, abs_zero, add_zero]; exact mul_nonneg hε (abs_nonneg _))
    have gx := gx0.trans hr.2.2
    obtain ⟨t, t1, t2, t3⟩ := mulR_finite h a3 b3 a4 b4 m (directedOK_of_ge h m (_root_.abs_le.1 gx).1)
    obtain ⟨t4, t5, t6⟩ := rounds_fine h t3 gx
    obtain ⟨k1, k2, -⟩ := grow_mul hε a1 b1 a5 b5 (step_err hp t5)
    refine ⟨k2, ⟨r.status ||| s.status ||| t.status, t.value⟩, ?_, t2, t4, k1, ?_⟩
    · show (a.eval >>= fun x => _) = _
      rw [a2, M.ok_bind, b2, M.ok_bind]
      show (mulR r.value s.value m >>= fun x => _) = _
      rw [t1]; rfl
    · exact flags_step a6 a7 a8 b6 b7 b8 t6 (fun p q => by rw [a9 p, b9 q]; rfl) rfl
  | div m a b iha ihb =>
    obtain ⟨a1, r, a2, a3, a4, a5, a6, a7, a8, a9⟩ := iha hl.1 hr.1
    obtain ⟨b1, s, b2, b3, b4, b5, b6, b7, b8, b9⟩ := ihb hl.2 hr.2.1
    have hε := (roundoff_pos S.precision m).le
    obtain ⟨-, -, gx0, y0⟩ := grow_div (z := r.value.toRat / s.value.toRat) (η := 0) hε a1 a5 b5 hr.2.2.1
      (by rw [sub_self, abs_zero, add_zero]; exact mul_nonneg hε (abs_nonneg _))
    have gx := gx0.trans hr.2.2.2
    obtain ⟨t, t1, t2, t3⟩ := divR_finite h a3 b3 a4 b4 y0 m (directedOK_of_ge h m (_root_.abs_le.1 gx).1)
    obtain ⟨t4, t5, t6⟩ := rounds_fine h t3 gx
    obtain ⟨k1, k2, -, -⟩ := grow_div hε a1 a5 b5 hr.2.2.1 (step_err hp t5)
    refine ⟨k2, ⟨r.status ||| s.status ||| t.status, t.value⟩, ?_, t2, t4, k1, ?_⟩
    · show (a.eval >>= fun x => _) = _
      rw [a2, M.ok_bind, b2, M.ok_bind]
      show (divR r.value s.value m >>= fun x => _) = _
      rw [t1]; rfl
    · exact flags_step a6 a7 a8 b6 b7 b8 t6 (fun p q => by rw [a9 p, b9 q]; rfl) rfl
/-- **C84.** A computation of any length and shape, every operation in a rounding mode of its own, that stays in range: it does not panic, the result
is finite and differs from the exact value by at most the excess of the inflated over the plain computation, no flag other than `INEXACT` and `UNDERFLOW`
was raised on the way, and without `INEXACT` the result is the exact value. -/
theorem C84_expression (h : S.OK) (e : Expr (IeeeFloat S)) (hl : e.All fun x => x.Valid ∧ x.isFinite = true)
    (hr : e.InRange toRat (roundoff S.precision) S.fmt.tiny S.fmt.largest) : ∃ r, e.eval = .ok r ∧ Accurate S e r := (accurate_aux h e hl hr).2

namespace Expr
variable {F : Type}

theorem size_nonneg (v : F → ℚ) (e : Expr F) : 0 ≤ e.size v := by
  induction e with
  | lit x => exact abs_nonneg _
  | neg a ih => exact ih
  | add m a b iha ihb => exact add_nonneg iha ihb
  | sub m a b iha ihb => exact add_nonneg iha ihb
  | mul m a b iha ihb => exact mul_nonneg iha ihb
  | div m a b iha ihb => exact div_nonneg iha (abs_nonneg _)

theorem grow_linear_aux {u v s t ε δ : ℚ} {m n : ℕ} (hδ : 0 ≤ δ) (hε : δ ≤ ε) (hs : 0 ≤ s) (ht : 0 ≤ t) (hu : u ≤ (1 + ε) ^ m * s) (hv : v ≤ (1 + ε) ^ n * t) :
    u + v ≤ (1 + ε) ^ (Max.max m n) * (s + t) ∧ (1 + δ) * (u + v) ≤ (1 + ε) ^ (Max.max m n + 1) * (s + t) := by
  have h1 : (1 : ℚ) ≤ 1 + ε := by linarith
  have hm : (1 + ε) ^ m * s ≤ (1 + ε) ^ (Max.max m n) * s := mul_le_mul_of_nonneg_right (pow_le_pow_right₀ h1 (le_max_left _ _)) hs
  have hn : (1 + ε) ^ n * t ≤ (1 + ε) ^ (Max.max m n) * t := mul_le_mul_of_nonneg_right (pow_le_pow_right₀ h1 (le_max_right _ _)) ht
  have hsum : u + v ≤ (1 + ε) ^ (Max.max m n) * (s + t) := by rw [mul_add]; linarith
  refine ⟨hsum, ?_⟩
  have := mul_le_mul_of_nonneg_left hsum (by linarith : 0 ≤ 1 + δ)
  refine this.trans ?_
  rw [pow_succ, mul_comm _ (1 + ε), mul_assoc]
  refine mul_le_mul_of_nonneg_right (by linarith) ?_
  have : (0 : ℚ) < 1 + ε := by linarith
  positivity

/-- Without products and quotients the inflated computation is at most `(1+ε)^depth` times the plain one. -/
theorem grown_linear {v : F → ℚ} {ε η : Round → ℚ} (h0 : ∀ m, 0 ≤ ε m) {u : ℚ} (hu0 : 0 ≤ u) (e : Expr F) (hlin : e.Linear) (hm : e.Modes fun m => ε m ≤ u) :
    e.grown v ε η ≤ (1 + u) ^ e.depth * e.size v := by
  induction e with
  | lit x => simp [grown, size, depth]
  | neg a ih => exact ih hlin hm
  | add m a b iha ihb => exact (grow_linear_aux (h0 m) hm.1 (a.size_nonneg v) (b.size_nonneg v) (iha hlin.1 hm.2.1) (ihb hlin.2 hm.2.2)).2
  | sub m a b iha ihb => exact (grow_linear_aux (h0 m) hm.1 (a.size_nonneg v) (b.size_nonneg v) (iha hlin.1 hm.2.1) (ihb hlin.2 hm.2.2)).2
  | mul m a b iha ihb => exact hlin.elim
  | div m a b iha ihb => exact hlin.elim

theorem inRange_linear {v : F → ℚ} {ε η : Round → ℚ} (h0 : ∀ m, 0 ≤ ε m) {u L : ℚ} (hu0 : 0 ≤ u) (e : Expr F) (hlin : e.Linear)
    (hm : e.Modes fun m => ε m ≤ u) (hL : (1 + u) ^ e.depth * e.size v ≤ L) : e.InRange v ε η L := by
  have h1 : (1 : ℚ) ≤ 1 + u := by linarith
  have part : ∀ {d n : ℕ} {s t : ℚ}, d ≤ n → 0 ≤ s → 0 ≤ t → (1 + u) ^ (n + 1) * (s + t) ≤ L →
      (1 + u) ^ d * s ≤ L ∧ (1 + u) ^ d * t ≤ L ∧ (1 + u) ^ n * (s + t) ≤ L := by
    intro d n s t hd hs ht hh
    have e1 : (1 + u) ^ d * (s + t) ≤ (1 + u) ^ n * (s + t) := mul_le_mul_of_nonneg_right (pow_le_pow_right₀ h1 hd) (by linarith)
    have e2 : (1 + u) ^ n * (s + t) ≤ (1 + u) ^ (n + 1) * (s + t) := mul_le_mul_of_nonneg_right (pow_le_pow_right₀ h1 (by omega)) (by linarith)
    have e3 : 0 < (1 + u) ^ d := by positivity
    have e4 := mul_nonneg e3.le hs
    have e5 := mul_nonneg e3.le ht
    rw [mul_add] at e1
    refine ⟨by linarith, by linarith, by linarith⟩
  induction e with
  | lit x => trivial
  | neg a ih => exact ih hlin hm hL
  | add m a b iha ihb =>
    have pa := part (le_max_left a.depth b.depth) (a.size_nonneg v) (b.size_nonneg v) hL
    have pb := part (le_max_right a.depth b.depth) (a.size_nonneg v) (b.size_nonneg v) hL
    refine ⟨iha hlin.1 hm.2.1 pa.1, ihb hlin.2 hm.2.2 pb.2.1, le_trans ?_ pa.2.2⟩
    exact (grow_linear_aux (h0 m) hm.1 (a.size_nonneg v) (b.size_nonneg v) (grown_linear h0 hu0 a hlin.1 hm.2.1) (grown_linear h0 hu0 b hlin.2 hm.2.2)).1
  | sub m a b iha ihb =>
    have pa := part (le_max_left a.depth b.depth) (a.size_nonneg v) (b.size_nonneg v) hL
    have pb := part (le_max_right a.depth b.depth) (a.size_nonneg v) (b.size_nonneg v) hL
    refine ⟨iha hlin.1 hm.2.1 pa.1, ihb hlin.2 hm.2.2 pb.2.1, le_trans ?_ pa.2.2⟩
    exact (grow_linear_aux (h0 m) hm.1 (a.size_nonneg v) (b.size_nonneg v) (grown_linear h0 hu0 a hlin.1 hm.2.1) (grown_linear h0 hu0 b hlin.2 hm.2.2)).1
  | mul m a b iha ihb => exact hlin.elim
  | div m a b iha ihb => exact hlin.elim

end Expr

/-- **C84.** Sums and differences in any order: with `n` operations on the longest path and a relative error of at most `u` in every mode used
(`2^-p` to nearest, `2^(1-p)` directed), the result is off by at most `(1+u)^n - 1` of the sum of the magnitudes. -/
theorem C84_sums (h : S.OK) (e : Expr (IeeeFloat S)) (hl : e.All fun x => x.Valid ∧ x.isFinite = true) (hlin : e.Linear) {u : ℚ}
    (hm : e.Modes fun m => roundoff S.precision m ≤ u) (hu : 0 ≤ u) (hL : (1 + u) ^ e.depth * e.size toRat ≤ S.fmt.largest) :
    ∃ r, e.eval = .ok r ∧ r.value.Valid ∧ r.value.isFinite = true ∧
      |r.value.toRat - e.exact toRat| ≤ ((1 + u) ^ e.depth - 1) * e.size toRat ∧
      r.status.overflow = false ∧ r.status.invalidOp = false ∧ r.status.divByZero = false ∧ (r.status.inexact = false → r.value.toRat = e.exact toRat) := by
  have h0 : ∀ m, 0 ≤ roundoff S.precision m := fun m => (roundoff_pos _ m).le
  obtain ⟨r, r1, r2, r3, r4, r5⟩ := C84_expression h e hl (Expr.inRange_linear h0 hu e hlin hm hL)
  refine ⟨r, r1, r2, r3, r4.trans ?_, r5⟩
  have := Expr.grown_linear (v := toRat) (η := S.fmt.tiny) h0 hu e hlin hm
  linarith

namespace Expr
variable {F : Type}

theorem sum_all {P : F → Prop} (xs : List (Round × F)) : ∀ acc : Expr F, acc.All P → (∀ x ∈ xs, P x.2) → (acc.sum xs).All P := by
  induction xs with
  | nil => exact fun acc ha _ => ha
  | cons x xs ih => exact fun acc ha hx => ih _ ⟨ha, hx x (List.mem_cons_self ..)⟩ fun y hy => hx y (List.mem_cons_of_mem _ hy)

theorem sum_linear (xs : List (Round × F)) : ∀ acc : Expr F, acc.Linear → (acc.sum xs).Linear := by
  induction xs with
  | nil => exact fun acc ha => ha
  | cons x xs ih => exact fun acc ha => ih _ ⟨ha, trivial⟩

theorem sum_modes {P : Round → Prop} (xs : List (Round × F)) : ∀ acc : Expr F, acc.Modes P → (∀ x ∈ xs, P x.1) → (acc.sum xs).Modes P := by
  induction xs with
  | nil => exact fun acc ha _ => ha
  | cons x xs ih => exact fun acc ha hx => ih _ ⟨hx x (List.mem_cons_self ..), ha, trivial⟩ fun y hy => hx y (List.mem_cons_of_mem _ hy)

theorem sum_depth (xs : List (Round × F)) : ∀ acc : Expr F, (acc.sum xs).depth = acc.depth + xs.length := by
  induction xs with
  | nil => exact fun acc => rfl
  | cons x xs ih =>
    intro acc
    show (Expr.sum _ xs).depth = _
    rw [ih]
    show Max.max acc.depth 0 + 1 + xs.length = acc.depth + (xs.length + 1)
    rw [Nat.max_eq_left (Nat.zero_le _)]; omega

theorem sum_exact (v : F → ℚ) (xs : List (Round × F)) : ∀ acc : Expr F, (acc.sum xs).exact v = acc.exact v + (xs.map fun x => v x.2).sum := by
  induction xs with
  | nil => intro acc; simp [Expr.sum]
  | cons x xs ih =>
    intro acc
    show (Expr.sum _ xs).exact v = _
    rw [ih]
    simp only [exact, List.map_cons, List.sum_cons]; ring

theorem sum_size (v : F → ℚ) (xs : List (Round × F)) : ∀ acc : Expr F, (acc.sum xs).size v = acc.size v + (xs.map fun x => |v x.2|).sum := by
  induction xs with
  | nil => intro acc; simp [Expr.sum]
  | cons x xs ih =>
    intro acc
    show (Expr.sum _ xs).size v = _
    rw [ih]
    simp only [size, List.map_cons, List.sum_cons]; ring

end Expr

/-- **C84.** Adding up a list of any length from the left. -/
theorem C84_list (h : S.OK) (x : IeeeFloat S) (xs : List (Round × IeeeFloat S)) (hx : x.Valid ∧ x.isFinite = true)
    (hxs : ∀ y ∈ xs, y.2.Valid ∧ y.2.isFinite = true) {u : ℚ} (hm : ∀ y ∈ xs, roundoff S.precision y.1 ≤ u) (hu : 0 ≤ u)
    (hL : (1 + u) ^ xs.length * (|x.toRat| + (xs.map fun y => |y.2.toRat|).sum) ≤ S.fmt.largest) :
    ∃ r, ((Expr.lit x).sum xs).eval = .ok r ∧ r.value.Valid ∧ r.value.isFinite = true ∧
      |r.value.toRat - (x.toRat + (xs.map fun y => y.2.toRat).sum)| ≤ ((1 + u) ^ xs.length - 1) * (|x.toRat| + (xs.map fun y => |y.2.toRat|).sum) := by
  have d : ((Expr.lit x).sum xs).depth = xs.length := by rw [Expr.sum_depth]; exact Nat.zero_add _
  have s : ((Expr.lit x).sum xs).size toRat = |x.toRat| + (xs.map fun y => |y.2.toRat|).sum := Expr.sum_size toRat xs _
  obtain ⟨r, r1, r2, r3, r4, -⟩ := C84_sums h ((Expr.lit x).sum xs) (Expr.sum_all xs _ hx hxs) (Expr.sum_linear xs _ trivial) (Expr.sum_modes xs _ trivial hm) hu
    (by rw [d, s]; exact hL)
  rw [d, s, Expr.sum_exact] at r4
  exact ⟨r, r1, r2, r3, r4⟩
/-! Non-vacuity: `1.5 + 1.5 - (-3)` in mixed modes; the hypotheses of `C84_sums` hold with `u = 2^-23`. -/
def exSum : Expr (IeeeFloat singleS) := .sub .towardZero (.add .nearestTiesToEven (.lit ex15) (.lit ex15)) (.lit exM3)

example : exSum.All (fun x => x.Valid ∧ x.isFinite = true) ∧ exSum.Linear ∧ exSum.Modes (fun m => roundoff singleS.precision m ≤ 2 ^ (-23 : ℤ)) ∧
    exSum.depth = 2 ∧ exSum.exact toRat = 6 ∧ exSum.size toRat = 6 ∧ (1 + 2 ^ (-23 : ℤ)) ^ exSum.depth * exSum.size toRat ≤ singleS.fmt.largest := by
  have e1 : ex15.toRat = 3 / 2 := by decide +kernel
  have e2 : exM3.toRat = -3 := by decide +kernel
  have e3 : exSum.size toRat = 6 := by simp only [exSum, Expr.size, e1, e2]; norm_num
  refine ⟨⟨⟨⟨by decide, by decide⟩, by decide, by decide⟩, by decide, by decide⟩, ⟨⟨trivial, trivial⟩, trivial⟩, ⟨?_, ⟨?_, trivial, trivial⟩, trivial⟩, rfl, ?_, e3, ?_⟩
  · show (2 : ℚ) ^ (1 - ((24 : ℕ) : ℤ)) ≤ _; norm_num
  · show (2 : ℚ) ^ (-((24 : ℕ) : ℤ)) ≤ _; norm_num
  · simp only [exSum, Expr.exact, e1, e2]; norm_num
  · rw [e3, show exSum.depth = 2 from rfl]
    have : (10 : ℚ) ≤ singleS.fmt.largest := by decide +kernel
    refine le_trans ?_ this
    norm_num

/-! ## C85 -/

theorem grid_intq (h : S.OK) {n : ℤ} (hn : |(n : ℚ)| ≤ 2 ^ S.precision) : S.fmt.Grid (n : ℚ) :=
  grid_int h (by exact_mod_cast hn)

theorem pow_le_largest' (h : S.OK) : (2 : ℚ) ^ S.precision + 4 ≤ S.fmt.largest := by
  have := h.p_max
  have h3 := h.p_ge
  unfold Fmt.largest
  show (2 : ℚ) ^ S.precision + 4 ≤ (2 ^ S.precision - _) * 2 ^ (S.maxExp - S.precision + 1)
  have a1 : (2 : ℚ) ^ (1 : ℤ) ≤ 2 ^ (S.maxExp - S.precision + 1) := two_zpow_le (by omega)
  have a2 : (8 : ℚ) ≤ 2 ^ S.precision := by
    have : (2 : ℚ) ^ 3 ≤ 2 ^ S.precision := pow_le_pow_right₀ (by norm_num) h3
    norm_num at this ⊢; exact this
  rw [zpow_one] at a1
  have key : ∀ k : ℚ, k ≤ 2 → (2 : ℚ) ^ S.precision + 4 ≤ (2 ^ S.precision - k) * 2 ^ (S.maxExp - S.precision + 1) := by
    intro k hk
    have : (2 ^ S.precision - k) * 2 ≤ (2 ^ S.precision - k) * 2 ^ (S.maxExp - S.precision + 1) := mul_le_mul_of_nonneg_left a1 (by linarith)
    linarith
  apply key
  split_ifs <;> norm_num

theorem pow_le_largest (h : S.OK) : (2 : ℚ) ^ S.precision ≤ S.fmt.largest := by
  have := pow_le_largest' h
  linarith

/-- A computation whose result is representable is exact and raises no flag. -/
theorem exact_step (h : S.OK) {mode : Round} {v : ℚ} {zs : Bool} {r : StatusAnd (IeeeFloat S)} (hr : Rounds S mode v zs r) (hg : S.fmt.Grid v)
    (hv : |v| ≤ S.fmt.largest) : r.value.isFinite = true ∧ r.value.toRat = v ∧ r.status = Status.OK := by
  obtain ⟨f, i, s⟩ := rounds_fine h hr hv
  have e : r.value.toRat = v := (Faith.of_rounded i).exact hg
  refine ⟨f, e, ?_⟩
  rw [s]; simp [e, Status.OK]

theorem integers_aux (h : S.OK) (e : Expr (IeeeFloat S)) (hl : e.All fun x => x.Valid ∧ x.isFinite = true ∧ ∃ n : ℤ, x.toRat = (n : ℚ))
    (hs : e.SizeAtMost toRat (2 ^ S.precision)) :
    |e.exact toRat| ≤ e.size toRat ∧ (∃ n : ℤ, e.exact toRat = (n : ℚ)) ∧ e.size toRat ≤ 2 ^ S.precision ∧
      ∃ r, e.eval = .ok r ∧ r.value.Valid ∧ r.value.isFinite = true ∧ r.value.toRat = e.exact toRat ∧ r.status = Status.OK := by
  have hL := pow_le_largest h
  induction e with
  | lit x => exact ⟨le_refl _, hl.2.2, hs, ⟨Status.OK, x⟩, rfl, hl.1, hl.2.1, rfl, rfl⟩
  | neg a ih =>
    obtain ⟨i1, ⟨n, i2⟩, i3, r, i4, i5, i6, i7, i8⟩ := ih hl hs
    refine ⟨by simpa [Expr.exact, Expr.size] using i1, ⟨-n, by simp [Expr.exact, i2]⟩, i3, ⟨r.status, r.value.neg⟩, ?_, neg_valid i5, ?_, ?_, i8⟩
    · show (a.eval >>= fun x => _) = _
      rw [i4]; rfl
    · rw [← i6]; rfl
    · show r.value.neg.toRat = -(a.exact toRat)
      rw [neg_toRat, i7]
  | add m a b iha ihb =>
    obtain ⟨a1, ⟨n, a2⟩, a3, r, a4, a5, a6, a7, a8⟩ := iha hl.1 hs.1
    obtain ⟨b1, ⟨k, b2⟩, b3, s, b4, b5, b6, b7, b8⟩ := ihb hl.2 hs.2.1
    have e1 : |a.exact toRat + b.exact toRat| ≤ a.size toRat + b.size toRat := (abs_add_le _ _).trans (add_le_add a1 b1)
    have e2 : a.exact toRat + b.exact toRat = ((n + k : ℤ) : ℚ) := by rw [a2, b2]; push_cast; ring
    have e3 := e1.trans hs.2.2
    obtain ⟨t, t1, t2, t3⟩ := addR_finite h a5 b5 a6 b6 m (directedOK_of_ge h m (_root_.abs_le.1 (by rw [a7, b7]; exact e3.trans hL)).1)
    rw [a7, b7] at t3
    obtain ⟨t4, t5, t6⟩ := exact_step h t3 (by rw [e2] at e3 ⊢; exact grid_intq h e3) (e3.trans hL)
    refine ⟨e1, ⟨_, e2⟩, hs.2.2, ⟨r.status ||| s.status ||| t.status, t.value⟩, ?_, t2, t4, t5, by rw [a8, b8, t6]; rfl⟩
    show (a.eval >>= fun x => _) = _
    rw [a4, M.ok_bind, b4, M.ok_bind]
    show (addR r.value s.value m >>= fun x => _) = _
    rw [t1]; rfl
  | sub m a b iha ihb =>
    obtain ⟨a1, ⟨n, a2⟩, a3, r, a4, a5, a6, a7, a8⟩ := iha hl.1 hs.1
    obtain ⟨b1, ⟨k, b2⟩, b3, s, b4, b5, b6, b7, b8⟩ := ihb hl.2 hs.2.1
    have e1 : |a.exact toRat - b.exact toRat| ≤ a.size toRat + b.size toRat := (abs_sub _ _).trans (add_le_add a1 b1)
    have e2 : a.exact toRat - b.exact toRat = ((n - k : ℤ) : ℚ) := by rw [a2, b2]; push_cast; ring
    have e3 := e1.trans hs.2.2
    obtain ⟨t, t1, t2, t3⟩ := subR_finite h a5 b5 a6 b6 m (directedOK_of_ge h m (_root_.abs_le.1 (by rw [a7, b7]; exact e3.trans hL)).1)
    rw [a7, b7] at t3
    obtain ⟨t4, t5, t6⟩ := exact_step h t3 (by rw [e2] at e3 ⊢; exact grid_intq h e3) (e3.trans hL)
    refine ⟨e1, ⟨_, e2⟩, hs.2.2, ⟨r.status ||| s.status ||| t.status, t.value⟩, ?_, t2, t4, t5, by rw [a8, b8, t6]; rfl⟩
    show (a.eval >>= fun x => _) = _
    rw [a4, M.ok_bind, b4, M.ok_bind]
    show (subR r.value s.value m >>= fun x => _) = _
    rw [t1]; rfl
  | mul m a b iha ihb =>
    obtain ⟨a1, ⟨n, a2⟩, a3, r, a4, a5, a6, a7, a8⟩ := iha hl.1 hs.1
    obtain ⟨b1, ⟨k, b2⟩, b3, s, b4, b5, b6, b7, b8⟩ := ihb hl.2 hs.2.1
    have e1 : |a.exact toRat * b.exact toRat| ≤ a.size toRat * b.size toRat := by
      rw [abs_mul]; exact mul_le_mul a1 b1 (abs_nonneg _) (a.size_nonneg _)
    have e2 : a.exact toRat * b.exact toRat = ((n * k : ℤ) : ℚ) := by rw [a2, b2]; push_cast; ring
    have e3 := e1.trans hs.2.2
    obtain ⟨t, t1, t2, t3⟩ := mulR_finite h a5 b5 a6 b6 m (directedOK_of_ge h m (_root_.abs_le.1 (by rw [a7, b7]; exact e3.trans hL)).1)
    rw [a7, b7] at t3
    obtain ⟨t4, t5, t6⟩ := exact_step h t3 (by rw [e2] at e3 ⊢; exact grid_intq h e3) (e3.trans hL)
    refine ⟨e1, ⟨_, e2⟩, hs.2.2, ⟨r.status ||| s.status ||| t.status, t.value⟩, ?_, t2, t4, t5, by rw [a8, b8, t6]; rfl⟩
    show (a.eval >>= fun x => _) = _
    rw [a4, M.ok_bind, b4, M.ok_bind]
    show (mulR r.value s.value m >>= fun x => _) = _
    rw [t1]; rfl
  | div m a b iha ihb => exact hs.elim

/-- **C85.** Integer arithmetic is exact as long as nothing exceeds `2^p`: a computation of any length with `+`, `-`, `*` and negation on integral literals,
in any rounding modes, none of whose subexpressions exceeds `2^p` (taken without cancellation), returns the exact integer and raises no flag. -/
theorem C85_integers (h : S.OK) (e : Expr (IeeeFloat S)) (hl : e.All fun x => x.Valid ∧ x.isFinite = true ∧ ∃ n : ℤ, x.toRat = (n : ℚ))
    (hs : e.SizeAtMost toRat (2 ^ S.precision)) :
    ∃ r, e.eval = .ok r ∧ r.value.Valid ∧ r.value.isFinite = true ∧ r.value.toRat = e.exact toRat ∧ r.status = Status.OK :=
  (integers_aux h e hl hs).2.2.2

theorem not_grid_succ {F : Fmt} (hp : 1 ≤ F.p) : ¬ F.Grid ((2 : ℚ) ^ F.p + 1) := by
  rintro ⟨m, k, hm, -, hg⟩
  rcases lt_or_ge 0 k with hk | hk
  · obtain ⟨j, rfl⟩ := Int.eq_ofNat_of_zero_le hk.le
    have hj : 1 ≤ j := by omega
    have : (2 : ℤ) ^ F.p + 1 = m * 2 ^ j := by
      have : ((2 ^ F.p + 1 : ℤ) : ℚ) = ((m * 2 ^ j : ℤ) : ℚ) := by push_cast; rw [hg]; simp
      exact_mod_cast this
    obtain ⟨a, rfl⟩ := Nat.exists_eq_add_of_le hj
    obtain ⟨b, hb⟩ := Nat.exists_eq_add_of_le hp
    rw [hb, pow_add, pow_add] at this
    generalize (2 : ℤ) ^ b = B at this
    have e : m * (2 ^ 1 * 2 ^ a) = 2 * (m * 2 ^ a) := by ring
    rw [e] at this
    omega
  · have h1 : |(2 : ℚ) ^ F.p + 1| ≤ |(m : ℚ)| := by
      rw [hg, abs_mul, abs_of_pos (show (0 : ℚ) < 2 ^ k by positivity)]
      have : (2 : ℚ) ^ k ≤ 2 ^ (0 : ℤ) := two_zpow_le hk
      rw [zpow_zero] at this
      nlinarith [abs_nonneg (m : ℚ)]
    have h2 : |(m : ℚ)| < 2 ^ F.p := by exact_mod_cast hm
    rw [abs_of_nonneg (by positivity)] at h1
    linarith

/-- **C85.** The bound cannot be raised: `2^p + 1` is not delivered. -/
theorem C85_sharp (h : S.OK) {x y : IeeeFloat S} (hx : x.Valid) (hy : y.Valid) (fx : x.isFinite = true) (fy : y.isFinite = true)
    (ex : x.toRat = 2 ^ S.precision) (ey : y.toRat = 1) (mode : Round) :
    ∃ r, addR x y mode = .ok r ∧ r.value.isFinite = true ∧ r.value.toRat ≠ 2 ^ S.precision + 1 := by
  have hv : |x.toRat + y.toRat| ≤ S.fmt.largest := by
    have hp := pow_le_largest' (S := S) h
    rw [ex, ey, abs_of_nonneg (by positivity)]
    linarith
  obtain ⟨t, t1, t2, t3⟩ := addR_finite h hx hy fx fy mode (directedOK_of_ge h mode (_root_.abs_le.1 hv).1)
  obtain ⟨f, i, s⟩ := rounds_fine h t3 hv
  refine ⟨t, t1, f, fun hc => ?_⟩
  have hg := grid_toRat h t2 f
  rw [hc] at hg
  exact not_grid_succ (F := S.fmt) (by have := h.p_ge; show 1 ≤ S.precision; omega) hg

/-! Non-vacuity: `3 * -3 - 5` and similar; and the two operands of `C85_sharp`. -/
def exInt : Expr (IeeeFloat singleS) := .sub .towardPositive (.mul .towardZero (.neg (.lit exM3)) (.lit exM3)) (.lit exM3)

example : exInt.All (fun x => x.Valid ∧ x.isFinite = true ∧ ∃ n : ℤ, x.toRat = (n : ℚ)) ∧ exInt.SizeAtMost toRat (2 ^ singleS.precision) ∧ exInt.exact toRat = -6 := by
  have e2 : exM3.toRat = -3 := by decide +kernel
  have z : exM3.Valid ∧ exM3.isFinite = true ∧ ∃ n : ℤ, exM3.toRat = (n : ℚ) := ⟨by decide, by decide, -3, by rw [e2]; norm_num⟩
  refine ⟨⟨⟨z, z⟩, z⟩, ?_, ?_⟩
  · simp only [exInt, Expr.SizeAtMost, Expr.size, e2, show singleS.precision = 24 from rfl]; norm_num
  · simp only [exInt, Expr.exact, e2]; norm_num
/-- `2^24` and `1` in `Single`. -/
def exTwo24 : IeeeFloat singleS := ⟨2 ^ 23, 24, .normal, false⟩
def exOne : IeeeFloat singleS := ⟨2 ^ 23, 0, .normal, false⟩

example : exTwo24.Valid ∧ exOne.Valid ∧ exTwo24.isFinite = true ∧ exOne.isFinite = true ∧ exTwo24.toRat = 2 ^ singleS.precision ∧ exOne.toRat = 1 := by
  refine ⟨by decide, by decide, by decide, by decide, by decide +kernel, by decide +kernel⟩

/-! Non-vacuity of `C84_expression`: `(1.5 * 1.5) / (1.5 + -3)`. -/
def exQuot : Expr (IeeeFloat singleS) :=
  .div .towardNegative (.mul .nearestTiesToEven (.lit ex15) (.lit ex15)) (.add .towardZero (.lit ex15) (.lit exM3))

example : exQuot.All (fun x => x.Valid ∧ x.isFinite = true) ∧
    exQuot.InRange toRat (roundoff singleS.precision) singleS.fmt.tiny singleS.fmt.largest ∧ exQuot.exact toRat = -(3 / 2) := by
  have z1 : ex15.Valid ∧ ex15.isFinite = true := by decide
  have z2 : exM3.Valid ∧ exM3.isFinite = true := by decide
  refine ⟨⟨⟨z1, z1⟩, z1, z2⟩, ⟨⟨trivial, trivial, ?_⟩, ⟨trivial, trivial, ?_⟩, ?_, ?_⟩, ?_⟩ <;> decide +kernel

/-! ### Fixed point -/

theorem fixed_aux (h : S.OK) {k : ℤ} (hk : S.minExp - S.precision + 1 ≤ k) (e : Expr (IeeeFloat S)) (hlin : e.Linear)
    (hl : e.All fun x => x.Valid ∧ x.isFinite = true ∧ ∃ n : ℤ, x.toRat = (n : ℚ) * 2 ^ k)
    (hs : e.size toRat ≤ 2 ^ (S.precision + k)) (hL : e.size toRat ≤ S.fmt.largest) :
    |e.exact toRat| ≤ e.size toRat ∧ (∃ n : ℤ, e.exact toRat = n * 2 ^ k) ∧
      ∃ r, e.eval = .ok r ∧ r.value.Valid ∧ r.value.isFinite = true ∧ r.value.toRat = e.exact toRat ∧ r.status = Status.OK := by
  have hp : 1 ≤ S.fmt.p := by have := h.p_ge; show 1 ≤ S.precision; omega
  induction e with
  | lit x => exact ⟨le_refl _, hl.2.2, ⟨Status.OK, x⟩, rfl, hl.1, hl.2.1, rfl, rfl⟩
  | neg a ih =>
    obtain ⟨i1, ⟨n, i2⟩, r, i4, i5, i6, i7, i8⟩ := ih hlin hl hs hL
    refine ⟨by simpa [Expr.exact, Expr.size] using i1, ⟨-n, by simp [Expr.exact, i2]⟩, ⟨r.status, r.value.neg⟩, ?_, neg_valid i5, ?_, ?_, i8⟩
    · show (a.eval >>= fun x => _) = _
      rw [i4]; rfl
    · rw [← i6]; rfl
    · show r.value.neg.toRat = -(a.exact toRat)
      rw [neg_toRat, i7]
  | add m a b iha ihb =>
    have ga := a.size_nonneg toRat; have gb := b.size_nonneg toRat
    simp only [Expr.size] at hs hL
    obtain ⟨a1, ⟨n, a2⟩, r, a4, a5, a6, a7, a8⟩ := iha hlin.1 hl.1 (by linarith) (by linarith)
    obtain ⟨b1, ⟨j, b2⟩, s, b4, b5, b6, b7, b8⟩ := ihb hlin.2 hl.2 (by linarith) (by linarith)
    have e1 : |a.exact toRat + b.exact toRat| ≤ a.size toRat + b.size toRat := (abs_add_le _ _).trans (add_le_add a1 b1)
    have e2 : a.exact toRat + b.exact toRat = ((n + j : ℤ) : ℚ) * 2 ^ k := by rw [a2, b2]; push_cast; ring
    obtain ⟨t, t1, t2, t3⟩ := addR_finite h a5 b5 a6 b6 m (directedOK_of_ge h m (_root_.abs_le.1 (by rw [a7, b7]; exact e1.trans hL)).1)
    rw [a7, b7] at t3
    obtain ⟨t4, t5, t6⟩ := exact_step h t3 (grid_of_mult (F := S.fmt) hp ⟨_, e2⟩ hk (e1.trans hs)) (e1.trans hL)
    refine ⟨e1, ⟨_, e2⟩, ⟨r.status ||| s.status ||| t.status, t.value⟩, ?_, t2, t4, t5, by rw [a8, b8, t6]; rfl⟩
    show (a.eval >>= fun x => _) = _
    rw [a4, M.ok_bind, b4, M.ok_bind]
    show (addR r.value s.value m >>= fun x => _) = _
    rw [t1]; rfl
  | sub m a b iha ihb =>
    have ga := a.size_nonneg toRat; have gb := b.size_nonneg toRat
    simp only [Expr.size] at hs hL
    obtain ⟨a1, ⟨n, a2⟩, r, a4, a5, a6, a7, a8⟩ := iha hlin.1 hl.1 (by linarith) (by linarith)
    obtain ⟨b1, ⟨j, b2⟩, s, b4, b5, b6, b7, b8⟩ := ihb hlin.2 hl.2 (by linarith) (by linarith)
    have e1 : |a.exact toRat - b.exact toRat| ≤ a.size toRat + b.size toRat := (abs_sub _ _).trans (add_le_add a1 b1)
    have e2 : a.exact toRat - b.exact toRat = ((n - j : ℤ) : ℚ) * 2 ^ k := by rw [a2, b2]; push_cast; ring
    obtain ⟨t, t1, t2, t3⟩ := subR_finite h a5 b5 a6 b6 m (directedOK_of_ge h m (_root_.abs_le.1 (by rw [a7, b7]; exact e1.trans hL)).1)
    rw [a7, b7] at t3
    obtain ⟨t4, t5, t6⟩ := exact_step h t3 (grid_of_mult (F := S.fmt) hp ⟨_, e2⟩ hk (e1.trans hs)) (e1.trans hL)
    refine ⟨e1, ⟨_, e2⟩, ⟨r.status ||| s.status ||| t.status, t.value⟩, ?_, t2, t4, t5, by rw [a8, b8, t6]; rfl⟩
    show (a.eval >>= fun x => _) = _
    rw [a4, M.ok_bind, b4, M.ok_bind]
    show (subR r.value s.value m >>= fun x => _) = _
    rw [t1]; rfl
  | mul m a b iha ihb => exact hlin.elim
  | div m a b iha ihb => exact hlin.elim

/-- **C85.** The same for fixed point: sums and differences, of any length, of multiples of a unit `2^k` whose absolute values add up to at most
`2^(p+k)` and to at most the largest float, are exact and raise no flag. -/
theorem C85_fixed_point (h : S.OK) {k : ℤ} (hk : S.minExp - S.precision + 1 ≤ k) (e : Expr (IeeeFloat S)) (hlin : e.Linear)
    (hl : e.All fun x => x.Valid ∧ x.isFinite = true ∧ ∃ n : ℤ, x.toRat = (n : ℚ) * 2 ^ k)
    (hs : e.size toRat ≤ 2 ^ (S.precision + k)) (hL : e.size toRat ≤ S.fmt.largest) :
    ∃ r, e.eval = .ok r ∧ r.value.Valid ∧ r.value.isFinite = true ∧ r.value.toRat = e.exact toRat ∧ r.status = Status.OK :=
  (fixed_aux h hk e hlin hl hs hL).2.2

/-! Non-vacuity: `1.5 + 1.5 - (-3)` in halves. -/
example : singleS.minExp - singleS.precision + 1 ≤ (-1 : ℤ) ∧ exSum.Linear ∧
    exSum.All (fun x => x.Valid ∧ x.isFinite = true ∧ ∃ n : ℤ, x.toRat = (n : ℚ) * 2 ^ (-1 : ℤ)) ∧
    exSum.size toRat ≤ 2 ^ (singleS.precision + (-1 : ℤ)) ∧ exSum.size toRat ≤ singleS.fmt.largest := by
  have z1 : ex15.Valid ∧ ex15.isFinite = true ∧ ∃ n : ℤ, ex15.toRat = n * 2 ^ (-1 : ℤ) := ⟨by decide, by decide, 3, by decide +kernel⟩
  have z2 : exM3.Valid ∧ exM3.isFinite = true ∧ ∃ n : ℤ, exM3.toRat = n * 2 ^ (-1 : ℤ) := ⟨by decide, by decide, -6, by decide +kernel⟩
  exact ⟨by decide, ⟨⟨trivial, trivial⟩, trivial⟩, ⟨⟨z1, z1⟩, z2⟩, by decide +kernel, by decide +kernel⟩

end Apf
