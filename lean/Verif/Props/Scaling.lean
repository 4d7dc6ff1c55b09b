import Verif.Spec.Scaling
import Verif.Props.Midpoint
import Verif.Props.Accumulate
import Verif.Props.Scale
import Verif.Props.Compose
/-! # C113: scaling by powers of two commutes with arithmetic -/

namespace Apf
open Spec IeeeFloat
variable {S : Sem}

/-- A format with its smallest exponent moved. -/
def Spec.Fmt.withMin (F : Fmt) (e : ℤ) : Fmt := { F with emin := e }

theorem grid_shift {F : Fmt} {v : ℚ} (k : ℤ) (h : F.Grid v) : (F.withMin (F.emin + k)).Grid (v * 2 ^ k) := by
  obtain ⟨m, j, a, b, rfl⟩ := h
  exact ⟨m, j + k, a, by simp only [Fmt.withMin]; omega, by rw [two_zpow_add j k]; ring⟩

theorem grid_unshift {F : Fmt} {v : ℚ} (k : ℤ) (h : (F.withMin (F.emin + k)).Grid v) : ∃ w, F.Grid w ∧ v = w * 2 ^ k := by
  obtain ⟨m, j, a, b, rfl⟩ := h
  simp only [Fmt.withMin] at a b
  exact ⟨m * 2 ^ (j - k), ⟨m, j - k, a, by omega, rfl⟩, by rw [mul_assoc, ← two_zpow_add]; congr 2; omega⟩

theorem even_shift {F : Fmt} {v : ℚ} (k : ℤ) (h : F.EvenGrid v) : (F.withMin (F.emin + k)).EvenGrid (v * 2 ^ k) := by
  obtain ⟨m, j, a, b, rfl⟩ := h
  exact ⟨m, j + k, a, by simp only [Fmt.withMin]; omega, by rw [two_zpow_add j k]; ring⟩

/-- Rounding commutes with scaling when the smallest exponent is scaled too. -/
theorem IsRounded.shift {F : Fmt} {mode : Round} {v g : ℚ} (k : ℤ) (h : IsRounded F mode v g) :
    IsRounded (F.withMin (F.emin + k)) mode (v * 2 ^ k) (g * 2 ^ k) := by
  have hk := two_zpow_pos k
  obtain ⟨h0, h⟩ := h
  refine ⟨grid_shift k h0, ?_⟩
  have le : ∀ {a b : ℚ}, a * 2 ^ k ≤ b * 2 ^ k ↔ a ≤ b := fun {a b} => mul_le_mul_iff_left₀ hk
  have ab : ∀ a b : ℚ, |a * 2 ^ k - b * 2 ^ k| = |a - b| * 2 ^ k := fun a b => by rw [← sub_mul, abs_mul, abs_of_pos hk]
  have lo : (g ≤ v ∧ ∀ w, F.Grid w → w ≤ v → w ≤ g) → g * 2 ^ k ≤ v * 2 ^ k ∧ ∀ w, (F.withMin (F.emin + k)).Grid w → w ≤ v * 2 ^ k → w ≤ g * 2 ^ k := by
    rintro ⟨h1, h2⟩
    refine ⟨le.2 h1, fun w hw hl => ?_⟩
    obtain ⟨u, hu, rfl⟩ := grid_unshift k hw
    exact le.2 (h2 u hu (le.1 hl))
  have hi : (v ≤ g ∧ ∀ w, F.Grid w → v ≤ w → g ≤ w) → v * 2 ^ k ≤ g * 2 ^ k ∧ ∀ w, (F.withMin (F.emin + k)).Grid w → v * 2 ^ k ≤ w → g * 2 ^ k ≤ w := by
    rintro ⟨h1, h2⟩
    refine ⟨le.2 h1, fun w hw hl => ?_⟩
    obtain ⟨u, hu, rfl⟩ := grid_unshift k hw
    exact le.2 (h2 u hu (le.1 hl))
  have near : (∀ w, F.Grid w → |v - g| ≤ |v - w|) → ∀ w, (F.withMin (F.emin + k)).Grid w → |v * 2 ^ k - g * 2 ^ k| ≤ |v * 2 ^ k - w| := by
    intro h1 w hw
    obtain ⟨u, hu, rfl⟩ := grid_unshift k hw
    rw [ab, ab, le]
    exact h1 u hu
  cases mode with
  | towardNegative => exact lo h
  | towardPositive => exact hi h
  | towardZero =>
    refine ⟨fun hv => lo (h.1 ?_), fun hv => hi (h.2 ?_)⟩
    · by_contra hc; push Not at hc; nlinarith
    · by_contra hc; push Not at hc; nlinarith
  | nearestTiesToEven =>
    refine ⟨near h.1, fun w hw hne he => ?_⟩
    obtain ⟨u, hu, rfl⟩ := grid_unshift k hw
    rw [ab, ab] at he
    exact even_shift k (h.2 u hu (fun e => hne (by rw [e])) (mul_right_cancel₀ hk.ne' he))
  | nearestTiesToAway =>
    refine ⟨near h.1, fun w hw hne he => ?_⟩
    obtain ⟨u, hu, rfl⟩ := grid_unshift k hw
    rw [ab, ab] at he
    rw [abs_mul, abs_mul, abs_of_pos hk]
    exact mul_lt_mul_of_pos_right (h.2 u hu (fun e => hne (by rw [e])) (mul_right_cancel₀ hk.ne' he)) hk

theorem grid_finer {F : Fmt} {e1 e2 : ℤ} (he : e1 ≤ e2) {v : ℚ} (h : (F.withMin e2).Grid v) : (F.withMin e1).Grid v := by
  obtain ⟨m, j, a, b, c⟩ := h
  exact ⟨m, j, a, by simp only [Fmt.withMin] at b ⊢; omega, c⟩

theorem unit_of_large {p : ℕ} {m j e : ℤ} (a : |m| < 2 ^ p) (h : (2 : ℚ) ^ e ≤ |(m : ℚ) * 2 ^ j|) : e - p + 1 ≤ j := by
  by_contra hc
  push Not at hc
  have e2 : |(m : ℚ)| < 2 ^ (p : ℤ) := by rw [zpow_natCast]; exact_mod_cast a
  have e3 : |(m : ℚ)| * 2 ^ j < 2 ^ (p : ℤ) * 2 ^ (e - p) := mul_lt_mul e2 (two_zpow_le (by omega)) (two_zpow_pos _) (two_zpow_pos _).le
  rw [← two_zpow_add (p : ℤ) (e - p), show (p : ℤ) + (e - p) = e by ring] at e3
  rw [abs_mul, abs_of_pos (two_zpow_pos j)] at h
  linarith

theorem large_of_large {F : Fmt} (hp : 1 ≤ F.p) {mode : Round} {v g : ℚ} (h : IsRounded F mode v g) {e : ℤ} (he : F.emin ≤ e) (hv : (2 : ℚ) ^ e ≤ |v|) :
    (2 : ℚ) ^ e ≤ |g| := by
  have gp : F.Grid ((2 : ℚ) ^ e) := grid_two_pow hp (by omega)
  rcases le_abs.1 hv with c | c
  · exact (h.ge_of_grid gp c).trans (le_abs_self g)
  · have := h.le_of_grid gp.neg (by linarith)
    linarith [neg_abs_le g]

theorem large_of_large' {F : Fmt} (hp : 1 ≤ F.p) {mode : Round} {v g : ℚ} (h : IsRounded F mode v g) (hv : (2 : ℚ) ^ F.emin < |g|) :
    (2 : ℚ) ^ F.emin ≤ |v| := by
  by_contra hc
  push Not at hc
  have gp : F.Grid ((2 : ℚ) ^ F.emin) := grid_two_pow hp (by omega)
  rw [abs_lt] at hc
  have a := h.ge_of_grid gp.neg hc.1.le
  have b := h.le_of_grid gp hc.2.le
  exact absurd (_root_.abs_le.2 ⟨a, b⟩) (not_le.2 hv)

/-- Above the coarser format's normal range two formats of the same precision round alike. -/
theorem IsRounded.coarser {F : Fmt} (hp : 1 ≤ F.p) {e1 e2 : ℤ} (he : e1 ≤ e2) {mode : Round} {v g : ℚ} (h : IsRounded (F.withMin e1) mode v g)
    (hv : (2 : ℚ) ^ e2 ≤ |v|) : IsRounded (F.withMin e2) mode v g := by
  have hg := large_of_large (F := F.withMin e1) hp h (e := e2) he hv
  obtain ⟨h0, h⟩ := h
  have h0' : (F.withMin e2).Grid g := by
    obtain ⟨m, j, a, b, rfl⟩ := h0
    exact ⟨m, j, a, unit_of_large a hg, rfl⟩
  have ev : (F.withMin e1).EvenGrid g → (F.withMin e2).EvenGrid g := by
    rintro ⟨m, j, a, b, rfl⟩
    refine ⟨m, j, a, ?_, rfl⟩
    have a' : |2 * m| < 2 ^ F.p := a
    exact unit_of_large a' (by push_cast; exact hg)
  refine ⟨h0', ?_⟩
  cases mode with
  | towardNegative => exact ⟨h.1, fun w hw => h.2 w (grid_finer he hw)⟩
  | towardPositive => exact ⟨h.1, fun w hw => h.2 w (grid_finer he hw)⟩
  | towardZero => exact ⟨fun c => ⟨(h.1 c).1, fun w hw => (h.1 c).2 w (grid_finer he hw)⟩, fun c => ⟨(h.2 c).1, fun w hw => (h.2 c).2 w (grid_finer he hw)⟩⟩
  | nearestTiesToEven => exact ⟨fun w hw => h.1 w (grid_finer he hw), fun w hw a b => ev (h.2 w (grid_finer he hw) a b)⟩
  | nearestTiesToAway => exact ⟨fun w hw => h.1 w (grid_finer he hw), fun w hw a b => h.2 w (grid_finer he hw) a b⟩

/-- Rounding commutes with scaling above the normal range. -/
theorem IsRounded.scale {F : Fmt} (hp : 2 ≤ F.p) {mode : Round} {v g : ℚ} (k : ℤ) (h : IsRounded F mode v g) (hv : (2 : ℚ) ^ F.emin ≤ |v|)
    (hv' : (2 : ℚ) ^ F.emin ≤ |v * 2 ^ k|) : IsRounded F mode (v * 2 ^ k) (g * 2 ^ k) := by
  have h1 := IsRounded.shift k h
  rcases le_total k 0 with c | c
  · exact IsRounded.coarser (F := F) (by omega) (show F.emin + k ≤ F.emin by omega) h1 hv'
  · obtain ⟨r, hr⟩ := exists_rounded hp mode (v * 2 ^ k)
    have h2 := IsRounded.coarser (F := F) (e1 := F.emin) (e2 := F.emin + k) (by omega) (by omega) hr
      (by rw [two_zpow_add, abs_mul, abs_of_pos (two_zpow_pos k)]; exact mul_le_mul_of_nonneg_right hv (two_zpow_pos k).le)
    rw [h1.unique h2]
    exact hr

/-- One rounding, of a number and of the scaled number, each exact or above the normal range. -/
theorem scale_step {F : Fmt} (hp : 2 ≤ F.p) {mode : Round} {v g g' : ℚ} {k : ℤ} (h : IsRounded F mode v g) (h' : IsRounded F mode (v * 2 ^ k) g')
    (c : g = v ∨ (2 : ℚ) ^ F.emin ≤ |v|) (c' : g' = v * 2 ^ k ∨ (2 : ℚ) ^ F.emin ≤ |v * 2 ^ k|) : g' = g * 2 ^ k := by
  rcases c with rfl | c
  · rcases c' with c' | c'
    · exact c'
    · exact h'.unique (isRounded_self mode (grid_scale h.1 c'))
  · rcases c' with rfl | c'
    · have e : v = v * 2 ^ k * 2 ^ (-k) := by rw [mul_assoc, ← two_zpow_add]; simp
      have gv : F.Grid v := by
        rw [e]; exact grid_scale h'.1 (by rw [← e]; exact c)
      rw [h.unique (isRounded_self mode gv)]
    · exact h'.unique (IsRounded.scale hp k h c c')

/-- What the code delivers strictly inside the range comes from an exact value inside it. -/
theorem rounds_inside (h : S.OK) {om : Round} {v : ℚ} {zs : Bool} {r : StatusAnd (IeeeFloat S)} (hr : Rounds S om v zs r) (hf : r.value.isFinite = true)
    (hl : |r.value.toRat| < S.fmt.largest) : |v| ≤ S.fmt.largest := by
  obtain ⟨⟨g, g1, g2⟩, -⟩ := hr
  have hL := grid_largest h
  rw [datum_finite hf] at g2
  rcases g2 with ⟨-, g2, -⟩ | ⟨-, g2⟩
  · injection g2 with _ g2
    subst g2
    by_contra hc
    push Not at hc
    rcases lt_abs.1 hc with c | c
    · linarith [g1.ge_of_grid hL c.le, le_abs_self r.value.toRat]
    · linarith [g1.le_of_grid hL.neg (by linarith : v ≤ -S.fmt.largest), neg_abs_le r.value.toRat]
  · exfalso
    unfold overflowed at g2
    have hlp := largest_pos h
    dsimp only at g2
    split_ifs at g2
    · simp at g2
    · simp at g2
    · simp only [Prod.mk.injEq, Datum.num.injEq, true_and] at g2
      rw [g2.1, abs_signed _ hlp.le] at hl
      exact lt_irrefl _ hl

/-- What one operation within the range delivers. -/
structure Inside (S : Sem) (mode : Round) (v : ℚ) (zs : Bool) (r : StatusAnd (IeeeFloat S)) : Prop where
  valid : r.value.Valid
  finite : r.value.isFinite = true
  inside : |r.value.toRat| < S.fmt.largest
  rounded : IsRounded S.fmt mode v r.value.toRat
  status : r.status = { inexact := decide (r.value.toRat ≠ v), underflow := decide (r.value.toRat ≠ v ∧ |r.value.toRat| < S.fmt.smallestNormal) }
  sign : SignRule v zs r.value.sign

theorem inside_of (h : S.OK) {op : M (StatusAnd (IeeeFloat S))} {mode : Round} {v : ℚ} {zs : Bool}
    (ho : ∀ om, Effective S mode v om → ∃ r, op = .ok r ∧ r.value.Valid ∧ Rounds S om v zs r) {r : StatusAnd (IeeeFloat S)} (hr : op = .ok r)
    (hf : r.value.isFinite = true) (hl : |r.value.toRat| < S.fmt.largest) : Inside S mode v zs r := by
  obtain ⟨om, hom⟩ := exists_effective S mode v
  obtain ⟨s, s1, s2, s3⟩ := ho om hom
  have e := s1.symm.trans hr
  injection e with e
  subst e
  have hv := rounds_inside h s3 hf hl
  have := hom.eq (directedOK_of_ge h mode (_root_.abs_le.1 hv).1)
  subst this
  obtain ⟨-, b, c⟩ := rounds_fine h s3 hv
  exact ⟨s2, hf, hl, b, c, s3.2⟩

/-- Two such operations on scaled values. -/
theorem Inside.scaled (h : S.OK) {mode : Round} {v : ℚ} {zs : Bool} {k : ℤ} {r r' : StatusAnd (IeeeFloat S)} (a : Inside S mode v zs r)
    (b : Inside S mode (v * 2 ^ k) zs r') (c : r.value.toRat = v ∨ (2 : ℚ) ^ S.fmt.emin ≤ |v|)
    (c' : r'.value.toRat = v * 2 ^ k ∨ (2 : ℚ) ^ S.fmt.emin ≤ |v * 2 ^ k|) :
    r'.value.toRat = r.value.toRat * 2 ^ k ∧ r'.value.sign = r.value.sign ∧ r'.status = r.status := by
  have hp : 2 ≤ S.fmt.p := by have := h.p_ge; show 2 ≤ S.precision; omega
  have hk := two_zpow_pos k
  have e := scale_step hp a.rounded b.rounded c c'
  refine ⟨e, ?_, ?_⟩
  · obtain ⟨a1, a2, a3⟩ := a.sign
    obtain ⟨b1, b2, b3⟩ := b.sign
    rcases lt_trichotomy v 0 with q | q | q
    · rw [a2 q, b2 (by nlinarith)]
    · rw [a3 q, b3 (by rw [q, zero_mul])]
    · rw [a1 q, b1 (by positivity)]
  · have u : ¬ (r.value.toRat ≠ v ∧ |r.value.toRat| < S.fmt.smallestNormal) := by
      rintro ⟨q1, q2⟩
      exact absurd (large_of_large (by omega) a.rounded (le_refl _) (c.resolve_left q1)) (not_le.2 q2)
    have u' : ¬ (r'.value.toRat ≠ v * 2 ^ k ∧ |r'.value.toRat| < S.fmt.smallestNormal) := by
      rintro ⟨q1, q2⟩
      exact absurd (large_of_large (by omega) b.rounded (le_refl _) (c'.resolve_left q1)) (not_le.2 q2)
    have i : (r'.value.toRat ≠ v * 2 ^ k) ↔ (r.value.toRat ≠ v) := by
      rw [e, not_iff_not, mul_left_inj' hk.ne']
    rw [a.status, b.status]
    rw [decide_eq_false u, decide_eq_false u']
    simp only [i]

/-- What is shown by induction: both computations run, to results that correspond. -/
def Corresponds (k : ℤ) (e e' : Expr (IeeeFloat S)) : Prop :=
  ∃ r r', e.eval = .ok r ∧ e'.eval = .ok r' ∧ r.value.Valid ∧ r'.value.Valid ∧ r.value.isFinite = true ∧ r'.value.isFinite = true ∧
    r'.value.toRat = r.value.toRat * 2 ^ k ∧ r'.value.sign = r.value.sign ∧ r'.status = r.status

theorem sum_large (h : S.OK) {mode : Round} {v : ℚ} {zs : Bool} {r : StatusAnd (IeeeFloat S)} (hm : Mult (S.fmt.emin - S.fmt.p + 1) v)
    (a : Inside S mode v zs r) : r.value.toRat = v ∨ (2 : ℚ) ^ S.fmt.emin ≤ |v| := by
  have hp : 1 ≤ S.fmt.p := by have := h.p_ge; show 1 ≤ S.precision; omega
  rcases le_or_gt ((2 : ℚ) ^ (S.fmt.emin + 1)) |r.value.toRat| with c | c
  · exact .inr (large_of_large' hp a.rounded (lt_of_lt_of_le (two_zpow_lt (by omega)) c))
  · exact .inl (small_exact hp hm a.rounded c)

theorem scaled_aux (h : S.OK) {k : ℤ} {e e' : Expr (IeeeFloat S)} (hs : Scaled k e e') : e.WithinRange → e'.WithinRange → Corresponds k e e' := by
  have hp : 1 ≤ S.fmt.p := by have := h.p_ge; show 1 ≤ S.precision; omega
  induction hs with
  | lit h1 h2 =>
    intro w w'
    exact ⟨_, _, rfl, rfl, w.1, w'.1, w.2, w'.2, h1, h2, rfl⟩
  | neg _ ih =>
    intro w w'
    obtain ⟨r, r', a, b, v, v', f, f', t, s, st⟩ := ih w w'
    refine ⟨⟨r.status, r.value.neg⟩, ⟨r'.status, r'.value.neg⟩, ?_, ?_, neg_valid v, neg_valid v', by rw [neg_finite]; exact f, by rw [neg_finite]; exact f', ?_, ?_, st⟩
    · unfold Expr.eval; rw [a]; rfl
    · unfold Expr.eval; rw [b]; rfl
    · simp only [neg_toRat, t]; ring
    · simp only [neg_eq, s]
  | @add k m a b a' b' _ _ iha ihb =>
    intro w w'
    obtain ⟨wa, wb, z, z1, z2, z3⟩ := w
    obtain ⟨wa', wb', z', z1', z2', z3'⟩ := w'
    obtain ⟨x, x', xe, xe', xv, xv', xf, xf', xt, xs, xst⟩ := iha wa wa'
    obtain ⟨y, y', ye, ye', yv, yv', yf, yf', yt, ys, yst⟩ := ihb wb wb'
    obtain ⟨om, hom⟩ := exists_effective S m (x.value.toRat + y.value.toRat)
    obtain ⟨r, r1, -⟩ := addR_eff h xv yv xf yf m hom
    obtain ⟨om', hom'⟩ := exists_effective S m (x'.value.toRat + y'.value.toRat)
    obtain ⟨r', r1', -⟩ := addR_eff h xv' yv' xf' yf' m hom'
    have q : (Expr.add m a b).eval = .ok ⟨x.status ||| y.status ||| r.status, r.value⟩ := by
      unfold Expr.eval; rw [xe, ye, M.ok_bind, M.ok_bind, show ApiFloat.add_r x.value y.value m = .ok r from r1]; rfl
    have q' : (Expr.add m a' b').eval = .ok ⟨x'.status ||| y'.status ||| r'.status, r'.value⟩ := by
      unfold Expr.eval; rw [xe', ye', M.ok_bind, M.ok_bind, show ApiFloat.add_r x'.value y'.value m = .ok r' from r1']; rfl
    rw [q] at z1; injection z1 with z1; subst z1
    rw [q'] at z1'; injection z1' with z1'; subst z1'
    have i := inside_of h (fun om ho => addR_eff h xv yv xf yf m ho) r1 z2 z3
    have i' := inside_of h (fun om ho => addR_eff h xv' yv' xf' yf' m ho) r1' z2' z3'
    have c := sum_large h ((mult_of_grid (grid_toRat h xv xf)).add (mult_of_grid (grid_toRat h yv yf))) i
    have c' := sum_large h ((mult_of_grid (grid_toRat h xv' xf')).add (mult_of_grid (grid_toRat h yv' yf'))) i'
    rw [xt, yt, ← add_mul] at i' c'
    rw [xs, ys] at i'
    obtain ⟨g1, g2, g3⟩ := i.scaled h i' c c'
    exact ⟨_, _, q, q', i.valid, i'.valid, z2, z2', g1, g2, by simp only [xst, yst, g3]⟩
  | @sub k m a b a' b' _ _ iha ihb =>
    intro w w'
    obtain ⟨wa, wb, z, z1, z2, z3⟩ := w
    obtain ⟨wa', wb', z', z1', z2', z3'⟩ := w'
    obtain ⟨x, x', xe, xe', xv, xv', xf, xf', xt, xs, xst⟩ := iha wa wa'
    obtain ⟨y, y', ye, ye', yv, yv', yf, yf', yt, ys, yst⟩ := ihb wb wb'
    obtain ⟨om, hom⟩ := exists_effective S m (x.value.toRat - y.value.toRat)
    obtain ⟨r, r1, -⟩ := subR_eff h xv yv xf yf m hom
    obtain ⟨om', hom'⟩ := exists_effective S m (x'.value.toRat - y'.value.toRat)
    obtain ⟨r', r1', -⟩ := subR_eff h xv' yv' xf' yf' m hom'
    have q : (Expr.sub m a b).eval = .ok ⟨x.status ||| y.status ||| r.status, r.value⟩ := by
      unfold Expr.eval; rw [xe, ye, M.ok_bind, M.ok_bind, show ApiFloat.sub_r x.value y.value m = .ok r from r1]; rfl
    have q' : (Expr.sub m a' b').eval = .ok ⟨x'.status ||| y'.status ||| r'.status, r'.value⟩ := by
      unfold Expr.eval; rw [xe', ye', M.ok_bind, M.ok_bind, show ApiFloat.sub_r x'.value y'.value m = .ok r' from r1']; rfl
    rw [q] at z1; injection z1 with z1; subst z1
    rw [q'] at z1'; injection z1' with z1'; subst z1'
    have i := inside_of h (fun om ho => subR_eff h xv yv xf yf m ho) r1 z2 z3
    have i' := inside_of h (fun om ho => subR_eff h xv' yv' xf' yf' m ho) r1' z2' z3'
    have c := sum_large h ((mult_of_grid (grid_toRat h xv xf)).sub (mult_of_grid (grid_toRat h yv yf))) i
    have c' := sum_large h ((mult_of_grid (grid_toRat h xv' xf')).sub (mult_of_grid (grid_toRat h yv' yf'))) i'
    rw [xt, yt, ← sub_mul] at i' c'
    rw [xs, ys] at i'
    obtain ⟨g1, g2, g3⟩ := i.scaled h i' c c'
    exact ⟨_, _, q, q', i.valid, i'.valid, z2, z2', g1, g2, by simp only [xst, yst, g3]⟩
  | @mul j k m a b a' b' _ _ iha ihb =>
    intro w w'
    obtain ⟨wa, wb, u, v, z, u1, v1, z1, z2, z3, z4⟩ := w
    obtain ⟨wa', wb', u', v', z', u1', v1', z1', z2', z3', z4'⟩ := w'
    obtain ⟨x, x', xe, xe', xv, xv', xf, xf', xt, xs, xst⟩ := iha wa wa'
    obtain ⟨y, y', ye, ye', yv, yv', yf, yf', yt, ys, yst⟩ := ihb wb wb'
    rw [xe] at u1; injection u1 with u1; subst u1
    rw [xe'] at u1'; injection u1' with u1'; subst u1'
    rw [ye] at v1; injection v1 with v1; subst v1
    rw [ye'] at v1'; injection v1' with v1'; subst v1'
    obtain ⟨om, hom⟩ := exists_effective S m (x.value.toRat * y.value.toRat)
    obtain ⟨r, r1, -⟩ := mulR_eff h xv yv xf yf m hom
    obtain ⟨om', hom'⟩ := exists_effective S m (x'.value.toRat * y'.value.toRat)
    obtain ⟨r', r1', -⟩ := mulR_eff h xv' yv' xf' yf' m hom'
    have q : (Expr.mul m a b).eval = .ok ⟨x.status ||| y.status ||| r.status, r.value⟩ := by
      unfold Expr.eval; rw [xe, ye, M.ok_bind, M.ok_bind, show ApiFloat.mul_r x.value y.value m = .ok r from r1]; rfl
    have q' : (Expr.mul m a' b').eval = .ok ⟨x'.status ||| y'.status ||| r'.status, r'.value⟩ := by
      unfold Expr.eval; rw [xe', ye', M.ok_bind, M.ok_bind, show ApiFloat.mul_r x'.value y'.value m = .ok r' from r1']; rfl
    rw [q] at z1; injection z1 with z1; subst z1
    rw [q'] at z1'; injection z1' with z1'; subst z1'
    have i := inside_of h (fun om ho => mulR_eff h xv yv xf yf m ho) r1 z2 z3
    have i' := inside_of h (fun om ho => mulR_eff h xv' yv' xf' yf' m ho) r1' z2' z3'
    have c := z4.imp_right fun c => large_of_large' hp i.rounded c
    have c' := z4'.imp_right fun c => large_of_large' hp i'.rounded c
    have e : x'.value.toRat * y'.value.toRat = x.value.toRat * y.value.toRat * 2 ^ (j + k) := by rw [xt, yt, two_zpow_add]; ring
    rw [e] at i' c'
    rw [xs, ys] at i'
    obtain ⟨g1, g2, g3⟩ := i.scaled h i' c c'
    exact ⟨_, _, q, q', i.valid, i'.valid, z2, z2', g1, g2, by simp only [xst, yst, g3]⟩
  | @div j k m a b a' b' _ _ iha ihb =>
    intro w w'
    obtain ⟨wa, wb, u, v, z, u1, v1, z1, z2, z3, z4⟩ := w
    obtain ⟨wa', wb', u', v', z', u1', v1', z1', z2', z3', z4'⟩ := w'
    obtain ⟨x, x', xe, xe', xv, xv', xf, xf', xt, xs, xst⟩ := iha wa wa'
    obtain ⟨y, y', ye, ye', yv, yv', yf, yf', yt, ys, yst⟩ := ihb wb wb'
    rw [xe] at u1; injection u1 with u1; subst u1
    rw [xe'] at u1'; injection u1' with u1'; subst u1'
    rw [ye] at v1; injection v1 with v1; subst v1
    rw [ye'] at v1'; injection v1' with v1'; subst v1'
    have y0 : y.value.toRat ≠ 0 := by
      intro y0
      have cy : y.value.category = .zero := (isFinite_iff.1 yf).resolve_left fun c => toRat_ne_zero yv c y0
      obtain ⟨r, r1, r2⟩ : ∃ r, divR x.value y.value m = .ok r ∧ r.value.isFinite = false := by
        rcases isFinite_iff.1 xf with cx | cx
        · obtain ⟨r, r1, -, r2⟩ := (C10_div_special (x := x.value) (y := y.value) m).2.1 cx cy
          exact ⟨r, r1, by cases c : S.nonfinite <;> [have := r2.2.1 c; have := r2.2.2 c] <;> simp [isFinite, isNan, isInfinite, this]⟩
        · obtain ⟨r, r1, r2⟩ := (C10_div_special (x := x.value) (y := y.value) m).1 (.inr ⟨cx, cy⟩)
          exact ⟨r, r1, by simp [isFinite, isNan, isInfinite, r2.2.1]⟩
      have q : (Expr.div m a b).eval = .ok ⟨x.status ||| y.status ||| r.status, r.value⟩ := by
        unfold Expr.eval; rw [xe, ye, M.ok_bind, M.ok_bind, show ApiFloat.div_r x.value y.value m = .ok r from r1]; rfl
      rw [q] at z1; injection z1 with z1; subst z1
      rw [r2] at z2; cases z2
    have y0' : y'.value.toRat ≠ 0 := by rw [yt]; exact mul_ne_zero y0 (two_zpow_pos k).ne'
    obtain ⟨om, hom⟩ := exists_effective S m (x.value.toRat / y.value.toRat)
    obtain ⟨r, r1, -⟩ := divR_eff h xv yv xf yf y0 m hom
    obtain ⟨om', hom'⟩ := exists_effective S m (x'.value.toRat / y'.value.toRat)
    obtain ⟨r', r1', -⟩ := divR_eff h xv' yv' xf' yf' y0' m hom'
    have q : (Expr.div m a b).eval = .ok ⟨x.status ||| y.status ||| r.status, r.value⟩ := by
      unfold Expr.eval; rw [xe, ye, M.ok_bind, M.ok_bind, show ApiFloat.div_r x.value y.value m = .ok r from r1]; rfl
    have q' : (Expr.div m a' b').eval = .ok ⟨x'.status ||| y'.status ||| r'.status, r'.value⟩ := by
      unfold Expr.eval; rw [xe', ye', M.ok_bind, M.ok_bind, show ApiFloat.div_r x'.value y'.value m = .ok r' from r1']; rfl
    rw [q] at z1; injection z1 with z1; subst z1
    rw [q'] at z1'; injection z1' with z1'; subst z1'
    have i := inside_of h (fun om ho => divR_eff h xv yv xf yf y0 m ho) r1 z2 z3
    have i' := inside_of h (fun om ho => divR_eff h xv' yv' xf' yf' y0' m ho) r1' z2' z3'
    have c := z4.imp_right fun c => large_of_large' hp i.rounded c
    have c' := z4'.imp_right fun c => large_of_large' hp i'.rounded c
    have e : x'.value.toRat / y'.value.toRat = x.value.toRat / y.value.toRat * 2 ^ (j - k) := by
      rw [xt, yt, zpow_sub₀ (by norm_num)]
      have := (two_zpow_pos k).ne'
      field_simp
    rw [e] at i' c'
    rw [xs, ys] at i'
    obtain ⟨g1, g2, g3⟩ := i.scaled h i' c c'
    exact ⟨_, _, q, q', i.valid, i'.valid, z2, z2', g1, g2, by simp only [xst, yst, g3]⟩

/-- **C113.** Scaling the numbers a computation starts from by powers of two that fit together scales its result by the corresponding power, with the same sign and the same
flags, as long as both computations stay within the range: it is the number `scalbn` makes of the first result, in every mode. -/
theorem C113_scaling (h : S.OK) {k : ℤ} {e e' : Expr (IeeeFloat S)} (hs : Scaled k e e') (w : e.WithinRange) (w' : e'.WithinRange) :
    ∃ r r', e.eval = .ok r ∧ e'.eval = .ok r' ∧ r'.value.toRat = r.value.toRat * 2 ^ k ∧ r'.status = r.status ∧
      ∀ mode, ∃ t, scalbnR r.value k mode = .ok t ∧ t.bitwiseEq r'.value = true := by
  obtain ⟨r, r', a, b, v, v', f, f', t, s, st⟩ := scaled_aux h hs w w'
  refine ⟨r, r', a, b, t, st, fun mode => ?_⟩
  obtain ⟨q, q1, q2, q3, q4, q5⟩ := scalbn_grid h v f k mode (by rw [← t]; exact grid_toRat h v' f') (by rw [← t]; exact abs_toRat_le h v' f')
  exact ⟨q, q1, same_bits h q2 v' q4 f' (by rw [q3, s]) (by rw [q5, t])⟩

/-! Non-vacuity: `1 / (1.5 + 1.5)`, which is inexact, and `32 / (6 + 6)`. -/
def exThird : Expr (IeeeFloat singleS) := .div .nearestTiesToEven (.lit ⟨2 ^ 23, 0, .normal, false⟩) (.add .towardZero (.lit ex15) (.lit ex15))
def exThird8 : Expr (IeeeFloat singleS) :=
  .div .nearestTiesToEven (.lit ⟨2 ^ 23, 5, .normal, false⟩) (.add .towardZero (.lit ⟨3 * 2 ^ 22, 2, .normal, false⟩) (.lit ⟨3 * 2 ^ 22, 2, .normal, false⟩))

theorem exThird_scaled : Scaled 3 exThird exThird8 :=
  .div (j := 5) (k := 2) (.lit (by decide +kernel) rfl) (.add (.lit (by decide +kernel) rfl) (.lit (by decide +kernel) rfl))

theorem exThird_range : exThird.WithinRange :=
  ⟨⟨by decide, by decide⟩, ⟨⟨by decide, by decide⟩, ⟨by decide, by decide⟩, ⟨Status.OK, ⟨3 * 2 ^ 22, 1, .normal, false⟩⟩, by decide +kernel, by decide +kernel, by decide +kernel⟩,
    ⟨Status.OK, ⟨2 ^ 23, 0, .normal, false⟩⟩, ⟨Status.OK, ⟨3 * 2 ^ 22, 1, .normal, false⟩⟩, ⟨{ inexact := true }, ⟨11184811, -2, .normal, false⟩⟩,
    rfl, by decide +kernel, by decide +kernel, by decide +kernel, by decide +kernel, .inr (by decide +kernel)⟩

theorem exThird8_range : exThird8.WithinRange :=
  ⟨⟨by decide, by decide⟩, ⟨⟨by decide, by decide⟩, ⟨by decide, by decide⟩, ⟨Status.OK, ⟨3 * 2 ^ 22, 3, .normal, false⟩⟩, by decide +kernel, by decide +kernel, by decide +kernel⟩,
    ⟨Status.OK, ⟨2 ^ 23, 5, .normal, false⟩⟩, ⟨Status.OK, ⟨3 * 2 ^ 22, 3, .normal, false⟩⟩, ⟨{ inexact := true }, ⟨11184811, 1, .normal, false⟩⟩,
    rfl, by decide +kernel, by decide +kernel, by decide +kernel, by decide +kernel, .inr (by decide +kernel)⟩

example := C113_scaling singleS_ok exThird_scaled exThird_range exThird8_range

/-- The condition on products is needed: `1025·2^-24 · 0.5` is rounded in the subnormal range of `Half`, twice `1025·2^-24` times `0.5` is exact. -/
theorem C113_products_below_normal :
    ∃ x x' y : IeeeFloat halfS, ∃ r r', x.Valid ∧ x'.Valid ∧ y.Valid ∧ x'.toRat = x.toRat * 2 ∧ mulR x y .nearestTiesToEven = .ok r ∧
      mulR x' y .nearestTiesToEven = .ok r' ∧ r'.value.toRat ≠ r.value.toRat * 2 ∧ r'.status ≠ r.status :=
  ⟨⟨1025, -14, .normal, false⟩, ⟨1025, -13, .normal, false⟩, ⟨1024, -1, .normal, false⟩,
    ⟨{ inexact := true, underflow := true }, ⟨512, -14, .normal, false⟩⟩, ⟨Status.OK, ⟨1025, -14, .normal, false⟩⟩,
    by decide, by decide, by decide, by decide +kernel, by decide +kernel, by decide +kernel, by decide +kernel, by decide⟩

end Apf
