import Verif.Spec.Iterate
import Verif.Props.BitOrder
import Verif.Props.Accumulate
/-! # C99: walking through the values, counting -/

namespace Apf
open Spec IeeeFloat
variable {S : Sem}

theorem walkUp_key (h : S.Enc) (hi : S.explicitIntBit = false) {x y : IeeeFloat S} (hx : x.Valid) (hy : y.Valid) (fx : x.isFinite = true)
    (fy : y.isFinite = true) (n : ℕ) (hn : x.key + n ≤ y.key) :
    ∃ r, walkUp x n = .ok r ∧ r.Valid ∧ r.isFinite = true ∧ r.key = x.key + n := by
  induction n with
  | zero => exact ⟨x, rfl, hx, fx, by simp⟩
  | succ n ih =>
    obtain ⟨r, r1, r2, r3, r4⟩ := ih (by push_cast at hn; omega)
    have hlt : r.toRat < y.toRat := by
      have := le_iff_key h hy r2 (not_nan_of_finite fy) (not_nan_of_finite r3)
      rw [datum_finite fy, datum_finite r3] at this
      have : ¬ y.toRat ≤ r.toRat := fun q => by have := this.1 q; push_cast at hn; omega
      exact lt_of_not_ge this
    have hl := (_root_.abs_le.1 (abs_toRat_le h.ok hy fy)).2
    obtain ⟨s, s1, s2, s3, -⟩ := C14_next_up h.ok r2 r3 (by rw [toRat_largest h.ok]; linarith)
    obtain ⟨s', t1, t2, t3, -⟩ := nextUp_key h hi r2 r3
    rw [s1] at t1
    cases t1
    refine ⟨s, ?_, s2, s3, by rw [t3, r4]; push_cast; ring⟩
    unfold walkUp
    rw [r1, M.ok_bind, s1, M.ok_bind]

theorem toRat_le_key (h : S.Enc) {x y : IeeeFloat S} (hx : x.Valid) (hy : y.Valid) (fx : x.isFinite = true) (fy : y.isFinite = true) :
    x.toRat ≤ y.toRat ↔ x.key ≤ y.key := by
  have := le_iff_key h hx hy (not_nan_of_finite fx) (not_nan_of_finite fy)
  rw [datum_finite fx, datum_finite fy] at this
  exact this

/-- **C99.** From `x` every representable `y ≥ x` is reached by applying `next_up`, after as many steps as the difference of the bit patterns (as sign and
magnitude integers) says.  The steps go strictly up and leave out no number in between. -/
theorem C99_walk (h : S.Enc) (hi : S.explicitIntBit = false) {x y : IeeeFloat S} (hx : x.Valid) (hy : y.Valid) (fx : x.isFinite = true)
    (fy : y.isFinite = true) (hxy : x.toRat ≤ y.toRat) {b c : ℕ} (hb : x.toBits = .ok b) (hc : y.toBits = .ok c) :
    ∃ n : ℕ, (n : ℤ) = signMag S.bits c - signMag S.bits b ∧
      (∃ r, walkUp x n = .ok r ∧ r.Valid ∧ r.isFinite = true ∧ r.toRat = y.toRat) ∧
      (∀ i < n, ∃ s t, walkUp x i = .ok s ∧ walkUp x (i + 1) = .ok t ∧ s.toRat < t.toRat) ∧
      (∀ z : IeeeFloat S, z.Valid → z.isFinite = true → x.toRat ≤ z.toRat → z.toRat ≤ y.toRat →
        ∃ i ≤ n, ∃ s, walkUp x i = .ok s ∧ s.toRat = z.toRat) := by
  rw [(toBits_key h hx hb).1, (toBits_key h hy hc).1]
  have k := (toRat_le_key h hx hy fx fy).1 hxy
  have reach : ∀ z : IeeeFloat S, z.Valid → z.isFinite = true → x.toRat ≤ z.toRat →
      ∃ r, walkUp x (z.key - x.key).toNat = .ok r ∧ r.Valid ∧ r.isFinite = true ∧ r.toRat = z.toRat := by
    intro z hz fz hxz
    have kz := (toRat_le_key h hx hz fx fz).1 hxz
    obtain ⟨r, r1, r2, r3, r4⟩ := walkUp_key h hi hx hz fx fz (z.key - x.key).toNat (by omega)
    refine ⟨r, r1, r2, r3, le_antisymm ((toRat_le_key h r2 hz r3 fz).2 (by omega)) ((toRat_le_key h hz r2 fz r3).2 (by omega))⟩
  refine ⟨(y.key - x.key).toNat, by omega, reach y hy fy hxy, fun i hin => ?_, fun z hz fz h1 h2 => ?_⟩
  · obtain ⟨s, s1, s2, s3, s4⟩ := walkUp_key h hi hx hy fx fy i (by omega)
    obtain ⟨t, t1, t2, t3, t4⟩ := walkUp_key h hi hx hy fx fy (i + 1) (by push_cast; omega)
    refine ⟨s, t, s1, t1, lt_of_not_ge fun q => ?_⟩
    have := (toRat_le_key h t2 s2 t3 s3).1 q
    push_cast at t4
    omega
  · have kz := (toRat_le_key h hz hy fz fy).1 h2
    obtain ⟨r, r1, -, -, r4⟩ := reach z hz fz h1
    exact ⟨_, by omega, r, r1, r4⟩

/-- Beyond `2^p` the representable numbers are even integers. -/
theorem grid_even {F : Fmt} {g : ℚ} (hg : F.Grid g) (hl : 2 ^ F.p ≤ g) : ∃ j : ℤ, g = 2 * j := by
  obtain ⟨m, k, h1, -, rfl⟩ := hg
  have hm : (m : ℚ) < 2 ^ F.p := by
    have : m < 2 ^ F.p := (le_abs_self m).trans_lt h1
    exact_mod_cast this
  have k1 : 1 ≤ k := by
    by_contra hk
    have : (2 : ℚ) ^ k ≤ 1 := by
      have := two_zpow_le (show k ≤ 0 by omega)
      simpa using this
    have kp := two_zpow_pos k
    rcases le_or_gt 0 (m : ℚ) with c | c
    · nlinarith
    · have : (0 : ℚ) < 2 ^ F.p := by positivity
      nlinarith
  refine ⟨m * 2 ^ (k - 1).toNat, ?_⟩
  have e : (k - 1).toNat = k - 1 := by omega
  push_cast
  rw [← zpow_natCast, e, show k = (k - 1) + 1 by ring, two_zpow_add (k - 1) 1]
  norm_num
  ring

theorem stuck_rounded {F : Fmt} (hp : 2 ≤ F.p) (hmin : F.emin - F.p + 1 ≤ 1) {mode : Round}
    (hm : mode = .nearestTiesToEven ∨ mode = .towardZero ∨ mode = .towardNegative) : IsRounded F mode (2 ^ F.p + 1) (2 ^ F.p) := by
  have e1 : (2 : ℚ) ^ F.p = 2 ^ (F.p - 1) * 2 := by rw [← pow_succ]; congr 1; omega
  have e2 : (2 : ℤ) ^ F.p = 2 * (2 * 2 ^ (F.p - 2)) := by rw [← pow_succ', ← pow_succ']; congr 1; omega
  have e3 : (2 : ℚ) ^ F.p = 2 * (2 * 2 ^ (F.p - 2)) := by exact_mod_cast e2
  have p0 : (0 : ℤ) < 2 ^ (F.p - 2) := by positivity
  have p1 : (0 : ℚ) < 2 ^ F.p := by positivity
  have ev : F.EvenGrid (2 ^ F.p) := by
    refine ⟨2 ^ (F.p - 2), 1, ?_, hmin, ?_⟩
    · rw [abs_of_pos (by omega)]; omega
    · push_cast; rw [e3]; norm_num; ring
  have gr : F.Grid (2 ^ F.p) := by
    obtain ⟨m, k, a, b, c⟩ := ev
    exact ⟨2 * m, k, a, b, by rw [c]; push_cast; ring⟩
  have gap : ∀ g, F.Grid g → g ≤ 2 ^ F.p ∨ 2 ^ F.p + 2 ≤ g := by
    intro g hg
    by_cases c : g ≤ 2 ^ F.p
    · exact Or.inl c
    · right
      obtain ⟨j, rfl⟩ := grid_even hg (not_le.1 c).le
      have c' := not_le.1 c
      rw [e3] at c' ⊢
      have : 2 * (2 * 2 ^ (F.p - 2)) < 2 * j := by exact_mod_cast c'
      have : 2 * (2 * 2 ^ (F.p - 2)) + 2 ≤ 2 * j := by omega
      exact_mod_cast this
  refine ⟨gr, ?_⟩
  rcases hm with rfl | rfl | rfl
  · refine ⟨fun g hg => ?_, fun _ _ _ _ => ev⟩
    rcases gap g hg with c | c
    · rw [abs_of_nonneg (by linarith), abs_of_nonneg (by linarith)]; linarith
    · rw [abs_of_nonneg (by linarith), abs_of_nonpos (by linarith)]; linarith
  · refine ⟨fun _ => ⟨by linarith, fun g hg hgv => ?_⟩, fun q => by linarith⟩
    rcases gap g hg with c | c
    · exact c
    · linarith
  · refine ⟨by linarith, fun g hg hgv => ?_⟩
    rcases gap g hg with c | c
    · exact c
    · linarith

/-- **C99.** A counter that starts at zero and is incremented by one counts exactly, without a flag, up to `2^p`, in every mode. -/
theorem C99_count (h : S.OK) {one : IeeeFloat S} (h1 : one.Valid) (f1 : one.isFinite = true) (v1 : one.toRat = 1) (mode : Round) {n : ℕ}
    (hn : n ≤ 2 ^ S.precision) :
    ∃ r, countUp one mode n = .ok r ∧ r.value.Valid ∧ r.value.isFinite = true ∧ r.value.toRat = n ∧ r.status = Status.OK := by
  induction n with
  | zero => exact ⟨_, rfl, zero_valid, rfl, by simp [ZERO, toRat], rfl⟩
  | succ n ih =>
    obtain ⟨r, r1, r2, r3, r4, r5⟩ := ih (by omega)
    have e : r.value.toRat + one.toRat = ((n + 1 : ℕ) : ℤ) := by rw [r4, v1]; push_cast; ring
    have hg : S.fmt.Grid (((n + 1 : ℕ) : ℤ) : ℚ) := grid_int h (by rw [abs_of_nonneg (by positivity)]; exact_mod_cast hn)
    have hl : |(((n + 1 : ℕ) : ℤ) : ℚ)| ≤ S.fmt.largest := by
      rw [abs_of_nonneg (by positivity)]
      refine le_trans ?_ (pow_le_largest h)
      exact_mod_cast hn
    obtain ⟨s, s1, s2, s3⟩ := addR_finite h r2 h1 r3 f1 mode (directedOK_of_ge h mode (by rw [e]; exact (_root_.abs_le.1 hl).1))
    rw [e] at s3
    obtain ⟨s4, s5, s6⟩ := s3.exact hg hl
    refine ⟨⟨r.status ||| s.status, s.value⟩, ?_, s2, s5, by rw [s6]; push_cast; ring, by rw [r5, s4]; rfl⟩
    show (countUp one mode n >>= fun r => addR r.value one mode >>= fun s => _) = _
    rw [r1, M.ok_bind, s1, M.ok_bind]

/-- **C99.** In the modes that do not round up, it stays at `2^p` forever after, which the flags tell. -/
theorem C99_stuck (h : S.OK) {one : IeeeFloat S} (h1 : one.Valid) (f1 : one.isFinite = true) (v1 : one.toRat = 1) {mode : Round}
    (hm : mode = .nearestTiesToEven ∨ mode = .towardZero ∨ mode = .towardNegative) {n : ℕ} (hn : 2 ^ S.precision < n) :
    ∃ r, countUp one mode n = .ok r ∧ r.value.isFinite = true ∧ r.value.toRat = 2 ^ S.precision ∧ r.status = Status.INEXACT := by
  have h3 := h.p_ge
  have hmin := h.min_lt
  have key : ∀ k, ∃ r, countUp one mode (2 ^ S.precision + k) = .ok r ∧ r.value.Valid ∧ r.value.isFinite = true ∧ r.value.toRat = 2 ^ S.precision ∧
      r.status = if k = 0 then Status.OK else Status.INEXACT := by
    intro k
    induction k with
    | zero =>
      obtain ⟨r, r1, r2, r3, r4, r5⟩ := C99_count h h1 f1 v1 mode (le_refl (2 ^ S.precision))
      exact ⟨r, r1, r2, r3, by rw [r4]; push_cast; rfl, r5⟩
    | succ k ih =>
      obtain ⟨r, r1, r2, r3, r4, r5⟩ := ih
      have e : r.value.toRat + one.toRat = 2 ^ S.precision + 1 := by rw [r4, v1]
      have p0 : (0 : ℚ) < 2 ^ S.precision := by positivity
      have hl : |(2 : ℚ) ^ S.precision + 1| ≤ S.fmt.largest := by
        rw [abs_of_pos (by linarith)]
        have := pow_le_largest' h
        linarith
      obtain ⟨s, s1, s2, s3⟩ := addR_finite h r2 h1 r3 f1 mode (directedOK_of_ge h mode (by rw [e]; exact (_root_.abs_le.1 hl).1))
      rw [e] at s3
      obtain ⟨s4, s5, s6⟩ := rounds_fine h s3 hl
      have u := s5.unique (stuck_rounded (F := S.fmt) (mode := mode) (by show 2 ≤ S.precision; omega)
        (by show S.minExp - S.precision + 1 ≤ 1; omega) hm)
      change s.value.toRat = 2 ^ S.precision at u
      have sn : ¬ |s.value.toRat| < S.fmt.smallestNormal := by
        rw [u, abs_of_pos p0, not_lt]
        show (2 : ℚ) ^ S.minExp ≤ _
        rw [← zpow_natCast]
        exact two_zpow_le (by omega)
      have ss : s.status = Status.INEXACT := by
        have ne : s.value.toRat ≠ 2 ^ S.precision + 1 := by rw [u]; intro q; linarith
        rw [s6, decide_eq_true ne, decide_eq_false (p := s.value.toRat ≠ 2 ^ S.precision + 1 ∧ _) (fun q => sn q.2)]
        rfl
      refine ⟨⟨r.status ||| s.status, s.value⟩, ?_, s2, s4, u, ?_⟩
      · show (countUp one mode (2 ^ S.precision + k) >>= fun r => addR r.value one mode >>= fun s => _) = _
        rw [r1, M.ok_bind, s1, M.ok_bind]
      · show r.status ||| s.status = if k + 1 = 0 then _ else _
        rw [ss, r5, if_neg (Nat.succ_ne_zero k)]
        split_ifs <;> rfl
  obtain ⟨r, r1, r2, r3, r4, r5⟩ := key (n - 2 ^ S.precision)
  rw [Nat.add_sub_cancel' hn.le] at r1
  exact ⟨r, r1, r3, r4, by rw [r5, if_neg (by omega)]⟩

/-- A walk of three steps across zero in `Half`, and a count to four in a format of four bits. -/
example : walkUp (⟨1, -14, .normal, true⟩ : IeeeFloat halfS) 3 = .ok ⟨2, -14, .normal, false⟩ := by decide +kernel
example := C99_walk halfS_enc rfl (x := ⟨1, -14, .normal, true⟩) (y := ⟨2, -14, .normal, false⟩) (by decide) (by decide) rfl rfl (by decide +kernel)
  (b := 0x8001) (c := 2) (by decide +kernel) (by decide +kernel)
example := C99_count singleS_ok (one := ⟨2 ^ 23, 0, .normal, false⟩) (by decide) rfl (by decide +kernel) .towardPositive (n := 1000000) (by norm_num [singleS, Sem.default])
example := C99_stuck singleS_ok (one := ⟨2 ^ 23, 0, .normal, false⟩) (by decide) rfl (by decide +kernel) (mode := .nearestTiesToEven) (.inl rfl) (n := 2 ^ 24 + 5)
  (by norm_num [singleS, Sem.default])

end Apf
