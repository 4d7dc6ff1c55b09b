import Verif.Props.Identities
import Verif.Props.Convert
import Verif.Props.Ints
import Verif.Props.FmaExact
/-!
# C67: the directed rounding modes enclose the exact result

`Spec.Datum.le` is the order of the extended reals.
-/

namespace Apf
open Spec IeeeFloat
variable {S T : Sem}

/-- `lo` and `hi` enclose the exact value `v` as tightly as the format allows, and `d` (a result in any other mode) is one of
them: no number or infinity of the format lies strictly between. -/
def Encloses (S : Sem) (v : ℚ) (lo hi d : Datum) : Prop :=
  lo.le (.num false v) ∧ (Datum.num false v).le hi ∧ lo.le d ∧ d.le hi ∧
    ∀ z : IeeeFloat S, z.Valid → z.category ≠ .nan → z.datum.le lo ∨ hi.le z.datum

/-- The delivered datum by cases, in a format with infinities. -/
theorem Rounds.cases (h : S.OK) (hS : S.nonfinite = .ieee754) {mode : Round} {v : ℚ} {zs : Bool} {r : StatusAnd (IeeeFloat S)}
    (hr : Rounds S mode v zs r) :
    ∃ g, IsRounded S.fmt mode v g ∧
      ((|g| ≤ S.fmt.largest ∧ r.value.datum = .num r.value.sign g) ∨
       (S.fmt.largest < g ∧ (r.value.datum = .inf false ∧ mode ≠ .towardNegative ∨ r.value.datum = .num false S.fmt.largest ∧ mode ≠ .towardPositive)) ∨
       (g < -S.fmt.largest ∧ (r.value.datum = .inf true ∧ mode ≠ .towardPositive ∨ r.value.datum = .num true (-S.fmt.largest) ∧ mode ≠ .towardNegative))) := by
  have hl := largest_pos h
  have hI : S.fmt.hasInf = true := by simp [Sem.fmt, hS]
  obtain ⟨⟨g, g1, g2⟩, s1, s2, -⟩ := hr
  refine ⟨g, g1, ?_⟩
  rcases g2 with ⟨a, b, -⟩ | ⟨a, b⟩
  · exact Or.inl ⟨a, b⟩
  · right
    have b := (Prod.ext_iff.1 b).1
    dsimp only at b
    rcases lt_trichotomy v 0 with c | c | c
    · right
      have : g ≤ 0 := g1.le_of_grid grid_zero c.le
      rw [abs_of_nonpos this] at a
      refine ⟨by linarith, ?_⟩
      rw [b, s2 c]
      cases mode <;> simp [overflowed, hI, signed]
    · subst c
      have := g1.unique (isRounded_self mode grid_zero)
      rw [this, abs_zero] at a; linarith
    · left
      have : 0 ≤ g := g1.nonneg c.le
      rw [abs_of_nonneg this] at a
      refine ⟨a, ?_⟩
      rw [b, s1 c]
      cases mode <;> simp [overflowed, hI, signed]

/-- **C67.** Whatever the operation, its results in the modes toward negative and toward positive enclose the exact result, without
any number of the format in between, and the result in each other mode is one of the two. -/
theorem C67_enclosure (h : S.OK) (hS : S.nonfinite = .ieee754) {mode : Round} {v : ℚ} {a b c : Bool} {lo hi r : StatusAnd (IeeeFloat S)}
    (hlo : Rounds S .towardNegative v a lo) (hhi : Rounds S .towardPositive v b hi) (hr : Rounds S mode v c r) :
    Encloses S v lo.value.datum hi.value.datum r.value.datum := by
  have hl := largest_pos h
  obtain ⟨g, g1, g2⟩ := hlo.cases h hS
  obtain ⟨k, k1, k2⟩ := hhi.cases h hS
  obtain ⟨q, q1, q2⟩ := hr.cases h hS
  have gv : g ≤ v := g1.2.1
  have vk : v ≤ k := k1.2.1
  have gq := q1.ge_of_grid g1.1 gv
  have qk := q1.le_of_grid k1.1 vk
  clear hlo hhi hr
  refine ⟨?_, ?_, ?_, ?_, ?_⟩
  · rcases g2 with ⟨-, e⟩ | ⟨e1, ⟨-, e⟩ | ⟨e, -⟩⟩ | ⟨e1, ⟨e, -⟩ | ⟨-, e⟩⟩ <;> first | exact absurd rfl e | skip
    · rw [e]; exact gv
    · rw [e]; exact (e1.trans_le gv).le
    · rw [e]; trivial
  · rcases k2 with ⟨-, e⟩ | ⟨e1, ⟨e, -⟩ | ⟨-, e⟩⟩ | ⟨e1, ⟨-, e⟩ | ⟨e, -⟩⟩ <;> first | exact absurd rfl e | skip
    · rw [e]; exact vk
    · rw [e]; trivial
    · rw [e]; exact (vk.trans_lt e1).le
  · rcases g2 with ⟨a1, e⟩ | ⟨e1, ⟨-, e⟩ | ⟨e, -⟩⟩ | ⟨e1, ⟨e, -⟩ | ⟨-, e⟩⟩ <;> first | exact absurd rfl e | skip
    · rcases q2 with ⟨-, f⟩ | ⟨f1, ⟨f, -⟩ | ⟨f, -⟩⟩ | ⟨f1, ⟨f, -⟩ | ⟨f, -⟩⟩ <;> rw [e, f] <;> simp only [Datum.le]
      · exact gq
      · exact (abs_le.1 a1).2
      · have := (abs_le.1 a1).1; linarith
      · have := (abs_le.1 a1).1; linarith
    · rcases q2 with ⟨f1, f⟩ | ⟨f1, ⟨f, -⟩ | ⟨f, -⟩⟩ | ⟨f1, ⟨f, -⟩ | ⟨f, -⟩⟩ <;> rw [e, f] <;> simp only [Datum.le]
      · have := (abs_le.1 f1).2; linarith
      · exact le_refl _
      · linarith
      · linarith
    · rw [e]; generalize r.value.datum = d at q2 ⊢
      cases d with
      | nan => rcases q2 with ⟨f1, f⟩ | ⟨f1, ⟨f, -⟩ | ⟨f, -⟩⟩ | ⟨f1, ⟨f, -⟩ | ⟨f, -⟩⟩ <;> cases f
      | inf s => cases s <;> trivial
      | num s a => trivial
  · rcases k2 with ⟨a1, e⟩ | ⟨e1, ⟨e, -⟩ | ⟨-, e⟩⟩ | ⟨e1, ⟨-, e⟩ | ⟨e, -⟩⟩ <;> first | exact absurd rfl e | skip
    · rcases q2 with ⟨-, f⟩ | ⟨f1, ⟨f, -⟩ | ⟨f, -⟩⟩ | ⟨f1, ⟨f, -⟩ | ⟨f, -⟩⟩ <;> rw [e, f] <;> simp only [Datum.le]
      · exact qk
      · have := (abs_le.1 a1).2; linarith
      · have := (abs_le.1 a1).2; linarith
      · exact (abs_le.1 a1).1
    · rw [e]; generalize r.value.datum = d at q2 ⊢
      cases d with
      | nan => rcases q2 with ⟨f1, f⟩ | ⟨f1, ⟨f, -⟩ | ⟨f, -⟩⟩ | ⟨f1, ⟨f, -⟩ | ⟨f, -⟩⟩ <;> cases f
      | inf s => cases s <;> trivial
      | num s a => trivial
    · rcases q2 with ⟨f1, f⟩ | ⟨f1, ⟨f, -⟩ | ⟨f, -⟩⟩ | ⟨f1, ⟨f, -⟩ | ⟨f, -⟩⟩ <;> rw [e, f] <;> simp only [Datum.le]
      · have := (abs_le.1 f1).1; linarith
      · linarith
      · linarith
      · exact le_refl _
  · intro z hz nz
    by_cases fz : z.isFinite = true
    · have zl := abs_toRat_le h hz fz
      have zg := grid_toRat h hz fz
      rw [datum_finite fz]
      rcases le_or_gt z.toRat v with c | c
      · left
        have zg' := g1.2.2 _ zg c
        rcases g2 with ⟨a1, e⟩ | ⟨e1, ⟨-, e⟩ | ⟨e, -⟩⟩ | ⟨e1, ⟨e, -⟩ | ⟨-, e⟩⟩ <;> first | exact absurd rfl e | skip
        · rw [e]; exact zg'
        · rw [e]; exact (abs_le.1 zl).2
        · exfalso; have := (abs_le.1 zl).1; linarith
      · right
        have zk := k1.2.2 _ zg c.le
        rcases k2 with ⟨a1, e⟩ | ⟨e1, ⟨e, -⟩ | ⟨-, e⟩⟩ | ⟨e1, ⟨-, e⟩ | ⟨e, -⟩⟩ <;> first | exact absurd rfl e | skip
        · rw [e]; exact zk
        · exfalso; have := (abs_le.1 zl).2; linarith
        · rw [e]; exact (abs_le.1 zl).1
    · have cz := infinity_of_not_finite nz fz
      have ez : z.datum = .inf z.sign := by simp [datum, cz]
      rw [ez]
      cases z.sign
      · right
        rcases k2 with ⟨a1, e⟩ | ⟨e1, ⟨e, -⟩ | ⟨-, e⟩⟩ | ⟨e1, ⟨-, e⟩ | ⟨e, -⟩⟩ <;> first | exact absurd rfl e | skip
        all_goals rw [e]; trivial
      · left
        rcases g2 with ⟨a1, e⟩ | ⟨e1, ⟨-, e⟩ | ⟨e, -⟩⟩ | ⟨e1, ⟨e, -⟩ | ⟨-, e⟩⟩ <;> first | exact absurd rfl e | skip
        all_goals rw [e]; trivial

example : ∃ lo hi r, divR ex15 exM3 .towardNegative = .ok lo ∧ divR ex15 exM3 .towardPositive = .ok hi ∧ divR ex15 exM3 .nearestTiesToAway = .ok r ∧
    Encloses singleS (ex15.toRat / exM3.toRat) lo.value.datum hi.value.datum r.value.datum := by
  have := fun m => C07_div_correctly_rounded singleS_ok ex15_valid exM3_valid rfl rfl exM3_ne m (directedOK_of_ieee rfl _ _)
  obtain ⟨a, a1, -, a2⟩ := this .towardNegative
  obtain ⟨b, b1, -, b2⟩ := this .towardPositive
  obtain ⟨c, c1, -, c2⟩ := this .nearestTiesToAway
  exact ⟨a, b, c, a1, b1, c1, C67_enclosure singleS_ok rfl a2 b2 c2⟩

/-- Three runs of an operation `op` of exact result `v` enclose `v`. -/
def OpEncloses (S : Sem) (v : ℚ) (op : Round → M (StatusAnd (IeeeFloat S))) : Prop :=
  ∃ lo hi, op .towardNegative = .ok lo ∧ op .towardPositive = .ok hi ∧
    ∀ mode, ∃ r, op mode = .ok r ∧ Encloses S v lo.value.datum hi.value.datum r.value.datum

theorem opEncloses_of (h : S.OK) (hS : S.nonfinite = .ieee754) {v : ℚ} {op : Round → M (StatusAnd (IeeeFloat S))}
    (ho : ∀ mode, ∃ r zs, op mode = .ok r ∧ Rounds S mode v zs r) : OpEncloses S v op := by
  obtain ⟨lo, _, l1, l2⟩ := ho .towardNegative
  obtain ⟨hi, _, h1, h2⟩ := ho .towardPositive
  refine ⟨lo, hi, l1, h1, fun mode => ?_⟩
  obtain ⟨r, _, r1, r2⟩ := ho mode
  exact ⟨r, r1, C67_enclosure h hS l2 h2 r2⟩

/-- **C67.** Interval arithmetic with the directed modes is sound and tight for every arithmetic operation and conversion. -/
theorem C67_operations (h : S.OK) (hT : T.OK) (hS : S.nonfinite = .ieee754) (hTn : T.nonfinite = .ieee754) {x y z : IeeeFloat S} (hx : x.Valid) (hy : y.Valid)
    (hz : z.Valid) (fx : x.isFinite = true) (fy : y.isFinite = true) (fz : z.isFinite = true) :
    OpEncloses S (x.toRat + y.toRat) (addR x y) ∧ OpEncloses S (x.toRat - y.toRat) (subR x y) ∧
    OpEncloses S (x.toRat * y.toRat) (mulR x y) ∧ (y.toRat ≠ 0 → OpEncloses S (x.toRat / y.toRat) (divR x y)) ∧
    ((∀ mode, ¬ FmaWrong S mode (x.toRat * y.toRat) z.toRat) → OpEncloses S (x.toRat * y.toRat + z.toRat) (mulAddR x y z)) ∧
    (∀ n : ℕ, n < 2 ^ 128 → OpEncloses S n (fromU128R S n)) ∧
    (∀ n : ℤ, -2 ^ 127 ≤ n → n < 2 ^ 127 → OpEncloses S n (fromI128R S n)) ∧
    OpEncloses T x.toRat (fun mode => do let c ← convertR S T x mode; pure ⟨c.status, c.value⟩) := by
  have dS := fun mode v => directedOK_of_ieee hS mode v
  refine ⟨opEncloses_of h hS fun mode => ?_, opEncloses_of h hS fun mode => ?_, opEncloses_of h hS fun mode => ?_,
    fun hy0 => opEncloses_of h hS fun mode => ?_, fun hE => opEncloses_of h hS fun mode => ?_, fun n hn => opEncloses_of h hS fun mode => ?_,
    fun n h1 h2 => opEncloses_of h hS fun mode => ?_, opEncloses_of hT hTn fun mode => ?_⟩
  · obtain ⟨r, r1, -, r3⟩ := addR_finite h hx hy fx fy mode (dS _ _); exact ⟨r, _, r1, r3⟩
  · obtain ⟨r, r1, -, r3⟩ := subR_finite h hx hy fx fy mode (dS _ _); exact ⟨r, _, r1, r3⟩
  · obtain ⟨r, r1, -, r3⟩ := mulR_finite h hx hy fx fy mode (dS _ _); exact ⟨r, _, r1, r3⟩
  · obtain ⟨r, r1, -, r3⟩ := divR_finite h hx hy fx fy hy0 mode (dS _ _); exact ⟨r, _, r1, r3⟩
  · obtain ⟨r, r1, -, r3⟩ := mulAddR_exact h hx hy hz fx fy fz mode (.of (dS _ _)) (hE mode); exact ⟨r, _, r1, r3⟩
  · obtain ⟨r, r1, -, r3⟩ := C17_from_u128 h hn mode; exact ⟨r, _, r1, r3⟩
  · obtain ⟨r, r1, -, r3⟩ := C17_from_i128 h h1 h2 mode; exact ⟨r, _, r1, r3⟩
  · obtain ⟨c, c1, -, -, c4⟩ := C21_convert_finite h hT hx fx mode (directedOK_of_ieee hTn mode _)
    exact ⟨_, _, by rw [c1]; rfl, c4⟩

/-- `2^24 + 1` is not representable in single precision: the enclosure is `[2^24, 2^24 + 2]`. -/
example : OpEncloses singleS ((2 ^ 24 + 1 : ℕ) : ℚ) (fromU128R singleS (2 ^ 24 + 1)) :=
  (C67_operations singleS_ok halfS_ok rfl rfl ex15_valid exM3_valid ex15_valid rfl rfl rfl).2.2.2.2.2.1 _ (by norm_num)
example : OpEncloses singleS (ex15.toRat / exM3.toRat) (divR ex15 exM3) :=
  (C67_operations singleS_ok halfS_ok rfl rfl ex15_valid exM3_valid ex15_valid rfl rfl rfl).2.2.2.1 (toRat_ne_zero exM3_valid rfl)

end Apf
