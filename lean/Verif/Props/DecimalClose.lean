import Verif.Props.Decimal
import Verif.Props.Display
/-! # C80: how far off a parsed decimal literal can be, in every mode -/

namespace Apf
open Spec IeeeFloat
variable {S : Sem}

/-- **C80.** In every mode, what the parser returns for a literal of the number `v` — value and flags — is the correct result for a number `w` of the
same sign that differs from `v` by at most one part in 2^123. -/
theorem C80_close (h : S.OK) {fuel : ℕ} (hfuel : 23 ≤ fuel) (sg : LitSign) {t : List Char} (hlen : t.length < 2 ^ 27) {v : ℚ} (ht : IsDec t v)
    (mode : Round) : ∃ r w, fromStrR S fuel (sg.chars ++ t) mode = .ok (.ok r) ∧ r.value.Valid ∧ r.value.sign = (sg == .minus) ∧ 0 ≤ w ∧
      |w - v| ≤ v / 2 ^ 123 ∧ Rounds S mode (signed (sg == .minus) w) (sg == .minus) r := by
  obtain ⟨r, r1, r2, r3, -, -, -, w, w1, w2, w3⟩ := fromStrR_dec h hfuel sg hlen ht mode
  exact ⟨r, w, r1, r2, r3, w1, w2, w3⟩

/-- No number of the grid lies between `x` and `y`. -/
def Apart (F : Fmt) (x y : ℚ) : Prop := ∀ g, F.Grid g → (g < x ∧ g < y) ∨ (x < g ∧ y < g)

theorem Apart.symm {F : Fmt} {x y : ℚ} (h : Apart F x y) : Apart F y x := fun g hg => by
  rcases h g hg with c | c
  · exact Or.inl ⟨c.2, c.1⟩
  · exact Or.inr ⟨c.2, c.1⟩

/-- Directed rounding does not distinguish the two. -/
theorem Apart.rounded {F : Fmt} {x y g : ℚ} (h : Apart F x y) {mode : Round} (hm : ¬ Nearest mode) (hg : IsRounded F mode y g) : IsRounded F mode x g := by
  have dn : (g ≤ y ∧ ∀ k, F.Grid k → k ≤ y → k ≤ g) → (g ≤ x ∧ ∀ k, F.Grid k → k ≤ x → k ≤ g) := by
    rintro ⟨a, b⟩
    refine ⟨?_, fun k hk hkx => b k hk ?_⟩
    · rcases h g hg.1 with c | c <;> linarith [c.1, c.2]
    · rcases h k hk with c | c <;> linarith [c.1, c.2]
  have up : (y ≤ g ∧ ∀ k, F.Grid k → y ≤ k → g ≤ k) → (x ≤ g ∧ ∀ k, F.Grid k → x ≤ k → g ≤ k) := by
    rintro ⟨a, b⟩
    refine ⟨?_, fun k hk hkx => b k hk ?_⟩
    · rcases h g hg.1 with c | c <;> linarith [c.1, c.2]
    · rcases h k hk with c | c <;> linarith [c.1, c.2]
  have h0 : (0 < x ∧ 0 < y) ∨ (x < 0 ∧ y < 0) := by
    have : F.Grid 0 := ⟨0, F.emin - F.p + 1, by simp, le_refl _, by simp⟩
    exact h 0 this
  refine ⟨hg.1, ?_⟩
  cases mode
  · exact absurd (Or.inl rfl) hm
  · exact up hg.2
  · exact dn hg.2
  · obtain ⟨-, a, b⟩ := hg
    rcases h0 with c | c
    · exact ⟨fun _ => dn (a c.2.le), fun q => absurd q (not_le.2 c.1)⟩
    · exact ⟨fun q => absurd q (not_le.2 c.1), fun _ => up (b c.2.le)⟩
  · exact absurd (Or.inr rfl) hm

theorem signed_sub_abs (s : Bool) (v w : ℚ) : |signed s w - signed s v| = |w - v| := by
  cases s
  · rfl
  · simp only [signed, if_true]
    rw [show -w - -v = -(w - v) by ring, abs_neg]

theorem abs_signed' (s : Bool) {v : ℚ} (hv : 0 ≤ v) : |signed s v| = v := by
  cases s <;> simp [signed, abs_of_nonneg hv]

/-- A number at the distance of `w` from `v`, or nearer, is ruled out. -/
theorem apart_of_far {F : Fmt} {v w : ℚ} {s : Bool} (hv : 0 ≤ v) (hw : |w - v| ≤ v / 2 ^ 123) (hfar : ∀ g, F.Grid g → v / 2 ^ 123 < |g - v|) :
    Apart F (signed s v) (signed s w) := by
  have key : ∀ g, F.Grid g → (g < v ∧ g < w) ∨ (v < g ∧ w < g) := by
    intro g hg
    have h1 := hfar g hg
    rcases lt_or_ge g v with c | c
    · left
      rw [abs_of_neg (by linarith)] at h1
      exact ⟨c, by linarith [(abs_le.1 hw).1]⟩
    · right
      rw [abs_of_nonneg (by linarith)] at h1
      have : (0 : ℚ) ≤ v / 2 ^ 123 := by positivity
      exact ⟨by linarith, by linarith [(abs_le.1 hw).2]⟩
  intro g hg
  cases s
  · exact key g hg
  · have := key (-g) hg.neg
    simp only [signed, if_true]
    rcases this with c | c
    · exact Or.inr ⟨by linarith [c.1], by linarith [c.2]⟩
    · exact Or.inl ⟨by linarith [c.1], by linarith [c.2]⟩

/-- **C80.** If no representable number is as near to `v` as one part in 2^123, then the literal is parsed correctly, value and flags, in every mode. -/
theorem C80_correct (h : S.OK) (hp : S.precision ≤ 120) {fuel : ℕ} (hfuel : 23 ≤ fuel) (sg : LitSign) {t : List Char} (hlen : t.length < 2 ^ 27) {v : ℚ}
    (ht : IsDec t v) (hfar : ∀ g, S.fmt.Grid g → v / 2 ^ 123 < |g - v|) (mode : Round) :
    ∃ r, fromStrR S fuel (sg.chars ++ t) mode = .ok (.ok r) ∧ r.value.Valid ∧ Rounds S mode (signed (sg == .minus) v) (sg == .minus) r ∧
      r.value.sign = (sg == .minus) := by
  obtain ⟨r, r1, r2, r3, r4, -, hv, w, w1, w2, ⟨g, g1, g2⟩, w4⟩ := fromStrR_dec h hfuel sg hlen ht mode
  have hA := apart_of_far (s := (sg == .minus)) hv w2 hfar
  have ne : ∀ {g}, S.fmt.Grid g → g ≠ signed (sg == .minus) v ∧ g ≠ signed (sg == .minus) w := by
    intro g hg
    rcases hA g hg with c | c
    · exact ⟨c.1.ne, c.2.ne⟩
    · exact ⟨c.1.ne', c.2.ne'⟩
  refine ⟨r, r1, r2, ?_, r3⟩
  by_cases hm : Nearest mode
  · obtain ⟨st, ⟨⟨k, k1, k2⟩, s2⟩, -⟩ := r4 hp hm
    refine ⟨⟨k, k1, ?_⟩, s2⟩
    rcases k2 with ⟨a1, a2, a3⟩ | ⟨a1, a2⟩
    · left
      refine ⟨a1, a2, ?_⟩
      rcases g2 with ⟨b1, b2, b3⟩ | ⟨b1, b2⟩
      · have e : Datum.num r.value.sign k = .num r.value.sign g := by rw [← a2, ← b2]
        rw [Datum.num.injEq] at e
        obtain ⟨-, rfl⟩ := e
        rw [b3]
        simp [ne g1.1]
      · exfalso
        have e := congrArg Prod.fst b2
        dsimp only at e a2
        rw [a2] at e
        unfold overflowed at e
        rcases hm with rfl | rfl <;> simp only [if_true] at e <;> split at e <;> cases e
    · right
      refine ⟨a1, ?_⟩
      rcases g2 with ⟨b1, b2, b3⟩ | ⟨b1, b2⟩
      · exfalso
        have e := congrArg Prod.fst a2
        dsimp only at e b2
        rw [b2] at e
        unfold overflowed at e
        rcases hm with rfl | rfl <;> simp only [if_true] at e <;> split at e <;> cases e
      · exact b2
  · refine ⟨⟨g, hA.rounded hm g1, ?_⟩, ?_⟩
    · rcases g2 with ⟨b1, b2, b3⟩ | b
      · left
        refine ⟨b1, b2, ?_⟩
        rw [b3]
        simp [ne g1.1]
      · exact Or.inr b
    · have h0 : S.fmt.Grid 0 := ⟨0, S.fmt.emin - S.fmt.p + 1, by simp, le_refl _, by simp⟩
      obtain ⟨c1, c2, c3⟩ := w4
      rcases hA 0 h0 with c | c
      · exact ⟨fun _ => c1 c.2, fun q => absurd q (not_lt.2 c.1.le), fun q => absurd q c.1.ne'⟩
      · exact ⟨fun q => absurd q (not_lt.2 c.1.le), fun _ => c2 c.2, fun q => absurd q c.1.ne⟩

/-- Two numbers whose directed roundings are not adjacent have two numbers of the grid between them. -/
theorem two_between {F : Fmt} {mode : Round} (hm : ¬ Nearest mode) {x y g k j : ℚ} (hs : 0 ≤ x ∨ y ≤ 0) (hg : IsRounded F mode x g) (hk : IsRounded F mode y k)
    (hj : F.Grid j) (h1 : g < j) (h2 : j < k) : ∃ a b, F.Grid a ∧ F.Grid b ∧ x ≤ a ∧ a < b ∧ b ≤ y := by
  have hxy : x ≤ y := by
    by_contra hc
    have := hk.mono hg (not_le.1 hc).le
    linarith
  have dn : (∀ i, F.Grid i → i ≤ x → i ≤ g) → k ≤ y → ∃ a b, F.Grid a ∧ F.Grid b ∧ x ≤ a ∧ a < b ∧ b ≤ y := by
    intro a b
    refine ⟨j, k, hj, hk.1, ?_, h2, b⟩
    by_contra hc
    have := a j hj (not_le.1 hc).le
    linarith
  have up : x ≤ g → (∀ i, F.Grid i → y ≤ i → k ≤ i) → ∃ a b, F.Grid a ∧ F.Grid b ∧ x ≤ a ∧ a < b ∧ b ≤ y := by
    intro a b
    refine ⟨g, j, hg.1, hj, a, h1, ?_⟩
    by_contra hc
    have := b j hj (not_le.1 hc).le
    linarith
  cases mode
  · exact absurd (Or.inl rfl) hm
  · exact up hg.2.1 hk.2.2
  · exact dn hg.2.2 hk.2.1
  · rcases hs with c | c
    · exact dn (hg.2.1 c).2 (hk.2.1 (le_trans c hxy)).1
    · exact up (hg.2.2 (le_trans hxy c)).1 (hk.2.2 c).2
  · exact absurd (Or.inr rfl) hm

/-- There are no two numbers of the grid that near to each other. -/
theorem not_two_near {F : Fmt} (hp : F.p ≤ 120) {x a b : ℚ} (ha : F.Grid a) (hb : F.Grid b) (hab : a < b) (h1 : |a - x| ≤ |x| / 2 ^ 123)
    (h2 : |b - x| ≤ |x| / 2 ^ 123) : False := by
  have hgap := grid_gap ha hb hab.ne'
  have hd : |b - a| ≤ 2 * (|x| / 2 ^ 123) := by
    have := abs_sub_le b x a
    rw [abs_sub_comm x a] at this
    linarith
  have hx : |x| ≤ |a| + |x| / 2 ^ 123 := by
    have := abs_sub_le x a 0
    rw [abs_sub_comm x a, sub_zero, sub_zero] at this
    linarith
  have hp2 : (2 : ℚ) ^ F.p ≤ 2 ^ 120 := pow_le_pow_right₀ (by norm_num) hp
  have h3 : (2 : ℚ) ^ F.p * |b - a| ≤ 2 ^ 120 * (2 * (|x| / 2 ^ 123)) := mul_le_mul hp2 hd (abs_nonneg _) (by positivity)
  have h4 : |x| ≤ 0 := by
    have : |x| ≤ 2 ^ 120 * (2 * (|x| / 2 ^ 123)) + |x| / 2 ^ 123 := by linarith
    have e : 2 ^ 120 * (2 * (|x| / 2 ^ 123)) + |x| / 2 ^ 123 = |x| * ((2 ^ 121 + 1) / 2 ^ 123) := by ring
    rw [e] at this
    have h5 := abs_nonneg x
    have : |x| * ((2 ^ 121 + 1) / 2 ^ 123) ≤ |x| * (1 / 2) := mul_le_mul_of_nonneg_left (by norm_num) h5
    linarith
  have hx0 : |x| = 0 := le_antisymm h4 (abs_nonneg _)
  rw [hx0, zero_div] at hd
  have := abs_nonneg (b - a)
  have : |b - a| = 0 := by linarith
  rw [abs_eq_zero] at this
  linarith

/-- **C80.** In a directed mode, for every literal: the result is what the correct rounding `g` of the number would deliver, or what a representable number
adjacent to it would. -/
theorem C80_adjacent (h : S.OK) (hp : S.precision ≤ 120) {fuel : ℕ} (hfuel : 23 ≤ fuel) (sg : LitSign) {t : List Char} (hlen : t.length < 2 ^ 27) {v : ℚ}
    (ht : IsDec t v) {mode : Round} (hm : mode = .towardZero ∨ mode = .towardPositive ∨ mode = .towardNegative) {g : ℚ}
    (hg : IsRounded S.fmt mode (signed (sg == .minus) v) g) :
    ∃ r k st, fromStrR S fuel (sg.chars ++ t) mode = .ok (.ok r) ∧ S.fmt.Grid k ∧ Delivers S.fmt mode k (sg == .minus) r.value.datum st ∧
      (∀ j, S.fmt.Grid j → ¬ (g < j ∧ j < k) ∧ ¬ (k < j ∧ j < g)) := by
  obtain ⟨r, w, r1, -, r3, w1, w2, ⟨k, k1, k2⟩, -⟩ := C80_close h hfuel sg hlen ht mode
  have hmn : ¬ Nearest mode := by
    unfold Nearest
    rcases hm with rfl | rfl | rfl <;> decide
  have hv : 0 ≤ v := by
    have := le_trans (abs_nonneg _) w2
    by_contra hc
    have : v / 2 ^ 123 < 0 := div_neg_of_neg_of_pos (not_le.1 hc) (by positivity)
    linarith
  obtain ⟨x, hx⟩ : ∃ x, x = signed (sg == .minus) v := ⟨_, rfl⟩
  obtain ⟨y, hy⟩ : ∃ y, y = signed (sg == .minus) w := ⟨_, rfl⟩
  have hxy : |y - x| ≤ |x| / 2 ^ 123 := by rw [hx, hy, signed_sub_abs, abs_signed' _ hv]; exact w2
  have hs : (0 ≤ x ∧ 0 ≤ y) ∨ (x ≤ 0 ∧ y ≤ 0) := by
    rw [hx, hy]
    cases (sg == .minus)
    · exact Or.inl ⟨hv, w1⟩
    · exact Or.inr ⟨by simpa [signed] using hv, by simpa [signed] using w1⟩
  rw [← hx] at hg
  rw [← hy] at k1
  obtain ⟨st, hst⟩ : ∃ st, Delivers S.fmt mode k (sg == .minus) r.value.datum st := by
    rcases k2 with ⟨a1, a2, a3⟩ | ⟨a1, a2⟩
    · exact ⟨_, k, isRounded_self _ k1.1, Or.inl ⟨a1, by rw [a2, r3], rfl⟩⟩
    · exact ⟨r.status, k, isRounded_self _ k1.1, Or.inr ⟨a1, by rw [a2, r3]⟩⟩
  refine ⟨r, k, st, r1, k1.1, hst, fun j hj => ⟨fun ⟨j1, j2⟩ => ?_, fun ⟨j1, j2⟩ => ?_⟩⟩
  · obtain ⟨a, b, ga, gb, c1, c2, c3⟩ := two_between hmn (by rcases hs with c | c; exact Or.inl c.1; exact Or.inr c.2) hg k1 hj j1 j2
    have : |y - x| = y - x := abs_of_nonneg (by linarith)
    rw [this] at hxy
    exact not_two_near (F := S.fmt) (x := x) hp ga gb c2 (by rw [abs_of_nonneg (by linarith)]; linarith) (by rw [abs_of_nonneg (by linarith)]; linarith)
  · obtain ⟨a, b, ga, gb, c1, c2, c3⟩ := two_between hmn (by rcases hs with c | c; exact Or.inl c.2; exact Or.inr c.1) k1 hg hj j1 j2
    have : |y - x| = x - y := by rw [abs_of_nonpos (by linarith)]; ring
    rw [this] at hxy
    exact not_two_near (F := S.fmt) (x := x) hp ga gb c2 (by rw [abs_of_nonpos (by linarith)]; linarith) (by rw [abs_of_nonpos (by linarith)]; linarith)

/-- A number to which `C80_correct` applies: 0.1, in double. -/
example : IsDec "0.1".toList (1 / 10) ∧ "0.1".toList.length < 2 ^ 27 ∧ doubleS.OK ∧ doubleS.precision ≤ 120 ∧
    ∀ g, doubleS.fmt.Grid g → (1 / 10 : ℚ) / 2 ^ 123 < |g - 1 / 10| := by
  refine ⟨⟨"0.1".toList, ['0'], ['1'], by unfold IsSignificand; exact ⟨by decide, by decide, by decide, Or.inr rfl⟩, Or.inl ⟨rfl, ?_⟩⟩, by decide,
    doubleS_ok, by decide, ?_⟩
  · rw [significandValue, show number 10 (['0'] ++ ['1']) = 1 by decide +kernel]
    norm_num
  · have hn := neighbours_mk (F := doubleS.fmt) (n := 7205759403792793) (e := -4) (by decide) (by decide +kernel) (by decide) (Or.inl (by decide +kernel))
    intro g hg
    have hp : doubleS.fmt.p = 53 := rfl
    have := hn.gap g hg
    rw [hp] at this
    norm_num at this
    rcases this with c | c
    · rw [abs_of_neg (by linarith)]
      refine lt_of_lt_of_le ?_ (show (1 : ℚ) / 10 - 7205759403792793 / 72057594037927936 ≤ _ by linarith)
      norm_num
    · rw [abs_of_pos (by linarith)]
      refine lt_of_lt_of_le ?_ (show (7205759403792794 : ℚ) / 72057594037927936 - 1 / 10 ≤ _ by linarith)
      norm_num

/-- The correct rounding and its neighbour are both taken in directed modes: `C46_directed_counterexample` is the second case. -/
example : ∃ g, IsRounded singleS.fmt .towardZero (signed (LitSign.none == .minus) (9 / 2 ^ 56)) g :=
  exists_rounded (by decide) _ _

end Apf
