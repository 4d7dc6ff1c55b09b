import Verif.Props.Display
/-! # C59: the layout of formatted numbers -/

namespace Apf
open Spec IeeeFloat

variable {S : Sem}

theorem toDigits_eq {n : ℕ} (hn : 0 < n) : Nat.toDigits 10 n = (Nat.digits 10 n).reverse.map digitChar := by
  have hdc : ∀ d < 10, Nat.digitChar d = digitChar d := by decide
  induction n using Nat.strong_induction_on with
  | _ n ih =>
    by_cases h : n < 10
    · rw [Nat.toDigits_of_lt_base h, Nat.digits_of_lt 10 n (by omega) h]; simp [hdc n h]
    · rw [Nat.toDigits_of_base_le (by norm_num) (by omega), ih (n / 10) (by omega) (by omega), Nat.digits_def' (by norm_num) hn]
      simp [hdc (n % 10) (Nat.mod_lt _ (by norm_num))]

theorem toDigits_length {n : ℕ} (hn : 0 < n) : (Nat.toDigits 10 n).length = (Nat.digits 10 n).length := by
  rw [toDigits_eq hn]; simp

theorem dispPlain_layout {N : ℕ} (hN : 0 < N) (E : ℤ) : dispPlain (Nat.digits 10 N) E = positionalText N E := by
  unfold dispPlain positionalText
  dsimp only
  rw [toDigits_eq hN]
  generalize Nat.digits 10 N = ds
  by_cases h0 : 0 ≤ E
  · rw [if_pos h0, if_pos h0]
  rw [if_neg h0, if_neg h0]
  simp only [List.length_map, List.length_reverse]
  by_cases h1 : (-E).toNat < ds.length
  · rw [if_pos h1, if_pos (by omega)]
    rw [← List.map_take, ← List.map_drop, List.take_reverse, List.drop_reverse]
    rw [show ds.length - (ds.length - (-E).toNat) = (-E).toNat by omega]
  · rw [if_neg h1, if_neg (by omega)]

theorem toDigits_pos (n : ℕ) : 1 ≤ (Nat.toDigits 10 n).length := by
  rcases Nat.eq_zero_or_pos n with rfl | h
  · decide
  · rw [toDigits_length h]; exact (digits_length_bounds h).1

theorem fmtExp_layout (alt : Bool) (e : ℤ) : fmtExp (if alt then 3 else 0) e = exponentText alt e := by
  unfold fmtExp exponentText
  have := toDigits_pos e.natAbs
  dsimp only
  cases alt with
  | false => simp
  | true =>
    simp only [if_true, true_and]
    split <;> rename_i h
    all_goals
      split <;> rename_i h1
      · rw [h1]; rfl
      · rw [show 3 - 1 - (Nat.toDigits 10 e.natAbs).length = 0 by omega]; rfl

theorem dispSci_layout {N : ℕ} (hN : 0 < N) {E : ℤ} (h1 : -300000 ≤ E) (h2 : E ≤ 300000) (hl : (Nat.digits 10 N).length ≤ 300000) (P : ℕ)
    (alt : Bool) : dispSci P alt (Nat.digits 10 N) E = .ok (scientificText P alt N E) := by
  unfold dispSci scientificText
  have hl0 := (digits_length_bounds hN).1
  rw [toDigits_eq hN]
  generalize Nat.digits 10 N = ds at *
  obtain ⟨bs, b, rfl⟩ : ∃ bs b, ds = bs ++ [b] := by
    rcases List.eq_nil_or_concat ds with h | ⟨bs, b, h⟩
    · rw [h] at hl0; simp at hl0
    · exact ⟨bs, b, by simpa using h⟩
  simp only [List.length_append, List.length_singleton] at *
  rw [asI32_of_lt (by omega), i32_ok (by push_cast; omega) (by push_cast; omega), M.ok_bind, i32_ok (by push_cast; omega) (by push_cast; omega), M.ok_bind]
  have hidx : idx (bs ++ [b]) (bs.length + 1 - 1) = .ok b := by
    unfold idx; simp
  rw [hidx, M.ok_bind, fmtExp_layout]
  simp only [List.length_map, List.length_reverse, List.length_append, List.length_singleton, List.reverse_append, List.reverse_singleton,
    List.singleton_append, List.map_cons, List.take_succ_cons, List.take_zero, List.drop_succ_cons, List.drop_zero, Nat.add_sub_cancel, List.take_left,
    Nat.cast_add, Nat.cast_one, List.length_cons]
  rw [show E + ((bs.length : ℤ) + 1) - 1 = E + (bs.length + 1 - 1) by ring]
  cases alt with
  | true =>
    simp only [if_true, true_and, reduceCtorEq, and_false, if_false]
    by_cases h : P > bs.length
    · rw [if_pos h, show P - (bs.length + 1) + 1 = P + 1 - (bs.length + 1) by omega]; simp
    · rw [if_neg h, show P + 1 - (bs.length + 1) = 0 by omega]; simp
  | false =>
    simp only [and_true, reduceCtorEq, false_and, if_false]
    by_cases h : bs.length + 1 = 1
    · have : bs = [] := by rw [← List.length_eq_zero_iff]; omega
      subst this; simp
    · rw [if_neg h, if_neg h]; simp

theorem dispScientific_layout {N : ℕ} (hN : 0 < N) {E : ℤ} (h1 : -300000 ≤ E) (h2 : E ≤ 300000) (hl : (Nat.digits 10 N).length ≤ 300000)
    (width P : ℕ) : dispScientific width P (Nat.digits 10 N).length E = .ok (decide (¬ Positional width P N E)) := by
  have hpos : Positional width P N E ↔ (width ≠ 0 ∧ (0 ≤ E → E ≤ width ∧ (Nat.digits 10 N).length + E ≤ P) ∧
      (E < 0 → -(width : ℤ) ≤ E + (Nat.digits 10 N).length - 1)) := by
    unfold Positional digitCount; rw [toDigits_length hN]
  have hd : decide (¬ Positional width P N E) = decide (¬ (width ≠ 0 ∧ (0 ≤ E → E ≤ width ∧ (Nat.digits 10 N).length + E ≤ P) ∧
      (E < 0 → -(width : ℤ) ≤ E + (Nat.digits 10 N).length - 1))) := by rw [decide_eq_decide, hpos]
  rw [hd]
  unfold dispScientific
  have hl0 := (digits_length_bounds hN).1
  clear hd hpos
  generalize (Nat.digits 10 N).length = n at *
  by_cases hw : width = 0
  · rw [if_pos hw]; simp [hw]
  rw [if_neg hw]
  by_cases h0 : 0 ≤ E
  · rw [if_pos h0]
    congr 1
    rw [decide_eq_decide]
    constructor
    · rintro h ⟨-, h3, -⟩; have := h3 h0; omega
    · intro h
      by_contra h3
      exact h ⟨hw, fun _ => by omega, fun _ => by omega⟩
  · rw [if_neg h0, asI32_of_lt (by omega), i32_ok (by omega) (by omega), M.ok_bind]
    split <;> rename_i h3
    · congr 1
      symm
      rw [decide_eq_false_iff_not, not_not]
      exact ⟨hw, fun _ => by omega, fun _ => by omega⟩
    · congr 1
      rw [decide_eq_decide]
      constructor
      · rintro h ⟨-, -, h4⟩; have := h4 (by omega); omega
      · intro h
        by_contra h5
        exact h ⟨hw, fun _ => by omega, fun _ => by omega⟩

/-- **C59.** A finite non-zero value is formatted as its sign followed by the laid out significant digits `N` and
exponent `E` of a number rendering the magnitude; the digits depend on the precision `P` (by default, enough to
determine the value) but not on the width nor the `#` flag, which only select the layout. -/
theorem C59_layout (h : S.OK) {x : IeeeFloat S} (hx : x.Valid) (hf : x.isFinite = true) (hz : x.isZero = false) {prec : Option ℕ} {P : ℕ}
    (hP : P = prec.getD (2 + S.precision * 59 / 196)) (hP1 : 1 ≤ P) (hP2 : P * 196 + 58 < 2 ^ 64) :
    ∃ (N : ℕ) (E : ℤ), ¬ 10 ∣ N ∧ N < 10 ^ P ∧ Renders P |x.toRat| (N * 10 ^ E) ∧
      ∀ (width : Option ℕ) (alt : Bool), x.display width prec alt = .ok (signText x.sign ++ layout (width.getD 3) P alt N E) := by
  have hc : x.category = .normal := by
    cases c : x.category <;> simp_all [isFinite, isZero, isNan, isInfinite]
  have hx' := hx
  unfold Valid at hx'
  rw [hc] at hx'
  obtain ⟨v1, v2, v3, v4, -, -⟩ := hx'
  obtain ⟨N, E, n1, n2, n3, n4, n5, n6, n7⟩ := dispNormal_form h v1 v2 v3 v4 hP hP1 hP2
  rw [abs_toRat hc]
  refine ⟨N, E, n1, n2, n3, fun width alt => ?_⟩
  have hN := pos_of_not_ten n1
  unfold display
  simp only [hc]
  rw [n7, dispScientific_layout hN (by omega) (by omega) (by omega), M.ok_bind, dispSci_layout hN (by omega) (by omega) (by omega),
    dispPlain_layout hN]
  unfold layout
  by_cases hp : Positional (width.getD 3) P N E
  · rw [if_pos hp, if_neg (by simpa using hp)]; rfl
  · rw [if_neg hp, if_pos (by simpa using hp)]; rfl

example := C59_layout doubleS_ok (x := ⟨7205759403792794, -4, .normal, true⟩) (by decide) rfl rfl (prec := some 5) (P := 5) rfl (by decide) (by decide)

/-- **C59.** A zero is written `0`, or at width 0 as `0.0E+0`, or `0.000e+00` (with `max 1 P` zeros after the point) in
the alternate form. -/
theorem C59_zero {x : IeeeFloat S} (hz : x.isZero = true) (width prec : Option ℕ) (alt : Bool) :
    x.display width prec alt = .ok (signText x.sign ++
      if width = some 0 then
        if alt = true then "0.".toList ++ List.replicate (Nat.max 1 (prec.getD 0)) '0' ++ "e+00".toList else "0.0E+0".toList
      else "0".toList) := by
  have hc : x.category = .zero := by
    cases c : x.category <;> simp_all [isZero]
  unfold display dispZero
  simp only [hc]
  have hw : width.getD 3 = 0 ↔ width = some 0 := by cases width <;> simp
  by_cases h0 : width = some 0
  · rw [if_pos (hw.2 h0), if_pos h0]
    cases alt with
    | false => rfl
    | true =>
      simp only [if_true]
      rw [show "0.0".toList = "0.".toList ++ List.replicate 1 '0' from by decide, List.append_assoc "0.".toList, List.replicate_append_replicate,
        show 1 + (prec.getD 0 - 1) = Nat.max 1 (prec.getD 0) by simp only [Nat.max_def]; split <;> omega]
      rfl
  · rw [if_neg (fun h => h0 (hw.1 h)), if_neg h0]; rfl

/-- The table in the documentation of the formatter. -/
example : layout 2 5 false 101 2 = "10100".toList ∧ layout 2 4 false 101 2 = "1.01E+4".toList ∧ layout 1 5 false 101 2 = "1.01E+4".toList ∧
    layout 2 5 false 101 (-4) = "0.0101".toList ∧ layout 2 4 false 101 (-4) = "0.0101".toList ∧ layout 1 4 false 101 (-4) = "1.01E-2".toList := by
  decide +kernel

/-- Values to which the theorem applies: `8999`, in three layouts. -/
example : d8999.Valid ∧ d8999.isFinite = true ∧ d8999.isZero = false ∧ layout 3 17 false 8999 0 = "8999".toList ∧
    layout 0 17 false 8999 0 = "8.999E+3".toList ∧ layout 0 5 true 8999 0 = "8.99900e+03".toList ∧ layout 3 2 false 9 3 = "9.0E+3".toList := by
  decide +kernel

end Apf
