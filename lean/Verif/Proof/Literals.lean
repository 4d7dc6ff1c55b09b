import Verif.Proof.Dec
/-! # Special literals -/

namespace Apf
open Spec IeeeFloat

theorem radixDigits_iff {b : ℕ} (hb : b ≤ 16) (hb0 : 0 < b) (cs : List Char) : ∀ acc n, acc < 2 ^ 128 →
    (radixDigits b cs acc = some n ↔ (∀ c ∈ cs, IsDigit b c) ∧
      n = cs.foldl (fun n c => b * n + (digit? c).getD 0) acc ∧ n < 2 ^ 128) := by
  have mono : ∀ (cs : List Char) (acc : ℕ), acc ≤ cs.foldl (fun n c => b * n + (digit? c).getD 0) acc := by
    intro cs
    induction cs with
    | nil => intro acc; exact le_refl _
    | cons c cs ih =>
      intro acc
      rw [List.foldl_cons]
      have := Nat.mul_le_mul_right acc hb0
      exact le_trans (by omega) (ih _)
  induction cs with
  | nil =>
    intro acc n h
    simp only [radixDigits, Option.some.injEq, List.foldl_nil]
    constructor
    · rintro rfl; exact ⟨by simp, rfl, h⟩
    · rintro ⟨-, h, -⟩; exact h.symm
  | cons c cs ih =>
    intro acc n h
    rw [radixDigits]
    by_cases hc : IsDigit b c
    · obtain ⟨h1, h2⟩ := toDigit_of hb hc
      rw [h1, List.foldl_cons]
      dsimp only
      rw [mul_comm acc b]
      by_cases hlt : b * acc + (digit? c).getD 0 < 2 ^ 128
      · rw [if_pos hlt, ih _ _ hlt]
        simp [hc]
      · rw [if_neg hlt]
        constructor
        · intro h; simp at h
        · rintro ⟨-, h3, h4⟩
          have := mono cs (b * acc + (digit? c).getD 0)
          omega
    · rw [toDigit_none hb hc]
      constructor
      · intro h; simp at h
      · rintro ⟨h3, -, -⟩; exact absurd (h3 c (by simp)) hc

theorem plus_not_digit (b : ℕ) : ¬ IsDigit b '+' := by
  rintro ⟨d, h, -⟩
  have : digit? '+' = none := by decide
  rw [this] at h; simp at h

theorem minus_not_digit (b : ℕ) : ¬ IsDigit b '-' := by
  rintro ⟨d, h, -⟩
  have : digit? '-' = none := by decide
  rw [this] at h; simp at h

theorem paren_not_digit (b : ℕ) : ¬ IsDigit b '(' := by
  rintro ⟨d, h, -⟩
  have : digit? '(' = none := by decide
  rw [this] at h; simp at h

theorem x_not_digit (b : ℕ) : ¬ IsDigit b 'x' := by
  rintro ⟨d, h, -⟩
  have : digit? 'x' = none := by decide
  rw [this] at h; simp at h

theorem X_not_digit (b : ℕ) : ¬ IsDigit b 'X' := by
  rintro ⟨d, h, -⟩
  have : digit? 'X' = none := by decide
  rw [this] at h; simp at h

theorem fromStrRadix_iff {b : ℕ} (hb : b ≤ 16) (hb0 : 0 < b) (s : List Char) (n : ℕ) :
    fromStrRadix s b = some n ↔ ∃ ds, ds ≠ [] ∧ (∀ c ∈ ds, IsDigit b c) ∧ n = number b ds ∧ n < 2 ^ 128 ∧
      (s = ds ∨ s = '+' :: ds) := by
  unfold fromStrRadix
  split
  · constructor
    · intro h; simp at h
    · rintro ⟨ds, h1, -, -, -, h | h⟩
      · exact absurd h.symm h1
      · simp at h
  · constructor
    · intro h; simp at h
    · rintro ⟨ds, h1, h2, -, -, h | h⟩
      · exact absurd (h2 '+' (by rw [← h]; simp)) (plus_not_digit b)
      · simp at h; exact absurd h h1
  · constructor
    · intro h; simp at h
    · rintro ⟨ds, h1, h2, -, -, h | h⟩
      · exact absurd (h2 '-' (by rw [← h]; simp)) (minus_not_digit b)
      · simp at h
  · rename_i cs hne
    rw [radixDigits_iff hb hb0 _ _ _ (by norm_num)]
    constructor
    · rintro ⟨h1, h2, h3⟩
      exact ⟨cs, fun h => hne h, h1, h2, h3, Or.inr rfl⟩
    · rintro ⟨ds, h1, h2, h3, h4, h | h⟩
      · exact absurd (h2 '+' (by rw [← h]; simp)) (plus_not_digit b)
      · simp only [List.cons.injEq, true_and] at h
        subst h
        exact ⟨h2, h3, h4⟩
  · rename_i h0 h1' h2' h3'
    rw [radixDigits_iff hb hb0 _ _ _ (by norm_num)]
    constructor
    · rintro ⟨h1, h2, h3⟩
      exact ⟨s, h0, h1, h2, h3, Or.inl rfl⟩
    · rintro ⟨ds, h1, h2, h3, h4, h | h⟩
      · subst h; exact ⟨h2, h3, h4⟩
      · exact absurd h (h3' ds)

theorem payloadNumber_iff (s : List Char) (n : ℕ) : payloadNumber s = some n ↔ n < 2 ^ 128 ∧ IsPayloadNumber s n := by
  unfold payloadNumber IsPayloadNumber
  split
  · rename_i c cs
    by_cases hc : c = 'x' ∨ c = 'X'
    · rw [if_pos hc]
      rw [fromStrRadix_iff (by norm_num) (by norm_num)]
      constructor
      · rintro ⟨ds, h1, h2, h3, h4, h5⟩
        refine ⟨h4, 16, ds, cs, h1, h2, h3, h5, Or.inl ⟨rfl, ?_⟩⟩
        rcases hc with rfl | rfl
        · left; rfl
        · right; rfl
      · rintro ⟨h4, base, ds, t, h1, h2, h3, h5, ⟨rfl, h6⟩ | ⟨rfl, h6⟩ | ⟨rfl, h6, h7⟩⟩
        · have : cs = t := by
            rcases h6 with h6 | h6 <;> simp only [List.cons.injEq, true_and] at h6 <;> exact h6.2
          subst this
          exact ⟨ds, h1, h2, h3, h4, h5⟩
        · simp only [List.cons.injEq, true_and] at h6
          have hcd : ¬ IsDigit 8 c := by
            rcases hc with rfl | rfl
            · exact x_not_digit _
            · exact X_not_digit _
          rcases h5 with rfl | rfl
          · exact absurd (h2 c (by rw [← h6]; simp)) hcd
          · simp only [List.cons.injEq] at h6
            rcases hc with rfl | rfl <;> exact absurd h6.1 (by decide)
        · have := h7 (by simp)
          simp at this
    · rw [if_neg hc]
      rw [fromStrRadix_iff (by norm_num) (by norm_num)]
      constructor
      · rintro ⟨ds, h1, h2, h3, h4, h5⟩
        exact ⟨h4, 8, ds, c :: cs, h1, h2, h3, h5, Or.inr (Or.inl ⟨rfl, rfl⟩)⟩
      · rintro ⟨h4, base, ds, t, h1, h2, h3, h5, ⟨rfl, h6⟩ | ⟨rfl, h6⟩ | ⟨rfl, h6, h7⟩⟩
        · exact absurd (by
            rcases h6 with h6 | h6 <;> simp only [List.cons.injEq, true_and] at h6
            · exact Or.inl h6.1
            · exact Or.inr h6.1) hc
        · simp only [List.cons.injEq, true_and] at h6
          rw [h6]
          exact ⟨ds, h1, h2, h3, h4, h5⟩
        · have := h7 (by simp)
          simp at this
  · rename_i hne
    rw [fromStrRadix_iff (by norm_num) (by norm_num)]
    constructor
    · rintro ⟨ds, h1, h2, h3, h4, h5⟩
      refine ⟨h4, 10, ds, s, h1, h2, h3, h5, Or.inr (Or.inr ⟨rfl, rfl, ?_⟩)⟩
      intro hh
      cases s with
      | nil => simp at hh
      | cons a s =>
        simp at hh
        subst hh
        cases s with
        | nil => rfl
        | cons b s => exact absurd rfl (hne b s)
    · rintro ⟨h4, base, ds, t, h1, h2, h3, h5, ⟨rfl, h6⟩ | ⟨rfl, h6⟩ | ⟨rfl, h6, h7⟩⟩
      · rcases h6 with h6 | h6 <;> exact absurd h6 (hne _ _)
      · cases t with
        | nil =>
          rcases h5 with h5 | h5
          · exact absurd h5.symm h1
          · simp at h5
        | cons a t => exact absurd h6 (hne _ _)
      · subst h6
        exact ⟨ds, h1, h2, h3, h4, h5⟩

theorem isPayloadNumber_ne {s : List Char} {n : ℕ} (h : IsPayloadNumber s n) : s ≠ [] ∧ s.head? ≠ some '(' := by
  obtain ⟨base, ds, t, h1, h2, h3, h5, h6⟩ := h
  rcases h6 with ⟨rfl, h6⟩ | ⟨rfl, h6⟩ | ⟨rfl, h6, h7⟩
  · rcases h6 with rfl | rfl <;> simp
  · subst h6; simp
  · subst h6
    rcases h5 with rfl | rfl
    · refine ⟨h1, ?_⟩
      intro hh
      exact paren_not_digit _ (h2 _ (List.mem_of_mem_head? hh))
    · simp

theorem unparen_iff (s : List Char) : (unparen s = s ∧ ¬ ∃ t, t ≠ [] ∧ s = '(' :: t ++ [')']) ∨
    (∃ t, t ≠ [] ∧ s = '(' :: t ++ [')'] ∧ unparen s = t) := by
  unfold unparen
  split
  · rename_i cs
    cases hr : cs.reverse with
    | nil =>
      have : cs = [] := by simpa using hr
      subst this
      left
      refine ⟨rfl, ?_⟩
      rintro ⟨t, -, h⟩
      simp at h
    | cons a rs =>
      have hcs : cs = rs.reverse ++ [a] := by rw [← List.reverse_reverse cs, hr]; simp
      by_cases ha : a = ')'
      · subst ha
        change ((if rs = [] then '(' :: cs else rs.reverse) = '(' :: cs ∧ _) ∨
          ∃ t, t ≠ [] ∧ '(' :: cs = '(' :: t ++ [')'] ∧ (if rs = [] then '(' :: cs else rs.reverse) = t
        by_cases hrs : rs = []
        · rw [if_pos hrs]
          left
          refine ⟨rfl, ?_⟩
          rintro ⟨t, ht, h⟩
          rw [hcs, hrs] at h
          simp at h
          exact ht h
        · rw [if_neg hrs]
          right
          exact ⟨rs.reverse, by simpa using hrs, by rw [hcs]; rfl, rfl⟩
      · left
        refine ⟨?_, ?_⟩
        · split
          · rename_i heq; simp at heq; exact absurd heq.1 ha
          · rfl
        · rintro ⟨t, -, h⟩
          rw [hcs] at h
          simp only [List.cons_append, List.cons.injEq, true_and] at h
          have := (List.append_inj' h rfl).2
          simp at this
          exact ha this
  · rename_i hne
    left
    refine ⟨rfl, ?_⟩
    rintro ⟨t, -, h⟩
    exact hne _ h

theorem nanPayload_iff (s : List Char) (p : Option ℕ) : nanPayload s = some p ↔ IsPayload s p := by
  unfold nanPayload IsPayload
  have num : ∀ t : List Char, (payloadNumber t).map some = some p ↔ ∃ n, p = some n ∧ n < 2 ^ 128 ∧ IsPayloadNumber t n := by
    intro t
    rw [Option.map_eq_some_iff]
    constructor
    · rintro ⟨n, h1, h2⟩
      exact ⟨n, h2.symm, (payloadNumber_iff _ _).1 h1⟩
    · rintro ⟨n, h1, h2⟩
      exact ⟨n, (payloadNumber_iff _ _).2 h2, h1.symm⟩
  rcases unparen_iff s with ⟨h1, h2⟩ | ⟨t, h1, h2, h3⟩
  · rw [h1]
    by_cases hs : s = []
    · rw [if_pos hs]
      constructor
      · intro h; simp at h; exact Or.inl ⟨hs, h.symm⟩
      · rintro (⟨-, h⟩ | ⟨n, -, -, h | ⟨t, h, -⟩⟩)
        · rw [h]
        · exact absurd hs (isPayloadNumber_ne h).1
        · rw [hs] at h; simp at h
    · rw [if_neg hs, num]
      constructor
      · rintro ⟨n, a, b, c⟩; exact Or.inr ⟨n, a, b, Or.inl c⟩
      · rintro (⟨h, -⟩ | ⟨n, a, b, h | ⟨t, h, h'⟩⟩)
        · exact absurd h hs
        · exact ⟨n, a, b, h⟩
        · exact absurd ⟨t, (isPayloadNumber_ne h').1, h⟩ h2
  · rw [h3, if_neg h1, num]
    constructor
    · rintro ⟨n, a, b, c⟩; exact Or.inr ⟨n, a, b, Or.inr ⟨t, h2, c⟩⟩
    · rintro (⟨h, -⟩ | ⟨n, a, b, h | ⟨u, h, h'⟩⟩)
      · rw [h2] at h; simp at h
      · exfalso
        have := (isPayloadNumber_ne h).2
        rw [h2] at this
        simp at this
      · refine ⟨n, a, b, ?_⟩
        rw [h2] at h
        simp only [List.cons_append, List.cons.injEq, true_and] at h
        rw [(List.append_inj' h rfl).1]
        exact h'

theorem stripPrefix_iff (pre s t : List Char) : stripPrefix pre s = some t ↔ s = pre ++ t := by
  induction pre generalizing s with
  | nil => simp [stripPrefix]
  | cons a pre ih =>
    cases s with
    | nil => simp [stripPrefix]
    | cons b s =>
      rw [stripPrefix]
      by_cases h : a = b
      · rw [if_pos h, ih]; subst h; simp
      · rw [if_neg h]; simp [Ne.symm h]

variable {S : Sem}

theorem fromStrSpecial_iff (minus plus : Bool) (s : List Char) (r : IeeeFloat S) :
    fromStrSpecial S minus plus s = some r ↔
      (s = "Inf".toList ∧ (minus || plus) ∧ r = INFINITY S) ∨
      ((s = "inf".toList ∨ s = "INFINITY".toList) ∧ plus = false ∧ r = INFINITY S) ∨
      (plus = false ∧ ∃ q p, IsNaNLiteral s q p ∧ r = if q then snan S p else qnan S p) := by
  -- NaN literals
  have nan1 : ∀ (t : List Char) (q : Bool), (nanLiteral S q t = some r ↔
      ∃ pl p, IsPayload pl p ∧ (t = "nan".toList ++ pl ∨ t = "NaN".toList ++ pl) ∧ r = if q then snan S p else qnan S p) := by
    intro t q
    have hor : ∀ cs, (stripPrefix "nan".toList t).or (stripPrefix "NaN".toList t) = some cs ↔
        t = "nan".toList ++ cs ∨ t = "NaN".toList ++ cs := by
      intro cs
      rw [Option.or_eq_some_iff, stripPrefix_iff, stripPrefix_iff]
      constructor
      · rintro (h | ⟨-, h⟩)
        · exact Or.inl h
        · exact Or.inr h
      · rintro (h | h)
        · exact Or.inl h
        · refine Or.inr ⟨?_, h⟩
          rw [Option.eq_none_iff_forall_not_mem]
          intro u hu
          have := (stripPrefix_iff _ _ _).1 hu
          rw [h] at this
          simp at this
    unfold nanLiteral
    rw [Option.bind_eq_some_iff]
    constructor
    · rintro ⟨cs, h1, h2⟩
      rw [Option.map_eq_some_iff] at h2
      obtain ⟨p, h2, h3⟩ := h2
      exact ⟨cs, p, (nanPayload_iff _ _).1 h2, (hor cs).1 h1, h3.symm⟩
    · rintro ⟨pl, p, h1, h2, h3⟩
      refine ⟨pl, (hor pl).2 h2, ?_⟩
      rw [(nanPayload_iff _ _).2 h1, h3]
      rfl
  have hnanS : ∀ {q p} {x : Char} {u : List Char}, IsNaNLiteral (x :: u) q p → x = 'n' ∨ x = 'N' ∨ x = 's' ∨ x = 'S' := by
    rintro q p x u ⟨pre, pl, h1, -, h2⟩
    rcases h1 with ⟨-, rfl⟩ | ⟨-, rfl | rfl⟩ <;> rcases h2 with h2 | h2 <;> simp at h2 <;> simp [h2]
  have hInfN : ∀ {t : List Char} {q p}, t = "Inf".toList ∨ t = "inf".toList ∨ t = "INFINITY".toList → ¬ IsNaNLiteral t q p := by
    intro t q p ht hn
    rcases ht with rfl | rfl | rfl <;> (have := hnanS hn; revert this; decide)
  unfold fromStrSpecial
  by_cases c1 : s = "Inf".toList ∧ (minus || plus) = true
  · rw [if_pos c1]
    constructor
    · intro h; simp only [Option.some.injEq] at h; exact Or.inl ⟨c1.1, c1.2, h.symm⟩
    · rintro (⟨-, -, h⟩ | ⟨-, -, h⟩ | ⟨-, q, p, h, -⟩)
      · rw [h]
      · rw [h]
      · exact absurd h (hInfN (Or.inl c1.1))
  · rw [if_neg c1]
    by_cases c2 : (s = "inf".toList ∨ s = "INFINITY".toList) ∧ plus = false
    · rw [if_pos c2]
      constructor
      · intro h; simp only [Option.some.injEq] at h; exact Or.inr (Or.inl ⟨c2.1, c2.2, h.symm⟩)
      · rintro (⟨-, -, h⟩ | ⟨-, -, h⟩ | ⟨-, q, p, h, -⟩)
        · rw [h]
        · rw [h]
        · exact absurd h (hInfN (Or.inr c2.1))
    · rw [if_neg c2]
      have drop : ∀ A : Prop, ((s = "Inf".toList ∧ (minus || plus) = true ∧ r = INFINITY S) ∨
          ((s = "inf".toList ∨ s = "INFINITY".toList) ∧ plus = false ∧ r = INFINITY S) ∨ A) ↔ A := by
        intro A
        constructor
        · rintro (⟨h1, h2, -⟩ | ⟨h1, h2, -⟩ | h)
          · exact absurd ⟨h1, h2⟩ c1
          · exact absurd ⟨h1, h2⟩ c2
          · exact h
        · intro h; exact Or.inr (Or.inr h)
      rw [drop]
      cases plus
      · rw [if_neg (by simp)]
        simp only [true_and]
        cases s with
        | nil =>
          rw [show stripPrefixChar 's' 'S' [] = none from rfl]
          constructor
          · intro h
            obtain ⟨pl, p, h1, h2, h3⟩ := (nan1 [] false).1 h
            simp at h2
          · rintro ⟨q, p, ⟨pre, pl, -, -, h | h⟩, -⟩ <;> simp at h
        | cons a u =>
          by_cases ha : a = 's' ∨ a = 'S'
          · rw [show stripPrefixChar 's' 'S' (a :: u) = some u from if_pos ha]
            dsimp only
            rw [nan1 u true]
            constructor
            · rintro ⟨pl, p, h1, h2, h3⟩
              refine ⟨true, p, ⟨[a], pl, Or.inr ⟨rfl, by rcases ha with rfl | rfl <;> simp⟩, h1, ?_⟩, h3⟩
              rcases h2 with rfl | rfl
              · left; rfl
              · right; rfl
            · rintro ⟨q, p, ⟨pre, pl, h1, h2, h4⟩, h3⟩
              rcases h1 with ⟨rfl, rfl⟩ | ⟨rfl, h1⟩
              · exfalso
                rcases ha with rfl | rfl <;> rcases h4 with h4 | h4 <;> simp at h4
              · refine ⟨pl, p, h2, ?_, h3⟩
                rcases h1 with rfl | rfl <;> rcases h4 with h4 | h4 <;> simp only [List.cons_append, List.nil_append, List.cons.injEq] at h4
                · exact Or.inl h4.2
                · exact Or.inr h4.2
                · exact Or.inl h4.2
                · exact Or.inr h4.2
          · rw [show stripPrefixChar 's' 'S' (a :: u) = none from if_neg ha]
            dsimp only
            rw [nan1 (a :: u) false]
            constructor
            · rintro ⟨pl, p, h1, h2, h3⟩
              exact ⟨false, p, ⟨[], pl, Or.inl ⟨rfl, rfl⟩, h1, h2⟩, h3⟩
            · rintro ⟨q, p, ⟨pre, pl, h1, h2, h4⟩, h3⟩
              rcases h1 with ⟨rfl, rfl⟩ | ⟨rfl, h1⟩
              · exact ⟨pl, p, h2, h4, h3⟩
              · exfalso
                apply ha
                rcases h1 with rfl | rfl <;> rcases h4 with h4 | h4 <;> simp only [List.cons_append, List.nil_append, List.cons.injEq] at h4
                · exact Or.inl h4.1
                · exact Or.inl h4.1
                · exact Or.inr h4.1
                · exact Or.inr h4.1
      · rw [if_pos rfl]
        simp

end Apf
