import Verif.Proof.DecConv
import Verif.Props.Parse
/-! # C31, C32, C46: decimal literals -/

namespace Apf
open Spec IeeeFloat

variable {S : Sem}

theorem dec_head {t : List Char} {v : ℚ} (ht : IsDec t v) : ∃ c cs, t = c :: cs ∧ (IsDigit 10 c ∨ c = '.') := by
  obtain ⟨m, ip, fp, r, E, ⟨h1, h2, h3, h4⟩, rfl, -, -⟩ := isDec_iff.1 ht
  cases ip with
  | cons c cs =>
    rcases h4 with ⟨-, rfl⟩ | rfl
    · exact ⟨c, cs ++ r, rfl, Or.inl (h1 c (by simp))⟩
    · exact ⟨c, cs ++ '.' :: fp ++ r, rfl, Or.inl (h1 c (by simp))⟩
  | nil =>
    rcases h4 with ⟨rfl, -⟩ | rfl
    · simp at h3
    · exact ⟨'.', fp ++ r, rfl, Or.inr rfl⟩

theorem digit_ne {c : Char} (h : IsDigit 10 c ∨ c = '.') : c ≠ '+' ∧ c ≠ '-' ∧ c ≠ 'I' ∧ c ≠ 'i' ∧ c ≠ 'n' ∧ c ≠ 's' ∧ c ≠ 'S' ∧ c ≠ 'N' := by
  refine ⟨?_, ?_, ?_, ?_, ?_, ?_, ?_, ?_⟩ <;> rintro rfl <;> exact absurd h (by decide)

theorem dec_special {t : List Char} {v : ℚ} (ht : IsDec t v) (minus plus : Bool) : fromStrSpecial S minus plus t = none := by
  obtain ⟨c, cs, rfl, hc⟩ := dec_head ht
  obtain ⟨-, -, n1, n2, n3, n4, n5, n6⟩ := digit_ne hc
  rw [Option.eq_none_iff_forall_not_mem]
  intro r hr
  rcases (fromStrSpecial_iff _ _ _ _).1 hr with ⟨h, -⟩ | ⟨h | h, -⟩ | ⟨-, q, p, ⟨pre, pl, h1, -, h2⟩, -⟩
  · simp [n1] at h
  · simp [n2] at h
  · simp [n1] at h
  · rcases h1 with ⟨-, rfl⟩ | ⟨-, rfl | rfl⟩ <;> rcases h2 with h2 | h2 <;> simp [n3, n4, n5, n6] at h2

theorem dec_not_hex {c : Char} {t : List Char} {v : ℚ} (ht : IsDec ('0' :: c :: t) v) : ¬ (c = 'x' ∨ c = 'X') := by
  obtain ⟨m, ip, fp, r, E, ⟨h1, h2, h3, h4⟩, hs, hr, -⟩ := isDec_iff.1 ht
  have dx : ∀ {d : Char}, IsDigit 10 d → ¬ (d = 'x' ∨ d = 'X') := by
    rintro d hd (rfl | rfl) <;> exact absurd hd (by decide)
  have tl : ∀ {d : Char} {w : List Char}, d :: w = r → ¬ (d = 'x' ∨ d = 'X') := by
    intro d w e
    rcases hr with ⟨rfl, -⟩ | ⟨a, x, ds, ha, rfl, -⟩
    · simp at e
    · simp only [List.cons.injEq] at e
      rw [e.1]
      rcases ha with rfl | rfl <;> decide
  rcases h4 with ⟨rfl, rfl⟩ | rfl
  · rcases m with _ | ⟨a, _ | ⟨b, w⟩⟩
    · simp at h3
    · simp only [List.cons_append, List.nil_append, List.cons.injEq] at hs
      exact tl hs.2
    · simp only [List.cons_append, List.cons.injEq] at hs
      rw [hs.2.1]; exact dx (h1 b (by simp))
  · rcases ip with _ | ⟨a, _ | ⟨b, w⟩⟩
    · simp at hs
    · simp only [List.cons_append, List.nil_append, List.cons.injEq] at hs
      rw [hs.2.1]; decide
    · simp only [List.cons_append, List.cons.injEq] at hs
      rw [hs.2.1]; exact dx (h1 b (by simp))

/-- Parsing a decimal literal, in all modes. -/
theorem fromStrR_dec (h : S.OK) {fuel : ℕ} (hfuel : 23 ≤ fuel) (sg : LitSign) {t : List Char} (hlen : t.length < 2 ^ 27) {v : ℚ} (ht : IsDec t v)
    (mode : Round) : ∃ r, fromStrR S fuel (sg.chars ++ t) mode = .ok (.ok r) ∧ r.value.Valid ∧ r.value.sign = (sg == .minus) ∧
      (S.precision ≤ 120 → Nearest mode → ∃ st, Rounds S mode (signed (sg == .minus) v) (sg == .minus) ⟨st, r.value⟩ ∧
        st.overflow = r.status.overflow ∧ r.status.invalidOp = false ∧ r.status.divByZero = false) ∧
      ((ShortDecimal v → ¬ Nearest mode → Rounds S mode (signed (sg == .minus) v) (sg == .minus) r) ∧
        (ExactDec v → Rounds S mode (signed (sg == .minus) v) (sg == .minus) r)) ∧
      0 ≤ v ∧ ∃ w : ℚ, 0 ≤ w ∧ |w - v| ≤ v / 2 ^ 123 ∧ Rounds S mode (signed (sg == .minus) w) (sg == .minus) r := by
  obtain ⟨c, cs, hcs, hc⟩ := dec_head ht
  obtain ⟨hv, r, h1, r', e, h2, h3, h4, ⟨h5, h6⟩, w, w1, w2, w3⟩ := fromDecString_ok h (by omega) ht (mode.negateIf (sg == .minus)) hfuel
  simp only [Except.ok.injEq] at e
  subst e
  have hn : Nearest (mode.negateIf (sg == .minus)) ↔ Nearest mode := by
    unfold Nearest; cases mode <;> cases (sg == .minus) <;> decide
  rw [fromStrR_sign fuel sg mode (fun _ => by
    obtain ⟨n1, n2, -⟩ := digit_ne hc
    rw [hcs]; simp [n1, n2])]
  unfold fromStrBody
  rw [dec_special ht]
  have e1 : fromStrNumber S fuel t (mode.negateIf (sg == .minus)) = .ok (.ok r) := by
    unfold fromStrNumber
    rw [if_neg (by rw [hcs]; simp)]
    split
    · rw [if_neg (dec_not_hex ht), h1]
    · exact h1
  dsimp only
  rw [e1, M.ok_bind]
  have sr' : ∀ {v : ℚ}, 0 ≤ v → SignRule v false r.value.sign := by
    intro v hv
    rw [h3]
    exact ⟨fun _ => rfl, fun h => absurd h (not_lt.2 hv), fun _ => rfl⟩
  have sr := sr' hv
  have hval : (r.map (fun x => IeeeFloat.negateIf x (sg == .minus))).value = { r.value with sign := (sg == .minus) } := by
    show r.value.negateIf _ = _
    rw [negateIf_eq, h3, Bool.false_xor]
  refine ⟨_, rfl, ?_, ?_, ?_, ⟨?_, fun he => (rounds_negateIf (mode := mode) hv (sg == .minus) h2 ⟨by rw [h3]; exact h6 he, sr⟩).2.1⟩, hv, w, w1, w2, (rounds_negateIf (mode := mode) w1 (sg == .minus) h2 ⟨by rw [h3]; exact w3, sr' w1⟩).2.1⟩
  · rw [hval]; exact (valid_sign _).2 h2
  · rw [hval]
  · intro hp hm
    obtain ⟨st, q1, q2, q3, q4⟩ := h4 hp (hn.2 hm)
    obtain ⟨-, s2, -⟩ := rounds_negateIf (mode := mode) (r := ⟨st, r.value⟩) hv (sg == .minus) h2 ⟨by rw [h3]; exact q1, sr⟩
    exact ⟨st, s2, q2, q3, q4⟩
  · intro hsm hm
    have q1 := h5 hsm (fun x => hm (hn.1 x))
    exact (rounds_negateIf (mode := mode) hv (sg == .minus) h2 ⟨by rw [h3]; exact q1, sr⟩).2.1

/-- **C31.** Parsing a decimal literal of fewer than `2^27` characters in either of the two round-to-nearest modes
yields the value the literal denotes, correctly rounded, with the sign of the literal; `OVERFLOW` is raised exactly
when it should, and neither `INVALID_OP` nor `DIV_BY_ZERO` is.  (`st` is the correct set of flags; `INEXACT` and
`UNDERFLOW` may deviate from it, see C46.)  The loop of the code needs at most 23 rounds. -/
theorem C31_nearest (h : S.OK) (hp : S.precision ≤ 120) {fuel : ℕ} (hfuel : 23 ≤ fuel) (sg : LitSign) {t : List Char}
    (hlen : t.length < 2 ^ 27) {v : ℚ} (ht : IsDec t v) {mode : Round} (hm : mode = .nearestTiesToEven ∨ mode = .nearestTiesToAway) :
    ∃ r st, fromStrR S fuel (sg.chars ++ t) mode = .ok (.ok r) ∧ r.value.Valid ∧
      Rounds S mode (signed (sg == .minus) v) (sg == .minus) ⟨st, r.value⟩ ∧ r.value.sign = (sg == .minus) ∧
      r.status.overflow = st.overflow ∧ r.status.invalidOp = false ∧ r.status.divByZero = false := by
  obtain ⟨r, r1, r2, r3, r4, -⟩ := fromStrR_dec h hfuel sg hlen ht mode
  obtain ⟨st, s1, s2, s3, s4⟩ := r4 hp hm
  exact ⟨r, st, r1, r2, s1, r3, s2.symm, s3, s4⟩

/-- **C32.** Every decimal literal is accepted, in every mode: there is no panic, and the loop ends within 23 rounds. -/
theorem C32_decimal (h : S.OK) {fuel : ℕ} (hfuel : 23 ≤ fuel) {s : List Char} (hlen : s.length < 2 ^ 27) {sg : LitSign} {t : List Char} {v : ℚ}
    (hs : s = sg.chars ++ t) (ht : IsDec t v) (mode : Round) : ∃ r, fromStrR S fuel s mode = .ok (.ok r) ∧ r.value.Valid ∧
      r.value.sign = (sg == .minus) := by
  subst hs
  obtain ⟨r, r1, r2, r3, -⟩ := fromStrR_dec h hfuel sg (by rw [List.length_append] at hlen; omega) ht mode
  exact ⟨r, r1, r2, r3⟩

/-- **C32.** On every string shorter than `2^27` characters the parser returns, without panicking and within 23 rounds
of its loop; it returns a value exactly when the string is a literal, and that value is a valid one. -/
theorem C32_accepts_iff (h : S.OK) (hp : S.precision ≤ 125) {fuel : ℕ} (hfuel : 23 ≤ fuel) {s : List Char} (hlen : s.length < 2 ^ 27) (mode : Round) :
    ((∃ l, Denotes s l) → ∃ r, fromStrR S fuel s mode = .ok (.ok r) ∧ r.value.Valid) ∧
    ((¬ ∃ l, Denotes s l) → ∃ e, fromStrR S fuel s mode = .ok (.error e)) := by
  refine ⟨?_, fun hs => C32_reject fuel hs mode⟩
  rintro ⟨l, hl⟩
  have hl' := hl
  cases hl with
  | hex sg c t v hc ht =>
    obtain ⟨r, r1, r2, -⟩ := C30_hex h hp fuel sg hc (by simp at hlen; omega) ht mode
    exact ⟨r, r1, r2⟩
  | dec sg t v ht =>
    obtain ⟨r, r1, r2, -⟩ := C32_decimal h hfuel hlen rfl ht mode
    exact ⟨r, r1, r2⟩
  | signedInf sg hsg =>
    refine ⟨_, (special_result fuel hl' mode).1 _ rfl, ?_⟩
    exact (valid_sign _).2 (infinity_valid h)
  | inf sg t hsg ht =>
    refine ⟨_, (special_result fuel hl' mode).1 _ rfl, ?_⟩
    exact (valid_sign _).2 (infinity_valid h)
  | nan sg t q p hsg ht =>
    obtain ⟨r, r1, -, r2, -⟩ := C32_nan h fuel hl' mode
    exact ⟨r, r1, r2⟩

theorem decAttempts_fuel {mode : Round} {ds p5 : List ℕ} {D : ℤ} (fuel : ℕ) : ∀ (t : ℕ) {r : StatusAnd (IeeeFloat S)},
    decAttempts S mode ds D p5 fuel t = .ok r → ∀ f, fuel ≤ f → decAttempts S mode ds D p5 f t = .ok r := by
  induction fuel with
  | zero => intro t r h; simp [decAttempts] at h
  | succ fuel ih =>
    intro t r h f hf
    obtain ⟨f, rfl⟩ : ∃ g, f = g + 1 := ⟨f - 1, by omega⟩
    rw [decAttempts] at h ⊢
    cases hc : decCalc S ((limbBits <<< t) - 1) ds D p5 with
    | error e => rw [hc] at h; simp [bind, Except.bind] at h
    | ok c =>
      rw [hc, M.ok_bind] at h
      rw [M.ok_bind]
      cases hu : ulpsFromBoundary mode ((limbBits <<< t) - 1) c.usedBits c.sig with
      | error e => rw [hu] at h; simp [bind, Except.bind] at h
      | ok u =>
        rw [hu, M.ok_bind] at h
        rw [M.ok_bind]
        split_ifs at h ⊢ with hacc
        · exact h
        · exact ih _ h f (by omega)

/-- `b` returns whatever `a` returns. -/
def Refines {α : Type} (a b : M α) : Prop := ∀ r, a = .ok r → b = .ok r

theorem Refines.bind {α β : Type} {a : M α} {f g : α → M β} (h : ∀ x, Refines (f x) (g x)) : Refines (a >>= f) (a >>= g) := by
  intro r hr
  cases a with
  | error e => simp [Bind.bind, Except.bind] at hr
  | ok x => rw [M.ok_bind] at hr ⊢; exact h x r hr

theorem Refines.bind' {α β : Type} {a b : M α} (hab : Refines a b) (f : α → M β) : Refines (a >>= f) (b >>= f) := by
  intro r hr
  cases a with
  | error e => simp [Bind.bind, Except.bind] at hr
  | ok x => rw [hab x rfl]; exact hr

theorem Refines.refl {α : Type} (a : M α) : Refines a a := fun _ h => h

theorem decConvert_fuel {fuel f : ℕ} (hf : fuel ≤ f) (s : List Char) (mode : Round) (st : DecSt) (first : ℕ) (e : ℤ) :
    Refines (decConvert S fuel s mode st first e) (decConvert S f s mode st first e) := by
  unfold decConvert
  refine Refines.bind fun _ => Refines.bind fun _ => Refines.bind fun _ => Refines.bind fun _ => Refines.bind fun _ => ?_
  dsimp only
  split
  · exact Refines.refl _
  · refine Refines.bind fun _ => Refines.bind fun _ => ?_
    split
    · exact Refines.refl _
    · refine Refines.bind fun _ => Refines.bind fun _ => Refines.bind fun _ => ?_
      exact fun r hr => decAttempts_fuel _ _ hr _ hf

theorem fromDecString_fuel {fuel f : ℕ} (hf : fuel ≤ f) (s : List Char) (mode : Round) :
    Refines (fromDecString S fuel s mode) (fromDecString S f s mode) := by
  unfold fromDecString
  cases decLoop s.length 0 s ⟨false, none, 0, s.length⟩ with
  | error e => exact Refines.refl _
  | ok p =>
    obtain ⟨st, e⟩ := p
    dsimp only
    split_ifs
    · exact Refines.refl _
    · cases st.firstSig with
      | none => exact Refines.refl _
      | some first => exact Refines.bind' (decConvert_fuel hf _ _ _ _ _) _

theorem fromStrR_fuel {fuel f : ℕ} (hf : fuel ≤ f) (s : List Char) (mode : Round) :
    Refines (fromStrR S fuel s mode) (fromStrR S f s mode) := by
  unfold fromStrR
  split_ifs
  · exact Refines.refl _
  · dsimp only
    unfold fromStrBody
    cases fromStrSpecial S (stripMinus s).1 (stripPlus (stripMinus s).1 (stripMinus s).2).1 (stripPlus (stripMinus s).1 (stripMinus s).2).2 with
    | some r => exact Refines.refl _
    | none =>
      refine Refines.bind' ?_ _
      unfold fromStrNumber
      split_ifs
      · exact Refines.refl _
      · split
        · split_ifs
          · exact Refines.refl _
          · exact Refines.refl _
          · exact fromDecString_fuel hf _ _
        · exact fromDecString_fuel hf _ _

/-- **C32.** The bound on the number of rounds in the model is no restriction: 23 rounds give what any larger number of
rounds gives, hence what the unbounded loop of the code gives. -/
theorem C32_rounds (h : S.OK) (hp : S.precision ≤ 125) {fuel : ℕ} (hfuel : 23 ≤ fuel) {s : List Char} (hlen : s.length < 2 ^ 27) (mode : Round) :
    fromStrR S fuel s mode = fromStrR S 23 s mode := by
  obtain ⟨a, b⟩ := C32_accepts_iff h hp (le_refl 23) hlen mode
  by_cases hs : ∃ l, Denotes s l
  · obtain ⟨r, hr, -⟩ := a hs
    rw [hr]; exact fromStrR_fuel hfuel s mode _ hr
  · obtain ⟨r, hr⟩ := b hs
    rw [hr]; exact fromStrR_fuel hfuel s mode _ hr

/-- **C46** (partial: only literals denoting a number with few digits).  Parsing a decimal literal in a directed mode
yields the correctly rounded value with the right flags, when the number is `N * 10^D` with `N < 2^127` and `|D| ≤ 54`
(every integer or fraction with up to 38 digits and a moderate exponent).  The full statement drops `hd`; it is false,
see `C46_directed_counterexample`. -/
theorem C46_directed_partial (h : S.OK) {fuel : ℕ} (hfuel : 23 ≤ fuel) (sg : LitSign) {t : List Char}
    (hlen : t.length < 2 ^ 27) {v : ℚ} (ht : IsDec t v) (hd : ShortDecimal v) {mode : Round}
    (hm : mode = .towardZero ∨ mode = .towardPositive ∨ mode = .towardNegative) :
    ∃ r, fromStrR S fuel (sg.chars ++ t) mode = .ok (.ok r) ∧ r.value.Valid ∧
      Rounds S mode (signed (sg == .minus) v) (sg == .minus) r ∧ r.value.sign = (sg == .minus) := by
  obtain ⟨r, r1, r2, r3, -, ⟨r5, -⟩, -⟩ := fromStrR_dec h hfuel sg hlen ht mode
  refine ⟨r, r1, r2, r5 hd ?_, r3⟩
  unfold Nearest
  rcases hm with rfl | rfl | rfl <;> decide

/-! ### Counterexamples -/

theorem single_p : singleS.precision = 24 := rfl

/-- The literal of `9 * 2^-56`. -/
def nineLit : List Char := "12490009027033011079765856266021728515625e-56".toList

theorem nineLit_dec : IsDec nineLit (9 / 2 ^ 56) := by
  refine ⟨"12490009027033011079765856266021728515625".toList, "12490009027033011079765856266021728515625".toList, [],
    by unfold IsSignificand; exact ⟨by decide, by decide, by decide, Or.inl ⟨rfl, rfl⟩⟩,
    Or.inr ⟨"-56".toList, "56".toList, -56, ⟨by decide, Or.inr (Or.inr ⟨rfl, by decide⟩)⟩, Or.inl rfl, ?_⟩⟩
  rw [significandValue, show number 10 ("12490009027033011079765856266021728515625".toList ++ []) = 12490009027033011079765856266021728515625 by decide +kernel]
  norm_num

/-- **C46, against.** The literal `12490009027033011079765856266021728515625e-56` denotes exactly `9 * 2^-56`, which is a
`Single`.  Rounding toward zero, the parser returns the next smaller number (and claims the result inexact). -/
theorem C46_directed_counterexample : IsDec nineLit (9 / 2 ^ 56) ∧
    (∃ x : IeeeFloat singleS, x.Valid ∧ x.toRat = 9 / 2 ^ 56) ∧
    ∃ r, (∀ fuel, 23 ≤ fuel → fromStrR singleS fuel nineLit .towardZero = .ok (.ok r)) ∧ r.status.inexact = true ∧
      r.value.toRat = 9 / 2 ^ 56 - 1 / 2 ^ 76 ∧ ¬ Rounds singleS .towardZero (9 / 2 ^ 56) false r := by
  have hr : fromStrR singleS 23 nineLit .towardZero =
      .ok (.ok ⟨Status.INEXACT, { sig := 9437183, exp := -53, category := .normal, sign := false }⟩) := by decide +kernel
  have e1 : ({ sig := 9437183, exp := -53, category := .normal, sign := false } : IeeeFloat singleS).toRat = 9 / 2 ^ 56 - 1 / 2 ^ 76 := by
    rw [toRat_normal rfl]; simp only [signed]; rw [single_p]; norm_num
  have e2 : ({ sig := 9437184, exp := -53, category := .normal, sign := false } : IeeeFloat singleS).toRat = 9 / 2 ^ 56 := by
    rw [toRat_normal rfl]; simp only [signed]; rw [single_p]; norm_num
  refine ⟨nineLit_dec, ⟨{ sig := 9437184, exp := -53, category := .normal, sign := false }, by decide +kernel, e2⟩,
    _, fun fuel hf => fromStrR_fuel hf _ _ _ hr, rfl, e1, ?_⟩
  rintro ⟨⟨g, g1, g2⟩, -⟩
  have hg : singleS.fmt.Grid (9 / 2 ^ 56) := by
    have := grid_mk (F := singleS.fmt) (n := 9437184) (e := -53) (by decide) (by decide +kernel) (by decide)
    convert this using 1
    rw [fmt_p, single_p]; norm_num
  have hgv := g1.unique (isRounded_self _ hg)
  subst hgv
  rcases g2 with ⟨-, b, -⟩ | ⟨b, -⟩
  · have hb : Datum.num false ({ sig := 9437183, exp := -53, category := .normal, sign := false } : IeeeFloat singleS).toRat = .num false (9 / 2 ^ 56) := b
    rw [e1, Datum.num.injEq] at hb
    norm_num at hb
  · have := abs_toRat_le singleS_ok (x := { sig := 9437184, exp := -53, category := .normal, sign := false }) (by decide +kernel) rfl
    rw [e2] at this
    linarith

/-- The literal of `1 + 10^-38`. -/
def oneLit : List Char := "1.00000000000000000000000000000000000001".toList

theorem oneLit_dec : IsDec oneLit (1 + 1 / 10 ^ 38) := by
  refine ⟨oneLit, ['1'], "00000000000000000000000000000000000001".toList,
    by unfold IsSignificand; exact ⟨by decide, by decide, by decide, Or.inr rfl⟩, Or.inl ⟨rfl, ?_⟩⟩
  rw [significandValue, show number 10 (['1'] ++ "00000000000000000000000000000000000001".toList) = 100000000000000000000000000000000000001 by decide +kernel,
    show "00000000000000000000000000000000000001".toList.length = 38 by decide]
  norm_num

/-- **C31/C46, against.** The status returned with a correctly rounded decimal literal may lack `INEXACT`: no float is
`1.00000000000000000000000000000000000001`, yet parsing it (to nearest) reports an exact result. -/
theorem C46_missing_inexact : IsDec oneLit (1 + 1 / 10 ^ 38) ∧
    (∀ fuel, 23 ≤ fuel → ∃ r, fromStrR singleS fuel oneLit .nearestTiesToEven = .ok (.ok r) ∧ r.value.toRat = 1 ∧ r.status = Status.OK) := by
  have hr : fromStrR singleS 23 oneLit .nearestTiesToEven =
      .ok (.ok ⟨Status.OK, { sig := 8388608, exp := 0, category := .normal, sign := false }⟩) := by decide +kernel
  refine ⟨oneLit_dec, fun fuel hf => ⟨_, fromStrR_fuel hf _ _ _ hr, ?_, rfl⟩⟩
  rw [toRat_normal rfl]; simp only [signed]; rw [single_p]; norm_num

/-- **C31/C46, against.** Or it may have a spurious one: `9 * 2^-56` is parsed correctly to nearest, but reported inexact. -/
theorem C46_spurious_inexact : IsDec nineLit (9 / 2 ^ 56) ∧
    (∀ fuel, 23 ≤ fuel → ∃ r, fromStrR singleS fuel nineLit .nearestTiesToEven = .ok (.ok r) ∧ r.value.toRat = 9 / 2 ^ 56 ∧
      r.status = Status.INEXACT) := by
  have hr : fromStrR singleS 23 nineLit .nearestTiesToEven =
      .ok (.ok ⟨Status.INEXACT, { sig := 9437184, exp := -53, category := .normal, sign := false }⟩) := by decide +kernel
  refine ⟨nineLit_dec, fun fuel hf => ⟨_, fromStrR_fuel hf _ _ _ hr, ?_, rfl⟩⟩
  rw [toRat_normal rfl]; simp only [signed]; rw [single_p]; norm_num

/-! ### The hypotheses are met -/

/-- `-12.5e-1` is a literal for `-1.25`, which has few digits. -/
example : IsDec "12.5e-1".toList (5 / 4) ∧ ShortDecimal (5 / 4) ∧ "12.5e-1".toList.length < 2 ^ 27 := by
  refine ⟨⟨"12.5".toList, "12".toList, "5".toList, by unfold IsSignificand; exact ⟨by decide, by decide, by decide, Or.inr rfl⟩,
    Or.inr ⟨"-1".toList, "1".toList, -1, ⟨by decide, Or.inr (Or.inr ⟨rfl, by decide⟩)⟩, Or.inl rfl, ?_⟩⟩,
    Or.inr ⟨125, -2, by norm_num, by norm_num, by norm_num, by norm_num⟩, by decide⟩
  rw [significandValue, show number 10 ("12".toList ++ "5".toList) = 125 by decide, show "5".toList.length = 1 by decide]
  norm_num

/-- A tie, decided by a digit far out: the even neighbour without it, the odd one with it. -/
example : fromStrR halfS 23 "2049".toList .nearestTiesToEven =
      .ok (.ok ⟨Status.INEXACT, { sig := 1024, exp := 11, category := .normal, sign := false }⟩) ∧
    fromStrR halfS 23 "2049.0000000000000000000000000000000000000000000000000001".toList .nearestTiesToEven =
      .ok (.ok ⟨Status.INEXACT, { sig := 1025, exp := 11, category := .normal, sign := false }⟩) := by decide +kernel

end Apf
