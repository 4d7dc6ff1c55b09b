import Verif.Proof.Parse
import Verif.Proof.Literals
import Verif.Props.Consts
/-! # C30 and C32: hexadecimal literals, and the grammar of literals -/

namespace Apf
open Spec IeeeFloat
variable {S : Sem}

theorem fromStrR_sign (fuel : ℕ) (sg : LitSign) {t : List Char} (mode : Round)
    (h : sg = .none → t ≠ [] ∧ t.head? ≠ some '+' ∧ t.head? ≠ some '-') :
    fromStrR S fuel (sg.chars ++ t) mode = fromStrBody S fuel (sg == .minus) (sg == .plus) t mode := by
  unfold fromStrR
  cases sg with
  | none =>
    obtain ⟨h1, h2, h3⟩ := h rfl
    have e1 : stripMinus t = (false, t) := by
      unfold stripMinus
      split
      · exact absurd rfl h3
      · rfl
    have e2 : stripPlus false t = (false, t) := by
      unfold stripPlus
      split
      · exact absurd rfl h2
      · rfl
    rw [show LitSign.none.chars ++ t = t from rfl, if_neg h1]
    dsimp only
    rw [e1]
    dsimp only
    rw [e2]
    rfl
  | plus =>
    rw [if_neg (by simp [LitSign.chars])]
    rfl
  | minus =>
    rw [if_neg (by simp [LitSign.chars])]
    have e2 : stripPlus true t = (false, t) := by
      unfold stripPlus
      split <;> rfl
    rw [show stripMinus (LitSign.minus.chars ++ t) = (true, t) from rfl]
    dsimp only
    rw [e2]
    rfl

/-- Every non-empty string is a sign followed by something. -/
theorem sign_split {s : List Char} (hs : s ≠ []) : ∃ sg t, s = LitSign.chars sg ++ t ∧
    (sg = .none → t ≠ [] ∧ t.head? ≠ some '+' ∧ t.head? ≠ some '-') := by
  cases s with
  | nil => exact absurd rfl hs
  | cons a t =>
    by_cases h1 : a = '+'
    · exact ⟨.plus, t, by rw [h1]; rfl, fun h => absurd h (by simp)⟩
    · by_cases h2 : a = '-'
      · exact ⟨.minus, t, by rw [h2]; rfl, fun h => absurd h (by simp)⟩
      · exact ⟨.none, a :: t, rfl, fun _ => ⟨by simp, by simpa using h1, by simpa using h2⟩⟩

theorem datum_negate (x : IeeeFloat S) : ({ x with sign := !x.sign } : IeeeFloat S).datum = x.datum.neg := by
  obtain ⟨a, b, c, s⟩ := x
  cases c <;> cases s <;> simp [datum, toRat, Datum.neg, signed]

/-- The result for a magnitude, negated, is the result for the negated number in the opposite mode. -/
theorem rounds_negateIf {mode : Round} {v : ℚ} (hv : 0 ≤ v) (minus : Bool) {r : StatusAnd (IeeeFloat S)}
    (h1 : r.value.Valid) (h2 : Rounds S (mode.negateIf minus) v false r) :
    (r.map (fun x => IeeeFloat.negateIf x minus)).value.Valid ∧ Rounds S mode (signed minus v) minus (r.map (fun x => IeeeFloat.negateIf x minus)) ∧
      (r.map (fun x => IeeeFloat.negateIf x minus)).value.sign = minus := by
  obtain ⟨d1, d2, d3, d4⟩ := h2
  have hs : r.value.sign = false := by
    rcases hv.lt_or_eq with h | h
    · exact d2 h
    · exact d4 h.symm
  have hval : (r.map (fun x => IeeeFloat.negateIf x minus)).value = { r.value with sign := minus } := by
    show r.value.negateIf minus = _
    rw [negateIf_eq, hs, Bool.false_xor]
  have hst : (r.map (fun x => IeeeFloat.negateIf x minus)).status = r.status := rfl
  unfold Rounds
  rw [hval, hst]
  refine ⟨(valid_sign minus).2 h1, ⟨?_, ?_⟩, rfl⟩
  · cases minus
    · have : ({ r.value with sign := false } : IeeeFloat S) = r.value := by rw [← hs]
      rw [this, hs]
      rw [hs] at d1
      exact d1
    · have hd := d1.neg
      rw [hs] at hd
      have := datum_negate r.value
      rw [hs] at this
      rw [show ({ r.value with sign := true } : IeeeFloat S).datum = r.value.datum.neg from this]
      simpa [Round.negateIf, neg_negateIf, signed] using hd
  · cases minus
    · simp only [signed]
      exact ⟨fun _ => rfl, fun h => absurd h (not_lt.2 hv), fun _ => rfl⟩
    · simp only [signed]
      refine ⟨fun h => ?_, fun _ => rfl, fun _ => rfl⟩
      simp at h; linarith

theorem zero_special (minus plus : Bool) (t : List Char) : fromStrSpecial S minus plus ('0' :: t) = none := by
  rw [Option.eq_none_iff_forall_not_mem]
  intro r hr
  rcases (fromStrSpecial_iff _ _ _ _).1 hr with ⟨h, -⟩ | ⟨h | h, -⟩ | ⟨-, q, p, ⟨pre, pl, h1, -, h2⟩, -⟩
  · simp at h
  · simp at h
  · simp at h
  · rcases h1 with ⟨-, rfl⟩ | ⟨-, rfl | rfl⟩ <;> rcases h2 with h2 | h2 <;> simp at h2

/-- **C30.** Parsing an optional sign, `0x` or `0X`, and a hexadecimal literal denoting `v`, yields `v` (negated after
a `-`) correctly rounded in the given mode, with the right flags, and the sign bit of the literal, zero included.
In every format, and also where a negative result overflows in a format without infinities. -/
theorem C30_hex (h : S.OK) (hp : S.precision ≤ 125) (fuel : ℕ) (sg : LitSign) {c : Char} (hc : c = 'x' ∨ c = 'X')
    {t : List Char} (hlen : t.length < 2 ^ 28) {v : ℚ} (ht : IsHex t v) (mode : Round) :
    ∃ r, fromStrR S fuel (sg.chars ++ '0' :: c :: t) mode = .ok (.ok r) ∧ r.value.Valid ∧
      Rounds S mode (signed (sg == .minus) v) (sg == .minus) r ∧ r.value.sign = (sg == .minus) := by
  obtain ⟨hv, r, h1, h2, h3⟩ := fromHexString_ok h hp hlen ht (mode.negateIf (sg == .minus))
  have ht0 : t ≠ [] := by
    obtain ⟨m, ip, fp, x, ds, e, -, -, -, hh, -⟩ := ht
    rcases hh with hh | hh <;> rw [hh] <;> simp
  rw [fromStrR_sign fuel sg mode (fun _ => by simp)]
  unfold fromStrBody
  rw [zero_special]
  have e1 : fromStrNumber S fuel ('0' :: c :: t) (mode.negateIf (sg == .minus)) = .ok (.ok r) := by
    unfold fromStrNumber
    rw [if_neg (by simp)]
    change (if c = 'x' ∨ c = 'X' then _ else _) = _
    rw [if_pos hc, if_neg ht0, h1]
  dsimp only
  rw [e1, M.ok_bind]
  exact ⟨_, rfl, rounds_negateIf hv _ h2 h3⟩

/-- **C32.** A string that is no literal is rejected with an error: no panic, and no result. -/
theorem C32_reject (fuel : ℕ) {s : List Char} (hs : ¬ ∃ l, Denotes s l) (mode : Round) :
    ∃ e, fromStrR S fuel s mode = .ok (.error e) := by
  by_cases h0 : s = []
  · unfold fromStrR
    rw [if_pos h0]
    exact ⟨_, rfl⟩
  obtain ⟨sg, t, rfl, hsg⟩ := sign_split h0
  rw [fromStrR_sign fuel sg mode hsg]
  unfold fromStrBody
  cases hsp : fromStrSpecial S (sg == .minus) (sg == .plus) t with
  | some r =>
    exfalso
    apply hs
    rcases (fromStrSpecial_iff _ _ _ _).1 hsp with ⟨h, h1, -⟩ | ⟨h, h1, -⟩ | ⟨h1, q, p, h, -⟩
    · subst h; exact ⟨_, Denotes.signedInf sg (by cases sg <;> simp_all)⟩
    · exact ⟨_, .inf sg t (by cases sg <;> simp_all) h⟩
    · exact ⟨_, .nan sg t q p (by cases sg <;> simp_all) h⟩
  | none =>
    dsimp only
    have hd : ¬ ∃ v, IsDec t v := fun ⟨v, hv⟩ => hs ⟨_, .dec sg t v hv⟩
    have key : ∃ e, fromStrNumber S fuel t (mode.negateIf (sg == .minus)) = .ok (.error e) := by
      unfold fromStrNumber
      by_cases ht : t = []
      · rw [if_pos ht]; exact ⟨_, rfl⟩
      rw [if_neg ht]
      split
      · rename_i c cs
        by_cases hc : c = 'x' ∨ c = 'X'
        · rw [if_pos hc]
          by_cases hcs : cs = []
          · rw [if_pos hcs]; exact ⟨_, rfl⟩
          · rw [if_neg hcs]
            exact fromHexString_err (fun ⟨v, hv⟩ => hs ⟨_, .hex sg c cs v hc hv⟩) _
        · rw [if_neg hc]
          exact fromDecString_err hd _ _
      · exact fromDecString_err hd _ _
    obtain ⟨e, he⟩ := key
    rw [he, M.ok_bind]
    exact ⟨e, rfl⟩

theorem special_head {t : List Char} (h : t = "Inf".toList ∨ (t = "inf".toList ∨ t = "INFINITY".toList) ∨ ∃ q p, IsNaNLiteral t q p) :
    t ≠ [] ∧ t.head? ≠ some '+' ∧ t.head? ≠ some '-' := by
  rcases h with rfl | (rfl | rfl) | ⟨q, p, pre, pl, h1, -, h2⟩
  · decide
  · decide
  · decide
  · rcases h1 with ⟨-, rfl⟩ | ⟨-, rfl | rfl⟩ <;> rcases h2 with rfl | rfl <;> simp

theorem special_result (fuel : ℕ) {s : List Char} {l : Lit} (hs : Denotes s l) (mode : Round) :
    (∀ neg, l = .inf neg → fromStrR S fuel s mode = .ok (.ok ⟨Status.OK, { INFINITY S with sign := neg }⟩)) ∧
    (∀ neg q p, l = .nan neg q p → fromStrR S fuel s mode =
      .ok (.ok ⟨Status.OK, { (if q then snan S p else qnan S p) with sign := neg }⟩)) := by
  have hinf : (INFINITY S).sign = false := by unfold INFINITY; cases S.nonfinite <;> rfl
  have hn : ∀ (q : Bool) (p : Option ℕ), (if q then snan S p else qnan S p).sign = false := by intro q p; cases q <;> rfl
  cases hs with
  | hex sg c t v hc ht => exact ⟨fun _ h => by simp at h, fun _ _ _ h => by simp at h⟩
  | dec sg t v ht => exact ⟨fun _ h => by simp at h, fun _ _ _ h => by simp at h⟩
  | signedInf sg hsg =>
    refine ⟨fun neg h => ?_, fun _ _ _ h => by simp at h⟩
    simp only [Lit.inf.injEq] at h
    rw [fromStrR_sign fuel sg mode (fun _ => special_head (Or.inl rfl))]
    unfold fromStrBody
    rw [(fromStrSpecial_iff _ _ _ _).2 (Or.inl ⟨rfl, by cases sg <;> simp_all, rfl⟩)]
    dsimp only
    rw [negateIf_eq, hinf, Bool.false_xor, h]; rfl
  | inf sg t hsg ht =>
    refine ⟨fun neg h => ?_, fun _ _ _ h => by simp at h⟩
    simp only [Lit.inf.injEq] at h
    rw [fromStrR_sign fuel sg mode (fun _ => special_head (Or.inr (Or.inl ht)))]
    unfold fromStrBody
    rw [(fromStrSpecial_iff _ _ _ _).2 (Or.inr (Or.inl ⟨ht, by cases sg <;> simp_all, rfl⟩))]
    dsimp only
    rw [negateIf_eq, hinf, Bool.false_xor, h]; rfl
  | nan sg t q p hsg ht =>
    refine ⟨fun _ h => by simp at h, fun neg q' p' h => ?_⟩
    simp only [Lit.nan.injEq] at h
    obtain ⟨h1, rfl, rfl⟩ := h
    rw [fromStrR_sign fuel sg mode (fun _ => special_head (Or.inr (Or.inr ⟨_, _, ht⟩)))]
    unfold fromStrBody
    rw [(fromStrSpecial_iff _ _ _ _).2 (Or.inr (Or.inr ⟨by cases sg <;> simp_all, q, p, ht, rfl⟩))]
    dsimp only
    rw [negateIf_eq, hn, Bool.false_xor, h1]; rfl

/-- **C32.** The literals of the infinities give the infinities (NaN in a format that has none), exactly. -/
theorem C32_inf (fuel : ℕ) {s : List Char} {neg : Bool} (hs : Denotes s (.inf neg)) (mode : Round) :
    ∃ r, fromStrR S fuel s mode = .ok (.ok r) ∧ r.status = Status.OK ∧ r.value.sign = neg ∧
      (S.nonfinite = .ieee754 → r.value.datum = .inf neg) ∧ (S.nonfinite = .nanOnly → r.value.datum = .nan) := by
  refine ⟨_, (special_result fuel hs mode).1 neg rfl, rfl, rfl, fun h => ?_, fun h => ?_⟩
  · unfold INFINITY; rw [h]; rfl
  · unfold INFINITY; rw [h]; rfl

/-- **C32.** The literals of NaNs give the NaN with that sign, kind and payload: what `qnan` and `snan` make of the
payload (C40). -/
theorem C32_nan (h : S.OK) (fuel : ℕ) {s : List Char} {neg q : Bool} {p : Option ℕ} (hs : Denotes s (.nan neg q p)) (mode : Round) :
    ∃ r, fromStrR S fuel s mode = .ok (.ok r) ∧ r.status = Status.OK ∧ r.value.Valid ∧ r.value.sign = neg ∧
      r.value.isNan = true ∧ r.value.isSignaling = (q && decide (S.nonfinite = .ieee754)) ∧
      r.value.sig = (if q then snan S p else qnan S p).sig := by
  refine ⟨_, (special_result fuel hs mode).2 neg q p rfl, rfl, ?_, rfl, ?_, ?_, rfl⟩
  · refine (valid_sign neg).2 ?_
    cases q
    · exact (C40_qnan h p).1
    · exact (C40_snan h p).1
  · cases q <;> rfl
  · cases q
    · exact (C40_qnan h p).2.2.1
    · rw [Bool.true_and]; exact (C40_snan h p).2.2.1

/-! ### The hypotheses are met -/

/-- `-0X1.8p-3` is `-3/16`. -/
example : Denotes "-0X1.8p-3".toList (.num true (3 / 16)) := by
  have : IsHex "1.8p-3".toList (3 / 16) :=
    ⟨"1.8".toList, ['1'], ['8'], "-3".toList, ['3'], -3, by unfold IsSignificand; decide, ⟨by decide, Or.inr (Or.inr ⟨rfl, rfl⟩)⟩,
      by decide, Or.inl rfl, by
        rw [significandValue, show number 16 (['1'] ++ ['8']) = 24 by decide]; norm_num⟩
  exact .hex .minus 'X' _ _ (Or.inr rfl) this

/-- The model computes it. -/
example : fromStrR halfS 0 "-0X1.8p-3".toList .towardZero =
    .ok (.ok ⟨Status.OK, { sig := 1536, exp := -3, category := .normal, sign := true }⟩) := by decide +kernel

example : Denotes "-sNaN(0x1F)".toList (.nan true true (some 31)) :=
  .nan .minus "sNaN(0x1F)".toList true (some 31) (by decide) ⟨['s'], "(0x1F)".toList, Or.inr ⟨rfl, Or.inl rfl⟩,
    Or.inr ⟨31, rfl, by norm_num, Or.inr ⟨"0x1F".toList, rfl, 16, "1F".toList, "1F".toList, by decide, by decide, rfl, Or.inl rfl,
      Or.inl ⟨rfl, Or.inl rfl⟩⟩⟩, Or.inr rfl⟩

example : Denotes "+Inf".toList (.inf false) := .signedInf .plus (by decide)

example : fromStrR halfS 0 "Inf".toList .towardZero = .ok (.error .badSigChar) := by decide +kernel

end Apf
