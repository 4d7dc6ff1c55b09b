import Verif.Proof.Arith
/-! # NaNs, infinities, uniqueness of the specification -/

namespace Apf
open Spec

theorem Spec.Delivers.unique {F : Fmt} {mode : Round} {v : ℚ} {s : Bool} {d d' : Datum} {st st' : Status}
    (h : Delivers F mode v s d st) (h' : Delivers F mode v s d' st') : d = d' ∧ st = st' := by
  obtain ⟨g, hg, h⟩ := h
  obtain ⟨g', hg', h'⟩ := h'
  have := hg.unique hg'
  subst this
  rcases h with ⟨a, b, c⟩ | ⟨a, b⟩ <;> rcases h' with ⟨a', b', c'⟩ | ⟨a', b'⟩
  · exact ⟨b.trans b'.symm, c.trans c'.symm⟩
  · linarith
  · linarith
  · exact Prod.ext_iff.1 (b.trans b'.symm)

theorem SignRule.unique {v : ℚ} {zs s t : Bool} (h : SignRule v zs s) (h' : SignRule v zs t) : s = t := by
  rcases lt_trichotomy v 0 with c | c | c
  · rw [h.2.1 c, h'.2.1 c]
  · rw [h.2.2 c, h'.2.2 c]
  · rw [h.1 c, h'.1 c]

theorem Rounds.unique {S : Sem} {mode : Round} {v : ℚ} {zs : Bool} {r r' : StatusAnd (IeeeFloat S)} (h : Rounds S mode v zs r)
    (h' : Rounds S mode v zs r') :
    r.value.datum = r'.value.datum ∧ r.value.sign = r'.value.sign ∧ r.status = r'.status := by
  have hs := h.2.unique h'.2
  obtain ⟨a, b⟩ := h.1.unique (by rw [hs]; exact h'.1)
  exact ⟨a, hs, b⟩

theorem Spec.Delivers.neg {F : Fmt} {mode : Round} {v : ℚ} {s : Bool} {d : Datum} {st : Status}
    (h : Delivers F mode v s d st) : Delivers F mode.neg (-v) (!s) d.neg st := by
  obtain ⟨g, hg, h⟩ := h
  refine ⟨-g, hg.neg, ?_⟩
  rw [abs_neg]
  rcases h with ⟨a, b, c⟩ | ⟨a, b⟩
  · refine Or.inl ⟨a, by rw [b]; rfl, ?_⟩
    rw [c]
    have : (-g ≠ -v) ↔ (g ≠ v) := by rw [ne_eq, neg_inj]
    simp only [this]
  · refine Or.inr ⟨a, ?_⟩
    obtain ⟨rfl, rfl⟩ := Prod.ext_iff.1 b
    cases mode <;> cases s <;> cases hF : F.hasInf <;> simp [overflowed, Round.neg, hF, Datum.neg, signed]

theorem overflowed_cases (F : Fmt) (mode : Round) (s : Bool) :
    overflowed F mode s = (if F.hasInf then .inf s else .nan, { overflow := true, inexact := true }) ∨
    overflowed F mode s = (.num s (signed s F.largest), { inexact := true }) := by
  unfold overflowed
  cases mode <;> cases s <;> simp

namespace IeeeFloat
variable {S : Sem}

theorem smallestNormal_le_largest (h : S.OK) : (2 : ℚ) ^ S.minExp ≤ S.fmt.largest := by
  have hp := h.p_ge
  have hm := h.min_lt
  have hpm := h.p_max
  have h3 := h.half_ge
  have h2 := h.two_pow
  have hl : (largest S).Valid := largest_valid h
  have hq := (grid_mk (F := S.fmt) (n := 2 ^ (S.precision - 1)) (e := S.minExp) (by simp; omega)
    (by simp only [fmt_p]; omega) (le_refl _))
  have e : ((2 ^ (S.precision - 1) : ℕ) : ℚ) * 2 ^ (S.minExp - S.precision + 1) = 2 ^ S.minExp := by
    push_cast
    rw [← zpow_natCast, ← two_zpow_add]
    congr 1
    omega
  rw [← e]
  refine le_largest h (by omega) (by omega) ?_
  intro _ hh
  omega


theorem datum_neg (x : IeeeFloat S) : x.neg.datum = x.datum.neg := by
  unfold datum
  rw [neg_toRat, neg_eq]
  cases x.category <;> simp [Datum.neg]

theorem quiet_eq (h : S.OK) : (if isX87 S then S.qnanSignificand &&& S.nanPayloadMask else S.qnanSignificand) = quietBit S := by
  unfold isX87 quietBit
  have hp := h.p_ge
  have hx : x87S.qnanSignificand = 3 * 2 ^ 62 := rfl
  rw [hx]
  cases hn : S.nonfinite
  · obtain ⟨h1, h2, ⟨h3, h4⟩ | ⟨h3, h4, h5⟩⟩ := h.ieee hn
    · rw [if_neg]
      · simp [h4]
      · rw [h4]
        simp only [beq_iff_eq]
        intro hc
        have := congrArg Nat.size hc
        rw [Nat.size_pow] at this
        have hs : Nat.size (3 * 2 ^ 62) = 64 := by decide +kernel
        rw [hs] at this
        have : S.precision = 65 := by omega
        rw [this] at hc
        norm_num at hc
    · rw [h5, h2, h4]
      decide +kernel
  · obtain ⟨h1, h2, h3, h4⟩ := h.nanOnly hn
    rw [h3]
    simp

theorem resultFromNan_ok (h : S.OK) {x : IeeeFloat S} (hx : x.Valid) (hc : x.category = .nan) :
    ∃ r, resultFromNan x = .ok ⟨if x.isSignaling then Status.INVALID_OP else Status.OK, r⟩ ∧ r.Valid ∧ IsQuieted x r := by
  have hp := h.p_ge
  have hn : x.isNan = true := by simp [isNan, hc]
  unfold resultFromNan
  rw [massert_pos hn, M.ok_bind, quiet_eq h]
  have hval : ∀ y : IeeeFloat S, y = { x with sig := x.sig ||| quietBit S } → y.Valid := by
    rintro y rfl
    unfold Valid at hx ⊢
    rw [hc] at hx
    simp only [hc] at hx ⊢
    unfold quietBit
    cases hnf : S.nonfinite
    · rw [hnf] at hx
      simp only [if_true] at hx ⊢
      split_ifs at hx ⊢ with he
      · refine ⟨Nat.or_lt_two_pow hx.1 (Nat.pow_lt_pow_right (by norm_num) (by omega)), ?_⟩
        intro hh
        have := congrArg (Nat.testBit · (S.precision - 2)) hh
        simp only [Nat.testBit_or, Nat.testBit_two_pow] at this
        simp at this
        omega
      · refine ⟨?_, Nat.or_lt_two_pow hx.2 (Nat.pow_lt_pow_right (by norm_num) (by omega))⟩
        have := Nat.left_le_or (n := x.sig) (m := 2 ^ (S.precision - 2))
        omega
    · rw [hnf] at hx
      simp only at hx ⊢
      simp [hx]
  by_cases hs : x.isSignaling = true
  · rw [if_pos hs, if_pos hs]
    exact ⟨{ x with sig := x.sig ||| quietBit S }, rfl, hval _ rfl, hc, rfl, rfl⟩
  · rw [if_neg hs, if_neg hs]
    refine ⟨x, rfl, hx, hc, rfl, ?_⟩
    -- a quiet NaN already has the bit
    have hq : x.sig &&& S.qnanSignificand = S.qnanSignificand := by
      simp [isSignaling, hn] at hs
      exact hs
    have hqb : quietBit S &&& S.qnanSignificand = quietBit S := by
      unfold quietBit
      cases hnf : S.nonfinite
      · obtain ⟨h1, h2, ⟨h3, h4⟩ | ⟨h3, h4, h5⟩⟩ := h.ieee hnf
        · rw [h4]; simp
        · rw [h5, h4]; decide +kernel
      · simp
    have : quietBit S &&& x.sig = quietBit S := by
      calc quietBit S &&& x.sig = (quietBit S &&& S.qnanSignificand) &&& x.sig := by rw [hqb]
        _ = quietBit S &&& (x.sig &&& S.qnanSignificand) := by rw [Nat.and_assoc, Nat.and_comm x.sig]
        _ = _ := by rw [hq, hqb]
    apply Nat.eq_of_testBit_eq
    intro i
    rw [Nat.testBit_or]
    have := congrArg (Nat.testBit · i) this
    simp only [Nat.testBit_and] at this
    cases h1 : x.sig.testBit i <;> cases h2 : (quietBit S).testBit i <;> simp_all

/-- Propagation of the first NaN operand. -/
theorem binop_nan (h : S.OK) {x y : IeeeFloat S} (hx : x.Valid) (hy : y.Valid) (hn : x.category = .nan ∨ y.category = .nan) :
    ∃ r, binopResultFromEitherNan x y = .ok ⟨if x.isSignaling ∨ y.isSignaling then Status.INVALID_OP else Status.OK, r⟩ ∧
      r.Valid ∧ IsQuieted (if x.isNan then x else y) r := by
  have aux : ∀ z : IeeeFloat S, z.Valid → z.category = .nan → (z.isSignaling = true ∨ y.isSignaling = true ↔
      x.isSignaling = true ∨ y.isSignaling = true) →
      ∃ r, (do let sr ← resultFromNan z; if y.isSignaling then .ok { sr with status := sr.status ||| Status.INVALID_OP } else .ok sr :
        M (StatusAnd (IeeeFloat S))) = .ok ⟨if x.isSignaling ∨ y.isSignaling then Status.INVALID_OP else Status.OK, r⟩ ∧
      r.Valid ∧ IsQuieted z r := by
    intro z hz hc hs
    obtain ⟨r, r1, r2, r3⟩ := resultFromNan_ok h hz hc
    refine ⟨r, ?_, r2, r3⟩
    rw [r1, M.ok_bind]
    simp only [← hs]
    cases h1 : z.isSignaling <;> cases h2 : y.isSignaling <;> simp <;> rfl
  unfold binopResultFromEitherNan
  have hns : ∀ z : IeeeFloat S, z.category ≠ .nan → z.isSignaling = false := by
    intro z hz
    simp [isSignaling, isNan, hz]
  by_cases hcx : x.category = .nan
  · have : x.isNan = true := by simp [isNan, hcx]
    rw [hcx]
    simp only [M.ok_bind, this, if_true]
    exact aux x hx hcx Iff.rfl
  · have hcy : y.category = .nan := by tauto
    have : x.isNan = false := by simp [isNan, hcx]
    rw [hcy]
    have key := aux y hy hcy (by rw [hns x hcx]; simp)
    rw [this]
    cases h : x.category <;> simp only [M.ok_bind, Bool.false_eq_true, if_false] <;> first | exact key | exact absurd h hcx

/-- Quieted NaNs are quiet, in the formats whose quiet bit is the whole quiet pattern. -/
theorem IsQuieted.quiet (h : S.OK) {x r : IeeeFloat S} (hq : IsQuieted x r)
    (hi : S.explicitIntBit = true → x.sig.testBit (S.precision - 1) = true) : r.isSignaling = false := by
  obtain ⟨h1, h2, h3⟩ := hq
  unfold isSignaling
  rw [h3]
  have : (x.sig ||| quietBit S) &&& S.qnanSignificand = S.qnanSignificand := by
    unfold quietBit
    cases hnf : S.nonfinite
    · obtain ⟨g1, g2, ⟨g3, g4⟩ | ⟨g3, g4, g5⟩⟩ := h.ieee hnf
      · rw [g4, if_pos rfl]
        apply Nat.eq_of_testBit_eq
        intro i
        simp only [Nat.testBit_and, Nat.testBit_or]
        cases (2 ^ (S.precision - 2)).testBit i <;> simp
      · rw [g5, g4, if_pos rfl]
        have hi := hi g3
        rw [g4] at hi
        have hb : ∀ i, (3 * 2 ^ 62).testBit i = (decide (i = 62) || decide (i = 63)) := by
          intro i
          rw [show 3 * 2 ^ 62 = 2 ^ 62 ||| 2 ^ 63 by decide +kernel, Nat.testBit_or, Nat.testBit_two_pow, Nat.testBit_two_pow]
          congr 1 <;> simp [eq_comm]
        apply Nat.eq_of_testBit_eq
        intro i
        simp only [Nat.testBit_and, Nat.testBit_or, hb, Nat.testBit_two_pow]
        by_cases h62 : i = 62
        · subst h62; simp
        · by_cases h63 : i = 63
          · subst h63; simp [hi]
          · simp [h62, h63]
    · obtain ⟨g1, g2, g3, g4⟩ := h.nanOnly hnf
      rw [g3]; simp
  rw [this]
  simp

/-- In a format with infinities a rounded result is not a NaN. -/
theorem rounds_not_nan (hS : S.nonfinite = .ieee754) {mode : Round} {v : ℚ} {zs : Bool} {r : StatusAnd (IeeeFloat S)}
    (hr : Rounds S mode v zs r) : r.value.category ≠ .nan := by
  intro hc
  have hd : r.value.datum = .nan := by simp [datum, hc]
  obtain ⟨⟨g, hg, ⟨a, b, c⟩ | ⟨a, b⟩⟩, -⟩ := hr
  · rw [hd] at b; cases b
  · have b := (Prod.ext_iff.1 b).1
    simp only [hd] at b
    have hi : S.fmt.hasInf = true := fmt_hasInf_iff.2 hS
    rcases overflowed_cases S.fmt mode r.value.sign with e | e <;> rw [e] at b
    · simp [hi] at b
    · cases b

/-- The default NaN is quiet. -/
theorem nan_quiet : (NAN S).isSignaling = false := by
  unfold isSignaling NAN qnan
  simp only [Nat.or_zero]
  have : (S.nanSignificandBase ||| S.qnanSignificand) &&& S.qnanSignificand = S.qnanSignificand := by
    apply Nat.eq_of_testBit_eq
    intro i
    simp only [Nat.testBit_and, Nat.testBit_or]
    cases (S.qnanSignificand).testBit i <;> simp
  rw [this]; simp

end IeeeFloat
end Apf
