import Verif.Props.Rem
import Verif.Proof.Fma
/-! # C08 (and C09–C12): fused multiply-add

The full property — the theorem `C08_mul_add_partial` without the hypothesis `¬ FmaExcluded …` — is false of the code
(ieee.rs:1176-1197: the addend is shifted left without being normalized first, so a subnormal addend can be *smaller* than a product
of lower exponent, and `add_or_sub` then shifts significant bits of the larger operand out).  `C08_wrong_value`, `C08_wrong_zero` and
`C08_panic` are counterexamples.  -/

namespace Apf
open Spec IeeeFloat

variable {S : Sem}

/-- The product of finite operands one of which is zero. -/
theorem mulR_zero (h : S.OK) {x m : IeeeFloat S} (hx : x.Valid) (hm : m.Valid) (fx : x.isFinite = true) (fm : m.isFinite = true)
    (mode : Round) (hz : x.category = .zero ∨ m.category = .zero) :
    ∃ r, mulR x m mode = .ok ⟨Status.OK, r⟩ ∧ r.Valid ∧ r.category = .zero ∧ r.sign = xor x.sign m.sign := by
  have h0 : x.toRat * m.toRat = 0 := by
    rcases hz with c | c <;> rw [toRat_zero c] <;> simp
  obtain ⟨⟨st, r⟩, r1, r2, r3⟩ := mulR_finite h hx hm fx fm mode
    (directedOK_of_ge h mode (by rw [h0]; exact neg_nonpos.2 (largest_pos h).le))
  rw [h0] at r3
  have hc := category_of_delivers_zero h r2 r3.1
  have hst := (exact_of_zero h hc r3.1 ⟨0, by simp⟩).2
  simp only at hst
  subst hst
  exact ⟨r, r1, r2, hc, r3.2.2.2 rfl⟩

/-- The infinite product is a valid float. -/
theorem mulR_inf_valid (h : S.OK) {x m : IeeeFloat S} (hI : S.nonfinite = .ieee754) {mode : Round}
    (hinf : x.category = .infinity ∨ m.category = .infinity) (nx : x.category ≠ .nan) (nm : m.category ≠ .nan)
    {r : StatusAnd (IeeeFloat S)} (hs : r.status ≠ Status.INVALID_OP) (hr : mulR x m mode = .ok r) : r.value.Valid := by
  have hcat : (x.negateIf m.isNegative).category = x.category := by rw [negateIf_eq]
  have hv : ∀ s, ({ INFINITY S with sign := s } : IeeeFloat S).Valid := by
    intro s
    unfold INFINITY
    rw [hI]
    refine ⟨hI, ?_⟩
    show 0 < 2 ^ S.precision
    positivity
  unfold mulR at hr
  simp only [hcat] at hr
  cases cx : x.category <;> cases cy : m.category <;> simp only [cx, cy] at hr hinf nx nm <;> simp at hinf nx nm <;>
    injection hr with hr <;> subst hr <;> first
    | exact absurd rfl hs
    | (simp only [Status.and, copySign_eq]; exact hv _)

theorem mulAddR_normal {x m z : IeeeFloat S} (cx : x.category = .normal) (cm : m.category = .normal) (fz : z.isFinite = true)
    (mode : Round) : mulAddR x m z mode = fmaNormals x m z mode := by
  unfold mulAddR
  rw [isFiniteNonZero_of cx, isFiniteNonZero_of cm, fz]
  rfl

theorem mulAddR_special {x m z : IeeeFloat S} (hc : x.category ≠ .normal ∨ m.category ≠ .normal) (mode : Round) :
    mulAddR x m z mode = (do
      let r ← mulR x m mode
      if r.status = Status.OK then addR r.value z mode else .ok r) := by
  unfold mulAddR
  have hb : (x.isFiniteNonZero && m.isFiniteNonZero) = false := by
    rw [Bool.and_eq_false_iff]
    rcases hc with c | c
    · left; rw [Bool.eq_false_iff]; exact fun e => c ((isFiniteNonZero_iff x).1 e)
    · right; rw [Bool.eq_false_iff]; exact fun e => c ((isFiniteNonZero_iff m).1 e)
  have hb' : (!x.isFiniteNonZero || !m.isFiniteNonZero || !z.isFinite) = true := by
    cases h1 : x.isFiniteNonZero <;> cases h2 : m.isFiniteNonZero <;> simp [h1, h2] at hb ⊢
  rw [if_pos hb', if_neg (by rw [hb]; simp)]

/-- The fused multiply-add, in the mode the code effectively rounds in. -/
theorem mulAddR_eff (h : S.OK) {x m z : IeeeFloat S} (hx : x.Valid) (hm : m.Valid) (hz : z.Valid)
    (fx : x.isFinite = true) (fm : m.isFinite = true) (fz : z.isFinite = true) (mode : Round)
    {om : Round} (hO : Effective S mode (x.toRat * m.toRat + z.toRat) om) (hE : ¬ FmaExcluded S (x.toRat * m.toRat) z.toRat) :
    ∃ r, mulAddR x m z mode = .ok r ∧ r.value.Valid ∧
      Rounds S om (x.toRat * m.toRat + z.toRat) (zeroSum mode (xor x.sign m.sign) z.sign) r := by
  by_cases hc : x.category = .normal ∧ m.category = .normal
  · rw [mulAddR_normal hc.1 hc.2 fz]
    exact fmaNormals_eff h hx hm hz hc.1 hc.2 fz mode hO hE
  · have hzero : x.category = .zero ∨ m.category = .zero := by
      rcases isFinite_iff.1 fx with c | c
      · rcases isFinite_iff.1 fm with c' | c'
        · exact absurd ⟨c, c'⟩ hc
        · exact Or.inr c'
      · exact Or.inl c
    have h0 : x.toRat * m.toRat = 0 := by
      rcases hzero with c | c <;> rw [toRat_zero c] <;> simp
    obtain ⟨p, p1, p2, p3, p4⟩ := mulR_zero h hx hm fx fm mode hzero
    rw [mulAddR_special (by rcases hzero with c | c <;> simp [c]), p1, M.ok_bind, if_pos rfl]
    have := addR_eff h p2 hz (isFinite_iff.2 (Or.inr p3)) fz mode (by rw [toRat_zero p3, ← h0]; exact hO)
    rw [toRat_zero p3, p4, ← h0] at this
    exact this

/-- **C08** (partial: without the operands `FmaExcluded` describes, on which the code is wrong). The fused multiply-add of
finite operands delivers the single correct rounding of `x * m + z`, with the prescribed flags and sign. -/
theorem C08_mul_add_partial (h : S.OK) {x m z : IeeeFloat S} (hx : x.Valid) (hm : m.Valid) (hz : z.Valid)
    (fx : x.isFinite = true) (fm : m.isFinite = true) (fz : z.isFinite = true) (mode : Round)
    (hO : DirectedOK S mode (x.toRat * m.toRat + z.toRat)) (hE : ¬ FmaExcluded S (x.toRat * m.toRat) z.toRat) :
    ∃ r, mulAddR x m z mode = .ok r ∧ r.value.Valid ∧
      Rounds S mode (x.toRat * m.toRat + z.toRat) (zeroSum mode (xor x.sign m.sign) z.sign) r :=
  mulAddR_eff h hx hm hz fx fm fz mode (.of hO) hE

/-- Operands for which the theorem has no exclusion: an addend that is zero, normal, or of the sign of the product. -/
theorem fma_not_excluded {P z : ℚ} (hc : 0 ≤ P * z ∨ 2 ^ S.minExp ≤ |z|) : ¬ FmaExcluded S P z := by
  rintro ⟨h1, h2, -, -⟩
  rcases hc with c | c
  · exact absurd h1 (not_lt.2 c)
  · exact absurd h2 (not_lt.2 c)

/-- Or a product that is a multiple of `2^(minExp - 2p)`; every product whose factors' exponents add up to at least `minExp - 2`
is one. -/
theorem fma_not_excluded_of_exp {x m : IeeeFloat S} (cx : x.category = .normal) (cm : m.category = .normal)
    (he : S.minExp - 2 ≤ x.exp + m.exp) (z : ℚ) : ¬ FmaExcluded S (x.toRat * m.toRat) z := by
  rintro ⟨-, -, -, h⟩
  apply h
  obtain ⟨k, hk⟩ : ∃ k : ℕ, x.exp + m.exp + 2 - S.minExp = k := ⟨(x.exp + m.exp + 2 - S.minExp).toNat, by omega⟩
  refine ⟨(if x.sign then -1 else 1) * (if m.sign then -1 else 1) * (x.sig * m.sig * 2 ^ k : ℕ), ?_⟩
  have e : (2 : ℚ) ^ k * 2 ^ (S.minExp - 2 * S.precision) = 2 ^ (x.exp - S.precision + 1) * 2 ^ (m.exp - S.precision + 1) := by
    rw [← zpow_natCast, ← two_zpow_add, ← two_zpow_add]; congr 1; omega
  rw [toRat_normal cx, toRat_normal cm]
  have hs : ∀ (s : Bool) (q : ℚ), signed s q = (if s then -1 else 1) * q := by intro s q; cases s <;> simp [signed]
  rw [hs, hs]
  push_cast
  linear_combination (-1 : ℚ) * ((if x.sign then -1 else 1) * (if m.sign then -1 else 1) * (x.sig * m.sig)) * e

/-! ### Counterexamples -/

/-- A positive or negative number of `Half` in the binade of `2^e`. -/
def hf (sig : Nat) (e : Int) (neg : Bool) : IeeeFloat halfS := ⟨sig, e, .normal, neg⟩

theorem hf_toRat (sig : Nat) (e : Int) (neg : Bool) : (hf sig e neg).toRat = signed neg (sig * 2 ^ (e - 10)) := by
  rw [toRat_normal rfl]
  have : (halfS.precision : ℤ) = 11 := rfl
  simp only [hf, this]
  congr 3; ring

/-- A finite result that is not the nearest representable number. -/
theorem not_rounds_of_closer {mode : Round} (hm : mode = .nearestTiesToEven ∨ mode = .nearestTiesToAway) {v : ℚ} {zs : Bool}
    {r : StatusAnd (IeeeFloat S)} (hf : r.value.isFinite = true) {g : ℚ} (hg : S.fmt.Grid g) (hc : |v - g| < |v - r.value.toRat|) :
    ¬ Rounds S mode v zs r := by
  rintro ⟨⟨q, q1, ⟨-, q2, -⟩ | ⟨-, q2⟩⟩, -⟩
  · rw [datum_finite hf] at q2
    injection q2 with _ q2
    subst q2
    rcases hm with rfl | rfl
    · exact absurd (q1.2.1 g hg) (not_le.2 hc)
    · exact absurd (q1.2.1 g hg) (not_le.2 hc)
  · have q2 := (Prod.ext_iff.1 q2).1
    rw [datum_finite hf] at q2
    rcases hm with rfl | rfl <;> simp only [overflowed, if_true] at q2 <;> split_ifs at q2

theorem half_minExp : halfS.fmt.emin - halfS.fmt.p + 1 = -24 := by decide

/-- **C08** (violated). In `Half`, `x * m + z` with `x = 1225·2^-22`, `m = 1284·2^-22` and `z = -2^-24` is `524324·2^-44`, a little more
than half of the smallest subnormal `2^-24`; to nearest it must round to `2^-24`.  The code delivers zero. -/
theorem C08_wrong_value :
    (hf 1225 (-12) false).Valid ∧ (hf 1284 (-12) false).Valid ∧ (hf 1 (-14) true).Valid ∧
    ∃ r, mulAddR (hf 1225 (-12) false) (hf 1284 (-12) false) (hf 1 (-14) true) .nearestTiesToEven = .ok r ∧ r.value.toRat = 0 ∧
      ¬ Rounds halfS .nearestTiesToEven
          ((hf 1225 (-12) false).toRat * (hf 1284 (-12) false).toRat + (hf 1 (-14) true).toRat) false r := by
  refine ⟨by decide, by decide, by decide, ⟨{ underflow := true, inexact := true }, ⟨0, -15, .zero, false⟩⟩, by decide +kernel, rfl, ?_⟩
  apply not_rounds_of_closer (Or.inl rfl) rfl (g := 2 ^ (-24 : ℤ))
  · exact ⟨1, -24, by norm_num [Sem.fmt, halfS, Sem.default], by rw [half_minExp], by norm_num⟩
  · rw [toRat_zero (x := (⟨0, -15, .zero, false⟩ : IeeeFloat halfS)) rfl]
    simp only [hf_toRat, signed]
    norm_num [abs_lt, lt_abs]

/-- **C08** (violated). In `Half`, `x = 1059·2^-22`, `m = 1980·2^-23` and `z = -2^-24`: the exact result `-332·2^-45` is 6000 times
smaller than the smallest subnormal and must round to zero.  The code delivers `-2^-24`. -/
theorem C08_wrong_zero :
    (hf 1059 (-12) false).Valid ∧ (hf 1980 (-13) false).Valid ∧ (hf 1 (-14) true).Valid ∧
    ∃ r, mulAddR (hf 1059 (-12) false) (hf 1980 (-13) false) (hf 1 (-14) true) .nearestTiesToEven = .ok r ∧
      r.value.toRat = -2 ^ (-24 : ℤ) ∧
      ¬ Rounds halfS .nearestTiesToEven
          ((hf 1059 (-12) false).toRat * (hf 1980 (-13) false).toRat + (hf 1 (-14) true).toRat) false r := by
  have e : (⟨1, -14, .normal, true⟩ : IeeeFloat halfS).toRat = -2 ^ (-24 : ℤ) := by
    have := hf_toRat 1 (-14) true
    unfold hf at this
    rw [this]; norm_num [signed]
  refine ⟨by decide, by decide, by decide, ⟨{ underflow := true, inexact := true }, ⟨1, -14, .normal, true⟩⟩, by decide +kernel, e, ?_⟩
  apply not_rounds_of_closer (Or.inl rfl) rfl (g := 0) grid_zero
  rw [e]
  simp only [hf_toRat, signed]
  norm_num [abs_lt, lt_abs]

/-- **C08** (violated). In `Half`, `mul_add(1044·2^-22, 2009·2^-23, -2^-24)` panics: the debug assertion of `add_or_sub` that the
subtraction does not borrow (ieee.rs:2661 and 2668) fails. -/
theorem C08_panic :
    (hf 1044 (-12) false).Valid ∧ (hf 2009 (-13) false).Valid ∧ (hf 1 (-14) true).Valid ∧
    mulAddR (hf 1044 (-12) false) (hf 2009 (-13) false) (hf 1 (-14) true) .nearestTiesToEven = .error .assert := by
  decide +kernel

/-! ### C09, C10, C11 -/

/-- **C09** (fused multiply-add). An exact zero result is a zero of the prescribed sign, with status `OK` — without exception:
an exact zero is never among the excluded operands that go wrong. -/
theorem C09_mul_add_zero_sign (h : S.OK) {x m z : IeeeFloat S} (hx : x.Valid) (hm : m.Valid) (hz : z.Valid)
    (fx : x.isFinite = true) (fm : m.isFinite = true) (fz : z.isFinite = true) (mode : Round)
    (h0 : x.toRat * m.toRat + z.toRat = 0) :
    ∃ r, mulAddR x m z mode = .ok r ∧ r.value.category = .zero ∧ r.status = Status.OK ∧
      r.value.sign = (if xor x.sign m.sign = z.sign then z.sign else decide (mode = .towardNegative)) := by
  have hp := h.p_ge
  have hE : ¬ FmaExcluded S (x.toRat * m.toRat) z.toRat := by
    rintro ⟨-, -, -, hh⟩
    apply hh
    obtain ⟨k, hk⟩ := (finite_toRat h hz fz).1.unit
    refine ⟨-k * 2 ^ (S.precision + 1), ?_⟩
    have e : (2 : ℚ) ^ (S.precision + 1) * 2 ^ (S.minExp - 2 * S.precision) = 2 ^ (S.fmt.emin - S.fmt.p + 1) := by
      rw [← zpow_natCast, ← two_zpow_add]; congr 1; simp only [fmt_emin, fmt_p]; push_cast; ring
    have : x.toRat * m.toRat = -z.toRat := by linarith
    rw [this, hk, ← e]
    push_cast; ring
  obtain ⟨r, h1, h2, h3⟩ := C08_mul_add_partial h hx hm hz fx fm fz mode
    (directedOK_of_ge h mode (by rw [h0]; exact neg_nonpos.2 (largest_pos h).le)) hE
  rw [h0] at h3
  have hc := category_of_delivers_zero h h2 h3.1
  refine ⟨r, h1, hc, (exact_of_zero h hc h3.1 ⟨0, by simp⟩).2, ?_⟩
  rw [h3.2.2.2 rfl]
  unfold zeroSum
  split_ifs with c
  · exact c
  · rfl

example := C09_mul_add_zero_sign singleS_ok (x := ex15) (m := exM3) (z := ⟨9 * 2 ^ 20, 2, .normal, false⟩) ex15_valid exM3_valid (by decide) rfl rfl rfl .towardNegative
  (by decide +kernel)

/-- **C10** (fused multiply-add). `inf * 0` is invalid whatever the addend; an infinite product plus an infinity of the opposite sign is
invalid; otherwise an infinite product or an infinite addend is the result, exactly. -/
theorem C10_mul_add_inf {x m z : IeeeFloat S} (h : S.OK) (hx : x.Valid) (hm : m.Valid) (mode : Round)
    (nx : x.category ≠ .nan) (nm : m.category ≠ .nan) :
    ((x.category = .infinity ∧ m.category = .zero ∨ x.category = .zero ∧ m.category = .infinity) →
      ∃ r, mulAddR x m z mode = .ok r ∧ IsInvalid r) ∧
    ((x.category = .infinity ∧ m.category ≠ .zero ∨ m.category = .infinity ∧ x.category ≠ .zero) → z.category ≠ .nan →
      ∃ r, mulAddR x m z mode = .ok r ∧
        (z.category = .infinity ∧ z.sign ≠ xor x.sign m.sign → IsInvalid r) ∧
        (¬ (z.category = .infinity ∧ z.sign ≠ xor x.sign m.sign) →
          r.status = Status.OK ∧ r.value.category = .infinity ∧ r.value.sign = xor x.sign m.sign)) ∧
    (x.isFinite = true → m.isFinite = true → z.category = .infinity → mulAddR x m z mode = .ok ⟨Status.OK, z⟩) := by
  refine ⟨?_, ?_, ?_⟩
  · intro hc
    obtain ⟨r, r1, r2, -⟩ := C10_mul_inf hx hm mode nx nm (by tauto)
    have hi := r2 (by tauto)
    refine ⟨r, ?_, hi⟩
    rw [mulAddR_special (by rcases hc with c | c <;> simp [c.1]), r1, M.ok_bind, if_neg]
    rw [hi.1]; decide
  · intro hc nz
    obtain ⟨p, p1, -, p2⟩ := C10_mul_inf hx hm mode nx nm (by tauto)
    obtain ⟨q1, q2, q3⟩ := p2 (by rcases hc with c | c; · rw [c.1]; simp
                                  · exact c.2) (by rcases hc with c | c; · exact c.2
                                                   · rw [c.1]; simp)
    rw [mulAddR_special (by rcases hc with c | c <;> simp [c.1]), p1, M.ok_bind, if_pos q1]
    by_cases cz : z.category = .infinity
    · obtain ⟨r, r1, r2, r3⟩ := C10_add_inf_inf q2 cz mode
      refine ⟨r, r1, fun hh => r2 (by rw [q3]; exact fun e => hh.2 e.symm), fun hh => ?_⟩
      rw [r3 (by rw [q3]; by_contra hne; exact hh ⟨cz, fun e => hne e.symm⟩)]
      exact ⟨rfl, q2, q3⟩
    · have fz : z.isFinite = true := by
        cases hh : z.category <;> simp [hh] at cz nz <;> simp [isFinite, isNan, isInfinite, hh]
      refine ⟨_, (C10_add_inf_finite mode).1 q2 fz, fun hh => absurd hh.1 cz, fun _ => ⟨rfl, q2, q3⟩⟩
  · intro fx fm cz
    by_cases hc : x.category = .normal ∧ m.category = .normal
    · unfold mulAddR
      have hz : z.isFinite = false := by simp [isFinite, isNan, isInfinite, cz]
      rw [isFiniteNonZero_of hc.1, isFiniteNonZero_of hc.2, hz]
      rw [if_pos (by decide), if_pos (by decide), massert_pos rfl, M.ok_bind]
      exact (C10_add_inf_finite mode).2 fx cz
    · have hzero : x.category = .zero ∨ m.category = .zero := by
        rcases isFinite_iff.1 fx with c | c
        · rcases isFinite_iff.1 fm with c' | c'
          · exact absurd ⟨c, c'⟩ hc
          · exact Or.inr c'
        · exact Or.inl c
      obtain ⟨p, p1, p2, p3, p4⟩ := mulR_zero h hx hm fx fm mode hzero
      rw [mulAddR_special (by rcases hzero with c | c <;> simp [c]), p1, M.ok_bind, if_pos rfl]
      exact (C10_add_inf_finite mode).2 (isFinite_iff.2 (Or.inr p3)) cz

example := C10_mul_add_inf (x := INFINITY singleS) (m := ZERO singleS) (z := ex15) singleS_ok (by decide) (by decide) .towardZero (by decide) (by decide)

theorem IsQuieted.trans {x y z : IeeeFloat S} (h : IsQuieted x y) (h' : IsQuieted y z) : IsQuieted x z := by
  obtain ⟨-, a2, a3⟩ := h
  obtain ⟨b1, b2, b3⟩ := h'
  refine ⟨b1, by rw [b2, a2], ?_⟩
  rw [b3, a3, Nat.or_assoc, Nat.or_self]

theorem not_signaling {x : IeeeFloat S} (hc : x.category ≠ .nan) : x.isSignaling = false := by
  simp [isSignaling, isNan, hc]

/-- A quieted NaN that was quiet is the NaN itself, up to the (meaningless) exponent. -/
theorem IsQuieted.signaling_of_quiet {x r : IeeeFloat S} (h : IsQuieted x r) (hx : x.isSignaling = false)
    (hc : x.category = .nan) : r.isSignaling = false := by
  obtain ⟨h1, h2, h3⟩ := h
  have e1 : x.isNan = true := by simp [isNan, hc]
  have e2 : r.isNan = true := by simp [isNan, h1]
  unfold isSignaling at hx ⊢
  rw [e1] at hx
  rw [e2, h3]
  simp only [Bool.true_and, bne_eq_false_iff_eq, decide_eq_false_iff_not, ne_eq, not_not] at hx ⊢
  apply Nat.eq_of_testBit_eq
  intro i
  have := congrArg (Nat.testBit · i) hx
  simp only [Nat.testBit_and] at this
  simp only [Nat.testBit_and, Nat.testBit_or]
  cases h1 : x.sig.testBit i <;> cases h2 : S.qnanSignificand.testBit i <;> simp_all

/-- **C11** (fused multiply-add). With a NaN operand — and no invalid product `inf * 0` before it (C10) — the result is the first NaN
among `x`, `m`, `z`, quieted; the flags are `INVALID_OP` exactly when one of the operands is signaling. -/
theorem C11_mul_add_nan (h : S.OK) {x m z : IeeeFloat S} (hx : x.Valid) (hm : m.Valid) (hz : z.Valid) (mode : Round)
    (hn : x.category = .nan ∨ m.category = .nan ∨ z.category = .nan)
    (hi : ¬ (x.category = .infinity ∧ m.category = .zero ∨ x.category = .zero ∧ m.category = .infinity)) :
    ∃ r, mulAddR x m z mode = .ok r ∧ r.value.Valid ∧
      IsQuieted (if x.category = .nan then x else if m.category = .nan then m else z) r.value ∧
      r.status = if x.isSignaling ∨ m.isSignaling ∨ z.isSignaling then Status.INVALID_OP else Status.OK := by
  by_cases hp : x.category = .nan ∨ m.category = .nan
  · obtain ⟨p, ⟨-, -, p1, -⟩, p2, p3, p4⟩ := C11_nan_propagation h hx hm mode hp
    have hq : IsQuieted (if x.category = .nan then x else if m.category = .nan then m else z) p.value := by
      by_cases hxn : x.category = .nan
      · rw [if_pos hxn] at p3 ⊢; exact p3
      · rw [if_neg hxn] at p3 ⊢; rw [if_pos (by tauto)]; exact p3
    rw [mulAddR_special (by rcases hp with c | c <;> simp [c]), p1, M.ok_bind]
    by_cases hs : x.isSignaling = true ∨ m.isSignaling = true
    · rw [if_pos hs] at p4
      rw [if_neg (by rw [p4]; decide)]
      refine ⟨p, rfl, p2, hq, ?_⟩
      rw [p4, if_pos (by tauto)]
    · rw [if_neg hs] at p4
      rw [if_pos p4]
      obtain ⟨r, ⟨r1, -⟩, r2, r3, r4⟩ := C11_nan_propagation h p2 hz mode (Or.inl p3.1)
      rw [if_pos p3.1] at r3
      refine ⟨r, r1, r2, IsQuieted.trans hq r3, ?_⟩
      have hps : p.value.isSignaling = false := by
        by_cases hxn : x.category = .nan
        · rw [if_pos hxn] at p3
          exact IsQuieted.signaling_of_quiet p3 (by simpa using fun e => hs (Or.inl e)) hxn
        · rw [if_neg hxn] at p3
          exact IsQuieted.signaling_of_quiet p3 (by simpa using fun e => hs (Or.inr e)) (by tauto)
      rw [r4, hps]
      have e1 : x.isSignaling = false := by simpa using fun e => hs (Or.inl e)
      have e2 : m.isSignaling = false := by simpa using fun e => hs (Or.inr e)
      rw [e1, e2]; simp
  · have nx : x.category ≠ .nan := fun e => hp (Or.inl e)
    have nm : m.category ≠ .nan := fun e => hp (Or.inr e)
    have cz : z.category = .nan := by tauto
    rw [if_neg nx, if_neg nm, not_signaling nx, not_signaling nm]
    have key : ∀ p : IeeeFloat S, p.Valid → p.category ≠ .nan → ∃ r, addR p z mode = .ok r ∧ r.value.Valid ∧ IsQuieted z r.value ∧
        r.status = if z.isSignaling then Status.INVALID_OP else Status.OK := by
      intro p hpv np
      obtain ⟨r, ⟨r1, -⟩, r2, r3, r4⟩ := C11_nan_propagation h hpv hz mode (Or.inr cz)
      rw [if_neg np] at r3
      rw [not_signaling np] at r4
      exact ⟨r, r1, r2, r3, by simpa using r4⟩
    simp only [Bool.false_eq_true, false_or]
    by_cases hc : x.category = .normal ∧ m.category = .normal
    · unfold mulAddR
      have hzf : z.isFinite = false := by simp [isFinite, isNan, isInfinite, cz]
      rw [isFiniteNonZero_of hc.1, isFiniteNonZero_of hc.2, hzf]
      rw [if_pos (by decide), if_pos (by decide), massert_pos rfl, M.ok_bind]
      exact key x hx nx
    · rw [mulAddR_special (by by_contra hh; push Not at hh; exact hc hh)]
      by_cases hinf : x.category = .infinity ∨ m.category = .infinity
      · obtain ⟨p, p1, -, p2⟩ := C10_mul_inf hx hm mode nx nm hinf
        obtain ⟨q1, q2, q3⟩ := p2 (by intro e; rcases hinf with c | c
                                      · rw [c] at e; cases e
                                      · exact hi (Or.inr ⟨e, c⟩))
          (by intro e; rcases hinf with c | c
              · exact hi (Or.inl ⟨c, e⟩)
              · rw [c] at e; cases e)
        rw [p1, M.ok_bind, if_pos q1]
        refine key _ ?_ (by rw [q2]; simp)
        have hI : S.nonfinite = .ieee754 := by
          rcases hinf with c | c
          · simp only [Valid, c] at hx; exact hx.1
          · simp only [Valid, c] at hm; exact hm.1
        exact mulR_inf_valid h hI hinf nx nm (by intro e; rw [q1] at e; cases e) p1
      · have fx : x.isFinite = true := by
          cases hh : x.category <;> simp [hh] at hinf nx <;> simp [isFinite, isNan, isInfinite, hh]
        have fm : m.isFinite = true := by
          cases hh : m.category <;> simp [hh] at hinf nm <;> simp [isFinite, isNan, isInfinite, hh]
        have hzero : x.category = .zero ∨ m.category = .zero := by
          rcases isFinite_iff.1 fx with c | c
          · rcases isFinite_iff.1 fm with c' | c'
            · exact absurd ⟨c, c'⟩ hc
            · exact Or.inr c'
          · exact Or.inl c
        obtain ⟨p, p1, p2, p3, p4⟩ := mulR_zero h hx hm fx fm mode hzero
        rw [p1, M.ok_bind, if_pos rfl]
        exact key p p2 (by rw [p3]; simp)

example := C11_mul_add_nan singleS_ok (x := ex15) (m := exM3) (z := ⟨5, 128, .nan, false⟩) ex15_valid exM3_valid (by decide) .towardZero (by decide) (by decide)

/-! ### C12, operation by operation -/

/-- Flag discipline of a result whose exact value is `v`. -/
def Disciplined (v : ℚ) (st : Status) (x : IeeeFloat S) : Prop :=
  (st.overflow = true → st.inexact = true) ∧ (st.underflow = true → st.inexact = true) ∧
  st.invalidOp = false ∧ st.divByZero = false ∧ (st = Status.OK ↔ x.isFinite = true ∧ x.toRat = v)

theorem disciplined (h : S.OK) {mode : Round} {v : ℚ} {zs : Bool} {r : StatusAnd (IeeeFloat S)} (hr : Rounds S mode v zs r) :
    Disciplined v r.status r.value :=
  let t := C12_status_discipline h hr
  ⟨t.1, t.2.1, t.2.2.1, t.2.2.2.1, t.2.2.2.2.1⟩

/-- **C12.** The operations on finite operands (fused multiply-add where it is correctly rounded, see C08). -/
theorem C12_operations {T : Sem} (h : S.OK) (hT : T.OK) {x y z : IeeeFloat S} (hx : x.Valid) (hy : y.Valid) (hz : z.Valid)
    (fx : x.isFinite = true) (fy : y.isFinite = true) (fz : z.isFinite = true) (mode : Round) :
    (∃ r, addR x y mode = .ok r ∧ Disciplined (x.toRat + y.toRat) r.status r.value) ∧
    (∃ r, subR x y mode = .ok r ∧ Disciplined (x.toRat - y.toRat) r.status r.value) ∧
    (∃ r, mulR x y mode = .ok r ∧ Disciplined (x.toRat * y.toRat) r.status r.value) ∧
    (y.toRat ≠ 0 → ∃ r, divR x y mode = .ok r ∧ Disciplined (x.toRat / y.toRat) r.status r.value) ∧
    (¬ FmaExcluded S (x.toRat * y.toRat) z.toRat →
      ∃ r, mulAddR x y z mode = .ok r ∧ Disciplined (x.toRat * y.toRat + z.toRat) r.status r.value) ∧
    (∀ n : ℕ, n < 2 ^ 128 → ∃ r, fromU128R S n mode = .ok r ∧ Disciplined (n : ℚ) r.status r.value) ∧
    (∃ c, convertR S T x mode = .ok c ∧ Disciplined x.toRat c.status c.value) := by
  refine ⟨?_, ?_, ?_, fun hy0 => ?_, fun e => ?_, fun n hn => ?_, ?_⟩
  · obtain ⟨om, o⟩ := exists_effective S mode (x.toRat + y.toRat)
    obtain ⟨r, r1, -, r3⟩ := addR_eff h hx hy fx fy mode o; exact ⟨r, r1, disciplined h r3⟩
  · obtain ⟨om, o⟩ := exists_effective S mode (x.toRat - y.toRat)
    obtain ⟨r, r1, -, r3⟩ := subR_eff h hx hy fx fy mode o; exact ⟨r, r1, disciplined h r3⟩
  · obtain ⟨om, o⟩ := exists_effective S mode (x.toRat * y.toRat)
    obtain ⟨r, r1, -, r3⟩ := mulR_eff h hx hy fx fy mode o; exact ⟨r, r1, disciplined h r3⟩
  · obtain ⟨om, o⟩ := exists_effective S mode (x.toRat / y.toRat)
    obtain ⟨r, r1, -, r3⟩ := divR_eff h hx hy fx fy hy0 mode o; exact ⟨r, r1, disciplined h r3⟩
  · obtain ⟨om, o⟩ := exists_effective S mode (x.toRat * y.toRat + z.toRat)
    obtain ⟨r, r1, -, r3⟩ := mulAddR_eff h hx hy hz fx fy fz mode o e; exact ⟨r, r1, disciplined h r3⟩
  · obtain ⟨r, r1, -, r3⟩ := C17_from_u128 h hn mode; exact ⟨r, r1, disciplined h r3⟩
  · obtain ⟨om, o⟩ := exists_effective T mode x.toRat
    obtain ⟨c, c1, -, -, c3⟩ := convertR_eff h hT hx fx mode o; exact ⟨c, c1, disciplined hT c3⟩

/-! The hypotheses hold of `1.5 * -3.0 + 1.5` in `Single`, where nothing is excluded. -/
example : ∃ r, mulAddR ex15 exM3 ex15 .towardPositive = .ok r ∧ r.value.Valid ∧
    Rounds singleS .towardPositive (ex15.toRat * exM3.toRat + ex15.toRat) false r :=
  C08_mul_add_partial singleS_ok ex15_valid exM3_valid ex15_valid rfl rfl rfl _ (directedOK_of_ieee rfl _ _)
    (fma_not_excluded_of_exp rfl rfl (by decide) _)
/-- ... nor for a subnormal addend of the other sign, here `-2^-149`. -/
example : ∃ r, mulAddR ex15 ex15 ⟨1, -126, .normal, true⟩ .towardZero = .ok r ∧ r.value.Valid ∧
    Rounds singleS .towardZero (ex15.toRat * ex15.toRat + (⟨1, -126, .normal, true⟩ : IeeeFloat singleS).toRat) false r :=
  C08_mul_add_partial singleS_ok ex15_valid ex15_valid (by decide) rfl rfl rfl _ (directedOK_of_ieee rfl _ _)
    (fma_not_excluded_of_exp rfl rfl (by decide) _)

end Apf
