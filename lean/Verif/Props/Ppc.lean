import Verif.Proof.Ppc
/-!
# C41 – C44, C49: the two parts of a DoubleDouble

`DoubleDouble` is `DoubleFloat doubleS`; `doubleS_pair` and `doubleS_enc` discharge the hypotheses on the format.
-/

namespace Apf
open Spec IeeeFloat
variable {S : Sem}

/-! ## C41: bits -/

theorem fromBits_pair (hb : 2 * S.bits ≤ 128) (h1 : 1 ≤ S.bits) {b : ℕ} (hlt : b < 2 ^ (2 * S.bits)) :
    DoubleFloat.fromBits S b = (do
      let h ← IeeeFloat.fromBits S (b % 2 ^ S.bits)
      let l ← IeeeFloat.fromBits S (b / 2 ^ S.bits)
      .ok ⟨h, l⟩) := by
  unfold DoubleFloat.fromBits
  have e1 : 1 * 2 ^ S.bits % 2 ^ 128 = 2 ^ S.bits := by
    rw [one_mul, Nat.mod_eq_of_lt]
    exact Nat.pow_lt_pow_right (by norm_num) (by omega)
  have e2 : b / 2 ^ S.bits < 2 ^ S.bits := by
    rw [Nat.div_lt_iff_lt_mul (by positivity), ← pow_add]
    refine hlt.trans_le (le_of_eq ?_)
    congr 1; omega
  rw [shr_ok (by omega), shl_ok (by omega), e1]
  simp only [M.ok_bind]
  rw [Nat.and_two_pow_sub_one_eq_mod, Nat.and_two_pow_sub_one_eq_mod, Nat.mod_eq_of_lt e2]

/-- **C41.** The low half of a bit pattern is the pattern of the high-order part, the high half that of the low-order part;
encoding gives the pattern back, for every pattern. -/
theorem C41_bits_round_trip (h : S.Enc) (hx : S.explicitIntBit = false) (hb : 2 * S.bits ≤ 128) {b : ℕ} (hlt : b < 2 ^ (2 * S.bits)) :
    ∃ x, DoubleFloat.fromBits S b = .ok x ∧ x.Valid ∧ x.toBits = .ok b ∧
      x.hi.datum = decode S.style S.expBits S.sigBits (b % 2 ^ S.bits) ∧
      x.lo.datum = decode S.style S.expBits S.sigBits (b / 2 ^ S.bits) := by
  have h1 : 1 ≤ S.bits := by have := h.bits_eq; omega
  have e2 : b / 2 ^ S.bits < 2 ^ S.bits := by
    rw [Nat.div_lt_iff_lt_mul (by positivity), ← pow_add]
    refine hlt.trans_le (le_of_eq ?_)
    congr 1; omega
  have e3 : b % 2 ^ S.bits < 2 ^ S.bits := Nat.mod_lt _ (by positivity)
  obtain ⟨u, u1, u2⟩ := C01_bits_round_trip_all h hx e3
  obtain ⟨v, v1, v2⟩ := C01_bits_round_trip_all h hx e2
  obtain ⟨u', u3, u4, u5, -⟩ := C02_from_bits_decodes h e3
  obtain ⟨v', v3, v4, v5, -⟩ := C02_from_bits_decodes h e2
  rw [u1] at u3; cases u3
  rw [v1] at v3; cases v3
  refine ⟨⟨u, v⟩, ?_, ⟨u4, v4⟩, ?_, u5, v5⟩
  · rw [fromBits_pair hb h1 hlt, u1, v1]; rfl
  · unfold DoubleFloat.toBits
    rw [u2, v2]
    simp only [M.ok_bind]
    rw [shl_ok (by omega)]
    simp only [M.ok_bind]
    have hm : b / 2 ^ S.bits * 2 ^ S.bits % 2 ^ 128 = b / 2 ^ S.bits * 2 ^ S.bits := by
      apply Nat.mod_eq_of_lt
      calc _ ≤ b := Nat.div_mul_le_self _ _
        _ < _ := hlt
        _ ≤ _ := Nat.pow_le_pow_right (by norm_num) hb
    rw [hm, Nat.or_comm, Nat.mul_comm, ← Nat.two_pow_add_eq_or_of_lt e3, Nat.div_add_mod]

example := C41_bits_round_trip doubleS_enc rfl (by decide) (b := 2 ^ 127 + 2 ^ 62) (by decide)

/-- **C41** for DoubleDouble: every 128-bit pattern. -/
theorem C41_double_double {b : ℕ} (hb : b < 2 ^ 128) : ∃ x : DoubleDouble, DoubleFloat.fromBits doubleS b = .ok x ∧ x.toBits = .ok b := by
  obtain ⟨x, h1, -, h2, -⟩ := C41_bits_round_trip doubleS_enc rfl (by decide) (b := b) hb
  exact ⟨x, h1, h2⟩

example := C41_double_double (b := 2 ^ 127 + 2 ^ 62) (by decide)

/-- **C41.** `bitwise_eq` is equality of the bits. -/
theorem C41_bitwise_eq (h : S.Enc) (hb : 2 * S.bits ≤ 128) {x y : DoubleFloat S} (hx : x.Valid) (hy : y.Valid) :
    ∃ a b, x.toBits = .ok a ∧ y.toBits = .ok b ∧ (x.bitwiseEq y = true ↔ a = b) := by
  have h1 : 1 ≤ S.bits := by have := h.bits_eq; omega
  obtain ⟨a, -, a1, a2, -⟩ := C03_value_round_trip h hx.1
  obtain ⟨b, -, b1, b2, -⟩ := C03_value_round_trip h hx.2
  obtain ⟨c, -, c1, c2, -⟩ := C03_value_round_trip h hy.1
  obtain ⟨d, -, d1, d2, -⟩ := C03_value_round_trip h hy.2
  have key : ∀ {n : ℕ}, n < 2 ^ S.bits → n * 2 ^ S.bits % 2 ^ 128 = n * 2 ^ S.bits := by
    intro n hn
    apply Nat.mod_eq_of_lt
    calc n * 2 ^ S.bits < 2 ^ S.bits * 2 ^ S.bits := Nat.mul_lt_mul_of_pos_right hn (by positivity)
      _ = 2 ^ (2 * S.bits) := by rw [← pow_add]; congr 1; omega
      _ ≤ _ := Nat.pow_le_pow_right (by norm_num) hb
  have enc : ∀ {z : DoubleFloat S} {p q : ℕ}, z.hi.toBits = .ok p → z.lo.toBits = .ok q → p < 2 ^ S.bits → q < 2 ^ S.bits →
      z.toBits = .ok (q * 2 ^ S.bits + p) := by
    intro z p q h1' h2 h3 h4
    unfold DoubleFloat.toBits
    rw [h1', h2]
    simp only [M.ok_bind]
    rw [shl_ok (by omega)]
    simp only [M.ok_bind]
    rw [key h4, Nat.or_comm, Nat.mul_comm, ← Nat.two_pow_add_eq_or_of_lt h3]
  refine ⟨_, _, enc a1 b1 a2 b2, enc c1 d1 c2 d2, ?_⟩
  unfold DoubleFloat.bitwiseEq
  rw [Bool.and_eq_true, C03_bitwise_eq_iff_bits h hx.1 hy.1, C03_bitwise_eq_iff_bits h hx.2 hy.2, a1, b1, c1, d1]
  simp only [Except.ok.injEq]
  constructor
  · rintro ⟨e1, e2⟩; rw [e1, e2]
  · intro e
    have t1 : a = c := by
      have := congrArg (· % 2 ^ S.bits) e
      simpa [Nat.add_mod, Nat.mod_eq_of_lt a2, Nat.mod_eq_of_lt c2] using this
    subst t1
    refine ⟨rfl, ?_⟩
    have := Nat.add_right_cancel e
    exact Nat.eq_of_mul_eq_mul_right (by positivity) this

/-- A pattern with distinct halves: 1 + 2^-60. -/
example : ∃ x : DoubleDouble, DoubleFloat.fromBits doubleS (0x3c30000000000000 * 2 ^ 64 + 0x3ff0000000000000) = .ok x ∧
    x.hi = ⟨2 ^ 52, 0, .normal, false⟩ ∧ x.lo = ⟨2 ^ 52, -60, .normal, false⟩ := by
  refine ⟨⟨⟨2 ^ 52, 0, .normal, false⟩, ⟨2 ^ 52, -60, .normal, false⟩⟩, by decide +kernel, rfl, rfl⟩

/-! ## C42: the 106-bit format -/

/-- **C42.** A finite 106-bit value below the overflow threshold of the parts becomes the canonical pair of exactly that value:
the high part is the nearest number of the parts' format, the sum of the parts is the value, and the sign of zero is kept. -/
theorem C42_from_fallback (h : S.Pair) {x : IeeeFloat (fallbackS S)} (hx : x.Valid) (fx : x.isFinite = true)
    (hl : |x.toRat| < S.fmt.overflowAt) :
    ∃ d : DoubleFloat S, DoubleFloat.ofFallback x = .ok d ∧ d.Valid ∧ d.Finite ∧
      IsRounded S.fmt .nearestTiesToEven x.toRat d.hi.toRat ∧ d.hi.toRat + d.lo.toRat = x.toRat ∧ d.hi.sign = x.sign := by
  obtain ⟨d, d1, d2, d3, d4, d5, -⟩ := ofFallback_ok h hx fx hl
  refine ⟨d, d1, d2, d3.1, ?_, d4, d5⟩
  have := d3.2
  rw [d4] at this
  exact this

example := C42_from_fallback doubleS_pair (x := ⟨2 ^ 105 + 1, 0, .normal, true⟩) (by decide +kernel) rfl (by decide +kernel)

/-- **C42** the bound is sharp: every finite 106-bit value at or beyond it makes the conversion panic. -/
theorem C42_from_fallback_panics (h : S.Pair) {x : IeeeFloat (fallbackS S)} (hx : x.Valid) (fx : x.isFinite = true)
    (hl : S.fmt.overflowAt ≤ |x.toRat|) : DoubleFloat.ofFallback x = .error .assert := ofFallback_overflow h hx fx hl

example := C42_from_fallback_panics doubleS_pair (x := largest (fallbackS doubleS)) (by decide +kernel) rfl (by decide +kernel)

/-- **C42.** A pair is rounded to the nearest 106-bit value; the result is exact when the sum of the parts has 106 bits. -/
theorem C42_to_fallback (h : S.Pair) {d : DoubleFloat S} (hd : d.Valid) (hc : d.Canonical) :
    ∃ r st, DoubleFloat.toFallback d = .ok r ∧ r.Valid ∧ Rounds (fallbackS S) .nearestTiesToEven d.toRat d.hi.sign ⟨st, r⟩ ∧
      (S.fmt.doubled.Grid d.toRat → r.isFinite = true ∧ r.toRat = d.hi.toRat + d.lo.toRat ∧ r.sign = d.hi.sign) := by
  have h0 := Canonical.hi_zero_iff h.ok hd hc
  have hex : ∀ {r}, DoubleFloat.toFallback d = .ok r → S.fmt.doubled.Grid d.toRat →
      r.isFinite = true ∧ r.toRat = d.hi.toRat + d.lo.toRat ∧ r.sign = d.hi.sign := by
    intro r hr hg
    obtain ⟨r', r1, -, r3, r4, r5⟩ := toFallback_fits h ⟨hd, hc, hg⟩
    rw [hr] at r1; cases r1
    exact ⟨r3, r4, r5⟩
  rcases isFinite_iff.1 hc.1.1 with cn | cz
  · obtain ⟨r, st, r1, r2, r3, r4⟩ := toFallback_ok h hd hc.1 cn
    refine ⟨r, st, r1, r2, ⟨r3, r4.1, r4.2.1, fun e => ?_⟩, hex r1⟩
    exact absurd (h0.2 e) (toRat_ne_zero hd.1 cn)
  · have e := toFallback_zero h cz
    refine ⟨_, Status.OK, e, rfl, ?_, hex e⟩
    rw [h0.1 (toRat_zero cz)]
    refine ⟨⟨0, isRounded_self _ grid_zero, Or.inl ⟨?_, rfl, rfl⟩⟩, by simp, by simp, fun _ => rfl⟩
    rw [abs_zero]; exact (largest_pos h.fb).le

/-- **C42** round trips: 106-bit value to pair and back, and pair to 106-bit value and back. -/
theorem C42_round_trip (h : S.Pair) :
    (∀ {x : IeeeFloat (fallbackS S)}, x.Valid → x.isFinite = true → |x.toRat| < S.fmt.overflowAt →
      ∃ d y, DoubleFloat.ofFallback x = .ok d ∧ DoubleFloat.toFallback d = .ok y ∧ y.bitwiseEq x = true) ∧
    (∀ {d : DoubleFloat S}, d.Fits → ∃ x d', DoubleFloat.toFallback d = .ok x ∧ DoubleFloat.ofFallback x = .ok d' ∧
      d'.hi.bitwiseEq d.hi = true ∧ d'.lo.toRat = d.lo.toRat) := by
  constructor
  · intro x hx fx hl
    obtain ⟨d, d1, d2, d3, d4, d5, -⟩ := ofFallback_ok h hx fx hl
    obtain ⟨y, y1, y2, y3, y4, y5⟩ := toFallback_fits h (d := d) ⟨d2, d3, by
      rw [d4, ← fallback_fmt S h.ieee]; exact grid_toRat h.fb hx fx⟩
    refine ⟨d, y, d1, y1, ?_⟩
    rw [C03_bitwise_eq_iff_datum h.fb y2 hx (not_nan_of_finite y3), datum_finite y3, datum_finite fx, y4, y5, d4, d5]
  · intro d hd
    obtain ⟨x, x1, x2, x3, x4, x5⟩ := toFallback_fits h hd
    obtain ⟨d', d1, d2, d3, d4, d5, -⟩ := ofFallback_ok h x2 x3 (by rw [x4]; exact Canonical.lt_overflowAt h hd.1 hd.2.1)
    have hh : d'.hi.toRat = d.hi.toRat := by
      have a := d3.2
      rw [d4, x4] at a
      exact a.unique hd.2.1.2
    refine ⟨x, d', x1, d1, ?_, ?_⟩
    · rw [C03_bitwise_eq_iff_datum h.ok d2.1 hd.1.1 (not_nan_of_finite d3.1.1), datum_finite d3.1.1, datum_finite hd.2.1.1.1,
        hh, d5, x5]
    · have e1 : d'.hi.toRat + d'.lo.toRat = d.hi.toRat + d.lo.toRat := d4.trans x4
      rw [hh] at e1
      linarith

/-- Infinities and quiet NaNs are converted both ways, with their sign; a signaling NaN in the high part panics. -/
theorem C42_specials (h : S.Pair) (hx : S.explicitIntBit = false) {d : DoubleFloat S} (hd : d.Valid) :
    (d.hi.isInfinite = true → ∃ r d', DoubleFloat.toFallback d = .ok r ∧ r.datum = .inf d.hi.sign ∧
      DoubleFloat.ofFallback r = .ok d' ∧ d'.datum = .inf d.hi.sign) ∧
    (d.hi.isNan = true → d.hi.isSignaling = false → ∃ r d', DoubleFloat.toFallback d = .ok r ∧ r.isNan = true ∧ r.sign = d.hi.sign ∧
      DoubleFloat.ofFallback r = .ok d' ∧ d'.datum = .nan ∧ d'.hi.sign = d.hi.sign) ∧
    (d.hi.isNan = true → d.hi.isSignaling = true → DoubleFloat.toFallback d = .error .assert) := by
  refine ⟨fun hi => ?_, fun hn hq => ?_, fun hn hq => toFallback_snan h hd.1 hn hq⟩
  · have ci : d.hi.category = .infinity := by simpa [isInfinite] using hi
    refine ⟨_, _, toFallback_inf h ci, rfl, ofFallback_inf h (by rfl), ?_⟩
    simp [DoubleFloat.datum, datum, INFINITY, h.ieee]
  · obtain ⟨r, r1, r2, r3, r4, r5⟩ := toFallback_nan h hd.1 hn hq hx
    obtain ⟨d', d1, d2, d3, d4, d5, -⟩ := ofFallback_nan h r2 r3 r4
    refine ⟨r, d', r1, r3, r5, d1, ?_, d5.trans r5⟩
    have : d'.hi.category = .nan := by simpa [isNan] using d3
    simp [DoubleFloat.datum, datum, this]

/-- 1 + 2^-105 in the 106-bit format is the pair (1, 2^-105). -/
example : (⟨2 ^ 105 + 1, 0, .normal, false⟩ : IeeeFloat (fallbackS doubleS)).Valid ∧
    DoubleFloat.ofFallback (S := doubleS) ⟨2 ^ 105 + 1, 0, .normal, false⟩ =
      .ok ⟨⟨2 ^ 52, 0, .normal, false⟩, ⟨2 ^ 52, -105, .normal, false⟩⟩ := by
  refine ⟨by decide +kernel, by decide +kernel⟩

/-- The largest 106-bit value is beyond the bound: no pair represents it, and the conversion panics. -/
theorem C42_largest_panics : (IeeeFloat.largest (fallbackS doubleS)).Valid ∧
    DoubleFloat.ofFallback (S := doubleS) (IeeeFloat.largest (fallbackS doubleS)) = .error .assert := by
  refine ⟨by decide +kernel, by decide +kernel⟩

/-! ## C43: special operands and negation -/

/-- **C43** sums with a special operand. -/
theorem C43_add_special {x y : DoubleFloat S} (mode : Round) :
    (x.hi.category = .nan → x.addR y mode = .ok ⟨Status.OK, x⟩) ∧
    (x.hi.category ≠ .nan → y.hi.category = .nan → x.addR y mode = .ok ⟨Status.OK, y⟩) ∧
    (x.hi.category = .infinity → y.hi.category = .infinity → x.hi.sign = y.hi.sign → x.addR y mode = .ok ⟨Status.OK, x⟩) ∧
    (x.hi.category = .infinity → y.hi.category = .infinity → x.hi.sign ≠ y.hi.sign →
      ∃ r, x.addR y mode = .ok r ∧ r.status = Status.INVALID_OP ∧ r.value.datum = .nan) ∧
    (x.hi.category = .infinity → y.hi.isFinite = true → x.addR y mode = .ok ⟨Status.OK, x⟩) ∧
    (x.hi.isFinite = true → y.hi.category = .infinity → x.addR y mode = .ok ⟨Status.OK, y⟩) ∧
    (x.hi.isFinite = true → y.hi.category = .zero → x.addR y mode = .ok ⟨Status.OK, x⟩) ∧
    (x.hi.category = .zero → y.hi.category = .normal → x.addR y mode = .ok ⟨Status.OK, y⟩) := by
  refine ⟨fun c => ?_, fun c1 c2 => ?_, fun c1 c2 c3 => ?_, fun c1 c2 c3 => ?_, fun c1 c2 => ?_, fun c1 c2 => ?_, fun c1 c2 => ?_,
    fun c1 c2 => ?_⟩
  · unfold DoubleFloat.addR DoubleFloat.category
    rw [c]
    cases y.hi.category <;> rfl
  · unfold DoubleFloat.addR DoubleFloat.category
    rw [c2]
    cases hc : x.hi.category
    · rfl
    · exact absurd hc c1
    · rfl
    · rfl
  · unfold DoubleFloat.addR DoubleFloat.category DoubleFloat.isNegative isNegative
    rw [c1, c2]
    simp [c3, Status.and]
  · unfold DoubleFloat.addR DoubleFloat.category DoubleFloat.isNegative isNegative
    rw [c1, c2]
    dsimp only
    rw [if_pos c3]
    refine ⟨_, rfl, rfl, ?_⟩
    show ((DoubleFloat.NAN S).copySign x).datum = .nan
    unfold DoubleFloat.copySign DoubleFloat.neg
    have hN : (DoubleFloat.NAN S).hi.category = .nan := rfl
    have hZ : (DoubleFloat.NAN S).lo.isFiniteNonZero = false := rfl
    rw [hZ]
    split_ifs <;> simp [DoubleFloat.datum, datum, neg, hN]
  · unfold DoubleFloat.addR DoubleFloat.category
    rcases isFinite_iff.1 c2 with c | c <;> rw [c1, c] <;> rfl
  · unfold DoubleFloat.addR DoubleFloat.category
    rcases isFinite_iff.1 c1 with c | c <;> rw [c, c2] <;> rfl
  · unfold DoubleFloat.addR DoubleFloat.category
    rcases isFinite_iff.1 c1 with c | c <;> rw [c, c2] <;> rfl
  · unfold DoubleFloat.addR DoubleFloat.category
    rw [c1, c2]
    rfl

/-- **C43** products with a special operand: the category is the documented one (NaN, zero times infinity is NaN, zero, infinity). -/
theorem C43_mul_special {x y : DoubleFloat S} (mode : Round) :
    (x.hi.category = .nan → x.mulR y mode = .ok ⟨Status.OK, x⟩) ∧
    (x.hi.category ≠ .nan → y.hi.category = .nan → x.mulR y mode = .ok ⟨Status.OK, y⟩) ∧
    ((x.hi.category = .zero ∧ y.hi.category = .infinity) ∨ (x.hi.category = .infinity ∧ y.hi.category = .zero) →
      x.mulR y mode = .ok ⟨Status.OK, DoubleFloat.NAN S⟩) ∧
    (x.hi.isFinite = true → y.hi.isFinite = true → (x.hi.category = .zero ∨ y.hi.category = .zero) →
      ∃ r, x.mulR y mode = .ok ⟨Status.OK, r⟩ ∧ r.hi.category = .zero ∧ r = if x.hi.category = .zero then x else y) ∧
    (x.hi.category ≠ .nan → x.hi.category ≠ .zero → y.hi.category ≠ .nan → y.hi.category ≠ .zero →
      (x.hi.category = .infinity ∨ y.hi.category = .infinity) →
      ∃ r, x.mulR y mode = .ok ⟨Status.OK, r⟩ ∧ r.hi.category = .infinity ∧ r = if x.hi.category = .infinity then x else y) := by
  unfold DoubleFloat.mulR DoubleFloat.category
  refine ⟨fun c => ?_, fun c1 c2 => ?_, fun c => ?_, fun c1 c2 c => ?_, fun c1 c2 c3 c4 c => ?_⟩
  · rw [c]; cases y.hi.category <;> rfl
  · rw [c2]
    cases hc : x.hi.category
    · rfl
    · exact absurd hc c1
    · rfl
    · rfl
  · rcases c with ⟨a, b⟩ | ⟨a, b⟩ <;> rw [a, b] <;> rfl
  · rcases isFinite_iff.1 c1 with a | a <;> rcases isFinite_iff.1 c2 with b | b <;> rw [a, b]
    · rw [a, b] at c; simp at c
    · exact ⟨y, rfl, b, rfl⟩
    · exact ⟨x, rfl, a, rfl⟩
    · exact ⟨x, rfl, a, rfl⟩
  · cases a : x.hi.category <;> cases b : y.hi.category <;> rw [a] at c1 c2 <;> rw [b] at c3 c4 <;>
      first
      | exact absurd rfl c1 | exact absurd rfl c2 | exact absurd rfl c3 | exact absurd rfl c4
      | exact ⟨x, rfl, a, rfl⟩ | exact ⟨y, rfl, b, rfl⟩
      | (rw [a, b] at c; simp at c)

/-- The sign of such a product is that of the special operand alone: infinity times -1 is +infinity, and 0 times -1 is +0. -/
theorem C43_mul_sign_wrong :
    (∃ m1 : DoubleDouble, DoubleFloat.fromBits doubleS 0xbff0000000000000 = .ok m1 ∧ m1.toRat = -1 ∧
      (DoubleFloat.INFINITY doubleS).mulR m1 .nearestTiesToEven = .ok ⟨Status.OK, DoubleFloat.INFINITY doubleS⟩ ∧
      (DoubleFloat.ZERO doubleS).mulR m1 .nearestTiesToEven = .ok ⟨Status.OK, DoubleFloat.ZERO doubleS⟩) := by
  refine ⟨⟨⟨2 ^ 52, 0, .normal, true⟩, ⟨0, -1023, .zero, false⟩⟩, by decide +kernel, ?_, by decide +kernel, by decide +kernel⟩
  simp [DoubleFloat.toRat, toRat, signed, doubleS, Sem.default]
  norm_num

/-- The invalid product is not reported, and the sum of -0 and +0 is -0 (the sum of the Double values is +0). -/
theorem C43_unlike_double :
    (∃ r, (DoubleFloat.INFINITY doubleS).mulR (DoubleFloat.ZERO doubleS) .nearestTiesToEven = .ok r ∧ r.status = Status.OK ∧
      ∃ r', (INFINITY doubleS).mulR (ZERO doubleS) .nearestTiesToEven = .ok r' ∧ r'.status = Status.INVALID_OP) ∧
    (∃ r, (DoubleFloat.ZERO doubleS).neg.addR (DoubleFloat.ZERO doubleS) .nearestTiesToEven = .ok r ∧ r.value.isNegative = true ∧
      ∃ r', (ZERO doubleS).neg.addR (ZERO doubleS) .nearestTiesToEven = .ok r' ∧ r'.value.sign = false) :=
  ⟨⟨_, rfl, rfl, _, rfl, rfl⟩, _, rfl, rfl, _, rfl, rfl⟩

/-- **C43.** Negation negates the represented number and flips the sign, and is undone by negating again. -/
theorem C43_neg {x : DoubleFloat S} (fx : x.Finite) :
    x.neg.toRat = -x.toRat ∧ x.neg.isNegative = !x.isNegative ∧ x.neg.datum = x.datum.neg ∧ x.neg.neg = x := by
  have hlo : x.lo.isFiniteNonZero = false → x.lo.toRat = 0 := by
    intro h
    rcases isFinite_iff.1 fx.2 with c | c
    · rw [(isFiniteNonZero_iff _).2 c] at h; cases h
    · exact toRat_zero c
  have hfn : x.lo.neg.isFiniteNonZero = x.lo.isFiniteNonZero := rfl
  have ht : x.neg.toRat = -x.toRat := by
    unfold DoubleFloat.neg
    split_ifs with c
    · show x.hi.neg.toRat + x.lo.neg.toRat = -(x.hi.toRat + x.lo.toRat)
      rw [neg_toRat, neg_toRat]; ring
    · show x.hi.neg.toRat + x.lo.toRat = -(x.hi.toRat + x.lo.toRat)
      rw [neg_toRat, hlo (by simpa using c)]; ring
  have hs : x.neg.hi = x.hi.neg := by unfold DoubleFloat.neg; split_ifs <;> rfl
  refine ⟨ht, ?_, ?_, ?_⟩
  · unfold DoubleFloat.isNegative; rw [hs]; rfl
  · have f1 : x.neg.hi.isFinite = true := by rw [hs, neg_finite]; exact fx.1
    rw [pair_datum_finite f1, pair_datum_finite fx.1, hs, ht]
    rfl
  · have hnn : ∀ z : IeeeFloat S, z.neg.neg = z := by intro z; simp [neg, isNegative]
    unfold DoubleFloat.neg
    by_cases c1 : x.lo.isFiniteNonZero = true
    · rw [if_pos c1]; dsimp only; rw [if_pos (hfn.trans c1), hnn, hnn]
    · rw [if_neg c1]; dsimp only; rw [if_neg c1, hnn]

/-- **C43.** `copy_sign` gives the represented number the other operand's sign, keeping its magnitude, and `abs` clears the
sign. -/
theorem C43_copy_sign {x y : DoubleFloat S} (fx : x.Finite) :
    ((x.copySign y).isNegative = y.isNegative ∧
      (x.copySign y).toRat = (if x.isNegative = y.isNegative then x.toRat else -x.toRat)) ∧
    (x.abs.isNegative = false ∧ x.abs.toRat = (if x.isNegative = true then -x.toRat else x.toRat)) := by
  obtain ⟨n1, n2, -, -⟩ := C43_neg fx
  constructor
  · unfold DoubleFloat.copySign
    by_cases e : x.isNegative = y.isNegative
    · rw [if_neg (by simp [e]), if_pos e]; exact ⟨e, rfl⟩
    · rw [if_pos (by simp [e]), if_neg e]
      refine ⟨?_, n1⟩
      rw [n2]
      cases hx : x.isNegative <;> cases hy : y.isNegative <;> simp [hx, hy] at e ⊢
  · unfold DoubleFloat.abs
    by_cases e : x.isNegative = true
    · rw [if_pos e, if_pos e, n2, e]; exact ⟨rfl, n1⟩
    · rw [if_neg e, if_neg e]; exact ⟨by simpa using e, rfl⟩

/-- **C43.** On canonical pairs `abs` is the absolute value of the represented number. -/
theorem C43_abs (h : S.OK) {x : DoubleFloat S} (hx : x.Valid) (cx : x.Canonical) : x.abs.toRat = |x.toRat| ∧ x.abs.isNegative = false := by
  obtain ⟨-, c1, c2⟩ := C43_copy_sign (y := x) cx.1
  refine ⟨?_, c1⟩
  rw [c2]
  have hm := Canonical.sign h hx cx
  rcases lt_trichotomy x.toRat 0 with q | q | q
  · rw [if_pos (show x.isNegative = true from hm.2 q), abs_of_neg q]
  · rw [q]; simp
  · rw [if_neg (by unfold DoubleFloat.isNegative IeeeFloat.isNegative; rw [hm.1 q]; simp), abs_of_pos q]

example : ∃ x : DoubleDouble, x.Finite ∧ x.lo.isFiniteNonZero = true ∧ x.isNegative = false :=
  ⟨⟨⟨2 ^ 52, 0, .normal, false⟩, ⟨2 ^ 52, -60, .normal, true⟩⟩, by decide, rfl, rfl⟩

/-! ## C44: comparison -/

/-- Lexicographic order of canonical pairs is the order of the represented numbers. -/
theorem canonical_lt {x y : DoubleFloat S} (hx : x.Canonical) (hy : y.Canonical) (hlt : x.hi.toRat < y.hi.toRat) : x.toRat < y.toRat := by
  by_contra hc
  exact absurd (hy.2.mono hx.2 (not_lt.1 hc)) (not_le.2 hlt)

theorem partialCmp_canonical (h : S.OK) {x y : DoubleFloat S} (hx : x.Valid) (hy : y.Valid) (cx : x.Canonical) (cy : y.Canonical) :
    x.partialCmp y = .ok (some (compare x.toRat y.toRat)) := by
  unfold DoubleFloat.partialCmp
  rw [partialCmp_finite h hx.1 hy.1 cx.1.1 cy.1.1]
  simp only [M.ok_bind]
  rcases lt_trichotomy x.hi.toRat y.hi.toRat with c | c | c
  · rw [compare_lt_iff_lt.2 c, compare_lt_iff_lt.2 (canonical_lt cx cy c)]
  · rw [compare_eq_iff_eq.2 c]
    dsimp only
    rw [partialCmp_finite h hx.2 hy.2 cx.1.2 cy.1.2]
    have : compare x.toRat y.toRat = compare x.lo.toRat y.lo.toRat := by
      unfold DoubleFloat.toRat
      rw [c]
      rcases lt_trichotomy x.lo.toRat y.lo.toRat with d | d | d
      · rw [compare_lt_iff_lt.2 d, compare_lt_iff_lt.2 (by linarith)]
      · rw [d, compare_eq_iff_eq.2 rfl, compare_eq_iff_eq.2 rfl]
      · rw [compare_gt_iff_gt.2 d, compare_gt_iff_gt.2 (by show y.hi.toRat + x.lo.toRat > y.hi.toRat + y.lo.toRat; linarith)]
    rw [this]
  · rw [compare_gt_iff_gt.2 c, compare_gt_iff_gt.2 (canonical_lt cy cx c)]

/-- **C44.** On canonical pairs `partial_cmp`, `==` and `<` are the order of the represented numbers; a pair with a NaN high part
is unordered. -/
theorem C44_partial_cmp (h : S.OK) {x y : DoubleFloat S} (hx : x.Valid) (hy : y.Valid) (cx : x.Canonical) (cy : y.Canonical) :
    ∃ o e l, x.partialCmp y = .ok (some o) ∧ x.eq y = .ok e ∧ x.lt y = .ok l ∧
      (o = .lt ↔ x.toRat < y.toRat) ∧ (o = .eq ↔ x.toRat = y.toRat) ∧ (o = .gt ↔ x.toRat > y.toRat) ∧
      (e = true ↔ x.toRat = y.toRat) ∧ (l = true ↔ x.toRat < y.toRat) := by
  have hp := partialCmp_canonical h hx hy cx cy
  obtain ⟨e1, e2⟩ : ∃ e, x.eq y = .ok e ∧ (e = true ↔ x.toRat = y.toRat) := by
    unfold DoubleFloat.eq IeeeFloat.eq
    rw [partialCmp_finite h hx.1 hy.1 cx.1.1 cy.1.1, partialCmp_finite h hx.2 hy.2 cx.1.2 cy.1.2]
    simp only [M.ok_bind, Option.some.injEq, compare_eq_iff_eq]
    by_cases c : x.hi.toRat = y.hi.toRat
    · simp only [c, decide_true, if_true]
      refine ⟨_, rfl, ?_⟩
      simp only [decide_eq_true_eq, DoubleFloat.toRat, c, add_right_inj]
    · simp only [c, decide_false, Bool.false_eq_true, if_false]
      refine ⟨_, rfl, ?_⟩
      simp only [Bool.false_eq_true, false_iff]
      intro hh
      rcases lt_or_gt_of_ne c with d | d
      · exact absurd hh (canonical_lt cx cy d).ne
      · exact absurd hh (canonical_lt cy cx d).ne'
  have hl : x.lt y = .ok (decide (some (compare x.toRat y.toRat) = some .lt)) := by
    unfold DoubleFloat.lt
    rw [hp]
    rfl
  refine ⟨_, e1, _, hp, e2.1, hl, compare_lt_iff_lt, compare_eq_iff_eq, compare_gt_iff_gt, e2.2, ?_⟩
  simp [compare_lt_iff_lt]

theorem nonfinite_of_equal {u v : IeeeFloat S} (hu : u.isFinite = false) (h1 : u.datum.le v.datum) (h2 : v.datum.le u.datum) :
    v.isFinite = false := by
  by_contra hv
  rw [datum_finite (x := v) (by simpa using hv)] at h1 h2
  unfold datum at h1 h2
  unfold isFinite isNan isInfinite at hu
  cases c : u.category <;> rw [c] at h1 h2 hu
  · simp only [Datum.le] at h1 h2
    cases s : u.sign <;> rw [s] at h1 h2
    · exact h1
    · exact h2
  · exact h1
  · cases hu
  · cases hu

/-- **C44.** On proper pairs `partial_cmp` is the order of the extended reals: it never panics, is undefined exactly for NaNs,
and otherwise orders the represented values. -/
theorem C44_order (h : S.OK) {x y : DoubleFloat S} (px : x.Proper) (py : y.Proper) :
    ∃ o, x.partialCmp y = .ok o ∧ (o = none ↔ x.datum = .nan ∨ y.datum = .nan) ∧
      (o = some .lt ↔ x.datum.lt y.datum) ∧ (o = some .gt ↔ y.datum.lt x.datum) ∧
      (o = some .eq ↔ x.datum.le y.datum ∧ y.datum.le x.datum) := by
  obtain ⟨hx, qx⟩ := px
  obtain ⟨hy, qy⟩ := py
  by_cases hc : x.Canonical ∧ y.Canonical
  · refine ⟨_, partialCmp_canonical h hx hy hc.1 hc.2, ?_⟩
    rw [pair_datum_finite hc.1.1.1, pair_datum_finite hc.2.1.1]
    simp only [Datum.lt, Datum.le, reduceCtorEq, or_self, Option.some.injEq, true_and, compare_lt_iff_lt,
      compare_gt_iff_gt, compare_eq_iff_eq, not_le]
    exact ⟨⟨fun e => ⟨e.le, e⟩, fun e => e.2⟩, ⟨fun e => ⟨e.le, e⟩, fun e => e.2⟩, ⟨fun e => ⟨e.le, e.ge⟩, fun e => le_antisymm e.1 e.2⟩⟩
  · -- one operand is not finite: its datum decides
    have key : ∀ z : DoubleFloat S, z.hi.isFinite = false → z.datum = z.hi.datum := by
      intro z hz
      unfold DoubleFloat.datum datum
      unfold isFinite at hz
      cases c : z.hi.category <;> simp_all [isNan, isInfinite]
    have hne : x.hi.isFinite = false ∨ y.hi.isFinite = false := by
      rcases qx with qx | qx
      · rcases qy with qy | qy
        · exact absurd ⟨qx, qy⟩ hc
        · exact Or.inr qy.1
      · exact Or.inl qx.1
    obtain ⟨o, o1, o2, o3, o4, o5⟩ := C15_partial_cmp h hx.1 hy.1
    have hlo : o = some .eq → x.partialCmp y = .ok (some .eq) := by
      intro e
      have fl : ∀ z : DoubleFloat S, z.Canonical ∨ z.hi.isFinite = false ∧ z.lo.toRat = 0 ∧ z.lo.isFinite = true → z.lo.isFinite = true := by
        rintro z (a | a)
        · exact a.1.2
        · exact a.2.2
      have zl : x.lo.toRat = 0 ∧ y.lo.toRat = 0 := by
        have hle := o5.1 e
        have hin := @nonfinite_of_equal S
        have hx0 : x.hi.isFinite = false := by
          rcases hne with a | a
          · exact a
          · exact hin a hle.2 hle.1
        have hy0 := hin hx0 hle.1 hle.2
        refine ⟨?_, ?_⟩
        · rcases qx with a | a
          · rw [a.1.1] at hx0; cases hx0
          · exact a.2.1
        · rcases qy with a | a
          · rw [a.1.1] at hy0; cases hy0
          · exact a.2.1
      unfold DoubleFloat.partialCmp
      rw [o1, e]
      simp only [M.ok_bind]
      rw [partialCmp_finite h hx.2 hy.2 (fl x qx) (fl y qy), zl.1, zl.2, compare_eq_iff_eq.2 rfl]
    have hp : x.partialCmp y = .ok o := by
      by_cases e : o = some .eq
      · rw [hlo e, e]
      · unfold DoubleFloat.partialCmp
        rw [o1]
        simp only [M.ok_bind]
    refine ⟨o, hp, ?_⟩
    rcases hne with a | a
    · rw [key x a]
      by_cases b : y.hi.isFinite = false
      · rw [key y b]; exact ⟨o2, o3, o4, o5⟩
      · have b' : y.hi.isFinite = true := by simpa using b
        rw [pair_datum_finite b']
        rw [datum_finite b'] at o2 o3 o4 o5
        unfold datum isFinite isNan isInfinite at *
        cases cu : x.hi.category <;> simp_all <;> cases x.hi.sign <;> simp_all [Datum.le, Datum.lt]
    · rw [key y a]
      by_cases b : x.hi.isFinite = false
      · rw [key x b]; exact ⟨o2, o3, o4, o5⟩
      · have b' : x.hi.isFinite = true := by simpa using b
        rw [pair_datum_finite b']
        rw [datum_finite b'] at o2 o3 o4 o5
        unfold datum isFinite isNan isInfinite at *
        cases cu : y.hi.category <;> simp_all <;> cases y.hi.sign <;> simp_all [Datum.le, Datum.lt]

theorem pair_nan_iff (x : DoubleFloat S) : x.isNan = false ↔ x.datum ≠ .nan := by
  unfold DoubleFloat.isNan DoubleFloat.category DoubleFloat.datum datum
  cases x.hi.category <;> simp

theorem pair_lt_cases (h : S.OK) {x y : DoubleFloat S} (px : x.Proper) (py : y.Proper) (nx : x.datum ≠ .nan) (ny : y.datum ≠ .nan) :
    (x.lt y = .ok true ∧ x.datum.le y.datum) ∨ (x.lt y = .ok false ∧ y.datum.le x.datum) := by
  obtain ⟨o, h1, -, h3, -, -⟩ := C44_order h px py
  unfold DoubleFloat.lt
  rw [h1]
  by_cases e : o = some .lt
  · left
    exact ⟨by simp [e, bind, Except.bind], (h3.1 e).1⟩
  · right
    refine ⟨by simp [e, bind, Except.bind], ?_⟩
    have : ¬ x.datum.lt y.datum := fun d => e (h3.2 d)
    rcases Datum.le_total nx ny with a | a
    · by_contra b; exact this ⟨a, b⟩
    · exact a

/-- **C44.** `min` and `max` on proper pairs: the other operand when one is NaN, otherwise the least or greatest operand. -/
theorem C44_min_max (h : S.OK) {x y : DoubleFloat S} (px : x.Proper) (py : y.Proper) :
    ∃ r t, x.min y = .ok r ∧ x.max y = .ok t ∧ (r = x ∨ r = y) ∧ (t = x ∨ t = y) ∧
      (x.datum = .nan → r = y ∧ t = y) ∧ (x.datum ≠ .nan → y.datum = .nan → r = x ∧ t = x) ∧
      (x.datum ≠ .nan → y.datum ≠ .nan → r.datum.le x.datum ∧ r.datum.le y.datum ∧ x.datum.le t.datum ∧ y.datum.le t.datum) := by
  unfold DoubleFloat.min DoubleFloat.max
  cases nx : x.isNan
  · have nx' := (pair_nan_iff x).1 nx
    cases ny : y.isNan
    · have ny' := (pair_nan_iff y).1 ny
      simp only [Bool.false_eq_true, if_false]
      rcases pair_lt_cases h py px ny' nx' with ⟨a, b⟩ | ⟨a, b⟩ <;> rcases pair_lt_cases h px py nx' ny' with ⟨c, d⟩ | ⟨c, d⟩ <;>
        rw [a, c] <;> simp only [M.ok_bind, if_true, Bool.false_eq_true, if_false, Except.ok.injEq, exists_eq_left', exists_and_left] <;>
        simp [nx', ny', b, d, Datum.le_refl nx', Datum.le_refl ny']
    · have ny' : y.datum = .nan := by by_contra e; rw [(pair_nan_iff y).2 e] at ny; cases ny
      exact ⟨x, x, by simp, by simp, Or.inl rfl, Or.inl rfl, fun e => absurd e nx', fun _ _ => ⟨rfl, rfl⟩, fun _ e => absurd ny' e⟩
  · have nx' : x.datum = .nan := by by_contra e; rw [(pair_nan_iff x).2 e] at nx; cases nx
    exact ⟨y, y, by simp, by simp, Or.inr rfl, Or.inr rfl, fun _ => ⟨rfl, rfl⟩, fun e => absurd nx' e, fun e => absurd nx' e⟩

/-- A pair that denotes zero has a zero high part. -/
theorem pair_zero {x : DoubleFloat S} (h : S.OK) (px : x.Proper) {m : Bool} (e : x.datum = .num m 0) :
    x.isZero = true ∧ x.isNegative = m := by
  have hf : x.hi.isFinite = true := by
    by_contra hc
    unfold DoubleFloat.datum datum at e
    unfold isFinite isNan isInfinite at hc
    cases c : x.hi.category <;> simp_all
  rw [pair_datum_finite hf] at e
  have cx : x.Canonical := by
    rcases px.2 with a | a
    · exact a
    · rw [hf] at a; exact absurd a.1 (by decide)
  simp only [Datum.num.injEq] at e
  have h0 := (Canonical.hi_zero_iff h px.1 cx).2 e.2
  refine ⟨?_, e.1⟩
  rcases isFinite_iff.1 hf with c | c
  · exact absurd h0 (toRat_ne_zero px.1.1 c)
  · simp [DoubleFloat.isZero, DoubleFloat.category, c]

theorem pair_zero_datum (h : S.OK) {x : DoubleFloat S} (px : x.Proper) (z : x.isZero = true) : x.datum = .num x.isNegative 0 := by
  have c : x.hi.category = .zero := by simpa [DoubleFloat.isZero, DoubleFloat.category] using z
  have hf : x.hi.isFinite = true := isFinite_iff.2 (Or.inr c)
  have cx : x.Canonical := by
    rcases px.2 with a | a
    · exact a
    · rw [hf] at a; exact absurd a.1 (by decide)
  rw [pair_datum_finite hf, (Canonical.hi_zero_iff h px.1 cx).1 (toRat_zero c)]
  rfl

/-- **C44.** `minimum` and `maximum` on proper pairs: NaN propagates, -0 is below +0. -/
theorem C44_minimum_maximum (h : S.OK) {x y : DoubleFloat S} (px : x.Proper) (py : y.Proper) :
    ∃ r t, x.minimum y = .ok r ∧ x.maximum y = .ok t ∧ (r = x ∨ r = y) ∧ (t = x ∨ t = y) ∧
      (x.datum = .nan → r = x ∧ t = x) ∧ (x.datum ≠ .nan → y.datum = .nan → r = y ∧ t = y) ∧
      (x.datum ≠ .nan → y.datum ≠ .nan → r.datum.leZ x.datum ∧ r.datum.leZ y.datum ∧ x.datum.leZ t.datum ∧ y.datum.leZ t.datum) := by
  unfold DoubleFloat.minimum DoubleFloat.maximum
  cases nx : x.isNan
  · have nx' := (pair_nan_iff x).1 nx
    cases ny : y.isNan
    · have ny' := (pair_nan_iff y).1 ny
      simp only [Bool.false_eq_true, if_false]
      by_cases z : (x.isZero && y.isZero && (x.isNegative != y.isNegative)) = true
      · rw [if_pos z, if_pos z]
        simp only [Bool.and_eq_true, bne_iff_ne] at z
        have dx := pair_zero_datum h px z.1.1
        have dy := pair_zero_datum h py z.1.2
        have lz : ∀ {a b : Bool}, (b = true → a = true) → (Datum.num a 0).leZ (.num b 0) := by
          intro a b hab
          exact ⟨by simp [Datum.le], fun m n e e' f => by cases e; cases e'; exact hab f⟩
        by_cases s : x.isNegative = true
        · rw [if_pos s, if_pos s]
          refine ⟨x, y, rfl, rfl, Or.inl rfl, Or.inr rfl, fun e => absurd e nx', fun _ e => absurd e ny', fun _ _ =>
            ⟨leZ_refl nx', ?_, ?_, leZ_refl ny'⟩⟩ <;> rw [dx, dy] <;> exact lz fun _ => s
        · rw [if_neg s, if_neg s]
          have s' : y.isNegative = true := by
            have := z.2
            cases a : x.isNegative <;> cases b : y.isNegative <;> simp_all
          refine ⟨y, x, rfl, rfl, Or.inr rfl, Or.inl rfl, fun e => absurd e nx', fun _ e => absurd e ny', fun _ _ =>
            ⟨?_, leZ_refl ny', leZ_refl nx', ?_⟩⟩ <;> rw [dx, dy] <;> exact lz fun _ => s'
      · rw [if_neg z, if_neg z]
        have hz : ∀ m n, x.datum = .num m 0 → y.datum = .num n 0 → m = n := by
          intro m n e e'
          obtain ⟨a, b⟩ := pair_zero h px e
          obtain ⟨a', b'⟩ := pair_zero h py e'
          simpa [a, a', b, b'] using z
        have l1 : x.datum.le y.datum → x.datum.leZ y.datum := fun d => ⟨d, fun m n e e' => by rw [hz m n e e']; exact id⟩
        have l2 : y.datum.le x.datum → y.datum.leZ x.datum := fun d => ⟨d, fun m n e e' => by rw [hz n m e' e]; exact id⟩
        rcases pair_lt_cases h py px ny' nx' with ⟨a, b⟩ | ⟨a, b⟩ <;> rcases pair_lt_cases h px py nx' ny' with ⟨c, d⟩ | ⟨c, d⟩ <;>
          rw [a, c] <;> simp only [M.ok_bind, if_true, Bool.false_eq_true, if_false, Except.ok.injEq, exists_eq_left', exists_and_left] <;>
          first
          | simp [nx', ny', l1 b, leZ_refl nx', leZ_refl ny', l1 d]
          | simp [nx', ny', l1 b, leZ_refl nx', leZ_refl ny', l2 d]
          | simp [nx', ny', l2 b, leZ_refl nx', leZ_refl ny', l1 d]
          | simp [nx', ny', l2 b, leZ_refl nx', leZ_refl ny', l2 d]
    · have ny' : y.datum = .nan := by by_contra e; rw [(pair_nan_iff y).2 e] at ny; cases ny
      exact ⟨y, y, by simp, by simp, Or.inr rfl, Or.inr rfl, fun e => absurd e nx', fun _ _ => ⟨rfl, rfl⟩, fun _ e => absurd ny' e⟩
  · have nx' : x.datum = .nan := by by_contra e; rw [(pair_nan_iff x).2 e] at nx; cases nx
    exact ⟨x, x, by simp, by simp, Or.inl rfl, Or.inl rfl, fun _ => ⟨rfl, rfl⟩, fun e => absurd nx' e, fun e => absurd nx' e⟩
/-- `==` agrees with `partial_cmp`, for all pairs. -/
theorem C44_eq {x y : DoubleFloat S} {o : Option Ordering} (h : x.partialCmp y = .ok o) : x.eq y = .ok (decide (o = some .eq)) := by
  unfold DoubleFloat.partialCmp at h
  unfold DoubleFloat.eq IeeeFloat.eq
  cases ha : IeeeFloat.partialCmp x.hi y.hi with
  | error e => rw [ha] at h; simp [bind, Except.bind] at h
  | ok c =>
    rw [ha] at h
    simp only [M.ok_bind] at h ⊢
    by_cases e : c = some .eq
    · subst e
      dsimp only at h
      rw [h]
      simp
    · simp only [e, decide_false, Bool.false_eq_true, if_false]
      simp only [e] at h
      cases h
      simp [e]

theorem doubleS_small {v : ℚ} (h : v ≤ 2) : v < doubleS.fmt.overflowAt := by
  show v < (2 : ℚ) ^ ((1023 : ℤ) + 1) - 2 ^ ((1023 : ℤ) - 53)
  rw [show ((1023 : ℤ) + 1) = 54 + 970 by norm_num, show ((1023 : ℤ) - 53) = 970 by norm_num, two_zpow_add 54 970]
  have : (1 : ℚ) ≤ 2 ^ (970 : ℤ) := one_le_zpow₀ (by norm_num) (by norm_num)
  generalize (2 : ℚ) ^ (970 : ℤ) = w at *
  norm_num
  linarith

/-- A proper pair with a negative low part, and one equal in the high part: the low parts decide. -/
example : ∃ x y : DoubleDouble, x.Proper ∧ y.Proper ∧ x.hi = y.hi ∧ x.partialCmp y = .ok (some .lt) := by
  have v1 : (⟨⟨2 ^ 52, 0, .normal, false⟩, ⟨2 ^ 52, -60, .normal, true⟩⟩ : DoubleDouble).Valid := by decide +kernel
  have v2 : (⟨⟨2 ^ 52, 0, .normal, false⟩, ⟨0, -1023, .zero, false⟩⟩ : DoubleDouble).Valid := by decide +kernel
  obtain ⟨d, d1, d2, d3, -⟩ := ofFallback_ok doubleS_pair (x := ⟨2 ^ 106 - 2 ^ 46, -1, .normal, false⟩) (by decide +kernel) rfl (by
    apply doubleS_small
    norm_num [toRat, signed, fallbackS, doubleS, Sem.default])
  have e : d = ⟨⟨2 ^ 52, 0, .normal, false⟩, ⟨2 ^ 52, -60, .normal, true⟩⟩ := by
    have : DoubleFloat.ofFallback (S := doubleS) ⟨2 ^ 106 - 2 ^ 46, -1, .normal, false⟩ =
        .ok ⟨⟨2 ^ 52, 0, .normal, false⟩, ⟨2 ^ 52, -60, .normal, true⟩⟩ := by decide +kernel
    rw [this] at d1; cases d1; rfl
  subst e
  refine ⟨_, ⟨⟨2 ^ 52, 0, .normal, false⟩, ⟨0, -1023, .zero, false⟩⟩, ⟨d2, Or.inl d3⟩, ⟨v2, Or.inl ⟨by decide, ?_⟩⟩, rfl, by decide +kernel⟩
  have : (⟨⟨2 ^ 52, 0, .normal, false⟩, ⟨0, -1023, .zero, false⟩⟩ : DoubleDouble).toRat =
      (⟨2 ^ 52, 0, .normal, false⟩ : IeeeFloat doubleS).toRat := by
    unfold DoubleFloat.toRat
    rw [toRat_zero (x := (⟨0, -1023, .zero, false⟩ : IeeeFloat doubleS)) rfl, add_zero]
  rw [this]
  exact isRounded_self _ (grid_toRat doubleS_ok v2.1 rfl)

/-- Canonical form matters: (1, 1) represents 2 and (1.5, 0) represents 1.5, but the first compares below the second. -/
theorem C44_noncanonical : ∃ x y : DoubleDouble, x.Valid ∧ y.Valid ∧ x.Finite ∧ y.Finite ∧ x.toRat = 2 ∧ y.toRat = 3 / 2 ∧
    x.partialCmp y = .ok (some .lt) := by
  refine ⟨⟨⟨2 ^ 52, 0, .normal, false⟩, ⟨2 ^ 52, 0, .normal, false⟩⟩, ⟨⟨3 * 2 ^ 51, 0, .normal, false⟩, ZERO doubleS⟩,
    by decide +kernel, by decide +kernel, by decide, by decide, ?_, ?_, by decide +kernel⟩ <;>
  norm_num [DoubleFloat.toRat, toRat, signed, doubleS, Sem.default, ZERO]

theorem IsRounded.nonpos' {F : Spec.Fmt} {mode : Round} {v a : ℚ} (h : IsRounded F mode v a) (hv : v ≤ 0) : a ≤ 0 :=
  h.le_of_grid grid_zero hv

theorem abs_pair {x : DoubleFloat S} (hx : x.Valid) (cx : x.Canonical) (nh : x.hi.category = .normal) (nl : x.lo.category = .normal) :
    |x.toRat| = |x.hi.toRat| + (if x.hi.sign = x.lo.sign then |x.lo.toRat| else -|x.lo.toRat|) := by
  have hs : |x.toRat| = if x.hi.sign then -x.toRat else x.toRat := by
    cases s : x.hi.sign
    · have h1 := (sign_pos hx.1 nh s).1
      have : 0 ≤ x.toRat := by
        by_contra hc
        have := IsRounded.nonpos' cx.2 (not_le.1 hc).le
        linarith
      simp [abs_of_nonneg this]
    · have h1 := (sign_neg hx.1 nh s).1
      have : x.toRat ≤ 0 := by
        by_contra hc
        have := cx.2.nonneg (not_le.1 hc).le
        linarith
      simp [abs_of_nonpos this]
  rw [hs]
  cases s : x.hi.sign <;> cases t : x.lo.sign
  · simp [(sign_pos hx.1 nh s).2, (sign_pos hx.2 nl t).2, DoubleFloat.toRat]
  · simp [(sign_pos hx.1 nh s).2, (sign_neg hx.2 nl t).2, DoubleFloat.toRat]
  · simp [(sign_neg hx.1 nh s).2, (sign_pos hx.2 nl t).2, DoubleFloat.toRat]; ring
  · simp [(sign_neg hx.1 nh s).2, (sign_neg hx.2 nl t).2, DoubleFloat.toRat]; ring

theorem abs_rounded {F : Spec.Fmt} {v a : ℚ} (h : IsRounded F .nearestTiesToEven v a) : IsRounded F .nearestTiesToEven |v| |a| := by
  rcases le_total 0 v with c | c
  · rw [abs_of_nonneg c, abs_of_nonneg (h.nonneg c)]; exact h
  · rw [abs_of_nonpos c, abs_of_nonpos (IsRounded.nonpos' h c)]; exact h.neg

/-- **C49.** `cmp_abs_normal` orders the magnitudes of canonical pairs with four non-zero parts, except that pairs whose
high parts agree in magnitude and whose low parts agree in magnitude are taken for equal. -/
theorem C49_cmp_abs_normal_partial (h : S.OK) {x y : DoubleFloat S} (hx : x.Valid) (hy : y.Valid) (cx : x.Canonical) (cy : y.Canonical)
    (n1 : x.hi.category = .normal) (n2 : x.lo.category = .normal) (n3 : y.hi.category = .normal) (n4 : y.lo.category = .normal)
    (hne : |x.hi.toRat| = |y.hi.toRat| → |x.lo.toRat| = |y.lo.toRat| → |x.toRat| = |y.toRat|) :
    x.cmpAbsNormal y = .ok (compare |x.toRat| |y.toRat|) := by
  unfold DoubleFloat.cmpAbsNormal
  rw [cmpAbsNormal_eq h hx.1 hy.1 n1 n3, cmpAbsNormal_eq h hx.2 hy.2 n2 n4]
  simp only [M.ok_bind]
  have rx := abs_rounded cx.2
  have ry := abs_rounded cy.2
  rcases lt_trichotomy |x.hi.toRat| |y.hi.toRat| with c | c | c
  · have : |x.toRat| < |y.toRat| := by
      by_contra hc
      exact absurd (ry.mono rx (not_lt.1 hc)) (not_le.2 c)
    rw [compare_lt_iff_lt.2 c, compare_lt_iff_lt.2 this]
  · rw [compare_eq_iff_eq.2 c]
    dsimp only
    by_cases d : |x.lo.toRat| = |y.lo.toRat|
    · rw [compare_eq_iff_eq.2 d, compare_eq_iff_eq.2 (hne c d)]
      simp
    · have p1 : 0 < |x.lo.toRat| := abs_pos.2 (toRat_ne_zero hx.2 n2)
      have p2 : 0 < |y.lo.toRat| := abs_pos.2 (toRat_ne_zero hy.2 n4)
      rw [if_pos (by rw [Ne, compare_eq_iff_eq]; exact d), abs_pair hx cx n1 n2, abs_pair hy cy n3 n4, c]
      generalize |x.lo.toRat| = u at *
      generalize |y.lo.toRat| = v at *
      generalize |y.hi.toRat| = w at *
      unfold isNegative
      rcases lt_or_gt_of_ne d with e | e
      · rw [compare_lt_iff_lt.2 e]
        cases x.hi.sign <;> cases x.lo.sign <;> cases y.hi.sign <;> cases y.lo.sign <;>
          simp [boolCmp_ff, boolCmp_ft, boolCmp_tf, boolCmp_tt] <;> symm <;>
          first
          | (rw [compare_lt_iff_lt]; linarith)
          | (rw [compare_gt_iff_gt]; show _ < _; linarith)
      · rw [compare_gt_iff_gt.2 e]
        cases x.hi.sign <;> cases x.lo.sign <;> cases y.hi.sign <;> cases y.lo.sign <;>
          simp [boolCmp_ff, boolCmp_ft, boolCmp_tf, boolCmp_tt] <;> symm <;>
          first
          | (rw [compare_lt_iff_lt]; linarith)
          | (rw [compare_gt_iff_gt]; show _ < _; linarith)
  · have : |x.toRat| > |y.toRat| := by
      by_contra hc
      exact absurd (rx.mono ry (not_lt.1 hc)) (not_le.2 c)
    rw [compare_gt_iff_gt.2 c, compare_gt_iff_gt.2 this]

/-- The exception is real: 1 + 2^-60 and 1 - 2^-60 are reported equal in magnitude. -/
theorem C49_cmp_abs_normal_wrong : ∃ x y : DoubleDouble, x.Valid ∧ y.Valid ∧ x.toRat = 1 + 1 / 2 ^ 60 ∧ y.toRat = 1 - 1 / 2 ^ 60 ∧
    x.cmpAbsNormal y = .ok .eq := by
  refine ⟨⟨⟨2 ^ 52, 0, .normal, false⟩, ⟨2 ^ 52, -60, .normal, false⟩⟩, ⟨⟨2 ^ 52, 0, .normal, false⟩, ⟨2 ^ 52, -60, .normal, true⟩⟩,
    by decide +kernel, by decide +kernel, ?_, ?_, by decide +kernel⟩ <;>
  norm_num [DoubleFloat.toRat, toRat, signed, doubleS, Sem.default]

/-- With zero low parts it panics: comparing the magnitude of 1 with itself. -/
theorem C49_cmp_abs_normal_panics : ∃ x : DoubleDouble, DoubleFloat.fromBits doubleS 0x3ff0000000000000 = .ok x ∧
    x.cmpAbsNormal x = .error .assert :=
  ⟨⟨⟨2 ^ 52, 0, .normal, false⟩, ⟨0, -1023, .zero, false⟩⟩, by decide +kernel, by decide +kernel⟩

end Apf
