import Verif.Props.PpcScale
import Verif.Model.Api
import Verif.Props.Total
import Verif.Props.PpcMul
/-!
# C65: operators, compound assignments and the methods with default rounding

lib.rs:302-604 (default methods of `Float`) and lib.rs:622-752 (`float_common_impls!`).
-/

namespace Apf
open Spec IeeeFloat
variable {S : Sem}

private theorem nte (v : ℚ) : DirectedOK S .nearestTiesToEven v := directedOK_of_mode _ (by decide) (by decide) _

/-- **C65.** `+`, `-`, `*`, `/` deliver the correctly rounded result to nearest, ties to even; `%` the exact remainder of the truncated
quotient, with the sign of the dividend. -/
theorem C65_operators (h : S.OK) {x y : IeeeFloat S} (hx : x.Valid) (hy : y.Valid) (fx : x.isFinite = true) (fy : y.isFinite = true) :
    (∃ r, Api.add x y = .ok r ∧ r.value.Valid ∧ Rounds S .nearestTiesToEven (x.toRat + y.toRat) (x.sign && y.sign) r) ∧
    (∃ r, Api.sub x y = .ok r ∧ r.value.Valid ∧ Rounds S .nearestTiesToEven (x.toRat - y.toRat) (x.sign && !y.sign) r) ∧
    (∃ r, Api.mul x y = .ok r ∧ r.value.Valid ∧ Rounds S .nearestTiesToEven (x.toRat * y.toRat) (xor x.sign y.sign) r) ∧
    (y.toRat ≠ 0 → ∃ r, Api.div x y = .ok r ∧ r.value.Valid ∧ Rounds S .nearestTiesToEven (x.toRat / y.toRat) (xor x.sign y.sign) r) ∧
    (y.toRat ≠ 0 → ∃ r, Api.rem x y = .ok ⟨Status.OK, r⟩ ∧ r.Valid ∧ r.isFinite = true ∧ r.sign = x.sign ∧
      ∃ n : ℤ, RoundsToInt .towardZero (x.toRat / y.toRat) n ∧ r.toRat = x.toRat - n * y.toRat) := by
  have z : ∀ a b : Bool, zeroSum .nearestTiesToEven a b = (a && b) := by decide
  have z' : ∀ a b : Bool, zeroSum .nearestTiesToEven a (!b) = (a && !b) := by decide
  rw [← z, ← z']
  exact ⟨C04_add_correctly_rounded h hx hy fx fy _ (nte _), C05_sub_correctly_rounded h hx hy fx fy _ (nte _),
    C06_mul_correctly_rounded h hx hy fx fy _ (nte _), fun h0 => C07_div_correctly_rounded h hx hy fx fy h0 _ (nte _),
    fun h0 => C23_c_fmod h hx hy fx fy h0⟩

example := C65_operators singleS_ok ex15_valid exM3_valid rfl rfl

/-- **C65.** The compound assignments leave that value in the left operand. -/
theorem C65_assignments (h : S.OK) {x y : IeeeFloat S} (hx : x.Valid) (hy : y.Valid) (fx : x.isFinite = true) (fy : y.isFinite = true) :
    (∃ v st, Api.add_assign x y = .ok v ∧ v.Valid ∧ Rounds S .nearestTiesToEven (x.toRat + y.toRat) (x.sign && y.sign) ⟨st, v⟩) ∧
    (∃ v st, Api.sub_assign x y = .ok v ∧ v.Valid ∧ Rounds S .nearestTiesToEven (x.toRat - y.toRat) (x.sign && !y.sign) ⟨st, v⟩) ∧
    (∃ v st, Api.mul_assign x y = .ok v ∧ v.Valid ∧ Rounds S .nearestTiesToEven (x.toRat * y.toRat) (xor x.sign y.sign) ⟨st, v⟩) ∧
    (y.toRat ≠ 0 → ∃ v st, Api.div_assign x y = .ok v ∧ v.Valid ∧ Rounds S .nearestTiesToEven (x.toRat / y.toRat) (xor x.sign y.sign) ⟨st, v⟩) ∧
    (y.toRat ≠ 0 → ∃ v, Api.rem_assign x y = .ok v ∧ v.Valid ∧ v.isFinite = true ∧ v.sign = x.sign ∧
      ∃ n : ℤ, RoundsToInt .towardZero (x.toRat / y.toRat) n ∧ v.toRat = x.toRat - n * y.toRat) := by
  obtain ⟨⟨a, a1, a2⟩, ⟨b, b1, b2⟩, ⟨c, c1, c2⟩, d, e⟩ := C65_operators h hx hy fx fy
  refine ⟨⟨a.value, a.status, ?_, a2⟩, ⟨b.value, b.status, ?_, b2⟩, ⟨c.value, c.status, ?_, c2⟩, fun h0 => ?_, fun h0 => ?_⟩
  · unfold Api.add_assign; rw [a1]; rfl
  · unfold Api.sub_assign; rw [b1]; rfl
  · unfold Api.mul_assign; rw [c1]; rfl
  · obtain ⟨d, d1, d2⟩ := d h0
    refine ⟨d.value, d.status, ?_, d2⟩
    unfold Api.div_assign; rw [d1]; rfl
  · obtain ⟨e, e1, e2⟩ := e h0
    refine ⟨e, ?_, e2⟩
    unfold Api.rem_assign; rw [e1]; rfl

example := C65_assignments singleS_ok ex15_valid exM3_valid rfl rfl

/-- **C65.** For every pair of operands whatsoever, NaNs and infinities included, and for every float type, the compound assignment
stores the value the operator returns, and panics when it does. -/
theorem C65_assignment_is_operator {F : Type} [ApiFloat F] (x y : F) :
    Api.add_assign x y = (Api.add x y).map StatusAnd.value ∧ Api.sub_assign x y = (Api.sub x y).map StatusAnd.value ∧
    Api.mul_assign x y = (Api.mul x y).map StatusAnd.value ∧ Api.div_assign x y = (Api.div x y).map StatusAnd.value ∧
    Api.rem_assign x y = (Api.rem x y).map StatusAnd.value := by
  refine ⟨?_, ?_, ?_, ?_, ?_⟩
  · unfold Api.add_assign; cases Api.add x y <;> rfl
  · unfold Api.sub_assign; cases Api.sub x y <;> rfl
  · unfold Api.mul_assign; cases Api.mul x y <;> rfl
  · unfold Api.div_assign; cases Api.div x y <;> rfl
  · unfold Api.rem_assign; cases Api.rem x y <;> rfl

/-- **C65.** The default value is positive zero. -/
theorem C65_default (h : S.OK) : ∃ z, (Api.default : M (IeeeFloat S)) = .ok z ∧ z.Valid ∧ z.toRat = 0 ∧ z.sign = false ∧ z.isFinite = true :=
  ⟨_, rfl, zero_valid, toRat_zero (x := ZERO S) rfl, rfl, rfl⟩

example := C65_default halfS_ok

/-- **C65.** Parsing with `FromStr` rounds a decimal or hexadecimal literal to nearest, ties to even, and rejects everything that is not
a literal. -/
theorem C65_from_str (h : S.OK) (hp : S.precision ≤ 120) (sg : LitSign) :
    (∀ {t : List Char} {v : ℚ}, t.length < 2 ^ 27 → IsDec t v →
      ∃ r st, (Api.from_str (sg.chars ++ t) : M (Except ParseError (IeeeFloat S))) = .ok (.ok r) ∧ r.Valid ∧ r.sign = (sg == .minus) ∧
        Rounds S .nearestTiesToEven (signed (sg == .minus) v) (sg == .minus) ⟨st, r⟩) ∧
    (∀ {c : Char} {t : List Char} {v : ℚ}, c = 'x' ∨ c = 'X' → t.length < 2 ^ 28 → IsHex t v →
      ∃ r st, (Api.from_str (sg.chars ++ '0' :: c :: t) : M (Except ParseError (IeeeFloat S))) = .ok (.ok r) ∧ r.Valid ∧
        Rounds S .nearestTiesToEven (signed (sg == .minus) v) (sg == .minus) ⟨st, r⟩) ∧
    (∀ {s : List Char}, (¬ ∃ l, Denotes s l) → ∃ e, (Api.from_str s : M (Except ParseError (IeeeFloat S))) = .ok (.error e)) := by
  refine ⟨fun hlen ht => ?_, fun hc hlen ht => ?_, fun hs => ?_⟩
  · obtain ⟨r, st, r1, r2, r3, r4, -⟩ := C31_nearest h hp (le_refl 23) sg hlen ht (Or.inl rfl)
    refine ⟨r.value, st, ?_, r2, r4, r3⟩
    unfold Api.from_str
    show (do let r ← fromStrR S 23 _ .nearestTiesToEven; _) = _
    rw [r1]; rfl
  · obtain ⟨r, r1, r2, r3, -⟩ := C30_hex h (by omega) 23 sg hc hlen ht .nearestTiesToEven
    refine ⟨r.value, r.status, ?_, r2, r3⟩
    unfold Api.from_str
    show (do let r ← fromStrR S 23 _ .nearestTiesToEven; _) = _
    rw [r1]; rfl
  · obtain ⟨e, he⟩ := C32_reject (S := S) 23 hs .nearestTiesToEven
    refine ⟨e, ?_⟩
    unfold Api.from_str
    show (do let r ← fromStrR S 23 _ .nearestTiesToEven; _) = _
    rw [he]; rfl

example := C65_from_str singleS_ok (by decide) .minus

/-- **C65.** The methods without a rounding argument: conversions from integers, `scalbn`, `frexp` and `mul_add` round to nearest, ties
to even; conversions to integers truncate. -/
theorem C65_shorthands (h : S.OK) {x : IeeeFloat S} (hx : x.Valid) (fx : x.isFinite = true) :
    (∀ n : ℕ, n < 2 ^ 128 → ∃ r, (Api.from_u128 n : M (StatusAnd (IeeeFloat S))) = .ok r ∧ r.value.Valid ∧ Rounds S .nearestTiesToEven n false r) ∧
    (∀ n : ℤ, -2 ^ 127 ≤ n → n < 2 ^ 127 →
      ∃ r, (Api.from_i128 n : M (StatusAnd (IeeeFloat S))) = .ok r ∧ r.value.Valid ∧ Rounds S .nearestTiesToEven n false r) ∧
    (∀ n : ℤ, ∃ r st, Api.scalbn x n = .ok r ∧ r.Valid ∧ r.sign = x.sign ∧ Rounds S .nearestTiesToEven (x.toRat * 2 ^ n) x.sign ⟨st, r⟩) ∧
    (x.toRat ≠ 0 → ∃ f e, Api.frexp x = .ok (f, e) ∧ f.Valid ∧ f.isFinite = true ∧ x.toRat = f.toRat * 2 ^ e ∧ 1 / 2 ≤ |f.toRat| ∧ |f.toRat| < 1) ∧
    (∀ {y z : IeeeFloat S}, y.Valid → z.Valid → y.isFinite = true → z.isFinite = true → ¬ FmaWrong S .nearestTiesToEven (x.toRat * y.toRat) z.toRat →
      ∃ r, Api.mul_add x y z = .ok r ∧ r.value.Valid ∧
        Rounds S .nearestTiesToEven (x.toRat * y.toRat + z.toRat) (xor x.sign y.sign && z.sign) r) ∧
    (∀ w : ℕ, 1 ≤ w → w ≤ 128 → ¬ (x.isZero = true ∧ x.sign = true) →
      ∃ r, Api.to_u128 x w = .ok r ∧ ∃ ex, ConvertsToInt 0 (2 ^ w - 1) .towardZero x.toRat r.status r.value ex) ∧
    (∀ w : ℕ, 2 ≤ w → w ≤ 128 →
      ∃ r, Api.to_i128 x w = .ok r ∧ ∃ ex, ConvertsToInt (-2 ^ (w - 1)) (2 ^ (w - 1) - 1) .towardZero x.toRat r.status r.value ex) := by
  refine ⟨fun n hn => C17_from_u128 h hn _, fun n h1 h2 => C17_from_i128 h h1 h2 _, fun n => C25_scalbn h hx fx n _ (nte _),
    fun h0 => C27_frexp h hx fx h0 _, fun hy hz fy fz hE => ?_, fun w w1 w2 hz => ?_, fun w w1 w2 => ?_⟩
  · have z : ∀ a b : Bool, zeroSum .nearestTiesToEven a b = (a && b) := by decide
    rw [← z]
    exact mulAddR_exact h hx hy hz fx fy fz _ (.of (nte _)) hE
  · obtain ⟨r, r1, r2⟩ := C18_to_u128 h hx fx hz w1 w2 .towardZero
    refine ⟨⟨r.status, r.value⟩, ?_, r.isExact, r2⟩
    show (do let q ← (do let o ← toU128R x w .towardZero; _); _) = _
    rw [r1]; rfl
  · obtain ⟨r, r1, r2⟩ := C19_to_i128 h hx fx w1 w2 .towardZero
    refine ⟨⟨r.status, r.value⟩, ?_, r.isExact, r2⟩
    show (do let q ← (do let o ← toI128R x w .towardZero; _); _) = _
    rw [r1]; rfl

example := C65_shorthands singleS_ok (x := ⟨3 * 2 ^ 22, 1, .normal, true⟩) (by decide) rfl

/-- **C65.** The operators on DoubleDouble: quotients and remainders as in C50 and C52; sums, differences and products within the error
bounds of C57 and C58. -/
theorem C65_pair_operators (h : S.Pair) (hp : 4 ≤ S.precision) {x y : DoubleFloat S} :
    (x.Fits → y.Fits → y.toRat ≠ 0 → PairOutcome S .nearestTiesToEven (x.toRat / y.toRat) (xor x.isNegative y.isNegative) (Api.div x y)) ∧
    (x.Fits → y.Fits → y.toRat ≠ 0 → ∃ r, Api.rem x y = .ok ⟨Status.OK, r⟩ ∧ r.Fits ∧ r.isNegative = x.isNegative ∧
      ∃ n : ℤ, RoundsToInt .towardZero (x.toRat / y.toRat) n ∧ r.toRat = x.toRat - n * y.toRat) ∧
    (x.Valid → x.Canonical → y.Valid → y.Canonical → |y.hi.toRat| < S.fmt.largest → ∃ r, Api.add x y = .ok r ∧ r.value.Valid ∧
      (PairOverflow S (x.toRat + y.toRat) r ∨
       (r.value.Canonical ∧ |r.value.toRat - (x.toRat + y.toRat)| ≤ 5 * 2 ^ (-2 * (S.precision : ℤ)) * (|x.toRat| + |y.toRat|)))) ∧
    (x.Valid → x.Canonical → y.Valid → y.Canonical → |y.hi.toRat| < S.fmt.largest → ∃ r, Api.sub x y = .ok r ∧ r.value.Valid ∧
      (PairOverflow S (x.toRat - y.toRat) r ∨
       (r.value.Canonical ∧ |r.value.toRat - (x.toRat - y.toRat)| ≤ 5 * 2 ^ (-2 * (S.precision : ℤ)) * (|x.toRat| + |y.toRat|)))) ∧
    (x.Valid → x.Canonical → y.Valid → y.Canonical → 2 ^ (S.minExp + 1) ≤ |x.toRat * y.toRat| →
      |x.toRat * y.toRat| < S.fmt.largest * (1 - 2 * 2 ^ (-(S.precision : ℤ))) → ∃ r, Api.mul x y = .ok r ∧ r.value.Valid ∧ r.value.Canonical ∧
      |r.value.toRat - x.toRat * y.toRat| ≤ 10 * 2 ^ (-2 * (S.precision : ℤ)) * |x.toRat * y.toRat| + 2 * 2 ^ (S.minExp - S.precision + 1)) := by
  refine ⟨fun hx hy h0 => C50_div h hx hy h0 _, fun hx hy h0 => C52_c_fmod h hx hy h0, fun hx cx hy cy hl => ?_, fun hx cx hy cy hl => ?_,
    fun hx cx hy cy b1 b2 => ?_⟩
  · obtain ⟨r, r1, r2, r3⟩ := C57_add_below_largest_partial h hp hx cx hy cy hl
    exact ⟨r, r1, r2, r3.imp id fun q => ⟨q.1, q.2.2.2.1⟩⟩
  · obtain ⟨r, r1, r2, r3⟩ := C57_sub_below_largest_partial h hp hx cx hy cy hl
    exact ⟨r, r1, r2, r3.imp id fun q => ⟨q.1, q.2.2.2.1⟩⟩
  · obtain ⟨r, r1, r2, r3, r4, r5, r6, -⟩ := C58_mul_in_range_partial h hp hx cx hy cy b1 b2
    exact ⟨r, r1, r2, r3, r6⟩

example := C65_pair_operators doubleS_pair (by decide) (x := ⟨⟨2 ^ 52, 0, .normal, false⟩, ⟨2 ^ 52, -60, .normal, true⟩⟩)
  (y := ⟨⟨3 * 2 ^ 51, 0, .normal, false⟩, ZERO doubleS⟩)

/-- **C65.** The methods without a rounding argument on DoubleDouble: conversions from integers, `scalbn` and `frexp` round to nearest,
ties to even; conversions to integers truncate. -/
theorem C65_pair_shorthands (h : S.Pair) {x : DoubleFloat S} :
    (∀ n : ℕ, n < 2 ^ 128 → PairOutcome S .nearestTiesToEven n false (Api.from_u128 n)) ∧
    (128 ≤ S.maxExp → ∀ n : ℤ, -2 ^ 127 ≤ n → n < 2 ^ 127 → ∃ r, Api.from_i128 n = .ok r ∧ PairRounds S .nearestTiesToEven n false r) ∧
    (x.Valid → x.Finite → ∀ n : ℤ, ∃ r s t, Api.scalbn x n = .ok r ∧ Rounds S .nearestTiesToEven (x.hi.toRat * 2 ^ n) x.hi.sign ⟨s, r.hi⟩ ∧
      Rounds S .nearestTiesToEven (x.lo.toRat * 2 ^ n) x.lo.sign ⟨t, r.lo⟩) ∧
    (x.Valid → x.Finite → x.hi.toRat ≠ 0 → ∃ f e st, Api.frexp x = .ok (f, e) ∧ x.hi.toRat = f.hi.toRat * 2 ^ e ∧
      1 / 2 ≤ |f.hi.toRat| ∧ |f.hi.toRat| < 1 ∧ Rounds S .nearestTiesToEven (x.lo.toRat * 2 ^ (-e)) x.lo.sign ⟨st, f.lo⟩) ∧
    (x.Fits → ¬ (x.isZero = true ∧ x.isNegative = true) → ∀ w : ℕ, 1 ≤ w → w ≤ 128 →
      ∃ r, Api.to_u128 x w = .ok r ∧ ∃ ex, ConvertsToInt 0 (2 ^ w - 1) .towardZero x.toRat r.status r.value ex) ∧
    (x.Fits → ∀ w : ℕ, 2 ≤ w → w ≤ 128 →
      ∃ r, Api.to_i128 x w = .ok r ∧ ∃ ex, ConvertsToInt (-2 ^ (w - 1)) (2 ^ (w - 1) - 1) .towardZero x.toRat r.status r.value ex) := by
  refine ⟨fun n hn => C54_from_u128 h hn _, fun hM n h1 h2 => C54_from_i128 h hM h1 h2 _, fun hx fx n => ?_, fun hx fx h0 => ?_,
    fun hx hz w w1 w2 => ?_, fun hx w w1 w2 => ?_⟩
  · obtain ⟨a, s, a1, a2, a3, a4⟩ := C25_scalbn h.ok hx.1 fx.1 n .nearestTiesToEven (nte _)
    obtain ⟨b, t, b1, b2, b3, b4⟩ := C25_scalbn h.ok hx.2 fx.2 n .nearestTiesToEven (nte _)
    refine ⟨⟨a, b⟩, s, t, ?_, a4, b4⟩
    show DoubleFloat.scalbnR x n .nearestTiesToEven = _
    unfold DoubleFloat.scalbnR
    rw [a1, M.ok_bind, b1]; rfl
  · obtain ⟨f, e, st, f1, f2, f3, f4, f5, f6, f7, f8⟩ := C64_frexp_parts h hx fx h0 .nearestTiesToEven
    exact ⟨f, e, st, f1, f4, f5, f6, f8⟩
  · obtain ⟨r, r1, r2⟩ := C54_to_u128 h hx hz w1 w2 .towardZero
    refine ⟨⟨r.status, r.value⟩, ?_, r.isExact, r2⟩
    show (do let q ← (do let o ← DoubleFloat.toU128R x w .towardZero; _); _) = _
    rw [r1]; rfl
  · obtain ⟨r, r1, r2⟩ := C54_to_i128 h hx w1 w2 .towardZero
    refine ⟨⟨r.status, r.value⟩, ?_, r.isExact, r2⟩
    show (do let q ← (do let o ← DoubleFloat.toI128R x w .towardZero; _); _) = _
    rw [r1]; rfl

/-- The hypotheses are met by 1.5 and -3: the operators and assignments on them. -/
example : (Api.add ex15 exM3 = .ok ⟨Status.OK, ⟨3 * 2 ^ 22, 0, .normal, true⟩⟩) ∧ Api.sub_assign ex15 exM3 = .ok ⟨9 * 2 ^ 20, 2, .normal, false⟩ ∧
    Api.rem exM3 ex15 = .ok ⟨Status.OK, ⟨0, -127, .zero, true⟩⟩ ∧ Api.to_i128 ex15 8 = .ok ⟨{ inexact := true }, 1⟩ := by
  decide +kernel

end Apf
