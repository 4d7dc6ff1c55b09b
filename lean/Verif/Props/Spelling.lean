import Verif.Props.Monotone
/-! # C91: the spelling of a number does not matter -/

namespace Apf
open Spec IeeeFloat
variable {S : Sem}

/-- What the conversion of the decimal number `N * 10^D` (`N` not a multiple of ten, with `d + 1` digits and the limbs `ds`) computes. -/
def decCore (S : Sem) (fuel : ℕ) (mode : Round) (N d : ℕ) (D : ℤ) (ds : List ℕ) : M (StatusAnd (IeeeFloat S)) :=
  if (D + d - 1) * 42039 ≥ 12655 * S.maxExp then .ok (overflowResult S mode)
  else if (D + d + 1) * 28738 ≤ 8651 * (S.minExp - S.precision) then
    .ok ((Status.UNDERFLOW ||| Status.INEXACT).and (if mode = .towardPositive then SMALLEST S else ZERO S))
  else do
    let p5 ← pow5 D.natAbs
    decAttempts S mode ds D p5 fuel 0

set_option maxHeartbeats 1000000 in
theorem decConvert_core (hS : S.OK) {m ip fp t : List Char} (hm : IsSignificand 10 m ip fp) (hlen : (m ++ t).length < 134217728)
    {st : DecSt} {e E : ℤ} (hsat : SatTo e E) (hs : DScan st (ip ++ fp) (digitPos ip) ip.length) {first : ℕ}
    (hf : st.firstSig = some first) {v : ℚ} (hv : v = significandValue 10 ip fp * 10 ^ E) (mode : Round) (fuel : ℕ) :
    ∃ (N d : ℕ) (D : ℤ) (ds : List ℕ), v = N * 10 ^ D ∧ ¬ 10 ∣ N ∧ 10 ^ d ≤ N ∧ N < 10 ^ (d + 1) ∧ Limbs ds ∧ Canon ds ∧ val ds = N ∧
      decConvert S fuel (m ++ t) mode st first e = decCore S fuel mode N d D ds := by
  have h3 := hS.p_ge
  have h126 := hS.p_le
  have hmin := hS.min_ge
  have hmin' := hS.min_lt
  have hmax := hS.max_le
  have hpm := hS.p_max
  obtain ⟨i, j, a1, a2, a3, a4, a5, a6, a7, a8⟩ := hs.nz _ hf
  have hdig : ∀ c ∈ ip ++ fp, IsDigit 10 c := by
    intro c hc
    rcases List.mem_append.1 hc with hc | hc
    · exact hm.1 c hc
    · exact hm.2.1 c hc
  obtain ⟨n1, n2⟩ := number_slice hdig a1 a2 a5
  obtain ⟨N, hN⟩ : ∃ N, N = number 10 ((ip ++ fp).take (j + 1)) := ⟨_, rfl⟩
  rw [← hN] at a6 a7 a8 n1 n2
  have hL : (ip ++ fp).length < 134217728 := by
    refine lt_of_le_of_lt ?_ hlen
    rcases hm.2.2.2 with ⟨rfl, rfl⟩ | rfl <;> simp
    omega
  rw [List.length_append] at a2 hL
  obtain ⟨D, hD⟩ : ∃ D : ℤ, D = E + (ip.length - 1 - j) := ⟨_, rfl⟩
  have hvD : v = N * 10 ^ D := by
    rw [hv, hD]
    unfold significandValue
    rw [a7, List.length_append]
    push_cast
    have e1 : (10 : ℚ) ^ (E + ((ip.length : ℤ) - 1 - j)) = 10 ^ E * 10 ^ (ip.length + fp.length - 1 - j) / 10 ^ fp.length := by
      rw [eq_div_iff (by positivity), ← zpow_natCast, ← zpow_natCast, ← zpow_add₀ (by norm_num), ← zpow_add₀ (by norm_num)]
      congr 1; omega
    rw [e1]; ring
  have hst := hs.dot
  have hPi : digitPos ip i = if i < ip.length then i else i + 1 := rfl
  have hPj : digitPos ip j = if j < ip.length then j else j + 1 := rfl
  obtain ⟨D1, hD1⟩ : ∃ D1, D1 = sat32 (e + (ip.length - 1 - j)) := ⟨_, rfl⟩
  have hadj : adjustDecExp st e = .ok D1 := by
    unfold adjustDecExp
    rw [hst, a4]
    by_cases hjl : j < ip.length
    · rw [hPj, if_pos hjl, if_pos hjl, asI32_of_lt (by omega), hD1]
      congr 2; omega
    · rw [hPj, if_neg hjl, if_neg (by omega), asI32_of_lt (by omega), hD1]
      congr 2; omega
  have hdigits : usub (digitPos ip j - digitPos ip i + 1) (decide (ip.length > digitPos ip i ∧ ip.length < digitPos ip j)).toNat = .ok (j - i + 1) := by
    by_cases hc : ip.length > digitPos ip i ∧ ip.length < digitPos ip j
    · rw [decide_eq_true hc, usub_ok (by simp)]
      congr 1
      rw [hPi, hPj] at *
      split_ifs at hc ⊢ <;> simp <;> omega
    · rw [decide_eq_false hc, usub_ok (by simp)]
      congr 1
      rw [hPi, hPj] at *
      split_ifs at hc ⊢ <;> simp <;> omega
  have hsl := digits_slice (t := t) hm a1 (by rw [List.length_append]; exact a2)
  obtain ⟨ds, s1, s2, s3, s4⟩ := decSigLoop_ok (((m ++ t).take (digitPos ip j + 1)).drop (digitPos ip i) |>.length |> (· + 1))
    (((m ++ t).take (digitPos ip j + 1)).drop (digitPos ip i)) [] (by simp) (by
      rw [hsl]
      exact fun c hc => hdig c (List.mem_of_mem_take (List.mem_of_mem_drop hc))) (by intro x hx; simp at hx)
  have s5 := s3
  rw [hsl, n1] at s5
  refine ⟨N, j - i, D, ds, hvD, a8, a6, n2, s2, s4 (Or.inl rfl), by rw [s5]; simp, ?_⟩
  unfold decConvert decCore
  rw [hadj, M.ok_bind, a4, a3, hst, usub_ok (by rw [hPi, hPj]; split_ifs <;> omega), M.ok_bind, hdigits, M.ok_bind, asI32_of_lt (by omega),
    i32_ok (by omega) (by omega), M.ok_bind]
  obtain ⟨d, hd⟩ : ∃ d, d = j - i := ⟨_, rfl⟩
  rw [← hd] at a6 n2 ⊢
  obtain ⟨nE, hnE⟩ : ∃ x, x = sat32 (D1 + (((d + 1 : ℕ) : ℤ) - 1)) := ⟨_, rfl⟩
  dsimp only
  rw [← hnE, i32_ok (by omega) (by omega), M.ok_bind]
  have hrel : (nE = D + d ∧ D1 = D) ∨ (2000000000 < nE ∧ 2000000000 < D + d) ∨ (nE < -2000000000 ∧ D + d < -2000000000) := by
    unfold SatTo at hsat
    unfold sat32 at hnE hD1
    omega
  by_cases hbig : sat32 (sat32 (nE - 1) * 42039) ≥ 12655 * S.maxExp
  · rw [if_pos hbig, if_pos]
    unfold sat32 at hbig
    omega
  · have hbig' : ¬ (D + d - 1) * 42039 ≥ 12655 * S.maxExp := by unfold sat32 at hbig; omega
    rw [if_neg hbig, if_neg hbig', asI32_of_lt (by omega), i32_ok (by omega) (by omega), M.ok_bind, i32_ok (by omega) (by omega), M.ok_bind]
    by_cases htiny : sat32 (sat32 (nE + 1) * 28738) ≤ 8651 * (S.minExp - S.precision)
    · have htiny' : (D + d + 1) * 28738 ≤ 8651 * (S.minExp - S.precision) := by unfold sat32 at htiny; omega
      rw [if_pos htiny, if_pos htiny']
    · rw [if_neg htiny]
      unfold sat32 at hbig htiny
      have hre : nE = D + d ∧ D1 = D := by omega
      obtain ⟨r1, r2⟩ := hre
      have htiny' : ¬ (D + d + 1) * 28738 ≤ 8651 * (S.minExp - S.precision) := by omega
      rw [if_neg htiny', r2, s1, M.ok_bind]
      have hpw : (if D < 0 then -D else D) = (D.natAbs : ℤ) := by split_ifs <;> omega
      rw [hpw, i32_ok (by omega) (by omega), M.ok_bind, Int.toNat_natCast]

theorem digits_unique {N d d' : ℕ} (h1 : 10 ^ d ≤ N) (h2 : N < 10 ^ (d + 1)) (h1' : 10 ^ d' ≤ N) (h2' : N < 10 ^ (d' + 1)) : d = d' := by
  have a := (Nat.pow_lt_pow_iff_right (by norm_num : 1 < 10)).1 (lt_of_le_of_lt h1 h2')
  have b := (Nat.pow_lt_pow_iff_right (by norm_num : 1 < 10)).1 (lt_of_le_of_lt h1' h2)
  omega

/-- What `from_decimal_string` computes depends on the number only. -/
theorem fromDecString_core (hS : S.OK) {s : List Char} (hlen : s.length < 134217728) {v : ℚ} (hs : IsDec s v) (mode : Round) (fuel : ℕ) :
    (v = 0 ∧ fromDecString S fuel s mode = .ok (.ok (Status.OK.and (ZERO S)))) ∨
    ∃ (N d : ℕ) (D : ℤ) (ds : List ℕ), v = N * 10 ^ D ∧ ¬ 10 ∣ N ∧ 10 ^ d ≤ N ∧ N < 10 ^ (d + 1) ∧ Limbs ds ∧ Canon ds ∧ val ds = N ∧
      fromDecString S fuel s mode = (do let r ← decCore S fuel mode N d D ds; .ok (.ok r)) := by
  obtain ⟨m, ip, fp, t, E, hm, rfl, ht, hv⟩ := isDec_iff.1 hs
  obtain ⟨st, e, e1, e2, e3⟩ := decLoop_ok hm rfl ht
  unfold fromDecString
  rw [e1]
  dsimp only
  have hany : st.anyDigits = true := by
    rw [e3.any]
    cases hh : ip ++ fp with
    | nil => exact absurd hh hm.2.2.1
    | cons => rfl
  rw [hany, if_neg (by simp)]
  cases hf : st.firstSig with
  | none =>
    have hz := e3.zero hf
    left
    refine ⟨by rw [hv]; unfold significandValue; rw [hz]; simp, rfl⟩
  | some first =>
    right
    obtain ⟨N, d, D, ds, b1, b2, b3, b4, b5, b6, b7, b8⟩ := decConvert_core hS hm hlen e2 e3 hf hv mode fuel
    refine ⟨N, d, D, ds, b1, b2, b3, b4, b5, b6, b7, ?_⟩
    dsimp only
    rw [b8]

theorem fromDecString_congr (hS : S.OK) {s s' : List Char} (hlen : s.length < 134217728) (hlen' : s'.length < 134217728) {v : ℚ} (hs : IsDec s v)
    (hs' : IsDec s' v) (mode : Round) (fuel : ℕ) : fromDecString S fuel s mode = fromDecString S fuel s' mode := by
  have nz : ∀ {N d : ℕ} {D : ℤ}, 10 ^ d ≤ N → (0 : ℚ) ≠ N * 10 ^ D := by
    intro N d D h
    have : 0 < N := lt_of_lt_of_le (by positivity) h
    positivity
  rcases fromDecString_core hS hlen hs mode fuel with ⟨z, e⟩ | ⟨N, d, D, ds, b1, b2, b3, b4, b5, b6, b7, b8⟩
  · rcases fromDecString_core hS hlen' hs' mode fuel with ⟨-, e'⟩ | ⟨N, d, D, ds, b1, b2, b3, b4, b5, b6, b7, b8⟩
    · rw [e, e']
    · exact absurd (z ▸ b1) (nz b3)
  · rcases fromDecString_core hS hlen' hs' mode fuel with ⟨z, -⟩ | ⟨N', d', D', ds', c1, c2, c3, c4, c5, c6, c7, c8⟩
    · exact absurd (z ▸ b1) (nz b3)
    · obtain ⟨rfl, rfl⟩ := dec_repr_unique b2 c2 (by rw [← b1, ← c1])
      obtain rfl := digits_unique b3 b4 c3 c4
      obtain rfl := canon_unique b5 c5 b6 c6 (by rw [b7, c7])
      rw [b8, c8]

/-- **C91.** Two decimal literals of the same number and sign are parsed alike: the same value and the same flags, in every rounding mode (also where C46
says that the result is not correctly rounded). -/
theorem C91_decimal (h : S.OK) (fuel : ℕ) (sg sg' : LitSign) (hsg : (sg == .minus) = (sg' == .minus)) {t t' : List Char} (hlen : t.length < 2 ^ 27)
    (hlen' : t'.length < 2 ^ 27) {v : ℚ} (ht : IsDec t v) (ht' : IsDec t' v) (mode : Round) :
    fromStrR S fuel (sg.chars ++ t) mode = fromStrR S fuel (sg'.chars ++ t') mode := by
  have key : ∀ (sg : LitSign) {t : List Char}, IsDec t v → fromStrR S fuel (sg.chars ++ t) mode = (do
      let r ← fromDecString S fuel t (mode.negateIf (sg == .minus))
      match r with
      | .ok v => .ok (.ok (v.map (·.negateIf (sg == .minus))))
      | .error e => .ok (.error e)) := by
    intro sg t ht
    obtain ⟨c, cs, hcs, hc⟩ := dec_head ht
    rw [fromStrR_sign fuel sg mode (fun _ => by
      obtain ⟨n1, n2, -⟩ := digit_ne hc
      rw [hcs]; simp [n1, n2])]
    unfold fromStrBody
    rw [dec_special ht]
    have e1 : fromStrNumber S fuel t (mode.negateIf (sg == .minus)) = fromDecString S fuel t (mode.negateIf (sg == .minus)) := by
      unfold fromStrNumber
      rw [if_neg (by rw [hcs]; simp)]
      split
      · rw [if_neg (dec_not_hex ht)]
      · rfl
    dsimp only
    rw [e1]
    rfl
  rw [key sg ht, key sg' ht', hsg, fromDecString_congr h (by omega) (by omega) ht ht' _ fuel]

/-- **C91.** The same for DoubleDouble. -/
theorem C91_decimal_pair (h : (fallbackS S).OK) (fuel : ℕ) (sg sg' : LitSign) (hsg : (sg == .minus) = (sg' == .minus)) {t t' : List Char}
    (hlen : t.length < 2 ^ 27) (hlen' : t'.length < 2 ^ 27) {v : ℚ} (ht : IsDec t v) (ht' : IsDec t' v) (mode : Round) :
    DoubleFloat.fromStrR S fuel (sg.chars ++ t) mode = DoubleFloat.fromStrR S fuel (sg'.chars ++ t') mode := by
  unfold DoubleFloat.fromStrR
  rw [C91_decimal h fuel sg sg' hsg hlen hlen' ht ht' mode]

/-- Two results of the same datum and sign are the same float, unless they are NaN. -/
theorem same_result (h : S.OK) {mode : Round} {v : ℚ} {zs : Bool} {r r' : StatusAnd (IeeeFloat S)} (hv : r.value.Valid) (hv' : r'.value.Valid)
    (hr : Rounds S mode v zs r) (hr' : Rounds S mode v zs r') :
    r.status = r'.status ∧ r.value.datum = r'.value.datum ∧ r.value.sign = r'.value.sign ∧ bitwiseEq r.value r'.value = true := by
  obtain ⟨e1, e2, e3⟩ := rounds_unique hr hr'
  refine ⟨e3, e1, e2, ?_⟩
  by_cases nx : r.value.category = .nan
  · have ny : r'.value.category = .nan := by
      have : r'.value.datum = .nan := by rw [← e1]; simp [datum, nx]
      unfold datum at this
      cases c : r'.value.category <;> rw [c] at this <;> simp_all
    have hn : S.nonfinite = .nanOnly := by
      cases hS : S.nonfinite with
      | ieee754 => exact absurd (by simp [datum, nx]) (rounds_not_nan hS hr)
      | nanOnly => rfl
    have hv1 : r.value.sig = S.nanSignificandBase := by
      unfold Valid at hv; rw [nx] at hv; dsimp only at hv; rw [hn] at hv; exact hv
    have hv2 : r'.value.sig = S.nanSignificandBase := by
      unfold Valid at hv'; rw [ny] at hv'; dsimp only at hv'; rw [hn] at hv'; exact hv'
    simp [bitwiseEq, nx, ny, isNegative, e2, hv1, hv2, isFiniteNonZero, isFinite, isNan]
  · obtain ⟨s1, s2, s3, s4⟩ := same_of_datum h hv hv' nx e1
    unfold bitwiseEq
    rw [if_neg (by simp [s1, isNegative, s2])]
    cases c : r.value.category with
    | infinity => simp
    | zero => simp
    | nan => exact absurd c nx
    | normal => simp [s3 c]

/-- **C91.** In the modes rounding to nearest any two literals of the same number and sign, decimal or hexadecimal, give the same value. -/
theorem C91_nearest (h : S.OK) (hp : S.precision ≤ 120) {fuel : ℕ} (hfuel : 23 ≤ fuel) {s s' : List Char} {neg : Bool} {v : ℚ}
    (hs : Denotes s (.num neg v)) (hs' : Denotes s' (.num neg v)) (hlen : s.length < 2 ^ 27) (hlen' : s'.length < 2 ^ 27) {mode : Round}
    (hm : mode = .nearestTiesToEven ∨ mode = .nearestTiesToAway) :
    ∃ r r', fromStrR S fuel s mode = .ok (.ok r) ∧ fromStrR S fuel s' mode = .ok (.ok r') ∧ bitwiseEq r.value r'.value = true ∧
      r.value.sign = neg ∧ r.status.overflow = r'.status.overflow := by
  have key : ∀ {s : List Char}, Denotes s (.num neg v) → s.length < 2 ^ 27 →
      ∃ r st, fromStrR S fuel s mode = .ok (.ok r) ∧ r.value.Valid ∧ Rounds S mode (signed neg v) neg ⟨st, r.value⟩ ∧ r.value.sign = neg ∧
        r.status.overflow = st.overflow := by
    intro s hs hl
    cases hs with
    | hex sg c t v hc ht =>
      obtain ⟨r, r1, r2, r3, r4⟩ := C30_hex h (by omega) fuel sg hc (t := t) (by simp at hl; omega) ht mode
      exact ⟨r, r.status, r1, r2, r3, r4, rfl⟩
    | dec sg t v ht =>
      obtain ⟨r, st, r1, r2, r3, r4, r5, -⟩ := C31_nearest h hp hfuel sg (t := t) (by simp at hl; omega) ht hm
      exact ⟨r, st, r1, r2, r3, r4, r5⟩
  obtain ⟨r, st, r1, r2, r3, r4, r5⟩ := key hs hlen
  obtain ⟨r', st', q1, q2, q3, q4, q5⟩ := key hs' hlen'
  obtain ⟨e1, e2, e3, e4⟩ := same_result h (r := ⟨st, r.value⟩) (r' := ⟨st', r'.value⟩) r2 q2 r3 q3
  dsimp only at e1
  exact ⟨r, r', r1, q1, e4, r4, by rw [r5, q5, e1]⟩
/-- **C91.** Two hexadecimal literals of the same number and sign give the same value and the same flags in every mode. -/
theorem C91_hex (h : S.OK) (hp : S.precision ≤ 125) (fuel : ℕ) (sg sg' : LitSign) (hsg : (sg == .minus) = (sg' == .minus)) {c c' : Char}
    (hc : c = 'x' ∨ c = 'X') (hc' : c' = 'x' ∨ c' = 'X') {t t' : List Char} (hlen : t.length < 2 ^ 28) (hlen' : t'.length < 2 ^ 28) {v : ℚ}
    (ht : IsHex t v) (ht' : IsHex t' v) (mode : Round) :
    ∃ r r', fromStrR S fuel (sg.chars ++ '0' :: c :: t) mode = .ok (.ok r) ∧ fromStrR S fuel (sg'.chars ++ '0' :: c' :: t') mode = .ok (.ok r') ∧
      bitwiseEq r.value r'.value = true ∧ r.status = r'.status := by
  obtain ⟨r, r1, r2, r3, -⟩ := C30_hex h hp fuel sg hc hlen ht mode
  obtain ⟨r', q1, q2, q3, -⟩ := C30_hex h hp fuel sg' hc' hlen' ht' mode
  rw [← hsg] at q3
  obtain ⟨e1, -, -, e4⟩ := same_result h r2 q2 r3 q3
  exact ⟨r, r', r1, q1, e4, e1⟩

/-- **C91, the limit.** In a directed mode a decimal and a hexadecimal literal of the same number may give different values (the decimal one is wrong, C46):
`9 * 2^-56` rounded toward zero. -/
theorem C91_directed_differs : Denotes "0x9p-56".toList (.num false (9 / 2 ^ 56)) ∧ Denotes nineLit (.num false (9 / 2 ^ 56)) ∧
    ∃ r r', fromStrR singleS 23 "0x9p-56".toList .towardZero = .ok (.ok r) ∧ fromStrR singleS 23 nineLit .towardZero = .ok (.ok r') ∧
      bitwiseEq r.value r'.value = false := by
  refine ⟨?_, ?_, ⟨Status.OK, ⟨9437184, -53, .normal, false⟩⟩, ⟨Status.INEXACT, ⟨9437183, -53, .normal, false⟩⟩, by decide +kernel, by decide +kernel, by decide +kernel⟩
  · refine Denotes.hex .none 'x' "9p-56".toList _ (Or.inl rfl) ⟨"9".toList, "9".toList, [], "-56".toList, "56".toList, -56, ?_, ?_, by decide, Or.inl rfl, ?_⟩
    · unfold IsSignificand; exact ⟨by decide, by decide, by decide, Or.inl ⟨rfl, rfl⟩⟩
    · exact ⟨by decide, Or.inr (Or.inr ⟨rfl, by decide⟩)⟩
    · rw [significandValue, show number 16 ("9".toList ++ []) = 9 by decide]; norm_num
  · exact Denotes.dec .none nineLit _ nineLit_dec

/-- The hypotheses are met: `12.5e-1`, `1.25` and `0x1.4p0`. -/
example : IsDec "12.5e-1".toList (5 / 4) ∧ IsDec "1.25".toList (5 / 4) ∧ IsHex "1.4p0".toList (5 / 4) := by
  refine ⟨⟨"12.5".toList, "12".toList, "5".toList, by unfold IsSignificand; exact ⟨by decide, by decide, by decide, Or.inr rfl⟩,
    Or.inr ⟨"-1".toList, "1".toList, -1, ⟨by decide, Or.inr (Or.inr ⟨rfl, by decide⟩)⟩, Or.inl rfl, ?_⟩⟩,
    ⟨"1.25".toList, "1".toList, "25".toList, by unfold IsSignificand; exact ⟨by decide, by decide, by decide, Or.inr rfl⟩, Or.inl ⟨rfl, ?_⟩⟩,
    ⟨"1.4".toList, "1".toList, "4".toList, "0".toList, "0".toList, 0, by unfold IsSignificand; exact ⟨by decide, by decide, by decide, Or.inr rfl⟩,
      ⟨by decide, Or.inl ⟨rfl, by decide⟩⟩, by decide, Or.inl rfl, ?_⟩⟩
  · rw [significandValue, show number 10 ("12".toList ++ "5".toList) = 125 by decide, show "5".toList.length = 1 by decide]; norm_num
  · rw [significandValue, show number 10 ("1".toList ++ "25".toList) = 125 by decide, show "25".toList.length = 2 by decide]; norm_num
  · rw [significandValue, show number 16 ("1".toList ++ "4".toList) = 20 by decide, show "4".toList.length = 1 by decide]; norm_num

end Apf
