import Verif.Proof.Hex
/-! # Scanning decimal literals -/

namespace Apf
open Spec IeeeFloat

theorem digit_append_zero {ds : List Char} {c : Char} (hv : (digit? c).getD 0 = 0) :
    number 10 (ds ++ [c]) = number 10 ds * 10 := by
  rw [number_snoc, hv]; ring

/-- What the scanned digits amount to: the first and last nonzero digits are `ds[i]` and `ds[j]`, at positions `P i` and `P j`. -/
structure DScan (st : DecSt) (ds : List Char) (P : ℕ → ℕ) (dot : ℕ) : Prop where
  any : st.anyDigits = !ds.isEmpty
  dot : st.dot = dot
  zero : st.firstSig = none → number 10 ds = 0
  nz : ∀ k, st.firstSig = some k → ∃ i j, i ≤ j ∧ j < ds.length ∧ k = P i ∧ st.lastSig = P j ∧
    number 10 (ds.take i) = 0 ∧ 10 ^ (j - i) ≤ number 10 (ds.take (j + 1)) ∧
    number 10 ds = number 10 (ds.take (j + 1)) * 10 ^ (ds.length - 1 - j) ∧ ¬ 10 ∣ number 10 (ds.take (j + 1))

theorem decLoop_digit {len p : ℕ} {c : Char} {rest : List Char} {st : DecSt} {ds : List Char} {P : ℕ → ℕ} {dot : ℕ}
    (hs : DScan st ds P dot) (hc : IsDigit 10 c) (hP : P ds.length = p) :
    ∃ st', decLoop len p (c :: rest) st = decLoop len (p + 1) rest st' ∧ DScan st' (ds ++ [c]) P dot := by
  obtain ⟨h1, h2⟩ := toDigit_of (by norm_num) hc
  have hdot : c ≠ '.' := by rintro rfl; exact absurd hc (by decide)
  rw [decLoop, if_neg hdot, h1]
  simp only
  generalize hv : (digit? c).getD 0 = v at *
  have hsn : number 10 (ds ++ [c]) = 10 * number 10 ds + v := by rw [number_snoc, hv]
  have hne : (!(ds ++ [c]).isEmpty) = true := by simp
  have htake : ∀ i, i ≤ ds.length → (ds ++ [c]).take i = ds.take i := fun i hi => List.take_append_of_le_length hi
  have hfull : (ds ++ [c]).take (ds.length + 1) = ds ++ [c] := by
    rw [show ds.length + 1 = (ds ++ [c]).length by simp, List.take_length]
  by_cases hv0 : v = 0
  · rw [if_neg (by simpa using hv0)]
    refine ⟨_, rfl, ⟨hne.symm, hs.dot, fun a => by rw [hsn, hs.zero a, hv0], ?_⟩⟩
    intro k hk
    obtain ⟨i, j, a1, a2, a3, a4, a5, a6, a7, a8⟩ := hs.nz k hk
    refine ⟨i, j, a1, by simp; omega, a3, a4, by rw [htake _ (by omega)]; exact a5, by rw [htake _ (by omega)]; exact a6, ?_,
      by rw [htake _ (by omega)]; exact a8⟩
    rw [htake _ (by omega), hsn, a7, hv0, List.length_append, List.length_singleton,
      show ds.length + 1 - 1 - j = ds.length - 1 - j + 1 by omega, pow_succ]
    ring
  · rw [if_pos (by simpa using hv0)]
    by_cases hf : st.firstSig = none
    · rw [if_pos hf]
      have z := hs.zero hf
      refine ⟨_, rfl, ⟨hne.symm, hs.dot, fun a => absurd a (by simp), ?_⟩⟩
      intro k hk
      simp only [Option.some.injEq] at hk
      refine ⟨ds.length, ds.length, le_refl _, by simp, by rw [hP, hk], hP.symm, ?_, ?_, ?_, ?_⟩
      · rw [htake _ (le_refl _), List.take_length]; exact z
      · rw [hfull, hsn, z]; simp; omega
      · rw [hfull]; simp
      · rw [hfull, hsn]; omega
    · obtain ⟨k0, hk0⟩ := Option.ne_none_iff_exists'.1 hf
      obtain ⟨i, j, a1, a2, a3, a4, a5, a6, a7, a8⟩ := hs.nz k0 hk0
      rw [if_neg hf]
      refine ⟨_, rfl, ⟨hne.symm, hs.dot, fun a => absurd a hf, ?_⟩⟩
      intro k hk
      have : k = k0 := by
        rw [show ({ st with anyDigits := true, lastSig := p } : DecSt).firstSig = st.firstSig from rfl, hk0] at hk
        simpa using hk.symm
      subst this
      refine ⟨i, ds.length, by omega, by simp, a3, hP.symm, by rw [htake _ (by omega)]; exact a5, ?_, by rw [hfull]; simp, by rw [hfull, hsn]; omega⟩
      rw [hfull, hsn, a7]
      have : 10 ^ (ds.length - i) = 10 * (10 ^ (j - i) * 10 ^ (ds.length - 1 - j)) := by
        rw [← pow_add, ← pow_succ']; congr 1; omega
      rw [this]
      have := Nat.mul_le_mul_right (10 ^ (ds.length - 1 - j)) a6
      omega

theorem decLoop_digits {len dot : ℕ} {P : ℕ → ℕ} {rest : List Char} (cs : List Char) : ∀ (p : ℕ) (st : DecSt) (ds : List Char),
    DScan st ds P dot → (∀ c ∈ cs, IsDigit 10 c) → (∀ i, i < cs.length → P (ds.length + i) = p + i) →
    ∃ st', decLoop len p (cs ++ rest) st = decLoop len (p + cs.length) rest st' ∧ DScan st' (ds ++ cs) P dot := by
  induction cs with
  | nil => intro p st ds h _ _; exact ⟨st, rfl, by simpa using h⟩
  | cons c cs ih =>
    intro p st ds h hc hP
    obtain ⟨st1, e1, s1⟩ := decLoop_digit (len := len) (rest := cs ++ rest) (p := p) h (hc c (by simp)) (hP 0 (by simp))
    obtain ⟨st2, e2, s2⟩ := ih (p + 1) st1 (ds ++ [c]) s1 (fun x hx => hc x (by simp [hx])) (by
      intro i hi
      have := hP (i + 1) (by simp; omega)
      rw [List.length_append, List.length_singleton, show ds.length + 1 + i = ds.length + (i + 1) by omega, this]
      omega)
    refine ⟨st2, ?_, by simpa using s2⟩
    rw [List.cons_append, e1, e2, List.length_cons, show p + 1 + cs.length = p + (cs.length + 1) by omega]

/-- The positions of the digits of a significand. -/
def digitPos (ip : List Char) (i : ℕ) : ℕ := if i < ip.length then i else i + 1

/-- What follows the significand: nothing (exponent 0), or `e` and an exponent. -/
def DecTail (t : List Char) (E : ℤ) : Prop :=
  (t = [] ∧ E = 0) ∨ ∃ c x ds, (c = 'e' ∨ c = 'E') ∧ t = c :: x ∧ IsExponent x ds E

theorem DScan.setDot {st : DecSt} {ds : List Char} {P : ℕ → ℕ} {dot : ℕ} (h : DScan st ds P dot) (d : ℕ) :
    DScan { st with dot := d } ds P d := ⟨h.any, rfl, h.zero, h.nz⟩

/-- The loop reads a whole literal. -/
theorem decLoop_ok {s m ip fp t : List Char} {E : ℤ} (hm : IsSignificand 10 m ip fp) (hs : s = m ++ t) (ht : DecTail t E) :
    ∃ st e, decLoop s.length 0 s ⟨false, none, 0, s.length⟩ = .ok (st, e) ∧ SatTo e E ∧
      DScan st (ip ++ fp) (digitPos ip) ip.length := by
  obtain ⟨h1, h2, h3, h4⟩ := hm
  -- the tail after the significand
  have tail : ∀ (p : ℕ) (st : DecSt) (dot : ℕ), DScan st (ip ++ fp) (digitPos ip) dot →
      (dot = s.length → p = ip.length ∧ (t = [] → s.length = ip.length)) → (dot ≠ s.length → dot = ip.length) →
      ∃ st' e, decLoop s.length p t st = .ok (st', e) ∧ SatTo e E ∧ DScan st' (ip ++ fp) (digitPos ip) ip.length := by
    intro p st dot hst g1 g2
    have c3 : st.anyDigits = true := by
      rw [hst.any]
      cases hh : ip ++ fp with
      | nil => exact absurd hh h3
      | cons => rfl
    have hsd := hst.dot
    rcases ht with ⟨rfl, rfl⟩ | ⟨c, x, ds, hc, rfl, hx⟩
    · refine ⟨st, 0, by rw [decLoop], by unfold SatTo; decide, ⟨hst.any, ?_, hst.zero, hst.nz⟩⟩
      by_cases hdot : dot = s.length
      · have := (g1 hdot).2 rfl; omega
      · have := g2 hdot; omega
    · obtain ⟨e, he, hsat⟩ := expField_ok hx
      have c1 : c ≠ '.' := by rcases hc with rfl | rfl <;> decide
      have c2 : toDigit 10 c = none := by rcases hc with rfl | rfl <;> decide
      rw [decLoop, if_neg c1, c2]
      simp only
      rw [if_pos hc, c3, if_neg (by simp), he]
      by_cases hdot : st.dot = s.length
      · rw [if_pos hdot]
        refine ⟨{ st with anyDigits := true, dot := p }, e, ?_, hsat, ?_⟩
        · rw [← c3]; rfl
        · have : p = ip.length := (g1 (by omega)).1
          rw [this, ← c3]
          exact hst.setDot _
      · rw [if_neg hdot]
        refine ⟨st, e, rfl, hsat, ⟨hst.any, ?_, hst.zero, hst.nz⟩⟩
        have := g2 (by omega)
        omega
  have init : DScan ⟨false, none, 0, s.length⟩ [] (digitPos ip) s.length :=
    ⟨rfl, rfl, fun _ => rfl, fun k a => absurd a (by simp)⟩
  have pos1 : ∀ i, i < ip.length → digitPos ip (([] : List Char).length + i) = 0 + i := by
    intro i hi
    unfold digitPos
    rw [if_pos (by simpa using hi)]
    simp
  rcases h4 with ⟨rfl, rfl⟩ | rfl
  · obtain ⟨st1, e1, s1⟩ := decLoop_digits (rest := t) (len := s.length) m 0 _ [] init h1 pos1
    simp only [List.nil_append, List.append_nil] at s1 tail ⊢
    rw [← hs] at e1
    obtain ⟨st2, e, e2, hsat, s2⟩ := tail (0 + m.length) st1 _ s1 (fun _ => ⟨by omega, fun a => by rw [hs, a]; simp⟩)
      (fun a => absurd rfl a)
    exact ⟨st2, e, by rw [e1, e2], hsat, s2⟩
  · have hlen : ip.length < s.length := by rw [hs]; simp
    obtain ⟨st1, e1, s1⟩ := decLoop_digits (rest := '.' :: (fp ++ t)) (len := s.length) ip 0 _ [] init h1 pos1
    rw [List.nil_append] at s1
    have hs' : ip ++ '.' :: (fp ++ t) = s := by rw [hs]; simp
    rw [hs'] at e1
    obtain ⟨st2, e2, s2⟩ := decLoop_digits (rest := t) (len := s.length) fp (0 + ip.length + 1) _ ip (s1.setDot (0 + ip.length)) h2
      (by intro i hi; unfold digitPos; rw [if_neg (by omega)]; omega)
    obtain ⟨st3, e, e3, hsat, s3⟩ := tail _ st2 _ s2 (fun a => absurd a (by omega)) (fun _ => by omega)
    refine ⟨st3, e, ?_, hsat, s3⟩
    rw [e1, decLoop, if_pos rfl, if_neg (by rw [s1.dot]; simp), e2, e3]

theorem isDec_iff {s : List Char} {v : ℚ} : IsDec s v ↔ ∃ m ip fp t E, IsSignificand 10 m ip fp ∧ s = m ++ t ∧ DecTail t E ∧
    v = significandValue 10 ip fp * 10 ^ E := by
  constructor
  · rintro ⟨m, ip, fp, hm, ⟨h1, h2⟩ | ⟨x, ds, e, hx, hs, hv⟩⟩
    · exact ⟨m, ip, fp, [], 0, hm, by rw [h1, List.append_nil], Or.inl ⟨rfl, rfl⟩, by rw [h2]; simp⟩
    · rcases hs with h | h
      · exact ⟨m, ip, fp, _, e, hm, h, Or.inr ⟨_, x, ds, Or.inl rfl, rfl, hx⟩, hv⟩
      · exact ⟨m, ip, fp, _, e, hm, h, Or.inr ⟨_, x, ds, Or.inr rfl, rfl, hx⟩, hv⟩
  · rintro ⟨m, ip, fp, t, E, hm, hs, ht, hv⟩
    rcases ht with ⟨h1, h2⟩ | ⟨c, x, ds, hc, ht, hx⟩
    · exact ⟨m, ip, fp, hm, Or.inl ⟨by rw [hs, h1, List.append_nil], by rw [hv, h2]; simp⟩⟩
    · refine ⟨m, ip, fp, hm, Or.inr ⟨x, ds, E, hx, ?_, hv⟩⟩
      rcases hc with rfl | rfl
      · left; rw [hs, ht]
      · right; rw [hs, ht]

theorem decLoop_tail {len p : ℕ} {c : Char} {x : List Char} {st st' : DecSt} {e : ℤ} (h1 : ¬ IsDigit 10 c) (h2 : c ≠ '.')
    (h : decLoop len p (c :: x) st = .ok (st', e)) :
    (c = 'e' ∨ c = 'E') ∧ st.anyDigits = true ∧ ∃ ds E, IsExponent x ds E := by
  rw [decLoop, if_neg h2, toDigit_none (by norm_num) h1] at h
  simp only at h
  by_cases hc : c = 'e' ∨ c = 'E'
  · rw [if_pos hc] at h
    cases ha : st.anyDigits
    · rw [ha, if_pos rfl] at h; simp at h
    · rw [ha, if_neg (by simp)] at h
      refine ⟨hc, rfl, ?_⟩
      by_contra hx
      rw [expField_err hx] at h
      have : (Except.error ParseError.badExpChar : Except ParseError (DecSt × ℤ)) = .ok (st', e) := h
      simp at this
  · rw [if_neg hc] at h; simp at h

/-- What the loop accepts (with some digits) is a decimal literal. -/
theorem decLoop_accepts {s : List Char} {st : DecSt} {e : ℤ} (ha : st.anyDigits = true)
    (h : decLoop s.length 0 s ⟨false, none, 0, s.length⟩ = .ok (st, e)) : ∃ v, IsDec s v := by
  obtain ⟨ip, r1, h1, h2, h3⟩ := digits_split 10 s
  have init : DScan ⟨false, none, 0, s.length⟩ [] (digitPos ip) s.length :=
    ⟨rfl, rfl, fun _ => rfl, fun k a => absurd a (by simp)⟩
  obtain ⟨st1, e1, s1⟩ := decLoop_digits (rest := r1) (len := s.length) ip 0 _ [] init h2 (by
    intro i hi
    unfold digitPos
    rw [if_pos (by simpa using hi)]
    simp)
  rw [← h1] at e1
  rw [e1] at h
  rw [List.nil_append] at s1
  have any1 : ∀ {ds : List Char} {st : DecSt} {dot : ℕ}, DScan st ds (digitPos ip) dot → st.anyDigits = true → ds ≠ [] := by
    intro ds st dot a b hh
    rw [a.any, hh] at b
    simp at b
  suffices hgoal : ∃ v m ip fp t E, IsSignificand 10 m ip fp ∧ s = m ++ t ∧ DecTail t E ∧
      v = significandValue 10 ip fp * 10 ^ E by
    obtain ⟨v, hv⟩ := hgoal
    exact ⟨v, isDec_iff.2 hv⟩
  rcases h3 with rfl | ⟨c, t, rfl, hc⟩
  · rw [decLoop] at h
    simp only [Except.ok.injEq, Prod.mk.injEq] at h
    rw [← h.1] at ha
    exact ⟨_, ip, ip, [], [], 0, ⟨h2, by simp, by simpa using any1 s1 ha, Or.inl ⟨rfl, rfl⟩⟩, h1, Or.inl ⟨rfl, rfl⟩, rfl⟩
  · by_cases hdot : c = '.'
    · subst hdot
      rw [decLoop, if_pos rfl, if_neg (by rw [s1.dot]; simp)] at h
      obtain ⟨fp, r2, g1, g2, g3⟩ := digits_split 10 t
      obtain ⟨st2, e2, s2⟩ := decLoop_digits (rest := r2) (len := s.length) fp (0 + ip.length + 1) _ ip
        (s1.setDot (0 + ip.length)) g2 (by intro i hi; unfold digitPos; rw [if_neg (by omega)]; omega)
      rw [← g1] at e2
      rw [e2] at h
      have hss : s = ip ++ '.' :: fp ++ r2 := by rw [h1, g1]; simp
      rcases g3 with rfl | ⟨c2, x, rfl, hc2⟩
      · rw [decLoop] at h
        simp only [Except.ok.injEq, Prod.mk.injEq] at h
        rw [← h.1] at ha
        exact ⟨_, ip ++ '.' :: fp, ip, fp, [], 0, ⟨h2, g2, any1 s2 ha, Or.inr rfl⟩, hss, Or.inl ⟨rfl, rfl⟩, rfl⟩
      · by_cases hdot2 : c2 = '.'
        · subst hdot2
          rw [decLoop, if_pos rfl, if_pos] at h
          · simp at h
          · rw [s2.dot, h1, List.length_append, List.length_cons]; omega
        · obtain ⟨a1, a2, ds, E, a3⟩ := decLoop_tail hc2 hdot2 h
          exact ⟨_, ip ++ '.' :: fp, ip, fp, _, E, ⟨h2, g2, any1 s2 a2, Or.inr rfl⟩, hss, Or.inr ⟨c2, x, ds, a1, rfl, a3⟩, rfl⟩
    · obtain ⟨a1, a2, ds, E, a3⟩ := decLoop_tail hc hdot h
      exact ⟨_, ip, ip, [], _, E, ⟨h2, by simp, by simpa using any1 s1 a2, Or.inl ⟨rfl, rfl⟩⟩, h1, Or.inr ⟨c, t, ds, a1, rfl, a3⟩, rfl⟩

variable {S : Sem}

/-- `from_decimal_string` returns an error on everything that is not a decimal literal. -/
theorem fromDecString_err {s : List Char} (hs : ¬ ∃ v, IsDec s v) (fuel : ℕ) (mode : Round) :
    ∃ e, fromDecString S fuel s mode = .ok (.error e) := by
  unfold fromDecString
  cases hl : decLoop s.length 0 s ⟨false, none, 0, s.length⟩ with
  | error e => exact ⟨e, rfl⟩
  | ok p =>
    obtain ⟨st, e⟩ := p
    dsimp only
    by_cases ha : st.anyDigits = true
    · exact absurd (decLoop_accepts ha hl) hs
    · rw [if_pos (by simpa using ha)]
      exact ⟨_, rfl⟩

end Apf
