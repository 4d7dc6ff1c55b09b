import Verif.Model.Str
import Verif.Spec.Parse
import Verif.Proof.Normalize2
import Verif.Proof.Div
/-! # Scanning of digits, and the hexadecimal loop -/

namespace Apf
open Spec IeeeFloat

theorem toDigit_eq (base : ℕ) (hb : base ≤ 16) (c : Char) :
    toDigit base c = (digit? c).bind (fun d => if d < base then some d else none) := by
  by_cases hc : c.toNat < 128
  · have key : ∀ n < 128, ∀ b < 17, toDigit b (Char.ofNat n) =
        (digit? (Char.ofNat n)).bind (fun d => if d < b then some d else none) := by decide +kernel
    have := key c.toNat hc base (by omega)
    rwa [Char.ofNat_toNat] at this
  · have h1 : toDigit base c = none := by
      unfold toDigit
      by_cases h2 : 97 ≤ c.toNat ∧ c.toNat ≤ 122
      · omega
      · dsimp only
        rw [if_neg (by omega), if_neg h2, if_neg (by omega)]
    have h2 : digit? c = none := by
      unfold digit?
      have key : ∀ l : List Char, (∀ x ∈ l, x.toNat < 128) → l.idxOf? c = none := by
        intro l hl
        rw [List.idxOf?_eq_none_iff]
        intro hm
        exact hc (hl c hm)
      rw [key _ (by decide), key _ (by decide)]
      rfl
    rw [h1, h2]; rfl

theorem toDigit_of {base : ℕ} (hb : base ≤ 16) {c : Char} (h : IsDigit base c) :
    toDigit base c = some ((digit? c).getD 0) ∧ (digit? c).getD 0 < base := by
  obtain ⟨d, h1, h2⟩ := h
  rw [toDigit_eq base hb, h1]
  simp [h2]

theorem toDigit_none {base : ℕ} (hb : base ≤ 16) {c : Char} (h : ¬ IsDigit base c) : toDigit base c = none := by
  rw [toDigit_eq base hb]
  cases hd : digit? c with
  | none => rfl
  | some d =>
    have : ¬ d < base := fun h' => h ⟨d, hd, h'⟩
    simp [this]

instance (base : ℕ) (c : Char) : Decidable (IsDigit base c) := by
  unfold IsDigit
  exact match h : digit? c with
  | none => isFalse (by rintro ⟨d, h1, -⟩; simp at h1)
  | some d => if hd : d < base then isTrue ⟨d, rfl, hd⟩ else isFalse (by rintro ⟨e, h1, h2⟩; simp at h1; omega)

theorem number_nil (base : ℕ) : number base [] = 0 := rfl

theorem number_snoc (base : ℕ) (cs : List Char) (c : Char) :
    number base (cs ++ [c]) = base * number base cs + (digit? c).getD 0 := by
  simp [number, List.foldl_append]

theorem number_append (base : ℕ) (a b : List Char) :
    number base (a ++ b) = number base a * base ^ b.length + number base b := by
  induction b using List.reverseRecOn with
  | nil => simp [number_nil]
  | append_singleton b c ih =>
    rw [← List.append_assoc, number_snoc, ih, number_snoc, List.length_append, List.length_singleton, pow_succ]
    ring

theorem number_lt {base : ℕ} (hb : 0 < base) {cs : List Char} (h : ∀ c ∈ cs, IsDigit base c) : number base cs < base ^ cs.length := by
  induction cs using List.reverseRecOn with
  | nil => simp [number_nil]
  | append_singleton b c ih =>
    have h1 := ih (fun x hx => h x (by simp [hx]))
    obtain ⟨d, h2, h3⟩ := h c (by simp)
    rw [number_snoc, List.length_append, List.length_singleton, pow_succ, h2, Option.getD_some]
    calc base * number base b + d < base * number base b + base := by omega
      _ = base * (number base b + 1) := by ring
      _ ≤ base * base ^ b.length := Nat.mul_le_mul_left _ h1
      _ = _ := by ring

/-- The exponent digits: the number, saturated at the top of the `i32` range. -/
theorem expDigits_ok (cs : List Char) : ∀ (n : ℕ) (any : Bool), (∀ c ∈ cs, IsDigit 10 c) →
    expDigits cs (Min.min n 2147483647 : ℕ) any =
      .ok (((Min.min (n * 10 ^ cs.length + number 10 cs) 2147483647 : ℕ) : ℤ), any || !cs.isEmpty) := by
  induction cs with
  | nil => intro n any _; simp [expDigits, number_nil]
  | cons c cs ih =>
    intro n any h
    obtain ⟨h1, h2⟩ := toDigit_of (by norm_num) (h c (by simp))
    unfold expDigits
    rw [h1]
    simp only
    have h3 : sat32 (sat32 (((Min.min n 2147483647 : ℕ) : ℤ) * 10) + (((digit? c).getD 0 : ℕ) : ℤ)) =
        ((Min.min (n * 10 + (digit? c).getD 0) 2147483647 : ℕ) : ℤ) := by
      unfold sat32
      omega
    rw [h3, ih _ true (fun x hx => h x (by simp [hx]))]
    have h4 : number 10 (c :: cs) = (digit? c).getD 0 * 10 ^ cs.length + number 10 cs := by
      rw [show c :: cs = [c] ++ cs from rfl, number_append]
      simp [number]
    rw [h4, List.length_cons, pow_succ]
    simp only [Bool.true_or, List.isEmpty_cons, Bool.not_false, Bool.or_true]
    rw [show (n * 10 + (digit? c).getD 0) * 10 ^ cs.length + number 10 cs =
      n * (10 ^ cs.length * 10) + ((digit? c).getD 0 * 10 ^ cs.length + number 10 cs) by ring]

theorem expDigits_err (cs : List Char) : ∀ (e : ℤ) (any : Bool), ¬ (∀ c ∈ cs, IsDigit 10 c) →
    expDigits cs e any = .error .badExpChar := by
  induction cs with
  | nil => intro e any h; exact absurd (by simp) h
  | cons c cs ih =>
    intro e any h
    unfold expDigits
    by_cases hc : IsDigit 10 c
    · obtain ⟨h1, h2⟩ := toDigit_of (by norm_num) hc
      rw [h1]
      apply ih
      intro h'
      apply h
      intro x hx
      rcases List.mem_cons.1 hx with rfl | hx
      · exact hc
      · exact h' x hx
    · rw [toDigit_none (by norm_num) hc]

/-- An exponent as the code holds it: exact, or saturated. -/
def SatTo (e E : ℤ) : Prop := e = max (-2147483647) (min E 2147483647)

theorem expField_ok {s ds : List Char} {E : ℤ} (h : IsExponent s ds E) :
    ∃ e, expField s = .ok (e, !ds.isEmpty) ∧ SatTo e E := by
  obtain ⟨h1, h2⟩ := h
  have key := expDigits_ok ds 0 false h1
  simp only [Nat.zero_min, Nat.cast_zero, Nat.zero_mul, Nat.zero_add, Bool.false_or] at key
  rcases h2 with ⟨rfl, rfl⟩ | ⟨rfl, rfl⟩ | ⟨rfl, rfl⟩
  · refine ⟨((Min.min (number 10 s) 2147483647 : ℕ) : ℤ), ?_, ?_⟩
    · unfold expField
      split
      · rename_i cs
        have := h1 '-' (by simp)
        exact absurd this (by decide)
      · rename_i cs
        have := h1 '+' (by simp)
        exact absurd this (by decide)
      · exact key
    · unfold SatTo; omega
  · exact ⟨_, key, by unfold SatTo; omega⟩
  · refine ⟨_, by unfold expField; simp only [key]; rfl, by unfold SatTo; omega⟩

theorem expField_err {s : List Char} (h : ¬ ∃ ds E, IsExponent s ds E) : expField s = .error .badExpChar := by
  unfold expField
  split
  · rename_i cs
    rw [expDigits_err]
    · rfl
    · intro h'; exact h ⟨cs, _, h', Or.inr (Or.inr ⟨rfl, rfl⟩)⟩
  · rename_i cs
    rw [expDigits_err]
    intro h'; exact h ⟨cs, _, h', Or.inr (Or.inl ⟨rfl, rfl⟩)⟩
  · rw [expDigits_err]
    intro h'; exact h ⟨_, _, h', Or.inl ⟨rfl, rfl⟩⟩

/-! ### Accumulating hexadecimal digits -/

/-- The state of the loop once the digits `N` (`n` of them, without leading zeros) have been read. -/
structure HexInv (st : HexSt) (N n : ℕ) : Prop where
  pos : st.bitPos = 128 - 4 * (n : ℤ)
  lt : N < 16 ^ n
  small : n ≤ 32 → st.sig = N * 2 ^ (128 - 4 * n) ∧ st.loss = none
  big : 32 < n → st.sig = N / 16 ^ (n - 32) ∧ st.loss = some (lossOf (N % 16 ^ (n - 32)) (16 ^ (n - 32)))

theorem hexDigit_inv {st : HexSt} {N n v : ℕ} (h : HexInv st N n) (hv : v < 16) :
    HexInv (hexDigit st v) (16 * N + v) (n + 1) := by
  have hlt : 16 * N + v < 16 ^ (n + 1) := by
    have := h.lt
    rw [pow_succ]; omega
  have hpos := h.pos
  unfold hexDigit
  by_cases h1 : st.bitPos - 4 ≥ 0
  · simp only [if_pos h1]
    have hn : n + 1 ≤ 32 := by omega
    obtain ⟨e1, e2⟩ := h.small (by omega)
    refine ⟨by push_cast; simp only [hpos]; ring, hlt, fun _ => ⟨?_, e2⟩, fun h' => absurd h' (by omega)⟩
    simp only
    have hb : (st.bitPos - 4).toNat = 128 - 4 * (n + 1) := by omega
    have hp : 2 ^ (128 - 4 * n) = 16 * 2 ^ (128 - 4 * (n + 1)) := by
      rw [show 128 - 4 * n = 4 + (128 - 4 * (n + 1)) by omega, pow_add]; norm_num
    have hv2 : v * 2 ^ (128 - 4 * (n + 1)) < 2 ^ (128 - 4 * n) := by
      rw [hp]; exact Nat.mul_lt_mul_of_pos_right hv (by positivity)
    rw [hb, Nat.shiftLeft_eq, Nat.mod_eq_of_lt (lt_of_lt_of_le hv2 (Nat.pow_le_pow_right (by omega) (by omega))), e1,
      or_eq_add (Dvd.intro_left _ rfl) hv2, hp]
    ring
  · simp only [if_neg h1]
    by_cases hn : n = 32
    · subst hn
      obtain ⟨e1, e2⟩ := h.small (by omega)
      rw [e2]
      simp only
      refine ⟨by push_cast; simp only [hpos]; ring, hlt, fun h' => absurd h' (by omega), fun _ => ⟨?_, ?_⟩⟩
      · simp only [e1]; omega
      · simp only
        have : (16 * N + v) % 16 ^ (32 + 1 - 32) = v := by norm_num; omega
        rw [this]
        unfold lossOf
        norm_num
        split_ifs <;> first | rfl | omega
    · obtain ⟨e1, e2⟩ := h.big (by omega)
      obtain ⟨m, rfl⟩ : ∃ m, n = m + 33 := ⟨n - 33, by omega⟩
      rw [e2]
      simp only
      refine ⟨by simp only [hpos]; push_cast; ring, hlt, fun h' => absurd h' (by omega), fun _ => ⟨?_, ?_⟩⟩
      · simp only [e1]
        rw [show m + 33 + 1 - 32 = (m + 33 - 32) + 1 by omega, pow_succ', ← Nat.div_div_eq_div_mul]
        congr 1; omega
      · simp only
        congr 1
        rw [show m + 33 + 1 - 32 = (m + 33 - 32) + 1 by omega, show m + 33 - 32 = m + 1 by omega]
        have hr : (16 * N + v) % 16 ^ (m + 1 + 1) = 16 * (N % 16 ^ (m + 1)) + v := by
          rw [pow_succ' 16 (m + 1), Nat.mod_mul, show (16 * N + v) % 16 = v by omega, show (16 * N + v) / 16 = N by omega]
          ring
        rw [hr]
        have hD : (16 : ℕ) ^ (m + 1 + 1) = 16 * 16 ^ (m + 1) := pow_succ' _ _
        have hD2 : (16 : ℕ) ^ (m + 1) = 2 * (8 * 16 ^ m) := by rw [pow_succ']; ring
        have hr2 : N % 16 ^ (m + 1) < 16 ^ (m + 1) := Nat.mod_lt _ (by positivity)
        rw [hD]
        generalize N % 16 ^ (m + 1) = r at *
        generalize (16 : ℕ) ^ (m + 1) = D at *
        generalize 8 * 16 ^ m = E at *
        unfold lossOf
        by_cases hv0 : v = 0
        · subst hv0
          rw [if_neg (by simp)]
          split_ifs <;> first | rfl | omega
        · rw [if_pos hv0]
          split_ifs <;> first | rfl | omega | simp_all

/-- What the scanned digits amount to; `pos` is the position reached, `ds` the digits, `P i` the position of digit `i`. -/
structure Scan (st : HexSt) (ds : List Char) (P : ℕ → ℕ) (dot : ℕ) : Prop where
  any : st.anyDigits = !ds.isEmpty
  dot : st.dot = dot
  zero : st.firstSig = none → number 16 ds = 0 ∧ HexInv st 0 0
  nz : ∀ k, st.firstSig = some k → ∃ i, i < ds.length ∧ k = P i ∧ number 16 (ds.take i) = 0 ∧
    16 ^ (ds.length - i - 1) ≤ number 16 ds ∧ HexInv st (number 16 ds) (ds.length - i)

theorem HexInv.congr {st st' : HexSt} {N n : ℕ} (h : HexInv st N n) (h1 : st'.sig = st.sig) (h2 : st'.bitPos = st.bitPos)
    (h3 : st'.loss = st.loss) : HexInv st' N n :=
  ⟨by rw [h2]; exact h.pos, h.lt, by rw [h1, h3]; exact h.small, by rw [h1, h3]; exact h.big⟩

theorem hexDigit_fields (st : HexSt) (v : ℕ) : (hexDigit st v).anyDigits = st.anyDigits ∧ (hexDigit st v).dot = st.dot ∧
    (hexDigit st v).firstSig = st.firstSig := by
  unfold hexDigit
  dsimp only
  split
  · exact ⟨rfl, rfl, rfl⟩
  · split <;> exact ⟨rfl, rfl, rfl⟩

/-- One digit. -/
theorem hexLoop_digit {len p : ℕ} {c : Char} {rest : List Char} {st : HexSt} {ds : List Char} {P : ℕ → ℕ} {dot : ℕ}
    (hs : Scan st ds P dot) (hc : IsDigit 16 c) (hP : P ds.length = p) :
    ∃ st', hexLoop len p (c :: rest) st = hexLoop len (p + 1) rest st' ∧ Scan st' (ds ++ [c]) P dot := by
  obtain ⟨h1, h2⟩ := toDigit_of (by norm_num) hc
  have hdot : c ≠ '.' := by rintro rfl; exact absurd hc (by decide)
  rw [hexLoop, if_neg hdot, h1]
  simp only
  generalize hv : (digit? c).getD 0 = v at *
  have hsn : number 16 (ds ++ [c]) = 16 * number 16 ds + v := by rw [number_snoc, hv]
  have hne : (!(ds ++ [c]).isEmpty) = true := by simp
  have htake : ∀ i, i ≤ ds.length → (ds ++ [c]).take i = ds.take i := fun i hi => List.take_append_of_le_length hi
  by_cases hf : st.firstSig = none
  · obtain ⟨z1, z2⟩ := hs.zero hf
    by_cases hv0 : v = 0
    · rw [if_pos ⟨hf, hv0⟩]
      refine ⟨_, rfl, ⟨hne.symm, hs.dot, fun _ => ⟨by rw [hsn, z1, hv0], z2.congr rfl rfl rfl⟩, ?_⟩⟩
      intro k hk
      rw [show ({ st with anyDigits := true } : HexSt).firstSig = st.firstSig from rfl, hf] at hk
      exact absurd hk (by simp)
    · rw [if_neg (by simp [hv0]), if_pos hf]
      refine ⟨_, rfl, ⟨?_, ?_, ?_, ?_⟩⟩
      · rw [(hexDigit_fields _ _).1]; exact hne.symm
      · rw [(hexDigit_fields _ _).2.1]; exact hs.dot
      · intro hk; rw [(hexDigit_fields _ _).2.2] at hk; exact absurd hk (by simp)
      · intro k hk
        rw [(hexDigit_fields _ _).2.2] at hk
        simp only [Option.some.injEq] at hk
        refine ⟨ds.length, by simp, by rw [hP, hk], ?_, by rw [hsn]; simp; omega, ?_⟩
        · rw [htake _ (le_refl _), List.take_length]; exact z1
        · have := hexDigit_inv (st := { st with anyDigits := true, firstSig := some p }) (z2.congr rfl rfl rfl) h2
          rw [hsn, z1]
          simpa using this
  · obtain ⟨k0, hk0⟩ := Option.ne_none_iff_exists'.1 hf
    obtain ⟨i, i1, i2, i3, i4, i5⟩ := hs.nz k0 hk0
    rw [if_neg (by simp [hf]), if_neg hf]
    refine ⟨_, rfl, ⟨?_, ?_, ?_, ?_⟩⟩
    · rw [(hexDigit_fields _ _).1]; exact hne.symm
    · rw [(hexDigit_fields _ _).2.1]; exact hs.dot
    · intro hk; rw [(hexDigit_fields _ _).2.2] at hk; exact absurd hk hf
    · intro k hk
      rw [(hexDigit_fields _ _).2.2] at hk
      rw [show ({ st with anyDigits := true } : HexSt).firstSig = st.firstSig from rfl, hk0] at hk
      simp only [Option.some.injEq] at hk
      subst hk
      refine ⟨i, by simp; omega, i2, by rw [htake _ i1.le]; exact i3, ?_, ?_⟩
      · rw [hsn, List.length_append, List.length_singleton, show ds.length + 1 - i - 1 = ds.length - i - 1 + 1 by omega,
          pow_succ']
        omega
      have := hexDigit_inv (st := { st with anyDigits := true }) (i5.congr rfl rfl rfl) h2
      rw [hsn, List.length_append, List.length_singleton, show ds.length + 1 - i = ds.length - i + 1 by omega]
      exact this

/-- A run of digits. -/
theorem hexLoop_digits {len dot : ℕ} {P : ℕ → ℕ} {rest : List Char} (cs : List Char) : ∀ (p : ℕ) (st : HexSt) (ds : List Char),
    Scan st ds P dot → (∀ c ∈ cs, IsDigit 16 c) → (∀ i, i < cs.length → P (ds.length + i) = p + i) →
    ∃ st', hexLoop len p (cs ++ rest) st = hexLoop len (p + cs.length) rest st' ∧ Scan st' (ds ++ cs) P dot := by
  induction cs with
  | nil => intro p st ds h _ _; exact ⟨st, rfl, by simpa using h⟩
  | cons c cs ih =>
    intro p st ds h hc hP
    obtain ⟨st1, e1, s1⟩ := hexLoop_digit (len := len) (rest := cs ++ rest) (p := p) h (hc c (by simp)) (hP 0 (by simp))
    obtain ⟨st2, e2, s2⟩ := ih (p + 1) st1 (ds ++ [c]) s1 (fun x hx => hc x (by simp [hx])) (by
      intro i hi
      have := hP (i + 1) (by simp; omega)
      rw [List.length_append, List.length_singleton, show ds.length + 1 + i = ds.length + (i + 1) by omega, this]
      omega)
    refine ⟨st2, ?_, by simpa using s2⟩
    rw [List.cons_append, e1, e2, List.length_cons, show p + 1 + cs.length = p + (cs.length + 1) by omega]

/-- The digits read so far, as a number. -/
theorem HexInv.value {st : HexSt} {N n : ℕ} (h : HexInv st N n) :
    ∃ f, LossIs (st.loss.getD .exactlyZero) f ∧ (st.sig : ℚ) + f = N * 2 ^ (128 - 4 * (n : ℤ)) ∧ st.sig < 2 ^ 128 ∧
      (16 ^ (n - 1) ≤ N → 0 < n → 2 ^ 124 ≤ st.sig) := by
  have hlt := h.lt
  by_cases hn : n ≤ 32
  · obtain ⟨e1, e2⟩ := h.small hn
    have hp : (16 : ℕ) ^ n * 2 ^ (128 - 4 * n) = 2 ^ 128 := by
      rw [show (16 : ℕ) = 2 ^ 4 by norm_num, ← pow_mul, ← pow_add]; congr 1; omega
    refine ⟨0, by rw [e2]; rfl, ?_, ?_, ?_⟩
    · rw [e1, add_zero]; push_cast
      rw [← zpow_natCast]; congr 2; omega
    · rw [e1, ← hp]; exact Nat.mul_lt_mul_of_pos_right hlt (by positivity)
    · intro h1 h2
      rw [e1]
      calc 2 ^ 124 = 16 ^ (n - 1) * 2 ^ (128 - 4 * n) := by
            rw [show (16 : ℕ) = 2 ^ 4 by norm_num, ← pow_mul, ← pow_add]; congr 1; omega
        _ ≤ _ := Nat.mul_le_mul_right _ h1
  · obtain ⟨e1, e2⟩ := h.big (by omega)
    have hD : 0 < 16 ^ (n - 32) := by positivity
    refine ⟨((N % 16 ^ (n - 32) : ℕ) : ℚ) / (16 ^ (n - 32) : ℕ), ?_, ?_, ?_, ?_⟩
    · rw [e2]; exact lossIs_lossOf (Nat.mod_lt _ hD)
    · rw [e1]
      have h1 : (N : ℚ) = (16 ^ (n - 32) : ℕ) * (N / 16 ^ (n - 32) : ℕ) + (N % 16 ^ (n - 32) : ℕ) := by
        exact_mod_cast (Nat.div_add_mod N (16 ^ (n - 32))).symm
      have h2 : (2 : ℚ) ^ (128 - 4 * (n : ℤ)) = ((16 ^ (n - 32) : ℕ) : ℚ)⁻¹ := by
        rw [show 128 - 4 * (n : ℤ) = -((4 * (n - 32) : ℕ) : ℤ) by omega, zpow_neg, zpow_natCast, pow_mul]
        norm_num
      have h3 : ((16 ^ (n - 32) : ℕ) : ℚ) ≠ 0 := by exact_mod_cast hD.ne'
      rw [h2]
      generalize ((16 ^ (n - 32) : ℕ) : ℚ) = D at *
      field_simp
      linarith
    · rw [e1, Nat.div_lt_iff_lt_mul hD]
      calc N < 16 ^ n := hlt
        _ = 2 ^ 128 * 16 ^ (n - 32) := by
          rw [show (2 : ℕ) ^ 128 = 16 ^ 32 by norm_num, ← pow_add]; congr 1; omega
    · intro h1 h2
      rw [e1, Nat.le_div_iff_mul_le hD]
      calc 2 ^ 124 * 16 ^ (n - 32) = 16 ^ (n - 1) := by
            rw [show (2 : ℕ) ^ 124 = 16 ^ 31 by norm_num, ← pow_add]; congr 1; omega
        _ ≤ _ := h1

/-- The loop reads a whole literal. -/
theorem hexLoop_ok {s m ip fp x ds : List Char} {E : ℤ} (hm : IsSignificand 16 m ip fp) (hx : IsExponent x ds E) (hd : ds ≠ [])
    (hs : s = m ++ 'p' :: x ∨ s = m ++ 'P' :: x) :
    ∃ st e, hexLoop s.length 0 s ⟨0, false, 128, none, none, s.length⟩ = .ok (st, some e) ∧ SatTo e E ∧
      Scan st (ip ++ fp) (fun i => if i < ip.length then i else i + 1) ip.length := by
  obtain ⟨h1, h2, h3, h4⟩ := hm
  obtain ⟨e, he, hsat⟩ := expField_ok hx
  have hde : (!ds.isEmpty) = true := by cases ds; exact absurd rfl hd; rfl
  rw [hde] at he
  set P : ℕ → ℕ := fun i => if i < ip.length then i else i + 1 with hP
  -- the tail after the significand
  have tail : ∀ (c : Char) (p : ℕ) (st : HexSt) (dot : ℕ), (c = 'p' ∨ c = 'P') → Scan st (ip ++ fp) P dot →
      (dot = s.length → p = ip.length) → (dot ≠ s.length → dot = ip.length) →
      ∃ st', hexLoop s.length p (c :: x) st = .ok (st', some e) ∧ Scan st' (ip ++ fp) P ip.length := by
    intro c p st dot hc hst g1 g2
    have c1 : c ≠ '.' := by rcases hc with rfl | rfl <;> decide
    have c2 : toDigit 16 c = none := by rcases hc with rfl | rfl <;> decide
    have c3 : st.anyDigits = true := by
      rw [hst.any]
      cases hh : ip ++ fp with
      | nil => exact absurd hh h3
      | cons => rfl
    rw [hexLoop, if_neg c1, c2]
    simp only
    rw [if_pos hc, c3, if_neg (by simp), he]
    by_cases hdot : st.dot = s.length
    · rw [if_pos hdot]
      have hdd : dot = s.length := by rw [← hst.dot]; exact hdot
      exact ⟨{ st with anyDigits := true, dot := p }, rfl, ⟨c3.symm.trans hst.any, g1 hdd, fun a => ⟨(hst.zero a).1, (hst.zero a).2.congr rfl rfl rfl⟩, fun k a => by
        obtain ⟨i, a1, a2, a3, a4, a5⟩ := hst.nz k a
        exact ⟨i, a1, a2, a3, a4, a5.congr rfl rfl rfl⟩⟩⟩
    · rw [if_neg hdot]
      have hdd : dot ≠ s.length := by rw [← hst.dot]; exact hdot
      exact ⟨st, rfl, ⟨hst.any, by rw [hst.dot]; exact g2 hdd, hst.zero, hst.nz⟩⟩
  have init : Scan ⟨0, false, 128, none, none, s.length⟩ [] P s.length :=
    ⟨rfl, rfl, fun _ => ⟨rfl, ⟨by simp, by simp, by simp, by simp⟩⟩, fun k a => absurd a (by simp)⟩
  obtain ⟨c, hc, rfl⟩ : ∃ c, (c = 'p' ∨ c = 'P') ∧ s = m ++ c :: x := by
    rcases hs with h | h
    · exact ⟨'p', Or.inl rfl, h⟩
    · exact ⟨'P', Or.inr rfl, h⟩
  rcases h4 with ⟨rfl, rfl⟩ | rfl
  · obtain ⟨st1, e1, s1⟩ := hexLoop_digits (rest := c :: x) (len := (m ++ c :: x).length) m 0 _ [] init h1 (by
      intro i hi
      simp only [hP, List.length_nil, Nat.zero_add]
      rw [if_pos hi])
    simp only [List.nil_append, List.append_nil] at s1 tail ⊢
    obtain ⟨st2, e2, s2⟩ := tail c (0 + m.length) st1 _ hc s1 (fun _ => by omega) (fun a => absurd rfl a)
    exact ⟨st2, e, by rw [e1, e2], hsat, s2⟩
  · have hlen : ip.length ≠ (ip ++ '.' :: fp ++ c :: x).length := by simp
    generalize hL : (ip ++ '.' :: fp ++ c :: x).length = L at *
    obtain ⟨st1, e1, s1⟩ := hexLoop_digits (rest := '.' :: (fp ++ c :: x)) (len := L) ip 0 _ [] init h1 (by
      intro i hi
      simp only [hP, List.length_nil, Nat.zero_add]
      rw [if_pos hi])
    rw [List.nil_append] at s1
    have s1' : Scan { st1 with dot := 0 + ip.length } (ip) P (0 + ip.length) :=
      ⟨s1.any, rfl, fun a => ⟨(s1.zero a).1, (s1.zero a).2.congr rfl rfl rfl⟩, fun k a => by
        obtain ⟨i, a1, a2, a3, a4, a5⟩ := s1.nz k a
        exact ⟨i, a1, a2, a3, a4, a5.congr rfl rfl rfl⟩⟩
    obtain ⟨st2, e2, s2⟩ := hexLoop_digits (rest := c :: x) (len := L) fp (0 + ip.length + 1) _ ip s1' h2 (by
      intro i hi
      simp only [hP]
      rw [if_neg (by omega)]
      omega)
    obtain ⟨st3, e3, s3⟩ := tail c (0 + ip.length + 1 + fp.length) st2 _ hc s2 (fun a => absurd a (by omega)) (fun a => by omega)
    refine ⟨st3, e, ?_, hsat, s3⟩
    rw [List.append_assoc, List.cons_append, e1, hexLoop, if_pos rfl, if_neg (by rw [s1.dot]; simp), e2, e3]

/-- Every string starts with a run of digits. -/
theorem digits_split (base : ℕ) (s : List Char) : ∃ ds rest, s = ds ++ rest ∧ (∀ c ∈ ds, IsDigit base c) ∧
    (rest = [] ∨ ∃ c t, rest = c :: t ∧ ¬ IsDigit base c) := by
  induction s with
  | nil => exact ⟨[], [], rfl, by simp, Or.inl rfl⟩
  | cons c s ih =>
    by_cases hc : IsDigit base c
    · obtain ⟨ds, rest, h1, h2, h3⟩ := ih
      refine ⟨c :: ds, rest, by rw [h1]; rfl, ?_, h3⟩
      intro x hx
      rcases List.mem_cons.1 hx with rfl | hx
      · exact hc
      · exact h2 x hx
    · exact ⟨[], c :: s, rfl, by simp, Or.inr ⟨c, s, rfl, hc⟩⟩

theorem hexLoop_tail {len p : ℕ} {c : Char} {x : List Char} {st st' : HexSt} {oe : Option ℤ} (h1 : ¬ IsDigit 16 c) (h2 : c ≠ '.')
    (h : hexLoop len p (c :: x) st = .ok (st', oe)) :
    (c = 'p' ∨ c = 'P') ∧ st.anyDigits = true ∧ ∃ ds E, IsExponent x ds E ∧ ds ≠ [] := by
  rw [hexLoop, if_neg h2, toDigit_none (by norm_num) h1] at h
  simp only at h
  by_cases hc : c = 'p' ∨ c = 'P'
  · rw [if_pos hc] at h
    cases ha : st.anyDigits
    · rw [ha, if_pos rfl] at h; simp at h
    · rw [ha, if_neg (by simp)] at h
      refine ⟨hc, rfl, ?_⟩
      by_cases hx : ∃ ds E, IsExponent x ds E
      · obtain ⟨ds, E, hx⟩ := hx
        refine ⟨ds, E, hx, ?_⟩
        rintro rfl
        obtain ⟨e, he, -⟩ := expField_ok hx
        rw [he] at h
        have : (Except.error ParseError.expNoDigits : Except ParseError (HexSt × Option ℤ)) = .ok (st', oe) := h
        simp at this
      · rw [expField_err hx] at h
        have : (Except.error ParseError.badExpChar : Except ParseError (HexSt × Option ℤ)) = .ok (st', oe) := h
        simp at this
  · rw [if_neg hc] at h; simp at h

theorem not_digit_dot : ¬ IsDigit 16 '.' := by decide

/-- What the loop accepts (with an exponent) is a hexadecimal literal. -/
theorem hexLoop_accepts {s : List Char} {st : HexSt} {e : ℤ}
    (h : hexLoop s.length 0 s ⟨0, false, 128, none, none, s.length⟩ = .ok (st, some e)) : ∃ v, IsHex s v := by
  obtain ⟨ip, r1, h1, h2, h3⟩ := digits_split 16 s
  set P : ℕ → ℕ := fun i => if i < ip.length then i else i + 1 with hP
  have init : Scan ⟨0, false, 128, none, none, s.length⟩ [] P s.length :=
    ⟨rfl, rfl, fun _ => ⟨rfl, ⟨by simp, by simp, by simp, by simp⟩⟩, fun k a => absurd a (by simp)⟩
  obtain ⟨st1, e1, s1⟩ := hexLoop_digits (rest := r1) (len := s.length) ip 0 _ [] init h2 (by
    intro i hi
    simp only [hP, List.length_nil, Nat.zero_add]
    rw [if_pos hi])
  rw [← h1] at e1
  rw [e1] at h
  rw [List.nil_append] at s1
  have any1 : ∀ {ds : List Char} {st : HexSt} {dot : ℕ}, Scan st ds P dot → st.anyDigits = true → ds ≠ [] := by
    intro ds st dot a b hh
    rw [a.any, hh] at b
    simp at b
  rcases h3 with rfl | ⟨c, t, rfl, hc⟩
  · simp [hexLoop] at h
  · by_cases hdot : c = '.'
    · subst hdot
      rw [hexLoop, if_pos rfl, if_neg (by rw [s1.dot]; simp)] at h
      have s1' : Scan { st1 with dot := 0 + ip.length } (ip) P (0 + ip.length) :=
        ⟨s1.any, rfl, fun a => ⟨(s1.zero a).1, (s1.zero a).2.congr rfl rfl rfl⟩, fun k a => by
          obtain ⟨i, a1, a2, a3, a4, a5⟩ := s1.nz k a
          exact ⟨i, a1, a2, a3, a4, a5.congr rfl rfl rfl⟩⟩
      obtain ⟨fp, r2, g1, g2, g3⟩ := digits_split 16 t
      obtain ⟨st2, e2, s2⟩ := hexLoop_digits (rest := r2) (len := s.length) fp (0 + ip.length + 1) _ ip s1' g2 (by
        intro i hi
        simp only [hP]
        rw [if_neg (by omega)]
        omega)
      rw [← g1] at e2
      rw [e2] at h
      rcases g3 with rfl | ⟨c2, x, rfl, hc2⟩
      · simp [hexLoop] at h
      · by_cases hdot2 : c2 = '.'
        · subst hdot2
          rw [hexLoop, if_pos rfl, if_pos] at h
          · simp at h
          · rw [s2.dot, h1, List.length_append, List.length_cons]; omega
        · obtain ⟨a1, a2, ds, E, a3, a4⟩ := hexLoop_tail hc2 hdot2 h
          refine ⟨_, ip ++ '.' :: fp, ip, fp, x, ds, E, ⟨h2, g2, any1 s2 a2, Or.inr rfl⟩, a3, a4, ?_, rfl⟩
          rw [h1, g1]
          rcases a1 with rfl | rfl
          · left; simp
          · right; simp
    · obtain ⟨a1, a2, ds, E, a3, a4⟩ := hexLoop_tail hc hdot h
      refine ⟨_, ip, ip, [], t, ds, E, ⟨h2, by simp, by simpa using any1 s1 a2, Or.inl ⟨rfl, rfl⟩⟩, a3, a4, ?_, rfl⟩
      rw [h1]
      rcases a1 with rfl | rfl
      · left; rfl
      · right; rfl

end Apf
