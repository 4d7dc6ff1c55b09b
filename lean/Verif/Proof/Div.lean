import Verif.Proof.AddMul
/-! Correctness of limb division. -/

namespace Apf

theorem or_eq_add {a b n : Nat} (ha : 2 ^ n ∣ a) (hb : b < 2 ^ n) : a ||| b = a + b := by
  obtain ⟨c, rfl⟩ := ha
  exact (Nat.two_pow_add_eq_or_of_lt hb c).symm

theorem shortDivStep_ok {half d rem chunk : Nat} (hd : d ≤ 2 ^ half) (hr : rem < d) (hc : chunk < 2 ^ half) :
    Sig.shortDivStep half d rem chunk = ((rem * 2 ^ half + chunk) / d, (rem * 2 ^ half + chunk) % d) ∧
    (rem * 2 ^ half + chunk) / d < 2 ^ half ∧ (rem * 2 ^ half + chunk) % d < d := by
  have hd0 : 0 < d := by omega
  have h1 : rem * 2 ^ half < 2 ^ (2 * half) := by
    rw [show 2 * half = half + half by ring, pow_add]
    exact Nat.mul_lt_mul_of_pos_right (by omega) (by positivity)
  have hq : (rem * 2 ^ half + chunk) / d < 2 ^ half := by
    rw [Nat.div_lt_iff_lt_mul hd0]
    have : (rem + 1) * 2 ^ half ≤ d * 2 ^ half := Nat.mul_le_mul_right _ hr
    rw [Nat.mul_comm (2 ^ half) d]
    rw [Nat.add_mul] at this
    omega
  have hm : (rem * 2 ^ half + chunk) % d < d := Nat.mod_lt _ hd0
  refine ⟨?_, hq, hm⟩
  unfold Sig.shortDivStep
  simp only [Nat.mod_eq_of_lt hc, Nat.shiftLeft_eq]
  rw [Nat.mod_eq_of_lt h1, or_eq_add (Dvd.intro_left _ rfl) hc, Nat.mod_eq_of_lt hq, Nat.mod_eq_of_lt (by omega)]

theorem eachChunkLimb_ok {half d limb : Nat} (hd : d ≤ 2 ^ half) : ∀ (i rem r : Nat),
    rem < d → i * half ≤ 128 → r < 2 ^ 128 → 2 ^ (i * half) ∣ r →
    ∃ x rem', Sig.eachChunkLimb half (Sig.shortDivStep half d) limb i rem r = (r + x, rem') ∧
      x < 2 ^ (i * half) ∧ rem' < d ∧ x * d + rem' = rem * 2 ^ (i * half) + limb % 2 ^ (i * half) := by
  intro i
  induction i with
  | zero => intro rem r h1 h2 h3 h4; exact ⟨0, rem, rfl, by simp, h1, by simp [Nat.mod_one]⟩
  | succ i ih =>
    intro rem r h1 h2 h3 h4
    unfold Sig.eachChunkLimb
    rw [Nat.one_shiftLeft, Nat.and_two_pow_sub_one_eq_mod, Nat.shiftRight_eq_div_pow]
    have hc : limb / 2 ^ (i * half) % 2 ^ half < 2 ^ half := Nat.mod_lt _ (by positivity)
    obtain ⟨e, hq, hm⟩ := shortDivStep_ok hd h1 hc
    have hdm : (rem * 2 ^ half + limb / 2 ^ (i * half) % 2 ^ half) / d * d
        + (rem * 2 ^ half + limb / 2 ^ (i * half) % 2 ^ half) % d =
        rem * 2 ^ half + limb / 2 ^ (i * half) % 2 ^ half := by
      rw [Nat.mul_comm]; exact Nat.div_add_mod _ _
    rw [e]
    have hmm : limb % 2 ^ ((i + 1) * half) = limb % 2 ^ (i * half) + 2 ^ (i * half) * (limb / 2 ^ (i * half) % 2 ^ half) := by
      rw [Nat.add_mul, Nat.one_mul, pow_add, Nat.mod_mul]
    generalize limb / 2 ^ (i * half) % 2 ^ half = c at *
    generalize (rem * 2 ^ half + c) / d = q at *
    generalize (rem * 2 ^ half + c) % d = m at *
    simp only [Nat.shiftLeft_eq]
    have hpw : (2 : Nat) ^ ((i + 1) * half) = 2 ^ (i * half) * 2 ^ half := by rw [Nat.add_mul, Nat.one_mul, pow_add]
    have hq2 : q * 2 ^ (i * half) < 2 ^ ((i + 1) * half) := by
      rw [hpw, Nat.mul_comm]
      exact Nat.mul_lt_mul_of_pos_left hq (by positivity)
    have hq3 : q * 2 ^ (i * half) < 2 ^ 128 := lt_of_lt_of_le hq2 (Nat.pow_le_pow_right (by omega) h2)
    rw [Nat.mod_eq_of_lt hq3, or_eq_add h4 hq2]
    have hlt : r + q * 2 ^ (i * half) < 2 ^ 128 := by
      rw [← or_eq_add h4 hq2]; exact Nat.or_lt_two_pow h3 hq3
    have hdv : 2 ^ (i * half) ∣ r + q * 2 ^ (i * half) := by
      apply Nat.dvd_add
      · exact dvd_trans (by rw [hpw]; exact Dvd.intro _ rfl) h4
      · exact Dvd.intro_left _ rfl
    obtain ⟨x, rem', f1, f2, f3, f4⟩ := ih m (r + q * 2 ^ (i * half)) hm
      (le_trans (Nat.mul_le_mul_right _ (by omega)) h2) hlt hdv
    refine ⟨q * 2 ^ (i * half) + x, rem', by rw [f1, Nat.add_assoc], ?_, f3, ?_⟩
    · rw [hpw, Nat.mul_comm q]
      calc 2 ^ (i * half) * q + x < 2 ^ (i * half) * q + 2 ^ (i * half) := by omega
        _ = 2 ^ (i * half) * (q + 1) := by ring
        _ ≤ _ := Nat.mul_le_mul_left _ hq
    · rw [hmm, hpw]
      linear_combination (2 ^ (i * half)) * hdm + f4

theorem eachChunk_ok {half d : Nat} (hd : d ≤ 2 ^ half) (hh : 128 / half * half = 128) {l : List Nat} (hl : Limbs l) :
    ∀ rem, rem < d → ∃ q rem', Sig.eachChunk half (Sig.shortDivStep half d) l rem = (q, rem') ∧
      q.length = l.length ∧ Limbs q ∧ rem' < d ∧ val q * d + rem' = rem * 2 ^ (128 * l.length) + val l := by
  induction l with
  | nil => intro rem hr; exact ⟨[], rem, rfl, rfl, Limbs.nil, hr, by simp⟩
  | cons x xs ih =>
    intro rem hr
    obtain ⟨q, rem', e1, e2, e3, e4, e5⟩ := ih hl.tail rem hr
    unfold Sig.eachChunk
    rw [e1]
    simp only [limbBits]
    obtain ⟨y, rem'', f1, f2, f3, f4⟩ := eachChunkLimb_ok (limb := x) hd (128 / half) rem' 0 e4 (by omega)
      (by positivity) (dvd_zero _)
    rw [f1]
    rw [hh] at f2 f4
    rw [Nat.mod_eq_of_lt hl.head] at f4
    refine ⟨_, _, rfl, by simp [e2], Limbs.cons (by simpa using f2) e3, f3, ?_⟩
    simp only [val_cons, List.length_cons, Nat.zero_add]
    rw [show 128 * (xs.length + 1) = 128 + 128 * xs.length by ring, pow_add]
    linear_combination (2 ^ 128) * e5 + f4

theorem lostFraction_ok {a b : List Nat} (ha : Limbs a) (hb : Limbs b) (hl : a.length = b.length) {r : Nat}
    (hr : val a = 2 * r) (hb0 : 0 < val b) : Sig.lostFraction a b = .ok (lossOf r (val b)) := by
  unfold Sig.lostFraction lossOf
  rw [cmp_ok ha hb hl, M.ok_bind, hr]
  rcases Nat.lt_trichotomy (2 * r) (val b) with h | h | h
  · rw [Nat.compare_eq_lt.2 h]
    simp only [h, if_true]
    by_cases h0 : r = 0
    · have : Sig.isAllZeros a = true := (isAllZeros_iff _).2 (by omega)
      simp [h0, this]
    · have : Sig.isAllZeros a = false := by
        rw [Bool.eq_false_iff]; intro hc; have := (isAllZeros_iff _).1 hc; omega
      simp [h0, this]
  · rw [Nat.compare_eq_eq.2 h]
    simp only [h, lt_irrefl, if_false, if_true]
    by_cases h0 : r = 0
    · omega
    · simp [h0]
  · rw [Nat.compare_eq_gt.2 h]
    simp only []
    rw [if_neg (by omega), if_neg (by omega), if_neg (by omega)]

theorem limbs_replicate (n : Nat) : Limbs (List.replicate n 0) := by
  intro x hx; rw [List.eq_of_mem_replicate hx]; positivity

theorem val_getLast {l : List Nat} (h : Limbs l) (hn : 0 < l.length) {k : Nat} (hk : k ≤ 128) :
    ∃ t, l.getLast? = some t ∧ t < 2 ^ 128 ∧ t / 2 ^ (128 - k) = val l / 2 ^ (128 * l.length - k) := by
  obtain ⟨n, hn⟩ : ∃ n, l.length = n + 1 := ⟨l.length - 1, by omega⟩
  refine ⟨l[n], ?_, h _ (List.getElem_mem _), ?_⟩
  · rw [List.getLast?_eq_getElem?, show l.length - 1 = n by omega]; simp [hn]
  · have hv : val l = val (l.take n) + 2 ^ (128 * n) * l[n] := by
      have := val_take_drop l n (by omega)
      rw [this]
      congr 2
      rw [List.drop_eq_getElem_cons (by omega), List.drop_of_length_le (by omega)]
      simp
    have hlt : val (l.take n) < 2 ^ (128 * n) := by
      have := val_lt (l := l.take n) (fun x hx => h x (List.mem_of_mem_take hx))
      rwa [List.length_take, Nat.min_eq_left (by omega)] at this
    rw [hv, show 128 * l.length - k = 128 * n + (128 - k) by omega, pow_add, ← Nat.div_div_eq_div_mul]
    rw [Nat.add_mul_div_left _ _ (by positivity), Nat.div_eq_of_lt hlt, Nat.zero_add]

/-- Short division: `dividend` is below `d * 2 ^ (128 n - (db - 1))` so the quotient fits. -/
theorem shortDiv_ok {half db o : Nat} {quotient dividend divisor : List Nat}
    (hn : Limbs dividend) (hv : Limbs divisor) (hl : dividend.length = divisor.length)
    (hq : quotient.length = dividend.length) (hpos : 0 < dividend.length)
    (hh : 128 / half * half = 128) (hhalf : half ≤ 64) (hdb : db ≤ half) (hdb2 : 2 ≤ db) (ho : 1 ≤ o) (ho2 : o < 1000000000)
    {d : Nat} (hd : val divisor = d * 2 ^ (o - 1)) (hd1 : 2 ^ (db - 1) ≤ d) (hd2 : d < 2 ^ db)
    (hfit : val dividend * 2 ^ (db - 1) < d * 2 ^ (128 * dividend.length)) :
    ∃ q, Sig.shortDiv half quotient dividend divisor o db =
        .ok (q, lossOf (val dividend * 2 ^ (db - 1) % d) d) ∧
      q.length = dividend.length ∧ Limbs q ∧ val q = val dividend * 2 ^ (db - 1) / d := by
  unfold Sig.shortDiv
  obtain ⟨dv, a1, a2, a3, a4⟩ := shiftRight_ok hv (exp := 0) (bits := o - 1) (by omega) (by omega) (by omega)
  rw [a1, M.ok_bind]
  have hdv : val dv = d := by rw [a4, hd]; exact Nat.mul_div_cancel _ (by positivity)
  have hd64 : d < 2 ^ 64 := lt_of_lt_of_le hd2 (Nat.pow_le_pow_right (by omega) (by omega))
  have hhd : d < 2 ^ half := lt_of_lt_of_le hd2 (Nat.pow_le_pow_right (by omega) hdb)
  have hd0 : 0 < d := lt_of_lt_of_le (by positivity) hd1
  obtain ⟨y, ys, rfl⟩ : ∃ y ys, dv = y :: ys := by
    cases dv with
    | nil => simp at a2; omega
    | cons y ys => exact ⟨y, ys, rfl⟩
  have hy : y = d := by
    rw [val_cons] at hdv
    rcases Nat.eq_zero_or_pos (val ys) with h | h
    · omega
    · exfalso
      have : 2 ^ 128 * 1 ≤ 2 ^ 128 * val ys := Nat.mul_le_mul_left _ h
      omega
  simp only []
  rw [idx_ok (by simp), M.ok_bind]
  simp only [List.getElem_cons_zero, hy]
  rw [Nat.mod_eq_of_lt hhd]
  obtain ⟨t, t1, t2, t3⟩ := val_getLast hn hpos (k := db - 1) (by omega)
  rw [t1]
  simp only [M.ok_bind, limbBits]
  rw [shr_ok (by omega), M.ok_bind, t3]
  obtain ⟨nd, b1, b2, b3, b4⟩ := shiftLeft_ok hn (exp := 0) (bits := db - 1) (by omega) (by omega) (by omega)
  rw [b1, M.ok_bind]
  have hrem : val dividend / 2 ^ (128 * dividend.length - (db - 1)) < d := by
    rw [Nat.div_lt_iff_lt_mul (by positivity)]
    have e : (2 : Nat) ^ (128 * dividend.length) = 2 ^ (128 * dividend.length - (db - 1)) * 2 ^ (db - 1) := by
      rw [← pow_add]; congr 1; omega
    rw [e, ← Nat.mul_assoc] at hfit
    have := Nat.lt_of_mul_lt_mul_right hfit
    linarith [Nat.mul_comm d (2 ^ (128 * dividend.length - (db - 1)))]
  rw [Nat.mod_eq_of_lt (lt_trans hrem hhd)]
  obtain ⟨q, rem, c1, c2, c3, c4, c5⟩ := eachChunk_ok (half := half) (le_of_lt hhd) hh b3 _ hrem
  simp only []
  rw [if_neg (by omega), c1]
  simp only []
  rw [if_neg (by omega), shl_ok (by omega), M.ok_bind]
  have htot : val q * d + rem = val dividend * 2 ^ (db - 1) := by
    rw [c5, b4, b2]
    have e : (2 : Nat) ^ (128 * dividend.length) = 2 ^ (128 * dividend.length - (db - 1)) * 2 ^ (db - 1) := by
      rw [← pow_add]; congr 1; omega
    have e2 : val dividend * 2 ^ (db - 1) / 2 ^ (128 * dividend.length) = val dividend / 2 ^ (128 * dividend.length - (db - 1)) := by
      rw [e, Nat.mul_div_mul_right _ _ (by positivity)]
    rw [← e2, Nat.mul_comm _ (2 ^ (128 * dividend.length))]
    exact Nat.div_add_mod _ _
  have hqv : val q = val dividend * 2 ^ (db - 1) / d := by
    rw [← htot, Nat.mul_comm, Nat.mul_add_div hd0, Nat.div_eq_of_lt c4, Nat.add_zero]
  have hrv : rem = val dividend * 2 ^ (db - 1) % d := by
    rw [← htot, Nat.mul_comm, Nat.mul_add_mod, Nat.mod_eq_of_lt c4]
  have hrr : rem * 2 ^ 1 % 2 ^ 128 = 2 * rem := by
    rw [Nat.mod_eq_of_lt (by omega)]; ring
  rw [hrr, lostFraction_ok (a := [2 * rem]) (b := [d]) (r := rem) (Limbs.one (by omega)) (Limbs.one (by omega)) rfl (val_singleton _)
    (by rw [val_singleton]; exact hd0), M.ok_bind, val_singleton, hrv]
  exact ⟨q, rfl, by omega, c3, hqv⟩

theorem longDivLoop_ok {divisor : List Nat} (hv : Limbs divisor) :
    ∀ (n : Nat) (quotient dividend : List Nat), Limbs quotient → Limbs dividend →
    dividend.length = divisor.length → n ≤ 128 * quotient.length →
    2 ^ n ∣ val quotient → val dividend < 2 * val divisor → 2 * val divisor ≤ 2 ^ (128 * divisor.length) →
    ∃ q r Q, Sig.longDivLoop divisor n quotient dividend = .ok (q, r) ∧ q.length = quotient.length ∧
      r.length = dividend.length ∧ Limbs q ∧ Limbs r ∧ val q = val quotient + Q ∧ Q < 2 ^ n ∧
      val r + 2 * val divisor * Q = 2 ^ n * val dividend ∧ val r < 2 * val divisor := by
  intro n
  induction n with
  | zero =>
    intro quotient dividend h1 h2 h3 h4 h5 h6 h7
    exact ⟨quotient, dividend, 0, rfl, rfl, rfl, h1, h2, by simp, by simp, by simp, h6⟩
  | succ n ih =>
    intro quotient dividend h1 h2 h3 h4 h5 h6 h7
    unfold Sig.longDivLoop
    rw [cmp_ok h2 hv h3, M.ok_bind]
    have hpw : (2 : Nat) ^ n ∣ val quotient := dvd_trans (pow_dvd_pow 2 (by omega)) h5
    by_cases hc : compare (val dividend) (val divisor) ≠ .lt
    · rw [if_pos hc]
      have hge : val divisor ≤ val dividend := by
        by_contra h
        exact hc (Nat.compare_eq_lt.2 (by omega))
      obtain ⟨d1, a1, a2, a3, a4⟩ := sub_ok_fit h2 hv h3 (c := 0) (by omega) (by omega)
      rw [a1, M.ok_bind]
      simp only []
      obtain ⟨q1, b1, b2, b3, b4⟩ := setBit_ok h1 (bit := n) (by omega)
      rw [b1, M.ok_bind]
      obtain ⟨d2, c1, c2, c3, c4⟩ := shiftLeft_ok a3 (exp := 0) (bits := 1) (by omega) (by omega) (by omega)
      rw [c1, M.ok_bind]
      simp only []
      have hd2 : val d2 = 2 * (val dividend - val divisor) := by
        rw [c4, a4, a2, h3, Nat.mod_eq_of_lt (by omega)]; omega
      have hq1 : val q1 = val quotient + 2 ^ n := by
        rw [b4]; exact or_eq_add h5 (Nat.pow_lt_pow_right (by omega) (by omega))
      obtain ⟨q, r, Q, e1, e2, e3, e4, e5, e6, e7, e8, e9⟩ := ih q1 d2 b3 c3 (by omega) (by omega)
        (by rw [hq1]; exact Nat.dvd_add hpw (dvd_refl _)) (by omega) h7
      refine ⟨q, r, 2 ^ n + Q, e1, by omega, by omega, e4, e5, by omega, by rw [pow_succ]; omega, ?_, e9⟩
      rw [hd2] at e8
      obtain ⟨z, hz⟩ : ∃ z, val dividend = val divisor + z := ⟨val dividend - val divisor, by omega⟩
      rw [hz, Nat.add_sub_cancel_left] at e8
      rw [hz, pow_succ]
      linear_combination e8
    · rw [if_neg hc]
      have hlt : val dividend < val divisor := by
        have : compare (val dividend) (val divisor) = .lt := by simpa using hc
        exact Nat.compare_eq_lt.1 this
      obtain ⟨d2, c1, c2, c3, c4⟩ := shiftLeft_ok h2 (exp := 0) (bits := 1) (by omega) (by omega) (by omega)
      rw [c1, M.ok_bind]
      simp only []
      have hd2 : val d2 = 2 * val dividend := by
        rw [c4, h3, Nat.mod_eq_of_lt (by omega)]; omega
      obtain ⟨q, r, Q, e1, e2, e3, e4, e5, e6, e7, e8, e9⟩ := ih quotient d2 h1 c3 (by omega) (by omega)
        hpw (by omega) h7
      refine ⟨q, r, Q, e1, by omega, by omega, e4, e5, by omega, by rw [pow_succ]; omega, ?_, e9⟩
      rw [hd2] at e8
      rw [pow_succ]
      linear_combination e8

theorem divCore_ok {quotient dividend divisor : List Nat} {exp : Int} {p k : Nat}
    (hn : Limbs dividend) (hv : Limbs divisor) (hl : dividend.length = divisor.length)
    (hq : quotient.length = dividend.length) (hp : p < 128 * dividend.length)
    (hlim : limbsForBits p = dividend.length) (hpb : p < 1000000000)
    (hdv : 2 ^ k ∣ val divisor) (hd1 : 2 ^ (p - 1) ≤ val divisor) (hd2 : val divisor < 2 ^ p)
    (hk : k + 1 < p) (hlt : val dividend < 2 * val divisor) :
    ∃ q, Sig.divCore quotient exp dividend divisor p (k + 1) =
        .ok (q, exp, lossOf (val dividend * 2 ^ (p - 1) % val divisor) (val divisor)) ∧
      q.length = dividend.length ∧ Limbs q ∧ val q = val dividend * 2 ^ (p - 1) / val divisor := by
  unfold Sig.divCore
  simp only [Nat.add_sub_cancel]
  rw [usub_ok (by omega), M.ok_bind]
  obtain ⟨d, hd⟩ := hdv
  have hv0 : 0 < val divisor := lt_of_lt_of_le (by positivity) hd1
  have short : ∀ half, 128 / half * half = 128 → half ≤ 64 → (p - k) * 2 ≤ half →
      ∃ q, (do
        let (q, l) ← Sig.shortDiv half quotient dividend divisor (k + 1) (p - k)
        .ok (q, exp, l)) =
        (.ok (q, exp, lossOf (val dividend * 2 ^ (p - 1) % val divisor) (val divisor)) : M (List Nat × Int × Loss)) ∧
      q.length = dividend.length ∧ Limbs q ∧ val q = val dividend * 2 ^ (p - 1) / val divisor := by
    intro half hh h64 hdb
    have e1 : (2 : Nat) ^ (p - 1) = 2 ^ k * 2 ^ (p - k - 1) := by rw [← pow_add]; congr 1; omega
    have e2 : (2 : Nat) ^ p = 2 ^ k * 2 ^ (p - k) := by rw [← pow_add]; congr 1; omega
    have g1 : 2 ^ (p - k - 1) ≤ d := by
      rw [hd, e1] at hd1; exact Nat.le_of_mul_le_mul_left hd1 (by positivity)
    have g2 : d < 2 ^ (p - k) := by
      rw [hd, e2] at hd2; exact Nat.lt_of_mul_lt_mul_left hd2
    have hd0 : 0 < d := lt_of_lt_of_le (by positivity) g1
    have hfit : val dividend * 2 ^ (p - k - 1) < d * 2 ^ (128 * dividend.length) := by
      calc val dividend * 2 ^ (p - k - 1) < 2 * val divisor * 2 ^ (p - k - 1) := Nat.mul_lt_mul_of_pos_right hlt (by positivity)
        _ = d * 2 ^ (k + 1 + (p - k - 1)) := by rw [hd, pow_add, pow_add]; ring
        _ ≤ d * 2 ^ (128 * dividend.length) := Nat.mul_le_mul_left _ (Nat.pow_le_pow_right (by omega) (by omega))
    obtain ⟨q, q1, q2, q3, q4⟩ := shortDiv_ok (half := half) (db := p - k) (o := k + 1) (quotient := quotient) hn hv hl hq (by omega) hh h64
      (by omega) (by omega) (by omega) (by omega) (d := d) (by rw [hd, Nat.add_sub_cancel]; ring) g1 g2 hfit
    refine ⟨q, ?_, q2, q3, ?_⟩
    · rw [q1, M.ok_bind]
      simp only []
      congr 3
      rw [e1, hd]
      rw [show val dividend * (2 ^ k * 2 ^ (p - k - 1)) = 2 ^ k * (val dividend * 2 ^ (p - k - 1)) by ring,
        Nat.mul_mod_mul_left]
      unfold lossOf
      have hk0 : 0 < 2 ^ k := by positivity
      generalize val dividend * 2 ^ (p - k - 1) % d = m
      have c1 : (m = 0) = (2 ^ k * m = 0) := by simp
      have c2 : (2 * m < d) = (2 * (2 ^ k * m) < 2 ^ k * d) := by
        rw [show 2 * (2 ^ k * m) = 2 ^ k * (2 * m) by ring]
        simp
      have c3 : (2 * m = d) = (2 * (2 ^ k * m) = 2 ^ k * d) := by
        rw [show 2 * (2 ^ k * m) = 2 ^ k * (2 * m) by ring]
        simp
      simp only [c1, c2, c3]
    · rw [q4, e1, hd]
      rw [show val dividend * (2 ^ k * 2 ^ (p - k - 1)) = 2 ^ k * (val dividend * 2 ^ (p - k - 1)) by ring,
        Nat.mul_div_mul_left _ _ (by positivity)]
  split
  · exact short 16 (by norm_num) (by norm_num) (by assumption)
  · split
    · exact short 32 (by norm_num) (by norm_num) (by assumption)
    · split
      · exact short 64 (by norm_num) (by norm_num) (by assumption)
      · unfold Sig.zeroLow
        rw [if_pos (by omega), M.ok_bind, hlim, ← hq, List.drop_length, List.append_nil]
        obtain ⟨q, r, Q, e1, e2, e3, e4, e5, e6, e7, e8, e9⟩ := longDivLoop_ok hv p
          (List.replicate quotient.length 0) dividend (limbs_replicate _) hn hl (by simp; omega)
          (by rw [val_replicate]; exact dvd_zero _) hlt
          (by
            calc 2 * val divisor ≤ 2 ^ (p + 1) := by rw [pow_succ]; omega
              _ ≤ _ := Nat.pow_le_pow_right (by omega) (by omega))
        rw [e1, M.ok_bind]
        simp only []
        rw [val_replicate, Nat.zero_add] at e6
        have e8' : val r + 2 * val divisor * Q = 2 * (2 ^ (p - 1) * val dividend) := by
          rw [e8, ← Nat.mul_assoc, ← pow_succ']; congr 2; omega
        have hr : ∃ rem, val r = 2 * rem ∧ rem + val divisor * Q = 2 ^ (p - 1) * val dividend := by
          refine ⟨2 ^ (p - 1) * val dividend - val divisor * Q, ?_, ?_⟩
          · have : 2 * val divisor * Q = 2 * (val divisor * Q) := by ring
            omega
          · have : 2 * val divisor * Q = 2 * (val divisor * Q) := by ring
            omega
        obtain ⟨rem, r1, r2⟩ := hr
        rw [lostFraction_ok e5 hv (by omega) r1 hv0, M.ok_bind]
        have r3 : rem < val divisor := by omega
        refine ⟨q, ?_, by rw [e2]; simp, e4, ?_⟩
        · congr 4
          rw [Nat.mul_comm (val dividend), ← r2, Nat.add_mul_mod_self_left, Nat.mod_eq_of_lt r3]
        · rw [e6, Nat.mul_comm (val dividend), ← r2, Nat.add_mul_div_left _ _ hv0, Nat.div_eq_of_lt r3, Nat.zero_add]

theorem two_pow_mul_size_range {x p : Nat} (hx : 0 < x) (hp : Nat.size x ≤ p) :
    2 ^ (p - 1) ≤ x * 2 ^ (p - Nat.size x) ∧ x * 2 ^ (p - Nat.size x) < 2 ^ p := by
  have h1 := two_pow_size_le hx
  have h2 := lt_two_pow_size x
  have h3 := size_pos hx
  constructor
  · calc 2 ^ (p - 1) = 2 ^ (Nat.size x - 1) * 2 ^ (p - Nat.size x) := by rw [← pow_add]; congr 1; omega
      _ ≤ _ := Nat.mul_le_mul_right _ h1
  · calc x * 2 ^ (p - Nat.size x) < 2 ^ Nat.size x * 2 ^ (p - Nat.size x) := Nat.mul_lt_mul_of_pos_right h2 (by positivity)
      _ = 2 ^ p := by rw [← pow_add]; congr 1; omega

/-- The limb quotient: `p` significant bits of the exact quotient and the lost fraction. -/
theorem div_ok {quotient dividend divisor : List Nat} {exp : Int} {p : Nat}
    (hn : Limbs dividend) (hv : Limbs divisor) (hl : dividend.length = divisor.length)
    (hq : quotient.length = dividend.length) (hp : p < 128 * dividend.length) (hp1 : 1 ≤ p)
    (hlim : limbsForBits p = dividend.length) (hpb : p < 550000000)
    (hn0 : 0 < val dividend) (hv0 : 0 < val divisor)
    (hns : Nat.size (val dividend) ≤ p) (hvs : Nat.size (val divisor) ≤ p)
    (he1 : -1000000000 ≤ exp) (he2 : exp ≤ 1000000000) :
    ∃ q s t, Sig.div quotient exp dividend divisor p =
        .ok (q, exp + (t : Nat) - (s : Nat), lossOf (val dividend * 2 ^ s * 2 ^ (p - 1) % (val divisor * 2 ^ t)) (val divisor * 2 ^ t)) ∧
      q.length = dividend.length ∧ Limbs q ∧
      val divisor * 2 ^ t ≤ val dividend * 2 ^ s ∧ val dividend * 2 ^ s < 2 * (val divisor * 2 ^ t) ∧
      val q = val dividend * 2 ^ s * 2 ^ (p - 1) / (val divisor * 2 ^ t) ∧ s ≤ p ∧ t ≤ p := by
  unfold Sig.div
  rw [omsb_eq hv, usub_ok hvs, M.ok_bind]
  obtain ⟨dv, a1, a2, a3, a4⟩ := shiftLeft_ok hv (exp := 0) (bits := p - Nat.size (val divisor)) (by omega) (by omega) (by omega)
  rw [a1, M.ok_bind]
  simp only []
  rw [asI32_of_lt (by omega), i32_ok (by omega) (by omega), M.ok_bind, omsb_eq hn, usub_ok hns, M.ok_bind]
  obtain ⟨nd, b1, b2, b3, b4⟩ := shiftLeft_ok hn (exp := exp + (p - Nat.size (val divisor) : Nat))
    (bits := p - Nat.size (val dividend)) (by omega) (by omega) (by omega)
  rw [b1, M.ok_bind]
  simp only []
  obtain ⟨r1, r2⟩ := two_pow_mul_size_range hv0 hvs
  obtain ⟨r3, r4⟩ := two_pow_mul_size_range hn0 hns
  have hpl : (2 : Nat) ^ (p + 1) ≤ 2 ^ (128 * dividend.length) := Nat.pow_le_pow_right (by omega) (by omega)
  rw [pow_succ] at hpl
  rw [← hl, Nat.mod_eq_of_lt (by omega)] at a4
  rw [Nat.mod_eq_of_lt (by omega)] at b4
  have hp2 : (2 : Nat) ^ p = 2 * 2 ^ (p - 1) := by rw [← pow_succ']; congr 1; omega
  generalize hT : p - Nat.size (val divisor) = t at *
  generalize hS : p - Nat.size (val dividend) = s at *
  obtain ⟨k, k1, k2, k3⟩ := olsb_spec a3 (by rw [a4]; exact (lt_of_lt_of_le (by positivity) r1).ne')
  rw [k1]
  by_cases hk : k + 1 = p
  · rw [if_pos hk]
    have hk' : p - 1 = k := by omega
    have hd : val divisor * 2 ^ t = 2 ^ (p - 1) := by
      rw [← a4]
      have := Nat.div_add_mod (val dv) (2 ^ k)
      have hz : val dv % 2 ^ k = 0 := Nat.mod_eq_zero_of_dvd k2
      have h1 : val dv / 2 ^ k = 1 := by
        have : val dv / 2 ^ k < 2 := by
          rw [Nat.div_lt_iff_lt_mul (by positivity), a4, ← hk']; omega
        generalize val dv / 2 ^ k = z at *
        omega
      rw [h1, hz] at this
      rw [hk']; omega
    rw [if_pos (by omega)]
    refine ⟨nd, s, t, ?_, by omega, b3, by omega, by omega, ?_, by omega, by omega⟩
    · rw [hd]; simp [lossOf]
    · rw [hd, b4, Nat.mul_div_cancel _ (by positivity)]
  · rw [if_neg hk]
    rw [cmp_ok b3 a3 (by omega), M.ok_bind]
    have hkp : k + 1 < p := by
      have h1 : 2 ^ k ≤ val dv := Nat.le_of_dvd (by rw [a4]; exact (lt_of_lt_of_le (by positivity) r1)) k2
      have : 2 ^ k < 2 ^ p := by rw [a4] at h1; omega
      have := (Nat.pow_lt_pow_iff_right (by omega : 1 < 2)).1 this
      omega
    by_cases hc : compare (val nd) (val dv) = .lt
    · rw [if_pos hc]
      have hlt := Nat.compare_eq_lt.1 hc
      obtain ⟨n2, c1, c2, c3, c4⟩ := shiftLeft_ok b3 (exp := exp + (t : Nat) - (s : Nat)) (bits := 1) (by omega) (by omega) (by omega)
      rw [c1, M.ok_bind]
      simp only []
      rw [b2, Nat.mod_eq_of_lt (by omega)] at c4
      rw [cmp_ok c3 a3 (by omega), M.ok_bind]
      have hge2 : val dv ≤ val n2 := by omega
      rw [massert_pos (by intro h; have := Nat.compare_eq_lt.1 h; omega), M.ok_bind]
      obtain ⟨q, e1, e2, e3, e4⟩ := divCore_ok (quotient := quotient) (exp := exp + (t : Nat) - (s : Nat) - (1 : Nat)) c3 a3 (by omega) (by omega) (p := p) (k := k) (by rw [c2, b2]; omega)
        (by omega) (by omega) k2 (by omega) (by omega) hkp (by omega)
      refine ⟨q, s + 1, t, ?_, by omega, e3, ?_, ?_, ?_, ?_, by omega⟩
      · rw [e1, c4, b4, a4, pow_succ 2 s]
        have : exp + (t : Nat) - (s : Nat) - (1 : Nat) = exp + (t : Nat) - ((s + 1 : Nat) : Int) := by push_cast; ring
        rw [this]
        congr 4 <;> ring_nf
      · rw [pow_succ]; rw [a4, c4, b4] at hge2; linarith
      · rw [pow_succ, ← Nat.mul_assoc]; omega
      · rw [e4, c4, b4, a4, pow_succ 2 s]; congr 1; ring
      · have := size_pos hn0; omega
    · rw [if_neg hc]
      have hge2 : val dv ≤ val nd := by
        by_contra h
        exact hc (Nat.compare_eq_lt.2 (by omega))
      obtain ⟨q, e1, e2, e3, e4⟩ := divCore_ok (quotient := quotient) (exp := exp + (t : Nat) - (s : Nat)) b3 a3 (by omega) (by omega) (p := p) (k := k) (by rw [b2]; omega)
        (by omega) (by omega) k2 (by omega) (by omega) hkp (by omega)
      refine ⟨q, s, t, ?_, by omega, e3, by omega, by omega, ?_, by omega, by omega⟩
      · rw [e1, b4, a4]
      · rw [e4, b4, a4]

end Apf
