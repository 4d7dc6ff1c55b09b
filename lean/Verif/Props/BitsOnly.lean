import Verif.Spec.BitsOnly
import Verif.Props.Bits
import Verif.Props.Debug
import Verif.Props.PpcTotal

/-! # C101: only the bits of the operands matter -/

namespace Apf
open Spec IeeeFloat

variable {S : Sem}

namespace BitsOnly

/-- Two floats of the same bits, by cases. -/
inductive SB : IeeeFloat S → IeeeFloat S → Prop
  | normal (m : ℕ) (e : ℤ) (s : Bool) : SB ⟨m, e, .normal, s⟩ ⟨m, e, .normal, s⟩
  | zero (m : ℕ) (e : ℤ) (m' : ℕ) (e' : ℤ) (s : Bool) : SB ⟨m, e, .zero, s⟩ ⟨m', e', .zero, s⟩
  | infinity (m : ℕ) (e : ℤ) (m' : ℕ) (e' : ℤ) (s : Bool) : SB ⟨m, e, .infinity, s⟩ ⟨m', e', .infinity, s⟩
  | nan (m : ℕ) (e : ℤ) (e' : ℤ) (s : Bool) : SB ⟨m, e, .nan, s⟩ ⟨m, e', .nan, s⟩

theorem sb_iff (x y : IeeeFloat S) : SB x y ↔ x.BitEq y := by
  unfold IeeeFloat.BitEq
  rw [bitwiseEq_iff]
  constructor
  · rintro (_ | _ | _ | _) <;> simp [Same]
  · rintro ⟨h1, h2, h3, h4⟩
    obtain ⟨m, e, c, s⟩ := x
    obtain ⟨m', e', c', s'⟩ := y
    simp only at h1 h2 h3 h4
    subst h1 h2
    cases c
    · exact .infinity ..
    · obtain rfl := h4 rfl; exact .nan ..
    · obtain ⟨rfl, rfl⟩ := h3 rfl; exact .normal ..
    · exact .zero ..

theorem SB.refl (x : IeeeFloat S) : SB x x := by
  obtain ⟨m, e, c, s⟩ := x
  cases c
  · exact .infinity ..
  · exact .nan ..
  · exact .normal ..
  · exact .zero ..

/-- Outcomes with the same flags and the same bits. -/
abbrev AR : M (StatusAnd (IeeeFloat S)) → M (StatusAnd (IeeeFloat S)) → Prop := Alike (FlagsAnd SB)

theorem alike_refl {α : Type} {R : α → α → Prop} (hR : ∀ a, R a a) (o : M α) : Alike R o o := by
  cases o
  · rfl
  · exact hR _

theorem AR.refl (o : M (StatusAnd (IeeeFloat S))) : AR o o := alike_refl (fun _ => ⟨rfl, SB.refl _⟩) o

theorem alike_eq {α : Type} {a b : M α} : Alike Eq a b ↔ a = b := by
  cases a <;> cases b <;> simp [Alike]

theorem Alike.bind {α β : Type} {R : α → α → Prop} {Q : β → β → Prop} {a b : M α} {f g : α → M β} (h : Alike R a b)
    (hf : ∀ x y, R x y → Alike Q (f x) (g y)) : Alike Q (a >>= f) (b >>= g) := by
  cases a <;> cases b
  · exact h
  · exact h.elim
  · exact h.elim
  · exact hf _ _ h

theorem Alike.mono {α : Type} {R Q : α → α → Prop} {a b : M α} (h : Alike R a b) (hf : ∀ x y, R x y → Q x y) : Alike Q a b := by
  cases a <;> cases b
  · exact h
  · exact h.elim
  · exact h.elim
  · exact hf _ _ h

section ops
variable {x x' y y' z z' : IeeeFloat S}

theorem SB.cat (h : SB x x') : x.category = x'.category := by cases h <;> rfl
theorem SB.sign (h : SB x x') : x.isNegative = x'.isNegative := by cases h <;> rfl
theorem SB.neg (h : SB x x') : SB x.neg x'.neg := by cases h <;> constructor
theorem SB.negateIf (h : SB x x') (b : Bool) : SB (x.negateIf b) (x'.negateIf b) := by
  unfold IeeeFloat.negateIf; split_ifs
  · exact h.neg
  · exact h
theorem SB.withSign (h : SB x x') (b : Bool) : SB (x.withSign b) (x'.withSign b) := by
  unfold IeeeFloat.withSign; rw [h.sign]; exact h.negateIf _
theorem SB.copySign (h : SB x x') (h' : SB y y') : SB (x.copySign y) (x'.copySign y') := by
  unfold IeeeFloat.copySign; rw [h.sign, h'.sign]; split_ifs
  · exact h.neg
  · exact h
theorem SB.abs (h : SB x x') : SB x.abs x'.abs := by
  unfold IeeeFloat.abs; rw [h.sign]; split_ifs
  · exact h.neg
  · exact h
theorem SB.isNan (h : SB x x') : x.isNan = x'.isNan := by unfold IeeeFloat.isNan; rw [h.cat]
theorem SB.isInfinite (h : SB x x') : x.isInfinite = x'.isInfinite := by unfold IeeeFloat.isInfinite; rw [h.cat]
theorem SB.isZero (h : SB x x') : x.isZero = x'.isZero := by unfold IeeeFloat.isZero; rw [h.cat]
theorem SB.isFinite (h : SB x x') : x.isFinite = x'.isFinite := by unfold IeeeFloat.isFinite; rw [h.isNan, h.isInfinite]
theorem SB.isFiniteNonZero (h : SB x x') : x.isFiniteNonZero = x'.isFiniteNonZero := by
  unfold IeeeFloat.isFiniteNonZero; rw [h.isFinite, h.isZero]
theorem SB.isDenormal (h : SB x x') : x.isDenormal = x'.isDenormal := by cases h <;> rfl
theorem SB.isSignaling (h : SB x x') : x.isSignaling = x'.isSignaling := by cases h <;> rfl
theorem SB.bitwiseEq (h : SB x x') (h' : SB y y') : x.bitwiseEq y = x'.bitwiseEq y' := by
  rw [Bool.eq_iff_iff, bitwiseEq_iff, bitwiseEq_iff]
  have a := (bitwiseEq_iff _ _).1 ((sb_iff _ _).1 h)
  have b := (bitwiseEq_iff _ _).1 ((sb_iff _ _).1 h')
  exact ⟨fun k => (a.symm.trans k).trans b, fun k => (a.trans k).trans b.symm⟩

theorem SB.fixZeroSign (h : SB x x') (h' : SB y y') (r : Round) : SB (fixZeroSign x y r) (fixZeroSign x' y' r) := by
  unfold IeeeFloat.fixZeroSign
  rw [h.cat, h'.cat, h.sign, h'.sign]; split_ifs
  · exact h.withSign _
  · exact h

theorem ar_ok {st : Status} (h : SB x x') : AR (.ok (st.and x)) (.ok (st.and x')) := ⟨rfl, h⟩

theorem resultFromNan_sb (h : SB x x') : AR (resultFromNan x) (resultFromNan x') := by
  cases h with
  | nan m e e' s =>
    unfold resultFromNan
    rw [show (⟨m, e', .nan, s⟩ : IeeeFloat S).isSignaling = (⟨m, e, .nan, s⟩ : IeeeFloat S).isSignaling from rfl]
    simp only [IeeeFloat.isNan, beq_self_eq_true, massert_pos, M.ok_bind]
    split_ifs <;> exact ⟨rfl, .nan ..⟩
  | normal => exact AR.refl _
  | zero => rfl
  | infinity => rfl

theorem binop_sb (h : SB x x') (h' : SB y y') : AR (binopResultFromEitherNan x y) (binopResultFromEitherNan x' y') := by
  unfold binopResultFromEitherNan
  rw [h'.isSignaling]
  refine Alike.bind (R := SB) ?_ fun a b hab => Alike.bind (resultFromNan_sb hab) fun c d hcd => ?_
  · cases h <;> cases h' <;> first
      | exact rfl
      | exact SB.nan ..
  · obtain ⟨k1, k2⟩ := hcd
    split_ifs
    · exact ⟨by rw [k1], k2⟩
    · exact ⟨k1, k2⟩

theorem addR_sb (h : SB x x') (h' : SB y y') (r : Round) : AR (addR x y r) (addR x' y' r) := by
  have hb := binop_sb h h'
  have f1 := h.fixZeroSign h' r
  have f2 := h'.fixZeroSign h' r
  have f3 := (SB.refl (NAN S)).fixZeroSign h' r
  have hs := h.sign
  have hs' := h'.sign
  cases h <;> cases h' <;> first
    | exact AR.refl _
    | exact hb
    | exact ar_ok f1
    | exact ar_ok f2
    | (unfold addR; simp only []; rw [← hs, ← hs']; split_ifs; exact ar_ok f3; exact ar_ok f1)

theorem subR_sb (h : SB x x') (h' : SB y y') (r : Round) : AR (subR x y r) (subR x' y' r) := by
  have hb := binop_sb h h'
  have ha := addR_sb h h'.neg r
  cases h <;> cases h' <;> first
    | exact hb
    | exact ha

theorem mulR_sb (h : SB x x') (h' : SB y y') (r : Round) : AR (mulR x y r) (mulR x' y' r) := by
  unfold mulR
  rw [← h'.sign]
  have hn := h.negateIf y.isNegative
  generalize x.negateIf y.isNegative = w at *
  generalize x'.negateIf y.isNegative = w' at *
  have hb := binop_sb (hn.negateIf y.isNegative) h'
  have hi := (SB.refl (INFINITY S)).copySign hn
  have hz := (SB.refl (ZERO S)).copySign hn
  generalize hq : y.isNegative = q at *
  clear hq
  cases hn <;> cases h' <;> first
    | exact AR.refl _
    | exact hb
    | exact ar_ok hi
    | exact ar_ok hz

theorem divR_sb (h : SB x x') (h' : SB y y') (r : Round) : AR (divR x y r) (divR x' y' r) := by
  unfold divR
  rw [← h'.sign]
  have hn := h.negateIf y.isNegative
  generalize x.negateIf y.isNegative = w at *
  generalize x'.negateIf y.isNegative = w' at *
  have hb := binop_sb (hn.negateIf y.isNegative) h'
  have hi := (SB.refl (INFINITY S)).copySign hn
  have hz := (SB.refl (ZERO S)).copySign hn
  have hw := hn
  generalize hq : y.isNegative = q at *
  clear hq
  cases hn <;> cases h' <;> first
    | exact AR.refl _
    | exact hb
    | exact ar_ok hi
    | exact ar_ok hz
    | exact ar_ok hw

theorem SB.eq_of_normal (h : SB x x') (c : x.isFiniteNonZero = true) : x = x' := by
  cases h with
  | normal => rfl
  | zero => cases c
  | infinity => cases c
  | nan => cases c

theorem mulAddR_sb (h : SB x x') (h' : SB y y') (h'' : SB z z') (r : Round) : AR (mulAddR x y z r) (mulAddR x' y' z' r) := by
  unfold mulAddR
  rw [← h.isFiniteNonZero, ← h'.isFiniteNonZero, ← h''.isFinite]
  split_ifs with c1 c2
  · exact Alike.bind (R := Eq) (alike_eq.2 rfl) fun _ _ _ => addR_sb h h'' r
  · refine Alike.bind (mulR_sb h h' r) fun a b hab => ?_
    rw [← hab.1]
    split_ifs
    · exact addR_sb hab.2 h'' r
    · exact hab
  · simp only [Bool.or_eq_true, Bool.not_eq_true', not_or, Bool.not_eq_false] at c1
    rw [← h.eq_of_normal c1.1.1, ← h'.eq_of_normal c1.1.2]
    unfold fmaNormals
    cases h'' with
    | normal => exact AR.refl _
    | zero m e m' e' s => exact AR.refl _
    | infinity => cases c1.2
    | nan => cases c1.2

theorem scalbnR_sb (h : SB x x') (e : ℤ) (r : Round) : Alike SB (scalbnR x e r) (scalbnR x' e r) := by
  unfold scalbnR
  refine Alike.bind (R := Eq) (alike_eq.2 rfl) ?_; rintro a _ rfl
  refine Alike.bind (R := Eq) (alike_eq.2 rfl) ?_; rintro b _ rfl
  refine Alike.bind (R := Eq) (alike_eq.2 rfl) ?_; rintro c _ rfl
  refine Alike.bind (R := Eq) (alike_eq.2 rfl) ?_; rintro d _ rfl
  refine Alike.bind (R := FlagsAnd SB) ?_ fun p q hpq => ?_
  · cases h with
    | normal => exact AR.refl _
    | zero => exact ⟨rfl, .zero ..⟩
    | infinity => exact ⟨rfl, .infinity ..⟩
    | nan => exact ⟨rfl, .nan ..⟩
  · rw [← hpq.2.isNan]
    split_ifs
    · exact Alike.bind (resultFromNan_sb hpq.2) fun _ _ k => k.2
    · exact hpq.2

theorem ilogb_sb (h : SB x x') : ilogb x = ilogb x' := by
  cases h <;> rfl

theorem frexpR_sb (h : SB x x') (r : Round) : Alike (fun a b => SB a.1 b.1 ∧ a.2 = b.2) (frexpR x r) (frexpR x' r) := by
  unfold frexpR
  rw [ilogb_sb h]
  refine Alike.bind (R := Eq) (alike_eq.2 rfl) ?_; rintro a _ rfl
  split_ifs
  · exact Alike.bind (resultFromNan_sb h) fun _ _ k => ⟨k.2, rfl⟩
  · exact ⟨h, rfl⟩
  · refine Alike.bind (R := Eq) (alike_eq.2 rfl) ?_; rintro b _ rfl
    refine Alike.bind (R := Eq) (alike_eq.2 rfl) ?_; rintro c _ rfl
    exact Alike.bind (scalbnR_sb h _ _) fun _ _ k => ⟨k, rfl⟩
  · refine Alike.bind (R := Eq) (alike_eq.2 rfl) ?_; rintro b _ rfl
    refine Alike.bind (R := Eq) (alike_eq.2 rfl) ?_; rintro c _ rfl
    exact Alike.bind (scalbnR_sb h _ _) fun _ _ k => ⟨k, rfl⟩

theorem cFmod_sb (h : SB x x') (h' : SB y y') : AR (cFmod x y) (cFmod x' y') := by
  have hb := binop_sb h h'
  have hx := h
  cases h <;> cases h' <;> first
    | exact AR.refl _
    | exact hb
    | exact ar_ok hx

theorem ieeeRem_sb (h : SB x x') (h' : SB y y') : AR (ieeeRem x y) (ieeeRem x' y') := by
  have hb := binop_sb h h'
  have hx := h
  cases h <;> cases h' <;> first
    | exact AR.refl _
    | exact hb
    | exact ar_ok hx

theorem roundToIntegral_sb (h : SB x x') (r : Round) : AR (roundToIntegral x r) (roundToIntegral x' r) := by
  have hb := resultFromNan_sb h
  have hx := h
  cases h <;> first
    | exact AR.refl _
    | exact hb
    | exact ar_ok hx

theorem isInteger_sb (h : SB x x') : isInteger x = isInteger x' := by
  cases h <;> rfl

theorem toU128R_sb (h : SB x x') (w : ℕ) (r : Round) : toU128R x w r = toU128R x' w r := by
  cases h <;> rfl

theorem toI128R_sb (h : SB x x') (w : ℕ) (r : Round) : toI128R x w r = toI128R x' w r := by
  unfold toI128R
  simp only [h.sign, toU128R_sb h.neg, toU128R_sb h]

theorem nextUp_sb (h : SB x x') : AR (nextUp x) (nextUp x') := by
  have hx := h
  have hs := h.isSignaling
  have hc := (SB.refl (NAN S)).copySign h
  cases h with
  | normal => exact AR.refl _
  | zero => exact AR.refl _
  | infinity m e m' e' s =>
    cases s
    · exact ar_ok hx
    · exact AR.refl _
  | nan m e e' s =>
    unfold nextUp; simp only []; rw [← hs]; split_ifs
    · exact ar_ok hc
    · exact ar_ok hx

theorem nextDown_sb (h : SB x x') : AR (nextDown x) (nextDown x') := by
  unfold nextDown
  exact Alike.bind (nextUp_sb h.neg) fun a b hab => ⟨hab.1, hab.2.neg⟩

theorem getExactInverse_sb (h : SB x x') : getExactInverse x = getExactInverse x' := by
  cases h <;> rfl

theorem convertR_sb (T : Sem) (h : SB x x') (r : Round) : convertR S T x r = convertR S T x' r := by
  cases h with
  | normal => rfl
  | zero m e m' e' s =>
    unfold convertR convertSig convertFinish
    simp [IeeeFloat.isNan, IeeeFloat.isFiniteNonZero, IeeeFloat.isFinite, IeeeFloat.isZero, IeeeFloat.isInfinite, Status.and, IeeeFloat.isNegative]
  | infinity m e m' e' s =>
    unfold convertR convertSig convertFinish
    simp [IeeeFloat.isNan, IeeeFloat.isFiniteNonZero, IeeeFloat.isFinite, IeeeFloat.isZero, IeeeFloat.isInfinite, Status.and, IeeeFloat.isNegative]
  | nan m e e' s =>
    have hq := resultFromNan_sb (SB.nan (S := S) m e e' s)
    unfold convertR
    simp only [IeeeFloat.isNan, beq_self_eq_true, if_true]
    cases h1 : resultFromNan (⟨m, e, .nan, s⟩ : IeeeFloat S) with
    | error k => rw [h1] at hq; cases h2 : resultFromNan (⟨m, e', .nan, s⟩ : IeeeFloat S) with
      | error k' => rw [h2] at hq; simp only [AR, Alike] at hq; rw [hq]
      | ok q' => rw [h2] at hq; exact hq.elim
    | ok q => rw [h1] at hq; cases h2 : resultFromNan (⟨m, e', .nan, s⟩ : IeeeFloat S) with
      | error k' => rw [h2] at hq; exact hq.elim
      | ok q' =>
        rw [h2] at hq
        obtain ⟨st, v⟩ := q
        obtain ⟨st', v'⟩ := q'
        obtain ⟨k1, k2⟩ := hq
        simp only at k1 k2
        subst k1
        have cv : v.category = .nan := by
          unfold resultFromNan at h1
          simp only [IeeeFloat.isNan, beq_self_eq_true, massert_pos, M.ok_bind] at h1
          split_ifs at h1 <;> cases h1 <;> rfl
        cases k2 with
        | normal => cases cv
        | zero => cases cv
        | infinity => cases cv
        | nan =>
          unfold convertSig convertFinish
          simp [IeeeFloat.isFiniteNonZero, IeeeFloat.isFinite, IeeeFloat.isZero, IeeeFloat.isInfinite, IeeeFloat.isNan, IeeeFloat.isNegative]

theorem cmpAbsNormal_sb (h : SB x x') (h' : SB y y') : cmpAbsNormal x y = cmpAbsNormal x' y' := by
  cases h <;> cases h' <;> rfl

theorem partialCmp_sb (h : SB x x') (h' : SB y y') : partialCmp x y = partialCmp x' y' := by
  cases h <;> cases h' <;> rfl

theorem display_sb (h : SB x x') (w p : Option ℕ) (a : Bool) : x.display w p a = x'.display w p a := by
  cases h <;> rfl

theorem toBits_sb (h : SB x x') : x.toBits = x'.toBits := by
  cases h with
  | normal => rfl
  | zero =>
    unfold toBits toBitsX87 toBitsDefault Sig.getBit
    cases (S.precision - 1) / limbBits <;> rfl
  | infinity =>
    unfold toBits toBitsX87 toBitsDefault Sig.getBit
    cases (S.precision - 1) / limbBits <;> rfl
  | nan => rfl

theorem min_sb (h : SB x x') (h' : SB y y') : Alike SB (IeeeFloat.min x y) (IeeeFloat.min x' y') := by
  unfold IeeeFloat.min IeeeFloat.lt
  rw [h.isNan, h'.isNan, partialCmp_sb h' h]
  split_ifs
  · exact h'
  · exact h
  · refine Alike.bind (R := Eq) (alike_eq.2 rfl) ?_; rintro b _ rfl
    show SB _ _
    split_ifs
    · exact h'
    · exact h

theorem max_sb (h : SB x x') (h' : SB y y') : Alike SB (IeeeFloat.max x y) (IeeeFloat.max x' y') := by
  unfold IeeeFloat.max IeeeFloat.lt
  rw [h.isNan, h'.isNan, partialCmp_sb h h']
  split_ifs
  · exact h'
  · exact h
  · refine Alike.bind (R := Eq) (alike_eq.2 rfl) ?_; rintro b _ rfl
    show SB _ _
    split_ifs
    · exact h'
    · exact h

theorem minimum_sb (h : SB x x') (h' : SB y y') : Alike SB (IeeeFloat.minimum x y) (IeeeFloat.minimum x' y') := by
  unfold IeeeFloat.minimum IeeeFloat.lt
  rw [h.isNan, h'.isNan, h.isZero, h'.isZero, h.sign, h'.sign, partialCmp_sb h' h]
  split_ifs
  · exact h
  · exact h'
  · exact h
  · exact h'
  · refine Alike.bind (R := Eq) (alike_eq.2 rfl) ?_; rintro b _ rfl
    show SB _ _
    split_ifs
    · exact h'
    · exact h

theorem maximum_sb (h : SB x x') (h' : SB y y') : Alike SB (IeeeFloat.maximum x y) (IeeeFloat.maximum x' y') := by
  unfold IeeeFloat.maximum IeeeFloat.lt
  rw [h.isNan, h'.isNan, h.isZero, h'.isZero, h.sign, h'.sign, partialCmp_sb h h']
  split_ifs
  · exact h
  · exact h'
  · exact h'
  · exact h
  · refine Alike.bind (R := Eq) (alike_eq.2 rfl) ?_; rintro b _ rfl
    show SB _ _
    split_ifs
    · exact h'
    · exact h

theorem eq_sb (h : SB x x') (h' : SB y y') : IeeeFloat.eq x y = IeeeFloat.eq x' y' := by
  unfold IeeeFloat.eq; rw [partialCmp_sb h h']

theorem isSmallest_sb (h : SB x x') : x.isSmallest = x'.isSmallest := SB.bitwiseEq (SB.copySign (.refl _) h) h
theorem isSmallestNormalized_sb (h : SB x x') : x.isSmallestNormalized = x'.isSmallestNormalized :=
  SB.bitwiseEq (SB.copySign (.refl _) h) h
theorem isLargest_sb (h : SB x x') : x.isLargest = x'.isLargest := SB.bitwiseEq (SB.copySign (.refl _) h) h

end ops

/-! ### Pairs -/

/-- Both parts have the same bits. -/
def DB {S : Sem} (x y : DoubleFloat S) : Prop := SB x.hi y.hi ∧ SB x.lo y.lo

theorem db_iff (x y : DoubleFloat S) : DB x y ↔ x.BitEq y := by
  unfold DB DoubleFloat.BitEq DoubleFloat.bitwiseEq
  rw [sb_iff, sb_iff, Bool.and_eq_true]; rfl

theorem DB.refl (x : DoubleFloat S) : DB x x := ⟨.refl _, .refl _⟩

set_option hygiene false in
macro "nxt" t:term " as " h:ident : tactic =>
  `(tactic| (refine Alike.bind $t ?_; rintro ⟨_, _⟩ ⟨_, _⟩ ⟨e0, $h:ident⟩; dsimp only at e0 $h:ident; subst e0; dsimp only))

section pairs
variable {S : Sem} {x y z x' y' z' : DoubleFloat S}

theorem toFallback_db (h : DB x x') : x.toFallback = x'.toFallback := by
  unfold DoubleFloat.toFallback
  rw [convertR_sb _ h.1, convertR_sb _ h.2]

theorem DB.neg (h : DB x x') : DB x.neg x'.neg := by
  unfold DoubleFloat.neg
  rw [h.2.isFiniteNonZero]
  split_ifs
  · exact ⟨h.1.neg, h.2.neg⟩
  · exact ⟨h.1.neg, h.2⟩

theorem DB.cat (h : DB x x') : x.category = x'.category := h.1.cat
theorem DB.sign (h : DB x x') : x.isNegative = x'.isNegative := h.1.sign
theorem DB.isNan (h : DB x x') : x.isNan = x'.isNan := by unfold DoubleFloat.isNan; rw [h.cat]
theorem DB.isZero (h : DB x x') : x.isZero = x'.isZero := by unfold DoubleFloat.isZero; rw [h.cat]

theorem DB.copySign (h : DB x x') (h' : DB y y') : DB (x.copySign y) (x'.copySign y') := by
  unfold DoubleFloat.copySign
  rw [h.sign, h'.sign]
  split_ifs
  · exact h.neg
  · exact h

theorem DB.abs (h : DB x x') : DB x.abs x'.abs := by
  unfold DoubleFloat.abs
  rw [h.sign]
  split_ifs
  · exact h.neg
  · exact h

theorem DB.bitwiseEq (h : DB x x') (h' : DB y y') : x.bitwiseEq y = x'.bitwiseEq y' := by
  unfold DoubleFloat.bitwiseEq
  rw [h.1.bitwiseEq h'.1, h.2.bitwiseEq h'.2]

section parts
variable {a aa c cc z a' aa' c' cc' z' : IeeeFloat S}

theorem addOverflowed_sb (ha : SB a a') (haa : SB aa aa') (hc : SB c c') (hcc : SB cc cc') (r : Round) :
    Alike (FlagsAnd DB) (DoubleFloat.addOverflowed a aa c cc r) (DoubleFloat.addOverflowed a' aa' c' cc' r) := by
  unfold DoubleFloat.addOverflowed
  rw [cmpAbsNormal_sb ha hc]
  refine Alike.bind (R := Eq) (alike_eq.2 rfl) ?_; rintro o _ rfl
  nxt (addR_sb hcc haa r) as h1
  obtain ⟨p, q, p', q', hp, hq, e, e'⟩ : ∃ p q p' q' : IeeeFloat S, SB p p' ∧ SB q q' ∧
      (if o = .gt then (c, a) else (a, c)) = (p, q) ∧ (if o = .gt then (c', a') else (a', c')) = (p', q') := by
    split_ifs
    · exact ⟨_, _, _, _, hc, ha, rfl, rfl⟩
    · exact ⟨_, _, _, _, ha, hc, rfl, rfl⟩
  rw [e, e']
  dsimp only
  nxt (addR_sb h1 hp r) as h2
  nxt (addR_sb h2 hq r) as h3
  rw [h3.isFinite]
  split_ifs
  · exact ⟨rfl, h3, .refl _⟩
  · nxt (addR_sb haa hcc r) as h4
    nxt (subR_sb hq h3 r) as h5
    nxt (addR_sb h5 hp r) as h6
    nxt (addR_sb h6 h4 r) as h7
    exact ⟨rfl, h3, h7⟩

theorem addFinite_sb (ha : SB a a') (haa : SB aa aa') (hc : SB c c') (hcc : SB cc cc') (hz : SB z z') (st : Status) (r : Round) :
    Alike (FlagsAnd DB) (DoubleFloat.addFinite a aa c cc z st r) (DoubleFloat.addFinite a' aa' c' cc' z' st r) := by
  unfold DoubleFloat.addFinite
  nxt (subR_sb ha hz r) as h1
  nxt (addR_sb h1 hc r) as h2
  nxt (addR_sb h1 hz r) as h3
  nxt (subR_sb h3 ha r) as h4
  nxt (addR_sb h2 h4.neg r) as h5
  nxt (addR_sb h5 haa r) as h6
  nxt (addR_sb h6 hcc r) as h7
  rw [h7.isZero, h7.sign]
  split_ifs
  · exact ⟨rfl, hz, .refl _⟩
  · nxt (addR_sb hz h7 r) as h8
    rw [h8.isFinite]
    split_ifs
    · exact ⟨rfl, h8, .refl _⟩
    · nxt (subR_sb hz h8 r) as h9
      nxt (addR_sb h9 h7 r) as h10
      exact ⟨rfl, h8, h10⟩

end parts

theorem addR_db (h : DB x x') (h' : DB y y') (r : Round) : Alike (FlagsAnd DB) (x.addR y r) (x'.addR y' r) := by
  unfold DoubleFloat.addR
  rw [← h.cat, ← h'.cat, ← h.sign, ← h'.sign]
  have hl : Alike (FlagsAnd DB) (.ok (Status.OK.and x)) (.ok (Status.OK.and x')) := ⟨rfl, h⟩
  have hr : Alike (FlagsAnd DB) (.ok (Status.OK.and y)) (.ok (Status.OK.and y')) := ⟨rfl, h'⟩
  cases x.category <;> cases y.category <;> dsimp only <;> first | exact hl | exact hr | skip
  · split_ifs
    · exact ⟨rfl, DB.copySign (.refl _) h⟩
    · exact hl
  · nxt (addR_sb h.1 h'.1 r) as h1
    rw [h1.isFinite, h1.isInfinite]
    split_ifs
    · exact ⟨rfl, h1, .refl _⟩
    · exact addOverflowed_sb h.1 h.2 h'.1 h'.2 r
    · exact addFinite_sb h.1 h.2 h'.1 h'.2 h1 _ r

theorem subR_db (h : DB x x') (h' : DB y y') (r : Round) : Alike (FlagsAnd DB) (x.subR y r) (x'.subR y' r) := addR_db h h'.neg r

theorem mulR_db (h : DB x x') (h' : DB y y') (r : Round) : Alike (FlagsAnd DB) (x.mulR y r) (x'.mulR y' r) := by
  unfold DoubleFloat.mulR
  rw [← h.cat, ← h'.cat]
  have hl : Alike (FlagsAnd DB) (.ok (Status.OK.and x)) (.ok (Status.OK.and x')) := ⟨rfl, h⟩
  have hr : Alike (FlagsAnd DB) (.ok (Status.OK.and y)) (.ok (Status.OK.and y')) := ⟨rfl, h'⟩
  cases x.category <;> cases y.category <;> dsimp only <;> first | exact hl | exact hr | exact ⟨rfl, DB.refl _⟩ | skip
  nxt (mulR_sb h.1 h'.1 r) as h1
  rw [h1.isFiniteNonZero]
  split_ifs
  · exact ⟨rfl, h1, .refl _⟩
  · nxt (mulAddR_sb h.1 h'.1 h1.neg r) as h2
    nxt (mulR_sb h.1 h'.2 r) as h3
    nxt (mulR_sb h.2 h'.1 r) as h4
    nxt (addR_sb h3 h4 r) as h5
    nxt (addR_sb h2 h5 r) as h6
    nxt (addR_sb h1 h6 r) as h7
    rw [h7.isFinite]
    split_ifs
    · exact ⟨rfl, h7, .refl _⟩
    · nxt (subR_sb h1 h7 r) as h8
      nxt (addR_sb h8 h6 r) as h9
      exact ⟨rfl, h7, h9⟩

theorem mulAddR_db (h : DB x x') (h' : DB y y') (h'' : DB z z') (r : Round) : x.mulAddR y z r = x'.mulAddR y' z' r := by
  unfold DoubleFloat.mulAddR; rw [toFallback_db h, toFallback_db h', toFallback_db h'']
theorem divR_db (h : DB x x') (h' : DB y y') (r : Round) : x.divR y r = x'.divR y' r := by
  unfold DoubleFloat.divR; rw [toFallback_db h, toFallback_db h']
theorem ieeeRem_db (h : DB x x') (h' : DB y y') : x.ieeeRem y = x'.ieeeRem y' := by
  unfold DoubleFloat.ieeeRem; rw [toFallback_db h, toFallback_db h']
theorem cFmod_db (h : DB x x') (h' : DB y y') : x.cFmod y = x'.cFmod y' := by
  unfold DoubleFloat.cFmod; rw [toFallback_db h, toFallback_db h']
theorem roundToIntegral_db (h : DB x x') (r : Round) : x.roundToIntegral r = x'.roundToIntegral r := by
  unfold DoubleFloat.roundToIntegral; rw [toFallback_db h]
theorem nextUp_db (h : DB x x') : x.nextUp = x'.nextUp := by
  unfold DoubleFloat.nextUp; rw [toFallback_db h]
theorem nextDown_db (h : DB x x') : x.nextDown = x'.nextDown := by
  unfold DoubleFloat.nextDown; rw [nextUp_db h.neg]
theorem toBits_db (h : DB x x') : x.toBits = x'.toBits := by
  unfold DoubleFloat.toBits; rw [toBits_sb h.1, toBits_sb h.2]
theorem toU128R_db (h : DB x x') (w : ℕ) (r : Round) : x.toU128R w r = x'.toU128R w r := by
  unfold DoubleFloat.toU128R; rw [toFallback_db h]
theorem toI128R_db (h : DB x x') (w : ℕ) (r : Round) : x.toI128R w r = x'.toI128R w r := by
  unfold DoubleFloat.toI128R; simp only [h.sign, toU128R_db h, toU128R_db h.neg]
theorem cmpAbsNormal_db (h : DB x x') (h' : DB y y') : x.cmpAbsNormal y = x'.cmpAbsNormal y' := by
  unfold DoubleFloat.cmpAbsNormal; simp only [cmpAbsNormal_sb h.1 h'.1, cmpAbsNormal_sb h.2 h'.2, h.1.sign, h.2.sign, h'.1.sign, h'.2.sign]
theorem partialCmp_db (h : DB x x') (h' : DB y y') : x.partialCmp y = x'.partialCmp y' := by
  unfold DoubleFloat.partialCmp; simp only [partialCmp_sb h.1 h'.1, partialCmp_sb h.2 h'.2]
theorem eq_db (h : DB x x') (h' : DB y y') : x.eq y = x'.eq y' := by
  unfold DoubleFloat.eq; simp only [eq_sb h.1 h'.1, eq_sb h.2 h'.2]
theorem isDenormal_db (h : DB x x') : x.isDenormal = x'.isDenormal := by
  unfold DoubleFloat.isDenormal
  rw [h.cat, h.1.isDenormal]
  split_ifs
  · rfl
  · refine alike_eq.1 ?_
    nxt (addR_sb h.1 h.2 .nearestTiesToEven) as h1
    rw [eq_sb h.1 h1]
    exact alike_eq.2 rfl
  · rfl
theorem isSmallest_db (h : DB x x') : x.isSmallest = x'.isSmallest := DB.bitwiseEq (DB.copySign (.refl _) h) h
theorem isLargest_db (h : DB x x') : x.isLargest = x'.isLargest := by
  unfold DoubleFloat.isLargest
  cases DoubleFloat.largest S with
  | error e => rfl
  | ok c => rw [M.ok_bind, M.ok_bind, DB.bitwiseEq (DB.copySign (.refl _) h) h]
theorem isSmallestNormalized_db (h : DB x x') : x.isSmallestNormalized = x'.isSmallestNormalized := by
  unfold DoubleFloat.isSmallestNormalized
  cases DoubleFloat.smallestNormalized S with
  | error e => rfl
  | ok c => rw [M.ok_bind, M.ok_bind, DB.bitwiseEq (DB.copySign (.refl _) h) h]
theorem isInteger_db (h : DB x x') : x.isInteger = x'.isInteger := by
  unfold DoubleFloat.isInteger; simp only [isInteger_sb h.1, isInteger_sb h.2]
theorem getExactInverse_db (h : DB x x') : x.getExactInverse = x'.getExactInverse := by
  unfold DoubleFloat.getExactInverse; rw [toFallback_db h]
theorem display_db (h : DB x x') (w p : Option ℕ) (a : Bool) : x.display w p a = x'.display w p a := by
  unfold DoubleFloat.display; rw [toFallback_db h]
theorem scalbnR_db (h : DB x x') (e : ℤ) (r : Round) : Alike DB (x.scalbnR e r) (x'.scalbnR e r) := by
  unfold DoubleFloat.scalbnR
  refine Alike.bind (scalbnR_sb h.1 e r) fun a b h1 => ?_
  refine Alike.bind (scalbnR_sb h.2 e r) fun a b h2 => ?_
  exact ⟨h1, h2⟩
theorem frexpR_db (h : DB x x') (r : Round) : Alike (fun a b => DB a.1 b.1 ∧ a.2 = b.2) (x.frexpR r) (x'.frexpR r) := by
  unfold DoubleFloat.frexpR
  refine Alike.bind (frexpR_sb h.1 r) ?_
  rintro ⟨a, k⟩ ⟨b, k'⟩ ⟨h1, e⟩
  dsimp only at h1 e ⊢
  subst e
  rw [h.cat]
  split_ifs
  · refine Alike.bind (R := Eq) (alike_eq.2 rfl) ?_; rintro ne _ rfl
    refine Alike.bind (scalbnR_sb h.2 ne r) fun a b h2 => ?_
    exact ⟨⟨h1, h2⟩, rfl⟩
  · exact ⟨⟨h1, h.2⟩, rfl⟩

theorem min_db (h : DB x x') (h' : DB y y') : Alike DB (x.min y) (x'.min y') := by
  unfold DoubleFloat.min DoubleFloat.lt
  rw [h.isNan, h'.isNan, partialCmp_db h' h]
  split_ifs
  · exact h'
  · exact h
  · refine Alike.bind (R := Eq) (alike_eq.2 rfl) ?_; rintro b _ rfl
    show DB _ _
    split_ifs
    · exact h'
    · exact h

theorem max_db (h : DB x x') (h' : DB y y') : Alike DB (x.max y) (x'.max y') := by
  unfold DoubleFloat.max DoubleFloat.lt
  rw [h.isNan, h'.isNan, partialCmp_db h h']
  split_ifs
  · exact h'
  · exact h
  · refine Alike.bind (R := Eq) (alike_eq.2 rfl) ?_; rintro b _ rfl
    show DB _ _
    split_ifs
    · exact h'
    · exact h

theorem minimum_db (h : DB x x') (h' : DB y y') : Alike DB (x.minimum y) (x'.minimum y') := by
  unfold DoubleFloat.minimum DoubleFloat.lt
  rw [h.isNan, h'.isNan, h.isZero, h'.isZero, h.sign, h'.sign, partialCmp_db h' h]
  split_ifs
  · exact h
  · exact h'
  · exact h
  · exact h'
  · refine Alike.bind (R := Eq) (alike_eq.2 rfl) ?_; rintro b _ rfl
    show DB _ _
    split_ifs
    · exact h'
    · exact h

theorem maximum_db (h : DB x x') (h' : DB y y') : Alike DB (x.maximum y) (x'.maximum y') := by
  unfold DoubleFloat.maximum DoubleFloat.lt
  rw [h.isNan, h'.isNan, h.isZero, h'.isZero, h.sign, h'.sign, partialCmp_db h h']
  split_ifs
  · exact h
  · exact h'
  · exact h'
  · exact h
  · refine Alike.bind (R := Eq) (alike_eq.2 rfl) ?_; rintro b _ rfl
    show DB _ _
    split_ifs
    · exact h'
    · exact h

end pairs
theorem alike_of_eq {α : Type} {R : α → α → Prop} (hR : ∀ a, R a a) {a b : M α} (h : a = b) : Alike R a b := by
  rw [h]; exact alike_refl hR b

theorem ir {S : Sem} (x : IeeeFloat S) : x.BitEq x := (sb_iff x x).1 (.refl x)
theorem dr {S : Sem} (x : DoubleFloat S) : x.BitEq x := (db_iff x x).1 (.refl x)

theorem ia {S : Sem} {a b : M (IeeeFloat S)} (h : Alike SB a b) : Alike IeeeFloat.BitEq a b := Alike.mono h fun _ _ => (sb_iff _ _).1
theorem iaf {S : Sem} {a b : M (StatusAnd (IeeeFloat S))} (h : AR a b) : Alike (FlagsAnd IeeeFloat.BitEq) a b :=
  Alike.mono h fun _ _ k => ⟨k.1, (sb_iff _ _).1 k.2⟩
theorem da {S : Sem} {a b : M (DoubleFloat S)} (h : Alike DB a b) : Alike DoubleFloat.BitEq a b := Alike.mono h fun _ _ => (db_iff _ _).1
theorem daf {S : Sem} {a b : M (StatusAnd (DoubleFloat S))} (h : Alike (FlagsAnd DB) a b) : Alike (FlagsAnd DoubleFloat.BitEq) a b :=
  Alike.mono h fun _ _ k => ⟨k.1, (db_iff _ _).1 k.2⟩
theorem def_ {S : Sem} {a b : M (StatusAnd (DoubleFloat S))} (h : a = b) : Alike (FlagsAnd DoubleFloat.BitEq) a b :=
  alike_of_eq (fun _ => ⟨rfl, dr _⟩) h

theorem optionRel_refl {α : Type} {R : α → α → Prop} (hR : ∀ a, R a a) (o : Option α) : OptionRel R o o := by
  cases o
  · trivial
  · exact hR _

theorem debug_alike {x x' : IeeeFloat S} (h : SB x x') : Alike (fun _ _ => True) x.debug x'.debug := by
  unfold IeeeFloat.debug
  rw [display_sb h]
  refine Alike.bind (R := Eq) (alike_eq.2 rfl) ?_; rintro b _ rfl
  trivial

theorem pair_debug_alike {x x' : DoubleFloat S} (h : DB x x') : Alike (fun _ _ => True) x.debug x'.debug := by
  unfold DoubleFloat.debug
  refine Alike.bind (debug_alike h.1) fun _ _ _ => ?_
  refine Alike.bind (debug_alike h.2) fun _ _ _ => ?_
  trivial

end BitsOnly
open BitsOnly

/-- **C101** (a single format).  Every method of the trait gives, on operands of the same bits, the same answer, the same flags and floats of the
same bits (or it panics in the same way): for every format, every operand, every mode, width and precision. -/
theorem C101_ieee (S : Sem) : OnlyBits (IeeeFloat S) IeeeFloat.BitEq where
  to_bits h := toBits_sb ((sb_iff _ _).2 h)
  to_u128_r w r h := by simp only [ApiFloat.to_u128_r, toU128R_sb ((sb_iff _ _).2 h)]
  to_i128_r w r h := by simp only [ApiFloat.to_i128_r, toI128R_sb ((sb_iff _ _).2 h)]
  fmt w p a h := display_sb ((sb_iff _ _).2 h) w p a
  neg h := (sb_iff _ _).1 ((sb_iff _ _).2 h).neg
  copy_sign h h' := (sb_iff _ _).1 (((sb_iff _ _).2 h).copySign ((sb_iff _ _).2 h'))
  abs h := (sb_iff _ _).1 ((sb_iff _ _).2 h).abs
  add_r r h h' := iaf (addR_sb ((sb_iff _ _).2 h) ((sb_iff _ _).2 h') r)
  sub_r r h h' := iaf (subR_sb ((sb_iff _ _).2 h) ((sb_iff _ _).2 h') r)
  mul_r r h h' := iaf (mulR_sb ((sb_iff _ _).2 h) ((sb_iff _ _).2 h') r)
  div_r r h h' := iaf (divR_sb ((sb_iff _ _).2 h) ((sb_iff _ _).2 h') r)
  mul_add_r r h h' h'' := iaf (mulAddR_sb ((sb_iff _ _).2 h) ((sb_iff _ _).2 h') ((sb_iff _ _).2 h'') r)
  c_fmod h h' := iaf (cFmod_sb ((sb_iff _ _).2 h) ((sb_iff _ _).2 h'))
  ieee_rem h h' := iaf (ieeeRem_sb ((sb_iff _ _).2 h) ((sb_iff _ _).2 h'))
  round_to_integral r h := iaf (roundToIntegral_sb ((sb_iff _ _).2 h) r)
  next_up h := iaf (nextUp_sb ((sb_iff _ _).2 h))
  next_down h := iaf (nextDown_sb ((sb_iff _ _).2 h))
  min h h' := ia (min_sb ((sb_iff _ _).2 h) ((sb_iff _ _).2 h'))
  max h h' := ia (max_sb ((sb_iff _ _).2 h) ((sb_iff _ _).2 h'))
  minimum h h' := ia (minimum_sb ((sb_iff _ _).2 h) ((sb_iff _ _).2 h'))
  maximum h h' := ia (maximum_sb ((sb_iff _ _).2 h) ((sb_iff _ _).2 h'))
  scalbn_r n r h := ia (scalbnR_sb ((sb_iff _ _).2 h) n r)
  frexp_r r h := Alike.mono (frexpR_sb ((sb_iff _ _).2 h) r) fun _ _ k => ⟨(sb_iff _ _).1 k.1, k.2⟩
  ilogb h := ilogb_sb ((sb_iff _ _).2 h)
  get_exact_inverse h := alike_of_eq (optionRel_refl ir) (getExactInverse_sb ((sb_iff _ _).2 h))
  partial_cmp h h' := partialCmp_sb ((sb_iff _ _).2 h) ((sb_iff _ _).2 h')
  bitwise_eq h h' := congrArg Except.ok (((sb_iff _ _).2 h).bitwiseEq ((sb_iff _ _).2 h'))
  category h := congrArg Except.ok ((sb_iff _ _).2 h).cat
  is_negative h := congrArg Except.ok ((sb_iff _ _).2 h).sign
  is_denormal h := congrArg Except.ok ((sb_iff _ _).2 h).isDenormal
  is_signaling h := congrArg Except.ok ((sb_iff _ _).2 h).isSignaling
  is_integer h := isInteger_sb ((sb_iff _ _).2 h)
  is_smallest h := congrArg Except.ok (isSmallest_sb ((sb_iff _ _).2 h))
  is_largest h := congrArg Except.ok (isLargest_sb ((sb_iff _ _).2 h))
  is_smallest_normalized h := congrArg Except.ok (isSmallestNormalized_sb ((sb_iff _ _).2 h))

/-- **C101** (pairs): the same for `DoubleFloat`. -/
theorem C101_pair (S : Sem) : OnlyBits (DoubleFloat S) DoubleFloat.BitEq where
  to_bits h := toBits_db ((db_iff _ _).2 h)
  to_u128_r w r h := by simp only [ApiFloat.to_u128_r, toU128R_db ((db_iff _ _).2 h)]
  to_i128_r w r h := by simp only [ApiFloat.to_i128_r, toI128R_db ((db_iff _ _).2 h)]
  fmt w p a h := display_db ((db_iff _ _).2 h) w p a
  neg h := (db_iff _ _).1 ((db_iff _ _).2 h).neg
  copy_sign h h' := (db_iff _ _).1 (((db_iff _ _).2 h).copySign ((db_iff _ _).2 h'))
  abs h := (db_iff _ _).1 ((db_iff _ _).2 h).abs
  add_r r h h' := daf (addR_db ((db_iff _ _).2 h) ((db_iff _ _).2 h') r)
  sub_r r h h' := daf (subR_db ((db_iff _ _).2 h) ((db_iff _ _).2 h') r)
  mul_r r h h' := daf (mulR_db ((db_iff _ _).2 h) ((db_iff _ _).2 h') r)
  div_r r h h' := def_ (divR_db ((db_iff _ _).2 h) ((db_iff _ _).2 h') r)
  mul_add_r r h h' h'' := def_ (mulAddR_db ((db_iff _ _).2 h) ((db_iff _ _).2 h') ((db_iff _ _).2 h'') r)
  c_fmod h h' := def_ (cFmod_db ((db_iff _ _).2 h) ((db_iff _ _).2 h'))
  ieee_rem h h' := def_ (ieeeRem_db ((db_iff _ _).2 h) ((db_iff _ _).2 h'))
  round_to_integral r h := def_ (roundToIntegral_db ((db_iff _ _).2 h) r)
  next_up h := def_ (nextUp_db ((db_iff _ _).2 h))
  next_down h := def_ (nextDown_db ((db_iff _ _).2 h))
  min h h' := da (min_db ((db_iff _ _).2 h) ((db_iff _ _).2 h'))
  max h h' := da (max_db ((db_iff _ _).2 h) ((db_iff _ _).2 h'))
  minimum h h' := da (minimum_db ((db_iff _ _).2 h) ((db_iff _ _).2 h'))
  maximum h h' := da (maximum_db ((db_iff _ _).2 h) ((db_iff _ _).2 h'))
  scalbn_r n r h := da (scalbnR_db ((db_iff _ _).2 h) n r)
  frexp_r r h := Alike.mono (frexpR_db ((db_iff _ _).2 h) r) fun _ _ k => ⟨(db_iff _ _).1 k.1, k.2⟩
  ilogb h := ilogb_sb ((db_iff _ _).2 h).1
  get_exact_inverse h := alike_of_eq (optionRel_refl dr) (getExactInverse_db ((db_iff _ _).2 h))
  partial_cmp h h' := partialCmp_db ((db_iff _ _).2 h) ((db_iff _ _).2 h')
  bitwise_eq h h' := congrArg Except.ok (((db_iff _ _).2 h).bitwiseEq ((db_iff _ _).2 h'))
  category h := congrArg Except.ok ((db_iff _ _).2 h).cat
  is_negative h := congrArg Except.ok ((db_iff _ _).2 h).sign
  is_denormal h := isDenormal_db ((db_iff _ _).2 h)
  is_signaling h := congrArg Except.ok ((db_iff _ _).2 h).1.isSignaling
  is_integer h := isInteger_db ((db_iff _ _).2 h)
  is_smallest h := congrArg Except.ok (isSmallest_db ((db_iff _ _).2 h))
  is_largest h := isLargest_db ((db_iff _ _).2 h)
  is_smallest_normalized h := isSmallestNormalized_db ((db_iff _ _).2 h)

/-- **C101** (conversion).  Converting floats of the same bits gives the very same result, flags and `loses_info`. -/
theorem C101_convert (T : Sem) {x y : IeeeFloat S} (h : x.BitEq y) (mode : Round) : convertR S T x mode = convertR S T y mode :=
  convertR_sb T ((sb_iff _ _).2 h) mode

/-- A zero with the exponent of another one (`0.0.scalbn(5)`, see `C101_debug_shows_more`). -/
def zeroScaled : IeeeFloat singleS := ⟨0, -122, .zero, false⟩

example : zeroScaled.BitEq (ZERO singleS) ∧ zeroScaled ≠ ZERO singleS := ⟨rfl, by decide⟩
example := (C101_ieee singleS).add_r .towardPositive (x := zeroScaled) (x' := ZERO singleS) (y := ex15) (y' := ex15) rfl (ir _)
example := C101_convert doubleS (x := zeroScaled) (y := ZERO singleS) rfl .nearestTiesToEven

/-! ## Programs -/

/-- The memories show the same bits in every register. -/
def Store.BitEq (st st' : Store) : Prop := ∀ f i, (st f i).BitEq (st' f i)

/-- The memories show the same bits in every register. -/
def PStore.BitEq (st st' : PStore) : Prop := ∀ i, (st i).BitEq (st' i)

namespace BitsOnly

theorem set_alike {st st' : Store} (hst : st.BitEq st') {f : Format} (i : ℕ) {x x' : IeeeFloat f.sem} (hx : SB x x') :
    (st.set f i x).BitEq (st'.set f i x') := by
  intro g j
  unfold Store.set
  split_ifs with h1 h2
  · subst h1; exact (sb_iff _ _).1 hx
  · exact hst g j
  · exact hst g j

theorem pset_alike {st st' : PStore} (hst : st.BitEq st') (i : ℕ) {x x' : DoubleDouble} (hx : DB x x') :
    (st.set i x).BitEq (st'.set i x') := by
  intro j
  unfold PStore.set
  split_ifs
  · exact (db_iff _ _).1 hx
  · exact hst j

theorem run_alike {st st' : Store} (hst : st.BitEq st') (c : Call) : Alike Store.BitEq (c.run st) (c.run st') := by
  have sb : ∀ f i, SB (st f i) (st' f i) := fun f i => (sb_iff _ _).2 (hst f i)
  have set1 : ∀ {f : Format} (d : ℕ) {x x' : IeeeFloat f.sem}, SB x x' →
      Alike Store.BitEq (.ok (st.set f d x)) (.ok (st'.set f d x')) := fun d _ _ hx => set_alike hst d hx
  have ret : ∀ {f : Format} (d : ℕ) {m m' : M (StatusAnd (IeeeFloat f.sem))}, AR m m' →
      Alike Store.BitEq (do let r ← m; .ok (st.set f d r.value)) (do let r ← m'; .ok (st'.set f d r.value)) :=
    fun d _ _ h => Alike.bind h fun _ _ k => set1 d k.2
  have ret' : ∀ {f : Format} (d : ℕ) {m m' : M (IeeeFloat f.sem)}, Alike SB m m' →
      Alike Store.BitEq (do let r ← m; .ok (st.set f d r)) (do let r ← m'; .ok (st'.set f d r)) :=
    fun d _ _ h => Alike.bind h fun _ _ k => set1 d k
  have obs : ∀ {α : Type} {m m' : M α}, m = m' →
      Alike Store.BitEq (do let _ ← m; .ok st) (do let _ ← m'; .ok st') :=
    fun h => Alike.bind (R := Eq) (alike_eq.2 h) fun _ _ _ => hst
  cases c
  case zero d => exact set1 d (.refl _)
  case infinity d => exact set1 d (.refl _)
  case nan d => exact set1 d (.refl _)
  case qnan d p => exact set1 d (.refl _)
  case snan d p => exact set1 d (.refl _)
  case largest d => exact set1 d (.refl _)
  case smallest d => exact set1 d (.refl _)
  case smallestNormalized d => exact set1 d (.refl _)
  case fromBits f d b => exact ret' d (alike_refl SB.refl _)
  case fromU128 f d n mode => exact ret d (AR.refl _)
  case fromI128 f d n mode => exact ret d (AR.refl _)
  case fromStr f d fuel s mode =>
    refine Alike.bind (R := Eq) (alike_eq.2 rfl) ?_
    rintro (e | r) _ rfl
    · exact hst
    · exact set1 d (.refl _)
  case neg f d a => exact set1 d (sb f a).neg
  case abs f d a => exact set1 d (sb f a).abs
  case copySign f d a b => exact set1 d ((sb f a).copySign (sb f b))
  case add f d a b mode => exact ret d (addR_sb (sb f a) (sb f b) mode)
  case sub f d a b mode => exact ret d (subR_sb (sb f a) (sb f b) mode)
  case mul f d a b mode => exact ret d (mulR_sb (sb f a) (sb f b) mode)
  case div f d a b mode => exact ret d (divR_sb (sb f a) (sb f b) mode)
  case mulAdd f d a b c mode => exact ret d (mulAddR_sb (sb f a) (sb f b) (sb f c) mode)
  case fmod f d a b => exact ret d (cFmod_sb (sb f a) (sb f b))
  case rem f d a b => exact ret d (ieeeRem_sb (sb f a) (sb f b))
  case roundToIntegral f d a mode => exact ret d (roundToIntegral_sb (sb f a) mode)
  case nextUp f d a => exact ret d (nextUp_sb (sb f a))
  case nextDown f d a => exact ret d (nextDown_sb (sb f a))
  case scalbn f d a n mode => exact ret' d (scalbnR_sb (sb f a) n mode)
  case frexp f d a mode => exact Alike.bind (frexpR_sb (sb f a) mode) fun _ _ k => set1 d k.1
  case exactInverse f d a =>
    refine Alike.bind (R := Eq) (alike_eq.2 (getExactInverse_sb (sb f a))) ?_
    rintro (e | r) _ rfl
    · exact hst
    · exact set1 d (.refl _)
  case min f d a b => exact ret' d (min_sb (sb f a) (sb f b))
  case max f d a b => exact ret' d (max_sb (sb f a) (sb f b))
  case minimum f d a b => exact ret' d (minimum_sb (sb f a) (sb f b))
  case maximum f d a b => exact ret' d (maximum_sb (sb f a) (sb f b))
  case convert f g d a mode =>
    exact Alike.bind (R := Eq) (alike_eq.2 (convertR_sb g.sem (sb f a) mode)) fun x y k => by subst k; exact set1 d (.refl _)
  case toBits f a => exact obs (toBits_sb (sb f a))
  case toU128 f a w mode => exact obs (toU128R_sb (sb f a) w mode)
  case toI128 f a w mode => exact obs (toI128R_sb (sb f a) w mode)
  case ilogb f a => exact obs (ilogb_sb (sb f a))
  case isInteger f a => exact obs (isInteger_sb (sb f a))
  case partialCmp f a b => exact obs (partialCmp_sb (sb f a) (sb f b))
  case operators f a b =>
    have h := partialCmp_sb (sb f a) (sb f b)
    refine Alike.bind (R := Eq) (alike_eq.2 (by unfold IeeeFloat.eq; rw [h])) fun _ _ _ => ?_
    refine Alike.bind (R := Eq) (alike_eq.2 (by unfold IeeeFloat.lt; rw [h])) fun _ _ _ => ?_
    refine Alike.bind (R := Eq) (alike_eq.2 (by unfold IeeeFloat.gt; rw [h])) fun _ _ _ => ?_
    refine Alike.bind (R := Eq) (alike_eq.2 (by unfold IeeeFloat.ge; rw [h])) fun _ _ _ => ?_
    refine Alike.bind (R := Eq) (alike_eq.2 (by unfold IeeeFloat.le; rw [h])) fun _ _ _ => ?_
    exact hst
  case display f a w p alt => exact obs (display_sb (sb f a) w p alt)
  case debug f a => exact Alike.bind (debug_alike (sb f a)) fun _ _ _ => hst
  case cmpAbsNormal f a b => exact obs (cmpAbsNormal_sb (sb f a) (sb f b))

theorem prun_alike {st st' : PStore} (hst : st.BitEq st') (c : PCall) : Alike PStore.BitEq (c.run st) (c.run st') := by
  have sb : ∀ i, DB (st i) (st' i) := fun i => (db_iff _ _).2 (hst i)
  have set1 : ∀ (d : ℕ) {x x' : DoubleDouble}, DB x x' →
      Alike PStore.BitEq (.ok (st.set d x)) (.ok (st'.set d x')) := fun d _ _ hx => pset_alike hst d hx
  have ret : ∀ (d : ℕ) {m m' : M (StatusAnd DoubleDouble)}, Alike (FlagsAnd DB) m m' →
      Alike PStore.BitEq (do let r ← m; .ok (st.set d r.value)) (do let r ← m'; .ok (st'.set d r.value)) :=
    fun d _ _ h => Alike.bind h fun _ _ k => set1 d k.2
  have ret' : ∀ (d : ℕ) {m m' : M DoubleDouble}, Alike DB m m' →
      Alike PStore.BitEq (do let r ← m; .ok (st.set d r)) (do let r ← m'; .ok (st'.set d r)) :=
    fun d _ _ h => Alike.bind h fun _ _ k => set1 d k
  have rete : ∀ (d : ℕ) {m m' : M (StatusAnd DoubleDouble)}, m = m' →
      Alike PStore.BitEq (do let r ← m; .ok (st.set d r.value)) (do let r ← m'; .ok (st'.set d r.value)) :=
    fun d _ _ h => ret d (alike_of_eq (fun _ => ⟨rfl, DB.refl _⟩) h)
  have obs : ∀ {α : Type} {m m' : M α}, m = m' →
      Alike PStore.BitEq (do let _ ← m; .ok st) (do let _ ← m'; .ok st') :=
    fun h => Alike.bind (R := Eq) (alike_eq.2 h) fun _ _ _ => hst
  cases c
  case zero d => exact set1 d (.refl _)
  case infinity d => exact set1 d (.refl _)
  case nan d => exact set1 d (.refl _)
  case qnan d p => exact set1 d (.refl _)
  case snan d p => exact set1 d (.refl _)
  case largest d => exact ret' d (alike_refl DB.refl _)
  case smallest d => exact set1 d (.refl _)
  case smallestNormalized d => exact ret' d (alike_refl DB.refl _)
  case fromBits d b => exact ret' d (alike_refl DB.refl _)
  case fromU128 d n mode => exact rete d rfl
  case fromI128 d n mode => exact rete d rfl
  case fromStr d fuel s mode =>
    refine Alike.bind (R := Eq) (alike_eq.2 rfl) ?_
    rintro (e | r) _ rfl
    · exact hst
    · exact set1 d (.refl _)
  case neg d a => exact set1 d (sb a).neg
  case abs d a => exact set1 d (sb a).abs
  case copySign d a b => exact set1 d ((sb a).copySign (sb b))
  case add d a b mode => exact ret d (addR_db (sb a) (sb b) mode)
  case sub d a b mode => exact ret d (subR_db (sb a) (sb b) mode)
  case mul d a b mode => exact ret d (mulR_db (sb a) (sb b) mode)
  case div d a b mode => exact rete d (divR_db (sb a) (sb b) mode)
  case mulAdd d a b c mode => exact rete d (mulAddR_db (sb a) (sb b) (sb c) mode)
  case fmod d a b => exact rete d (cFmod_db (sb a) (sb b))
  case rem d a b => exact rete d (ieeeRem_db (sb a) (sb b))
  case roundToIntegral d a mode => exact rete d (roundToIntegral_db (sb a) mode)
  case nextUp d a => exact rete d (nextUp_db (sb a))
  case nextDown d a => exact rete d (nextDown_db (sb a))
  case scalbn d a n mode => exact ret' d (scalbnR_db (sb a) n mode)
  case frexp d a mode => exact Alike.bind (frexpR_db (sb a) mode) fun _ _ k => set1 d k.1
  case exactInverse d a =>
    refine Alike.bind (R := Eq) (alike_eq.2 (getExactInverse_db (sb a))) ?_
    rintro (e | r) _ rfl
    · exact hst
    · exact set1 d (.refl _)
  case min d a b => exact ret' d (min_db (sb a) (sb b))
  case max d a b => exact ret' d (max_db (sb a) (sb b))
  case minimum d a b => exact ret' d (minimum_db (sb a) (sb b))
  case maximum d a b => exact ret' d (maximum_db (sb a) (sb b))
  case toBits a => exact obs (toBits_db (sb a))
  case toU128 a w mode => exact obs (toU128R_db (sb a) w mode)
  case toI128 a w mode => exact obs (toI128R_db (sb a) w mode)
  case ilogb a => exact obs (ilogb_sb (sb a).1)
  case isInteger a => exact obs (isInteger_db (sb a))
  case isDenormal a => exact obs (isDenormal_db (sb a))
  case isLargest a => exact obs (isLargest_db (sb a))
  case isSmallestNormalized a => exact obs (isSmallestNormalized_db (sb a))
  case partialCmp a b => exact obs (partialCmp_db (sb a) (sb b))
  case eq a b => exact obs (eq_db (sb a) (sb b))
  case operators a b =>
    have h := partialCmp_db (sb a) (sb b)
    refine Alike.bind (R := Eq) (alike_eq.2 (by unfold DoubleFloat.lt; rw [h])) fun _ _ _ => ?_
    refine Alike.bind (R := Eq) (alike_eq.2 (by unfold DoubleFloat.le; rw [h])) fun _ _ _ => ?_
    refine Alike.bind (R := Eq) (alike_eq.2 (by unfold DoubleFloat.gt; rw [h])) fun _ _ _ => ?_
    refine Alike.bind (R := Eq) (alike_eq.2 (by unfold DoubleFloat.ge; rw [h])) fun _ _ _ => ?_
    exact hst
  case display a w p alt => exact obs (display_db (sb a) w p alt)
  case debug a => exact Alike.bind (pair_debug_alike (sb a)) fun _ _ _ => hst
  case cmpAbsNormal a b => exact obs (cmpAbsNormal_db (sb a) (sb b))

end BitsOnly

/-- **C101** (histories).  A program run on two memories that show the same bits ends in two memories that show the same bits, or panics in both,
in the same way. -/
theorem C101_histories (calls : List Call) : ∀ {st st' : Store}, st.BitEq st' → Alike Store.BitEq (runAll calls st) (runAll calls st') := by
  induction calls with
  | nil => exact fun h => h
  | cons c cs ih => exact fun h => Alike.bind (run_alike h c) fun _ _ k => ih k

/-- **C101** (histories of pairs). -/
theorem C101_pair_histories (calls : List PCall) :
    ∀ {st st' : PStore}, st.BitEq st' → Alike PStore.BitEq (runPairs calls st) (runPairs calls st') := by
  induction calls with
  | nil => exact fun h => h
  | cons c cs ih => exact fun h => Alike.bind (prun_alike h c) fun _ _ k => ih k

example := C101_histories [.convert .single .double 0 0 .towardZero, .add .double 1 0 1 .towardZero]
  (st := Store.start.set .single 0 zeroScaled) (st' := Store.start.set .single 0 (ZERO singleS)) (set_alike (fun _ _ => ir _) 0 (.zero ..))

/-! ## Values kept as bits -/

/-- A step of a program: a call, or one register is stored as its bits and loaded again. -/
inductive Step where
  | call (c : Call)
  | reload (f : Format) (i : ℕ)

/-- Executes a step. -/
def Step.run (st : Store) : Step → M Store
  | .call c => c.run st
  | .reload f i => do let x ← stored (st f i); .ok (st.set f i x)

/-- Executes a program. -/
def runSteps : List Step → Store → M Store
  | [], st => .ok st
  | c :: cs, st => do
    let st ← c.run st
    runSteps cs st

/-- The calls of the program. -/
def callsOf : List Step → List Call
  | [] => []
  | .call c :: cs => c :: callsOf cs
  | .reload _ _ :: cs => callsOf cs

/-- A step of a program over pairs: a call, or one register is stored as its bits and loaded again. -/
inductive PStep where
  | call (c : PCall)
  | reload (i : ℕ)

/-- Executes a step. -/
def PStep.run (st : PStore) : PStep → M PStore
  | .call c => c.run st
  | .reload i => do let x ← stored (st i); .ok (st.set i x)

/-- Executes a program. -/
def runPSteps : List PStep → PStore → M PStore
  | [], st => .ok st
  | c :: cs, st => do
    let st ← c.run st
    runPSteps cs st

/-- The calls of the program. -/
def pcallsOf : List PStep → List PCall
  | [] => []
  | .call c :: cs => c :: pcallsOf cs
  | .reload _ :: cs => pcallsOf cs

/-- **C101** (one value).  Storing a well-formed value as its bits and loading it again returns, and gives a well-formed value of the same bits. -/
theorem C101_stored (h : S.Enc) {x : IeeeFloat S} (hx : x.Valid) : ∃ y, stored x = .ok y ∧ y.Valid ∧ y.BitEq x := by
  obtain ⟨b, y, h1, h2, h3, h4⟩ := C03_value_round_trip h hx
  refine ⟨y, ?_, ?_, h4⟩
  · show (do let b ← x.toBits; fromBits S b) = _
    rw [h1]; exact h3
  · obtain ⟨x', x1, x2, -⟩ := C02_from_bits_decodes h h2
    rw [h3] at x1; injection x1 with x1; exact x1 ▸ x2

theorem BitsOnly.SB.symm {x y : IeeeFloat S} (h : SB x y) : SB y x := by cases h <;> constructor
theorem BitsOnly.SB.trans {x y z : IeeeFloat S} (h : SB x y) (h' : SB y z) : SB x z := by cases h <;> cases h' <;> constructor
theorem BitsOnly.DB.trans {x y z : DoubleFloat S} (h : DB x y) (h' : DB y z) : DB x z := ⟨h.1.trans h'.1, h.2.trans h'.2⟩

/-- **C101** (one pair). -/
theorem C101_pair_stored {x : DoubleDouble} (hx : x.Valid) : ∃ y, stored x = .ok y ∧ y.Valid ∧ y.BitEq x := by
  obtain ⟨a, -, a1, a2, -⟩ := C03_value_round_trip doubleS_enc hx.1
  obtain ⟨b, -, b1, b2, -⟩ := C03_value_round_trip doubleS_enc hx.2
  have e : x.toBits = .ok (a ||| b * 2 ^ 64 % 2 ^ 128) := by
    unfold DoubleFloat.toBits
    rw [a1, b1]
    simp only [M.ok_bind]
    rw [shl_ok (by decide)]
    rfl
  have hlt : a ||| b * 2 ^ 64 % 2 ^ 128 < 2 ^ 128 :=
    Nat.or_lt_two_pow (a2.trans_le (by decide)) (Nat.mod_lt _ (by decide))
  obtain ⟨y, y1, y2, y3, -⟩ := C41_bits_round_trip doubleS_enc rfl (by decide) hlt
  refine ⟨y, ?_, y2, ?_⟩
  · show (do let b ← x.toBits; DoubleFloat.fromBits doubleS b) = _
    rw [e]; exact y1
  · obtain ⟨c, d, c1, d1, k⟩ := C41_bitwise_eq doubleS_enc (by decide) y2 hx
    rw [y3] at c1; rw [e] at d1
    exact k.2 (by injection c1 with c1; injection d1 with d1; rw [← c1, ← d1])

theorem BitsOnly.steps_aux (steps : List Step) : (∀ c ∈ callsOf steps, c.InRange) → ∀ {st st' : Store}, st.WellFormed → st'.WellFormed → st.BitEq st' →
    Alike Store.BitEq (runSteps steps st) (runAll (callsOf steps) st') := by
  induction steps with
  | nil => exact fun _ _ _ _ _ h => h
  | cons s ss ih =>
    intro hr st st' w w' h
    cases s with
    | call c =>
      have hc := hr c List.mem_cons_self
      have hs := fun c' hc' => hr c' (List.mem_cons_of_mem c hc')
      have k := run_alike h c
      show Alike _ (do let st ← c.run st; runSteps ss st) (do let st ← c.run st'; runAll (callsOf ss) st)
      rcases Call.run_total w c hc with ⟨s1, e1, w1⟩ | ⟨-, e1⟩ <;> rcases Call.run_total w' c hc with ⟨s2, e2, w2⟩ | ⟨-, e2⟩ <;>
        rw [e1, e2] at k ⊢
      · exact ih hs w1 w2 k
      · exact k.elim
      · exact k.elim
      · exact k
    | reload f i =>
      obtain ⟨y, y1, y2, y3⟩ := C101_stored f.enc (w f i)
      show Alike _ (do let st ← (do let x ← stored (st f i); .ok (st.set f i x)); runSteps ss st) (runAll (callsOf ss) st')
      rw [y1]
      refine ih hr (Store.set_wellFormed w i y2) w' ?_
      intro g j
      unfold Store.set
      split_ifs with h1 h2
      · subst h1 h2
        exact (sb_iff _ _).1 (((sb_iff _ _).2 y3).trans ((sb_iff _ _).2 (h f i)))
      · exact h g j
      · exact h g j

/-- **C101** (keeping values as bits).  Storing any registers as bits and loading them again, anywhere in a program and as often as one likes,
changes nothing that the bits of the registers show at the end, nor whether and how the program panics. -/
theorem C101_kept_as_bits (steps : List Step) (hr : ∀ c ∈ callsOf steps, c.InRange) :
    Alike Store.BitEq (runSteps steps .start) (runAll (callsOf steps) .start) :=
  steps_aux steps hr Store.start_wellFormed Store.start_wellFormed fun _ _ => ir _

theorem BitsOnly.psteps_aux (steps : List PStep) : (∀ c ∈ pcallsOf steps, c.InRange) → ∀ {st st' : PStore}, st.WellFormed → st'.WellFormed →
    st.BitEq st' → Alike PStore.BitEq (runPSteps steps st) (runPairs (pcallsOf steps) st') := by
  induction steps with
  | nil => exact fun _ _ _ _ _ h => h
  | cons s ss ih =>
    intro hr st st' w w' h
    cases s with
    | call c =>
      have hc := hr c List.mem_cons_self
      have hs := fun c' hc' => hr c' (List.mem_cons_of_mem c hc')
      have k := prun_alike h c
      show Alike _ (do let st ← c.run st; runPSteps ss st) (do let st ← c.run st'; runPairs (pcallsOf ss) st)
      rcases PCall.run_total w c hc with ⟨s1, e1, w1⟩ | ⟨-, e1⟩ <;> rcases PCall.run_total w' c hc with ⟨s2, e2, w2⟩ | ⟨-, e2⟩ <;>
        rw [e1, e2] at k ⊢
      · exact ih hs w1 w2 k
      · exact k.elim
      · exact k.elim
      · exact k
    | reload i =>
      obtain ⟨y, y1, y2, y3⟩ := C101_pair_stored (w i)
      show Alike _ (do let st ← (do let x ← stored (st i); .ok (st.set i x)); runPSteps ss st) (runPairs (pcallsOf ss) st')
      rw [y1]
      refine ih hr (PStore.set_wellFormed w i y2) w' ?_
      intro j
      unfold PStore.set
      split_ifs with h1
      · subst h1
        exact (db_iff _ _).1 (((db_iff _ _).2 y3).trans ((db_iff _ _).2 (h i)))
      · exact h j

/-- **C101** (keeping pairs as bits). -/
theorem C101_pairs_kept_as_bits (steps : List PStep) (hr : ∀ c ∈ pcallsOf steps, c.InRange) :
    Alike PStore.BitEq (runPSteps steps .start) (runPairs (pcallsOf steps) .start) :=
  psteps_aux steps hr (fun _ => ⟨zero_valid, zero_valid⟩) (fun _ => ⟨zero_valid, zero_valid⟩) fun _ => dr _

example := C101_stored singleS_enc (x := zeroScaled) (by decide)
example := C101_pair_stored fits_example.1.1
example := C101_kept_as_bits [.call (.fromStr .double 1 23 "0.1".toList .nearestTiesToEven), .reload .double 1,
  .call (.div .double 2 1 0 .towardZero), .reload .double 2, .reload .double 0, .call (.convert .double .half 0 2 .towardZero)]
  (by intro c hc; simp only [callsOf, List.mem_cons, List.not_mem_nil, or_false] at hc; rcases hc with rfl | rfl | rfl
      exacts [⟨le_refl 23, by decide⟩, trivial, trivial])
example := C101_pairs_kept_as_bits [.call (.largest 0), .reload 0, .call (.add 1 0 0 .towardZero), .reload 1]
  (by intro c hc; simp only [pcallsOf, List.mem_cons, List.not_mem_nil, or_false] at hc; rcases hc with rfl | rfl <;> trivial)

/-- **C101** (the exception).  `{:?}` shows more than the bits: `0.0` and `0.0.scalbn(5)` have the same bits and different `Debug` texts. -/
theorem C101_debug_shows_more :
    scalbnR (ZERO singleS) 5 .nearestTiesToEven = .ok zeroScaled ∧ zeroScaled.BitEq (ZERO singleS) ∧
    zeroScaled.debug = .ok "0(Zero | +[0] * 2^-122)".toList ∧ (ZERO singleS).debug = .ok "0(Zero | +[0] * 2^-127)".toList :=
  ⟨by decide +kernel, rfl, by decide +kernel, by decide +kernel⟩

end Apf
