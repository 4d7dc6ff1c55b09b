import Verif.Spec.Float
/-! # Specification for C124: a conversion done in two steps

The statements compare the two steps `S → U → T` with the one conversion `S → T`. -/

namespace Apf
open Spec

/-- The numbers half way between two consecutive numbers of the format: those a rounding to nearest has to break a tie for. -/
def Spec.Fmt.Midpoint (F : Fmt) (w : ℚ) : Prop :=
  ∃ a b, F.Grid a ∧ F.Grid b ∧ a < b ∧ (∀ g, F.Grid g → g ≤ a ∨ b ≤ g) ∧ w = (a + b) / 2

/-- `T` has no more precision and no more range than `U`, and `U` has infinities: every number of `T` is one of `U`. -/
structure Narrower (U T : Sem) : Prop where
  okU : U.OK
  okT : T.OK
  inf : U.nonfinite = .ieee754
  prec : T.precision ≤ U.precision
  unit : U.minExp - U.precision ≤ T.minExp - T.precision
  top : T.maxExp ≤ U.maxExp

/-- `U` moreover has the numbers half way between those of `T`: one more bit of precision, and the half of the smallest number. -/
structure StrictlyNarrower (U T : Sem) : Prop extends Narrower U T where
  prec' : T.precision + 1 ≤ U.precision
  unit' : U.minExp - U.precision + 1 ≤ T.minExp - T.precision

/-- The two steps (results `v₁`, `v₂` with flags `st₁`, `st₂`) deliver what the single conversion (result `v`, flags `st`) does: the same number
or special value with the same sign, and together the same report of inexactness and overflow. -/
structure SameAsDirect {U T : Sem} (v₁ : IeeeFloat U) (st₁ : Status) (v₂ : IeeeFloat T) (st₂ : Status) (v : IeeeFloat T) (st : Status) : Prop where
  datum : v₂.datum = v.datum
  sign : v₂.sign = v.sign
  inexact : (st₁.inexact || st₂.inexact) = st.inexact
  overflow : (st₁.overflow || st₂.overflow) = st.overflow

end Apf
