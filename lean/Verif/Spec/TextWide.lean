import Verif.Spec.Float
/-! # Specification for C125: texts read through a wider type -/

namespace Apf

/-- `P` digits are enough to identify a number of `S` even when the text is first rounded to a number of the wider format `T`: either there is one more bit to
spare, or `T` is precise enough where the numbers of `S` lie. -/
def EnoughDigits (T S : Sem) (P : ℕ) : Prop :=
  2 ^ (S.precision + 1) < 10 ^ (P - 1) ∨
  (T.minExp ≤ S.minExp - S.precision ∧
    2 ^ T.precision + 3 * 10 ^ (P - 1) < 10 ^ (P - 1) * 2 ^ (T.precision - S.precision))

end Apf
