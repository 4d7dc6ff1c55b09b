import Verif.Spec.Accumulate
import Verif.Spec.Float
/-! # Computations on scaled numbers -/

namespace Apf
open Spec IeeeFloat

/-- `Scaled k e e'`: the computations have the same shape and the same rounding modes, every number of `e'` is the corresponding one of `e` times a power of two, and
the powers fit together: the terms of a sum or difference have the same one, in products they multiply and in quotients divide.  The result of `e'` should then be
that of `e` times `2^k`. -/
inductive Scaled {S : Sem} : ℤ → Expr (IeeeFloat S) → Expr (IeeeFloat S) → Prop
  | lit {k : ℤ} {x x' : IeeeFloat S} : x'.toRat = x.toRat * 2 ^ k → x'.sign = x.sign → Scaled k (.lit x) (.lit x')
  | neg {k a a'} : Scaled k a a' → Scaled k (.neg a) (.neg a')
  | add {k m a b a' b'} : Scaled k a a' → Scaled k b b' → Scaled k (.add m a b) (.add m a' b')
  | sub {k m a b a' b'} : Scaled k a a' → Scaled k b b' → Scaled k (.sub m a b) (.sub m a' b')
  | mul {j k m a b a' b'} : Scaled j a a' → Scaled k b b' → Scaled (j + k) (.mul m a b) (.mul m a' b')
  | div {j k m a b a' b'} : Scaled j a a' → Scaled k b b' → Scaled (j - k) (.div m a b) (.div m a' b')

/-- A computation that runs within the range of the format: it starts from finite numbers, every intermediate result is finite and smaller in magnitude than the largest
number, and every product and quotient is exact or larger than the smallest normal number. -/
def Expr.WithinRange {S : Sem} : Expr (IeeeFloat S) → Prop
  | .lit x => x.Valid ∧ x.isFinite = true
  | .neg a => a.WithinRange
  | .add m a b => a.WithinRange ∧ b.WithinRange ∧
      ∃ r, (Expr.add m a b).eval = .ok r ∧ r.value.isFinite = true ∧ |r.value.toRat| < S.fmt.largest
  | .sub m a b => a.WithinRange ∧ b.WithinRange ∧
      ∃ r, (Expr.sub m a b).eval = .ok r ∧ r.value.isFinite = true ∧ |r.value.toRat| < S.fmt.largest
  | .mul m a b => a.WithinRange ∧ b.WithinRange ∧
      ∃ x y r, a.eval = .ok x ∧ b.eval = .ok y ∧ (Expr.mul m a b).eval = .ok r ∧ r.value.isFinite = true ∧ |r.value.toRat| < S.fmt.largest ∧
        (r.value.toRat = x.value.toRat * y.value.toRat ∨ S.fmt.smallestNormal < |r.value.toRat|)
  | .div m a b => a.WithinRange ∧ b.WithinRange ∧
      ∃ x y r, a.eval = .ok x ∧ b.eval = .ok y ∧ (Expr.div m a b).eval = .ok r ∧ r.value.isFinite = true ∧ |r.value.toRat| < S.fmt.largest ∧
        (r.value.toRat = x.value.toRat / y.value.toRat ∨ S.fmt.smallestNormal < |r.value.toRat|)

end Apf
