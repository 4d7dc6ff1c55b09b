import Verif.Spec.Float
/-! # Specification for C127: corrected quotients -/

namespace Apf
open Spec

/-- `q` is a number of the format next to `v`: none lies strictly between them, and `q` is `v` if that is one. -/
structure Spec.Fmt.NextTo (F : Fmt) (v q : ℚ) : Prop where
  grid : F.Grid q
  below : ∀ z, F.Grid z → ¬ (q < z ∧ z < v)
  above : ∀ z, F.Grid z → ¬ (v < z ∧ z < q)
  exact : F.Grid v → q = v

end Apf
