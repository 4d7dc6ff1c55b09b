import Verif.Spec.Float
/-!
# The operands on which fused multiply-add is not correctly rounded
-/

namespace Apf
open Spec

/-- The operands of `mul_add_r` the code gets wrong, in terms of the exact product `P` and of the addend `z`: the addend is
subnormal, has the opposite sign and is not larger than the product (or larger by less than `2^(minExp - 2p)`), and the product
has bits below `2^(minExp - 2p)`, that is, more than `p` bits below the last bit of the format's subnormals.
The code then drops or inverts those bits, or panics (`C08_wrong_value`, `C08_wrong_zero`, `C08_panic`). -/
def FmaExcluded (S : Sem) (P z : ℚ) : Prop :=
  P * z < 0 ∧ |z| < 2 ^ S.minExp ∧ |z| < |P| + 2 ^ (S.minExp - 2 * S.precision) ∧
    ¬ ∃ k : ℤ, P = k * 2 ^ (S.minExp - 2 * S.precision)

end Apf
