import Verif.Spec.Ppc
/-! # Pairs with a small low part

In the default rounding mode the results of `DoubleFloat` are canonical pairs: the high part is the rounded value.  In the other modes they are not
(`C57_toward_zero`); what they keep is that the low part is small against the high part. -/

namespace Apf
open Spec IeeeFloat
variable {S : Sem}

/-- A finite pair whose low part is at most 8 units `2^-p` of the high part. -/
def DoubleFloat.Near (x : DoubleFloat S) : Prop := x.Finite ∧ |x.lo.toRat| ≤ 8 * 2 ^ (-(S.precision : ℤ)) * |x.hi.toRat|

end Apf
