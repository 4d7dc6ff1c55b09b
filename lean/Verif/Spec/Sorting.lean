import Verif.Model.Ieee
/-! # Sorting floats by comparing them -/

namespace Apf.Spec

/-- `x` is put before the first element that is `>= x`. -/
def insertFloat {S : Sem} (x : IeeeFloat S) : List (IeeeFloat S) → M (List (IeeeFloat S))
  | [] => .ok [x]
  | y :: ys => do
    let b ← IeeeFloat.ge y x
    if b then return x :: y :: ys
    let r ← insertFloat x ys
    return y :: r

/-- Insertion sort. -/
def sortFloats {S : Sem} : List (IeeeFloat S) → M (List (IeeeFloat S))
  | [] => .ok []
  | x :: xs => do
    let r ← sortFloats xs
    insertFloat x r

/-- Every element is `>=` all elements before it. -/
def Ascending {S : Sem} (l : List (IeeeFloat S)) : Prop := l.Pairwise fun a b => IeeeFloat.ge b a = .ok true

end Apf.Spec
