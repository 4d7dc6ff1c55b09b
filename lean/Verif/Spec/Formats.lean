import Verif.Model.Ppc
import Verif.Spec.Float
/-! # The formats of the crate meet the assumptions of the theorems -/

namespace Apf

/-- The eight public `IeeeFloat` formats (ieee.rs:311-369). -/
def formats : List Sem := [halfS, singleS, doubleS, quadS, bfloatS, float8E5M2S, float8E4M3FNS, x87S]

theorem halfS_ok : halfS.OK := by constructor <;> decide
theorem singleS_ok : singleS.OK := by constructor <;> decide
theorem doubleS_ok : doubleS.OK := by constructor <;> decide
theorem quadS_ok : quadS.OK := by constructor <;> decide
theorem bfloatS_ok : bfloatS.OK := by constructor <;> decide
theorem float8E5M2S_ok : float8E5M2S.OK := by constructor <;> decide
theorem float8E4M3FNS_ok : float8E4M3FNS.OK := by constructor <;> decide
theorem x87S_ok : x87S.OK := by constructor <;> decide

theorem formats_ok : ∀ S ∈ formats, S.OK := by
  intro S hS
  simp only [formats, List.mem_cons, List.not_mem_nil, or_false] at hS
  rcases hS with rfl | rfl | rfl | rfl | rfl | rfl | rfl | rfl
  exacts [halfS_ok, singleS_ok, doubleS_ok, quadS_ok, bfloatS_ok, float8E5M2S_ok, float8E4M3FNS_ok, x87S_ok]

end Apf
