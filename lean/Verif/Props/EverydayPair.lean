import Verif.Props.Everyday
import Verif.Props.PpcOps
/-! # C121 for DoubleDouble -/

namespace Apf
open Spec IeeeFloat
variable {S : Sem}

/-- **C121.** (DoubleDouble) Everyday literals (for the 106 bits of a pair: 37 digits with up to 6 decimal places, and integers below 2^127) are rounded
correctly to 106 bits with the right flags in every mode. -/
theorem C121_pair (h : S.Pair) (hp : S.precision * 2 ≤ 120) {fuel : ℕ} (hfuel : 23 ≤ fuel) (sg : LitSign) {t : List Char} (hlen : t.length < 2 ^ 27) {v : ℚ}
    (ht : IsDec t v) (he : Everyday (S.precision * 2) v) (hl : |v| ≤ S.fmt.largest) (mode : Round) :
    ∃ r, DoubleFloat.fromStrR S fuel (sg.chars ++ t) mode = .ok (.ok r) ∧ PairRounds S mode (signed (sg == .minus) v) (sg == .minus) r := by
  obtain ⟨r, r1, r2, r3, -⟩ := C121_literal h.fb hp hfuel sg hlen ht he mode
  obtain ⟨d, d1, d2⟩ := mapFrom_ok h r2 r3 (by unfold signed; split_ifs <;> simpa using hl)
  refine ⟨d, ?_, d2⟩
  unfold DoubleFloat.fromStrR
  rw [r1]
  simp only [M.ok_bind]
  rw [d1]
  rfl

/-- `299792.458` for DoubleDouble. -/
example := C121_pair doubleS_pair (by decide) (le_refl 23) .minus (t := "299792.458".toList) (by decide) (v := 299792458 / 1000)
  ⟨"299792.458".toList, "299792".toList, "458".toList, by unfold IsSignificand; exact ⟨by decide, by decide, by decide, Or.inr rfl⟩, Or.inl ⟨rfl, by
    rw [significandValue, show number 10 ("299792".toList ++ "458".toList) = 299792458 by decide +kernel, show "458".toList.length = 3 from rfl]; norm_num⟩⟩
  ⟨299792458, 3, Or.inr ⟨by norm_num, by norm_num, by decide +kernel⟩⟩ (by decide +kernel) .towardZero

end Apf
