import Verif.Lagrangian.C2HDM.Tables

/-!
# The quartic counterterms of the CP-violating two Higgs doublet model
-/

set_option linter.unusedSectionVars false
set_option linter.unusedSimpArgs false

namespace Verif.Lagrangian.C2HDM

open Verif.Potential

variable {K : Type} [Field K] [CharZero K]

theorem ctL4_0_terms (c : CT K) (f : Nat → K) : terms (ctL4_0 c) f =
      (3 * c.DL1CT) * (f 0 ^ 4) + 3 * (-3 * c.DIL6CT) * (f 0 ^ 3 * f 3) +
      3 * (c.DL1CT) * (f 0 ^ 2 * f 1 ^ 2) + 6 * (c.DIL6CT) * (f 0 ^ 2 * f 1 * f 2) +
      3 * (c.DL3CT + c.DL4CT + c.DRL5CT) * (f 0 ^ 2 * f 2 ^ 2) +
      6 * (-c.DIL5CT) * (f 0 ^ 2 * f 2 * f 3) +
      3 * (c.DL3CT + c.DL4CT - c.DRL5CT) * (f 0 ^ 2 * f 3 ^ 2) +
      3 * (c.DL1CT) * (f 0 ^ 2 * f 4 ^ 2) + 6 * (-c.DIL6CT) * (f 0 ^ 2 * f 4 * f 7) +
      3 * (c.DL1CT) * (f 0 ^ 2 * f 5 ^ 2) + 6 * (c.DIL6CT) * (f 0 ^ 2 * f 5 * f 6) +
      3 * (c.DL3CT) * (f 0 ^ 2 * f 6 ^ 2) + 3 * (c.DL3CT) * (f 0 ^ 2 * f 7 ^ 2) +
      3 * (-c.DIL6CT) * (f 0 * f 1 ^ 2 * f 3) + 3 * (c.DIL5CT) * (f 0 * f 1 * f 2 ^ 2) +
      6 * (c.DRL5CT) * (f 0 * f 1 * f 2 * f 3) + 3 * (-c.DIL5CT) * (f 0 * f 1 * f 3 ^ 2) +
      6 * (c.DL4CT / 2 + c.DRL5CT / 2) * (f 0 * f 2 * f 4 * f 6) +
      6 * (-c.DIL5CT / 2) * (f 0 * f 2 * f 4 * f 7) +
      6 * (c.DIL5CT / 2) * (f 0 * f 2 * f 5 * f 6) +
      6 * (c.DL4CT / 2 + c.DRL5CT / 2) * (f 0 * f 2 * f 5 * f 7) +
      3 * (-c.DIL6CT) * (f 0 * f 3 * f 4 ^ 2) + 6 * (-c.DIL5CT / 2) * (f 0 * f 3 * f 4 * f 6) +
      6 * (c.DL4CT / 2 - c.DRL5CT / 2) * (f 0 * f 3 * f 4 * f 7) +
      3 * (-c.DIL6CT) * (f 0 * f 3 * f 5 ^ 2) +
      6 * (-c.DL4CT / 2 + c.DRL5CT / 2) * (f 0 * f 3 * f 5 * f 6) +
      6 * (-c.DIL5CT / 2) * (f 0 * f 3 * f 5 * f 7) := by
  simp [terms, ctL4_0]
  ring

theorem ctL4_1_terms (c : CT K) (f : Nat → K) : terms (ctL4_1 c) f =
      3 * (c.DL1CT) * (f 0 ^ 2 * f 1 ^ 2) + 3 * (c.DIL6CT) * (f 0 ^ 2 * f 1 * f 2) +
      6 * (-c.DIL6CT) * (f 0 * f 1 ^ 2 * f 3) + 3 * (c.DIL5CT) * (f 0 * f 1 * f 2 ^ 2) +
      6 * (c.DRL5CT) * (f 0 * f 1 * f 2 * f 3) + 3 * (-c.DIL5CT) * (f 0 * f 1 * f 3 ^ 2) +
      (3 * c.DL1CT) * (f 1 ^ 4) + 3 * (3 * c.DIL6CT) * (f 1 ^ 3 * f 2) +
      3 * (c.DL3CT + c.DL4CT - c.DRL5CT) * (f 1 ^ 2 * f 2 ^ 2) +
      6 * (c.DIL5CT) * (f 1 ^ 2 * f 2 * f 3) +
      3 * (c.DL3CT + c.DL4CT + c.DRL5CT) * (f 1 ^ 2 * f 3 ^ 2) +
      3 * (c.DL1CT) * (f 1 ^ 2 * f 4 ^ 2) + 6 * (-c.DIL6CT) * (f 1 ^ 2 * f 4 * f 7) +
      3 * (c.DL1CT) * (f 1 ^ 2 * f 5 ^ 2) + 6 * (c.DIL6CT) * (f 1 ^ 2 * f 5 * f 6) +
      3 * (c.DL3CT) * (f 1 ^ 2 * f 6 ^ 2) + 3 * (c.DL3CT) * (f 1 ^ 2 * f 7 ^ 2) +
      3 * (c.DIL6CT) * (f 1 * f 2 * f 4 ^ 2) + 6 * (c.DIL5CT / 2) * (f 1 * f 2 * f 4 * f 6) +
      6 * (-c.DL4CT / 2 + c.DRL5CT / 2) * (f 1 * f 2 * f 4 * f 7) +
      3 * (c.DIL6CT) * (f 1 * f 2 * f 5 ^ 2) +
      6 * (c.DL4CT / 2 - c.DRL5CT / 2) * (f 1 * f 2 * f 5 * f 6) +
      6 * (c.DIL5CT / 2) * (f 1 * f 2 * f 5 * f 7) +
      6 * (c.DL4CT / 2 + c.DRL5CT / 2) * (f 1 * f 3 * f 4 * f 6) +
      6 * (-c.DIL5CT / 2) * (f 1 * f 3 * f 4 * f 7) +
      6 * (c.DIL5CT / 2) * (f 1 * f 3 * f 5 * f 6) +
      6 * (c.DL4CT / 2 + c.DRL5CT / 2) * (f 1 * f 3 * f 5 * f 7) := by
  simp [terms, ctL4_1]
  ring

theorem ctL4_2_terms (c : CT K) (f : Nat → K) : terms (ctL4_2 c) f =
      3 * (c.DIL6CT) * (f 0 ^ 2 * f 1 * f 2) +
      3 * (c.DL3CT + c.DL4CT + c.DRL5CT) * (f 0 ^ 2 * f 2 ^ 2) +
      3 * (-c.DIL5CT) * (f 0 ^ 2 * f 2 * f 3) + 6 * (c.DIL5CT) * (f 0 * f 1 * f 2 ^ 2) +
      6 * (c.DRL5CT) * (f 0 * f 1 * f 2 * f 3) +
      6 * (c.DL4CT / 2 + c.DRL5CT / 2) * (f 0 * f 2 * f 4 * f 6) +
      6 * (-c.DIL5CT / 2) * (f 0 * f 2 * f 4 * f 7) +
      6 * (c.DIL5CT / 2) * (f 0 * f 2 * f 5 * f 6) +
      6 * (c.DL4CT / 2 + c.DRL5CT / 2) * (f 0 * f 2 * f 5 * f 7) +
      (3 * c.DIL6CT) * (f 1 ^ 3 * f 2) +
      3 * (c.DL3CT + c.DL4CT - c.DRL5CT) * (f 1 ^ 2 * f 2 ^ 2) +
      3 * (c.DIL5CT) * (f 1 ^ 2 * f 2 * f 3) + 3 * (c.DIL6CT) * (f 1 * f 2 * f 4 ^ 2) +
      6 * (c.DIL5CT / 2) * (f 1 * f 2 * f 4 * f 6) +
      6 * (-c.DL4CT / 2 + c.DRL5CT / 2) * (f 1 * f 2 * f 4 * f 7) +
      3 * (c.DIL6CT) * (f 1 * f 2 * f 5 ^ 2) +
      6 * (c.DL4CT / 2 - c.DRL5CT / 2) * (f 1 * f 2 * f 5 * f 6) +
      6 * (c.DIL5CT / 2) * (f 1 * f 2 * f 5 * f 7) + (3 * c.DL2CT) * (f 2 ^ 4) +
      3 * (c.DL2CT) * (f 2 ^ 2 * f 3 ^ 2) + 3 * (c.DL3CT) * (f 2 ^ 2 * f 4 ^ 2) +
      3 * (c.DL3CT) * (f 2 ^ 2 * f 5 ^ 2) + 3 * (c.DL2CT) * (f 2 ^ 2 * f 6 ^ 2) +
      3 * (c.DL2CT) * (f 2 ^ 2 * f 7 ^ 2) := by
  simp [terms, ctL4_2]
  ring

theorem ctL4_3_terms (c : CT K) (f : Nat → K) : terms (ctL4_3 c) f =
      (-3 * c.DIL6CT) * (f 0 ^ 3 * f 3) + 3 * (-c.DIL5CT) * (f 0 ^ 2 * f 2 * f 3) +
      3 * (c.DL3CT + c.DL4CT - c.DRL5CT) * (f 0 ^ 2 * f 3 ^ 2) +
      3 * (-c.DIL6CT) * (f 0 * f 1 ^ 2 * f 3) + 6 * (c.DRL5CT) * (f 0 * f 1 * f 2 * f 3) +
      6 * (-c.DIL5CT) * (f 0 * f 1 * f 3 ^ 2) + 3 * (-c.DIL6CT) * (f 0 * f 3 * f 4 ^ 2) +
      6 * (-c.DIL5CT / 2) * (f 0 * f 3 * f 4 * f 6) +
      6 * (c.DL4CT / 2 - c.DRL5CT / 2) * (f 0 * f 3 * f 4 * f 7) +
      3 * (-c.DIL6CT) * (f 0 * f 3 * f 5 ^ 2) +
      6 * (-c.DL4CT / 2 + c.DRL5CT / 2) * (f 0 * f 3 * f 5 * f 6) +
      6 * (-c.DIL5CT / 2) * (f 0 * f 3 * f 5 * f 7) + 3 * (c.DIL5CT) * (f 1 ^ 2 * f 2 * f 3) +
      3 * (c.DL3CT + c.DL4CT + c.DRL5CT) * (f 1 ^ 2 * f 3 ^ 2) +
      6 * (c.DL4CT / 2 + c.DRL5CT / 2) * (f 1 * f 3 * f 4 * f 6) +
      6 * (-c.DIL5CT / 2) * (f 1 * f 3 * f 4 * f 7) +
      6 * (c.DIL5CT / 2) * (f 1 * f 3 * f 5 * f 6) +
      6 * (c.DL4CT / 2 + c.DRL5CT / 2) * (f 1 * f 3 * f 5 * f 7) +
      3 * (c.DL2CT) * (f 2 ^ 2 * f 3 ^ 2) + (3 * c.DL2CT) * (f 3 ^ 4) +
      3 * (c.DL3CT) * (f 3 ^ 2 * f 4 ^ 2) + 3 * (c.DL3CT) * (f 3 ^ 2 * f 5 ^ 2) +
      3 * (c.DL2CT) * (f 3 ^ 2 * f 6 ^ 2) + 3 * (c.DL2CT) * (f 3 ^ 2 * f 7 ^ 2) := by
  simp [terms, ctL4_3]
  ring

theorem ctL4_4_terms (c : CT K) (f : Nat → K) : terms (ctL4_4 c) f =
      3 * (c.DL1CT) * (f 0 ^ 2 * f 4 ^ 2) + 3 * (-c.DIL6CT) * (f 0 ^ 2 * f 4 * f 7) +
      6 * (c.DL4CT / 2 + c.DRL5CT / 2) * (f 0 * f 2 * f 4 * f 6) +
      6 * (-c.DIL5CT / 2) * (f 0 * f 2 * f 4 * f 7) + 6 * (-c.DIL6CT) * (f 0 * f 3 * f 4 ^ 2) +
      6 * (-c.DIL5CT / 2) * (f 0 * f 3 * f 4 * f 6) +
      6 * (c.DL4CT / 2 - c.DRL5CT / 2) * (f 0 * f 3 * f 4 * f 7) +
      3 * (c.DL1CT) * (f 1 ^ 2 * f 4 ^ 2) + 3 * (-c.DIL6CT) * (f 1 ^ 2 * f 4 * f 7) +
      6 * (c.DIL6CT) * (f 1 * f 2 * f 4 ^ 2) + 6 * (c.DIL5CT / 2) * (f 1 * f 2 * f 4 * f 6) +
      6 * (-c.DL4CT / 2 + c.DRL5CT / 2) * (f 1 * f 2 * f 4 * f 7) +
      6 * (c.DL4CT / 2 + c.DRL5CT / 2) * (f 1 * f 3 * f 4 * f 6) +
      6 * (-c.DIL5CT / 2) * (f 1 * f 3 * f 4 * f 7) + 3 * (c.DL3CT) * (f 2 ^ 2 * f 4 ^ 2) +
      3 * (c.DL3CT) * (f 3 ^ 2 * f 4 ^ 2) + (3 * c.DL1CT) * (f 4 ^ 4) +
      3 * (-3 * c.DIL6CT) * (f 4 ^ 3 * f 7) + 3 * (c.DL1CT) * (f 4 ^ 2 * f 5 ^ 2) +
      6 * (c.DIL6CT) * (f 4 ^ 2 * f 5 * f 6) +
      3 * (c.DL3CT + c.DL4CT + c.DRL5CT) * (f 4 ^ 2 * f 6 ^ 2) +
      6 * (-c.DIL5CT) * (f 4 ^ 2 * f 6 * f 7) +
      3 * (c.DL3CT + c.DL4CT - c.DRL5CT) * (f 4 ^ 2 * f 7 ^ 2) +
      3 * (-c.DIL6CT) * (f 4 * f 5 ^ 2 * f 7) + 3 * (c.DIL5CT) * (f 4 * f 5 * f 6 ^ 2) +
      6 * (c.DRL5CT) * (f 4 * f 5 * f 6 * f 7) + 3 * (-c.DIL5CT) * (f 4 * f 5 * f 7 ^ 2) := by
  simp [terms, ctL4_4]
  ring

theorem ctL4_5_terms (c : CT K) (f : Nat → K) : terms (ctL4_5 c) f =
      3 * (c.DL1CT) * (f 0 ^ 2 * f 5 ^ 2) + 3 * (c.DIL6CT) * (f 0 ^ 2 * f 5 * f 6) +
      6 * (c.DIL5CT / 2) * (f 0 * f 2 * f 5 * f 6) +
      6 * (c.DL4CT / 2 + c.DRL5CT / 2) * (f 0 * f 2 * f 5 * f 7) +
      6 * (-c.DIL6CT) * (f 0 * f 3 * f 5 ^ 2) +
      6 * (-c.DL4CT / 2 + c.DRL5CT / 2) * (f 0 * f 3 * f 5 * f 6) +
      6 * (-c.DIL5CT / 2) * (f 0 * f 3 * f 5 * f 7) + 3 * (c.DL1CT) * (f 1 ^ 2 * f 5 ^ 2) +
      3 * (c.DIL6CT) * (f 1 ^ 2 * f 5 * f 6) + 6 * (c.DIL6CT) * (f 1 * f 2 * f 5 ^ 2) +
      6 * (c.DL4CT / 2 - c.DRL5CT / 2) * (f 1 * f 2 * f 5 * f 6) +
      6 * (c.DIL5CT / 2) * (f 1 * f 2 * f 5 * f 7) +
      6 * (c.DIL5CT / 2) * (f 1 * f 3 * f 5 * f 6) +
      6 * (c.DL4CT / 2 + c.DRL5CT / 2) * (f 1 * f 3 * f 5 * f 7) +
      3 * (c.DL3CT) * (f 2 ^ 2 * f 5 ^ 2) + 3 * (c.DL3CT) * (f 3 ^ 2 * f 5 ^ 2) +
      3 * (c.DL1CT) * (f 4 ^ 2 * f 5 ^ 2) + 3 * (c.DIL6CT) * (f 4 ^ 2 * f 5 * f 6) +
      6 * (-c.DIL6CT) * (f 4 * f 5 ^ 2 * f 7) + 3 * (c.DIL5CT) * (f 4 * f 5 * f 6 ^ 2) +
      6 * (c.DRL5CT) * (f 4 * f 5 * f 6 * f 7) + 3 * (-c.DIL5CT) * (f 4 * f 5 * f 7 ^ 2) +
      (3 * c.DL1CT) * (f 5 ^ 4) + 3 * (3 * c.DIL6CT) * (f 5 ^ 3 * f 6) +
      3 * (c.DL3CT + c.DL4CT - c.DRL5CT) * (f 5 ^ 2 * f 6 ^ 2) +
      6 * (c.DIL5CT) * (f 5 ^ 2 * f 6 * f 7) +
      3 * (c.DL3CT + c.DL4CT + c.DRL5CT) * (f 5 ^ 2 * f 7 ^ 2) := by
  simp [terms, ctL4_5]
  ring

theorem ctL4_6_terms (c : CT K) (f : Nat → K) : terms (ctL4_6 c) f =
      3 * (c.DIL6CT) * (f 0 ^ 2 * f 5 * f 6) + 3 * (c.DL3CT) * (f 0 ^ 2 * f 6 ^ 2) +
      6 * (c.DL4CT / 2 + c.DRL5CT / 2) * (f 0 * f 2 * f 4 * f 6) +
      6 * (c.DIL5CT / 2) * (f 0 * f 2 * f 5 * f 6) +
      6 * (-c.DIL5CT / 2) * (f 0 * f 3 * f 4 * f 6) +
      6 * (-c.DL4CT / 2 + c.DRL5CT / 2) * (f 0 * f 3 * f 5 * f 6) +
      3 * (c.DIL6CT) * (f 1 ^ 2 * f 5 * f 6) + 3 * (c.DL3CT) * (f 1 ^ 2 * f 6 ^ 2) +
      6 * (c.DIL5CT / 2) * (f 1 * f 2 * f 4 * f 6) +
      6 * (c.DL4CT / 2 - c.DRL5CT / 2) * (f 1 * f 2 * f 5 * f 6) +
      6 * (c.DL4CT / 2 + c.DRL5CT / 2) * (f 1 * f 3 * f 4 * f 6) +
      6 * (c.DIL5CT / 2) * (f 1 * f 3 * f 5 * f 6) + 3 * (c.DL2CT) * (f 2 ^ 2 * f 6 ^ 2) +
      3 * (c.DL2CT) * (f 3 ^ 2 * f 6 ^ 2) + 3 * (c.DIL6CT) * (f 4 ^ 2 * f 5 * f 6) +
      3 * (c.DL3CT + c.DL4CT + c.DRL5CT) * (f 4 ^ 2 * f 6 ^ 2) +
      3 * (-c.DIL5CT) * (f 4 ^ 2 * f 6 * f 7) + 6 * (c.DIL5CT) * (f 4 * f 5 * f 6 ^ 2) +
      6 * (c.DRL5CT) * (f 4 * f 5 * f 6 * f 7) + (3 * c.DIL6CT) * (f 5 ^ 3 * f 6) +
      3 * (c.DL3CT + c.DL4CT - c.DRL5CT) * (f 5 ^ 2 * f 6 ^ 2) +
      3 * (c.DIL5CT) * (f 5 ^ 2 * f 6 * f 7) + (3 * c.DL2CT) * (f 6 ^ 4) +
      3 * (c.DL2CT) * (f 6 ^ 2 * f 7 ^ 2) := by
  simp [terms, ctL4_6]
  ring

theorem ctL4_7_terms (c : CT K) (f : Nat → K) : terms (ctL4_7 c) f =
      3 * (-c.DIL6CT) * (f 0 ^ 2 * f 4 * f 7) + 3 * (c.DL3CT) * (f 0 ^ 2 * f 7 ^ 2) +
      6 * (-c.DIL5CT / 2) * (f 0 * f 2 * f 4 * f 7) +
      6 * (c.DL4CT / 2 + c.DRL5CT / 2) * (f 0 * f 2 * f 5 * f 7) +
      6 * (c.DL4CT / 2 - c.DRL5CT / 2) * (f 0 * f 3 * f 4 * f 7) +
      6 * (-c.DIL5CT / 2) * (f 0 * f 3 * f 5 * f 7) + 3 * (-c.DIL6CT) * (f 1 ^ 2 * f 4 * f 7) +
      3 * (c.DL3CT) * (f 1 ^ 2 * f 7 ^ 2) +
      6 * (-c.DL4CT / 2 + c.DRL5CT / 2) * (f 1 * f 2 * f 4 * f 7) +
      6 * (c.DIL5CT / 2) * (f 1 * f 2 * f 5 * f 7) +
      6 * (-c.DIL5CT / 2) * (f 1 * f 3 * f 4 * f 7) +
      6 * (c.DL4CT / 2 + c.DRL5CT / 2) * (f 1 * f 3 * f 5 * f 7) +
      3 * (c.DL2CT) * (f 2 ^ 2 * f 7 ^ 2) + 3 * (c.DL2CT) * (f 3 ^ 2 * f 7 ^ 2) +
      (-3 * c.DIL6CT) * (f 4 ^ 3 * f 7) + 3 * (-c.DIL5CT) * (f 4 ^ 2 * f 6 * f 7) +
      3 * (c.DL3CT + c.DL4CT - c.DRL5CT) * (f 4 ^ 2 * f 7 ^ 2) +
      3 * (-c.DIL6CT) * (f 4 * f 5 ^ 2 * f 7) + 6 * (c.DRL5CT) * (f 4 * f 5 * f 6 * f 7) +
      6 * (-c.DIL5CT) * (f 4 * f 5 * f 7 ^ 2) + 3 * (c.DIL5CT) * (f 5 ^ 2 * f 6 * f 7) +
      3 * (c.DL3CT + c.DL4CT + c.DRL5CT) * (f 5 ^ 2 * f 7 ^ 2) +
      3 * (c.DL2CT) * (f 6 ^ 2 * f 7 ^ 2) + (3 * c.DL2CT) * (f 7 ^ 4) := by
  simp [terms, ctL4_7]
  ring

end Verif.Lagrangian.C2HDM
