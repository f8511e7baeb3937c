import Verif.Lagrangian.CPintheDark.Tables

/-!
# The quartic terms of the model CP in the Dark
-/

set_option linter.unusedSectionVars false
set_option linter.unusedSimpArgs false

namespace Verif.Lagrangian.CPintheDark

open Verif.Potential

variable {K : Type} [Field K] [CharZero K]

theorem l4_0_terms (p : Par K) (f : Nat → K) : terms (l4_0 p) f =
      (3 * p.L1) * (f 0 ^ 4) + 3 * (p.L1) * (f 0 ^ 2 * f 1 ^ 2) +
      3 * (p.L3 + p.L4 + p.L5) * (f 0 ^ 2 * f 2 ^ 2) +
      3 * (p.L3 + p.L4 - p.L5) * (f 0 ^ 2 * f 3 ^ 2) + 3 * (p.L1) * (f 0 ^ 2 * f 4 ^ 2) +
      3 * (p.L1) * (f 0 ^ 2 * f 5 ^ 2) + 3 * (p.L3) * (f 0 ^ 2 * f 6 ^ 2) +
      3 * (p.L3) * (f 0 ^ 2 * f 7 ^ 2) + 3 * (p.L7) * (f 0 ^ 2 * f 8 ^ 2) +
      6 * (p.L5) * (f 0 * f 1 * f 2 * f 3) +
      6 * (p.L4 / 2 + p.L5 / 2) * (f 0 * f 2 * f 4 * f 6) +
      6 * (p.L4 / 2 + p.L5 / 2) * (f 0 * f 2 * f 5 * f 7) +
      6 * (p.L4 / 2 - p.L5 / 2) * (f 0 * f 3 * f 4 * f 7) +
      6 * (-p.L4 / 2 + p.L5 / 2) * (f 0 * f 3 * f 5 * f 6) := by
  simp [terms, l4_0]
  ring

theorem l4_1_terms (p : Par K) (f : Nat → K) : terms (l4_1 p) f =
      3 * (p.L1) * (f 0 ^ 2 * f 1 ^ 2) + 6 * (p.L5) * (f 0 * f 1 * f 2 * f 3) +
      (3 * p.L1) * (f 1 ^ 4) + 3 * (p.L3 + p.L4 - p.L5) * (f 1 ^ 2 * f 2 ^ 2) +
      3 * (p.L3 + p.L4 + p.L5) * (f 1 ^ 2 * f 3 ^ 2) + 3 * (p.L1) * (f 1 ^ 2 * f 4 ^ 2) +
      3 * (p.L1) * (f 1 ^ 2 * f 5 ^ 2) + 3 * (p.L3) * (f 1 ^ 2 * f 6 ^ 2) +
      3 * (p.L3) * (f 1 ^ 2 * f 7 ^ 2) + 3 * (p.L7) * (f 1 ^ 2 * f 8 ^ 2) +
      6 * (-p.L4 / 2 + p.L5 / 2) * (f 1 * f 2 * f 4 * f 7) +
      6 * (p.L4 / 2 - p.L5 / 2) * (f 1 * f 2 * f 5 * f 6) +
      6 * (p.L4 / 2 + p.L5 / 2) * (f 1 * f 3 * f 4 * f 6) +
      6 * (p.L4 / 2 + p.L5 / 2) * (f 1 * f 3 * f 5 * f 7) := by
  simp [terms, l4_1]
  ring

theorem l4_2_terms (p : Par K) (f : Nat → K) : terms (l4_2 p) f =
      3 * (p.L3 + p.L4 + p.L5) * (f 0 ^ 2 * f 2 ^ 2) + 6 * (p.L5) * (f 0 * f 1 * f 2 * f 3) +
      6 * (p.L4 / 2 + p.L5 / 2) * (f 0 * f 2 * f 4 * f 6) +
      6 * (p.L4 / 2 + p.L5 / 2) * (f 0 * f 2 * f 5 * f 7) +
      3 * (p.L3 + p.L4 - p.L5) * (f 1 ^ 2 * f 2 ^ 2) +
      6 * (-p.L4 / 2 + p.L5 / 2) * (f 1 * f 2 * f 4 * f 7) +
      6 * (p.L4 / 2 - p.L5 / 2) * (f 1 * f 2 * f 5 * f 6) + (3 * p.L2) * (f 2 ^ 4) +
      3 * (p.L2) * (f 2 ^ 2 * f 3 ^ 2) + 3 * (p.L3) * (f 2 ^ 2 * f 4 ^ 2) +
      3 * (p.L3) * (f 2 ^ 2 * f 5 ^ 2) + 3 * (p.L2) * (f 2 ^ 2 * f 6 ^ 2) +
      3 * (p.L2) * (f 2 ^ 2 * f 7 ^ 2) + 3 * (p.L8) * (f 2 ^ 2 * f 8 ^ 2) := by
  simp [terms, l4_2]
  ring

theorem l4_3_terms (p : Par K) (f : Nat → K) : terms (l4_3 p) f =
      3 * (p.L3 + p.L4 - p.L5) * (f 0 ^ 2 * f 3 ^ 2) + 6 * (p.L5) * (f 0 * f 1 * f 2 * f 3) +
      6 * (p.L4 / 2 - p.L5 / 2) * (f 0 * f 3 * f 4 * f 7) +
      6 * (-p.L4 / 2 + p.L5 / 2) * (f 0 * f 3 * f 5 * f 6) +
      3 * (p.L3 + p.L4 + p.L5) * (f 1 ^ 2 * f 3 ^ 2) +
      6 * (p.L4 / 2 + p.L5 / 2) * (f 1 * f 3 * f 4 * f 6) +
      6 * (p.L4 / 2 + p.L5 / 2) * (f 1 * f 3 * f 5 * f 7) + 3 * (p.L2) * (f 2 ^ 2 * f 3 ^ 2) +
      (3 * p.L2) * (f 3 ^ 4) + 3 * (p.L3) * (f 3 ^ 2 * f 4 ^ 2) +
      3 * (p.L3) * (f 3 ^ 2 * f 5 ^ 2) + 3 * (p.L2) * (f 3 ^ 2 * f 6 ^ 2) +
      3 * (p.L2) * (f 3 ^ 2 * f 7 ^ 2) + 3 * (p.L8) * (f 3 ^ 2 * f 8 ^ 2) := by
  simp [terms, l4_3]
  ring

theorem l4_4_terms (p : Par K) (f : Nat → K) : terms (l4_4 p) f =
      3 * (p.L1) * (f 0 ^ 2 * f 4 ^ 2) + 6 * (p.L4 / 2 + p.L5 / 2) * (f 0 * f 2 * f 4 * f 6) +
      6 * (p.L4 / 2 - p.L5 / 2) * (f 0 * f 3 * f 4 * f 7) + 3 * (p.L1) * (f 1 ^ 2 * f 4 ^ 2) +
      6 * (-p.L4 / 2 + p.L5 / 2) * (f 1 * f 2 * f 4 * f 7) +
      6 * (p.L4 / 2 + p.L5 / 2) * (f 1 * f 3 * f 4 * f 6) + 3 * (p.L3) * (f 2 ^ 2 * f 4 ^ 2) +
      3 * (p.L3) * (f 3 ^ 2 * f 4 ^ 2) + (3 * p.L1) * (f 4 ^ 4) +
      3 * (p.L1) * (f 4 ^ 2 * f 5 ^ 2) + 3 * (p.L3 + p.L4 + p.L5) * (f 4 ^ 2 * f 6 ^ 2) +
      3 * (p.L3 + p.L4 - p.L5) * (f 4 ^ 2 * f 7 ^ 2) + 3 * (p.L7) * (f 4 ^ 2 * f 8 ^ 2) +
      6 * (p.L5) * (f 4 * f 5 * f 6 * f 7) := by
  simp [terms, l4_4]
  ring

theorem l4_5_terms (p : Par K) (f : Nat → K) : terms (l4_5 p) f =
      3 * (p.L1) * (f 0 ^ 2 * f 5 ^ 2) + 6 * (p.L4 / 2 + p.L5 / 2) * (f 0 * f 2 * f 5 * f 7) +
      6 * (-p.L4 / 2 + p.L5 / 2) * (f 0 * f 3 * f 5 * f 6) + 3 * (p.L1) * (f 1 ^ 2 * f 5 ^ 2) +
      6 * (p.L4 / 2 - p.L5 / 2) * (f 1 * f 2 * f 5 * f 6) +
      6 * (p.L4 / 2 + p.L5 / 2) * (f 1 * f 3 * f 5 * f 7) + 3 * (p.L3) * (f 2 ^ 2 * f 5 ^ 2) +
      3 * (p.L3) * (f 3 ^ 2 * f 5 ^ 2) + 3 * (p.L1) * (f 4 ^ 2 * f 5 ^ 2) +
      6 * (p.L5) * (f 4 * f 5 * f 6 * f 7) + (3 * p.L1) * (f 5 ^ 4) +
      3 * (p.L3 + p.L4 - p.L5) * (f 5 ^ 2 * f 6 ^ 2) +
      3 * (p.L3 + p.L4 + p.L5) * (f 5 ^ 2 * f 7 ^ 2) + 3 * (p.L7) * (f 5 ^ 2 * f 8 ^ 2) := by
  simp [terms, l4_5]
  ring

theorem l4_6_terms (p : Par K) (f : Nat → K) : terms (l4_6 p) f =
      3 * (p.L3) * (f 0 ^ 2 * f 6 ^ 2) + 6 * (p.L4 / 2 + p.L5 / 2) * (f 0 * f 2 * f 4 * f 6) +
      6 * (-p.L4 / 2 + p.L5 / 2) * (f 0 * f 3 * f 5 * f 6) + 3 * (p.L3) * (f 1 ^ 2 * f 6 ^ 2) +
      6 * (p.L4 / 2 - p.L5 / 2) * (f 1 * f 2 * f 5 * f 6) +
      6 * (p.L4 / 2 + p.L5 / 2) * (f 1 * f 3 * f 4 * f 6) + 3 * (p.L2) * (f 2 ^ 2 * f 6 ^ 2) +
      3 * (p.L2) * (f 3 ^ 2 * f 6 ^ 2) + 3 * (p.L3 + p.L4 + p.L5) * (f 4 ^ 2 * f 6 ^ 2) +
      6 * (p.L5) * (f 4 * f 5 * f 6 * f 7) + 3 * (p.L3 + p.L4 - p.L5) * (f 5 ^ 2 * f 6 ^ 2) +
      (3 * p.L2) * (f 6 ^ 4) + 3 * (p.L2) * (f 6 ^ 2 * f 7 ^ 2) +
      3 * (p.L8) * (f 6 ^ 2 * f 8 ^ 2) := by
  simp [terms, l4_6]
  ring

theorem l4_7_terms (p : Par K) (f : Nat → K) : terms (l4_7 p) f =
      3 * (p.L3) * (f 0 ^ 2 * f 7 ^ 2) + 6 * (p.L4 / 2 + p.L5 / 2) * (f 0 * f 2 * f 5 * f 7) +
      6 * (p.L4 / 2 - p.L5 / 2) * (f 0 * f 3 * f 4 * f 7) + 3 * (p.L3) * (f 1 ^ 2 * f 7 ^ 2) +
      6 * (-p.L4 / 2 + p.L5 / 2) * (f 1 * f 2 * f 4 * f 7) +
      6 * (p.L4 / 2 + p.L5 / 2) * (f 1 * f 3 * f 5 * f 7) + 3 * (p.L2) * (f 2 ^ 2 * f 7 ^ 2) +
      3 * (p.L2) * (f 3 ^ 2 * f 7 ^ 2) + 3 * (p.L3 + p.L4 - p.L5) * (f 4 ^ 2 * f 7 ^ 2) +
      6 * (p.L5) * (f 4 * f 5 * f 6 * f 7) + 3 * (p.L3 + p.L4 + p.L5) * (f 5 ^ 2 * f 7 ^ 2) +
      3 * (p.L2) * (f 6 ^ 2 * f 7 ^ 2) + (3 * p.L2) * (f 7 ^ 4) +
      3 * (p.L8) * (f 7 ^ 2 * f 8 ^ 2) := by
  simp [terms, l4_7]
  ring

theorem l4_8_terms (p : Par K) (f : Nat → K) : terms (l4_8 p) f =
      3 * (p.L7) * (f 0 ^ 2 * f 8 ^ 2) + 3 * (p.L7) * (f 1 ^ 2 * f 8 ^ 2) +
      3 * (p.L8) * (f 2 ^ 2 * f 8 ^ 2) + 3 * (p.L8) * (f 3 ^ 2 * f 8 ^ 2) +
      3 * (p.L7) * (f 4 ^ 2 * f 8 ^ 2) + 3 * (p.L7) * (f 5 ^ 2 * f 8 ^ 2) +
      3 * (p.L8) * (f 6 ^ 2 * f 8 ^ 2) + 3 * (p.L8) * (f 7 ^ 2 * f 8 ^ 2) +
      (6 * p.L6) * (f 8 ^ 4) := by
  simp [terms, l4_8]
  ring

end Verif.Lagrangian.CPintheDark
