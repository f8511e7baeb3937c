import Verif.Lagrangian.Coded
import Verif.Lagrangian.CPintheDark.Tables

/-!
# Symmetry of the tensors of CP in the Dark

The values of the tables are numbered so that the symmetry can be tested with the numbers alone.
-/

set_option linter.unusedSectionVars false
set_option linter.unusedVariables false

namespace Verif.Lagrangian.CPintheDark

open Verif.Potential

variable {K : Type} [Field K]

/-- The numbered values. -/
def l2Value (p : Par K) : Nat → K
  | 0 => p.m11s
  | 1 => p.m22s
  | _ => p.mSs

/-- The numbers of the values of `l2`. -/
def l2Codes : List (List Nat × Nat) :=
  [([0, 0], 0), ([1, 1], 0), ([2, 2], 1), ([3, 3], 1), ([4, 4], 0), ([5, 5], 0), ([6, 6], 1),
   ([7, 7], 1), ([8, 8], 2)]

theorem l2_coded (p : Par K) : l2 p = coded (l2Value p) l2Codes := rfl

theorem l2_sym2 (p : Par K) : Sym2 9 (assign (l2 p) zeroTensor) :=
  sym2_coded 9 _ (l2_distinct p) _ _ (l2_coded p) (by decide +kernel)

/-- The numbered values. -/
def l3Value (p : Par K) : Nat → K
  | 0 => p.ReA
  | 1 => -p.ImA
  | _ => p.ImA

/-- The numbers of the values of `l3`. -/
def l3Codes : List (List Nat × Nat) :=
  [([0, 2, 8], 0), ([0, 3, 8], 1), ([0, 8, 2], 0), ([0, 8, 3], 1), ([1, 2, 8], 2), ([1, 3, 8], 0),
   ([1, 8, 2], 2), ([1, 8, 3], 0), ([2, 0, 8], 0), ([2, 1, 8], 2), ([2, 8, 0], 0), ([2, 8, 1], 2),
   ([3, 0, 8], 1), ([3, 1, 8], 0), ([3, 8, 0], 1), ([3, 8, 1], 0), ([4, 6, 8], 0), ([4, 7, 8], 1),
   ([4, 8, 6], 0), ([4, 8, 7], 1), ([5, 6, 8], 2), ([5, 7, 8], 0), ([5, 8, 6], 2), ([5, 8, 7], 0),
   ([6, 4, 8], 0), ([6, 5, 8], 2), ([6, 8, 4], 0), ([6, 8, 5], 2), ([7, 4, 8], 1), ([7, 5, 8], 0),
   ([7, 8, 4], 1), ([7, 8, 5], 0), ([8, 0, 2], 0), ([8, 0, 3], 1), ([8, 1, 2], 2), ([8, 1, 3], 0),
   ([8, 2, 0], 0), ([8, 2, 1], 2), ([8, 3, 0], 1), ([8, 3, 1], 0), ([8, 4, 6], 0), ([8, 4, 7], 1),
   ([8, 5, 6], 2), ([8, 5, 7], 0), ([8, 6, 4], 0), ([8, 6, 5], 2), ([8, 7, 4], 1), ([8, 7, 5], 0)]

theorem l3_coded (p : Par K) : l3 p = coded (l3Value p) l3Codes := rfl

theorem l3_sym3 (p : Par K) : Sym3 9 (assign (l3 p) zeroTensor) :=
  sym3_coded 9 _ (l3_distinct p) _ _ (l3_coded p) (by decide +kernel)

/-- The numbered values. -/
def ctL2Value (c : CT K) : Nat → K
  | 0 => c.dm11s
  | 1 => c.dm22s
  | _ => c.dmSs

/-- The numbers of the values of `ctL2`. -/
def ctL2Codes : List (List Nat × Nat) :=
  [([0, 0], 0), ([1, 1], 0), ([2, 2], 1), ([3, 3], 1), ([4, 4], 0), ([5, 5], 0), ([6, 6], 1),
   ([7, 7], 1), ([8, 8], 2)]

theorem ctL2_coded (c : CT K) : ctL2 c = coded (ctL2Value c) ctL2Codes := rfl

theorem ctL2_sym2 (c : CT K) : Sym2 9 (assign (ctL2 c) zeroTensor) :=
  sym2_coded 9 _ (ctL2_distinct c) _ _ (ctL2_coded c) (by decide +kernel)

/-- The numbered values. -/
def ctL3Value (c : CT K) : Nat → K
  | 0 => c.dReA
  | 1 => -c.dImA
  | _ => c.dImA

/-- The numbers of the values of `ctL3`. -/
def ctL3Codes : List (List Nat × Nat) :=
  [([0, 2, 8], 0), ([0, 3, 8], 1), ([0, 8, 2], 0), ([0, 8, 3], 1), ([1, 2, 8], 2), ([1, 3, 8], 0),
   ([1, 8, 2], 2), ([1, 8, 3], 0), ([2, 0, 8], 0), ([2, 1, 8], 2), ([2, 8, 0], 0), ([2, 8, 1], 2),
   ([3, 0, 8], 1), ([3, 1, 8], 0), ([3, 8, 0], 1), ([3, 8, 1], 0), ([4, 6, 8], 0), ([4, 7, 8], 1),
   ([4, 8, 6], 0), ([4, 8, 7], 1), ([5, 6, 8], 2), ([5, 7, 8], 0), ([5, 8, 6], 2), ([5, 8, 7], 0),
   ([6, 4, 8], 0), ([6, 5, 8], 2), ([6, 8, 4], 0), ([6, 8, 5], 2), ([7, 4, 8], 1), ([7, 5, 8], 0),
   ([7, 8, 4], 1), ([7, 8, 5], 0), ([8, 0, 2], 0), ([8, 0, 3], 1), ([8, 1, 2], 2), ([8, 1, 3], 0),
   ([8, 2, 0], 0), ([8, 2, 1], 2), ([8, 3, 0], 1), ([8, 3, 1], 0), ([8, 4, 6], 0), ([8, 4, 7], 1),
   ([8, 5, 6], 2), ([8, 5, 7], 0), ([8, 6, 4], 0), ([8, 6, 5], 2), ([8, 7, 4], 1), ([8, 7, 5], 0)]

theorem ctL3_coded (c : CT K) : ctL3 c = coded (ctL3Value c) ctL3Codes := rfl

theorem ctL3_sym3 (c : CT K) : Sym3 9 (assign (ctL3 c) zeroTensor) :=
  sym3_coded 9 _ (ctL3_distinct c) _ _ (ctL3_coded c) (by decide +kernel)

/-- The numbered values. -/
def l4Value (p : Par K) : Nat → K
  | 0 => 3 * p.L1
  | 1 => p.L1
  | 2 => p.L3 + p.L4 + p.L5
  | 3 => p.L3 + p.L4 - p.L5
  | 4 => p.L3
  | 5 => p.L7
  | 6 => p.L5
  | 7 => p.L4 / 2 + p.L5 / 2
  | 8 => p.L4 / 2 - p.L5 / 2
  | 9 => -p.L4 / 2 + p.L5 / 2
  | 10 => 3 * p.L2
  | 11 => p.L2
  | 12 => p.L8
  | _ => 6 * p.L6

/-- The numbers of the values of `l4_0`. -/
def l4Codes_0 : List (List Nat × Nat) :=
  [([0, 0, 0, 0], 0), ([0, 0, 1, 1], 1), ([0, 0, 2, 2], 2), ([0, 0, 3, 3], 3), ([0, 0, 4, 4], 1),
   ([0, 0, 5, 5], 1), ([0, 0, 6, 6], 4), ([0, 0, 7, 7], 4), ([0, 0, 8, 8], 5), ([0, 1, 0, 1], 1),
   ([0, 1, 1, 0], 1), ([0, 1, 2, 3], 6), ([0, 1, 3, 2], 6), ([0, 2, 0, 2], 2), ([0, 2, 1, 3], 6),
   ([0, 2, 2, 0], 2), ([0, 2, 3, 1], 6), ([0, 2, 4, 6], 7), ([0, 2, 5, 7], 7), ([0, 2, 6, 4], 7),
   ([0, 2, 7, 5], 7), ([0, 3, 0, 3], 3), ([0, 3, 1, 2], 6), ([0, 3, 2, 1], 6), ([0, 3, 3, 0], 3),
   ([0, 3, 4, 7], 8), ([0, 3, 5, 6], 9), ([0, 3, 6, 5], 9), ([0, 3, 7, 4], 8), ([0, 4, 0, 4], 1),
   ([0, 4, 2, 6], 7), ([0, 4, 3, 7], 8), ([0, 4, 4, 0], 1), ([0, 4, 6, 2], 7), ([0, 4, 7, 3], 8),
   ([0, 5, 0, 5], 1), ([0, 5, 2, 7], 7), ([0, 5, 3, 6], 9), ([0, 5, 5, 0], 1), ([0, 5, 6, 3], 9),
   ([0, 5, 7, 2], 7), ([0, 6, 0, 6], 4), ([0, 6, 2, 4], 7), ([0, 6, 3, 5], 9), ([0, 6, 4, 2], 7),
   ([0, 6, 5, 3], 9), ([0, 6, 6, 0], 4), ([0, 7, 0, 7], 4), ([0, 7, 2, 5], 7), ([0, 7, 3, 4], 8),
   ([0, 7, 4, 3], 8), ([0, 7, 5, 2], 7), ([0, 7, 7, 0], 4), ([0, 8, 0, 8], 5), ([0, 8, 8, 0], 5)]

/-- The numbers of the values of `l4_1`. -/
def l4Codes_1 : List (List Nat × Nat) :=
  [([1, 0, 0, 1], 1), ([1, 0, 1, 0], 1), ([1, 0, 2, 3], 6), ([1, 0, 3, 2], 6), ([1, 1, 0, 0], 1),
   ([1, 1, 1, 1], 0), ([1, 1, 2, 2], 3), ([1, 1, 3, 3], 2), ([1, 1, 4, 4], 1), ([1, 1, 5, 5], 1),
   ([1, 1, 6, 6], 4), ([1, 1, 7, 7], 4), ([1, 1, 8, 8], 5), ([1, 2, 0, 3], 6), ([1, 2, 1, 2], 3),
   ([1, 2, 2, 1], 3), ([1, 2, 3, 0], 6), ([1, 2, 4, 7], 9), ([1, 2, 5, 6], 8), ([1, 2, 6, 5], 8),
   ([1, 2, 7, 4], 9), ([1, 3, 0, 2], 6), ([1, 3, 1, 3], 2), ([1, 3, 2, 0], 6), ([1, 3, 3, 1], 2),
   ([1, 3, 4, 6], 7), ([1, 3, 5, 7], 7), ([1, 3, 6, 4], 7), ([1, 3, 7, 5], 7), ([1, 4, 1, 4], 1),
   ([1, 4, 2, 7], 9), ([1, 4, 3, 6], 7), ([1, 4, 4, 1], 1), ([1, 4, 6, 3], 7), ([1, 4, 7, 2], 9),
   ([1, 5, 1, 5], 1), ([1, 5, 2, 6], 8), ([1, 5, 3, 7], 7), ([1, 5, 5, 1], 1), ([1, 5, 6, 2], 8),
   ([1, 5, 7, 3], 7), ([1, 6, 1, 6], 4), ([1, 6, 2, 5], 8), ([1, 6, 3, 4], 7), ([1, 6, 4, 3], 7),
   ([1, 6, 5, 2], 8), ([1, 6, 6, 1], 4), ([1, 7, 1, 7], 4), ([1, 7, 2, 4], 9), ([1, 7, 3, 5], 7),
   ([1, 7, 4, 2], 9), ([1, 7, 5, 3], 7), ([1, 7, 7, 1], 4), ([1, 8, 1, 8], 5), ([1, 8, 8, 1], 5)]

/-- The numbers of the values of `l4_2`. -/
def l4Codes_2 : List (List Nat × Nat) :=
  [([2, 0, 0, 2], 2), ([2, 0, 1, 3], 6), ([2, 0, 2, 0], 2), ([2, 0, 3, 1], 6), ([2, 0, 4, 6], 7),
   ([2, 0, 5, 7], 7), ([2, 0, 6, 4], 7), ([2, 0, 7, 5], 7), ([2, 1, 0, 3], 6), ([2, 1, 1, 2], 3),
   ([2, 1, 2, 1], 3), ([2, 1, 3, 0], 6), ([2, 1, 4, 7], 9), ([2, 1, 5, 6], 8), ([2, 1, 6, 5], 8),
   ([2, 1, 7, 4], 9), ([2, 2, 0, 0], 2), ([2, 2, 1, 1], 3), ([2, 2, 2, 2], 10),
   ([2, 2, 3, 3], 11), ([2, 2, 4, 4], 4), ([2, 2, 5, 5], 4), ([2, 2, 6, 6], 11),
   ([2, 2, 7, 7], 11), ([2, 2, 8, 8], 12), ([2, 3, 0, 1], 6), ([2, 3, 1, 0], 6),
   ([2, 3, 2, 3], 11), ([2, 3, 3, 2], 11), ([2, 4, 0, 6], 7), ([2, 4, 1, 7], 9),
   ([2, 4, 2, 4], 4), ([2, 4, 4, 2], 4), ([2, 4, 6, 0], 7), ([2, 4, 7, 1], 9), ([2, 5, 0, 7], 7),
   ([2, 5, 1, 6], 8), ([2, 5, 2, 5], 4), ([2, 5, 5, 2], 4), ([2, 5, 6, 1], 8), ([2, 5, 7, 0], 7),
   ([2, 6, 0, 4], 7), ([2, 6, 1, 5], 8), ([2, 6, 2, 6], 11), ([2, 6, 4, 0], 7), ([2, 6, 5, 1], 8),
   ([2, 6, 6, 2], 11), ([2, 7, 0, 5], 7), ([2, 7, 1, 4], 9), ([2, 7, 2, 7], 11),
   ([2, 7, 4, 1], 9), ([2, 7, 5, 0], 7), ([2, 7, 7, 2], 11), ([2, 8, 2, 8], 12),
   ([2, 8, 8, 2], 12)]

/-- The numbers of the values of `l4_3`. -/
def l4Codes_3 : List (List Nat × Nat) :=
  [([3, 0, 0, 3], 3), ([3, 0, 1, 2], 6), ([3, 0, 2, 1], 6), ([3, 0, 3, 0], 3), ([3, 0, 4, 7], 8),
   ([3, 0, 5, 6], 9), ([3, 0, 6, 5], 9), ([3, 0, 7, 4], 8), ([3, 1, 0, 2], 6), ([3, 1, 1, 3], 2),
   ([3, 1, 2, 0], 6), ([3, 1, 3, 1], 2), ([3, 1, 4, 6], 7), ([3, 1, 5, 7], 7), ([3, 1, 6, 4], 7),
   ([3, 1, 7, 5], 7), ([3, 2, 0, 1], 6), ([3, 2, 1, 0], 6), ([3, 2, 2, 3], 11),
   ([3, 2, 3, 2], 11), ([3, 3, 0, 0], 3), ([3, 3, 1, 1], 2), ([3, 3, 2, 2], 11),
   ([3, 3, 3, 3], 10), ([3, 3, 4, 4], 4), ([3, 3, 5, 5], 4), ([3, 3, 6, 6], 11),
   ([3, 3, 7, 7], 11), ([3, 3, 8, 8], 12), ([3, 4, 0, 7], 8), ([3, 4, 1, 6], 7),
   ([3, 4, 3, 4], 4), ([3, 4, 4, 3], 4), ([3, 4, 6, 1], 7), ([3, 4, 7, 0], 8), ([3, 5, 0, 6], 9),
   ([3, 5, 1, 7], 7), ([3, 5, 3, 5], 4), ([3, 5, 5, 3], 4), ([3, 5, 6, 0], 9), ([3, 5, 7, 1], 7),
   ([3, 6, 0, 5], 9), ([3, 6, 1, 4], 7), ([3, 6, 3, 6], 11), ([3, 6, 4, 1], 7), ([3, 6, 5, 0], 9),
   ([3, 6, 6, 3], 11), ([3, 7, 0, 4], 8), ([3, 7, 1, 5], 7), ([3, 7, 3, 7], 11),
   ([3, 7, 4, 0], 8), ([3, 7, 5, 1], 7), ([3, 7, 7, 3], 11), ([3, 8, 3, 8], 12),
   ([3, 8, 8, 3], 12)]

/-- The numbers of the values of `l4_4`. -/
def l4Codes_4 : List (List Nat × Nat) :=
  [([4, 0, 0, 4], 1), ([4, 0, 2, 6], 7), ([4, 0, 3, 7], 8), ([4, 0, 4, 0], 1), ([4, 0, 6, 2], 7),
   ([4, 0, 7, 3], 8), ([4, 1, 1, 4], 1), ([4, 1, 2, 7], 9), ([4, 1, 3, 6], 7), ([4, 1, 4, 1], 1),
   ([4, 1, 6, 3], 7), ([4, 1, 7, 2], 9), ([4, 2, 0, 6], 7), ([4, 2, 1, 7], 9), ([4, 2, 2, 4], 4),
   ([4, 2, 4, 2], 4), ([4, 2, 6, 0], 7), ([4, 2, 7, 1], 9), ([4, 3, 0, 7], 8), ([4, 3, 1, 6], 7),
   ([4, 3, 3, 4], 4), ([4, 3, 4, 3], 4), ([4, 3, 6, 1], 7), ([4, 3, 7, 0], 8), ([4, 4, 0, 0], 1),
   ([4, 4, 1, 1], 1), ([4, 4, 2, 2], 4), ([4, 4, 3, 3], 4), ([4, 4, 4, 4], 0), ([4, 4, 5, 5], 1),
   ([4, 4, 6, 6], 2), ([4, 4, 7, 7], 3), ([4, 4, 8, 8], 5), ([4, 5, 4, 5], 1), ([4, 5, 5, 4], 1),
   ([4, 5, 6, 7], 6), ([4, 5, 7, 6], 6), ([4, 6, 0, 2], 7), ([4, 6, 1, 3], 7), ([4, 6, 2, 0], 7),
   ([4, 6, 3, 1], 7), ([4, 6, 4, 6], 2), ([4, 6, 5, 7], 6), ([4, 6, 6, 4], 2), ([4, 6, 7, 5], 6),
   ([4, 7, 0, 3], 8), ([4, 7, 1, 2], 9), ([4, 7, 2, 1], 9), ([4, 7, 3, 0], 8), ([4, 7, 4, 7], 3),
   ([4, 7, 5, 6], 6), ([4, 7, 6, 5], 6), ([4, 7, 7, 4], 3), ([4, 8, 4, 8], 5), ([4, 8, 8, 4], 5)]

/-- The numbers of the values of `l4_5`. -/
def l4Codes_5 : List (List Nat × Nat) :=
  [([5, 0, 0, 5], 1), ([5, 0, 2, 7], 7), ([5, 0, 3, 6], 9), ([5, 0, 5, 0], 1), ([5, 0, 6, 3], 9),
   ([5, 0, 7, 2], 7), ([5, 1, 1, 5], 1), ([5, 1, 2, 6], 8), ([5, 1, 3, 7], 7), ([5, 1, 5, 1], 1),
   ([5, 1, 6, 2], 8), ([5, 1, 7, 3], 7), ([5, 2, 0, 7], 7), ([5, 2, 1, 6], 8), ([5, 2, 2, 5], 4),
   ([5, 2, 5, 2], 4), ([5, 2, 6, 1], 8), ([5, 2, 7, 0], 7), ([5, 3, 0, 6], 9), ([5, 3, 1, 7], 7),
   ([5, 3, 3, 5], 4), ([5, 3, 5, 3], 4), ([5, 3, 6, 0], 9), ([5, 3, 7, 1], 7), ([5, 4, 4, 5], 1),
   ([5, 4, 5, 4], 1), ([5, 4, 6, 7], 6), ([5, 4, 7, 6], 6), ([5, 5, 0, 0], 1), ([5, 5, 1, 1], 1),
   ([5, 5, 2, 2], 4), ([5, 5, 3, 3], 4), ([5, 5, 4, 4], 1), ([5, 5, 5, 5], 0), ([5, 5, 6, 6], 3),
   ([5, 5, 7, 7], 2), ([5, 5, 8, 8], 5), ([5, 6, 0, 3], 9), ([5, 6, 1, 2], 8), ([5, 6, 2, 1], 8),
   ([5, 6, 3, 0], 9), ([5, 6, 4, 7], 6), ([5, 6, 5, 6], 3), ([5, 6, 6, 5], 3), ([5, 6, 7, 4], 6),
   ([5, 7, 0, 2], 7), ([5, 7, 1, 3], 7), ([5, 7, 2, 0], 7), ([5, 7, 3, 1], 7), ([5, 7, 4, 6], 6),
   ([5, 7, 5, 7], 2), ([5, 7, 6, 4], 6), ([5, 7, 7, 5], 2), ([5, 8, 5, 8], 5), ([5, 8, 8, 5], 5)]

/-- The numbers of the values of `l4_6`. -/
def l4Codes_6 : List (List Nat × Nat) :=
  [([6, 0, 0, 6], 4), ([6, 0, 2, 4], 7), ([6, 0, 3, 5], 9), ([6, 0, 4, 2], 7), ([6, 0, 5, 3], 9),
   ([6, 0, 6, 0], 4), ([6, 1, 1, 6], 4), ([6, 1, 2, 5], 8), ([6, 1, 3, 4], 7), ([6, 1, 4, 3], 7),
   ([6, 1, 5, 2], 8), ([6, 1, 6, 1], 4), ([6, 2, 0, 4], 7), ([6, 2, 1, 5], 8), ([6, 2, 2, 6], 11),
   ([6, 2, 4, 0], 7), ([6, 2, 5, 1], 8), ([6, 2, 6, 2], 11), ([6, 3, 0, 5], 9), ([6, 3, 1, 4], 7),
   ([6, 3, 3, 6], 11), ([6, 3, 4, 1], 7), ([6, 3, 5, 0], 9), ([6, 3, 6, 3], 11),
   ([6, 4, 0, 2], 7), ([6, 4, 1, 3], 7), ([6, 4, 2, 0], 7), ([6, 4, 3, 1], 7), ([6, 4, 4, 6], 2),
   ([6, 4, 5, 7], 6), ([6, 4, 6, 4], 2), ([6, 4, 7, 5], 6), ([6, 5, 0, 3], 9), ([6, 5, 1, 2], 8),
   ([6, 5, 2, 1], 8), ([6, 5, 3, 0], 9), ([6, 5, 4, 7], 6), ([6, 5, 5, 6], 3), ([6, 5, 6, 5], 3),
   ([6, 5, 7, 4], 6), ([6, 6, 0, 0], 4), ([6, 6, 1, 1], 4), ([6, 6, 2, 2], 11),
   ([6, 6, 3, 3], 11), ([6, 6, 4, 4], 2), ([6, 6, 5, 5], 3), ([6, 6, 6, 6], 10),
   ([6, 6, 7, 7], 11), ([6, 6, 8, 8], 12), ([6, 7, 4, 5], 6), ([6, 7, 5, 4], 6),
   ([6, 7, 6, 7], 11), ([6, 7, 7, 6], 11), ([6, 8, 6, 8], 12), ([6, 8, 8, 6], 12)]

/-- The numbers of the values of `l4_7`. -/
def l4Codes_7 : List (List Nat × Nat) :=
  [([7, 0, 0, 7], 4), ([7, 0, 2, 5], 7), ([7, 0, 3, 4], 8), ([7, 0, 4, 3], 8), ([7, 0, 5, 2], 7),
   ([7, 0, 7, 0], 4), ([7, 1, 1, 7], 4), ([7, 1, 2, 4], 9), ([7, 1, 3, 5], 7), ([7, 1, 4, 2], 9),
   ([7, 1, 5, 3], 7), ([7, 1, 7, 1], 4), ([7, 2, 0, 5], 7), ([7, 2, 1, 4], 9), ([7, 2, 2, 7], 11),
   ([7, 2, 4, 1], 9), ([7, 2, 5, 0], 7), ([7, 2, 7, 2], 11), ([7, 3, 0, 4], 8), ([7, 3, 1, 5], 7),
   ([7, 3, 3, 7], 11), ([7, 3, 4, 0], 8), ([7, 3, 5, 1], 7), ([7, 3, 7, 3], 11),
   ([7, 4, 0, 3], 8), ([7, 4, 1, 2], 9), ([7, 4, 2, 1], 9), ([7, 4, 3, 0], 8), ([7, 4, 4, 7], 3),
   ([7, 4, 5, 6], 6), ([7, 4, 6, 5], 6), ([7, 4, 7, 4], 3), ([7, 5, 0, 2], 7), ([7, 5, 1, 3], 7),
   ([7, 5, 2, 0], 7), ([7, 5, 3, 1], 7), ([7, 5, 4, 6], 6), ([7, 5, 5, 7], 2), ([7, 5, 6, 4], 6),
   ([7, 5, 7, 5], 2), ([7, 6, 4, 5], 6), ([7, 6, 5, 4], 6), ([7, 6, 6, 7], 11),
   ([7, 6, 7, 6], 11), ([7, 7, 0, 0], 4), ([7, 7, 1, 1], 4), ([7, 7, 2, 2], 11),
   ([7, 7, 3, 3], 11), ([7, 7, 4, 4], 3), ([7, 7, 5, 5], 2), ([7, 7, 6, 6], 11),
   ([7, 7, 7, 7], 10), ([7, 7, 8, 8], 12), ([7, 8, 7, 8], 12), ([7, 8, 8, 7], 12)]

/-- The numbers of the values of `l4_8`. -/
def l4Codes_8 : List (List Nat × Nat) :=
  [([8, 0, 0, 8], 5), ([8, 0, 8, 0], 5), ([8, 1, 1, 8], 5), ([8, 1, 8, 1], 5), ([8, 2, 2, 8], 12),
   ([8, 2, 8, 2], 12), ([8, 3, 3, 8], 12), ([8, 3, 8, 3], 12), ([8, 4, 4, 8], 5),
   ([8, 4, 8, 4], 5), ([8, 5, 5, 8], 5), ([8, 5, 8, 5], 5), ([8, 6, 6, 8], 12),
   ([8, 6, 8, 6], 12), ([8, 7, 7, 8], 12), ([8, 7, 8, 7], 12), ([8, 8, 0, 0], 5),
   ([8, 8, 1, 1], 5), ([8, 8, 2, 2], 12), ([8, 8, 3, 3], 12), ([8, 8, 4, 4], 5),
   ([8, 8, 5, 5], 5), ([8, 8, 6, 6], 12), ([8, 8, 7, 7], 12), ([8, 8, 8, 8], 13)]

set_option maxRecDepth 10000 in
theorem l4_0_coded (p : Par K) : l4_0 p = coded (l4Value p) l4Codes_0 := rfl

set_option maxRecDepth 10000 in
theorem l4_1_coded (p : Par K) : l4_1 p = coded (l4Value p) l4Codes_1 := rfl

set_option maxRecDepth 10000 in
theorem l4_2_coded (p : Par K) : l4_2 p = coded (l4Value p) l4Codes_2 := rfl

set_option maxRecDepth 10000 in
theorem l4_3_coded (p : Par K) : l4_3 p = coded (l4Value p) l4Codes_3 := rfl

set_option maxRecDepth 10000 in
theorem l4_4_coded (p : Par K) : l4_4 p = coded (l4Value p) l4Codes_4 := rfl

set_option maxRecDepth 10000 in
theorem l4_5_coded (p : Par K) : l4_5 p = coded (l4Value p) l4Codes_5 := rfl

set_option maxRecDepth 10000 in
theorem l4_6_coded (p : Par K) : l4_6 p = coded (l4Value p) l4Codes_6 := rfl

set_option maxRecDepth 10000 in
theorem l4_7_coded (p : Par K) : l4_7 p = coded (l4Value p) l4Codes_7 := rfl

set_option maxRecDepth 10000 in
theorem l4_8_coded (p : Par K) : l4_8 p = coded (l4Value p) l4Codes_8 := rfl

/-- All numbers. -/
def l4Codes : List (List (List Nat × Nat)) :=
  [l4Codes_0, l4Codes_1, l4Codes_2, l4Codes_3, l4Codes_4, l4Codes_5, l4Codes_6, l4Codes_7,
   l4Codes_8]

theorem l4_symmetricBlocks : symmetricBlocks l4Codes swapFirst = true ∧
    symmetricBlocks l4Codes swapMid = true ∧ symmetricBlocks l4Codes swapLast = true := by
  decide +kernel

theorem l4_sym4 (p : Par K) : Sym4 9 (assign (l4 p) zeroTensor) :=
  sym4_blocks _ _ (l4_blocked p) (l4Value p) l4Codes (by
    rw [l4_0_coded, l4_1_coded, l4_2_coded, l4_3_coded, l4_4_coded, l4_5_coded, l4_6_coded,
      l4_7_coded, l4_8_coded]
    rfl) l4_symmetricBlocks.1 l4_symmetricBlocks.2.1
    l4_symmetricBlocks.2.2

/-- The numbered values. -/
def ctL4Value (c : CT K) : Nat → K
  | 0 => 3 * c.dL1
  | 1 => c.dL1
  | 2 => c.dL3 + c.dL4 + c.dL5
  | 3 => -c.dImL5
  | 4 => c.dL3 + c.dL4 - c.dL5
  | 5 => c.dL3
  | 6 => c.dL7
  | 7 => c.dImL5
  | 8 => c.dL5
  | 9 => c.dL4 / 2 + c.dL5 / 2
  | 10 => -c.dImL5 / 2
  | 11 => c.dImL5 / 2
  | 12 => c.dL4 / 2 - c.dL5 / 2
  | 13 => -c.dL4 / 2 + c.dL5 / 2
  | 14 => 3 * c.dL2
  | 15 => c.dL2
  | 16 => c.dL8
  | _ => 6 * c.dL6

/-- The numbers of the values of `ctL4_0`. -/
def ctL4Codes_0 : List (List Nat × Nat) :=
  [([0, 0, 0, 0], 0), ([0, 0, 1, 1], 1), ([0, 0, 2, 2], 2), ([0, 0, 2, 3], 3), ([0, 0, 3, 2], 3),
   ([0, 0, 3, 3], 4), ([0, 0, 4, 4], 1), ([0, 0, 5, 5], 1), ([0, 0, 6, 6], 5), ([0, 0, 7, 7], 5),
   ([0, 0, 8, 8], 6), ([0, 1, 0, 1], 1), ([0, 1, 1, 0], 1), ([0, 1, 2, 2], 7), ([0, 1, 2, 3], 8),
   ([0, 1, 3, 2], 8), ([0, 1, 3, 3], 3), ([0, 2, 0, 2], 2), ([0, 2, 0, 3], 3), ([0, 2, 1, 2], 7),
   ([0, 2, 1, 3], 8), ([0, 2, 2, 0], 2), ([0, 2, 2, 1], 7), ([0, 2, 3, 0], 3), ([0, 2, 3, 1], 8),
   ([0, 2, 4, 6], 9), ([0, 2, 4, 7], 10), ([0, 2, 5, 6], 11), ([0, 2, 5, 7], 9),
   ([0, 2, 6, 4], 9), ([0, 2, 6, 5], 11), ([0, 2, 7, 4], 10), ([0, 2, 7, 5], 9),
   ([0, 3, 0, 2], 3), ([0, 3, 0, 3], 4), ([0, 3, 1, 2], 8), ([0, 3, 1, 3], 3), ([0, 3, 2, 0], 3),
   ([0, 3, 2, 1], 8), ([0, 3, 3, 0], 4), ([0, 3, 3, 1], 3), ([0, 3, 4, 6], 10),
   ([0, 3, 4, 7], 12), ([0, 3, 5, 6], 13), ([0, 3, 5, 7], 10), ([0, 3, 6, 4], 10),
   ([0, 3, 6, 5], 13), ([0, 3, 7, 4], 12), ([0, 3, 7, 5], 10), ([0, 4, 0, 4], 1),
   ([0, 4, 2, 6], 9), ([0, 4, 2, 7], 10), ([0, 4, 3, 6], 10), ([0, 4, 3, 7], 12),
   ([0, 4, 4, 0], 1), ([0, 4, 6, 2], 9), ([0, 4, 6, 3], 10), ([0, 4, 7, 2], 10),
   ([0, 4, 7, 3], 12), ([0, 5, 0, 5], 1), ([0, 5, 2, 6], 11), ([0, 5, 2, 7], 9),
   ([0, 5, 3, 6], 13), ([0, 5, 3, 7], 10), ([0, 5, 5, 0], 1), ([0, 5, 6, 2], 11),
   ([0, 5, 6, 3], 13), ([0, 5, 7, 2], 9), ([0, 5, 7, 3], 10), ([0, 6, 0, 6], 5),
   ([0, 6, 2, 4], 9), ([0, 6, 2, 5], 11), ([0, 6, 3, 4], 10), ([0, 6, 3, 5], 13),
   ([0, 6, 4, 2], 9), ([0, 6, 4, 3], 10), ([0, 6, 5, 2], 11), ([0, 6, 5, 3], 13),
   ([0, 6, 6, 0], 5), ([0, 7, 0, 7], 5), ([0, 7, 2, 4], 10), ([0, 7, 2, 5], 9),
   ([0, 7, 3, 4], 12), ([0, 7, 3, 5], 10), ([0, 7, 4, 2], 10), ([0, 7, 4, 3], 12),
   ([0, 7, 5, 2], 9), ([0, 7, 5, 3], 10), ([0, 7, 7, 0], 5), ([0, 8, 0, 8], 6), ([0, 8, 8, 0], 6)]

/-- The numbers of the values of `ctL4_1`. -/
def ctL4Codes_1 : List (List Nat × Nat) :=
  [([1, 0, 0, 1], 1), ([1, 0, 1, 0], 1), ([1, 0, 2, 2], 7), ([1, 0, 2, 3], 8), ([1, 0, 3, 2], 8),
   ([1, 0, 3, 3], 3), ([1, 1, 0, 0], 1), ([1, 1, 1, 1], 0), ([1, 1, 2, 2], 4), ([1, 1, 2, 3], 7),
   ([1, 1, 3, 2], 7), ([1, 1, 3, 3], 2), ([1, 1, 4, 4], 1), ([1, 1, 5, 5], 1), ([1, 1, 6, 6], 5),
   ([1, 1, 7, 7], 5), ([1, 1, 8, 8], 6), ([1, 2, 0, 2], 7), ([1, 2, 0, 3], 8), ([1, 2, 1, 2], 4),
   ([1, 2, 1, 3], 7), ([1, 2, 2, 0], 7), ([1, 2, 2, 1], 4), ([1, 2, 3, 0], 8), ([1, 2, 3, 1], 7),
   ([1, 2, 4, 6], 11), ([1, 2, 4, 7], 13), ([1, 2, 5, 6], 12), ([1, 2, 5, 7], 11),
   ([1, 2, 6, 4], 11), ([1, 2, 6, 5], 12), ([1, 2, 7, 4], 13), ([1, 2, 7, 5], 11),
   ([1, 3, 0, 2], 8), ([1, 3, 0, 3], 3), ([1, 3, 1, 2], 7), ([1, 3, 1, 3], 2), ([1, 3, 2, 0], 8),
   ([1, 3, 2, 1], 7), ([1, 3, 3, 0], 3), ([1, 3, 3, 1], 2), ([1, 3, 4, 6], 9), ([1, 3, 4, 7], 10),
   ([1, 3, 5, 6], 11), ([1, 3, 5, 7], 9), ([1, 3, 6, 4], 9), ([1, 3, 6, 5], 11),
   ([1, 3, 7, 4], 10), ([1, 3, 7, 5], 9), ([1, 4, 1, 4], 1), ([1, 4, 2, 6], 11),
   ([1, 4, 2, 7], 13), ([1, 4, 3, 6], 9), ([1, 4, 3, 7], 10), ([1, 4, 4, 1], 1),
   ([1, 4, 6, 2], 11), ([1, 4, 6, 3], 9), ([1, 4, 7, 2], 13), ([1, 4, 7, 3], 10),
   ([1, 5, 1, 5], 1), ([1, 5, 2, 6], 12), ([1, 5, 2, 7], 11), ([1, 5, 3, 6], 11),
   ([1, 5, 3, 7], 9), ([1, 5, 5, 1], 1), ([1, 5, 6, 2], 12), ([1, 5, 6, 3], 11),
   ([1, 5, 7, 2], 11), ([1, 5, 7, 3], 9), ([1, 6, 1, 6], 5), ([1, 6, 2, 4], 11),
   ([1, 6, 2, 5], 12), ([1, 6, 3, 4], 9), ([1, 6, 3, 5], 11), ([1, 6, 4, 2], 11),
   ([1, 6, 4, 3], 9), ([1, 6, 5, 2], 12), ([1, 6, 5, 3], 11), ([1, 6, 6, 1], 5),
   ([1, 7, 1, 7], 5), ([1, 7, 2, 4], 13), ([1, 7, 2, 5], 11), ([1, 7, 3, 4], 10),
   ([1, 7, 3, 5], 9), ([1, 7, 4, 2], 13), ([1, 7, 4, 3], 10), ([1, 7, 5, 2], 11),
   ([1, 7, 5, 3], 9), ([1, 7, 7, 1], 5), ([1, 8, 1, 8], 6), ([1, 8, 8, 1], 6)]

/-- The numbers of the values of `ctL4_2`. -/
def ctL4Codes_2 : List (List Nat × Nat) :=
  [([2, 0, 0, 2], 2), ([2, 0, 0, 3], 3), ([2, 0, 1, 2], 7), ([2, 0, 1, 3], 8), ([2, 0, 2, 0], 2),
   ([2, 0, 2, 1], 7), ([2, 0, 3, 0], 3), ([2, 0, 3, 1], 8), ([2, 0, 4, 6], 9), ([2, 0, 4, 7], 10),
   ([2, 0, 5, 6], 11), ([2, 0, 5, 7], 9), ([2, 0, 6, 4], 9), ([2, 0, 6, 5], 11),
   ([2, 0, 7, 4], 10), ([2, 0, 7, 5], 9), ([2, 1, 0, 2], 7), ([2, 1, 0, 3], 8), ([2, 1, 1, 2], 4),
   ([2, 1, 1, 3], 7), ([2, 1, 2, 0], 7), ([2, 1, 2, 1], 4), ([2, 1, 3, 0], 8), ([2, 1, 3, 1], 7),
   ([2, 1, 4, 6], 11), ([2, 1, 4, 7], 13), ([2, 1, 5, 6], 12), ([2, 1, 5, 7], 11),
   ([2, 1, 6, 4], 11), ([2, 1, 6, 5], 12), ([2, 1, 7, 4], 13), ([2, 1, 7, 5], 11),
   ([2, 2, 0, 0], 2), ([2, 2, 0, 1], 7), ([2, 2, 1, 0], 7), ([2, 2, 1, 1], 4), ([2, 2, 2, 2], 14),
   ([2, 2, 3, 3], 15), ([2, 2, 4, 4], 5), ([2, 2, 5, 5], 5), ([2, 2, 6, 6], 15),
   ([2, 2, 7, 7], 15), ([2, 2, 8, 8], 16), ([2, 3, 0, 0], 3), ([2, 3, 0, 1], 8),
   ([2, 3, 1, 0], 8), ([2, 3, 1, 1], 7), ([2, 3, 2, 3], 15), ([2, 3, 3, 2], 15),
   ([2, 4, 0, 6], 9), ([2, 4, 0, 7], 10), ([2, 4, 1, 6], 11), ([2, 4, 1, 7], 13),
   ([2, 4, 2, 4], 5), ([2, 4, 4, 2], 5), ([2, 4, 6, 0], 9), ([2, 4, 6, 1], 11),
   ([2, 4, 7, 0], 10), ([2, 4, 7, 1], 13), ([2, 5, 0, 6], 11), ([2, 5, 0, 7], 9),
   ([2, 5, 1, 6], 12), ([2, 5, 1, 7], 11), ([2, 5, 2, 5], 5), ([2, 5, 5, 2], 5),
   ([2, 5, 6, 0], 11), ([2, 5, 6, 1], 12), ([2, 5, 7, 0], 9), ([2, 5, 7, 1], 11),
   ([2, 6, 0, 4], 9), ([2, 6, 0, 5], 11), ([2, 6, 1, 4], 11), ([2, 6, 1, 5], 12),
   ([2, 6, 2, 6], 15), ([2, 6, 4, 0], 9), ([2, 6, 4, 1], 11), ([2, 6, 5, 0], 11),
   ([2, 6, 5, 1], 12), ([2, 6, 6, 2], 15), ([2, 7, 0, 4], 10), ([2, 7, 0, 5], 9),
   ([2, 7, 1, 4], 13), ([2, 7, 1, 5], 11), ([2, 7, 2, 7], 15), ([2, 7, 4, 0], 10),
   ([2, 7, 4, 1], 13), ([2, 7, 5, 0], 9), ([2, 7, 5, 1], 11), ([2, 7, 7, 2], 15),
   ([2, 8, 2, 8], 16), ([2, 8, 8, 2], 16)]

/-- The numbers of the values of `ctL4_3`. -/
def ctL4Codes_3 : List (List Nat × Nat) :=
  [([3, 0, 0, 2], 3), ([3, 0, 0, 3], 4), ([3, 0, 1, 2], 8), ([3, 0, 1, 3], 3), ([3, 0, 2, 0], 3),
   ([3, 0, 2, 1], 8), ([3, 0, 3, 0], 4), ([3, 0, 3, 1], 3), ([3, 0, 4, 6], 10),
   ([3, 0, 4, 7], 12), ([3, 0, 5, 6], 13), ([3, 0, 5, 7], 10), ([3, 0, 6, 4], 10),
   ([3, 0, 6, 5], 13), ([3, 0, 7, 4], 12), ([3, 0, 7, 5], 10), ([3, 1, 0, 2], 8),
   ([3, 1, 0, 3], 3), ([3, 1, 1, 2], 7), ([3, 1, 1, 3], 2), ([3, 1, 2, 0], 8), ([3, 1, 2, 1], 7),
   ([3, 1, 3, 0], 3), ([3, 1, 3, 1], 2), ([3, 1, 4, 6], 9), ([3, 1, 4, 7], 10),
   ([3, 1, 5, 6], 11), ([3, 1, 5, 7], 9), ([3, 1, 6, 4], 9), ([3, 1, 6, 5], 11),
   ([3, 1, 7, 4], 10), ([3, 1, 7, 5], 9), ([3, 2, 0, 0], 3), ([3, 2, 0, 1], 8), ([3, 2, 1, 0], 8),
   ([3, 2, 1, 1], 7), ([3, 2, 2, 3], 15), ([3, 2, 3, 2], 15), ([3, 3, 0, 0], 4),
   ([3, 3, 0, 1], 3), ([3, 3, 1, 0], 3), ([3, 3, 1, 1], 2), ([3, 3, 2, 2], 15),
   ([3, 3, 3, 3], 14), ([3, 3, 4, 4], 5), ([3, 3, 5, 5], 5), ([3, 3, 6, 6], 15),
   ([3, 3, 7, 7], 15), ([3, 3, 8, 8], 16), ([3, 4, 0, 6], 10), ([3, 4, 0, 7], 12),
   ([3, 4, 1, 6], 9), ([3, 4, 1, 7], 10), ([3, 4, 3, 4], 5), ([3, 4, 4, 3], 5),
   ([3, 4, 6, 0], 10), ([3, 4, 6, 1], 9), ([3, 4, 7, 0], 12), ([3, 4, 7, 1], 10),
   ([3, 5, 0, 6], 13), ([3, 5, 0, 7], 10), ([3, 5, 1, 6], 11), ([3, 5, 1, 7], 9),
   ([3, 5, 3, 5], 5), ([3, 5, 5, 3], 5), ([3, 5, 6, 0], 13), ([3, 5, 6, 1], 11),
   ([3, 5, 7, 0], 10), ([3, 5, 7, 1], 9), ([3, 6, 0, 4], 10), ([3, 6, 0, 5], 13),
   ([3, 6, 1, 4], 9), ([3, 6, 1, 5], 11), ([3, 6, 3, 6], 15), ([3, 6, 4, 0], 10),
   ([3, 6, 4, 1], 9), ([3, 6, 5, 0], 13), ([3, 6, 5, 1], 11), ([3, 6, 6, 3], 15),
   ([3, 7, 0, 4], 12), ([3, 7, 0, 5], 10), ([3, 7, 1, 4], 10), ([3, 7, 1, 5], 9),
   ([3, 7, 3, 7], 15), ([3, 7, 4, 0], 12), ([3, 7, 4, 1], 10), ([3, 7, 5, 0], 10),
   ([3, 7, 5, 1], 9), ([3, 7, 7, 3], 15), ([3, 8, 3, 8], 16), ([3, 8, 8, 3], 16)]

/-- The numbers of the values of `ctL4_4`. -/
def ctL4Codes_4 : List (List Nat × Nat) :=
  [([4, 0, 0, 4], 1), ([4, 0, 2, 6], 9), ([4, 0, 2, 7], 10), ([4, 0, 3, 6], 10),
   ([4, 0, 3, 7], 12), ([4, 0, 4, 0], 1), ([4, 0, 6, 2], 9), ([4, 0, 6, 3], 10),
   ([4, 0, 7, 2], 10), ([4, 0, 7, 3], 12), ([4, 1, 1, 4], 1), ([4, 1, 2, 6], 11),
   ([4, 1, 2, 7], 13), ([4, 1, 3, 6], 9), ([4, 1, 3, 7], 10), ([4, 1, 4, 1], 1),
   ([4, 1, 6, 2], 11), ([4, 1, 6, 3], 9), ([4, 1, 7, 2], 13), ([4, 1, 7, 3], 10),
   ([4, 2, 0, 6], 9), ([4, 2, 0, 7], 10), ([4, 2, 1, 6], 11), ([4, 2, 1, 7], 13),
   ([4, 2, 2, 4], 5), ([4, 2, 4, 2], 5), ([4, 2, 6, 0], 9), ([4, 2, 6, 1], 11),
   ([4, 2, 7, 0], 10), ([4, 2, 7, 1], 13), ([4, 3, 0, 6], 10), ([4, 3, 0, 7], 12),
   ([4, 3, 1, 6], 9), ([4, 3, 1, 7], 10), ([4, 3, 3, 4], 5), ([4, 3, 4, 3], 5),
   ([4, 3, 6, 0], 10), ([4, 3, 6, 1], 9), ([4, 3, 7, 0], 12), ([4, 3, 7, 1], 10),
   ([4, 4, 0, 0], 1), ([4, 4, 1, 1], 1), ([4, 4, 2, 2], 5), ([4, 4, 3, 3], 5), ([4, 4, 4, 4], 0),
   ([4, 4, 5, 5], 1), ([4, 4, 6, 6], 2), ([4, 4, 6, 7], 3), ([4, 4, 7, 6], 3), ([4, 4, 7, 7], 4),
   ([4, 4, 8, 8], 6), ([4, 5, 4, 5], 1), ([4, 5, 5, 4], 1), ([4, 5, 6, 6], 7), ([4, 5, 6, 7], 8),
   ([4, 5, 7, 6], 8), ([4, 5, 7, 7], 3), ([4, 6, 0, 2], 9), ([4, 6, 0, 3], 10),
   ([4, 6, 1, 2], 11), ([4, 6, 1, 3], 9), ([4, 6, 2, 0], 9), ([4, 6, 2, 1], 11),
   ([4, 6, 3, 0], 10), ([4, 6, 3, 1], 9), ([4, 6, 4, 6], 2), ([4, 6, 4, 7], 3), ([4, 6, 5, 6], 7),
   ([4, 6, 5, 7], 8), ([4, 6, 6, 4], 2), ([4, 6, 6, 5], 7), ([4, 6, 7, 4], 3), ([4, 6, 7, 5], 8),
   ([4, 7, 0, 2], 10), ([4, 7, 0, 3], 12), ([4, 7, 1, 2], 13), ([4, 7, 1, 3], 10),
   ([4, 7, 2, 0], 10), ([4, 7, 2, 1], 13), ([4, 7, 3, 0], 12), ([4, 7, 3, 1], 10),
   ([4, 7, 4, 6], 3), ([4, 7, 4, 7], 4), ([4, 7, 5, 6], 8), ([4, 7, 5, 7], 3), ([4, 7, 6, 4], 3),
   ([4, 7, 6, 5], 8), ([4, 7, 7, 4], 4), ([4, 7, 7, 5], 3), ([4, 8, 4, 8], 6), ([4, 8, 8, 4], 6)]

/-- The numbers of the values of `ctL4_5`. -/
def ctL4Codes_5 : List (List Nat × Nat) :=
  [([5, 0, 0, 5], 1), ([5, 0, 2, 6], 11), ([5, 0, 2, 7], 9), ([5, 0, 3, 6], 13),
   ([5, 0, 3, 7], 10), ([5, 0, 5, 0], 1), ([5, 0, 6, 2], 11), ([5, 0, 6, 3], 13),
   ([5, 0, 7, 2], 9), ([5, 0, 7, 3], 10), ([5, 1, 1, 5], 1), ([5, 1, 2, 6], 12),
   ([5, 1, 2, 7], 11), ([5, 1, 3, 6], 11), ([5, 1, 3, 7], 9), ([5, 1, 5, 1], 1),
   ([5, 1, 6, 2], 12), ([5, 1, 6, 3], 11), ([5, 1, 7, 2], 11), ([5, 1, 7, 3], 9),
   ([5, 2, 0, 6], 11), ([5, 2, 0, 7], 9), ([5, 2, 1, 6], 12), ([5, 2, 1, 7], 11),
   ([5, 2, 2, 5], 5), ([5, 2, 5, 2], 5), ([5, 2, 6, 0], 11), ([5, 2, 6, 1], 12),
   ([5, 2, 7, 0], 9), ([5, 2, 7, 1], 11), ([5, 3, 0, 6], 13), ([5, 3, 0, 7], 10),
   ([5, 3, 1, 6], 11), ([5, 3, 1, 7], 9), ([5, 3, 3, 5], 5), ([5, 3, 5, 3], 5),
   ([5, 3, 6, 0], 13), ([5, 3, 6, 1], 11), ([5, 3, 7, 0], 10), ([5, 3, 7, 1], 9),
   ([5, 4, 4, 5], 1), ([5, 4, 5, 4], 1), ([5, 4, 6, 6], 7), ([5, 4, 6, 7], 8), ([5, 4, 7, 6], 8),
   ([5, 4, 7, 7], 3), ([5, 5, 0, 0], 1), ([5, 5, 1, 1], 1), ([5, 5, 2, 2], 5), ([5, 5, 3, 3], 5),
   ([5, 5, 4, 4], 1), ([5, 5, 5, 5], 0), ([5, 5, 6, 6], 4), ([5, 5, 6, 7], 7), ([5, 5, 7, 6], 7),
   ([5, 5, 7, 7], 2), ([5, 5, 8, 8], 6), ([5, 6, 0, 2], 11), ([5, 6, 0, 3], 13),
   ([5, 6, 1, 2], 12), ([5, 6, 1, 3], 11), ([5, 6, 2, 0], 11), ([5, 6, 2, 1], 12),
   ([5, 6, 3, 0], 13), ([5, 6, 3, 1], 11), ([5, 6, 4, 6], 7), ([5, 6, 4, 7], 8),
   ([5, 6, 5, 6], 4), ([5, 6, 5, 7], 7), ([5, 6, 6, 4], 7), ([5, 6, 6, 5], 4), ([5, 6, 7, 4], 8),
   ([5, 6, 7, 5], 7), ([5, 7, 0, 2], 9), ([5, 7, 0, 3], 10), ([5, 7, 1, 2], 11),
   ([5, 7, 1, 3], 9), ([5, 7, 2, 0], 9), ([5, 7, 2, 1], 11), ([5, 7, 3, 0], 10),
   ([5, 7, 3, 1], 9), ([5, 7, 4, 6], 8), ([5, 7, 4, 7], 3), ([5, 7, 5, 6], 7), ([5, 7, 5, 7], 2),
   ([5, 7, 6, 4], 8), ([5, 7, 6, 5], 7), ([5, 7, 7, 4], 3), ([5, 7, 7, 5], 2), ([5, 8, 5, 8], 6),
   ([5, 8, 8, 5], 6)]

/-- The numbers of the values of `ctL4_6`. -/
def ctL4Codes_6 : List (List Nat × Nat) :=
  [([6, 0, 0, 6], 5), ([6, 0, 2, 4], 9), ([6, 0, 2, 5], 11), ([6, 0, 3, 4], 10),
   ([6, 0, 3, 5], 13), ([6, 0, 4, 2], 9), ([6, 0, 4, 3], 10), ([6, 0, 5, 2], 11),
   ([6, 0, 5, 3], 13), ([6, 0, 6, 0], 5), ([6, 1, 1, 6], 5), ([6, 1, 2, 4], 11),
   ([6, 1, 2, 5], 12), ([6, 1, 3, 4], 9), ([6, 1, 3, 5], 11), ([6, 1, 4, 2], 11),
   ([6, 1, 4, 3], 9), ([6, 1, 5, 2], 12), ([6, 1, 5, 3], 11), ([6, 1, 6, 1], 5),
   ([6, 2, 0, 4], 9), ([6, 2, 0, 5], 11), ([6, 2, 1, 4], 11), ([6, 2, 1, 5], 12),
   ([6, 2, 2, 6], 15), ([6, 2, 4, 0], 9), ([6, 2, 4, 1], 11), ([6, 2, 5, 0], 11),
   ([6, 2, 5, 1], 12), ([6, 2, 6, 2], 15), ([6, 3, 0, 4], 10), ([6, 3, 0, 5], 13),
   ([6, 3, 1, 4], 9), ([6, 3, 1, 5], 11), ([6, 3, 3, 6], 15), ([6, 3, 4, 0], 10),
   ([6, 3, 4, 1], 9), ([6, 3, 5, 0], 13), ([6, 3, 5, 1], 11), ([6, 3, 6, 3], 15),
   ([6, 4, 0, 2], 9), ([6, 4, 0, 3], 10), ([6, 4, 1, 2], 11), ([6, 4, 1, 3], 9),
   ([6, 4, 2, 0], 9), ([6, 4, 2, 1], 11), ([6, 4, 3, 0], 10), ([6, 4, 3, 1], 9),
   ([6, 4, 4, 6], 2), ([6, 4, 4, 7], 3), ([6, 4, 5, 6], 7), ([6, 4, 5, 7], 8), ([6, 4, 6, 4], 2),
   ([6, 4, 6, 5], 7), ([6, 4, 7, 4], 3), ([6, 4, 7, 5], 8), ([6, 5, 0, 2], 11),
   ([6, 5, 0, 3], 13), ([6, 5, 1, 2], 12), ([6, 5, 1, 3], 11), ([6, 5, 2, 0], 11),
   ([6, 5, 2, 1], 12), ([6, 5, 3, 0], 13), ([6, 5, 3, 1], 11), ([6, 5, 4, 6], 7),
   ([6, 5, 4, 7], 8), ([6, 5, 5, 6], 4), ([6, 5, 5, 7], 7), ([6, 5, 6, 4], 7), ([6, 5, 6, 5], 4),
   ([6, 5, 7, 4], 8), ([6, 5, 7, 5], 7), ([6, 6, 0, 0], 5), ([6, 6, 1, 1], 5), ([6, 6, 2, 2], 15),
   ([6, 6, 3, 3], 15), ([6, 6, 4, 4], 2), ([6, 6, 4, 5], 7), ([6, 6, 5, 4], 7), ([6, 6, 5, 5], 4),
   ([6, 6, 6, 6], 14), ([6, 6, 7, 7], 15), ([6, 6, 8, 8], 16), ([6, 7, 4, 4], 3),
   ([6, 7, 4, 5], 8), ([6, 7, 5, 4], 8), ([6, 7, 5, 5], 7), ([6, 7, 6, 7], 15),
   ([6, 7, 7, 6], 15), ([6, 8, 6, 8], 16), ([6, 8, 8, 6], 16)]

/-- The numbers of the values of `ctL4_7`. -/
def ctL4Codes_7 : List (List Nat × Nat) :=
  [([7, 0, 0, 7], 5), ([7, 0, 2, 4], 10), ([7, 0, 2, 5], 9), ([7, 0, 3, 4], 12),
   ([7, 0, 3, 5], 10), ([7, 0, 4, 2], 10), ([7, 0, 4, 3], 12), ([7, 0, 5, 2], 9),
   ([7, 0, 5, 3], 10), ([7, 0, 7, 0], 5), ([7, 1, 1, 7], 5), ([7, 1, 2, 4], 13),
   ([7, 1, 2, 5], 11), ([7, 1, 3, 4], 10), ([7, 1, 3, 5], 9), ([7, 1, 4, 2], 13),
   ([7, 1, 4, 3], 10), ([7, 1, 5, 2], 11), ([7, 1, 5, 3], 9), ([7, 1, 7, 1], 5),
   ([7, 2, 0, 4], 10), ([7, 2, 0, 5], 9), ([7, 2, 1, 4], 13), ([7, 2, 1, 5], 11),
   ([7, 2, 2, 7], 15), ([7, 2, 4, 0], 10), ([7, 2, 4, 1], 13), ([7, 2, 5, 0], 9),
   ([7, 2, 5, 1], 11), ([7, 2, 7, 2], 15), ([7, 3, 0, 4], 12), ([7, 3, 0, 5], 10),
   ([7, 3, 1, 4], 10), ([7, 3, 1, 5], 9), ([7, 3, 3, 7], 15), ([7, 3, 4, 0], 12),
   ([7, 3, 4, 1], 10), ([7, 3, 5, 0], 10), ([7, 3, 5, 1], 9), ([7, 3, 7, 3], 15),
   ([7, 4, 0, 2], 10), ([7, 4, 0, 3], 12), ([7, 4, 1, 2], 13), ([7, 4, 1, 3], 10),
   ([7, 4, 2, 0], 10), ([7, 4, 2, 1], 13), ([7, 4, 3, 0], 12), ([7, 4, 3, 1], 10),
   ([7, 4, 4, 6], 3), ([7, 4, 4, 7], 4), ([7, 4, 5, 6], 8), ([7, 4, 5, 7], 3), ([7, 4, 6, 4], 3),
   ([7, 4, 6, 5], 8), ([7, 4, 7, 4], 4), ([7, 4, 7, 5], 3), ([7, 5, 0, 2], 9), ([7, 5, 0, 3], 10),
   ([7, 5, 1, 2], 11), ([7, 5, 1, 3], 9), ([7, 5, 2, 0], 9), ([7, 5, 2, 1], 11),
   ([7, 5, 3, 0], 10), ([7, 5, 3, 1], 9), ([7, 5, 4, 6], 8), ([7, 5, 4, 7], 3), ([7, 5, 5, 6], 7),
   ([7, 5, 5, 7], 2), ([7, 5, 6, 4], 8), ([7, 5, 6, 5], 7), ([7, 5, 7, 4], 3), ([7, 5, 7, 5], 2),
   ([7, 6, 4, 4], 3), ([7, 6, 4, 5], 8), ([7, 6, 5, 4], 8), ([7, 6, 5, 5], 7), ([7, 6, 6, 7], 15),
   ([7, 6, 7, 6], 15), ([7, 7, 0, 0], 5), ([7, 7, 1, 1], 5), ([7, 7, 2, 2], 15),
   ([7, 7, 3, 3], 15), ([7, 7, 4, 4], 4), ([7, 7, 4, 5], 3), ([7, 7, 5, 4], 3), ([7, 7, 5, 5], 2),
   ([7, 7, 6, 6], 15), ([7, 7, 7, 7], 14), ([7, 7, 8, 8], 16), ([7, 8, 7, 8], 16),
   ([7, 8, 8, 7], 16)]

/-- The numbers of the values of `ctL4_8`. -/
def ctL4Codes_8 : List (List Nat × Nat) :=
  [([8, 0, 0, 8], 6), ([8, 0, 8, 0], 6), ([8, 1, 1, 8], 6), ([8, 1, 8, 1], 6), ([8, 2, 2, 8], 16),
   ([8, 2, 8, 2], 16), ([8, 3, 3, 8], 16), ([8, 3, 8, 3], 16), ([8, 4, 4, 8], 6),
   ([8, 4, 8, 4], 6), ([8, 5, 5, 8], 6), ([8, 5, 8, 5], 6), ([8, 6, 6, 8], 16),
   ([8, 6, 8, 6], 16), ([8, 7, 7, 8], 16), ([8, 7, 8, 7], 16), ([8, 8, 0, 0], 6),
   ([8, 8, 1, 1], 6), ([8, 8, 2, 2], 16), ([8, 8, 3, 3], 16), ([8, 8, 4, 4], 6),
   ([8, 8, 5, 5], 6), ([8, 8, 6, 6], 16), ([8, 8, 7, 7], 16), ([8, 8, 8, 8], 17)]

set_option maxRecDepth 10000 in
theorem ctL4_0_coded (c : CT K) : ctL4_0 c = coded (ctL4Value c) ctL4Codes_0 := rfl

set_option maxRecDepth 10000 in
theorem ctL4_1_coded (c : CT K) : ctL4_1 c = coded (ctL4Value c) ctL4Codes_1 := rfl

set_option maxRecDepth 10000 in
theorem ctL4_2_coded (c : CT K) : ctL4_2 c = coded (ctL4Value c) ctL4Codes_2 := rfl

set_option maxRecDepth 10000 in
theorem ctL4_3_coded (c : CT K) : ctL4_3 c = coded (ctL4Value c) ctL4Codes_3 := rfl

set_option maxRecDepth 10000 in
theorem ctL4_4_coded (c : CT K) : ctL4_4 c = coded (ctL4Value c) ctL4Codes_4 := rfl

set_option maxRecDepth 10000 in
theorem ctL4_5_coded (c : CT K) : ctL4_5 c = coded (ctL4Value c) ctL4Codes_5 := rfl

set_option maxRecDepth 10000 in
theorem ctL4_6_coded (c : CT K) : ctL4_6 c = coded (ctL4Value c) ctL4Codes_6 := rfl

set_option maxRecDepth 10000 in
theorem ctL4_7_coded (c : CT K) : ctL4_7 c = coded (ctL4Value c) ctL4Codes_7 := rfl

set_option maxRecDepth 10000 in
theorem ctL4_8_coded (c : CT K) : ctL4_8 c = coded (ctL4Value c) ctL4Codes_8 := rfl

/-- All numbers. -/
def ctL4Codes : List (List (List Nat × Nat)) :=
  [ctL4Codes_0, ctL4Codes_1, ctL4Codes_2, ctL4Codes_3, ctL4Codes_4, ctL4Codes_5, ctL4Codes_6,
   ctL4Codes_7, ctL4Codes_8]

theorem ctL4_symmetricBlocks : symmetricBlocks ctL4Codes swapFirst = true ∧
    symmetricBlocks ctL4Codes swapMid = true ∧ symmetricBlocks ctL4Codes swapLast = true := by
  decide +kernel

theorem ctL4_sym4 (c : CT K) : Sym4 9 (assign (ctL4 c) zeroTensor) :=
  sym4_blocks _ _ (ctL4_blocked c) (ctL4Value c) ctL4Codes (by
    rw [ctL4_0_coded, ctL4_1_coded, ctL4_2_coded, ctL4_3_coded, ctL4_4_coded, ctL4_5_coded,
      ctL4_6_coded, ctL4_7_coded, ctL4_8_coded]
    rfl) ctL4_symmetricBlocks.1 ctL4_symmetricBlocks.2.1
    ctL4_symmetricBlocks.2.2

end Verif.Lagrangian.CPintheDark
