import Verif.Lagrangian.Loop

/-!
# The model CP in the Dark

`Class_Potential_CPintheDark`, ClassPotentialCPintheDark.cpp: two doublets and a real singlet;
parameters, tensors and counterterms.  The entries of the tensors are transcribed statement by
statement.
-/

namespace Verif.Lagrangian.CPintheDark

open Verif.Potential

variable {K : Type} [Field K]

/-- The parameters of the tree-level potential, read by `set_gen` from `par[0]` to `par[12]`,
ClassPotentialCPintheDark.cpp:243-259. -/
structure Par (K : Type) where
  m11s : K
  m22s : K
  mSs : K
  ReA : K
  ImA : K
  L1 : K
  L2 : K
  L3 : K
  L4 : K
  L5 : K
  L6 : K
  L7 : K
  L8 : K

/-- The counterterm parameters in the order of `par` of `set_CT_Pot_Par`,
ClassPotentialCPintheDark.cpp:284-302. -/
structure CT (K : Type) where
  dm11s : K
  dm22s : K
  dmSs : K
  dReA : K
  dImA : K
  dL1 : K
  dL2 : K
  dL3 : K
  dL4 : K
  dL5 : K
  dL6 : K
  dL7 : K
  dL8 : K
  dTCB : K
  dT1 : K
  dT2 : K
  dTCP : K
  dTS : K
  dImL5 : K

/-- `vevTree`: the doublet `Φ₁` has the vacuum expectation value `v1`,
ClassPotentialCPintheDark.cpp:262-275. -/
def vevTree (v1 : K) : FVec 9 K := ![0, 0, 0, 0, v1, 0, 0, 0, 0]

/-- `Curvature_Higgs_L2`, ClassPotentialCPintheDark.cpp:1469-1477. -/
def l2 (p : Par K) : Assign K :=
  [([0, 0], p.m11s), ([1, 1], p.m11s), ([2, 2], p.m22s), ([3, 3], p.m22s), ([4, 4], p.m11s),
   ([5, 5], p.m11s), ([6, 6], p.m22s), ([7, 7], p.m22s), ([8, 8], p.mSs)]

/-- `Curvature_Higgs_L3`, ClassPotentialCPintheDark.cpp:1479-1526. -/
def l3 (p : Par K) : Assign K :=
  [([0, 2, 8], p.ReA), ([0, 3, 8], -p.ImA), ([0, 8, 2], p.ReA), ([0, 8, 3], -p.ImA),
   ([1, 2, 8], p.ImA), ([1, 3, 8], p.ReA), ([1, 8, 2], p.ImA), ([1, 8, 3], p.ReA),
   ([2, 0, 8], p.ReA), ([2, 1, 8], p.ImA), ([2, 8, 0], p.ReA), ([2, 8, 1], p.ImA),
   ([3, 0, 8], -p.ImA), ([3, 1, 8], p.ReA), ([3, 8, 0], -p.ImA), ([3, 8, 1], p.ReA),
   ([4, 6, 8], p.ReA), ([4, 7, 8], -p.ImA), ([4, 8, 6], p.ReA), ([4, 8, 7], -p.ImA),
   ([5, 6, 8], p.ImA), ([5, 7, 8], p.ReA), ([5, 8, 6], p.ImA), ([5, 8, 7], p.ReA),
   ([6, 4, 8], p.ReA), ([6, 5, 8], p.ImA), ([6, 8, 4], p.ReA), ([6, 8, 5], p.ImA),
   ([7, 4, 8], -p.ImA), ([7, 5, 8], p.ReA), ([7, 8, 4], -p.ImA), ([7, 8, 5], p.ReA),
   ([8, 0, 2], p.ReA), ([8, 0, 3], -p.ImA), ([8, 1, 2], p.ImA), ([8, 1, 3], p.ReA),
   ([8, 2, 0], p.ReA), ([8, 2, 1], p.ImA), ([8, 3, 0], -p.ImA), ([8, 3, 1], p.ReA),
   ([8, 4, 6], p.ReA), ([8, 4, 7], -p.ImA), ([8, 5, 6], p.ImA), ([8, 5, 7], p.ReA),
   ([8, 6, 4], p.ReA), ([8, 6, 5], p.ImA), ([8, 7, 4], -p.ImA), ([8, 7, 5], p.ReA)]

/-- `Curvature_Higgs_L4`, ClassPotentialCPintheDark.cpp:1528-1582. First index 0. -/
def l4_0 (p : Par K) : Assign K :=
  [([0, 0, 0, 0], 3 * p.L1), ([0, 0, 1, 1], p.L1), ([0, 0, 2, 2], p.L3 + p.L4 + p.L5),
   ([0, 0, 3, 3], p.L3 + p.L4 - p.L5), ([0, 0, 4, 4], p.L1), ([0, 0, 5, 5], p.L1),
   ([0, 0, 6, 6], p.L3), ([0, 0, 7, 7], p.L3), ([0, 0, 8, 8], p.L7), ([0, 1, 0, 1], p.L1),
   ([0, 1, 1, 0], p.L1), ([0, 1, 2, 3], p.L5), ([0, 1, 3, 2], p.L5),
   ([0, 2, 0, 2], p.L3 + p.L4 + p.L5), ([0, 2, 1, 3], p.L5), ([0, 2, 2, 0], p.L3 + p.L4 + p.L5),
   ([0, 2, 3, 1], p.L5), ([0, 2, 4, 6], p.L4 / 2 + p.L5 / 2), ([0, 2, 5, 7], p.L4 / 2 + p.L5 / 2),
   ([0, 2, 6, 4], p.L4 / 2 + p.L5 / 2), ([0, 2, 7, 5], p.L4 / 2 + p.L5 / 2),
   ([0, 3, 0, 3], p.L3 + p.L4 - p.L5), ([0, 3, 1, 2], p.L5), ([0, 3, 2, 1], p.L5),
   ([0, 3, 3, 0], p.L3 + p.L4 - p.L5), ([0, 3, 4, 7], p.L4 / 2 - p.L5 / 2),
   ([0, 3, 5, 6], -p.L4 / 2 + p.L5 / 2), ([0, 3, 6, 5], -p.L4 / 2 + p.L5 / 2),
   ([0, 3, 7, 4], p.L4 / 2 - p.L5 / 2), ([0, 4, 0, 4], p.L1), ([0, 4, 2, 6], p.L4 / 2 + p.L5 / 2),
   ([0, 4, 3, 7], p.L4 / 2 - p.L5 / 2), ([0, 4, 4, 0], p.L1), ([0, 4, 6, 2], p.L4 / 2 + p.L5 / 2),
   ([0, 4, 7, 3], p.L4 / 2 - p.L5 / 2), ([0, 5, 0, 5], p.L1), ([0, 5, 2, 7], p.L4 / 2 + p.L5 / 2),
   ([0, 5, 3, 6], -p.L4 / 2 + p.L5 / 2), ([0, 5, 5, 0], p.L1),
   ([0, 5, 6, 3], -p.L4 / 2 + p.L5 / 2), ([0, 5, 7, 2], p.L4 / 2 + p.L5 / 2),
   ([0, 6, 0, 6], p.L3), ([0, 6, 2, 4], p.L4 / 2 + p.L5 / 2),
   ([0, 6, 3, 5], -p.L4 / 2 + p.L5 / 2), ([0, 6, 4, 2], p.L4 / 2 + p.L5 / 2),
   ([0, 6, 5, 3], -p.L4 / 2 + p.L5 / 2), ([0, 6, 6, 0], p.L3), ([0, 7, 0, 7], p.L3),
   ([0, 7, 2, 5], p.L4 / 2 + p.L5 / 2), ([0, 7, 3, 4], p.L4 / 2 - p.L5 / 2),
   ([0, 7, 4, 3], p.L4 / 2 - p.L5 / 2), ([0, 7, 5, 2], p.L4 / 2 + p.L5 / 2), ([0, 7, 7, 0], p.L3),
   ([0, 8, 0, 8], p.L7), ([0, 8, 8, 0], p.L7)]

/-- `Curvature_Higgs_L4`, ClassPotentialCPintheDark.cpp:1583-1637. First index 1. -/
def l4_1 (p : Par K) : Assign K :=
  [([1, 0, 0, 1], p.L1), ([1, 0, 1, 0], p.L1), ([1, 0, 2, 3], p.L5), ([1, 0, 3, 2], p.L5),
   ([1, 1, 0, 0], p.L1), ([1, 1, 1, 1], 3 * p.L1), ([1, 1, 2, 2], p.L3 + p.L4 - p.L5),
   ([1, 1, 3, 3], p.L3 + p.L4 + p.L5), ([1, 1, 4, 4], p.L1), ([1, 1, 5, 5], p.L1),
   ([1, 1, 6, 6], p.L3), ([1, 1, 7, 7], p.L3), ([1, 1, 8, 8], p.L7), ([1, 2, 0, 3], p.L5),
   ([1, 2, 1, 2], p.L3 + p.L4 - p.L5), ([1, 2, 2, 1], p.L3 + p.L4 - p.L5), ([1, 2, 3, 0], p.L5),
   ([1, 2, 4, 7], -p.L4 / 2 + p.L5 / 2), ([1, 2, 5, 6], p.L4 / 2 - p.L5 / 2),
   ([1, 2, 6, 5], p.L4 / 2 - p.L5 / 2), ([1, 2, 7, 4], -p.L4 / 2 + p.L5 / 2),
   ([1, 3, 0, 2], p.L5), ([1, 3, 1, 3], p.L3 + p.L4 + p.L5), ([1, 3, 2, 0], p.L5),
   ([1, 3, 3, 1], p.L3 + p.L4 + p.L5), ([1, 3, 4, 6], p.L4 / 2 + p.L5 / 2),
   ([1, 3, 5, 7], p.L4 / 2 + p.L5 / 2), ([1, 3, 6, 4], p.L4 / 2 + p.L5 / 2),
   ([1, 3, 7, 5], p.L4 / 2 + p.L5 / 2), ([1, 4, 1, 4], p.L1),
   ([1, 4, 2, 7], -p.L4 / 2 + p.L5 / 2), ([1, 4, 3, 6], p.L4 / 2 + p.L5 / 2),
   ([1, 4, 4, 1], p.L1), ([1, 4, 6, 3], p.L4 / 2 + p.L5 / 2),
   ([1, 4, 7, 2], -p.L4 / 2 + p.L5 / 2), ([1, 5, 1, 5], p.L1),
   ([1, 5, 2, 6], p.L4 / 2 - p.L5 / 2), ([1, 5, 3, 7], p.L4 / 2 + p.L5 / 2), ([1, 5, 5, 1], p.L1),
   ([1, 5, 6, 2], p.L4 / 2 - p.L5 / 2), ([1, 5, 7, 3], p.L4 / 2 + p.L5 / 2), ([1, 6, 1, 6], p.L3),
   ([1, 6, 2, 5], p.L4 / 2 - p.L5 / 2), ([1, 6, 3, 4], p.L4 / 2 + p.L5 / 2),
   ([1, 6, 4, 3], p.L4 / 2 + p.L5 / 2), ([1, 6, 5, 2], p.L4 / 2 - p.L5 / 2), ([1, 6, 6, 1], p.L3),
   ([1, 7, 1, 7], p.L3), ([1, 7, 2, 4], -p.L4 / 2 + p.L5 / 2),
   ([1, 7, 3, 5], p.L4 / 2 + p.L5 / 2), ([1, 7, 4, 2], -p.L4 / 2 + p.L5 / 2),
   ([1, 7, 5, 3], p.L4 / 2 + p.L5 / 2), ([1, 7, 7, 1], p.L3), ([1, 8, 1, 8], p.L7),
   ([1, 8, 8, 1], p.L7)]

/-- `Curvature_Higgs_L4`, ClassPotentialCPintheDark.cpp:1638-1692. First index 2. -/
def l4_2 (p : Par K) : Assign K :=
  [([2, 0, 0, 2], p.L3 + p.L4 + p.L5), ([2, 0, 1, 3], p.L5), ([2, 0, 2, 0], p.L3 + p.L4 + p.L5),
   ([2, 0, 3, 1], p.L5), ([2, 0, 4, 6], p.L4 / 2 + p.L5 / 2), ([2, 0, 5, 7], p.L4 / 2 + p.L5 / 2),
   ([2, 0, 6, 4], p.L4 / 2 + p.L5 / 2), ([2, 0, 7, 5], p.L4 / 2 + p.L5 / 2), ([2, 1, 0, 3], p.L5),
   ([2, 1, 1, 2], p.L3 + p.L4 - p.L5), ([2, 1, 2, 1], p.L3 + p.L4 - p.L5), ([2, 1, 3, 0], p.L5),
   ([2, 1, 4, 7], -p.L4 / 2 + p.L5 / 2), ([2, 1, 5, 6], p.L4 / 2 - p.L5 / 2),
   ([2, 1, 6, 5], p.L4 / 2 - p.L5 / 2), ([2, 1, 7, 4], -p.L4 / 2 + p.L5 / 2),
   ([2, 2, 0, 0], p.L3 + p.L4 + p.L5), ([2, 2, 1, 1], p.L3 + p.L4 - p.L5),
   ([2, 2, 2, 2], 3 * p.L2), ([2, 2, 3, 3], p.L2), ([2, 2, 4, 4], p.L3), ([2, 2, 5, 5], p.L3),
   ([2, 2, 6, 6], p.L2), ([2, 2, 7, 7], p.L2), ([2, 2, 8, 8], p.L8), ([2, 3, 0, 1], p.L5),
   ([2, 3, 1, 0], p.L5), ([2, 3, 2, 3], p.L2), ([2, 3, 3, 2], p.L2),
   ([2, 4, 0, 6], p.L4 / 2 + p.L5 / 2), ([2, 4, 1, 7], -p.L4 / 2 + p.L5 / 2),
   ([2, 4, 2, 4], p.L3), ([2, 4, 4, 2], p.L3), ([2, 4, 6, 0], p.L4 / 2 + p.L5 / 2),
   ([2, 4, 7, 1], -p.L4 / 2 + p.L5 / 2), ([2, 5, 0, 7], p.L4 / 2 + p.L5 / 2),
   ([2, 5, 1, 6], p.L4 / 2 - p.L5 / 2), ([2, 5, 2, 5], p.L3), ([2, 5, 5, 2], p.L3),
   ([2, 5, 6, 1], p.L4 / 2 - p.L5 / 2), ([2, 5, 7, 0], p.L4 / 2 + p.L5 / 2),
   ([2, 6, 0, 4], p.L4 / 2 + p.L5 / 2), ([2, 6, 1, 5], p.L4 / 2 - p.L5 / 2), ([2, 6, 2, 6], p.L2),
   ([2, 6, 4, 0], p.L4 / 2 + p.L5 / 2), ([2, 6, 5, 1], p.L4 / 2 - p.L5 / 2), ([2, 6, 6, 2], p.L2),
   ([2, 7, 0, 5], p.L4 / 2 + p.L5 / 2), ([2, 7, 1, 4], -p.L4 / 2 + p.L5 / 2),
   ([2, 7, 2, 7], p.L2), ([2, 7, 4, 1], -p.L4 / 2 + p.L5 / 2),
   ([2, 7, 5, 0], p.L4 / 2 + p.L5 / 2), ([2, 7, 7, 2], p.L2), ([2, 8, 2, 8], p.L8),
   ([2, 8, 8, 2], p.L8)]

/-- `Curvature_Higgs_L4`, ClassPotentialCPintheDark.cpp:1693-1747. First index 3. -/
def l4_3 (p : Par K) : Assign K :=
  [([3, 0, 0, 3], p.L3 + p.L4 - p.L5), ([3, 0, 1, 2], p.L5), ([3, 0, 2, 1], p.L5),
   ([3, 0, 3, 0], p.L3 + p.L4 - p.L5), ([3, 0, 4, 7], p.L4 / 2 - p.L5 / 2),
   ([3, 0, 5, 6], -p.L4 / 2 + p.L5 / 2), ([3, 0, 6, 5], -p.L4 / 2 + p.L5 / 2),
   ([3, 0, 7, 4], p.L4 / 2 - p.L5 / 2), ([3, 1, 0, 2], p.L5), ([3, 1, 1, 3], p.L3 + p.L4 + p.L5),
   ([3, 1, 2, 0], p.L5), ([3, 1, 3, 1], p.L3 + p.L4 + p.L5), ([3, 1, 4, 6], p.L4 / 2 + p.L5 / 2),
   ([3, 1, 5, 7], p.L4 / 2 + p.L5 / 2), ([3, 1, 6, 4], p.L4 / 2 + p.L5 / 2),
   ([3, 1, 7, 5], p.L4 / 2 + p.L5 / 2), ([3, 2, 0, 1], p.L5), ([3, 2, 1, 0], p.L5),
   ([3, 2, 2, 3], p.L2), ([3, 2, 3, 2], p.L2), ([3, 3, 0, 0], p.L3 + p.L4 - p.L5),
   ([3, 3, 1, 1], p.L3 + p.L4 + p.L5), ([3, 3, 2, 2], p.L2), ([3, 3, 3, 3], 3 * p.L2),
   ([3, 3, 4, 4], p.L3), ([3, 3, 5, 5], p.L3), ([3, 3, 6, 6], p.L2), ([3, 3, 7, 7], p.L2),
   ([3, 3, 8, 8], p.L8), ([3, 4, 0, 7], p.L4 / 2 - p.L5 / 2), ([3, 4, 1, 6], p.L4 / 2 + p.L5 / 2),
   ([3, 4, 3, 4], p.L3), ([3, 4, 4, 3], p.L3), ([3, 4, 6, 1], p.L4 / 2 + p.L5 / 2),
   ([3, 4, 7, 0], p.L4 / 2 - p.L5 / 2), ([3, 5, 0, 6], -p.L4 / 2 + p.L5 / 2),
   ([3, 5, 1, 7], p.L4 / 2 + p.L5 / 2), ([3, 5, 3, 5], p.L3), ([3, 5, 5, 3], p.L3),
   ([3, 5, 6, 0], -p.L4 / 2 + p.L5 / 2), ([3, 5, 7, 1], p.L4 / 2 + p.L5 / 2),
   ([3, 6, 0, 5], -p.L4 / 2 + p.L5 / 2), ([3, 6, 1, 4], p.L4 / 2 + p.L5 / 2),
   ([3, 6, 3, 6], p.L2), ([3, 6, 4, 1], p.L4 / 2 + p.L5 / 2),
   ([3, 6, 5, 0], -p.L4 / 2 + p.L5 / 2), ([3, 6, 6, 3], p.L2),
   ([3, 7, 0, 4], p.L4 / 2 - p.L5 / 2), ([3, 7, 1, 5], p.L4 / 2 + p.L5 / 2), ([3, 7, 3, 7], p.L2),
   ([3, 7, 4, 0], p.L4 / 2 - p.L5 / 2), ([3, 7, 5, 1], p.L4 / 2 + p.L5 / 2), ([3, 7, 7, 3], p.L2),
   ([3, 8, 3, 8], p.L8), ([3, 8, 8, 3], p.L8)]

/-- `Curvature_Higgs_L4`, ClassPotentialCPintheDark.cpp:1748-1802. First index 4. -/
def l4_4 (p : Par K) : Assign K :=
  [([4, 0, 0, 4], p.L1), ([4, 0, 2, 6], p.L4 / 2 + p.L5 / 2), ([4, 0, 3, 7], p.L4 / 2 - p.L5 / 2),
   ([4, 0, 4, 0], p.L1), ([4, 0, 6, 2], p.L4 / 2 + p.L5 / 2), ([4, 0, 7, 3], p.L4 / 2 - p.L5 / 2),
   ([4, 1, 1, 4], p.L1), ([4, 1, 2, 7], -p.L4 / 2 + p.L5 / 2),
   ([4, 1, 3, 6], p.L4 / 2 + p.L5 / 2), ([4, 1, 4, 1], p.L1), ([4, 1, 6, 3], p.L4 / 2 + p.L5 / 2),
   ([4, 1, 7, 2], -p.L4 / 2 + p.L5 / 2), ([4, 2, 0, 6], p.L4 / 2 + p.L5 / 2),
   ([4, 2, 1, 7], -p.L4 / 2 + p.L5 / 2), ([4, 2, 2, 4], p.L3), ([4, 2, 4, 2], p.L3),
   ([4, 2, 6, 0], p.L4 / 2 + p.L5 / 2), ([4, 2, 7, 1], -p.L4 / 2 + p.L5 / 2),
   ([4, 3, 0, 7], p.L4 / 2 - p.L5 / 2), ([4, 3, 1, 6], p.L4 / 2 + p.L5 / 2), ([4, 3, 3, 4], p.L3),
   ([4, 3, 4, 3], p.L3), ([4, 3, 6, 1], p.L4 / 2 + p.L5 / 2), ([4, 3, 7, 0], p.L4 / 2 - p.L5 / 2),
   ([4, 4, 0, 0], p.L1), ([4, 4, 1, 1], p.L1), ([4, 4, 2, 2], p.L3), ([4, 4, 3, 3], p.L3),
   ([4, 4, 4, 4], 3 * p.L1), ([4, 4, 5, 5], p.L1), ([4, 4, 6, 6], p.L3 + p.L4 + p.L5),
   ([4, 4, 7, 7], p.L3 + p.L4 - p.L5), ([4, 4, 8, 8], p.L7), ([4, 5, 4, 5], p.L1),
   ([4, 5, 5, 4], p.L1), ([4, 5, 6, 7], p.L5), ([4, 5, 7, 6], p.L5),
   ([4, 6, 0, 2], p.L4 / 2 + p.L5 / 2), ([4, 6, 1, 3], p.L4 / 2 + p.L5 / 2),
   ([4, 6, 2, 0], p.L4 / 2 + p.L5 / 2), ([4, 6, 3, 1], p.L4 / 2 + p.L5 / 2),
   ([4, 6, 4, 6], p.L3 + p.L4 + p.L5), ([4, 6, 5, 7], p.L5), ([4, 6, 6, 4], p.L3 + p.L4 + p.L5),
   ([4, 6, 7, 5], p.L5), ([4, 7, 0, 3], p.L4 / 2 - p.L5 / 2),
   ([4, 7, 1, 2], -p.L4 / 2 + p.L5 / 2), ([4, 7, 2, 1], -p.L4 / 2 + p.L5 / 2),
   ([4, 7, 3, 0], p.L4 / 2 - p.L5 / 2), ([4, 7, 4, 7], p.L3 + p.L4 - p.L5), ([4, 7, 5, 6], p.L5),
   ([4, 7, 6, 5], p.L5), ([4, 7, 7, 4], p.L3 + p.L4 - p.L5), ([4, 8, 4, 8], p.L7),
   ([4, 8, 8, 4], p.L7)]

/-- `Curvature_Higgs_L4`, ClassPotentialCPintheDark.cpp:1803-1857. First index 5. -/
def l4_5 (p : Par K) : Assign K :=
  [([5, 0, 0, 5], p.L1), ([5, 0, 2, 7], p.L4 / 2 + p.L5 / 2),
   ([5, 0, 3, 6], -p.L4 / 2 + p.L5 / 2), ([5, 0, 5, 0], p.L1),
   ([5, 0, 6, 3], -p.L4 / 2 + p.L5 / 2), ([5, 0, 7, 2], p.L4 / 2 + p.L5 / 2),
   ([5, 1, 1, 5], p.L1), ([5, 1, 2, 6], p.L4 / 2 - p.L5 / 2), ([5, 1, 3, 7], p.L4 / 2 + p.L5 / 2),
   ([5, 1, 5, 1], p.L1), ([5, 1, 6, 2], p.L4 / 2 - p.L5 / 2), ([5, 1, 7, 3], p.L4 / 2 + p.L5 / 2),
   ([5, 2, 0, 7], p.L4 / 2 + p.L5 / 2), ([5, 2, 1, 6], p.L4 / 2 - p.L5 / 2), ([5, 2, 2, 5], p.L3),
   ([5, 2, 5, 2], p.L3), ([5, 2, 6, 1], p.L4 / 2 - p.L5 / 2), ([5, 2, 7, 0], p.L4 / 2 + p.L5 / 2),
   ([5, 3, 0, 6], -p.L4 / 2 + p.L5 / 2), ([5, 3, 1, 7], p.L4 / 2 + p.L5 / 2),
   ([5, 3, 3, 5], p.L3), ([5, 3, 5, 3], p.L3), ([5, 3, 6, 0], -p.L4 / 2 + p.L5 / 2),
   ([5, 3, 7, 1], p.L4 / 2 + p.L5 / 2), ([5, 4, 4, 5], p.L1), ([5, 4, 5, 4], p.L1),
   ([5, 4, 6, 7], p.L5), ([5, 4, 7, 6], p.L5), ([5, 5, 0, 0], p.L1), ([5, 5, 1, 1], p.L1),
   ([5, 5, 2, 2], p.L3), ([5, 5, 3, 3], p.L3), ([5, 5, 4, 4], p.L1), ([5, 5, 5, 5], 3 * p.L1),
   ([5, 5, 6, 6], p.L3 + p.L4 - p.L5), ([5, 5, 7, 7], p.L3 + p.L4 + p.L5), ([5, 5, 8, 8], p.L7),
   ([5, 6, 0, 3], -p.L4 / 2 + p.L5 / 2), ([5, 6, 1, 2], p.L4 / 2 - p.L5 / 2),
   ([5, 6, 2, 1], p.L4 / 2 - p.L5 / 2), ([5, 6, 3, 0], -p.L4 / 2 + p.L5 / 2),
   ([5, 6, 4, 7], p.L5), ([5, 6, 5, 6], p.L3 + p.L4 - p.L5), ([5, 6, 6, 5], p.L3 + p.L4 - p.L5),
   ([5, 6, 7, 4], p.L5), ([5, 7, 0, 2], p.L4 / 2 + p.L5 / 2), ([5, 7, 1, 3], p.L4 / 2 + p.L5 / 2),
   ([5, 7, 2, 0], p.L4 / 2 + p.L5 / 2), ([5, 7, 3, 1], p.L4 / 2 + p.L5 / 2), ([5, 7, 4, 6], p.L5),
   ([5, 7, 5, 7], p.L3 + p.L4 + p.L5), ([5, 7, 6, 4], p.L5), ([5, 7, 7, 5], p.L3 + p.L4 + p.L5),
   ([5, 8, 5, 8], p.L7), ([5, 8, 8, 5], p.L7)]

/-- `Curvature_Higgs_L4`, ClassPotentialCPintheDark.cpp:1858-1912. First index 6. -/
def l4_6 (p : Par K) : Assign K :=
  [([6, 0, 0, 6], p.L3), ([6, 0, 2, 4], p.L4 / 2 + p.L5 / 2),
   ([6, 0, 3, 5], -p.L4 / 2 + p.L5 / 2), ([6, 0, 4, 2], p.L4 / 2 + p.L5 / 2),
   ([6, 0, 5, 3], -p.L4 / 2 + p.L5 / 2), ([6, 0, 6, 0], p.L3), ([6, 1, 1, 6], p.L3),
   ([6, 1, 2, 5], p.L4 / 2 - p.L5 / 2), ([6, 1, 3, 4], p.L4 / 2 + p.L5 / 2),
   ([6, 1, 4, 3], p.L4 / 2 + p.L5 / 2), ([6, 1, 5, 2], p.L4 / 2 - p.L5 / 2), ([6, 1, 6, 1], p.L3),
   ([6, 2, 0, 4], p.L4 / 2 + p.L5 / 2), ([6, 2, 1, 5], p.L4 / 2 - p.L5 / 2), ([6, 2, 2, 6], p.L2),
   ([6, 2, 4, 0], p.L4 / 2 + p.L5 / 2), ([6, 2, 5, 1], p.L4 / 2 - p.L5 / 2), ([6, 2, 6, 2], p.L2),
   ([6, 3, 0, 5], -p.L4 / 2 + p.L5 / 2), ([6, 3, 1, 4], p.L4 / 2 + p.L5 / 2),
   ([6, 3, 3, 6], p.L2), ([6, 3, 4, 1], p.L4 / 2 + p.L5 / 2),
   ([6, 3, 5, 0], -p.L4 / 2 + p.L5 / 2), ([6, 3, 6, 3], p.L2),
   ([6, 4, 0, 2], p.L4 / 2 + p.L5 / 2), ([6, 4, 1, 3], p.L4 / 2 + p.L5 / 2),
   ([6, 4, 2, 0], p.L4 / 2 + p.L5 / 2), ([6, 4, 3, 1], p.L4 / 2 + p.L5 / 2),
   ([6, 4, 4, 6], p.L3 + p.L4 + p.L5), ([6, 4, 5, 7], p.L5), ([6, 4, 6, 4], p.L3 + p.L4 + p.L5),
   ([6, 4, 7, 5], p.L5), ([6, 5, 0, 3], -p.L4 / 2 + p.L5 / 2),
   ([6, 5, 1, 2], p.L4 / 2 - p.L5 / 2), ([6, 5, 2, 1], p.L4 / 2 - p.L5 / 2),
   ([6, 5, 3, 0], -p.L4 / 2 + p.L5 / 2), ([6, 5, 4, 7], p.L5), ([6, 5, 5, 6], p.L3 + p.L4 - p.L5),
   ([6, 5, 6, 5], p.L3 + p.L4 - p.L5), ([6, 5, 7, 4], p.L5), ([6, 6, 0, 0], p.L3),
   ([6, 6, 1, 1], p.L3), ([6, 6, 2, 2], p.L2), ([6, 6, 3, 3], p.L2),
   ([6, 6, 4, 4], p.L3 + p.L4 + p.L5), ([6, 6, 5, 5], p.L3 + p.L4 - p.L5),
   ([6, 6, 6, 6], 3 * p.L2), ([6, 6, 7, 7], p.L2), ([6, 6, 8, 8], p.L8), ([6, 7, 4, 5], p.L5),
   ([6, 7, 5, 4], p.L5), ([6, 7, 6, 7], p.L2), ([6, 7, 7, 6], p.L2), ([6, 8, 6, 8], p.L8),
   ([6, 8, 8, 6], p.L8)]

/-- `Curvature_Higgs_L4`, ClassPotentialCPintheDark.cpp:1913-1967. First index 7. -/
def l4_7 (p : Par K) : Assign K :=
  [([7, 0, 0, 7], p.L3), ([7, 0, 2, 5], p.L4 / 2 + p.L5 / 2), ([7, 0, 3, 4], p.L4 / 2 - p.L5 / 2),
   ([7, 0, 4, 3], p.L4 / 2 - p.L5 / 2), ([7, 0, 5, 2], p.L4 / 2 + p.L5 / 2), ([7, 0, 7, 0], p.L3),
   ([7, 1, 1, 7], p.L3), ([7, 1, 2, 4], -p.L4 / 2 + p.L5 / 2),
   ([7, 1, 3, 5], p.L4 / 2 + p.L5 / 2), ([7, 1, 4, 2], -p.L4 / 2 + p.L5 / 2),
   ([7, 1, 5, 3], p.L4 / 2 + p.L5 / 2), ([7, 1, 7, 1], p.L3), ([7, 2, 0, 5], p.L4 / 2 + p.L5 / 2),
   ([7, 2, 1, 4], -p.L4 / 2 + p.L5 / 2), ([7, 2, 2, 7], p.L2),
   ([7, 2, 4, 1], -p.L4 / 2 + p.L5 / 2), ([7, 2, 5, 0], p.L4 / 2 + p.L5 / 2),
   ([7, 2, 7, 2], p.L2), ([7, 3, 0, 4], p.L4 / 2 - p.L5 / 2), ([7, 3, 1, 5], p.L4 / 2 + p.L5 / 2),
   ([7, 3, 3, 7], p.L2), ([7, 3, 4, 0], p.L4 / 2 - p.L5 / 2), ([7, 3, 5, 1], p.L4 / 2 + p.L5 / 2),
   ([7, 3, 7, 3], p.L2), ([7, 4, 0, 3], p.L4 / 2 - p.L5 / 2),
   ([7, 4, 1, 2], -p.L4 / 2 + p.L5 / 2), ([7, 4, 2, 1], -p.L4 / 2 + p.L5 / 2),
   ([7, 4, 3, 0], p.L4 / 2 - p.L5 / 2), ([7, 4, 4, 7], p.L3 + p.L4 - p.L5), ([7, 4, 5, 6], p.L5),
   ([7, 4, 6, 5], p.L5), ([7, 4, 7, 4], p.L3 + p.L4 - p.L5), ([7, 5, 0, 2], p.L4 / 2 + p.L5 / 2),
   ([7, 5, 1, 3], p.L4 / 2 + p.L5 / 2), ([7, 5, 2, 0], p.L4 / 2 + p.L5 / 2),
   ([7, 5, 3, 1], p.L4 / 2 + p.L5 / 2), ([7, 5, 4, 6], p.L5), ([7, 5, 5, 7], p.L3 + p.L4 + p.L5),
   ([7, 5, 6, 4], p.L5), ([7, 5, 7, 5], p.L3 + p.L4 + p.L5), ([7, 6, 4, 5], p.L5),
   ([7, 6, 5, 4], p.L5), ([7, 6, 6, 7], p.L2), ([7, 6, 7, 6], p.L2), ([7, 7, 0, 0], p.L3),
   ([7, 7, 1, 1], p.L3), ([7, 7, 2, 2], p.L2), ([7, 7, 3, 3], p.L2),
   ([7, 7, 4, 4], p.L3 + p.L4 - p.L5), ([7, 7, 5, 5], p.L3 + p.L4 + p.L5), ([7, 7, 6, 6], p.L2),
   ([7, 7, 7, 7], 3 * p.L2), ([7, 7, 8, 8], p.L8), ([7, 8, 7, 8], p.L8), ([7, 8, 8, 7], p.L8)]

/-- `Curvature_Higgs_L4`, ClassPotentialCPintheDark.cpp:1968-1992. First index 8. -/
def l4_8 (p : Par K) : Assign K :=
  [([8, 0, 0, 8], p.L7), ([8, 0, 8, 0], p.L7), ([8, 1, 1, 8], p.L7), ([8, 1, 8, 1], p.L7),
   ([8, 2, 2, 8], p.L8), ([8, 2, 8, 2], p.L8), ([8, 3, 3, 8], p.L8), ([8, 3, 8, 3], p.L8),
   ([8, 4, 4, 8], p.L7), ([8, 4, 8, 4], p.L7), ([8, 5, 5, 8], p.L7), ([8, 5, 8, 5], p.L7),
   ([8, 6, 6, 8], p.L8), ([8, 6, 8, 6], p.L8), ([8, 7, 7, 8], p.L8), ([8, 7, 8, 7], p.L8),
   ([8, 8, 0, 0], p.L7), ([8, 8, 1, 1], p.L7), ([8, 8, 2, 2], p.L8), ([8, 8, 3, 3], p.L8),
   ([8, 8, 4, 4], p.L7), ([8, 8, 5, 5], p.L7), ([8, 8, 6, 6], p.L8), ([8, 8, 7, 7], p.L8),
   ([8, 8, 8, 8], 6 * p.L6)]

/-- `Curvature_Higgs_L4`, ClassPotentialCPintheDark.cpp:1528-1992. -/
def l4 (p : Par K) : Assign K :=
  [l4_0 p, l4_1 p, l4_2 p, l4_3 p, l4_4 p, l4_5 p, l4_6 p, l4_7 p, l4_8 p].flatten

/-- `Curvature_Higgs_CT_L1`, ClassPotentialCPintheDark.cpp:307-311. -/
def ctL1 (c : CT K) : Assign K :=
  [([2], c.dTCB), ([4], c.dT1), ([6], c.dT2), ([7], c.dTCP), ([8], c.dTS)]

/-- `Curvature_Higgs_CT_L2`, ClassPotentialCPintheDark.cpp:313-321. -/
def ctL2 (c : CT K) : Assign K :=
  [([0, 0], c.dm11s), ([1, 1], c.dm11s), ([2, 2], c.dm22s), ([3, 3], c.dm22s), ([4, 4], c.dm11s),
   ([5, 5], c.dm11s), ([6, 6], c.dm22s), ([7, 7], c.dm22s), ([8, 8], c.dmSs)]

/-- `Curvature_Higgs_CT_L3`, ClassPotentialCPintheDark.cpp:323-370. -/
def ctL3 (c : CT K) : Assign K :=
  [([0, 2, 8], c.dReA), ([0, 3, 8], -c.dImA), ([0, 8, 2], c.dReA), ([0, 8, 3], -c.dImA),
   ([1, 2, 8], c.dImA), ([1, 3, 8], c.dReA), ([1, 8, 2], c.dImA), ([1, 8, 3], c.dReA),
   ([2, 0, 8], c.dReA), ([2, 1, 8], c.dImA), ([2, 8, 0], c.dReA), ([2, 8, 1], c.dImA),
   ([3, 0, 8], -c.dImA), ([3, 1, 8], c.dReA), ([3, 8, 0], -c.dImA), ([3, 8, 1], c.dReA),
   ([4, 6, 8], c.dReA), ([4, 7, 8], -c.dImA), ([4, 8, 6], c.dReA), ([4, 8, 7], -c.dImA),
   ([5, 6, 8], c.dImA), ([5, 7, 8], c.dReA), ([5, 8, 6], c.dImA), ([5, 8, 7], c.dReA),
   ([6, 4, 8], c.dReA), ([6, 5, 8], c.dImA), ([6, 8, 4], c.dReA), ([6, 8, 5], c.dImA),
   ([7, 4, 8], -c.dImA), ([7, 5, 8], c.dReA), ([7, 8, 4], -c.dImA), ([7, 8, 5], c.dReA),
   ([8, 0, 2], c.dReA), ([8, 0, 3], -c.dImA), ([8, 1, 2], c.dImA), ([8, 1, 3], c.dReA),
   ([8, 2, 0], c.dReA), ([8, 2, 1], c.dImA), ([8, 3, 0], -c.dImA), ([8, 3, 1], c.dReA),
   ([8, 4, 6], c.dReA), ([8, 4, 7], -c.dImA), ([8, 5, 6], c.dImA), ([8, 5, 7], c.dReA),
   ([8, 6, 4], c.dReA), ([8, 6, 5], c.dImA), ([8, 7, 4], -c.dImA), ([8, 7, 5], c.dReA)]

/-- `Curvature_Higgs_CT_L4`, ClassPotentialCPintheDark.cpp:372-462. First index 0. -/
def ctL4_0 (c : CT K) : Assign K :=
  [([0, 0, 0, 0], 3 * c.dL1), ([0, 0, 1, 1], c.dL1), ([0, 0, 2, 2], c.dL3 + c.dL4 + c.dL5),
   ([0, 0, 2, 3], -c.dImL5), ([0, 0, 3, 2], -c.dImL5), ([0, 0, 3, 3], c.dL3 + c.dL4 - c.dL5),
   ([0, 0, 4, 4], c.dL1), ([0, 0, 5, 5], c.dL1), ([0, 0, 6, 6], c.dL3), ([0, 0, 7, 7], c.dL3),
   ([0, 0, 8, 8], c.dL7), ([0, 1, 0, 1], c.dL1), ([0, 1, 1, 0], c.dL1), ([0, 1, 2, 2], c.dImL5),
   ([0, 1, 2, 3], c.dL5), ([0, 1, 3, 2], c.dL5), ([0, 1, 3, 3], -c.dImL5),
   ([0, 2, 0, 2], c.dL3 + c.dL4 + c.dL5), ([0, 2, 0, 3], -c.dImL5), ([0, 2, 1, 2], c.dImL5),
   ([0, 2, 1, 3], c.dL5), ([0, 2, 2, 0], c.dL3 + c.dL4 + c.dL5), ([0, 2, 2, 1], c.dImL5),
   ([0, 2, 3, 0], -c.dImL5), ([0, 2, 3, 1], c.dL5), ([0, 2, 4, 6], c.dL4 / 2 + c.dL5 / 2),
   ([0, 2, 4, 7], -c.dImL5 / 2), ([0, 2, 5, 6], c.dImL5 / 2),
   ([0, 2, 5, 7], c.dL4 / 2 + c.dL5 / 2), ([0, 2, 6, 4], c.dL4 / 2 + c.dL5 / 2),
   ([0, 2, 6, 5], c.dImL5 / 2), ([0, 2, 7, 4], -c.dImL5 / 2),
   ([0, 2, 7, 5], c.dL4 / 2 + c.dL5 / 2), ([0, 3, 0, 2], -c.dImL5),
   ([0, 3, 0, 3], c.dL3 + c.dL4 - c.dL5), ([0, 3, 1, 2], c.dL5), ([0, 3, 1, 3], -c.dImL5),
   ([0, 3, 2, 0], -c.dImL5), ([0, 3, 2, 1], c.dL5), ([0, 3, 3, 0], c.dL3 + c.dL4 - c.dL5),
   ([0, 3, 3, 1], -c.dImL5), ([0, 3, 4, 6], -c.dImL5 / 2), ([0, 3, 4, 7], c.dL4 / 2 - c.dL5 / 2),
   ([0, 3, 5, 6], -c.dL4 / 2 + c.dL5 / 2), ([0, 3, 5, 7], -c.dImL5 / 2),
   ([0, 3, 6, 4], -c.dImL5 / 2), ([0, 3, 6, 5], -c.dL4 / 2 + c.dL5 / 2),
   ([0, 3, 7, 4], c.dL4 / 2 - c.dL5 / 2), ([0, 3, 7, 5], -c.dImL5 / 2), ([0, 4, 0, 4], c.dL1),
   ([0, 4, 2, 6], c.dL4 / 2 + c.dL5 / 2), ([0, 4, 2, 7], -c.dImL5 / 2),
   ([0, 4, 3, 6], -c.dImL5 / 2), ([0, 4, 3, 7], c.dL4 / 2 - c.dL5 / 2), ([0, 4, 4, 0], c.dL1),
   ([0, 4, 6, 2], c.dL4 / 2 + c.dL5 / 2), ([0, 4, 6, 3], -c.dImL5 / 2),
   ([0, 4, 7, 2], -c.dImL5 / 2), ([0, 4, 7, 3], c.dL4 / 2 - c.dL5 / 2), ([0, 5, 0, 5], c.dL1),
   ([0, 5, 2, 6], c.dImL5 / 2), ([0, 5, 2, 7], c.dL4 / 2 + c.dL5 / 2),
   ([0, 5, 3, 6], -c.dL4 / 2 + c.dL5 / 2), ([0, 5, 3, 7], -c.dImL5 / 2), ([0, 5, 5, 0], c.dL1),
   ([0, 5, 6, 2], c.dImL5 / 2), ([0, 5, 6, 3], -c.dL4 / 2 + c.dL5 / 2),
   ([0, 5, 7, 2], c.dL4 / 2 + c.dL5 / 2), ([0, 5, 7, 3], -c.dImL5 / 2), ([0, 6, 0, 6], c.dL3),
   ([0, 6, 2, 4], c.dL4 / 2 + c.dL5 / 2), ([0, 6, 2, 5], c.dImL5 / 2),
   ([0, 6, 3, 4], -c.dImL5 / 2), ([0, 6, 3, 5], -c.dL4 / 2 + c.dL5 / 2),
   ([0, 6, 4, 2], c.dL4 / 2 + c.dL5 / 2), ([0, 6, 4, 3], -c.dImL5 / 2),
   ([0, 6, 5, 2], c.dImL5 / 2), ([0, 6, 5, 3], -c.dL4 / 2 + c.dL5 / 2), ([0, 6, 6, 0], c.dL3),
   ([0, 7, 0, 7], c.dL3), ([0, 7, 2, 4], -c.dImL5 / 2), ([0, 7, 2, 5], c.dL4 / 2 + c.dL5 / 2),
   ([0, 7, 3, 4], c.dL4 / 2 - c.dL5 / 2), ([0, 7, 3, 5], -c.dImL5 / 2),
   ([0, 7, 4, 2], -c.dImL5 / 2), ([0, 7, 4, 3], c.dL4 / 2 - c.dL5 / 2),
   ([0, 7, 5, 2], c.dL4 / 2 + c.dL5 / 2), ([0, 7, 5, 3], -c.dImL5 / 2), ([0, 7, 7, 0], c.dL3),
   ([0, 8, 0, 8], c.dL7), ([0, 8, 8, 0], c.dL7)]

/-- `Curvature_Higgs_CT_L4`, ClassPotentialCPintheDark.cpp:463-553. First index 1. -/
def ctL4_1 (c : CT K) : Assign K :=
  [([1, 0, 0, 1], c.dL1), ([1, 0, 1, 0], c.dL1), ([1, 0, 2, 2], c.dImL5), ([1, 0, 2, 3], c.dL5),
   ([1, 0, 3, 2], c.dL5), ([1, 0, 3, 3], -c.dImL5), ([1, 1, 0, 0], c.dL1),
   ([1, 1, 1, 1], 3 * c.dL1), ([1, 1, 2, 2], c.dL3 + c.dL4 - c.dL5), ([1, 1, 2, 3], c.dImL5),
   ([1, 1, 3, 2], c.dImL5), ([1, 1, 3, 3], c.dL3 + c.dL4 + c.dL5), ([1, 1, 4, 4], c.dL1),
   ([1, 1, 5, 5], c.dL1), ([1, 1, 6, 6], c.dL3), ([1, 1, 7, 7], c.dL3), ([1, 1, 8, 8], c.dL7),
   ([1, 2, 0, 2], c.dImL5), ([1, 2, 0, 3], c.dL5), ([1, 2, 1, 2], c.dL3 + c.dL4 - c.dL5),
   ([1, 2, 1, 3], c.dImL5), ([1, 2, 2, 0], c.dImL5), ([1, 2, 2, 1], c.dL3 + c.dL4 - c.dL5),
   ([1, 2, 3, 0], c.dL5), ([1, 2, 3, 1], c.dImL5), ([1, 2, 4, 6], c.dImL5 / 2),
   ([1, 2, 4, 7], -c.dL4 / 2 + c.dL5 / 2), ([1, 2, 5, 6], c.dL4 / 2 - c.dL5 / 2),
   ([1, 2, 5, 7], c.dImL5 / 2), ([1, 2, 6, 4], c.dImL5 / 2),
   ([1, 2, 6, 5], c.dL4 / 2 - c.dL5 / 2), ([1, 2, 7, 4], -c.dL4 / 2 + c.dL5 / 2),
   ([1, 2, 7, 5], c.dImL5 / 2), ([1, 3, 0, 2], c.dL5), ([1, 3, 0, 3], -c.dImL5),
   ([1, 3, 1, 2], c.dImL5), ([1, 3, 1, 3], c.dL3 + c.dL4 + c.dL5), ([1, 3, 2, 0], c.dL5),
   ([1, 3, 2, 1], c.dImL5), ([1, 3, 3, 0], -c.dImL5), ([1, 3, 3, 1], c.dL3 + c.dL4 + c.dL5),
   ([1, 3, 4, 6], c.dL4 / 2 + c.dL5 / 2), ([1, 3, 4, 7], -c.dImL5 / 2),
   ([1, 3, 5, 6], c.dImL5 / 2), ([1, 3, 5, 7], c.dL4 / 2 + c.dL5 / 2),
   ([1, 3, 6, 4], c.dL4 / 2 + c.dL5 / 2), ([1, 3, 6, 5], c.dImL5 / 2),
   ([1, 3, 7, 4], -c.dImL5 / 2), ([1, 3, 7, 5], c.dL4 / 2 + c.dL5 / 2), ([1, 4, 1, 4], c.dL1),
   ([1, 4, 2, 6], c.dImL5 / 2), ([1, 4, 2, 7], -c.dL4 / 2 + c.dL5 / 2),
   ([1, 4, 3, 6], c.dL4 / 2 + c.dL5 / 2), ([1, 4, 3, 7], -c.dImL5 / 2), ([1, 4, 4, 1], c.dL1),
   ([1, 4, 6, 2], c.dImL5 / 2), ([1, 4, 6, 3], c.dL4 / 2 + c.dL5 / 2),
   ([1, 4, 7, 2], -c.dL4 / 2 + c.dL5 / 2), ([1, 4, 7, 3], -c.dImL5 / 2), ([1, 5, 1, 5], c.dL1),
   ([1, 5, 2, 6], c.dL4 / 2 - c.dL5 / 2), ([1, 5, 2, 7], c.dImL5 / 2),
   ([1, 5, 3, 6], c.dImL5 / 2), ([1, 5, 3, 7], c.dL4 / 2 + c.dL5 / 2), ([1, 5, 5, 1], c.dL1),
   ([1, 5, 6, 2], c.dL4 / 2 - c.dL5 / 2), ([1, 5, 6, 3], c.dImL5 / 2),
   ([1, 5, 7, 2], c.dImL5 / 2), ([1, 5, 7, 3], c.dL4 / 2 + c.dL5 / 2), ([1, 6, 1, 6], c.dL3),
   ([1, 6, 2, 4], c.dImL5 / 2), ([1, 6, 2, 5], c.dL4 / 2 - c.dL5 / 2),
   ([1, 6, 3, 4], c.dL4 / 2 + c.dL5 / 2), ([1, 6, 3, 5], c.dImL5 / 2),
   ([1, 6, 4, 2], c.dImL5 / 2), ([1, 6, 4, 3], c.dL4 / 2 + c.dL5 / 2),
   ([1, 6, 5, 2], c.dL4 / 2 - c.dL5 / 2), ([1, 6, 5, 3], c.dImL5 / 2), ([1, 6, 6, 1], c.dL3),
   ([1, 7, 1, 7], c.dL3), ([1, 7, 2, 4], -c.dL4 / 2 + c.dL5 / 2), ([1, 7, 2, 5], c.dImL5 / 2),
   ([1, 7, 3, 4], -c.dImL5 / 2), ([1, 7, 3, 5], c.dL4 / 2 + c.dL5 / 2),
   ([1, 7, 4, 2], -c.dL4 / 2 + c.dL5 / 2), ([1, 7, 4, 3], -c.dImL5 / 2),
   ([1, 7, 5, 2], c.dImL5 / 2), ([1, 7, 5, 3], c.dL4 / 2 + c.dL5 / 2), ([1, 7, 7, 1], c.dL3),
   ([1, 8, 1, 8], c.dL7), ([1, 8, 8, 1], c.dL7)]

/-- `Curvature_Higgs_CT_L4`, ClassPotentialCPintheDark.cpp:554-644. First index 2. -/
def ctL4_2 (c : CT K) : Assign K :=
  [([2, 0, 0, 2], c.dL3 + c.dL4 + c.dL5), ([2, 0, 0, 3], -c.dImL5), ([2, 0, 1, 2], c.dImL5),
   ([2, 0, 1, 3], c.dL5), ([2, 0, 2, 0], c.dL3 + c.dL4 + c.dL5), ([2, 0, 2, 1], c.dImL5),
   ([2, 0, 3, 0], -c.dImL5), ([2, 0, 3, 1], c.dL5), ([2, 0, 4, 6], c.dL4 / 2 + c.dL5 / 2),
   ([2, 0, 4, 7], -c.dImL5 / 2), ([2, 0, 5, 6], c.dImL5 / 2),
   ([2, 0, 5, 7], c.dL4 / 2 + c.dL5 / 2), ([2, 0, 6, 4], c.dL4 / 2 + c.dL5 / 2),
   ([2, 0, 6, 5], c.dImL5 / 2), ([2, 0, 7, 4], -c.dImL5 / 2),
   ([2, 0, 7, 5], c.dL4 / 2 + c.dL5 / 2), ([2, 1, 0, 2], c.dImL5), ([2, 1, 0, 3], c.dL5),
   ([2, 1, 1, 2], c.dL3 + c.dL4 - c.dL5), ([2, 1, 1, 3], c.dImL5), ([2, 1, 2, 0], c.dImL5),
   ([2, 1, 2, 1], c.dL3 + c.dL4 - c.dL5), ([2, 1, 3, 0], c.dL5), ([2, 1, 3, 1], c.dImL5),
   ([2, 1, 4, 6], c.dImL5 / 2), ([2, 1, 4, 7], -c.dL4 / 2 + c.dL5 / 2),
   ([2, 1, 5, 6], c.dL4 / 2 - c.dL5 / 2), ([2, 1, 5, 7], c.dImL5 / 2),
   ([2, 1, 6, 4], c.dImL5 / 2), ([2, 1, 6, 5], c.dL4 / 2 - c.dL5 / 2),
   ([2, 1, 7, 4], -c.dL4 / 2 + c.dL5 / 2), ([2, 1, 7, 5], c.dImL5 / 2),
   ([2, 2, 0, 0], c.dL3 + c.dL4 + c.dL5), ([2, 2, 0, 1], c.dImL5), ([2, 2, 1, 0], c.dImL5),
   ([2, 2, 1, 1], c.dL3 + c.dL4 - c.dL5), ([2, 2, 2, 2], 3 * c.dL2), ([2, 2, 3, 3], c.dL2),
   ([2, 2, 4, 4], c.dL3), ([2, 2, 5, 5], c.dL3), ([2, 2, 6, 6], c.dL2), ([2, 2, 7, 7], c.dL2),
   ([2, 2, 8, 8], c.dL8), ([2, 3, 0, 0], -c.dImL5), ([2, 3, 0, 1], c.dL5), ([2, 3, 1, 0], c.dL5),
   ([2, 3, 1, 1], c.dImL5), ([2, 3, 2, 3], c.dL2), ([2, 3, 3, 2], c.dL2),
   ([2, 4, 0, 6], c.dL4 / 2 + c.dL5 / 2), ([2, 4, 0, 7], -c.dImL5 / 2),
   ([2, 4, 1, 6], c.dImL5 / 2), ([2, 4, 1, 7], -c.dL4 / 2 + c.dL5 / 2), ([2, 4, 2, 4], c.dL3),
   ([2, 4, 4, 2], c.dL3), ([2, 4, 6, 0], c.dL4 / 2 + c.dL5 / 2), ([2, 4, 6, 1], c.dImL5 / 2),
   ([2, 4, 7, 0], -c.dImL5 / 2), ([2, 4, 7, 1], -c.dL4 / 2 + c.dL5 / 2),
   ([2, 5, 0, 6], c.dImL5 / 2), ([2, 5, 0, 7], c.dL4 / 2 + c.dL5 / 2),
   ([2, 5, 1, 6], c.dL4 / 2 - c.dL5 / 2), ([2, 5, 1, 7], c.dImL5 / 2), ([2, 5, 2, 5], c.dL3),
   ([2, 5, 5, 2], c.dL3), ([2, 5, 6, 0], c.dImL5 / 2), ([2, 5, 6, 1], c.dL4 / 2 - c.dL5 / 2),
   ([2, 5, 7, 0], c.dL4 / 2 + c.dL5 / 2), ([2, 5, 7, 1], c.dImL5 / 2),
   ([2, 6, 0, 4], c.dL4 / 2 + c.dL5 / 2), ([2, 6, 0, 5], c.dImL5 / 2),
   ([2, 6, 1, 4], c.dImL5 / 2), ([2, 6, 1, 5], c.dL4 / 2 - c.dL5 / 2), ([2, 6, 2, 6], c.dL2),
   ([2, 6, 4, 0], c.dL4 / 2 + c.dL5 / 2), ([2, 6, 4, 1], c.dImL5 / 2),
   ([2, 6, 5, 0], c.dImL5 / 2), ([2, 6, 5, 1], c.dL4 / 2 - c.dL5 / 2), ([2, 6, 6, 2], c.dL2),
   ([2, 7, 0, 4], -c.dImL5 / 2), ([2, 7, 0, 5], c.dL4 / 2 + c.dL5 / 2),
   ([2, 7, 1, 4], -c.dL4 / 2 + c.dL5 / 2), ([2, 7, 1, 5], c.dImL5 / 2), ([2, 7, 2, 7], c.dL2),
   ([2, 7, 4, 0], -c.dImL5 / 2), ([2, 7, 4, 1], -c.dL4 / 2 + c.dL5 / 2),
   ([2, 7, 5, 0], c.dL4 / 2 + c.dL5 / 2), ([2, 7, 5, 1], c.dImL5 / 2), ([2, 7, 7, 2], c.dL2),
   ([2, 8, 2, 8], c.dL8), ([2, 8, 8, 2], c.dL8)]

/-- `Curvature_Higgs_CT_L4`, ClassPotentialCPintheDark.cpp:645-735. First index 3. -/
def ctL4_3 (c : CT K) : Assign K :=
  [([3, 0, 0, 2], -c.dImL5), ([3, 0, 0, 3], c.dL3 + c.dL4 - c.dL5), ([3, 0, 1, 2], c.dL5),
   ([3, 0, 1, 3], -c.dImL5), ([3, 0, 2, 0], -c.dImL5), ([3, 0, 2, 1], c.dL5),
   ([3, 0, 3, 0], c.dL3 + c.dL4 - c.dL5), ([3, 0, 3, 1], -c.dImL5), ([3, 0, 4, 6], -c.dImL5 / 2),
   ([3, 0, 4, 7], c.dL4 / 2 - c.dL5 / 2), ([3, 0, 5, 6], -c.dL4 / 2 + c.dL5 / 2),
   ([3, 0, 5, 7], -c.dImL5 / 2), ([3, 0, 6, 4], -c.dImL5 / 2),
   ([3, 0, 6, 5], -c.dL4 / 2 + c.dL5 / 2), ([3, 0, 7, 4], c.dL4 / 2 - c.dL5 / 2),
   ([3, 0, 7, 5], -c.dImL5 / 2), ([3, 1, 0, 2], c.dL5), ([3, 1, 0, 3], -c.dImL5),
   ([3, 1, 1, 2], c.dImL5), ([3, 1, 1, 3], c.dL3 + c.dL4 + c.dL5), ([3, 1, 2, 0], c.dL5),
   ([3, 1, 2, 1], c.dImL5), ([3, 1, 3, 0], -c.dImL5), ([3, 1, 3, 1], c.dL3 + c.dL4 + c.dL5),
   ([3, 1, 4, 6], c.dL4 / 2 + c.dL5 / 2), ([3, 1, 4, 7], -c.dImL5 / 2),
   ([3, 1, 5, 6], c.dImL5 / 2), ([3, 1, 5, 7], c.dL4 / 2 + c.dL5 / 2),
   ([3, 1, 6, 4], c.dL4 / 2 + c.dL5 / 2), ([3, 1, 6, 5], c.dImL5 / 2),
   ([3, 1, 7, 4], -c.dImL5 / 2), ([3, 1, 7, 5], c.dL4 / 2 + c.dL5 / 2), ([3, 2, 0, 0], -c.dImL5),
   ([3, 2, 0, 1], c.dL5), ([3, 2, 1, 0], c.dL5), ([3, 2, 1, 1], c.dImL5), ([3, 2, 2, 3], c.dL2),
   ([3, 2, 3, 2], c.dL2), ([3, 3, 0, 0], c.dL3 + c.dL4 - c.dL5), ([3, 3, 0, 1], -c.dImL5),
   ([3, 3, 1, 0], -c.dImL5), ([3, 3, 1, 1], c.dL3 + c.dL4 + c.dL5), ([3, 3, 2, 2], c.dL2),
   ([3, 3, 3, 3], 3 * c.dL2), ([3, 3, 4, 4], c.dL3), ([3, 3, 5, 5], c.dL3), ([3, 3, 6, 6], c.dL2),
   ([3, 3, 7, 7], c.dL2), ([3, 3, 8, 8], c.dL8), ([3, 4, 0, 6], -c.dImL5 / 2),
   ([3, 4, 0, 7], c.dL4 / 2 - c.dL5 / 2), ([3, 4, 1, 6], c.dL4 / 2 + c.dL5 / 2),
   ([3, 4, 1, 7], -c.dImL5 / 2), ([3, 4, 3, 4], c.dL3), ([3, 4, 4, 3], c.dL3),
   ([3, 4, 6, 0], -c.dImL5 / 2), ([3, 4, 6, 1], c.dL4 / 2 + c.dL5 / 2),
   ([3, 4, 7, 0], c.dL4 / 2 - c.dL5 / 2), ([3, 4, 7, 1], -c.dImL5 / 2),
   ([3, 5, 0, 6], -c.dL4 / 2 + c.dL5 / 2), ([3, 5, 0, 7], -c.dImL5 / 2),
   ([3, 5, 1, 6], c.dImL5 / 2), ([3, 5, 1, 7], c.dL4 / 2 + c.dL5 / 2), ([3, 5, 3, 5], c.dL3),
   ([3, 5, 5, 3], c.dL3), ([3, 5, 6, 0], -c.dL4 / 2 + c.dL5 / 2), ([3, 5, 6, 1], c.dImL5 / 2),
   ([3, 5, 7, 0], -c.dImL5 / 2), ([3, 5, 7, 1], c.dL4 / 2 + c.dL5 / 2),
   ([3, 6, 0, 4], -c.dImL5 / 2), ([3, 6, 0, 5], -c.dL4 / 2 + c.dL5 / 2),
   ([3, 6, 1, 4], c.dL4 / 2 + c.dL5 / 2), ([3, 6, 1, 5], c.dImL5 / 2), ([3, 6, 3, 6], c.dL2),
   ([3, 6, 4, 0], -c.dImL5 / 2), ([3, 6, 4, 1], c.dL4 / 2 + c.dL5 / 2),
   ([3, 6, 5, 0], -c.dL4 / 2 + c.dL5 / 2), ([3, 6, 5, 1], c.dImL5 / 2), ([3, 6, 6, 3], c.dL2),
   ([3, 7, 0, 4], c.dL4 / 2 - c.dL5 / 2), ([3, 7, 0, 5], -c.dImL5 / 2),
   ([3, 7, 1, 4], -c.dImL5 / 2), ([3, 7, 1, 5], c.dL4 / 2 + c.dL5 / 2), ([3, 7, 3, 7], c.dL2),
   ([3, 7, 4, 0], c.dL4 / 2 - c.dL5 / 2), ([3, 7, 4, 1], -c.dImL5 / 2),
   ([3, 7, 5, 0], -c.dImL5 / 2), ([3, 7, 5, 1], c.dL4 / 2 + c.dL5 / 2), ([3, 7, 7, 3], c.dL2),
   ([3, 8, 3, 8], c.dL8), ([3, 8, 8, 3], c.dL8)]

/-- `Curvature_Higgs_CT_L4`, ClassPotentialCPintheDark.cpp:736-826. First index 4. -/
def ctL4_4 (c : CT K) : Assign K :=
  [([4, 0, 0, 4], c.dL1), ([4, 0, 2, 6], c.dL4 / 2 + c.dL5 / 2), ([4, 0, 2, 7], -c.dImL5 / 2),
   ([4, 0, 3, 6], -c.dImL5 / 2), ([4, 0, 3, 7], c.dL4 / 2 - c.dL5 / 2), ([4, 0, 4, 0], c.dL1),
   ([4, 0, 6, 2], c.dL4 / 2 + c.dL5 / 2), ([4, 0, 6, 3], -c.dImL5 / 2),
   ([4, 0, 7, 2], -c.dImL5 / 2), ([4, 0, 7, 3], c.dL4 / 2 - c.dL5 / 2), ([4, 1, 1, 4], c.dL1),
   ([4, 1, 2, 6], c.dImL5 / 2), ([4, 1, 2, 7], -c.dL4 / 2 + c.dL5 / 2),
   ([4, 1, 3, 6], c.dL4 / 2 + c.dL5 / 2), ([4, 1, 3, 7], -c.dImL5 / 2), ([4, 1, 4, 1], c.dL1),
   ([4, 1, 6, 2], c.dImL5 / 2), ([4, 1, 6, 3], c.dL4 / 2 + c.dL5 / 2),
   ([4, 1, 7, 2], -c.dL4 / 2 + c.dL5 / 2), ([4, 1, 7, 3], -c.dImL5 / 2),
   ([4, 2, 0, 6], c.dL4 / 2 + c.dL5 / 2), ([4, 2, 0, 7], -c.dImL5 / 2),
   ([4, 2, 1, 6], c.dImL5 / 2), ([4, 2, 1, 7], -c.dL4 / 2 + c.dL5 / 2), ([4, 2, 2, 4], c.dL3),
   ([4, 2, 4, 2], c.dL3), ([4, 2, 6, 0], c.dL4 / 2 + c.dL5 / 2), ([4, 2, 6, 1], c.dImL5 / 2),
   ([4, 2, 7, 0], -c.dImL5 / 2), ([4, 2, 7, 1], -c.dL4 / 2 + c.dL5 / 2),
   ([4, 3, 0, 6], -c.dImL5 / 2), ([4, 3, 0, 7], c.dL4 / 2 - c.dL5 / 2),
   ([4, 3, 1, 6], c.dL4 / 2 + c.dL5 / 2), ([4, 3, 1, 7], -c.dImL5 / 2), ([4, 3, 3, 4], c.dL3),
   ([4, 3, 4, 3], c.dL3), ([4, 3, 6, 0], -c.dImL5 / 2), ([4, 3, 6, 1], c.dL4 / 2 + c.dL5 / 2),
   ([4, 3, 7, 0], c.dL4 / 2 - c.dL5 / 2), ([4, 3, 7, 1], -c.dImL5 / 2), ([4, 4, 0, 0], c.dL1),
   ([4, 4, 1, 1], c.dL1), ([4, 4, 2, 2], c.dL3), ([4, 4, 3, 3], c.dL3), ([4, 4, 4, 4], 3 * c.dL1),
   ([4, 4, 5, 5], c.dL1), ([4, 4, 6, 6], c.dL3 + c.dL4 + c.dL5), ([4, 4, 6, 7], -c.dImL5),
   ([4, 4, 7, 6], -c.dImL5), ([4, 4, 7, 7], c.dL3 + c.dL4 - c.dL5), ([4, 4, 8, 8], c.dL7),
   ([4, 5, 4, 5], c.dL1), ([4, 5, 5, 4], c.dL1), ([4, 5, 6, 6], c.dImL5), ([4, 5, 6, 7], c.dL5),
   ([4, 5, 7, 6], c.dL5), ([4, 5, 7, 7], -c.dImL5), ([4, 6, 0, 2], c.dL4 / 2 + c.dL5 / 2),
   ([4, 6, 0, 3], -c.dImL5 / 2), ([4, 6, 1, 2], c.dImL5 / 2),
   ([4, 6, 1, 3], c.dL4 / 2 + c.dL5 / 2), ([4, 6, 2, 0], c.dL4 / 2 + c.dL5 / 2),
   ([4, 6, 2, 1], c.dImL5 / 2), ([4, 6, 3, 0], -c.dImL5 / 2),
   ([4, 6, 3, 1], c.dL4 / 2 + c.dL5 / 2), ([4, 6, 4, 6], c.dL3 + c.dL4 + c.dL5),
   ([4, 6, 4, 7], -c.dImL5), ([4, 6, 5, 6], c.dImL5), ([4, 6, 5, 7], c.dL5),
   ([4, 6, 6, 4], c.dL3 + c.dL4 + c.dL5), ([4, 6, 6, 5], c.dImL5), ([4, 6, 7, 4], -c.dImL5),
   ([4, 6, 7, 5], c.dL5), ([4, 7, 0, 2], -c.dImL5 / 2), ([4, 7, 0, 3], c.dL4 / 2 - c.dL5 / 2),
   ([4, 7, 1, 2], -c.dL4 / 2 + c.dL5 / 2), ([4, 7, 1, 3], -c.dImL5 / 2),
   ([4, 7, 2, 0], -c.dImL5 / 2), ([4, 7, 2, 1], -c.dL4 / 2 + c.dL5 / 2),
   ([4, 7, 3, 0], c.dL4 / 2 - c.dL5 / 2), ([4, 7, 3, 1], -c.dImL5 / 2), ([4, 7, 4, 6], -c.dImL5),
   ([4, 7, 4, 7], c.dL3 + c.dL4 - c.dL5), ([4, 7, 5, 6], c.dL5), ([4, 7, 5, 7], -c.dImL5),
   ([4, 7, 6, 4], -c.dImL5), ([4, 7, 6, 5], c.dL5), ([4, 7, 7, 4], c.dL3 + c.dL4 - c.dL5),
   ([4, 7, 7, 5], -c.dImL5), ([4, 8, 4, 8], c.dL7), ([4, 8, 8, 4], c.dL7)]

/-- `Curvature_Higgs_CT_L4`, ClassPotentialCPintheDark.cpp:827-917. First index 5. -/
def ctL4_5 (c : CT K) : Assign K :=
  [([5, 0, 0, 5], c.dL1), ([5, 0, 2, 6], c.dImL5 / 2), ([5, 0, 2, 7], c.dL4 / 2 + c.dL5 / 2),
   ([5, 0, 3, 6], -c.dL4 / 2 + c.dL5 / 2), ([5, 0, 3, 7], -c.dImL5 / 2), ([5, 0, 5, 0], c.dL1),
   ([5, 0, 6, 2], c.dImL5 / 2), ([5, 0, 6, 3], -c.dL4 / 2 + c.dL5 / 2),
   ([5, 0, 7, 2], c.dL4 / 2 + c.dL5 / 2), ([5, 0, 7, 3], -c.dImL5 / 2), ([5, 1, 1, 5], c.dL1),
   ([5, 1, 2, 6], c.dL4 / 2 - c.dL5 / 2), ([5, 1, 2, 7], c.dImL5 / 2),
   ([5, 1, 3, 6], c.dImL5 / 2), ([5, 1, 3, 7], c.dL4 / 2 + c.dL5 / 2), ([5, 1, 5, 1], c.dL1),
   ([5, 1, 6, 2], c.dL4 / 2 - c.dL5 / 2), ([5, 1, 6, 3], c.dImL5 / 2),
   ([5, 1, 7, 2], c.dImL5 / 2), ([5, 1, 7, 3], c.dL4 / 2 + c.dL5 / 2),
   ([5, 2, 0, 6], c.dImL5 / 2), ([5, 2, 0, 7], c.dL4 / 2 + c.dL5 / 2),
   ([5, 2, 1, 6], c.dL4 / 2 - c.dL5 / 2), ([5, 2, 1, 7], c.dImL5 / 2), ([5, 2, 2, 5], c.dL3),
   ([5, 2, 5, 2], c.dL3), ([5, 2, 6, 0], c.dImL5 / 2), ([5, 2, 6, 1], c.dL4 / 2 - c.dL5 / 2),
   ([5, 2, 7, 0], c.dL4 / 2 + c.dL5 / 2), ([5, 2, 7, 1], c.dImL5 / 2),
   ([5, 3, 0, 6], -c.dL4 / 2 + c.dL5 / 2), ([5, 3, 0, 7], -c.dImL5 / 2),
   ([5, 3, 1, 6], c.dImL5 / 2), ([5, 3, 1, 7], c.dL4 / 2 + c.dL5 / 2), ([5, 3, 3, 5], c.dL3),
   ([5, 3, 5, 3], c.dL3), ([5, 3, 6, 0], -c.dL4 / 2 + c.dL5 / 2), ([5, 3, 6, 1], c.dImL5 / 2),
   ([5, 3, 7, 0], -c.dImL5 / 2), ([5, 3, 7, 1], c.dL4 / 2 + c.dL5 / 2), ([5, 4, 4, 5], c.dL1),
   ([5, 4, 5, 4], c.dL1), ([5, 4, 6, 6], c.dImL5), ([5, 4, 6, 7], c.dL5), ([5, 4, 7, 6], c.dL5),
   ([5, 4, 7, 7], -c.dImL5), ([5, 5, 0, 0], c.dL1), ([5, 5, 1, 1], c.dL1), ([5, 5, 2, 2], c.dL3),
   ([5, 5, 3, 3], c.dL3), ([5, 5, 4, 4], c.dL1), ([5, 5, 5, 5], 3 * c.dL1),
   ([5, 5, 6, 6], c.dL3 + c.dL4 - c.dL5), ([5, 5, 6, 7], c.dImL5), ([5, 5, 7, 6], c.dImL5),
   ([5, 5, 7, 7], c.dL3 + c.dL4 + c.dL5), ([5, 5, 8, 8], c.dL7), ([5, 6, 0, 2], c.dImL5 / 2),
   ([5, 6, 0, 3], -c.dL4 / 2 + c.dL5 / 2), ([5, 6, 1, 2], c.dL4 / 2 - c.dL5 / 2),
   ([5, 6, 1, 3], c.dImL5 / 2), ([5, 6, 2, 0], c.dImL5 / 2),
   ([5, 6, 2, 1], c.dL4 / 2 - c.dL5 / 2), ([5, 6, 3, 0], -c.dL4 / 2 + c.dL5 / 2),
   ([5, 6, 3, 1], c.dImL5 / 2), ([5, 6, 4, 6], c.dImL5), ([5, 6, 4, 7], c.dL5),
   ([5, 6, 5, 6], c.dL3 + c.dL4 - c.dL5), ([5, 6, 5, 7], c.dImL5), ([5, 6, 6, 4], c.dImL5),
   ([5, 6, 6, 5], c.dL3 + c.dL4 - c.dL5), ([5, 6, 7, 4], c.dL5), ([5, 6, 7, 5], c.dImL5),
   ([5, 7, 0, 2], c.dL4 / 2 + c.dL5 / 2), ([5, 7, 0, 3], -c.dImL5 / 2),
   ([5, 7, 1, 2], c.dImL5 / 2), ([5, 7, 1, 3], c.dL4 / 2 + c.dL5 / 2),
   ([5, 7, 2, 0], c.dL4 / 2 + c.dL5 / 2), ([5, 7, 2, 1], c.dImL5 / 2),
   ([5, 7, 3, 0], -c.dImL5 / 2), ([5, 7, 3, 1], c.dL4 / 2 + c.dL5 / 2), ([5, 7, 4, 6], c.dL5),
   ([5, 7, 4, 7], -c.dImL5), ([5, 7, 5, 6], c.dImL5), ([5, 7, 5, 7], c.dL3 + c.dL4 + c.dL5),
   ([5, 7, 6, 4], c.dL5), ([5, 7, 6, 5], c.dImL5), ([5, 7, 7, 4], -c.dImL5),
   ([5, 7, 7, 5], c.dL3 + c.dL4 + c.dL5), ([5, 8, 5, 8], c.dL7), ([5, 8, 8, 5], c.dL7)]

/-- `Curvature_Higgs_CT_L4`, ClassPotentialCPintheDark.cpp:918-1008. First index 6. -/
def ctL4_6 (c : CT K) : Assign K :=
  [([6, 0, 0, 6], c.dL3), ([6, 0, 2, 4], c.dL4 / 2 + c.dL5 / 2), ([6, 0, 2, 5], c.dImL5 / 2),
   ([6, 0, 3, 4], -c.dImL5 / 2), ([6, 0, 3, 5], -c.dL4 / 2 + c.dL5 / 2),
   ([6, 0, 4, 2], c.dL4 / 2 + c.dL5 / 2), ([6, 0, 4, 3], -c.dImL5 / 2),
   ([6, 0, 5, 2], c.dImL5 / 2), ([6, 0, 5, 3], -c.dL4 / 2 + c.dL5 / 2), ([6, 0, 6, 0], c.dL3),
   ([6, 1, 1, 6], c.dL3), ([6, 1, 2, 4], c.dImL5 / 2), ([6, 1, 2, 5], c.dL4 / 2 - c.dL5 / 2),
   ([6, 1, 3, 4], c.dL4 / 2 + c.dL5 / 2), ([6, 1, 3, 5], c.dImL5 / 2),
   ([6, 1, 4, 2], c.dImL5 / 2), ([6, 1, 4, 3], c.dL4 / 2 + c.dL5 / 2),
   ([6, 1, 5, 2], c.dL4 / 2 - c.dL5 / 2), ([6, 1, 5, 3], c.dImL5 / 2), ([6, 1, 6, 1], c.dL3),
   ([6, 2, 0, 4], c.dL4 / 2 + c.dL5 / 2), ([6, 2, 0, 5], c.dImL5 / 2),
   ([6, 2, 1, 4], c.dImL5 / 2), ([6, 2, 1, 5], c.dL4 / 2 - c.dL5 / 2), ([6, 2, 2, 6], c.dL2),
   ([6, 2, 4, 0], c.dL4 / 2 + c.dL5 / 2), ([6, 2, 4, 1], c.dImL5 / 2),
   ([6, 2, 5, 0], c.dImL5 / 2), ([6, 2, 5, 1], c.dL4 / 2 - c.dL5 / 2), ([6, 2, 6, 2], c.dL2),
   ([6, 3, 0, 4], -c.dImL5 / 2), ([6, 3, 0, 5], -c.dL4 / 2 + c.dL5 / 2),
   ([6, 3, 1, 4], c.dL4 / 2 + c.dL5 / 2), ([6, 3, 1, 5], c.dImL5 / 2), ([6, 3, 3, 6], c.dL2),
   ([6, 3, 4, 0], -c.dImL5 / 2), ([6, 3, 4, 1], c.dL4 / 2 + c.dL5 / 2),
   ([6, 3, 5, 0], -c.dL4 / 2 + c.dL5 / 2), ([6, 3, 5, 1], c.dImL5 / 2), ([6, 3, 6, 3], c.dL2),
   ([6, 4, 0, 2], c.dL4 / 2 + c.dL5 / 2), ([6, 4, 0, 3], -c.dImL5 / 2),
   ([6, 4, 1, 2], c.dImL5 / 2), ([6, 4, 1, 3], c.dL4 / 2 + c.dL5 / 2),
   ([6, 4, 2, 0], c.dL4 / 2 + c.dL5 / 2), ([6, 4, 2, 1], c.dImL5 / 2),
   ([6, 4, 3, 0], -c.dImL5 / 2), ([6, 4, 3, 1], c.dL4 / 2 + c.dL5 / 2),
   ([6, 4, 4, 6], c.dL3 + c.dL4 + c.dL5), ([6, 4, 4, 7], -c.dImL5), ([6, 4, 5, 6], c.dImL5),
   ([6, 4, 5, 7], c.dL5), ([6, 4, 6, 4], c.dL3 + c.dL4 + c.dL5), ([6, 4, 6, 5], c.dImL5),
   ([6, 4, 7, 4], -c.dImL5), ([6, 4, 7, 5], c.dL5), ([6, 5, 0, 2], c.dImL5 / 2),
   ([6, 5, 0, 3], -c.dL4 / 2 + c.dL5 / 2), ([6, 5, 1, 2], c.dL4 / 2 - c.dL5 / 2),
   ([6, 5, 1, 3], c.dImL5 / 2), ([6, 5, 2, 0], c.dImL5 / 2),
   ([6, 5, 2, 1], c.dL4 / 2 - c.dL5 / 2), ([6, 5, 3, 0], -c.dL4 / 2 + c.dL5 / 2),
   ([6, 5, 3, 1], c.dImL5 / 2), ([6, 5, 4, 6], c.dImL5), ([6, 5, 4, 7], c.dL5),
   ([6, 5, 5, 6], c.dL3 + c.dL4 - c.dL5), ([6, 5, 5, 7], c.dImL5), ([6, 5, 6, 4], c.dImL5),
   ([6, 5, 6, 5], c.dL3 + c.dL4 - c.dL5), ([6, 5, 7, 4], c.dL5), ([6, 5, 7, 5], c.dImL5),
   ([6, 6, 0, 0], c.dL3), ([6, 6, 1, 1], c.dL3), ([6, 6, 2, 2], c.dL2), ([6, 6, 3, 3], c.dL2),
   ([6, 6, 4, 4], c.dL3 + c.dL4 + c.dL5), ([6, 6, 4, 5], c.dImL5), ([6, 6, 5, 4], c.dImL5),
   ([6, 6, 5, 5], c.dL3 + c.dL4 - c.dL5), ([6, 6, 6, 6], 3 * c.dL2), ([6, 6, 7, 7], c.dL2),
   ([6, 6, 8, 8], c.dL8), ([6, 7, 4, 4], -c.dImL5), ([6, 7, 4, 5], c.dL5), ([6, 7, 5, 4], c.dL5),
   ([6, 7, 5, 5], c.dImL5), ([6, 7, 6, 7], c.dL2), ([6, 7, 7, 6], c.dL2), ([6, 8, 6, 8], c.dL8),
   ([6, 8, 8, 6], c.dL8)]

/-- `Curvature_Higgs_CT_L4`, ClassPotentialCPintheDark.cpp:1009-1099. First index 7. -/
def ctL4_7 (c : CT K) : Assign K :=
  [([7, 0, 0, 7], c.dL3), ([7, 0, 2, 4], -c.dImL5 / 2), ([7, 0, 2, 5], c.dL4 / 2 + c.dL5 / 2),
   ([7, 0, 3, 4], c.dL4 / 2 - c.dL5 / 2), ([7, 0, 3, 5], -c.dImL5 / 2),
   ([7, 0, 4, 2], -c.dImL5 / 2), ([7, 0, 4, 3], c.dL4 / 2 - c.dL5 / 2),
   ([7, 0, 5, 2], c.dL4 / 2 + c.dL5 / 2), ([7, 0, 5, 3], -c.dImL5 / 2), ([7, 0, 7, 0], c.dL3),
   ([7, 1, 1, 7], c.dL3), ([7, 1, 2, 4], -c.dL4 / 2 + c.dL5 / 2), ([7, 1, 2, 5], c.dImL5 / 2),
   ([7, 1, 3, 4], -c.dImL5 / 2), ([7, 1, 3, 5], c.dL4 / 2 + c.dL5 / 2),
   ([7, 1, 4, 2], -c.dL4 / 2 + c.dL5 / 2), ([7, 1, 4, 3], -c.dImL5 / 2),
   ([7, 1, 5, 2], c.dImL5 / 2), ([7, 1, 5, 3], c.dL4 / 2 + c.dL5 / 2), ([7, 1, 7, 1], c.dL3),
   ([7, 2, 0, 4], -c.dImL5 / 2), ([7, 2, 0, 5], c.dL4 / 2 + c.dL5 / 2),
   ([7, 2, 1, 4], -c.dL4 / 2 + c.dL5 / 2), ([7, 2, 1, 5], c.dImL5 / 2), ([7, 2, 2, 7], c.dL2),
   ([7, 2, 4, 0], -c.dImL5 / 2), ([7, 2, 4, 1], -c.dL4 / 2 + c.dL5 / 2),
   ([7, 2, 5, 0], c.dL4 / 2 + c.dL5 / 2), ([7, 2, 5, 1], c.dImL5 / 2), ([7, 2, 7, 2], c.dL2),
   ([7, 3, 0, 4], c.dL4 / 2 - c.dL5 / 2), ([7, 3, 0, 5], -c.dImL5 / 2),
   ([7, 3, 1, 4], -c.dImL5 / 2), ([7, 3, 1, 5], c.dL4 / 2 + c.dL5 / 2), ([7, 3, 3, 7], c.dL2),
   ([7, 3, 4, 0], c.dL4 / 2 - c.dL5 / 2), ([7, 3, 4, 1], -c.dImL5 / 2),
   ([7, 3, 5, 0], -c.dImL5 / 2), ([7, 3, 5, 1], c.dL4 / 2 + c.dL5 / 2), ([7, 3, 7, 3], c.dL2),
   ([7, 4, 0, 2], -c.dImL5 / 2), ([7, 4, 0, 3], c.dL4 / 2 - c.dL5 / 2),
   ([7, 4, 1, 2], -c.dL4 / 2 + c.dL5 / 2), ([7, 4, 1, 3], -c.dImL5 / 2),
   ([7, 4, 2, 0], -c.dImL5 / 2), ([7, 4, 2, 1], -c.dL4 / 2 + c.dL5 / 2),
   ([7, 4, 3, 0], c.dL4 / 2 - c.dL5 / 2), ([7, 4, 3, 1], -c.dImL5 / 2), ([7, 4, 4, 6], -c.dImL5),
   ([7, 4, 4, 7], c.dL3 + c.dL4 - c.dL5), ([7, 4, 5, 6], c.dL5), ([7, 4, 5, 7], -c.dImL5),
   ([7, 4, 6, 4], -c.dImL5), ([7, 4, 6, 5], c.dL5), ([7, 4, 7, 4], c.dL3 + c.dL4 - c.dL5),
   ([7, 4, 7, 5], -c.dImL5), ([7, 5, 0, 2], c.dL4 / 2 + c.dL5 / 2), ([7, 5, 0, 3], -c.dImL5 / 2),
   ([7, 5, 1, 2], c.dImL5 / 2), ([7, 5, 1, 3], c.dL4 / 2 + c.dL5 / 2),
   ([7, 5, 2, 0], c.dL4 / 2 + c.dL5 / 2), ([7, 5, 2, 1], c.dImL5 / 2),
   ([7, 5, 3, 0], -c.dImL5 / 2), ([7, 5, 3, 1], c.dL4 / 2 + c.dL5 / 2), ([7, 5, 4, 6], c.dL5),
   ([7, 5, 4, 7], -c.dImL5), ([7, 5, 5, 6], c.dImL5), ([7, 5, 5, 7], c.dL3 + c.dL4 + c.dL5),
   ([7, 5, 6, 4], c.dL5), ([7, 5, 6, 5], c.dImL5), ([7, 5, 7, 4], -c.dImL5),
   ([7, 5, 7, 5], c.dL3 + c.dL4 + c.dL5), ([7, 6, 4, 4], -c.dImL5), ([7, 6, 4, 5], c.dL5),
   ([7, 6, 5, 4], c.dL5), ([7, 6, 5, 5], c.dImL5), ([7, 6, 6, 7], c.dL2), ([7, 6, 7, 6], c.dL2),
   ([7, 7, 0, 0], c.dL3), ([7, 7, 1, 1], c.dL3), ([7, 7, 2, 2], c.dL2), ([7, 7, 3, 3], c.dL2),
   ([7, 7, 4, 4], c.dL3 + c.dL4 - c.dL5), ([7, 7, 4, 5], -c.dImL5), ([7, 7, 5, 4], -c.dImL5),
   ([7, 7, 5, 5], c.dL3 + c.dL4 + c.dL5), ([7, 7, 6, 6], c.dL2), ([7, 7, 7, 7], 3 * c.dL2),
   ([7, 7, 8, 8], c.dL8), ([7, 8, 7, 8], c.dL8), ([7, 8, 8, 7], c.dL8)]

/-- `Curvature_Higgs_CT_L4`, ClassPotentialCPintheDark.cpp:1100-1124. First index 8. -/
def ctL4_8 (c : CT K) : Assign K :=
  [([8, 0, 0, 8], c.dL7), ([8, 0, 8, 0], c.dL7), ([8, 1, 1, 8], c.dL7), ([8, 1, 8, 1], c.dL7),
   ([8, 2, 2, 8], c.dL8), ([8, 2, 8, 2], c.dL8), ([8, 3, 3, 8], c.dL8), ([8, 3, 8, 3], c.dL8),
   ([8, 4, 4, 8], c.dL7), ([8, 4, 8, 4], c.dL7), ([8, 5, 5, 8], c.dL7), ([8, 5, 8, 5], c.dL7),
   ([8, 6, 6, 8], c.dL8), ([8, 6, 8, 6], c.dL8), ([8, 7, 7, 8], c.dL8), ([8, 7, 8, 7], c.dL8),
   ([8, 8, 0, 0], c.dL7), ([8, 8, 1, 1], c.dL7), ([8, 8, 2, 2], c.dL8), ([8, 8, 3, 3], c.dL8),
   ([8, 8, 4, 4], c.dL7), ([8, 8, 5, 5], c.dL7), ([8, 8, 6, 6], c.dL8), ([8, 8, 7, 7], c.dL8),
   ([8, 8, 8, 8], 6 * c.dL6)]

/-- `Curvature_Higgs_CT_L4`, ClassPotentialCPintheDark.cpp:372-1124. -/
def ctL4 (c : CT K) : Assign K :=
  [ctL4_0 c, ctL4_1 c, ctL4_2 c, ctL4_3 c, ctL4_4 c, ctL4_5 c, ctL4_6 c, ctL4_7 c, ctL4_8
    c].flatten

/-- `Curvature_Gauge_G2H2`, ClassPotentialCPintheDark.cpp:1994-2096. -/
def g2h2 (g gs : K) : Assign K :=
  [([0, 0, 0, 0], g * g / 2), ([0, 0, 1, 1], g * g / 2), ([0, 0, 2, 2], g * g / 2),
   ([0, 0, 3, 3], g * g / 2), ([0, 0, 4, 4], g * g / 2), ([0, 0, 5, 5], g * g / 2),
   ([0, 0, 6, 6], g * g / 2), ([0, 0, 7, 7], g * g / 2), ([0, 3, 0, 4], gs * g / 2),
   ([0, 3, 1, 5], gs * g / 2), ([0, 3, 2, 6], gs * g / 2), ([0, 3, 3, 7], gs * g / 2),
   ([0, 3, 4, 0], gs * g / 2), ([0, 3, 5, 1], gs * g / 2), ([0, 3, 6, 2], gs * g / 2),
   ([0, 3, 7, 3], gs * g / 2), ([1, 1, 0, 0], g * g / 2), ([1, 1, 1, 1], g * g / 2),
   ([1, 1, 2, 2], g * g / 2), ([1, 1, 3, 3], g * g / 2), ([1, 1, 4, 4], g * g / 2),
   ([1, 1, 5, 5], g * g / 2), ([1, 1, 6, 6], g * g / 2), ([1, 1, 7, 7], g * g / 2),
   ([1, 3, 0, 5], gs * g / 2), ([1, 3, 1, 4], -gs * g / 2), ([1, 3, 2, 7], gs * g / 2),
   ([1, 3, 3, 6], -gs * g / 2), ([1, 3, 4, 1], -gs * g / 2), ([1, 3, 5, 0], gs * g / 2),
   ([1, 3, 6, 3], -gs * g / 2), ([1, 3, 7, 2], gs * g / 2), ([2, 2, 0, 0], g * g / 2),
   ([2, 2, 1, 1], g * g / 2), ([2, 2, 2, 2], g * g / 2), ([2, 2, 3, 3], g * g / 2),
   ([2, 2, 4, 4], g * g / 2), ([2, 2, 5, 5], g * g / 2), ([2, 2, 6, 6], g * g / 2),
   ([2, 2, 7, 7], g * g / 2), ([2, 3, 0, 0], gs * g / 2), ([2, 3, 1, 1], gs * g / 2),
   ([2, 3, 2, 2], gs * g / 2), ([2, 3, 3, 3], gs * g / 2), ([2, 3, 4, 4], -gs * g / 2),
   ([2, 3, 5, 5], -gs * g / 2), ([2, 3, 6, 6], -gs * g / 2), ([2, 3, 7, 7], -gs * g / 2),
   ([3, 0, 0, 4], gs * g / 2), ([3, 0, 1, 5], gs * g / 2), ([3, 0, 2, 6], gs * g / 2),
   ([3, 0, 3, 7], gs * g / 2), ([3, 0, 4, 0], gs * g / 2), ([3, 0, 5, 1], gs * g / 2),
   ([3, 0, 6, 2], gs * g / 2), ([3, 0, 7, 3], gs * g / 2), ([3, 1, 0, 5], gs * g / 2),
   ([3, 1, 1, 4], -gs * g / 2), ([3, 1, 2, 7], gs * g / 2), ([3, 1, 3, 6], -gs * g / 2),
   ([3, 1, 4, 1], -gs * g / 2), ([3, 1, 5, 0], gs * g / 2), ([3, 1, 6, 3], -gs * g / 2),
   ([3, 1, 7, 2], gs * g / 2), ([3, 2, 0, 0], gs * g / 2), ([3, 2, 1, 1], gs * g / 2),
   ([3, 2, 2, 2], gs * g / 2), ([3, 2, 3, 3], gs * g / 2), ([3, 2, 4, 4], -gs * g / 2),
   ([3, 2, 5, 5], -gs * g / 2), ([3, 2, 6, 6], -gs * g / 2), ([3, 2, 7, 7], -gs * g / 2),
   ([3, 3, 0, 0], gs * gs / 2), ([3, 3, 1, 1], gs * gs / 2), ([3, 3, 2, 2], gs * gs / 2),
   ([3, 3, 3, 3], gs * gs / 2), ([3, 3, 4, 4], gs * gs / 2), ([3, 3, 5, 5], gs * gs / 2),
   ([3, 3, 6, 6], gs * gs / 2), ([3, 3, 7, 7], gs * gs / 2)]

/-- The tensors of the tree-level potential after `SetCurvatureArrays`,
ClassPotentialCPintheDark.cpp:1461-1992. -/
def tree (p : Par K) : Curv 9 K :=
  curv 9 zeroTensor (assign (l2 p) zeroTensor) (assign (l3 p) zeroTensor)
    (assign (l4 p) zeroTensor)

/-- The tensors of the counterterm potential after `set_CT_Pot_Par` on arrays initialised with
zeros, ClassPotentialCPintheDark.cpp:282-1124. -/
def counter (c : CT K) : Curv 9 K :=
  curv 9 (assign (ctL1 c) zeroTensor) (assign (ctL2 c) zeroTensor) (assign (ctL3 c) zeroTensor)
    (assign (ctL4 c) zeroTensor)

/-- `Curvature_Gauge_G2H2` after `SetCurvatureArrays`. -/
def gauge (g gs : K) : List Nat → K := assign (g2h2 g gs) zeroTensor

/-- `VTreeSimplified` (the flag `UseVTreeSimplified` is set),
ClassPotentialCPintheDark.cpp:2289-2320. -/
def treeSimplified (p : Par K) (φ : FVec 9 K) : K :=
  let vcb := φ 2
  let v1 := φ 4
  let v2 := φ 6
  let vcp := φ 7
  let vs := φ 8
  let C22 := vcb ^ 2 + v2 ^ 2 + vcp ^ 2
  1 / 2 * p.m11s * v1 ^ 2 + 1 / 2 * p.m22s * C22 + 1 / 2 * p.mSs * vs ^ 2 +
    p.ReA * v1 * v2 * vs + -p.ImA * v1 * vcp * vs +
    1 / 8 * p.L1 * v1 ^ 4 + 1 / 8 * p.L2 * C22 ^ 2 + 1 / 4 * p.L3 * v1 ^ 2 * C22 +
    1 / 4 * p.L4 * v1 ^ 2 * (v2 ^ 2 + vcp ^ 2) +
    1 / 4 * p.L5 * v1 ^ 2 * (v2 ^ 2 - vcp ^ 2) +
    1 / 4 * p.L6 * vs ^ 4 + 1 / 4 * p.L7 * v1 ^ 2 * vs ^ 2 +
    1 / 4 * p.L8 * C22 * vs ^ 2

/-- `VCounterSimplified` (the flag `UseVCounterSimplified` is set),
ClassPotentialCPintheDark.cpp:2323-2362. -/
def counterSimplified (c : CT K) (φ : FVec 9 K) : K :=
  let vcb := φ 2
  let v1 := φ 4
  let v2 := φ 6
  let vcp := φ 7
  let vs := φ 8
  let C22 := vcb ^ 2 + v2 ^ 2 + vcp ^ 2
  1 / 2 * c.dm11s * v1 ^ 2 + 1 / 2 * c.dm22s * C22 + 1 / 2 * c.dmSs * vs ^ 2 +
    c.dReA * v1 * v2 * vs + -c.dImA * v1 * vcp * vs +
    1 / 8 * c.dL1 * v1 ^ 4 + 1 / 8 * c.dL2 * C22 ^ 2 + 1 / 4 * c.dL3 * v1 ^ 2 * C22 +
    1 / 4 * c.dL4 * v1 ^ 2 * (v2 ^ 2 + vcp ^ 2) +
    1 / 4 * c.dL5 * v1 ^ 2 * (v2 ^ 2 - vcp ^ 2) +
    1 / 4 * c.dL6 * vs ^ 4 + 1 / 4 * c.dL7 * v1 ^ 2 * vs ^ 2 +
    1 / 4 * c.dL8 * C22 * vs ^ 2 +
    c.dTCB * vcb + c.dT1 * v1 + c.dT2 * v2 + c.dTCP * vcp + c.dTS * vs +
    -(1 / 2) * c.dImL5 * v1 ^ 2 * v2 * vcp

/-- `calc_CT` for the gradient `N` and the Hesse matrix `W` of the Coleman-Weinberg potential,
ClassPotentialCPintheDark.cpp:1251-1316. -/
def calcCT (v1 : K) (N : Fin 9 → K) (W : Fin 9 → Fin 9 → K) : CT K :=
  let H : Fin 9 → Fin 9 → K := fun i j => W j i
  let L2ct : K := 0
  let L3ct : K := 0
  let L6ct : K := 0
  let L7ct : K := 0
  let L8ct : K := 0
  { dm11s := H 4 4 / 2 - 3 / 2 * H 5 5
    dm22s := -H 3 3 - v1 ^ 2 / 2 * L3ct
    dmSs := -H 8 8 - v1 ^ 2 / 2 * L7ct
    dReA := -H 6 8 / v1
    dImA := H 7 8 / v1
    dL1 := (-H 4 4 + H 5 5) * (v1 ^ 2)⁻¹
    dL2 := L2ct
    dL3 := L3ct
    dL4 := (2 * H 3 3 - H 6 6 - H 7 7) * (v1 ^ 2)⁻¹
    dL5 := (-H 6 6 + H 7 7) * (v1 ^ 2)⁻¹
    dL6 := L6ct
    dL7 := L7ct
    dL8 := L8ct
    dTCB := -N 2
    dT1 := H 5 5 * v1 - N 4
    dT2 := -N 6
    dTCP := -N 7
    dTS := -N 8
    dImL5 := 2 * H 6 7 * (v1 ^ 2)⁻¹ }

end Verif.Lagrangian.CPintheDark
