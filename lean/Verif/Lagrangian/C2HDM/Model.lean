import Verif.Lagrangian.Loop
import Mathlib.Analysis.SpecialFunctions.Sqrt

/-!
# The CP-violating two Higgs doublet model

`Class_Potential_C2HDM`, ClassPotentialC2HDM.cpp: parameters, tensors and counterterms.  The entries
of the tensors are transcribed statement by statement.
-/

namespace Verif.Lagrangian.C2HDM

open Verif.Potential

variable {K : Type} [Field K]

/-- The parameters of the tree-level potential, ClassPotentialC2HDM.h:86-87. -/
structure Par (K : Type) where
  L1 : K
  L2 : K
  L3 : K
  L4 : K
  RL5 : K
  IL5 : K
  RealMMix : K
  u1 : K
  u2 : K
  Iu3 : K

/-- The counterterm parameters in the order of `p` of `set_CT_Pot_Par`,
ClassPotentialC2HDM.cpp:304-318. -/
structure CT (K : Type) where
  Du1CT : K
  Du2CT : K
  DIu3CT : K
  DRu3CT : K
  DL1CT : K
  DL2CT : K
  DL3CT : K
  DL4CT : K
  DRL5CT : K
  DIL5CT : K
  DTCharged : K
  DT1 : K
  DT2 : K
  DT3 : K
  DIL6CT : K

/-- What `set_gen` reads: `p[0]` to `p[7]`, ClassPotentialC2HDM.cpp:223-230. -/
structure Input where
  L1 : ℝ
  L2 : ℝ
  L3 : ℝ
  L4 : ℝ
  RL5 : ℝ
  IL5 : ℝ
  RealMMix : ℝ
  TanBeta : ℝ

/-- `C_CosBetaSquared`, ClassPotentialC2HDM.cpp:233. -/
noncomputable def cosBetaSquared (t : ℝ) : ℝ := 1 / (1 + t * t)

/-- `C_SinBetaSquared`, ClassPotentialC2HDM.cpp:235. -/
noncomputable def sinBetaSquared (t : ℝ) : ℝ := t * t * cosBetaSquared t

/-- `C_CosBeta`, ClassPotentialC2HDM.cpp:234. -/
noncomputable def cosBeta (t : ℝ) : ℝ := √(cosBetaSquared t)

/-- `C_SinBeta`, ClassPotentialC2HDM.cpp:236: the root is taken without the sign of `tan β`. -/
noncomputable def sinBeta (t : ℝ) : ℝ := √(sinBetaSquared t)

/-- `set_gen`, ClassPotentialC2HDM.cpp:218-247, without the coefficients `CTempC1`, `CTempC2`. -/
noncomputable def setGen (v : ℝ) (q : Input) : Par ℝ where
  L1 := q.L1
  L2 := q.L2
  L3 := q.L3
  L4 := q.L4
  RL5 := q.RL5
  IL5 := q.IL5
  RealMMix := q.RealMMix
  u1 := q.RealMMix * q.TanBeta -
    v * v * sinBetaSquared q.TanBeta * (q.L4 + q.RL5 + q.L3) / 2 -
    v * v * cosBetaSquared q.TanBeta * q.L1 / 2
  u2 := q.RealMMix * 1 / q.TanBeta -
    v * v * cosBetaSquared q.TanBeta * (q.L4 + q.RL5 + q.L3) / 2 -
    v * v * sinBetaSquared q.TanBeta * q.L2 / 2
  Iu3 := v * v * q.TanBeta * cosBetaSquared q.TanBeta * q.IL5 * (1 / 2)

/-- `vevTree` with the components `v1` and `v2` of `vevTreeMin` placed at the positions `4` and `6`
of `VevOrder` (ClassPotentialC2HDM.cpp:36-49, 281-296); the charge- and CP-breaking components are
zero. -/
def vevTree (v1 v2 : K) : FVec 8 K := ![0, 0, 0, 0, v1, 0, v2, 0]

/-- `Curvature_Higgs_L2`, ClassPotentialC2HDM.cpp:2594-2657. -/
def l2 (p : Par K) : Assign K :=
  [([0, 0], p.u1), ([0, 1], 0), ([0, 2], -p.RealMMix), ([0, 3], p.Iu3), ([0, 4], 0), ([0, 5], 0),
   ([0, 6], 0), ([0, 7], 0), ([1, 0], 0), ([1, 1], p.u1), ([1, 2], -p.Iu3), ([1, 3], -p.RealMMix),
   ([1, 4], 0), ([1, 5], 0), ([1, 6], 0), ([1, 7], 0), ([2, 0], -p.RealMMix), ([2, 1], -p.Iu3),
   ([2, 2], p.u2), ([2, 3], 0), ([2, 4], 0), ([2, 5], 0), ([2, 6], 0), ([2, 7], 0),
   ([3, 0], p.Iu3), ([3, 1], -p.RealMMix), ([3, 2], 0), ([3, 3], p.u2), ([3, 4], 0), ([3, 5], 0),
   ([3, 6], 0), ([3, 7], 0), ([4, 0], 0), ([4, 1], 0), ([4, 2], 0), ([4, 3], 0), ([4, 4], p.u1),
   ([4, 5], 0), ([4, 6], -p.RealMMix), ([4, 7], p.Iu3), ([5, 0], 0), ([5, 1], 0), ([5, 2], 0),
   ([5, 3], 0), ([5, 4], 0), ([5, 5], p.u1), ([5, 6], -p.Iu3), ([5, 7], -p.RealMMix), ([6, 0], 0),
   ([6, 1], 0), ([6, 2], 0), ([6, 3], 0), ([6, 4], -p.RealMMix), ([6, 5], -p.Iu3), ([6, 6], p.u2),
   ([6, 7], 0), ([7, 0], 0), ([7, 1], 0), ([7, 2], 0), ([7, 3], 0), ([7, 4], p.Iu3),
   ([7, 5], -p.RealMMix), ([7, 6], 0), ([7, 7], p.u2)]

/-- `Curvature_Higgs_L4`, ClassPotentialC2HDM.cpp:2659-2720. -/
def l4 (p : Par K) : Assign K :=
  [([0, 0, 0, 0], 3 * p.L1), ([0, 0, 1, 1], p.L1), ([0, 0, 2, 2], p.L3 + p.L4 + p.RL5),
   ([0, 0, 2, 3], -p.IL5), ([0, 0, 3, 3], p.L3 + p.L4 - p.RL5), ([0, 0, 4, 4], p.L1),
   ([0, 0, 5, 5], p.L1), ([0, 0, 6, 6], p.L3), ([0, 0, 7, 7], p.L3), ([0, 1, 2, 2], p.IL5),
   ([0, 1, 2, 3], p.RL5), ([0, 1, 3, 3], -p.IL5), ([0, 2, 4, 6], p.L4 / 2 + p.RL5 / 2),
   ([0, 2, 4, 7], -p.IL5 / 2), ([0, 2, 5, 6], p.IL5 / 2), ([0, 2, 5, 7], p.L4 / 2 + p.RL5 / 2),
   ([0, 3, 4, 6], -p.IL5 / 2), ([0, 3, 4, 7], p.L4 / 2 - p.RL5 / 2),
   ([0, 3, 5, 6], -p.L4 / 2 + p.RL5 / 2), ([0, 3, 5, 7], -p.IL5 / 2), ([1, 1, 1, 1], 3 * p.L1),
   ([1, 1, 2, 2], p.L3 + p.L4 - p.RL5), ([1, 1, 2, 3], p.IL5),
   ([1, 1, 3, 3], p.L3 + p.L4 + p.RL5), ([1, 1, 4, 4], p.L1), ([1, 1, 5, 5], p.L1),
   ([1, 1, 6, 6], p.L3), ([1, 1, 7, 7], p.L3), ([1, 2, 4, 6], p.IL5 / 2),
   ([1, 2, 4, 7], -p.L4 / 2 + p.RL5 / 2), ([1, 2, 5, 6], p.L4 / 2 - p.RL5 / 2),
   ([1, 2, 5, 7], p.IL5 / 2), ([1, 3, 4, 6], p.L4 / 2 + p.RL5 / 2), ([1, 3, 4, 7], -p.IL5 / 2),
   ([1, 3, 5, 6], p.IL5 / 2), ([1, 3, 5, 7], p.L4 / 2 + p.RL5 / 2), ([2, 2, 2, 2], 3 * p.L2),
   ([2, 2, 3, 3], p.L2), ([2, 2, 4, 4], p.L3), ([2, 2, 5, 5], p.L3), ([2, 2, 6, 6], p.L2),
   ([2, 2, 7, 7], p.L2), ([3, 3, 3, 3], 3 * p.L2), ([3, 3, 4, 4], p.L3), ([3, 3, 5, 5], p.L3),
   ([3, 3, 6, 6], p.L2), ([3, 3, 7, 7], p.L2), ([4, 4, 4, 4], 3 * p.L1), ([4, 4, 5, 5], p.L1),
   ([4, 4, 6, 6], p.L3 + p.L4 + p.RL5), ([4, 4, 6, 7], -p.IL5),
   ([4, 4, 7, 7], p.L3 + p.L4 - p.RL5), ([4, 5, 6, 6], p.IL5), ([4, 5, 6, 7], p.RL5),
   ([4, 5, 7, 7], -p.IL5), ([5, 5, 5, 5], 3 * p.L1), ([5, 5, 6, 6], p.L3 + p.L4 - p.RL5),
   ([5, 5, 6, 7], p.IL5), ([5, 5, 7, 7], p.L3 + p.L4 + p.RL5), ([6, 6, 6, 6], 3 * p.L2),
   ([6, 6, 7, 7], p.L2), ([7, 7, 7, 7], 3 * p.L2)]

/-- `Curvature_Higgs_CT_L1`, ClassPotentialC2HDM.cpp:320-323. -/
def ctL1 (c : CT K) : Assign K :=
  [([2], c.DTCharged), ([4], c.DT1), ([6], c.DT2), ([7], c.DT3)]

/-- `Curvature_Higgs_CT_L2`, ClassPotentialC2HDM.cpp:325-348. -/
def ctL2 (c : CT K) : Assign K :=
  [([0, 0], c.Du1CT), ([0, 2], -c.DRu3CT), ([0, 3], c.DIu3CT), ([1, 1], c.Du1CT),
   ([1, 2], -c.DIu3CT), ([1, 3], -c.DRu3CT), ([2, 0], -c.DRu3CT), ([2, 1], -c.DIu3CT),
   ([2, 2], c.Du2CT), ([3, 0], c.DIu3CT), ([3, 1], -c.DRu3CT), ([3, 3], c.Du2CT),
   ([4, 4], c.Du1CT), ([4, 6], -c.DRu3CT), ([4, 7], c.DIu3CT), ([5, 5], c.Du1CT),
   ([5, 6], -c.DIu3CT), ([5, 7], -c.DRu3CT), ([6, 4], -c.DRu3CT), ([6, 5], -c.DIu3CT),
   ([6, 6], c.Du2CT), ([7, 4], c.DIu3CT), ([7, 5], -c.DRu3CT), ([7, 7], c.Du2CT)]

/-- `Curvature_Higgs_CT_L4`, ClassPotentialC2HDM.cpp:351-585. First index 0. -/
def ctL4_0 (c : CT K) : Assign K :=
  [([0, 0, 0, 0], 3 * c.DL1CT), ([0, 0, 0, 3], -3 * c.DIL6CT), ([0, 0, 1, 1], c.DL1CT),
   ([0, 0, 1, 2], c.DIL6CT), ([0, 0, 2, 1], c.DIL6CT),
   ([0, 0, 2, 2], c.DL3CT + c.DL4CT + c.DRL5CT), ([0, 0, 2, 3], -c.DIL5CT),
   ([0, 0, 3, 0], -3 * c.DIL6CT), ([0, 0, 3, 2], -c.DIL5CT),
   ([0, 0, 3, 3], c.DL3CT + c.DL4CT - c.DRL5CT), ([0, 0, 4, 4], c.DL1CT),
   ([0, 0, 4, 7], -c.DIL6CT), ([0, 0, 5, 5], c.DL1CT), ([0, 0, 5, 6], c.DIL6CT),
   ([0, 0, 6, 5], c.DIL6CT), ([0, 0, 6, 6], c.DL3CT), ([0, 0, 7, 4], -c.DIL6CT),
   ([0, 0, 7, 7], c.DL3CT), ([0, 1, 0, 1], c.DL1CT), ([0, 1, 0, 2], c.DIL6CT),
   ([0, 1, 1, 0], c.DL1CT), ([0, 1, 1, 3], -c.DIL6CT), ([0, 1, 2, 0], c.DIL6CT),
   ([0, 1, 2, 2], c.DIL5CT), ([0, 1, 2, 3], c.DRL5CT), ([0, 1, 3, 1], -c.DIL6CT),
   ([0, 1, 3, 2], c.DRL5CT), ([0, 1, 3, 3], -c.DIL5CT), ([0, 2, 0, 1], c.DIL6CT),
   ([0, 2, 0, 2], c.DL3CT + c.DL4CT + c.DRL5CT), ([0, 2, 0, 3], -c.DIL5CT),
   ([0, 2, 1, 0], c.DIL6CT), ([0, 2, 1, 2], c.DIL5CT), ([0, 2, 1, 3], c.DRL5CT),
   ([0, 2, 2, 0], c.DL3CT + c.DL4CT + c.DRL5CT), ([0, 2, 2, 1], c.DIL5CT),
   ([0, 2, 3, 0], -c.DIL5CT), ([0, 2, 3, 1], c.DRL5CT),
   ([0, 2, 4, 6], c.DL4CT / 2 + c.DRL5CT / 2), ([0, 2, 4, 7], -c.DIL5CT / 2),
   ([0, 2, 5, 6], c.DIL5CT / 2), ([0, 2, 5, 7], c.DL4CT / 2 + c.DRL5CT / 2),
   ([0, 2, 6, 4], c.DL4CT / 2 + c.DRL5CT / 2), ([0, 2, 6, 5], c.DIL5CT / 2),
   ([0, 2, 7, 4], -c.DIL5CT / 2), ([0, 2, 7, 5], c.DL4CT / 2 + c.DRL5CT / 2),
   ([0, 3, 0, 0], -3 * c.DIL6CT), ([0, 3, 0, 2], -c.DIL5CT),
   ([0, 3, 0, 3], c.DL3CT + c.DL4CT - c.DRL5CT), ([0, 3, 1, 1], -c.DIL6CT),
   ([0, 3, 1, 2], c.DRL5CT), ([0, 3, 1, 3], -c.DIL5CT), ([0, 3, 2, 0], -c.DIL5CT),
   ([0, 3, 2, 1], c.DRL5CT), ([0, 3, 3, 0], c.DL3CT + c.DL4CT - c.DRL5CT),
   ([0, 3, 3, 1], -c.DIL5CT), ([0, 3, 4, 4], -c.DIL6CT), ([0, 3, 4, 6], -c.DIL5CT / 2),
   ([0, 3, 4, 7], c.DL4CT / 2 - c.DRL5CT / 2), ([0, 3, 5, 5], -c.DIL6CT),
   ([0, 3, 5, 6], -c.DL4CT / 2 + c.DRL5CT / 2), ([0, 3, 5, 7], -c.DIL5CT / 2),
   ([0, 3, 6, 4], -c.DIL5CT / 2), ([0, 3, 6, 5], -c.DL4CT / 2 + c.DRL5CT / 2),
   ([0, 3, 7, 4], c.DL4CT / 2 - c.DRL5CT / 2), ([0, 3, 7, 5], -c.DIL5CT / 2),
   ([0, 4, 0, 4], c.DL1CT), ([0, 4, 0, 7], -c.DIL6CT), ([0, 4, 2, 6], c.DL4CT / 2 + c.DRL5CT / 2),
   ([0, 4, 2, 7], -c.DIL5CT / 2), ([0, 4, 3, 4], -c.DIL6CT), ([0, 4, 3, 6], -c.DIL5CT / 2),
   ([0, 4, 3, 7], c.DL4CT / 2 - c.DRL5CT / 2), ([0, 4, 4, 0], c.DL1CT), ([0, 4, 4, 3], -c.DIL6CT),
   ([0, 4, 6, 2], c.DL4CT / 2 + c.DRL5CT / 2), ([0, 4, 6, 3], -c.DIL5CT / 2),
   ([0, 4, 7, 0], -c.DIL6CT), ([0, 4, 7, 2], -c.DIL5CT / 2),
   ([0, 4, 7, 3], c.DL4CT / 2 - c.DRL5CT / 2), ([0, 5, 0, 5], c.DL1CT), ([0, 5, 0, 6], c.DIL6CT),
   ([0, 5, 2, 6], c.DIL5CT / 2), ([0, 5, 2, 7], c.DL4CT / 2 + c.DRL5CT / 2),
   ([0, 5, 3, 5], -c.DIL6CT), ([0, 5, 3, 6], -c.DL4CT / 2 + c.DRL5CT / 2),
   ([0, 5, 3, 7], -c.DIL5CT / 2), ([0, 5, 5, 0], c.DL1CT), ([0, 5, 5, 3], -c.DIL6CT),
   ([0, 5, 6, 0], c.DIL6CT), ([0, 5, 6, 2], c.DIL5CT / 2),
   ([0, 5, 6, 3], -c.DL4CT / 2 + c.DRL5CT / 2), ([0, 5, 7, 2], c.DL4CT / 2 + c.DRL5CT / 2),
   ([0, 5, 7, 3], -c.DIL5CT / 2), ([0, 6, 0, 5], c.DIL6CT), ([0, 6, 0, 6], c.DL3CT),
   ([0, 6, 2, 4], c.DL4CT / 2 + c.DRL5CT / 2), ([0, 6, 2, 5], c.DIL5CT / 2),
   ([0, 6, 3, 4], -c.DIL5CT / 2), ([0, 6, 3, 5], -c.DL4CT / 2 + c.DRL5CT / 2),
   ([0, 6, 4, 2], c.DL4CT / 2 + c.DRL5CT / 2), ([0, 6, 4, 3], -c.DIL5CT / 2),
   ([0, 6, 5, 0], c.DIL6CT), ([0, 6, 5, 2], c.DIL5CT / 2),
   ([0, 6, 5, 3], -c.DL4CT / 2 + c.DRL5CT / 2), ([0, 6, 6, 0], c.DL3CT),
   ([0, 7, 0, 4], -c.DIL6CT), ([0, 7, 0, 7], c.DL3CT), ([0, 7, 2, 4], -c.DIL5CT / 2),
   ([0, 7, 2, 5], c.DL4CT / 2 + c.DRL5CT / 2), ([0, 7, 3, 4], c.DL4CT / 2 - c.DRL5CT / 2),
   ([0, 7, 3, 5], -c.DIL5CT / 2), ([0, 7, 4, 0], -c.DIL6CT), ([0, 7, 4, 2], -c.DIL5CT / 2),
   ([0, 7, 4, 3], c.DL4CT / 2 - c.DRL5CT / 2), ([0, 7, 5, 2], c.DL4CT / 2 + c.DRL5CT / 2),
   ([0, 7, 5, 3], -c.DIL5CT / 2), ([0, 7, 7, 0], c.DL3CT)]

/-- `Curvature_Higgs_CT_L4`, ClassPotentialC2HDM.cpp:587-821. First index 1. -/
def ctL4_1 (c : CT K) : Assign K :=
  [([1, 0, 0, 1], c.DL1CT), ([1, 0, 0, 2], c.DIL6CT), ([1, 0, 1, 0], c.DL1CT),
   ([1, 0, 1, 3], -c.DIL6CT), ([1, 0, 2, 0], c.DIL6CT), ([1, 0, 2, 2], c.DIL5CT),
   ([1, 0, 2, 3], c.DRL5CT), ([1, 0, 3, 1], -c.DIL6CT), ([1, 0, 3, 2], c.DRL5CT),
   ([1, 0, 3, 3], -c.DIL5CT), ([1, 1, 0, 0], c.DL1CT), ([1, 1, 0, 3], -c.DIL6CT),
   ([1, 1, 1, 1], 3 * c.DL1CT), ([1, 1, 1, 2], 3 * c.DIL6CT), ([1, 1, 2, 1], 3 * c.DIL6CT),
   ([1, 1, 2, 2], c.DL3CT + c.DL4CT - c.DRL5CT), ([1, 1, 2, 3], c.DIL5CT),
   ([1, 1, 3, 0], -c.DIL6CT), ([1, 1, 3, 2], c.DIL5CT),
   ([1, 1, 3, 3], c.DL3CT + c.DL4CT + c.DRL5CT), ([1, 1, 4, 4], c.DL1CT),
   ([1, 1, 4, 7], -c.DIL6CT), ([1, 1, 5, 5], c.DL1CT), ([1, 1, 5, 6], c.DIL6CT),
   ([1, 1, 6, 5], c.DIL6CT), ([1, 1, 6, 6], c.DL3CT), ([1, 1, 7, 4], -c.DIL6CT),
   ([1, 1, 7, 7], c.DL3CT), ([1, 2, 0, 0], c.DIL6CT), ([1, 2, 0, 2], c.DIL5CT),
   ([1, 2, 0, 3], c.DRL5CT), ([1, 2, 1, 1], 3 * c.DIL6CT),
   ([1, 2, 1, 2], c.DL3CT + c.DL4CT - c.DRL5CT), ([1, 2, 1, 3], c.DIL5CT),
   ([1, 2, 2, 0], c.DIL5CT), ([1, 2, 2, 1], c.DL3CT + c.DL4CT - c.DRL5CT),
   ([1, 2, 3, 0], c.DRL5CT), ([1, 2, 3, 1], c.DIL5CT), ([1, 2, 4, 4], c.DIL6CT),
   ([1, 2, 4, 6], c.DIL5CT / 2), ([1, 2, 4, 7], -c.DL4CT / 2 + c.DRL5CT / 2),
   ([1, 2, 5, 5], c.DIL6CT), ([1, 2, 5, 6], c.DL4CT / 2 - c.DRL5CT / 2),
   ([1, 2, 5, 7], c.DIL5CT / 2), ([1, 2, 6, 4], c.DIL5CT / 2),
   ([1, 2, 6, 5], c.DL4CT / 2 - c.DRL5CT / 2), ([1, 2, 7, 4], -c.DL4CT / 2 + c.DRL5CT / 2),
   ([1, 2, 7, 5], c.DIL5CT / 2), ([1, 3, 0, 1], -c.DIL6CT), ([1, 3, 0, 2], c.DRL5CT),
   ([1, 3, 0, 3], -c.DIL5CT), ([1, 3, 1, 0], -c.DIL6CT), ([1, 3, 1, 2], c.DIL5CT),
   ([1, 3, 1, 3], c.DL3CT + c.DL4CT + c.DRL5CT), ([1, 3, 2, 0], c.DRL5CT),
   ([1, 3, 2, 1], c.DIL5CT), ([1, 3, 3, 0], -c.DIL5CT),
   ([1, 3, 3, 1], c.DL3CT + c.DL4CT + c.DRL5CT), ([1, 3, 4, 6], c.DL4CT / 2 + c.DRL5CT / 2),
   ([1, 3, 4, 7], -c.DIL5CT / 2), ([1, 3, 5, 6], c.DIL5CT / 2),
   ([1, 3, 5, 7], c.DL4CT / 2 + c.DRL5CT / 2), ([1, 3, 6, 4], c.DL4CT / 2 + c.DRL5CT / 2),
   ([1, 3, 6, 5], c.DIL5CT / 2), ([1, 3, 7, 4], -c.DIL5CT / 2),
   ([1, 3, 7, 5], c.DL4CT / 2 + c.DRL5CT / 2), ([1, 4, 1, 4], c.DL1CT), ([1, 4, 1, 7], -c.DIL6CT),
   ([1, 4, 2, 4], c.DIL6CT), ([1, 4, 2, 6], c.DIL5CT / 2),
   ([1, 4, 2, 7], -c.DL4CT / 2 + c.DRL5CT / 2), ([1, 4, 3, 6], c.DL4CT / 2 + c.DRL5CT / 2),
   ([1, 4, 3, 7], -c.DIL5CT / 2), ([1, 4, 4, 1], c.DL1CT), ([1, 4, 4, 2], c.DIL6CT),
   ([1, 4, 6, 2], c.DIL5CT / 2), ([1, 4, 6, 3], c.DL4CT / 2 + c.DRL5CT / 2),
   ([1, 4, 7, 1], -c.DIL6CT), ([1, 4, 7, 2], -c.DL4CT / 2 + c.DRL5CT / 2),
   ([1, 4, 7, 3], -c.DIL5CT / 2), ([1, 5, 1, 5], c.DL1CT), ([1, 5, 1, 6], c.DIL6CT),
   ([1, 5, 2, 5], c.DIL6CT), ([1, 5, 2, 6], c.DL4CT / 2 - c.DRL5CT / 2),
   ([1, 5, 2, 7], c.DIL5CT / 2), ([1, 5, 3, 6], c.DIL5CT / 2),
   ([1, 5, 3, 7], c.DL4CT / 2 + c.DRL5CT / 2), ([1, 5, 5, 1], c.DL1CT), ([1, 5, 5, 2], c.DIL6CT),
   ([1, 5, 6, 1], c.DIL6CT), ([1, 5, 6, 2], c.DL4CT / 2 - c.DRL5CT / 2),
   ([1, 5, 6, 3], c.DIL5CT / 2), ([1, 5, 7, 2], c.DIL5CT / 2),
   ([1, 5, 7, 3], c.DL4CT / 2 + c.DRL5CT / 2), ([1, 6, 1, 5], c.DIL6CT), ([1, 6, 1, 6], c.DL3CT),
   ([1, 6, 2, 4], c.DIL5CT / 2), ([1, 6, 2, 5], c.DL4CT / 2 - c.DRL5CT / 2),
   ([1, 6, 3, 4], c.DL4CT / 2 + c.DRL5CT / 2), ([1, 6, 3, 5], c.DIL5CT / 2),
   ([1, 6, 4, 2], c.DIL5CT / 2), ([1, 6, 4, 3], c.DL4CT / 2 + c.DRL5CT / 2),
   ([1, 6, 5, 1], c.DIL6CT), ([1, 6, 5, 2], c.DL4CT / 2 - c.DRL5CT / 2),
   ([1, 6, 5, 3], c.DIL5CT / 2), ([1, 6, 6, 1], c.DL3CT), ([1, 7, 1, 4], -c.DIL6CT),
   ([1, 7, 1, 7], c.DL3CT), ([1, 7, 2, 4], -c.DL4CT / 2 + c.DRL5CT / 2),
   ([1, 7, 2, 5], c.DIL5CT / 2), ([1, 7, 3, 4], -c.DIL5CT / 2),
   ([1, 7, 3, 5], c.DL4CT / 2 + c.DRL5CT / 2), ([1, 7, 4, 1], -c.DIL6CT),
   ([1, 7, 4, 2], -c.DL4CT / 2 + c.DRL5CT / 2), ([1, 7, 4, 3], -c.DIL5CT / 2),
   ([1, 7, 5, 2], c.DIL5CT / 2), ([1, 7, 5, 3], c.DL4CT / 2 + c.DRL5CT / 2),
   ([1, 7, 7, 1], c.DL3CT)]

/-- `Curvature_Higgs_CT_L4`, ClassPotentialC2HDM.cpp:823-1017. First index 2. -/
def ctL4_2 (c : CT K) : Assign K :=
  [([2, 0, 0, 1], c.DIL6CT), ([2, 0, 0, 2], c.DL3CT + c.DL4CT + c.DRL5CT),
   ([2, 0, 0, 3], -c.DIL5CT), ([2, 0, 1, 0], c.DIL6CT), ([2, 0, 1, 2], c.DIL5CT),
   ([2, 0, 1, 3], c.DRL5CT), ([2, 0, 2, 0], c.DL3CT + c.DL4CT + c.DRL5CT),
   ([2, 0, 2, 1], c.DIL5CT), ([2, 0, 3, 0], -c.DIL5CT), ([2, 0, 3, 1], c.DRL5CT),
   ([2, 0, 4, 6], c.DL4CT / 2 + c.DRL5CT / 2), ([2, 0, 4, 7], -c.DIL5CT / 2),
   ([2, 0, 5, 6], c.DIL5CT / 2), ([2, 0, 5, 7], c.DL4CT / 2 + c.DRL5CT / 2),
   ([2, 0, 6, 4], c.DL4CT / 2 + c.DRL5CT / 2), ([2, 0, 6, 5], c.DIL5CT / 2),
   ([2, 0, 7, 4], -c.DIL5CT / 2), ([2, 0, 7, 5], c.DL4CT / 2 + c.DRL5CT / 2),
   ([2, 1, 0, 0], c.DIL6CT), ([2, 1, 0, 2], c.DIL5CT), ([2, 1, 0, 3], c.DRL5CT),
   ([2, 1, 1, 1], 3 * c.DIL6CT), ([2, 1, 1, 2], c.DL3CT + c.DL4CT - c.DRL5CT),
   ([2, 1, 1, 3], c.DIL5CT), ([2, 1, 2, 0], c.DIL5CT),
   ([2, 1, 2, 1], c.DL3CT + c.DL4CT - c.DRL5CT), ([2, 1, 3, 0], c.DRL5CT),
   ([2, 1, 3, 1], c.DIL5CT), ([2, 1, 4, 4], c.DIL6CT), ([2, 1, 4, 6], c.DIL5CT / 2),
   ([2, 1, 4, 7], -c.DL4CT / 2 + c.DRL5CT / 2), ([2, 1, 5, 5], c.DIL6CT),
   ([2, 1, 5, 6], c.DL4CT / 2 - c.DRL5CT / 2), ([2, 1, 5, 7], c.DIL5CT / 2),
   ([2, 1, 6, 4], c.DIL5CT / 2), ([2, 1, 6, 5], c.DL4CT / 2 - c.DRL5CT / 2),
   ([2, 1, 7, 4], -c.DL4CT / 2 + c.DRL5CT / 2), ([2, 1, 7, 5], c.DIL5CT / 2),
   ([2, 2, 0, 0], c.DL3CT + c.DL4CT + c.DRL5CT), ([2, 2, 0, 1], c.DIL5CT),
   ([2, 2, 1, 0], c.DIL5CT), ([2, 2, 1, 1], c.DL3CT + c.DL4CT - c.DRL5CT),
   ([2, 2, 2, 2], 3 * c.DL2CT), ([2, 2, 3, 3], c.DL2CT), ([2, 2, 4, 4], c.DL3CT),
   ([2, 2, 5, 5], c.DL3CT), ([2, 2, 6, 6], c.DL2CT), ([2, 2, 7, 7], c.DL2CT),
   ([2, 3, 0, 0], -c.DIL5CT), ([2, 3, 0, 1], c.DRL5CT), ([2, 3, 1, 0], c.DRL5CT),
   ([2, 3, 1, 1], c.DIL5CT), ([2, 3, 2, 3], c.DL2CT), ([2, 3, 3, 2], c.DL2CT),
   ([2, 4, 0, 6], c.DL4CT / 2 + c.DRL5CT / 2), ([2, 4, 0, 7], -c.DIL5CT / 2),
   ([2, 4, 1, 4], c.DIL6CT), ([2, 4, 1, 6], c.DIL5CT / 2),
   ([2, 4, 1, 7], -c.DL4CT / 2 + c.DRL5CT / 2), ([2, 4, 2, 4], c.DL3CT), ([2, 4, 4, 1], c.DIL6CT),
   ([2, 4, 4, 2], c.DL3CT), ([2, 4, 6, 0], c.DL4CT / 2 + c.DRL5CT / 2),
   ([2, 4, 6, 1], c.DIL5CT / 2), ([2, 4, 7, 0], -c.DIL5CT / 2),
   ([2, 4, 7, 1], -c.DL4CT / 2 + c.DRL5CT / 2), ([2, 5, 0, 6], c.DIL5CT / 2),
   ([2, 5, 0, 7], c.DL4CT / 2 + c.DRL5CT / 2), ([2, 5, 1, 5], c.DIL6CT),
   ([2, 5, 1, 6], c.DL4CT / 2 - c.DRL5CT / 2), ([2, 5, 1, 7], c.DIL5CT / 2),
   ([2, 5, 2, 5], c.DL3CT), ([2, 5, 5, 1], c.DIL6CT), ([2, 5, 5, 2], c.DL3CT),
   ([2, 5, 6, 0], c.DIL5CT / 2), ([2, 5, 6, 1], c.DL4CT / 2 - c.DRL5CT / 2),
   ([2, 5, 7, 0], c.DL4CT / 2 + c.DRL5CT / 2), ([2, 5, 7, 1], c.DIL5CT / 2),
   ([2, 6, 0, 4], c.DL4CT / 2 + c.DRL5CT / 2), ([2, 6, 0, 5], c.DIL5CT / 2),
   ([2, 6, 1, 4], c.DIL5CT / 2), ([2, 6, 1, 5], c.DL4CT / 2 - c.DRL5CT / 2),
   ([2, 6, 2, 6], c.DL2CT), ([2, 6, 4, 0], c.DL4CT / 2 + c.DRL5CT / 2),
   ([2, 6, 4, 1], c.DIL5CT / 2), ([2, 6, 5, 0], c.DIL5CT / 2),
   ([2, 6, 5, 1], c.DL4CT / 2 - c.DRL5CT / 2), ([2, 6, 6, 2], c.DL2CT),
   ([2, 7, 0, 4], -c.DIL5CT / 2), ([2, 7, 0, 5], c.DL4CT / 2 + c.DRL5CT / 2),
   ([2, 7, 1, 4], -c.DL4CT / 2 + c.DRL5CT / 2), ([2, 7, 1, 5], c.DIL5CT / 2),
   ([2, 7, 2, 7], c.DL2CT), ([2, 7, 4, 0], -c.DIL5CT / 2),
   ([2, 7, 4, 1], -c.DL4CT / 2 + c.DRL5CT / 2), ([2, 7, 5, 0], c.DL4CT / 2 + c.DRL5CT / 2),
   ([2, 7, 5, 1], c.DIL5CT / 2), ([2, 7, 7, 2], c.DL2CT)]

/-- `Curvature_Higgs_CT_L4`, ClassPotentialC2HDM.cpp:1019-1213. First index 3. -/
def ctL4_3 (c : CT K) : Assign K :=
  [([3, 0, 0, 0], -3 * c.DIL6CT), ([3, 0, 0, 2], -c.DIL5CT),
   ([3, 0, 0, 3], c.DL3CT + c.DL4CT - c.DRL5CT), ([3, 0, 1, 1], -c.DIL6CT),
   ([3, 0, 1, 2], c.DRL5CT), ([3, 0, 1, 3], -c.DIL5CT), ([3, 0, 2, 0], -c.DIL5CT),
   ([3, 0, 2, 1], c.DRL5CT), ([3, 0, 3, 0], c.DL3CT + c.DL4CT - c.DRL5CT),
   ([3, 0, 3, 1], -c.DIL5CT), ([3, 0, 4, 4], -c.DIL6CT), ([3, 0, 4, 6], -c.DIL5CT / 2),
   ([3, 0, 4, 7], c.DL4CT / 2 - c.DRL5CT / 2), ([3, 0, 5, 5], -c.DIL6CT),
   ([3, 0, 5, 6], -c.DL4CT / 2 + c.DRL5CT / 2), ([3, 0, 5, 7], -c.DIL5CT / 2),
   ([3, 0, 6, 4], -c.DIL5CT / 2), ([3, 0, 6, 5], -c.DL4CT / 2 + c.DRL5CT / 2),
   ([3, 0, 7, 4], c.DL4CT / 2 - c.DRL5CT / 2), ([3, 0, 7, 5], -c.DIL5CT / 2),
   ([3, 1, 0, 1], -c.DIL6CT), ([3, 1, 0, 2], c.DRL5CT), ([3, 1, 0, 3], -c.DIL5CT),
   ([3, 1, 1, 0], -c.DIL6CT), ([3, 1, 1, 2], c.DIL5CT),
   ([3, 1, 1, 3], c.DL3CT + c.DL4CT + c.DRL5CT), ([3, 1, 2, 0], c.DRL5CT),
   ([3, 1, 2, 1], c.DIL5CT), ([3, 1, 3, 0], -c.DIL5CT),
   ([3, 1, 3, 1], c.DL3CT + c.DL4CT + c.DRL5CT), ([3, 1, 4, 6], c.DL4CT / 2 + c.DRL5CT / 2),
   ([3, 1, 4, 7], -c.DIL5CT / 2), ([3, 1, 5, 6], c.DIL5CT / 2),
   ([3, 1, 5, 7], c.DL4CT / 2 + c.DRL5CT / 2), ([3, 1, 6, 4], c.DL4CT / 2 + c.DRL5CT / 2),
   ([3, 1, 6, 5], c.DIL5CT / 2), ([3, 1, 7, 4], -c.DIL5CT / 2),
   ([3, 1, 7, 5], c.DL4CT / 2 + c.DRL5CT / 2), ([3, 2, 0, 0], -c.DIL5CT),
   ([3, 2, 0, 1], c.DRL5CT), ([3, 2, 1, 0], c.DRL5CT), ([3, 2, 1, 1], c.DIL5CT),
   ([3, 2, 2, 3], c.DL2CT), ([3, 2, 3, 2], c.DL2CT), ([3, 3, 0, 0], c.DL3CT + c.DL4CT - c.DRL5CT),
   ([3, 3, 0, 1], -c.DIL5CT), ([3, 3, 1, 0], -c.DIL5CT),
   ([3, 3, 1, 1], c.DL3CT + c.DL4CT + c.DRL5CT), ([3, 3, 2, 2], c.DL2CT),
   ([3, 3, 3, 3], 3 * c.DL2CT), ([3, 3, 4, 4], c.DL3CT), ([3, 3, 5, 5], c.DL3CT),
   ([3, 3, 6, 6], c.DL2CT), ([3, 3, 7, 7], c.DL2CT), ([3, 4, 0, 4], -c.DIL6CT),
   ([3, 4, 0, 6], -c.DIL5CT / 2), ([3, 4, 0, 7], c.DL4CT / 2 - c.DRL5CT / 2),
   ([3, 4, 1, 6], c.DL4CT / 2 + c.DRL5CT / 2), ([3, 4, 1, 7], -c.DIL5CT / 2),
   ([3, 4, 3, 4], c.DL3CT), ([3, 4, 4, 0], -c.DIL6CT), ([3, 4, 4, 3], c.DL3CT),
   ([3, 4, 6, 0], -c.DIL5CT / 2), ([3, 4, 6, 1], c.DL4CT / 2 + c.DRL5CT / 2),
   ([3, 4, 7, 0], c.DL4CT / 2 - c.DRL5CT / 2), ([3, 4, 7, 1], -c.DIL5CT / 2),
   ([3, 5, 0, 5], -c.DIL6CT), ([3, 5, 0, 6], -c.DL4CT / 2 + c.DRL5CT / 2),
   ([3, 5, 0, 7], -c.DIL5CT / 2), ([3, 5, 1, 6], c.DIL5CT / 2),
   ([3, 5, 1, 7], c.DL4CT / 2 + c.DRL5CT / 2), ([3, 5, 3, 5], c.DL3CT), ([3, 5, 5, 0], -c.DIL6CT),
   ([3, 5, 5, 3], c.DL3CT), ([3, 5, 6, 0], -c.DL4CT / 2 + c.DRL5CT / 2),
   ([3, 5, 6, 1], c.DIL5CT / 2), ([3, 5, 7, 0], -c.DIL5CT / 2),
   ([3, 5, 7, 1], c.DL4CT / 2 + c.DRL5CT / 2), ([3, 6, 0, 4], -c.DIL5CT / 2),
   ([3, 6, 0, 5], -c.DL4CT / 2 + c.DRL5CT / 2), ([3, 6, 1, 4], c.DL4CT / 2 + c.DRL5CT / 2),
   ([3, 6, 1, 5], c.DIL5CT / 2), ([3, 6, 3, 6], c.DL2CT), ([3, 6, 4, 0], -c.DIL5CT / 2),
   ([3, 6, 4, 1], c.DL4CT / 2 + c.DRL5CT / 2), ([3, 6, 5, 0], -c.DL4CT / 2 + c.DRL5CT / 2),
   ([3, 6, 5, 1], c.DIL5CT / 2), ([3, 6, 6, 3], c.DL2CT),
   ([3, 7, 0, 4], c.DL4CT / 2 - c.DRL5CT / 2), ([3, 7, 0, 5], -c.DIL5CT / 2),
   ([3, 7, 1, 4], -c.DIL5CT / 2), ([3, 7, 1, 5], c.DL4CT / 2 + c.DRL5CT / 2),
   ([3, 7, 3, 7], c.DL2CT), ([3, 7, 4, 0], c.DL4CT / 2 - c.DRL5CT / 2),
   ([3, 7, 4, 1], -c.DIL5CT / 2), ([3, 7, 5, 0], -c.DIL5CT / 2),
   ([3, 7, 5, 1], c.DL4CT / 2 + c.DRL5CT / 2), ([3, 7, 7, 3], c.DL2CT)]

/-- `Curvature_Higgs_CT_L4`, ClassPotentialC2HDM.cpp:1215-1449. First index 4. -/
def ctL4_4 (c : CT K) : Assign K :=
  [([4, 0, 0, 4], c.DL1CT), ([4, 0, 0, 7], -c.DIL6CT), ([4, 0, 2, 6], c.DL4CT / 2 + c.DRL5CT / 2),
   ([4, 0, 2, 7], -c.DIL5CT / 2), ([4, 0, 3, 4], -c.DIL6CT), ([4, 0, 3, 6], -c.DIL5CT / 2),
   ([4, 0, 3, 7], c.DL4CT / 2 - c.DRL5CT / 2), ([4, 0, 4, 0], c.DL1CT), ([4, 0, 4, 3], -c.DIL6CT),
   ([4, 0, 6, 2], c.DL4CT / 2 + c.DRL5CT / 2), ([4, 0, 6, 3], -c.DIL5CT / 2),
   ([4, 0, 7, 0], -c.DIL6CT), ([4, 0, 7, 2], -c.DIL5CT / 2),
   ([4, 0, 7, 3], c.DL4CT / 2 - c.DRL5CT / 2), ([4, 1, 1, 4], c.DL1CT), ([4, 1, 1, 7], -c.DIL6CT),
   ([4, 1, 2, 4], c.DIL6CT), ([4, 1, 2, 6], c.DIL5CT / 2),
   ([4, 1, 2, 7], -c.DL4CT / 2 + c.DRL5CT / 2), ([4, 1, 3, 6], c.DL4CT / 2 + c.DRL5CT / 2),
   ([4, 1, 3, 7], -c.DIL5CT / 2), ([4, 1, 4, 1], c.DL1CT), ([4, 1, 4, 2], c.DIL6CT),
   ([4, 1, 6, 2], c.DIL5CT / 2), ([4, 1, 6, 3], c.DL4CT / 2 + c.DRL5CT / 2),
   ([4, 1, 7, 1], -c.DIL6CT), ([4, 1, 7, 2], -c.DL4CT / 2 + c.DRL5CT / 2),
   ([4, 1, 7, 3], -c.DIL5CT / 2), ([4, 2, 0, 6], c.DL4CT / 2 + c.DRL5CT / 2),
   ([4, 2, 0, 7], -c.DIL5CT / 2), ([4, 2, 1, 4], c.DIL6CT), ([4, 2, 1, 6], c.DIL5CT / 2),
   ([4, 2, 1, 7], -c.DL4CT / 2 + c.DRL5CT / 2), ([4, 2, 2, 4], c.DL3CT), ([4, 2, 4, 1], c.DIL6CT),
   ([4, 2, 4, 2], c.DL3CT), ([4, 2, 6, 0], c.DL4CT / 2 + c.DRL5CT / 2),
   ([4, 2, 6, 1], c.DIL5CT / 2), ([4, 2, 7, 0], -c.DIL5CT / 2),
   ([4, 2, 7, 1], -c.DL4CT / 2 + c.DRL5CT / 2), ([4, 3, 0, 4], -c.DIL6CT),
   ([4, 3, 0, 6], -c.DIL5CT / 2), ([4, 3, 0, 7], c.DL4CT / 2 - c.DRL5CT / 2),
   ([4, 3, 1, 6], c.DL4CT / 2 + c.DRL5CT / 2), ([4, 3, 1, 7], -c.DIL5CT / 2),
   ([4, 3, 3, 4], c.DL3CT), ([4, 3, 4, 0], -c.DIL6CT), ([4, 3, 4, 3], c.DL3CT),
   ([4, 3, 6, 0], -c.DIL5CT / 2), ([4, 3, 6, 1], c.DL4CT / 2 + c.DRL5CT / 2),
   ([4, 3, 7, 0], c.DL4CT / 2 - c.DRL5CT / 2), ([4, 3, 7, 1], -c.DIL5CT / 2),
   ([4, 4, 0, 0], c.DL1CT), ([4, 4, 0, 3], -c.DIL6CT), ([4, 4, 1, 1], c.DL1CT),
   ([4, 4, 1, 2], c.DIL6CT), ([4, 4, 2, 1], c.DIL6CT), ([4, 4, 2, 2], c.DL3CT),
   ([4, 4, 3, 0], -c.DIL6CT), ([4, 4, 3, 3], c.DL3CT), ([4, 4, 4, 4], 3 * c.DL1CT),
   ([4, 4, 4, 7], -3 * c.DIL6CT), ([4, 4, 5, 5], c.DL1CT), ([4, 4, 5, 6], c.DIL6CT),
   ([4, 4, 6, 5], c.DIL6CT), ([4, 4, 6, 6], c.DL3CT + c.DL4CT + c.DRL5CT),
   ([4, 4, 6, 7], -c.DIL5CT), ([4, 4, 7, 4], -3 * c.DIL6CT), ([4, 4, 7, 6], -c.DIL5CT),
   ([4, 4, 7, 7], c.DL3CT + c.DL4CT - c.DRL5CT), ([4, 5, 4, 5], c.DL1CT),
   ([4, 5, 4, 6], c.DIL6CT), ([4, 5, 5, 4], c.DL1CT), ([4, 5, 5, 7], -c.DIL6CT),
   ([4, 5, 6, 4], c.DIL6CT), ([4, 5, 6, 6], c.DIL5CT), ([4, 5, 6, 7], c.DRL5CT),
   ([4, 5, 7, 5], -c.DIL6CT), ([4, 5, 7, 6], c.DRL5CT), ([4, 5, 7, 7], -c.DIL5CT),
   ([4, 6, 0, 2], c.DL4CT / 2 + c.DRL5CT / 2), ([4, 6, 0, 3], -c.DIL5CT / 2),
   ([4, 6, 1, 2], c.DIL5CT / 2), ([4, 6, 1, 3], c.DL4CT / 2 + c.DRL5CT / 2),
   ([4, 6, 2, 0], c.DL4CT / 2 + c.DRL5CT / 2), ([4, 6, 2, 1], c.DIL5CT / 2),
   ([4, 6, 3, 0], -c.DIL5CT / 2), ([4, 6, 3, 1], c.DL4CT / 2 + c.DRL5CT / 2),
   ([4, 6, 4, 5], c.DIL6CT), ([4, 6, 4, 6], c.DL3CT + c.DL4CT + c.DRL5CT),
   ([4, 6, 4, 7], -c.DIL5CT), ([4, 6, 5, 4], c.DIL6CT), ([4, 6, 5, 6], c.DIL5CT),
   ([4, 6, 5, 7], c.DRL5CT), ([4, 6, 6, 4], c.DL3CT + c.DL4CT + c.DRL5CT),
   ([4, 6, 6, 5], c.DIL5CT), ([4, 6, 7, 4], -c.DIL5CT), ([4, 6, 7, 5], c.DRL5CT),
   ([4, 7, 0, 0], -c.DIL6CT), ([4, 7, 0, 2], -c.DIL5CT / 2),
   ([4, 7, 0, 3], c.DL4CT / 2 - c.DRL5CT / 2), ([4, 7, 1, 1], -c.DIL6CT),
   ([4, 7, 1, 2], -c.DL4CT / 2 + c.DRL5CT / 2), ([4, 7, 1, 3], -c.DIL5CT / 2),
   ([4, 7, 2, 0], -c.DIL5CT / 2), ([4, 7, 2, 1], -c.DL4CT / 2 + c.DRL5CT / 2),
   ([4, 7, 3, 0], c.DL4CT / 2 - c.DRL5CT / 2), ([4, 7, 3, 1], -c.DIL5CT / 2),
   ([4, 7, 4, 4], -3 * c.DIL6CT), ([4, 7, 4, 6], -c.DIL5CT),
   ([4, 7, 4, 7], c.DL3CT + c.DL4CT - c.DRL5CT), ([4, 7, 5, 5], -c.DIL6CT),
   ([4, 7, 5, 6], c.DRL5CT), ([4, 7, 5, 7], -c.DIL5CT), ([4, 7, 6, 4], -c.DIL5CT),
   ([4, 7, 6, 5], c.DRL5CT), ([4, 7, 7, 4], c.DL3CT + c.DL4CT - c.DRL5CT),
   ([4, 7, 7, 5], -c.DIL5CT)]

/-- `Curvature_Higgs_CT_L4`, ClassPotentialC2HDM.cpp:1451-1685. First index 5. -/
def ctL4_5 (c : CT K) : Assign K :=
  [([5, 0, 0, 5], c.DL1CT), ([5, 0, 0, 6], c.DIL6CT), ([5, 0, 2, 6], c.DIL5CT / 2),
   ([5, 0, 2, 7], c.DL4CT / 2 + c.DRL5CT / 2), ([5, 0, 3, 5], -c.DIL6CT),
   ([5, 0, 3, 6], -c.DL4CT / 2 + c.DRL5CT / 2), ([5, 0, 3, 7], -c.DIL5CT / 2),
   ([5, 0, 5, 0], c.DL1CT), ([5, 0, 5, 3], -c.DIL6CT), ([5, 0, 6, 0], c.DIL6CT),
   ([5, 0, 6, 2], c.DIL5CT / 2), ([5, 0, 6, 3], -c.DL4CT / 2 + c.DRL5CT / 2),
   ([5, 0, 7, 2], c.DL4CT / 2 + c.DRL5CT / 2), ([5, 0, 7, 3], -c.DIL5CT / 2),
   ([5, 1, 1, 5], c.DL1CT), ([5, 1, 1, 6], c.DIL6CT), ([5, 1, 2, 5], c.DIL6CT),
   ([5, 1, 2, 6], c.DL4CT / 2 - c.DRL5CT / 2), ([5, 1, 2, 7], c.DIL5CT / 2),
   ([5, 1, 3, 6], c.DIL5CT / 2), ([5, 1, 3, 7], c.DL4CT / 2 + c.DRL5CT / 2),
   ([5, 1, 5, 1], c.DL1CT), ([5, 1, 5, 2], c.DIL6CT), ([5, 1, 6, 1], c.DIL6CT),
   ([5, 1, 6, 2], c.DL4CT / 2 - c.DRL5CT / 2), ([5, 1, 6, 3], c.DIL5CT / 2),
   ([5, 1, 7, 2], c.DIL5CT / 2), ([5, 1, 7, 3], c.DL4CT / 2 + c.DRL5CT / 2),
   ([5, 2, 0, 6], c.DIL5CT / 2), ([5, 2, 0, 7], c.DL4CT / 2 + c.DRL5CT / 2),
   ([5, 2, 1, 5], c.DIL6CT), ([5, 2, 1, 6], c.DL4CT / 2 - c.DRL5CT / 2),
   ([5, 2, 1, 7], c.DIL5CT / 2), ([5, 2, 2, 5], c.DL3CT), ([5, 2, 5, 1], c.DIL6CT),
   ([5, 2, 5, 2], c.DL3CT), ([5, 2, 6, 0], c.DIL5CT / 2),
   ([5, 2, 6, 1], c.DL4CT / 2 - c.DRL5CT / 2), ([5, 2, 7, 0], c.DL4CT / 2 + c.DRL5CT / 2),
   ([5, 2, 7, 1], c.DIL5CT / 2), ([5, 3, 0, 5], -c.DIL6CT),
   ([5, 3, 0, 6], -c.DL4CT / 2 + c.DRL5CT / 2), ([5, 3, 0, 7], -c.DIL5CT / 2),
   ([5, 3, 1, 6], c.DIL5CT / 2), ([5, 3, 1, 7], c.DL4CT / 2 + c.DRL5CT / 2),
   ([5, 3, 3, 5], c.DL3CT), ([5, 3, 5, 0], -c.DIL6CT), ([5, 3, 5, 3], c.DL3CT),
   ([5, 3, 6, 0], -c.DL4CT / 2 + c.DRL5CT / 2), ([5, 3, 6, 1], c.DIL5CT / 2),
   ([5, 3, 7, 0], -c.DIL5CT / 2), ([5, 3, 7, 1], c.DL4CT / 2 + c.DRL5CT / 2),
   ([5, 4, 4, 5], c.DL1CT), ([5, 4, 4, 6], c.DIL6CT), ([5, 4, 5, 4], c.DL1CT),
   ([5, 4, 5, 7], -c.DIL6CT), ([5, 4, 6, 4], c.DIL6CT), ([5, 4, 6, 6], c.DIL5CT),
   ([5, 4, 6, 7], c.DRL5CT), ([5, 4, 7, 5], -c.DIL6CT), ([5, 4, 7, 6], c.DRL5CT),
   ([5, 4, 7, 7], -c.DIL5CT), ([5, 5, 0, 0], c.DL1CT), ([5, 5, 0, 3], -c.DIL6CT),
   ([5, 5, 1, 1], c.DL1CT), ([5, 5, 1, 2], c.DIL6CT), ([5, 5, 2, 1], c.DIL6CT),
   ([5, 5, 2, 2], c.DL3CT), ([5, 5, 3, 0], -c.DIL6CT), ([5, 5, 3, 3], c.DL3CT),
   ([5, 5, 4, 4], c.DL1CT), ([5, 5, 4, 7], -c.DIL6CT), ([5, 5, 5, 5], 3 * c.DL1CT),
   ([5, 5, 5, 6], 3 * c.DIL6CT), ([5, 5, 6, 5], 3 * c.DIL6CT),
   ([5, 5, 6, 6], c.DL3CT + c.DL4CT - c.DRL5CT), ([5, 5, 6, 7], c.DIL5CT),
   ([5, 5, 7, 4], -c.DIL6CT), ([5, 5, 7, 6], c.DIL5CT),
   ([5, 5, 7, 7], c.DL3CT + c.DL4CT + c.DRL5CT), ([5, 6, 0, 0], c.DIL6CT),
   ([5, 6, 0, 2], c.DIL5CT / 2), ([5, 6, 0, 3], -c.DL4CT / 2 + c.DRL5CT / 2),
   ([5, 6, 1, 1], c.DIL6CT), ([5, 6, 1, 2], c.DL4CT / 2 - c.DRL5CT / 2),
   ([5, 6, 1, 3], c.DIL5CT / 2), ([5, 6, 2, 0], c.DIL5CT / 2),
   ([5, 6, 2, 1], c.DL4CT / 2 - c.DRL5CT / 2), ([5, 6, 3, 0], -c.DL4CT / 2 + c.DRL5CT / 2),
   ([5, 6, 3, 1], c.DIL5CT / 2), ([5, 6, 4, 4], c.DIL6CT), ([5, 6, 4, 6], c.DIL5CT),
   ([5, 6, 4, 7], c.DRL5CT), ([5, 6, 5, 5], 3 * c.DIL6CT),
   ([5, 6, 5, 6], c.DL3CT + c.DL4CT - c.DRL5CT), ([5, 6, 5, 7], c.DIL5CT),
   ([5, 6, 6, 4], c.DIL5CT), ([5, 6, 6, 5], c.DL3CT + c.DL4CT - c.DRL5CT),
   ([5, 6, 7, 4], c.DRL5CT), ([5, 6, 7, 5], c.DIL5CT), ([5, 7, 0, 2], c.DL4CT / 2 + c.DRL5CT / 2),
   ([5, 7, 0, 3], -c.DIL5CT / 2), ([5, 7, 1, 2], c.DIL5CT / 2),
   ([5, 7, 1, 3], c.DL4CT / 2 + c.DRL5CT / 2), ([5, 7, 2, 0], c.DL4CT / 2 + c.DRL5CT / 2),
   ([5, 7, 2, 1], c.DIL5CT / 2), ([5, 7, 3, 0], -c.DIL5CT / 2),
   ([5, 7, 3, 1], c.DL4CT / 2 + c.DRL5CT / 2), ([5, 7, 4, 5], -c.DIL6CT),
   ([5, 7, 4, 6], c.DRL5CT), ([5, 7, 4, 7], -c.DIL5CT), ([5, 7, 5, 4], -c.DIL6CT),
   ([5, 7, 5, 6], c.DIL5CT), ([5, 7, 5, 7], c.DL3CT + c.DL4CT + c.DRL5CT),
   ([5, 7, 6, 4], c.DRL5CT), ([5, 7, 6, 5], c.DIL5CT), ([5, 7, 7, 4], -c.DIL5CT),
   ([5, 7, 7, 5], c.DL3CT + c.DL4CT + c.DRL5CT)]

/-- `Curvature_Higgs_CT_L4`, ClassPotentialC2HDM.cpp:1687-1881. First index 6. -/
def ctL4_6 (c : CT K) : Assign K :=
  [([6, 0, 0, 5], c.DIL6CT), ([6, 0, 0, 6], c.DL3CT), ([6, 0, 2, 4], c.DL4CT / 2 + c.DRL5CT / 2),
   ([6, 0, 2, 5], c.DIL5CT / 2), ([6, 0, 3, 4], -c.DIL5CT / 2),
   ([6, 0, 3, 5], -c.DL4CT / 2 + c.DRL5CT / 2), ([6, 0, 4, 2], c.DL4CT / 2 + c.DRL5CT / 2),
   ([6, 0, 4, 3], -c.DIL5CT / 2), ([6, 0, 5, 0], c.DIL6CT), ([6, 0, 5, 2], c.DIL5CT / 2),
   ([6, 0, 5, 3], -c.DL4CT / 2 + c.DRL5CT / 2), ([6, 0, 6, 0], c.DL3CT), ([6, 1, 1, 5], c.DIL6CT),
   ([6, 1, 1, 6], c.DL3CT), ([6, 1, 2, 4], c.DIL5CT / 2),
   ([6, 1, 2, 5], c.DL4CT / 2 - c.DRL5CT / 2), ([6, 1, 3, 4], c.DL4CT / 2 + c.DRL5CT / 2),
   ([6, 1, 3, 5], c.DIL5CT / 2), ([6, 1, 4, 2], c.DIL5CT / 2),
   ([6, 1, 4, 3], c.DL4CT / 2 + c.DRL5CT / 2), ([6, 1, 5, 1], c.DIL6CT),
   ([6, 1, 5, 2], c.DL4CT / 2 - c.DRL5CT / 2), ([6, 1, 5, 3], c.DIL5CT / 2),
   ([6, 1, 6, 1], c.DL3CT), ([6, 2, 0, 4], c.DL4CT / 2 + c.DRL5CT / 2),
   ([6, 2, 0, 5], c.DIL5CT / 2), ([6, 2, 1, 4], c.DIL5CT / 2),
   ([6, 2, 1, 5], c.DL4CT / 2 - c.DRL5CT / 2), ([6, 2, 2, 6], c.DL2CT),
   ([6, 2, 4, 0], c.DL4CT / 2 + c.DRL5CT / 2), ([6, 2, 4, 1], c.DIL5CT / 2),
   ([6, 2, 5, 0], c.DIL5CT / 2), ([6, 2, 5, 1], c.DL4CT / 2 - c.DRL5CT / 2),
   ([6, 2, 6, 2], c.DL2CT), ([6, 3, 0, 4], -c.DIL5CT / 2),
   ([6, 3, 0, 5], -c.DL4CT / 2 + c.DRL5CT / 2), ([6, 3, 1, 4], c.DL4CT / 2 + c.DRL5CT / 2),
   ([6, 3, 1, 5], c.DIL5CT / 2), ([6, 3, 3, 6], c.DL2CT), ([6, 3, 4, 0], -c.DIL5CT / 2),
   ([6, 3, 4, 1], c.DL4CT / 2 + c.DRL5CT / 2), ([6, 3, 5, 0], -c.DL4CT / 2 + c.DRL5CT / 2),
   ([6, 3, 5, 1], c.DIL5CT / 2), ([6, 3, 6, 3], c.DL2CT),
   ([6, 4, 0, 2], c.DL4CT / 2 + c.DRL5CT / 2), ([6, 4, 0, 3], -c.DIL5CT / 2),
   ([6, 4, 1, 2], c.DIL5CT / 2), ([6, 4, 1, 3], c.DL4CT / 2 + c.DRL5CT / 2),
   ([6, 4, 2, 0], c.DL4CT / 2 + c.DRL5CT / 2), ([6, 4, 2, 1], c.DIL5CT / 2),
   ([6, 4, 3, 0], -c.DIL5CT / 2), ([6, 4, 3, 1], c.DL4CT / 2 + c.DRL5CT / 2),
   ([6, 4, 4, 5], c.DIL6CT), ([6, 4, 4, 6], c.DL3CT + c.DL4CT + c.DRL5CT),
   ([6, 4, 4, 7], -c.DIL5CT), ([6, 4, 5, 4], c.DIL6CT), ([6, 4, 5, 6], c.DIL5CT),
   ([6, 4, 5, 7], c.DRL5CT), ([6, 4, 6, 4], c.DL3CT + c.DL4CT + c.DRL5CT),
   ([6, 4, 6, 5], c.DIL5CT), ([6, 4, 7, 4], -c.DIL5CT), ([6, 4, 7, 5], c.DRL5CT),
   ([6, 5, 0, 0], c.DIL6CT), ([6, 5, 0, 2], c.DIL5CT / 2),
   ([6, 5, 0, 3], -c.DL4CT / 2 + c.DRL5CT / 2), ([6, 5, 1, 1], c.DIL6CT),
   ([6, 5, 1, 2], c.DL4CT / 2 - c.DRL5CT / 2), ([6, 5, 1, 3], c.DIL5CT / 2),
   ([6, 5, 2, 0], c.DIL5CT / 2), ([6, 5, 2, 1], c.DL4CT / 2 - c.DRL5CT / 2),
   ([6, 5, 3, 0], -c.DL4CT / 2 + c.DRL5CT / 2), ([6, 5, 3, 1], c.DIL5CT / 2),
   ([6, 5, 4, 4], c.DIL6CT), ([6, 5, 4, 6], c.DIL5CT), ([6, 5, 4, 7], c.DRL5CT),
   ([6, 5, 5, 5], 3 * c.DIL6CT), ([6, 5, 5, 6], c.DL3CT + c.DL4CT - c.DRL5CT),
   ([6, 5, 5, 7], c.DIL5CT), ([6, 5, 6, 4], c.DIL5CT),
   ([6, 5, 6, 5], c.DL3CT + c.DL4CT - c.DRL5CT), ([6, 5, 7, 4], c.DRL5CT),
   ([6, 5, 7, 5], c.DIL5CT), ([6, 6, 0, 0], c.DL3CT), ([6, 6, 1, 1], c.DL3CT),
   ([6, 6, 2, 2], c.DL2CT), ([6, 6, 3, 3], c.DL2CT), ([6, 6, 4, 4], c.DL3CT + c.DL4CT + c.DRL5CT),
   ([6, 6, 4, 5], c.DIL5CT), ([6, 6, 5, 4], c.DIL5CT),
   ([6, 6, 5, 5], c.DL3CT + c.DL4CT - c.DRL5CT), ([6, 6, 6, 6], 3 * c.DL2CT),
   ([6, 6, 7, 7], c.DL2CT), ([6, 7, 4, 4], -c.DIL5CT), ([6, 7, 4, 5], c.DRL5CT),
   ([6, 7, 5, 4], c.DRL5CT), ([6, 7, 5, 5], c.DIL5CT), ([6, 7, 6, 7], c.DL2CT),
   ([6, 7, 7, 6], c.DL2CT)]

/-- `Curvature_Higgs_CT_L4`, ClassPotentialC2HDM.cpp:1883-2077. First index 7. -/
def ctL4_7 (c : CT K) : Assign K :=
  [([7, 0, 0, 4], -c.DIL6CT), ([7, 0, 0, 7], c.DL3CT), ([7, 0, 2, 4], -c.DIL5CT / 2),
   ([7, 0, 2, 5], c.DL4CT / 2 + c.DRL5CT / 2), ([7, 0, 3, 4], c.DL4CT / 2 - c.DRL5CT / 2),
   ([7, 0, 3, 5], -c.DIL5CT / 2), ([7, 0, 4, 0], -c.DIL6CT), ([7, 0, 4, 2], -c.DIL5CT / 2),
   ([7, 0, 4, 3], c.DL4CT / 2 - c.DRL5CT / 2), ([7, 0, 5, 2], c.DL4CT / 2 + c.DRL5CT / 2),
   ([7, 0, 5, 3], -c.DIL5CT / 2), ([7, 0, 7, 0], c.DL3CT), ([7, 1, 1, 4], -c.DIL6CT),
   ([7, 1, 1, 7], c.DL3CT), ([7, 1, 2, 4], -c.DL4CT / 2 + c.DRL5CT / 2),
   ([7, 1, 2, 5], c.DIL5CT / 2), ([7, 1, 3, 4], -c.DIL5CT / 2),
   ([7, 1, 3, 5], c.DL4CT / 2 + c.DRL5CT / 2), ([7, 1, 4, 1], -c.DIL6CT),
   ([7, 1, 4, 2], -c.DL4CT / 2 + c.DRL5CT / 2), ([7, 1, 4, 3], -c.DIL5CT / 2),
   ([7, 1, 5, 2], c.DIL5CT / 2), ([7, 1, 5, 3], c.DL4CT / 2 + c.DRL5CT / 2),
   ([7, 1, 7, 1], c.DL3CT), ([7, 2, 0, 4], -c.DIL5CT / 2),
   ([7, 2, 0, 5], c.DL4CT / 2 + c.DRL5CT / 2), ([7, 2, 1, 4], -c.DL4CT / 2 + c.DRL5CT / 2),
   ([7, 2, 1, 5], c.DIL5CT / 2), ([7, 2, 2, 7], c.DL2CT), ([7, 2, 4, 0], -c.DIL5CT / 2),
   ([7, 2, 4, 1], -c.DL4CT / 2 + c.DRL5CT / 2), ([7, 2, 5, 0], c.DL4CT / 2 + c.DRL5CT / 2),
   ([7, 2, 5, 1], c.DIL5CT / 2), ([7, 2, 7, 2], c.DL2CT),
   ([7, 3, 0, 4], c.DL4CT / 2 - c.DRL5CT / 2), ([7, 3, 0, 5], -c.DIL5CT / 2),
   ([7, 3, 1, 4], -c.DIL5CT / 2), ([7, 3, 1, 5], c.DL4CT / 2 + c.DRL5CT / 2),
   ([7, 3, 3, 7], c.DL2CT), ([7, 3, 4, 0], c.DL4CT / 2 - c.DRL5CT / 2),
   ([7, 3, 4, 1], -c.DIL5CT / 2), ([7, 3, 5, 0], -c.DIL5CT / 2),
   ([7, 3, 5, 1], c.DL4CT / 2 + c.DRL5CT / 2), ([7, 3, 7, 3], c.DL2CT), ([7, 4, 0, 0], -c.DIL6CT),
   ([7, 4, 0, 2], -c.DIL5CT / 2), ([7, 4, 0, 3], c.DL4CT / 2 - c.DRL5CT / 2),
   ([7, 4, 1, 1], -c.DIL6CT), ([7, 4, 1, 2], -c.DL4CT / 2 + c.DRL5CT / 2),
   ([7, 4, 1, 3], -c.DIL5CT / 2), ([7, 4, 2, 0], -c.DIL5CT / 2),
   ([7, 4, 2, 1], -c.DL4CT / 2 + c.DRL5CT / 2), ([7, 4, 3, 0], c.DL4CT / 2 - c.DRL5CT / 2),
   ([7, 4, 3, 1], -c.DIL5CT / 2), ([7, 4, 4, 4], -3 * c.DIL6CT), ([7, 4, 4, 6], -c.DIL5CT),
   ([7, 4, 4, 7], c.DL3CT + c.DL4CT - c.DRL5CT), ([7, 4, 5, 5], -c.DIL6CT),
   ([7, 4, 5, 6], c.DRL5CT), ([7, 4, 5, 7], -c.DIL5CT), ([7, 4, 6, 4], -c.DIL5CT),
   ([7, 4, 6, 5], c.DRL5CT), ([7, 4, 7, 4], c.DL3CT + c.DL4CT - c.DRL5CT),
   ([7, 4, 7, 5], -c.DIL5CT), ([7, 5, 0, 2], c.DL4CT / 2 + c.DRL5CT / 2),
   ([7, 5, 0, 3], -c.DIL5CT / 2), ([7, 5, 1, 2], c.DIL5CT / 2),
   ([7, 5, 1, 3], c.DL4CT / 2 + c.DRL5CT / 2), ([7, 5, 2, 0], c.DL4CT / 2 + c.DRL5CT / 2),
   ([7, 5, 2, 1], c.DIL5CT / 2), ([7, 5, 3, 0], -c.DIL5CT / 2),
   ([7, 5, 3, 1], c.DL4CT / 2 + c.DRL5CT / 2), ([7, 5, 4, 5], -c.DIL6CT),
   ([7, 5, 4, 6], c.DRL5CT), ([7, 5, 4, 7], -c.DIL5CT), ([7, 5, 5, 4], -c.DIL6CT),
   ([7, 5, 5, 6], c.DIL5CT), ([7, 5, 5, 7], c.DL3CT + c.DL4CT + c.DRL5CT),
   ([7, 5, 6, 4], c.DRL5CT), ([7, 5, 6, 5], c.DIL5CT), ([7, 5, 7, 4], -c.DIL5CT),
   ([7, 5, 7, 5], c.DL3CT + c.DL4CT + c.DRL5CT), ([7, 6, 4, 4], -c.DIL5CT),
   ([7, 6, 4, 5], c.DRL5CT), ([7, 6, 5, 4], c.DRL5CT), ([7, 6, 5, 5], c.DIL5CT),
   ([7, 6, 6, 7], c.DL2CT), ([7, 6, 7, 6], c.DL2CT), ([7, 7, 0, 0], c.DL3CT),
   ([7, 7, 1, 1], c.DL3CT), ([7, 7, 2, 2], c.DL2CT), ([7, 7, 3, 3], c.DL2CT),
   ([7, 7, 4, 4], c.DL3CT + c.DL4CT - c.DRL5CT), ([7, 7, 4, 5], -c.DIL5CT),
   ([7, 7, 5, 4], -c.DIL5CT), ([7, 7, 5, 5], c.DL3CT + c.DL4CT + c.DRL5CT),
   ([7, 7, 6, 6], c.DL2CT), ([7, 7, 7, 7], 3 * c.DL2CT)]

/-- `Curvature_Higgs_CT_L4`, ClassPotentialC2HDM.cpp:351-2077. -/
def ctL4 (c : CT K) : Assign K :=
  [ctL4_0 c, ctL4_1 c, ctL4_2 c, ctL4_3 c, ctL4_4 c, ctL4_5 c, ctL4_6 c, ctL4_7 c].flatten

/-- `Curvature_Gauge_G2H2`, ClassPotentialC2HDM.cpp:2793-2901. -/
def g2h2 (g gs : K) : Assign K :=
  [([0, 0, 0, 0], g * g / 2), ([0, 0, 1, 1], g * g / 2), ([0, 0, 2, 2], g * g / 2),
   ([0, 0, 3, 3], g * g / 2), ([0, 0, 4, 4], g * g / 2), ([0, 0, 5, 5], g * g / 2),
   ([0, 0, 6, 6], g * g / 2), ([0, 0, 7, 7], g * g / 2), ([0, 3, 0, 4], g * gs / 2),
   ([0, 3, 1, 5], g * gs / 2), ([0, 3, 2, 6], g * gs / 2), ([0, 3, 3, 7], g * gs / 2),
   ([0, 3, 4, 0], g * gs / 2), ([0, 3, 5, 1], g * gs / 2), ([0, 3, 6, 2], g * gs / 2),
   ([0, 3, 7, 3], g * gs / 2), ([1, 1, 0, 0], g * g / 2), ([1, 1, 1, 1], g * g / 2),
   ([1, 1, 2, 2], g * g / 2), ([1, 1, 3, 3], g * g / 2), ([1, 1, 4, 4], g * g / 2),
   ([1, 1, 5, 5], g * g / 2), ([1, 1, 6, 6], g * g / 2), ([1, 1, 7, 7], g * g / 2),
   ([1, 3, 0, 5], g * gs / 2), ([1, 3, 1, 4], -g * gs / 2), ([1, 3, 2, 7], g * gs / 2),
   ([1, 3, 3, 6], -g * gs / 2), ([1, 3, 4, 1], -g * gs / 2), ([1, 3, 5, 0], g * gs / 2),
   ([1, 3, 6, 3], -g * gs / 2), ([1, 3, 7, 2], g * gs / 2), ([2, 2, 0, 0], g * g / 2),
   ([2, 2, 1, 1], g * g / 2), ([2, 2, 2, 2], g * g / 2), ([2, 2, 3, 3], g * g / 2),
   ([2, 2, 4, 4], g * g / 2), ([2, 2, 5, 5], g * g / 2), ([2, 2, 6, 6], g * g / 2),
   ([2, 2, 7, 7], g * g / 2), ([2, 3, 0, 0], g * gs / 2), ([2, 3, 1, 1], g * gs / 2),
   ([2, 3, 2, 2], g * gs / 2), ([2, 3, 3, 3], g * gs / 2), ([2, 3, 4, 4], -g * gs / 2),
   ([2, 3, 5, 5], -g * gs / 2), ([2, 3, 6, 6], -g * gs / 2), ([2, 3, 7, 7], -g * gs / 2),
   ([3, 0, 0, 4], g * gs / 2), ([3, 0, 1, 5], g * gs / 2), ([3, 0, 2, 6], g * gs / 2),
   ([3, 0, 3, 7], g * gs / 2), ([3, 0, 4, 0], g * gs / 2), ([3, 0, 5, 1], g * gs / 2),
   ([3, 0, 6, 2], g * gs / 2), ([3, 0, 7, 3], g * gs / 2), ([3, 1, 0, 5], g * gs / 2),
   ([3, 1, 1, 4], -g * gs / 2), ([3, 1, 2, 7], g * gs / 2), ([3, 1, 3, 6], -g * gs / 2),
   ([3, 1, 4, 1], -g * gs / 2), ([3, 1, 5, 0], g * gs / 2), ([3, 1, 6, 3], -g * gs / 2),
   ([3, 1, 7, 2], g * gs / 2), ([3, 2, 0, 0], g * gs / 2), ([3, 2, 1, 1], g * gs / 2),
   ([3, 2, 2, 2], g * gs / 2), ([3, 2, 3, 3], g * gs / 2), ([3, 2, 4, 4], -g * gs / 2),
   ([3, 2, 5, 5], -g * gs / 2), ([3, 2, 6, 6], -g * gs / 2), ([3, 2, 7, 7], -g * gs / 2),
   ([3, 3, 0, 0], gs * gs / 2), ([3, 3, 1, 1], gs * gs / 2), ([3, 3, 2, 2], gs * gs / 2),
   ([3, 3, 3, 3], gs * gs / 2), ([3, 3, 4, 4], gs * gs / 2), ([3, 3, 5, 5], gs * gs / 2),
   ([3, 3, 6, 6], gs * gs / 2), ([3, 3, 7, 7], gs * gs / 2)]

/-- The tensors of the tree-level potential after `SetCurvatureArrays`,
ClassPotentialC2HDM.cpp:2576-2778. -/
def tree (p : Par K) : Curv 8 K :=
  curv 8 zeroTensor (assign (l2 p) zeroTensor) zeroTensor
    (symLoop (assign (l4 p) zeroTensor) 8)

/-- The tensors of the counterterm potential after `set_CT_Pot_Par` on arrays initialised with
zeros, ClassPotentialC2HDM.cpp:300-2079. -/
def counter (c : CT K) : Curv 8 K :=
  curv 8 (assign (ctL1 c) zeroTensor) (assign (ctL2 c) zeroTensor) zeroTensor
    (assign (ctL4 c) zeroTensor)

/-- `Curvature_Gauge_G2H2` after `SetCurvatureArrays`. -/
def gauge (g gs : K) : List Nat → K := assign (g2h2 g gs) zeroTensor

/-- `VTreeSimplified` (the flag `UseVTreeSimplified` is set), ClassPotentialC2HDM.cpp:3133-3161. -/
def treeSimplified (p : Par K) (φ : FVec 8 K) : K :=
  let vcb := φ 2
  let v1 := φ 4
  let v2 := φ 6
  let vcp := φ 7
  let C22 := v2 * v2 + vcp * vcp + vcb * vcb
  1 / 2 * p.u1 * v1 * v1 + 1 / 2 * p.u2 * C22 + -p.RealMMix * v1 * v2 + v1 ^ 4 / 8 * p.L1 +
    1 / 8 * C22 ^ 2 * p.L2 + p.L3 / 4 * v1 * v1 * C22 +
    p.L4 / 4 * v1 * v1 * (vcp * vcp + v2 * v2) +
    p.RL5 / 4 * v1 * v1 * (-vcp * vcp + v2 * v2) +
    -p.IL5 / 2 * v1 * v1 * v2 * vcp + p.Iu3 * v1 * vcp

/-- `VCounterSimplified` (the flag `UseVCounterSimplified` is set),
ClassPotentialC2HDM.cpp:3163-3197. -/
def counterSimplified (c : CT K) (φ : FVec 8 K) : K :=
  let vcb := φ 2
  let v1 := φ 4
  let v2 := φ 6
  let vcp := φ 7
  let C22 := v2 * v2 + vcp * vcp + vcb * vcb
  1 / 2 * c.Du1CT * v1 * v1 + 1 / 2 * c.Du2CT * C22 + -c.DRu3CT * v1 * v2 + v1 ^ 4 / 8 * c.DL1CT +
    1 / 8 * C22 ^ 2 * c.DL2CT + c.DL3CT / 4 * v1 * v1 * C22 +
    c.DL4CT / 4 * v1 * v1 * (vcp * vcp + v2 * v2) +
    c.DRL5CT / 4 * v1 * v1 * (-vcp * vcp + v2 * v2) +
    -c.DIL5CT / 2 * v1 * v1 * v2 * vcp + c.DIu3CT * v1 * vcp +
    c.DT1 * v1 + c.DT2 * v2 + c.DT3 * vcp + c.DTCharged * vcb +
    -(1 / 2) * c.DIL6CT * v1 ^ 3 * vcp

/-- `calc_CT` for the gradient `N` and the Hesse matrix `W` of the Coleman-Weinberg potential,
ClassPotentialC2HDM.cpp:2307-2374. -/
def calcCT (v1 v2 : K) (N : Fin 8 → K) (W : Fin 8 → Fin 8 → K) : CT K :=
  let H : Fin 8 → Fin 8 → K := fun i j => W j i
  let freepar : K := -(2 * H 3 3) / v1 ^ 2 + (2 * H 7 7) / v1 ^ 2
  { Du1CT := freepar * v2 ^ 2 + H 4 4 / 2 + (v2 * H 4 6) / (2 * v1) - (3 * H 5 5) / 2 -
      (v2 * H 5 7) / (2 * v1)
    Du2CT := freepar * v1 ^ 2 + (v1 * H 4 6) / (2 * v2) - (v1 * H 5 7) / (2 * v2) + H 6 6 / 2 -
      (3 * H 7 7) / 2
    DIu3CT := H 4 7 / 2 + (v2 * H 6 7) / (2 * v1) + (3 * N 5) / (2 * v2)
    DRu3CT := freepar * v1 * v2 + H 5 7
    DL1CT := -((freepar * v2 ^ 2) / v1 ^ 2) - H 4 4 / v1 ^ 2 + H 5 5 / v1 ^ 2
    DL2CT := -((freepar * v1 ^ 2) / v2 ^ 2) - H 6 6 / v2 ^ 2 + H 7 7 / v2 ^ 2
    DL3CT := -freepar + H 1 3 / (v1 * v2) - H 3 3 / v1 ^ 2 - H 4 6 / (v1 * v2) + H 7 7 / v1 ^ 2
    DL4CT := freepar + (2 * H 3 3) / v1 ^ 2 - (2 * H 7 7) / v1 ^ 2
    DRL5CT := freepar
    DIL5CT := (2 * H 6 7) / v1 ^ 2
    DTCharged := -N 2
    DT1 := v1 * H 5 5 + v2 * H 5 7 - N 4
    DT2 := v1 * H 1 3 + v2 * H 3 3 - N 6
    DT3 := -((v1 * N 5) / v2) - N 7
    DIL6CT := -(H 4 5 / (v1 * v2)) - (v2 * H 6 7) / v1 ^ 3 }

end Verif.Lagrangian.C2HDM
