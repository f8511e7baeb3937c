import Verif.Lagrangian.Loop
import Mathlib.Analysis.SpecialFunctions.Sqrt

/-!
# The CP-conserving two Higgs doublet model

`Class_Potential_R2HDM`, ClassPotentialR2HDM.cpp: parameters, tensors and counterterms.  The entries
of the tensors are transcribed statement by statement.
-/

namespace Verif.Lagrangian.R2HDM

open Verif.Potential

variable {K : Type} [Field K]

/-- The parameters of the tree-level potential, ClassPotentialR2HDM.h:82. -/
structure Par (K : Type) where
  L1 : K
  L2 : K
  L3 : K
  L4 : K
  RL5 : K
  RealMMix : K
  u1 : K
  u2 : K

/-- The counterterm parameters in the order of `p` of `set_CT_Pot_Par`,
ClassPotentialR2HDM.cpp:303-314. -/
structure CT (K : Type) where
  Du1CT : K
  Du2CT : K
  DRu3CT : K
  DL1CT : K
  DL2CT : K
  DL3CT : K
  DL4CT : K
  DRL5CT : K
  DT1 : K
  DT2 : K
  DT3 : K

/-- What `set_gen` reads: `par[0]` to `par[6]`, ClassPotentialR2HDM.cpp:221-227. -/
structure Input where
  L1 : ℝ
  L2 : ℝ
  L3 : ℝ
  L4 : ℝ
  RL5 : ℝ
  RealMMix : ℝ
  TanBeta : ℝ

/-- `C_CosBetaSquared`, ClassPotentialR2HDM.cpp:230. -/
noncomputable def cosBetaSquared (t : ℝ) : ℝ := 1 / (1 + t * t)

/-- `C_SinBetaSquared`, ClassPotentialR2HDM.cpp:232. -/
noncomputable def sinBetaSquared (t : ℝ) : ℝ := t * t * cosBetaSquared t

/-- `C_CosBeta`, ClassPotentialR2HDM.cpp:231. -/
noncomputable def cosBeta (t : ℝ) : ℝ := √(cosBetaSquared t)

open Classical in
/-- `C_SinBeta`, ClassPotentialR2HDM.cpp:233-238. -/
noncomputable def sinBeta (t : ℝ) : ℝ :=
  if t < 0 then √(sinBetaSquared t) * -1 else √(sinBetaSquared t)

/-- `set_gen`, ClassPotentialR2HDM.cpp:215-252, without the coefficients `CTempC1`, `CTempC2`. -/
noncomputable def setGen (v : ℝ) (q : Input) : Par ℝ where
  L1 := q.L1
  L2 := q.L2
  L3 := q.L3
  L4 := q.L4
  RL5 := q.RL5
  RealMMix := q.RealMMix
  u1 := q.RealMMix * q.TanBeta -
    v * v * sinBetaSquared q.TanBeta * (q.L4 + q.RL5 + q.L3) / 2 -
    v * v * cosBetaSquared q.TanBeta * q.L1 / 2
  u2 := q.RealMMix * 1 / q.TanBeta -
    v * v * cosBetaSquared q.TanBeta * (q.L4 + q.RL5 + q.L3) / 2 -
    v * v * sinBetaSquared q.TanBeta * q.L2 / 2

/-- `vevTree` with the components `v1 = vevTreeMin[1]` and `v2 = vevTreeMin[2]` placed at the
positions `VevOrder[1] = 4` and `VevOrder[2] = 6` (ClassPotentialR2HDM.cpp:35-39, 289-296); the
components `vevTreeMin[0]` and `vevTreeMin[3]` are zero. -/
def vevTree (v1 v2 : K) : FVec 8 K := ![0, 0, 0, 0, v1, 0, v2, 0]

/-- `Curvature_Higgs_L2`, ClassPotentialR2HDM.cpp:900-963. -/
def l2 (p : Par K) : Assign K :=
  [([0, 0], p.u1), ([0, 1], 0), ([0, 2], -p.RealMMix), ([0, 3], 0), ([0, 4], 0), ([0, 5], 0),
   ([0, 6], 0), ([0, 7], 0), ([1, 0], 0), ([1, 1], p.u1), ([1, 2], 0), ([1, 3], -p.RealMMix),
   ([1, 4], 0), ([1, 5], 0), ([1, 6], 0), ([1, 7], 0), ([2, 0], -p.RealMMix), ([2, 1], 0),
   ([2, 2], p.u2), ([2, 3], 0), ([2, 4], 0), ([2, 5], 0), ([2, 6], 0), ([2, 7], 0), ([3, 0], 0),
   ([3, 1], -p.RealMMix), ([3, 2], 0), ([3, 3], p.u2), ([3, 4], 0), ([3, 5], 0), ([3, 6], 0),
   ([3, 7], 0), ([4, 0], 0), ([4, 1], 0), ([4, 2], 0), ([4, 3], 0), ([4, 4], p.u1), ([4, 5], 0),
   ([4, 6], -p.RealMMix), ([4, 7], 0), ([5, 0], 0), ([5, 1], 0), ([5, 2], 0), ([5, 3], 0),
   ([5, 4], 0), ([5, 5], p.u1), ([5, 6], 0), ([5, 7], -p.RealMMix), ([6, 0], 0), ([6, 1], 0),
   ([6, 2], 0), ([6, 3], 0), ([6, 4], -p.RealMMix), ([6, 5], 0), ([6, 6], p.u2), ([6, 7], 0),
   ([7, 0], 0), ([7, 1], 0), ([7, 2], 0), ([7, 3], 0), ([7, 4], 0), ([7, 5], -p.RealMMix),
   ([7, 6], 0), ([7, 7], p.u2)]

/-- `Curvature_Higgs_L4`, ClassPotentialR2HDM.cpp:965-1026. -/
def l4 (p : Par K) : Assign K :=
  [([0, 0, 0, 0], 3 * p.L1), ([0, 0, 1, 1], p.L1), ([0, 0, 2, 2], p.L3 + p.L4 + p.RL5),
   ([0, 0, 2, 3], 0), ([0, 0, 3, 3], p.L3 + p.L4 - p.RL5), ([0, 0, 4, 4], p.L1),
   ([0, 0, 5, 5], p.L1), ([0, 0, 6, 6], p.L3), ([0, 0, 7, 7], p.L3), ([0, 1, 2, 2], 0),
   ([0, 1, 2, 3], p.RL5), ([0, 1, 3, 3], 0), ([0, 2, 4, 6], p.L4 / 2 + p.RL5 / 2),
   ([0, 2, 4, 7], 0), ([0, 2, 5, 6], 0), ([0, 2, 5, 7], p.L4 / 2 + p.RL5 / 2), ([0, 3, 4, 6], 0),
   ([0, 3, 4, 7], p.L4 / 2 - p.RL5 / 2), ([0, 3, 5, 6], -p.L4 / 2 + p.RL5 / 2), ([0, 3, 5, 7], 0),
   ([1, 1, 1, 1], 3 * p.L1), ([1, 1, 2, 2], p.L3 + p.L4 - p.RL5), ([1, 1, 2, 3], 0),
   ([1, 1, 3, 3], p.L3 + p.L4 + p.RL5), ([1, 1, 4, 4], p.L1), ([1, 1, 5, 5], p.L1),
   ([1, 1, 6, 6], p.L3), ([1, 1, 7, 7], p.L3), ([1, 2, 4, 6], 0),
   ([1, 2, 4, 7], -p.L4 / 2 + p.RL5 / 2), ([1, 2, 5, 6], p.L4 / 2 - p.RL5 / 2), ([1, 2, 5, 7], 0),
   ([1, 3, 4, 6], p.L4 / 2 + p.RL5 / 2), ([1, 3, 4, 7], 0), ([1, 3, 5, 6], 0),
   ([1, 3, 5, 7], p.L4 / 2 + p.RL5 / 2), ([2, 2, 2, 2], 3 * p.L2), ([2, 2, 3, 3], p.L2),
   ([2, 2, 4, 4], p.L3), ([2, 2, 5, 5], p.L3), ([2, 2, 6, 6], p.L2), ([2, 2, 7, 7], p.L2),
   ([3, 3, 3, 3], 3 * p.L2), ([3, 3, 4, 4], p.L3), ([3, 3, 5, 5], p.L3), ([3, 3, 6, 6], p.L2),
   ([3, 3, 7, 7], p.L2), ([4, 4, 4, 4], 3 * p.L1), ([4, 4, 5, 5], p.L1),
   ([4, 4, 6, 6], p.L3 + p.L4 + p.RL5), ([4, 4, 6, 7], 0), ([4, 4, 7, 7], p.L3 + p.L4 - p.RL5),
   ([4, 5, 6, 6], 0), ([4, 5, 6, 7], p.RL5), ([4, 5, 7, 7], 0), ([5, 5, 5, 5], 3 * p.L1),
   ([5, 5, 6, 6], p.L3 + p.L4 - p.RL5), ([5, 5, 6, 7], 0), ([5, 5, 7, 7], p.L3 + p.L4 + p.RL5),
   ([6, 6, 6, 6], 3 * p.L2), ([6, 6, 7, 7], p.L2), ([7, 7, 7, 7], 3 * p.L2)]

/-- `Curvature_Higgs_CT_L1`, ClassPotentialR2HDM.cpp:319-326.
`DTCharged` keeps its initial value zero. -/
def ctL1 (c : CT K) : Assign K :=
  [([0], 0), ([1], 0), ([2], 0), ([3], 0), ([4], c.DT1), ([5], 0), ([6], c.DT2), ([7], c.DT3)]

/-- `Curvature_Higgs_CT_L2`, ClassPotentialR2HDM.cpp:328-391.
The local constant `DIu3CT` is zero. -/
def ctL2 (c : CT K) : Assign K :=
  [([0, 0], c.Du1CT), ([0, 1], 0), ([0, 2], -c.DRu3CT), ([0, 3], 0), ([0, 4], 0), ([0, 5], 0),
   ([0, 6], 0), ([0, 7], 0), ([1, 0], 0), ([1, 1], c.Du1CT), ([1, 2], -0), ([1, 3], -c.DRu3CT),
   ([1, 4], 0), ([1, 5], 0), ([1, 6], 0), ([1, 7], 0), ([2, 0], -c.DRu3CT), ([2, 1], -0),
   ([2, 2], c.Du2CT), ([2, 3], 0), ([2, 4], 0), ([2, 5], 0), ([2, 6], 0), ([2, 7], 0),
   ([3, 0], 0), ([3, 1], -c.DRu3CT), ([3, 2], 0), ([3, 3], c.Du2CT), ([3, 4], 0), ([3, 5], 0),
   ([3, 6], 0), ([3, 7], 0), ([4, 0], 0), ([4, 1], 0), ([4, 2], 0), ([4, 3], 0),
   ([4, 4], c.Du1CT), ([4, 5], 0), ([4, 6], -c.DRu3CT), ([4, 7], 0), ([5, 0], 0), ([5, 1], 0),
   ([5, 2], 0), ([5, 3], 0), ([5, 4], 0), ([5, 5], c.Du1CT), ([5, 6], -0), ([5, 7], -c.DRu3CT),
   ([6, 0], 0), ([6, 1], 0), ([6, 2], 0), ([6, 3], 0), ([6, 4], -c.DRu3CT), ([6, 5], -0),
   ([6, 6], c.Du2CT), ([6, 7], 0), ([7, 0], 0), ([7, 1], 0), ([7, 2], 0), ([7, 3], 0),
   ([7, 4], 0), ([7, 5], -c.DRu3CT), ([7, 6], 0), ([7, 7], c.Du2CT)]

/-- `Curvature_Higgs_CT_L4`, ClassPotentialR2HDM.cpp:393-454.
The local constant `DIL5CT` is zero. -/
def ctL4 (c : CT K) : Assign K :=
  [([0, 0, 0, 0], 3 * c.DL1CT), ([0, 0, 1, 1], c.DL1CT),
   ([0, 0, 2, 2], c.DL3CT + c.DL4CT + c.DRL5CT), ([0, 0, 2, 3], -0),
   ([0, 0, 3, 3], c.DL3CT + c.DL4CT - c.DRL5CT), ([0, 0, 4, 4], c.DL1CT), ([0, 0, 5, 5], c.DL1CT),
   ([0, 0, 6, 6], c.DL3CT), ([0, 0, 7, 7], c.DL3CT), ([0, 1, 2, 2], 0), ([0, 1, 2, 3], c.DRL5CT),
   ([0, 1, 3, 3], -0), ([0, 2, 4, 6], c.DL4CT / 2 + c.DRL5CT / 2), ([0, 2, 4, 7], -0 / 2),
   ([0, 2, 5, 6], 0 / 2), ([0, 2, 5, 7], c.DL4CT / 2 + c.DRL5CT / 2), ([0, 3, 4, 6], -0 / 2),
   ([0, 3, 4, 7], c.DL4CT / 2 - c.DRL5CT / 2), ([0, 3, 5, 6], -c.DL4CT / 2 + c.DRL5CT / 2),
   ([0, 3, 5, 7], -0 / 2), ([1, 1, 1, 1], 3 * c.DL1CT),
   ([1, 1, 2, 2], c.DL3CT + c.DL4CT - c.DRL5CT), ([1, 1, 2, 3], 0),
   ([1, 1, 3, 3], c.DL3CT + c.DL4CT + c.DRL5CT), ([1, 1, 4, 4], c.DL1CT), ([1, 1, 5, 5], c.DL1CT),
   ([1, 1, 6, 6], c.DL3CT), ([1, 1, 7, 7], c.DL3CT), ([1, 2, 4, 6], 0 / 2),
   ([1, 2, 4, 7], -c.DL4CT / 2 + c.DRL5CT / 2), ([1, 2, 5, 6], c.DL4CT / 2 - c.DRL5CT / 2),
   ([1, 2, 5, 7], 0 / 2), ([1, 3, 4, 6], c.DL4CT / 2 + c.DRL5CT / 2), ([1, 3, 4, 7], -0 / 2),
   ([1, 3, 5, 6], 0 / 2), ([1, 3, 5, 7], c.DL4CT / 2 + c.DRL5CT / 2), ([2, 2, 2, 2], 3 * c.DL2CT),
   ([2, 2, 3, 3], c.DL2CT), ([2, 2, 4, 4], c.DL3CT), ([2, 2, 5, 5], c.DL3CT),
   ([2, 2, 6, 6], c.DL2CT), ([2, 2, 7, 7], c.DL2CT), ([3, 3, 3, 3], 3 * c.DL2CT),
   ([3, 3, 4, 4], c.DL3CT), ([3, 3, 5, 5], c.DL3CT), ([3, 3, 6, 6], c.DL2CT),
   ([3, 3, 7, 7], c.DL2CT), ([4, 4, 4, 4], 3 * c.DL1CT), ([4, 4, 5, 5], c.DL1CT),
   ([4, 4, 6, 6], c.DL3CT + c.DL4CT + c.DRL5CT), ([4, 4, 6, 7], -0),
   ([4, 4, 7, 7], c.DL3CT + c.DL4CT - c.DRL5CT), ([4, 5, 6, 6], 0), ([4, 5, 6, 7], c.DRL5CT),
   ([4, 5, 7, 7], -0), ([5, 5, 5, 5], 3 * c.DL1CT), ([5, 5, 6, 6], c.DL3CT + c.DL4CT - c.DRL5CT),
   ([5, 5, 6, 7], 0), ([5, 5, 7, 7], c.DL3CT + c.DL4CT + c.DRL5CT), ([6, 6, 6, 6], 3 * c.DL2CT),
   ([6, 6, 7, 7], c.DL2CT), ([7, 7, 7, 7], 3 * c.DL2CT)]

/-- `Curvature_Gauge_G2H2`, ClassPotentialR2HDM.cpp:1099-1206. -/
def g2h2 (g gs : K) : Assign K :=
  [([0, 0, 0, 0], g * g / 2), ([0, 0, 1, 1], g * g / 2), ([0, 0, 2, 2], g * g / 2),
   ([0, 0, 3, 3], g * g / 2), ([0, 0, 4, 4], g * g / 2), ([0, 0, 5, 5], g * g / 2),
   ([0, 0, 6, 6], g * g / 2), ([0, 0, 7, 7], g * g / 2), ([0, 3, 0, 4], g * gs / 2),
   ([0, 3, 1, 5], g * gs / 2), ([0, 3, 2, 6], g * gs / 2), ([0, 3, 3, 7], g * gs / 2),
   ([0, 3, 4, 0], g * gs / 2), ([0, 3, 5, 1], g * gs / 2), ([0, 3, 6, 2], g * gs / 2),
   ([0, 3, 7, 3], g * gs / 2), ([1, 1, 0, 0], g * g / 2), ([1, 1, 1, 1], g * g / 2),
   ([1, 1, 2, 2], g * g / 2), ([1, 1, 3, 3], g * g / 2), ([1, 1, 4, 4], g * g / 2),
   ([1, 1, 5, 5], g * g / 2), ([1, 1, 6, 6], g * g / 2), ([1, 1, 7, 7], g * g / 2),
   ([1, 3, 0, 5], g * gs / 2), ([1, 3, 1, 4], -g * gs / 2), ([1, 3, 2, 7], g * gs / 2),
   ([1, 3, 3, 6], -g * gs / 2), ([1, 3, 4, 1], -g * gs / 2), ([1, 3, 5, 0], g * gs / 2),
   ([1, 3, 6, 3], -g * gs / 2), ([1, 3, 7, 2], g * gs / 2), ([2, 2, 0, 0], g * g / 2),
   ([2, 2, 1, 1], g * g / 2), ([2, 2, 2, 2], g * g / 2), ([2, 2, 3, 3], g * g / 2),
   ([2, 2, 4, 4], g * g / 2), ([2, 2, 5, 5], g * g / 2), ([2, 2, 6, 6], g * g / 2),
   ([2, 2, 7, 7], g * g / 2), ([2, 3, 0, 0], g * gs / 2), ([2, 3, 1, 1], g * gs / 2),
   ([2, 3, 2, 2], g * gs / 2), ([2, 3, 3, 3], g * gs / 2), ([2, 3, 4, 4], -g * gs / 2),
   ([2, 3, 5, 5], -g * gs / 2), ([2, 3, 6, 6], -g * gs / 2), ([2, 3, 7, 7], -g * gs / 2),
   ([3, 0, 0, 4], g * gs / 2), ([3, 0, 1, 5], g * gs / 2), ([3, 0, 2, 6], g * gs / 2),
   ([3, 0, 3, 7], g * gs / 2), ([3, 0, 4, 0], g * gs / 2), ([3, 0, 5, 1], g * gs / 2),
   ([3, 0, 6, 2], g * gs / 2), ([3, 0, 7, 3], g * gs / 2), ([3, 1, 0, 5], g * gs / 2),
   ([3, 1, 1, 4], -g * gs / 2), ([3, 1, 2, 7], g * gs / 2), ([3, 1, 3, 6], -g * gs / 2),
   ([3, 1, 4, 1], -g * gs / 2), ([3, 1, 5, 0], g * gs / 2), ([3, 1, 6, 3], -g * gs / 2),
   ([3, 1, 7, 2], g * gs / 2), ([3, 2, 0, 0], g * gs / 2), ([3, 2, 1, 1], g * gs / 2),
   ([3, 2, 2, 2], g * gs / 2), ([3, 2, 3, 3], g * gs / 2), ([3, 2, 4, 4], -g * gs / 2),
   ([3, 2, 5, 5], -g * gs / 2), ([3, 2, 6, 6], -g * gs / 2), ([3, 2, 7, 7], -g * gs / 2),
   ([3, 3, 0, 0], gs * gs / 2), ([3, 3, 1, 1], gs * gs / 2), ([3, 3, 2, 2], gs * gs / 2),
   ([3, 3, 3, 3], gs * gs / 2), ([3, 3, 4, 4], gs * gs / 2), ([3, 3, 5, 5], gs * gs / 2),
   ([3, 3, 6, 6], gs * gs / 2), ([3, 3, 7, 7], gs * gs / 2)]

/-- The tensors of the tree-level potential after `SetCurvatureArrays`,
ClassPotentialR2HDM.cpp:882-1084. -/
def tree (p : Par K) : Curv 8 K :=
  curv 8 zeroTensor (assign (l2 p) zeroTensor) zeroTensor
    (symLoop (assign (l4 p) zeroTensor) 8)

/-- The tensors of the counterterm potential after `set_CT_Pot_Par`,
ClassPotentialR2HDM.cpp:299-516. -/
def counter (c : CT K) : Curv 8 K :=
  curv 8 (assign (ctL1 c) zeroTensor) (assign (ctL2 c) zeroTensor) zeroTensor
    (symLoop (assign (ctL4 c) zeroTensor) 8)

/-- `Curvature_Gauge_G2H2` after `SetCurvatureArrays`. -/
def gauge (g gs : K) : List Nat → K := assign (g2h2 g gs) zeroTensor

open Classical in
/-- Entries of the Hesse matrix up to `1e-3` are set to zero, ClassPotentialR2HDM.cpp:668. -/
noncomputable def cutHesse (x : ℝ) : ℝ := if |x| ≤ 1 / 1000 then 0 else x

open Classical in
/-- Tadpoles below `1e-9` are set to zero, ClassPotentialR2HDM.cpp:721, 725, 731. -/
noncomputable def cutTadpole (x : ℝ) : ℝ := if |x| < 1 / 1000000000 then 0 else x

/-- `calc_CT` for the gradient `N` and the Hesse matrix `W` of the Coleman-Weinberg potential,
ClassPotentialR2HDM.cpp:657-733.  `freepar` is zero. -/
noncomputable def calcCT (v1 v2 : ℝ) (N : Fin 8 → ℝ) (W : Fin 8 → Fin 8 → ℝ) : CT ℝ :=
  let H : Fin 8 → Fin 8 → ℝ := fun i j => cutHesse (W j i)
  let freepar : ℝ := 0
  { Du1CT := -((-2 * freepar * v1 * v2 * v2 + 5 * H 0 0 * v1 + H 1 3 * v2 - H 4 6 * v2 -
      H 4 4 * v1 - 2 * H 5 5 * v1) / v1) / 2
    Du2CT := (2 * freepar * v1 * v1 * v2 * v2 + H 6 6 * v2 * v2 - 2 * H 0 0 * v1 * v1 -
      H 1 3 * v1 * v2 - 3 * H 3 3 * v2 * v2 + H 4 6 * v1 * v2 + 2 * v1 * v1 * H 5 5) *
      (v2 ^ 2)⁻¹ / 2
    DRu3CT := -(-freepar * v1 * v2 * v2 + H 0 0 * v1 - H 1 3 * v2 - H 5 5 * v1) / v2
    DL1CT := (-freepar * v2 * v2 + 2 * H 0 0 - H 4 4 - H 5 5) * (v1 ^ 2)⁻¹
    DL2CT := -(freepar * v1 * v1 * v2 * v2 + H 6 6 * v2 * v2 - H 0 0 * v1 * v1 -
      H 3 3 * v2 * v2 + v1 * v1 * H 5 5) * (v2 ^ 4)⁻¹
    DL3CT := (-freepar * v1 * v2 * v2 + H 0 0 * v1 + H 1 3 * v2 - H 4 6 * v2 - H 5 5 * v1) / v1 *
      (v2 ^ 2)⁻¹
    DL4CT := freepar
    DRL5CT := -(-freepar * v2 * v2 + 2 * H 0 0 - 2 * H 5 5) * (v2 ^ 2)⁻¹
    DT1 := cutTadpole (H 1 3 * v2 + H 0 0 * v1 - N 4)
    DT2 := cutTadpole (H 1 3 * v1 + H 3 3 * v2 - N 6)
    DT3 := cutTadpole (-(-v1 * v1 * H 4 5 - H 4 7 * v1 * v2 + N 7 * v2) / v2) }

end Verif.Lagrangian.R2HDM
