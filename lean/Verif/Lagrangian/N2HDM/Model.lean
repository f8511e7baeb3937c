import Verif.Lagrangian.Loop
import Verif.Outcome
import Mathlib.Analysis.SpecialFunctions.Sqrt

/-!
# The next-to-minimal two Higgs doublet model

`Class_Potential_N2HDM`, ClassPotentialN2HDM.cpp: parameters, tensors and counterterms.  The entries
of the tensors are transcribed statement by statement; long lists are split by their first indices.
-/

set_option linter.unusedVariables false

namespace Verif.Lagrangian.N2HDM

open Verif.Potential

variable {K : Type} [Field K]

/-- The parameters of the tree-level potential, ClassPotentialN2HDM.h:88, 98. -/
structure Par (K : Type) where
  L1 : K
  L2 : K
  L3 : K
  L4 : K
  RL5 : K
  RealMMix : K
  u1 : K
  u2 : K
  Nus : K
  NL6 : K
  NL7 : K
  NL8 : K

/-- The counterterm parameters in the order of `p` of `set_CT_Pot_Par`,
ClassPotentialN2HDM.cpp:267-281. -/
structure CT (K : Type) where
  Du1CT : K
  Du2CT : K
  DRu3CT : K
  DL1CT : K
  DL2CT : K
  DL3CT : K
  DL4CT : K
  DRL5CT : K
  NDus : K
  NDL6 : K
  NDL7 : K
  NDL8 : K
  DT1 : K
  DT2 : K
  NDTS : K

/-- What `set_gen` reads: `p[0]` to `p[10]`, ClassPotentialN2HDM.cpp:224-234. -/
structure Input where
  L1 : ℝ
  L2 : ℝ
  L3 : ℝ
  L4 : ℝ
  RL5 : ℝ
  NL6 : ℝ
  NL7 : ℝ
  NL8 : ℝ
  TanBeta : ℝ
  Nvs : ℝ
  RealMMix : ℝ

/-- `C_CosBetaSquared`, ClassPotentialN2HDM.cpp:238. -/
noncomputable def cosBetaSquared (t : ℝ) : ℝ := 1 / (1 + t * t)

/-- `C_SinBetaSquared`, ClassPotentialN2HDM.cpp:240. -/
noncomputable def sinBetaSquared (t : ℝ) : ℝ := t * t * cosBetaSquared t

/-- `C_CosBeta`, ClassPotentialN2HDM.cpp:239. -/
noncomputable def cosBeta (t : ℝ) : ℝ := √(cosBetaSquared t)

/-- `C_SinBeta`, ClassPotentialN2HDM.cpp:241: the root is taken without the sign of `tan β`. -/
noncomputable def sinBeta (t : ℝ) : ℝ := √(sinBetaSquared t)

/-- `set_gen`, ClassPotentialN2HDM.cpp:221-251. -/
noncomputable def setGen (v : ℝ) (q : Input) : Par ℝ :=
  let v1 := v * cosBeta q.TanBeta
  let v2 := v * sinBeta q.TanBeta
  { L1 := q.L1
    L2 := q.L2
    L3 := q.L3
    L4 := q.L4
    RL5 := q.RL5
    RealMMix := q.RealMMix
    u1 := q.RealMMix * q.TanBeta - 1 / 2 * v1 * v1 * q.L1 -
      1 / 2 * v2 * v2 * (q.L3 + q.L4 + q.RL5) - 1 / 2 * q.Nvs * q.Nvs * q.NL7
    u2 := q.RealMMix / q.TanBeta - 1 / 2 * v2 * v2 * q.L2 -
      1 / 2 * v1 * v1 * (q.L3 + q.L4 + q.RL5) - 1 / 2 * q.Nvs * q.Nvs * q.NL8
    Nus := -(1 / 2) * q.NL6 * q.Nvs * q.Nvs - 1 / 2 * q.NL7 * v1 * v1 - 1 / 2 * q.NL8 * v2 * v2
    NL6 := q.NL6
    NL7 := q.NL7
    NL8 := q.NL8 }

/-- `vevTree` with the components `v1`, `v2`, `vs` of `vevTreeMin` placed at the positions `6`, `7`
and `8` of `VevOrder` (ClassPotentialN2HDM.cpp:41-46, 253-260); the charge- and CP-breaking
components are zero. -/
def vevTree (v1 v2 vs : K) : FVec 9 K := ![0, 0, 0, 0, 0, 0, v1, v2, vs]

/-- `Curvature_Higgs_L2`, ClassPotentialN2HDM.cpp:960-1040. -/
def l2 (p : Par K) : Assign K :=
  [([0, 0], p.u1), ([0, 1], -p.RealMMix), ([0, 2], 0), ([0, 3], 0), ([0, 4], 0), ([0, 5], 0),
   ([0, 6], 0), ([0, 7], 0), ([0, 8], 0), ([1, 0], -p.RealMMix), ([1, 1], p.u2), ([1, 2], 0),
   ([1, 3], 0), ([1, 4], 0), ([1, 5], 0), ([1, 6], 0), ([1, 7], 0), ([1, 8], 0), ([2, 0], 0),
   ([2, 1], 0), ([2, 2], p.u1), ([2, 3], -p.RealMMix), ([2, 4], 0), ([2, 5], 0), ([2, 6], 0),
   ([2, 7], 0), ([2, 8], 0), ([3, 0], 0), ([3, 1], 0), ([3, 2], -p.RealMMix), ([3, 3], p.u2),
   ([3, 4], 0), ([3, 5], 0), ([3, 6], 0), ([3, 7], 0), ([3, 8], 0), ([4, 0], 0), ([4, 1], 0),
   ([4, 2], 0), ([4, 3], 0), ([4, 4], p.u1), ([4, 5], -p.RealMMix), ([4, 6], 0), ([4, 7], 0),
   ([4, 8], 0), ([5, 0], 0), ([5, 1], 0), ([5, 2], 0), ([5, 3], 0), ([5, 4], -p.RealMMix),
   ([5, 5], p.u2), ([5, 6], 0), ([5, 7], 0), ([5, 8], 0), ([6, 0], 0), ([6, 1], 0), ([6, 2], 0),
   ([6, 3], 0), ([6, 4], 0), ([6, 5], 0), ([6, 6], p.u1), ([6, 7], -p.RealMMix), ([6, 8], 0),
   ([7, 0], 0), ([7, 1], 0), ([7, 2], 0), ([7, 3], 0), ([7, 4], 0), ([7, 5], 0),
   ([7, 6], -p.RealMMix), ([7, 7], p.u2), ([7, 8], 0), ([8, 0], 0), ([8, 1], 0), ([8, 2], 0),
   ([8, 3], 0), ([8, 4], 0), ([8, 5], 0), ([8, 6], 0), ([8, 7], 0), ([8, 8], p.Nus)]

/-- `Curvature_Higgs_L4`, ClassPotentialN2HDM.cpp:1042-1206. First index 0. -/
def l4_0 (p : Par K) : Assign K :=
  [([0, 0, 0, 0], 3 * p.L1), ([0, 0, 0, 1], 0), ([0, 0, 0, 2], 0), ([0, 0, 0, 3], 0),
   ([0, 0, 0, 4], 0), ([0, 0, 0, 5], 0), ([0, 0, 0, 6], 0), ([0, 0, 0, 7], 0), ([0, 0, 0, 8], 0),
   ([0, 0, 1, 1], p.L3 + p.L4 + p.RL5), ([0, 0, 1, 2], 0), ([0, 0, 1, 3], 0), ([0, 0, 1, 4], 0),
   ([0, 0, 1, 5], 0), ([0, 0, 1, 6], 0), ([0, 0, 1, 7], 0), ([0, 0, 1, 8], 0),
   ([0, 0, 2, 2], p.L1), ([0, 0, 2, 3], 0), ([0, 0, 2, 4], 0), ([0, 0, 2, 5], 0),
   ([0, 0, 2, 6], 0), ([0, 0, 2, 7], 0), ([0, 0, 2, 8], 0), ([0, 0, 3, 3], p.L3 + p.L4 - p.RL5),
   ([0, 0, 3, 4], 0), ([0, 0, 3, 5], 0), ([0, 0, 3, 6], 0), ([0, 0, 3, 7], 0), ([0, 0, 3, 8], 0),
   ([0, 0, 4, 4], p.L1), ([0, 0, 4, 5], 0), ([0, 0, 4, 6], 0), ([0, 0, 4, 7], 0),
   ([0, 0, 4, 8], 0), ([0, 0, 5, 5], p.L3), ([0, 0, 5, 6], 0), ([0, 0, 5, 7], 0),
   ([0, 0, 5, 8], 0), ([0, 0, 6, 6], p.L1), ([0, 0, 6, 7], 0), ([0, 0, 6, 8], 0),
   ([0, 0, 7, 7], p.L3), ([0, 0, 7, 8], 0), ([0, 0, 8, 8], p.NL7), ([0, 1, 1, 1], 0),
   ([0, 1, 1, 2], 0), ([0, 1, 1, 3], 0), ([0, 1, 1, 4], 0), ([0, 1, 1, 5], 0), ([0, 1, 1, 6], 0),
   ([0, 1, 1, 7], 0), ([0, 1, 1, 8], 0), ([0, 1, 2, 2], 0), ([0, 1, 2, 3], p.RL5),
   ([0, 1, 2, 4], 0), ([0, 1, 2, 5], 0), ([0, 1, 2, 6], 0), ([0, 1, 2, 7], 0), ([0, 1, 2, 8], 0),
   ([0, 1, 3, 3], 0), ([0, 1, 3, 4], 0), ([0, 1, 3, 5], 0), ([0, 1, 3, 6], 0), ([0, 1, 3, 7], 0),
   ([0, 1, 3, 8], 0), ([0, 1, 4, 4], 0), ([0, 1, 4, 5], p.L4 / 2 + p.RL5 / 2), ([0, 1, 4, 6], 0),
   ([0, 1, 4, 7], 0), ([0, 1, 4, 8], 0), ([0, 1, 5, 5], 0), ([0, 1, 5, 6], 0), ([0, 1, 5, 7], 0),
   ([0, 1, 5, 8], 0), ([0, 1, 6, 6], 0), ([0, 1, 6, 7], p.L4 / 2 + p.RL5 / 2), ([0, 1, 6, 8], 0),
   ([0, 1, 7, 7], 0), ([0, 1, 7, 8], 0), ([0, 1, 8, 8], 0), ([0, 2, 2, 2], 0), ([0, 2, 2, 3], 0),
   ([0, 2, 2, 4], 0), ([0, 2, 2, 5], 0), ([0, 2, 2, 6], 0), ([0, 2, 2, 7], 0), ([0, 2, 2, 8], 0),
   ([0, 2, 3, 3], 0), ([0, 2, 3, 4], 0), ([0, 2, 3, 5], 0), ([0, 2, 3, 6], 0), ([0, 2, 3, 7], 0),
   ([0, 2, 3, 8], 0), ([0, 2, 4, 4], 0), ([0, 2, 4, 5], 0), ([0, 2, 4, 6], 0), ([0, 2, 4, 7], 0),
   ([0, 2, 4, 8], 0), ([0, 2, 5, 5], 0), ([0, 2, 5, 6], 0), ([0, 2, 5, 7], 0), ([0, 2, 5, 8], 0),
   ([0, 2, 6, 6], 0), ([0, 2, 6, 7], 0), ([0, 2, 6, 8], 0), ([0, 2, 7, 7], 0), ([0, 2, 7, 8], 0),
   ([0, 2, 8, 8], 0), ([0, 3, 3, 3], 0), ([0, 3, 3, 4], 0), ([0, 3, 3, 5], 0), ([0, 3, 3, 6], 0),
   ([0, 3, 3, 7], 0), ([0, 3, 3, 8], 0), ([0, 3, 4, 4], 0), ([0, 3, 4, 5], 0), ([0, 3, 4, 6], 0),
   ([0, 3, 4, 7], -p.L4 / 2 + p.RL5 / 2), ([0, 3, 4, 8], 0), ([0, 3, 5, 5], 0),
   ([0, 3, 5, 6], p.L4 / 2 - p.RL5 / 2), ([0, 3, 5, 7], 0), ([0, 3, 5, 8], 0), ([0, 3, 6, 6], 0),
   ([0, 3, 6, 7], 0), ([0, 3, 6, 8], 0), ([0, 3, 7, 7], 0), ([0, 3, 7, 8], 0), ([0, 3, 8, 8], 0),
   ([0, 4, 4, 4], 0), ([0, 4, 4, 5], 0), ([0, 4, 4, 6], 0), ([0, 4, 4, 7], 0), ([0, 4, 4, 8], 0),
   ([0, 4, 5, 5], 0), ([0, 4, 5, 6], 0), ([0, 4, 5, 7], 0), ([0, 4, 5, 8], 0), ([0, 4, 6, 6], 0),
   ([0, 4, 6, 7], 0), ([0, 4, 6, 8], 0), ([0, 4, 7, 7], 0), ([0, 4, 7, 8], 0), ([0, 4, 8, 8], 0),
   ([0, 5, 5, 5], 0), ([0, 5, 5, 6], 0), ([0, 5, 5, 7], 0), ([0, 5, 5, 8], 0), ([0, 5, 6, 6], 0),
   ([0, 5, 6, 7], 0), ([0, 5, 6, 8], 0), ([0, 5, 7, 7], 0), ([0, 5, 7, 8], 0), ([0, 5, 8, 8], 0),
   ([0, 6, 6, 6], 0), ([0, 6, 6, 7], 0), ([0, 6, 6, 8], 0), ([0, 6, 7, 7], 0), ([0, 6, 7, 8], 0),
   ([0, 6, 8, 8], 0), ([0, 7, 7, 7], 0), ([0, 7, 7, 8], 0), ([0, 7, 8, 8], 0), ([0, 8, 8, 8], 0)]

/-- `Curvature_Higgs_L4`, ClassPotentialN2HDM.cpp:1207-1326. First index 1. -/
def l4_1 (p : Par K) : Assign K :=
  [([1, 1, 1, 1], 3 * p.L2), ([1, 1, 1, 2], 0), ([1, 1, 1, 3], 0), ([1, 1, 1, 4], 0),
   ([1, 1, 1, 5], 0), ([1, 1, 1, 6], 0), ([1, 1, 1, 7], 0), ([1, 1, 1, 8], 0),
   ([1, 1, 2, 2], p.L3 + p.L4 - p.RL5), ([1, 1, 2, 3], 0), ([1, 1, 2, 4], 0), ([1, 1, 2, 5], 0),
   ([1, 1, 2, 6], 0), ([1, 1, 2, 7], 0), ([1, 1, 2, 8], 0), ([1, 1, 3, 3], p.L2),
   ([1, 1, 3, 4], 0), ([1, 1, 3, 5], 0), ([1, 1, 3, 6], 0), ([1, 1, 3, 7], 0), ([1, 1, 3, 8], 0),
   ([1, 1, 4, 4], p.L3), ([1, 1, 4, 5], 0), ([1, 1, 4, 6], 0), ([1, 1, 4, 7], 0),
   ([1, 1, 4, 8], 0), ([1, 1, 5, 5], p.L2), ([1, 1, 5, 6], 0), ([1, 1, 5, 7], 0),
   ([1, 1, 5, 8], 0), ([1, 1, 6, 6], p.L3), ([1, 1, 6, 7], 0), ([1, 1, 6, 8], 0),
   ([1, 1, 7, 7], p.L2), ([1, 1, 7, 8], 0), ([1, 1, 8, 8], p.NL8), ([1, 2, 2, 2], 0),
   ([1, 2, 2, 3], 0), ([1, 2, 2, 4], 0), ([1, 2, 2, 5], 0), ([1, 2, 2, 6], 0), ([1, 2, 2, 7], 0),
   ([1, 2, 2, 8], 0), ([1, 2, 3, 3], 0), ([1, 2, 3, 4], 0), ([1, 2, 3, 5], 0), ([1, 2, 3, 6], 0),
   ([1, 2, 3, 7], 0), ([1, 2, 3, 8], 0), ([1, 2, 4, 4], 0), ([1, 2, 4, 5], 0), ([1, 2, 4, 6], 0),
   ([1, 2, 4, 7], p.L4 / 2 - p.RL5 / 2), ([1, 2, 4, 8], 0), ([1, 2, 5, 5], 0),
   ([1, 2, 5, 6], -p.L4 / 2 + p.RL5 / 2), ([1, 2, 5, 7], 0), ([1, 2, 5, 8], 0), ([1, 2, 6, 6], 0),
   ([1, 2, 6, 7], 0), ([1, 2, 6, 8], 0), ([1, 2, 7, 7], 0), ([1, 2, 7, 8], 0), ([1, 2, 8, 8], 0),
   ([1, 3, 3, 3], 0), ([1, 3, 3, 4], 0), ([1, 3, 3, 5], 0), ([1, 3, 3, 6], 0), ([1, 3, 3, 7], 0),
   ([1, 3, 3, 8], 0), ([1, 3, 4, 4], 0), ([1, 3, 4, 5], 0), ([1, 3, 4, 6], 0), ([1, 3, 4, 7], 0),
   ([1, 3, 4, 8], 0), ([1, 3, 5, 5], 0), ([1, 3, 5, 6], 0), ([1, 3, 5, 7], 0), ([1, 3, 5, 8], 0),
   ([1, 3, 6, 6], 0), ([1, 3, 6, 7], 0), ([1, 3, 6, 8], 0), ([1, 3, 7, 7], 0), ([1, 3, 7, 8], 0),
   ([1, 3, 8, 8], 0), ([1, 4, 4, 4], 0), ([1, 4, 4, 5], 0), ([1, 4, 4, 6], 0), ([1, 4, 4, 7], 0),
   ([1, 4, 4, 8], 0), ([1, 4, 5, 5], 0), ([1, 4, 5, 6], 0), ([1, 4, 5, 7], 0), ([1, 4, 5, 8], 0),
   ([1, 4, 6, 6], 0), ([1, 4, 6, 7], 0), ([1, 4, 6, 8], 0), ([1, 4, 7, 7], 0), ([1, 4, 7, 8], 0),
   ([1, 4, 8, 8], 0), ([1, 5, 5, 5], 0), ([1, 5, 5, 6], 0), ([1, 5, 5, 7], 0), ([1, 5, 5, 8], 0),
   ([1, 5, 6, 6], 0), ([1, 5, 6, 7], 0), ([1, 5, 6, 8], 0), ([1, 5, 7, 7], 0), ([1, 5, 7, 8], 0),
   ([1, 5, 8, 8], 0), ([1, 6, 6, 6], 0), ([1, 6, 6, 7], 0), ([1, 6, 6, 8], 0), ([1, 6, 7, 7], 0),
   ([1, 6, 7, 8], 0), ([1, 6, 8, 8], 0), ([1, 7, 7, 7], 0), ([1, 7, 7, 8], 0), ([1, 7, 8, 8], 0),
   ([1, 8, 8, 8], 0)]

/-- `Curvature_Higgs_L4`, ClassPotentialN2HDM.cpp:1327-1410. First index 2. -/
def l4_2 (p : Par K) : Assign K :=
  [([2, 2, 2, 2], 3 * p.L1), ([2, 2, 2, 3], 0), ([2, 2, 2, 4], 0), ([2, 2, 2, 5], 0),
   ([2, 2, 2, 6], 0), ([2, 2, 2, 7], 0), ([2, 2, 2, 8], 0), ([2, 2, 3, 3], p.L3 + p.L4 + p.RL5),
   ([2, 2, 3, 4], 0), ([2, 2, 3, 5], 0), ([2, 2, 3, 6], 0), ([2, 2, 3, 7], 0), ([2, 2, 3, 8], 0),
   ([2, 2, 4, 4], p.L1), ([2, 2, 4, 5], 0), ([2, 2, 4, 6], 0), ([2, 2, 4, 7], 0),
   ([2, 2, 4, 8], 0), ([2, 2, 5, 5], p.L3), ([2, 2, 5, 6], 0), ([2, 2, 5, 7], 0),
   ([2, 2, 5, 8], 0), ([2, 2, 6, 6], p.L1), ([2, 2, 6, 7], 0), ([2, 2, 6, 8], 0),
   ([2, 2, 7, 7], p.L3), ([2, 2, 7, 8], 0), ([2, 2, 8, 8], p.NL7), ([2, 3, 3, 3], 0),
   ([2, 3, 3, 4], 0), ([2, 3, 3, 5], 0), ([2, 3, 3, 6], 0), ([2, 3, 3, 7], 0), ([2, 3, 3, 8], 0),
   ([2, 3, 4, 4], 0), ([2, 3, 4, 5], p.L4 / 2 + p.RL5 / 2), ([2, 3, 4, 6], 0), ([2, 3, 4, 7], 0),
   ([2, 3, 4, 8], 0), ([2, 3, 5, 5], 0), ([2, 3, 5, 6], 0), ([2, 3, 5, 7], 0), ([2, 3, 5, 8], 0),
   ([2, 3, 6, 6], 0), ([2, 3, 6, 7], p.L4 / 2 + p.RL5 / 2), ([2, 3, 6, 8], 0), ([2, 3, 7, 7], 0),
   ([2, 3, 7, 8], 0), ([2, 3, 8, 8], 0), ([2, 4, 4, 4], 0), ([2, 4, 4, 5], 0), ([2, 4, 4, 6], 0),
   ([2, 4, 4, 7], 0), ([2, 4, 4, 8], 0), ([2, 4, 5, 5], 0), ([2, 4, 5, 6], 0), ([2, 4, 5, 7], 0),
   ([2, 4, 5, 8], 0), ([2, 4, 6, 6], 0), ([2, 4, 6, 7], 0), ([2, 4, 6, 8], 0), ([2, 4, 7, 7], 0),
   ([2, 4, 7, 8], 0), ([2, 4, 8, 8], 0), ([2, 5, 5, 5], 0), ([2, 5, 5, 6], 0), ([2, 5, 5, 7], 0),
   ([2, 5, 5, 8], 0), ([2, 5, 6, 6], 0), ([2, 5, 6, 7], 0), ([2, 5, 6, 8], 0), ([2, 5, 7, 7], 0),
   ([2, 5, 7, 8], 0), ([2, 5, 8, 8], 0), ([2, 6, 6, 6], 0), ([2, 6, 6, 7], 0), ([2, 6, 6, 8], 0),
   ([2, 6, 7, 7], 0), ([2, 6, 7, 8], 0), ([2, 6, 8, 8], 0), ([2, 7, 7, 7], 0), ([2, 7, 7, 8], 0),
   ([2, 7, 8, 8], 0), ([2, 8, 8, 8], 0)]

/-- `Curvature_Higgs_L4`, ClassPotentialN2HDM.cpp:1411-1466. First index 3. -/
def l4_3 (p : Par K) : Assign K :=
  [([3, 3, 3, 3], 3 * p.L2), ([3, 3, 3, 4], 0), ([3, 3, 3, 5], 0), ([3, 3, 3, 6], 0),
   ([3, 3, 3, 7], 0), ([3, 3, 3, 8], 0), ([3, 3, 4, 4], p.L3), ([3, 3, 4, 5], 0),
   ([3, 3, 4, 6], 0), ([3, 3, 4, 7], 0), ([3, 3, 4, 8], 0), ([3, 3, 5, 5], p.L2),
   ([3, 3, 5, 6], 0), ([3, 3, 5, 7], 0), ([3, 3, 5, 8], 0), ([3, 3, 6, 6], p.L3),
   ([3, 3, 6, 7], 0), ([3, 3, 6, 8], 0), ([3, 3, 7, 7], p.L2), ([3, 3, 7, 8], 0),
   ([3, 3, 8, 8], p.NL8), ([3, 4, 4, 4], 0), ([3, 4, 4, 5], 0), ([3, 4, 4, 6], 0),
   ([3, 4, 4, 7], 0), ([3, 4, 4, 8], 0), ([3, 4, 5, 5], 0), ([3, 4, 5, 6], 0), ([3, 4, 5, 7], 0),
   ([3, 4, 5, 8], 0), ([3, 4, 6, 6], 0), ([3, 4, 6, 7], 0), ([3, 4, 6, 8], 0), ([3, 4, 7, 7], 0),
   ([3, 4, 7, 8], 0), ([3, 4, 8, 8], 0), ([3, 5, 5, 5], 0), ([3, 5, 5, 6], 0), ([3, 5, 5, 7], 0),
   ([3, 5, 5, 8], 0), ([3, 5, 6, 6], 0), ([3, 5, 6, 7], 0), ([3, 5, 6, 8], 0), ([3, 5, 7, 7], 0),
   ([3, 5, 7, 8], 0), ([3, 5, 8, 8], 0), ([3, 6, 6, 6], 0), ([3, 6, 6, 7], 0), ([3, 6, 6, 8], 0),
   ([3, 6, 7, 7], 0), ([3, 6, 7, 8], 0), ([3, 6, 8, 8], 0), ([3, 7, 7, 7], 0), ([3, 7, 7, 8], 0),
   ([3, 7, 8, 8], 0), ([3, 8, 8, 8], 0)]

/-- `Curvature_Higgs_L4`, ClassPotentialN2HDM.cpp:1467-1501. First index 4. -/
def l4_4 (p : Par K) : Assign K :=
  [([4, 4, 4, 4], 3 * p.L1), ([4, 4, 4, 5], 0), ([4, 4, 4, 6], 0), ([4, 4, 4, 7], 0),
   ([4, 4, 4, 8], 0), ([4, 4, 5, 5], p.L3 + p.L4 + p.RL5), ([4, 4, 5, 6], 0), ([4, 4, 5, 7], 0),
   ([4, 4, 5, 8], 0), ([4, 4, 6, 6], p.L1), ([4, 4, 6, 7], 0), ([4, 4, 6, 8], 0),
   ([4, 4, 7, 7], p.L3 + p.L4 - p.RL5), ([4, 4, 7, 8], 0), ([4, 4, 8, 8], p.NL7),
   ([4, 5, 5, 5], 0), ([4, 5, 5, 6], 0), ([4, 5, 5, 7], 0), ([4, 5, 5, 8], 0), ([4, 5, 6, 6], 0),
   ([4, 5, 6, 7], p.RL5), ([4, 5, 6, 8], 0), ([4, 5, 7, 7], 0), ([4, 5, 7, 8], 0),
   ([4, 5, 8, 8], 0), ([4, 6, 6, 6], 0), ([4, 6, 6, 7], 0), ([4, 6, 6, 8], 0), ([4, 6, 7, 7], 0),
   ([4, 6, 7, 8], 0), ([4, 6, 8, 8], 0), ([4, 7, 7, 7], 0), ([4, 7, 7, 8], 0), ([4, 7, 8, 8], 0),
   ([4, 8, 8, 8], 0)]

/-- `Curvature_Higgs_L4`, ClassPotentialN2HDM.cpp:1502-1521. First index 5. -/
def l4_5 (p : Par K) : Assign K :=
  [([5, 5, 5, 5], 3 * p.L2), ([5, 5, 5, 6], 0), ([5, 5, 5, 7], 0), ([5, 5, 5, 8], 0),
   ([5, 5, 6, 6], p.L3 + p.L4 - p.RL5), ([5, 5, 6, 7], 0), ([5, 5, 6, 8], 0),
   ([5, 5, 7, 7], p.L2), ([5, 5, 7, 8], 0), ([5, 5, 8, 8], p.NL8), ([5, 6, 6, 6], 0),
   ([5, 6, 6, 7], 0), ([5, 6, 6, 8], 0), ([5, 6, 7, 7], 0), ([5, 6, 7, 8], 0), ([5, 6, 8, 8], 0),
   ([5, 7, 7, 7], 0), ([5, 7, 7, 8], 0), ([5, 7, 8, 8], 0), ([5, 8, 8, 8], 0)]

/-- `Curvature_Higgs_L4`, ClassPotentialN2HDM.cpp:1522-1531. First index 6. -/
def l4_6 (p : Par K) : Assign K :=
  [([6, 6, 6, 6], 3 * p.L1), ([6, 6, 6, 7], 0), ([6, 6, 6, 8], 0),
   ([6, 6, 7, 7], p.L3 + p.L4 + p.RL5), ([6, 6, 7, 8], 0), ([6, 6, 8, 8], p.NL7),
   ([6, 7, 7, 7], 0), ([6, 7, 7, 8], 0), ([6, 7, 8, 8], 0), ([6, 8, 8, 8], 0)]

/-- `Curvature_Higgs_L4`, ClassPotentialN2HDM.cpp:1532-1535. First index 7. -/
def l4_7 (p : Par K) : Assign K :=
  [([7, 7, 7, 7], 3 * p.L2), ([7, 7, 7, 8], 0), ([7, 7, 8, 8], p.NL8), ([7, 8, 8, 8], 0)]

/-- `Curvature_Higgs_L4`, ClassPotentialN2HDM.cpp:1536-1536. First index 8. -/
def l4_8 (p : Par K) : Assign K :=
  [([8, 8, 8, 8], 3 * p.NL6)]

/-- `Curvature_Higgs_L4`, ClassPotentialN2HDM.cpp:1042-1536. -/
def l4 (p : Par K) : Assign K :=
  [l4_0 p, l4_1 p, l4_2 p, l4_3 p, l4_4 p, l4_5 p, l4_6 p, l4_7 p, l4_8 p].flatten

/-- `Curvature_Higgs_CT_L1`, ClassPotentialN2HDM.cpp:283-291.
`DTCharged` and `DT3` keep their initial value zero. -/
def ctL1 (c : CT K) : Assign K :=
  [([0], 0), ([1], 0), ([2], 0), ([3], 0), ([4], 0), ([5], 0), ([6], c.DT1), ([7], c.DT2),
   ([8], c.NDTS)]

/-- `Curvature_Higgs_CT_L2`, ClassPotentialN2HDM.cpp:293-305. -/
def ctL2 (c : CT K) : Assign K :=
  [([0, 0], c.Du1CT), ([0, 1], -c.DRu3CT), ([1, 1], c.Du2CT), ([2, 2], c.Du1CT),
   ([2, 3], -c.DRu3CT), ([3, 3], c.Du2CT), ([4, 4], c.Du1CT), ([4, 5], -c.DRu3CT),
   ([5, 5], c.Du2CT), ([6, 6], c.Du1CT), ([6, 7], -c.DRu3CT), ([7, 7], c.Du2CT), ([8, 8], c.NDus)]

/-- `Curvature_Higgs_CT_L4`, ClassPotentialN2HDM.cpp:307-361. -/
def ctL4 (c : CT K) : Assign K :=
  [([0, 0, 0, 0], 3 * c.DL1CT), ([0, 0, 1, 1], c.DL3CT + c.DL4CT + c.DRL5CT),
   ([0, 0, 2, 2], c.DL1CT), ([0, 0, 3, 3], c.DL3CT + c.DL4CT - c.DRL5CT), ([0, 0, 4, 4], c.DL1CT),
   ([0, 0, 5, 5], c.DL3CT), ([0, 0, 6, 6], c.DL1CT), ([0, 0, 7, 7], c.DL3CT),
   ([0, 0, 8, 8], c.NDL7), ([0, 1, 2, 3], c.DRL5CT), ([0, 1, 4, 5], c.DL4CT / 2 + c.DRL5CT / 2),
   ([0, 1, 6, 7], c.DL4CT / 2 + c.DRL5CT / 2), ([0, 3, 4, 7], -c.DL4CT / 2 + c.DRL5CT / 2),
   ([0, 3, 5, 6], c.DL4CT / 2 - c.DRL5CT / 2), ([1, 1, 1, 1], 3 * c.DL2CT),
   ([1, 1, 2, 2], c.DL3CT + c.DL4CT - c.DRL5CT), ([1, 1, 3, 3], c.DL2CT), ([1, 1, 4, 4], c.DL3CT),
   ([1, 1, 5, 5], c.DL2CT), ([1, 1, 6, 6], c.DL3CT), ([1, 1, 7, 7], c.DL2CT),
   ([1, 1, 8, 8], c.NDL8), ([1, 2, 4, 7], c.DL4CT / 2 - c.DRL5CT / 2),
   ([1, 2, 5, 6], -c.DL4CT / 2 + c.DRL5CT / 2), ([2, 2, 2, 2], 3 * c.DL1CT),
   ([2, 2, 3, 3], c.DL3CT + c.DL4CT + c.DRL5CT), ([2, 2, 4, 4], c.DL1CT), ([2, 2, 5, 5], c.DL3CT),
   ([2, 2, 6, 6], c.DL1CT), ([2, 2, 7, 7], c.DL3CT), ([2, 2, 8, 8], c.NDL7),
   ([2, 3, 4, 5], c.DL4CT / 2 + c.DRL5CT / 2), ([2, 3, 6, 7], c.DL4CT / 2 + c.DRL5CT / 2),
   ([3, 3, 3, 3], 3 * c.DL2CT), ([3, 3, 4, 4], c.DL3CT), ([3, 3, 5, 5], c.DL2CT),
   ([3, 3, 6, 6], c.DL3CT), ([3, 3, 7, 7], c.DL2CT), ([3, 3, 8, 8], c.NDL8),
   ([4, 4, 4, 4], 3 * c.DL1CT), ([4, 4, 5, 5], c.DL3CT + c.DL4CT + c.DRL5CT),
   ([4, 4, 6, 6], c.DL1CT), ([4, 4, 7, 7], c.DL3CT + c.DL4CT - c.DRL5CT), ([4, 4, 8, 8], c.NDL7),
   ([4, 5, 6, 7], c.DRL5CT), ([5, 5, 5, 5], 3 * c.DL2CT),
   ([5, 5, 6, 6], c.DL3CT + c.DL4CT - c.DRL5CT), ([5, 5, 7, 7], c.DL2CT), ([5, 5, 8, 8], c.NDL8),
   ([6, 6, 6, 6], 3 * c.DL1CT), ([6, 6, 7, 7], c.DL3CT + c.DL4CT + c.DRL5CT),
   ([6, 6, 8, 8], c.NDL7), ([7, 7, 7, 7], 3 * c.DL2CT), ([7, 7, 8, 8], c.NDL8),
   ([8, 8, 8, 8], 3 * c.NDL6)]

/-- `Curvature_Gauge_G2H2`, ClassPotentialN2HDM.cpp:1609-1689. First indices 0, 0. -/
def g2h2_00 (g gs : K) : Assign K :=
  [([0, 0, 0, 0], g * g / 2), ([0, 0, 0, 1], 0), ([0, 0, 0, 2], 0), ([0, 0, 0, 3], 0),
   ([0, 0, 0, 4], 0), ([0, 0, 0, 5], 0), ([0, 0, 0, 6], 0), ([0, 0, 0, 7], 0), ([0, 0, 0, 8], 0),
   ([0, 0, 1, 0], 0), ([0, 0, 1, 1], g * g / 2), ([0, 0, 1, 2], 0), ([0, 0, 1, 3], 0),
   ([0, 0, 1, 4], 0), ([0, 0, 1, 5], 0), ([0, 0, 1, 6], 0), ([0, 0, 1, 7], 0), ([0, 0, 1, 8], 0),
   ([0, 0, 2, 0], 0), ([0, 0, 2, 1], 0), ([0, 0, 2, 2], g * g / 2), ([0, 0, 2, 3], 0),
   ([0, 0, 2, 4], 0), ([0, 0, 2, 5], 0), ([0, 0, 2, 6], 0), ([0, 0, 2, 7], 0), ([0, 0, 2, 8], 0),
   ([0, 0, 3, 0], 0), ([0, 0, 3, 1], 0), ([0, 0, 3, 2], 0), ([0, 0, 3, 3], g * g / 2),
   ([0, 0, 3, 4], 0), ([0, 0, 3, 5], 0), ([0, 0, 3, 6], 0), ([0, 0, 3, 7], 0), ([0, 0, 3, 8], 0),
   ([0, 0, 4, 0], 0), ([0, 0, 4, 1], 0), ([0, 0, 4, 2], 0), ([0, 0, 4, 3], 0),
   ([0, 0, 4, 4], g * g / 2), ([0, 0, 4, 5], 0), ([0, 0, 4, 6], 0), ([0, 0, 4, 7], 0),
   ([0, 0, 4, 8], 0), ([0, 0, 5, 0], 0), ([0, 0, 5, 1], 0), ([0, 0, 5, 2], 0), ([0, 0, 5, 3], 0),
   ([0, 0, 5, 4], 0), ([0, 0, 5, 5], g * g / 2), ([0, 0, 5, 6], 0), ([0, 0, 5, 7], 0),
   ([0, 0, 5, 8], 0), ([0, 0, 6, 0], 0), ([0, 0, 6, 1], 0), ([0, 0, 6, 2], 0), ([0, 0, 6, 3], 0),
   ([0, 0, 6, 4], 0), ([0, 0, 6, 5], 0), ([0, 0, 6, 6], g * g / 2), ([0, 0, 6, 7], 0),
   ([0, 0, 6, 8], 0), ([0, 0, 7, 0], 0), ([0, 0, 7, 1], 0), ([0, 0, 7, 2], 0), ([0, 0, 7, 3], 0),
   ([0, 0, 7, 4], 0), ([0, 0, 7, 5], 0), ([0, 0, 7, 6], 0), ([0, 0, 7, 7], g * g / 2),
   ([0, 0, 7, 8], 0), ([0, 0, 8, 0], 0), ([0, 0, 8, 1], 0), ([0, 0, 8, 2], 0), ([0, 0, 8, 3], 0),
   ([0, 0, 8, 4], 0), ([0, 0, 8, 5], 0), ([0, 0, 8, 6], 0), ([0, 0, 8, 7], 0), ([0, 0, 8, 8], 0)]

/-- `Curvature_Gauge_G2H2`, ClassPotentialN2HDM.cpp:1690-1770. First indices 0, 1. -/
def g2h2_01 (g gs : K) : Assign K :=
  [([0, 1, 0, 0], 0), ([0, 1, 0, 1], 0), ([0, 1, 0, 2], 0), ([0, 1, 0, 3], 0), ([0, 1, 0, 4], 0),
   ([0, 1, 0, 5], 0), ([0, 1, 0, 6], 0), ([0, 1, 0, 7], 0), ([0, 1, 0, 8], 0), ([0, 1, 1, 0], 0),
   ([0, 1, 1, 1], 0), ([0, 1, 1, 2], 0), ([0, 1, 1, 3], 0), ([0, 1, 1, 4], 0), ([0, 1, 1, 5], 0),
   ([0, 1, 1, 6], 0), ([0, 1, 1, 7], 0), ([0, 1, 1, 8], 0), ([0, 1, 2, 0], 0), ([0, 1, 2, 1], 0),
   ([0, 1, 2, 2], 0), ([0, 1, 2, 3], 0), ([0, 1, 2, 4], 0), ([0, 1, 2, 5], 0), ([0, 1, 2, 6], 0),
   ([0, 1, 2, 7], 0), ([0, 1, 2, 8], 0), ([0, 1, 3, 0], 0), ([0, 1, 3, 1], 0), ([0, 1, 3, 2], 0),
   ([0, 1, 3, 3], 0), ([0, 1, 3, 4], 0), ([0, 1, 3, 5], 0), ([0, 1, 3, 6], 0), ([0, 1, 3, 7], 0),
   ([0, 1, 3, 8], 0), ([0, 1, 4, 0], 0), ([0, 1, 4, 1], 0), ([0, 1, 4, 2], 0), ([0, 1, 4, 3], 0),
   ([0, 1, 4, 4], 0), ([0, 1, 4, 5], 0), ([0, 1, 4, 6], 0), ([0, 1, 4, 7], 0), ([0, 1, 4, 8], 0),
   ([0, 1, 5, 0], 0), ([0, 1, 5, 1], 0), ([0, 1, 5, 2], 0), ([0, 1, 5, 3], 0), ([0, 1, 5, 4], 0),
   ([0, 1, 5, 5], 0), ([0, 1, 5, 6], 0), ([0, 1, 5, 7], 0), ([0, 1, 5, 8], 0), ([0, 1, 6, 0], 0),
   ([0, 1, 6, 1], 0), ([0, 1, 6, 2], 0), ([0, 1, 6, 3], 0), ([0, 1, 6, 4], 0), ([0, 1, 6, 5], 0),
   ([0, 1, 6, 6], 0), ([0, 1, 6, 7], 0), ([0, 1, 6, 8], 0), ([0, 1, 7, 0], 0), ([0, 1, 7, 1], 0),
   ([0, 1, 7, 2], 0), ([0, 1, 7, 3], 0), ([0, 1, 7, 4], 0), ([0, 1, 7, 5], 0), ([0, 1, 7, 6], 0),
   ([0, 1, 7, 7], 0), ([0, 1, 7, 8], 0), ([0, 1, 8, 0], 0), ([0, 1, 8, 1], 0), ([0, 1, 8, 2], 0),
   ([0, 1, 8, 3], 0), ([0, 1, 8, 4], 0), ([0, 1, 8, 5], 0), ([0, 1, 8, 6], 0), ([0, 1, 8, 7], 0),
   ([0, 1, 8, 8], 0)]

/-- `Curvature_Gauge_G2H2`, ClassPotentialN2HDM.cpp:1771-1851. First indices 0, 2. -/
def g2h2_02 (g gs : K) : Assign K :=
  [([0, 2, 0, 0], 0), ([0, 2, 0, 1], 0), ([0, 2, 0, 2], 0), ([0, 2, 0, 3], 0), ([0, 2, 0, 4], 0),
   ([0, 2, 0, 5], 0), ([0, 2, 0, 6], 0), ([0, 2, 0, 7], 0), ([0, 2, 0, 8], 0), ([0, 2, 1, 0], 0),
   ([0, 2, 1, 1], 0), ([0, 2, 1, 2], 0), ([0, 2, 1, 3], 0), ([0, 2, 1, 4], 0), ([0, 2, 1, 5], 0),
   ([0, 2, 1, 6], 0), ([0, 2, 1, 7], 0), ([0, 2, 1, 8], 0), ([0, 2, 2, 0], 0), ([0, 2, 2, 1], 0),
   ([0, 2, 2, 2], 0), ([0, 2, 2, 3], 0), ([0, 2, 2, 4], 0), ([0, 2, 2, 5], 0), ([0, 2, 2, 6], 0),
   ([0, 2, 2, 7], 0), ([0, 2, 2, 8], 0), ([0, 2, 3, 0], 0), ([0, 2, 3, 1], 0), ([0, 2, 3, 2], 0),
   ([0, 2, 3, 3], 0), ([0, 2, 3, 4], 0), ([0, 2, 3, 5], 0), ([0, 2, 3, 6], 0), ([0, 2, 3, 7], 0),
   ([0, 2, 3, 8], 0), ([0, 2, 4, 0], 0), ([0, 2, 4, 1], 0), ([0, 2, 4, 2], 0), ([0, 2, 4, 3], 0),
   ([0, 2, 4, 4], 0), ([0, 2, 4, 5], 0), ([0, 2, 4, 6], 0), ([0, 2, 4, 7], 0), ([0, 2, 4, 8], 0),
   ([0, 2, 5, 0], 0), ([0, 2, 5, 1], 0), ([0, 2, 5, 2], 0), ([0, 2, 5, 3], 0), ([0, 2, 5, 4], 0),
   ([0, 2, 5, 5], 0), ([0, 2, 5, 6], 0), ([0, 2, 5, 7], 0), ([0, 2, 5, 8], 0), ([0, 2, 6, 0], 0),
   ([0, 2, 6, 1], 0), ([0, 2, 6, 2], 0), ([0, 2, 6, 3], 0), ([0, 2, 6, 4], 0), ([0, 2, 6, 5], 0),
   ([0, 2, 6, 6], 0), ([0, 2, 6, 7], 0), ([0, 2, 6, 8], 0), ([0, 2, 7, 0], 0), ([0, 2, 7, 1], 0),
   ([0, 2, 7, 2], 0), ([0, 2, 7, 3], 0), ([0, 2, 7, 4], 0), ([0, 2, 7, 5], 0), ([0, 2, 7, 6], 0),
   ([0, 2, 7, 7], 0), ([0, 2, 7, 8], 0), ([0, 2, 8, 0], 0), ([0, 2, 8, 1], 0), ([0, 2, 8, 2], 0),
   ([0, 2, 8, 3], 0), ([0, 2, 8, 4], 0), ([0, 2, 8, 5], 0), ([0, 2, 8, 6], 0), ([0, 2, 8, 7], 0),
   ([0, 2, 8, 8], 0)]

/-- `Curvature_Gauge_G2H2`, ClassPotentialN2HDM.cpp:1852-1932. First indices 0, 3. -/
def g2h2_03 (g gs : K) : Assign K :=
  [([0, 3, 0, 0], 0), ([0, 3, 0, 1], 0), ([0, 3, 0, 2], 0), ([0, 3, 0, 3], 0), ([0, 3, 0, 4], 0),
   ([0, 3, 0, 5], 0), ([0, 3, 0, 6], gs * g / 2), ([0, 3, 0, 7], 0), ([0, 3, 0, 8], 0),
   ([0, 3, 1, 0], 0), ([0, 3, 1, 1], 0), ([0, 3, 1, 2], 0), ([0, 3, 1, 3], 0), ([0, 3, 1, 4], 0),
   ([0, 3, 1, 5], 0), ([0, 3, 1, 6], 0), ([0, 3, 1, 7], gs * g / 2), ([0, 3, 1, 8], 0),
   ([0, 3, 2, 0], 0), ([0, 3, 2, 1], 0), ([0, 3, 2, 2], 0), ([0, 3, 2, 3], 0),
   ([0, 3, 2, 4], gs * g / 2), ([0, 3, 2, 5], 0), ([0, 3, 2, 6], 0), ([0, 3, 2, 7], 0),
   ([0, 3, 2, 8], 0), ([0, 3, 3, 0], 0), ([0, 3, 3, 1], 0), ([0, 3, 3, 2], 0), ([0, 3, 3, 3], 0),
   ([0, 3, 3, 4], 0), ([0, 3, 3, 5], gs * g / 2), ([0, 3, 3, 6], 0), ([0, 3, 3, 7], 0),
   ([0, 3, 3, 8], 0), ([0, 3, 4, 0], 0), ([0, 3, 4, 1], 0), ([0, 3, 4, 2], gs * g / 2),
   ([0, 3, 4, 3], 0), ([0, 3, 4, 4], 0), ([0, 3, 4, 5], 0), ([0, 3, 4, 6], 0), ([0, 3, 4, 7], 0),
   ([0, 3, 4, 8], 0), ([0, 3, 5, 0], 0), ([0, 3, 5, 1], 0), ([0, 3, 5, 2], 0),
   ([0, 3, 5, 3], gs * g / 2), ([0, 3, 5, 4], 0), ([0, 3, 5, 5], 0), ([0, 3, 5, 6], 0),
   ([0, 3, 5, 7], 0), ([0, 3, 5, 8], 0), ([0, 3, 6, 0], gs * g / 2), ([0, 3, 6, 1], 0),
   ([0, 3, 6, 2], 0), ([0, 3, 6, 3], 0), ([0, 3, 6, 4], 0), ([0, 3, 6, 5], 0), ([0, 3, 6, 6], 0),
   ([0, 3, 6, 7], 0), ([0, 3, 6, 8], 0), ([0, 3, 7, 0], 0), ([0, 3, 7, 1], gs * g / 2),
   ([0, 3, 7, 2], 0), ([0, 3, 7, 3], 0), ([0, 3, 7, 4], 0), ([0, 3, 7, 5], 0), ([0, 3, 7, 6], 0),
   ([0, 3, 7, 7], 0), ([0, 3, 7, 8], 0), ([0, 3, 8, 0], 0), ([0, 3, 8, 1], 0), ([0, 3, 8, 2], 0),
   ([0, 3, 8, 3], 0), ([0, 3, 8, 4], 0), ([0, 3, 8, 5], 0), ([0, 3, 8, 6], 0), ([0, 3, 8, 7], 0),
   ([0, 3, 8, 8], 0)]

/-- `Curvature_Gauge_G2H2`, ClassPotentialN2HDM.cpp:1933-2013. First indices 1, 0. -/
def g2h2_10 (g gs : K) : Assign K :=
  [([1, 0, 0, 0], 0), ([1, 0, 0, 1], 0), ([1, 0, 0, 2], 0), ([1, 0, 0, 3], 0), ([1, 0, 0, 4], 0),
   ([1, 0, 0, 5], 0), ([1, 0, 0, 6], 0), ([1, 0, 0, 7], 0), ([1, 0, 0, 8], 0), ([1, 0, 1, 0], 0),
   ([1, 0, 1, 1], 0), ([1, 0, 1, 2], 0), ([1, 0, 1, 3], 0), ([1, 0, 1, 4], 0), ([1, 0, 1, 5], 0),
   ([1, 0, 1, 6], 0), ([1, 0, 1, 7], 0), ([1, 0, 1, 8], 0), ([1, 0, 2, 0], 0), ([1, 0, 2, 1], 0),
   ([1, 0, 2, 2], 0), ([1, 0, 2, 3], 0), ([1, 0, 2, 4], 0), ([1, 0, 2, 5], 0), ([1, 0, 2, 6], 0),
   ([1, 0, 2, 7], 0), ([1, 0, 2, 8], 0), ([1, 0, 3, 0], 0), ([1, 0, 3, 1], 0), ([1, 0, 3, 2], 0),
   ([1, 0, 3, 3], 0), ([1, 0, 3, 4], 0), ([1, 0, 3, 5], 0), ([1, 0, 3, 6], 0), ([1, 0, 3, 7], 0),
   ([1, 0, 3, 8], 0), ([1, 0, 4, 0], 0), ([1, 0, 4, 1], 0), ([1, 0, 4, 2], 0), ([1, 0, 4, 3], 0),
   ([1, 0, 4, 4], 0), ([1, 0, 4, 5], 0), ([1, 0, 4, 6], 0), ([1, 0, 4, 7], 0), ([1, 0, 4, 8], 0),
   ([1, 0, 5, 0], 0), ([1, 0, 5, 1], 0), ([1, 0, 5, 2], 0), ([1, 0, 5, 3], 0), ([1, 0, 5, 4], 0),
   ([1, 0, 5, 5], 0), ([1, 0, 5, 6], 0), ([1, 0, 5, 7], 0), ([1, 0, 5, 8], 0), ([1, 0, 6, 0], 0),
   ([1, 0, 6, 1], 0), ([1, 0, 6, 2], 0), ([1, 0, 6, 3], 0), ([1, 0, 6, 4], 0), ([1, 0, 6, 5], 0),
   ([1, 0, 6, 6], 0), ([1, 0, 6, 7], 0), ([1, 0, 6, 8], 0), ([1, 0, 7, 0], 0), ([1, 0, 7, 1], 0),
   ([1, 0, 7, 2], 0), ([1, 0, 7, 3], 0), ([1, 0, 7, 4], 0), ([1, 0, 7, 5], 0), ([1, 0, 7, 6], 0),
   ([1, 0, 7, 7], 0), ([1, 0, 7, 8], 0), ([1, 0, 8, 0], 0), ([1, 0, 8, 1], 0), ([1, 0, 8, 2], 0),
   ([1, 0, 8, 3], 0), ([1, 0, 8, 4], 0), ([1, 0, 8, 5], 0), ([1, 0, 8, 6], 0), ([1, 0, 8, 7], 0),
   ([1, 0, 8, 8], 0)]

/-- `Curvature_Gauge_G2H2`, ClassPotentialN2HDM.cpp:2014-2094. First indices 1, 1. -/
def g2h2_11 (g gs : K) : Assign K :=
  [([1, 1, 0, 0], g * g / 2), ([1, 1, 0, 1], 0), ([1, 1, 0, 2], 0), ([1, 1, 0, 3], 0),
   ([1, 1, 0, 4], 0), ([1, 1, 0, 5], 0), ([1, 1, 0, 6], 0), ([1, 1, 0, 7], 0), ([1, 1, 0, 8], 0),
   ([1, 1, 1, 0], 0), ([1, 1, 1, 1], g * g / 2), ([1, 1, 1, 2], 0), ([1, 1, 1, 3], 0),
   ([1, 1, 1, 4], 0), ([1, 1, 1, 5], 0), ([1, 1, 1, 6], 0), ([1, 1, 1, 7], 0), ([1, 1, 1, 8], 0),
   ([1, 1, 2, 0], 0), ([1, 1, 2, 1], 0), ([1, 1, 2, 2], g * g / 2), ([1, 1, 2, 3], 0),
   ([1, 1, 2, 4], 0), ([1, 1, 2, 5], 0), ([1, 1, 2, 6], 0), ([1, 1, 2, 7], 0), ([1, 1, 2, 8], 0),
   ([1, 1, 3, 0], 0), ([1, 1, 3, 1], 0), ([1, 1, 3, 2], 0), ([1, 1, 3, 3], g * g / 2),
   ([1, 1, 3, 4], 0), ([1, 1, 3, 5], 0), ([1, 1, 3, 6], 0), ([1, 1, 3, 7], 0), ([1, 1, 3, 8], 0),
   ([1, 1, 4, 0], 0), ([1, 1, 4, 1], 0), ([1, 1, 4, 2], 0), ([1, 1, 4, 3], 0),
   ([1, 1, 4, 4], g * g / 2), ([1, 1, 4, 5], 0), ([1, 1, 4, 6], 0), ([1, 1, 4, 7], 0),
   ([1, 1, 4, 8], 0), ([1, 1, 5, 0], 0), ([1, 1, 5, 1], 0), ([1, 1, 5, 2], 0), ([1, 1, 5, 3], 0),
   ([1, 1, 5, 4], 0), ([1, 1, 5, 5], g * g / 2), ([1, 1, 5, 6], 0), ([1, 1, 5, 7], 0),
   ([1, 1, 5, 8], 0), ([1, 1, 6, 0], 0), ([1, 1, 6, 1], 0), ([1, 1, 6, 2], 0), ([1, 1, 6, 3], 0),
   ([1, 1, 6, 4], 0), ([1, 1, 6, 5], 0), ([1, 1, 6, 6], g * g / 2), ([1, 1, 6, 7], 0),
   ([1, 1, 6, 8], 0), ([1, 1, 7, 0], 0), ([1, 1, 7, 1], 0), ([1, 1, 7, 2], 0), ([1, 1, 7, 3], 0),
   ([1, 1, 7, 4], 0), ([1, 1, 7, 5], 0), ([1, 1, 7, 6], 0), ([1, 1, 7, 7], g * g / 2),
   ([1, 1, 7, 8], 0), ([1, 1, 8, 0], 0), ([1, 1, 8, 1], 0), ([1, 1, 8, 2], 0), ([1, 1, 8, 3], 0),
   ([1, 1, 8, 4], 0), ([1, 1, 8, 5], 0), ([1, 1, 8, 6], 0), ([1, 1, 8, 7], 0), ([1, 1, 8, 8], 0)]

/-- `Curvature_Gauge_G2H2`, ClassPotentialN2HDM.cpp:2095-2175. First indices 1, 2. -/
def g2h2_12 (g gs : K) : Assign K :=
  [([1, 2, 0, 0], 0), ([1, 2, 0, 1], 0), ([1, 2, 0, 2], 0), ([1, 2, 0, 3], 0), ([1, 2, 0, 4], 0),
   ([1, 2, 0, 5], 0), ([1, 2, 0, 6], 0), ([1, 2, 0, 7], 0), ([1, 2, 0, 8], 0), ([1, 2, 1, 0], 0),
   ([1, 2, 1, 1], 0), ([1, 2, 1, 2], 0), ([1, 2, 1, 3], 0), ([1, 2, 1, 4], 0), ([1, 2, 1, 5], 0),
   ([1, 2, 1, 6], 0), ([1, 2, 1, 7], 0), ([1, 2, 1, 8], 0), ([1, 2, 2, 0], 0), ([1, 2, 2, 1], 0),
   ([1, 2, 2, 2], 0), ([1, 2, 2, 3], 0), ([1, 2, 2, 4], 0), ([1, 2, 2, 5], 0), ([1, 2, 2, 6], 0),
   ([1, 2, 2, 7], 0), ([1, 2, 2, 8], 0), ([1, 2, 3, 0], 0), ([1, 2, 3, 1], 0), ([1, 2, 3, 2], 0),
   ([1, 2, 3, 3], 0), ([1, 2, 3, 4], 0), ([1, 2, 3, 5], 0), ([1, 2, 3, 6], 0), ([1, 2, 3, 7], 0),
   ([1, 2, 3, 8], 0), ([1, 2, 4, 0], 0), ([1, 2, 4, 1], 0), ([1, 2, 4, 2], 0), ([1, 2, 4, 3], 0),
   ([1, 2, 4, 4], 0), ([1, 2, 4, 5], 0), ([1, 2, 4, 6], 0), ([1, 2, 4, 7], 0), ([1, 2, 4, 8], 0),
   ([1, 2, 5, 0], 0), ([1, 2, 5, 1], 0), ([1, 2, 5, 2], 0), ([1, 2, 5, 3], 0), ([1, 2, 5, 4], 0),
   ([1, 2, 5, 5], 0), ([1, 2, 5, 6], 0), ([1, 2, 5, 7], 0), ([1, 2, 5, 8], 0), ([1, 2, 6, 0], 0),
   ([1, 2, 6, 1], 0), ([1, 2, 6, 2], 0), ([1, 2, 6, 3], 0), ([1, 2, 6, 4], 0), ([1, 2, 6, 5], 0),
   ([1, 2, 6, 6], 0), ([1, 2, 6, 7], 0), ([1, 2, 6, 8], 0), ([1, 2, 7, 0], 0), ([1, 2, 7, 1], 0),
   ([1, 2, 7, 2], 0), ([1, 2, 7, 3], 0), ([1, 2, 7, 4], 0), ([1, 2, 7, 5], 0), ([1, 2, 7, 6], 0),
   ([1, 2, 7, 7], 0), ([1, 2, 7, 8], 0), ([1, 2, 8, 0], 0), ([1, 2, 8, 1], 0), ([1, 2, 8, 2], 0),
   ([1, 2, 8, 3], 0), ([1, 2, 8, 4], 0), ([1, 2, 8, 5], 0), ([1, 2, 8, 6], 0), ([1, 2, 8, 7], 0),
   ([1, 2, 8, 8], 0)]

/-- `Curvature_Gauge_G2H2`, ClassPotentialN2HDM.cpp:2176-2260. First indices 1, 3. -/
def g2h2_13 (g gs : K) : Assign K :=
  [([1, 3, 0, 0], 0), ([1, 3, 0, 1], 0), ([1, 3, 0, 2], 0), ([1, 3, 0, 3], 0),
   ([1, 3, 0, 4], gs * g / 2), ([1, 3, 0, 5], 0), ([1, 3, 0, 6], 0), ([1, 3, 0, 7], 0),
   ([1, 3, 0, 8], 0), ([1, 3, 1, 0], 0), ([1, 3, 1, 1], 0), ([1, 3, 1, 2], 0), ([1, 3, 1, 3], 0),
   ([1, 3, 1, 4], 0), ([1, 3, 1, 5], gs * g / 2), ([1, 3, 1, 6], 0), ([1, 3, 1, 7], 0),
   ([1, 3, 1, 8], 0), ([1, 3, 2, 0], 0), ([1, 3, 2, 1], 0), ([1, 3, 2, 2], 0), ([1, 3, 2, 3], 0),
   ([1, 3, 2, 4], 0), ([1, 3, 2, 5], 0), ([1, 3, 2, 6], -gs * g / 2), ([1, 3, 2, 7], 0),
   ([1, 3, 2, 8], 0), ([1, 3, 3, 0], 0), ([1, 3, 3, 1], 0), ([1, 3, 3, 2], 0), ([1, 3, 3, 3], 0),
   ([1, 3, 3, 4], 0), ([1, 3, 3, 5], 0), ([1, 3, 3, 6], 0), ([1, 3, 3, 7], -gs * g / 2),
   ([1, 3, 3, 8], 0), ([1, 3, 4, 0], gs * g / 2), ([1, 3, 4, 1], 0), ([1, 3, 4, 2], 0),
   ([1, 3, 4, 3], 0), ([1, 3, 4, 4], 0), ([1, 3, 4, 5], 0), ([1, 3, 4, 6], 0), ([1, 3, 4, 7], 0),
   ([1, 3, 4, 8], 0), ([1, 3, 5, 0], 0), ([1, 3, 5, 1], gs * g / 2), ([1, 3, 5, 2], 0),
   ([1, 3, 5, 3], 0), ([1, 3, 5, 4], 0), ([1, 3, 5, 5], 0), ([1, 3, 5, 6], 0), ([1, 3, 5, 7], 0),
   ([1, 3, 5, 8], 0), ([1, 3, 6, 0], 0), ([1, 3, 6, 1], 0), ([1, 3, 6, 2], -gs * g / 2),
   ([1, 3, 6, 3], 0), ([1, 3, 6, 4], 0), ([1, 3, 6, 5], 0), ([1, 3, 6, 6], 0), ([1, 3, 6, 7], 0),
   ([1, 3, 6, 8], 0), ([1, 3, 7, 0], 0), ([1, 3, 7, 1], 0), ([1, 3, 7, 2], 0),
   ([1, 3, 7, 3], -gs * g / 2), ([1, 3, 7, 4], 0), ([1, 3, 7, 5], 0), ([1, 3, 7, 6], 0),
   ([1, 3, 7, 7], 0), ([1, 3, 7, 8], 0), ([1, 3, 8, 0], 0), ([1, 3, 8, 1], 0), ([1, 3, 8, 2], 0),
   ([1, 3, 8, 3], 0), ([1, 3, 8, 4], 0), ([1, 3, 8, 5], 0), ([1, 3, 8, 6], 0), ([1, 3, 8, 7], 0),
   ([1, 3, 8, 8], 0)]

/-- `Curvature_Gauge_G2H2`, ClassPotentialN2HDM.cpp:2261-2341. First indices 2, 0. -/
def g2h2_20 (g gs : K) : Assign K :=
  [([2, 0, 0, 0], 0), ([2, 0, 0, 1], 0), ([2, 0, 0, 2], 0), ([2, 0, 0, 3], 0), ([2, 0, 0, 4], 0),
   ([2, 0, 0, 5], 0), ([2, 0, 0, 6], 0), ([2, 0, 0, 7], 0), ([2, 0, 0, 8], 0), ([2, 0, 1, 0], 0),
   ([2, 0, 1, 1], 0), ([2, 0, 1, 2], 0), ([2, 0, 1, 3], 0), ([2, 0, 1, 4], 0), ([2, 0, 1, 5], 0),
   ([2, 0, 1, 6], 0), ([2, 0, 1, 7], 0), ([2, 0, 1, 8], 0), ([2, 0, 2, 0], 0), ([2, 0, 2, 1], 0),
   ([2, 0, 2, 2], 0), ([2, 0, 2, 3], 0), ([2, 0, 2, 4], 0), ([2, 0, 2, 5], 0), ([2, 0, 2, 6], 0),
   ([2, 0, 2, 7], 0), ([2, 0, 2, 8], 0), ([2, 0, 3, 0], 0), ([2, 0, 3, 1], 0), ([2, 0, 3, 2], 0),
   ([2, 0, 3, 3], 0), ([2, 0, 3, 4], 0), ([2, 0, 3, 5], 0), ([2, 0, 3, 6], 0), ([2, 0, 3, 7], 0),
   ([2, 0, 3, 8], 0), ([2, 0, 4, 0], 0), ([2, 0, 4, 1], 0), ([2, 0, 4, 2], 0), ([2, 0, 4, 3], 0),
   ([2, 0, 4, 4], 0), ([2, 0, 4, 5], 0), ([2, 0, 4, 6], 0), ([2, 0, 4, 7], 0), ([2, 0, 4, 8], 0),
   ([2, 0, 5, 0], 0), ([2, 0, 5, 1], 0), ([2, 0, 5, 2], 0), ([2, 0, 5, 3], 0), ([2, 0, 5, 4], 0),
   ([2, 0, 5, 5], 0), ([2, 0, 5, 6], 0), ([2, 0, 5, 7], 0), ([2, 0, 5, 8], 0), ([2, 0, 6, 0], 0),
   ([2, 0, 6, 1], 0), ([2, 0, 6, 2], 0), ([2, 0, 6, 3], 0), ([2, 0, 6, 4], 0), ([2, 0, 6, 5], 0),
   ([2, 0, 6, 6], 0), ([2, 0, 6, 7], 0), ([2, 0, 6, 8], 0), ([2, 0, 7, 0], 0), ([2, 0, 7, 1], 0),
   ([2, 0, 7, 2], 0), ([2, 0, 7, 3], 0), ([2, 0, 7, 4], 0), ([2, 0, 7, 5], 0), ([2, 0, 7, 6], 0),
   ([2, 0, 7, 7], 0), ([2, 0, 7, 8], 0), ([2, 0, 8, 0], 0), ([2, 0, 8, 1], 0), ([2, 0, 8, 2], 0),
   ([2, 0, 8, 3], 0), ([2, 0, 8, 4], 0), ([2, 0, 8, 5], 0), ([2, 0, 8, 6], 0), ([2, 0, 8, 7], 0),
   ([2, 0, 8, 8], 0)]

/-- `Curvature_Gauge_G2H2`, ClassPotentialN2HDM.cpp:2342-2422. First indices 2, 1. -/
def g2h2_21 (g gs : K) : Assign K :=
  [([2, 1, 0, 0], 0), ([2, 1, 0, 1], 0), ([2, 1, 0, 2], 0), ([2, 1, 0, 3], 0), ([2, 1, 0, 4], 0),
   ([2, 1, 0, 5], 0), ([2, 1, 0, 6], 0), ([2, 1, 0, 7], 0), ([2, 1, 0, 8], 0), ([2, 1, 1, 0], 0),
   ([2, 1, 1, 1], 0), ([2, 1, 1, 2], 0), ([2, 1, 1, 3], 0), ([2, 1, 1, 4], 0), ([2, 1, 1, 5], 0),
   ([2, 1, 1, 6], 0), ([2, 1, 1, 7], 0), ([2, 1, 1, 8], 0), ([2, 1, 2, 0], 0), ([2, 1, 2, 1], 0),
   ([2, 1, 2, 2], 0), ([2, 1, 2, 3], 0), ([2, 1, 2, 4], 0), ([2, 1, 2, 5], 0), ([2, 1, 2, 6], 0),
   ([2, 1, 2, 7], 0), ([2, 1, 2, 8], 0), ([2, 1, 3, 0], 0), ([2, 1, 3, 1], 0), ([2, 1, 3, 2], 0),
   ([2, 1, 3, 3], 0), ([2, 1, 3, 4], 0), ([2, 1, 3, 5], 0), ([2, 1, 3, 6], 0), ([2, 1, 3, 7], 0),
   ([2, 1, 3, 8], 0), ([2, 1, 4, 0], 0), ([2, 1, 4, 1], 0), ([2, 1, 4, 2], 0), ([2, 1, 4, 3], 0),
   ([2, 1, 4, 4], 0), ([2, 1, 4, 5], 0), ([2, 1, 4, 6], 0), ([2, 1, 4, 7], 0), ([2, 1, 4, 8], 0),
   ([2, 1, 5, 0], 0), ([2, 1, 5, 1], 0), ([2, 1, 5, 2], 0), ([2, 1, 5, 3], 0), ([2, 1, 5, 4], 0),
   ([2, 1, 5, 5], 0), ([2, 1, 5, 6], 0), ([2, 1, 5, 7], 0), ([2, 1, 5, 8], 0), ([2, 1, 6, 0], 0),
   ([2, 1, 6, 1], 0), ([2, 1, 6, 2], 0), ([2, 1, 6, 3], 0), ([2, 1, 6, 4], 0), ([2, 1, 6, 5], 0),
   ([2, 1, 6, 6], 0), ([2, 1, 6, 7], 0), ([2, 1, 6, 8], 0), ([2, 1, 7, 0], 0), ([2, 1, 7, 1], 0),
   ([2, 1, 7, 2], 0), ([2, 1, 7, 3], 0), ([2, 1, 7, 4], 0), ([2, 1, 7, 5], 0), ([2, 1, 7, 6], 0),
   ([2, 1, 7, 7], 0), ([2, 1, 7, 8], 0), ([2, 1, 8, 0], 0), ([2, 1, 8, 1], 0), ([2, 1, 8, 2], 0),
   ([2, 1, 8, 3], 0), ([2, 1, 8, 4], 0), ([2, 1, 8, 5], 0), ([2, 1, 8, 6], 0), ([2, 1, 8, 7], 0),
   ([2, 1, 8, 8], 0)]

/-- `Curvature_Gauge_G2H2`, ClassPotentialN2HDM.cpp:2423-2503. First indices 2, 2. -/
def g2h2_22 (g gs : K) : Assign K :=
  [([2, 2, 0, 0], g * g / 2), ([2, 2, 0, 1], 0), ([2, 2, 0, 2], 0), ([2, 2, 0, 3], 0),
   ([2, 2, 0, 4], 0), ([2, 2, 0, 5], 0), ([2, 2, 0, 6], 0), ([2, 2, 0, 7], 0), ([2, 2, 0, 8], 0),
   ([2, 2, 1, 0], 0), ([2, 2, 1, 1], g * g / 2), ([2, 2, 1, 2], 0), ([2, 2, 1, 3], 0),
   ([2, 2, 1, 4], 0), ([2, 2, 1, 5], 0), ([2, 2, 1, 6], 0), ([2, 2, 1, 7], 0), ([2, 2, 1, 8], 0),
   ([2, 2, 2, 0], 0), ([2, 2, 2, 1], 0), ([2, 2, 2, 2], g * g / 2), ([2, 2, 2, 3], 0),
   ([2, 2, 2, 4], 0), ([2, 2, 2, 5], 0), ([2, 2, 2, 6], 0), ([2, 2, 2, 7], 0), ([2, 2, 2, 8], 0),
   ([2, 2, 3, 0], 0), ([2, 2, 3, 1], 0), ([2, 2, 3, 2], 0), ([2, 2, 3, 3], g * g / 2),
   ([2, 2, 3, 4], 0), ([2, 2, 3, 5], 0), ([2, 2, 3, 6], 0), ([2, 2, 3, 7], 0), ([2, 2, 3, 8], 0),
   ([2, 2, 4, 0], 0), ([2, 2, 4, 1], 0), ([2, 2, 4, 2], 0), ([2, 2, 4, 3], 0),
   ([2, 2, 4, 4], g * g / 2), ([2, 2, 4, 5], 0), ([2, 2, 4, 6], 0), ([2, 2, 4, 7], 0),
   ([2, 2, 4, 8], 0), ([2, 2, 5, 0], 0), ([2, 2, 5, 1], 0), ([2, 2, 5, 2], 0), ([2, 2, 5, 3], 0),
   ([2, 2, 5, 4], 0), ([2, 2, 5, 5], g * g / 2), ([2, 2, 5, 6], 0), ([2, 2, 5, 7], 0),
   ([2, 2, 5, 8], 0), ([2, 2, 6, 0], 0), ([2, 2, 6, 1], 0), ([2, 2, 6, 2], 0), ([2, 2, 6, 3], 0),
   ([2, 2, 6, 4], 0), ([2, 2, 6, 5], 0), ([2, 2, 6, 6], g * g / 2), ([2, 2, 6, 7], 0),
   ([2, 2, 6, 8], 0), ([2, 2, 7, 0], 0), ([2, 2, 7, 1], 0), ([2, 2, 7, 2], 0), ([2, 2, 7, 3], 0),
   ([2, 2, 7, 4], 0), ([2, 2, 7, 5], 0), ([2, 2, 7, 6], 0), ([2, 2, 7, 7], g * g / 2),
   ([2, 2, 7, 8], 0), ([2, 2, 8, 0], 0), ([2, 2, 8, 1], 0), ([2, 2, 8, 2], 0), ([2, 2, 8, 3], 0),
   ([2, 2, 8, 4], 0), ([2, 2, 8, 5], 0), ([2, 2, 8, 6], 0), ([2, 2, 8, 7], 0), ([2, 2, 8, 8], 0)]

/-- `Curvature_Gauge_G2H2`, ClassPotentialN2HDM.cpp:2504-2588. First indices 2, 3. -/
def g2h2_23 (g gs : K) : Assign K :=
  [([2, 3, 0, 0], g * gs / 2), ([2, 3, 0, 1], 0), ([2, 3, 0, 2], 0), ([2, 3, 0, 3], 0),
   ([2, 3, 0, 4], 0), ([2, 3, 0, 5], 0), ([2, 3, 0, 6], 0), ([2, 3, 0, 7], 0), ([2, 3, 0, 8], 0),
   ([2, 3, 1, 0], 0), ([2, 3, 1, 1], g * gs / 2), ([2, 3, 1, 2], 0), ([2, 3, 1, 3], 0),
   ([2, 3, 1, 4], 0), ([2, 3, 1, 5], 0), ([2, 3, 1, 6], 0), ([2, 3, 1, 7], 0), ([2, 3, 1, 8], 0),
   ([2, 3, 2, 0], 0), ([2, 3, 2, 1], 0), ([2, 3, 2, 2], g * gs / 2), ([2, 3, 2, 3], 0),
   ([2, 3, 2, 4], 0), ([2, 3, 2, 5], 0), ([2, 3, 2, 6], 0), ([2, 3, 2, 7], 0), ([2, 3, 2, 8], 0),
   ([2, 3, 3, 0], 0), ([2, 3, 3, 1], 0), ([2, 3, 3, 2], 0), ([2, 3, 3, 3], g * gs / 2),
   ([2, 3, 3, 4], 0), ([2, 3, 3, 5], 0), ([2, 3, 3, 6], 0), ([2, 3, 3, 7], 0), ([2, 3, 3, 8], 0),
   ([2, 3, 4, 0], 0), ([2, 3, 4, 1], 0), ([2, 3, 4, 2], 0), ([2, 3, 4, 3], 0),
   ([2, 3, 4, 4], -g * gs / 2), ([2, 3, 4, 5], 0), ([2, 3, 4, 6], 0), ([2, 3, 4, 7], 0),
   ([2, 3, 4, 8], 0), ([2, 3, 5, 0], 0), ([2, 3, 5, 1], 0), ([2, 3, 5, 2], 0), ([2, 3, 5, 3], 0),
   ([2, 3, 5, 4], 0), ([2, 3, 5, 5], -g * gs / 2), ([2, 3, 5, 6], 0), ([2, 3, 5, 7], 0),
   ([2, 3, 5, 8], 0), ([2, 3, 6, 0], 0), ([2, 3, 6, 1], 0), ([2, 3, 6, 2], 0), ([2, 3, 6, 3], 0),
   ([2, 3, 6, 4], 0), ([2, 3, 6, 5], 0), ([2, 3, 6, 6], -g * gs / 2), ([2, 3, 6, 7], 0),
   ([2, 3, 6, 8], 0), ([2, 3, 7, 0], 0), ([2, 3, 7, 1], 0), ([2, 3, 7, 2], 0), ([2, 3, 7, 3], 0),
   ([2, 3, 7, 4], 0), ([2, 3, 7, 5], 0), ([2, 3, 7, 6], 0), ([2, 3, 7, 7], -g * gs / 2),
   ([2, 3, 7, 8], 0), ([2, 3, 8, 0], 0), ([2, 3, 8, 1], 0), ([2, 3, 8, 2], 0), ([2, 3, 8, 3], 0),
   ([2, 3, 8, 4], 0), ([2, 3, 8, 5], 0), ([2, 3, 8, 6], 0), ([2, 3, 8, 7], 0), ([2, 3, 8, 8], 0)]

/-- `Curvature_Gauge_G2H2`, ClassPotentialN2HDM.cpp:2589-2669. First indices 3, 0. -/
def g2h2_30 (g gs : K) : Assign K :=
  [([3, 0, 0, 0], 0), ([3, 0, 0, 1], 0), ([3, 0, 0, 2], 0), ([3, 0, 0, 3], 0), ([3, 0, 0, 4], 0),
   ([3, 0, 0, 5], 0), ([3, 0, 0, 6], gs * g / 2), ([3, 0, 0, 7], 0), ([3, 0, 0, 8], 0),
   ([3, 0, 1, 0], 0), ([3, 0, 1, 1], 0), ([3, 0, 1, 2], 0), ([3, 0, 1, 3], 0), ([3, 0, 1, 4], 0),
   ([3, 0, 1, 5], 0), ([3, 0, 1, 6], 0), ([3, 0, 1, 7], gs * g / 2), ([3, 0, 1, 8], 0),
   ([3, 0, 2, 0], 0), ([3, 0, 2, 1], 0), ([3, 0, 2, 2], 0), ([3, 0, 2, 3], 0),
   ([3, 0, 2, 4], gs * g / 2), ([3, 0, 2, 5], 0), ([3, 0, 2, 6], 0), ([3, 0, 2, 7], 0),
   ([3, 0, 2, 8], 0), ([3, 0, 3, 0], 0), ([3, 0, 3, 1], 0), ([3, 0, 3, 2], 0), ([3, 0, 3, 3], 0),
   ([3, 0, 3, 4], 0), ([3, 0, 3, 5], gs * g / 2), ([3, 0, 3, 6], 0), ([3, 0, 3, 7], 0),
   ([3, 0, 3, 8], 0), ([3, 0, 4, 0], 0), ([3, 0, 4, 1], 0), ([3, 0, 4, 2], gs * g / 2),
   ([3, 0, 4, 3], 0), ([3, 0, 4, 4], 0), ([3, 0, 4, 5], 0), ([3, 0, 4, 6], 0), ([3, 0, 4, 7], 0),
   ([3, 0, 4, 8], 0), ([3, 0, 5, 0], 0), ([3, 0, 5, 1], 0), ([3, 0, 5, 2], 0),
   ([3, 0, 5, 3], gs * g / 2), ([3, 0, 5, 4], 0), ([3, 0, 5, 5], 0), ([3, 0, 5, 6], 0),
   ([3, 0, 5, 7], 0), ([3, 0, 5, 8], 0), ([3, 0, 6, 0], gs * g / 2), ([3, 0, 6, 1], 0),
   ([3, 0, 6, 2], 0), ([3, 0, 6, 3], 0), ([3, 0, 6, 4], 0), ([3, 0, 6, 5], 0), ([3, 0, 6, 6], 0),
   ([3, 0, 6, 7], 0), ([3, 0, 6, 8], 0), ([3, 0, 7, 0], 0), ([3, 0, 7, 1], gs * g / 2),
   ([3, 0, 7, 2], 0), ([3, 0, 7, 3], 0), ([3, 0, 7, 4], 0), ([3, 0, 7, 5], 0), ([3, 0, 7, 6], 0),
   ([3, 0, 7, 7], 0), ([3, 0, 7, 8], 0), ([3, 0, 8, 0], 0), ([3, 0, 8, 1], 0), ([3, 0, 8, 2], 0),
   ([3, 0, 8, 3], 0), ([3, 0, 8, 4], 0), ([3, 0, 8, 5], 0), ([3, 0, 8, 6], 0), ([3, 0, 8, 7], 0),
   ([3, 0, 8, 8], 0)]

/-- `Curvature_Gauge_G2H2`, ClassPotentialN2HDM.cpp:2670-2754. First indices 3, 1. -/
def g2h2_31 (g gs : K) : Assign K :=
  [([3, 1, 0, 0], 0), ([3, 1, 0, 1], 0), ([3, 1, 0, 2], 0), ([3, 1, 0, 3], 0),
   ([3, 1, 0, 4], gs * g / 2), ([3, 1, 0, 5], 0), ([3, 1, 0, 6], 0), ([3, 1, 0, 7], 0),
   ([3, 1, 0, 8], 0), ([3, 1, 1, 0], 0), ([3, 1, 1, 1], 0), ([3, 1, 1, 2], 0), ([3, 1, 1, 3], 0),
   ([3, 1, 1, 4], 0), ([3, 1, 1, 5], gs * g / 2), ([3, 1, 1, 6], 0), ([3, 1, 1, 7], 0),
   ([3, 1, 1, 8], 0), ([3, 1, 2, 0], 0), ([3, 1, 2, 1], 0), ([3, 1, 2, 2], 0), ([3, 1, 2, 3], 0),
   ([3, 1, 2, 4], 0), ([3, 1, 2, 5], 0), ([3, 1, 2, 6], -gs * g / 2), ([3, 1, 2, 7], 0),
   ([3, 1, 2, 8], 0), ([3, 1, 3, 0], 0), ([3, 1, 3, 1], 0), ([3, 1, 3, 2], 0), ([3, 1, 3, 3], 0),
   ([3, 1, 3, 4], 0), ([3, 1, 3, 5], 0), ([3, 1, 3, 6], 0), ([3, 1, 3, 7], -gs * g / 2),
   ([3, 1, 3, 8], 0), ([3, 1, 4, 0], gs * g / 2), ([3, 1, 4, 1], 0), ([3, 1, 4, 2], 0),
   ([3, 1, 4, 3], 0), ([3, 1, 4, 4], 0), ([3, 1, 4, 5], 0), ([3, 1, 4, 6], 0), ([3, 1, 4, 7], 0),
   ([3, 1, 4, 8], 0), ([3, 1, 5, 0], 0), ([3, 1, 5, 1], gs * g / 2), ([3, 1, 5, 2], 0),
   ([3, 1, 5, 3], 0), ([3, 1, 5, 4], 0), ([3, 1, 5, 5], 0), ([3, 1, 5, 6], 0), ([3, 1, 5, 7], 0),
   ([3, 1, 5, 8], 0), ([3, 1, 6, 0], 0), ([3, 1, 6, 1], 0), ([3, 1, 6, 2], -gs * g / 2),
   ([3, 1, 6, 3], 0), ([3, 1, 6, 4], 0), ([3, 1, 6, 5], 0), ([3, 1, 6, 6], 0), ([3, 1, 6, 7], 0),
   ([3, 1, 6, 8], 0), ([3, 1, 7, 0], 0), ([3, 1, 7, 1], 0), ([3, 1, 7, 2], 0),
   ([3, 1, 7, 3], -gs * g / 2), ([3, 1, 7, 4], 0), ([3, 1, 7, 5], 0), ([3, 1, 7, 6], 0),
   ([3, 1, 7, 7], 0), ([3, 1, 7, 8], 0), ([3, 1, 8, 0], 0), ([3, 1, 8, 1], 0), ([3, 1, 8, 2], 0),
   ([3, 1, 8, 3], 0), ([3, 1, 8, 4], 0), ([3, 1, 8, 5], 0), ([3, 1, 8, 6], 0), ([3, 1, 8, 7], 0),
   ([3, 1, 8, 8], 0)]

/-- `Curvature_Gauge_G2H2`, ClassPotentialN2HDM.cpp:2755-2839. First indices 3, 2. -/
def g2h2_32 (g gs : K) : Assign K :=
  [([3, 2, 0, 0], g * gs / 2), ([3, 2, 0, 1], 0), ([3, 2, 0, 2], 0), ([3, 2, 0, 3], 0),
   ([3, 2, 0, 4], 0), ([3, 2, 0, 5], 0), ([3, 2, 0, 6], 0), ([3, 2, 0, 7], 0), ([3, 2, 0, 8], 0),
   ([3, 2, 1, 0], 0), ([3, 2, 1, 1], g * gs / 2), ([3, 2, 1, 2], 0), ([3, 2, 1, 3], 0),
   ([3, 2, 1, 4], 0), ([3, 2, 1, 5], 0), ([3, 2, 1, 6], 0), ([3, 2, 1, 7], 0), ([3, 2, 1, 8], 0),
   ([3, 2, 2, 0], 0), ([3, 2, 2, 1], 0), ([3, 2, 2, 2], g * gs / 2), ([3, 2, 2, 3], 0),
   ([3, 2, 2, 4], 0), ([3, 2, 2, 5], 0), ([3, 2, 2, 6], 0), ([3, 2, 2, 7], 0), ([3, 2, 2, 8], 0),
   ([3, 2, 3, 0], 0), ([3, 2, 3, 1], 0), ([3, 2, 3, 2], 0), ([3, 2, 3, 3], g * gs / 2),
   ([3, 2, 3, 4], 0), ([3, 2, 3, 5], 0), ([3, 2, 3, 6], 0), ([3, 2, 3, 7], 0), ([3, 2, 3, 8], 0),
   ([3, 2, 4, 0], 0), ([3, 2, 4, 1], 0), ([3, 2, 4, 2], 0), ([3, 2, 4, 3], 0),
   ([3, 2, 4, 4], -g * gs / 2), ([3, 2, 4, 5], 0), ([3, 2, 4, 6], 0), ([3, 2, 4, 7], 0),
   ([3, 2, 4, 8], 0), ([3, 2, 5, 0], 0), ([3, 2, 5, 1], 0), ([3, 2, 5, 2], 0), ([3, 2, 5, 3], 0),
   ([3, 2, 5, 4], 0), ([3, 2, 5, 5], -g * gs / 2), ([3, 2, 5, 6], 0), ([3, 2, 5, 7], 0),
   ([3, 2, 5, 8], 0), ([3, 2, 6, 0], 0), ([3, 2, 6, 1], 0), ([3, 2, 6, 2], 0), ([3, 2, 6, 3], 0),
   ([3, 2, 6, 4], 0), ([3, 2, 6, 5], 0), ([3, 2, 6, 6], -g * gs / 2), ([3, 2, 6, 7], 0),
   ([3, 2, 6, 8], 0), ([3, 2, 7, 0], 0), ([3, 2, 7, 1], 0), ([3, 2, 7, 2], 0), ([3, 2, 7, 3], 0),
   ([3, 2, 7, 4], 0), ([3, 2, 7, 5], 0), ([3, 2, 7, 6], 0), ([3, 2, 7, 7], -g * gs / 2),
   ([3, 2, 7, 8], 0), ([3, 2, 8, 0], 0), ([3, 2, 8, 1], 0), ([3, 2, 8, 2], 0), ([3, 2, 8, 3], 0),
   ([3, 2, 8, 4], 0), ([3, 2, 8, 5], 0), ([3, 2, 8, 6], 0), ([3, 2, 8, 7], 0), ([3, 2, 8, 8], 0)]

/-- `Curvature_Gauge_G2H2`, ClassPotentialN2HDM.cpp:2840-2928. First indices 3, 3. -/
def g2h2_33 (g gs : K) : Assign K :=
  [([3, 3, 0, 0], gs * gs / 2), ([3, 3, 0, 1], 0), ([3, 3, 0, 2], 0), ([3, 3, 0, 3], 0),
   ([3, 3, 0, 4], 0), ([3, 3, 0, 5], 0), ([3, 3, 0, 6], 0), ([3, 3, 0, 7], 0), ([3, 3, 0, 8], 0),
   ([3, 3, 1, 0], 0), ([3, 3, 1, 1], gs * gs / 2), ([3, 3, 1, 2], 0), ([3, 3, 1, 3], 0),
   ([3, 3, 1, 4], 0), ([3, 3, 1, 5], 0), ([3, 3, 1, 6], 0), ([3, 3, 1, 7], 0), ([3, 3, 1, 8], 0),
   ([3, 3, 2, 0], 0), ([3, 3, 2, 1], 0), ([3, 3, 2, 2], gs * gs / 2), ([3, 3, 2, 3], 0),
   ([3, 3, 2, 4], 0), ([3, 3, 2, 5], 0), ([3, 3, 2, 6], 0), ([3, 3, 2, 7], 0), ([3, 3, 2, 8], 0),
   ([3, 3, 3, 0], 0), ([3, 3, 3, 1], 0), ([3, 3, 3, 2], 0), ([3, 3, 3, 3], gs * gs / 2),
   ([3, 3, 3, 4], 0), ([3, 3, 3, 5], 0), ([3, 3, 3, 6], 0), ([3, 3, 3, 7], 0), ([3, 3, 3, 8], 0),
   ([3, 3, 4, 0], 0), ([3, 3, 4, 1], 0), ([3, 3, 4, 2], 0), ([3, 3, 4, 3], 0),
   ([3, 3, 4, 4], gs * gs / 2), ([3, 3, 4, 5], 0), ([3, 3, 4, 6], 0), ([3, 3, 4, 7], 0),
   ([3, 3, 4, 8], 0), ([3, 3, 5, 0], 0), ([3, 3, 5, 1], 0), ([3, 3, 5, 2], 0), ([3, 3, 5, 3], 0),
   ([3, 3, 5, 4], 0), ([3, 3, 5, 5], gs * gs / 2), ([3, 3, 5, 6], 0), ([3, 3, 5, 7], 0),
   ([3, 3, 5, 8], 0), ([3, 3, 6, 0], 0), ([3, 3, 6, 1], 0), ([3, 3, 6, 2], 0), ([3, 3, 6, 3], 0),
   ([3, 3, 6, 4], 0), ([3, 3, 6, 5], 0), ([3, 3, 6, 6], gs * gs / 2), ([3, 3, 6, 7], 0),
   ([3, 3, 6, 8], 0), ([3, 3, 7, 0], 0), ([3, 3, 7, 1], 0), ([3, 3, 7, 2], 0), ([3, 3, 7, 3], 0),
   ([3, 3, 7, 4], 0), ([3, 3, 7, 5], 0), ([3, 3, 7, 6], 0), ([3, 3, 7, 7], gs * gs / 2),
   ([3, 3, 7, 8], 0), ([3, 3, 8, 0], 0), ([3, 3, 8, 1], 0), ([3, 3, 8, 2], 0), ([3, 3, 8, 3], 0),
   ([3, 3, 8, 4], 0), ([3, 3, 8, 5], 0), ([3, 3, 8, 6], 0), ([3, 3, 8, 7], 0), ([3, 3, 8, 8], 0)]

/-- `Curvature_Gauge_G2H2`, ClassPotentialN2HDM.cpp:1609-2928. -/
def g2h2 (g gs : K) : Assign K :=
  [g2h2_00 g gs, g2h2_01 g gs, g2h2_02 g gs, g2h2_03 g gs, g2h2_10 g gs, g2h2_11 g gs, g2h2_12
    g gs, g2h2_13 g gs, g2h2_20 g gs, g2h2_21 g gs, g2h2_22 g gs, g2h2_23 g gs, g2h2_30 g gs,
    g2h2_31 g gs, g2h2_32 g gs, g2h2_33 g gs].flatten

/-- The tensors of the tree-level potential after `SetCurvatureArrays`,
ClassPotentialN2HDM.cpp:942-1595. -/
def tree (p : Par K) : Curv 9 K :=
  curv 9 zeroTensor (assign (l2 p) zeroTensor) zeroTensor
    (symLoop (assign (l4 p) zeroTensor) 9)

/-- The tensors of the counterterm potential after `set_CT_Pot_Par`,
ClassPotentialN2HDM.cpp:263-440. -/
def counter (c : CT K) : Curv 9 K :=
  curv 9 (assign (ctL1 c) zeroTensor) (sym2Dim (assign (ctL2 c) zeroTensor) 9 9) zeroTensor
    (symLoop (assign (ctL4 c) zeroTensor) 9)

/-- `Curvature_Gauge_G2H2` after `SetCurvatureArrays`. -/
def gauge (g gs : K) : List Nat → K := assign (g2h2 g gs) zeroTensor

/-- `VB0` of `calc_CT` for the gradient `N` and the Hesse matrix `W` of the Coleman-Weinberg
potential, ClassPotentialN2HDM.cpp:656-701. -/
noncomputable def particular (v1 v2 vs : ℝ) (N : Fin 9 → ℝ) (W : Fin 9 → Fin 9 → ℝ) : CT ℝ :=
  let H : Fin 9 → Fin 9 → ℝ := fun i j => W j i
  { Du1CT := (vs * H 6 8 - H 2 3 * v2 + 2 * H 4 4 * v1 + H 6 7 * v2 - 5 * H 2 2 * v1 +
      H 6 6 * v1) / v1 / 2
    Du2CT := (vs * H 7 8 * v2 + H 7 7 * v2 * v2 - 3 * H 5 5 * v2 * v2 - H 2 3 * v1 * v2 +
      5 * v1 * v1 * H 4 4 + v1 * v2 * H 6 7 - 5 * H 2 2 * v1 * v1) * (v2 ^ 2)⁻¹ / 2
    DRu3CT := (H 2 3 * v2 + H 4 4 * v1 - H 2 2 * v1) / v2
    DL1CT := (-H 4 4 + 2 * H 2 2 - H 6 6) * (v1 ^ 2)⁻¹
    DL2CT := (-H 7 7 * v2 * v2 + H 5 5 * v2 * v2 - 2 * v1 * v1 * H 4 4 + 2 * H 2 2 * v1 * v1) *
      (v2 ^ 4)⁻¹
    DL3CT := (H 2 2 * v1 + H 2 3 * v2 - H 4 4 * v1 - H 6 7 * v2) / v1 * (v2 ^ 2)⁻¹
    DL4CT := 0
    DRL5CT := (2 * H 4 4 - 2 * H 2 2) * (v2 ^ 2)⁻¹
    NDus := (H 8 8 * vs + v2 * H 7 8 + v1 * H 6 8 - 3 * N 8) / vs / 2
    NDL6 := -(vs ^ 3)⁻¹ * (H 8 8 * vs - N 8)
    NDL7 := -1 / v1 / vs * H 6 8
    NDL8 := -1 / v2 / vs * H 7 8
    DT1 := H 2 2 * v1 + H 2 3 * v2 - N 6
    DT2 := (H 0 0 * v1 * v1 + H 2 3 * v1 * v2 - v1 * v1 * H 4 4 + H 5 5 * v2 * v2 - N 7 * v2) / v2
    NDTS := 0 }

/-- `VB1`, ClassPotentialN2HDM.cpp:703-717. -/
noncomputable def alongL4 (v1 v2 : ℝ) : CT ℝ where
  Du1CT := v2 * v2
  Du2CT := v1 * v1
  DRu3CT := v1 * v2
  DL1CT := -(v1 ^ 2)⁻¹ * v2 * v2
  DL2CT := -(v2 ^ 2)⁻¹ * v1 * v1
  DL3CT := -1
  DL4CT := 1
  DRL5CT := 1
  NDus := 0
  NDL6 := 0
  NDL7 := 0
  NDL8 := 0
  DT1 := 0
  DT2 := 0
  NDTS := 0

/-- `VB2`, ClassPotentialN2HDM.cpp:719-733. -/
noncomputable def alongDTS (vs : ℝ) : CT ℝ where
  Du1CT := 0
  Du2CT := 0
  DRu3CT := 0
  DL1CT := 0
  DL2CT := 0
  DL3CT := 0
  DL4CT := 0
  DRL5CT := 0
  NDus := -3 / 2 / vs
  NDL6 := (vs ^ 3)⁻¹
  NDL7 := 0
  NDL8 := 0
  DT1 := 0
  DT2 := 0
  NDTS := 1

/-- `VB0[i] + tL4 * VB1[i] + tDTS * VB2[i]`, ClassPotentialN2HDM.cpp:735-738. -/
def combine (a b c : CT ℝ) (tL4 tDTS : ℝ) : CT ℝ where
  Du1CT := a.Du1CT + tL4 * b.Du1CT + tDTS * c.Du1CT
  Du2CT := a.Du2CT + tL4 * b.Du2CT + tDTS * c.Du2CT
  DRu3CT := a.DRu3CT + tL4 * b.DRu3CT + tDTS * c.DRu3CT
  DL1CT := a.DL1CT + tL4 * b.DL1CT + tDTS * c.DL1CT
  DL2CT := a.DL2CT + tL4 * b.DL2CT + tDTS * c.DL2CT
  DL3CT := a.DL3CT + tL4 * b.DL3CT + tDTS * c.DL3CT
  DL4CT := a.DL4CT + tL4 * b.DL4CT + tDTS * c.DL4CT
  DRL5CT := a.DRL5CT + tL4 * b.DRL5CT + tDTS * c.DRL5CT
  NDus := a.NDus + tL4 * b.NDus + tDTS * c.NDus
  NDL6 := a.NDL6 + tL4 * b.NDL6 + tDTS * c.NDL6
  NDL7 := a.NDL7 + tL4 * b.NDL7 + tDTS * c.NDL7
  NDL8 := a.NDL8 + tL4 * b.NDL8 + tDTS * c.NDL8
  DT1 := a.DT1 + tL4 * b.DT1 + tDTS * c.DT1
  DT2 := a.DT2 + tL4 * b.DT2 + tDTS * c.DT2
  NDTS := a.NDTS + tL4 * b.NDTS + tDTS * c.NDTS

open Classical in
/-- `calc_CT`, ClassPotentialN2HDM.cpp:616-773, after its checks.  The array `VSol` is filled only
for `Nvs != 0`; otherwise its uninitialised elements are copied to the result.  `tL4 = tDTS = 0`. -/
noncomputable def calcCT (v1 v2 vs : ℝ) (N : Fin 9 → ℝ) (W : Fin 9 → Fin 9 → ℝ) :
    Outcome (CT ℝ) :=
  if vs ≠ 0 then
    .ok (combine (particular v1 v2 vs N W) (alongL4 v1 v2) (alongDTS vs) 0 0)
  else .ub .uninitialised

end Verif.Lagrangian.N2HDM
