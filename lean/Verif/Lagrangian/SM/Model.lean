import Verif.Lagrangian.Tensor

/-!
# The standard model

`Class_SM`, ClassPotentialSM.cpp: parameters, tensors and counterterms.  The entries of the tensors
are transcribed statement by statement.
-/

namespace Verif.Lagrangian.SM

open Verif.Potential

variable {K : Type} [Field K]

/-- `muSq`, `lambda`, ClassPotentialSM.h. -/
structure Par (K : Type) where
  muSq : K
  lam : K

/-- The counterterm parameters in the order of `par` of `set_CT_Pot_Par`,
ClassPotentialSM.cpp:160-167. -/
structure CT (K : Type) where
  dmuSq : K
  dlambda : K
  dT1 : K
  dT2 : K
  dT3 : K
  dT4 : K

/-- `set_gen`, ClassPotentialSM.cpp:136-158: the parameters from the Higgs mass and the vacuum
expectation value. -/
def setGen (mh v0 : K) : Par K :=
  let muSq := -mh ^ 2 / 2
  { muSq := muSq, lam := -muSq * (v0 ^ 2)⁻¹ }

/-- `vevTree`: `vevTreeMin[0] = v0` placed at the position `VevOrder[0] = 2`
(ClassPotentialSM.cpp:38, 149-155). -/
def vevTree (v0 : K) : FVec 4 K := ![0, 0, v0, 0]

/-- `Curvature_Higgs_L2`, ClassPotentialSM.cpp:370-373. -/
def l2 (p : Par K) : Assign K :=
  [([0, 0], p.muSq), ([1, 1], p.muSq), ([2, 2], p.muSq), ([3, 3], p.muSq)]

/-- `Curvature_Higgs_L4`, ClassPotentialSM.cpp:375-384. -/
def l4 (p : Par K) : Assign K :=
  [([0, 0, 0, 0], 6 * p.lam), ([0, 0, 1, 1], 2 * p.lam), ([0, 0, 2, 2], 2 * p.lam),
   ([0, 0, 3, 3], 2 * p.lam), ([1, 1, 1, 1], 6 * p.lam), ([1, 1, 2, 2], 2 * p.lam),
   ([1, 1, 3, 3], 2 * p.lam), ([2, 2, 2, 2], 6 * p.lam), ([2, 2, 3, 3], 2 * p.lam),
   ([3, 3, 3, 3], 6 * p.lam)]

/-- `Curvature_Higgs_CT_L1`, ClassPotentialSM.cpp:169-172. -/
def ctL1 (c : CT K) : Assign K :=
  [([0], c.dT1), ([1], c.dT2), ([2], c.dT3), ([3], c.dT4)]

/-- `Curvature_Higgs_CT_L2`, ClassPotentialSM.cpp:174-177. -/
def ctL2 (c : CT K) : Assign K :=
  [([0, 0], c.dmuSq), ([1, 1], c.dmuSq), ([2, 2], c.dmuSq), ([3, 3], c.dmuSq)]

/-- `Curvature_Higgs_CT_L4`, ClassPotentialSM.cpp:179-188. -/
def ctL4 (c : CT K) : Assign K :=
  [([0, 0, 0, 0], 6 * c.dlambda), ([0, 0, 1, 1], 2 * c.dlambda), ([0, 0, 2, 2], 2 * c.dlambda),
   ([0, 0, 3, 3], 2 * c.dlambda), ([1, 1, 1, 1], 6 * c.dlambda), ([1, 1, 2, 2], 2 * c.dlambda),
   ([1, 1, 3, 3], 2 * c.dlambda), ([2, 2, 2, 2], 6 * c.dlambda), ([2, 2, 3, 3], 2 * c.dlambda),
   ([3, 3, 3, 3], 6 * c.dlambda)]

/-- `Curvature_Gauge_G2H2`, ClassPotentialSM.cpp:388-438. -/
def g2h2 (g gs : K) : Assign K :=
  [([0, 0, 0, 0], g * g / 2), ([0, 0, 1, 1], g * g / 2), ([0, 0, 2, 2], g * g / 2),
   ([0, 0, 3, 3], g * g / 2), ([0, 3, 0, 2], gs * g / 2), ([0, 3, 1, 3], gs * g / 2),
   ([0, 3, 2, 0], gs * g / 2), ([0, 3, 3, 1], gs * g / 2), ([1, 1, 0, 0], g * g / 2),
   ([1, 1, 1, 1], g * g / 2), ([1, 1, 2, 2], g * g / 2), ([1, 1, 3, 3], g * g / 2),
   ([1, 3, 0, 3], gs * g / 2), ([1, 3, 1, 2], -gs * g / 2), ([1, 3, 2, 1], -gs * g / 2),
   ([1, 3, 3, 0], gs * g / 2), ([2, 2, 0, 0], g * g / 2), ([2, 2, 1, 1], g * g / 2),
   ([2, 2, 2, 2], g * g / 2), ([2, 2, 3, 3], g * g / 2), ([2, 3, 0, 0], gs * g / 2),
   ([2, 3, 1, 1], gs * g / 2), ([2, 3, 2, 2], -gs * g / 2), ([2, 3, 3, 3], -gs * g / 2),
   ([3, 0, 0, 2], gs * g / 2), ([3, 0, 1, 3], gs * g / 2), ([3, 0, 2, 0], gs * g / 2),
   ([3, 0, 3, 1], gs * g / 2), ([3, 1, 0, 3], gs * g / 2), ([3, 1, 1, 2], -gs * g / 2),
   ([3, 1, 2, 1], -gs * g / 2), ([3, 1, 3, 0], gs * g / 2), ([3, 2, 0, 0], gs * g / 2),
   ([3, 2, 1, 1], gs * g / 2), ([3, 2, 2, 2], -gs * g / 2), ([3, 2, 3, 3], -gs * g / 2),
   ([3, 3, 0, 0], gs * gs / 2), ([3, 3, 1, 1], gs * gs / 2), ([3, 3, 2, 2], gs * gs / 2),
   ([3, 3, 3, 3], gs * gs / 2)]

/-- The tensors of the tree-level potential after `SetCurvatureArrays`,
ClassPotentialSM.cpp:363-386. -/
def tree (p : Par K) : Curv 4 K :=
  curv 4 zeroTensor (assign (l2 p) zeroTensor) zeroTensor
    (sym4Dim (assign (l4 p) zeroTensor) 4 4 4 4)

/-- The tensors of the counterterm potential after `set_CT_Pot_Par`,
ClassPotentialSM.cpp:160-191. -/
def counter (c : CT K) : Curv 4 K :=
  curv 4 (assign (ctL1 c) zeroTensor) (assign (ctL2 c) zeroTensor) zeroTensor
    (sym4Dim (assign (ctL4 c) zeroTensor) 4 4 4 4)

/-- `Curvature_Gauge_G2H2` after `SetCurvatureArrays`. -/
def gauge (g gs : K) : List Nat → K := assign (g2h2 g gs) zeroTensor

/-- `calc_CT` for the gradient `N` and the Hesse matrix `H` of the Coleman-Weinberg potential,
ClassPotentialSM.cpp:261-270. -/
def calcCT (v0 : K) (N : Fin 4 → K) (H : Fin 4 → Fin 4 → K) : CT K where
  dmuSq := H 2 2 / 2 - 3 / 2 * H 3 3
  dlambda := (-H 2 2 + H 3 3) * (v0 ^ 2)⁻¹ / 2
  dT1 := -N 0
  dT2 := -N 1
  dT3 := H 3 3 * v0 - N 2
  dT4 := -N 3

end Verif.Lagrangian.SM
