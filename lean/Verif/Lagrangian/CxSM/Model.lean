import Verif.Lagrangian.Tensor
import Mathlib.Analysis.SpecialFunctions.Sqrt

/-!
# The standard model with a complex singlet

`Class_CxSM`, ClassPotentialCxSM.cpp: parameters, tensors and counterterms.  The entries of the
tensors are transcribed statement by statement.
-/

set_option linter.unusedVariables false

namespace Verif.Lagrangian.CxSM

open Verif.Potential

/-- The parameters of the tree-level potential, ClassPotentialCxSM.h:76. -/
structure Par where
  msq : ℝ
  lam : ℝ
  delta2 : ℝ
  b2 : ℝ
  d2 : ℝ
  Reb1 : ℝ
  Imb1 : ℝ
  Rea1 : ℝ
  Ima1 : ℝ

/-- The counterterm parameters in the order of `par` of `set_CT_Pot_Par`,
ClassPotentialCxSM.cpp:282-296. -/
structure CT where
  dmsq : ℝ
  dlambda : ℝ
  ddelta2 : ℝ
  db2 : ℝ
  dd2 : ℝ
  dReb1 : ℝ
  dImb1 : ℝ
  dRea1 : ℝ
  dIma1 : ℝ
  dT1 : ℝ
  dT2 : ℝ
  dT3 : ℝ
  dT4 : ℝ
  dT5 : ℝ
  dT6 : ℝ

/-- What `set_gen` reads: `par[0]` to `par[11]`, ClassPotentialCxSM.cpp:206-217. -/
structure Input where
  vh : ℝ
  vs : ℝ
  va : ℝ
  par : Par

open Classical in
/-- `set_gen`, ClassPotentialCxSM.cpp:203-273: the dependent parameters in the four cases. -/
noncomputable def setGen (x : Input) : Par :=
  let vh := x.vh
  let vs := x.vs
  let va := x.va
  let p := x.par
  if va ≠ 0 ∧ vs ≠ 0 then
    { p with
      Rea1 := (-√2 * p.d2 * va ^ 3 * vs - √2 * p.d2 * va * vs ^ 3 -
        √2 * p.delta2 * va * vh * vh * vs + 4 * p.Ima1 * vs + p.Imb1 * √2 * va * va +
        p.Imb1 * √2 * vs * vs - 2 * √2 * p.b2 * va * vs) / va / 4
      Reb1 := 1 / va * (p.d2 * va ^ 3 + p.d2 * va * vs * vs + p.delta2 * va * vh * vh -
        4 * p.Ima1 * √2 - 2 * p.Imb1 * vs + 2 * p.b2 * va) / 2
      msq := -p.delta2 * va * va / 2 - p.delta2 * vs * vs / 2 - p.lam * vh * vh / 2 }
  else if va ≠ 0 ∧ vs = 0 then
    { p with
      Rea1 := √2 * p.Imb1 * va / 4
      Reb1 := 1 / va * (p.d2 * va ^ 3 + p.delta2 * va * vh * vh - 4 * p.Ima1 * √2 +
        2 * p.b2 * va) / 2
      msq := -p.delta2 * va * va / 2 - p.lam * vh * vh / 2 }
  else if va = 0 ∧ vs ≠ 0 then
    { p with
      Ima1 := -√2 * p.Imb1 * vs / 4
      Reb1 := -1 / vs * (p.d2 * vs ^ 3 + p.delta2 * vh * vh * vs + 4 * p.Rea1 * √2 +
        2 * p.b2 * vs) / 2
      msq := -p.delta2 * vs * vs / 2 - p.lam * vh * vh / 2 }
  else
    { p with Ima1 := 0, Rea1 := 0, msq := -p.lam * vh * vh / 2 }

/-- `vevTree`: the values at the positions `VevOrder = {3, 4, 5}` (ClassPotentialCxSM.cpp:45-47,
262-269). -/
def vevTree (vh vs va : ℝ) : FVec 6 ℝ := ![0, 0, 0, vh, vs, va]

/-- `Curvature_Higgs_L1`, ClassPotentialCxSM.cpp:918-919. -/
noncomputable def l1 (p : Par) : Assign ℝ :=
  [([4], p.Rea1 * √2), ([5], -p.Ima1 * √2)]

/-- `Curvature_Higgs_L2`, ClassPotentialCxSM.cpp:921-928. -/
noncomputable def l2 (p : Par) : Assign ℝ :=
  [([0, 0], p.msq / 2), ([1, 1], p.msq / 2), ([2, 2], p.msq / 2), ([3, 3], p.msq / 2),
   ([4, 4], p.Reb1 / 2 + p.b2 / 2), ([4, 5], -p.Imb1 / 2), ([5, 4], -p.Imb1 / 2),
   ([5, 5], -p.Reb1 / 2 + p.b2 / 2)]

/-- `Curvature_Higgs_L4`, ClassPotentialCxSM.cpp:930-1025. -/
noncomputable def l4 (p : Par) : Assign ℝ :=
  [([0, 0, 0, 0], 3 / 2 * p.lam), ([0, 0, 1, 1], p.lam / 2), ([0, 0, 2, 2], p.lam / 2),
   ([0, 0, 3, 3], p.lam / 2), ([0, 0, 4, 4], p.delta2 / 2), ([0, 0, 5, 5], p.delta2 / 2),
   ([0, 1, 0, 1], p.lam / 2), ([0, 1, 1, 0], p.lam / 2), ([0, 2, 0, 2], p.lam / 2),
   ([0, 2, 2, 0], p.lam / 2), ([0, 3, 0, 3], p.lam / 2), ([0, 3, 3, 0], p.lam / 2),
   ([0, 4, 0, 4], p.delta2 / 2), ([0, 4, 4, 0], p.delta2 / 2), ([0, 5, 0, 5], p.delta2 / 2),
   ([0, 5, 5, 0], p.delta2 / 2), ([1, 0, 0, 1], p.lam / 2), ([1, 0, 1, 0], p.lam / 2),
   ([1, 1, 0, 0], p.lam / 2), ([1, 1, 1, 1], 3 / 2 * p.lam), ([1, 1, 2, 2], p.lam / 2),
   ([1, 1, 3, 3], p.lam / 2), ([1, 1, 4, 4], p.delta2 / 2), ([1, 1, 5, 5], p.delta2 / 2),
   ([1, 2, 1, 2], p.lam / 2), ([1, 2, 2, 1], p.lam / 2), ([1, 3, 1, 3], p.lam / 2),
   ([1, 3, 3, 1], p.lam / 2), ([1, 4, 1, 4], p.delta2 / 2), ([1, 4, 4, 1], p.delta2 / 2),
   ([1, 5, 1, 5], p.delta2 / 2), ([1, 5, 5, 1], p.delta2 / 2), ([2, 0, 0, 2], p.lam / 2),
   ([2, 0, 2, 0], p.lam / 2), ([2, 1, 1, 2], p.lam / 2), ([2, 1, 2, 1], p.lam / 2),
   ([2, 2, 0, 0], p.lam / 2), ([2, 2, 1, 1], p.lam / 2), ([2, 2, 2, 2], 3 / 2 * p.lam),
   ([2, 2, 3, 3], p.lam / 2), ([2, 2, 4, 4], p.delta2 / 2), ([2, 2, 5, 5], p.delta2 / 2),
   ([2, 3, 2, 3], p.lam / 2), ([2, 3, 3, 2], p.lam / 2), ([2, 4, 2, 4], p.delta2 / 2),
   ([2, 4, 4, 2], p.delta2 / 2), ([2, 5, 2, 5], p.delta2 / 2), ([2, 5, 5, 2], p.delta2 / 2),
   ([3, 0, 0, 3], p.lam / 2), ([3, 0, 3, 0], p.lam / 2), ([3, 1, 1, 3], p.lam / 2),
   ([3, 1, 3, 1], p.lam / 2), ([3, 2, 2, 3], p.lam / 2), ([3, 2, 3, 2], p.lam / 2),
   ([3, 3, 0, 0], p.lam / 2), ([3, 3, 1, 1], p.lam / 2), ([3, 3, 2, 2], p.lam / 2),
   ([3, 3, 3, 3], 3 / 2 * p.lam), ([3, 3, 4, 4], p.delta2 / 2), ([3, 3, 5, 5], p.delta2 / 2),
   ([3, 4, 3, 4], p.delta2 / 2), ([3, 4, 4, 3], p.delta2 / 2), ([3, 5, 3, 5], p.delta2 / 2),
   ([3, 5, 5, 3], p.delta2 / 2), ([4, 0, 0, 4], p.delta2 / 2), ([4, 0, 4, 0], p.delta2 / 2),
   ([4, 1, 1, 4], p.delta2 / 2), ([4, 1, 4, 1], p.delta2 / 2), ([4, 2, 2, 4], p.delta2 / 2),
   ([4, 2, 4, 2], p.delta2 / 2), ([4, 3, 3, 4], p.delta2 / 2), ([4, 3, 4, 3], p.delta2 / 2),
   ([4, 4, 0, 0], p.delta2 / 2), ([4, 4, 1, 1], p.delta2 / 2), ([4, 4, 2, 2], p.delta2 / 2),
   ([4, 4, 3, 3], p.delta2 / 2), ([4, 4, 4, 4], 3 / 2 * p.d2), ([4, 4, 5, 5], p.d2 / 2),
   ([4, 5, 4, 5], p.d2 / 2), ([4, 5, 5, 4], p.d2 / 2), ([5, 0, 0, 5], p.delta2 / 2),
   ([5, 0, 5, 0], p.delta2 / 2), ([5, 1, 1, 5], p.delta2 / 2), ([5, 1, 5, 1], p.delta2 / 2),
   ([5, 2, 2, 5], p.delta2 / 2), ([5, 2, 5, 2], p.delta2 / 2), ([5, 3, 3, 5], p.delta2 / 2),
   ([5, 3, 5, 3], p.delta2 / 2), ([5, 4, 4, 5], p.d2 / 2), ([5, 4, 5, 4], p.d2 / 2),
   ([5, 5, 0, 0], p.delta2 / 2), ([5, 5, 1, 1], p.delta2 / 2), ([5, 5, 2, 2], p.delta2 / 2),
   ([5, 5, 3, 3], p.delta2 / 2), ([5, 5, 4, 4], p.d2 / 2), ([5, 5, 5, 5], 3 / 2 * p.d2)]

/-- `Curvature_Higgs_CT_L1`, ClassPotentialCxSM.cpp:298-303. -/
noncomputable def ctL1 (c : CT) : Assign ℝ :=
  [([0], c.dT1), ([1], c.dT2), ([2], c.dT3), ([3], c.dT4), ([4], √2 * c.dRea1 + c.dT5),
   ([5], -√2 * c.dIma1 + c.dT6)]

/-- `Curvature_Higgs_CT_L2`, ClassPotentialCxSM.cpp:305-312. -/
noncomputable def ctL2 (c : CT) : Assign ℝ :=
  [([0, 0], c.dmsq / 2), ([1, 1], c.dmsq / 2), ([2, 2], c.dmsq / 2), ([3, 3], c.dmsq / 2),
   ([4, 4], c.db2 / 2 + c.dReb1 / 2), ([4, 5], -c.dImb1 / 2), ([5, 4], -c.dImb1 / 2),
   ([5, 5], c.db2 / 2 - c.dReb1 / 2)]

/-- `Curvature_Higgs_CT_L4`, ClassPotentialCxSM.cpp:314-409. -/
noncomputable def ctL4 (c : CT) : Assign ℝ :=
  [([0, 0, 0, 0], 3 / 2 * c.dlambda), ([0, 0, 1, 1], c.dlambda / 2),
   ([0, 0, 2, 2], c.dlambda / 2), ([0, 0, 3, 3], c.dlambda / 2), ([0, 0, 4, 4], c.ddelta2 / 2),
   ([0, 0, 5, 5], c.ddelta2 / 2), ([0, 1, 0, 1], c.dlambda / 2), ([0, 1, 1, 0], c.dlambda / 2),
   ([0, 2, 0, 2], c.dlambda / 2), ([0, 2, 2, 0], c.dlambda / 2), ([0, 3, 0, 3], c.dlambda / 2),
   ([0, 3, 3, 0], c.dlambda / 2), ([0, 4, 0, 4], c.ddelta2 / 2), ([0, 4, 4, 0], c.ddelta2 / 2),
   ([0, 5, 0, 5], c.ddelta2 / 2), ([0, 5, 5, 0], c.ddelta2 / 2), ([1, 0, 0, 1], c.dlambda / 2),
   ([1, 0, 1, 0], c.dlambda / 2), ([1, 1, 0, 0], c.dlambda / 2),
   ([1, 1, 1, 1], 3 / 2 * c.dlambda), ([1, 1, 2, 2], c.dlambda / 2),
   ([1, 1, 3, 3], c.dlambda / 2), ([1, 1, 4, 4], c.ddelta2 / 2), ([1, 1, 5, 5], c.ddelta2 / 2),
   ([1, 2, 1, 2], c.dlambda / 2), ([1, 2, 2, 1], c.dlambda / 2), ([1, 3, 1, 3], c.dlambda / 2),
   ([1, 3, 3, 1], c.dlambda / 2), ([1, 4, 1, 4], c.ddelta2 / 2), ([1, 4, 4, 1], c.ddelta2 / 2),
   ([1, 5, 1, 5], c.ddelta2 / 2), ([1, 5, 5, 1], c.ddelta2 / 2), ([2, 0, 0, 2], c.dlambda / 2),
   ([2, 0, 2, 0], c.dlambda / 2), ([2, 1, 1, 2], c.dlambda / 2), ([2, 1, 2, 1], c.dlambda / 2),
   ([2, 2, 0, 0], c.dlambda / 2), ([2, 2, 1, 1], c.dlambda / 2),
   ([2, 2, 2, 2], 3 / 2 * c.dlambda), ([2, 2, 3, 3], c.dlambda / 2),
   ([2, 2, 4, 4], c.ddelta2 / 2), ([2, 2, 5, 5], c.ddelta2 / 2), ([2, 3, 2, 3], c.dlambda / 2),
   ([2, 3, 3, 2], c.dlambda / 2), ([2, 4, 2, 4], c.ddelta2 / 2), ([2, 4, 4, 2], c.ddelta2 / 2),
   ([2, 5, 2, 5], c.ddelta2 / 2), ([2, 5, 5, 2], c.ddelta2 / 2), ([3, 0, 0, 3], c.dlambda / 2),
   ([3, 0, 3, 0], c.dlambda / 2), ([3, 1, 1, 3], c.dlambda / 2), ([3, 1, 3, 1], c.dlambda / 2),
   ([3, 2, 2, 3], c.dlambda / 2), ([3, 2, 3, 2], c.dlambda / 2), ([3, 3, 0, 0], c.dlambda / 2),
   ([3, 3, 1, 1], c.dlambda / 2), ([3, 3, 2, 2], c.dlambda / 2),
   ([3, 3, 3, 3], 3 / 2 * c.dlambda), ([3, 3, 4, 4], c.ddelta2 / 2),
   ([3, 3, 5, 5], c.ddelta2 / 2), ([3, 4, 3, 4], c.ddelta2 / 2), ([3, 4, 4, 3], c.ddelta2 / 2),
   ([3, 5, 3, 5], c.ddelta2 / 2), ([3, 5, 5, 3], c.ddelta2 / 2), ([4, 0, 0, 4], c.ddelta2 / 2),
   ([4, 0, 4, 0], c.ddelta2 / 2), ([4, 1, 1, 4], c.ddelta2 / 2), ([4, 1, 4, 1], c.ddelta2 / 2),
   ([4, 2, 2, 4], c.ddelta2 / 2), ([4, 2, 4, 2], c.ddelta2 / 2), ([4, 3, 3, 4], c.ddelta2 / 2),
   ([4, 3, 4, 3], c.ddelta2 / 2), ([4, 4, 0, 0], c.ddelta2 / 2), ([4, 4, 1, 1], c.ddelta2 / 2),
   ([4, 4, 2, 2], c.ddelta2 / 2), ([4, 4, 3, 3], c.ddelta2 / 2), ([4, 4, 4, 4], 3 / 2 * c.dd2),
   ([4, 4, 5, 5], c.dd2 / 2), ([4, 5, 4, 5], c.dd2 / 2), ([4, 5, 5, 4], c.dd2 / 2),
   ([5, 0, 0, 5], c.ddelta2 / 2), ([5, 0, 5, 0], c.ddelta2 / 2), ([5, 1, 1, 5], c.ddelta2 / 2),
   ([5, 1, 5, 1], c.ddelta2 / 2), ([5, 2, 2, 5], c.ddelta2 / 2), ([5, 2, 5, 2], c.ddelta2 / 2),
   ([5, 3, 3, 5], c.ddelta2 / 2), ([5, 3, 5, 3], c.ddelta2 / 2), ([5, 4, 4, 5], c.dd2 / 2),
   ([5, 4, 5, 4], c.dd2 / 2), ([5, 5, 0, 0], c.ddelta2 / 2), ([5, 5, 1, 1], c.ddelta2 / 2),
   ([5, 5, 2, 2], c.ddelta2 / 2), ([5, 5, 3, 3], c.ddelta2 / 2), ([5, 5, 4, 4], c.dd2 / 2),
   ([5, 5, 5, 5], 3 / 2 * c.dd2)]

/-- `Curvature_Gauge_G2H2`, ClassPotentialCxSM.cpp:1027-1077. -/
noncomputable def g2h2 (g gs : ℝ) : Assign ℝ :=
  [([0, 0, 0, 0], g * g / 2), ([0, 0, 1, 1], g * g / 2), ([0, 0, 2, 2], g * g / 2),
   ([0, 0, 3, 3], g * g / 2), ([0, 3, 0, 3], gs * g / 2), ([0, 3, 1, 2], gs * g / 2),
   ([0, 3, 2, 1], gs * g / 2), ([0, 3, 3, 0], gs * g / 2), ([1, 1, 0, 0], g * g / 2),
   ([1, 1, 1, 1], g * g / 2), ([1, 1, 2, 2], g * g / 2), ([1, 1, 3, 3], g * g / 2),
   ([1, 3, 0, 2], gs * g / 2), ([1, 3, 1, 3], -gs * g / 2), ([1, 3, 2, 0], gs * g / 2),
   ([1, 3, 3, 1], -gs * g / 2), ([2, 2, 0, 0], g * g / 2), ([2, 2, 1, 1], g * g / 2),
   ([2, 2, 2, 2], g * g / 2), ([2, 2, 3, 3], g * g / 2), ([2, 3, 0, 0], gs * g / 2),
   ([2, 3, 1, 1], gs * g / 2), ([2, 3, 2, 2], -gs * g / 2), ([2, 3, 3, 3], -gs * g / 2),
   ([3, 0, 0, 3], gs * g / 2), ([3, 0, 1, 2], gs * g / 2), ([3, 0, 2, 1], gs * g / 2),
   ([3, 0, 3, 0], gs * g / 2), ([3, 1, 0, 2], gs * g / 2), ([3, 1, 1, 3], -gs * g / 2),
   ([3, 1, 2, 0], gs * g / 2), ([3, 1, 3, 1], -gs * g / 2), ([3, 2, 0, 0], gs * g / 2),
   ([3, 2, 1, 1], gs * g / 2), ([3, 2, 2, 2], -gs * g / 2), ([3, 2, 3, 3], -gs * g / 2),
   ([3, 3, 0, 0], gs * gs / 2), ([3, 3, 1, 1], gs * gs / 2), ([3, 3, 2, 2], gs * gs / 2),
   ([3, 3, 3, 3], gs * gs / 2)]

/-- The tensors of the tree-level potential after `SetCurvatureArrays`,
ClassPotentialCxSM.cpp:903-1025. -/
noncomputable def tree (p : Par) : Curv 6 ℝ :=
  curv 6 (assign (l1 p) zeroTensor) (assign (l2 p) zeroTensor) zeroTensor
    (assign (l4 p) zeroTensor)

/-- The tensors of the counterterm potential after `set_CT_Pot_Par`,
ClassPotentialCxSM.cpp:279-410. -/
noncomputable def counter (c : CT) : Curv 6 ℝ :=
  curv 6 (assign (ctL1 c) zeroTensor) (assign (ctL2 c) zeroTensor) zeroTensor
    (assign (ctL4 c) zeroTensor)

/-- `Curvature_Gauge_G2H2` after `SetCurvatureArrays`. -/
noncomputable def gauge (g gs : ℝ) : List Nat → ℝ := assign (g2h2 g gs) zeroTensor

open Classical in
/-- `if (std::abs(x) <= ZeroCut) x = 0;` with `ZeroCut = 1e-5`, ClassPotentialCxSM.cpp:613-623,
756-759. -/
noncomputable def cut (x : ℝ) : ℝ := if |x| ≤ 1 / 10 ^ 5 then 0 else x

open Classical in
/-- The formulas of `calc_CT` for the gradient `N` and the Hesse matrix `W` of the Coleman-Weinberg
potential after the cut of small entries, ClassPotentialCxSM.cpp:627-755.  `ima1` is the parameter
`Ima1`. -/
noncomputable def formulas (vh vs va ima1 : ℝ) (N : Fin 6 → ℝ) (W : Fin 6 → Fin 6 → ℝ) : CT :=
  let H : Fin 6 → Fin 6 → ℝ := fun i j => W j i
  if va ≠ 0 ∧ vs ≠ 0 ∧ ima1 ≠ 0 then
    { dmsq := ((va * va + vs * vs) * H 3 5 - 3 * vh * va * (H 2 2 - H 3 3 / 3)) / vh / va
      dlambda := (2 * H 2 2 - 2 * H 3 3) * (vh ^ 2)⁻¹
      ddelta2 := -2 / va / vh * H 3 5
      db2 := ((2 * va * va + 2 * vs * vs) * H 4 5 - (-H 3 5 * vh + va * (H 4 4 + H 5 5)) * vs) /
        vs / va
      dd2 := -2 / vs / va * H 4 5
      dReb1 := H 5 5 + vs / va * H 4 5 - va / vs * H 4 5 - H 4 4
      dImb1 := 0
      dRea1 := (-H 4 5 * vs * vs + va * (vs * H 4 4 - N 4)) * √2 / va / 2
      dIma1 := √2 * (va * va * H 4 5 - vs * (H 5 5 * va - N 5)) / vs / 2
      dT1 := -N 0
      dT2 := -N 1
      dT3 := -N 2
      dT4 := H 2 2 * vh - N 3
      dT5 := 0
      dT6 := 0 }
  else if va ≠ 0 ∧ vs ≠ 0 then
    { dmsq := ((va * va + vs * vs) * H 3 5 - 3 * vh * (H 2 2 - H 3 3 / 3) * va) / vh / va
      dlambda := (2 * H 2 2 - 2 * H 3 3) * (vh ^ 2)⁻¹
      ddelta2 := -2 / va / vh * H 3 5
      db2 := (2 * H 4 5 * vs + H 5 5 * va - H 4 4 * va + H 3 5 * vh - 2 * N 5) / va
      dd2 := (-2 * H 4 5 * vs - 2 * H 5 5 * va + 2 * N 5) / (va * va + vs * vs) / va
      dReb1 := ((-va ^ 3 - vs * vs * va) * H 4 4 + (-vs * va * va + vs ^ 3) * H 4 5 +
        2 * H 5 5 * va * vs * vs + N 5 * (va * va - vs * vs)) / (va * va + vs * vs) / va
      dImb1 := (2 * va * va * H 4 5 - 2 * vs * (H 5 5 * va - N 5)) / (va * va + vs * vs)
      dRea1 := (H 4 5 * (va * va - vs * vs) + H 4 4 * va * vs - H 5 5 * va * vs - N 4 * va +
        N 5 * vs) * √2 / va / 2
      dIma1 := 0
      dT1 := -N 0
      dT2 := -N 1
      dT3 := -N 2
      dT4 := H 2 2 * vh - N 3
      dT5 := 0
      dT6 := 0 }
  else if va ≠ 0 ∧ vs = 0 then
    { dmsq := (-3 * H 2 2 * vh + H 3 3 * vh + va * H 3 5) / vh
      dlambda := (2 * H 2 2 - 2 * H 3 3) * (vh ^ 2)⁻¹
      ddelta2 := -2 / va / vh * H 3 5
      db2 := (H 3 5 * vh - H 4 4 * va + H 5 5 * va - 2 * N 5) / va
      dd2 := (-2 * H 5 5 * va + 2 * N 5) * (va ^ 3)⁻¹
      dReb1 := (-H 4 4 * va + N 5) / va
      dImb1 := 2 * H 4 5
      dRea1 := -√2 * (-va * H 4 5 + N 4) / 2
      dIma1 := 0
      dT1 := -N 0
      dT2 := -N 1
      dT3 := -N 2
      dT4 := H 2 2 * vh - N 3
      dT5 := 0
      dT6 := 0 }
  else if va = 0 ∧ vs ≠ 0 then
    { dmsq := (-3 * H 2 2 * vh + H 3 3 * vh + vs * H 3 4) / vh
      dlambda := (2 * H 2 2 - 2 * H 3 3) * (vh ^ 2)⁻¹
      ddelta2 := -2 / vh / vs * H 3 4
      db2 := (H 3 4 * vh + vs * H 4 4 - H 5 5 * vs - 2 * N 4) / vs
      dd2 := (-2 * vs * H 4 4 + 2 * N 4) * (vs ^ 3)⁻¹
      dReb1 := (H 5 5 * vs - N 4) / vs
      dImb1 := 2 * H 4 5
      dRea1 := 0
      dIma1 := -√2 * (H 4 5 * vs - N 5) / 2
      dT1 := -N 0
      dT2 := -N 1
      dT3 := -N 2
      dT4 := H 2 2 * vh - N 3
      dT5 := 0
      dT6 := 0 }
  else
    { dmsq := -3 * H 2 2 + H 3 3
      dlambda := (2 * H 2 2 - 2 * H 3 3) * (vh ^ 2)⁻¹
      ddelta2 := 0
      db2 := -H 4 4 - H 5 5
      dd2 := 0
      dReb1 := H 5 5 - H 4 4
      dImb1 := 2 * H 4 5
      dRea1 := -√2 * N 4 / 2
      dIma1 := √2 * N 5 / 2
      dT1 := -N 0
      dT2 := -N 1
      dT3 := -N 2
      dT4 := H 2 2 * vh - N 3
      dT5 := 0
      dT6 := 0 }

/-- The cut of the results, ClassPotentialCxSM.cpp:756-759. -/
noncomputable def cutCT (c : CT) : CT where
  dmsq := cut c.dmsq
  dlambda := cut c.dlambda
  ddelta2 := cut c.ddelta2
  db2 := cut c.db2
  dd2 := cut c.dd2
  dReb1 := cut c.dReb1
  dImb1 := cut c.dImb1
  dRea1 := cut c.dRea1
  dIma1 := cut c.dIma1
  dT1 := cut c.dT1
  dT2 := cut c.dT2
  dT3 := cut c.dT3
  dT4 := cut c.dT4
  dT5 := cut c.dT5
  dT6 := cut c.dT6

/-- `calc_CT`, ClassPotentialCxSM.cpp:581-766, after its checks. -/
noncomputable def calcCT (vh vs va ima1 : ℝ) (N : Fin 6 → ℝ) (W : Fin 6 → Fin 6 → ℝ) : CT :=
  cutCT (formulas vh vs va ima1 (fun i => cut (N i)) (fun i j => cut (W i j)))

end Verif.Lagrangian.CxSM
