import Verif.Lagrangian.Loop

/-!
# The template model

`Class_Template`, ClassTemplate.cpp: one real scalar field.
-/

namespace Verif.Lagrangian.Template

open Verif.Potential

variable {K : Type} [Field K]

/-- The parameters read by `set_gen` from `par[0]` and `par[1]`, ClassTemplate.cpp:181-182. -/
structure Par (K : Type) where
  ms : K
  lam : K

/-- The counterterm parameters in the order of `par` of `set_CT_Pot_Par`,
ClassTemplate.cpp:203-205. -/
structure CT (K : Type) where
  dT : K
  dlam : K
  dms : K

/-- `vevTree`, ClassTemplate.cpp:187-192. -/
def vevTree (v : K) : FVec 1 K := ![v]

/-- `Curvature_Higgs_L2` and `Curvature_Higgs_L4`, ClassTemplate.cpp:393-394. -/
def tree (p : Par K) : Curv 1 K :=
  curv 1 zeroTensor (assign [([0, 0], p.ms)] zeroTensor) zeroTensor
    (assign [([0, 0, 0, 0], p.lam)] zeroTensor)

/-- `set_CT_Pot_Par`, ClassTemplate.cpp:207-209. -/
def counter (c : CT K) : Curv 1 K :=
  curv 1 (assign [([0], c.dT)] zeroTensor) (assign [([0, 0], c.dms)] zeroTensor) zeroTensor
    (assign [([0, 0, 0, 0], c.dlam)] zeroTensor)

/-- `Curvature_Gauge_G2H2`, ClassTemplate.cpp:396. -/
def gauge (g : K) : List Nat → K := assign [([0, 0, 0, 0], 4 * g ^ 2)] zeroTensor

/-- `VTreeSimplified`, ClassTemplate.cpp:422-431; only the formula, the flag is not set. -/
def treeSimplified (p : Par K) (φ : FVec 1 K) : K :=
  let vIn := φ 0
  1 / 2 * p.ms * vIn ^ 2 + 1 / 24 * p.lam * vIn ^ 4

/-- `VCounterSimplified`, ClassTemplate.cpp:433-441; only the formula, the flag is not set. -/
def counterSimplified (c : CT K) (φ : FVec 1 K) : K :=
  let vIn := φ 0
  1 / 2 * c.dms * vIn ^ 2 + 1 / 24 * c.dlam * vIn ^ 4 + c.dT * vIn

/-- `calc_CT` for the gradient `N` and the Hesse matrix `W` of the Coleman-Weinberg potential,
ClassTemplate.cpp:260-277. -/
def calcCT (v : K) (N : Fin 1 → K) (W : Fin 1 → Fin 1 → K) : CT K :=
  let H : Fin 1 → Fin 1 → K := fun i j => W j i
  let t : K := 0
  { dT := t
    dlam := 3 * t / v ^ 3 + 3 / v ^ 3 * N 0 - 3 / v ^ 2 * H 0 0
    dms := -3 / (2 * v) * N 0 + 1 / 2 * H 0 0 - 3 * t / (2 * v) }

end Verif.Lagrangian.Template
