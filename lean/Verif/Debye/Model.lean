import Verif.Potential.Tree
import Verif.Yukawa.Form
import Verif.Spectrum.Gauge
import Mathlib.Analysis.SpecialFunctions.Sqrt

/-!
# Thermal masses

`CalculateDebye` and `CalculateDebyeGauge` and their simplified versions in the models.
-/

namespace Verif.Debye

open Verif.Potential
open scoped BigOperators ComplexConjugate

variable {n : Nat}

/-- The entry `DebyeHiggs[i][j]`, `j >= i`, before small values are removed,
ClassPotentialOrigin.cpp:3231-3271; `G`, `Q` and `L` are `Curvature_Gauge_G2H2`,
`Curvature_Quark_F2H1` and `Curvature_Lepton_F2H1`. -/
noncomputable def higgsRaw (nG nQ nL : Nat) (c : Curv n ℝ) (G : List Nat → ℝ) (Q L : List Nat → ℂ)
    (i j : Fin n) : ℝ :=
  (∑ k : Fin n, 1 / 2 * c.L4 i j k k / 12) +
    (∑ k : Fin nG, 3 * (1 / 2) * G [(k : Nat), (k : Nat), (i : Nat), (j : Nat)] / 12) +
    (∑ a : Fin nQ, ∑ b : Fin nQ, 6 / 24 * (1 / 2 *
      (conj (Q [(a : Nat), (b : Nat), (j : Nat)]) * Q [(a : Nat), (b : Nat), (i : Nat)] +
        conj (Q [(a : Nat), (b : Nat), (i : Nat)]) * Q [(a : Nat), (b : Nat), (j : Nat)]).re)) +
    ∑ a : Fin nL, ∑ b : Fin nL, 2 / 24 * (1 / 2 *
      (conj (L [(a : Nat), (b : Nat), (j : Nat)]) * L [(a : Nat), (b : Nat), (i : Nat)] +
        conj (L [(a : Nat), (b : Nat), (i : Nat)]) * L [(a : Nat), (b : Nat), (j : Nat)]).re)

/-- Small values are removed, ClassPotentialOrigin.cpp:3278 and 3327. -/
noncomputable def clip (x : ℝ) : ℝ := if |x| ≤ 1 / 100000 then 0 else x

/-- `DebyeHiggs` after the general calculation, ClassPotentialOrigin.cpp:3229-3288. -/
noncomputable def higgsGeneral (nG nQ nL : Nat) (c : Curv n ℝ) (G : List Nat → ℝ)
    (Q L : List Nat → ℂ) (i j : Fin n) : ℝ :=
  if i ≤ j then clip (higgsRaw nG nQ nL c G Q L i j) else clip (higgsRaw nG nQ nL c G Q L j i)

/-- `CalculateDebye`, ClassPotentialOrigin.cpp:3223-3290: `simplified` is `CalculateDebyeSimplified`,
which changes `DebyeHiggs` if it returns true (`some`), and is not called if the general calculation
is forced. -/
noncomputable def calculateDebye (nG nQ nL : Nat) (c : Curv n ℝ) (G : List Nat → ℝ)
    (Q L : List Nat → ℂ) (simplified : (Fin n → Fin n → ℝ) → Option (Fin n → Fin n → ℝ))
    (force : Bool) (before : Fin n → Fin n → ℝ) : Fin n → Fin n → ℝ :=
  if force then higgsGeneral nG nQ nL c G Q L
  else match simplified before with
    | some D => D
    | none => higgsGeneral nG nQ nL c G Q L

/-- The number of scalar fields that couple to the first gauge boson,
ClassPotentialOrigin.cpp:3303-3311. -/
noncomputable def nGaugeHiggs (n : Nat) (G : List Nat → ℝ) : Nat :=
  (Finset.univ.filter fun i : Fin n => G [0, 0, (i : Nat), (i : Nat)] ≠ 0).card

/-- `DebyeGauge` after the general calculation, ClassPotentialOrigin.cpp:3294-3329; `none` if no
scalar field couples to the first gauge boson, then the diagonal entries are divided by zero. -/
noncomputable def gaugeGeneral (nG n : Nat) (G : List Nat → ℝ) :
    Option (Matrix (Fin nG) (Fin nG) ℝ) :=
  if nGaugeHiggs n G = 0 then none
  else some fun a b => if a = b then
      clip (2 / 3 * ((nGaugeHiggs n G : ℝ) / 8 + 5) *
        ((∑ k : Fin n, G [(a : Nat), (a : Nat), (k : Nat), (k : Nat)]) * (1 / (nGaugeHiggs n G : ℝ))))
    else 0

/-- `CalculateDebyeGauge`, ClassPotentialOrigin.cpp:3292-3330: `simplified` is the matrix after
`CalculateDebyeGaugeSimplified`, if that returns true. -/
noncomputable def calculateDebyeGauge (nG n : Nat) (G : List Nat → ℝ)
    (simplified : Option (Matrix (Fin nG) (Fin nG) ℝ)) : Option (Matrix (Fin nG) (Fin nG) ℝ) :=
  match simplified with
  | some D => some D
  | none => gaugeGeneral nG n G

/-- `CalculateDebyeSimplified` of the other models returns false, ClassPotentialSM.cpp:615-618,
ClassPotentialCxSM.cpp:1254-1262, ClassPotentialCPintheDark.cpp:2269-2277. -/
def notSimplified (_ : Fin n → Fin n → ℝ) : Option (Fin n → Fin n → ℝ) := none

/-- The coupling `cb` of the bottom quark, ClassPotentialR2HDM.cpp:1380-1393 and
ClassPotentialC2HDM.cpp:3075-3088; the same in ClassPotentialN2HDM.cpp:3107-3120. -/
noncomputable def bottomCoupling (type : Int) (mb v cosBeta sinBeta : ℝ) : ℝ :=
  if type = 2 ∨ type = 4 then √2 * mb / (v * cosBeta)
  else if type = 1 ∨ type = 3 then √2 * mb / (v * sinBeta)
  else 0

/-- `CTempC1`, ClassPotentialR2HDM.cpp:1394-1397 and 1413-1416. -/
noncomputable def cTempC1 (type : Int) (mb v cosBeta sinBeta l1 l3 l4 g gs : ℝ) : ℝ :=
  let cb := bottomCoupling type mb v cosBeta sinBeta
  1 / 48 * (12 * l1 + 8 * l3 + 4 * l4 + 3 * (3 * g * g + gs * gs)) +
    if type = 1 ∨ type = 3 then 0 else 12 / 48 * cb * cb

/-- `CTempC2`, ClassPotentialR2HDM.cpp:1398-1412. -/
noncomputable def cTempC2 (type : Int) (mt mb v cosBeta sinBeta l2 l3 l4 g gs : ℝ) : ℝ :=
  let cb := bottomCoupling type mb v cosBeta sinBeta
  let ct := √2 * mt / (v * sinBeta)
  1 / 48 * (12 * l2 + 8 * l3 + 4 * l4 + 3 * (3 * g * g + gs * gs) + 12 * ct * ct) +
    if type = 1 ∨ type = 3 then 12 / 48 * cb * cb else 0

/-- The assignments to the diagonal at the end of `CalculateDebyeSimplified`. -/
def setDiagonal (d : Fin n → ℝ) (before : Fin n → Fin n → ℝ) (i j : Fin n) : ℝ :=
  if i = j then d i else before i j

/-- `CalculateDebyeSimplified`, ClassPotentialR2HDM.cpp:1380-1425 and
ClassPotentialC2HDM.cpp:3075-3123. -/
noncomputable def simplified2HDM (type : Int) (mt mb v cosBeta sinBeta l1 l2 l3 l4 g gs : ℝ)
    (before : Fin 8 → Fin 8 → ℝ) : Option (Fin 8 → Fin 8 → ℝ) :=
  let c1 := cTempC1 type mb v cosBeta sinBeta l1 l3 l4 g gs
  let c2 := cTempC2 type mt mb v cosBeta sinBeta l2 l3 l4 g gs
  some (setDiagonal ![c1, c1, c2, c2, c1, c1, c2, c2] before)

/-- `CalculateDebyeSimplified`, ClassPotentialN2HDM.cpp:3105-3155. -/
noncomputable def simplifiedN2HDM (type : Int) (mt mb v cosBeta sinBeta l1 l2 l3 l4 l6 l7 l8 g gs : ℝ)
    (before : Fin 9 → Fin 9 → ℝ) : Option (Fin 9 → Fin 9 → ℝ) :=
  let c1 := cTempC1 type mb v cosBeta sinBeta l1 l3 l4 g gs + 1 / 48 * (2 * l7)
  let c2 := cTempC2 type mt mb v cosBeta sinBeta l2 l3 l4 g gs + 1 / 48 * (2 * l8)
  let cs := 1 / 6 * (l7 + l8) + 1 / 8 * l6
  some (setDiagonal ![c1, c2, c1, c2, c1, c2, c1, c2, cs] before)

/-- `CalculateDebyeGaugeSimplified` of the three models with two doublets that have it,
ClassPotentialR2HDM.cpp:1427-1435, ClassPotentialC2HDM.cpp:3122-3130 and
ClassPotentialN2HDM.cpp:3157-3165, after the entries have been set to zero. -/
noncomputable def gaugeSimplified (g gs : ℝ) : Matrix (Fin 4) (Fin 4) ℝ :=
  Matrix.diagonal ![2 * g * g, 2 * g * g, 2 * g * g, 2 * gs * gs]

end Verif.Debye
