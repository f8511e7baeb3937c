import Verif.Potential.Tree
import Mathlib.Analysis.SpecialFunctions.Pow.Real
import Mathlib.Analysis.SpecialFunctions.Log.Basic
import Mathlib.Analysis.Real.Pi.Bounds

/-!
# One-loop part of `Class_Potential_Origin`

`FCW`, `CWTerm`, `boson`, `fermion`, `HiggsMassesSquared` and `V1Loop` over the real numbers without
rounding.  The thermal functions, the eigenvalues of a symmetric matrix and the function
`FirstDerivativeOfEigenvalues` are parameters.
-/

namespace Verif.Potential

open Outcome

noncomputable section

/-- `C_threshold`, ClassPotentialOrigin.h:37. -/
def cThreshold : ℝ := 1 / 10 ^ 4

/-- `C_CWcbHiggs` and `C_CWcbFermion`, ClassPotentialOrigin.h:41, 49. -/
def cCWcb : ℝ := 3 / 2

/-- `C_CWcbGB`, ClassPotentialOrigin.h:45. -/
def cCWcbGB : ℝ := 5 / 6

/-- `Class_Potential_Origin::FCW`, ClassPotentialOrigin.cpp:80-93, for an argument that is a
number. -/
def fcw (scale m : ℝ) : ℝ :=
  Real.log (if |m| < 1 / 10 ^ 200 then 1 / 10 ^ 200 else |m|) - 2 * Real.log scale

/-- `Class_Potential_Origin::CWTerm`, ClassPotentialOrigin.cpp:95-110. -/
def cwTerm (scale m cb : ℝ) (diff : Int) : ℝ :=
  if |m| < cThreshold then 0
  else if diff = 0 then 1 / (64 * Real.pi ^ 2) * m * m * (fcw scale m - cb)
  else if 0 < diff then 1 / (32 * Real.pi ^ 2) * m * (fcw scale m - cb + 1 / 2)
  else 0

/-- The thermal functions used by `boson` and `fermion`: the interpolation, the numerical integral
and the numerical integral of the derivative (ThermalFunctions.cpp). -/
structure Thermal where
  interpolated : ℝ → ℝ
  integral : ℝ → ℝ
  integralD : ℝ → ℝ

/-- `Class_Potential_Origin::boson`, ClassPotentialOrigin.cpp:112-140.  `fermion` (143-168) is the
same with the fermionic thermal functions and `C_CWcbFermion`. -/
def particle (J : Thermal) (scale m T cb : ℝ) (diff : Int) : ℝ :=
  let res := if 0 ≤ diff then cwTerm scale |m| cb diff else 0
  if T = 0 then res
  else
    let ratio := m / T ^ 2
    if diff = 0 then res + T ^ 4 / (2 * Real.pi ^ 2) * J.interpolated ratio
    else if diff = 1 then res + T ^ 2 / (2 * Real.pi ^ 2) * J.integralD ratio
    else if diff = -1 then
      res + 1 / (2 * Real.pi ^ 2) * (4 * T ^ 3 * J.integral ratio - 2 * T * m * J.integralD ratio)
    else res

/-- `Class_Potential_Origin::boson`, ClassPotentialOrigin.cpp:112-140. -/
def boson (JB : Thermal) (scale m T cb : ℝ) (diff : Int) : ℝ := particle JB scale m T cb diff

/-- `Class_Potential_Origin::fermion`, ClassPotentialOrigin.cpp:142-168. -/
def fermion (JF : Thermal) (scale m T : ℝ) (diff : Int) : ℝ := particle JF scale m T cCWcb diff

/-- Eigenvalue routines of Eigen: the eigenvalues of a symmetric matrix in ascending order, and
`FirstDerivativeOfEigenvalues` (ClassPotentialOrigin.cpp:170-286), which returns the eigenvalues of
its first argument followed by their derivatives in the direction of the second. -/
structure EigenLib (n : Nat) where
  eig : (Fin n → Fin n → ℝ) → List ℝ
  derivEig : (Fin n → Fin n → ℝ) → (Fin n → Fin n → ℝ) → List ℝ

/-- Masses below the threshold are set to zero, ClassPotentialOrigin.cpp:2436-2446. -/
def cutMass (x : ℝ) : ℝ := if |x| < 1 / 10 ^ 5 then 0 else x

/-- `Class_Potential_Origin::HiggsMassesSquared`, ClassPotentialOrigin.cpp:2420-2507.  The mass
matrix is requested with the same `diff`, so that for a derivative the first argument of
`FirstDerivativeOfEigenvalues` is the derivative of the mass matrix as well.  For other values of
`diff` an empty vector is returned. -/
def higgsMassesSquared {n : Nat} (E : EigenLib n) (c : Curv n ℝ) (debye : Fin n → Fin n → ℝ)
    (v : FVec n ℝ) (T : ℝ) (diff : Int) : Outcome (List ℝ) := do
  let M ← higgsMassMatrix c debye v T diff
  if diff = 0 then ok ((E.eig M).map cutMass)
  else match fieldIndex n diff with
    | some x => ok (E.derivEig M (massD c v x))
    | none => if diff = -1 then ok (E.derivEig M (massT debye T)) else ok []

/-- What `V1Loop` uses of an initialised model: the numbers of particles, the spectra (masses, for
a derivative followed by their derivatives), the scale and the thermal functions. -/
structure Spectra (V : Type) where
  nHiggs : Nat
  nGauge : Nat
  nQuarks : Nat
  nLepton : Nat
  nColour : Nat
  higgs : V → ℝ → Int → List ℝ
  gauge : V → ℝ → Int → List ℝ
  quark : V → Int → List ℝ
  lepton : V → Int → List ℝ
  scale : ℝ
  JB : Thermal
  JF : Thermal

/-- `Masses[k]` for a vector that is long enough. -/
def nth (l : List ℝ) (k : Nat) : ℝ := l.getD k 0

/-- `for (k = 0; k < n; k++) res += f(k)` -/
def sumTo (n : Nat) (f : Nat → ℝ) : ℝ := ((List.range n).map f).sum

/-- The contribution of one particle to `VDebye`, ClassPotentialOrigin.cpp:3047-3059, 3198-3209. -/
def debyeTerm (mT m0 : ℝ) : ℝ :=
  (if 0 < mT then mT ^ (3 / 2 : ℝ) else 0) + (if 0 < m0 then -m0 ^ (3 / 2 : ℝ) else 0)

/-- The same for a derivative with respect to a field, ClassPotentialOrigin.cpp:3125-3151. -/
def debyeTermD (mT dT m0 d0 : ℝ) : ℝ :=
  (if 0 < mT then 3 / 2 * dT * mT ^ (1 / 2 : ℝ) else 0) +
    (if 0 < m0 then -(3 / 2) * d0 * m0 ^ (1 / 2 : ℝ) else 0)

variable {V : Type}

/-- `V1Loop` for `diff == 0`, ClassPotentialOrigin.cpp:3024-3064 (`C_UseParwani` is the constant
false). -/
def v1Loop0 (S : Spectra V) (v : V) (T : ℝ) : ℝ :=
  sumTo S.nHiggs (fun k => boson S.JB S.scale (nth (S.higgs v 0 0) k) T cCWcb 0) +
  sumTo S.nGauge (fun k => 3 * boson S.JB S.scale (nth (S.gauge v 0 0) k) T cCWcbGB 0) +
  S.nColour * sumTo S.nQuarks (fun k => -2 * fermion S.JF S.scale (nth (S.quark v 0) k) T 0) +
  sumTo S.nLepton (fun k => -2 * fermion S.JF S.scale (nth (S.lepton v 0) k) T 0) +
  -T / (12 * Real.pi) *
    (sumTo S.nHiggs (fun k => debyeTerm (nth (S.higgs v T 0) k) (nth (S.higgs v 0 0) k)) +
     sumTo S.nGauge (fun k => debyeTerm (nth (S.gauge v T 0) k) (nth (S.gauge v 0 0) k)))

/-- `V1Loop` for `0 < diff <= NHiggs`, ClassPotentialOrigin.cpp:3094-3154. -/
def v1LoopField (S : Spectra V) (v : V) (T : ℝ) (diff : Int) : ℝ :=
  sumTo S.nHiggs (fun k => nth (S.higgs v 0 diff) (k + S.nHiggs) *
    boson S.JB S.scale (nth (S.higgs v 0 diff) k) T cCWcb diff) +
  sumTo S.nGauge (fun k => 3 * nth (S.gauge v 0 diff) (k + S.nGauge) *
    boson S.JB S.scale (nth (S.gauge v 0 diff) k) T cCWcbGB diff) +
  S.nColour * sumTo S.nQuarks (fun k => -2 * nth (S.quark v diff) (k + S.nQuarks) *
    fermion S.JF S.scale (nth (S.quark v diff) k) T diff) +
  sumTo S.nLepton (fun k => -2 * nth (S.lepton v diff) (k + S.nLepton) *
    fermion S.JF S.scale (nth (S.lepton v diff) k) T diff) +
  -T / (12 * Real.pi) *
    (sumTo S.nHiggs (fun k => debyeTermD (nth (S.higgs v T diff) k)
      (nth (S.higgs v T diff) (k + S.nHiggs)) (nth (S.higgs v 0 diff) k)
      (nth (S.higgs v 0 diff) (k + S.nHiggs))) +
     sumTo S.nGauge (fun k => debyeTermD (nth (S.gauge v T diff) k)
      (nth (S.gauge v T diff) (k + S.nGauge)) (nth (S.gauge v 0 diff) k)
      (nth (S.gauge v 0 diff) (k + S.nGauge))))

/-- `V1Loop` for `diff == -1`, ClassPotentialOrigin.cpp:3182-3214. -/
def v1LoopTemp (S : Spectra V) (v : V) (T : ℝ) : ℝ :=
  sumTo S.nHiggs (fun k => boson S.JB S.scale (nth (S.higgs v 0 (-1)) k) T cCWcb (-1)) +
  sumTo S.nGauge (fun k => 3 * boson S.JB S.scale (nth (S.gauge v 0 (-1)) k) T cCWcbGB (-1)) +
  S.nColour * sumTo S.nQuarks (fun k => -2 * fermion S.JF S.scale (nth (S.quark v (-1)) k) T (-1)) +
  sumTo S.nLepton (fun k => -2 * fermion S.JF S.scale (nth (S.lepton v (-1)) k) T (-1)) +
  -1 / (12 * Real.pi) *
    (sumTo S.nHiggs (fun k => debyeTerm (nth (S.higgs v T (-1)) k) (nth (S.higgs v 0 (-1)) k)) +
     sumTo S.nGauge (fun k => debyeTerm (nth (S.gauge v T (-1)) k) (nth (S.gauge v 0 (-1)) k)))

/-- `Class_Potential_Origin::V1Loop`, ClassPotentialOrigin.cpp:2991-3221. -/
def v1Loop (S : Spectra V) (v : V) (T : ℝ) (diff : Int) : ℝ :=
  if diff = 0 then v1Loop0 S v T
  else if 0 < diff ∧ diff ≤ S.nHiggs then v1LoopField S v T diff
  else if diff = -1 then v1LoopTemp S v T
  else 0

/-- The scalar masses that `V1Loop` sees (empty where `HiggsMassesSquared` has no value). -/
def higgsSpectrum {n : Nat} (E : EigenLib n) (c : Curv n ℝ) (debye : Fin n → Fin n → ℝ)
    (v : FVec n ℝ) (T : ℝ) (diff : Int) : List ℝ :=
  match higgsMassesSquared E c debye v T diff with
  | ok l => l
  | _ => []

end

end Verif.Potential
