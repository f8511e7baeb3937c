import Verif.Invariance.Model
import Verif.Models.Model
import Verif.Flt
import Mathlib.Data.List.GetD

/-!
# Vacua of either length in the functions for masses

`HiggsMassMatrix`, `QuarkMassMatrix`, `LeptonMassMatrix`, `HiggsMassesSquared`, `GaugeMassesSquared`,
`QuarkMassesSquared` and `LeptonMassesSquared` with the checks of the vector they are called with.
-/

namespace Verif.Shapes

open Outcome Verif.Potential Verif.Invariance Verif.Spectrum Verif.Yukawa

variable {n : Nat}

/-- A model: `nVEV`, `VevOrder`, `SetCurvatureDone` and the tensors; `n` is `NHiggs`. -/
structure State (n : Nat) where
  nVEV : Nat
  order : List Nat
  ready : Bool
  tensors : Tensors n

/-- The routines of Eigen as in `Solver`; the derivatives may be not a number. -/
structure Lib where
  real : {k : Nat} → Matrix (Fin k) (Fin k) ℝ → List ℝ
  complex : {k : Nat} → Matrix (Fin k) (Fin k) ℂ → List ℝ
  derivative : {k : Nat} → Matrix (Fin k) (Fin k) ℂ → Matrix (Fin k) (Fin k) ℂ → List (Flt ℝ)

/-- `v[k]` for `k < NHiggs`. -/
noncomputable def components (n : Nat) (v : List ℝ) : Outcome (Fin n → ℝ) :=
  if v.length < n then ub .outOfBounds else ok fun i => v.getD i 0

/-- The checks at the start of the functions, ClassPotentialOrigin.cpp:2329-2360, 2515-2547, 3802-3833 and
3878-3909: the components the function then uses.  A vector in the coordinates of the minimizer is expanded and the
function is called again. -/
noncomputable def resolve (s : State n) : (fuel : Nat) → List ℝ → Outcome (Fin n → ℝ)
  | 0, _ => ub .recursion
  | fuel + 1, v =>
    if v.length ≠ s.nVEV ∧ v.length ≠ n then err .runtime
    else if v.length = s.nVEV ∧ s.nVEV ≠ n then do
      let w ← Models.minimizeOrderVEV n s.order v
      resolve s fuel w
    else if s.ready then components n v
    else err .runtime

/-- The depth of the recursion that is looked at. -/
def depth : Nat := 2

/-- `HiggsMassMatrix`, ClassPotentialOrigin.cpp:2324-2418. -/
noncomputable def higgsMatrix (s : State n) (v : List ℝ) (T : ℝ) (diff : Int) : Outcome (Fin n → Fin n → ℝ) := do
  let x ← resolve s depth v
  higgsMassMatrix s.tensors.scalar s.tensors.debyeHiggs x T diff

/-- `QuarkMassMatrix`, ClassPotentialOrigin.cpp:3798-3850. -/
noncomputable def quarkMatrix (s : State n) (v : List ℝ) : Outcome (Matrix (Fin 12) (Fin 12) ℂ) := do
  let x ← resolve s depth v
  ok (massMatrix Lagrangian.zeroTensor s.tensors.quark x)

/-- `LeptonMassMatrix`, ClassPotentialOrigin.cpp:3874-3924. -/
noncomputable def leptonMatrix (s : State n) (v : List ℝ) : Outcome (Matrix (Fin 9) (Fin 9) ℂ) := do
  let x ← resolve s depth v
  ok (massMatrix Lagrangian.zeroTensor s.tensors.lepton x)

/-- A real matrix as an argument of `FirstDerivativeOfEigenvalues`, ClassPotentialOrigin.cpp:2482-2486. -/
noncomputable def cast {k : Nat} (M : Fin k → Fin k → ℝ) : Matrix (Fin k) (Fin k) ℂ :=
  (Matrix.of M).map Complex.ofReal

/-- `HiggsMassesSquared`, ClassPotentialOrigin.cpp:2420-2507.  The matrix is the one of `HiggsMassMatrix` for the
same `diff`; for other values of `diff` it is left unread.  The derivative of the mass matrix is calculated from the
vector as it was given, 2471-2481. -/
noncomputable def higgsMasses (L : Lib) (s : State n) (v : List ℝ) (T : ℝ) (diff : Int) :
    Outcome (List (Flt ℝ)) := do
  let x ← resolve s depth v
  if diff = 0 then
    ok ((L.real (Matrix.of (mass0 s.tensors.scalar s.tensors.debyeHiggs x T))).map fun a => .fin (cutMass a))
  else match fieldIndex n diff with
    | some k => do
      let y ← components n v
      ok (L.derivative (cast (massD s.tensors.scalar x k)) (cast (massD s.tensors.scalar y k)))
    | none =>
      if diff = -1 then
        ok (L.derivative (cast (massT s.tensors.debyeHiggs T)) (cast (massT s.tensors.debyeHiggs T)))
      else ok []

/-- `GaugeMassesSquared`, ClassPotentialOrigin.cpp:2509-2628. -/
noncomputable def gaugeMasses (L : Lib) (s : State n) (v : List ℝ) (T : ℝ) (diff : Int) :
    Outcome (List (Flt ℝ)) := do
  let x ← resolve s depth v
  let M := gaugeMatrix s.tensors.gauge s.tensors.debyeGauge T x
  if diff = 0 then ok ((L.real M).map fun a => .fin (cutMass a))
  else match fieldIndex n diff with
    | some i => ok (L.derivative (M.map Complex.ofReal) ((gaugeD s.tensors.gauge x i).map Complex.ofReal))
    | none =>
      if diff = -1 then
        ok (L.derivative (M.map Complex.ofReal) fun a b => ((2 * s.tensors.debyeGauge a b * T : ℝ) : ℂ))
      else ok []

/-- The check for values that are not a number, ClassPotentialOrigin.cpp:2672-2722 and 2770-2820.  The message
contains the first `m` results and all components of the vector as it was given, which is read without a check. -/
noncomputable def checkNumbers (n m : Nat) (v : List ℝ) (l : List (Flt ℝ)) : Outcome (List (Flt ℝ)) :=
  if Flt.nan ∈ l then
    if l.length < m then err .outOfRange
    else do
      let _ ← components n v
      err .runtime
  else ok l

/-- `QuarkMassesSquared` and `LeptonMassesSquared` for `m` fermions, ClassPotentialOrigin.cpp:2630-2726 and
2728-2824. -/
noncomputable def fermionMasses (L : Lib) (s : State n) (m : Nat) (F : List Nat → ℂ) (v : List ℝ) (diff : Int) :
    Outcome (List (Flt ℝ)) := do
  let x ← resolve s depth v
  if diff ≤ 0 then
    ok ((L.complex (squaredMatrix (m := m) Lagrangian.zeroTensor F x)).map fun a => .fin (cutFermion a))
  else match fieldIndex n diff with
    | some k =>
      checkNumbers n m v (L.derivative (squaredMatrix (m := m) Lagrangian.zeroTensor F x) (fermionD m F x k))
    | none => ok []

/-- `QuarkMassesSquared`, ClassPotentialOrigin.cpp:2630-2726. -/
noncomputable def quarkMasses (L : Lib) (s : State n) (v : List ℝ) (diff : Int) : Outcome (List (Flt ℝ)) :=
  fermionMasses L s 12 s.tensors.quark v diff

/-- `LeptonMassesSquared`, ClassPotentialOrigin.cpp:2728-2824. -/
noncomputable def leptonMasses (L : Lib) (s : State n) (v : List ℝ) (diff : Int) : Outcome (List (Flt ℝ)) :=
  fermionMasses L s 9 s.tensors.lepton v diff

end Verif.Shapes
