import Verif.Potential.Loop
import Verif.Spectrum.Gauge
import Verif.Yukawa.Form
import Verif.Debye.Model

/-!
# The masses as functions of the fields

`GaugeMassesSquared`, `QuarkMassesSquared` and `LeptonMassesSquared`, and the one-loop potential of a
model that is given by its tensors.
-/

namespace Verif.Invariance

open Verif.Potential Verif.Spectrum Verif.Yukawa
open scoped BigOperators ComplexConjugate

variable {n m : Nat}

/-- The eigenvalue solver of Eigen for real symmetric and for Hermitian matrices, and
`FirstDerivativeOfEigenvalues` (ClassPotentialOrigin.cpp:170-286). -/
structure Solver where
  real : {k : Nat} → Matrix (Fin k) (Fin k) ℝ → List ℝ
  complex : {k : Nat} → Matrix (Fin k) (Fin k) ℂ → List ℝ
  derivative : {k : Nat} → Matrix (Fin k) (Fin k) ℂ → Matrix (Fin k) (Fin k) ℂ → List ℝ

/-- The solver as it is used for the scalars. -/
noncomputable def Solver.lib (S : Solver) (n : Nat) : EigenLib n where
  eig := fun M => S.real (Matrix.of M)
  derivEig := fun M D => S.derivative ((Matrix.of M).map Complex.ofReal) ((Matrix.of D).map Complex.ofReal)

/-- Masses of fermions below the threshold are set to zero, ClassPotentialOrigin.cpp:2643-2648 and
2743-2748. -/
noncomputable def cutFermion (x : ℝ) : ℝ := if |x| < 1 / 10 ^ 10 then 0 else x

/-- The derivative of the mass matrix of the gauge bosons, ClassPotentialOrigin.cpp:2591-2601. -/
noncomputable def gaugeD (G : List Nat → ℝ) (v : Fin n → ℝ) (i : Fin n) : Matrix (Fin 4) (Fin 4) ℝ :=
  fun a b => ∑ j : Fin n, G [(a : Nat), (b : Nat), (i : Nat), (j : Nat)] * v j

/-- `GaugeMassesSquared`, ClassPotentialOrigin.cpp:2548-2627, for `v` with `NHiggs` components after
`SetCurvatureArrays`. -/
noncomputable def gaugeSpectrum (S : Solver) (G : List Nat → ℝ) (D : Matrix (Fin 4) (Fin 4) ℝ)
    (v : Fin n → ℝ) (T : ℝ) (diff : Int) : List ℝ :=
  if diff = 0 then (S.real (gaugeMatrix G D T v)).map cutMass
  else match fieldIndex n diff with
    | some i => S.derivative ((gaugeMatrix G D T v).map Complex.ofReal) ((gaugeD G v i).map Complex.ofReal)
    | none => if diff = -1 then
        S.derivative ((gaugeMatrix G D T v).map Complex.ofReal) (fun a b => ((2 * D a b * T : ℝ) : ℂ))
      else []

/-- The derivative of the squared mass matrix of the fermions, ClassPotentialOrigin.cpp:2655-2668 and
2755-2766. -/
noncomputable def fermionD (m : Nat) (F : List Nat → ℂ) (v : Fin n → ℝ) (k : Fin n) :
    Matrix (Fin m) (Fin m) ℂ :=
  fun a b => ∑ i : Fin m,
    (conj (F [(a : Nat), (i : Nat), (k : Nat)]) * massMatrix (m := m) Lagrangian.zeroTensor F v i b +
      conj (massMatrix (m := m) Lagrangian.zeroTensor F v a i) * F [(i : Nat), (b : Nat), (k : Nat)])

/-- `QuarkMassesSquared` and `LeptonMassesSquared` for `m` fermions, ClassPotentialOrigin.cpp:2630-2726
and 2727-2824; without rounding there is no value that is not a number.  For `diff > NHiggs` the vector
is empty. -/
noncomputable def fermionSpectrum (S : Solver) (m : Nat) (F : List Nat → ℂ) (v : Fin n → ℝ)
    (diff : Int) : List ℝ :=
  if diff ≤ 0 then (S.complex (squaredMatrix (m := m) Lagrangian.zeroTensor F v)).map cutFermion
  else match fieldIndex n diff with
    | some k => S.derivative (squaredMatrix (m := m) Lagrangian.zeroTensor F v) (fermionD m F v k)
    | none => []

/-- The tensors of a model and its thermal masses. -/
structure Tensors (n : Nat) where
  scalar : Curv n ℝ
  gauge : List Nat → ℝ
  quark : List Nat → ℂ
  lepton : List Nat → ℂ
  debyeHiggs : Fin n → Fin n → ℝ
  debyeGauge : Matrix (Fin 4) (Fin 4) ℝ

/-- The tensors of a model with four gauge bosons, twelve quark fields and nine lepton fields after
`CalculateDebye` and `CalculateDebyeGauge`; `DebyeHiggs` has been filled with zeros before,
ClassPotentialOrigin.cpp:3361. -/
noncomputable def assemble (c : Curv n ℝ) (G : List Nat → ℝ) (Q L : List Nat → ℂ)
    (simplified : (Fin n → Fin n → ℝ) → Option (Fin n → Fin n → ℝ)) (force : Bool)
    (D : Matrix (Fin 4) (Fin 4) ℝ) : Tensors n :=
  ⟨c, G, Q, L, Debye.calculateDebye 4 12 9 c G Q L simplified force (fun _ _ => 0), D⟩

/-- The masses that `V1Loop` uses in a model with four gauge bosons, twelve quark fields with
three colours and nine lepton fields, ClassPotentialOrigin.cpp:3015-3022. -/
noncomputable def Tensors.spectra (t : Tensors n) (S : Solver) (scale : ℝ) (JB JF : Thermal) :
    Spectra (Fin n → ℝ) where
  nHiggs := n
  nGauge := 4
  nQuarks := 12
  nLepton := 9
  nColour := 3
  higgs := higgsSpectrum (S.lib n) t.scalar t.debyeHiggs
  gauge := gaugeSpectrum S t.gauge t.debyeGauge
  quark := fermionSpectrum S 12 t.quark
  lepton := fermionSpectrum S 9 t.lepton
  scale := scale
  JB := JB
  JF := JF

/-- The effective potential of `VEff` for a vector with `NHiggs` components, without derivative, with
an order other than zero and `UseTreeLevel` unset, ClassPotentialOrigin.cpp:2979-2986.  `simplified` are
`VTreeSimplified` and `VCounterSimplified` of a model that sets `UseVTreeSimplified` and
`UseVCounterSimplified`. -/
noncomputable def Tensors.effective (t : Tensors n) (counter : Curv n ℝ)
    (simplified : Option (((Fin n → ℝ) → ℝ) × ((Fin n → ℝ) → ℝ))) (S : Solver) (scale : ℝ)
    (JB JF : Thermal) (T : ℝ) (φ : Fin n → ℝ) : ℝ :=
  vTree simplified.isSome (simplified.elim (fun _ => 0) Prod.fst) t.scalar φ 0 false +
    counterTerm simplified.isSome (simplified.elim (fun _ => 0) Prod.snd) counter φ 0 false +
    v1Loop (t.spectra S scale JB JF) φ T 0

end Verif.Invariance
