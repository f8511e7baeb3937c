import Mathlib.LinearAlgebra.Matrix.ConjTranspose
import Mathlib.LinearAlgebra.Matrix.Notation
import Mathlib.Analysis.Complex.Norm
import Mathlib.Data.List.FinRange

/-!
# Derivatives of eigenvalues

`Class_Potential_Origin::FirstDerivativeOfEigenvalues`, src/models/ClassPotentialOrigin.cpp:170-286, without
rounding.  The eigensolver of Eigen is a parameter.
-/

namespace Verif.Eigen

open Matrix

/-- What `SelfAdjointEigenSolver::compute` gives: eigenvalues, and eigenvectors in the columns. -/
structure EigenSys (n : ℕ) where
  values : Fin n → ℝ
  vectors : Matrix (Fin n) (Fin n) ℂ

/-- The eigensolver for matrices of every size. -/
abbrev SelfAdjoint := (n : ℕ) → Matrix (Fin n) (Fin n) ℂ → EigenSys n

/-- `EVThres`, ClassPotentialOrigin.cpp:178. -/
noncomputable def evThres : ℝ := 1 / 10 ^ 6

/-- Eigenvalues below the threshold are set to zero, ClassPotentialOrigin.cpp:195-202. -/
noncomputable def cutValue (x : ℝ) : ℝ := if |x| < evThres then 0 else x

/-- `Mapping`, ClassPotentialOrigin.cpp:204-225: computed for `i ≤ j` and copied. -/
noncomputable def mapping {n : ℕ} (ev : Fin n → ℝ) (i j : Fin n) : Bool :=
  if i ≤ j then !decide (evThres < |ev i - ev j|) else !decide (evThres < |ev j - ev i|)

/-- `AlreadyCalculated` and `Derivatives`. -/
structure State (n : ℕ) where
  already : Fin n → Bool
  deriv : Fin n → ℂ

/-- The positions from `p` on whose eigenvalue is mapped to that of `p`, ClassPotentialOrigin.cpp:250-257. -/
noncomputable def group {n : ℕ} (ev : Fin n → ℝ) (p : Fin n) : List (Fin n) :=
  (List.finRange n).filter fun i => decide (p ≤ i) && mapping ev p i

/-- `NumOfReps`, ClassPotentialOrigin.cpp:231-235. -/
noncomputable def numOfReps {n : ℕ} (ev : Fin n → ℝ) (p : Fin n) : ℕ :=
  ((List.finRange n).filter fun i => decide (p < i) && mapping ev p i).length

/-- `Phi`, the eigenvectors of a list of positions in its columns, ClassPotentialOrigin.cpp:246-256. -/
def phi {n : ℕ} (V : Matrix (Fin n) (Fin n) ℂ) (g : List (Fin n)) : Matrix (Fin n) (Fin g.length) ℂ :=
  fun i a => V i (g.get a)

/-- `MXWork`, ClassPotentialOrigin.cpp:258. -/
def mxWork {n : ℕ} (V D : Matrix (Fin n) (Fin n) ℂ) (g : List (Fin n)) :
    Matrix (Fin g.length) (Fin g.length) ℂ :=
  (phi V g)ᴴ * D * phi V g

/-- One iteration of the loop over `p`, ClassPotentialOrigin.cpp:227-272.  The counter `helpCol` is the place in
the list of positions. -/
noncomputable def step {n : ℕ} (solve : SelfAdjoint) (ev : Fin n → ℝ) (V D : Matrix (Fin n) (Fin n) ℂ)
    (s : State n) (p : Fin n) : State n :=
  if s.already p then s
  else if numOfReps ev p = 0 then
    ⟨fun i => if i = p then true else s.already i,
      fun i => if i = p then star (fun k => V k p) ⬝ᵥ D *ᵥ fun k => V k p else s.deriv i⟩
  else
    let g := group ev p
    let work := solve g.length (mxWork V D g)
    ⟨fun i => if i ∈ g then true else s.already i,
      fun i => if h : i ∈ g then (work.values ⟨g.idxOf i, List.idxOf_lt_length_of_mem h⟩ : ℂ) else s.deriv i⟩

/-- `Derivatives` after the loop. -/
noncomputable def derivatives {n : ℕ} (solve : SelfAdjoint) (ev : Fin n → ℝ) (V D : Matrix (Fin n) (Fin n) ℂ) :
    Fin n → ℂ :=
  ((List.finRange n).foldl (step solve ev V D) ⟨fun _ => false, fun _ => 0⟩).deriv

/-- Derivatives below the threshold are set to zero, ClassPotentialOrigin.cpp:274-277. -/
noncomputable def cutDeriv (z : ℂ) : ℂ := if ‖z‖ < evThres then 0 else z

/-- `FirstDerivativeOfEigenvalues` for square matrices, ClassPotentialOrigin.cpp:170-286. -/
noncomputable def firstDerivative {n : ℕ} (solve : SelfAdjoint) (M D : Matrix (Fin n) (Fin n) ℂ) : List ℝ :=
  let es := solve n M
  let ev := fun i => cutValue (es.values i)
  List.ofFn ev ++ List.ofFn fun i => (cutDeriv (derivatives solve ev es.vectors D i)).re

end Verif.Eigen
