import Verif.Outcome
import Mathlib.LinearAlgebra.Matrix.NonsingularInverse
import Mathlib.LinearAlgebra.Matrix.Notation
import Mathlib.Data.Real.Basic
import Mathlib.Algebra.Order.Floor.Semiring
import Mathlib.Algebra.Order.Archimedean.Real.Basic
import Mathlib.Data.List.FinRange

/-!
# Second derivatives of eigenvalues

`Class_Potential_Origin::SecondDerivativeOfEigenvaluesNonRepeated`, src/models/ClassPotentialOrigin.cpp:886-960,
without rounding.  The eigensolver and the solution of linear equations, both from Eigen, are parameters.
-/

namespace Verif.Eigen.Second

open Matrix

/-- What the libraries give for a matrix of size `n`: eigenvalues, eigenvectors in the columns
(ClassPotentialOrigin.cpp:907-908), and solutions of linear equations (lines 940 and 944). -/
structure Lib (n : ℕ) where
  values : Matrix (Fin n) (Fin n) ℝ → Fin n → ℝ
  vectors : Matrix (Fin n) (Fin n) ℝ → Matrix (Fin n) (Fin n) ℝ
  solve : Matrix (Fin n) (Fin n) ℝ → (Fin n → ℝ) → Fin n → ℝ

/-- `EVThres`, ClassPotentialOrigin.cpp:897: a `std::size_t`, so the fraction is cut off. -/
noncomputable def evThres : ℕ := ⌊(1 / 10 ^ 6 : ℝ)⌋₊

/-- The comparisons of neighbouring eigenvalues, ClassPotentialOrigin.cpp:913-919: the positions for which the
error about repeated eigenvalues is logged.  `nSize - 1` is unsigned, so that without any eigenvalue the loop
reads behind the end of the vector. -/
noncomputable def repeated {n : ℕ} (ev : Fin n → ℝ) : Outcome (List ℕ) :=
  if n = 0 then .ub .outOfBounds
  else .ok ((List.range (n - 1)).filter fun i =>
    if h : i + 1 < n then decide (|ev ⟨i, by omega⟩ - ev ⟨i + 1, h⟩| < (evThres : ℝ)) else false)

/-- The derivative of the eigenvector, ClassPotentialOrigin.cpp:937-940 and 942-944. -/
noncomputable def vDiff {n : ℕ} (solve : Matrix (Fin n) (Fin n) ℝ → (Fin n → ℝ) → Fin n → ℝ)
    (M D : Matrix (Fin n) (Fin n) ℝ) (l d : ℝ) (v : Fin n → ℝ) : Fin n → ℝ :=
  solve ((M - l • (1 : Matrix (Fin n) (Fin n) ℝ))ᵀ * (M - l • (1 : Matrix (Fin n) (Fin n) ℝ)) + vecMulVec v v)
    (-(((M - l • (1 : Matrix (Fin n) (Fin n) ℝ))ᵀ * (D - d • (1 : Matrix (Fin n) (Fin n) ℝ))) *ᵥ v))

/-- One iteration of the main loop, ClassPotentialOrigin.cpp:927-949: the row `Deriv[i]`. -/
noncomputable def row {n : ℕ} (solve : Matrix (Fin n) (Fin n) ℝ → (Fin n → ℝ) → Fin n → ℝ)
    (M Dx Dy Dxy : Matrix (Fin n) (Fin n) ℝ) (l : ℝ) (v : Fin n → ℝ) : List ℝ :=
  let dx := v ⬝ᵥ Dx *ᵥ v
  let dy := v ⬝ᵥ Dy *ᵥ v
  let vx := vDiff solve M Dx l dx v
  let vy := vDiff solve M Dy l dy v
  [l, dx, dy,
    v ⬝ᵥ Dxy *ᵥ v + v ⬝ᵥ (Dx - dx • (1 : Matrix (Fin n) (Fin n) ℝ)) *ᵥ vy
      + v ⬝ᵥ (Dy - dy • (1 : Matrix (Fin n) (Fin n) ℝ)) *ᵥ vx]

/-- The function for a quadratic matrix, ClassPotentialOrigin.cpp:905-959: the logged errors and the result. -/
noncomputable def square {n : ℕ} (lib : Lib n) (M Dx Dy Dxy : Matrix (Fin n) (Fin n) ℝ) :
    Outcome (List ℕ × List ℝ) := do
  let log ← repeated (lib.values M)
  .ok (log, (List.finRange n).map (lib.values M) ++
    (List.finRange n).flatMap fun i => row lib.solve M Dx Dy Dxy (lib.values M i) (fun j => lib.vectors M j i))

/-- `SecondDerivativeOfEigenvaluesNonRepeated`, ClassPotentialOrigin.cpp:886-960.  Only the first matrix is
checked; the derivatives have its size here. -/
noncomputable def second {rows cols : ℕ} (lib : Lib rows) (M Dx Dy Dxy : Matrix (Fin rows) (Fin cols) ℝ) :
    Outcome (List ℕ × List ℝ) :=
  if h : cols = rows then
    square lib (h ▸ M) (h ▸ Dx) (h ▸ Dy) (h ▸ Dxy)
  else .err .runtime

end Verif.Eigen.Second
