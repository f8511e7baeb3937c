import Verif.Baryo.Align
import Verif.Yukawa.Form

/-!
# The complex masses of the fermions

`Class_Potential_Origin::QuarkMasses` and `LeptonMasses`, used for the CP-violating phases of
`GSL_integration_mubl::init`.
-/

namespace Verif.Baryo.Phases

/-- The cut of `QuarkMasses` and `LeptonMasses`, ClassPotentialOrigin.cpp:3865-3868 and 3938-3941. -/
noncomputable def cut (z : ℂ) : ℂ := if ‖z‖ < 1 / 10 ^ 10 then 0 else z

/-- `QuarkMasses` and `LeptonMasses`, ClassPotentialOrigin.cpp:3852-3872 and 3926-3944, from the mass matrix;
`eigen` gives the eigenvalues of `Eigen::ComplexEigenSolver` in its order. -/
noncomputable def complexMasses {m : Nat} (eigen : Matrix (Fin m) (Fin m) ℂ → List ℂ)
    (M : Matrix (Fin m) (Fin m) ℂ) : List ℂ := (eigen M).map cut

end Verif.Baryo.Phases
