import Mathlib.Data.Real.Basic
import Mathlib.Analysis.SpecialFunctions.Sqrt
import Mathlib.Algebra.BigOperators.Fin

/-!
# Documented thermal masses

The leading thermal masses of scalar doublets and gauge bosons, in units of the squared temperature.
-/

namespace Verif.Debye.Spec

open scoped BigOperators

/-- The gauge bosons and the fermions with the Yukawa couplings `y` give a doublet the mass
`(3 g² + g'²) / 16 + 1/4 Σ_quarks y² + 1/12 Σ_leptons y²`. -/
noncomputable def doublet (g gs : ℝ) (quarks leptons : List ℝ) : ℝ :=
  (3 * g ^ 2 + gs ^ 2) / 16 + (quarks.map (· ^ 2)).sum / 4 + (leptons.map (· ^ 2)).sum / 12

/-- The couplings `√2 m / v` of the fermions with the masses `m`. -/
noncomputable def couplings (v : ℝ) (m : Fin 3 → ℝ) : List ℝ :=
  [√2 * m 0 / v, √2 * m 1 / v, √2 * m 2 / v]

/-- Values of at most `10⁻⁵` count as zero. -/
def Rounded (x y : ℝ) : Prop := (|x| ≤ 1 / 10 ^ 5 → y = 0) ∧ (1 / 10 ^ 5 < |x| → y = x)

/-- The matrix is diagonal with the entries `d`, where small values count as zero. -/
def IsDiagonal {n : Nat} (D : Fin n → Fin n → ℝ) (d : Fin n → ℝ) : Prop :=
  (∀ i, Rounded (d i) (D i i)) ∧ ∀ i j, i ≠ j → D i j = 0

/-- The thermal masses of the gauge bosons: `(10 + N) / 6 · g²` for `N` doublets, i.e. `11/6 g²` for
one doublet and `2 g²` for two. -/
noncomputable def gaugeBoson (doublets : Nat) (g : ℝ) : ℝ := (10 + (doublets : ℝ)) / 6 * g ^ 2

end Verif.Debye.Spec
