import Mathlib.Analysis.Complex.Basic
import Mathlib.Analysis.SpecialFunctions.Sqrt
import Mathlib.Algebra.BigOperators.Fin
import Mathlib.LinearAlgebra.Matrix.Notation

/-!
# The documented Yukawa interactions

The headers of the models give the Yukawa interactions as

`-L_Y = Ū_L V diag(y_d) D_R Φ_d⁺ + D̄_L diag(y_d) D_R Φ_d⁰ + Ū_L diag(y_u) U_R (Φ_u⁰)*
  - D̄_L V† diag(y_u) U_R (Φ_u⁺)* + Ē_L diag(y_e) E_R Φ_l⁰ + ν̄_L diag(y_e) E_R Φ_l⁺ + c.c.`

(ClassPotentialSM.h:27-33 with one doublet, ClassPotentialR2HDM.h:29-34, ClassPotentialC2HDM.h:31-36,
ClassPotentialN2HDM.h:31-36 with the doublets of the type, ClassPotentialCxSM.h:28-33 and
ClassPotentialCPintheDark.h:33-42).  The part without `c.c.` is quadratic in the fields of a basis
`ψ`, and the tensors of the program are its coefficients: `1/2 F2H1[a][b][i] ψ_a ψ_b φ_i`.
-/

namespace Verif.Yukawa.Spec

open scoped BigOperators ComplexConjugate

/-- The values of the quark fields for the three generations. -/
structure Quarks where
  uR : Fin 3 → ℂ
  dR : Fin 3 → ℂ
  uL : Fin 3 → ℂ
  dL : Fin 3 → ℂ

/-- The values of the lepton fields for the three generations. -/
structure Leptons where
  eL : Fin 3 → ℂ
  eR : Fin 3 → ℂ
  nL : Fin 3 → ℂ

/-- `Ū_L V diag(y_d) D_R Φ_d⁺ + D̄_L diag(y_d) D_R Φ_d⁰ + Ū_L diag(y_u) U_R (Φ_u⁰)*
- D̄_L V† diag(y_u) U_R (Φ_u⁺)*` for the doublets `Φ = (Φ⁺, Φ⁰)`. -/
noncomputable def quarkYukawa (V : Matrix (Fin 3) (Fin 3) ℂ) (yu yd : Fin 3 → ℝ)
    (Φu Φd : Fin 2 → ℂ) (q : Quarks) : ℂ :=
  (∑ i, ∑ j, q.uL i * V i j * yd j * q.dR j) * Φd 0 + (∑ i, q.dL i * yd i * q.dR i) * Φd 1 +
    (∑ i, q.uL i * yu i * q.uR i) * conj (Φu 1) -
    (∑ i, ∑ j, q.dL i * conj (V j i) * yu j * q.uR j) * conj (Φu 0)

/-- `Ē_L diag(y_e) E_R Φ_l⁰ + ν̄_L diag(y_e) E_R Φ_l⁺`. -/
noncomputable def leptonYukawa (ye : Fin 3 → ℝ) (Φl : Fin 2 → ℂ) (l : Leptons) : ℂ :=
  (∑ i, l.eL i * ye i * l.eR i) * Φl 1 + (∑ i, l.nL i * ye i * l.eR i) * Φl 0

/-- The documented basis `[u_R, c_R, t_R, d_R, s_R, b_R, ū_L, c̄_L, t̄_L, d̄_L, s̄_L, b̄_L]`, e.g.
ClassPotentialR2HDM.h:63-65. -/
def quarkBasis (x : Fin 12 → ℂ) : Quarks where
  uR := ![x 0, x 1, x 2]
  dR := ![x 3, x 4, x 5]
  uL := ![x 6, x 7, x 8]
  dL := ![x 9, x 10, x 11]

/-- The documented basis `[ē_L, e_R, μ̄_L, μ_R, τ̄_L, τ_R, ν̄_e, ν̄_μ, ν̄_τ]`, e.g.
ClassPotentialR2HDM.h:65-67. -/
def leptonBasis (x : Fin 9 → ℂ) : Leptons where
  eL := ![x 0, x 2, x 4]
  eR := ![x 1, x 3, x 5]
  nL := ![x 6, x 7, x 8]

/-- The basis `[ū_L, u_R, d̄_L, d_R, c̄_L, c_R, s̄_L, s_R, t̄_L, t_R, b̄_L, b_R]` of CP in the Dark
(not documented). -/
def darkQuarkBasis (x : Fin 12 → ℂ) : Quarks where
  uL := ![x 0, x 4, x 8]
  uR := ![x 1, x 5, x 9]
  dL := ![x 2, x 6, x 10]
  dR := ![x 3, x 7, x 11]

/-- The coupling which gives the mass `m` for a vacuum expectation value `v`: `y = √2 m / v`. -/
noncomputable def coupling (v : ℝ) (m : Fin 3 → ℝ) : Fin 3 → ℝ := fun g => √2 * m g / v

end Verif.Yukawa.Spec
