import Verif.Yukawa.Block
import Verif.Lagrangian.Spec
import Mathlib.Tactic.FinCases

/-!
# The squared masses of the fermions

The matrix `MIJ.conjugate() * MIJ` of the documented Yukawa interactions in the three bases used by
the models, and its value for a neutral vacuum.
-/

set_option linter.unusedSectionVars false
set_option linter.unusedSimpArgs false

namespace Verif.Yukawa

open Matrix
open scoped BigOperators ComplexConjugate

/-- The basis `[u_R, c_R, t_R, d_R, …]` of the quarks. -/
def quarkEquiv : Fin 12 ≃ QuarkIndex where
  toFun := ![.inl (.inl 0), .inl (.inl 1), .inl (.inl 2), .inl (.inr 0), .inl (.inr 1), .inl (.inr 2),
    .inr (.inl 0), .inr (.inl 1), .inr (.inl 2), .inr (.inr 0), .inr (.inr 1), .inr (.inr 2)]
  invFun := Sum.elim (Sum.elim ![0, 1, 2] ![3, 4, 5]) (Sum.elim ![6, 7, 8] ![9, 10, 11])
  left_inv := by decide
  right_inv := by decide

/-- The basis `[ū_L, u_R, d̄_L, d_R, …]` of CP in the Dark. -/
def darkQuarkEquiv : Fin 12 ≃ QuarkIndex where
  toFun := ![.inr (.inl 0), .inl (.inl 0), .inr (.inr 0), .inl (.inr 0), .inr (.inl 1), .inl (.inl 1),
    .inr (.inr 1), .inl (.inr 1), .inr (.inl 2), .inl (.inl 2), .inr (.inr 2), .inl (.inr 2)]
  invFun := Sum.elim (Sum.elim ![1, 5, 9] ![3, 7, 11]) (Sum.elim ![0, 4, 8] ![2, 6, 10])
  left_inv := by decide
  right_inv := by decide

/-- The basis `[ē_L, e_R, μ̄_L, μ_R, τ̄_L, τ_R, ν̄_e, ν̄_μ, ν̄_τ]` of the leptons. -/
def leptonEquiv : Fin 9 ≃ LeptonIndex where
  toFun := ![.inr (.inl 0), .inl 0, .inr (.inl 1), .inl 1, .inr (.inl 2), .inl 2, .inr (.inr 0),
    .inr (.inr 1), .inr (.inr 2)]
  invFun := Sum.elim ![1, 3, 5] (Sum.elim ![0, 2, 4] ![6, 7, 8])
  left_inv := by decide
  right_inv := by decide

theorem quarksOf_basis (ψ : Fin 12 → ℂ) :
    quarksOf (fun a => ψ (quarkEquiv.symm a)) = Spec.quarkBasis ψ := by
  unfold quarksOf Spec.quarkBasis
  congr 1 <;> ext i <;> fin_cases i <;> rfl

theorem quarksOf_darkBasis (ψ : Fin 12 → ℂ) :
    quarksOf (fun a => ψ (darkQuarkEquiv.symm a)) = Spec.darkQuarkBasis ψ := by
  unfold quarksOf Spec.darkQuarkBasis
  congr 1 <;> ext i <;> fin_cases i <;> rfl

theorem leptonsOf_basis (ψ : Fin 9 → ℂ) :
    leptonsOf (fun a => ψ (leptonEquiv.symm a)) = Spec.leptonBasis ψ := by
  unfold leptonsOf Spec.leptonBasis
  congr 1 <;> ext i <;> fin_cases i <;> rfl

section

variable {n : Nat} (F : List Nat → ℂ) (hs : ∀ a b k : Nat, F [a, b, k] = F [b, a, k]) (φ : Fin n → ℝ)
include hs

theorem quark_squared (V : Matrix (Fin 3) (Fin 3) ℂ) (yu yd : Fin 3 → ℝ) (Φu Φd : Fin 2 → ℂ)
    (hf : ∀ ψ : Fin 12 → ℂ, form F ψ φ = Spec.quarkYukawa V yu yd Φu Φd (Spec.quarkBasis ψ)) :
    squaredMatrix Lagrangian.zeroTensor F φ =
      ((chiral (quarkBlock V yu yd Φu Φd)).map conj * chiral (quarkBlock V yu yd Φu Φd)).submatrix
        quarkEquiv quarkEquiv :=
  squaredMatrix_chiral quarkEquiv F hs φ _ fun ψ => by
    rw [hf, quark_form V yu yd Φu Φd (fun a => ψ (quarkEquiv.symm a)), quarksOf_basis]

theorem darkQuark_squared (V : Matrix (Fin 3) (Fin 3) ℂ) (yu yd : Fin 3 → ℝ) (Φu Φd : Fin 2 → ℂ)
    (hf : ∀ ψ : Fin 12 → ℂ, form F ψ φ = Spec.quarkYukawa V yu yd Φu Φd (Spec.darkQuarkBasis ψ)) :
    squaredMatrix Lagrangian.zeroTensor F φ =
      ((chiral (quarkBlock V yu yd Φu Φd)).map conj * chiral (quarkBlock V yu yd Φu Φd)).submatrix
        darkQuarkEquiv darkQuarkEquiv :=
  squaredMatrix_chiral darkQuarkEquiv F hs φ _ fun ψ => by
    rw [hf, quark_form V yu yd Φu Φd (fun a => ψ (darkQuarkEquiv.symm a)), quarksOf_darkBasis]

theorem lepton_squared (ye : Fin 3 → ℝ) (Φl : Fin 2 → ℂ)
    (hf : ∀ ψ : Fin 9 → ℂ, form F ψ φ = Spec.leptonYukawa ye Φl (Spec.leptonBasis ψ)) :
    squaredMatrix Lagrangian.zeroTensor F φ =
      ((chiral (leptonBlock ye Φl)).map conj * chiral (leptonBlock ye Φl)).submatrix
        leptonEquiv leptonEquiv :=
  squaredMatrix_chiral leptonEquiv F hs φ _ fun ψ => by
    rw [hf, lepton_form ye Φl (fun a => ψ (leptonEquiv.symm a)), leptonsOf_basis]

end

/-- The quarks in a neutral vacuum. -/
theorem quark_neutral (V : Matrix (Fin 3) (Fin 3) ℂ) (yu yd : Fin 3 → ℝ) (x y : ℝ) :
    (chiral (quarkBlock V yu yd ![0, (x : ℂ)] ![0, (y : ℂ)])).map conj *
        chiral (quarkBlock V yu yd ![0, (x : ℂ)] ![0, (y : ℂ)]) =
      diagonal (Sum.elim
        (Sum.elim (fun i => (((yu i * x) ^ 2 : ℝ) : ℂ)) (fun i => (((yd i * y) ^ 2 : ℝ) : ℂ)))
        (Sum.elim (fun i => (((yu i * x) ^ 2 : ℝ) : ℂ)) (fun i => (((yd i * y) ^ 2 : ℝ) : ℂ)))) := by
  have hb : quarkBlock V yu yd ![0, (x : ℂ)] ![0, (y : ℂ)] =
      diagonal (Sum.elim (fun i => ((yu i * x : ℝ) : ℂ)) (fun i => ((yd i * y : ℝ) : ℂ))) := by
    rw [quarkBlock, ← fromBlocks_diagonal]
    congr 1
    · congr 1
      ext i
      simp
    · ext i j; simp
    · ext i j; simp
    · congr 1
      ext i
      simp
  rw [hb, chiral_squared]
  have hc : ∀ d : Fin 3 ⊕ Fin 3 → ℝ, (diagonal (fun i => (d i : ℂ))).map (starRingEnd ℂ) =
      diagonal (fun i => (d i : ℂ)) := by
    intro d
    rw [diagonal_map (by simp)]
    congr 1
    ext i
    simp
  have he : (Sum.elim (fun i => ((yu i * x : ℝ) : ℂ)) (fun i => ((yd i * y : ℝ) : ℂ))) =
      fun i => ((Sum.elim (fun i => yu i * x) (fun i => yd i * y) i : ℝ) : ℂ) := by
    ext i
    rcases i with i | i <;> simp
  have hc' : ∀ d : Fin 3 ⊕ Fin 3 → ℝ, (diagonal (fun i => (d i : ℂ))).map star =
      diagonal (fun i => (d i : ℂ)) := hc
  rw [he, conjTranspose, diagonal_transpose, hc, hc', diagonal_mul_diagonal, fromBlocks_diagonal]
  congr 1
  ext i
  rcases i with (i | i) | (i | i) <;> simp [pow_two]

/-- The leptons in a neutral vacuum. -/
theorem lepton_neutral (ye : Fin 3 → ℝ) (y : ℝ) :
    (chiral (leptonBlock ye ![0, (y : ℂ)])).map conj * chiral (leptonBlock ye ![0, (y : ℂ)]) =
      diagonal (Sum.elim (fun i => (((ye i * y) ^ 2 : ℝ) : ℂ))
        (Sum.elim (fun i => (((ye i * y) ^ 2 : ℝ) : ℂ)) (fun _ => 0))) := by
  rw [chiral_squared, ← fromBlocks_diagonal, ← fromBlocks_diagonal]
  congr 1
  · ext i j
    fin_cases i <;> fin_cases j <;>
      simp [Matrix.mul_apply, Fin.sum_univ_three, leptonBlock, pow_two]
  · ext i j
    rcases i with i | i <;> rcases j with j | j <;> fin_cases i <;> fin_cases j <;>
      simp [Matrix.mul_apply, Fin.sum_univ_three, leptonBlock, pow_two]

/-- The coupling gives the mass. -/
theorem coupling_mass (v : ℝ) (hv : v ≠ 0) (m : Fin 3 → ℝ) (i : Fin 3) :
    Spec.coupling v m i * (v / √2) = m i := by
  have h : √(2 : ℝ) ≠ 0 := by positivity
  unfold Spec.coupling
  field_simp

namespace Spec

/-- The masses in the order `[u_R, c_R, t_R, d_R, s_R, b_R, ū_L, c̄_L, t̄_L, d̄_L, s̄_L, b̄_L]`. -/
def quarkMasses (u d : Fin 3 → ℝ) : Fin 12 → ℝ :=
  ![u 0, u 1, u 2, d 0, d 1, d 2, u 0, u 1, u 2, d 0, d 1, d 2]

/-- The masses in the order `[ū_L, u_R, d̄_L, d_R, c̄_L, c_R, s̄_L, s_R, t̄_L, t_R, b̄_L, b_R]`. -/
def darkQuarkMasses (u d : Fin 3 → ℝ) : Fin 12 → ℝ :=
  ![u 0, u 0, d 0, d 0, u 1, u 1, d 1, d 1, u 2, u 2, d 2, d 2]

/-- The masses in the order `[ē_L, e_R, μ̄_L, μ_R, τ̄_L, τ_R, ν̄_e, ν̄_μ, ν̄_τ]`; the neutrinos are
massless. -/
def leptonMasses (e : Fin 3 → ℝ) : Fin 9 → ℝ := ![e 0, e 0, e 1, e 1, e 2, e 2, 0, 0, 0]

/-- The diagonal matrix of the squared masses. -/
noncomputable def squares {n : Nat} (m : Fin n → ℝ) : Matrix (Fin n) (Fin n) ℂ :=
  Matrix.diagonal fun i => ((m i ^ 2 : ℝ) : ℂ)

end Spec

section

variable {n : Nat} (F : List Nat → ℂ) (hs : ∀ a b k : Nat, F [a, b, k] = F [b, a, k]) (φ : Fin n → ℝ)
include hs

theorem quark_masses (V : Matrix (Fin 3) (Fin 3) ℂ) (mu md : Fin 3 → ℝ) (v w : ℝ) (hv : v ≠ 0)
    (hw : w ≠ 0)
    (hf : ∀ ψ : Fin 12 → ℂ, form F ψ φ = Spec.quarkYukawa V (Spec.coupling v mu) (Spec.coupling w md)
      ![0, ((v / √2 : ℝ) : ℂ)] ![0, ((w / √2 : ℝ) : ℂ)] (Spec.quarkBasis ψ)) :
    squaredMatrix Lagrangian.zeroTensor F φ = Spec.squares (Spec.quarkMasses mu md) := by
  rw [quark_squared F hs φ V _ _ _ _ hf, quark_neutral, submatrix_diagonal_equiv]
  unfold Spec.squares
  congr 1
  ext i
  simp only [coupling_mass v hv, coupling_mass w hw]
  fin_cases i <;> rfl

theorem darkQuark_masses (V : Matrix (Fin 3) (Fin 3) ℂ) (mu md : Fin 3 → ℝ) (v w : ℝ) (hv : v ≠ 0)
    (hw : w ≠ 0)
    (hf : ∀ ψ : Fin 12 → ℂ, form F ψ φ = Spec.quarkYukawa V (Spec.coupling v mu) (Spec.coupling w md)
      ![0, ((v / √2 : ℝ) : ℂ)] ![0, ((w / √2 : ℝ) : ℂ)] (Spec.darkQuarkBasis ψ)) :
    squaredMatrix Lagrangian.zeroTensor F φ = Spec.squares (Spec.darkQuarkMasses mu md) := by
  rw [darkQuark_squared F hs φ V _ _ _ _ hf, quark_neutral, submatrix_diagonal_equiv]
  unfold Spec.squares
  congr 1
  ext i
  simp only [coupling_mass v hv, coupling_mass w hw]
  fin_cases i <;> rfl

theorem lepton_masses (me : Fin 3 → ℝ) (v : ℝ) (hv : v ≠ 0)
    (hf : ∀ ψ : Fin 9 → ℂ, form F ψ φ = Spec.leptonYukawa (Spec.coupling v me)
      ![0, ((v / √2 : ℝ) : ℂ)] (Spec.leptonBasis ψ)) :
    squaredMatrix Lagrangian.zeroTensor F φ = Spec.squares (Spec.leptonMasses me) := by
  rw [lepton_squared F hs φ _ _ hf, lepton_neutral, submatrix_diagonal_equiv]
  unfold Spec.squares
  congr 1
  ext i
  simp only [coupling_mass v hv]
  fin_cases i <;> simp [leptonEquiv, Spec.leptonMasses]

end

/-- A doublet `(0, v) / √2`. -/
theorem doublet_neutral (v : ℝ) : Lagrangian.Spec.doublet 0 0 v 0 = ![0, ((v / √2 : ℝ) : ℂ)] := by
  unfold Lagrangian.Spec.doublet
  ext i
  fin_cases i <;> simp

end Verif.Yukawa
