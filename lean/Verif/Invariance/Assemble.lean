import Verif.Invariance.Spec
import Verif.Invariance.Scalar
import Verif.Invariance.Fermion
import Verif.Invariance.Gauge
import Verif.Debye.Props
import Verif.Potential.LoopProps
import Mathlib.Data.List.Sort

/-!
# The one-loop potential depends on the fields only through the masses
-/

namespace Verif.Invariance

open Verif.Potential Verif.Spectrum Verif.Yukawa Verif.Lagrangian.Spec Matrix
open scoped BigOperators ComplexConjugate

variable {n m : Nat}

theorem sorted_unique {l l' : List ℝ} (h : l.Pairwise (· ≤ ·)) (h' : l'.Pairwise (· ≤ ·))
    (e : (l : Multiset ℝ) = l') : l = l' :=
  List.Perm.eq_of_pairwise (fun a b _ _ h1 h2 => le_antisymm h1 h2) h h' (Multiset.coe_eq_coe.1 e)

/-- The eigenvalues of real symmetric matrices with the same characteristic polynomial. -/
theorem Solver.Correct.real_congr {S : Solver} (hS : S.Correct) {M M' : Matrix (Fin m) (Fin m) ℝ}
    (h : ∀ i j, M i j = M j i) (h' : ∀ i j, M' i j = M' j i) (e : M'.charpoly = M.charpoly) :
    S.real M' = S.real M := by
  have hM : M.IsHermitian := by ext i j; simp [h j i]
  have hM' : M'.IsHermitian := by ext i j; simp [h' j i]
  refine sorted_unique (hS.real M' hM').1 (hS.real M hM).1 ?_
  rw [(hS.real M' hM').2, (hS.real M hM).2, e]

/-- The eigenvalues of Hermitian matrices with the same characteristic polynomial. -/
theorem Solver.Correct.complex_congr {S : Solver} (hS : S.Correct) {M M' : Matrix (Fin m) (Fin m) ℂ}
    (h : M.IsHermitian) (h' : M'.IsHermitian) (e : M'.charpoly = M.charpoly) :
    S.complex M' = S.complex M := by
  refine sorted_unique (hS.complex M' h').1 (hS.complex M h).1 ?_
  have he : (((S.complex M').map Complex.ofReal : List ℂ) : Multiset ℂ) =
      ((S.complex M).map Complex.ofReal : List ℂ) := by
    rw [(hS.complex M' h').2, (hS.complex M h).2, e]
  rw [← Multiset.map_coe, ← Multiset.map_coe] at he
  exact Multiset.map_injective Complex.ofReal_injective he

theorem mass0_symm (c : Curv n ℝ) (D : Fin n → Fin n → ℝ) (φ : Fin n → ℝ) (T : ℝ) (i j : Fin n) :
    mass0 c D φ T i j = mass0 c D φ T j i := by
  unfold mass0
  by_cases hij : i ≤ j
  · by_cases hji : j ≤ i
    · rw [le_antisymm hij hji]
    · rw [if_pos hij, if_neg hji]
  · rw [if_neg hij, if_pos (le_of_not_ge hij)]

theorem gaugeMatrix_symm (G : List Nat → ℝ) (D : Matrix (Fin 4) (Fin 4) ℝ) (T : ℝ) (v : Fin n → ℝ)
    (i j : Fin 4) : gaugeMatrix G D T v i j = gaugeMatrix G D T v j i := by
  unfold gaugeMatrix
  rcases lt_trichotomy i j with h | h | h
  · rw [if_neg (not_lt_of_gt h), if_pos h]
  · rw [h]
  · rw [if_pos h, if_neg (not_lt_of_gt h)]

theorem squared_hermitian (F : List Nat → ℂ) (hs : ∀ a b k : Nat, F [a, b, k] = F [b, a, k])
    (v : Fin n → ℝ) : (squaredMatrix (m := m) Lagrangian.zeroTensor F v).IsHermitian := by
  have ht : (massMatrix (m := m) Lagrangian.zeroTensor F v)ᵀ =
      massMatrix (m := m) Lagrangian.zeroTensor F v := by
    ext i j
    rw [transpose_apply, massMatrix, massMatrix]
    exact congrArg₂ (· + ·) rfl (Finset.sum_congr rfl fun k _ => by rw [hs])
  unfold squaredMatrix
  generalize massMatrix (m := m) Lagrangian.zeroTensor F v = M at ht
  have e1 : Mᴴ = M.map conj := by
    rw [conjTranspose, ht]; rfl
  have e2 : (M.map conj)ᴴ = M := by
    rw [← e1, conjTranspose_conjTranspose]
  rw [Matrix.IsHermitian, conjTranspose_mul, e1, e2]

/-- If the masses are the same, then the one-loop potential is the same. -/
theorem loop_invariant {S : Solver} (hS : S.Correct) (t : Tensors n)
    (hq : ∀ a b k : Nat, t.quark [a, b, k] = t.quark [b, a, k])
    (hl : ∀ a b k : Nat, t.lepton [a, b, k] = t.lepton [b, a, k]) (scale : ℝ) (JB JF : Thermal)
    (φ φ' : Fin n → ℝ) (T : ℝ)
    (h1 : ∀ T, (of (mass0 t.scalar t.debyeHiggs φ' T)).charpoly =
      (of (mass0 t.scalar t.debyeHiggs φ T)).charpoly)
    (h2 : ∀ T, (gaugeMatrix t.gauge t.debyeGauge T φ').charpoly =
      (gaugeMatrix t.gauge t.debyeGauge T φ).charpoly)
    (h3 : (squaredMatrix (m := 12) Lagrangian.zeroTensor t.quark φ').charpoly =
      (squaredMatrix (m := 12) Lagrangian.zeroTensor t.quark φ).charpoly)
    (h4 : (squaredMatrix (m := 9) Lagrangian.zeroTensor t.lepton φ').charpoly =
      (squaredMatrix (m := 9) Lagrangian.zeroTensor t.lepton φ).charpoly) :
    v1Loop (t.spectra S scale JB JF) φ' T 0 = v1Loop (t.spectra S scale JB JF) φ T 0 := by
  have e1 : ∀ T, (t.spectra S scale JB JF).higgs φ' T 0 = (t.spectra S scale JB JF).higgs φ T 0 := by
    intro T
    have := hS.real_congr (M := of (mass0 t.scalar t.debyeHiggs φ T))
      (M' := of (mass0 t.scalar t.debyeHiggs φ' T)) (fun i j => mass0_symm _ _ _ _ i j)
      (fun i j => mass0_symm _ _ _ _ i j) (h1 T)
    simp only [Tensors.spectra]
    rw [higgsSpectrum_zero, higgsSpectrum_zero]
    exact congrArg (List.map cutMass) this
  have e2 : ∀ T, (t.spectra S scale JB JF).gauge φ' T 0 = (t.spectra S scale JB JF).gauge φ T 0 := by
    intro T
    have := hS.real_congr (gaugeMatrix_symm t.gauge t.debyeGauge T φ)
      (gaugeMatrix_symm t.gauge t.debyeGauge T φ') (h2 T)
    simp only [Tensors.spectra, gaugeSpectrum, if_true, this]
  have e3 : (t.spectra S scale JB JF).quark φ' 0 = (t.spectra S scale JB JF).quark φ 0 := by
    have := hS.complex_congr (squared_hermitian (m := 12) t.quark hq φ)
      (squared_hermitian (m := 12) t.quark hq φ') h3
    simp only [Tensors.spectra, fermionSpectrum, le_refl, if_true, this]
  have e4 : (t.spectra S scale JB JF).lepton φ' 0 = (t.spectra S scale JB JF).lepton φ 0 := by
    have := hS.complex_congr (squared_hermitian (m := 9) t.lepton hl φ)
      (squared_hermitian (m := 9) t.lepton hl φ') h4
    simp only [Tensors.spectra, fermionSpectrum, le_refl, if_true, this]
  simp only [v1Loop, if_true, v1Loop0, e1, e2, e3, e4]

/-! ### Fermions -/

theorem charpoly_submatrix {α β : Type} [Fintype α] [DecidableEq α] [Fintype β] [DecidableEq β]
    (e : α ≃ β) (M : Matrix β β ℂ) : (M.submatrix e e).charpoly = M.charpoly :=
  charpoly_reindex e.symm M

section

variable (F : List Nat → ℂ) (hs : ∀ a b k : Nat, F [a, b, k] = F [b, a, k]) (φ φ' : Fin n → ℝ)
  (V : Matrix (Fin 3) (Fin 3) ℂ) (hV : V ∈ unitaryGroup (Fin 3) ℂ) (yu yd : Fin 3 → ℝ)
include hs

include hV in
theorem quark_charpoly {a : Fin 4} {θ : ℝ} {Φu Φd : Fin 2 → ℂ}
    (hf : ∀ ψ : Fin 12 → ℂ, form F ψ φ = Spec.quarkYukawa V yu yd Φu Φd (Spec.quarkBasis ψ))
    (hf' : ∀ ψ : Fin 12 → ℂ, form F ψ φ' =
      Spec.quarkYukawa V yu yd (gaugeRotation a θ Φu) (gaugeRotation a θ Φd) (Spec.quarkBasis ψ)) :
    (squaredMatrix (m := 12) Lagrangian.zeroTensor F φ').charpoly =
      (squaredMatrix (m := 12) Lagrangian.zeroTensor F φ).charpoly := by
  rw [quark_squared F hs φ V yu yd _ _ hf, quark_squared F hs φ' V yu yd _ _ hf',
    gaugeRotation_eq, gaugeRotation_eq]
  have key := quark_invariant V hV yu yd _ (rotationMatrix_unitary a θ) Φu Φd
  rw [charpoly_submatrix, charpoly_submatrix, key]

include hV in
theorem darkQuark_charpoly {a : Fin 4} {θ : ℝ} {Φu Φd : Fin 2 → ℂ}
    (hf : ∀ ψ : Fin 12 → ℂ, form F ψ φ = Spec.quarkYukawa V yu yd Φu Φd (Spec.darkQuarkBasis ψ))
    (hf' : ∀ ψ : Fin 12 → ℂ, form F ψ φ' =
      Spec.quarkYukawa V yu yd (gaugeRotation a θ Φu) (gaugeRotation a θ Φd) (Spec.darkQuarkBasis ψ)) :
    (squaredMatrix (m := 12) Lagrangian.zeroTensor F φ').charpoly =
      (squaredMatrix (m := 12) Lagrangian.zeroTensor F φ).charpoly := by
  rw [darkQuark_squared F hs φ V yu yd _ _ hf, darkQuark_squared F hs φ' V yu yd _ _ hf',
    gaugeRotation_eq, gaugeRotation_eq]
  have key := quark_invariant V hV yu yd _ (rotationMatrix_unitary a θ) Φu Φd
  rw [charpoly_submatrix, charpoly_submatrix, key]

theorem lepton_charpoly {a : Fin 4} {θ : ℝ} {Φ : Fin 2 → ℂ}
    (hf : ∀ ψ : Fin 9 → ℂ, form F ψ φ = Spec.leptonYukawa yd Φ (Spec.leptonBasis ψ))
    (hf' : ∀ ψ : Fin 9 → ℂ, form F ψ φ' =
      Spec.leptonYukawa yd (gaugeRotation a θ Φ) (Spec.leptonBasis ψ)) :
    (squaredMatrix (m := 9) Lagrangian.zeroTensor F φ').charpoly =
      (squaredMatrix (m := 9) Lagrangian.zeroTensor F φ).charpoly := by
  rw [lepton_squared F hs φ yd _ hf, lepton_squared F hs φ' yd _ hf', gaugeRotation_eq]
  have key := lepton_invariant yd _ (rotationMatrix_unitary a θ) Φ
  rw [charpoly_submatrix, charpoly_submatrix, key]

end

/-! ### Linear maps and thermal masses -/

/-- The rotation of the fields as a linear map. -/
noncomputable def rotateL (X : (Fin n → ℝ) →L[ℝ] (Fin n → ℝ)) (θ : ℝ) :
    (Fin n → ℝ) →ₗ[ℝ] (Fin n → ℝ) where
  toFun := rotate X θ
  map_add' := by
    intro x y
    funext k
    simp only [rotate_apply, map_add, Pi.add_apply]
    ring
  map_smul' := by
    intro r x
    funext k
    simp only [rotate_apply, map_smul, Pi.smul_apply, RingHom.id_apply, smul_eq_mul]
    ring

theorem rotateL_apply (X : (Fin n → ℝ) →L[ℝ] (Fin n → ℝ)) (θ : ℝ) (φ : Fin n → ℝ) :
    rotateL X θ φ = rotate X θ φ := rfl

theorem rounded_unique {x y z : ℝ} (h : Debye.Spec.Rounded x y) (h' : Debye.Spec.Rounded x z) :
    y = z := by
  rcases le_or_gt |x| (1 / 10 ^ 5) with hx | hx
  · rw [h.1 hx, h'.1 hx]
  · rw [h.2 hx, h'.2 hx]

/-- The thermal masses of the gauge bosons in a diagonal matrix. -/
theorem gauge_diagonal {D : Matrix (Fin 4) (Fin 4) ℝ} {d d3 : ℝ}
    (h : Debye.Spec.IsDiagonal D fun a => if a = 3 then d3 else d) :
    ∃ x y, D = diagonal ![x, x, x, y] := by
  refine ⟨D 0 0, D 3 3, ?_⟩
  have h1 : D 1 1 = D 0 0 := rounded_unique (h.1 1) (h.1 0)
  have h2 : D 2 2 = D 0 0 := rounded_unique (h.1 2) (h.1 0)
  ext i j
  by_cases hij : i = j
  · subst hij
    rw [diagonal_apply_eq]
    fin_cases i <;> simp [h1, h2]
  · rw [diagonal_apply_ne _ hij, h.2 i j hij]

end Verif.Invariance
