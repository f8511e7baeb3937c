import Verif.Debye.Lemmas
import Mathlib.LinearAlgebra.Matrix.ToLin
import Mathlib.LinearAlgebra.Matrix.Charpoly.Basic

/-!
# The masses of the scalars do not change under symmetries of the potential
-/

namespace Verif.Invariance

open Verif.Potential Verif.Potential.Spec Matrix
open scoped BigOperators

variable {n : Nat}

/-- Symmetric matrices are determined by their quadratic forms. -/
theorem quadratic_ext (A B : Matrix (Fin n) (Fin n) ℝ) (hA : ∀ i j, A i j = A j i)
    (hB : ∀ i j, B i j = B j i)
    (h : ∀ w : Fin n → ℝ, ∑ i, ∑ j, A i j * w j * w i = ∑ i, ∑ j, B i j * w j * w i) : A = B := by
  have hd : ∀ k, A k k = B k k := by
    intro k
    have := h (fun i => if i = k then 1 else 0)
    simpa using this
  ext k l
  by_cases hkl : k = l
  · rw [hkl, hd]
  have key : ∀ C : Matrix (Fin n) (Fin n) ℝ, (∀ i j, C i j = C j i) →
      ∑ i, ∑ j, C i j * ((if j = k then 1 else 0) + if j = l then 1 else 0) *
        ((if i = k then 1 else 0) + if i = l then 1 else 0) = C k k + C l l + 2 * C k l := by
    intro C hC
    simp only [mul_add, mul_ite, mul_one, mul_zero, Finset.sum_add_distrib, Finset.sum_ite_eq',
      Finset.mem_univ, if_true]
    simp [add_mul, Finset.sum_add_distrib, hC l k]
    ring
  have := h (fun i => (if i = k then 1 else 0) + if i = l then 1 else 0)
  rw [key A hA, key B hB, hd, hd] at this
  linarith

/-- The quadratic form of the transformed matrix. -/
theorem form_conj (A R : Matrix (Fin n) (Fin n) ℝ) (w : Fin n → ℝ) :
    ∑ i, ∑ j, (Rᵀ * A * R) i j * w j * w i = ∑ i, ∑ j, A i j * (R *ᵥ w) j * (R *ᵥ w) i := by
  have e : ∀ (B : Matrix (Fin n) (Fin n) ℝ) (x : Fin n → ℝ),
      ∑ i, ∑ j, B i j * x j * x i = x ⬝ᵥ (B *ᵥ x) := by
    intro B x
    simp only [dotProduct, mulVec, Finset.mul_sum]
    exact Finset.sum_congr rfl fun i _ => Finset.sum_congr rfl fun j _ => by ring
  rw [e, e, ← mulVec_mulVec, ← mulVec_mulVec, dotProduct_mulVec, vecMul_transpose]

theorem hessian_symm (c : Curv n ℝ) (hc : Symmetric c) (v : Fin n → ℝ) (i j : Fin n) :
    hessianCT c v i j = hessianCT c v j i := by
  have h1 := mass0_eq c hc (fun _ _ => 0) (fun _ _ => rfl) v 0 i j
  have h2 := mass0_eq c hc (fun _ _ => 0) (fun _ _ => rfl) v 0 j i
  have h3 : mass0 c (fun _ _ => 0) v 0 i j = mass0 c (fun _ _ => 0) v 0 j i := by
    unfold mass0
    by_cases hij : i ≤ j
    · by_cases hji : j ≤ i
      · rw [le_antisymm hij hji]
      · rw [if_pos hij, if_neg hji]
    · rw [if_neg hij, if_pos (le_of_not_ge hij)]
  rw [h1, h2] at h3
  linarith

/-- The Hesse matrix of an invariant polynomial. -/
theorem hessian_invariant (c : Curv n ℝ) (hc : Symmetric c) (R : Matrix (Fin n) (Fin n) ℝ)
    (hW : ∀ φ, polynomial c (R *ᵥ φ) = polynomial c φ) (φ : Fin n → ℝ) :
    Rᵀ * of (hessianCT c (R *ᵥ φ)) * R = of (hessianCT c φ) := by
  have hs : ∀ i j, (Rᵀ * of (hessianCT c (R *ᵥ φ)) * R) i j =
      (Rᵀ * of (hessianCT c (R *ᵥ φ)) * R) j i := by
    intro i j
    have ht : (of (hessianCT c (R *ᵥ φ)))ᵀ = of (hessianCT c (R *ᵥ φ)) := by
      ext a b
      exact hessian_symm c hc _ b a
    have e : (Rᵀ * of (hessianCT c (R *ᵥ φ)) * R)ᵀ = Rᵀ * of (hessianCT c (R *ᵥ φ)) * R := by
      rw [transpose_mul, transpose_mul, transpose_transpose, ht, Matrix.mul_assoc]
    rw [← transpose_apply (Rᵀ * of (hessianCT c (R *ᵥ φ)) * R), e]
  refine quadratic_ext _ _ hs (fun i j => hessian_symm c hc φ i j) fun w => ?_
  rw [form_conj]
  obtain ⟨a, C, D, h⟩ := Debye.polynomial_line c hc φ w
  obtain ⟨a', C', D', h'⟩ := Debye.polynomial_line c hc (R *ᵥ φ) (R *ᵥ w)
  have e : ∀ t : ℝ, polynomial c (fun i => (R *ᵥ φ) i + t * (R *ᵥ w) i) =
      polynomial c (fun i => φ i + t * w i) := by
    intro t
    rw [← hW (fun i => φ i + t * w i)]
    congr 1
    funext i
    have : (fun i => φ i + t * w i) = φ + t • w := by funext i; simp
    rw [this, mulVec_add, mulVec_smul]
    simp
  simp only [of_apply]
  have q : ∀ t : ℝ, _ := fun t => (h' t).symm.trans ((e t).trans (h t))
  have q0 := hW φ
  have q1 := q 1
  have q2 := q (-1)
  have q3 := q 2
  have q4 := q (-2)
  rw [q0] at q1 q2 q3 q4
  linarith

/-- A symmetry of the potential and of the thermal masses which preserves the length of the field vector
does not change the spectrum of the mass matrix. -/
theorem scalar_invariant (c : Curv n ℝ) (hc : Symmetric c) (f : (Fin n → ℝ) →ₗ[ℝ] (Fin n → ℝ))
    (hW : ∀ φ, polynomial c (f φ) = polynomial c φ) (hf : ∀ φ, ∑ i, f φ i ^ 2 = ∑ i, φ i ^ 2)
    (D : Fin n → Fin n → ℝ) (hD0 : ∀ i j, i ≠ j → D i j = 0)
    (hD : ∀ φ, ∑ i, D i i * f φ i ^ 2 = ∑ i, D i i * φ i ^ 2) (φ : Fin n → ℝ) (T : ℝ) :
    (of (mass0 c D (f φ) T)).charpoly = (of (mass0 c D φ T)).charpoly := by
  set R := LinearMap.toMatrix' f with hR
  have hfR : ∀ φ, f φ = R *ᵥ φ := fun φ => by rw [hR, LinearMap.toMatrix'_mulVec]
  have diag : ∀ d : Fin n → ℝ, (∀ φ, ∑ i, d i * f φ i ^ 2 = ∑ i, d i * φ i ^ 2) →
      Rᵀ * diagonal d * R = diagonal d := by
    intro d hd
    have hs : (Rᵀ * diagonal d * R)ᵀ = Rᵀ * diagonal d * R := by
      rw [transpose_mul, transpose_mul, transpose_transpose, diagonal_transpose, Matrix.mul_assoc]
    refine quadratic_ext _ _ (fun i j => ?_) (fun i j => ?_) fun w => ?_
    · rw [← transpose_apply (Rᵀ * diagonal d * R), hs]
    · by_cases h : i = j
      · rw [h]
      · rw [diagonal_apply_ne _ h, diagonal_apply_ne _ (Ne.symm h)]
    · rw [form_conj]
      have e : ∀ x : Fin n → ℝ, ∑ i, ∑ j, diagonal d i j * x j * x i = ∑ i, d i * x i ^ 2 := by
        intro x
        refine Finset.sum_congr rfl fun i _ => ?_
        rw [Finset.sum_eq_single i]
        · rw [diagonal_apply_eq]; ring
        · intro j _ h
          rw [diagonal_apply_ne _ h.symm]; ring
        · simp
      rw [e, e, ← hfR, hd]
  have h1 : Rᵀ * R = 1 := by
    have := diag (fun _ => 1) (by simpa using hf)
    simpa using this
  have h2 : R * Rᵀ = 1 := mul_eq_one_comm.1 h1
  have hDs : ∀ i j, D i j = D j i := by
    intro i j
    by_cases h : i = j
    · rw [h]
    · rw [hD0 i j h, hD0 j i (Ne.symm h)]
  have hM : ∀ φ, of (mass0 c D φ T) = of (hessianCT c φ) + T ^ 2 • diagonal fun i => D i i := by
    intro φ
    ext i j
    rw [of_apply, mass0_eq c hc D hDs]
    simp only [Matrix.add_apply, of_apply, Matrix.smul_apply, smul_eq_mul]
    by_cases h : i = j
    · rw [h, diagonal_apply_eq]; ring
    · rw [diagonal_apply_ne _ h, hD0 i j h]; ring
  have key : Rᵀ * of (mass0 c D (f φ) T) * R = of (mass0 c D φ T) := by
    rw [hM, hM, Matrix.mul_add, Matrix.add_mul, hfR, hessian_invariant c hc R
      (fun φ => by rw [← hfR, hW]), Matrix.mul_smul, Matrix.smul_mul, diag _ hD]
  rw [← key, Matrix.mul_assoc, charpoly_mul_comm, Matrix.mul_assoc, h2, Matrix.mul_one]

end Verif.Invariance
