import Verif.Yukawa.Form
import Mathlib.LinearAlgebra.Matrix.Charpoly.Basic
import Mathlib.LinearAlgebra.Matrix.Symmetric
import Mathlib.LinearAlgebra.UnitaryGroup

/-!
# The mass matrix of the fermions in blocks

A symmetric matrix is determined by its quadratic form, so the documented Yukawa interactions
determine the mass matrix.  It couples right-handed and left-handed fields only.
-/

set_option linter.unusedSectionVars false
set_option linter.unusedSimpArgs false

namespace Verif.Yukawa

open Matrix
open scoped BigOperators ComplexConjugate

section

variable {ι κ : Type} [Fintype ι] [DecidableEq ι] [Fintype κ] [DecidableEq κ]

/-- A symmetric matrix is determined by its quadratic form. -/
theorem symmetric_ext {K : Type} [Field K] [CharZero K] {M N : Matrix ι ι K} (hM : ∀ a b, M a b = M b a) (hN : ∀ a b, N a b = N b a)
    (h : ∀ ψ : ι → K, ∑ a, ∑ b, M a b * (ψ a * ψ b) = ∑ a, ∑ b, N a b * (ψ a * ψ b)) : M = N := by
  have single : ∀ (A : Matrix ι ι K) (x y : ι → K),
      ∑ a, ∑ b, A a b * ((x a + y a) * (x b + y b)) =
        ∑ a, ∑ b, A a b * (x a * x b) + ∑ a, ∑ b, A a b * (y a * y b) +
          (∑ a, ∑ b, A a b * (x a * y b) + ∑ a, ∑ b, A b a * (x a * y b)) := by
    intro A x y
    have e : ∑ a, ∑ b, A b a * (x a * y b) = ∑ a, ∑ b, A a b * (y a * x b) := by
      rw [Finset.sum_comm]
      exact Finset.sum_congr rfl fun a _ => Finset.sum_congr rfl fun b _ => by ring
    rw [e]
    simp only [← Finset.sum_add_distrib]
    exact Finset.sum_congr rfl fun a _ => Finset.sum_congr rfl fun b _ => by ring
  have pick : ∀ (A : Matrix ι ι K) (i j : ι),
      ∑ a, ∑ b, A a b * ((if a = i then (1 : K) else 0) * (if b = j then 1 else 0)) = A i j := by
    intro A i j
    simp [Finset.sum_ite_eq]
  ext i j
  have h1 := h fun a => (if a = i then (1 : K) else 0) + (if a = j then 1 else 0)
  rw [single M (fun a => if a = i then 1 else 0) (fun a => if a = j then 1 else 0),
    single N (fun a => if a = i then 1 else 0) (fun a => if a = j then 1 else 0)] at h1
  rw [h (fun a => if a = i then 1 else 0), h (fun a => if a = j then 1 else 0)] at h1
  have h2 := add_left_cancel h1
  have pM : ∑ a, ∑ b, M b a * ((if a = i then (1 : K) else 0) * (if b = j then 1 else 0)) = M j i :=
    pick Mᵀ i j
  have pN : ∑ a, ∑ b, N b a * ((if a = i then (1 : K) else 0) * (if b = j then 1 else 0)) = N j i :=
    pick Nᵀ i j
  rw [pick M, pick N, pM, pN, ← hM i j, ← hN i j] at h2
  linear_combination h2 / 2

/-- The mass matrix with the block `A` between right-handed and left-handed fields. -/
def chiral (A : Matrix ι κ ℂ) : Matrix (ι ⊕ κ) (ι ⊕ κ) ℂ := fromBlocks 0 A Aᵀ 0

theorem chiral_symm (A : Matrix ι κ ℂ) (a b : ι ⊕ κ) : chiral A a b = chiral A b a := by
  rcases a with a | a <;> rcases b with b | b <;> simp [chiral]

theorem chiral_form (A : Matrix ι κ ℂ) (ψ : ι ⊕ κ → ℂ) :
    1 / 2 * ∑ a, ∑ b, chiral A a b * (ψ a * ψ b) =
      ∑ i, ∑ j, A i j * (ψ (Sum.inl i) * ψ (Sum.inr j)) := by
  simp only [Fintype.sum_sum_type, chiral, fromBlocks_apply₁₁, fromBlocks_apply₁₂,
    fromBlocks_apply₂₁, fromBlocks_apply₂₂, Matrix.zero_apply, zero_mul, Finset.sum_const_zero,
    zero_add, add_zero, transpose_apply]
  have : ∑ x, ∑ y, A y x * (ψ (Sum.inr x) * ψ (Sum.inl y)) =
      ∑ i, ∑ j, A i j * (ψ (Sum.inl i) * ψ (Sum.inr j)) := by
    rw [Finset.sum_comm]
    exact Finset.sum_congr rfl fun a _ => Finset.sum_congr rfl fun b _ => by ring
  rw [this]
  ring

/-- `conj(M) M` for the mass matrix. -/
theorem chiral_squared (A : Matrix ι κ ℂ) :
    (chiral A).map conj * chiral A = fromBlocks (A.map conj * Aᵀ) 0 0 (Aᴴ * A) := by
  unfold chiral
  rw [fromBlocks_map, fromBlocks_multiply]
  have h0 : (0 : Matrix ι ι ℂ).map conj = 0 := by ext i j; simp
  have h1 : (0 : Matrix κ κ ℂ).map conj = 0 := by ext i j; simp
  have h2 : Aᵀ.map conj = Aᴴ := rfl
  simp [h0, h1, h2]

/-- Unitary rotations of the right-handed and of the left-handed fields do not change the spectrum
of the squared masses. -/
theorem chiral_charpoly (A : Matrix ι κ ℂ) (P : Matrix ι ι ℂ) (Q : Matrix κ κ ℂ)
    (hP : P ∈ unitaryGroup ι ℂ) (hQ : Q ∈ unitaryGroup κ ℂ) :
    ((chiral (P * A * Q)).map conj * chiral (P * A * Q)).charpoly =
      ((chiral A).map conj * chiral A).charpoly := by
  rw [chiral_squared, chiral_squared, charpoly_fromBlocks_zero₁₂, charpoly_fromBlocks_zero₁₂]
  have p1 : star P * P = 1 := mem_unitaryGroup_iff'.1 hP
  have q1 : Q * star Q = 1 := mem_unitaryGroup_iff.1 hQ
  rw [star_eq_conjTranspose] at p1 q1
  congr 1
  · have e : (P * A * Q).map conj * (P * A * Q)ᵀ = P.map conj * ((A.map conj * Aᵀ) * Pᵀ) := by
      have c : (P * A * Q).map conj = P.map conj * A.map conj * Q.map conj := by
        rw [Matrix.map_mul, Matrix.map_mul]
      have q2 : Q.map conj * Qᵀ = 1 := by
        have := congrArg (fun X : Matrix κ κ ℂ => X.map conj) q1
        simp only [Matrix.map_mul] at this
        have h : Qᴴ.map conj = Qᵀ := by ext i j; simp
        have h1 : (1 : Matrix κ κ ℂ).map conj = 1 := by
          rw [Matrix.map_one] <;> simp
        rw [h, h1] at this
        exact this
      rw [c, transpose_mul, transpose_mul]
      calc P.map conj * A.map conj * Q.map conj * (Qᵀ * (Aᵀ * Pᵀ))
          = P.map conj * A.map conj * (Q.map conj * Qᵀ) * (Aᵀ * Pᵀ) := by
            simp only [Matrix.mul_assoc]
        _ = _ := by rw [q2, Matrix.mul_one]; simp only [Matrix.mul_assoc]
    have p2 : Pᵀ * P.map conj = 1 := by
      have := congrArg transpose p1
      rw [transpose_mul, transpose_one] at this
      exact this
    rw [e, charpoly_mul_comm, Matrix.mul_assoc, p2, Matrix.mul_one]
  · have e : (P * A * Q)ᴴ * (P * A * Q) = Qᴴ * ((Aᴴ * A) * Q) := by
      rw [conjTranspose_mul, conjTranspose_mul]
      calc Qᴴ * (Aᴴ * Pᴴ) * (P * A * Q) = Qᴴ * Aᴴ * (Pᴴ * P) * (A * Q) := by
            simp only [Matrix.mul_assoc]
        _ = _ := by rw [p1, Matrix.mul_one]; simp only [Matrix.mul_assoc]
    rw [e, charpoly_mul_comm, Matrix.mul_assoc, q1, Matrix.mul_one]

end

/-- The right-handed quarks `u_R, d_R` and the left-handed quarks `u_L, d_L`. -/
abbrev QuarkIndex := (Fin 3 ⊕ Fin 3) ⊕ (Fin 3 ⊕ Fin 3)

/-- The charged right-handed leptons and the left-handed leptons `e_L, ν_L`. -/
abbrev LeptonIndex := Fin 3 ⊕ (Fin 3 ⊕ Fin 3)

/-- The block of the quarks. -/
noncomputable def quarkBlock (V : Matrix (Fin 3) (Fin 3) ℂ) (yu yd : Fin 3 → ℝ)
    (Φu Φd : Fin 2 → ℂ) : Matrix (Fin 3 ⊕ Fin 3) (Fin 3 ⊕ Fin 3) ℂ :=
  fromBlocks (diagonal fun i => yu i * conj (Φu 1)) (of fun i j => -(yu i * conj (V i j) * conj (Φu 0)))
    (of fun i j => yd i * V j i * Φd 0) (diagonal fun i => yd i * Φd 1)

/-- The block of the leptons. -/
noncomputable def leptonBlock (ye : Fin 3 → ℝ) (Φl : Fin 2 → ℂ) :
    Matrix (Fin 3) (Fin 3 ⊕ Fin 3) ℂ :=
  fun i j => Sum.elim (fun k => if k = i then ye i * Φl 1 else 0)
    (fun k => if k = i then ye i * Φl 0 else 0) j

/-- The fields of an enumeration of the quarks. -/
def quarksOf (ψ : QuarkIndex → ℂ) : Spec.Quarks where
  uR i := ψ (Sum.inl (Sum.inl i))
  dR i := ψ (Sum.inl (Sum.inr i))
  uL i := ψ (Sum.inr (Sum.inl i))
  dL i := ψ (Sum.inr (Sum.inr i))

/-- The fields of an enumeration of the leptons. -/
def leptonsOf (ψ : LeptonIndex → ℂ) : Spec.Leptons where
  eR i := ψ (Sum.inl i)
  eL i := ψ (Sum.inr (Sum.inl i))
  nL i := ψ (Sum.inr (Sum.inr i))

theorem quark_form (V : Matrix (Fin 3) (Fin 3) ℂ) (yu yd : Fin 3 → ℝ) (Φu Φd : Fin 2 → ℂ)
    (ψ : QuarkIndex → ℂ) :
    1 / 2 * ∑ a, ∑ b, chiral (quarkBlock V yu yd Φu Φd) a b * (ψ a * ψ b) =
      Spec.quarkYukawa V yu yd Φu Φd (quarksOf ψ) := by
  rw [chiral_form]
  simp only [Fintype.sum_sum_type, quarkBlock, fromBlocks_apply₁₁, fromBlocks_apply₁₂,
    fromBlocks_apply₂₁, fromBlocks_apply₂₂, Spec.quarkYukawa, quarksOf, Fin.sum_univ_three,
    diagonal_apply, of_apply, Fin.isValue, Fin.reduceEq, if_true, if_false, zero_mul, add_zero, zero_add,
    reduceIte]
  ring

theorem lepton_form (ye : Fin 3 → ℝ) (Φl : Fin 2 → ℂ) (ψ : LeptonIndex → ℂ) :
    1 / 2 * ∑ a, ∑ b, chiral (leptonBlock ye Φl) a b * (ψ a * ψ b) =
      Spec.leptonYukawa ye Φl (leptonsOf ψ) := by
  rw [chiral_form]
  simp only [Fintype.sum_sum_type, leptonBlock, Sum.elim_inl, Sum.elim_inr, Spec.leptonYukawa,
    leptonsOf, Fin.sum_univ_three, Fin.isValue, Fin.reduceEq, if_true, if_false, zero_mul, add_zero,
    zero_add, reduceIte]
  ring

section

variable {m n : Nat} {ι κ : Type} [Fintype ι] [DecidableEq ι] [Fintype κ] [DecidableEq κ]

/-- A symmetric tensor whose form is the one of a block has the mass matrix of the block. -/
theorem massMatrix_chiral (e : Fin m ≃ ι ⊕ κ) (F : List Nat → ℂ)
    (hs : ∀ a b k : Nat, F [a, b, k] = F [b, a, k]) (φ : Fin n → ℝ) (A : Matrix ι κ ℂ)
    (hf : ∀ ψ : Fin m → ℂ, form F ψ φ =
      1 / 2 * ∑ a, ∑ b, chiral A a b * (ψ (e.symm a) * ψ (e.symm b))) :
    massMatrix Lagrangian.zeroTensor F φ = (chiral A).submatrix e e := by
  apply symmetric_ext
  · intro a b
    unfold massMatrix
    simp only [Lagrangian.zeroTensor]
    congr 1
    exact Finset.sum_congr rfl fun k _ => by rw [hs]
  · intro a b
    exact chiral_symm A _ _
  · intro ψ
    have h := hf ψ
    unfold form at h
    have h2 : ∑ a, ∑ b, chiral A a b * (ψ (e.symm a) * ψ (e.symm b)) =
        ∑ a, ∑ b, (chiral A).submatrix e e a b * (ψ a * ψ b) := by
      rw [← Equiv.sum_comp e]
      refine Finset.sum_congr rfl fun a _ => ?_
      rw [← Equiv.sum_comp e]
      simp
    rw [h2] at h
    have h3 : ∑ a, ∑ b, massMatrix Lagrangian.zeroTensor F φ a b * (ψ a * ψ b) =
        ∑ a : Fin m, ∑ b : Fin m, ∑ k : Fin n, F [(a : Nat), (b : Nat), (k : Nat)] *
          (ψ a * (ψ b * φ k)) := by
      refine Finset.sum_congr rfl fun a _ => Finset.sum_congr rfl fun b _ => ?_
      unfold massMatrix
      rw [Lagrangian.zeroTensor, zero_add, Finset.sum_mul]
      exact Finset.sum_congr rfl fun k _ => by ring
    rw [h3]
    linear_combination 2 * h

theorem squaredMatrix_chiral (e : Fin m ≃ ι ⊕ κ) (F : List Nat → ℂ)
    (hs : ∀ a b k : Nat, F [a, b, k] = F [b, a, k]) (φ : Fin n → ℝ) (A : Matrix ι κ ℂ)
    (hf : ∀ ψ : Fin m → ℂ, form F ψ φ =
      1 / 2 * ∑ a, ∑ b, chiral A a b * (ψ (e.symm a) * ψ (e.symm b))) :
    squaredMatrix Lagrangian.zeroTensor F φ =
      ((chiral A).map conj * chiral A).submatrix e e := by
  unfold squaredMatrix
  rw [massMatrix_chiral e F hs φ A hf]
  ext i j
  simp only [Matrix.mul_apply, map_apply, submatrix_apply]
  rw [← Equiv.sum_comp e]

end

end Verif.Yukawa
