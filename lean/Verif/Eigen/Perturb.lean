import Verif.Eigen.Spec
import Mathlib.LinearAlgebra.FiniteDimensional.Basic
import Mathlib.LinearAlgebra.Dimension.Constructions
import Mathlib.LinearAlgebra.Matrix.NonsingularInverse
import Mathlib.Algebra.BigOperators.Fin

/-!
# First-order perturbation theory in a basis
-/

namespace Verif.Eigen

open Matrix Module Spec

variable {n k : ℕ}

/-- Vectors with entries only where the derivative is `m`. -/
def support (nu : Fin k → ℝ) (m : ℝ) : Submodule ℂ (Fin k → ℂ) where
  carrier := {x | ∀ a, nu a ≠ m → x a = 0}
  add_mem' := fun hx hy a ha => by simp [hx a ha, hy a ha]
  zero_mem' := fun a _ => rfl
  smul_mem' := fun c x hx a ha => by simp [hx a ha]

open Classical in
theorem finrank_support (nu : Fin k → ℝ) (m : ℝ) :
    finrank ℂ (support nu m) = Fintype.card {a // nu a = m} := by
  let e : support nu m ≃ₗ[ℂ] ({a // nu a = m} → ℂ) :=
    { toFun := fun x a => x.1 a.1
      map_add' := fun x y => rfl
      map_smul' := fun c x => rfl
      invFun := fun y => ⟨fun a => if h : nu a = m then y ⟨a, h⟩ else 0, fun a ha => by simp [ha]⟩
      left_inv := fun x => by
        apply Subtype.ext
        funext a
        by_cases h : nu a = m
        · simp [h]
        · simp [h, x.2 a h]
      right_inv := fun y => by
        funext a
        simp [a.2] }
  rw [e.finrank_eq, finrank_fintype_fun_eq_card]

/-- The columns of a matrix at some positions. -/
def cols (V : Matrix (Fin n) (Fin n) ℂ) (e : Fin k → Fin n) : Matrix (Fin n) (Fin k) ℂ := fun i a => V i (e a)

theorem cols_mulVec (V : Matrix (Fin n) (Fin n) ℂ) (e : Fin k → Fin n) (he : Function.Injective e)
    (c : Fin n → ℂ) (hc : ∀ i, (∀ a, e a ≠ i) → c i = 0) :
    cols V e *ᵥ (fun a => c (e a)) = V *ᵥ c := by
  funext i
  refine Fintype.sum_of_injective e he _ _ (fun j hj => ?_) fun a => rfl
  rw [hc j fun a ha => hj ⟨a, ha⟩, mul_zero]

variable {M D V : Matrix (Fin n) (Fin n) ℂ} {E : Fin n → ℝ} {e : Fin k → Fin n} {l m : ℝ}

theorem cols_orth (hV : Vᴴ * V = 1) (he : Function.Injective e) : (cols V e)ᴴ * cols V e = 1 := by
  ext a b
  have := congrFun (congrFun hV (e a)) (e b)
  rw [mul_apply] at this ⊢
  simp only [conjTranspose_apply, cols] at this ⊢
  rw [this, one_apply, one_apply]
  simp [he.eq_iff]

/-- The eigenvectors are the combinations of the columns with this eigenvalue. -/
theorem eigen_iff (hV : Vᴴ * V = 1) (hM : M * V = V * diagonal fun i => (E i : ℂ)) (he : Function.Injective e)
    (hr : ∀ i, E i = l ↔ ∃ a, e a = i) (w : Fin n → ℂ) :
    M *ᵥ w = (l : ℂ) • w ↔ ∃ z, w = cols V e *ᵥ z := by
  have hV' : V * Vᴴ = 1 := mul_eq_one_comm.1 hV
  constructor
  · intro hw
    obtain ⟨c, hc⟩ : ∃ c, c = Vᴴ *ᵥ w := ⟨_, rfl⟩
    have hwc : w = V *ᵥ c := by rw [hc, mulVec_mulVec, hV', one_mulVec]
    have hd : (diagonal fun i => (E i : ℂ)) *ᵥ c = (l : ℂ) • c := by
      have h1 : Vᴴ *ᵥ (M *ᵥ w) = (diagonal fun i => (E i : ℂ)) *ᵥ c := by
        rw [hwc, mulVec_mulVec, mulVec_mulVec, Matrix.mul_assoc, hM, ← Matrix.mul_assoc, hV, Matrix.one_mul]
      rw [← h1, hw, mulVec_smul, hc]
    refine ⟨fun a => c (e a), ?_⟩
    rw [cols_mulVec V e he c, ← hwc]
    intro i hi
    have h1 := congrFun hd i
    rw [mulVec_diagonal, Pi.smul_apply, smul_eq_mul] at h1
    by_contra h0
    have h2 : (E i : ℂ) = l := mul_right_cancel₀ h0 h1
    obtain ⟨a, ha⟩ := (hr i).1 (by exact_mod_cast h2)
    exact hi a ha
  · rintro ⟨z, rfl⟩
    have : M * cols V e = (l : ℂ) • cols V e := by
      ext i a
      have h1 := congrFun (congrFun hM i) (e a)
      rw [mul_diagonal] at h1
      rw [show (M * cols V e) i a = (M * V) i (e a) from rfl, h1, (hr (e a)).2 ⟨a, rfl⟩]
      simp [cols, mul_comm]
    rw [mulVec_mulVec, this, smul_mulVec]

theorem dot_cols (B : Matrix (Fin n) (Fin k) ℂ) (z : Fin k → ℂ) (u : Fin n → ℂ) :
    star (B *ᵥ z) ⬝ᵥ u = star z ⬝ᵥ (Bᴴ *ᵥ u) := by
  rw [star_mulVec, dotProduct_mulVec]

/-- The dimension of the vectors with eigenvalue `l` and derivative `m` is the number of derivatives `m` of the
matrix of `D` in this eigenspace. -/
theorem finrank_firstOrder (hV : Vᴴ * V = 1) (hM : M * V = V * diagonal fun i => (E i : ℂ))
    (he : Function.Injective e) (hr : ∀ i, E i = l ↔ ∃ a, e a = i) {U : Matrix (Fin k) (Fin k) ℂ}
    {nu : Fin k → ℝ} (hU : Uᴴ * U = 1)
    (hA : (cols V e)ᴴ * D * cols V e * U = U * diagonal fun a => (nu a : ℂ)) (m : ℝ) :
    finrank ℂ (firstOrder M D l m) = finrank ℂ (support nu m) := by
  have hU' : U * Uᴴ = 1 := mul_eq_one_comm.1 hU
  have hP := cols_orth hV he
  have hinj : Function.Injective ((cols V e * U).mulVecLin) := by
    intro x y hxy
    simp only [mulVecLin_apply] at hxy
    have := congrArg (fun v => (cols V e * U)ᴴ *ᵥ v) hxy
    simp only [mulVec_mulVec, conjTranspose_mul] at this
    rwa [Matrix.mul_assoc, ← Matrix.mul_assoc ((cols V e)ᴴ), hP, Matrix.one_mul, hU, one_mulVec, one_mulVec] at this
  have hmap : (support nu m).map ((cols V e * U).mulVecLin) = firstOrder M D l m := by
    ext v
    simp only [Submodule.mem_map, mulVecLin_apply]
    constructor
    · rintro ⟨y, hy, rfl⟩
      refine ⟨(eigen_iff hV hM he hr _).2 ⟨U *ᵥ y, by rw [mulVec_mulVec]⟩, fun w hw => ?_⟩
      obtain ⟨z, rfl⟩ := (eigen_iff hV hM he hr _).1 hw
      rw [dot_cols, mulVec_sub, mulVec_smul, mulVec_mulVec, mulVec_mulVec, mulVec_mulVec]
      have h1 : (cols V e)ᴴ * D * (cols V e * U) = U * diagonal fun a => (nu a : ℂ) := by
        rw [← hA]; simp only [Matrix.mul_assoc]
      rw [h1, ← Matrix.mul_assoc, hP, Matrix.one_mul, ← mulVec_mulVec]
      have h2 : (diagonal fun a => (nu a : ℂ)) *ᵥ y = (m : ℂ) • y := by
        funext a
        rw [mulVec_diagonal, Pi.smul_apply, smul_eq_mul]
        by_cases h : nu a = m
        · rw [h]
        · rw [hy a h, mul_zero, mul_zero]
      rw [h2, mulVec_smul, sub_self, dotProduct_zero]
    · rintro ⟨h1, h2⟩
      obtain ⟨x, rfl⟩ := (eigen_iff hV hM he hr _).1 h1
      have h3 : (cols V e)ᴴ *ᵥ (D *ᵥ (cols V e *ᵥ x) - (m : ℂ) • (cols V e *ᵥ x)) = 0 := by
        refine dotProduct_eq_zero _ fun w => ?_
        have := h2 (cols V e *ᵥ star w) ((eigen_iff hV hM he hr _).2 ⟨star w, rfl⟩)
        rw [dot_cols, star_star] at this
        rw [dotProduct_comm]; exact this
      rw [mulVec_sub, mulVec_smul, mulVec_mulVec, mulVec_mulVec, mulVec_mulVec, hP, one_mulVec] at h3
      have h4 := sub_eq_zero.1 h3
      refine ⟨Uᴴ *ᵥ x, fun a ha => ?_, ?_⟩
      · have h5 : (diagonal fun a => (nu a : ℂ)) *ᵥ (Uᴴ *ᵥ x) = (m : ℂ) • (Uᴴ *ᵥ x) := by
          have : (diagonal fun a => (nu a : ℂ)) = Uᴴ * ((cols V e)ᴴ * D * cols V e * U) := by
            rw [hA, ← Matrix.mul_assoc, hU, Matrix.one_mul]
          rw [this, mulVec_mulVec, ← mulVec_smul, ← h4, mulVec_mulVec]
          congr 1
          simp only [Matrix.mul_assoc, hU', Matrix.mul_one]
        have h6 := congrFun h5 a
        rw [mulVec_diagonal, Pi.smul_apply, smul_eq_mul] at h6
        by_contra h0
        exact ha (by exact_mod_cast mul_right_cancel₀ h0 h6)
      · rw [mulVec_mulVec, Matrix.mul_assoc, hU', Matrix.mul_one]
  rw [← hmap]
  exact (Submodule.equivMapOfInjective _ hinj _).symm.finrank_eq

end Verif.Eigen
