import Verif.Lagrangian.Invariance

/-!
# Functions of some of the fields
-/

set_option linter.unusedSectionVars false

namespace Verif.Lagrangian.Spec

open Filter Topology

variable {n m : Nat}

/-- Gradient and Hesse matrix of a function of some of the fields, the others being fixed. -/
theorem Expansion.restrict {W : (Fin n → ℝ) → ℝ} {N : Fin n → ℝ} {H : Fin n → Fin n → ℝ}
    (c : Fin n → ℝ) (L : (Fin m → ℝ) →L[ℝ] (Fin n → ℝ)) (σ : Fin m → Fin n)
    (hL : ∀ i, L (Pi.single i 1) = Pi.single (σ i) 1) (v : Fin m → ℝ)
    (h : Expansion W (c + L v) N H) :
    Expansion (fun φ => W (c + L φ)) v (fun i => N (σ i)) (fun i j => H (σ i) (σ j)) := by
  obtain ⟨G, hG, D, hD, hN, hH⟩ := h
  have hι : ∀ φ, HasFDerivAt (fun φ => c + L φ) L φ := fun φ => L.hasFDerivAt.const_add c
  let C : ((Fin n → ℝ) →L[ℝ] ℝ) →L[ℝ] ((Fin m → ℝ) →L[ℝ] ℝ) :=
    (ContinuousLinearMap.compL ℝ (Fin m → ℝ) (Fin n → ℝ) ℝ).flip L
  have hC : ∀ g x, C g x = g (L x) := fun g x => rfl
  refine ⟨fun φ => C (G (c + L φ)), ?_, C.comp (D.comp L), ?_, fun i => ?_, fun i j => ?_⟩
  · have ht : Tendsto (fun φ => c + L φ) (𝓝 v) (𝓝 (c + L v)) :=
      (hι v).continuousAt
    filter_upwards [ht.eventually hG] with φ hφ
    exact hφ.comp φ (hι φ)
  · exact C.hasFDerivAt.comp v (HasFDerivAt.comp v hD (hι v))
  · dsimp only; rw [hC, hL, hN]
  · simp only [ContinuousLinearMap.comp_apply, hC, hL, hH]

/-- The configurations in which only some of the fields are switched on. -/
noncomputable def includeL (σ : Fin m → Fin n) : (Fin m → ℝ) →L[ℝ] (Fin n → ℝ) :=
  LinearMap.toContinuousLinearMap
    { toFun := fun φ k => ∑ i, if σ i = k then φ i else 0
      map_add' := by
        intro x y
        funext k
        simp only [Pi.add_apply, ← Finset.sum_add_distrib]
        refine Finset.sum_congr rfl fun i _ => ?_
        split_ifs <;> simp
      map_smul' := by
        intro r x
        funext k
        simp only [Pi.smul_apply, smul_eq_mul, RingHom.id_apply, Finset.mul_sum]
        refine Finset.sum_congr rfl fun i _ => ?_
        split_ifs <;> simp }

theorem includeL_apply (σ : Fin m → Fin n) (φ : Fin m → ℝ) (k : Fin n) :
    includeL σ φ k = ∑ i, if σ i = k then φ i else 0 := rfl

/-- Gradient and Hesse matrix in the directions of some of the fields. -/
theorem Expansion.some {W : (Fin n → ℝ) → ℝ} {v : Fin n → ℝ} {N : Fin n → ℝ} {H : Fin n → Fin n → ℝ}
    (h : Expansion W v N H) (σ : Fin m → Fin n) (hσ : Function.Injective σ) (u : Fin m → ℝ)
    (hv : includeL σ u = v) :
    Expansion (fun φ => W (includeL σ φ)) u (fun i => N (σ i)) (fun i j => H (σ i) (σ j)) := by
  have := Expansion.restrict (W := W) (N := N) (H := H) 0 (includeL σ) σ (fun i => by
    funext k
    rw [includeL_apply, Finset.sum_eq_single i]
    · rw [Pi.single_eq_same, Pi.single_apply]
      simp [eq_comm]
    · intro b _ hb
      rw [Pi.single_eq_of_ne hb]
      simp
    · simp) u (by rw [zero_add, hv]; exact h)
  simpa only [zero_add] using this

end Verif.Lagrangian.Spec
