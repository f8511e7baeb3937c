import Verif.Weinberg.Loop
import Mathlib.Analysis.Calculus.FDeriv.Pi
import Mathlib.Analysis.Calculus.Deriv.Comp

/-!
# Gradient and Hesse matrix of the tree-level potential and of the counterterms
-/

namespace Verif.Weinberg

open Filter Topology Verif.Potential Verif.Invariance
open Verif.Potential.Spec (Symmetric polynomial)
open Lagrangian.Spec (Expansion)
open scoped BigOperators

variable {n : Nat}

theorem expansion_of_grad {W : (Fin n → ℝ) → ℝ} {v : Fin n → ℝ} {s : Fin n → (Fin n → ℝ) → ℝ}
    {H : Fin n → Fin n → ℝ} (h1 : ∀ φ, Grad W (fun k => s k φ) φ) (h2 : ∀ k, Grad (s k) (H k) v) :
    Expansion W v (fun k => s k v) (fun l k => H k l) := by
  refine ⟨fun φ => lin (𝕜 := ℝ) fun k => s k φ, Eventually.of_forall h1,
    ∑ k, (lin (𝕜 := ℝ) (H k)).smulRight (ContinuousLinearMap.proj k : (Fin n → ℝ) →L[ℝ] ℝ), ?_,
    fun i => (lin_single (𝕜 := ℝ) (fun k => s k v) i).symm, fun i j => ?_⟩
  · have e : (fun φ => lin (𝕜 := ℝ) fun k => s k φ) =
        fun φ => ∑ k, s k φ • (ContinuousLinearMap.proj k : (Fin n → ℝ) →L[ℝ] ℝ) := by
      funext φ
      ext h
      simp [lin_apply, mul_comm]
    rw [e]
    exact HasFDerivAt.fun_sum fun k _ =>
      HasFDerivAt.smul_const (h2 k) (ContinuousLinearMap.proj k : (Fin n → ℝ) →L[ℝ] ℝ)
  · rw [_root_.sum_apply, _root_.sum_apply, Finset.sum_eq_single j]
    · rw [ContinuousLinearMap.smulRight_apply, lin_single, _root_.smul_apply,
        ContinuousLinearMap.proj_apply, Pi.single_eq_same, smul_eq_mul, mul_one]
    · intro k _ hk
      rw [ContinuousLinearMap.smulRight_apply, _root_.smul_apply,
        ContinuousLinearMap.proj_apply, Pi.single_eq_of_ne hk, smul_zero]
    · simp

/-- The gradient of a differentiable function from its derivatives along lines. -/
theorem grad_of_lines {F : (Fin n → ℝ) → ℝ} (hF : Differentiable ℝ F) {φ c : Fin n → ℝ}
    (h : ∀ w : Fin n → ℝ, HasDerivAt (fun s : ℝ => F (φ + s • w)) (∑ i, c i * w i) 0) : Grad F c φ := by
  have hd := (hF φ).hasFDerivAt
  refine hd.congr_fderiv ?_
  ext w
  have hline : HasDerivAt (fun s : ℝ => φ + s • w) w 0 := by
    simpa using ((hasDerivAt_id (0 : ℝ)).smul_const w).const_add φ
  have h0 : φ + (0 : ℝ) • w = φ := by simp
  have hd' : HasFDerivAt F (fderiv ℝ F φ) (φ + (0 : ℝ) • w) := by rw [h0]; exact hd
  have := (hd'.comp_hasDerivAt (0 : ℝ) hline).unique (h w)
  rw [this, lin_apply]
  exact Finset.sum_congr rfl fun i _ => by simp [mul_comm]

theorem line_coord (φ w : Fin n → ℝ) (i : Fin n) : HasDerivAt (fun s : ℝ => (φ + s • w) i) (w i) 0 := by
  simpa using ((hasDerivAt_id (0 : ℝ)).mul_const (w i)).const_add (φ i)

theorem grad_polynomial (c : Curv n ℝ) (hc : Symmetric c) (φ : Fin n → ℝ) :
    Grad (polynomial c) (fun k => grad c φ k) φ := by
  refine grad_of_lines (by unfold polynomial; fun_prop) fun w => ?_
  have := hasDerivAt_polynomial c hc (fun s => φ + s • w) w 0 (line_coord φ w)
  simpa using this

theorem grad_grad (c : Curv n ℝ) (hc : Symmetric c) (φ : Fin n → ℝ) (k : Fin n) :
    Grad (fun ψ => grad c ψ k) (fun l => hessianCT c φ k l) φ := by
  refine grad_of_lines (by unfold grad; fun_prop) fun w => ?_
  have := hasDerivAt_grad c hc (fun s => φ + s • w) w 0 (line_coord φ w) k
  simpa using this

/-- The gradient and the Hesse matrix of the polynomial of symmetric tensors. -/
theorem expansion_polynomial (c : Curv n ℝ) (hc : Symmetric c) (v : Fin n → ℝ) :
    Expansion (polynomial c) v (grad c v) (hessianCT c v) := by
  have h := expansion_of_grad (s := fun k φ => grad c φ k) (H := fun k l => hessianCT c v k l)
    (grad_polynomial c hc) (grad_grad c hc v)
  exact h.congr rfl (fun _ => rfl) fun i j => h.symm i j

/-- If the counterterms cancel the derivatives of the one-loop potential, then the effective potential at
zero temperature has the gradient and the Hesse matrix of the tree-level potential. -/
theorem renormalised (t : Tensors n) (ht : Symmetric t.scalar) {ct : Curv n ℝ} (hct : Symmetric ct)
    (S : Solver) (scale : ℝ) (JB JF : Thermal) {v N : Fin n → ℝ} {H : Fin n → Fin n → ℝ}
    (hE : Expansion (fun φ => v1Loop (t.spectra S scale JB JF) φ 0 0) v N H)
    (hN : ∀ i, nablaVCT ct v i = -N i) (hH : ∀ i j, hessianCT ct v i j = -H i j) :
    Expansion (t.effective ct none S scale JB JF 0) v (grad t.scalar v) (hessianCT t.scalar v) := by
  refine (((expansion_polynomial t.scalar ht v).add (expansion_polynomial ct hct v)).add hE).congr ?_
    (fun i => ?_) fun i j => ?_
  · funext φ
    unfold Tensors.effective
    rw [C30_value _ _ _ _ (by simp), C30_counterterm_value _ _ _ _ (by simp)]
  · have := hN i
    rw [nablaVCT] at this
    rw [this]
    ring
  · rw [hH]
    ring

end Verif.Weinberg
