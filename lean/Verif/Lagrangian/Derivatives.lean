import Verif.Lagrangian.Invariance
import Verif.Lagrangian.Coded
import Verif.Potential.TreeProps
import Mathlib.Analysis.Calculus.Deriv.Prod

/-!
# The derivative modes of the potential are derivatives

For tensors that do not depend on the order of their indices, the derivative modes of `VTree` and
of `CounterTerm`, `NablaVCT`, `HiggsMassMatrix` and `HessianCT` are the derivatives of the
polynomial of the tensors.
-/

namespace Verif.Lagrangian

open Verif.Potential Verif.Potential.Spec Verif.Lagrangian.Spec
open scoped Topology

variable {n : Nat}

/-- `W` is the tree-level potential of the tensors `c`, the derivative modes of `VTree` are its
gradient and `HiggsMassMatrix` at zero temperature is its Hesse matrix, everywhere. -/
def TreeDerivatives (W : (Fin n → ℝ) → ℝ) (c : Curv n ℝ) : Prop :=
  ∀ (us : Bool) (s : FVec n ℝ → ℝ) (force : Bool) (d : Fin n → Fin n → ℝ),
    (∀ i j, d i j = d j i) → ∀ v : FVec n ℝ,
      vTree us s c v 0 true = W v ∧
      ∃ M, higgsMassMatrix c d v 0 0 = .ok M ∧
        Expansion W v (fun i => vTree us s c v ((i : Int) + 1) force) M

/-- `W` is the counterterm potential of the tensors `c`, the derivative modes of `CounterTerm` and
`NablaVCT` are its gradient and `HessianCT` is its Hesse matrix, everywhere. -/
def CounterDerivatives (W : (Fin n → ℝ) → ℝ) (c : Curv n ℝ) : Prop :=
  ∀ (us : Bool) (s : FVec n ℝ → ℝ) (force : Bool) (v : FVec n ℝ),
    counterTerm us s c v 0 true = W v ∧
    Expansion W v (fun i => counterTerm us s c v ((i : Int) + 1) force) (hessianCT c v) ∧
    Expansion W v (nablaVCT c v) (hessianCT c v)

/-- The linear map with the given values on the basis. -/
noncomputable def lin (a : Fin n → ℝ) : (Fin n → ℝ) →L[ℝ] ℝ :=
  ∑ i, a i • ContinuousLinearMap.proj (R := ℝ) (φ := fun _ : Fin n => ℝ) i

theorem lin_apply (a x : Fin n → ℝ) : lin a x = ∑ i, a i * x i := by
  simp [lin]

/-- A differentiable function with known derivatives along all lines. -/
theorem hasFDerivAt_of_lines (W : (Fin n → ℝ) → ℝ) (a : Fin n → ℝ) (v : Fin n → ℝ)
    (hd : DifferentiableAt ℝ W v)
    (hl : ∀ w : Fin n → ℝ, HasDerivAt (fun t : ℝ => W (fun i => v i + t * w i)) (∑ i, a i * w i) 0) :
    HasFDerivAt W (lin a) v := by
  have h := hd.hasFDerivAt
  have e : fderiv ℝ W v = lin a := by
    refine ContinuousLinearMap.ext fun w => ?_
    rw [lin_apply]
    have hline : HasDerivAt (fun t : ℝ => (fun i => v i + t * w i)) w 0 := by
      refine hasDerivAt_pi.2 fun i => ?_
      simpa using ((hasDerivAt_id (0 : ℝ)).mul_const (w i)).const_add (v i)
    have h' : HasFDerivAt W (fderiv ℝ W v) (fun i => v i + (0 : ℝ) * w i) := by simpa using h
    exact (h'.comp_hasDerivAt (0 : ℝ) hline).unique (hl w)
  rw [← e]
  exact h

theorem line_hasDerivAt (v w : Fin n → ℝ) (i : Fin n) :
    HasDerivAt (fun t : ℝ => v i + t * w i) (w i) 0 := by
  simpa using ((hasDerivAt_id (0 : ℝ)).mul_const (w i)).const_add (v i)

theorem hasFDerivAt_polynomial (c : Curv n ℝ) (hc : Symmetric c) (v : Fin n → ℝ) :
    HasFDerivAt (polynomial c) (lin (grad c v)) v := by
  refine hasFDerivAt_of_lines _ _ _ (by unfold polynomial; fun_prop) fun w => ?_
  simpa using hasDerivAt_polynomial c hc (fun t i => v i + t * w i) w 0 (line_hasDerivAt v w)

theorem hasFDerivAt_grad (c : Curv n ℝ) (hc : Symmetric c) (v : Fin n → ℝ) (i : Fin n) :
    HasFDerivAt (fun φ => grad c φ i) (lin (hessianCT c v i)) v := by
  refine hasFDerivAt_of_lines _ _ _ (by unfold grad; fun_prop) fun w => ?_
  simpa using hasDerivAt_grad c hc (fun t i => v i + t * w i) w 0 (line_hasDerivAt v w) i

theorem expansion_polynomial (c : Curv n ℝ) (hc : Symmetric c) (v : Fin n → ℝ) :
    Expansion (polynomial c) v (grad c v) (fun i j => hessianCT c v i j) := by
  refine ⟨fun φ => lin (grad c φ), Filter.Eventually.of_forall fun φ =>
    hasFDerivAt_polynomial c hc φ, ∑ i, (lin (hessianCT c v i)).smulRight
      (ContinuousLinearMap.proj (R := ℝ) (φ := fun _ : Fin n => ℝ) i), ?_, ?_, ?_⟩
  · unfold lin
    refine HasFDerivAt.fun_sum fun i _ => ?_
    exact (hasFDerivAt_grad c hc v i).smul_const
      (ContinuousLinearMap.proj (R := ℝ) (φ := fun _ : Fin n => ℝ) i)
  · intro i
    simp [lin_apply, Pi.single_apply]
  · intro i j
    have hs : hessianCT c v i j = hessianCT c v j i := by
      have h := mass0_eq c hc (fun _ _ => 0) (fun _ _ => rfl) v 0
      obtain ⟨M, hM, hs⟩ := C31_symmetric c (fun _ _ => 0) v 0
      have : M = mass0 c (fun _ _ => 0) v 0 := by
        have : higgsMassMatrix c (fun _ _ => 0) v 0 0 = .ok (mass0 c (fun _ _ => 0) v 0) := by
          simp [higgsMassMatrix]
        rw [this] at hM
        cases hM
        rfl
      subst this
      have := hs i j
      rw [h, h] at this
      simpa using this
    refine hs.trans ?_
    simp [lin_apply, Pi.single_apply]

theorem tree_derivatives (W : (Fin n → ℝ) → ℝ) (c : Curv n ℝ) (hc : Symmetric c)
    (hW : ∀ s φ, vTree false s c φ 0 true = W φ) : TreeDerivatives W c := by
  intro us s force d hd v
  have hv : ∀ us s φ, vTree us s c φ 0 true = polynomial c φ := by
    intro us s φ
    have : vTree us s c φ 0 true = vTree false s c φ 0 true := by simp [vTree]
    rw [this]
    exact C30_value false s c φ (by simp) true
  have e : W = polynomial c := by
    funext φ
    rw [← hW s φ, hv]
  refine ⟨by rw [hv, e], mass0 c d v 0, by simp [higgsMassMatrix], ?_⟩
  have hg : (fun i : Fin n => vTree us s c v ((i : Int) + 1) force) = grad c v := by
    funext i
    have h0 : ¬ ((i : Int) + 1 = 0) := by omega
    have h1 : (((i : Int) + 1) == 0) = false := by simpa using h0
    simp [vTree, h0, h1, fieldIndex_succ]
  have hm : mass0 c d v 0 = fun i j => hessianCT c v i j := by
    funext i j
    rw [mass0_eq c hc d hd]
    simp
  rw [hg, hm, e]
  exact expansion_polynomial c hc v

theorem counter_derivatives (W : (Fin n → ℝ) → ℝ) (c : Curv n ℝ) (hc : Symmetric c)
    (hW : ∀ s φ, counterTerm false s c φ 0 true = W φ) : CounterDerivatives W c := by
  intro us s force v
  have hv : ∀ us s φ, counterTerm us s c φ 0 true = polynomial c φ := by
    intro us s φ
    have : counterTerm us s c φ 0 true = counterTerm false s c φ 0 true := by simp [counterTerm]
    rw [this]
    exact C30_counterterm_value false s c φ (by simp) true
  have e : W = polynomial c := by
    funext φ
    rw [← hW s φ, hv]
  have hg : (fun i : Fin n => counterTerm us s c v ((i : Int) + 1) force) = grad c v := by
    funext i
    have h0 : ¬ ((i : Int) + 1 = 0) := by omega
    have h1 : (((i : Int) + 1) == 0) = false := by simpa using h0
    simp [counterTerm, h0, h1, fieldIndex_succ]
  refine ⟨by rw [hv, e], ?_, ?_⟩
  · rw [hg, e]
    exact expansion_polynomial c hc v
  · rw [e]
    exact expansion_polynomial c hc v

end Verif.Lagrangian
