import Verif.Third.Deriv

/-!
# Derivatives in other coordinates
-/

namespace Verif.Weinberg

open Filter Topology
open Lagrangian.Spec (Expansion)
open Spec (ThirdDerivatives)
open scoped BigOperators

variable {n : Nat}

/-- The fields with the coordinates `x` along the vectors `e i` from the point `v`. -/
def Spec.along (v : Fin n → ℝ) (e : Fin n → Fin n → ℝ) (x : Fin n → ℝ) : Fin n → ℝ := fun l =>
  v l + ∑ i, x i * e i l

open Spec (along)

/-- The linear part. -/
noncomputable def alongLinear (e : Fin n → Fin n → ℝ) : (Fin n → ℝ) →L[ℝ] (Fin n → ℝ) :=
  ∑ i, (ContinuousLinearMap.proj i : (Fin n → ℝ) →L[ℝ] ℝ).smulRight (e i)

theorem alongLinear_apply (e : Fin n → Fin n → ℝ) (x : Fin n → ℝ) :
    alongLinear e x = fun l => ∑ i, x i * e i l := by
  funext l
  simp [alongLinear]

theorem alongLinear_single (e : Fin n → Fin n → ℝ) (i : Fin n) : alongLinear e (Pi.single i 1) = e i := by
  rw [alongLinear_apply]
  funext l
  simp [Pi.single_apply]

theorem along_eq (v : Fin n → ℝ) (e : Fin n → Fin n → ℝ) : along v e = fun x => v + alongLinear e x := by
  funext x
  rw [alongLinear_apply]
  rfl

theorem hasFDerivAt_along (v : Fin n → ℝ) (e : Fin n → Fin n → ℝ) (x : Fin n → ℝ) :
    HasFDerivAt (along v e) (alongLinear e) x := by
  rw [along_eq]
  exact (alongLinear e).hasFDerivAt.const_add v

theorem along_zero (v : Fin n → ℝ) (e : Fin n → Fin n → ℝ) : along v e 0 = v := by
  funext l
  simp [along]

theorem expansion_along {W : (Fin n → ℝ) → ℝ} {v : Fin n → ℝ} (e : Fin n → Fin n → ℝ) {x : Fin n → ℝ}
    {N : Fin n → ℝ} {H : Fin n → Fin n → ℝ} (h : Expansion W (along v e x) N H) :
    Expansion (fun x => W (along v e x)) x (fun i => ∑ l, e i l * N l)
      (fun i j => ∑ l, ∑ m, e i l * e j m * H l m) := by
  obtain ⟨G, hG, D, hD, eN, eH⟩ := h
  refine ⟨fun x => (G (along v e x)).comp (alongLinear e), ?_,
    ((ContinuousLinearMap.compL ℝ (Fin n → ℝ) (Fin n → ℝ) ℝ).flip (alongLinear e)).comp (D.comp (alongLinear e)),
    ?_, fun i => ?_, fun i j => ?_⟩
  · have hc : Tendsto (along v e) (𝓝 x) (𝓝 (along v e x)) := (hasFDerivAt_along v e x).continuousAt
    filter_upwards [hc.eventually hG] with y hy
    exact hy.comp y (hasFDerivAt_along v e y)
  · have h1 := hD.comp x (hasFDerivAt_along v e x)
    exact (((ContinuousLinearMap.compL ℝ (Fin n → ℝ) (Fin n → ℝ) ℝ).flip (alongLinear e)).hasFDerivAt).comp x h1
  · rw [ContinuousLinearMap.comp_apply, alongLinear_single, Lagrangian.Spec.clm_apply_eq]
    exact Finset.sum_congr rfl fun l _ => by rw [eN, mul_comm]
  · rw [ContinuousLinearMap.comp_apply, ContinuousLinearMap.comp_apply, alongLinear_single,
      ContinuousLinearMap.flip_apply, ContinuousLinearMap.compL_apply, ContinuousLinearMap.comp_apply,
      alongLinear_single]
    have h2 : D (e i) = ∑ l, e i l • D (Pi.single l 1) := by
      conv_lhs => rw [show e i = ∑ l, e i l • (Pi.single l 1 : Fin n → ℝ) by
        funext j; simp [Finset.sum_apply, Pi.single_apply]]
      rw [map_sum]
      exact Finset.sum_congr rfl fun l _ => map_smul _ _ _
    rw [h2, _root_.sum_apply]
    refine Finset.sum_congr rfl fun l _ => ?_
    rw [_root_.smul_apply, Lagrangian.Spec.clm_apply_eq, smul_eq_mul, Finset.mul_sum]
    exact Finset.sum_congr rfl fun m _ => by rw [eH]; ring

/-- Third derivatives along the vectors `e i`. -/
theorem Spec.ThirdDerivatives.along {W : (Fin n → ℝ) → ℝ} {v : Fin n → ℝ} (e : Fin n → Fin n → ℝ)
    {T : Fin n → Fin n → Fin n → ℝ} (h : ThirdDerivatives W v T) :
    ThirdDerivatives (fun x => W (along v e x)) 0
      (fun i j k => ∑ l, ∑ m, ∑ q, e i l * e j m * e k q * T l m q) := by
  obtain ⟨N, H, hE, hH⟩ := h
  have hc : Tendsto (Spec.along v e) (𝓝 0) (𝓝 v) := by
    have := (hasFDerivAt_along v e 0).continuousAt
    rwa [ContinuousAt, along_zero] at this
  refine ⟨fun x i => ∑ l, e i l * N (Spec.along v e x) l,
    fun x i j => ∑ l, ∑ m, e i l * e j m * H (Spec.along v e x) l m, ?_, fun i j => ?_⟩
  · filter_upwards [hc.eventually hE] with x hx
    exact expansion_along e hx
  · choose L hL eL using hH
    refine ⟨∑ l, ∑ m, (e i l * e j m) • (L l m).comp (alongLinear e), ?_, fun k => ?_⟩
    · refine HasFDerivAt.fun_sum fun l _ => HasFDerivAt.fun_sum fun m _ => HasFDerivAt.const_mul ?_ _
      have h1 := hL l m
      rw [← along_zero v e] at h1
      exact h1.comp (0 : Fin n → ℝ) (hasFDerivAt_along v e 0)
    · rw [_root_.sum_apply]
      refine Finset.sum_congr rfl fun l _ => ?_
      rw [_root_.sum_apply]
      refine Finset.sum_congr rfl fun m _ => ?_
      rw [_root_.smul_apply, ContinuousLinearMap.comp_apply, alongLinear_single, Lagrangian.Spec.clm_apply_eq,
        smul_eq_mul, Finset.mul_sum]
      exact Finset.sum_congr rfl fun q _ => by rw [eL]; ring

end Verif.Weinberg
