import Mathlib.Analysis.Calculus.FDeriv.Symmetric
import Mathlib.Analysis.Calculus.FDeriv.Comp
import Mathlib.Analysis.Calculus.FDeriv.CompCLM
import Mathlib.Analysis.Calculus.Deriv.Comp
import Mathlib.Analysis.Calculus.Deriv.Pi
import Mathlib.Analysis.Normed.Module.FiniteDimension
import Mathlib.Analysis.SpecialFunctions.Trigonometric.Deriv

/-!
# First and second derivatives of an invariant function

The counterterms are calculated from the gradient `N` and the Hesse matrix `H` of the
Coleman-Weinberg potential at the vacuum.  That potential is invariant under the gauge
transformations, and this relates the entries of `N` and `H`.
-/

namespace Verif.Lagrangian.Spec

open Filter Topology

variable {n : Nat}

/-- `N` and `H` are the gradient and the Hesse matrix of `W` at `v`. -/
def Expansion (W : (Fin n → ℝ) → ℝ) (v : Fin n → ℝ) (N : Fin n → ℝ) (H : Fin n → Fin n → ℝ) : Prop :=
  ∃ G : (Fin n → ℝ) → ((Fin n → ℝ) →L[ℝ] ℝ), (∀ᶠ φ in 𝓝 v, HasFDerivAt W (G φ) φ) ∧
    ∃ D : (Fin n → ℝ) →L[ℝ] ((Fin n → ℝ) →L[ℝ] ℝ), HasFDerivAt G D v ∧
      (∀ i, N i = G v (Pi.single i 1)) ∧
      ∀ i j, H i j = D (Pi.single i 1) (Pi.single j 1)

theorem clm_apply_eq (L : (Fin n → ℝ) →L[ℝ] ℝ) (x : Fin n → ℝ) :
    L x = ∑ i, L (Pi.single i 1) * x i := by
  have hx : x = ∑ i, x i • (Pi.single i 1 : Fin n → ℝ) := by
    funext j
    simp [Finset.sum_apply, Pi.single_apply]
  conv_lhs => rw [hx]
  rw [map_sum]
  refine Finset.sum_congr rfl fun i _ => ?_
  rw [map_smul, smul_eq_mul, mul_comm]

/-- The Hesse matrix is symmetric. -/
theorem Expansion.symm {W : (Fin n → ℝ) → ℝ} {v N : Fin n → ℝ} {H : Fin n → Fin n → ℝ}
    (h : Expansion W v N H) (i j : Fin n) : H i j = H j i := by
  obtain ⟨G, hG, D, hD, _, hH⟩ := h
  rw [hH, hH]
  exact second_derivative_symmetric_of_eventually hG hD _ _

/-- A family of transformations which starts with the identity and whose first-order part is the
linear map `X`. -/
structure Generates (R : ℝ → (Fin n → ℝ) → (Fin n → ℝ)) (X : (Fin n → ℝ) →L[ℝ] (Fin n → ℝ)) :
    Prop where
  zero : ∀ φ, R 0 φ = φ
  deriv : ∀ φ, HasDerivAt (fun θ => R θ φ) (X φ) 0

/-- `exp(θ X)` for a generator with `X³ = -X` (a doublet multiplied by `exp(i θ σ_a)` or
`exp(i θ)`, singlets unchanged). -/
noncomputable def rotate (X : (Fin n → ℝ) →L[ℝ] (Fin n → ℝ)) (θ : ℝ) (φ : Fin n → ℝ) : Fin n → ℝ :=
  φ + Real.sin θ • X φ + (1 - Real.cos θ) • X (X φ)

theorem rotate_apply (X : (Fin n → ℝ) →L[ℝ] (Fin n → ℝ)) (θ : ℝ) (φ : Fin n → ℝ) (k : Fin n) :
    rotate X θ φ k = φ k + Real.sin θ * X φ k + (1 - Real.cos θ) * X (X φ) k := by
  simp [rotate]

theorem rotate_generates (X : (Fin n → ℝ) →L[ℝ] (Fin n → ℝ)) : Generates (rotate X) X where
  zero φ := by simp [rotate]
  deriv φ := by
    have h1 : HasDerivAt (fun θ => Real.sin θ • X φ) (Real.cos 0 • X φ) 0 :=
      (Real.hasDerivAt_sin 0).smul_const (X φ)
    have h2 : HasDerivAt (fun θ => (1 - Real.cos θ) • X (X φ)) ((0 - -Real.sin 0) • X (X φ)) 0 :=
      ((hasDerivAt_const (0 : ℝ) (1 : ℝ)).sub (Real.hasDerivAt_cos 0)).smul_const (X (X φ))
    have h3 := ((hasDerivAt_const (0 : ℝ) φ).add h1).add h2
    refine h3.congr_deriv ?_
    simp

/-- Consequences of a continuous symmetry (Goldstone's theorem): the gradient is orthogonal to the
direction of the transformation, and the Hesse matrix maps this direction to the transformed
gradient. -/
theorem Expansion.goldstone {W : (Fin n → ℝ) → ℝ} {v N : Fin n → ℝ} {H : Fin n → Fin n → ℝ}
    (h : Expansion W v N H) {R : ℝ → (Fin n → ℝ) → (Fin n → ℝ)}
    {X : (Fin n → ℝ) →L[ℝ] (Fin n → ℝ)} (hR : Generates R X)
    (hinv : ∀ θ φ, W (R θ φ) = W φ) :
    (∑ i, N i * X v i = 0) ∧
      ∀ i, (∑ j, H i j * X v j) + (∑ j, N j * X (Pi.single i 1) j) = 0 := by
  obtain ⟨G, hG, D, hD, hN, hH⟩ := h
  have h1 : ∀ᶠ φ in 𝓝 v, G φ (X φ) = 0 := by
    filter_upwards [hG] with φ hφ
    have hc : HasDerivAt (fun θ => W (R θ φ)) (G φ (X φ)) 0 := by
      have hφ' : HasFDerivAt W (G φ) (R 0 φ) := by rw [hR.zero]; exact hφ
      exact hφ'.comp_hasDerivAt 0 (hR.deriv φ)
    have hc' : HasDerivAt (fun θ => W (R θ φ)) 0 0 := by
      have : (fun θ => W (R θ φ)) = fun _ => W φ := by funext θ; exact hinv θ φ
      rw [this]
      exact hasDerivAt_const _ _
    exact hc.unique hc'
  constructor
  · have := h1.self_of_nhds
    rw [clm_apply_eq] at this
    simpa only [hN] using this
  · intro i
    have hf : HasFDerivAt (fun φ => G φ (X φ)) ((G v).comp X + D.flip (X v)) v :=
      hD.clm_apply (X.hasFDerivAt)
    have hf0 : HasFDerivAt (fun φ => G φ (X φ)) (0 : (Fin n → ℝ) →L[ℝ] ℝ) v :=
      (hasFDerivAt_const (0 : ℝ) v).congr_of_eventuallyEq h1
    have he := hf.unique hf0
    have he' := congrArg (fun L => L (Pi.single i 1)) he
    simp only [_root_.add_apply, ContinuousLinearMap.comp_apply,
      ContinuousLinearMap.flip_apply, _root_.zero_apply] at he'
    rw [clm_apply_eq (G v), clm_apply_eq (D (Pi.single i 1))] at he'
    simp only [hN, hH]
    linarith [he']

/-- Consequences of a symmetry transformation which leaves the vacuum unchanged: the Hesse matrix is
invariant. -/
theorem Expansion.residual {W : (Fin n → ℝ) → ℝ} {v N : Fin n → ℝ} {H : Fin n → Fin n → ℝ}
    (h : Expansion W v N H) (R : (Fin n → ℝ) →L[ℝ] (Fin n → ℝ)) (hv : R v = v)
    (hinv : ∀ φ, W (R φ) = W φ) :
    (∀ i, ∑ j, N j * R (Pi.single i 1) j = N i) ∧
      ∀ i j, ∑ k, (∑ l, H k l * R (Pi.single j 1) l) * R (Pi.single i 1) k = H i j := by
  obtain ⟨G, hG, D, hD, hN, hH⟩ := h
  have hG' : ∀ᶠ φ in 𝓝 v, HasFDerivAt W (G (R φ)) (R φ) := by
    have hc : Tendsto R (𝓝 v) (𝓝 v) := by
      have := R.continuous.tendsto v
      rwa [hv] at this
    exact hc.eventually hG
  have h1 : ∀ᶠ φ in 𝓝 v, (G (R φ)).comp R = G φ := by
    filter_upwards [hG, hG'] with φ h1 h2
    have hc : HasFDerivAt (fun φ => W (R φ)) ((G (R φ)).comp R) φ := h2.comp φ R.hasFDerivAt
    have : (fun φ => W (R φ)) = W := by funext φ; exact hinv φ
    rw [this] at hc
    exact hc.unique h1
  constructor
  · intro i
    have h2 := h1.self_of_nhds
    rw [hv] at h2
    have h3 := congrArg (fun L => L (Pi.single i 1)) h2
    simp only [ContinuousLinearMap.comp_apply] at h3
    rw [clm_apply_eq] at h3
    simp only [hN]
    exact h3
  · intro i j
    have hD' : HasFDerivAt G D (R v) := by rw [hv]; exact hD
    have hg : HasFDerivAt (fun φ => G (R φ)) (D.comp R) v := hD'.comp v R.hasFDerivAt
    have hf : HasFDerivAt (fun φ => G (R φ) (R (Pi.single j 1)))
        ((D.comp R).flip (R (Pi.single j 1))) v := by
      have := hg.clm_apply (hasFDerivAt_const (R (Pi.single j 1)) v)
      simpa using this
    have hf' : HasFDerivAt (fun φ => G φ (Pi.single j 1)) (D.flip (Pi.single j 1)) v := by
      have := hD.clm_apply (hasFDerivAt_const (Pi.single j 1 : Fin n → ℝ) v)
      simpa using this
    have heq : (fun φ => G φ (Pi.single j 1)) =ᶠ[𝓝 v]
        fun φ => G (R φ) (R (Pi.single j 1)) := by
      filter_upwards [h1] with φ hφ
      rw [← hφ]; rfl
    have he := (hf.congr_of_eventuallyEq heq).unique hf'
    have he' := congrArg (fun L => L (Pi.single i 1)) he
    simp only [ContinuousLinearMap.flip_apply, ContinuousLinearMap.comp_apply] at he'
    simp only [hH]
    rw [← he', ← ContinuousLinearMap.flip_apply, clm_apply_eq]
    refine Finset.sum_congr rfl fun k _ => ?_
    rw [ContinuousLinearMap.flip_apply, clm_apply_eq (D (Pi.single k 1))]

/-- Exchange of fields in pairs combined with signs. -/
noncomputable def signedSwap (τ : Fin n → Fin n) (c : Fin n → ℝ) : (Fin n → ℝ) →L[ℝ] (Fin n → ℝ) :=
  LinearMap.toContinuousLinearMap
    { toFun := fun φ k => c k * φ (τ k)
      map_add' := by intro x y; funext k; simp [mul_add]
      map_smul' := by intro a x; funext k; simp [mul_left_comm] }

theorem signedSwap_apply (τ : Fin n → Fin n) (c : Fin n → ℝ) (φ : Fin n → ℝ) (k : Fin n) :
    signedSwap τ c φ k = c k * φ (τ k) := rfl

theorem signedSwap_single (τ : Fin n → Fin n) (hτ : ∀ k, τ (τ k) = k) (c : Fin n → ℝ) (i : Fin n) :
    signedSwap τ c (Pi.single i 1) = Pi.single (τ i) (c (τ i)) := by
  funext k
  rw [signedSwap_apply]
  by_cases h : k = τ i
  · subst h; simp [hτ]
  · have : τ k ≠ i := fun hk => h (by rw [← hk, hτ])
    simp [h, this]

/-- A symmetry which exchanges fields in pairs up to signs and leaves the vacuum unchanged. -/
theorem Expansion.signed {W : (Fin n → ℝ) → ℝ} {v N : Fin n → ℝ} {H : Fin n → Fin n → ℝ}
    (h : Expansion W v N H) (τ : Fin n → Fin n) (hτ : ∀ k, τ (τ k) = k) (c : Fin n → ℝ)
    (hv : ∀ k, c k * v (τ k) = v k) (hinv : ∀ φ, W (fun k => c k * φ (τ k)) = W φ) :
    (∀ i, c (τ i) * N (τ i) = N i) ∧ ∀ i j, c (τ i) * c (τ j) * H (τ i) (τ j) = H i j := by
  obtain ⟨h1, h2⟩ := h.residual (signedSwap τ c) (funext hv) hinv
  simp only [signedSwap_single τ hτ, Pi.single_apply, mul_ite, mul_zero, Finset.sum_ite_eq',
    Finset.mem_univ, if_true] at h1 h2
  exact ⟨fun i => by rw [← h1 i]; ring, fun i j => by rw [← h2 i j]; ring⟩

theorem Expansion.smul {W : (Fin n → ℝ) → ℝ} {v N : Fin n → ℝ} {H : Fin n → Fin n → ℝ}
    (h : Expansion W v N H) (a : ℝ) :
    Expansion (fun φ => a * W φ) v (fun i => a * N i) (fun i j => a * H i j) := by
  obtain ⟨G, hG, D, hD, hN, hH⟩ := h
  refine ⟨fun φ => a • G φ, ?_, a • D, hD.const_smul a, fun i => ?_, fun i j => ?_⟩
  · filter_upwards [hG] with φ hφ
    exact hφ.const_mul a
  · dsimp only; rw [hN]; rfl
  · dsimp only; rw [hH]; rfl

/-- The expansion of half the square of the fields. -/
theorem expansion_square (v : Fin n → ℝ) :
    Expansion (fun φ => (∑ k, φ k ^ 2) / 2) v v (fun i j => if i = j then 1 else 0) := by
  have hp : ∀ k (φ : Fin n → ℝ), HasFDerivAt (fun φ : Fin n → ℝ => φ k)
      (ContinuousLinearMap.proj (R := ℝ) (φ := fun _ : Fin n => ℝ) k) φ :=
    fun k φ => (ContinuousLinearMap.proj (R := ℝ) (φ := fun _ : Fin n => ℝ) k).hasFDerivAt
  have hG : ∀ φ x : Fin n → ℝ, (∑ k, (ContinuousLinearMap.proj (R := ℝ)
      (φ := fun _ : Fin n => ℝ) k).smulRight
      (ContinuousLinearMap.proj (R := ℝ) (φ := fun _ : Fin n => ℝ) k)) φ x = ∑ k, φ k * x k := by
    intro φ x
    simp
  refine ⟨fun φ => (∑ k, (ContinuousLinearMap.proj (R := ℝ)
      (φ := fun _ : Fin n => ℝ) k).smulRight
      (ContinuousLinearMap.proj (R := ℝ) (φ := fun _ : Fin n => ℝ) k)) φ, ?_,
    _, ContinuousLinearMap.hasFDerivAt _, ?_, ?_⟩
  · refine Eventually.of_forall fun φ => ?_
    have h := (HasFDerivAt.fun_sum (u := Finset.univ) fun k _ => (hp k φ).mul (hp k φ)).mul_const
      ((1 : ℝ) / 2)
    refine (h.congr_fderiv ?_).congr_of_eventuallyEq (Eventually.of_forall fun φ => ?_)
    · ext x
      rw [hG]
      simp only [smul_apply, _root_.sum_apply, _root_.add_apply, smul_eq_mul,
        ContinuousLinearMap.proj_apply]
      rw [Finset.mul_sum]
      refine Finset.sum_congr rfl fun k _ => ?_
      ring
    · simp [div_eq_mul_inv, pow_two]
  · intro i
    rw [hG]
    simp [Pi.single_apply]
  · intro i j
    rw [hG]
    simp [Pi.single_apply, eq_comm]

end Verif.Lagrangian.Spec
