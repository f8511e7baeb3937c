import Verif.Weinberg.Estimate
import Verif.Lagrangian.Invariance
import Mathlib.Analysis.Calculus.FDeriv.Mul
import Mathlib.Analysis.Calculus.FDeriv.Add

/-!
# Gradient and Hesse matrix of the trace of a function of a field-dependent matrix
-/

namespace Verif.Weinberg

open Matrix Filter Topology
open scoped BigOperators
open Lagrangian.Spec (Expansion)

variable {𝕜 : Type} [RCLike 𝕜] {m n : Nat}

/-- The linear map with the coefficients `c`. -/
noncomputable def lin (c : Fin n → 𝕜) : (Fin n → ℝ) →L[ℝ] 𝕜 :=
  ∑ l, (ContinuousLinearMap.proj l : (Fin n → ℝ) →L[ℝ] ℝ).smulRight (c l)

theorem lin_apply (c : Fin n → 𝕜) (h : Fin n → ℝ) : lin c h = ∑ l, (h l : 𝕜) * c l := by
  rw [lin, _root_.sum_apply]
  refine Finset.sum_congr rfl fun l _ => ?_
  rw [ContinuousLinearMap.smulRight_apply, ContinuousLinearMap.proj_apply, RCLike.real_smul_eq_coe_mul]

theorem lin_single (c : Fin n → 𝕜) (k : Fin n) : lin c (Pi.single k 1) = c k := by
  rw [lin_apply, Finset.sum_eq_single k]
  · simp
  · intro l _ hl
    simp [Pi.single_eq_of_ne hl]
  · simp

/-- `c` is the gradient of `F` at `v`. -/
def Grad (F : (Fin n → ℝ) → 𝕜) (c : Fin n → 𝕜) (v : Fin n → ℝ) : Prop := HasFDerivAt F (lin c) v

section

variable {F F' : (Fin n → ℝ) → 𝕜} {c c' : Fin n → 𝕜} {v : Fin n → ℝ}

theorem Grad.add (h : Grad F c v) (h' : Grad F' c' v) :
    Grad (fun φ => F φ + F' φ) (fun k => c k + c' k) v := by
  refine (HasFDerivAt.add h h').congr_fderiv ?_
  ext φ
  simp [lin_apply, mul_add, Finset.sum_add_distrib]

theorem Grad.sub (h : Grad F c v) (h' : Grad F' c' v) :
    Grad (fun φ => F φ - F' φ) (fun k => c k - c' k) v := by
  refine (HasFDerivAt.sub h h').congr_fderiv ?_
  ext φ
  simp [lin_apply, mul_sub, Finset.sum_sub_distrib]

theorem Grad.const (x : 𝕜) : Grad (fun _ => x) (fun _ : Fin n => 0) v := by
  refine (hasFDerivAt_const x v).congr_fderiv ?_
  ext φ
  simp [lin_apply]

theorem Grad.mul (h : Grad F c v) (h' : Grad F' c' v) :
    Grad (fun φ => F φ * F' φ) (fun k => F v * c' k + c k * F' v) v := by
  refine (HasFDerivAt.mul h h').congr_fderiv ?_
  ext φ
  simp only [_root_.add_apply, _root_.smul_apply, lin_apply, smul_eq_mul,
    Finset.mul_sum, ← Finset.sum_add_distrib]
  exact Finset.sum_congr rfl fun k _ => by ring

theorem Grad.const_mul (h : Grad F c v) (x : 𝕜) : Grad (fun φ => x * F φ) (fun k => x * c k) v := by
  have := (Grad.const (v := v) x).mul h
  simpa using this

theorem Grad.mul_const (h : Grad F c v) (x : 𝕜) : Grad (fun φ => F φ * x) (fun k => c k * x) v := by
  have := h.mul (Grad.const (v := v) x)
  simpa using this

theorem Grad.sum {ι : Type} (s : Finset ι) {F : ι → (Fin n → ℝ) → 𝕜} {c : ι → Fin n → 𝕜}
    (h : ∀ i ∈ s, Grad (F i) (c i) v) :
    Grad (fun φ => ∑ i ∈ s, F i φ) (fun k => ∑ i ∈ s, c i k) v := by
  classical
  induction s using Finset.induction_on with
  | empty => simpa using Grad.const (v := v) (0 : 𝕜)
  | insert i s hi ih =>
    simp only [Finset.sum_insert hi]
    exact (h i (Finset.mem_insert_self _ _)).add
      (ih fun j hj => h j (Finset.mem_insert_of_mem hj))

theorem Grad.re (h : Grad F c v) :
    Grad (𝕜 := ℝ) (fun φ => RCLike.re (F φ)) (fun k => RCLike.re (c k)) v := by
  have := (RCLike.reCLM (K := 𝕜)).hasFDerivAt.comp v h
  refine HasFDerivAt.congr_fderiv this ?_
  ext φ
  simp [lin_apply]

theorem Grad.coord (k : Fin n) : Grad (𝕜 := ℝ) (fun φ => φ k) (Pi.single k 1) v := by
  refine (ContinuousLinearMap.proj (R := ℝ) (φ := fun _ : Fin n => ℝ) k).hasFDerivAt.congr_fderiv ?_
  ext φ
  rw [lin_apply]
  simp [Pi.single_apply]

theorem Grad.ofReal {F : (Fin n → ℝ) → ℝ} {c : Fin n → ℝ} (h : Grad F c v) :
    Grad (fun φ => (F φ : 𝕜)) (fun k => (c k : 𝕜)) v := by
  have := (RCLike.ofRealCLM (K := 𝕜)).hasFDerivAt.comp v h
  refine HasFDerivAt.congr_fderiv this ?_
  ext φ
  simp [lin_apply]

theorem Grad.congr_grad (h : Grad F c v) (e : c = c') : Grad F c' v := e ▸ h

theorem Grad.unique (h : Grad F c v) (h' : Grad F c' v) : c = c' := by
  have := HasFDerivAt.unique h h'
  funext k
  rw [← lin_single c, this, lin_single]

end

/-- The derivatives of a matrix that depends on the fields: `D k` is the derivative with respect to
field `k`, `E k l` the derivative of `D k` with respect to field `l`. -/
structure Smooth (M : (Fin n → ℝ) → Matrix (Fin m) (Fin m) 𝕜)
    (D : Fin n → (Fin n → ℝ) → Matrix (Fin m) (Fin m) 𝕜)
    (E : Fin n → Fin n → Matrix (Fin m) (Fin m) 𝕜) : Prop where
  first : ∀ φ i j, Grad (fun ψ => M ψ i j) (fun k => D k φ i j) φ
  second : ∀ k φ i j, Grad (fun ψ => D k ψ i j) (fun l => E k l i j) φ

section

variable {M : (Fin n → ℝ) → Matrix (Fin m) (Fin m) 𝕜}
  {D : Fin n → (Fin n → ℝ) → Matrix (Fin m) (Fin m) 𝕜} {E : Fin n → Fin n → Matrix (Fin m) (Fin m) 𝕜}
  {U : (Fin n → ℝ) → Matrix (Fin m) (Fin m) 𝕜} {a : (Fin n → ℝ) → Fin m → ℝ} {v : Fin n → ℝ}

theorem sqrt_frob_le (X : Matrix (Fin m) (Fin m) 𝕜) : √(frob X) ≤ ∑ i, ∑ j, ‖X i j‖ := by
  refine Real.sqrt_le_iff.2 ⟨by positivity, ?_⟩
  rw [frob]
  have h : ∀ (ι : Type) [Fintype ι] (x : ι → ℝ), (∀ i, 0 ≤ x i) → ∑ i, x i ^ 2 ≤ (∑ i, x i) ^ 2 :=
    fun ι _ x hx => by
      rw [sq, Finset.sum_mul]
      refine Finset.sum_le_sum fun i _ => ?_
      rw [sq]
      exact mul_le_mul_of_nonneg_left
        (Finset.single_le_sum (f := x) (fun j _ => hx j) (Finset.mem_univ i)) (hx i)
  calc _ ≤ ∑ i, (∑ j, ‖X i j‖) ^ 2 := Finset.sum_le_sum fun i _ => h _ _ fun j => norm_nonneg _
    _ ≤ _ := h _ _ fun i => by positivity

theorem frob_isBigO {d : Fin m → Fin m → Fin n → 𝕜} (hM : ∀ i j, Grad (fun ψ => M ψ i j) (d i j) v) :
    (fun φ => √(frob (M φ - M v))) =O[𝓝 v] fun φ => φ - v := by
  have h : (fun φ => ∑ i, ∑ j, ‖(M φ - M v) i j‖) =O[𝓝 v] fun φ => φ - v := by
    refine Asymptotics.IsBigO.fun_sum fun i _ => Asymptotics.IsBigO.fun_sum fun j _ => ?_
    exact Asymptotics.IsBigO.norm_left (HasFDerivAt.isBigO_sub (hM i j))
  refine Asymptotics.IsBigO.trans ?_ h
  refine Asymptotics.IsBigO.of_bound 1 (Eventually.of_forall fun φ => ?_)
  rw [one_mul, Real.norm_eq_abs, Real.norm_eq_abs, abs_of_nonneg (Real.sqrt_nonneg _)]
  exact (sqrt_frob_le _).trans (le_abs_self _)

theorem frob_tendsto {d : Fin m → Fin m → Fin n → 𝕜} (hM : ∀ i j, Grad (fun ψ => M ψ i j) (d i j) v) :
    Tendsto (fun φ => √(frob (M φ - M v))) (𝓝 v) (𝓝 0) := by
  refine (frob_isBigO hM).trans_tendsto ?_
  have : Tendsto (fun φ : Fin n → ℝ => φ - v) (𝓝 v) (𝓝 (v - v)) := tendsto_id.sub tendsto_const_nhds
  rwa [sub_self] at this

/-- A function that agrees with a differentiable one up to a small remainder. -/
theorem grad_of_remainder {X : (Fin n → ℝ) → 𝕜} {Y : (Fin n → ℝ) → 𝕜} {c : Fin n → 𝕜}
    {r : (Fin n → ℝ) → ℝ} (hr : r =O[𝓝 v] fun φ => φ - v) (hY : Grad Y c v)
    (h : ∀ ε > 0, ∀ᶠ φ in 𝓝 v, ‖X φ - X v - (Y φ - Y v)‖ ≤ ε * ‖r φ‖) : Grad X c v := by
  have h1 : (fun φ => X φ - X v - (Y φ - Y v)) =o[𝓝 v] r := by
    rw [Asymptotics.isLittleO_iff]
    exact fun ε hε => h ε hε
  have h2 := h1.trans_isBigO hr
  have h3 := HasFDerivAt.isLittleO hY
  refine HasFDerivAt.of_isLittleO ?_
  refine (h2.add h3).congr_left fun φ => ?_
  ring

/-- The gradient of the trace of a function of a matrix. -/
theorem trace_grad {d : Fin m → Fin m → Fin n → 𝕜} (hM : ∀ i j, Grad (fun ψ => M ψ i j) (d i j) v)
    (hU : ∀ φ, Diag (M φ) (U φ) (a φ)) {F f : ℝ → ℝ}
    (hF : ∀ j, HasDerivAt F (f (a v j)) (a v j)) (hb : Bounded F) :
    Grad (𝕜 := ℝ) (fun φ => ∑ i, F (a φ i))
      (fun k => RCLike.re (trace (of (fun i j => d i j k) * fn f (U v) (a v)))) v := by
  set P := fn f (U v) (a v)
  have hY : Grad (𝕜 := ℝ) (fun φ => RCLike.re (trace (M φ * P)))
      (fun k => RCLike.re (trace (of (fun i j => d i j k) * P))) v := by
    refine Grad.re ?_
    simp only [trace, diag_apply, mul_apply, of_apply]
    exact Grad.sum _ fun i _ => Grad.sum _ fun j _ => (hM i j).mul_const _
  refine grad_of_remainder (frob_isBigO hM) hY fun ε hε => ?_
  obtain ⟨δ, hδ, h⟩ := trace_estimate (hU v) hF hb hε
  have ev := (frob_tendsto hM).eventually (gt_mem_nhds hδ)
  filter_upwards [ev] with φ hφ
  have := h (M φ) (U φ) (a φ) (hU φ) hφ
  rw [Real.norm_eq_abs, Real.norm_eq_abs, abs_of_nonneg (Real.sqrt_nonneg _), ← map_sub, ← trace_sub,
    ← sub_mul]
  exact this

/-- The gradient of a function of a matrix. -/
theorem fn_grad {d : Fin m → Fin m → Fin n → 𝕜} (hM : ∀ i j, Grad (fun ψ => M ψ i j) (d i j) v)
    (hU : ∀ φ, Diag (M φ) (U φ) (a φ)) {f f' : ℝ → ℝ}
    (hf : ∀ j, HasDerivAt f (f' (a v j)) (a v j)) (hb : Bounded f) (p q : Fin m) :
    Grad (fun φ => (star (U v) * fn f (U φ) (a φ) * U v) p q)
      (fun k => (slope f f' (a v p) (a v q) : 𝕜) *
        (star (U v) * of (fun i j => d i j k) * U v) p q) v := by
  have hY : Grad (fun φ => (slope f f' (a v p) (a v q) : 𝕜) * (star (U v) * M φ * U v) p q)
      (fun k => (slope f f' (a v p) (a v q) : 𝕜) *
        (star (U v) * of (fun i j => d i j k) * U v) p q) v := by
    refine Grad.const_mul ?_ _
    simp only [mul_apply, of_apply]
    exact Grad.sum _ fun i _ => (Grad.sum _ fun j _ => (hM j i).const_mul _).mul_const _
  refine grad_of_remainder (frob_isBigO hM) hY fun ε hε => ?_
  obtain ⟨δ, hδ, h⟩ := fn_estimate (hU v) hf hb p q hε
  have ev := (frob_tendsto hM).eventually (gt_mem_nhds hδ)
  filter_upwards [ev] with φ hφ
  have := h (M φ) (U φ) (a φ) (hU φ) hφ
  rw [Real.norm_eq_abs, abs_of_nonneg (Real.sqrt_nonneg _), ← Matrix.sub_apply, ← mul_sub, ← sub_mul,
    ← Matrix.sub_apply, ← sub_mul, ← mul_sub (star (U v)) (M φ),
    ← mul_sub (star (U v)) (fn f (U φ) (a φ))]
  exact this

end

theorem trace_turn {V : Matrix (Fin m) (Fin m) 𝕜} (hV : V * star V = 1) (X Y : Matrix (Fin m) (Fin m) 𝕜) :
    trace (X * Y) = ∑ p, ∑ q, (star V * X * V) p q * (star V * Y * V) q p := by
  have h : trace (star V * X * V * (star V * Y * V)) = trace (X * Y) := by
    have e : star V * X * V * (star V * Y * V) = star V * (X * (V * star V) * Y * V) := by
      simp only [mul_assoc]
    rw [e, trace_mul_comm, hV, mul_one, mul_assoc, hV, mul_one]
  rw [← h, trace]
  exact Finset.sum_congr rfl fun p _ => Matrix.mul_apply

/-- **Gradient and Hesse matrix** of the sum of a function over the eigenvalues of a matrix which
depends on the fields, in terms of the derivatives of the matrix between its eigenvectors. -/
theorem Smooth.expansion {M : (Fin n → ℝ) → Matrix (Fin m) (Fin m) 𝕜}
    {D : Fin n → (Fin n → ℝ) → Matrix (Fin m) (Fin m) 𝕜} {E : Fin n → Fin n → Matrix (Fin m) (Fin m) 𝕜}
    (hM : Smooth M D E) {U : (Fin n → ℝ) → Matrix (Fin m) (Fin m) 𝕜} {a : (Fin n → ℝ) → Fin m → ℝ}
    (hU : ∀ φ, Diag (M φ) (U φ) (a φ)) (v : Fin n → ℝ) {F f f' : ℝ → ℝ}
    (hF : ∀ j, ∀ᶠ x in 𝓝 (a v j), HasDerivAt F (f x) x) (hbF : Bounded F)
    (hf : ∀ j, HasDerivAt f (f' (a v j)) (a v j)) (hbf : Bounded f) :
    Expansion (fun φ => ∑ i, F (a φ i)) v
      (fun k => ∑ p, f (a v p) * RCLike.re ((star (U v) * D k v * U v) p p))
      (fun l k => ∑ p, ∑ q, slope f f' (a v p) (a v q) *
          RCLike.re ((star (U v) * D k v * U v) p q * (star (U v) * D l v * U v) q p) +
        ∑ p, f (a v p) * RCLike.re ((star (U v) * E k l * U v) p p)) := by
  set s : Fin n → (Fin n → ℝ) → ℝ := fun k φ => RCLike.re (trace (D k φ * fn f (U φ) (a φ))) with hs
  have hfirst : ∀ᶠ φ in 𝓝 v, HasFDerivAt (fun φ => ∑ i, F (a φ i)) (lin (𝕜 := ℝ) fun k => s k φ) φ := by
    choose δ hδ hball using fun j => Metric.eventually_nhds_iff.1 (hF j)
    have hall : ∃ η > 0, ∀ j, η ≤ δ j := by
      by_cases hm : Nonempty (Fin m)
      · obtain ⟨j0, -, hj0⟩ := Finset.exists_min_image Finset.univ δ
          (Finset.univ_nonempty_iff.2 hm)
        exact ⟨δ j0, hδ j0, fun j => hj0 j (Finset.mem_univ j)⟩
      · exact ⟨1, one_pos, fun j => absurd ⟨j⟩ hm⟩
    obtain ⟨η, hη, hle⟩ := hall
    have ev := (frob_tendsto (M := M) (v := v) (fun i j => hM.first v i j)).eventually
      (gt_mem_nhds hη)
    filter_upwards [ev] with φ hφ
    have hat : ∀ i, HasDerivAt F (f (a φ i)) (a φ i) := fun i => by
      obtain ⟨j, hj⟩ := (hU φ).near (hU v) i
      refine hball j ?_
      rw [Real.dist_eq]
      refine lt_of_le_of_lt (Real.le_sqrt_of_sq_le (by rw [sq_abs]; exact hj)) (lt_of_lt_of_le hφ (hle j))
    exact trace_grad (fun i j => hM.first φ i j) hU hat hbF
  have hscalar : ∀ k, Grad (𝕜 := ℝ) (s k) (fun l => ∑ p, ∑ q, slope f f' (a v p) (a v q) *
          RCLike.re ((star (U v) * D k v * U v) p q * (star (U v) * D l v * U v) q p) +
        ∑ p, f (a v p) * RCLike.re ((star (U v) * E k l * U v) p p)) v := fun k => by
    have e : s k = fun φ => RCLike.re (∑ p, ∑ q, (star (U v) * D k φ * U v) p q *
        (star (U v) * fn f (U φ) (a φ) * U v) q p) := by
      funext φ
      rw [hs]
      dsimp only
      rw [trace_turn (hU v).right]
    rw [e]
    have h1 : ∀ p q, Grad (fun φ => (star (U v) * D k φ * U v) p q)
        (fun l => (star (U v) * E k l * U v) p q) v := fun p q => by
      simp only [mul_apply]
      exact Grad.sum _ fun i _ => (Grad.sum _ fun j _ => (hM.second k v j i).const_mul _).mul_const _
    have h2 : ∀ p q, Grad (fun φ => (star (U v) * fn f (U φ) (a φ) * U v) p q)
        (fun l => (slope f f' (a v p) (a v q) : 𝕜) * (star (U v) * D l v * U v) p q) v :=
      fun p q => fn_grad (fun i j => hM.first v i j) hU hf hbf p q
    refine (Grad.re (Grad.sum _ fun p _ => Grad.sum _ fun q _ => (h1 p q).mul (h2 q p))).congr_grad ?_
    funext l
    simp only [map_sum, map_add, Finset.sum_add_distrib]
    congr 1
    · refine Finset.sum_congr rfl fun p _ => Finset.sum_congr rfl fun q _ => ?_
      rw [slope_symm, mul_left_comm, RCLike.re_ofReal_mul]
    · refine Finset.sum_congr rfl fun p _ => ?_
      rw [fn_self (hU v).left, Finset.sum_eq_single p]
      · rw [diagonal_apply_eq, mul_comm, RCLike.re_ofReal_mul]
      · intro q _ hq
        rw [diagonal_apply_ne _ hq, mul_zero, map_zero]
      · simp
  refine ⟨fun φ => lin (𝕜 := ℝ) fun k => s k φ, hfirst,
    ∑ k, (lin (𝕜 := ℝ) (fun l => ∑ p, ∑ q, slope f f' (a v p) (a v q) *
          RCLike.re ((star (U v) * D k v * U v) p q * (star (U v) * D l v * U v) q p) +
        ∑ p, f (a v p) * RCLike.re ((star (U v) * E k l * U v) p p))).smulRight
      (ContinuousLinearMap.proj k : (Fin n → ℝ) →L[ℝ] ℝ), ?_, fun i => ?_, fun i j => ?_⟩
  · have e : (fun φ => lin (𝕜 := ℝ) fun k => s k φ) =
        fun φ => ∑ k, s k φ • (ContinuousLinearMap.proj k : (Fin n → ℝ) →L[ℝ] ℝ) := by
      funext φ
      ext h
      simp [lin_apply, mul_comm]
    rw [e]
    exact HasFDerivAt.fun_sum fun k _ =>
      HasFDerivAt.smul_const (hscalar k) (ContinuousLinearMap.proj k : (Fin n → ℝ) →L[ℝ] ℝ)
  · rw [lin_single, hs]
    dsimp only
    rw [trace_turn (hU v).right, map_sum]
    refine Finset.sum_congr rfl fun p _ => ?_
    rw [fn_self (hU v).left, Finset.sum_eq_single p]
    · rw [diagonal_apply_eq, mul_comm _ (f (a v p) : 𝕜), RCLike.re_ofReal_mul]
    · intro q _ hq
      rw [diagonal_apply_ne _ hq, mul_zero]
    · simp
  · rw [_root_.sum_apply, _root_.sum_apply, Finset.sum_eq_single j]
    · rw [ContinuousLinearMap.smulRight_apply, lin_single, _root_.smul_apply,
        ContinuousLinearMap.proj_apply, Pi.single_eq_same, smul_eq_mul, mul_one]
    · intro k _ hk
      rw [ContinuousLinearMap.smulRight_apply, _root_.smul_apply,
        ContinuousLinearMap.proj_apply, Pi.single_eq_of_ne hk, smul_zero]
    · simp

end Verif.Weinberg
