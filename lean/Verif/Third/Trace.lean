import Verif.Third.Deriv

/-!
# Third derivatives of the sum of a function over the eigenvalues
-/

namespace Verif.Weinberg

open Matrix Filter Topology
open scoped BigOperators
open Lagrangian.Spec (Expansion)
open Spec (ThirdDerivatives)

variable {𝕜 : Type} [RCLike 𝕜] {m n : Nat}

/-- The slope of the slope of `f` between the points `x`, `y` and `z`, in the first point of the slope. -/
noncomputable def curve1 (f f' f'' : ℝ → ℝ) (x y z : ℝ) : ℝ := side1 (slope f f') (slope1 f f' f'') x y z

/-- The same in the second point. -/
noncomputable def curve2 (f f' f'' : ℝ → ℝ) (x y z : ℝ) : ℝ :=
  side2 (slope f f') (fun p q => slope1 f f' f'' q p) x y z

theorem curve2_eq (f f' f'' : ℝ → ℝ) (x y z : ℝ) : curve2 f f' f'' x y z = curve1 f f' f'' y z x := by
  unfold curve2 curve1 side2 side1
  rw [slope_symm f f' x y, slope_symm f f' x z]

theorem third_of_grad {W : (Fin n → ℝ) → ℝ} {v : Fin n → ℝ} {T : Fin n → Fin n → Fin n → ℝ}
    {N : (Fin n → ℝ) → Fin n → ℝ} {H : (Fin n → ℝ) → Fin n → Fin n → ℝ} (hE : ∀ᶠ φ in 𝓝 v, Expansion W φ (N φ) (H φ))
    (hH : ∀ k l, Grad (𝕜 := ℝ) (fun φ => H φ k l) (T k l) v) : ThirdDerivatives W v T :=
  ⟨N, H, hE, fun k l => ⟨lin (𝕜 := ℝ) (T k l), hH k l, fun j => (lin_single (𝕜 := ℝ) _ j).symm⟩⟩

/-- **Third derivatives** of the sum of a function over the eigenvalues of a matrix which depends on the fields. -/
theorem Smooth.third {M : (Fin n → ℝ) → Matrix (Fin m) (Fin m) 𝕜}
    {D : Fin n → (Fin n → ℝ) → Matrix (Fin m) (Fin m) 𝕜} {E : Fin n → Fin n → Matrix (Fin m) (Fin m) 𝕜}
    (hM : Smooth M D E) {U : (Fin n → ℝ) → Matrix (Fin m) (Fin m) 𝕜} {a : (Fin n → ℝ) → Fin m → ℝ}
    (hU : ∀ φ, Diag (M φ) (U φ) (a φ)) (v : Fin n → ℝ) {F f f' f'' : ℝ → ℝ}
    (hF : ∀ j, ∀ᶠ x in 𝓝 (a v j), HasDerivAt F (f x) x) (hbF : Bounded F)
    (hf : ∀ j, ∀ᶠ x in 𝓝 (a v j), HasDerivAt f (f' x) x) (hbf : Bounded f)
    (hf' : ∀ j, HasDerivAt f' (f'' (a v j)) (a v j)) :
    ThirdDerivatives (fun φ => ∑ i, F (a φ i)) v fun l k r =>
      (∑ x, ∑ y, ∑ z, curve1 f f' f'' (a v x) (a v y) (a v z) * RCLike.re ((star (U v) * D r v * U v) x y *
            (star (U v) * D k v * U v) y z * (star (U v) * D l v * U v) z x)) +
          (∑ x, ∑ y, ∑ z, curve2 f f' f'' (a v x) (a v y) (a v z) * RCLike.re ((star (U v) * D k v * U v) x y *
            (star (U v) * D r v * U v) y z * (star (U v) * D l v * U v) z x)) +
          (∑ x, ∑ y, slope f f' (a v x) (a v y) *
            (RCLike.re ((star (U v) * E k r * U v) x y * (star (U v) * D l v * U v) y x) +
              RCLike.re ((star (U v) * D k v * U v) x y * (star (U v) * E l r * U v) y x))) +
          ∑ x, ∑ y, slope f f' (a v x) (a v y) *
            RCLike.re ((star (U v) * E k l * U v) x y * (star (U v) * D r v * U v) y x) := by
  refine third_of_grad (N := fun φ k => ∑ p, f (a φ p) * RCLike.re ((star (U φ) * D k φ * U φ) p p))
    (H := fun φ l k => ∑ p, ∑ q, slope f f' (a φ p) (a φ q) *
          RCLike.re ((star (U φ) * D k φ * U φ) p q * (star (U φ) * D l φ * U φ) q p) +
        ∑ p, f (a φ p) * RCLike.re ((star (U φ) * E k l * U φ) p p)) ?_ fun l k => ?_
  · choose δ hδ hball using fun j => Metric.eventually_nhds_iff.1 ((hF j).and (hf j))
    obtain ⟨η, hη, hle⟩ := lower δ hδ
    have ev := (frob_tendsto (M := M) (v := v) (fun i j => hM.first v i j)).eventually (gt_mem_nhds hη)
    filter_upwards [ev] with φ hφ
    have hat : ∀ i, ∀ᶠ x in 𝓝 (a φ i), HasDerivAt F (f x) x ∧ HasDerivAt f (f' x) x := fun i => by
      obtain ⟨j, hj⟩ := (hU φ).near (hU v) i
      have hd : |a φ i - a v j| < η :=
        lt_of_le_of_lt (Real.le_sqrt_of_sq_le (by rw [sq_abs]; exact hj)) hφ
      have : Metric.ball (a v j) (δ j) ∈ 𝓝 (a φ i) := Metric.isOpen_ball.mem_nhds (by
        rw [Metric.mem_ball, Real.dist_eq]
        exact hd.trans_le (hle j))
      filter_upwards [this] with x hx
      exact hball j hx
    exact hM.expansion hU φ (fun i => (hat i).mono fun x h => h.1) hbF (fun i => (hat i).self_of_nhds.2) hbf
  · have hS : ∀ s t, Diff2 (slope f f') (a v s) (a v t) (slope1 f f' f'' (a v s) (a v t))
        (slope1 f f' f'' (a v t) (a v s)) := fun s t => diff2_slope (hf s) (hf t) (hf' s)
    have h1 := (double_grad (S₁ := slope1 f f' f'') (S₂ := fun p q => slope1 f f' f'' q p) hM hU hS k l).re
    have h2 : Grad (𝕜 := ℝ) (fun φ => RCLike.re (trace (E k l * fn f (U φ) (a φ)))) (fun r =>
        ∑ x, ∑ y, slope f f' (a v x) (a v y) *
            RCLike.re ((star (U v) * E k l * U v) x y * (star (U v) * D r v * U v) y x)) v := by
      have e : (fun φ => RCLike.re (trace (E k l * fn f (U φ) (a φ)))) = fun φ =>
          RCLike.re (∑ p, ∑ q, (star (U v) * E k l * U v) p q * (star (U v) * fn f (U φ) (a φ) * U v) q p) := by
        funext φ
        rw [trace_turn (hU v).right]
      rw [e]
      refine (Grad.re (Grad.sum _ fun p _ => Grad.sum _ fun q _ =>
        (fn_grad (fun i j => hM.first v i j) hU (fun j => (hf j).self_of_nhds) hbf q p).const_mul _)).congr_grad ?_
      funext r
      simp only [map_sum]
      refine Finset.sum_congr rfl fun p _ => Finset.sum_congr rfl fun q _ => ?_
      rw [slope_symm, mul_left_comm, RCLike.re_ofReal_mul]
      rfl
    have h3 := h1.add h2
    have e : (fun φ => ∑ p, ∑ q, slope f f' (a φ p) (a φ q) *
          RCLike.re ((star (U φ) * D k φ * U φ) p q * (star (U φ) * D l φ * U φ) q p) +
        ∑ p, f (a φ p) * RCLike.re ((star (U φ) * E k l * U φ) p p)) = fun φ =>
        RCLike.re (∑ i, ∑ i', ((slope f f' (a φ i) (a φ i') : ℝ) : 𝕜) *
          ((star (U φ) * D k φ * U φ) i i' * (star (U φ) * D l φ * U φ) i' i)) +
        RCLike.re (trace (E k l * fn f (U φ) (a φ))) := by
      funext φ
      simp only [map_sum, RCLike.re_ofReal_mul]
      congr 1
      rw [trace_turn (hU φ).right, map_sum]
      refine Finset.sum_congr rfl fun p _ => ?_
      rw [fn_self (hU φ).left, Finset.sum_eq_single p]
      · rw [diagonal_apply_eq, mul_comm _ (f (a φ p) : 𝕜), RCLike.re_ofReal_mul]
      · intro q _ hq
        rw [diagonal_apply_ne _ hq, mul_zero]
      · simp
    rw [e]
    refine Grad.congr_grad (𝕜 := ℝ) h3 ?_
    funext r
    simp only [map_sum, map_add, RCLike.re_ofReal_mul]
    rfl

end Verif.Weinberg
