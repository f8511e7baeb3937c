import Verif.Third.Estimate
import Verif.Weinberg.Deriv
import Verif.Lagrangian.Expansions

/-!
# Third derivatives of the trace of a function of a field-dependent matrix
-/

set_option linter.unusedVariables false

namespace Verif.Weinberg

open Matrix Filter Topology
open scoped BigOperators
open Lagrangian.Spec (Expansion)

variable {𝕜 : Type} [RCLike 𝕜] {m n : Nat}

/-- `T` are the third derivatives of `W` at `v`: near `v` the function has a Hesse matrix, and its entries have the
gradients `T k l`. -/
def Spec.ThirdDerivatives (W : (Fin n → ℝ) → ℝ) (v : Fin n → ℝ) (T : Fin n → Fin n → Fin n → ℝ) : Prop :=
  ∃ (N : (Fin n → ℝ) → Fin n → ℝ) (H : (Fin n → ℝ) → Fin n → Fin n → ℝ),
    (∀ᶠ φ in 𝓝 v, Expansion W φ (N φ) (H φ)) ∧
    ∀ k l, ∃ L : (Fin n → ℝ) →L[ℝ] ℝ, HasFDerivAt (fun φ => H φ k l) L v ∧ ∀ j, T k l j = L (Pi.single j 1)

open Spec (ThirdDerivatives)

section

variable {W W' : (Fin n → ℝ) → ℝ} {v : Fin n → ℝ} {T T' : Fin n → Fin n → Fin n → ℝ}

theorem Spec.ThirdDerivatives.add (h : ThirdDerivatives W v T) (h' : ThirdDerivatives W' v T') :
    ThirdDerivatives (fun φ => W φ + W' φ) v (fun i j k => T i j k + T' i j k) := by
  obtain ⟨N, H, hE, hH⟩ := h
  obtain ⟨N', H', hE', hH'⟩ := h'
  refine ⟨fun φ i => N φ i + N' φ i, fun φ i j => H φ i j + H' φ i j, ?_, fun k l => ?_⟩
  · filter_upwards [hE, hE'] with φ h1 h2
    exact h1.add h2
  · obtain ⟨L, hL, e⟩ := hH k l
    obtain ⟨L', hL', e'⟩ := hH' k l
    exact ⟨L + L', hL.add hL', fun j => by dsimp only; rw [e, e']; rfl⟩

theorem Spec.ThirdDerivatives.smul (h : ThirdDerivatives W v T) (x : ℝ) :
    ThirdDerivatives (fun φ => x * W φ) v (fun i j k => x * T i j k) := by
  obtain ⟨N, H, hE, hH⟩ := h
  refine ⟨fun φ i => x * N φ i, fun φ i j => x * H φ i j, ?_, fun k l => ?_⟩
  · filter_upwards [hE] with φ h1
    exact h1.smul x
  · obtain ⟨L, hL, e⟩ := hH k l
    exact ⟨x • L, hL.const_mul x, fun j => by dsimp only; rw [e]; rfl⟩

theorem Spec.ThirdDerivatives.congr (h : ThirdDerivatives W v T) (hW : W = W') (hT : ∀ i j k, T i j k = T' i j k) :
    ThirdDerivatives W' v T' := by
  have : T = T' := funext fun i => funext fun j => funext fun k => hT i j k
  subst hW this
  exact h

end

section

variable {M : (Fin n → ℝ) → Matrix (Fin m) (Fin m) 𝕜}
  {D : Fin n → (Fin n → ℝ) → Matrix (Fin m) (Fin m) 𝕜} {E : Fin n → Fin n → Matrix (Fin m) (Fin m) 𝕜}
  {U : (Fin n → ℝ) → Matrix (Fin m) (Fin m) 𝕜} {a : (Fin n → ℝ) → Fin m → ℝ} {v : Fin n → ℝ}

theorem weigh_self {V : Matrix (Fin m) (Fin m) 𝕜} (hV : star V * V = 1) (S : ℝ → ℝ → ℝ) (b : Fin m → ℝ)
    (k p q j : Fin m) :
    weigh S V V b k p q j = (if k = p then 1 else 0) * (if q = j then 1 else 0) * (S (b p) (b j) : 𝕜) := by
  unfold weigh
  rw [hV, Finset.sum_eq_single p, Finset.sum_eq_single j]
  · simp only [one_apply, apply_ite star, star_one, star_zero, if_true]
    by_cases h1 : k = p <;> by_cases h2 : q = j <;> simp [h1, h2, Ne.symm]
  · intro i _ hi
    simp [one_apply, hi]
  · simp
  · intro i _ hi
    simp [one_apply, hi]
  · simp

/-- The gradient of the weights. -/
theorem weigh_grad {d : Fin m → Fin m → Fin n → 𝕜} (hM : ∀ i j, Grad (fun ψ => M ψ i j) (d i j) v)
    (hU : ∀ φ, Diag (M φ) (U φ) (a φ)) {S S₁ S₂ : ℝ → ℝ → ℝ}
    (hS : ∀ s t, Diff2 S (a v s) (a v t) (S₁ (a v s) (a v t)) (S₂ (a v s) (a v t))) (k p q j : Fin m) :
    Grad (fun φ => weigh S (U φ) (U v) (a φ) k p q j) (fun l =>
      (if q = j then 1 else 0) * (side1 S S₁ (a v k) (a v p) (a v j) : 𝕜) *
          (star (U v) * of (fun i j => d i j l) * U v) k p +
        (if k = p then 1 else 0) * (side2 S S₂ (a v p) (a v q) (a v j) : 𝕜) *
          (star (U v) * of (fun i j => d i j l) * U v) q j) v := by
  have h1 : ∀ x y, Grad (fun φ => (star (U v) * M φ * U v) x y)
      (fun l => (star (U v) * of (fun i j => d i j l) * U v) x y) v := fun x y => by
    simp only [mul_apply, of_apply]
    exact Grad.sum _ fun i _ => (Grad.sum _ fun j _ => (hM j i).const_mul _).mul_const _
  have hY := ((h1 k p).const_mul ((if q = j then 1 else 0) * (side1 S S₁ (a v k) (a v p) (a v j) : 𝕜))).add
    ((h1 q j).const_mul ((if k = p then 1 else 0) * (side2 S S₂ (a v p) (a v q) (a v j) : 𝕜)))
  refine grad_of_remainder (frob_isBigO hM) hY fun ε hε => ?_
  obtain ⟨δ, hδ, h⟩ := weigh_estimate (hU v) hS k p q j hε
  have ev := (frob_tendsto hM).eventually (gt_mem_nhds hδ)
  filter_upwards [ev] with φ hφ
  have := h (M φ) (U φ) (a φ) (hU φ) hφ
  rw [Real.norm_eq_abs, abs_of_nonneg (Real.sqrt_nonneg _)]
  refine le_trans (le_of_eq ?_) this
  rw [weigh_self (hU v).left, mul_sub (star (U v)), sub_mul, Matrix.sub_apply, Matrix.sub_apply]
  congr 1
  ring

theorem sum_out (g : Fin m → Fin m → Fin m → Fin m → Fin m → 𝕜) :
    ∑ k, ∑ p, ∑ q, ∑ j, ∑ i, g k p q j i = ∑ i, ∑ k, ∑ p, ∑ q, ∑ j, g k p q j i := by
  have h1 : ∀ k p q, ∑ j, ∑ i, g k p q j i = ∑ i, ∑ j, g k p q j i := fun k p q => Finset.sum_comm
  have h2 : ∀ k p, ∑ q, ∑ i, ∑ j, g k p q j i = ∑ i, ∑ q, ∑ j, g k p q j i := fun k p => Finset.sum_comm
  have h3 : ∀ k, ∑ p, ∑ i, ∑ q, ∑ j, g k p q j i = ∑ i, ∑ p, ∑ q, ∑ j, g k p q j i := fun k => Finset.sum_comm
  simp only [h1, h2, h3]
  exact Finset.sum_comm

theorem prod_sums (A B : Fin m → Fin m → 𝕜) :
    (∑ p, ∑ q, A p q) * (∑ j, ∑ k, B j k) = ∑ k, ∑ p, ∑ q, ∑ j, A p q * B j k := by
  simp only [← Finset.mul_sum, ← Finset.sum_mul]
  rw [Finset.sum_comm (f := B)]

/-- A sum over two eigenvalues between the eigenvectors of another matrix. -/
theorem weigh_sum {U V : Matrix (Fin m) (Fin m) 𝕜} (hV : V * star V = 1) (S : ℝ → ℝ → ℝ) (a : Fin m → ℝ)
    (X Y : Matrix (Fin m) (Fin m) 𝕜) :
    ∑ i, ∑ i', (S (a i) (a i') : 𝕜) * ((star U * X * U) i i' * (star U * Y * U) i' i) =
      ∑ k, ∑ p, ∑ q, ∑ j, weigh S U V a k p q j * ((star V * X * V) p q * (star V * Y * V) j k) := by
  set Z := star U * V with hZ
  have hx : ∀ (X : Matrix (Fin m) (Fin m) 𝕜) i i', (star U * X * U) i i' =
      ∑ p, ∑ q, Z i p * (star V * X * V) p q * star (Z i' q) := fun X i i' => by
    have e : star U * X * U = Z * (star V * X * V) * star Z := by
      rw [hZ, star_mul, star_star]
      simp only [mul_assoc]
      rw [← mul_assoc V (star V), hV, one_mul, ← mul_assoc V (star V), hV, one_mul]
    rw [e, Matrix.mul_apply, Finset.sum_comm]
    refine Finset.sum_congr rfl fun q _ => ?_
    rw [Matrix.mul_apply, Finset.sum_mul]
    rfl
  have hl : ∀ i i', (S (a i) (a i') : 𝕜) * ((star U * X * U) i i' * (star U * Y * U) i' i) =
      ∑ k, ∑ p, ∑ q, ∑ j, (S (a i) (a i') : 𝕜) * ((star (Z i k) * Z i p) * (star (Z i' q) * Z i' j)) *
        ((star V * X * V) p q * (star V * Y * V) j k) := fun i i' => by
    rw [hx X, hx Y, prod_sums, Finset.mul_sum]
    refine Finset.sum_congr rfl fun k _ => ?_
    rw [Finset.mul_sum]
    refine Finset.sum_congr rfl fun p _ => ?_
    rw [Finset.mul_sum]
    refine Finset.sum_congr rfl fun q _ => ?_
    rw [Finset.mul_sum]
    exact Finset.sum_congr rfl fun j _ => by ring
  simp only [hl, weigh, Finset.sum_mul]
  rw [sum_out fun k p q j i => ∑ i', (S (a i) (a i') : 𝕜) * ((star (Z i k) * Z i p) * (star (Z i' q) * Z i' j)) *
        ((star V * X * V) p q * (star V * Y * V) j k)]
  refine Finset.sum_congr rfl fun i _ => ?_
  rw [sum_out fun k p q j i' => (S (a i) (a i') : 𝕜) * ((star (Z i k) * Z i p) * (star (Z i' q) * Z i' j)) *
        ((star V * X * V) p q * (star V * Y * V) j k)]

theorem delta_sum (g : Fin m → Fin m → Fin m → Fin m → 𝕜) :
    ∑ k, ∑ p, ∑ q, ∑ j, (if q = j then 1 else 0) * g k p q j = ∑ k, ∑ p, ∑ j, g k p j j := by
  simp

theorem delta_sum' (g : Fin m → Fin m → Fin m → Fin m → 𝕜) :
    ∑ k, ∑ p, ∑ q, ∑ j, (if k = p then 1 else 0) * g k p q j = ∑ k, ∑ q, ∑ j, g k k q j := by
  simp

/-- The gradient of a sum over two eigenvalues. -/
theorem double_grad (hM : Smooth M D E) (hU : ∀ φ, Diag (M φ) (U φ) (a φ)) {S S₁ S₂ : ℝ → ℝ → ℝ}
    (hS : ∀ s t, Diff2 S (a v s) (a v t) (S₁ (a v s) (a v t)) (S₂ (a v s) (a v t))) (k l : Fin n) :
    Grad (fun φ => ∑ i, ∑ i', (S (a φ i) (a φ i') : 𝕜) *
        ((star (U φ) * D k φ * U φ) i i' * (star (U φ) * D l φ * U φ) i' i))
      (fun r =>
        (∑ x, ∑ y, ∑ z, (side1 S S₁ (a v x) (a v y) (a v z) : 𝕜) * ((star (U v) * D r v * U v) x y *
            (star (U v) * D k v * U v) y z * (star (U v) * D l v * U v) z x)) +
          (∑ x, ∑ y, ∑ z, (side2 S S₂ (a v x) (a v y) (a v z) : 𝕜) * ((star (U v) * D k v * U v) x y *
            (star (U v) * D r v * U v) y z * (star (U v) * D l v * U v) z x)) +
          ∑ x, ∑ y, (S (a v x) (a v y) : 𝕜) *
            ((star (U v) * E k r * U v) x y * (star (U v) * D l v * U v) y x +
              (star (U v) * D k v * U v) x y * (star (U v) * E l r * U v) y x)) v := by
  have h1 : ∀ k p q, Grad (fun φ => (star (U v) * D k φ * U v) p q)
      (fun l => (star (U v) * E k l * U v) p q) v := fun k p q => by
    simp only [mul_apply]
    exact Grad.sum _ fun i _ => (Grad.sum _ fun j _ => (hM.second k v j i).const_mul _).mul_const _
  have h2 := fun x p q j => weigh_grad (fun i j => hM.first v i j) hU hS x p q j
  have e : (fun φ => ∑ i, ∑ i', (S (a φ i) (a φ i') : 𝕜) *
        ((star (U φ) * D k φ * U φ) i i' * (star (U φ) * D l φ * U φ) i' i)) = fun φ => ∑ x, ∑ p, ∑ q, ∑ j,
      weigh S (U φ) (U v) (a φ) x p q j * ((star (U v) * D k φ * U v) p q * (star (U v) * D l φ * U v) j x) := by
    funext φ
    exact weigh_sum (hU v).right S (a φ) (D k φ) (D l φ)
  rw [e]
  refine (Grad.sum _ fun x _ => Grad.sum _ fun p _ => Grad.sum _ fun q _ => Grad.sum _ fun j _ =>
    (h2 x p q j).mul ((h1 k p q).mul (h1 l j x))).congr_grad ?_
  funext r
  have ht : (∑ x, ∑ p, ∑ q, ∑ j, (weigh S (U v) (U v) (a v) x p q j *
        ((star (U v) * D k v * U v) p q * (star (U v) * E l r * U v) j x +
          (star (U v) * E k r * U v) p q * (star (U v) * D l v * U v) j x) +
      ((if q = j then 1 else 0) * (side1 S S₁ (a v x) (a v p) (a v j) : 𝕜) *
          (star (U v) * of (fun i j => D r v i j) * U v) x p +
        (if x = p then 1 else 0) * (side2 S S₂ (a v p) (a v q) (a v j) : 𝕜) *
          (star (U v) * of (fun i j => D r v i j) * U v) q j) *
        ((star (U v) * D k v * U v) p q * (star (U v) * D l v * U v) j x))) =
      (∑ x, ∑ p, ∑ q, ∑ j, (if q = j then 1 else 0) * ((side1 S S₁ (a v x) (a v p) (a v j) : 𝕜) *
        ((star (U v) * D r v * U v) x p * (star (U v) * D k v * U v) p q * (star (U v) * D l v * U v) j x))) +
      (∑ x, ∑ p, ∑ q, ∑ j, (if x = p then 1 else 0) * ((side2 S S₂ (a v p) (a v q) (a v j) : 𝕜) *
        ((star (U v) * D k v * U v) p q * (star (U v) * D r v * U v) q j * (star (U v) * D l v * U v) j x))) +
      ∑ x, ∑ p, ∑ q, ∑ j, (if x = p then 1 else 0) * ((if q = j then 1 else 0) * ((S (a v p) (a v j) : 𝕜) *
        ((star (U v) * E k r * U v) p q * (star (U v) * D l v * U v) j x +
          (star (U v) * D k v * U v) p q * (star (U v) * E l r * U v) j x))) := by
    simp only [← Finset.sum_add_distrib]
    refine Finset.sum_congr rfl fun x _ => Finset.sum_congr rfl fun p _ => Finset.sum_congr rfl fun q _ =>
      Finset.sum_congr rfl fun j _ => ?_
    rw [weigh_self (hU v).left]
    have : (of fun i j => D r v i j : Matrix (Fin m) (Fin m) 𝕜) = D r v := rfl
    rw [this]
    ring
  refine ht.trans ?_
  rw [delta_sum, delta_sum', delta_sum']
  congr 1
  simp

end

end Verif.Weinberg
