import Verif.Weinberg.Function
import Verif.Lagrangian.Expansions

/-!
# The contribution of one species
-/

namespace Verif.Weinberg

open Matrix Filter Topology
open scoped BigOperators
open Lagrangian.Spec (Expansion)
open Spec (cw)

variable {𝕜 : Type} [RCLike 𝕜] {m n : Nat}

theorem rotate3_eq {A : Matrix (Fin m) (Fin m) ℝ} {V : Matrix (Fin m) (Fin m) 𝕜}
    (hA : ∀ a b, (A a b : 𝕜) = V b a) (hV : ∀ a b, star (V a b) = V a b) (R : Matrix (Fin n) (Fin n) ℝ)
    (L : Fin n → Matrix (Fin m) (Fin m) 𝕜) (a b : Fin m) (i : Fin n) :
    rotate3 A R (fun a b i => L i a b) a b i = ∑ k, (R i k : 𝕜) * (star V * L k * V) a b := by
  have h : ∀ k, (star V * L k * V) a b = ∑ a', ∑ b', (A a a' : 𝕜) * (A b b' : 𝕜) * L k a' b' := fun k => by
    rw [Matrix.mul_apply, Finset.sum_comm]
    refine Finset.sum_congr rfl fun b' _ => ?_
    rw [Matrix.mul_apply, Finset.sum_mul]
    refine Finset.sum_congr rfl fun a' _ => ?_
    rw [star_apply, hV, hA, hA]
    ring
  simp only [rotate3, h, Finset.mul_sum]
  rw [Finset.sum_congr rfl fun a' _ => Finset.sum_comm, Finset.sum_comm]
  refine Finset.sum_congr rfl fun k _ => Finset.sum_congr rfl fun a' _ => Finset.sum_congr rfl fun b' _ => ?_
  rw [RCLike.real_smul_eq_coe_mul]
  push_cast
  ring

theorem rotate4_eq {A : Matrix (Fin m) (Fin m) ℝ} {V : Matrix (Fin m) (Fin m) 𝕜}
    (hA : ∀ a b, (A a b : 𝕜) = V b a) (hV : ∀ a b, star (V a b) = V a b) (R : Matrix (Fin n) (Fin n) ℝ)
    (L : Fin n → Fin n → Matrix (Fin m) (Fin m) 𝕜) (a b : Fin m) (i j : Fin n) :
    rotate4 A R (fun a b i j => L i j a b) a b i j =
      ∑ k, ∑ l, (R i k : 𝕜) * (R j l : 𝕜) * (star V * L k l * V) a b := by
  have h : ∀ k l, (star V * L k l * V) a b =
      ∑ a', ∑ b', (A a a' : 𝕜) * (A b b' : 𝕜) * L k l a' b' := fun k l => by
    rw [Matrix.mul_apply, Finset.sum_comm]
    refine Finset.sum_congr rfl fun b' _ => ?_
    rw [Matrix.mul_apply, Finset.sum_mul]
    refine Finset.sum_congr rfl fun a' _ => ?_
    rw [star_apply, hV, hA, hA]
    ring
  simp only [rotate4, h, Finset.mul_sum]
  have e : ∀ f : Fin m → Fin m → Fin n → Fin n → 𝕜, ∑ a', ∑ b', ∑ k, ∑ l, f a' b' k l =
      ∑ k, ∑ l, ∑ a', ∑ b', f a' b' k l := fun f => by
    rw [Finset.sum_congr rfl fun a' _ => Finset.sum_comm, Finset.sum_comm]
    refine Finset.sum_congr rfl fun k _ => ?_
    rw [Finset.sum_congr rfl fun a' _ => Finset.sum_comm, Finset.sum_comm]
  rw [e]
  refine Finset.sum_congr rfl fun k _ => Finset.sum_congr rfl fun l _ => Finset.sum_congr rfl fun a' _ =>
    Finset.sum_congr rfl fun b' _ => ?_
  rw [RCLike.real_smul_eq_coe_mul]
  push_cast
  ring

section

variable {R : Matrix (Fin n) (Fin n) ℝ}

theorem orthogonal (hR : Rᵀ * R = 1) (k k' : Fin n) : ∑ i, R i k * R i k' = if k = k' then 1 else 0 := by
  have := congrFun (congrFun hR k) k'
  rw [Matrix.mul_apply, one_apply] at this
  exact this

/-- Rotating back to the fields. -/
theorem unrotate (hR : Rᵀ * R = 1) (X : Fin n → 𝕜) (k : Fin n) :
    ∑ i, (R i k : 𝕜) * ∑ k', (R i k' : 𝕜) * X k' = X k := by
  simp only [Finset.mul_sum]
  rw [Finset.sum_comm, Finset.sum_eq_single k]
  · rw [show ∑ i, (R i k : 𝕜) * ((R i k : 𝕜) * X k) = ((∑ i, R i k * R i k : ℝ) : 𝕜) * X k by
      push_cast
      rw [Finset.sum_mul]
      exact Finset.sum_congr rfl fun i _ => by ring]
    rw [orthogonal hR, if_pos rfl, RCLike.ofReal_one, one_mul]
  · intro k' _ hk
    rw [show ∑ i, (R i k : 𝕜) * ((R i k' : 𝕜) * X k') = ((∑ i, R i k * R i k' : ℝ) : 𝕜) * X k' by
      push_cast
      rw [Finset.sum_mul]
      exact Finset.sum_congr rfl fun i _ => by ring]
    rw [orthogonal hR, if_neg (Ne.symm hk), RCLike.ofReal_zero, zero_mul]
  · simp

theorem unrotate2 (hR : Rᵀ * R = 1) (X : Fin n → Fin n → 𝕜) (k l : Fin n) :
    ∑ i, ∑ j, (R i k : 𝕜) * (R j l : 𝕜) * ∑ k', ∑ l', (R i k' : 𝕜) * (R j l' : 𝕜) * X k' l' = X k l := by
  have e : ∀ i j, (R i k : 𝕜) * (R j l : 𝕜) * ∑ k', ∑ l', (R i k' : 𝕜) * (R j l' : 𝕜) * X k' l' =
      (R i k : 𝕜) * ((R j l : 𝕜) * ∑ l', (R j l' : 𝕜) * ∑ k', (R i k' : 𝕜) * X k' l') := fun i j => by
    rw [mul_assoc, Finset.sum_comm]
    congr 2
    refine Finset.sum_congr rfl fun l' _ => ?_
    rw [Finset.mul_sum]
    exact Finset.sum_congr rfl fun k' _ => by ring
  simp only [e]
  have : ∀ i, ∑ j, (R i k : 𝕜) * ((R j l : 𝕜) * ∑ l', (R j l' : 𝕜) * ∑ k', (R i k' : 𝕜) * X k' l') =
      (R i k : 𝕜) * ∑ k', (R i k' : 𝕜) * X k' l := fun i => by
    rw [← Finset.mul_sum, unrotate hR]
  simp only [this]
  exact unrotate hR (fun k' => X k' l) k

end

/-- The gradient, rotated to the mass eigenstates and back, for any weights of the particles. -/
theorem first_eq {V : Matrix (Fin m) (Fin m) 𝕜} {A : Matrix (Fin m) (Fin m) ℝ}
    (hA : ∀ p q, (A p q : 𝕜) = V q p) (hV : ∀ p q, star (V p q) = V p q)
    {R : Matrix (Fin n) (Fin n) ℝ} (hR : Rᵀ * R = 1) (D : Fin n → Matrix (Fin m) (Fin m) 𝕜)
    (w : Fin m → ℝ) (k : Fin n) :
    ∑ p, w p * RCLike.re ((star V * D k * V) p p) =
      ∑ i, R i k * ∑ p, w p * RCLike.re (rotate3 A R (fun p q i => D i p q) p p i) := by
  have h3 : ∀ p q i, rotate3 A R (fun p q i => D i p q) p q i =
      ∑ k, (R i k : 𝕜) * (star V * D k * V) p q := fun p q i => rotate3_eq hA hV R D p q i
  have e : ∀ p, RCLike.re ((star V * D k * V) p p) =
      ∑ i, R i k * RCLike.re (rotate3 A R (fun p q i => D i p q) p p i) := fun p => by
    rw [← unrotate (𝕜 := 𝕜) hR (fun k => (star V * D k * V) p p) k, map_sum]
    refine Finset.sum_congr rfl fun i _ => ?_
    rw [RCLike.re_ofReal_mul, h3]
  simp only [e, Finset.mul_sum]
  rw [Finset.sum_comm]
  refine Finset.sum_congr rfl fun i _ => Finset.sum_congr rfl fun p _ => ?_
  ring

/-- The same for the Hesse matrix. -/
theorem second_eq {V : Matrix (Fin m) (Fin m) 𝕜} {A : Matrix (Fin m) (Fin m) ℝ}
    (hA : ∀ p q, (A p q : 𝕜) = V q p) (hV : ∀ p q, star (V p q) = V p q)
    {R : Matrix (Fin n) (Fin n) ℝ} (hR : Rᵀ * R = 1) (D : Fin n → Matrix (Fin m) (Fin m) 𝕜)
    (E : Fin n → Fin n → Matrix (Fin m) (Fin m) 𝕜) (s : Fin m → Fin m → ℝ) (w : Fin m → ℝ) (k l : Fin n) :
    (∑ p, ∑ q, s p q * RCLike.re ((star V * D k * V) p q * (star V * D l * V) q p)) +
        ∑ p, w p * RCLike.re ((star V * E k l * V) p p) =
      ∑ i, ∑ j, R i k * R j l *
        ((∑ p, ∑ q, s p q * RCLike.re (rotate3 A R (fun p q i => D i p q) p q i *
            rotate3 A R (fun p q i => D i p q) q p j)) +
          ∑ p, w p * RCLike.re (rotate4 A R (fun p q i j => E i j p q) p p i j)) := by
  have h3 : ∀ p q i, rotate3 A R (fun p q i => D i p q) p q i =
      ∑ k, (R i k : 𝕜) * (star V * D k * V) p q := fun p q i => rotate3_eq hA hV R D p q i
  have h4 : ∀ p q i j, rotate4 A R (fun p q i j => E i j p q) p q i j =
      ∑ k, ∑ l, (R i k : 𝕜) * (R j l : 𝕜) * (star V * E k l * V) p q := fun p q i j =>
    rotate4_eq hA hV R E p q i j
  have e3 : ∀ p q, RCLike.re ((star V * D k * V) p q * (star V * D l * V) q p) =
      ∑ i, ∑ j, R i k * R j l * RCLike.re (rotate3 A R (fun p q i => D i p q) p q i *
          rotate3 A R (fun p q i => D i p q) q p j) := fun p q => by
    rw [← unrotate (𝕜 := 𝕜) hR (fun k => (star V * D k * V) p q) k,
      ← unrotate (𝕜 := 𝕜) hR (fun k => (star V * D k * V) q p) l, Finset.sum_mul, map_sum]
    refine Finset.sum_congr rfl fun i _ => ?_
    rw [Finset.mul_sum, map_sum]
    refine Finset.sum_congr rfl fun j _ => ?_
    rw [h3, h3, ← RCLike.re_ofReal_mul, RCLike.ofReal_mul]
    congr 1
    ring
  have e4 : ∀ p, RCLike.re ((star V * E k l * V) p p) =
      ∑ i, ∑ j, R i k * R j l * RCLike.re (rotate4 A R (fun p q i j => E i j p q) p p i j) := fun p => by
    rw [← unrotate2 (𝕜 := 𝕜) hR (fun k l => (star V * E k l * V) p p) k l, map_sum]
    refine Finset.sum_congr rfl fun i _ => ?_
    rw [map_sum]
    refine Finset.sum_congr rfl fun j _ => ?_
    rw [h4, ← RCLike.ofReal_mul, RCLike.re_ofReal_mul]
  have hadd : ∀ X Y : Fin n → Fin n → ℝ, ∑ i, ∑ j, R i k * R j l * (X i j + Y i j) =
      (∑ i, ∑ j, R i k * R j l * X i j) + ∑ i, ∑ j, R i k * R j l * Y i j := fun X Y => by
    simp only [mul_add, Finset.sum_add_distrib]
  rw [hadd]
  congr 1
  · simp only [e3, Finset.mul_sum]
    have ex : ∀ f : Fin m → Fin m → Fin n → Fin n → ℝ, ∑ p, ∑ q, ∑ i, ∑ j, f p q i j =
        ∑ i, ∑ j, ∑ p, ∑ q, f p q i j := fun f => by
      rw [Finset.sum_congr rfl fun a' _ => Finset.sum_comm, Finset.sum_comm]
      refine Finset.sum_congr rfl fun k _ => ?_
      rw [Finset.sum_congr rfl fun a' _ => Finset.sum_comm, Finset.sum_comm]
    rw [ex]
    refine Finset.sum_congr rfl fun i _ => Finset.sum_congr rfl fun j _ => Finset.sum_congr rfl fun p _ =>
      Finset.sum_congr rfl fun q _ => ?_
    ring
  · simp only [e4, Finset.mul_sum]
    rw [Finset.sum_comm]
    refine Finset.sum_congr rfl fun i _ => ?_
    rw [Finset.sum_comm]
    refine Finset.sum_congr rfl fun j _ => Finset.sum_congr rfl fun p _ => ?_
    ring

theorem firstSum_eq (scale c : ℝ) (a : Fin m → ℝ) (C : Fin m → Fin n → ℝ) (i : Fin n) :
    firstSum scale c a C i = ∑ p, (if a p ≠ 0 then
      a p * (Real.log (a p / scale ^ 2) - c + 1 / 2) else 0) * C p i := by
  refine Finset.sum_congr rfl fun p _ => ?_
  split_ifs <;> ring

theorem secondSum_eq (scale c : ℝ) (a : Fin m → ℝ) (C : Fin m → Fin m → Fin n → Fin n → ℝ)
    (C' : Fin m → Fin n → Fin n → ℝ) (i j : Fin n) :
    secondSum scale c a C C' i j = (∑ p, ∑ q, (fbaseValue scale (a p) (a q) - c + 1 / 2) * C p q i j) +
      ∑ p, (if a p ≠ 0 then a p * (Real.log (a p / scale ^ 2) - c + 1 / 2) else 0) * C' p i j := by
  rw [secondSum, Finset.sum_add_distrib]
  congr 1
  · exact Finset.sum_congr rfl fun p _ => Finset.sum_congr rfl fun q _ => mul_comm _ _
  · refine Finset.sum_congr rfl fun p _ => ?_
    split_ifs <;> ring

/-- **Gradient of the contribution of one species**: what the loops of the code compute, rotated back to
the fields.  The Hesse matrix is given by the slopes of the derivative. -/
theorem species_first {M : (Fin n → ℝ) → Matrix (Fin m) (Fin m) 𝕜}
    {D : Fin n → (Fin n → ℝ) → Matrix (Fin m) (Fin m) 𝕜} {E : Fin n → Fin n → Matrix (Fin m) (Fin m) 𝕜}
    (hM : Smooth M D E) {U : (Fin n → ℝ) → Matrix (Fin m) (Fin m) 𝕜} {a : (Fin n → ℝ) → Fin m → ℝ}
    (hU : ∀ φ, Diag (M φ) (U φ) (a φ)) (v : Fin n → ℝ) {t scale : ℝ} (ht : 0 < t) (hs : 0 < scale) (c : ℝ)
    (ha : ∀ p, Above t (a v p))
    {A : Matrix (Fin m) (Fin m) ℝ} (hA : ∀ p q, (A p q : 𝕜) = U v q p)
    (hV : ∀ p q, star (U v p q) = U v p q) {R : Matrix (Fin n) (Fin n) ℝ} (hR : Rᵀ * R = 1) :
    Expansion (fun φ => ∑ i, cw t scale c (a φ i)) v
      (fun k => 1 / (32 * Real.pi ^ 2) * ∑ i, R i k *
        firstSum scale c (a v) (fun p i => RCLike.re (rotate3 A R (fun p q i => D i v p q) p p i)) i)
      (fun k l => (∑ p, ∑ q, slope (cw1 t scale c) (cw2 t scale c) (a v p) (a v q) *
          RCLike.re ((star (U v) * D k v * U v) p q * (star (U v) * D l v * U v) q p)) +
        ∑ p, cw1 t scale c (a v p) * RCLike.re ((star (U v) * E k l * U v) p p)) := by
  have hexp := hM.expansion hU v (F := cw t scale c) (f := cw1 t scale c) (f' := cw2 t scale c)
    (fun j => (ha j).eventually ht scale c) (bounded_cw ht scale c)
    (fun j => hasDerivAt_cw1 ht ((ha j).ne ht) scale c) (bounded_cw1 ht scale c)
  refine hexp.congr rfl (fun k => ?_) fun k l => hexp.symm k l
  rw [first_eq hA hV hR (fun k => D k v), Finset.mul_sum]
  refine Finset.sum_congr rfl fun i _ => ?_
  rw [firstSum_eq, Finset.mul_sum, Finset.mul_sum, Finset.mul_sum]
  refine Finset.sum_congr rfl fun p _ => ?_
  rw [cw1_eq ht (ha p) hs c]
  ring

/-- **Gradient and Hesse matrix of the contribution of one species.** -/
theorem species {M : (Fin n → ℝ) → Matrix (Fin m) (Fin m) 𝕜}
    {D : Fin n → (Fin n → ℝ) → Matrix (Fin m) (Fin m) 𝕜} {E : Fin n → Fin n → Matrix (Fin m) (Fin m) 𝕜}
    (hM : Smooth M D E) {U : (Fin n → ℝ) → Matrix (Fin m) (Fin m) 𝕜} {a : (Fin n → ℝ) → Fin m → ℝ}
    (hU : ∀ φ, Diag (M φ) (U φ) (a φ)) (v : Fin n → ℝ) {t scale : ℝ} (ht : 0 < t) (hs : 0 < scale) (c : ℝ)
    (ha : ∀ p, Above t (a v p))
    (hp : ∀ p q, (a v p = a v q ∧ (c = 3 / 2 ∨ a v p ≠ 0)) ∨ 1 / 10 ^ 5 < |a v p - a v q| ∨
      ∀ k, (star (U v) * D k v * U v) p q = 0)
    {A : Matrix (Fin m) (Fin m) ℝ} (hA : ∀ p q, (A p q : 𝕜) = U v q p)
    (hV : ∀ p q, star (U v p q) = U v p q) {R : Matrix (Fin n) (Fin n) ℝ} (hR : Rᵀ * R = 1) :
    Expansion (fun φ => ∑ i, cw t scale c (a φ i)) v
      (fun k => 1 / (32 * Real.pi ^ 2) * ∑ i, R i k *
        firstSum scale c (a v) (fun p i => RCLike.re (rotate3 A R (fun p q i => D i v p q) p p i)) i)
      (fun k l => 1 / (32 * Real.pi ^ 2) * ∑ i, ∑ j, R i k * R j l *
        secondSum scale c (a v)
          (fun p q i j => RCLike.re (rotate3 A R (fun p q i => D i v p q) p q i *
            rotate3 A R (fun p q i => D i v p q) q p j))
          (fun p i j => RCLike.re (rotate4 A R (fun p q i j => E i j p q) p p i j)) i j) := by
  refine (species_first hM hU v ht hs c ha hA hV hR).congr rfl (fun k => rfl) fun k l => ?_
  have hsl : ∀ p q, slope (cw1 t scale c) (cw2 t scale c) (a v p) (a v q) *
        RCLike.re ((star (U v) * D k v * U v) p q * (star (U v) * D l v * U v) q p) =
      1 / (32 * Real.pi ^ 2) * (fbaseValue scale (a v p) (a v q) - c + 1 / 2) *
        RCLike.re ((star (U v) * D k v * U v) p q * (star (U v) * D l v * U v) q p) := fun p q => by
    rcases hp p q with h | h | h
    · rw [slope_eq ht (ha p) (ha q) scale c (Or.inl h)]
    · rw [slope_eq ht (ha p) (ha q) scale c (Or.inr h)]
    · rw [h k, zero_mul, map_zero, mul_zero, mul_zero]
  rw [Finset.sum_congr rfl fun p _ => Finset.sum_congr rfl fun q _ => hsl p q,
    second_eq hA hV hR (fun k => D k v) E, Finset.mul_sum]
  refine Finset.sum_congr rfl fun i _ => ?_
  rw [Finset.mul_sum]
  refine Finset.sum_congr rfl fun j _ => ?_
  rw [secondSum_eq]
  have hw : ∀ X : Fin m → ℝ, ∑ p, cw1 t scale c (a v p) * X p = 1 / (32 * Real.pi ^ 2) *
      ∑ p, (if a v p ≠ 0 then a v p * (Real.log (a v p / scale ^ 2) - c + 1 / 2) else 0) * X p := fun X => by
    rw [Finset.mul_sum]
    refine Finset.sum_congr rfl fun p _ => ?_
    rw [cw1_eq ht (ha p) hs c]
    ring
  have hq : ∀ s X : Fin m → Fin m → ℝ, ∑ p, ∑ q, 1 / (32 * Real.pi ^ 2) * s p q * X p q =
      1 / (32 * Real.pi ^ 2) * ∑ p, ∑ q, s p q * X p q := fun s X => by
    simp only [Finset.mul_sum]
    exact Finset.sum_congr rfl fun p _ => Finset.sum_congr rfl fun q _ => by ring
  rw [hw, hq]
  ring

end Verif.Weinberg
