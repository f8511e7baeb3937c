import Verif.Weinberg.Smooth
import Mathlib.Analysis.Calculus.LocalExtr.Basic

/-!
# Massless gauge bosons do not couple to the scalars
-/

namespace Verif.Weinberg

open Matrix Filter Topology Verif.Potential Verif.Invariance
open Spec (GaugeSymmetric GaugePositive)
open scoped BigOperators

variable {n : Nat}

theorem Spec.GaugePositive.mass {G : List Nat → ℝ} (h : GaugePositive n G) (W : Fin 4 → ℝ) (φ : Fin n → ℝ) :
    0 ≤ ∑ a, ∑ b, massGauge G φ a b * (W a * W b) := by
  have e : ∑ a, ∑ b, massGauge G φ a b * (W a * W b) = 1 / 2 * ∑ a : Fin 4, ∑ b : Fin 4, ∑ i : Fin n,
      ∑ j : Fin n, G [(a : Nat), (b : Nat), (i : Nat), (j : Nat)] * (W a * (W b * (φ i * φ j))) := by
    simp only [massGauge, Finset.mul_sum, Finset.sum_mul]
    refine Finset.sum_congr rfl fun a _ => Finset.sum_congr rfl fun b _ => Finset.sum_congr rfl fun i _ =>
      Finset.sum_congr rfl fun j _ => ?_
    ring
  rw [e]
  exact mul_nonneg (by norm_num) (h W φ)

/-- A combination of gauge bosons which is massless in the vacuum: its squared mass is minimal there. -/
theorem massless_form {G : List Nat → ℝ} (hG : GaugeSymmetric n G) (h : GaugePositive n G)
    (v : Fin n → ℝ) (W : Fin 4 → ℝ) (h0 : ∑ a, ∑ b, massGauge G v a b * (W a * W b) = 0) (k : Fin n) :
    ∑ a, ∑ b, lambdaGauge3 G v a b k * (W a * W b) = 0 := by
  have hg : Grad (fun φ => ∑ a, ∑ b, massGauge G φ a b * (W a * W b))
      (fun k => ∑ a, ∑ b, lambdaGauge3 G v a b k * (W a * W b)) v :=
    Grad.sum _ fun a _ => Grad.sum _ fun b _ => ((smooth_gauge G hG).first v a b).mul_const _
  have hmin : IsLocalMin (fun φ => ∑ a, ∑ b, massGauge G φ a b * (W a * W b)) v := by
    refine Filter.Eventually.of_forall fun φ => ?_
    have := h.mass W φ
    rw [← h0] at this
    exact this
  have hz := hmin.hasFDerivAt_eq_zero hg
  have := lin_single (fun k => ∑ a, ∑ b, lambdaGauge3 G v a b k * (W a * W b)) k
  rw [hz] at this
  simpa using this.symm

theorem massless_coupling {G : List Nat → ℝ} (hG : GaugeSymmetric n G) (h : GaugePositive n G)
    (v : Fin n → ℝ) {U : Matrix (Fin 4) (Fin 4) ℝ} {a : Fin 4 → ℝ} (hU : Diag (massGauge G v) U a)
    (p q : Fin 4) (hp : a p = 0) (hq : a q = 0) (k : Fin n) :
    (star U * of (fun a b => lambdaGauge3 G v a b k) * U) p q = 0 := by
  set D : Matrix (Fin 4) (Fin 4) ℝ := of fun a b => lambdaGauge3 G v a b k with hD
  have hsym : ∀ a b, D a b = D b a := fun a b => by
    simp only [hD, of_apply, lambdaGauge3, hG.gauge a b]
  have hker : ∀ r, a r = 0 → ∀ i, ∑ j, massGauge G v i j * U j r = 0 := fun r hr i => by
    have := congrFun (congrFun hU.mul_right i) r
    rw [Matrix.mul_apply, mul_diagonal, hr] at this
    rw [this]
    simp
  have form : ∀ x y : ℝ, ∑ i, ∑ j, D i j * ((x * U i p + y * U i q) * (x * U j p + y * U j q)) = 0 :=
    fun x y => by
      refine massless_form hG h v (fun i => x * U i p + y * U i q) ?_ k
      refine Finset.sum_eq_zero fun i _ => ?_
      have e : ∑ j, massGauge G v i j * ((x * U i p + y * U i q) * (x * U j p + y * U j q)) =
          (x * U i p + y * U i q) * (x * (∑ j, massGauge G v i j * U j p) +
            y * ∑ j, massGauge G v i j * U j q) := by
        rw [Finset.mul_sum, Finset.mul_sum, ← Finset.sum_add_distrib, Finset.mul_sum]
        exact Finset.sum_congr rfl fun j _ => by ring
      rw [e, hker p hp, hker q hq]
      ring
  have entry : ∀ r s, (star U * D * U) r s = ∑ i, ∑ j, D i j * (U i r * U j s) := fun r s => by
    rw [Matrix.mul_apply, Finset.sum_comm]
    refine Finset.sum_congr rfl fun j _ => ?_
    rw [Matrix.mul_apply, Finset.sum_mul]
    refine Finset.sum_congr rfl fun i _ => ?_
    rw [star_apply, star_trivial]
    ring
  have h1 := form 1 0
  have h2 := form 0 1
  have h3 := form 1 1
  have hs : ∑ i, ∑ j, D i j * (U i q * U j p) = ∑ i, ∑ j, D i j * (U i p * U j q) := by
    rw [Finset.sum_comm]
    refine Finset.sum_congr rfl fun i _ => Finset.sum_congr rfl fun j _ => ?_
    rw [hsym j i]
    ring
  have e : ∑ i, ∑ j, D i j * ((1 * U i p + 1 * U i q) * (1 * U j p + 1 * U j q)) =
      (∑ i, ∑ j, D i j * ((1 * U i p + 0 * U i q) * (1 * U j p + 0 * U j q))) +
      (∑ i, ∑ j, D i j * ((0 * U i p + 1 * U i q) * (0 * U j p + 1 * U j q))) +
      (∑ i, ∑ j, D i j * (U i p * U j q)) + ∑ i, ∑ j, D i j * (U i q * U j p) := by
    simp only [← Finset.sum_add_distrib]
    refine Finset.sum_congr rfl fun i _ => Finset.sum_congr rfl fun j _ => ?_
    ring
  rw [h3, h1, h2, hs] at e
  rw [entry]
  linarith

end Verif.Weinberg
