import Verif.Weinberg.Species
import Verif.Weinberg.Vectors

/-!
# The derivatives of the mass matrices
-/

namespace Verif.Weinberg

open Matrix Verif.Potential Verif.Invariance Verif.Yukawa
open Verif.Potential.Spec (Symmetric)
open Spec (GaugeSymmetric FermionSymmetric)
open scoped BigOperators ComplexConjugate

variable {n m : Nat}

theorem grad_linear {𝕜 : Type} [RCLike 𝕜] (c : Fin n → 𝕜) (φ : Fin n → ℝ) :
    Grad (fun ψ : Fin n → ℝ => ∑ k, c k * (ψ k : 𝕜)) c φ := by
  refine (Grad.sum _ fun k _ => ((Grad.coord (v := φ) k).ofReal (𝕜 := 𝕜)).const_mul (c k)).congr_grad ?_
  funext l
  rw [Finset.sum_eq_single l]
  · simp
  · intro k _ hk
    simp [Ne.symm hk]
  · simp

theorem grad_quadratic (c : Fin n → Fin n → ℝ) (hc : ∀ k l, c k l = c l k) (φ : Fin n → ℝ) :
    Grad (fun ψ : Fin n → ℝ => ∑ k, ∑ l, 1 / 2 * c k l * ψ k * ψ l) (fun k => ∑ l, c k l * φ l) φ := by
  have h : ∀ k l, Grad (fun ψ : Fin n → ℝ => 1 / 2 * c k l * ψ k * ψ l)
      (fun x => 1 / 2 * c k l * φ k * (Pi.single l 1 : Fin n → ℝ) x +
        1 / 2 * c k l * (Pi.single k 1 : Fin n → ℝ) x * φ l) φ := fun k l =>
    (((Grad.coord (v := φ) k).const_mul (1 / 2 * c k l)).mul (Grad.coord (v := φ) l))
  refine (Grad.sum _ fun k _ => Grad.sum _ fun l _ => h k l).congr_grad ?_
  funext x
  simp only [Finset.sum_add_distrib, Pi.single_apply, mul_ite, mul_one, mul_zero, ite_mul, zero_mul]
  rw [Finset.sum_comm (f := fun k l => if x = k then 1 / 2 * c k l * φ l else 0)]
  simp only [Finset.sum_ite_eq, Finset.mem_univ, if_true]
  rw [← Finset.sum_add_distrib]
  refine Finset.sum_congr rfl fun k _ => ?_
  rw [hc k x]
  ring

theorem smooth_scalar (c : Curv n ℝ) (hc : Symmetric c) :
    Smooth (massHiggs c) (fun k φ => of fun i j => lambdaHiggs3 c φ i j k)
      (fun k l => of fun i j => c.L4 i j k l) := by
  constructor
  · intro φ i j
    have h := ((Grad.const (v := φ) (c.L2 i j)).add (grad_linear (c.L3 i j) φ)).add
      (grad_quadratic (fun k l => c.L4 i j k l) (fun k l => hc.s4c i j k l) φ)
    simp only [zero_add] at h
    refine Grad.congr_grad (F := fun ψ => massHiggs c ψ i j) (c := fun k => c.L3 i j k + ∑ l, c.L4 i j k l * φ l)
      ?_ ?_
    · have e : (fun ψ => massHiggs c ψ i j) = fun ψ => c.L2 i j + ∑ k, c.L3 i j k * ((ψ k : ℝ)) +
          ∑ k, ∑ l, 1 / 2 * c.L4 i j k l * ψ k * ψ l := by
        funext ψ
        rw [massHiggs, Finset.sum_add_distrib, add_assoc]
      rw [e]
      exact h
    · rfl
  · intro k φ i j
    have h := (Grad.const (v := φ) (c.L3 i j k)).add (grad_linear (c.L4 i j k) φ)
    simp only [zero_add] at h
    exact h

theorem smooth_gauge (G : List Nat → ℝ) (hG : GaugeSymmetric n G) :
    Smooth (massGauge (n := n) G) (fun k φ => of fun a b => lambdaGauge3 G φ a b k)
      (fun k l => of fun a b : Fin 4 => G [(a : Nat), (b : Nat), (k : Nat), (l : Nat)]) := by
  constructor
  · intro φ a b
    exact grad_quadratic (fun k l : Fin n => G [(a : Nat), (b : Nat), (k : Nat), (l : Nat)])
      (fun k l => hG.scalar a b k l) φ
  · intro k φ a b
    exact grad_linear (fun l : Fin n => G [(a : Nat), (b : Nat), (k : Nat), (l : Nat)]) φ

theorem grad_mass (m : Nat) (F : List Nat → ℂ) (φ : Fin n → ℝ) (i j : Fin m) :
    Grad (fun ψ => massMatrix (m := m) Lagrangian.zeroTensor F ψ i j)
      (fun k : Fin n => F [(i : Nat), (j : Nat), (k : Nat)]) φ := by
  have e : (fun ψ : Fin n → ℝ => massMatrix (m := m) Lagrangian.zeroTensor F ψ i j) =
      fun ψ => ∑ k : Fin n, F [(i : Nat), (j : Nat), (k : Nat)] * ((ψ k : ℝ) : ℂ) := by
    funext ψ
    rw [massMatrix, Lagrangian.zeroTensor, zero_add]
  rw [e]
  exact grad_linear (𝕜 := ℂ) (fun k : Fin n => F [(i : Nat), (j : Nat), (k : Nat)]) φ

theorem grad_massConj (m : Nat) (F : List Nat → ℂ) (φ : Fin n → ℝ) (i j : Fin m) :
    Grad (fun ψ => conj (massMatrix (m := m) Lagrangian.zeroTensor F ψ i j))
      (fun k : Fin n => conj (F [(i : Nat), (j : Nat), (k : Nat)])) φ := by
  have e : (fun ψ : Fin n → ℝ => conj (massMatrix (m := m) Lagrangian.zeroTensor F ψ i j)) =
      fun ψ => ∑ k : Fin n, conj (F [(i : Nat), (j : Nat), (k : Nat)]) * ((ψ k : ℝ) : ℂ) := by
    funext ψ
    rw [massMatrix, Lagrangian.zeroTensor, zero_add, map_sum]
    refine Finset.sum_congr rfl fun k _ => ?_
    rw [map_mul, Complex.conj_ofReal]
  rw [e]
  exact grad_linear (𝕜 := ℂ) (fun k : Fin n => conj (F [(i : Nat), (j : Nat), (k : Nat)])) φ

theorem smooth_fermion (m : Nat) (F : List Nat → ℂ) :
    Smooth (massFermion (n := n) m F) (fun k φ => of fun i j => lambdaFermion3 m F φ i j k)
      (fun k l => of fun i j => lambdaFermion4 m F i j k l) := by
  constructor
  · intro φ i j
    have h := Grad.sum (v := φ) (Finset.univ : Finset (Fin m)) fun l _ =>
      (grad_massConj m F φ i l).mul (grad_mass m F φ l j)
    have e : (fun ψ => massFermion m F ψ i j) = fun ψ : Fin n → ℝ => ∑ l,
        conj (massMatrix (m := m) Lagrangian.zeroTensor F ψ i l) *
          massMatrix (m := m) Lagrangian.zeroTensor F ψ l j := by
      funext ψ
      rw [massFermion, Matrix.mul_apply]
      rfl
    rw [e]
    refine h.congr_grad ?_
    funext k
    refine Finset.sum_congr rfl fun l _ => ?_
    ring
  · intro k φ i j
    have h := Grad.sum (v := φ) (Finset.univ : Finset (Fin m)) fun l _ =>
      ((grad_mass m F φ l j).const_mul (conj (F [(i : Nat), (l : Nat), (k : Nat)]))).add
        ((grad_massConj m F φ i l).mul_const (F [(l : Nat), (j : Nat), (k : Nat)]))
    exact h

theorem hermitian_scalar (c : Curv n ℝ) (hc : Symmetric c) (φ : Fin n → ℝ) :
    (massHiggs c φ).IsHermitian := by
  ext i j
  simp only [conjTranspose_apply, star_trivial, massHiggs, hc.s2 j i, hc.s3a j i, hc.s4a j i]

theorem hermitian_gauge (G : List Nat → ℝ) (hG : GaugeSymmetric n G) (φ : Fin n → ℝ) :
    (massGauge G φ).IsHermitian := by
  ext a b
  simp only [conjTranspose_apply, star_trivial, massGauge, hG.gauge b a]

theorem massFermion_eq (m : Nat) (F : List Nat → ℂ) (hF : FermionSymmetric m n F) (φ : Fin n → ℝ) :
    massFermion m F φ = (Spec.fermionMatrix m F φ).conjTranspose * Spec.fermionMatrix m F φ := by
  have e : massMatrix (m := m) Lagrangian.zeroTensor F φ = Spec.fermionMatrix m F φ := by
    ext i j
    rw [massMatrix, Lagrangian.zeroTensor, zero_add]
    rfl
  rw [massFermion, e]
  congr 1
  ext i j
  rw [conjTranspose_apply, Matrix.map_apply, Spec.fermionMatrix, Spec.fermionMatrix]
  simp only [hF i j]
  rfl

theorem hermitian_fermion (m : Nat) (F : List Nat → ℂ) (hF : FermionSymmetric m n F) (φ : Fin n → ℝ) :
    (massFermion m F φ).IsHermitian := by
  rw [massFermion_eq m F hF]
  exact isHermitian_conjTranspose_mul_self _

theorem massHiggs_eq (c : Curv n ℝ) (φ : Fin n → ℝ) : massHiggs c φ = Spec.scalarMatrix c φ := by
  ext i j
  rw [massHiggs, Spec.scalarMatrix, Finset.sum_add_distrib, ← add_assoc, Finset.mul_sum]
  congr 1
  refine Finset.sum_congr rfl fun k _ => ?_
  rw [Finset.mul_sum]
  exact Finset.sum_congr rfl fun l _ => by ring

theorem massGauge_eq (G : List Nat → ℝ) (φ : Fin n → ℝ) : massGauge G φ = Spec.gaugeMatrix G φ := by
  ext a b
  rw [massGauge, Spec.gaugeMatrix, Finset.mul_sum]
  refine Finset.sum_congr rfl fun i _ => ?_
  rw [Finset.mul_sum]
  exact Finset.sum_congr rfl fun l _ => by ring

end Verif.Weinberg
