import Verif.Lagrangian.Eval
import Verif.Yukawa.Spec
import Mathlib.Tactic.LinearCombination

/-!
# Tensors of the fermions

`Curvature_Quark_F2H1` and `Curvature_Lepton_F2H1` are filled by statements, as the tensors of the
scalar potential.  The mass matrix of the fermions is `F2[i][j] + Σ_k F2H1[i][j][k] v_k`; the tensors
`F2` are zero in every model.
-/

namespace Verif.Yukawa

open Verif.Potential Verif.Lagrangian
open scoped BigOperators ComplexConjugate

variable {m n : Nat}

/-- `QuarkMassMatrix` and `LeptonMassMatrix`, ClassPotentialOrigin.cpp:3798-3847 and 3871-3925, for
`v` with `NHiggs` components after `SetCurvatureArrays`. -/
noncomputable def massMatrix (F2 : List Nat → ℂ) (F : List Nat → ℂ) (v : Fin n → ℝ) :
    Matrix (Fin m) (Fin m) ℂ :=
  fun i j => F2 [(i : Nat), (j : Nat)] + ∑ k : Fin n, F [(i : Nat), (j : Nat), (k : Nat)] * v k

/-- The matrix whose eigenvalues `QuarkMassesSquared` and `LeptonMassesSquared` compute:
`MIJ.conjugate() * MIJ`, ClassPotentialOrigin.cpp:2636 and 2736. -/
noncomputable def squaredMatrix (F2 : List Nat → ℂ) (F : List Nat → ℂ) (v : Fin n → ℝ) :
    Matrix (Fin m) (Fin m) ℂ :=
  (massMatrix F2 F v).map conj * massMatrix F2 F v

/-- `1/2 F[a][b][k] ψ_a ψ_b φ_k`. -/
noncomputable def form (F : List Nat → ℂ) (ψ : Fin m → ℂ) (φ : Fin n → ℝ) : ℂ :=
  1 / 2 * ∑ a : Fin m, ∑ b : Fin m, ∑ k : Fin n, F [(a : Nat), (b : Nat), (k : Nat)] *
    (ψ a * (ψ b * φ k))

theorem sumT_mixed {m n : Nat} (w : Assign ℂ) (a b : FVec m ℂ) (c : FVec n ℂ) :
    ∑ i : Fin m, ∑ j : Fin m, ∑ k : Fin n, sumT w [(i : Nat), (j : Nat), (k : Nat)] *
        (a i * (b j * c k)) =
      (w.map fun e => match e.1 with
        | [p, q, r] => e.2 * (ext a p * (ext b q * ext c r)) | _ => 0).sum := by
  induction w with
  | nil => simp [sumT]
  | cons e w ih =>
    simp only [sumT_cons, add_mul, Finset.sum_add_distrib, List.map_cons, List.sum_cons, ih]
    congr 1
    obtain ⟨q, x⟩ := e
    match q with
    | [] => simp
    | [_] => simp
    | [_, _] => simp
    | [p, q, r] =>
      dsimp only
      rw [← sum_pick, ← sum_pick, ← sum_pick]
      simp only [Finset.sum_mul]
      simp only [Finset.mul_sum]
      refine Finset.sum_congr rfl fun i _ => Finset.sum_congr rfl fun j _ =>
        Finset.sum_congr rfl fun k _ => ?_
      by_cases hp : (i : Nat) = p <;> by_cases hq : (j : Nat) = q <;>
        by_cases hr : (k : Nat) = r <;> simp [hp, hq, hr]
    | _ :: _ :: _ :: _ :: _ => simp

/-- The form of a tensor filled by statements. -/
theorem form_assign (w : Assign ℂ) (hd : Distinct w) (ψ : Fin m → ℂ) (φ : Fin n → ℝ) :
    form (assign w zeroTensor) ψ φ =
      1 / 2 * (w.map fun e => match e.1 with
        | [p, q, r] => e.2 * (ext ψ p * (ext ψ q * ext (fun k => (φ k : ℂ)) r)) | _ => 0).sum := by
  unfold form
  rw [assign_eq w hd, sumT_mixed]

/-- The indices as the digits of a number of base 16. -/
def digits16 (q : List Nat) : Nat := q.foldl (fun a x => a * 16 + x) 0

theorem distinct_of_chain16 (w : Assign ℂ)
    (h : (w.map fun e => digits16 e.1).IsChain (· < ·)) : Distinct w := by
  have h1 : ((w.map (·.1)).map digits16).Nodup := by
    rw [List.map_map]
    exact (List.isChain_iff_pairwise.1 h).imp (fun hab => Nat.ne_of_lt hab)
  exact h1.of_map

/-- Exchange of the two fermion indices. -/
def swapPair : List Nat → List Nat
  | [a, b, k] => [b, a, k]
  | q => q

theorem swapPair_swapPair (q : List Nat) : swapPair (swapPair q) = q :=
  match q with
  | [] => rfl
  | [_] => rfl
  | [_, _] => rfl
  | [_, _, _] => rfl
  | _ :: _ :: _ :: _ :: _ => rfl

/-- The factors `√2` of the couplings and of the doublets. -/
theorem coupling_mul (v : ℝ) (m : Fin 3 → ℝ) (g : Fin 3) (z : ℂ) :
    (Spec.coupling v m g : ℂ) * (z / ((√2 : ℝ) : ℂ)) = m g / v * z := by
  have h : ((√2 : ℝ) : ℂ) ≠ 0 := by
    rw [Ne, Complex.ofReal_eq_zero]; positivity
  unfold Spec.coupling
  push_cast
  field_simp

/-- With the couplings `√2 m / v` and the doublets `1/√2 (…)` the terms have the coefficients
`m / v`. -/
theorem quark_scaled (V : Matrix (Fin 3) (Fin 3) ℂ) (v w : ℝ) (mu md : Fin 3 → ℝ) (a b c d : ℂ)
    (q : Spec.Quarks) :
    Spec.quarkYukawa V (Spec.coupling v mu) (Spec.coupling w md)
        ![a / ((√2 : ℝ) : ℂ), b / ((√2 : ℝ) : ℂ)] ![c / ((√2 : ℝ) : ℂ), d / ((√2 : ℝ) : ℂ)] q =
      (∑ i, ∑ j, q.uL i * V i j * (md j / w) * q.dR j) * c +
        (∑ i, q.dL i * (md i / w) * q.dR i) * d +
        (∑ i, q.uL i * (mu i / v) * q.uR i) * conj b -
        (∑ i, ∑ j, q.dL i * conj (V j i) * (mu j / v) * q.uR j) * conj a := by
  have h : ((√2 : ℝ) : ℂ) ≠ 0 := by
    rw [Ne, Complex.ofReal_eq_zero]; positivity
  unfold Spec.quarkYukawa Spec.coupling
  simp only [Fin.sum_univ_three, Matrix.cons_val_zero, Matrix.cons_val_one, map_div₀,
    Complex.conj_ofReal]
  push_cast
  generalize ((√2 : ℝ) : ℂ) = s at h ⊢
  simp only [div_eq_mul_inv]
  have h1 : s * s⁻¹ = 1 := mul_inv_cancel₀ h
  generalize s⁻¹ = t at h1 ⊢
  generalize ((v : ℂ))⁻¹ = v'
  generalize ((w : ℂ))⁻¹ = w'
  linear_combination ((q.uL 0 * V 0 0 * (md 0 * w') * q.dR 0 + q.uL 0 * V 0 1 * (md 1 * w') * q.dR 1 +
    q.uL 0 * V 0 2 * (md 2 * w') * q.dR 2 + q.uL 1 * V 1 0 * (md 0 * w') * q.dR 0 +
    q.uL 1 * V 1 1 * (md 1 * w') * q.dR 1 + q.uL 1 * V 1 2 * (md 2 * w') * q.dR 2 +
    q.uL 2 * V 2 0 * (md 0 * w') * q.dR 0 + q.uL 2 * V 2 1 * (md 1 * w') * q.dR 1 +
    q.uL 2 * V 2 2 * (md 2 * w') * q.dR 2) * c +
    (q.dL 0 * (md 0 * w') * q.dR 0 + q.dL 1 * (md 1 * w') * q.dR 1 +
      q.dL 2 * (md 2 * w') * q.dR 2) * d +
    (q.uL 0 * (mu 0 * v') * q.uR 0 + q.uL 1 * (mu 1 * v') * q.uR 1 +
      q.uL 2 * (mu 2 * v') * q.uR 2) * conj b -
    (q.dL 0 * conj (V 0 0) * (mu 0 * v') * q.uR 0 + q.dL 0 * conj (V 1 0) * (mu 1 * v') * q.uR 1 +
      q.dL 0 * conj (V 2 0) * (mu 2 * v') * q.uR 2 + q.dL 1 * conj (V 0 1) * (mu 0 * v') * q.uR 0 +
      q.dL 1 * conj (V 1 1) * (mu 1 * v') * q.uR 1 + q.dL 1 * conj (V 2 1) * (mu 2 * v') * q.uR 2 +
      q.dL 2 * conj (V 0 2) * (mu 0 * v') * q.uR 0 + q.dL 2 * conj (V 1 2) * (mu 1 * v') * q.uR 1 +
      q.dL 2 * conj (V 2 2) * (mu 2 * v') * q.uR 2) * conj a) * h1

theorem lepton_scaled (v : ℝ) (me : Fin 3 → ℝ) (a b : ℂ) (l : Spec.Leptons) :
    Spec.leptonYukawa (Spec.coupling v me) ![a / ((√2 : ℝ) : ℂ), b / ((√2 : ℝ) : ℂ)] l =
      (∑ i, l.eL i * (me i / v) * l.eR i) * b + (∑ i, l.nL i * (me i / v) * l.eR i) * a := by
  have h : ((√2 : ℝ) : ℂ) ≠ 0 := by
    rw [Ne, Complex.ofReal_eq_zero]; positivity
  unfold Spec.leptonYukawa Spec.coupling
  simp only [Fin.sum_univ_three, Matrix.cons_val_zero, Matrix.cons_val_one]
  push_cast
  generalize ((√2 : ℝ) : ℂ) = s at h ⊢
  simp only [div_eq_mul_inv]
  have h1 : s * s⁻¹ = 1 := mul_inv_cancel₀ h
  generalize s⁻¹ = t at h1 ⊢
  generalize ((v : ℂ))⁻¹ = v'
  linear_combination ((l.eL 0 * (me 0 * v') * l.eR 0 + l.eL 1 * (me 1 * v') * l.eR 1 +
    l.eL 2 * (me 2 * v') * l.eR 2) * b + (l.nL 0 * (me 0 * v') * l.eR 0 +
    l.nL 1 * (me 1 * v') * l.eR 1 + l.nL 2 * (me 2 * v') * l.eR 2) * a) * h1

end Verif.Yukawa
