import Verif.Lagrangian.Spec
import Verif.Lagrangian.Restrict
import Mathlib.Analysis.SpecialFunctions.Trigonometric.Basic

/-!
# Symmetries of the models with two doublets

The eight real fields of the real and the complex two Higgs doublet model and their transformations.
-/

set_option linter.unusedSectionVars false
set_option linter.unusedSimpArgs false

namespace Verif.Lagrangian.TwoDoublets

open Verif.Lagrangian.Spec

/-- The doublets, ClassPotentialR2HDM.h:38-45, ClassPotentialC2HDM.h:42-49. -/
noncomputable def phi1 (φ : Fin 8 → ℝ) : Fin 2 → ℂ := doublet (φ 0) (φ 1) (φ 4) (φ 5)

/-- The doublets, ClassPotentialR2HDM.h:38-45, ClassPotentialC2HDM.h:42-49. -/
noncomputable def phi2 (φ : Fin 8 → ℝ) : Fin 2 → ℂ := doublet (φ 2) (φ 3) (φ 6) (φ 7)

/-- The first-order change of the fields when both doublets are multiplied by `exp(i θ σ_a)`
(`a = 0, 1, 2`) or by `exp(i θ)` (`a = 3`). -/
noncomputable def generator (a : Fin 4) : (Fin 8 → ℝ) →L[ℝ] (Fin 8 → ℝ) :=
  LinearMap.toContinuousLinearMap
    { toFun := fun φ => ![![-φ 5, φ 4, -φ 7, φ 6, -φ 1, φ 0, -φ 3, φ 2],
        ![φ 4, φ 5, φ 6, φ 7, -φ 0, -φ 1, -φ 2, -φ 3],
        ![-φ 1, φ 0, -φ 3, φ 2, φ 5, -φ 4, φ 7, -φ 6],
        ![-φ 1, φ 0, -φ 3, φ 2, -φ 5, φ 4, -φ 7, φ 6]] a
      map_add' := by intro x y; funext k; fin_cases a <;> fin_cases k <;> simp <;> ring
      map_smul' := by intro x y; funext k; fin_cases a <;> fin_cases k <;> simp }

theorem generator_apply (a : Fin 4) (φ : Fin 8 → ℝ) :
    generator a φ = ![![-φ 5, φ 4, -φ 7, φ 6, -φ 1, φ 0, -φ 3, φ 2],
        ![φ 4, φ 5, φ 6, φ 7, -φ 0, -φ 1, -φ 2, -φ 3],
        ![-φ 1, φ 0, -φ 3, φ 2, φ 5, -φ 4, φ 7, -φ 6],
        ![-φ 1, φ 0, -φ 3, φ 2, -φ 5, φ 4, -φ 7, φ 6]] a := rfl

theorem generator_sq (a : Fin 4) (φ : Fin 8 → ℝ) (k : Fin 8) :
    generator a (generator a φ) k = -φ k := by
  simp only [generator_apply]
  fin_cases a <;> fin_cases k <;> simp

theorem rotate_eq (a : Fin 4) (θ : ℝ) (φ : Fin 8 → ℝ) (k : Fin 8) :
    rotate (generator a) θ φ k = Real.cos θ * φ k + Real.sin θ * generator a φ k := by
  rw [rotate_apply, generator_sq]
  ring

/-- The transformations multiply both doublets by `cos θ + i sin θ σ_a` or `cos θ + i sin θ`. -/
theorem doublets_rotate (a : Fin 4) (θ : ℝ) (φ : Fin 8 → ℝ) :
    phi1 (rotate (generator a) θ φ) = gaugeRotation a θ (phi1 φ) ∧
      phi2 (rotate (generator a) θ φ) = gaugeRotation a θ (phi2 φ) := by
  constructor
  · rw [phi1, phi1, ← gaugeRotation_doublet]
    simp only [rotate_eq, generator_apply]
    fin_cases a <;> simp [turn]
  · rw [phi2, phi2, ← gaugeRotation_doublet]
    simp only [rotate_eq, generator_apply]
    fin_cases a <;> simp [turn]

/-- Invariance under `SU(2) × U(1)`. -/
def GaugeInvariant (W : (Fin 8 → ℝ) → ℝ) : Prop :=
  ∀ a θ φ, W (rotate (generator a) θ φ) = W φ

/-- The complex conjugation of both doublets. -/
noncomputable def conjugate (φ : Fin 8 → ℝ) : Fin 8 → ℝ :=
  fun k => ![1, -1, 1, -1, 1, -1, 1, -1] k * φ k

theorem doublets_conjugate (φ : Fin 8 → ℝ) (k : Fin 2) :
    phi1 (conjugate φ) k = (starRingEnd ℂ) (phi1 φ k) ∧
      phi2 (conjugate φ) k = (starRingEnd ℂ) (phi2 φ k) := by
  fin_cases k <;> simp [phi1, phi2, doublet, conjugate]

/-- Invariance under the exchange of particles and antiparticles, as long as no charged field is
switched on.  (With the phase of the CKM matrix the charged fields need not have this symmetry.) -/
def CPInvariant (W : (Fin 8 → ℝ) → ℝ) : Prop :=
  ∀ φ, (∀ k : Fin 8, (k : Nat) < 4 → φ k = 0) → W (conjugate φ) = W φ

/-- The vacuum `(0, v1) / √2`, `(0, v2) / √2`. -/
def vacuum (v1 v2 : ℝ) : Fin 8 → ℝ := ![0, 0, 0, 0, v1, 0, v2, 0]

/-- The exchange of the real and imaginary parts of the charged fields. -/
def chargedSwap : Fin 8 → Fin 8 := ![1, 0, 3, 2, 4, 5, 6, 7]

/-- The signs of the electromagnetic rotation by a right angle. -/
def chargedSign : Fin 8 → ℝ := ![-1, 1, -1, 1, 1, 1, 1, 1]

/-- An electromagnetic rotation by a right angle multiplies the charged fields by `i`. -/
theorem charged_invariant {W : (Fin 8 → ℝ) → ℝ} (hW : GaugeInvariant W) (φ : Fin 8 → ℝ) :
    W (fun k => chargedSign k * φ (chargedSwap k)) = W φ := by
  rw [← hW 3 (Real.pi / 4) φ, ← hW 2 (Real.pi / 4) (rotate (generator 3) (Real.pi / 4) φ)]
  congr 1
  funext k
  have hs : √2 / 2 * (√2 / 2) = (1 / 2 : ℝ) := by
    have := Real.mul_self_sqrt (show (0 : ℝ) ≤ 2 by norm_num)
    linarith
  rw [rotate_eq, generator_apply]
  simp only [rotate_eq, generator_apply, Real.cos_pi_div_four, Real.sin_pi_div_four]
  generalize (√2 / 2 : ℝ) = c at hs
  fin_cases k <;> simp [chargedSign, chargedSwap]
  · linear_combination (2 * φ 1) * hs
  · linear_combination (-2 * φ 0) * hs
  · linear_combination (2 * φ 3) * hs
  · linear_combination (-2 * φ 2) * hs
  · linear_combination (-2 * φ 4) * hs
  · linear_combination (-2 * φ 5) * hs
  · linear_combination (-2 * φ 6) * hs
  · linear_combination (-2 * φ 7) * hs

/-- What gauge invariance says about the gradient and the Hesse matrix at the vacuum. -/
structure GaugeRelations (v1 v2 : ℝ) (N : Fin 8 → ℝ) (H : Fin 8 → Fin 8 → ℝ) : Prop where
  symm : ∀ i j, H i j = H j i
  charged : ∀ i : Fin 8, (i : Nat) < 4 → N i = 0
  mixed : ∀ i j : Fin 8, (i : Nat) < 4 → 4 ≤ (j : Nat) → H i j = 0
  h01 : H 0 1 = 0
  h23 : H 2 3 = 0
  h11 : H 1 1 = H 0 0
  h13 : H 1 3 = H 0 2
  h33 : H 3 3 = H 2 2
  h12 : H 1 2 = -H 0 3
  n5 : N 5 * v1 + N 7 * v2 = 0
  g0 : H 0 0 * v1 + H 0 2 * v2 = N 4
  g2 : H 2 0 * v1 + H 2 2 * v2 = N 6
  g1 : H 0 3 * v2 = -N 5
  g3 : H 0 3 * v1 = N 7
  g4 : H 4 5 * v1 + H 4 7 * v2 = -N 5
  g5 : H 5 5 * v1 + H 5 7 * v2 = N 4
  g6 : H 6 5 * v1 + H 6 7 * v2 = -N 7
  g7 : H 7 5 * v1 + H 7 7 * v2 = N 6

theorem relations {W : (Fin 8 → ℝ) → ℝ} (hW : GaugeInvariant W) {v1 v2 : ℝ} {N : Fin 8 → ℝ}
    {H : Fin 8 → Fin 8 → ℝ} (hE : Expansion W (vacuum v1 v2) N H) :
    GaugeRelations v1 v2 N H := by
  have hem := hE.signed chargedSwap (by intro k; fin_cases k <;> rfl) chargedSign
    (by intro k; fin_cases k <;> simp [chargedSign, chargedSwap, vacuum]) (charged_invariant hW)
  have hg := fun a => hE.goldstone (rotate_generates (generator a)) (hW a)
  have em := hem.2
  have e0 := hem.1 0
  have e1 := hem.1 1
  have e2 := hem.1 2
  have e3 := hem.1 3
  have h01 := em 0 1
  have h23 := em 2 3
  have h11 := em 0 0
  have h13 := em 0 2
  have h33 := em 2 2
  have h12 := em 0 3
  simp [chargedSwap, chargedSign] at e0 e1 e2 e3 h01 h23 h11 h13 h33 h12
  have a0 := (hg 0).2
  have a1 := (hg 1).2
  have a2 := (hg 2).2
  have b2 := (hg 2).1
  simp [Fin.sum_univ_eight, generator_apply, vacuum, Fin.forall_fin_succ] at a0 a1 a2 b2
  obtain ⟨a00, a01, a02, a03, -⟩ := a0
  obtain ⟨a10, a11, a12, a13, -⟩ := a1
  obtain ⟨-, -, -, -, a24, a25, a26, a27⟩ := a2
  have s10 := hE.symm 1 0
  have s32 := hE.symm 3 2
  have s21 := hE.symm 2 1
  refine ⟨hE.symm, ?_, ?_, by linarith, by linarith, h11, h13, h33, by linarith, by linarith,
    by linarith, by linarith, ?_, ?_, by linarith, by linarith, by linarith, by linarith⟩
  · intro i hi
    have : i = 0 ∨ i = 1 ∨ i = 2 ∨ i = 3 := by omega
    rcases this with rfl | rfl | rfl | rfl <;> linarith
  · intro i j hi hj
    have h1 : ∀ j : Fin 8, 4 ≤ (j : Nat) → chargedSwap j = j ∧ chargedSign j = 1 := by
      intro j hj; fin_cases j <;> simp [chargedSwap, chargedSign] at hj ⊢
    have p0 := em 0 j
    have p1 := em 1 j
    have p2 := em 2 j
    have p3 := em 3 j
    rw [(h1 j hj).1, (h1 j hj).2] at p0 p1 p2 p3
    simp [chargedSwap, chargedSign] at p0 p1 p2 p3
    have : i = 0 ∨ i = 1 ∨ i = 2 ∨ i = 3 := by omega
    rcases this with rfl | rfl | rfl | rfl <;> linarith
  · have : H 0 1 = 0 := by linarith
    rw [this] at a00; linarith
  · have : H 2 3 = 0 := by linarith
    rw [this, s21] at a02
    have : H 1 2 = -H 0 3 := by linarith
    rw [this] at a02; linarith

/-- The neutral fields. -/
def neutral : Fin 4 → Fin 8 := ![4, 5, 6, 7]

theorem neutral_eq (φ : Fin 4 → ℝ) :
    includeL neutral φ = ![0, 0, 0, 0, φ 0, φ 1, φ 2, φ 3] := by
  funext k
  fin_cases k <;> simp [includeL_apply, Fin.sum_univ_four, neutral]

/-- Invariance under CP removes the couplings between the two kinds of fields. -/
theorem cp_relations {W : (Fin 8 → ℝ) → ℝ} (hg : GaugeInvariant W) (hW : CPInvariant W) {v1 v2 : ℝ}
    (hv : v2 ≠ 0) {N : Fin 8 → ℝ} {H : Fin 8 → Fin 8 → ℝ} (hE : Expansion W (vacuum v1 v2) N H) :
    (∀ i : Fin 8, (i : Nat) % 2 = 1 → N i = 0) ∧
      ∀ i j : Fin 8, (i : Nat) % 2 ≠ (j : Nat) % 2 → H i j = 0 := by
  have hr := relations hg hE
  have h := hE.some neutral (by decide) ![v1, 0, v2, 0] (by rw [neutral_eq]; rfl)
  obtain ⟨h1, h2⟩ := h.signed id (fun _ => rfl) ![1, -1, 1, -1] (by intro k; fin_cases k <;> simp) (by
    intro φ
    have := hW (includeL neutral φ) (by
      intro k hk
      rw [neutral_eq]
      have : k = 0 ∨ k = 1 ∨ k = 2 ∨ k = 3 := by omega
      rcases this with rfl | rfl | rfl | rfl <;> rfl)
    rw [← this]
    congr 1
    rw [neutral_eq, neutral_eq]
    funext k
    fin_cases k <;> simp [conjugate])
  have n5 : N 5 = 0 := by
    have := h1 1
    simp [neutral] at this
    linarith
  have n7 : N 7 = 0 := by
    have := h1 3
    simp [neutral] at this
    linarith
  have h03 : H 0 3 = 0 := by
    have := hr.g1
    rw [n5, neg_zero] at this
    exact (mul_eq_zero.mp this).resolve_right hv
  have h12 : H 1 2 = 0 := by rw [hr.h12, h03, neg_zero]
  have h45 : H 4 5 = 0 := by have := h2 0 1; simp [neutral] at this; linarith
  have h47 : H 4 7 = 0 := by have := h2 0 3; simp [neutral] at this; linarith
  have h56 : H 5 6 = 0 := by have := h2 1 2; simp [neutral] at this; linarith
  have h67 : H 6 7 = 0 := by have := h2 2 3; simp [neutral] at this; linarith
  constructor
  · intro i hi
    fin_cases i <;> simp at hi <;> first
      | exact n5
      | exact n7
      | exact hr.charged _ (by decide)
  · intro i j hij
    have h01 := hr.h01
    have h23 := hr.h23
    fin_cases i <;> fin_cases j <;> first
      | exact absurd rfl hij
      | assumption
      | exact hr.mixed _ _ (by decide) (by decide)
      | exact (hr.symm _ _).trans (hr.mixed _ _ (by decide) (by decide))
      | (refine (hr.symm _ _).trans ?_; assumption)

/-- The sum of the squares of the fields is invariant. -/
theorem square_invariant :
    GaugeInvariant (fun φ => (∑ k, φ k ^ 2) / 2) ∧ CPInvariant (fun φ => (∑ k, φ k ^ 2) / 2) := by
  constructor
  · intro a θ φ
    have h := Real.sin_sq_add_cos_sq θ
    simp only [Fin.sum_univ_eight, rotate_eq, generator_apply]
    fin_cases a <;> simp <;>
      linear_combination (φ 0 ^ 2 + φ 1 ^ 2 + φ 2 ^ 2 + φ 3 ^ 2 + φ 4 ^ 2 + φ 5 ^ 2 + φ 6 ^ 2 +
        φ 7 ^ 2) * h
  · intro φ _
    simp [Fin.sum_univ_eight, conjugate]

end Verif.Lagrangian.TwoDoublets
