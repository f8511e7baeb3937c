import Verif.Lagrangian.Template.Model
import Verif.Lagrangian.Eval
import Verif.Lagrangian.Spec
import Verif.Lagrangian.Invariance

/-!
# The template model implements its Lagrangian
-/

set_option linter.unusedSectionVars false
set_option linter.unusedSimpArgs false

namespace Verif.Lagrangian.Template

open Verif.Potential
open Verif.Potential.Spec (polynomial)
open Verif.Lagrangian.Spec

theorem tree_poly (p : Par ℝ) (φ : FVec 1 ℝ) :
    polynomial (tree p) φ = p.ms / 2 * φ 0 ^ 2 + p.lam / 24 * φ 0 ^ 4 := by
  simp [polynomial, tree, curv, assign, zeroTensor, setEntry]
  ring

theorem counter_poly (c : CT ℝ) (φ : FVec 1 ℝ) :
    polynomial (counter c) φ = c.dT * φ 0 + c.dms / 2 * φ 0 ^ 2 + c.dlam / 24 * φ 0 ^ 4 := by
  simp [polynomial, counter, curv, assign, zeroTensor, setEntry]
  ring

/-- For all parameters and all values of the field the tree-level potential is
`m²/2 φ² + λ/4! φ⁴`, and the simplified one is the same. -/
theorem C74_template_potential (p : Par ℝ) (φ : FVec 1 ℝ) (use force : Bool) :
    vTree use (treeSimplified p) (tree p) φ 0 force =
      p.ms / 2 * φ 0 ^ 2 + p.lam / 24 * φ 0 ^ 4 := by
  rw [C30_value _ _ _ _ (fun _ w => by rw [tree_poly, treeSimplified]; ring), tree_poly]

/-- The counterterm potential has the same form and a tadpole. -/
theorem C74_template_counterterms (c : CT ℝ) (φ : FVec 1 ℝ) (use force : Bool) :
    counterTerm use (counterSimplified c) (counter c) φ 0 force =
      c.dT * φ 0 + c.dms / 2 * φ 0 ^ 2 + c.dlam / 24 * φ 0 ^ 4 := by
  rw [C30_counterterm_value _ _ _ _ (fun _ w => by rw [counter_poly, counterSimplified]; ring),
    counter_poly]

theorem tree_grad (p : Par ℝ) (v : ℝ) : grad (tree p) (vevTree v) 0 =
    p.ms * v + p.lam / 6 * v ^ 3 := by
  simp [grad, tree, curv, assign, zeroTensor, setEntry, vevTree]
  ring

theorem tree_hess (p : Par ℝ) (v : ℝ) : hessianCT (tree p) (vevTree v) 0 0 =
    p.ms + p.lam / 2 * v ^ 2 := by
  simp [hessianCT, tree, curv, assign, zeroTensor, setEntry, vevTree]
  ring

theorem counter_grad (c : CT ℝ) (v : ℝ) : grad (counter c) (vevTree v) 0 =
    c.dT + c.dms * v + c.dlam / 6 * v ^ 3 := by
  simp [grad, counter, curv, assign, zeroTensor, setEntry, vevTree]
  ring

theorem counter_hess (c : CT ℝ) (v : ℝ) : hessianCT (counter c) (vevTree v) 0 0 =
    c.dms + c.dlam / 2 * v ^ 2 := by
  simp [hessianCT, counter, curv, assign, zeroTensor, setEntry, vevTree]
  ring

/-- The parameters are read without a tadpole equation: the vacuum is a stationary point of the
tree-level potential exactly if the given `m²` is `- λ v² / 6`. -/
theorem C75_template_stationary (p : Par ℝ) (v : ℝ) (hv : v ≠ 0) (s : FVec 1 ℝ → ℝ)
    (use force : Bool) :
    vTree use s (tree p) (vevTree v) 1 force = 0 ↔ p.ms = -(p.lam * v ^ 2 / 6) := by
  have key : vTree use s (tree p) (vevTree v) 1 force = p.ms * v + p.lam / 6 * v ^ 3 := by
    have h := fieldIndex_succ (n := 1) 0
    simp at h
    rw [← tree_grad]
    simp [vTree, h]
  rw [key]
  constructor
  · intro h
    have : v * (p.ms + p.lam * v ^ 2 / 6) = 0 := by linarith
    rcases mul_eq_zero.1 this with h | h
    · exact absurd h hv
    · linarith
  · intro h
    rw [h]; ring

/-- The squared mass of the scalar at such a vacuum is `λ v² / 3`. -/
theorem C75_template_masses (p : Par ℝ) (v : ℝ) (h : p.ms = -(p.lam * v ^ 2 / 6))
    (d : Fin 1 → Fin 1 → ℝ) :
    ∃ M, higgsMassMatrix (tree p) d (vevTree v) 0 0 = Outcome.ok M ∧
      M 0 0 = p.lam * v ^ 2 / 3 := by
  refine ⟨mass0 (tree p) d (vevTree v) 0, by simp [higgsMassMatrix], ?_⟩
  have : mass0 (tree p) d (vevTree v) 0 0 0 = hessianCT (tree p) (vevTree v) 0 0 := by
    simp [mass0, massUpper, hessianCT]
  rw [this, tree_hess, h]
  ring

example : ∃ p : Par ℝ, p.ms = -(p.lam * 246 ^ 2 / 6) ∧ p.lam ≠ 0 :=
  ⟨⟨-(246 ^ 2 / 6), 1⟩, by norm_num, by norm_num⟩

/-- The counterterms of `calc_CT` cancel the first and second derivatives of every function at the
vacuum, without a tadpole. -/
theorem C76_template_cancel (v : ℝ) (hv : v ≠ 0) (N : Fin 1 → ℝ) (H : Fin 1 → Fin 1 → ℝ) :
    (∀ i, nablaVCT (counter (calcCT v N H)) (vevTree v) i = -N i) ∧
    (∀ i j, hessianCT (counter (calcCT v N H)) (vevTree v) i j = -H i j) ∧
    (calcCT v N H).dT = 0 := by
  refine ⟨fun i => ?_, fun i j => ?_, rfl⟩
  · rw [Subsingleton.elim i 0, nablaVCT, counter_grad]
    simp only [calcCT]
    field_simp
    ring
  · rw [Subsingleton.elim i 0, Subsingleton.elim j 0, counter_hess]
    simp only [calcCT]
    field_simp
    ring

/-- Only the first gauge boson couples: `1/4 G2H2[a][b][i][j] A_a A_b φ_i φ_j = g² A₀² φ²`. -/
theorem C77_template_gauge (g : ℝ) (W : Fin 4 → ℝ) (φ : Fin 1 → ℝ) :
    1 / 4 * ∑ a : Fin 4, ∑ b : Fin 4, ∑ i : Fin 1, ∑ j : Fin 1,
        gauge g [(a : Nat), (b : Nat), (i : Nat), (j : Nat)] * (W a * (W b * (φ i * φ j))) =
      g ^ 2 * W 0 ^ 2 * φ 0 ^ 2 := by
  simp [Fin.sum_univ_four, gauge, assign, zeroTensor, setEntry]
  ring

end Verif.Lagrangian.Template
