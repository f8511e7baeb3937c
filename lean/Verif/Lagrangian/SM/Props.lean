import Verif.Lagrangian.SM.Model
import Verif.Lagrangian.Eval
import Verif.Lagrangian.Spec
import Verif.Lagrangian.Invariance

/-!
# The standard model implements its Lagrangian
-/

set_option linter.unusedSectionVars false
set_option linter.unusedSimpArgs false

namespace Verif.Lagrangian.SM

open Verif.Potential
open Verif.Potential.Spec (polynomial)
open Verif.Lagrangian.Spec

section Lists
variable {K : Type} [Field K]

theorem l2_distinct (p : Par K) : Distinct (l2 p) := by
  simp only [Distinct, l2, List.map_cons, List.map_nil]; decide +kernel

theorem l4_distinct (p : Par K) : Distinct (l4 p) := by
  simp only [Distinct, l4, List.map_cons, List.map_nil]; decide +kernel

theorem l4_ascending (p : Par K) : Ascending (l4 p) :=
  ascending_of _ (by simp only [l4, List.map_cons, List.map_nil]; decide +kernel)

theorem l2_rank (p : Par K) : Rank 2 (l2 p) :=
  rank_of _ _ (by simp only [l2, List.map_cons, List.map_nil]; decide +kernel)

theorem l4_rank (p : Par K) : Rank 4 (l4 p) :=
  rank_of _ _ (by simp only [l4, List.map_cons, List.map_nil]; decide +kernel)

theorem ctL1_distinct (c : CT K) : Distinct (ctL1 c) := by
  simp only [Distinct, ctL1, List.map_cons, List.map_nil]; decide +kernel

theorem ctL2_distinct (c : CT K) : Distinct (ctL2 c) := by
  simp only [Distinct, ctL2, List.map_cons, List.map_nil]; decide +kernel

theorem ctL4_distinct (c : CT K) : Distinct (ctL4 c) := by
  simp only [Distinct, ctL4, List.map_cons, List.map_nil]; decide +kernel

theorem ctL4_ascending (c : CT K) : Ascending (ctL4 c) :=
  ascending_of _ (by simp only [ctL4, List.map_cons, List.map_nil]; decide +kernel)

theorem ctL1_rank (c : CT K) : Rank 1 (ctL1 c) :=
  rank_of _ _ (by simp only [ctL1, List.map_cons, List.map_nil]; decide +kernel)

theorem ctL2_rank (c : CT K) : Rank 2 (ctL2 c) :=
  rank_of _ _ (by simp only [ctL2, List.map_cons, List.map_nil]; decide +kernel)

theorem ctL4_rank (c : CT K) : Rank 4 (ctL4 c) :=
  rank_of _ _ (by simp only [ctL4, List.map_cons, List.map_nil]; decide +kernel)

theorem g2h2_distinct (g gs : K) : Distinct (g2h2 g gs) := by
  simp only [Distinct, g2h2, List.map_cons, List.map_nil]; decide +kernel

theorem tree_eq (p : Par K) :
    tree p = curv 4 (look []) (look (l2 p)) (look []) (lookSym (l4 p)) := by
  rw [tree, symmetrised4_curv _ _ _ (l4 p) (l4_distinct p) _ (C32_sym4 _ _),
    assign_look _ (l2_distinct p), zero_look]

theorem counter_eq (c : CT K) :
    counter c = curv 4 (look (ctL1 c)) (look (ctL2 c)) (look []) (lookSym (ctL4 c)) := by
  rw [counter, symmetrised4_curv _ _ _ (ctL4 c) (ctL4_distinct c) _ (C32_sym4 _ _),
    assign_look _ (ctL1_distinct c), assign_look _ (ctL2_distinct c), zero_look]

theorem vev_sum (v : K) (f : Fin 4 → K) (hf : ∀ k, vevTree v k = 0 → f k = 0) :
    ∑ k, f k = f 2 := by
  refine sum_support1 2 (vevTree v) (fun k hk => ?_) f hf
  fin_cases k <;> first | rfl | exact absurd rfl hk

end Lists

/-- The Higgs doublet of the fields, ClassPotentialSM.h. -/
noncomputable def higgs (φ : Fin 4 → ℝ) : Fin 2 → ℂ := doublet (φ 0) (φ 1) (φ 2) (φ 3)

theorem higgs_square (φ : Fin 4 → ℝ) : dagger (higgs φ) (higgs φ) =
    (((φ 0 ^ 2 + φ 1 ^ 2 + φ 2 ^ 2 + φ 3 ^ 2) / 2 : ℝ) : ℂ) := by
  rw [higgs, dagger_doublet]
  push_cast
  ring

/-- For all parameters and all values of the fields the tree-level potential is the documented
`-L_S = muSq Φ†Φ + lambda (Φ†Φ)²`. -/
theorem C74_sm_potential (p : Par ℝ) (φ : FVec 4 ℝ) (s : FVec 4 ℝ → ℝ) (force : Bool) :
    ((vTree false s (tree p) φ 0 force : ℝ) : ℂ) =
      p.muSq * dagger (higgs φ) (higgs φ) + p.lam * dagger (higgs φ) (higgs φ) ^ 2 := by
  rw [C30_value false s _ _ (by simp), higgs_square, tree_eq,
    polynomial_sym _ _ _ _ distinct_nil (l2_distinct p) distinct_nil (l4_distinct p)
      (l4_ascending p) (rank_nil _) (l2_rank p) (rank_nil _) (l4_rank p)]
  norm_cast
  simp [terms, l2, l4, mult_quad, ext]
  ring

/-- The counterterm potential has the same form with the counterterms of the parameters, and a
tadpole for every field. -/
theorem C74_sm_counterterms (c : CT ℝ) (φ : FVec 4 ℝ) (s : FVec 4 ℝ → ℝ) (force : Bool) :
    ((counterTerm false s (counter c) φ 0 force : ℝ) : ℂ) =
      c.dmuSq * dagger (higgs φ) (higgs φ) + c.dlambda * dagger (higgs φ) (higgs φ) ^ 2 +
        ((c.dT1 * φ 0 + c.dT2 * φ 1 + c.dT3 * φ 2 + c.dT4 * φ 3 : ℝ) : ℂ) := by
  rw [C30_counterterm_value false s _ _ (by simp), higgs_square, counter_eq,
    polynomial_sym _ _ _ _ (ctL1_distinct c) (ctL2_distinct c) distinct_nil (ctL4_distinct c)
      (ctL4_ascending c) (ctL1_rank c) (ctL2_rank c) (rank_nil _) (ctL4_rank c)]
  norm_cast
  simp [terms, ctL1, ctL2, ctL4, mult_quad, ext]
  ring

example : ((vTree false (fun _ => 0) (tree (⟨-2, 3⟩ : Par ℝ)) ![0, 0, 1, 1] 0 false : ℝ) : ℂ) = 1 := by
  rw [C74_sm_potential, higgs_square]
  simp [Matrix.cons_val_two, Matrix.cons_val_three]
  norm_num

/-! ### The vacuum -/

theorem tree_grad (p : Par ℝ) (v : ℝ) (i : Fin 4) :
    grad (tree p) (vevTree v) i = if i = 2 then p.muSq * v + p.lam * v ^ 3 else 0 := by
  rw [tree_eq, grad_reduce _ _ (fun f => f 2) (vev_sum v)]
  fin_cases i <;>
  simp [curv, vevTree, lookSym, look, l2, l4, List.lookup, List.insertionSort, List.orderedInsert]
  ring

theorem tree_hess (p : Par ℝ) (v : ℝ) (i j : Fin 4) :
    hessianCT (tree p) (vevTree v) i j =
      if i = j then (if i = 2 then p.muSq + 3 * p.lam * v ^ 2 else p.muSq + p.lam * v ^ 2)
      else 0 := by
  rw [tree_eq, hess_reduce _ _ (fun f => f 2) (vev_sum v)]
  fin_cases i <;> fin_cases j <;>
  simp [curv, vevTree, lookSym, look, l2, l4, List.lookup, List.insertionSort,
    List.orderedInsert] <;> ring

/-- With the parameters of `set_gen` the vacuum `v0` of the input is a stationary point of the
tree-level potential: every derivative mode vanishes. -/
theorem C75_sm_stationary (mh v0 : ℝ) (_hv : v0 ≠ 0) (s : FVec 4 ℝ → ℝ) (force : Bool) (i : Fin 4) :
    vTree false s (tree (setGen mh v0)) (vevTree v0) ((i : Int) + 1) force = 0 := by
  have h0 : ¬ ((i : Int) + 1 = 0) := by omega
  have h1 : (((i : Int) + 1) == 0) = false := by simpa using h0
  simp only [vTree, h0, h1, fieldIndex_succ, Bool.false_and, Bool.and_false, if_false, reduceIte]
  simp [tree_grad, setGen]
  intro _
  field_simp
  ring

/-- The scalar mass matrix there has the input Higgs mass for the third field and vanishes otherwise
(three Goldstone bosons). -/
theorem C75_sm_masses (mh v0 : ℝ) (hv : v0 ≠ 0) (d : Fin 4 → Fin 4 → ℝ) :
    ∃ M, higgsMassMatrix (tree (setGen mh v0)) d (vevTree v0) 0 0 = Outcome.ok M ∧
      ∀ i j, M i j = if i = 2 ∧ j = 2 then mh ^ 2 else 0 := by
  refine ⟨mass0 (tree (setGen mh v0)) d (vevTree v0) 0, by simp [higgsMassMatrix], ?_⟩
  have h : ∀ i j, massUpper (tree (setGen mh v0)) d (vevTree v0) 0 i j =
      hessianCT (tree (setGen mh v0)) (vevTree v0) i j := by
    intro i j; simp [massUpper, hessianCT]
  intro i j
  rw [mass0, h, h, tree_hess, tree_hess]
  fin_cases i <;> fin_cases j <;> simp [setGen] <;> field_simp <;> ring

example : (246 : ℝ) ≠ 0 := by norm_num

/-! ### Counterterms -/

theorem counter_grad (c : CT ℝ) (v : ℝ) (i : Fin 4) :
    grad (counter c) (vevTree v) i =
      ![c.dT1, c.dT2, c.dT3 + c.dmuSq * v + c.dlambda * v ^ 3, c.dT4] i := by
  rw [counter_eq, grad_reduce _ _ (fun f => f 2) (vev_sum v)]
  fin_cases i <;>
  simp [curv, vevTree, lookSym, look, ctL1, ctL2, ctL4, List.lookup, List.insertionSort,
    List.orderedInsert]
  ring

theorem counter_hess (c : CT ℝ) (v : ℝ) (i j : Fin 4) :
    hessianCT (counter c) (vevTree v) i j =
      if i = j then (if i = 2 then c.dmuSq + 3 * c.dlambda * v ^ 2
        else c.dmuSq + c.dlambda * v ^ 2) else 0 := by
  rw [counter_eq, hess_reduce _ _ (fun f => f 2) (vev_sum v)]
  fin_cases i <;> fin_cases j <;>
  simp [curv, vevTree, lookSym, look, ctL1, ctL2, ctL4, List.lookup, List.insertionSort,
    List.orderedInsert] <;> ring

/-- The first-order change of the fields when the doublet is multiplied by `exp(i θ σ_a)`
(`a = 0, 1, 2`) or by `exp(i θ)` (`a = 3`). -/
noncomputable def generator (a : Fin 4) : (Fin 4 → ℝ) →L[ℝ] (Fin 4 → ℝ) :=
  LinearMap.toContinuousLinearMap
    { toFun := fun φ => ![![-φ 3, φ 2, -φ 1, φ 0], ![φ 2, φ 3, -φ 0, -φ 1],
        ![-φ 1, φ 0, φ 3, -φ 2], ![-φ 1, φ 0, -φ 3, φ 2]] a
      map_add' := by intro x y; funext k; fin_cases a <;> fin_cases k <;> simp <;> ring
      map_smul' := by intro x y; funext k; fin_cases a <;> fin_cases k <;> simp }

theorem generator_apply (a : Fin 4) (φ : Fin 4 → ℝ) :
    generator a φ = ![![-φ 3, φ 2, -φ 1, φ 0], ![φ 2, φ 3, -φ 0, -φ 1],
        ![-φ 1, φ 0, φ 3, -φ 2], ![-φ 1, φ 0, -φ 3, φ 2]] a := rfl

/-- The transformations are the multiplications of the doublet by `cos θ + i sin θ σ_a` and
`cos θ + i sin θ`. -/
theorem higgs_rotate (a : Fin 4) (θ : ℝ) (φ : Fin 4 → ℝ) :
    higgs (rotate (generator a) θ φ) = gaugeRotation a θ (higgs φ) := by
  rw [higgs, higgs, ← gaugeRotation_doublet]
  simp only [rotate_apply, generator_apply]
  fin_cases a <;> simp [turn] <;> congr 1 <;> ring

/-- Invariance under `SU(2) × U(1)`. -/
def GaugeInvariant (W : (Fin 4 → ℝ) → ℝ) : Prop :=
  ∀ a θ φ, W (rotate (generator a) θ φ) = W φ

/-- The counterterms of `calc_CT` cancel the first and second derivatives of the Coleman-Weinberg
potential `W` at the vacuum: `NablaVCT = -N` and `HessianCT = -H`, so that the vacuum and the masses
stay at their tree-level values. -/
theorem C76_sm_cancel (W : (Fin 4 → ℝ) → ℝ) (hW : GaugeInvariant W) (v0 : ℝ)
    (hv : v0 ≠ 0) (N : Fin 4 → ℝ) (H : Fin 4 → Fin 4 → ℝ) (hE : Expansion W (vevTree v0) N H) :
    (∀ i, nablaVCT (counter (calcCT v0 N H)) (vevTree v0) i = -N i) ∧
    (∀ i j, hessianCT (counter (calcCT v0 N H)) (vevTree v0) i j = -H i j) ∧
    (calcCT v0 N H).dT1 = 0 ∧ (calcCT v0 N H).dT2 = 0 ∧ (calcCT v0 N H).dT3 = 0 ∧
    (calcCT v0 N H).dT4 = 0 := by
  have hg := fun a => hE.goldstone (rotate_generates (generator a)) (hW a)
  have e0 : N 0 = 0 := by
    have := (hg 1).1
    simp [Fin.sum_univ_four, generator_apply, vevTree] at this
    exact this.resolve_right hv
  have e1 : N 1 = 0 := by
    have := (hg 0).1
    simp [Fin.sum_univ_four, generator_apply, vevTree] at this
    exact this.resolve_right hv
  have e3 : N 3 = 0 := by
    have := (hg 2).1
    simp [Fin.sum_univ_four, generator_apply, vevTree] at this
    exact this.resolve_right hv
  have h0 := (hg 0).2
  have h1 := (hg 1).2
  have h2 := (hg 2).2
  simp only [Fin.forall_fin_succ, Fin.sum_univ_four, generator_apply, vevTree] at h0 h1 h2
  simp [e0, e1, e3, hv] at h0 h1 h2
  obtain ⟨a0, a1, a2, a3⟩ := h0
  obtain ⟨b0, b1, b2, b3⟩ := h1
  obtain ⟨c0, c1, c2, c3⟩ := h2
  have d0 : H 0 0 = H 3 3 := mul_right_cancel₀ hv (by linarith)
  have d1 : H 1 1 = H 3 3 := mul_right_cancel₀ hv (by linarith)
  have f02 : H 0 2 = 0 := by rw [hE.symm]; exact b2
  have f12 : H 1 2 = 0 := by rw [hE.symm]; exact a2
  have f32 : H 3 2 = 0 := by rw [hE.symm]; exact c2
  refine ⟨?_, ?_, by simp [calcCT, e0], by simp [calcCT, e1], by simp only [calcCT]; linarith,
    by simp [calcCT, e3]⟩
  · intro i
    rw [nablaVCT, counter_grad]
    fin_cases i <;> simp [calcCT]
    field_simp
    ring
  · intro i j
    rw [counter_hess]
    fin_cases i <;> fin_cases j <;> simp [calcCT, *] <;> field_simp <;> ring

/-- The hypotheses are met by an invariant function with a non-trivial gradient at the vacuum. -/
example : GaugeInvariant (fun φ => (∑ k, φ k ^ 2) / 2) ∧
    Expansion (fun φ => (∑ k, φ k ^ 2) / 2) (vevTree (246 : ℝ)) (vevTree 246)
      (fun i j => if i = j then 1 else 0) := by
  refine ⟨?_, expansion_square _⟩
  intro a θ φ
  have h := Real.sin_sq_add_cos_sq θ
  simp only [Fin.sum_univ_four, rotate_apply, generator_apply]
  fin_cases a <;> simp <;>
    linear_combination (φ 0 ^ 2 + φ 1 ^ 2 + φ 2 ^ 2 + φ 3 ^ 2) * h

/-! ### Gauge couplings -/

/-- For all values of the scalar and gauge fields `1/4 G2H2[a][b][i][j] A_a A_b φ_i φ_j` is the
documented `(D Φ)† (D Φ)`. -/
theorem C77_sm_gauge (g gs : ℝ) (W : Fin 4 → ℝ) (φ : Fin 4 → ℝ) :
    ((1 / 4 * ∑ a : Fin 4, ∑ b : Fin 4, ∑ i : Fin 4, ∑ j : Fin 4,
        gauge g gs [(a : Nat), (b : Nat), (i : Nat), (j : Nat)] *
          (W a * (W b * (φ i * φ j))) : ℝ) : ℂ) =
      dagger (covariant g gs W (higgs φ)) (covariant g gs W (higgs φ)) := by
  rw [higgs, covariant_doublet, gauge, contract_look _ (g2h2_distinct g gs)]
  norm_cast
  simp [g2h2, ext]
  ring

/-- The tensor does not depend on the order of the two gauge indices and of the two field
indices. -/
theorem C77_sm_gauge_symmetric (g gs : ℝ) (a b i j : Fin 4) :
    gauge g gs [(a : Nat), (b : Nat), (i : Nat), (j : Nat)] =
        gauge g gs [(b : Nat), (a : Nat), (i : Nat), (j : Nat)] ∧
      gauge g gs [(a : Nat), (b : Nat), (i : Nat), (j : Nat)] =
        gauge g gs [(a : Nat), (b : Nat), (j : Nat), (i : Nat)] := by
  rw [gauge, assign_look _ (g2h2_distinct g gs)]
  constructor <;> fin_cases a <;> fin_cases b <;> fin_cases i <;> fin_cases j <;> rfl

end Verif.Lagrangian.SM
