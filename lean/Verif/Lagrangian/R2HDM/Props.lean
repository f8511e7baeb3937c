import Verif.Lagrangian.R2HDM.Tables
import Verif.Lagrangian.TwoDoublets
import Mathlib.Analysis.SpecialFunctions.Trigonometric.Arctan

/-!
# The CP-conserving two Higgs doublet model implements its Lagrangian
-/

set_option linter.unusedSectionVars false
set_option linter.unusedSimpArgs false

namespace Verif.Lagrangian.R2HDM

open Verif.Potential
open Verif.Lagrangian.Spec
open Verif.Lagrangian.TwoDoublets (phi1 phi2 GaugeInvariant CPInvariant)

/-- For all parameters and all values of the fields the tree-level potential is the documented
one. -/
theorem C74_r2hdm_potential (p : Par ℝ) (φ : FVec 8 ℝ) (s : FVec 8 ℝ → ℝ) (force : Bool) :
    ((vTree false s (tree p) φ 0 force : ℝ) : ℂ) =
      twoDoublet p.u1 p.u2 p.RealMMix p.L1 p.L2 p.L3 p.L4 p.RL5 0 (phi1 φ) (phi2 φ) := by
  rw [C30_value false s _ _ (by simp), phi1, phi2, twoDoublet_real, tree_eq,
    polynomial_sym _ _ _ _ distinct_nil (l2_distinct p) distinct_nil (l4_distinct p)
      (l4_ascending p) (rank_nil _) (l2_rank p) (rank_nil _) (l4_rank p)]
  congr 1
  simp [terms, l2, l4, mult_quad, ext]
  ring

/-- The counterterm potential has the same form with the counterterms of the parameters, and
tadpoles for the neutral fields. -/
theorem C74_r2hdm_counterterms (c : CT ℝ) (φ : FVec 8 ℝ) (s : FVec 8 ℝ → ℝ) (force : Bool) :
    ((counterTerm false s (counter c) φ 0 force : ℝ) : ℂ) =
      twoDoublet c.Du1CT c.Du2CT c.DRu3CT c.DL1CT c.DL2CT c.DL3CT c.DL4CT c.DRL5CT 0
        (phi1 φ) (phi2 φ) + ((c.DT1 * φ 4 + c.DT2 * φ 6 + c.DT3 * φ 7 : ℝ) : ℂ) := by
  rw [C30_counterterm_value false s _ _ (by simp), phi1, phi2, twoDoublet_real, counter_eq,
    polynomial_sym _ _ _ _ (ctL1_distinct c) (ctL2_distinct c) distinct_nil (ctL4_distinct c)
      (ctL4_ascending c) (ctL1_rank c) (ctL2_rank c) (rank_nil _) (ctL4_rank c),
    ← Complex.ofReal_add]
  congr 1
  simp [terms, ctL1, ctL2, ctL4, mult_quad, ext]
  ring

/-! ### The vacuum -/

/-- A symmetric matrix whose only couplings are those of the fields `(0, 2)`, `(1, 3)`, `(4, 6)` and
`(5, 7)`. -/
def blocks (a b c d e f g h k : ℝ) : Fin 8 → Fin 8 → ℝ :=
  !![a, 0, b, 0, 0, 0, 0, 0; 0, a, 0, b, 0, 0, 0, 0; b, 0, c, 0, 0, 0, 0, 0;
     0, b, 0, c, 0, 0, 0, 0; 0, 0, 0, 0, d, 0, e, 0; 0, 0, 0, 0, 0, g, 0, h;
     0, 0, 0, 0, e, 0, f, 0; 0, 0, 0, 0, 0, h, 0, k]

theorem tree_hess (p : Par ℝ) (v w : ℝ) (i j : Fin 8) :
    hessianCT (tree p) (vevTree v w) i j =
      blocks (p.u1 + (p.L1 * v ^ 2 + p.L3 * w ^ 2) / 2)
        (-p.RealMMix + (p.L4 + p.RL5) / 2 * v * w)
        (p.u2 + (p.L3 * v ^ 2 + p.L2 * w ^ 2) / 2)
        (p.u1 + 3 / 2 * p.L1 * v ^ 2 + (p.L3 + p.L4 + p.RL5) / 2 * w ^ 2)
        (-p.RealMMix + (p.L3 + p.L4 + p.RL5) * v * w)
        (p.u2 + 3 / 2 * p.L2 * w ^ 2 + (p.L3 + p.L4 + p.RL5) / 2 * v ^ 2)
        (p.u1 + p.L1 / 2 * v ^ 2 + (p.L3 + p.L4 - p.RL5) / 2 * w ^ 2)
        (-p.RealMMix + p.RL5 * v * w)
        (p.u2 + p.L2 / 2 * w ^ 2 + (p.L3 + p.L4 - p.RL5) / 2 * v ^ 2) i j := by
  rw [tree_eq, hess_reduce _ _ (fun f => f 4 + f 6) (vev_sum v w)]
  change look (l2 p) [i, j] +
    ((0 * v + (1 / 2 * lookSym (l4 p) [i, j, 4, 4] * v * v +
      1 / 2 * lookSym (l4 p) [i, j, 4, 6] * v * w)) +
    (0 * w + (1 / 2 * lookSym (l4 p) [i, j, 6, 4] * w * v +
      1 / 2 * lookSym (l4 p) [i, j, 6, 6] * w * w))) = _
  rw [l2_table, l4_table44, l4_table46, l4_table64, l4_table66]
  fin_cases i <;> fin_cases j <;> simp [blocks] <;> ring

theorem tree_grad (p : Par ℝ) (v w : ℝ) (i : Fin 8) :
    grad (tree p) (vevTree v w) i =
      ![0, 0, 0, 0,
        p.u1 * v - p.RealMMix * w + p.L1 / 2 * v ^ 3 + (p.L3 + p.L4 + p.RL5) / 2 * v * w ^ 2, 0,
        p.u2 * w - p.RealMMix * v + p.L2 / 2 * w ^ 3 + (p.L3 + p.L4 + p.RL5) / 2 * v ^ 2 * w, 0] i := by
  rw [tree_eq, grad_reduce _ _ (fun f => f 4 + f 6) (vev_sum v w)]
  change 0 + ((look (l2 p) [i, (4 : Fin 8)] * v +
      ((1 / 2 * 0 * v * v + (1 / 6 * lookSym (l4 p) [i, (4 : Fin 8), 4, 4] * v * v * v +
        1 / 6 * lookSym (l4 p) [i, (4 : Fin 8), 4, 6] * v * v * w)) +
      (1 / 2 * 0 * v * w + (1 / 6 * lookSym (l4 p) [i, (4 : Fin 8), 6, 4] * v * w * v +
        1 / 6 * lookSym (l4 p) [i, (4 : Fin 8), 6, 6] * v * w * w)))) +
    (look (l2 p) [i, (6 : Fin 8)] * w +
      ((1 / 2 * 0 * w * v + (1 / 6 * lookSym (l4 p) [i, (6 : Fin 8), 4, 4] * w * v * v +
        1 / 6 * lookSym (l4 p) [i, (6 : Fin 8), 4, 6] * w * v * w)) +
      (1 / 2 * 0 * w * w + (1 / 6 * lookSym (l4 p) [i, (6 : Fin 8), 6, 4] * w * w * v +
        1 / 6 * lookSym (l4 p) [i, (6 : Fin 8), 6, 6] * w * w * w))))) = _
  rw [l2_table, l2_table, l4_table44, l4_table46, l4_table64, l4_table66, l4_table44, l4_table46,
    l4_table64, l4_table66]
  fin_cases i <;> simp <;> ring

theorem counter_hess (c : CT ℝ) (v w : ℝ) (i j : Fin 8) :
    hessianCT (counter c) (vevTree v w) i j =
      blocks (c.Du1CT + (c.DL1CT * v ^ 2 + c.DL3CT * w ^ 2) / 2)
        (-c.DRu3CT + (c.DL4CT + c.DRL5CT) / 2 * v * w)
        (c.Du2CT + (c.DL3CT * v ^ 2 + c.DL2CT * w ^ 2) / 2)
        (c.Du1CT + 3 / 2 * c.DL1CT * v ^ 2 + (c.DL3CT + c.DL4CT + c.DRL5CT) / 2 * w ^ 2)
        (-c.DRu3CT + (c.DL3CT + c.DL4CT + c.DRL5CT) * v * w)
        (c.Du2CT + 3 / 2 * c.DL2CT * w ^ 2 + (c.DL3CT + c.DL4CT + c.DRL5CT) / 2 * v ^ 2)
        (c.Du1CT + c.DL1CT / 2 * v ^ 2 + (c.DL3CT + c.DL4CT - c.DRL5CT) / 2 * w ^ 2)
        (-c.DRu3CT + c.DRL5CT * v * w)
        (c.Du2CT + c.DL2CT / 2 * w ^ 2 + (c.DL3CT + c.DL4CT - c.DRL5CT) / 2 * v ^ 2) i j := by
  rw [counter_eq, hess_reduce _ _ (fun f => f 4 + f 6) (vev_sum v w)]
  change look (ctL2 c) [i, j] +
    ((0 * v + (1 / 2 * lookSym (ctL4 c) [i, j, 4, 4] * v * v +
      1 / 2 * lookSym (ctL4 c) [i, j, 4, 6] * v * w)) +
    (0 * w + (1 / 2 * lookSym (ctL4 c) [i, j, 6, 4] * w * v +
      1 / 2 * lookSym (ctL4 c) [i, j, 6, 6] * w * w))) = _
  rw [ctL2_table, ctL4_table44, ctL4_table46, ctL4_table64, ctL4_table66]
  fin_cases i <;> fin_cases j <;> simp [blocks] <;> ring

theorem counter_grad (c : CT ℝ) (v w : ℝ) (i : Fin 8) :
    grad (counter c) (vevTree v w) i =
      ![0, 0, 0, 0,
        c.DT1 + c.Du1CT * v - c.DRu3CT * w + c.DL1CT / 2 * v ^ 3 +
          (c.DL3CT + c.DL4CT + c.DRL5CT) / 2 * v * w ^ 2, 0,
        c.DT2 + c.Du2CT * w - c.DRu3CT * v + c.DL2CT / 2 * w ^ 3 +
          (c.DL3CT + c.DL4CT + c.DRL5CT) / 2 * v ^ 2 * w, c.DT3] i := by
  have h1 : ∀ i : Fin 8, look (ctL1 c) [i] = ![0, 0, 0, 0, c.DT1, 0, c.DT2, c.DT3] i := by
    intro i; fin_cases i <;> rfl
  rw [counter_eq, grad_reduce _ _ (fun f => f 4 + f 6) (vev_sum v w)]
  change look (ctL1 c) [i] + ((look (ctL2 c) [i, (4 : Fin 8)] * v +
      ((1 / 2 * 0 * v * v + (1 / 6 * lookSym (ctL4 c) [i, (4 : Fin 8), 4, 4] * v * v * v +
        1 / 6 * lookSym (ctL4 c) [i, (4 : Fin 8), 4, 6] * v * v * w)) +
      (1 / 2 * 0 * v * w + (1 / 6 * lookSym (ctL4 c) [i, (4 : Fin 8), 6, 4] * v * w * v +
        1 / 6 * lookSym (ctL4 c) [i, (4 : Fin 8), 6, 6] * v * w * w)))) +
    (look (ctL2 c) [i, (6 : Fin 8)] * w +
      ((1 / 2 * 0 * w * v + (1 / 6 * lookSym (ctL4 c) [i, (6 : Fin 8), 4, 4] * w * v * v +
        1 / 6 * lookSym (ctL4 c) [i, (6 : Fin 8), 4, 6] * w * v * w)) +
      (1 / 2 * 0 * w * w + (1 / 6 * lookSym (ctL4 c) [i, (6 : Fin 8), 6, 4] * w * w * v +
        1 / 6 * lookSym (ctL4 c) [i, (6 : Fin 8), 6, 6] * w * w * w))))) = _
  rw [h1, ctL2_table, ctL2_table, ctL4_table44, ctL4_table46, ctL4_table64, ctL4_table66,
    ctL4_table44, ctL4_table46, ctL4_table64, ctL4_table66]
  fin_cases i <;> simp <;> ring

theorem cosBetaSquared_pos (t : ℝ) : 0 < cosBetaSquared t := by
  have := mul_self_nonneg t
  exact div_pos one_pos (by linarith)

theorem cosBeta_pos (t : ℝ) : 0 < cosBeta t := Real.sqrt_pos.2 (cosBetaSquared_pos t)

theorem cosBeta_sq (t : ℝ) : cosBeta t ^ 2 = cosBetaSquared t :=
  Real.sq_sqrt (cosBetaSquared_pos t).le

theorem sinBeta_eq (t : ℝ) : sinBeta t = t * cosBeta t := by
  have h : √(sinBetaSquared t) = |t| * cosBeta t := by
    unfold sinBetaSquared cosBeta
    rw [Real.sqrt_mul (mul_self_nonneg t), Real.sqrt_mul_self_eq_abs]
  unfold sinBeta
  rw [h]
  split
  · rename_i ht; rw [abs_of_neg ht]; ring
  · rename_i ht; rw [abs_of_nonneg (not_lt.1 ht)]

/-- The tree-level vacuum of the input: `v1 = v cos β`, `v2 = v sin β`. -/
noncomputable def inputVev (v : ℝ) (q : Input) : FVec 8 ℝ :=
  vevTree (v * cosBeta q.TanBeta) (v * sinBeta q.TanBeta)

/-- `β` is the angle with the given tangent and positive cosine, for both signs of `tan β`. -/
theorem C75_r2hdm_angle (t : ℝ) :
    cosBeta t = Real.cos (Real.arctan t) ∧ sinBeta t = Real.sin (Real.arctan t) := by
  have h : cosBeta t = Real.cos (Real.arctan t) := by
    rw [Real.cos_arctan, cosBeta, cosBetaSquared, Real.sqrt_div zero_le_one, Real.sqrt_one,
      pow_two]
  refine ⟨h, ?_⟩
  rw [sinBeta_eq, h, Real.cos_arctan, Real.sin_arctan]
  ring

/-- With the parameters of `set_gen` the vacuum of the input is a stationary point of the tree-level
potential: every derivative mode vanishes. -/
theorem C75_r2hdm_stationary (v : ℝ) (q : Input) (ht : q.TanBeta ≠ 0) (s : FVec 8 ℝ → ℝ)
    (force : Bool) (i : Fin 8) :
    vTree false s (tree (setGen v q)) (inputVev v q) ((i : Int) + 1) force = 0 := by
  have h0 : ¬ ((i : Int) + 1 = 0) := by omega
  have h1 : (((i : Int) + 1) == 0) = false := by simpa using h0
  simp only [vTree, h0, h1, fieldIndex_succ, Bool.false_and, Bool.and_false, if_false, reduceIte]
  have hc := cosBeta_sq q.TanBeta
  simp only [inputVev, tree_grad, sinBeta_eq, setGen, sinBetaSquared, ← hc]
  generalize cosBeta q.TanBeta = c
  fin_cases i <;> simp <;> field_simp <;> ring

/-- The scalar masses at the vacuum of the input: the Goldstone bosons `(v1, v2)` of the three
blocks are massless, the charged Higgs boson has the squared mass
`m12² / (sin β cos β) - v² (λ4 + λ5) / 2` and the CP-odd one
`m12² / (sin β cos β) - v² λ5`; the CP-even fields `4`, `6` do not mix with the others. -/
theorem C75_r2hdm_masses (v : ℝ) (q : Input) (ht : q.TanBeta ≠ 0) (d : Fin 8 → Fin 8 → ℝ) :
    ∃ M, higgsMassMatrix (tree (setGen v q)) d (inputVev v q) 0 0 = Outcome.ok M ∧
      (∀ a b : Fin 8, (a, b) ∈ [((0 : Fin 8), (2 : Fin 8)), (1, 3), (5, 7)] →
        ∀ i, M i a * cosBeta q.TanBeta + M i b * sinBeta q.TanBeta = 0) ∧
      (∀ a b : Fin 8, (a, b) ∈ [((0 : Fin 8), (2 : Fin 8)), (1, 3)] →
        ∀ i, -(M i a * sinBeta q.TanBeta) + M i b * cosBeta q.TanBeta =
          (q.RealMMix / (sinBeta q.TanBeta * cosBeta q.TanBeta) - v ^ 2 * (q.L4 + q.RL5) / 2) *
            (if i = a then -sinBeta q.TanBeta else if i = b then cosBeta q.TanBeta else 0)) ∧
      (∀ i, -(M i 5 * sinBeta q.TanBeta) + M i 7 * cosBeta q.TanBeta =
          (q.RealMMix / (sinBeta q.TanBeta * cosBeta q.TanBeta) - v ^ 2 * q.RL5) *
            (if i = 5 then -sinBeta q.TanBeta else if i = 7 then cosBeta q.TanBeta else 0)) ∧
      (∀ i, i ≠ 4 → i ≠ 6 → M i 4 = 0 ∧ M i 6 = 0) ∧
      M 4 4 = q.RealMMix * q.TanBeta + v ^ 2 * cosBeta q.TanBeta ^ 2 * q.L1 ∧
      M 4 6 = -q.RealMMix + v ^ 2 * sinBeta q.TanBeta * cosBeta q.TanBeta *
        (q.L3 + q.L4 + q.RL5) ∧
      M 6 6 = q.RealMMix / q.TanBeta + v ^ 2 * sinBeta q.TanBeta ^ 2 * q.L2 := by
  refine ⟨mass0 (tree (setGen v q)) d (inputVev v q) 0, by simp [higgsMassMatrix], ?_⟩
  have h : ∀ i j, massUpper (tree (setGen v q)) d (inputVev v q) 0 i j =
      hessianCT (tree (setGen v q)) (inputVev v q) i j := by
    intro i j; simp [massUpper, hessianCT]
  have hs : ∀ i j, mass0 (tree (setGen v q)) d (inputVev v q) 0 i j =
      hessianCT (tree (setGen v q)) (inputVev v q) i j := by
    intro i j
    rw [mass0, h, h]
    split
    · rfl
    · rw [inputVev, tree_hess, tree_hess]
      fin_cases i <;> fin_cases j <;> rfl
  have hc := cosBeta_sq q.TanBeta
  have hne := (cosBeta_pos q.TanBeta).ne'
  have hc1 : cosBeta q.TanBeta ^ 2 * (1 + q.TanBeta ^ 2) = 1 := by
    rw [hc, cosBetaSquared]; field_simp
  have hm : q.RealMMix / (q.TanBeta * cosBeta q.TanBeta * cosBeta q.TanBeta) =
      q.RealMMix * (1 + q.TanBeta ^ 2) * q.TanBeta⁻¹ := by
    field_simp
    linear_combination -q.RealMMix * hc1
  have hr : q.TanBeta * q.TanBeta⁻¹ = 1 := mul_inv_cancel₀ ht
  simp only [hs]
  simp only [inputVev, tree_hess, sinBeta_eq, hm]
  simp only [ setGen, sinBetaSquared, ← hc]
  obtain ⟨l1, l2, l3, l4, l5, m, t⟩ := q
  dsimp only at *
  clear hs h hm ht hc
  generalize cosBeta t = c at *
  refine ⟨?_, ?_, ?_, ?_, ?_, ?_, ?_⟩
  · intro a b hab i
    simp only [List.mem_cons, Prod.mk.injEq, List.not_mem_nil, or_false] at hab
    rcases hab with ⟨rfl, rfl⟩ | ⟨rfl, rfl⟩ | ⟨rfl, rfl⟩ <;> fin_cases i <;> simp [blocks]
    all_goals first
      | ring1
      | linear_combination (m * c) * hr
  · intro a b hab i
    simp only [List.mem_cons, Prod.mk.injEq, List.not_mem_nil, or_false] at hab
    rcases hab with ⟨rfl, rfl⟩ | ⟨rfl, rfl⟩ <;> fin_cases i <;> simp [blocks]
    all_goals first
      | linear_combination (m * (1 + t ^ 2) * c) * hr + ((l4 + l5) / 2 * v ^ 2 * t * c) * hc1
      | linear_combination (-m * t * c) * hr - ((l4 + l5) / 2 * v ^ 2 * c) * hc1
  · intro i
    fin_cases i <;> simp [blocks]
    · linear_combination (m * (1 + t ^ 2) * c) * hr + (l5 * v ^ 2 * t * c) * hc1
    · linear_combination (-m * t * c) * hr - (l5 * v ^ 2 * c) * hc1
  · intro i h4 h6
    fin_cases i <;> simp [blocks] at h4 h6 ⊢
  · simp [blocks]; ring
  · simp [blocks]; ring
  · simp [blocks, div_eq_mul_inv]; ring

example : (⟨1, 1, 1, 1, 1, 1, -2⟩ : Input).TanBeta ≠ 0 := by norm_num

end Verif.Lagrangian.R2HDM
