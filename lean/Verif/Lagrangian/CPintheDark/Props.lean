import Verif.Lagrangian.CPintheDark.Quartic
import Verif.Lagrangian.CPintheDark.QuarticCT
import Verif.Lagrangian.Singlet

/-!
# The model CP in the Dark implements its Lagrangian
-/

set_option linter.unusedSectionVars false
set_option linter.unusedSimpArgs false

namespace Verif.Lagrangian.CPintheDark

open Verif.Potential
open Verif.Lagrangian.Spec

/-- `Φ₁`, ClassPotentialCPintheDark.h:54-56. -/
noncomputable def phi1 (φ : Fin 9 → ℝ) : Fin 2 → ℂ := doublet (φ 0) (φ 1) (φ 4) (φ 5)

/-- `Φ₂`, ClassPotentialCPintheDark.h:57-59. -/
noncomputable def phi2 (φ : Fin 9 → ℝ) : Fin 2 → ℂ := doublet (φ 2) (φ 3) (φ 6) (φ 7)

/-- The documented potential, ClassPotentialCPintheDark.h:27-31, with a complex `λ5`, which is
needed for the counterterms. -/
noncomputable def documented (m11 m22 mS : ℝ) (A : ℂ) (l1 l2 l3 l4 : ℝ) (l5 : ℂ)
    (l6 l7 l8 : ℝ) (φ : Fin 9 → ℝ) : ℂ :=
  twoDoublet m11 m22 0 l1 l2 l3 l4 l5 0 (phi1 φ) (phi2 φ) + mS / 2 * (φ 8 : ℂ) ^ 2 +
    plusCC (A * dagger (phi1 φ) (phi2 φ) * φ 8) + l6 / 8 * (φ 8 : ℂ) ^ 4 +
    l7 / 2 * dagger (phi1 φ) (phi1 φ) * (φ 8 : ℂ) ^ 2 +
    l8 / 2 * dagger (phi2 φ) (phi2 φ) * (φ 8 : ℂ) ^ 2

theorem documented_real (m11 m22 mS : ℝ) (A : ℂ) (l1 l2 l3 l4 : ℝ) (l5 : ℂ) (l6 l7 l8 : ℝ)
    (φ : Fin 9 → ℝ) :
    ∃ x : ℝ, twoDoublet m11 m22 0 l1 l2 l3 l4 l5 0 (phi1 φ) (phi2 φ) = (x : ℂ) ∧
      documented m11 m22 mS A l1 l2 l3 l4 l5 l6 l7 l8 φ =
        ((x + mS / 2 * φ 8 ^ 2 +
          (A.re * (φ 0 * φ 2 + φ 1 * φ 3 + φ 4 * φ 6 + φ 5 * φ 7) -
            A.im * (φ 0 * φ 3 - φ 1 * φ 2 + φ 4 * φ 7 - φ 5 * φ 6)) * φ 8 +
          l6 / 8 * φ 8 ^ 4 +
          l7 / 2 * ((φ 0 ^ 2 + φ 1 ^ 2 + φ 4 ^ 2 + φ 5 ^ 2) / 2) * φ 8 ^ 2 +
          l8 / 2 * ((φ 2 ^ 2 + φ 3 ^ 2 + φ 6 ^ 2 + φ 7 ^ 2) / 2) * φ 8 ^ 2 : ℝ) : ℂ) := by
  have e1 : dagger (phi1 φ) (phi1 φ) =
      (((φ 0 ^ 2 + φ 1 ^ 2 + φ 4 ^ 2 + φ 5 ^ 2) / 2 : ℝ) : ℂ) := by
    rw [phi1, dagger_doublet]; push_cast; ring
  have e2 : dagger (phi2 φ) (phi2 φ) =
      (((φ 2 ^ 2 + φ 3 ^ 2 + φ 6 ^ 2 + φ 7 ^ 2) / 2 : ℝ) : ℂ) := by
    rw [phi2, dagger_doublet]; push_cast; ring
  have e3 : plusCC (A * dagger (phi1 φ) (phi2 φ) * φ 8) =
      (((A.re * (φ 0 * φ 2 + φ 1 * φ 3 + φ 4 * φ 6 + φ 5 * φ 7) -
            A.im * (φ 0 * φ 3 - φ 1 * φ 2 + φ 4 * φ 7 - φ 5 * φ 6)) * φ 8 : ℝ) : ℂ) := by
    have key : ∀ x y t : ℝ, plusCC (A * ((x : ℂ) + (y : ℂ) * Complex.I) * (t : ℂ)) =
        ((2 * (A.re * x - A.im * y) * t : ℝ) : ℂ) := by
      intro x y t
      rw [plusCC]
      apply Complex.ext
      · simp; ring
      · simp; ring
    rw [phi1, phi2, dagger_doublet, key]
    congr 1
    ring
  refine ⟨_, by rw [phi1, phi2, twoDoublet_real], ?_⟩
  rw [documented, e1, e2, e3, phi1, phi2, twoDoublet_real]
  push_cast
  ring

/-- For all parameters and all values of the fields the tree-level potential is the documented
one with `λ6 = 2 L6`. -/
theorem C74_cpinthedark_potential (p : Par ℝ) (φ : FVec 9 ℝ) (s : FVec 9 ℝ → ℝ) (force : Bool) :
    ((vTree false s (tree p) φ 0 force : ℝ) : ℂ) =
      documented p.m11s p.m22s p.mSs ⟨p.ReA, p.ImA⟩ p.L1 p.L2 p.L3 p.L4 ⟨p.L5, 0⟩ (2 * p.L6) p.L7
        p.L8 φ := by
  obtain ⟨x, hx, hd⟩ := documented_real p.m11s p.m22s p.mSs ⟨p.ReA, p.ImA⟩ p.L1 p.L2 p.L3 p.L4
    ⟨p.L5, 0⟩ (2 * p.L6) p.L7 p.L8 φ
  rw [hd, C30_value false s _ _ (by simp), tree_eq,
    polynomial_look _ _ _ _ distinct_nil (l2_distinct p) (l3_distinct p) (l4_distinct p)
      (rank_nil _) (l2_rank p) (l3_rank p) (l4_rank p)]
  congr 1
  rw [phi1, phi2, twoDoublet_real] at hx
  rw [← Complex.ofReal_injective hx, show terms (l4 p) (ext φ) = _ from terms_flatten _ _]
  simp only [List.map_cons, List.map_nil, List.sum_cons, List.sum_nil, l4_0_terms, l4_1_terms,
    l4_2_terms, l4_3_terms, l4_4_terms, l4_5_terms, l4_6_terms, l4_7_terms, l4_8_terms]
  simp [terms, l2, l3, ext]
  ring

/-- With `λ6 = L6` it is not the documented one: the quartic coupling of the singlet enters with
`1/4` and not with `1/8`. -/
theorem C74_cpinthedark_quartic_fails : ∃ (p : Par ℝ) (φ : FVec 9 ℝ), ∀ s force,
    ((vTree false s (tree p) φ 0 force : ℝ) : ℂ) ≠
      documented p.m11s p.m22s p.mSs ⟨p.ReA, p.ImA⟩ p.L1 p.L2 p.L3 p.L4 ⟨p.L5, 0⟩ p.L6 p.L7
        p.L8 φ := by
  refine ⟨⟨0, 0, 0, 0, 0, 0, 0, 0, 0, 0, 1, 0, 0⟩, ![0, 0, 0, 0, 0, 0, 0, 0, 1], ?_⟩
  intro s force
  rw [C74_cpinthedark_potential]
  have : ∀ l6 : ℝ, documented (0 : ℝ) (0 : ℝ) (0 : ℝ) ⟨0, 0⟩ (0 : ℝ) (0 : ℝ) (0 : ℝ) (0 : ℝ) ⟨0, 0⟩
      l6 (0 : ℝ) (0 : ℝ) ![0, 0, 0, 0, 0, 0, 0, 0, 1] = ((l6 / 8 : ℝ) : ℂ) := by
    intro l6
    obtain ⟨x, hx, hd⟩ := documented_real (0 : ℝ) (0 : ℝ) (0 : ℝ) ⟨0, 0⟩ (0 : ℝ) (0 : ℝ) (0 : ℝ)
      (0 : ℝ) ⟨0, 0⟩ l6 (0 : ℝ) (0 : ℝ) ![0, 0, 0, 0, 0, 0, 0, 0, 1]
    rw [hd]
    rw [phi1, phi2, twoDoublet_real] at hx
    rw [← Complex.ofReal_injective hx]
    congr 1
    simp
  rw [this, this]
  intro h
  have := Complex.ofReal_injective h
  norm_num at this

/-- The counterterm potential has the same form with the counterterms of the parameters, a complex
counterterm of `λ5`, and tadpoles. -/
theorem C74_cpinthedark_counterterms (c : CT ℝ) (φ : FVec 9 ℝ) (s : FVec 9 ℝ → ℝ) (force : Bool) :
    ((counterTerm false s (counter c) φ 0 force : ℝ) : ℂ) =
      documented c.dm11s c.dm22s c.dmSs ⟨c.dReA, c.dImA⟩ c.dL1 c.dL2 c.dL3 c.dL4 ⟨c.dL5, c.dImL5⟩
          (2 * c.dL6) c.dL7 c.dL8 φ +
        ((c.dTCB * φ 2 + c.dT1 * φ 4 + c.dT2 * φ 6 + c.dTCP * φ 7 + c.dTS * φ 8 : ℝ) : ℂ) := by
  obtain ⟨x, hx, hd⟩ := documented_real c.dm11s c.dm22s c.dmSs ⟨c.dReA, c.dImA⟩ c.dL1 c.dL2 c.dL3
    c.dL4 ⟨c.dL5, c.dImL5⟩ (2 * c.dL6) c.dL7 c.dL8 φ
  rw [hd, C30_counterterm_value false s _ _ (by simp), counter_eq,
    polynomial_look _ _ _ _ (ctL1_distinct c) (ctL2_distinct c) (ctL3_distinct c)
      (ctL4_distinct c) (ctL1_rank c) (ctL2_rank c) (ctL3_rank c) (ctL4_rank c),
    ← Complex.ofReal_add]
  congr 1
  rw [phi1, phi2, twoDoublet_real] at hx
  rw [← Complex.ofReal_injective hx, show terms (ctL4 c) (ext φ) = _ from terms_flatten _ _]
  simp only [List.map_cons, List.map_nil, List.sum_cons, List.sum_nil, ctL4_0_terms,
    ctL4_1_terms, ctL4_2_terms, ctL4_3_terms, ctL4_4_terms, ctL4_5_terms, ctL4_6_terms,
    ctL4_7_terms, ctL4_8_terms]
  simp [terms, ctL1, ctL2, ctL3, ext]
  ring

/-- The simplified potentials, which are the ones used, agree with the full ones when the
fields `0`, `1`, `3` and `5` vanish. -/
theorem C74_cpinthedark_simplified (p : Par ℝ) (c : CT ℝ) (φ : FVec 9 ℝ) (h0 : φ 0 = 0)
    (h1 : φ 1 = 0) (h3 : φ 3 = 0) (h5 : φ 5 = 0) :
    ((vTree true (treeSimplified p) (tree p) φ 0 false : ℝ) : ℂ) =
        documented p.m11s p.m22s p.mSs ⟨p.ReA, p.ImA⟩ p.L1 p.L2 p.L3 p.L4 ⟨p.L5, 0⟩ (2 * p.L6)
          p.L7 p.L8 φ ∧
      ((counterTerm true (counterSimplified c) (counter c) φ 0 false : ℝ) : ℂ) =
        documented c.dm11s c.dm22s c.dmSs ⟨c.dReA, c.dImA⟩ c.dL1 c.dL2 c.dL3 c.dL4
            ⟨c.dL5, c.dImL5⟩ (2 * c.dL6) c.dL7 c.dL8 φ +
          ((c.dTCB * φ 2 + c.dT1 * φ 4 + c.dT2 * φ 6 + c.dTCP * φ 7 + c.dTS * φ 8 : ℝ) : ℂ) := by
  obtain ⟨x, hx, hd⟩ := documented_real p.m11s p.m22s p.mSs ⟨p.ReA, p.ImA⟩ p.L1 p.L2 p.L3 p.L4
    ⟨p.L5, 0⟩ (2 * p.L6) p.L7 p.L8 φ
  obtain ⟨y, hy, he⟩ := documented_real c.dm11s c.dm22s c.dmSs ⟨c.dReA, c.dImA⟩ c.dL1 c.dL2 c.dL3
    c.dL4 ⟨c.dL5, c.dImL5⟩ (2 * c.dL6) c.dL7 c.dL8 φ
  rw [phi1, phi2, twoDoublet_real] at hx hy
  rw [hd, he, ← Complex.ofReal_injective hx, ← Complex.ofReal_injective hy, ← Complex.ofReal_add]
  constructor <;> congr 1
  · simp [vTree, treeSimplified, h0, h1, h3, h5]
    ring
  · simp [counterTerm, counterSimplified, h0, h1, h3, h5]
    ring

/-- For other values of the fields they do not: the Goldstone direction of `Φ₁` is missing. -/
theorem C74_cpinthedark_simplified_fails : ∃ (p : Par ℝ) (φ : FVec 9 ℝ),
    vTree true (treeSimplified p) (tree p) φ 0 false ≠
      vTree false (treeSimplified p) (tree p) φ 0 false := by
  refine ⟨⟨1, 0, 0, 0, 0, 0, 0, 0, 0, 0, 0, 0, 0⟩, ![1, 0, 0, 0, 0, 0, 0, 0, 0], ?_⟩
  intro h
  have h' := congrArg Complex.ofReal h
  rw [C74_cpinthedark_potential] at h'
  obtain ⟨x, hx, hd⟩ := documented_real (1 : ℝ) (0 : ℝ) (0 : ℝ) ⟨0, 0⟩ (0 : ℝ) (0 : ℝ) (0 : ℝ)
    (0 : ℝ) ⟨0, 0⟩ (2 * 0) (0 : ℝ) (0 : ℝ) ![1, 0, 0, 0, 0, 0, 0, 0, 0]
  rw [hd] at h'
  rw [phi1, phi2, twoDoublet_real] at hx
  rw [← Complex.ofReal_injective hx] at h'
  have := Complex.ofReal_injective h'
  simp [vTree, treeSimplified] at this

/-! ### The vacuum -/

/-- A symmetric matrix with the symmetries of the model: the fields of `Φ₁` do not mix at all, the
neutral fields of `Φ₂` and the singlet do. -/
def shape (a b c d e f g h k : ℝ) : Fin 9 → Fin 9 → ℝ :=
  !![a, 0, 0, 0, 0, 0, 0, 0, 0; 0, a, 0, 0, 0, 0, 0, 0, 0; 0, 0, c, 0, 0, 0, 0, 0, 0;
     0, 0, 0, c, 0, 0, 0, 0, 0; 0, 0, 0, 0, b, 0, 0, 0, 0; 0, 0, 0, 0, 0, a, 0, 0, 0;
     0, 0, 0, 0, 0, 0, d, e, g; 0, 0, 0, 0, 0, 0, e, f, h; 0, 0, 0, 0, 0, 0, g, h, k]

theorem shape_neg (a b c d e f g h k : ℝ) (i j : Fin 9) :
    shape (-a) (-b) (-c) (-d) (-e) (-f) (-g) (-h) (-k) i j = -shape a b c d e f g h k i j := by
  fin_cases i <;> fin_cases j <;> simp [shape]

theorem shape_symm (a b c d e f g h k : ℝ) (i j : Fin 9) :
    shape a b c d e f g h k i j = shape a b c d e f g h k j i := by
  fin_cases i <;> fin_cases j <;> rfl

theorem tree_hess (p : Par ℝ) (v : ℝ) (i j : Fin 9) :
    hessianCT (tree p) (vevTree v) i j =
      shape (p.m11s + p.L1 / 2 * v ^ 2) (p.m11s + 3 / 2 * p.L1 * v ^ 2)
        (p.m22s + p.L3 / 2 * v ^ 2) (p.m22s + (p.L3 + p.L4 + p.L5) / 2 * v ^ 2) 0
        (p.m22s + (p.L3 + p.L4 - p.L5) / 2 * v ^ 2) (p.ReA * v) (-p.ImA * v)
        (p.mSs + p.L7 / 2 * v ^ 2) i j := by
  rw [tree_eq, hess_reduce _ _ (fun f => f 4) (vev_sum v)]
  change look (l2 p) [i, j] + (look (l3 p) [i, j, 4] * v +
    1 / 2 * look (l4 p) [i, j, 4, 4] * v * v) = _
  rw [l2_table, l3_table, l4_table]
  fin_cases i <;> fin_cases j <;> simp [shape] <;> ring

theorem tree_grad (p : Par ℝ) (v : ℝ) (i : Fin 9) :
    grad (tree p) (vevTree v) i =
      ![0, 0, 0, 0, p.m11s * v + p.L1 / 2 * v ^ 3, 0, 0, 0, 0] i := by
  rw [tree_eq, grad_reduce _ _ (fun f => f 4) (vev_sum v)]
  change 0 + (look (l2 p) [i, (4 : Fin 9)] * v + (1 / 2 * look (l3 p) [i, (4 : Fin 9), 4] * v * v +
    1 / 6 * look (l4 p) [i, (4 : Fin 9), 4, 4] * v * v * v)) = _
  rw [l2_table, l3_table, l4_table]
  fin_cases i <;> simp <;> ring

theorem counter_hess (c : CT ℝ) (v : ℝ) (i j : Fin 9) :
    hessianCT (counter c) (vevTree v) i j =
      shape (c.dm11s + c.dL1 / 2 * v ^ 2) (c.dm11s + 3 / 2 * c.dL1 * v ^ 2)
        (c.dm22s + c.dL3 / 2 * v ^ 2) (c.dm22s + (c.dL3 + c.dL4 + c.dL5) / 2 * v ^ 2)
        (-c.dImL5 / 2 * v ^ 2)
        (c.dm22s + (c.dL3 + c.dL4 - c.dL5) / 2 * v ^ 2) (c.dReA * v) (-c.dImA * v)
        (c.dmSs + c.dL7 / 2 * v ^ 2) i j := by
  rw [counter_eq, hess_reduce _ _ (fun f => f 4) (vev_sum v)]
  change look (ctL2 c) [i, j] + (look (ctL3 c) [i, j, 4] * v +
    1 / 2 * look (ctL4 c) [i, j, 4, 4] * v * v) = _
  rw [ctL2_table, ctL3_table, ctL4_table]
  fin_cases i <;> fin_cases j <;> simp [shape] <;> ring

theorem counter_grad (c : CT ℝ) (v : ℝ) (i : Fin 9) :
    grad (counter c) (vevTree v) i =
      ![0, 0, c.dTCB, 0, c.dT1 + c.dm11s * v + c.dL1 / 2 * v ^ 3, 0, c.dT2, c.dTCP, c.dTS] i := by
  have h1 : ∀ i : Fin 9, look (ctL1 c) [i] =
      ![0, 0, c.dTCB, 0, c.dT1, 0, c.dT2, c.dTCP, c.dTS] i := by
    intro i; fin_cases i <;> rfl
  rw [counter_eq, grad_reduce _ _ (fun f => f 4) (vev_sum v)]
  change look (ctL1 c) [i] + (look (ctL2 c) [i, (4 : Fin 9)] * v +
    (1 / 2 * look (ctL3 c) [i, (4 : Fin 9), 4] * v * v +
    1 / 6 * look (ctL4 c) [i, (4 : Fin 9), 4, 4] * v * v * v)) = _
  rw [h1, ctL2_table, ctL3_table, ctL4_table]
  fin_cases i <;> simp <;> ring

/-- The parameters are read without a tadpole equation: the vacuum of the input is a stationary
point of the tree-level potential exactly if the given `m11²` is `- λ1 v² / 2`. -/
theorem C75_cpinthedark_stationary (p : Par ℝ) (v : ℝ) (hv : v ≠ 0) (s : FVec 9 ℝ → ℝ)
    (use force : Bool) :
    (∀ i : Fin 9, vTree use s (tree p) (vevTree v) ((i : Int) + 1) force = 0) ↔
      p.m11s = -(p.L1 * v ^ 2 / 2) := by
  have key : ∀ i : Fin 9, vTree use s (tree p) (vevTree v) ((i : Int) + 1) force =
      ![0, 0, 0, 0, p.m11s * v + p.L1 / 2 * v ^ 3, 0, 0, 0, 0] i := by
    intro i
    have h0 : ¬ ((i : Int) + 1 = 0) := by omega
    have h1 : (((i : Int) + 1) == 0) = false := by simpa using h0
    simp only [vTree, h0, h1, fieldIndex_succ, Bool.false_and, Bool.and_false, if_false, reduceIte,
      tree_grad, Bool.false_eq_true]
  simp only [key]
  constructor
  · intro h
    have h4 := h 4
    simp at h4
    have : v * (p.m11s + p.L1 * v ^ 2 / 2) = 0 := by linarith
    rcases mul_eq_zero.1 this with h | h
    · exact absurd h hv
    · linarith
  · intro h i
    fin_cases i <;> simp [h]
    ring

/-- The scalar masses at the vacuum: the Goldstone bosons `0`, `1` and `5` are massless and do not
mix, the field `4` has the squared mass `λ1 v²` and does not mix, the charged fields of `Φ₂` have
the squared mass `m22² + λ3 v² / 2`, and the three neutral fields `6`, `7`, `8` mix with each other
only. -/
theorem C75_cpinthedark_masses (p : Par ℝ) (v : ℝ) (h : p.m11s = -(p.L1 * v ^ 2 / 2))
    (d : Fin 9 → Fin 9 → ℝ) :
    ∃ M, higgsMassMatrix (tree p) d (vevTree v) 0 0 = Outcome.ok M ∧
      (∀ i, M i 0 = 0 ∧ M i 1 = 0 ∧ M i 5 = 0) ∧
      (∀ i, M i 4 = if i = 4 then p.L1 * v ^ 2 else 0) ∧
      (∀ i, M i 2 = if i = 2 then p.m22s + p.L3 * v ^ 2 / 2 else 0) ∧
      (∀ i, M i 3 = if i = 3 then p.m22s + p.L3 * v ^ 2 / 2 else 0) ∧
      (∀ i j, M i j = M j i) ∧
      M 6 6 = p.m22s + (p.L3 + p.L4 + p.L5) * v ^ 2 / 2 ∧
      M 7 7 = p.m22s + (p.L3 + p.L4 - p.L5) * v ^ 2 / 2 ∧ M 6 7 = 0 ∧
      M 6 8 = p.ReA * v ∧ M 7 8 = -(p.ImA * v) ∧ M 8 8 = p.mSs + p.L7 * v ^ 2 / 2 := by
  refine ⟨mass0 (tree p) d (vevTree v) 0, by simp [higgsMassMatrix], ?_⟩
  have hu : ∀ i j, massUpper (tree p) d (vevTree v) 0 i j =
      hessianCT (tree p) (vevTree v) i j := by
    intro i j; simp [massUpper, hessianCT]
  have hs : ∀ i j, mass0 (tree p) d (vevTree v) 0 i j =
      hessianCT (tree p) (vevTree v) i j := by
    intro i j
    rw [mass0, hu, hu]
    split_ifs
    · rfl
    · rw [tree_hess, tree_hess, shape_symm]
  simp only [hs, tree_hess]
  have ha : p.m11s + p.L1 / 2 * v ^ 2 = 0 := by rw [h]; ring
  have hb : p.m11s + 3 / 2 * p.L1 * v ^ 2 = p.L1 * v ^ 2 := by rw [h]; ring
  have hc : p.m22s + p.L3 / 2 * v ^ 2 = p.m22s + p.L3 * v ^ 2 / 2 := by ring
  rw [ha, hb, hc]
  refine ⟨?_, ?_, ?_, ?_, fun i j => shape_symm .., ?_, ?_, ?_, ?_, ?_, ?_⟩
  · intro i; fin_cases i <;> simp [shape]
  · intro i; fin_cases i <;> simp [shape]
  · intro i; fin_cases i <;> simp [shape]
  · intro i; fin_cases i <;> simp [shape]
  all_goals simp [shape] <;> ring

example : ∃ p : Par ℝ, p.m11s = -(p.L1 * 246 ^ 2 / 2) ∧ p.L1 ≠ 0 :=
  ⟨⟨-(1 / 4 * 246 ^ 2 / 2), 1, 1, 1, 1, 1 / 4, 1, 1, 1, 1, 1, 1, 1⟩, by norm_num, by norm_num⟩

end Verif.Lagrangian.CPintheDark
