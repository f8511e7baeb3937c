import Verif.Lagrangian.R2HDM.Model
import Verif.Lagrangian.Spec
import Verif.Lagrangian.Invariance
import Mathlib.LinearAlgebra.Matrix.Notation

/-!
# Entries of the tensors of the CP-conserving two Higgs doublet model
-/

set_option linter.unusedSectionVars false
set_option linter.unusedSimpArgs false

namespace Verif.Lagrangian.R2HDM

open Verif.Potential
open Verif.Potential.Spec (polynomial)
open Verif.Lagrangian.Spec

section Lists
variable {K : Type} [Field K]

theorem l2_distinct (p : Par K) : Distinct (l2 p) := by
  simp only [Distinct, l2, List.map_cons, List.map_nil]; decide +kernel

theorem l4_distinct (p : Par K) : Distinct (l4 p) := by
  simp only [Distinct, l4, List.map_cons, List.map_nil]; decide +kernel

theorem l4_ascending (p : Par K) : Ascending (l4 p) :=
  ascending_of _ (by simp only [l4, List.map_cons, List.map_nil]; decide +kernel)

theorem l2_rank (p : Par K) : Rank 2 (l2 p) :=
  rank_of _ _ (by simp only [l2, List.map_cons, List.map_nil]; decide +kernel)

theorem l4_rank (p : Par K) : Rank 4 (l4 p) :=
  rank_of _ _ (by simp only [l4, List.map_cons, List.map_nil]; decide +kernel)

theorem ctL1_distinct (c : CT K) : Distinct (ctL1 c) := by
  simp only [Distinct, ctL1, List.map_cons, List.map_nil]; decide +kernel

theorem ctL2_distinct (c : CT K) : Distinct (ctL2 c) := by
  simp only [Distinct, ctL2, List.map_cons, List.map_nil]; decide +kernel

theorem ctL4_distinct (c : CT K) : Distinct (ctL4 c) := by
  simp only [Distinct, ctL4, List.map_cons, List.map_nil]; decide +kernel

theorem ctL4_ascending (c : CT K) : Ascending (ctL4 c) :=
  ascending_of _ (by simp only [ctL4, List.map_cons, List.map_nil]; decide +kernel)

theorem ctL1_rank (c : CT K) : Rank 1 (ctL1 c) :=
  rank_of _ _ (by simp only [ctL1, List.map_cons, List.map_nil]; decide +kernel)

theorem ctL2_rank (c : CT K) : Rank 2 (ctL2 c) :=
  rank_of _ _ (by simp only [ctL2, List.map_cons, List.map_nil]; decide +kernel)

theorem ctL4_rank (c : CT K) : Rank 4 (ctL4 c) :=
  rank_of _ _ (by simp only [ctL4, List.map_cons, List.map_nil]; decide +kernel)

theorem g2h2_distinct (g gs : K) : Distinct (g2h2 g gs) := by
  simp only [Distinct, g2h2, List.map_cons, List.map_nil]; decide +kernel

theorem tree_eq (p : Par K) :
    tree p = curv 8 (look []) (look (l2 p)) (look []) (lookSym (l4 p)) := by
  rw [tree, symmetrised4_curv _ _ _ (l4 p) (l4_distinct p) _ (symLoop_symmetrises _ _),
    assign_look _ (l2_distinct p), zero_look]

theorem counter_eq (c : CT K) :
    counter c = curv 8 (look (ctL1 c)) (look (ctL2 c)) (look []) (lookSym (ctL4 c)) := by
  rw [counter, symmetrised4_curv _ _ _ (ctL4 c) (ctL4_distinct c) _ (symLoop_symmetrises _ _),
    assign_look _ (ctL1_distinct c), assign_look _ (ctL2_distinct c), zero_look]

theorem vev_sum (v w : K) (f : Fin 8 → K) (hf : ∀ k, vevTree v w k = 0 → f k = 0) :
    ∑ k, f k = f 4 + f 6 := by
  refine sum_support2 4 6 (by decide) (vevTree v w) (fun k hk hl => ?_) f hf
  fin_cases k <;> first | rfl | exact absurd rfl hk | exact absurd rfl hl

theorem l2_table (p : Par K) (i j : Fin 8) : look (l2 p) [i, j] =
    !![p.u1, 0, -p.RealMMix, 0, 0, 0, 0, 0; 0, p.u1, 0, -p.RealMMix, 0, 0, 0, 0; -p.RealMMix, 0,
      p.u2, 0, 0, 0, 0, 0; 0, -p.RealMMix, 0, p.u2, 0, 0, 0, 0; 0, 0, 0, 0, p.u1, 0, -p.RealMMix,
      0; 0, 0, 0, 0, 0, p.u1, 0, -p.RealMMix; 0, 0, 0, 0, -p.RealMMix, 0, p.u2, 0; 0, 0, 0, 0, 0,
      -p.RealMMix, 0, p.u2] i j := by
  fin_cases i <;> fin_cases j <;> rfl

theorem l4_table44 (p : Par K) (i j : Fin 8) : lookSym (l4 p) [i, j, 4, 4] =
    !![p.L1, 0, 0, 0, 0, 0, 0, 0; 0, p.L1, 0, 0, 0, 0, 0, 0; 0, 0, p.L3, 0, 0, 0, 0, 0; 0, 0, 0,
      p.L3, 0, 0, 0, 0; 0, 0, 0, 0, 3 * p.L1, 0, 0, 0; 0, 0, 0, 0, 0, p.L1, 0, 0; 0, 0, 0, 0, 0,
      0, p.L3 + p.L4 + p.RL5, 0; 0, 0, 0, 0, 0, 0, 0, p.L3 + p.L4 - p.RL5] i j := by
  fin_cases i <;> fin_cases j <;> rfl

theorem l4_table46 (p : Par K) (i j : Fin 8) : lookSym (l4 p) [i, j, 4, 6] =
    !![0, 0, p.L4 / 2 + p.RL5 / 2, 0, 0, 0, 0, 0; 0, 0, 0, p.L4 / 2 + p.RL5 / 2, 0, 0, 0, 0;
      p.L4 / 2 + p.RL5 / 2, 0, 0, 0, 0, 0, 0, 0; 0, p.L4 / 2 + p.RL5 / 2, 0, 0, 0, 0, 0, 0; 0, 0,
      0, 0, 0, 0, p.L3 + p.L4 + p.RL5, 0; 0, 0, 0, 0, 0, 0, 0, p.RL5; 0, 0, 0, 0,
      p.L3 + p.L4 + p.RL5, 0, 0, 0; 0, 0, 0, 0, 0, p.RL5, 0, 0] i j := by
  fin_cases i <;> fin_cases j <;> rfl

theorem l4_table64 (p : Par K) (i j : Fin 8) : lookSym (l4 p) [i, j, 6, 4] =
    !![0, 0, p.L4 / 2 + p.RL5 / 2, 0, 0, 0, 0, 0; 0, 0, 0, p.L4 / 2 + p.RL5 / 2, 0, 0, 0, 0;
      p.L4 / 2 + p.RL5 / 2, 0, 0, 0, 0, 0, 0, 0; 0, p.L4 / 2 + p.RL5 / 2, 0, 0, 0, 0, 0, 0; 0, 0,
      0, 0, 0, 0, p.L3 + p.L4 + p.RL5, 0; 0, 0, 0, 0, 0, 0, 0, p.RL5; 0, 0, 0, 0,
      p.L3 + p.L4 + p.RL5, 0, 0, 0; 0, 0, 0, 0, 0, p.RL5, 0, 0] i j := by
  fin_cases i <;> fin_cases j <;> rfl

theorem l4_table66 (p : Par K) (i j : Fin 8) : lookSym (l4 p) [i, j, 6, 6] =
    !![p.L3, 0, 0, 0, 0, 0, 0, 0; 0, p.L3, 0, 0, 0, 0, 0, 0; 0, 0, p.L2, 0, 0, 0, 0, 0; 0, 0, 0,
      p.L2, 0, 0, 0, 0; 0, 0, 0, 0, p.L3 + p.L4 + p.RL5, 0, 0, 0; 0, 0, 0, 0, 0,
      p.L3 + p.L4 - p.RL5, 0, 0; 0, 0, 0, 0, 0, 0, 3 * p.L2, 0; 0, 0, 0, 0, 0, 0, 0, p.L2] i j := by
  fin_cases i <;> fin_cases j <;> rfl

theorem ctL2_table (c : CT K) (i j : Fin 8) : look (ctL2 c) [i, j] =
    !![c.Du1CT, 0, -c.DRu3CT, 0, 0, 0, 0, 0; 0, c.Du1CT, -0, -c.DRu3CT, 0, 0, 0, 0; -c.DRu3CT,
      -0, c.Du2CT, 0, 0, 0, 0, 0; 0, -c.DRu3CT, 0, c.Du2CT, 0, 0, 0, 0; 0, 0, 0, 0, c.Du1CT, 0,
      -c.DRu3CT, 0; 0, 0, 0, 0, 0, c.Du1CT, -0, -c.DRu3CT; 0, 0, 0, 0, -c.DRu3CT, -0, c.Du2CT, 0;
      0, 0, 0, 0, 0, -c.DRu3CT, 0, c.Du2CT] i j := by
  fin_cases i <;> fin_cases j <;> rfl

theorem ctL4_table44 (c : CT K) (i j : Fin 8) : lookSym (ctL4 c) [i, j, 4, 4] =
    !![c.DL1CT, 0, 0, 0, 0, 0, 0, 0; 0, c.DL1CT, 0, 0, 0, 0, 0, 0; 0, 0, c.DL3CT, 0, 0, 0, 0, 0;
      0, 0, 0, c.DL3CT, 0, 0, 0, 0; 0, 0, 0, 0, 3 * c.DL1CT, 0, 0, 0; 0, 0, 0, 0, 0, c.DL1CT, 0,
      0; 0, 0, 0, 0, 0, 0, c.DL3CT + c.DL4CT + c.DRL5CT, -0; 0, 0, 0, 0, 0, 0, -0,
      c.DL3CT + c.DL4CT - c.DRL5CT] i j := by
  fin_cases i <;> fin_cases j <;> rfl

theorem ctL4_table46 (c : CT K) (i j : Fin 8) : lookSym (ctL4 c) [i, j, 4, 6] =
    !![0, 0, c.DL4CT / 2 + c.DRL5CT / 2, -0 / 2, 0, 0, 0, 0; 0, 0, 0 / 2,
      c.DL4CT / 2 + c.DRL5CT / 2, 0, 0, 0, 0; c.DL4CT / 2 + c.DRL5CT / 2, 0 / 2, 0, 0, 0, 0, 0,
      0; -0 / 2, c.DL4CT / 2 + c.DRL5CT / 2, 0, 0, 0, 0, 0, 0; 0, 0, 0, 0, 0, 0,
      c.DL3CT + c.DL4CT + c.DRL5CT, -0; 0, 0, 0, 0, 0, 0, 0, c.DRL5CT; 0, 0, 0, 0,
      c.DL3CT + c.DL4CT + c.DRL5CT, 0, 0, 0; 0, 0, 0, 0, -0, c.DRL5CT, 0, 0] i j := by
  fin_cases i <;> fin_cases j <;> rfl

theorem ctL4_table64 (c : CT K) (i j : Fin 8) : lookSym (ctL4 c) [i, j, 6, 4] =
    !![0, 0, c.DL4CT / 2 + c.DRL5CT / 2, -0 / 2, 0, 0, 0, 0; 0, 0, 0 / 2,
      c.DL4CT / 2 + c.DRL5CT / 2, 0, 0, 0, 0; c.DL4CT / 2 + c.DRL5CT / 2, 0 / 2, 0, 0, 0, 0, 0,
      0; -0 / 2, c.DL4CT / 2 + c.DRL5CT / 2, 0, 0, 0, 0, 0, 0; 0, 0, 0, 0, 0, 0,
      c.DL3CT + c.DL4CT + c.DRL5CT, -0; 0, 0, 0, 0, 0, 0, 0, c.DRL5CT; 0, 0, 0, 0,
      c.DL3CT + c.DL4CT + c.DRL5CT, 0, 0, 0; 0, 0, 0, 0, -0, c.DRL5CT, 0, 0] i j := by
  fin_cases i <;> fin_cases j <;> rfl

theorem ctL4_table66 (c : CT K) (i j : Fin 8) : lookSym (ctL4 c) [i, j, 6, 6] =
    !![c.DL3CT, 0, 0, 0, 0, 0, 0, 0; 0, c.DL3CT, 0, 0, 0, 0, 0, 0; 0, 0, c.DL2CT, 0, 0, 0, 0, 0;
      0, 0, 0, c.DL2CT, 0, 0, 0, 0; 0, 0, 0, 0, c.DL3CT + c.DL4CT + c.DRL5CT, 0, 0, 0; 0, 0, 0,
      0, 0, c.DL3CT + c.DL4CT - c.DRL5CT, 0, 0; 0, 0, 0, 0, 0, 0, 3 * c.DL2CT, 0; 0, 0, 0, 0, 0,
      0, 0, c.DL2CT] i j := by
  fin_cases i <;> fin_cases j <;> rfl

end Lists

end Verif.Lagrangian.R2HDM
