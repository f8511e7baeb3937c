import Verif.Lagrangian.C2HDM.Model
import Verif.Lagrangian.Blocks
import Mathlib.LinearAlgebra.Matrix.Notation
import Mathlib.Tactic.FinCases
import Mathlib.Tactic.Ring

/-!
# Entries of the tensors of the CP-violating two Higgs doublet model
-/

set_option linter.unusedSectionVars false
set_option linter.unusedSimpArgs false

namespace Verif.Lagrangian.C2HDM

open Verif.Potential

section Lists
variable {K : Type} [Field K]

theorem l2_distinct (p : Par K) : Distinct (l2 p) := by
  simp only [Distinct, l2, List.map_cons, List.map_nil]; decide +kernel

theorem l4_distinct (p : Par K) : Distinct (l4 p) := by
  simp only [Distinct, l4, List.map_cons, List.map_nil]; decide +kernel

theorem l4_ascending (p : Par K) : Ascending (l4 p) :=
  ascending_of _ (by simp only [l4, List.map_cons, List.map_nil]; decide +kernel)

theorem l2_rank (p : Par K) : Rank 2 (l2 p) :=
  rank_of _ _ (by simp only [l2, List.map_cons, List.map_nil]; decide +kernel)

theorem l4_rank (p : Par K) : Rank 4 (l4 p) :=
  rank_of _ _ (by simp only [l4, List.map_cons, List.map_nil]; decide +kernel)

theorem ctL1_distinct (c : CT K) : Distinct (ctL1 c) := by
  simp only [Distinct, ctL1, List.map_cons, List.map_nil]; decide +kernel

theorem ctL2_distinct (c : CT K) : Distinct (ctL2 c) := by
  simp only [Distinct, ctL2, List.map_cons, List.map_nil]; decide +kernel

theorem ctL4_blocked (c : CT K) : Blocked 0
    [ctL4_0 c, ctL4_1 c, ctL4_2 c, ctL4_3 c, ctL4_4 c, ctL4_5 c, ctL4_6 c, ctL4_7 c] := by
  refine ⟨?_, ?_, ?_, ?_, ?_, ?_, ?_, ?_, ?_, ?_, ?_, ?_, ?_, ?_, ?_, ?_, trivial⟩
  · simp only [ctL4_0, List.map_cons, List.map_nil]; decide +kernel
  · refine distinct_of_chain _ ?_
    simp only [ctL4_0, List.map_cons, List.map_nil]; decide +kernel
  · simp only [ctL4_1, List.map_cons, List.map_nil]; decide +kernel
  · refine distinct_of_chain _ ?_
    simp only [ctL4_1, List.map_cons, List.map_nil]; decide +kernel
  · simp only [ctL4_2, List.map_cons, List.map_nil]; decide +kernel
  · refine distinct_of_chain _ ?_
    simp only [ctL4_2, List.map_cons, List.map_nil]; decide +kernel
  · simp only [ctL4_3, List.map_cons, List.map_nil]; decide +kernel
  · refine distinct_of_chain _ ?_
    simp only [ctL4_3, List.map_cons, List.map_nil]; decide +kernel
  · simp only [ctL4_4, List.map_cons, List.map_nil]; decide +kernel
  · refine distinct_of_chain _ ?_
    simp only [ctL4_4, List.map_cons, List.map_nil]; decide +kernel
  · simp only [ctL4_5, List.map_cons, List.map_nil]; decide +kernel
  · refine distinct_of_chain _ ?_
    simp only [ctL4_5, List.map_cons, List.map_nil]; decide +kernel
  · simp only [ctL4_6, List.map_cons, List.map_nil]; decide +kernel
  · refine distinct_of_chain _ ?_
    simp only [ctL4_6, List.map_cons, List.map_nil]; decide +kernel
  · simp only [ctL4_7, List.map_cons, List.map_nil]; decide +kernel
  · refine distinct_of_chain _ ?_
    simp only [ctL4_7, List.map_cons, List.map_nil]; decide +kernel

theorem ctL4_distinct (c : CT K) : Distinct (ctL4 c) :=
  blocked_distinct _ 0 (ctL4_blocked c)

theorem ctL4_look (c : CT K) (i : Nat) (q : List Nat) : look (ctL4 c) (i :: q) =
    look ([ctL4_0 c, ctL4_1 c, ctL4_2 c, ctL4_3 c, ctL4_4 c, ctL4_5 c, ctL4_6 c, ctL4_7 c].getD i [])
      (i :: q) := by
  have := blocked_look _ 0 (ctL4_blocked c) i q
  rw [Nat.zero_add] at this
  exact this

theorem ctL1_rank (c : CT K) : Rank 1 (ctL1 c) :=
  rank_of _ _ (by simp only [ctL1, List.map_cons, List.map_nil]; decide +kernel)

theorem ctL2_rank (c : CT K) : Rank 2 (ctL2 c) :=
  rank_of _ _ (by simp only [ctL2, List.map_cons, List.map_nil]; decide +kernel)

theorem ctL4_rank (c : CT K) : Rank 4 (ctL4 c) := by
  refine rank_flatten _ _ ?_
  simp only [List.forall_mem_cons]
  refine ⟨?_, ?_, ?_, ?_, ?_, ?_, ?_, ?_, by simp⟩
  · exact rank_of _ _ (by simp only [ctL4_0, List.map_cons, List.map_nil]; decide +kernel)
  · exact rank_of _ _ (by simp only [ctL4_1, List.map_cons, List.map_nil]; decide +kernel)
  · exact rank_of _ _ (by simp only [ctL4_2, List.map_cons, List.map_nil]; decide +kernel)
  · exact rank_of _ _ (by simp only [ctL4_3, List.map_cons, List.map_nil]; decide +kernel)
  · exact rank_of _ _ (by simp only [ctL4_4, List.map_cons, List.map_nil]; decide +kernel)
  · exact rank_of _ _ (by simp only [ctL4_5, List.map_cons, List.map_nil]; decide +kernel)
  · exact rank_of _ _ (by simp only [ctL4_6, List.map_cons, List.map_nil]; decide +kernel)
  · exact rank_of _ _ (by simp only [ctL4_7, List.map_cons, List.map_nil]; decide +kernel)

theorem g2h2_distinct (g gs : K) : Distinct (g2h2 g gs) := by
  simp only [Distinct, g2h2, List.map_cons, List.map_nil]; decide +kernel

theorem tree_eq (p : Par K) :
    tree p = curv 8 (look []) (look (l2 p)) (look []) (lookSym (l4 p)) := by
  rw [tree, symmetrised4_curv _ _ _ (l4 p) (l4_distinct p) _ (symLoop_symmetrises _ _),
    assign_look _ (l2_distinct p), zero_look]

theorem counter_eq (c : CT K) :
    counter c = curv 8 (look (ctL1 c)) (look (ctL2 c)) (look []) (look (ctL4 c)) := by
  rw [counter, assign_look _ (ctL1_distinct c), assign_look _ (ctL2_distinct c),
    assign_look _ (ctL4_distinct c), zero_look]

theorem vev_sum (v w : K) (f : Fin 8 → K) (hf : ∀ k, vevTree v w k = 0 → f k = 0) :
    ∑ k, f k = f 4 + f 6 := by
  refine sum_support2 4 6 (by decide) (vevTree v w) (fun k hk hl => ?_) f hf
  fin_cases k <;> first | rfl | exact absurd rfl hk | exact absurd rfl hl

theorem l2_table (p : Par K) (i j : Fin 8) : look (l2 p) [i, j] =
    !![p.u1, 0, -p.RealMMix, p.Iu3, 0, 0, 0, 0; 0, p.u1, -p.Iu3, -p.RealMMix, 0, 0, 0, 0;
      -p.RealMMix, -p.Iu3, p.u2, 0, 0, 0, 0, 0; p.Iu3, -p.RealMMix, 0, p.u2, 0, 0, 0, 0; 0, 0, 0,
      0, p.u1, 0, -p.RealMMix, p.Iu3; 0, 0, 0, 0, 0, p.u1, -p.Iu3, -p.RealMMix; 0, 0, 0, 0,
      -p.RealMMix, -p.Iu3, p.u2, 0; 0, 0, 0, 0, p.Iu3, -p.RealMMix, 0, p.u2] i j := by
  fin_cases i <;> fin_cases j <;> rfl

theorem l4_table44 (p : Par K) (i j : Fin 8) : lookSym (l4 p) [i, j, 4, 4] =
    !![p.L1, 0, 0, 0, 0, 0, 0, 0; 0, p.L1, 0, 0, 0, 0, 0, 0; 0, 0, p.L3, 0, 0, 0, 0, 0; 0, 0, 0,
      p.L3, 0, 0, 0, 0; 0, 0, 0, 0, 3 * p.L1, 0, 0, 0; 0, 0, 0, 0, 0, p.L1, 0, 0; 0, 0, 0, 0, 0,
      0, p.L3 + p.L4 + p.RL5, -p.IL5; 0, 0, 0, 0, 0, 0, -p.IL5, p.L3 + p.L4 - p.RL5] i j := by
  fin_cases i <;> fin_cases j <;> rfl

theorem l4_table46 (p : Par K) (i j : Fin 8) : lookSym (l4 p) [i, j, 4, 6] =
    !![0, 0, p.L4 / 2 + p.RL5 / 2, -p.IL5 / 2, 0, 0, 0, 0; 0, 0, p.IL5 / 2, p.L4 / 2 + p.RL5 / 2,
      0, 0, 0, 0; p.L4 / 2 + p.RL5 / 2, p.IL5 / 2, 0, 0, 0, 0, 0, 0; -p.IL5 / 2,
      p.L4 / 2 + p.RL5 / 2, 0, 0, 0, 0, 0, 0; 0, 0, 0, 0, 0, 0, p.L3 + p.L4 + p.RL5, -p.IL5; 0,
      0, 0, 0, 0, 0, p.IL5, p.RL5; 0, 0, 0, 0, p.L3 + p.L4 + p.RL5, p.IL5, 0, 0; 0, 0, 0, 0,
      -p.IL5, p.RL5, 0, 0] i j := by
  fin_cases i <;> fin_cases j <;> rfl

theorem l4_table64 (p : Par K) (i j : Fin 8) : lookSym (l4 p) [i, j, 6, 4] =
    !![0, 0, p.L4 / 2 + p.RL5 / 2, -p.IL5 / 2, 0, 0, 0, 0; 0, 0, p.IL5 / 2, p.L4 / 2 + p.RL5 / 2,
      0, 0, 0, 0; p.L4 / 2 + p.RL5 / 2, p.IL5 / 2, 0, 0, 0, 0, 0, 0; -p.IL5 / 2,
      p.L4 / 2 + p.RL5 / 2, 0, 0, 0, 0, 0, 0; 0, 0, 0, 0, 0, 0, p.L3 + p.L4 + p.RL5, -p.IL5; 0,
      0, 0, 0, 0, 0, p.IL5, p.RL5; 0, 0, 0, 0, p.L3 + p.L4 + p.RL5, p.IL5, 0, 0; 0, 0, 0, 0,
      -p.IL5, p.RL5, 0, 0] i j := by
  fin_cases i <;> fin_cases j <;> rfl

theorem l4_table66 (p : Par K) (i j : Fin 8) : lookSym (l4 p) [i, j, 6, 6] =
    !![p.L3, 0, 0, 0, 0, 0, 0, 0; 0, p.L3, 0, 0, 0, 0, 0, 0; 0, 0, p.L2, 0, 0, 0, 0, 0; 0, 0, 0,
      p.L2, 0, 0, 0, 0; 0, 0, 0, 0, p.L3 + p.L4 + p.RL5, p.IL5, 0, 0; 0, 0, 0, 0, p.IL5,
      p.L3 + p.L4 - p.RL5, 0, 0; 0, 0, 0, 0, 0, 0, 3 * p.L2, 0; 0, 0, 0, 0, 0, 0, 0, p.L2] i j := by
  fin_cases i <;> fin_cases j <;> rfl

theorem ctL2_table (c : CT K) (i j : Fin 8) : look (ctL2 c) [i, j] =
    !![c.Du1CT, 0, -c.DRu3CT, c.DIu3CT, 0, 0, 0, 0; 0, c.Du1CT, -c.DIu3CT, -c.DRu3CT, 0, 0, 0, 0;
      -c.DRu3CT, -c.DIu3CT, c.Du2CT, 0, 0, 0, 0, 0; c.DIu3CT, -c.DRu3CT, 0, c.Du2CT, 0, 0, 0, 0;
      0, 0, 0, 0, c.Du1CT, 0, -c.DRu3CT, c.DIu3CT; 0, 0, 0, 0, 0, c.Du1CT, -c.DIu3CT, -c.DRu3CT;
      0, 0, 0, 0, -c.DRu3CT, -c.DIu3CT, c.Du2CT, 0; 0, 0, 0, 0, c.DIu3CT, -c.DRu3CT, 0, c.Du2CT] i j := by
  fin_cases i <;> fin_cases j <;> rfl

theorem ctL4_table44 (c : CT K) (i j : Fin 8) : look (ctL4 c) [i, j, 4, 4] =
    !![c.DL1CT, 0, 0, -c.DIL6CT, 0, 0, 0, 0; 0, c.DL1CT, c.DIL6CT, 0, 0, 0, 0, 0; 0, c.DIL6CT,
      c.DL3CT, 0, 0, 0, 0, 0; -c.DIL6CT, 0, 0, c.DL3CT, 0, 0, 0, 0; 0, 0, 0, 0, 3 * c.DL1CT, 0,
      0, -3 * c.DIL6CT; 0, 0, 0, 0, 0, c.DL1CT, c.DIL6CT, 0; 0, 0, 0, 0, 0, c.DIL6CT,
      c.DL3CT + c.DL4CT + c.DRL5CT, -c.DIL5CT; 0, 0, 0, 0, -3 * c.DIL6CT, 0, -c.DIL5CT,
      c.DL3CT + c.DL4CT - c.DRL5CT] i j := by
  rw [ctL4_look]
  fin_cases i <;> fin_cases j <;> rfl

theorem ctL4_table46 (c : CT K) (i j : Fin 8) : look (ctL4 c) [i, j, 4, 6] =
    !![0, 0, c.DL4CT / 2 + c.DRL5CT / 2, -c.DIL5CT / 2, 0, 0, 0, 0; 0, 0, c.DIL5CT / 2,
      c.DL4CT / 2 + c.DRL5CT / 2, 0, 0, 0, 0; c.DL4CT / 2 + c.DRL5CT / 2, c.DIL5CT / 2, 0, 0, 0,
      0, 0, 0; -c.DIL5CT / 2, c.DL4CT / 2 + c.DRL5CT / 2, 0, 0, 0, 0, 0, 0; 0, 0, 0, 0, 0,
      c.DIL6CT, c.DL3CT + c.DL4CT + c.DRL5CT, -c.DIL5CT; 0, 0, 0, 0, c.DIL6CT, 0, c.DIL5CT,
      c.DRL5CT; 0, 0, 0, 0, c.DL3CT + c.DL4CT + c.DRL5CT, c.DIL5CT, 0, 0; 0, 0, 0, 0, -c.DIL5CT,
      c.DRL5CT, 0, 0] i j := by
  rw [ctL4_look]
  fin_cases i <;> fin_cases j <;> rfl

theorem ctL4_table64 (c : CT K) (i j : Fin 8) : look (ctL4 c) [i, j, 6, 4] =
    !![0, 0, c.DL4CT / 2 + c.DRL5CT / 2, -c.DIL5CT / 2, 0, 0, 0, 0; 0, 0, c.DIL5CT / 2,
      c.DL4CT / 2 + c.DRL5CT / 2, 0, 0, 0, 0; c.DL4CT / 2 + c.DRL5CT / 2, c.DIL5CT / 2, 0, 0, 0,
      0, 0, 0; -c.DIL5CT / 2, c.DL4CT / 2 + c.DRL5CT / 2, 0, 0, 0, 0, 0, 0; 0, 0, 0, 0, 0,
      c.DIL6CT, c.DL3CT + c.DL4CT + c.DRL5CT, -c.DIL5CT; 0, 0, 0, 0, c.DIL6CT, 0, c.DIL5CT,
      c.DRL5CT; 0, 0, 0, 0, c.DL3CT + c.DL4CT + c.DRL5CT, c.DIL5CT, 0, 0; 0, 0, 0, 0, -c.DIL5CT,
      c.DRL5CT, 0, 0] i j := by
  rw [ctL4_look]
  fin_cases i <;> fin_cases j <;> rfl

theorem ctL4_table66 (c : CT K) (i j : Fin 8) : look (ctL4 c) [i, j, 6, 6] =
    !![c.DL3CT, 0, 0, 0, 0, 0, 0, 0; 0, c.DL3CT, 0, 0, 0, 0, 0, 0; 0, 0, c.DL2CT, 0, 0, 0, 0, 0;
      0, 0, 0, c.DL2CT, 0, 0, 0, 0; 0, 0, 0, 0, c.DL3CT + c.DL4CT + c.DRL5CT, c.DIL5CT, 0, 0; 0,
      0, 0, 0, c.DIL5CT, c.DL3CT + c.DL4CT - c.DRL5CT, 0, 0; 0, 0, 0, 0, 0, 0, 3 * c.DL2CT, 0; 0,
      0, 0, 0, 0, 0, 0, c.DL2CT] i j := by
  rw [ctL4_look]
  fin_cases i <;> fin_cases j <;> rfl

end Lists

end Verif.Lagrangian.C2HDM
