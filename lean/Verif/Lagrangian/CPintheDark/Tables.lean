import Verif.Lagrangian.CPintheDark.Model
import Verif.Lagrangian.Blocks
import Mathlib.LinearAlgebra.Matrix.Notation
import Mathlib.Tactic.FinCases

/-!
# Tables of the model CP in the Dark
-/

set_option linter.unusedSectionVars false
set_option linter.unusedSimpArgs false

namespace Verif.Lagrangian.CPintheDark

open Verif.Potential

variable {K : Type} [Field K]

theorem l2_distinct (p : Par K) : Distinct (l2 p) := by
  simp only [Distinct, l2, List.map_cons, List.map_nil]; decide +kernel

theorem l3_distinct (p : Par K) : Distinct (l3 p) := by
  simp only [Distinct, l3, List.map_cons, List.map_nil]; decide +kernel

theorem l2_rank (p : Par K) : Rank 2 (l2 p) :=
  rank_of _ _ (by simp only [l2, List.map_cons, List.map_nil]; decide +kernel)

theorem l3_rank (p : Par K) : Rank 3 (l3 p) :=
  rank_of _ _ (by simp only [l3, List.map_cons, List.map_nil]; decide +kernel)

theorem l4_blocked (p : Par K) : Blocked 0
    [l4_0 p, l4_1 p, l4_2 p, l4_3 p, l4_4 p, l4_5 p, l4_6 p, l4_7 p, l4_8 p] := by
  refine ⟨?_, ?_, ?_, ?_, ?_, ?_, ?_, ?_, ?_, ?_, ?_, ?_, ?_, ?_, ?_, ?_, ?_, ?_, trivial⟩
  · simp only [l4_0, List.map_cons, List.map_nil]; decide +kernel
  · refine distinct_of_chain _ ?_
    simp only [l4_0, List.map_cons, List.map_nil]; decide +kernel
  · simp only [l4_1, List.map_cons, List.map_nil]; decide +kernel
  · refine distinct_of_chain _ ?_
    simp only [l4_1, List.map_cons, List.map_nil]; decide +kernel
  · simp only [l4_2, List.map_cons, List.map_nil]; decide +kernel
  · refine distinct_of_chain _ ?_
    simp only [l4_2, List.map_cons, List.map_nil]; decide +kernel
  · simp only [l4_3, List.map_cons, List.map_nil]; decide +kernel
  · refine distinct_of_chain _ ?_
    simp only [l4_3, List.map_cons, List.map_nil]; decide +kernel
  · simp only [l4_4, List.map_cons, List.map_nil]; decide +kernel
  · refine distinct_of_chain _ ?_
    simp only [l4_4, List.map_cons, List.map_nil]; decide +kernel
  · simp only [l4_5, List.map_cons, List.map_nil]; decide +kernel
  · refine distinct_of_chain _ ?_
    simp only [l4_5, List.map_cons, List.map_nil]; decide +kernel
  · simp only [l4_6, List.map_cons, List.map_nil]; decide +kernel
  · refine distinct_of_chain _ ?_
    simp only [l4_6, List.map_cons, List.map_nil]; decide +kernel
  · simp only [l4_7, List.map_cons, List.map_nil]; decide +kernel
  · refine distinct_of_chain _ ?_
    simp only [l4_7, List.map_cons, List.map_nil]; decide +kernel
  · simp only [l4_8, List.map_cons, List.map_nil]; decide +kernel
  · refine distinct_of_chain _ ?_
    simp only [l4_8, List.map_cons, List.map_nil]; decide +kernel

theorem l4_distinct (p : Par K) : Distinct (l4 p) :=
  blocked_distinct _ 0 (l4_blocked p)

theorem l4_look (p : Par K) (i : Nat) (q : List Nat) : look (l4 p) (i :: q) =
    look ([l4_0 p, l4_1 p, l4_2 p, l4_3 p, l4_4 p, l4_5 p, l4_6 p, l4_7 p, l4_8 p].getD i [])
      (i :: q) := by
  have := blocked_look _ 0 (l4_blocked p) i q
  rw [Nat.zero_add] at this
  exact this

theorem l4_rank (p : Par K) : Rank 4 (l4 p) := by
  refine rank_flatten _ _ ?_
  simp only [List.forall_mem_cons]
  refine ⟨?_, ?_, ?_, ?_, ?_, ?_, ?_, ?_, ?_, by simp⟩
  · exact rank_of _ _ (by simp only [l4_0, List.map_cons, List.map_nil]; decide +kernel)
  · exact rank_of _ _ (by simp only [l4_1, List.map_cons, List.map_nil]; decide +kernel)
  · exact rank_of _ _ (by simp only [l4_2, List.map_cons, List.map_nil]; decide +kernel)
  · exact rank_of _ _ (by simp only [l4_3, List.map_cons, List.map_nil]; decide +kernel)
  · exact rank_of _ _ (by simp only [l4_4, List.map_cons, List.map_nil]; decide +kernel)
  · exact rank_of _ _ (by simp only [l4_5, List.map_cons, List.map_nil]; decide +kernel)
  · exact rank_of _ _ (by simp only [l4_6, List.map_cons, List.map_nil]; decide +kernel)
  · exact rank_of _ _ (by simp only [l4_7, List.map_cons, List.map_nil]; decide +kernel)
  · exact rank_of _ _ (by simp only [l4_8, List.map_cons, List.map_nil]; decide +kernel)

theorem ctL1_distinct (c : CT K) : Distinct (ctL1 c) := by
  simp only [Distinct, ctL1, List.map_cons, List.map_nil]; decide +kernel

theorem ctL1_rank (c : CT K) : Rank 1 (ctL1 c) :=
  rank_of _ _ (by simp only [ctL1, List.map_cons, List.map_nil]; decide +kernel)

theorem ctL2_distinct (c : CT K) : Distinct (ctL2 c) := by
  simp only [Distinct, ctL2, List.map_cons, List.map_nil]; decide +kernel

theorem ctL2_rank (c : CT K) : Rank 2 (ctL2 c) :=
  rank_of _ _ (by simp only [ctL2, List.map_cons, List.map_nil]; decide +kernel)

theorem ctL3_distinct (c : CT K) : Distinct (ctL3 c) := by
  simp only [Distinct, ctL3, List.map_cons, List.map_nil]; decide +kernel

theorem ctL3_rank (c : CT K) : Rank 3 (ctL3 c) :=
  rank_of _ _ (by simp only [ctL3, List.map_cons, List.map_nil]; decide +kernel)

theorem ctL4_blocked (c : CT K) : Blocked 0
    [ctL4_0 c, ctL4_1 c, ctL4_2 c, ctL4_3 c, ctL4_4 c, ctL4_5 c, ctL4_6 c, ctL4_7 c, ctL4_8 c] := by
  refine ⟨?_, ?_, ?_, ?_, ?_, ?_, ?_, ?_, ?_, ?_, ?_, ?_, ?_, ?_, ?_, ?_, ?_, ?_, trivial⟩
  · simp only [ctL4_0, List.map_cons, List.map_nil]; decide +kernel
  · refine distinct_of_chain _ ?_
    simp only [ctL4_0, List.map_cons, List.map_nil]; decide +kernel
  · simp only [ctL4_1, List.map_cons, List.map_nil]; decide +kernel
  · refine distinct_of_chain _ ?_
    simp only [ctL4_1, List.map_cons, List.map_nil]; decide +kernel
  · simp only [ctL4_2, List.map_cons, List.map_nil]; decide +kernel
  · refine distinct_of_chain _ ?_
    simp only [ctL4_2, List.map_cons, List.map_nil]; decide +kernel
  · simp only [ctL4_3, List.map_cons, List.map_nil]; decide +kernel
  · refine distinct_of_chain _ ?_
    simp only [ctL4_3, List.map_cons, List.map_nil]; decide +kernel
  · simp only [ctL4_4, List.map_cons, List.map_nil]; decide +kernel
  · refine distinct_of_chain _ ?_
    simp only [ctL4_4, List.map_cons, List.map_nil]; decide +kernel
  · simp only [ctL4_5, List.map_cons, List.map_nil]; decide +kernel
  · refine distinct_of_chain _ ?_
    simp only [ctL4_5, List.map_cons, List.map_nil]; decide +kernel
  · simp only [ctL4_6, List.map_cons, List.map_nil]; decide +kernel
  · refine distinct_of_chain _ ?_
    simp only [ctL4_6, List.map_cons, List.map_nil]; decide +kernel
  · simp only [ctL4_7, List.map_cons, List.map_nil]; decide +kernel
  · refine distinct_of_chain _ ?_
    simp only [ctL4_7, List.map_cons, List.map_nil]; decide +kernel
  · simp only [ctL4_8, List.map_cons, List.map_nil]; decide +kernel
  · refine distinct_of_chain _ ?_
    simp only [ctL4_8, List.map_cons, List.map_nil]; decide +kernel

theorem ctL4_distinct (c : CT K) : Distinct (ctL4 c) :=
  blocked_distinct _ 0 (ctL4_blocked c)

theorem ctL4_look (c : CT K) (i : Nat) (q : List Nat) : look (ctL4 c) (i :: q) =
    look ([ctL4_0 c, ctL4_1 c, ctL4_2 c, ctL4_3 c, ctL4_4 c, ctL4_5 c, ctL4_6 c, ctL4_7 c, ctL4_8 c].getD i [])
      (i :: q) := by
  have := blocked_look _ 0 (ctL4_blocked c) i q
  rw [Nat.zero_add] at this
  exact this

theorem ctL4_rank (c : CT K) : Rank 4 (ctL4 c) := by
  refine rank_flatten _ _ ?_
  simp only [List.forall_mem_cons]
  refine ⟨?_, ?_, ?_, ?_, ?_, ?_, ?_, ?_, ?_, by simp⟩
  · exact rank_of _ _ (by simp only [ctL4_0, List.map_cons, List.map_nil]; decide +kernel)
  · exact rank_of _ _ (by simp only [ctL4_1, List.map_cons, List.map_nil]; decide +kernel)
  · exact rank_of _ _ (by simp only [ctL4_2, List.map_cons, List.map_nil]; decide +kernel)
  · exact rank_of _ _ (by simp only [ctL4_3, List.map_cons, List.map_nil]; decide +kernel)
  · exact rank_of _ _ (by simp only [ctL4_4, List.map_cons, List.map_nil]; decide +kernel)
  · exact rank_of _ _ (by simp only [ctL4_5, List.map_cons, List.map_nil]; decide +kernel)
  · exact rank_of _ _ (by simp only [ctL4_6, List.map_cons, List.map_nil]; decide +kernel)
  · exact rank_of _ _ (by simp only [ctL4_7, List.map_cons, List.map_nil]; decide +kernel)
  · exact rank_of _ _ (by simp only [ctL4_8, List.map_cons, List.map_nil]; decide +kernel)

theorem g2h2_distinct (g gs : K) : Distinct (g2h2 g gs) := by
  simp only [Distinct, g2h2, List.map_cons, List.map_nil]; decide +kernel

theorem tree_eq (p : Par K) :
    tree p = curv 9 (look []) (look (l2 p)) (look (l3 p)) (look (l4 p)) := by
  rw [tree, assign_look _ (l2_distinct p), assign_look _ (l3_distinct p),
    assign_look _ (l4_distinct p), zero_look]

theorem counter_eq (c : CT K) :
    counter c = curv 9 (look (ctL1 c)) (look (ctL2 c)) (look (ctL3 c)) (look (ctL4 c)) := by
  rw [counter, assign_look _ (ctL1_distinct c), assign_look _ (ctL2_distinct c),
    assign_look _ (ctL3_distinct c), assign_look _ (ctL4_distinct c)]

theorem vev_sum (v : K) (f : Fin 9 → K) (hf : ∀ k, vevTree v k = 0 → f k = 0) :
    ∑ k, f k = f 4 := by
  refine sum_support1 4 (vevTree v) (fun k hk => ?_) f hf
  fin_cases k <;> first | rfl | exact absurd rfl hk

theorem l2_table (p : Par K) (i j : Fin 9) : look (l2 p) [i, j] =
    !![p.m11s, 0, 0, 0, 0, 0, 0, 0, 0; 0, p.m11s, 0, 0, 0, 0, 0, 0, 0; 0, 0, p.m22s, 0, 0, 0, 0,
      0, 0; 0, 0, 0, p.m22s, 0, 0, 0, 0, 0; 0, 0, 0, 0, p.m11s, 0, 0, 0, 0; 0, 0, 0, 0, 0,
      p.m11s, 0, 0, 0; 0, 0, 0, 0, 0, 0, p.m22s, 0, 0; 0, 0, 0, 0, 0, 0, 0, p.m22s, 0; 0, 0, 0,
      0, 0, 0, 0, 0, p.mSs] i j := by
  fin_cases i <;> fin_cases j <;> rfl

theorem l3_table (p : Par K) (i j : Fin 9) : look (l3 p) [i, j, 4] =
    !![0, 0, 0, 0, 0, 0, 0, 0, 0; 0, 0, 0, 0, 0, 0, 0, 0, 0; 0, 0, 0, 0, 0, 0, 0, 0, 0; 0, 0, 0,
      0, 0, 0, 0, 0, 0; 0, 0, 0, 0, 0, 0, 0, 0, 0; 0, 0, 0, 0, 0, 0, 0, 0, 0; 0, 0, 0, 0, 0, 0,
      0, 0, p.ReA; 0, 0, 0, 0, 0, 0, 0, 0, -p.ImA; 0, 0, 0, 0, 0, 0, p.ReA, -p.ImA, 0] i j := by
  fin_cases i <;> fin_cases j <;> rfl

theorem l4_table (p : Par K) (i j : Fin 9) : look (l4 p) [i, j, 4, 4] =
    !![p.L1, 0, 0, 0, 0, 0, 0, 0, 0; 0, p.L1, 0, 0, 0, 0, 0, 0, 0; 0, 0, p.L3, 0, 0, 0, 0, 0, 0;
      0, 0, 0, p.L3, 0, 0, 0, 0, 0; 0, 0, 0, 0, 3 * p.L1, 0, 0, 0, 0; 0, 0, 0, 0, 0, p.L1, 0, 0,
      0; 0, 0, 0, 0, 0, 0, p.L3 + p.L4 + p.L5, 0, 0; 0, 0, 0, 0, 0, 0, 0, p.L3 + p.L4 - p.L5, 0;
      0, 0, 0, 0, 0, 0, 0, 0, p.L7] i j := by
  rw [l4_look]
  fin_cases i <;> fin_cases j <;> rfl

theorem ctL2_table (c : CT K) (i j : Fin 9) : look (ctL2 c) [i, j] =
    !![c.dm11s, 0, 0, 0, 0, 0, 0, 0, 0; 0, c.dm11s, 0, 0, 0, 0, 0, 0, 0; 0, 0, c.dm22s, 0, 0, 0,
      0, 0, 0; 0, 0, 0, c.dm22s, 0, 0, 0, 0, 0; 0, 0, 0, 0, c.dm11s, 0, 0, 0, 0; 0, 0, 0, 0, 0,
      c.dm11s, 0, 0, 0; 0, 0, 0, 0, 0, 0, c.dm22s, 0, 0; 0, 0, 0, 0, 0, 0, 0, c.dm22s, 0; 0, 0,
      0, 0, 0, 0, 0, 0, c.dmSs] i j := by
  fin_cases i <;> fin_cases j <;> rfl

theorem ctL3_table (c : CT K) (i j : Fin 9) : look (ctL3 c) [i, j, 4] =
    !![0, 0, 0, 0, 0, 0, 0, 0, 0; 0, 0, 0, 0, 0, 0, 0, 0, 0; 0, 0, 0, 0, 0, 0, 0, 0, 0; 0, 0, 0,
      0, 0, 0, 0, 0, 0; 0, 0, 0, 0, 0, 0, 0, 0, 0; 0, 0, 0, 0, 0, 0, 0, 0, 0; 0, 0, 0, 0, 0, 0,
      0, 0, c.dReA; 0, 0, 0, 0, 0, 0, 0, 0, -c.dImA; 0, 0, 0, 0, 0, 0, c.dReA, -c.dImA, 0] i j := by
  fin_cases i <;> fin_cases j <;> rfl

theorem ctL4_table (c : CT K) (i j : Fin 9) : look (ctL4 c) [i, j, 4, 4] =
    !![c.dL1, 0, 0, 0, 0, 0, 0, 0, 0; 0, c.dL1, 0, 0, 0, 0, 0, 0, 0; 0, 0, c.dL3, 0, 0, 0, 0, 0,
      0; 0, 0, 0, c.dL3, 0, 0, 0, 0, 0; 0, 0, 0, 0, 3 * c.dL1, 0, 0, 0, 0; 0, 0, 0, 0, 0, c.dL1,
      0, 0, 0; 0, 0, 0, 0, 0, 0, c.dL3 + c.dL4 + c.dL5, -c.dImL5, 0; 0, 0, 0, 0, 0, 0, -c.dImL5,
      c.dL3 + c.dL4 - c.dL5, 0; 0, 0, 0, 0, 0, 0, 0, 0, c.dL7] i j := by
  rw [ctL4_look]
  fin_cases i <;> fin_cases j <;> rfl

end Verif.Lagrangian.CPintheDark
