import Verif.Lagrangian.Eval

/-!
# The symmetrisation loop of the doublet models

The models with two doublets give the quartic tensor for ascending indices and copy the entries to
the other orders in a loop of their own.
-/

set_option linter.unusedSectionVars false

namespace Verif.Lagrangian

open Verif.Potential
open Verif.Potential.Spec (Symmetrises)

variable {K : Type} [Field K]

/-- The positions written by the body of the loop, in the order of the statements,
ClassPotentialR2HDM.cpp:1036-1081 (also ClassPotentialR2HDM.cpp:464-509,
ClassPotentialC2HDM.cpp:2722-2777). -/
def permsLoop : List Nat → List (List Nat)
  | [k1, k2, k3, k4] =>
    [[k2, k3, k4, k1], [k3, k4, k1, k2], [k4, k1, k2, k3], [k2, k1, k3, k4], [k4, k2, k1, k3],
     [k3, k4, k2, k1], [k1, k3, k4, k2], [k3, k2, k1, k4], [k4, k3, k2, k1], [k1, k4, k3, k2],
     [k2, k1, k4, k3], [k4, k2, k3, k1], [k1, k4, k2, k3], [k3, k1, k4, k2], [k2, k3, k1, k4],
     [k1, k3, k2, k4], [k4, k1, k3, k2], [k2, k4, k1, k3], [k3, k2, k4, k1], [k1, k2, k4, k3],
     [k3, k1, k2, k4], [k4, k3, k1, k2], [k2, k4, k3, k1]]
  | _ => []

/-- The loop over ascending indices below `N`. -/
def symLoop (t : List Nat → K) (N : Nat) : List Nat → K :=
  ((List.range N).flatMap fun k1 => (rangeFrom k1 N).flatMap fun k2 =>
    (rangeFrom k2 N).flatMap fun k3 => (rangeFrom k3 N).map fun k4 => [k1, k2, k3, k4]).foldl
      (symBody permsLoop) t

theorem allOrdersLoop : AllOrders permsLoop 4 := by
  intro s q hs
  match s, hs with
  | [a, b, c, d], _ =>
    rw [← List.mem_permutations']
    have h1 : (q ∈ permsLoop [a, b, c, d] ∨ q = [a, b, c, d]) ↔
        q ∈ [a, b, c, d] :: permsLoop [a, b, c, d] := by rw [List.mem_cons]; tauto
    rw [h1]
    refine ((?_ : List.Perm _ _).mem_iff)
    have h0 : List.Perm (([0, 1, 2, 3] : List Nat) :: permsLoop [0, 1, 2, 3])
        (List.permutations' [0, 1, 2, 3]) := by decide
    have h := h0.map (fun l => l.map fun i => [a, b, c, d].getD i 0)
    simpa [permsLoop, List.permutations', List.permutations'Aux] using h

theorem symLoop_symmetrises (t : List Nat → K) (N : Nat) : Symmetrises 4 N t (symLoop t N) := by
  refine symmetrises_of permsLoop 4 N allOrdersLoop _ (fun s => ?_) t
  simp only [List.mem_flatMap, List.mem_map, List.mem_range, mem_rangeFrom]
  constructor
  · rintro ⟨a, ha, b, hb, c, hc, d, hd, rfl⟩
    simp; omega
  · rintro ⟨h1, h2, h3⟩
    match s, h1 with
    | [a, b, c, d], _ =>
      simp at h2 h3
      exact ⟨a, by omega, b, by omega, c, by omega, d, by omega, rfl⟩

end Verif.Lagrangian
