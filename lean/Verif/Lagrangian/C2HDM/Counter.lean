import Verif.Lagrangian.C2HDM.Props

/-!
# Counterterms and gauge couplings of the CP-violating two Higgs doublet model
-/

set_option linter.unusedSectionVars false
set_option linter.unusedSimpArgs false

namespace Verif.Lagrangian.C2HDM

open Verif.Potential
open Verif.Lagrangian.Spec
open Verif.Lagrangian.TwoDoublets (phi1 phi2 GaugeInvariant)

/-- The counterterms of `calc_CT` cancel the first and second derivatives of the Coleman-Weinberg
potential `W` at the vacuum, for every function `W` with the gauge symmetry of the model.  All
tadpole counterterms vanish. -/
theorem C76_c2hdm_cancel (W : (Fin 8 → ℝ) → ℝ) (hW : GaugeInvariant W) (v1 v2 : ℝ) (h1 : v1 ≠ 0)
    (h2 : v2 ≠ 0) (N : Fin 8 → ℝ) (H : Fin 8 → Fin 8 → ℝ)
    (hE : Expansion W (vevTree v1 v2) N H) :
    (∀ i, nablaVCT (counter (calcCT v1 v2 N H)) (vevTree v1 v2) i = -N i) ∧
    (∀ i j, hessianCT (counter (calcCT v1 v2 N H)) (vevTree v1 v2) i j = -H i j) ∧
    (calcCT v1 v2 N H).DTCharged = 0 ∧ (calcCT v1 v2 N H).DT1 = 0 ∧
    (calcCT v1 v2 N H).DT2 = 0 ∧ (calcCT v1 v2 N H).DT3 = 0 := by
  have hr := TwoDoublets.relations hW hE
  have hH : ∀ i j, H i j = split (H 0 0) (H 0 2) (H 2 2) (H 0 3) (H 4 4) (H 4 5) (H 4 6) (H 4 7)
      (H 5 5) (H 5 6) (H 5 7) (H 6 6) (H 6 7) (H 7 7) i j := by
    intro i j
    fin_cases i <;> fin_cases j <;> first
      | rfl
      | exact hr.h11
      | exact hr.h13
      | exact hr.h33
      | exact hr.h12
      | exact hr.h01
      | exact hr.h23
      | exact hr.symm _ _
      | exact (hr.symm _ _).trans hr.h13
      | exact (hr.symm _ _).trans hr.h12
      | exact (hr.symm _ _).trans hr.h01
      | exact (hr.symm _ _).trans hr.h23
      | exact hr.mixed _ _ (by decide) (by decide)
      | exact (hr.symm _ _).trans (hr.mixed _ _ (by decide) (by decide))
  have q2 := hr.g2
  rw [hr.symm 2 0] at q2
  have q6 := hr.g6
  rw [hr.symm 6 5] at q6
  have q7 := hr.g7
  rw [hr.symm 7 5] at q7
  have n4 : N 4 = H 5 5 * v1 + H 5 7 * v2 := hr.g5.symm
  have n6 : N 6 = H 5 7 * v1 + H 7 7 * v2 := q7.symm
  have n7 : N 7 = -(N 5 * v1) / v2 := by field_simp; linarith [hr.n5]
  have g2 : H 0 2 = (N 6 - H 2 2 * v2) / v1 := by field_simp; linarith
  have g0 : H 0 0 = (N 4 - H 0 2 * v2) / v1 := by field_simp; linarith [hr.g0]
  have g1 : H 0 3 = -N 5 / v2 := by field_simp; linarith [hr.g1]
  have g4 : H 4 7 = (-N 5 - H 4 5 * v1) / v2 := by field_simp; linarith [hr.g4]
  have g6 : H 5 6 = (-N 7 - H 6 7 * v2) / v1 := by field_simp; linarith
  have e1 : H 3 1 = H 0 2 := (hr.symm _ _).trans hr.h13
  have t0 : (calcCT v1 v2 N H).DTCharged = 0 := by simp [calcCT, hr.charged 2]
  have t1 : (calcCT v1 v2 N H).DT1 = 0 := by
    simp only [calcCT]
    rw [hr.symm 7 5]
    linarith
  have t2 : (calcCT v1 v2 N H).DT2 = 0 := by
    simp only [calcCT, e1, hr.h33]
    linarith
  have t3 : (calcCT v1 v2 N H).DT3 = 0 := by
    simp only [calcCT, n7]
    ring
  refine ⟨?_, ?_, t0, t1, t2, t3⟩
  · intro i
    rw [nablaVCT, counter_grad, t0, t1, t2, t3]
    simp only [calcCT, e1, hr.h33, hr.symm 6 4, hr.symm 5 4, hr.symm 7 4, hr.symm 7 5,
      hr.symm 7 6]
    rw [g4]
    fin_cases i
    · simp [hr.charged 0]
    · simp [hr.charged 1]
    · simp [hr.charged 2]
    · simp [hr.charged 3]
    · simp
      rw [g2, n4, n6]
      field_simp
      ring
    · simp
      field_simp
      ring
    · simp
      rw [g2, n6]
      field_simp
      ring
    · simp [n7]
      field_simp
      ring
  · intro i j
    rw [counter_hess, hH i j]
    simp only [calcCT, e1, hr.h33, hr.symm 6 4, hr.symm 5 4, hr.symm 7 4, hr.symm 7 5,
      hr.symm 7 6]
    rw [g0, g1, g2, g4, g6, n4, n6, n7]
    rw [← split_neg]
    congr 1 <;> field_simp <;> ring

/-- The hypotheses are met by an invariant function with a non-trivial gradient at the vacuum. -/
example : ∃ (W : (Fin 8 → ℝ) → ℝ) (N : Fin 8 → ℝ) (H : Fin 8 → Fin 8 → ℝ), GaugeInvariant W ∧
    Expansion W (vevTree 100 200) N H ∧ N 4 ≠ 0 :=
  ⟨_, _, _, TwoDoublets.square_invariant.1, expansion_square _, by simp [vevTree]⟩

/-! ### Gauge couplings -/

/-- For all values of the scalar and gauge fields `1/4 G2H2[a][b][i][j] A_a A_b φ_i φ_j` is the
documented `(D Φ₁)† (D Φ₁) + (D Φ₂)† (D Φ₂)`. -/
theorem C77_c2hdm_gauge (g gs : ℝ) (W : Fin 4 → ℝ) (φ : Fin 8 → ℝ) :
    ((1 / 4 * ∑ a : Fin 4, ∑ b : Fin 4, ∑ i : Fin 8, ∑ j : Fin 8,
        gauge g gs [(a : Nat), (b : Nat), (i : Nat), (j : Nat)] *
          (W a * (W b * (φ i * φ j))) : ℝ) : ℂ) =
      dagger (covariant g gs W (phi1 φ)) (covariant g gs W (phi1 φ)) +
        dagger (covariant g gs W (phi2 φ)) (covariant g gs W (phi2 φ)) := by
  rw [phi1, phi2, covariant_doublet, covariant_doublet, gauge,
    contract_look _ (g2h2_distinct g gs), ← Complex.ofReal_add]
  congr 1
  simp [g2h2, ext]
  ring

/-- The tensor does not depend on the order of the two gauge indices and of the two field
indices. -/
theorem C77_c2hdm_gauge_symmetric (g gs : ℝ) (a b i j : Nat) :
    gauge g gs [a, b, i, j] = gauge g gs [b, a, i, j] ∧
      gauge g gs [a, b, i, j] = gauge g gs [a, b, j, i] := by
  have hd := g2h2_distinct g gs
  rw [gauge, assign_look _ hd]
  constructor
  · refine (look_swap _ hd swapFirst swapFirst_swapFirst ?_ [a, b, i, j]).symm
    simp only [g2h2, List.forall_mem_cons]
    iterate 80 refine ⟨rfl, ?_⟩
    simp
  · refine (look_swap _ hd swapLast swapLast_swapLast ?_ [a, b, i, j]).symm
    simp only [g2h2, List.forall_mem_cons]
    iterate 80 refine ⟨rfl, ?_⟩
    simp

end Verif.Lagrangian.C2HDM
