import Verif.Lagrangian.R2HDM.Props

/-!
# Counterterms and gauge couplings of the CP-conserving two Higgs doublet model
-/

set_option linter.unusedSectionVars false
set_option linter.unusedSimpArgs false

namespace Verif.Lagrangian.R2HDM

open Verif.Potential
open Verif.Lagrangian.Spec
open Verif.Lagrangian.TwoDoublets (phi1 phi2 GaugeInvariant CPInvariant)

theorem cutHesse_eq {x : ℝ} (h : x = 0 ∨ 1 / 1000 < |x|) : cutHesse x = x := by
  unfold cutHesse
  rcases h with rfl | h
  · simp
  · rw [if_neg (not_le.2 h)]

theorem blocks_neg (a b c d e f g h k : ℝ) (i j : Fin 8) :
    blocks (-a) (-b) (-c) (-d) (-e) (-f) (-g) (-h) (-k) i j = -blocks a b c d e f g h k i j := by
  fin_cases i <;> fin_cases j <;> simp [blocks]

/-- The counterterms of `calc_CT` cancel the first and second derivatives of the Coleman-Weinberg
potential `W` at the vacuum, for every function `W` with the symmetries of the model, provided that
no entry of the Hesse matrix falls below the threshold of `calc_CT` without being zero.  All tadpole
counterterms vanish then. -/
theorem C76_r2hdm_cancel_partial (W : (Fin 8 → ℝ) → ℝ) (hW : GaugeInvariant W)
    (hCP : CPInvariant W) (v1 v2 : ℝ) (h1 : v1 ≠ 0) (h2 : v2 ≠ 0) (N : Fin 8 → ℝ)
    (H : Fin 8 → Fin 8 → ℝ) (hE : Expansion W (vevTree v1 v2) N H)
    (hcut : ∀ i j, H i j = 0 ∨ 1 / 1000 < |H i j|) :
    (∀ i, nablaVCT (counter (calcCT v1 v2 N H)) (vevTree v1 v2) i = -N i) ∧
    (∀ i j, hessianCT (counter (calcCT v1 v2 N H)) (vevTree v1 v2) i j = -H i j) ∧
    (calcCT v1 v2 N H).DT1 = 0 ∧ (calcCT v1 v2 N H).DT2 = 0 ∧ (calcCT v1 v2 N H).DT3 = 0 := by
  have hr := TwoDoublets.relations hW hE
  obtain ⟨c1, c2⟩ := TwoDoublets.cp_relations hW hCP h2 hE
  have hc : ∀ i j, cutHesse (H i j) = H i j := fun i j => cutHesse_eq (hcut i j)
  have z : cutTadpole 0 = 0 := by simp [cutTadpole]
  have hH : ∀ i j, H i j = blocks (H 0 0) (H 0 2) (H 2 2) (H 4 4) (H 4 6) (H 6 6) (H 5 5) (H 5 7)
      (H 7 7) i j := by
    intro i j
    fin_cases i <;> fin_cases j <;> first
      | rfl
      | exact hr.h11
      | exact hr.h13
      | exact hr.h33
      | exact hr.symm _ _
      | exact (hr.symm _ _).trans hr.h13
      | exact c2 _ _ (by decide)
      | exact hr.mixed _ _ (by decide) (by decide)
      | exact (hr.symm _ _).trans (hr.mixed _ _ (by decide) (by decide))
  have q2 := hr.g2
  rw [hr.symm 2 0] at q2
  have q7 := hr.g7
  rw [hr.symm 7 5] at q7
  have g0 : H 0 2 = (N 4 - H 0 0 * v1) / v2 := by
    field_simp; linarith [hr.g0]
  have g2 : H 2 2 = (N 6 - H 0 2 * v1) / v2 := by
    field_simp; linarith
  have g5 : H 5 7 = (N 4 - H 5 5 * v1) / v2 := by
    field_simp; linarith [hr.g5]
  have g7 : H 7 7 = (N 6 - H 5 7 * v1) / v2 := by
    field_simp; linarith
  have e13 : H 3 1 = H 0 2 := (hr.symm _ _).trans hr.h13
  have t1 : (calcCT v1 v2 N H).DT1 = 0 := by
    simp only [calcCT, hc, e13]
    rw [← z]; congr 1
    linarith [hr.g0]
  have t2 : (calcCT v1 v2 N H).DT2 = 0 := by
    simp only [calcCT, hc, e13, hr.h33]
    rw [← z]; congr 1
    linarith
  have t3 : (calcCT v1 v2 N H).DT3 = 0 := by
    simp only [calcCT, hc]
    rw [c2 5 4 (by decide), c2 7 4 (by decide), c1 7 (by decide)]
    simp [z]
  refine ⟨?_, ?_, t1, t2, t3⟩
  · intro i
    rw [nablaVCT, counter_grad, t1, t2, t3]
    simp only [calcCT, hc, e13, hr.h33, hr.symm 6 4]
    fin_cases i
    · simp [hr.charged 0]
    · simp [hr.charged 1]
    · simp [hr.charged 2]
    · simp [hr.charged 3]
    · simp
      rw [g0]
      field_simp
      ring
    · simp [c1 5]
    · simp
      rw [g2, g0]
      field_simp
      ring
    · simp [c1 7]
  · intro i j
    rw [counter_hess, hH i j]
    simp only [calcCT, hc, e13, hr.h33, hr.symm 6 4]
    rw [g7, g5, g2, g0]
    rw [← blocks_neg]
    congr 1 <;> field_simp <;> ring

/-- The hypotheses are met by an invariant function with a non-trivial gradient at the vacuum. -/
example : ∃ (W : (Fin 8 → ℝ) → ℝ) (N : Fin 8 → ℝ) (H : Fin 8 → Fin 8 → ℝ), GaugeInvariant W ∧
    CPInvariant W ∧ Expansion W (vevTree 100 200) N H ∧ N 4 ≠ 0 ∧
    ∀ i j, H i j = 0 ∨ 1 / 1000 < |H i j| := by
  refine ⟨_, _, _, TwoDoublets.square_invariant.1, TwoDoublets.square_invariant.2,
    expansion_square _, by simp [vevTree], fun i j => ?_⟩
  by_cases h : i = j <;> simp [h]
  norm_num

/-- Below the threshold the cancellation fails: for `W = Σ φ² / 4000` every entry of the Hesse
matrix is set to zero and the masses are not kept. -/
theorem C76_r2hdm_threshold_fails : ∃ (W : (Fin 8 → ℝ) → ℝ) (N : Fin 8 → ℝ)
    (H : Fin 8 → Fin 8 → ℝ), GaugeInvariant W ∧ CPInvariant W ∧
    Expansion W (vevTree 100 200) N H ∧
    ∃ i, hessianCT (counter (calcCT 100 200 N H)) (vevTree 100 200) i i ≠ -H i i := by
  refine ⟨fun φ => 1 / 2000 * ((∑ k, φ k ^ 2) / 2), _, _, ?_, ?_,
    (expansion_square _).smul (1 / 2000), 0, ?_⟩
  · intro a θ φ
    have := TwoDoublets.square_invariant.1 a θ φ
    simp only at this ⊢
    rw [this]
  · intro φ hφ
    have := TwoDoublets.square_invariant.2 φ hφ
    simp only at this ⊢
    rw [this]
  · have hc : cutHesse 2000⁻¹ = 0 := by
      simp [cutHesse]
      norm_num
    rw [counter_hess]
    simp [calcCT, blocks, hc]

/-! ### Gauge couplings -/

/-- For all values of the scalar and gauge fields `1/4 G2H2[a][b][i][j] A_a A_b φ_i φ_j` is the
documented `(D Φ₁)† (D Φ₁) + (D Φ₂)† (D Φ₂)`. -/
theorem C77_r2hdm_gauge (g gs : ℝ) (W : Fin 4 → ℝ) (φ : Fin 8 → ℝ) :
    ((1 / 4 * ∑ a : Fin 4, ∑ b : Fin 4, ∑ i : Fin 8, ∑ j : Fin 8,
        gauge g gs [(a : Nat), (b : Nat), (i : Nat), (j : Nat)] *
          (W a * (W b * (φ i * φ j))) : ℝ) : ℂ) =
      dagger (covariant g gs W (phi1 φ)) (covariant g gs W (phi1 φ)) +
        dagger (covariant g gs W (phi2 φ)) (covariant g gs W (phi2 φ)) := by
  rw [phi1, phi2, covariant_doublet, covariant_doublet, gauge,
    contract_look _ (g2h2_distinct g gs), ← Complex.ofReal_add]
  congr 1
  simp [g2h2, ext]
  ring

/-- The tensor does not depend on the order of the two gauge indices and of the two field
indices. -/
theorem C77_r2hdm_gauge_symmetric (g gs : ℝ) (a b i j : Nat) :
    gauge g gs [a, b, i, j] = gauge g gs [b, a, i, j] ∧
      gauge g gs [a, b, i, j] = gauge g gs [a, b, j, i] := by
  have hd := g2h2_distinct g gs
  rw [gauge, assign_look _ hd]
  constructor
  · refine (look_swap _ hd swapFirst swapFirst_swapFirst ?_ [a, b, i, j]).symm
    simp only [g2h2, List.forall_mem_cons]
    iterate 80 refine ⟨rfl, ?_⟩
    simp
  · refine (look_swap _ hd swapLast swapLast_swapLast ?_ [a, b, i, j]).symm
    simp only [g2h2, List.forall_mem_cons]
    iterate 80 refine ⟨rfl, ?_⟩
    simp

end Verif.Lagrangian.R2HDM
