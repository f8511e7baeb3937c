import Verif.Lagrangian.CPintheDark.Props

/-!
# Counterterms and gauge couplings of the model CP in the Dark
-/

set_option linter.unusedSectionVars false
set_option linter.unusedSimpArgs false

namespace Verif.Lagrangian.CPintheDark

open Verif.Potential
open Verif.Lagrangian.Spec

/-- The position of the fields of the two doublets among the nine fields of the model. -/
def position : Fin 8 → Fin 9 := ![0, 1, 2, 3, 4, 5, 6, 7]

/-- The inverse of `position`. -/
def origin : Fin 9 → Fin 8 := ![0, 1, 2, 3, 4, 5, 6, 7, 0]

theorem order : Singlet.Order position origin :=
  ⟨by decide, by decide, by decide⟩

theorem vev_place (v1 : ℝ) :
    vevTree v1 = Singlet.place origin 0 (TwoDoublets.vacuum v1 0) := by
  funext k
  fin_cases k <;> rfl

/-- The dark parity `Φ₁ → Φ₁`, `Φ₂ → -Φ₂`, `Φ_S → -Φ_S` of the documented potential. -/
def parity : Fin 9 → ℝ := ![1, 1, -1, -1, 1, 1, -1, -1, -1]

/-- Invariance under the dark parity. -/
def ParityInvariant (W : (Fin 9 → ℝ) → ℝ) : Prop := ∀ φ, W (fun k => parity k * φ k) = W φ

/-- The counterterms of `calc_CT` cancel the first and second derivatives of the Coleman-Weinberg
potential `W` at the vacuum, for every function `W` with the gauge symmetry and the dark parity of
the model.  All tadpole counterterms vanish, and the couplings which the vacuum does not fix get no
counterterm. -/
theorem C76_cpinthedark_cancel (W : (Fin 9 → ℝ) → ℝ) (hW : Singlet.GaugeInvariant origin W)
    (hP : ParityInvariant W) (v1 : ℝ) (h1 : v1 ≠ 0) (N : Fin 9 → ℝ) (H : Fin 9 → Fin 9 → ℝ)
    (hE : Expansion W (vevTree v1) N H) :
    (∀ i, nablaVCT (counter (calcCT v1 N H)) (vevTree v1) i = -N i) ∧
    (∀ i j, hessianCT (counter (calcCT v1 N H)) (vevTree v1) i j = -H i j) ∧
    (calcCT v1 N H).dTCB = 0 ∧ (calcCT v1 N H).dT1 = 0 ∧ (calcCT v1 N H).dT2 = 0 ∧
    (calcCT v1 N H).dTCP = 0 ∧ (calcCT v1 N H).dTS = 0 ∧
    (calcCT v1 N H).dL2 = 0 ∧ (calcCT v1 N H).dL3 = 0 ∧ (calcCT v1 N H).dL6 = 0 ∧
    (calcCT v1 N H).dL7 = 0 ∧ (calcCT v1 N H).dL8 = 0 := by
  have hs := hE.symm
  obtain ⟨p1, p2⟩ := hE.signed id (fun _ => rfl) parity
    (by intro k; fin_cases k <;> simp [parity, vevTree]) hP
  have podd : ∀ i : Fin 9, parity i = -1 → N i = 0 := by
    intro i hi
    have := p1 i
    simp only [id, hi] at this
    linarith
  have pmix : ∀ i j : Fin 9, (i ∈ [(0 : Fin 9), 1, 4, 5]) ≠ (j ∈ [(0 : Fin 9), 1, 4, 5]) →
      H i j = 0 := by
    intro i j hij
    have := p2 i j
    simp only [id] at this
    fin_cases i <;> fin_cases j <;> simp [parity] at hij this ⊢ <;> linarith
  rw [vev_place] at hE
  have hr := TwoDoublets.relations (hW 0) (Singlet.expansion order hE)
  have s0 := Singlet.singlet_charged order hW hE
  rw [← vev_place] at hE
  have charged : ∀ i : Fin 8, (i : Nat) < 4 → N (position i) = 0 := hr.charged
  have mixed : ∀ i j : Fin 8, (i : Nat) < 4 → 4 ≤ (j : Nat) → H (position i) (position j) = 0 :=
    hr.mixed
  have n5 : N 5 = 0 := by
    have h : N 5 * v1 + N 7 * 0 = 0 := hr.n5
    rw [mul_zero, add_zero] at h
    exact (mul_eq_zero.1 h).resolve_right h1
  have h00 : H 0 0 = N 4 / v1 := by
    have h : H 0 0 * v1 + H 0 2 * 0 = N 4 := hr.g0
    field_simp; linarith
  have h55 : H 5 5 = N 4 / v1 := by
    have h : H 5 5 * v1 + H 5 7 * 0 = N 4 := hr.g5
    field_simp; linarith
  have h45 : H 4 5 = 0 := by
    have h : H 4 5 * v1 + H 4 7 * 0 = -N 5 := hr.g4
    rw [n5, mul_zero, add_zero, neg_zero] at h
    exact (mul_eq_zero.1 h).resolve_right h1
  have h01 : H 0 1 = 0 := hr.h01
  have h23 : H 2 3 = 0 := hr.h23
  have h11 : H 1 1 = H 0 0 := hr.h11
  have h33 : H 3 3 = H 2 2 := hr.h33
  have h05 : H 5 5 = H 0 0 := h55.trans h00.symm
  have hf : ∀ i j, H i j = shape (H 0 0) (H 4 4) (H 2 2) (H 6 6) (H 6 7) (H 7 7) (H 6 8) (H 7 8)
      (H 8 8) i j := by
    intro i j
    fin_cases i <;> fin_cases j <;> first
      | rfl
      | exact h11
      | exact h33
      | exact h05
      | exact h45
      | exact h01
      | exact h23
      | exact hs _ _
      | exact (hs _ _).trans h45
      | exact (hs _ _).trans h01
      | exact (hs _ _).trans h23
      | exact pmix _ _ (by decide)
      | exact mixed 0 4 (by decide) (by decide)
      | exact mixed 0 5 (by decide) (by decide)
      | exact mixed 1 4 (by decide) (by decide)
      | exact mixed 1 5 (by decide) (by decide)
      | exact mixed 2 6 (by decide) (by decide)
      | exact mixed 2 7 (by decide) (by decide)
      | exact mixed 3 6 (by decide) (by decide)
      | exact mixed 3 7 (by decide) (by decide)
      | exact (hs _ _).trans (mixed 0 4 (by decide) (by decide))
      | exact (hs _ _).trans (mixed 0 5 (by decide) (by decide))
      | exact (hs _ _).trans (mixed 1 4 (by decide) (by decide))
      | exact (hs _ _).trans (mixed 1 5 (by decide) (by decide))
      | exact (hs _ _).trans (mixed 2 6 (by decide) (by decide))
      | exact (hs _ _).trans (mixed 2 7 (by decide) (by decide))
      | exact (hs _ _).trans (mixed 3 6 (by decide) (by decide))
      | exact (hs _ _).trans (mixed 3 7 (by decide) (by decide))
      | exact s0 2 (by decide)
      | exact s0 3 (by decide)
      | exact (hs _ _).trans (s0 2 (by decide))
      | exact (hs _ _).trans (s0 3 (by decide))
  have n0 : N 0 = 0 := charged 0 (by decide)
  have n1 : N 1 = 0 := charged 1 (by decide)
  have n2 : N 2 = 0 := podd 2 (by simp [parity])
  have n3 : N 3 = 0 := podd 3 (by simp [parity])
  have n6 : N 6 = 0 := podd 6 (by simp [parity])
  have n7 : N 7 = 0 := podd 7 (by simp [parity])
  have n8 : N 8 = 0 := podd 8 (by simp [parity])
  have n4 : N 4 = H 0 0 * v1 := by rw [h00]; field_simp
  refine ⟨?_, ?_, ?_, ?_, ?_, ?_, ?_, rfl, rfl, rfl, rfl, rfl⟩
  · intro i
    rw [nablaVCT, counter_grad]
    simp only [calcCT, h05]
    fin_cases i <;> simp [n0, n1, n2, n3, n4, n5, n6, n7, n8]
    field_simp
    ring
  · intro i j
    rw [counter_hess, hf i j, ← shape_neg]
    simp only [calcCT, h05, h33, hs 8 6, hs 8 7, hs 7 6]
    congr 1 <;> field_simp <;> ring
  · simp [calcCT, n2]
  · simp [calcCT, h05, n4]
  · simp [calcCT, n6]
  · simp [calcCT, n7]
  · simp [calcCT, n8]

/-- The hypotheses are met by an invariant function with a non-trivial gradient at the vacuum. -/
example : ∃ (W : (Fin 9 → ℝ) → ℝ) (N : Fin 9 → ℝ) (H : Fin 9 → Fin 9 → ℝ),
    Singlet.GaugeInvariant origin W ∧ ParityInvariant W ∧
    Expansion W (vevTree 246) N H ∧ N 4 ≠ 0 := by
  have key : ∀ (s : ℝ) (φ : Fin 8 → ℝ),
      (∑ k, Singlet.place origin s φ k ^ 2) / 2 = (∑ k, φ k ^ 2) / 2 + s ^ 2 / 2 := by
    intro s φ
    simp [Fin.sum_univ_succ, Singlet.place, origin, Fin.ext_iff]
    ring
  refine ⟨_, _, _, ?_, ?_, expansion_square _, by simp [vevTree]⟩
  · intro s a θ φ
    have := TwoDoublets.square_invariant.1 a θ φ
    simp only [key] at this ⊢
    rw [this]
  · intro φ
    simp [Fin.sum_univ_succ, parity]

/-! ### Gauge couplings -/

/-- For all values of the scalar and gauge fields `1/4 G2H2[a][b][i][j] A_a A_b φ_i φ_j` is the
documented `(D Φ₁)† (D Φ₁) + (D Φ₂)† (D Φ₂)`. -/
theorem C77_cpinthedark_gauge (g gs : ℝ) (W : Fin 4 → ℝ) (φ : Fin 9 → ℝ) :
    ((1 / 4 * ∑ a : Fin 4, ∑ b : Fin 4, ∑ i : Fin 9, ∑ j : Fin 9,
        gauge g gs [(a : Nat), (b : Nat), (i : Nat), (j : Nat)] *
          (W a * (W b * (φ i * φ j))) : ℝ) : ℂ) =
      dagger (covariant g gs W (phi1 φ)) (covariant g gs W (phi1 φ)) +
        dagger (covariant g gs W (phi2 φ)) (covariant g gs W (phi2 φ)) := by
  rw [phi1, phi2, covariant_doublet, covariant_doublet, gauge,
    contract_look _ (g2h2_distinct g gs), ← Complex.ofReal_add]
  congr 1
  simp [g2h2, ext]
  ring

/-- The tensor does not depend on the order of the two gauge indices and of the two field
indices. -/
theorem C77_cpinthedark_gauge_symmetric (g gs : ℝ) (a b i j : Nat) :
    gauge g gs [a, b, i, j] = gauge g gs [b, a, i, j] ∧
      gauge g gs [a, b, i, j] = gauge g gs [a, b, j, i] := by
  have hd := g2h2_distinct g gs
  rw [gauge, assign_look _ hd]
  constructor
  · refine (look_swap _ hd swapFirst swapFirst_swapFirst ?_ [a, b, i, j]).symm
    simp only [g2h2, List.forall_mem_cons]
    iterate 80 refine ⟨rfl, ?_⟩
    simp
  · refine (look_swap _ hd swapLast swapLast_swapLast ?_ [a, b, i, j]).symm
    simp only [g2h2, List.forall_mem_cons]
    iterate 80 refine ⟨rfl, ?_⟩
    simp

end Verif.Lagrangian.CPintheDark
