import Verif.Lagrangian.N2HDM.Props
import Verif.Lagrangian.Singlet

/-!
# Counterterms and gauge couplings of the two Higgs doublet model with a real singlet
-/

set_option linter.unusedSectionVars false
set_option linter.unusedSimpArgs false

namespace Verif.Lagrangian.N2HDM

open Verif.Potential
open Verif.Lagrangian.Spec

/-- The position of the fields of the two doublets `(ρ₁ + i η₁, ζ₁ + i ψ₁)`, `(ρ₂ + i η₂, ζ₂ + i ψ₂)`,
counted one after the other, among the nine fields of the model. -/
def position : Fin 8 → Fin 9 := ![0, 2, 1, 3, 6, 4, 7, 5]

/-- The inverse of `position`. -/
def origin : Fin 9 → Fin 8 := ![0, 2, 1, 3, 5, 7, 4, 6, 0]

theorem order : Singlet.Order position origin :=
  ⟨by decide, by decide, by decide⟩

theorem vev_place (v1 v2 vs : ℝ) :
    vevTree v1 v2 vs = Singlet.place origin vs (TwoDoublets.vacuum v1 v2) := by
  funext k
  fin_cases k <;> rfl

/-- What the symmetries say about the gradient and the Hesse matrix at the vacuum. -/
structure Relations (v1 v2 : ℝ) (N : Fin 9 → ℝ) (H : Fin 9 → Fin 9 → ℝ) : Prop where
  zero : ∀ i : Fin 9, (i : Nat) < 6 → N i = 0
  form : ∀ i j, H i j = blocks (H 0 0) (H 0 1) (H 1 1) (H 4 4) (H 4 5) (H 5 5) (H 6 6) (H 6 7)
    (H 6 8) (H 7 7) (H 7 8) (H 8 8) i j
  g0 : H 0 0 * v1 + H 0 1 * v2 = N 6
  g1 : H 0 1 * v1 + H 1 1 * v2 = N 7
  g4 : H 4 4 * v1 + H 4 5 * v2 = N 6
  g5 : H 4 5 * v1 + H 5 5 * v2 = N 7

theorem relations {W : (Fin 9 → ℝ) → ℝ} (hW : Singlet.GaugeInvariant origin W)
    (hCP : Singlet.CPInvariant origin W) {v1 v2 vs : ℝ} (h2 : v2 ≠ 0) {N : Fin 9 → ℝ}
    {H : Fin 9 → Fin 9 → ℝ} (hE : Expansion W (vevTree v1 v2 vs) N H) : Relations v1 v2 N H := by
  have hs := hE.symm
  rw [vev_place] at hE
  have hE' := Singlet.expansion order hE
  have hr := TwoDoublets.relations (hW vs) hE'
  obtain ⟨c1, c2⟩ := TwoDoublets.cp_relations (hW vs) (hCP vs) h2 hE'
  have s0 := Singlet.singlet_charged order hW hE
  have sp := Singlet.singlet_cp order hW hCP hE
  have q1 := hr.g2
  rw [hr.symm 2 0] at q1
  have q5 := hr.g7
  rw [hr.symm 7 5] at q5
  have m1 : ∀ i j : Fin 8, (i : Nat) < 4 → 4 ≤ (j : Nat) → H (position i) (position j) = 0 :=
    hr.mixed
  have m2 : ∀ i j : Fin 8, (i : Nat) < 4 → 4 ≤ (j : Nat) → H (position j) (position i) = 0 :=
    fun i j hi hj => (hs _ _).trans (hr.mixed i j hi hj)
  have c2' : ∀ i j : Fin 8, (i : Nat) % 2 ≠ (j : Nat) % 2 → H (position i) (position j) = 0 := c2
  refine ⟨?_, ?_, hr.g0, q1, hr.g5, q5⟩
  · intro i hi
    have : i = 0 ∨ i = 1 ∨ i = 2 ∨ i = 3 ∨ i = 4 ∨ i = 5 := by omega
    rcases this with rfl | rfl | rfl | rfl | rfl | rfl
    · exact hr.charged 0 (by decide)
    · exact hr.charged 2 (by decide)
    · exact hr.charged 1 (by decide)
    · exact hr.charged 3 (by decide)
    · exact c1 5 (by decide)
    · exact c1 7 (by decide)
  · have all : ∀ i j : Fin 9, i ≠ 8 → j ≠ 8 → ((origin i : Nat) % 2 ≠ (origin j : Nat) % 2 ∨
        ((origin i : Nat) < 4 ∧ 4 ≤ (origin j : Nat)) ∨
        ((origin j : Nat) < 4 ∧ 4 ≤ (origin i : Nat))) → H i j = 0 := by
      intro i j hi hj h
      rw [← order.right i hi, ← order.right j hj]
      rcases h with h | ⟨h, h'⟩ | ⟨h, h'⟩
      · exact c2' _ _ h
      · exact m1 _ _ h h'
      · exact m2 _ _ h h'
    have sing : ∀ i : Fin 9, i ≠ 8 → ((origin i : Nat) < 4 ∨ (origin i : Nat) % 2 = 1) →
        H 8 i = 0 ∧ H i 8 = 0 := by
      intro i hi h
      have : H 8 i = 0 := by
        rw [← order.right i hi]
        rcases h with h | h
        · exact s0 _ h
        · exact sp _ h
      exact ⟨this, (hs _ _).trans this⟩
    intro i j
    fin_cases i <;> fin_cases j <;> first
      | rfl
      | exact all _ _ (by decide) (by decide) (by decide)
      | exact (sing _ (by decide) (by decide)).1
      | exact (sing _ (by decide) (by decide)).2
      | exact hs _ _
      | exact hr.h11
      | exact hr.h13
      | exact hr.h33
      | exact (hs _ _).trans hr.h13

/-- The counterterms of `calc_CT` cancel the first and second derivatives of the Coleman-Weinberg
potential `W` at the vacuum, for every function `W` with the symmetries of the model, if the singlet
has a vacuum expectation value.  All tadpole counterterms vanish then. -/
theorem C76_n2hdm_cancel (W : (Fin 9 → ℝ) → ℝ) (hW : Singlet.GaugeInvariant origin W)
    (hCP : Singlet.CPInvariant origin W) (v1 v2 vs : ℝ) (h1 : v1 ≠ 0) (h2 : v2 ≠ 0) (hs : vs ≠ 0)
    (N : Fin 9 → ℝ) (H : Fin 9 → Fin 9 → ℝ) (hE : Expansion W (vevTree v1 v2 vs) N H) :
    ∃ c, calcCT v1 v2 vs N H = .ok c ∧
      (∀ i, nablaVCT (counter c) (vevTree v1 v2 vs) i = -N i) ∧
      (∀ i j, hessianCT (counter c) (vevTree v1 v2 vs) i j = -H i j) ∧
      c.DT1 = 0 ∧ c.DT2 = 0 ∧ c.NDTS = 0 := by
  have hr := relations hW hCP h2 hE
  obtain ⟨hz, hf, g0, g1, g4, g5⟩ := hr
  have g0 : H 0 1 = (N 6 - H 0 0 * v1) / v2 := by field_simp; linarith
  have g1 : H 1 1 = (N 7 - H 0 1 * v1) / v2 := by field_simp; linarith
  have g4 : H 4 5 = (N 6 - H 4 4 * v1) / v2 := by field_simp; linarith
  have g5 : H 5 5 = (N 7 - H 4 5 * v1) / v2 := by field_simp; linarith
  have e22 : H 2 2 = H 0 0 := hf 2 2
  have e32 : H 3 2 = H 0 1 := hf 3 2
  have e76 : H 7 6 = H 6 7 := hf 7 6
  have e86 : H 8 6 = H 6 8 := hf 8 6
  have e87 : H 8 7 = H 7 8 := hf 8 7
  refine ⟨_, if_pos hs, ?_⟩
  have t1 : (combine (particular v1 v2 vs N H) (alongL4 v1 v2) (alongDTS vs) 0 0).DT1 = 0 := by
    simp only [combine, particular, e22, e32, zero_mul, add_zero, g0]
    field_simp
    ring
  have t2 : (combine (particular v1 v2 vs N H) (alongL4 v1 v2) (alongDTS vs) 0 0).DT2 = 0 := by
    simp only [combine, particular, e22, e32, zero_mul, add_zero, g5, g4, g0]
    field_simp
    ring
  have t3 : (combine (particular v1 v2 vs N H) (alongL4 v1 v2) (alongDTS vs) 0 0).NDTS = 0 := by
    simp only [combine, particular, zero_mul, add_zero]
  refine ⟨?_, ?_, t1, t2, t3⟩
  · intro i
    rw [nablaVCT, counter_grad, t1, t2, t3]
    simp only [combine, particular, zero_mul, add_zero, e22, e32, e76, e86, e87]
    fin_cases i
    · simp [hz 0]
    · simp [hz 1]
    · simp [hz 2]
    · simp [hz 3]
    · simp [hz 4]
    · simp [hz 5]
    · simp
      rw [g0]
      field_simp
      ring
    · simp
      rw [g5, g4, g0]
      field_simp
      ring
    · simp
      field_simp
      ring
  · intro i j
    rw [counter_hess, hf i j]
    simp only [combine, particular, zero_mul, add_zero, e22, e32, e76, e86, e87]
    rw [g5, g4, g1, g0]
    rw [← blocks_neg]
    congr 1 <;> field_simp <;> ring

/-- The hypotheses are met by an invariant function with a non-trivial gradient at the vacuum. -/
example : ∃ (W : (Fin 9 → ℝ) → ℝ) (N : Fin 9 → ℝ) (H : Fin 9 → Fin 9 → ℝ),
    Singlet.GaugeInvariant origin W ∧ Singlet.CPInvariant origin W ∧
    Expansion W (vevTree 100 200 300) N H ∧ N 6 ≠ 0 ∧ N 8 ≠ 0 := by
  have key : ∀ (s : ℝ) (φ : Fin 8 → ℝ),
      (∑ k, Singlet.place origin s φ k ^ 2) / 2 = (∑ k, φ k ^ 2) / 2 + s ^ 2 / 2 := by
    intro s φ
    simp [Fin.sum_univ_succ, Singlet.place, origin, Fin.ext_iff]
    ring
  refine ⟨_, _, _, ?_, ?_, expansion_square _, by simp [vevTree], by simp [vevTree]⟩
  · intro s a θ φ
    have := TwoDoublets.square_invariant.1 a θ φ
    simp only [key] at this ⊢
    rw [this]
  · intro s φ hφ
    have := TwoDoublets.square_invariant.2 φ hφ
    simp only [key] at this ⊢
    rw [this]

/-- Without a vacuum expectation value of the singlet the result consists of uninitialised
numbers, although the model can be given such a vacuum. -/
theorem C76_n2hdm_singlet_fails (v1 v2 : ℝ) (N : Fin 9 → ℝ) (H : Fin 9 → Fin 9 → ℝ) :
    calcCT v1 v2 0 N H = .ub .uninitialised := by
  rw [calcCT, if_neg (by simp)]

/-! ### Gauge couplings -/

/-- For all values of the scalar and gauge fields `1/4 G2H2[a][b][i][j] A_a A_b φ_i φ_j` is the
documented `(D Φ₁)† (D Φ₁) + (D Φ₂)† (D Φ₂)`. -/
theorem C77_n2hdm_gauge (g gs : ℝ) (W : Fin 4 → ℝ) (φ : Fin 9 → ℝ) :
    ((1 / 4 * ∑ a : Fin 4, ∑ b : Fin 4, ∑ i : Fin 9, ∑ j : Fin 9,
        gauge g gs [(a : Nat), (b : Nat), (i : Nat), (j : Nat)] *
          (W a * (W b * (φ i * φ j))) : ℝ) : ℂ) =
      dagger (covariant g gs W (phi1 φ)) (covariant g gs W (phi1 φ)) +
        dagger (covariant g gs W (phi2 φ)) (covariant g gs W (phi2 φ)) := by
  rw [phi1, phi2, covariant_doublet, covariant_doublet, gauge, (g2h2_drops g gs).assign (g2h2_distinct g gs),
    contract_look _ (g2h2s_distinct g gs), ← Complex.ofReal_add]
  congr 1
  simp [g2h2s, ext]
  ring

/-- The tensor does not depend on the order of the two gauge indices and of the two field
indices. -/
theorem C77_n2hdm_gauge_symmetric (g gs : ℝ) (a b i j : Nat) :
    gauge g gs [a, b, i, j] = gauge g gs [b, a, i, j] ∧
      gauge g gs [a, b, i, j] = gauge g gs [a, b, j, i] := by
  have hd := g2h2s_distinct g gs
  rw [gauge, (g2h2_drops g gs).assign (g2h2_distinct g gs), assign_look _ hd]
  constructor
  · refine (look_swap _ hd swapFirst swapFirst_swapFirst ?_ [a, b, i, j]).symm
    simp only [g2h2s, List.forall_mem_cons]
    iterate 80 refine ⟨rfl, ?_⟩
    simp
  · refine (look_swap _ hd swapLast swapLast_swapLast ?_ [a, b, i, j]).symm
    simp only [g2h2s, List.forall_mem_cons]
    iterate 80 refine ⟨rfl, ?_⟩
    simp

end Verif.Lagrangian.N2HDM
