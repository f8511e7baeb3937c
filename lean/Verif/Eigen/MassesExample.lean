import Verif.Eigen.Masses

/-!
# The hypotheses of C95 hold for concrete couplings
-/

namespace Verif.Eigen

open Matrix Module Spec
open Verif.Potential Verif.Spectrum Verif.Yukawa Verif.Invariance
open scoped ComplexConjugate

/-- A multiple of the unit matrix is separated. -/
theorem separated_smul {n : ℕ} (x : ℝ) (hx : 1 ≤ x) :
    Separated ((x : ℂ) • (1 : Matrix (Fin n) (Fin n) ℂ)) := by
  have key : ∀ l, IsEigenvalue ((x : ℂ) • (1 : Matrix (Fin n) (Fin n) ℂ)) l → l = x := by
    rintro l ⟨v, hv, h⟩
    rw [smul_mulVec, one_mulVec] at h
    obtain ⟨i, hi⟩ := Function.ne_iff.1 hv
    have := congrFun h i
    simp only [Pi.smul_apply, smul_eq_mul] at this
    exact_mod_cast (mul_right_cancel₀ hi this).symm
  refine ⟨fun l l' h h' => Or.inl ((key l h).trans (key l' h').symm), fun l h => Or.inr ?_⟩
  rw [key l h, abs_of_nonneg (by linarith)]
  exact le_trans (by norm_num) hx

/-- A Yukawa coupling of one kind of fermions. -/
noncomputable def exF : List Nat → ℂ
  | [0, 1, 0] => 1
  | [1, 0, 0] => 1
  | _ => 0

theorem exF_squared (v : Fin 1 → ℝ) :
    squaredMatrix (m := 2) Lagrangian.zeroTensor exF v = ((v 0 ^ 2 : ℝ) : ℂ) • (1 : Matrix (Fin 2) (Fin 2) ℂ) := by
  ext a b
  fin_cases a <;> fin_cases b <;>
    simp [squaredMatrix, Matrix.mul_apply, massMatrix, exF, Lagrangian.zeroTensor, Fin.sum_univ_two] <;> ring

example (S : Solver) :
    ∃ p : ℕ, p < 2 ∧ (fermionSpectrum (withSolver exSolver S) 2 exF (fun _ : Fin 1 => 3) (((0 : Fin 1) : Int) + 1))[p]? = some (3 ^ 2 : ℝ) ∧
      (fermionSpectrum (withSolver exSolver S) 2 exF (fun _ : Fin 1 => 3) (((0 : Fin 1) : Int) + 1))[2 + p]? =
        some (if |(2 * 3 : ℝ)| < 1 / 10 ^ 6 then 0 else 2 * 3) := by
  refine C95_fermion (n := 1) (m := 2) exF ?_ exSolver exSolver_correct S (fun _ => 3) 0 (fun _ => ![1, 0]) 0
    (fun s => s ^ 2) (2 * 3) ?_ ?_ ?_ ?_ ?_
  · intro a b k
    fin_cases a <;> fin_cases b <;> fin_cases k <;> rfl
  · intro a
    exact hasDerivAt_const _ _
  · simpa using hasDerivAt_pow 2 (3 : ℝ)
  · intro s
    rw [exF_squared, smul_mulVec, one_mulVec]
    simp
  · intro e
    simpa using congrFun e 0
  · rw [exF_squared]
    exact separated_smul _ (by norm_num)

/-- Couplings of four gauge bosons with the same mass to one field. -/
noncomputable def exG : List Nat → ℝ
  | [a, b, 0, 0] => if a = b then 2 else 0
  | _ => 0

theorem exG_matrix (T : ℝ) (v : Fin 1 → ℝ) :
    gaugeMatrix exG (1 : Matrix (Fin 4) (Fin 4) ℝ) T v = (v 0 ^ 2 + T ^ 2) • (1 : Matrix (Fin 4) (Fin 4) ℝ) := by
  ext a b
  have hT : (if T ≠ 0 then (1 : Matrix (Fin 4) (Fin 4) ℝ) a b * T ^ 2 else 0) =
      (1 : Matrix (Fin 4) (Fin 4) ℝ) a b * T ^ 2 := by
    by_cases h : T = 0 <;> simp [h]
  have hT' : (if T ≠ 0 then (1 : Matrix (Fin 4) (Fin 4) ℝ) b a * T ^ 2 else 0) =
      (1 : Matrix (Fin 4) (Fin 4) ℝ) b a * T ^ 2 := by
    by_cases h : T = 0 <;> simp [h]
  simp only [gaugeMatrix, gaugeEntry, hT, hT']
  by_cases h : a = b
  · subst h
    simp [exG]; ring
  · have h' : (a : ℕ) ≠ b := fun e => h (Fin.ext e)
    simp [exG, h, h', Ne.symm h, Ne.symm h']

theorem exG_separated (T : ℝ) (v : Fin 1 → ℝ) (h : 1 ≤ v 0 ^ 2 + T ^ 2) :
    Separated ((gaugeMatrix exG (1 : Matrix (Fin 4) (Fin 4) ℝ) T v).map Complex.ofReal) := by
  have := separated_smul (n := 4) (v 0 ^ 2 + T ^ 2) h
  rw [exG_matrix]
  convert this using 1
  ext a b
  by_cases h : a = b
  · subst h; simp
  · simp [h]

theorem exG_symm : (∀ (a b : Fin 4) (i j : Fin 1), exG [(a : Nat), (b : Nat), (i : Nat), (j : Nat)] =
      exG [(b : Nat), (a : Nat), (i : Nat), (j : Nat)]) ∧
    ∀ (a b : Fin 4) (i j : Fin 1), exG [(a : Nat), (b : Nat), (i : Nat), (j : Nat)] =
      exG [(a : Nat), (b : Nat), (j : Nat), (i : Nat)] := by
  constructor
  · intro a b i j
    simp [exG, eq_comm]
  · intro a b i j
    rw [Subsingleton.elim i j]

example (S : Solver) :
    ∃ p : ℕ, p < 4 ∧ (gaugeSpectrum (withSolver exSolver S) exG 1 (fun _ : Fin 1 => 3) 2 (((0 : Fin 1) : Int) + 1))[p]? = some (3 ^ 2 + 2 ^ 2 : ℝ) ∧
      (gaugeSpectrum (withSolver exSolver S) exG 1 (fun _ : Fin 1 => 3) 2 (((0 : Fin 1) : Int) + 1))[4 + p]? =
        some (if |(2 * 3 : ℝ)| < 1 / 10 ^ 6 then 0 else 2 * 3) := by
  refine C95_gauge (n := 1) exG 1 exG_symm.1 exG_symm.2 (fun a b => by simp [one_apply, eq_comm]) exSolver
    exSolver_correct S 2 (fun _ => 3) 0 (fun _ => ![1, 0, 0, 0]) 0 (fun s => s ^ 2 + 2 ^ 2) (2 * 3) ?_ ?_ ?_ ?_ ?_
  · intro a
    exact hasDerivAt_const _ _
  · simpa using (hasDerivAt_pow 2 (3 : ℝ)).add_const (2 ^ 2)
  · intro s
    rw [exG_matrix, smul_mulVec, one_mulVec]
    simp
  · intro e
    simpa using congrFun e 0
  · exact exG_separated _ _ (by norm_num)

example (S : Solver) :
    ∃ p : ℕ, p < 4 ∧ (gaugeSpectrum (withSolver exSolver S) exG 1 (fun _ : Fin 1 => 3) 2 (-1))[p]? = some (3 ^ 2 + 2 ^ 2 : ℝ) ∧
      (gaugeSpectrum (withSolver exSolver S) exG 1 (fun _ : Fin 1 => 3) 2 (-1))[4 + p]? =
        some (if |(2 * 2 : ℝ)| < 1 / 10 ^ 6 then 0 else 2 * 2) := by
  refine C95_gauge_temperature (n := 1) exG 1 exG_symm.1 exG_symm.2 (fun a b => by simp [one_apply, eq_comm]) exSolver
    exSolver_correct S 2 (fun _ => 3) (fun _ => ![1, 0, 0, 0]) 0 (fun s => 3 ^ 2 + s ^ 2) (2 * 2) ?_ ?_ ?_ ?_ ?_
  · intro a
    exact hasDerivAt_const _ _
  · simpa using (hasDerivAt_pow 2 (2 : ℝ)).const_add (3 ^ 2)
  · intro s
    rw [exG_matrix, smul_mulVec, one_mulVec]
  · intro e
    simpa using congrFun e 0
  · exact exG_separated _ _ (by norm_num)

/-- A field with a quartic coupling: the mass squared 3 x² with derivative 6 x is given as 6 x twice. -/
example (S : Solver) :
    ∃ ev : Fin 1 → ℝ, higgsSpectrum ((withSolver exSolver S).lib 1) (⟨0, 0, 0, fun _ _ _ _ => 6⟩ : Curv 1 ℝ)
        (fun _ _ => 0) (fun _ => 1) 0 (((0 : Fin 1) : Int) + 1) = List.ofFn ev ++ List.ofFn ev ∧
      ∀ a, IsEigenvalue (fun a b : Fin 1 => ((massD (⟨0, 0, 0, fun _ _ _ _ => 6⟩ : Curv 1 ℝ) (fun _ => 1) 0 a b : ℝ) : ℂ)) (ev a) := by
  refine C95_higgs_fails exSolver exSolver_correct S _ _ _ _ 0 (fun _ _ => rfl) (fun _ _ _ => rfl) ?_
  have h : (fun a b : Fin 1 => ((massD (⟨0, 0, 0, fun _ _ _ _ => 6⟩ : Curv 1 ℝ) (fun _ => 1) 0 a b : ℝ) : ℂ)) =
      ((6 : ℝ) : ℂ) • (1 : Matrix (Fin 1) (Fin 1) ℂ) := by
    funext a b
    rw [Subsingleton.elim a 0, Subsingleton.elim b 0]
    simp [massD]
  rw [h]
  exact separated_smul 6 (by norm_num)

end Verif.Eigen
