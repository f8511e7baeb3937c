import Verif.Debye.Pieces
import Verif.Debye.Spec

/-!
# The thermal masses from the traces of the mass matrices
-/

namespace Verif.Debye

open Verif.Potential Verif.Potential.Spec Verif.Lagrangian Verif.Spectrum Verif.Yukawa Matrix
open scoped BigOperators ComplexConjugate

variable {n : Nat}

theorem trace_submatrix_equiv {ι κ : Type} [Fintype ι] [Fintype κ] (M : Matrix κ κ ℂ) (e : ι ≃ κ) :
    (M.submatrix e e).trace = M.trace := by
  simp only [Matrix.trace, Matrix.diag_apply, Matrix.submatrix_apply]
  exact Equiv.sum_comp e fun i => M i i

theorem clip_zero : clip 0 = 0 := by simp [clip]

theorem clip_rounded (x : ℝ) : Spec.Rounded x (clip x) := by
  unfold clip Spec.Rounded
  constructor
  · intro h
    rw [if_pos (by norm_num at h ⊢; exact h)]
  · intro h
    rw [if_neg (by norm_num at h ⊢; exact h)]

/-- The matrix is determined by its quadratic form. -/
theorem general_diagonal (nQ nL : Nat) (c : Curv n ℝ) (hc : Symmetric c) (G : List Nat → ℝ)
    (hG : ∀ (a : Fin 4) (i j : Fin n), G [(a : Nat), (a : Nat), (i : Nat), (j : Nat)] =
      G [(a : Nat), (a : Nat), (j : Nat), (i : Nat)]) (Q L : List Nat → ℂ) (d : Fin n → ℝ)
    (h : ∀ φ : Fin n → ℝ, ∑ i, ∑ j, higgsRaw 4 nQ nL c G Q L i j * (φ i * φ j) =
      ∑ i, d i * φ i ^ 2) :
    Spec.IsDiagonal (higgsGeneral 4 nQ nL c G Q L) d := by
  have e : (of (higgsRaw 4 nQ nL c G Q L) : Matrix (Fin n) (Fin n) ℝ) = diagonal d := by
    refine symmetric_ext (fun a b => raw_symm nQ nL c hc G hG Q L a b) ?_ fun φ => ?_
    · intro a b
      by_cases hab : a = b
      · rw [hab]
      · rw [diagonal_apply_ne _ hab, diagonal_apply_ne _ (Ne.symm hab)]
    · refine (h φ).trans (Finset.sum_congr rfl fun i _ => ?_)
      rw [Finset.sum_eq_single i]
      · rw [diagonal_apply_eq]; ring
      · intro j _ hj
        rw [diagonal_apply_ne _ (Ne.symm hj), zero_mul]
      · simp
  have e' : ∀ i j, higgsRaw 4 nQ nL c G Q L i j = if i = j then d i else 0 := fun i j => by
    have := congrFun (congrFun e i) j
    rw [diagonal_apply] at this
    exact this
  constructor
  · intro i
    rw [higgsGeneral, if_pos le_rfl, e', if_pos rfl]
    exact clip_rounded _
  · intro i j hij
    rw [higgsGeneral, e', e', if_neg hij, if_neg (Ne.symm hij), clip_zero, ite_self]

theorem sum_couplings (v : ℝ) (m : Fin 3 → ℝ) :
    ((Spec.couplings v m).map (· ^ 2)).sum = ∑ i, Yukawa.Spec.coupling v m i ^ 2 := by
  simp [Spec.couplings, Yukawa.Spec.coupling, Fin.sum_univ_three]
  ring

end Verif.Debye
