import Verif.Eigen.Lemmas
import Verif.Eigen.Example
import Mathlib.Analysis.Calculus.Deriv.Mul
import Mathlib.Analysis.Calculus.Deriv.Add
import Mathlib.Analysis.Complex.Basic
import Mathlib.Analysis.Complex.RealDeriv
import Mathlib.Tactic.FinCases

/-!
# C94: the derivatives of the eigenvalues
-/

namespace Verif.Eigen

open Matrix Module Spec

variable {n : ℕ}

theorem cutDeriv_ofReal (x : ℝ) : (cutDeriv (x : ℂ)).re = if |x| < 1 / 10 ^ 6 then 0 else x := by
  unfold cutDeriv evThres
  rw [Complex.norm_real, Real.norm_eq_abs]
  split_ifs <;> simp

open Classical in
/-- For a Hermitian matrix `M` with separated eigenvalues and a Hermitian matrix `D` the function gives the
eigenvalues followed by their derivatives in the direction of `D`: each pair of an eigenvalue and a derivative is
given as often as first-order perturbation theory says.  Only derivatives below 10⁻⁶ are replaced by zero. -/
theorem C94_derivatives (solve : SelfAdjoint) (hs : IsSolver solve) (M D : Matrix (Fin n) (Fin n) ℂ)
    (hM : M.IsHermitian) (hD : D.IsHermitian) (hsep : Separated M) :
    ∃ ev d : Fin n → ℝ,
      firstDerivative solve M D =
        List.ofFn ev ++ List.ofFn (fun i => if |d i| < 1 / 10 ^ 6 then 0 else d i) ∧
      ∀ l m : ℝ, Fintype.card {i // ev i = l ∧ d i = m} = finrank ℂ (firstOrder M D l m) := by
  obtain ⟨hV, hMV⟩ := hs n M hM
  have hE := isEigenvalue_of hV hMV
  have hcut : (fun i => cutValue ((solve n M).values i)) = (solve n M).values :=
    funext fun i => cut_of (hsep.zero _ (hE i))
  have h : ∀ i j, (solve n M).values i = (solve n M).values j ∨
      1 / 10 ^ 6 < |(solve n M).values i - (solve n M).values j| := fun i j => hsep.apart _ _ (hE i) (hE j)
  choose d hd using derivatives_real (V := (solve n M).vectors) hs hD h
  refine ⟨(solve n M).values, d, ?_, fun l m => ?_⟩
  · unfold firstDerivative
    simp only [hcut, hd, cutDeriv_ofReal]
  · rw [← card_derivatives hs hD h hV hMV l m]
    refine Fintype.card_congr (Equiv.subtypeEquivRight fun i => ?_)
    rw [hd]
    norm_cast

/-- The matrices of a curve: along differentiable eigenvectors and eigenvalues the derivative of the eigenvalue is
one of first-order perturbation theory. -/
theorem C94_curves (M : ℝ → Matrix (Fin n) (Fin n) ℂ) (D : Matrix (Fin n) (Fin n) ℂ) (v : ℝ → Fin n → ℂ)
    (v' : Fin n → ℂ) (l : ℝ → ℝ) (m t : ℝ) (hherm : (M t).IsHermitian)
    (hM : ∀ i j, HasDerivAt (fun s => M s i j) (D i j) t) (hv : ∀ i, HasDerivAt (fun s => v s i) (v' i) t)
    (hl : HasDerivAt l m t) (heig : ∀ s, M s *ᵥ v s = (l s : ℂ) • v s) :
    v t ∈ firstOrder (M t) D (l t) m := by
  refine ⟨heig t, fun w hw => ?_⟩
  have key : D *ᵥ v t + M t *ᵥ v' = (m : ℂ) • v t + (l t : ℂ) • v' := by
    funext i
    have h1 : HasDerivAt (fun s => ∑ j, M s i j * v s j) (∑ j, (D i j * v t j + M t i j * v' j)) t :=
      HasDerivAt.fun_sum fun j _ => (hM i j).fun_mul (hv j)
    have h2 : HasDerivAt (fun s => (l s : ℂ) * v s i) ((m : ℂ) * v t i + (l t : ℂ) * v' i) t :=
      hl.ofReal_comp.fun_mul (hv i)
    have h3 : (fun s => ∑ j, M s i j * v s j) = fun s => (l s : ℂ) * v s i :=
      funext fun s => congrFun (heig s) i
    rw [h3] at h1
    have := h1.unique h2
    rw [Finset.sum_add_distrib] at this
    exact this
  have h1 : D *ᵥ v t - (m : ℂ) • v t = (l t : ℂ) • v' - M t *ᵥ v' := by
    rw [sub_eq_sub_iff_add_eq_add, key, add_comm]
  rw [h1, dotProduct_sub, dotProduct_mulVec]
  have h2 : star w ᵥ* M t = (l t : ℂ) • star w := by
    have := congrArg star hw
    rw [star_mulVec, hherm.eq, star_smul] at this
    rw [this]
    simp
  rw [h2, dotProduct_smul, smul_dotProduct, sub_self]

open Classical in
/-- Together: an eigenvalue that moves differentiably with its eigenvector is given with its derivative. -/
theorem C94_moving (solve : SelfAdjoint) (hs : IsSolver solve) (M : ℝ → Matrix (Fin n) (Fin n) ℂ)
    (D : Matrix (Fin n) (Fin n) ℂ) (v : ℝ → Fin n → ℂ) (v' : Fin n → ℂ) (l : ℝ → ℝ) (m t : ℝ)
    (hherm : (M t).IsHermitian) (hD : D.IsHermitian) (hsep : Separated (M t))
    (hM : ∀ i j, HasDerivAt (fun s => M s i j) (D i j) t) (hv : ∀ i, HasDerivAt (fun s => v s i) (v' i) t)
    (hl : HasDerivAt l m t) (heig : ∀ s, M s *ᵥ v s = (l s : ℂ) • v s) (h0 : v t ≠ 0) :
    ∃ p < n, (firstDerivative solve (M t) D)[p]? = some (l t) ∧
      (firstDerivative solve (M t) D)[n + p]? = some (if |m| < 1 / 10 ^ 6 then 0 else m) := by
  obtain ⟨ev, d, hres, hcard⟩ := C94_derivatives solve hs (M t) D hherm hD hsep
  have hmem := C94_curves M D v v' l m t hherm hM hv hl heig
  have hpos : 0 < finrank ℂ (firstOrder (M t) D (l t) m) := by
    rw [finrank_pos_iff_exists_ne_zero]
    exact ⟨⟨v t, hmem⟩, fun e => h0 (congrArg Subtype.val e)⟩
  rw [← hcard, Fintype.card_pos_iff] at hpos
  obtain ⟨p, h1, h2⟩ := hpos
  refine ⟨p, p.2, ?_, ?_⟩
  · rw [hres, List.getElem?_append_left (by simp [p.2]), List.getElem?_ofFn]
    simp [p.2, h1]
  · rw [hres, List.getElem?_append_right (by simp)]
    simp only [List.length_ofFn, Nat.add_sub_cancel_left, List.getElem?_ofFn, p.2, dif_pos, h2, Fin.eta]

/-- The hypotheses of `C94_derivatives` and `C94_moving` hold for a degenerate eigenvalue that is split. -/
theorem exSeparated : Separated (!![2, 0; 0, 2] : Matrix (Fin 2) (Fin 2) ℂ) := by
  have key : ∀ l, IsEigenvalue (!![2, 0; 0, 2] : Matrix (Fin 2) (Fin 2) ℂ) l → l = 2 := by
    rintro l ⟨v, hv, h⟩
    by_contra hl
    have hl' : (2 : ℂ) - l ≠ 0 := fun e => hl (by exact_mod_cast (sub_eq_zero.1 e).symm)
    apply hv
    funext i
    fin_cases i
    · have := congrFun h 0
      simp [mulVec, dotProduct, Fin.sum_univ_two] at this
      exact (this.resolve_left fun e => hl' (by rw [e, sub_self]))
    · have := congrFun h 1
      simp [mulVec, dotProduct, Fin.sum_univ_two] at this
      exact (this.resolve_left fun e => hl' (by rw [e, sub_self]))
  refine ⟨fun l l' h h' => Or.inl ((key l h).trans (key l' h').symm), fun l h => Or.inr ?_⟩
  rw [key l h]
  norm_num

example : ∃ p : ℕ, p ≤ 1 ∧ (firstDerivative exSolver !![2, 0; 0, 2] !![0, 1; 1, 0])[p]? = some (2 : ℝ) ∧
    (firstDerivative exSolver !![2, 0; 0, 2] !![0, 1; 1, 0])[2 + p]? = some (-1 : ℝ) := by
  have := C94_moving (n := 2) exSolver exSolver_correct (fun s => !![2, (s : ℂ); s, 2]) !![0, 1; 1, 0]
    (fun _ => ![1, -1]) 0 (fun s => 2 - s) (-1) 0 ?_ ?_ ?_ ?_ ?_ ?_ ?_ ?_
  · norm_num at this
    exact this
  · ext i j; fin_cases i <;> fin_cases j <;> simp
  · ext i j; fin_cases i <;> fin_cases j <;> simp
  · simpa using exSeparated
  · intro i j
    have h := (hasDerivAt_id (0 : ℝ)).ofReal_comp
    simp only [id_eq, Complex.ofReal_one] at h
    fin_cases i <;> fin_cases j
    · exact hasDerivAt_const _ _
    · exact h
    · exact h
    · exact hasDerivAt_const _ _
  · intro i
    fin_cases i <;> exact hasDerivAt_const _ _
  · simpa using (hasDerivAt_id (0 : ℝ)).const_sub 2
  · intro s
    funext i
    fin_cases i
    · simp [mulVec, dotProduct, Fin.sum_univ_two]; ring
    · simp [mulVec, dotProduct, Fin.sum_univ_two]; ring
  · intro e
    have := congrFun e 0
    simp at this

end Verif.Eigen
