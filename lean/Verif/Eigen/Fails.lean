import Verif.Eigen.Props
import Mathlib.LinearAlgebra.Matrix.Determinant.Basic

/-!
# C94: where the thresholds change the derivatives
-/

namespace Verif.Eigen

open Matrix Module Spec

/-- Two eigenvalues closer than the threshold. -/
noncomputable def near : Matrix (Fin 2) (Fin 2) ℂ := !![1, 0; 0, 1 + 1 / (2 * 10 ^ 6)]

/-- A perturbation between them. -/
def swap : Matrix (Fin 2) (Fin 2) ℂ := !![0, 1; 1, 0]

theorem near_herm : near.IsHermitian := by
  ext i j; fin_cases i <;> fin_cases j <;> simp [near]

theorem swap_herm : swap.IsHermitian := by
  ext i j; fin_cases i <;> fin_cases j <;> simp [swap]

theorem swap_sq : swap * swap = 1 := by
  ext i j; fin_cases i <;> fin_cases j <;> simp [swap]

theorem near_eigen (l : ℝ) (v : Fin 2 → ℂ) (h : near *ᵥ v = (l : ℂ) • v) :
    (v 0 = 0 ∨ l = 1) ∧ (v 1 = 0 ∨ l = 1 + 1 / (2 * 10 ^ 6)) := by
  have h0 := congrFun h 0
  have h1 := congrFun h 1
  simp [near, mulVec, dotProduct, Fin.sum_univ_two] at h0 h1
  constructor
  · by_cases hv : v 0 = 0
    · exact Or.inl hv
    · right
      have : ((l : ℂ) - 1) * v 0 = 0 := by linear_combination -h0
      have := (mul_eq_zero.1 this).resolve_right hv
      exact_mod_cast sub_eq_zero.1 this
  · rcases h1 with h1 | h1
    · right
      have h1' : ((1 + (10 ^ 6 : ℝ)⁻¹ * 2⁻¹ : ℝ) : ℂ) = l := by push_cast; exact h1
      rw [← Complex.ofReal_injective h1']; norm_num
    · exact Or.inl h1

theorem near_values (l : ℝ) (h : IsEigenvalue near l) : l = 1 ∨ l = 1 + 1 / (2 * 10 ^ 6) := by
  obtain ⟨v, hv, h⟩ := h
  obtain ⟨h0, h1⟩ := near_eigen l v h
  rcases h0 with h0 | h0
  · rcases h1 with h1 | h1
    · exact (hv (by funext i; fin_cases i <;> assumption)).elim
    · exact Or.inr h1
  · exact Or.inl h0

/-- Different eigenvalues that are at most 10⁻⁶ apart are treated as equal.  For these two matrices the first-order
derivatives of both eigenvalues are zero, while with every correct eigensolver the function returns 1 or -1. -/
theorem C94_threshold_fails :
    (∀ l m, firstOrder near swap l m ≠ ⊥ → m = 0) ∧
    ∀ solve, IsSolver solve → ∃ ev d : Fin 2 → ℝ,
      firstDerivative solve near swap = List.ofFn ev ++ List.ofFn d ∧ ∀ i, d i = 1 ∨ d i = -1 := by
  constructor
  · intro l m hne
    obtain ⟨v, ⟨hv, hv'⟩, hv0⟩ := (Submodule.ne_bot_iff _).1 hne
    have hd := hv' v hv
    obtain ⟨h0, h1⟩ := near_eigen l v hv
    have hsw : swap *ᵥ v = ![v 1, v 0] := by
      funext i; fin_cases i <;> simp [swap, mulVec, dotProduct, Fin.sum_univ_two]
    rw [hsw] at hd
    simp [dotProduct, Fin.sum_univ_two] at hd
    have hz : v 0 = 0 ∨ v 1 = 0 := by
      rcases h0 with h0 | h0
      · exact Or.inl h0
      · rcases h1 with h1 | h1
        · exact Or.inr h1
        · rw [h0] at h1; norm_num at h1
    rcases hz with hz | hz
    · rw [hz] at hd
      simp at hd
      rcases hd with hd | hd
      · exact (hv0 (by funext i; fin_cases i <;> assumption)).elim
      · rcases hd with hd | hd
        · exact hd
        · exact (hv0 (by funext i; fin_cases i <;> assumption)).elim
    · rw [hz] at hd
      simp at hd
      rcases hd with hd | hd
      · exact (hv0 (by funext i; fin_cases i <;> assumption)).elim
      · rcases hd with hd | hd
        · exact hd
        · exact (hv0 (by funext i; fin_cases i <;> assumption)).elim
  · intro solve hs
    obtain ⟨hV, hMV⟩ := hs 2 near near_herm
    have hE := fun i => near_values _ (isEigenvalue_of hV hMV i)
    obtain ⟨V, hVd⟩ : ∃ V, V = (solve 2 near).vectors := ⟨_, rfl⟩
    obtain ⟨E, hEd⟩ : ∃ E, E = (solve 2 near).values := ⟨_, rfl⟩
    rw [← hVd] at hV
    rw [← hEd] at hE
    have hcut : (fun i => cutValue (E i)) = E := by
      funext i
      refine cut_of (Or.inr ?_)
      rcases hE i with h | h <;> rw [h] <;> norm_num
    have hmap : ∀ i j, mapping E i j = true := by
      have : ∀ i j, ¬ (evThres < |E i - E j|) := fun i j => by
        rw [not_lt, evThres]
        rcases hE i with h | h <;> rcases hE j with h' | h' <;> rw [h, h'] <;> norm_num [abs_le]
      intro i j
      unfold mapping
      split_ifs <;> simp [this]
    have hg : group E 0 = [0, 1] := by
      unfold group
      simp [hmap, List.finRange_succ]
    have hn : numOfReps E 0 = 1 := by
      unfold numOfReps
      simp [hmap, List.finRange_succ]
    have hV' : V * Vᴴ = 1 := mul_eq_one_comm.1 hV
    obtain ⟨g, hgd⟩ : ∃ g : List (Fin 2), g = group E 0 := ⟨_, rfl⟩
    have hPP : phi V g * (phi V g)ᴴ = 1 := by
      rw [← hV']
      rw [hgd, hg]
      ext i j
      simp [Matrix.mul_apply, phi, Fin.sum_univ_two]
    have hPP' : (phi V g)ᴴ * phi V g = 1 := by
      have hlen : g.length = 2 := by rw [hgd, hg]; rfl
      exact (mul_eq_one_comm_of_card_eq (Fin 2) (Fin g.length) ℂ (by simp [hlen])).1 hPP
    have hsq : mxWork V swap g * mxWork V swap g = 1 := by
      unfold mxWork
      calc (phi V g)ᴴ * swap * phi V g * ((phi V g)ᴴ * swap * phi V g)
          = (phi V g)ᴴ * swap * (phi V g * (phi V g)ᴴ) * swap * phi V g := by simp only [Matrix.mul_assoc]
        _ = (phi V g)ᴴ * (swap * swap) * phi V g := by rw [hPP, Matrix.mul_one, Matrix.mul_assoc _ swap swap]
        _ = 1 := by rw [swap_sq, Matrix.mul_one, hPP']
    obtain ⟨hU, hUA⟩ := hs g.length (mxWork V swap g) (isHermitian_conjTranspose_mul_mul _ swap_herm)
    obtain ⟨nu, hnu⟩ : ∃ nu, nu = (solve g.length (mxWork V swap g)).values := ⟨_, rfl⟩
    have hval : ∀ a, nu a = 1 ∨ nu a = -1 := by
      intro a
      rw [← hnu] at hUA
      obtain ⟨U, hUd⟩ : ∃ U, U = (solve g.length (mxWork V swap g)).vectors := ⟨_, rfl⟩
      rw [← hUd] at hU hUA
      have h1 : U = U * diagonal (fun a => (nu a : ℂ)) * diagonal (fun a => (nu a : ℂ)) := by
        rw [← hUA, Matrix.mul_assoc, ← hUA, ← Matrix.mul_assoc, hsq, Matrix.one_mul]
      have h2 : (1 : Matrix (Fin g.length) (Fin g.length) ℂ) =
          diagonal (fun a => (nu a : ℂ)) * diagonal (fun a => (nu a : ℂ)) := by
        have h3 := congrArg (fun A => Uᴴ * A) h1
        rwa [Matrix.mul_assoc U, ← Matrix.mul_assoc Uᴴ, hU, Matrix.one_mul] at h3
      have h3 := congrFun (congrFun h2 a) a
      rw [diagonal_mul_diagonal, diagonal_apply_eq, one_apply_eq] at h3
      have h4 : nu a * nu a = 1 := by exact_mod_cast h3.symm
      exact mul_self_eq_one_iff.1 h4
    have hder : ∀ i, ∃ a, derivatives solve E V swap i = nu a := by
      have hs0 : step solve E V swap ⟨fun _ => false, fun _ => 0⟩ 0 =
          ⟨fun i => if i ∈ g then true else false,
            fun i => if h : i ∈ g then (nu ⟨g.idxOf i, List.idxOf_lt_length_of_mem h⟩ : ℂ) else 0⟩ := by
        unfold step
        rw [if_neg (by simp), if_neg (by rw [hn]; decide), hnu, hgd]
      have hall : ∀ i, i ∈ g := fun i => by rw [hgd, hg]; fin_cases i <;> simp
      intro i
      refine ⟨⟨g.idxOf i, List.idxOf_lt_length_of_mem (hall i)⟩, ?_⟩
      unfold derivatives
      rw [show List.finRange 2 = [0, 1] from by decide, List.foldl_cons, hs0, List.foldl_cons, List.foldl_nil]
      unfold step
      rw [if_pos (by simp [hall])]
      simp only [hall, dif_pos]
    choose a ha using hder
    refine ⟨E, fun i => nu (a i), ?_, fun i => hval _⟩
    unfold firstDerivative
    simp only [← hEd, ← hVd, hcut]
    congr 2
    funext i
    rw [ha, cutDeriv_ofReal, if_neg]
    rcases hval (a i) with h | h <;> rw [h] <;> norm_num

/-- An eigenvalue that moves with a derivative below 10⁻⁶ is returned with the derivative zero, and an eigenvalue
below 10⁻⁶ is returned as zero. -/
theorem C94_small_fails :
    (firstOrder (!![1] : Matrix (Fin 1) (Fin 1) ℂ) !![1 / 10 ^ 7] 1 (1 / 10 ^ 7) = ⊤ ∧
      ∀ solve, IsSolver solve → firstDerivative solve (!![1] : Matrix (Fin 1) (Fin 1) ℂ) !![1 / 10 ^ 7] = [1, 0]) ∧
    ∀ solve, IsSolver solve → firstDerivative solve (!![1 / 10 ^ 7] : Matrix (Fin 1) (Fin 1) ℂ) !![1] = [0, 1] := by
  have hherm : ∀ x : ℝ, (!![(x : ℂ)] : Matrix (Fin 1) (Fin 1) ℂ).IsHermitian := fun x => by
    ext i j; fin_cases i; fin_cases j; simp
  -- the result for every pair of numbers
  have key : ∀ solve, IsSolver solve → ∀ x y : ℝ,
      firstDerivative solve (!![(x : ℂ)] : Matrix (Fin 1) (Fin 1) ℂ) !![(y : ℂ)] =
        [cutValue x, if |y| < 1 / 10 ^ 6 then 0 else y] := by
    intro solve hs x y
    obtain ⟨hV, hMV⟩ := hs 1 _ (hherm x)
    have hx : (solve 1 !![(x : ℂ)]).values 0 = x := by
      obtain ⟨v, hv, h⟩ := isEigenvalue_of hV hMV 0
      have h0 := congrFun h 0
      simp [mulVec, dotProduct] at h0
      rcases h0 with h0 | h0
      · exact_mod_cast h0.symm
      · exact (hv (by funext i; fin_cases i; exact h0)).elim
    have hsep : ∀ i j : Fin 1, (fun i => cutValue ((solve 1 !![(x : ℂ)]).values i)) i =
        (fun i => cutValue ((solve 1 !![(x : ℂ)]).values i)) j ∨ (1 : ℝ) / 10 ^ 6 <
          |(fun i => cutValue ((solve 1 !![(x : ℂ)]).values i)) i -
            (fun i => cutValue ((solve 1 !![(x : ℂ)]).values i)) j| :=
      fun i j => Or.inl (by rw [Subsingleton.elim i j])
    have hVV : star ((solve 1 !![(x : ℂ)]).vectors 0 0) * (solve 1 !![(x : ℂ)]).vectors 0 0 = 1 := by
      have := congrFun (congrFun hV 0) 0
      simpa [Matrix.mul_apply] using this
    have hd : derivatives solve (fun i => cutValue ((solve 1 !![(x : ℂ)]).values i))
        (solve 1 !![(x : ℂ)]).vectors !![(y : ℂ)] 0 = y := by
      unfold derivatives
      rw [show List.finRange 1 = [0] from by decide, List.foldl_cons, List.foldl_nil]
      unfold step
      rw [if_neg (by simp), if_pos (by unfold numOfReps; simp [List.finRange_succ])]
      simp [dotProduct] at hVV ⊢
      linear_combination (y : ℂ) * hVV
    unfold firstDerivative
    simp only [List.ofFn_succ, List.ofFn_zero, hx, hd, cutDeriv_ofReal]
    simp
  refine ⟨⟨?_, fun solve hs => ?_⟩, fun solve hs => ?_⟩
  · rw [eq_top_iff]
    intro v _
    refine ⟨?_, fun w _ => ?_⟩
    · funext i; fin_cases i; simp [mulVec, dotProduct]
    · simp [dotProduct]
  · have := key solve hs 1 (1 / 10 ^ 7)
    rw [cut_of (Or.inr (by norm_num)), if_pos (by norm_num [abs_lt])] at this
    push_cast at this
    exact this
  · have := key solve hs (1 / 10 ^ 7) 1
    rw [if_neg (by norm_num), cutValue, if_pos (by norm_num [evThres, abs_lt])] at this
    push_cast at this
    exact this

end Verif.Eigen
