import Verif.Tracer.Smallest
import Mathlib.LinearAlgebra.Matrix.NonsingularInverse
import Mathlib.Data.Real.Basic
import Mathlib.Tactic.Linarith
import Mathlib.Tactic.NormNum

/-!
# C125: the smallest curvature of a minimum
-/

set_option linter.unusedSectionVars false

namespace Verif.Tracer.Smallest

open Matrix

section

variable {K : Type} [Field K] [LinearOrder K] [IsStrictOrderedRing K]

theorem fold_fin (l : List K) (c : K) :
    (l.map Flt.fin).foldl (fun cur e => stdMin e cur) (.fin c) = .fin (l.foldl min c) := by
  induction l generalizing c with
  | nil => rfl
  | cons a l ih =>
    rw [List.map_cons, List.foldl_cons, List.foldl_cons, ← ih]
    congr 1
    unfold stdMin
    by_cases h : c < a
    · rw [if_pos ((Flt.lt_fin _ _).2 h), min_eq_left h.le]
    · rw [if_neg (fun h' => h ((Flt.lt_fin _ _).1 h')), min_eq_right (not_lt.1 h)]

theorem foldl_min (l : List K) (c : K) :
    (l.foldl min c = c ∨ l.foldl min c ∈ l) ∧ l.foldl min c ≤ c ∧ ∀ a ∈ l, l.foldl min c ≤ a := by
  induction l generalizing c with
  | nil => simp
  | cons b l ih =>
    obtain ⟨h1, h2, h3⟩ := ih (min c b)
    rw [List.foldl_cons]
    refine ⟨?_, h2.trans (min_le_left _ _), ?_⟩
    · rcases h1 with h1 | h1
      · rcases min_choice c b with h | h
        · left; rw [h1, h]
        · right; rw [h1, h]; simp
      · right; simp [h1]
    · intro a ha
      rcases List.mem_cons.1 ha with rfl | ha
      · exact h2.trans (min_le_right _ _)
      · exact h3 a ha

/-- C125: for finite eigenvalues, at least one of which is at most 10¹⁰⁰, the result is the smallest of them
plus 10⁻⁷. -/
theorem C125_smallest (l : List K) (hl : ∃ a ∈ l, a ≤ 10 ^ 100) :
    ∃ m ∈ l, (∀ a ∈ l, m ≤ a) ∧ smallest (l.map Flt.fin) = .fin (m + 1 / 10 ^ 7) := by
  obtain ⟨h1, h2, h3⟩ := foldl_min l (10 ^ 100)
  refine ⟨l.foldl min (10 ^ 100), ?_, h3, ?_⟩
  · rcases h1 with h1 | h1
    · obtain ⟨a, ha, hle⟩ := hl
      have : a = 10 ^ 100 := le_antisymm hle (by rw [← h1]; exact h3 a ha)
      rw [h1, ← this]; exact ha
    · exact h1
  · rw [smallest, fold_fin]; rfl

/-- C125: the test for a negative curvature: it succeeds exactly if some eigenvalue is below -10⁻⁷. -/
theorem C125_negative (l : List K) (hl : ∃ a ∈ l, a ≤ 10 ^ 100) :
    Flt.lt (smallest (l.map Flt.fin)) (.fin 0) = true ↔ ∃ a ∈ l, a < -(1 / 10 ^ 7) := by
  obtain ⟨m, hm, hle, h⟩ := C125_smallest l hl
  rw [h, Flt.lt_fin]
  constructor
  · intro h'; exact ⟨m, hm, by linarith⟩
  · rintro ⟨a, ha, h'⟩; have := hle a ha; linarith

/-- C125: without any eigenvalue, or if all are larger, the result is 10¹⁰⁰ plus 10⁻⁷. -/
theorem C125_huge (l : List K) (hl : ∀ a ∈ l, 10 ^ 100 ≤ a) :
    smallest (l.map Flt.fin) = .fin (10 ^ 100 + 1 / 10 ^ 7) := by
  obtain ⟨h1, h2, h3⟩ := foldl_min l (10 ^ 100)
  have : l.foldl min (10 ^ 100) = 10 ^ 100 := by
    rcases h1 with h1 | h1
    · exact h1
    · exact le_antisymm h2 (hl _ h1)
  rw [smallest, fold_fin, this]; rfl

/-- C125 is false of the code for `NaN`: an eigenvalue that is not a number is forgotten as soon as another one
follows, and so are all eigenvalues before it. -/
theorem C125_nan_fails (before after : List K) (a : K) (h : ∃ b ∈ a :: after, b ≤ 10 ^ 100) :
    ∃ m ∈ a :: after, (∀ b ∈ a :: after, m ≤ b) ∧
      smallest ((before.map Flt.fin) ++ .nan :: (a :: after).map Flt.fin) = .fin (m + 1 / 10 ^ 7) := by
  obtain ⟨h1, h2, h3⟩ := foldl_min after a
  refine ⟨after.foldl min a, ?_, ?_, ?_⟩
  · rcases h1 with h1 | h1
    · rw [h1]; simp
    · simp [h1]
  · intro b hb
    rcases List.mem_cons.1 hb with rfl | hb
    · exact h2
    · exact h3 b hb
  · have e : ∀ x : Flt K, stdMin .nan x = .nan := fun x => by simp [stdMin]
    have e' : stdMin (.fin a) .nan = .fin a := by simp [stdMin]
    rw [smallest, List.foldl_append, List.foldl_cons, e, List.map_cons, List.foldl_cons, e', fold_fin]
    rfl

/-- If `NaN` comes last, the result is `NaN`; no comparison with it succeeds. -/
theorem C125_nan_last (before : List (Flt K)) :
    smallest (before ++ [.nan]) = .nan ∧ Flt.lt (smallest (before ++ [.nan])) (.fin 0) = false := by
  have : smallest (before ++ [.nan]) = .nan := by
    rw [smallest, List.foldl_append, List.foldl_cons, List.foldl_nil]
    have : ∀ x : Flt K, stdMin .nan x = .nan := fun x => by simp [stdMin]
    rw [this]
    rfl
  exact ⟨this, by rw [this]; rfl⟩

/-- Hypotheses of the theorems above. -/
example : (∃ a ∈ [3, -1, (2 : ℚ)], a ≤ 10 ^ 100) ∧ (∃ b ∈ (5 : ℚ) :: [7], b ≤ 10 ^ 100) ∧
    ∀ a ∈ ([] : List ℚ), 10 ^ 100 ≤ a :=
  ⟨⟨3, by simp, by norm_num⟩, ⟨5, by simp, by norm_num⟩, by simp⟩

end

/-- C125: what a non-negative result says about the potential: with `V` an orthogonal matrix of eigenvectors of
the Hessian matrix `H` and `E` the eigenvalues, the quadratic form of `H` is nowhere below `-10⁻⁷`, and the
smallest value of the form on unit vectors is the result minus 10⁻⁷. -/
theorem C125_curvature {n : ℕ} (H V : Matrix (Fin n) (Fin n) ℝ) (E : Fin n → ℝ) (hV : Vᵀ * V = 1)
    (hE : H * V = V * diagonal E) (s : ℝ)
    (hs : smallest ((List.ofFn E).map Flt.fin) = .fin s) (hb : ∃ i, E i ≤ 10 ^ 100) :
    (∀ x : Fin n → ℝ, (s - 1 / 10 ^ 7) * (x ⬝ᵥ x) ≤ x ⬝ᵥ H *ᵥ x) ∧
    ∃ x : Fin n → ℝ, x ⬝ᵥ x = 1 ∧ x ⬝ᵥ H *ᵥ x = s - 1 / 10 ^ 7 := by
  have hV' : V * Vᵀ = 1 := mul_eq_one_comm.1 hV
  obtain ⟨m, hm, hle, h⟩ := C125_smallest (List.ofFn E) (by
    obtain ⟨i, hi⟩ := hb
    exact ⟨E i, by simp [List.mem_ofFn], hi⟩)
  rw [h] at hs
  have hs' : s - 1 / 10 ^ 7 = m := by
    have := Flt.fin.inj hs
    rw [← this]; ring
  rw [hs']
  have hH : H = V * diagonal E * Vᵀ := by rw [← hE, Matrix.mul_assoc, hV', Matrix.mul_one]
  have quad : ∀ x : Fin n → ℝ, x ⬝ᵥ H *ᵥ x = ∑ i, E i * (Vᵀ *ᵥ x) i ^ 2 := by
    intro x
    rw [hH, ← Matrix.mulVec_mulVec, ← Matrix.mulVec_mulVec, Matrix.dotProduct_mulVec,
      ← Matrix.mulVec_transpose]
    simp only [dotProduct, Matrix.mulVec_diagonal]
    refine Finset.sum_congr rfl fun i _ => by ring
  have norm : ∀ x : Fin n → ℝ, x ⬝ᵥ x = ∑ i, (Vᵀ *ᵥ x) i ^ 2 := by
    intro x
    have : x ⬝ᵥ x = x ⬝ᵥ (V * Vᵀ) *ᵥ x := by rw [hV', Matrix.one_mulVec]
    rw [this, ← Matrix.mulVec_mulVec, Matrix.dotProduct_mulVec, ← Matrix.mulVec_transpose]
    simp only [dotProduct]
    refine Finset.sum_congr rfl fun i _ => by ring
  refine ⟨fun x => ?_, ?_⟩
  · rw [quad, norm, Finset.mul_sum]
    refine Finset.sum_le_sum fun i _ => ?_
    exact mul_le_mul_of_nonneg_right (hle _ (by simp [List.mem_ofFn])) (sq_nonneg _)
  · obtain ⟨i, rfl⟩ := (List.mem_ofFn' E m).1 hm
    have e : Vᵀ *ᵥ (V *ᵥ Pi.single i 1) = Pi.single i 1 := by
      rw [Matrix.mulVec_mulVec, hV, Matrix.one_mulVec]
    refine ⟨V *ᵥ Pi.single i 1, ?_, ?_⟩
    · rw [norm, e]
      rw [Finset.sum_eq_single i] <;> simp +contextual
    · rw [quad, e]
      rw [Finset.sum_eq_single i] <;> simp +contextual

/-- Hypotheses of `C125_curvature`. -/
example : (1 : Matrix (Fin 2) (Fin 2) ℝ)ᵀ * 1 = 1 ∧
    (diagonal ![3, 5] : Matrix (Fin 2) (Fin 2) ℝ) * 1 = 1 * diagonal ![3, 5] ∧
    ∃ i, (![3, 5] : Fin 2 → ℝ) i ≤ 10 ^ 100 := by
  refine ⟨by simp, by simp, 0, by norm_num⟩

end Verif.Tracer.Smallest
