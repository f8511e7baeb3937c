import Verif.Bounce.ScanRules

/-!
# C73: the refinement between the solutions
-/

namespace Verif.Bounce

variable {K W : Type} [Field K] [LinearOrder K] [IsStrictOrderedRing K] [FloorRing K]

theorem calcAt_length (e : Env K W) (l : List (Sol K W)) (t : K) (smart : Bool) :
    l.length ≤ (calcAt e l t smart).length := by
  obtain ⟨r, -, h' | h'⟩ := C25_calculation e l t smart
  · obtain ⟨-, -, -, a, -, -, l1, l2, h1, h2⟩ := h'
    rw [h2, h1]
    simp
  · rw [h'.2]

theorem foldl_calcAt (e : Env K W) : ∀ (ts : List K) (l : List (Sol K W)),
    l.length ≤ (ts.foldl (fun l t => calcAt e l t true) l).length ∧
    ((ts.foldl (fun l t => calcAt e l t true) l).length = l.length →
      ts.foldl (fun l t => calcAt e l t true) l = l) := by
  intro ts
  induction ts with
  | nil => intro l; exact ⟨le_rfl, fun _ => rfl⟩
  | cons t ts ih =>
    intro l
    have h1 := calcAt_length e l t true
    obtain ⟨h2, h3⟩ := ih (calcAt e l t true)
    refine ⟨h1.trans h2, fun h => ?_⟩
    rw [List.foldl_cons] at h ⊢
    have h4 : (calcAt e l t true).length = l.length := by omega
    rw [calcAt_same e l t true h4] at h ⊢
    exact (ih l).2 h

/-- The gaps between the solutions are refined twice. -/
theorem C73_refined_twice (e : Env K W) (l : List (Sol K W)) :
    refine e l = (nextTemps ((nextTemps l).foldl (fun l t => calcAt e l t true) l)).foldl
      (fun l t => calcAt e l t true) ((nextTemps l).foldl (fun l t => calcAt e l t true) l) := by
  have key : ∀ l1, refineOnce e l = l1 → refine e l = refineOnce e l1 := by
    intro l1 h1
    unfold refine
    rw [h1]
    by_cases h : l1.length = l.length
    · have h2 := (foldl_calcAt e (nextTemps l) l).2 (by rw [← h, ← h1]; rfl)
      have h3 : l1 = l := by rw [← h1]; exact h2
      subst h3
      simp [h1]
    · simp [h]
  exact key _ rfl

end Verif.Bounce
