import Verif.Wall.Props

/-!
# C86: the points of the line
-/

namespace Verif.Wall

/-- The tunnelling path is divided into ten equal parts from the symmetric to the broken vacuum, with both ends. -/
theorem C86_base_points (vsym vcrit : List ℝ) (hl : vsym.length = vcrit.length) :
    (basePoints vsym vcrit).length = 11 ∧ ∀ n : Nat, n ≤ 10 → ∃ p, (basePoints vsym vcrit)[n]? = some (n, p) ∧ p.length = vsym.length ∧
      ∀ (i : Nat) (a b : ℝ), vsym[i]? = some a → vcrit[i]? = some b → p[i]? = some (a + (b - a) * (n / 10)) := by
  refine ⟨by simp [basePoints, maxstep], fun n hn => ⟨basePoint vsym vcrit n, ?_, ?_, ?_⟩⟩
  · simp only [basePoints, maxstep]
    rw [List.getElem?_map, List.getElem?_range (by omega)]
    rfl
  · simp [basePoint, hl]
  · intro i a b ha hb
    simp only [basePoint, maxstep]
    rw [List.getElem?_zipWith, ha, hb]
    simp only [Option.some.injEq]
    push_cast
    ring

example (a b : ℝ) : ∃ p, (basePoints [a] [b])[10]? = some (10, p) ∧ p[0]? = some b := by
  obtain ⟨p, h1, -, h2⟩ := (C86_base_points [a] [b] rfl).2 10 le_rfl
  refine ⟨p, h1, ?_⟩
  rw [h2 0 a b rfl rfl]
  norm_num

end Verif.Wall
