import Verif.Batch.EwbgProps
import Verif.Batch.MinimaProps
import Verif.Programs.ScanProps

/-!
# Further cases of C117, C120 and C121
-/

namespace Verif.Batch

open Outcome

/-- C121: CreateMuGrid ends without a table when the line is not in the file or gives no profile. -/
theorem C121_grid_failure {K : Type} [Field K] (fmt : K → Ewbg.Line) (steps : List Step) (find : Ewbg.Line → Ewbg.Transition K)
    (profile : Ewbg.Line → Ewbg.Transition K → Outcome (K × (K → K))) :
    ((∀ l, Step.point l ∉ steps) → Ewbg.muGrid fmt steps find profile = ⟨[], ok false⟩) ∧
    (∀ line e, Ewbg.point steps = some line → profile line (find line) = err e →
      Ewbg.muGrid fmt steps find profile = ⟨[], err e⟩) := by
  constructor
  · intro h
    have hp : Ewbg.point steps = none := by
      induction steps with
      | nil => rfl
      | cons s l ih =>
        cases s with
        | legend x => exact ih fun y hy => h y (List.mem_cons_of_mem _ hy)
        | point x => exact absurd (by simp) (h x)
    rw [Ewbg.muGrid, hp]
  · intro line e h1 h2
    rw [Ewbg.muGrid, h1]
    dsimp only
    rw [h2]

/-- C117: the tests of the options one by one, also for values that the options cannot produce. -/
theorem C117_good (b : Programs.Built) (o : Programs.Options) :
    Minima.good b o = ok true ↔ Programs.minimizersOk b o = ok () ∧ o.modelSet = true ∧ 1 ≤ o.firstline ∧
      o.firstline ≤ o.lastline ∧ o.templow < o.temphigh ∧ (-1 ≤ o.multistep ∧ o.multistep ≤ 3) ∧ 0 ≤ o.numPts ∧
      (0 ≤ o.ewsr ∧ o.ewsr ≤ 2) := by
  unfold Minima.good
  cases hm : Programs.minimizersOk b o with
  | err e => simp
  | ub u => simp
  | ok u =>
    simp only [bind_ok, Outcome.ok.injEq, Programs.ite_false_eq, true_and]
    constructor
    · rintro ⟨h1, h2, h3, h4, h5, h6, h7, h8, -⟩
      push Not at h2 h3 h4 h5 h6 h7 h8
      exact ⟨by simpa using h1, by omega, h4, h5, ⟨h6.2, h6.1⟩, h7, h8.2, h8.1⟩
    · rintro ⟨h1, h2, h3, h4, h5, h6, h7⟩
      exact ⟨by simp [h1], by omega, by omega, by omega, not_le.2 h4, by omega, by omega, by omega, trivial⟩

/-- C120: at a temperature that is not a number the search starts at the point given, never at the minimum at tree level. -/
theorem C120_nan_evolution {V : Type} (minimize : Flt ℚ → V → V) (tree sol : V) (t : Flt ℚ) :
    Programs.Scan.evolve minimize tree .nan [t] sol = [(t, sol, minimize t sol)] ∧
    Programs.Scan.evolve minimize tree t [.nan] sol = [(.nan, sol, minimize .nan sol)] := by
  constructor
  · cases t <;> rfl
  · rfl

end Verif.Batch
