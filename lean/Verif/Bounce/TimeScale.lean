import Verif.Bounce.Rates
import Verif.Bounce.Scan
import Verif.Spline.Model
import Mathlib.Analysis.Calculus.Deriv.Basic

/-!
# The spline of the actions and the derivative behind the inverse time scale
-/

namespace Verif.Bounce

open Verif Verif.Outcome

/-- The spline of the actions, bounce_solution.cpp:454-456; `pts` are the temperatures and actions. -/
noncomputable def actionSpline (pts : List (ℝ × ℝ)) : Spline.Spl ℝ :=
  Spline.setPoints (Spline.setBoundary (Spline.fresh ℝ) .notAKnot 0 .notAKnot 0) pts.length
    (fun i => (pts.getD i (0, 0)).1) (fun i => (pts.getD i (0, 0)).2) .cspline

/-- `GetBounceSol`, bounce_solution.cpp:1055-1058. -/
noncomputable def getBounceSol (pts : List (ℝ × ℝ)) (t : ℝ) : ℝ := Spline.eval (actionSpline pts) t

/-- `action_ratio`, bounce_solution.cpp:1060-1065. -/
noncomputable def actionRatio (pts : List (ℝ × ℝ)) (t : ℝ) : ℝ := getBounceSol pts t / t

/-- `Nderive_BounceRatio`, bounce_solution.cpp:1067-1081.  The central difference of the GSL with the step
1e-8 is taken as the exact derivative. -/
noncomputable def nderiveBounceRatio (pts : List (ℝ × ℝ)) (t : ℝ) : ℝ := deriv (actionRatio pts) t

end Verif.Bounce
