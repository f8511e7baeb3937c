import Verif.Tracer.Geometry
import Mathlib.Analysis.Real.Sqrt
import Mathlib.Algebra.BigOperators.Fin

/-!
# Is a minimum the global one?
-/

namespace Verif.Tracer

variable {n : Nat}

/-- `L2NormVector`, utility.cpp:56-65. -/
noncomputable def l2Norm (v : Vec n ℝ) : ℝ := Real.sqrt (∑ i, v i * v i)

/-- `IsGlobMin`, minimum_tracer.cpp:1095-1127: `glob` is the global minimum in the directions of the vacuum expectation values
that the minimizers find at the temperature of the minimum, `group` and `pairs` are the detected symmetries and flat
directions.  The value stored in `is_glob_min`. -/
noncomputable def isGlobMin (group : List (Mask n)) (pairs : List (Fin n × Fin n)) (glob point : Vec n ℝ) : Prop :=
  l2Norm (fun i => convertToNonFlat pairs (reduceVEV group glob) i - convertToNonFlat pairs (reduceVEV group point) i) < 1

end Verif.Tracer
