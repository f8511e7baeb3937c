import Verif.Kfactors.Model

/-!
# The grids of the interpolated functions `K`

`initializeK…Grid` and `K…fermion`, `K…boson`, src/Kfactors/KfactorsinterpolatedGSL.cpp:61-390, and the axes of
src/prog/Kfactor_grid.cpp:165-171.  The interpolation of the GSL is a parameter.
-/

namespace Verif.Kfactors

open Outcome

/-- `vector::at` on the left of an assignment: an exception if the index is too large. -/
def setAt {α : Type} (l : List α) (i : ℕ) (a : α) : Outcome (List α) :=
  if i < l.length then ok (l.set i a) else err .outOfRange

/-- The inner loop over the temperatures, KfactorsinterpolatedGSL.cpp:70-73 (the same in all ten functions). -/
def fillRow (ms : ℕ) (k : ℕ → ℕ → ℝ) (i : ℕ) : List ℕ → List ℝ → Outcome (List ℝ)
  | [], z => ok z
  | j :: js, z => do
    let z ← setAt z (j * ms + i) (k i j)
    fillRow ms k i js z

/-- The outer loop over the masses, KfactorsinterpolatedGSL.cpp:68-74. -/
def fillRows (ms ts : ℕ) (k : ℕ → ℕ → ℝ) : List ℕ → List ℝ → Outcome (List ℝ)
  | [], z => ok z
  | i :: is, z => do
    let z ← fillRow ms k i (List.range ts) z
    fillRows ms ts k is z

/-- `zav`, KfactorsinterpolatedGSL.cpp:67-74, from a table of `ms` rows with `ts` entries. -/
def fill (ms ts : ℕ) (k : ℕ → ℕ → ℝ) : Outcome (List ℝ) :=
  fillRows ms ts k (List.range ms) (List.replicate (ms * ts) 0)

/-- The data of Kfunctions_grid.h: the axes and the ten tables, the mass first. -/
structure GridData where
  msg : List ℝ
  tg : List ℝ
  k1p : ℕ → ℕ → ℝ
  k1m : ℕ → ℕ → ℝ
  k2p : ℕ → ℕ → ℝ
  k4p : ℕ → ℕ → ℝ
  k4m : ℕ → ℕ → ℝ
  k5p : ℕ → ℕ → ℝ
  k5m : ℕ → ℕ → ℝ
  k6p : ℕ → ℕ → ℝ
  k8p : ℕ → ℕ → ℝ
  k9p : ℕ → ℕ → ℝ

/-- The value of the bicubic interpolation for two axes, the values on the grid and a point. -/
abbrev Interp2d := List ℝ → List ℝ → List ℝ → ℝ → ℝ → ℝ

/-- `gsl_spline2d_eval`: there is a value only inside of the range of both axes; otherwise the GSL reports an
error, and what the program goes on with, if it goes on, is not modelled. -/
noncomputable def spline2dEval (sp : Interp2d) (xs ys z : List ℝ) (x y : ℝ) : Option ℝ :=
  match xs.head?, xs.getLast?, ys.head?, ys.getLast? with
  | some x0, some x1, some y0, some y1 =>
    if x < x0 ∨ x > x1 then none else if y < y0 ∨ y > y1 then none else some (sp xs ys z x y)
  | _, _, _, _ => none

/-- A function `K` with its grid: the static grid is made at the first call. -/
noncomputable def evalGrid (sp : Interp2d) (d : GridData) (k : ℕ → ℕ → ℝ) (m2 T : ℝ) : Outcome (Option ℝ) := do
  let z ← fill d.msg.length d.tg.length k
  ok (spline2dEval sp d.msg d.tg z m2 T)

/-- `K1fermion`, KfactorsinterpolatedGSL.cpp:282-291, with `initializeK1fermionGrid`, 61-82. -/
noncomputable def rawK1fermion (sp : Interp2d) (d : GridData) := evalGrid sp d d.k1p
/-- `K1boson`, KfactorsinterpolatedGSL.cpp:293-302, with `initializeK1bosonGrid`, 83-104. -/
noncomputable def rawK1boson (sp : Interp2d) (d : GridData) := evalGrid sp d d.k1m
/-- `K2fermion`, KfactorsinterpolatedGSL.cpp:304-313, with `initializeK2fermionGrid`, 105-126. -/
noncomputable def rawK2fermion (sp : Interp2d) (d : GridData) := evalGrid sp d d.k2p
/-- `K4fermion`, KfactorsinterpolatedGSL.cpp:315-324, with `initializeK4fermionGrid`, 127-148. -/
noncomputable def rawK4fermion (sp : Interp2d) (d : GridData) := evalGrid sp d d.k4p
/-- `K4boson`, KfactorsinterpolatedGSL.cpp:326-335, with `initializeK4bosonGrid`, 149-170. -/
noncomputable def rawK4boson (sp : Interp2d) (d : GridData) := evalGrid sp d d.k4m
/-- `K5fermion`, KfactorsinterpolatedGSL.cpp:337-346, with `initializeK5fermionGrid`, 171-192. -/
noncomputable def rawK5fermion (sp : Interp2d) (d : GridData) := evalGrid sp d d.k5p
/-- `K5boson`, KfactorsinterpolatedGSL.cpp:348-357, with `initializeK5bosonGrid`, 193-214. -/
noncomputable def rawK5boson (sp : Interp2d) (d : GridData) := evalGrid sp d d.k5m
/-- `K6fermion`, KfactorsinterpolatedGSL.cpp:359-368, with `initializeK6fermionGrid`, 215-236. -/
noncomputable def rawK6fermion (sp : Interp2d) (d : GridData) := evalGrid sp d d.k6p
/-- `K8fermion`, KfactorsinterpolatedGSL.cpp:370-379, with `initializeK8fermionGrid`, 237-258. -/
noncomputable def rawK8fermion (sp : Interp2d) (d : GridData) := evalGrid sp d d.k8p
/-- `K9fermion`, KfactorsinterpolatedGSL.cpp:381-390, with `initializeK9fermionGrid`, 259-280. -/
noncomputable def rawK9fermion (sp : Interp2d) (d : GridData) := evalGrid sp d d.k9p

/-- `for (x = start; x <= stop; x += step)`, Kfactor_grid.cpp:166-171, without rounding; `fuel` bounds the number
of points. -/
noncomputable def axis (stop step : ℝ) : ℕ → ℝ → List ℝ
  | 0, _ => []
  | fuel + 1, x => if x ≤ stop then x :: axis stop step fuel (x + step) else []

/-- `masslist`, Kfactor_grid.cpp:165-169. -/
noncomputable def massList : List ℝ := axis 5 (1 / 1000) 6000 0 ++ axis (200 ^ 2) 5 8100 10

/-- `Tlist`, Kfactor_grid.cpp:165, 170-171. -/
noncomputable def tempList : List ℝ := axis 250 2 130 10

/-- The tables that Kfactor_grid computes, Kfactor_grid.cpp:173-200. -/
noncomputable def gridData : GridData where
  msg := massList
  tg := tempList
  k1p i j := integration (massList.getD i 0) (tempList.getD j 0) 1 1
  k2p i j := integration (massList.getD i 0) (tempList.getD j 0) 2 1
  k4p i j := integration (massList.getD i 0) (tempList.getD j 0) 4 1
  k5p i j := integration (massList.getD i 0) (tempList.getD j 0) 5 1
  k6p i j := integration (massList.getD i 0) (tempList.getD j 0) 6 1
  k8p i j := integration (massList.getD i 0) (tempList.getD j 0) 8 1
  k9p i j := integration (max (massList.getD i 0) (1 / 10 ^ 15)) (tempList.getD j 0) 9 1
  k1m i j := integration (massList.getD i 0) (tempList.getD j 0) 1 (-1)
  k4m i j := integration (massList.getD i 0) (tempList.getD j 0) 4 (-1)
  k5m i j := integration (massList.getD i 0) (tempList.getD j 0) 5 (-1)

end Verif.Kfactors
