import Mathlib.Algebra.Order.Floor.Ring
import Mathlib.Algebra.Order.Field.Basic
import Mathlib.Data.List.Basic

/-!
# What a plot in characters should show

Written without the model: data are lists of coordinates and values.
-/

namespace Verif.Ascii.Spec

variable {K : Type} [Field K] [LinearOrder K]

/-- `(x, y)` lies on the polygon through the data. -/
def OnPolygon (xs ys : List K) (x y : K) : Prop :=
  ∃ (i : Nat) (x1 x2 y1 y2 : K), xs[i]? = some x1 ∧ xs[i + 1]? = some x2 ∧
    ys[i]? = some y1 ∧ ys[i + 1]? = some y2 ∧ x1 ≤ x ∧ x ≤ x2 ∧
    (y - y1) * (x2 - x1) = (y2 - y1) * (x - x1)

/-- Data that can be plotted: at least two points, the coordinates increase strictly. -/
structure Good (xs ys : List K) : Prop where
  two : 2 ≤ xs.length
  same : ys.length = xs.length
  incr : xs.Pairwise (· < ·)

/-- Equidistant coordinates. -/
def Equidistant (xs : List K) : Prop :=
  ∃ a d : K, ∀ (i : Nat) (x : K), xs[i]? = some x → x = a + i * d

/-- The coordinate of column `k` out of `n` columns from `front` to `back`. -/
def columnX (front back : K) (n k : Int) : K :=
  if n = 1 then back else front + (k : K) / ((n : K) - 1) * (back - front)

/-- The line of a value in a plot with `height` lines for the range from `lo` to `hi`; the upper end belongs to
the highest line. -/
def IsRow (height : Int) (lo hi y : K) (r : Int) : Prop :=
  0 ≤ r ∧ r < height ∧ (r : K) * (hi - lo) ≤ (y - lo) * height ∧
    ((y - lo) * height < ((r : K) + 1) * (hi - lo) ∨ (r + 1 = height ∧ y = hi))

variable [FloorRing K]

/-- The data are drawn in column `j` and line `r` of a plot of the given size and ranges: the whole columns before the
first and after the last point stay empty, the others share the range of the data, and each shows the height of the
polygon. -/
def Draws (width height : Int) (xlo xhi ylo yhi : K) (xs ys : List K) (j r : Int) : Prop :=
  ∃ front back : K, xs.head? = some front ∧ xs.getLast? = some back ∧
    let b := ⌊(width : K) * (front - xlo) / (xhi - xlo)⌋
    let a := ⌊(width : K) * (xhi - back) / (xhi - xlo)⌋
    b ≤ j ∧ j < width - a ∧
      ∃ y, OnPolygon xs ys (columnX front back (width - b - a) (j - b)) y ∧ IsRow height ylo yhi y r

end Verif.Ascii.Spec
