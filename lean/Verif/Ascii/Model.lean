import Verif.Outcome
import Verif.Flt
import Mathlib.Algebra.Order.Floor.Ring
import Mathlib.Algebra.Order.Field.Basic

/-!
# Model of `AsciiPlotter`

Numbers are elements of an ordered field without rounding; `Flt` where NaN can occur.
-/

namespace Verif.Ascii

open Verif Verif.Outcome

/-- One curve, asciiplotter.h:48-51. -/
structure Curve (K : Type) where
  xs : List K
  ys : List K
  label : List Char
  marker : Char

/-- `addPlot`, asciiplotter.cpp:196-205: the arrays have `MAX_CURVES` = 10 entries, asciiplotter.h:33 and 48-51. -/
def addPlot {K : Type} (cs : List (Curve K)) (c : Curve K) : Outcome (List (Curve K)) :=
  if cs.length < 10 then ok (cs ++ [c]) else ub .outOfBounds

section

variable {K : Type} [Field K] [LinearOrder K]

/-- `max(vector<double>)`, asciiplotter.cpp:55-66. -/
def maxOf (l : List K) : Outcome K :=
  match l with
  | [] => ub .outOfBounds
  | a :: r => ok (r.foldl (fun m x => if x > m then x else m) a)

/-- `min(vector<double>)`, asciiplotter.cpp:68-79. -/
def minOf (l : List K) : Outcome K :=
  match l with
  | [] => ub .outOfBounds
  | a :: r => ok (r.foldl (fun m x => if x < m then x else m) a)

/-- `map`, asciiplotter.cpp:129-133, for a range that is not empty. -/
def mapTo (x inMin inMax outMin outMax : K) : K :=
  (x - inMin) * (outMax - outMin) / (inMax - inMin) + outMin

/-- The bin of `x`, asciiplotter.cpp:153-154: the first interval that contains it. -/
def binOf (xs : List K) (x : K) : Option Nat :=
  (List.range (xs.length - 1)).find? fun i =>
    match xs[i]?, xs[i + 1]? with
    | some a, some b => decide (x ≥ a) && decide (x ≤ b)
    | _, _ => false

/-- The new value number `num`, asciiplotter.cpp:148-164; 0 without a bin, NaN in an interval of length 0. -/
def newValue (xs ys : List K) (front back : K) (newlength num : Nat) : Outcome (Flt K) :=
  if newlength = 1 then ok (.fin 0)
  else
    let x := (num : K) / ((newlength : K) - 1) * (back - front) + front
    match binOf xs x with
    | none => ok (.fin 0)
    | some i => do
      let x1 ← idx xs i
      let x2 ← idx xs (i + 1)
      let y1 ← idx ys i
      let y2 ← idx ys (i + 1)
      if x2 - x1 = 0 then ok .nan else ok (.fin (y1 + (y2 - y1) * (x - x1) / (x2 - x1)))

/-- `resample`, asciiplotter.cpp:135-170.  A negative length makes the constructor of the vector throw. -/
def resample (xs ys : List K) (newlength : Int) : Outcome (List (Flt K)) := do
  if newlength < 0 then err .outOfRange
  else
    let n := newlength.toNat
    if ys.length = n then ok (ys.map Flt.fin)
    else
      match xs.head?, xs.getLast? with
      | some front, some back =>
        let new ← (List.range n).mapM (newValue xs ys front back n)
        if n = 0 then ub .outOfBounds
        else do
          let a ← idx ys 0
          let b ← idx ys (ys.length - 1)
          ok ((new.set 0 (.fin a)).set (n - 1) (.fin b))
      | _, _ => ub .emptyContainer

variable [FloorRing K]

/-- Conversion to `int`, which cuts off the fraction; NaN is undefined behaviour. -/
def toInt (x : K) : Int := if 0 ≤ x then ⌊x⌋ else ⌈x⌉

/-- The height at which a value is drawn, asciiplotter.cpp:270-271. -/
def cellOf (ymin ymax : K) (height : Int) (y : Flt K) : Outcome Int :=
  match y with
  | .nan => ub .overflow
  | .fin y =>
    if ymax - ymin = 0 then ub .overflow
    else ok (min (max 0 (toInt (mapTo y ymin ymax 0 (height : K)))) (height - 1))

/-- The columns left empty before and after a curve, asciiplotter.cpp:263-265. -/
def before (width : Int) (xmin xmax x : K) : Int := ⌊(width : K) * (x - xmin) / (xmax - xmin)⌋

/-- See `before`. -/
def after (width : Int) (xmin xmax x : K) : Int := ⌊(width : K) * (xmax - x) / (xmax - xmin)⌋

/-- The plane: the character in each column and height. -/
abbrev Plane := Int → Int → Char

/-- One assignment to the plane, asciiplotter.cpp:271-272: undefined outside. -/
def write (width height : Int) (p : Plane) (col row : Int) (c : Char) : Outcome Plane :=
  if 0 ≤ col ∧ col < width ∧ 0 ≤ row ∧ row < height then
    ok fun i j => if i = col ∧ j = row then c else p i j
  else ub .outOfBounds

/-- The loop over the values of one curve, asciiplotter.cpp:268-273, from column `col` on. -/
def drawValues (width height : Int) (ymin ymax : K) (marker : Char) : List (Flt K) → Int → Plane → Outcome Plane
  | [], _, p => ok p
  | y :: r, col, p => do
    let row ← cellOf ymin ymax height y
    let p ← write width height p col row marker
    drawValues width height ymin ymax marker r (col + 1) p

/-- One curve, asciiplotter.cpp:261-274.  A range of the first coordinate of length 0 gives 0/0. -/
def drawCurve (width height : Int) (xmin xmax ymin ymax : K) (p : Plane) (c : Curve K) : Outcome Plane :=
  match c.xs.head?, c.xs.getLast? with
  | some front, some back =>
    if xmax - xmin = 0 then ub .overflow
    else do
      let b := before width xmin xmax front
      let ys ← resample c.xs c.ys (width - b - after width xmin xmax back)
      drawValues width height ymin ymax c.marker ys b p
  | _, _ => ub .emptyContainer

/-- `min(double, double)` and `max(double, double)` over the curves, asciiplotter.cpp:105-127 and 217-224. -/
def xRange (cs : List (Curve K)) : Outcome (K × K) :=
  match cs with
  | [] => ub .emptyContainer
  | c :: _ => do
    match c.xs.head?, c.xs.getLast? with
    | some a, some b =>
      cs.foldlM (fun r c =>
        match c.xs.head?, c.xs.getLast? with
        | some a, some b => ok ((if r.1 < a then r.1 else a), (if r.2 > b then r.2 else b))
        | _, _ => ub .emptyContainer) (a, b)
    | _, _ => ub .emptyContainer

/-- The range of values, asciiplotter.cpp:226-227 and 245-259: lowest and highest. -/
def yRange (cs : List (Curve K)) : Outcome (K × K) :=
  cs.foldlM (fun r c => do
    let mx ← maxOf c.ys
    let mn ← minOf c.ys
    ok ((if mn < r.1 then mn else r.1), (if mx > r.2 then mx else r.2))) (10 ^ 15, 1 / 10 ^ 15)

/-- The plane of `show`, asciiplotter.cpp:214-274, with the printed ranges. -/
def plane (width height : Int) (cs : List (Curve K)) : Outcome (Plane × (K × K) × (K × K)) := do
  let xr ← xRange cs
  let yr ← yRange cs
  let p ← cs.foldlM (drawCurve width height xr.1 xr.2 yr.1 yr.2) (fun _ _ => ' ')
  ok (p, xr, yr)

end

/-- The number of blanks before the title, asciiplotter.cpp:280-282, in unsigned 64-bit numbers (`_width` is converted). -/
def titleBlanks (width : Nat) (title : List Char) : Nat :=
  let m := 2 ^ 64
  (10 + (width + m - title.length) % m / 2 + m - 1) % m

/-- The blanks after a label of the legend, asciiplotter.cpp:384. -/
def legendBlanks (width : Nat) (label : List Char) : Nat :=
  let m := 2 ^ 64
  ((width + m - label.length) % m + m - 5) % m

/-- The markers of the phases, minimum_tracer.cpp:2202 and 2239: the array includes the terminating NUL. -/
def phaseMarker (it : Nat) : Char := ['.', '*', 'o', 'x', '-', 'c', 's', '\x00'].getD (it % 8) ' '

end Verif.Ascii
