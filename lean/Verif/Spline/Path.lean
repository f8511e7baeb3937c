import Mathlib.Algebra.BigOperators.Group.Finset.Basic
import Verif.Outcome
import Verif.Spline.Monotone

/-!
# Paths in field space, src/utility/const_velocity_spline.cpp

A path is the number of its points, the number of fields and the function from the index of a point
and the index of a field to the value. `fl` is the conversion of a double to `float`
(`linL` and `L` are floats).
-/

namespace Verif.Spline

open scoped BigOperators

/-- `L2NormVector`, utility.cpp:56-65. -/
noncomputable def norm2 (dim : Nat) (v : Nat → ℝ) : ℝ :=
  Real.sqrt (∑ i ∈ Finset.range dim, v i * v i)

/-- The number of points after `initialize`, const_velocity_spline.cpp:66-92. -/
def pathLen (n : Nat) : Nat := if n = 2 then 4 else n

/-- The points after `initialize`, const_velocity_spline.cpp:66-92: two middle points are added to a
path of two points. -/
noncomputable def pathPoints (n : Nat) (phi : Nat → Nat → ℝ) (i j : Nat) : ℝ :=
  if n = 2 then
    if i = 0 then phi 0 j
    else if i = 1 then phi 0 j * 2 / 3 + phi 1 j * 1 / 3
    else if i = 2 then phi 0 j * 1 / 3 + phi 1 j * 2 / 3
    else phi 1 j
  else phi i j

/-- `lin_lengths`, const_velocity_spline.cpp:96-106. -/
noncomputable def linLengths (dim : Nat) (phi : Nat → Nat → ℝ) : Nat → ℝ
  | 0 => 0
  | i + 1 => linLengths dim phi i + norm2 dim (fun j => phi (i + 1) j - phi i j)

/-- `splines[j]`, const_velocity_spline.cpp:112-125: not-a-knot conditions at both ends. -/
noncomputable def pathSpline (dim n : Nat) (phi : Nat → Nat → ℝ) (j : Nat) : Spl ℝ :=
  setPoints (setBoundary (fresh ℝ) .notAKnot 0 .notAKnot 0) n (linLengths dim phi)
    (fun i => phi i j) .cspline

/-- `lin_abs_deriv`, const_velocity_spline.cpp:22-31. -/
noncomputable def speed (dim n : Nat) (phi : Nat → Nat → ℝ) (x : ℝ) : ℝ :=
  Real.sqrt (∑ j ∈ Finset.range dim, deriv (pathSpline dim n phi j) 1 x ^ 2)

/-- `Simpson_step`, const_velocity_spline.cpp:32-44. -/
noncomputable def simpsonStep (f : ℝ → ℝ) (t0 t1 : ℝ) : ℝ :=
  (f t0 + 3 * f ((2 * t0 + t1) / 3) + 3 * f ((t0 + 2 * t1) / 3) + f t1) * (t1 - t0) / 8

/-- `list_x`, const_velocity_spline.cpp:128-138. -/
noncomputable def listX (step : ℝ) : Nat → ℝ
  | 0 => 0
  | i + 1 => listX step i + step

/-- `list_l`, const_velocity_spline.cpp:128-139: the limits of the integration step are values of
`list_l`, not of `list_x`. -/
noncomputable def listL (f : ℝ → ℝ) (step : ℝ) : Nat → ℝ
  | 0 => 0
  | i + 1 => listL f step i + simpsonStep f (listL f step i) (listL f step i + step)

/-- The members `initialize` sets, const_velocity_spline.cpp:61-151. -/
structure Path where
  dim : Nat
  n : Nat
  phi : Nat → Nat → ℝ
  numInter : Nat
  linL : ℝ
  L : ℝ
  xToL : Spl ℝ
  lToX : Spl ℝ

/-- `initialize`, const_velocity_spline.cpp:64-153. -/
noncomputable def initPath (fl : ℝ → ℝ) (dim n numInter : Nat) (phi0 : Nat → Nat → ℝ) : Path :=
  let m := pathLen n
  let phi := pathPoints n phi0
  let linL := fl (linLengths dim phi (m - 1))
  let step := linL / numInter
  let lx := listX step
  let ll := listL (speed dim m phi) step
  { dim := dim, n := m, phi := phi, numInter := numInter, linL := linL
    L := fl (ll numInter)
    xToL := setPoints (fresh ℝ) (numInter + 1) lx ll .cspline
    lToX := setPoints (fresh ℝ) (numInter + 1) ll lx .cspline }

/-- `vev_position[i]`, const_velocity_spline.cpp:146-153. -/
noncomputable def Path.position (p : Path) (i : Nat) : ℝ := eval p.xToL (linLengths p.dim p.phi i)

/-- `operator()`, const_velocity_spline.cpp:269-279. -/
noncomputable def Path.point (p : Path) (l : ℝ) (j : Nat) : ℝ :=
  eval (pathSpline p.dim p.n p.phi j) (eval p.lToX l)

/-- `deriv`, const_velocity_spline.cpp:214-224. -/
noncomputable def Path.deriv (p : Path) (order : Nat) (x : ℝ) (j : Nat) : ℝ :=
  Spline.deriv (pathSpline p.dim p.n p.phi j) order x

/-- `dl`, const_velocity_spline.cpp:226-243. -/
noncomputable def Path.dl (p : Path) (l : ℝ) (j : Nat) : ℝ :=
  p.deriv 1 (eval p.lToX l) j
    / Real.sqrt (∑ k ∈ Finset.range p.dim,
        p.deriv 1 (eval p.lToX l) k * p.deriv 1 (eval p.lToX l) k)

/-- `d2l`, const_velocity_spline.cpp:244-268. -/
noncomputable def Path.d2l (p : Path) (l : ℝ) (j : Nat) : ℝ :=
  let x := eval p.lToX l
  (p.deriv 2 x j - p.dl l j * Spline.deriv p.xToL 2 x) / Spline.deriv p.xToL 1 x ^ 2

/-- The loop of `add_point`, const_velocity_spline.cpp:178-201, with `vev_position` a list. The
floor and the ceiling of the integer division are the same number. `none`: no end within `fuel`
passes; `some none` inside: nothing is added. -/
noncomputable def addLoop (pos : List ℝ) (p : ℝ) (lower upper : Nat) :
    Nat → Option (Outcome (Option Nat))
  | 0 => none
  | fuel + 1 =>
    if upper - lower = 1 then some (.ok (some upper))
    else
      let mid := (upper + lower) / 2
      match Outcome.idx pos upper with
      | .err e => some (.err e)
      | .ub u => some (.ub u)
      | .ok pu =>
        if pu = mid then some (.ok none)
        else
          match Outcome.idx pos lower with
          | .err e => some (.err e)
          | .ub u => some (.ub u)
          | .ok pl =>
            if pl = mid then some (.ok none)
            else
              match Outcome.idx pos mid with
              | .err e => some (.err e)
              | .ub u => some (.ub u)
              | .ok pm =>
                addLoop pos p (if pm < p then mid else lower) (if pm > p then mid else upper) fuel

/-- `add_point` without `compile`, const_velocity_spline.cpp:154-206: the points afterwards. -/
noncomputable def addPoint (points : List (List ℝ)) (pos : List ℝ) (L p : ℝ) (new : List ℝ)
    (fuel : Nat) : Option (Outcome (List (List ℝ))) :=
  if p < 0 then some (.ok (new :: points))
  else if p > L then some (.ok (points ++ [new]))
  else
    match addLoop pos p 0 points.length fuel with
    | none => none
    | some (.err e) => some (.err e)
    | some (.ub u) => some (.ub u)
    | some (.ok none) => some (.ok points)
    | some (.ok (some k)) => some (.ok (points.take k ++ new :: points.drop k))

end Verif.Spline
