import Mathlib.Analysis.SpecialFunctions.Sqrt
import Verif.Spline.Model

/-!
# Making a spline monotone, src/utility/spline/spline.cpp:292-348
-/

namespace Verif.Spline

/-- The state of the loops of `make_monotonic`: the slopes and whether one was changed. -/
structure Mono where
  b : Nat → ℝ
  modified : Bool

/-- One pass of the first loop, spline.cpp:301-311: a slope against monotone data becomes zero. -/
noncomputable def monoSign (n : Nat) (y : Nat → ℝ) (m : Mono) (i : Nat) : Mono :=
  let im1 := i - 1
  let ip1 := min (i + 1) (n - 1)
  if (y im1 ≤ y i ∧ y i ≤ y ip1 ∧ m.b i < 0) ∨ (y im1 ≥ y i ∧ y i ≥ y ip1 ∧ m.b i > 0) then
    { b := setVec m.b i 0, modified := true }
  else m

/-- One pass of the second loop, spline.cpp:315-339: too large slopes at the ends of a monotone
interval are scaled down. -/
noncomputable def monoScale (x y : Nat → ℝ) (m : Mono) (i : Nat) : Mono :=
  let h := x (i + 1) - x i
  let avg := (y (i + 1) - y i) / h
  if avg = 0 ∧ (m.b i ≠ 0 ∨ m.b (i + 1) ≠ 0) then
    { b := setVec (setVec m.b i 0) (i + 1) 0, modified := true }
  else if (m.b i ≥ 0 ∧ m.b (i + 1) ≥ 0 ∧ avg > 0) ∨ (m.b i ≤ 0 ∧ m.b (i + 1) ≤ 0 ∧ avg < 0) then
    let r := Real.sqrt (m.b i * m.b i + m.b (i + 1) * m.b (i + 1)) / |avg|
    if r > 3 then
      let b1 := setVec m.b i (m.b i * (3 / r))
      { b := setVec b1 (i + 1) (b1 (i + 1) * (3 / r)), modified := true }
    else m
  else m

/-- `make_monotonic`, spline.cpp:292-349: the spline and the value returned. -/
noncomputable def makeMonotonic (s : Spl ℝ) : Spl ℝ × Bool :=
  let m1 := (List.range s.n).foldl (monoSign s.n s.y) { b := s.b, modified := false }
  let m2 := (List.range (s.n - 1)).foldl (monoScale s.x s.y) m1
  if m2.modified then ({ setCoeffsFromB { s with b := m2.b } with madeMonotonic := true }, true)
  else (s, false)

end Verif.Spline
