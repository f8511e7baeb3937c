import Mathlib.Analysis.SpecialFunctions.Log.Basic

/-!
# What the loop functions of two, three and four masses are meant to be

The divided differences of `x log(x / scale²)`.
-/

namespace Verif.Potential.Spec

open Filter Topology

noncomputable section

/-- `x log(x / s²)` (zero for `x = 0`). -/
def g (s x : ℝ) : ℝ := x * (Real.log x - 2 * Real.log s)

/-- The loop function of two different masses. -/
def loop2 (s a b : ℝ) : ℝ := g s a / (a - b) + g s b / (b - a)

/-- The loop function of three different masses. -/
def loop3 (s a b c : ℝ) : ℝ :=
  g s a / ((a - b) * (a - c)) + g s b / ((b - a) * (b - c)) + g s c / ((c - a) * (c - b))

/-- The loop function of four different masses. -/
def loop4 (s a b c d : ℝ) : ℝ :=
  g s a / ((a - b) * (a - c) * (a - d)) + g s b / ((b - a) * (b - c) * (b - d)) +
    g s c / ((c - a) * (c - b) * (c - d)) + g s d / ((d - a) * (d - b) * (d - c))

/-- Squared masses that the code can tell apart: each is zero or at least the threshold, two of them
are equal or at least the threshold apart. -/
def Separated (t : ℝ) {n : Nat} (m : Fin n → ℝ) : Prop :=
  (∀ i, m i = 0 ∨ t ≤ m i) ∧ ∀ i j, m i = m j ∨ t ≤ |m i - m j|

/-- `v` is the limit of the function of three different masses for the masses `a`, `a` and `c`. -/
def Pair3 (s a c v : ℝ) : Prop := Tendsto (fun x => loop3 s x a c) (𝓝[≠] a) (𝓝 v)

/-- `v` is the limit for three equal masses. -/
def Triple3 (s a v : ℝ) : Prop :=
  ∃ q : ℝ → ℝ, (∀ y, 0 < y → y ≠ a → Pair3 s a y (q y)) ∧ Tendsto q (𝓝[≠] a) (𝓝 v)

/-- `v` is the limit of the function of four different masses for the masses `a`, `a`, `c`, `d`. -/
def Pair4 (s a c d v : ℝ) : Prop := Tendsto (fun x => loop4 s x a c d) (𝓝[≠] a) (𝓝 v)

/-- … for the masses `a`, `a`, `c`, `c`. -/
def PairPair4 (s a c v : ℝ) : Prop :=
  ∃ q : ℝ → ℝ, (∀ y, 0 < y → y ≠ a → y ≠ c → Pair4 s a c y (q y)) ∧ Tendsto q (𝓝[≠] c) (𝓝 v)

/-- … for the masses `a`, `a`, `a`, `d`. -/
def Triple4 (s a d v : ℝ) : Prop :=
  ∃ q : ℝ → ℝ, (∀ y, 0 < y → y ≠ a → y ≠ d → Pair4 s a y d (q y)) ∧ Tendsto q (𝓝[≠] a) (𝓝 v)

/-- … for four equal masses. -/
def Quadruple4 (s a v : ℝ) : Prop :=
  ∃ q : ℝ → ℝ, (∀ y, 0 < y → y ≠ a → Triple4 s a y (q y)) ∧ Tendsto q (𝓝[≠] a) (𝓝 v)

end

end Verif.Potential.Spec
