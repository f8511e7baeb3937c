import Verif.Flt
import Verif.Outcome
import Mathlib.Analysis.SpecialFunctions.Log.Basic

/-!
# The loop functions of two, three and four squared masses

`fbase`, `fbaseTri` and `fbaseFour` of `Class_Potential_Origin` over the real numbers without
rounding.  The logarithm of a negative number is NaN in the code; the functions with three and four
masses throw when the result is NaN.  After the comparisons no denominator is zero, so the result is
never infinite.  The renormalisation scale is positive.
-/

namespace Verif.Potential

open Outcome

noncomputable section

open Classical

/-- `LogA`, …: `log(m) - 2 log(scale)`, and 0 if the mass is zero,
ClassPotentialOrigin.cpp:296, 305-307. -/
def lg (s x : ℝ) : ℝ := if x = 0 then 0 else Real.log x - 2 * Real.log s

/-- A result that uses the logarithms of `ms`; NaN is thrown as a `runtime_error`,
ClassPotentialOrigin.cpp:370-387, 837-854. -/
def ck (ms : List ℝ) (v : ℝ) : Outcome ℝ := if ∃ m ∈ ms, m < 0 then .err .runtime else .ok v

/-- The same for `fbase`, which returns NaN. -/
def fk (ms : List ℝ) (v : ℝ) : Flt ℝ := if ∃ m ∈ ms, m < 0 then .nan else .fin v

/-- `Class_Potential_Origin::fbase`, ClassPotentialOrigin.cpp:859-884. -/
def fbase (s a b : ℝ) : Flt ℝ :=
  if a = 0 ∧ b = 0 then .fin 1
  else if |a - b| > 1 / 10 ^ 5 then
    if a = 0 then fk [b] (lg s b)
    else if b = 0 then fk [a] (lg s a)
    else fk [a, b] ((lg s a * a - lg s b * b) / (a - b))
  else fk [a] (1 + lg s a)

/-- `if (std::abs(m) < Thres) m = 0`, ClassPotentialOrigin.cpp:298-300, 403-406. -/
def zeroed (t m : ℝ) : ℝ := if |m| < t then 0 else m

/-- `if (std::abs(x - y) < Thres) x = y`, ClassPotentialOrigin.cpp:301-303, 407-412. -/
def merged (t x y : ℝ) : ℝ := if |x - y| < t then y else x

/-- The formulas of `fbaseTri` after the masses have been rounded,
ClassPotentialOrigin.cpp:309-366. -/
def triBranch (s a b c : ℝ) : Outcome ℝ :=
  if a = 0 ∧ b = 0 ∧ c = 0 then .ok 0
  else if a ≠ 0 ∧ b = 0 ∧ c = 0 then ck [a] (1 / a * (lg s a - 1))
  else if a = 0 ∧ b ≠ 0 ∧ c = 0 then ck [b] ((lg s b - 1) / b)
  else if a = 0 ∧ b = 0 ∧ c ≠ 0 then ck [c] ((lg s c - 1) / c)
  else if a = b ∧ a ≠ 0 ∧ a ≠ c ∧ c ≠ 0 then
    ck [c / b] ((b - c + c * Real.log (c / b)) / (b - c) ^ 2)
  else if a = c ∧ a ≠ 0 ∧ a ≠ b ∧ b ≠ 0 then
    ck [b / c] ((b * Real.log (b / c) - b + c) / (b - c) ^ 2)
  else if b = c ∧ a ≠ 0 ∧ b ≠ a ∧ b ≠ 0 then
    ck [a / c] ((a * Real.log (a / c) - a + c) / (a - c) ^ 2)
  else if a = b ∧ a = c ∧ a ≠ 0 then .ok (1 / (2 * c))
  else if a = b ∧ a ≠ c ∧ a ≠ 0 ∧ c = 0 then .ok (1 / b)
  else if a = c ∧ a ≠ b ∧ a ≠ 0 ∧ b = 0 then .ok (1 / a)
  else if b = c ∧ b ≠ 0 ∧ b ≠ a ∧ a = 0 then .ok (1 / b)
  else
    ck [a, b, c] (a * lg s a / ((a - b) * (a - c)) + b * lg s b / ((b - a) * (b - c)) +
      c * lg s c / ((c - a) * (c - b)))

/-- `Class_Potential_Origin::fbaseTri`, ClassPotentialOrigin.cpp:288-387. -/
def fbaseTri (s a b c : ℝ) : Outcome ℝ :=
  let t : ℝ := 1 / 10 ^ 8
  let a := zeroed t a
  let b := zeroed t b
  let c := zeroed t c
  let a := merged t a b
  let a := merged t a c
  let b := merged t b c
  triBranch s a b c

/-- The formulas of `fbaseFour` after the masses have been rounded, with the numbers of the branches
in the code, ClassPotentialOrigin.cpp:419-835.  The inner `.ok 0` are the missing `else` branches of
a single vanishing mass: `res` keeps its initial value. -/
def fourBranch (s a b c d : ℝ) : Outcome ℝ :=
  if a = 0 ∧ b = 0 ∧ c = 0 ∧ d = 0 then -- C = 1
    ck [] (0)
  else if a ≠ 0 ∧ b = 0 ∧ c = 0 ∧ d = 0 then -- C = 2
    ck [a] (lg s a / (a * a))
  else if a = 0 ∧ b ≠ 0 ∧ c = 0 ∧ d = 0 then -- C = 3
    ck [b] (lg s b / (b * b))
  else if a = 0 ∧ b = 0 ∧ c ≠ 0 ∧ d = 0 then -- C = 4
    ck [c] (lg s c / (c * c))
  else if a = 0 ∧ b = 0 ∧ c = 0 ∧ d ≠ 0 then -- C = 5
    ck [d] (lg s d / (d * d))
  else if a = b ∧ a ≠ 0 ∧ c = 0 ∧ d = 0 then -- C = 6
    ck [a] ((2 - lg s a) / (a * a))
  else if a = c ∧ a ≠ 0 ∧ b = 0 ∧ d = 0 then -- C = 7
    ck [a] ((2 - lg s a) / (a * a))
  else if a = d ∧ a ≠ 0 ∧ b = 0 ∧ c = 0 then -- C = 8
    ck [a] ((2 - lg s a) / (a * a))
  else if b = c ∧ b ≠ 0 ∧ a = 0 ∧ d = 0 then -- C = 9
    ck [b] ((2 - lg s b) / (b * b))
  else if b = d ∧ b ≠ 0 ∧ a = 0 ∧ c = 0 then -- C = 10
    ck [b] ((2 - lg s b) / (b * b))
  else if c = d ∧ c ≠ 0 ∧ a = 0 ∧ b = 0 then -- C = 11
    ck [c] ((2 - lg s c) / (c * c))
  else if a ≠ 0 ∧ b ≠ 0 ∧ a ≠ b ∧ c = 0 ∧ d = 0 then -- C = 12
    ck [a, b] (1 / (a * b) + (b * lg s a - a * lg s b) / (a * b * (a - b)))
  else if a ≠ 0 ∧ c ≠ 0 ∧ a ≠ c ∧ b = 0 ∧ d = 0 then -- C = 13
    ck [a, c] (1 / (a * c) + (c * lg s a - a * lg s c) / (a * c * (a - c)))
  else if a ≠ 0 ∧ d ≠ 0 ∧ a ≠ d ∧ b = 0 ∧ c = 0 then -- C = 14
    ck [a, d] (1 / (a * d) + (d * lg s a - a * lg s d) / (a * d * (a - d)))
  else if b ≠ 0 ∧ c ≠ 0 ∧ b ≠ c ∧ a = 0 ∧ d = 0 then -- C = 15
    ck [b, c] (1 / (b * c) + (c * lg s b - b * lg s c) / (b * c * (b - c)))
  else if b ≠ 0 ∧ d ≠ 0 ∧ b ≠ d ∧ a = 0 ∧ c = 0 then -- C = 16
    ck [b, d] (1 / (b * d) + (d * lg s b - b * lg s d) / (b * d * (b - d)))
  else if c ≠ 0 ∧ d ≠ 0 ∧ c ≠ d ∧ a = 0 ∧ b = 0 then -- C = 17
    ck [c, d] (1 / (c * d) + (d * lg s c - c * lg s d) / (c * d * (c - d)))
  else if a = 0 ∧ b = c ∧ b = d ∧ b ≠ 0 then -- C = 18
    ck [] (-1 / (2 * b * b))
  else if b = 0 ∧ a = c ∧ a = d ∧ a ≠ 0 then -- C = 19
    ck [] (-1 / (2 * a * a))
  else if c = 0 ∧ a = b ∧ a = d ∧ a ≠ 0 then -- C = 20
    ck [] (-1 / (2 * a * a))
  else if d = 0 ∧ a = b ∧ a = c ∧ a ≠ 0 then -- C = 21
    ck [] (-1 / (2 * a * a))
  else if a = 0 ∧ b ≠ 0 ∧ c ≠ 0 ∧ d ≠ 0 then
    if b = c ∧ d ≠ b then -- C = 22
      ck [b, d] ((b - d + b * lg s d - b * lg s b) / (b * (b - d) * (b - d)))
    else if b = d ∧ c ≠ b then -- C = 23
      ck [b, c] ((b - c + b * lg s c - b * lg s b) / (b * (b - c) * (b - c)))
    else if c = d ∧ b ≠ c then -- C = 24
      ck [b, c] ((c - b + c * lg s b - c * lg s c) / (c * (b - c) * (b - c)))
    else .ok 0
  else if a ≠ 0 ∧ b = 0 ∧ c ≠ 0 ∧ d ≠ 0 then
    if a = c ∧ d ≠ a then -- C = 25
      ck [a, d] ((a - d + a * lg s d - a * lg s a) / (a * (a - d) * (a - d)))
    else if a = d ∧ c ≠ a then -- C = 26
      ck [a, c] ((a - c + a * lg s c - a * lg s a) / (a * (a - c) * (a - c)))
    else if c = d ∧ a ≠ c then -- C = 27
      ck [a, c] ((c - a + c * lg s a - c * lg s c) / (c * (c - a) * (c - a)))
    else .ok 0
  else if a ≠ 0 ∧ b ≠ 0 ∧ c = 0 ∧ d ≠ 0 then
    if a = b ∧ d ≠ a then -- C = 28
      ck [a, d] ((a - d + a * lg s d - a * lg s a) / (a * (a - d) * (a - d)))
    else if a = d ∧ b ≠ a then -- C = 29
      ck [a, b] ((a - b + a * lg s b - a * lg s a) / (a * (a - b) * (a - b)))
    else if b = d ∧ a ≠ b then -- C = 30
      ck [a, b] ((b - a + b * lg s a - b * lg s b) / (b * (a - b) * (a - b)))
    else .ok 0
  else if a ≠ 0 ∧ b ≠ 0 ∧ c ≠ 0 ∧ d = 0 then
    if a = b ∧ c ≠ a then -- C = 31
      ck [a, c] ((a - c + a * lg s c - a * lg s a) / (a * (a - c) * (a - c)))
    else if a = c ∧ b ≠ a then -- C = 32
      ck [a, b] ((a - b + a * lg s b - a * lg s a) / (a * (a - b) * (a - b)))
    else if b = c ∧ a ≠ b then -- C = 33
      ck [a, b] ((b - a + b * lg s a - b * lg s b) / (b * (a - b) * (a - b)))
    else .ok 0
  else if a = 0 ∧ b ≠ c ∧ b ≠ d ∧ c ≠ d ∧ b ≠ 0 ∧ c ≠ 0 ∧ d ≠ 0 then -- C = 34
    ck [b, c, d] (lg s b / (b - c) / (b - d) + lg s c / (c - b) / (c - d) + lg s d / (d - b) / (d
      - c))
  else if b = 0 ∧ a ≠ c ∧ a ≠ d ∧ c ≠ d ∧ a ≠ 0 ∧ c ≠ 0 ∧ d ≠ 0 then -- C = 35
    ck [a, c, d] (lg s a / (a - c) / (a - d) + lg s c / (c - a) / (c - d) + lg s d / (d - a) / (d
      - c))
  else if c = 0 ∧ a ≠ b ∧ a ≠ d ∧ b ≠ d ∧ a ≠ 0 ∧ b ≠ 0 ∧ d ≠ 0 then -- C = 36
    ck [a, b, d] (lg s a / (a - b) / (a - d) + lg s b / (b - a) / (b - d) + lg s d / (d - a) / (d
      - b))
  else if d = 0 ∧ a ≠ b ∧ a ≠ c ∧ b ≠ c ∧ a ≠ 0 ∧ b ≠ 0 ∧ c ≠ 0 then -- C = 37
    ck [a, b, c] (lg s a / (a - b) / (a - c) + lg s b / (b - a) / (b - c) + lg s c / (c - a) / (c
      - b))
  else if a = b ∧ b = c ∧ c = d ∧ a ≠ 0 then -- C = 38
    ck [] (-1 / (6 * a * a))
  else if a = b ∧ c ≠ d ∧ a ≠ c ∧ a ≠ d ∧ a ≠ 0 ∧ c ≠ 0 ∧ d ≠ 0 then -- C = 39
    ck [a, c, d] ((c * (a - d) * (a - d) * lg s c - d * (a - c) * (a - c) * lg s d + (c - d) * ((a
      - c) * (a - d) + (-a * a + c * d) * lg s a)) / ((a - c) * (a - c) * (a - d) * (a - d) * (c -
      d)))
  else if a = c ∧ b ≠ d ∧ a ≠ b ∧ a ≠ d ∧ a ≠ 0 ∧ b ≠ 0 ∧ d ≠ 0 then -- C = 40
    ck [a, b, d] ((b * (a - d) * (a - d) * lg s b - d * (a - b) * (a - b) * lg s d + (b - d) * ((a
      - b) * (a - d) + (-a * a + b * d) * lg s a)) / ((a - b) * (a - b) * (a - d) * (a - d) * (b -
      d)))
  else if a = d ∧ b ≠ c ∧ a ≠ b ∧ a ≠ c ∧ a ≠ 0 ∧ b ≠ 0 ∧ c ≠ 0 then -- C = 41
    ck [a, b, c] ((b * (a - c) * (a - c) * lg s b - c * (a - b) * (a - b) * lg s c + (b - c) * ((a
      - b) * (a - c) + (-a * a + b * c) * lg s a)) / ((a - b) * (a - b) * (a - c) * (a - c) * (b -
      c)))
  else if b = c ∧ a ≠ d ∧ b ≠ a ∧ b ≠ d ∧ b ≠ 0 ∧ a ≠ 0 ∧ d ≠ 0 then -- C = 42
    ck [a, b, d] ((a * (b - d) * (b - d) * lg s a - d * (a - b) * (a - b) * lg s d + (a - d) *
      (-(a - b) * (b - d) + (-b * b + a * d) * lg s b)) / ((a - b) * (a - b) * (b - d) * (b - d) *
      (a - d)))
  else if b = d ∧ a ≠ c ∧ b ≠ a ∧ b ≠ c ∧ b ≠ 0 ∧ a ≠ 0 ∧ c ≠ 0 then -- C = 43
    ck [a, b, c] ((a * (b - c) * (b - c) * lg s a - c * (a - b) * (a - b) * lg s c + (a - c) *
      (-(a - b) * (b - c) + (-b * b + a * c) * lg s b)) / ((a - b) * (a - b) * (b - c) * (b - c) *
      (a - c)))
  else if c = d ∧ a ≠ b ∧ c ≠ a ∧ c ≠ b ∧ c ≠ 0 ∧ c ≠ 0 ∧ d ≠ 0 then -- C = 44
    ck [a, b, c] ((a * (b - c) * (b - c) * lg s a - b * (a - c) * (a - c) * lg s b + (a - b) * ((a
      - c) * (b - c) + (-c * c + a * b) * lg s c)) / ((a - c) * (a - c) * (b - c) * (b - c) * (a -
      b)))
  else if a = b ∧ c = d ∧ a ≠ c ∧ a ≠ 0 ∧ c ≠ 0 then -- C = 45
    ck [a, c] ((2 * (a - c) + (a + c) * (lg s c - lg s a)) / ((a - c) * (a - c) * (a - c)))
  else if a = c ∧ b = d ∧ a ≠ b ∧ a ≠ 0 ∧ b ≠ 0 then -- C = 46
    ck [a, b] ((2 * (a - b) + (a + b) * (lg s b - lg s a)) / ((a - b) * (a - b) * (a - b)))
  else if a = d ∧ b = c ∧ a ≠ b ∧ a ≠ 0 ∧ b ≠ 0 then -- C = 47
    ck [a, b] ((2 * (a - b) + (a + b) * (lg s b - lg s a)) / ((a - b) * (a - b) * (a - b)))
  else if a = b ∧ a = c ∧ a ≠ 0 ∧ a ≠ d ∧ d ≠ 0 then -- C = 48
    ck [a, d] ((-a * a + d * d + 2 * a * d * (lg s a - lg s d)) / (2 * a * (a - d) * (a - d) * (a
      - d)))
  else if a = b ∧ a = d ∧ a ≠ 0 ∧ a ≠ c ∧ c ≠ 0 then -- C = 49
    ck [a, c] ((-a * a + c * c + 2 * a * c * (lg s a - lg s c)) / (2 * a * (a - c) * (a - c) * (a
      - c)))
  else if a = c ∧ a = d ∧ a ≠ 0 ∧ a ≠ b ∧ b ≠ 0 then -- C = 50
    ck [a, b] ((-a * a + b * b + 2 * a * b * (lg s a - lg s b)) / (2 * a * (a - b) * (a - b) * (a
      - b)))
  else if b = c ∧ b = d ∧ b ≠ 0 ∧ a ≠ b ∧ a ≠ 0 then -- C = 51
    ck [a, b] ((-b * b + a * a + 2 * b * a * (lg s b - lg s a)) / (2 * b * (b - a) * (b - a) * (b
      - a)))
  else -- C = 52
    ck [a, b, c, d] (a * lg s a / ((a - b) * (a - c) * (a - d)) +
    b * lg s b / ((b - a) * (b - c) * (b - d)) +
    c * lg s c / ((c - a) * (c - b) * (c - d)) +
    d * lg s d / ((d - a) * (d - b) * (d - c)))

/-- `Class_Potential_Origin::fbaseFour`, ClassPotentialOrigin.cpp:389-857. -/
def fbaseFour (s a b c d : ℝ) : Outcome ℝ :=
  let t : ℝ := 1 / 10 ^ 6
  let a := zeroed t a
  let b := zeroed t b
  let c := zeroed t c
  let d := zeroed t d
  let b := merged t b a
  let c := merged t c a
  let d := merged t d a
  let c := merged t c b
  let d := merged t d b
  let d := merged t d c
  fourBranch s a b c d

end

end Verif.Potential
