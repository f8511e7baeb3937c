import Verif.Outcome
import Mathlib.Analysis.Calculus.Deriv.Basic
import Mathlib.Algebra.BigOperators.Group.Finset.Basic
import Mathlib.Data.Fintype.Basic
import Mathlib.Data.Rat.Cast.Defs

/-!
# What transport equations mean

A reaction creates `ν s` particles of each species `s`.  Its net rate is driven by the chemical potentials
`μ s = n s / κ s` and is proportional to `−Σ ν s μ s`, so that it relaxes to equilibrium.
-/

namespace Verif.Via.Spec

open Verif Outcome

/-- A function solves the equations with densities that vanish at the start. -/
structure Solves {n : Nat} (rhs : (Fin n → ℝ) → ℝ → Outcome (Fin n → ℝ)) (zend zstart : ℝ)
    (w : ℝ → Fin n → ℝ) : Prop where
  start : w zstart = 0
  deriv : ∀ z ∈ Set.Icc zend zstart, ∃ d, rhs (w z) z = ok d ∧ HasDerivWithinAt w d (Set.Icc zend zstart) z

/-- The particles: the third generation, two Higgs doublets, and the four light quarks with their two
left-handed doublets. -/
inductive Species
  | q | t | b | l | nu | rtau | h1 | h2
  | q1 | q2 | u | d | c | s
  deriving DecidableEq

open Species in
instance : Fintype Species :=
  ⟨{q, t, b, l, nu, rtau, h1, h2, q1, q2, u, d, c, s}, by intro x; cases x <;> decide⟩

/-- A reaction. -/
structure Reaction where
  rate : ℝ
  creates : Species → ℤ

/-- The driving force of a reaction. -/
noncomputable def force (μ : Species → ℝ) (x : Reaction) : ℝ := -∑ i, (x.creates i : ℝ) * μ i

/-- The number of particles of a species that reactions create. -/
noncomputable def created (μ : Species → ℝ) (l : List Reaction) (i : Species) : ℝ :=
  (l.map fun x => (x.creates i : ℝ) * (x.rate * force μ x)).sum

open Species

/-- A fermion mass changes right-handed to left-handed particles. -/
def mass (right left : Species) (rate : ℝ) : Reaction :=
  ⟨rate, fun i => if i = left then 1 else if i = right then -1 else 0⟩

/-- An up-type Yukawa coupling changes right-handed to left-handed particles and Higgs bosons. -/
def upYukawa (right left : Species) (rate : ℝ) : Reaction :=
  ⟨rate, fun i => if i = left then 1 else if i = right then -1 else if i = h1 ∨ i = h2 then 1 else 0⟩

/-- A down-type Yukawa coupling involves the antiparticles of the Higgs bosons. -/
def downYukawa (right left : Species) (rate : ℝ) : Reaction :=
  ⟨rate, fun i => if i = left then 1 else if i = right then -1 else if i = h1 ∨ i = h2 then -1 else 0⟩

/-- The strong sphaleron changes two left-handed quarks of each generation into right-handed quarks. -/
def sphaleron (rate : ℝ) : Reaction :=
  ⟨rate, fun i => match i with
    | q | q1 | q2 => -2
    | t | b | u | d | c | s => 1
    | _ => 0⟩

/-- Right-handed light quarks all have the same density, and each light doublet balances its two
right-handed quarks. -/
structure Light (n : Species → ℝ) : Prop where
  d : n d = n u
  c : n c = n u
  s : n s = n u
  q1 : n q1 = -(n u + n Species.d)
  q2 : n q2 = -(n Species.c + n Species.s)

end Verif.Via.Spec
