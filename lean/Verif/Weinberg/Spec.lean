import Verif.Weinberg.Model
import Verif.Weinberg.Deriv
import Verif.Potential.TreeProps
import Mathlib.LinearAlgebra.Matrix.Charpoly.Basic

/-!
# The Coleman-Weinberg potential

The one-loop potential at zero temperature as a function of the fields, from the eigenvalues of the
field-dependent mass matrices.  Squared masses below a threshold `t` do not contribute.
-/

namespace Verif.Weinberg.Spec

open Verif.Potential Verif.Invariance Verif.Yukawa
open scoped BigOperators ComplexConjugate

noncomputable section

variable {n : Nat}

/-- `m⁴ (log(m²/μ²) - c) / (64 π²)` for the squared mass `x`. -/
def cw (t scale c x : ℝ) : ℝ :=
  if |x| < t then 0 else 1 / (64 * Real.pi ^ 2) * x ^ 2 * (Real.log |x| - 2 * Real.log scale - c)

/-- The sum over the eigenvalues of a symmetric matrix. -/
def real {m : Nat} (M : Matrix (Fin m) (Fin m) ℝ) (f : ℝ → ℝ) : ℝ := (M.charpoly.roots.map f).sum

/-- The sum over the eigenvalues of a Hermitian matrix. -/
def complex {m : Nat} (M : Matrix (Fin m) (Fin m) ℂ) (f : ℝ → ℝ) : ℝ :=
  (M.charpoly.roots.map fun z => f z.re).sum

/-- The mass matrix of the scalars: the second derivatives of the tree-level potential with the tensors
`L2`, `L3` and `L4`. -/
def scalarMatrix (c : Curv n ℝ) (φ : Fin n → ℝ) : Matrix (Fin n) (Fin n) ℝ := fun i j =>
  c.L2 i j + ∑ k, c.L3 i j k * φ k + 1 / 2 * ∑ k, ∑ l, c.L4 i j k l * φ k * φ l

/-- The mass matrix of the gauge bosons. -/
def gaugeMatrix (G : List Nat → ℝ) (φ : Fin n → ℝ) : Matrix (Fin 4) (Fin 4) ℝ := fun a b =>
  1 / 2 * ∑ i : Fin n, ∑ j : Fin n, G [(a : Nat), (b : Nat), (i : Nat), (j : Nat)] * φ i * φ j

/-- The mass matrix of fermions. -/
def fermionMatrix (m : Nat) (F : List Nat → ℂ) (φ : Fin n → ℝ) : Matrix (Fin m) (Fin m) ℂ := fun i j =>
  ∑ k : Fin n, F [(i : Nat), (j : Nat), (k : Nat)] * φ k

/-- The Coleman-Weinberg potential: one degree of freedom for each scalar, three for each gauge boson,
two for each fermion, with three colours and the opposite sign. -/
def potential (t scale : ℝ) (T : Tensors n) (φ : Fin n → ℝ) : ℝ :=
  real (scalarMatrix T.scalar φ) (cw t scale (3 / 2)) +
    3 * real (gaugeMatrix T.gauge φ) (cw t scale (5 / 6)) -
    3 * 2 * complex ((fermionMatrix 12 T.quark φ).conjTranspose * fermionMatrix 12 T.quark φ)
      (cw t scale (3 / 2)) -
    2 * complex ((fermionMatrix 9 T.lepton φ).conjTranspose * fermionMatrix 9 T.lepton φ)
      (cw t scale (3 / 2))

/-- The squared masses at `v`: every scalar and gauge boson is massless or heavier than the thresholds,
every fermion is massless or heavier than `t`. -/
structure Regular (t : ℝ) (T : Tensors n) (v : Fin n → ℝ) : Prop where
  scalar : ∀ x ∈ (scalarMatrix T.scalar v).charpoly.roots, x = 0 ∨ (t < x ∧ 1 / 10 ^ 5 ≤ x)
  gauge : ∀ x ∈ (gaugeMatrix T.gauge v).charpoly.roots, x = 0 ∨ (t < x ∧ 1 / 10 ^ 5 ≤ x)
  quark : ∀ z ∈ ((fermionMatrix 12 T.quark v).conjTranspose * fermionMatrix 12 T.quark v).charpoly.roots,
    z = 0 ∨ t < z.re
  lepton : ∀ z ∈ ((fermionMatrix 9 T.lepton v).conjTranspose * fermionMatrix 9 T.lepton v).charpoly.roots,
    z = 0 ∨ t < z.re

/-- Different squared masses differ by more than `10⁻⁵`. -/
structure Apart (T : Tensors n) (v : Fin n → ℝ) : Prop where
  scalar : ∀ x ∈ (scalarMatrix T.scalar v).charpoly.roots,
    ∀ y ∈ (scalarMatrix T.scalar v).charpoly.roots, x = y ∨ 1 / 10 ^ 5 < |x - y|
  gauge : ∀ x ∈ (gaugeMatrix T.gauge v).charpoly.roots,
    ∀ y ∈ (gaugeMatrix T.gauge v).charpoly.roots, x = y ∨ 1 / 10 ^ 5 < |x - y|
  quark : ∀ x ∈ ((fermionMatrix 12 T.quark v).conjTranspose * fermionMatrix 12 T.quark v).charpoly.roots,
    ∀ y ∈ ((fermionMatrix 12 T.quark v).conjTranspose * fermionMatrix 12 T.quark v).charpoly.roots,
      x = y ∨ 1 / 10 ^ 5 < ‖x - y‖
  lepton : ∀ x ∈ ((fermionMatrix 9 T.lepton v).conjTranspose * fermionMatrix 9 T.lepton v).charpoly.roots,
    ∀ y ∈ ((fermionMatrix 9 T.lepton v).conjTranspose * fermionMatrix 9 T.lepton v).charpoly.roots,
      x = y ∨ 1 / 10 ^ 5 < ‖x - y‖

/-- The eigenvectors at `v`: the components of the scalars are zero or not smaller than `10⁻¹⁰`, those of
the fermions are real. -/
structure Clean (X : Vectors) (T : Tensors n) (v : Fin n → ℝ) : Prop where
  scalar : ∀ i j, X.real (scalarMatrix T.scalar v) i j = 0 ∨
    1 / 10 ^ 10 ≤ |X.real (scalarMatrix T.scalar v) i j|
  quark : ∀ i j,
    (X.complex ((fermionMatrix 12 T.quark v).conjTranspose * fermionMatrix 12 T.quark v) i j).im = 0
  lepton : ∀ i j,
    (X.complex ((fermionMatrix 9 T.lepton v).conjTranspose * fermionMatrix 9 T.lepton v) i j).im = 0

/-- None of the derivatives is so small that the program sets it to zero. -/
structure Uncut (p : Physical n) (scale : ℝ) : Prop where
  first : ∀ k, firstRaw p scale k = 0 ∨ 1 / 10 ^ 10 ≤ |firstRaw p scale k|
  inner : ∀ i j, storage p scale i j = 0 ∨ 1 / 10 ^ 10 ≤ |storage p scale i j|
  second : ∀ k l, secondRaw p scale k l = 0 ∨ 1 / 10 ^ 10 ≤ |secondRaw p scale k l|

/-- A tensor of gauge bosons and scalars is symmetric in the gauge bosons and in the scalars. -/
structure GaugeSymmetric (n : Nat) (G : List Nat → ℝ) : Prop where
  gauge : ∀ (a b : Fin 4) (i j : Fin n), G [(a : Nat), (b : Nat), (i : Nat), (j : Nat)] =
    G [(b : Nat), (a : Nat), (i : Nat), (j : Nat)]
  scalar : ∀ (a b : Fin 4) (i j : Fin n), G [(a : Nat), (b : Nat), (i : Nat), (j : Nat)] =
    G [(a : Nat), (b : Nat), (j : Nat), (i : Nat)]

/-- A tensor of fermions and scalars is symmetric in the fermions. -/
def FermionSymmetric (m n : Nat) (F : List Nat → ℂ) : Prop :=
  ∀ (a b : Fin m) (k : Fin n), F [(a : Nat), (b : Nat), (k : Nat)] = F [(b : Nat), (a : Nat), (k : Nat)]

/-- The mass term of the gauge bosons is never negative: it is the square of the covariant derivative of
constant fields. -/
def GaugePositive (n : Nat) (G : List Nat → ℝ) : Prop :=
  ∀ (W : Fin 4 → ℝ) (φ : Fin n → ℝ), 0 ≤ ∑ a : Fin 4, ∑ b : Fin 4, ∑ i : Fin n, ∑ j : Fin n,
    G [(a : Nat), (b : Nat), (i : Nat), (j : Nat)] * (W a * (W b * (φ i * φ j)))

/-- The tensors of a model are symmetric, and the mass term of the gauge bosons is not negative. -/
structure Lawful (T : Tensors n) : Prop where
  scalar : Verif.Potential.Spec.Symmetric T.scalar
  gauge : GaugeSymmetric n T.gauge
  positive : GaugePositive n T.gauge
  quark : FermionSymmetric 12 n T.quark
  lepton : FermionSymmetric 9 n T.lepton

end

end Verif.Weinberg.Spec
