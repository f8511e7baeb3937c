import Verif.Tracer.Geometry
import Mathlib.Analysis.Calculus.Deriv.Basic

/-!
# Specification of the symmetry reduction
-/

namespace Verif.Tracer.Spec

variable {n : Nat}

/-- `bs` are sign flips acting on disjoint, non-empty sets of directions. -/
structure Blocks (bs : List (Mask n)) : Prop where
  nonempty : ∀ B ∈ bs, ∃ i, B i = true
  disjoint : ∀ B ∈ bs, ∀ C ∈ bs, ∀ i, B i = true → C i = true → B = C

/-- `g` is composed of some of the flips `bs`. -/
def IsUnion (bs : List (Mask n)) (g : Mask n) : Prop :=
  ∀ i, g i = true → ∃ B ∈ bs, B i = true ∧ ∀ j, B j = true → g j = true

instance (bs : List (Mask n)) (g : Mask n) : Decidable (IsUnion bs g) := by
  unfold IsUnion; infer_instance

/-- The number of flipped directions. -/
def weight (g : Mask n) : Nat := (List.ofFn g).count true

/-- `V` does not change under the flip `g`. -/
def Invariant {K : Type} [Field K] (V : Vec n K → K) (g : Mask n) : Prop := ∀ v, V (flip g v) = V v

/-- `V` depends on the directions `i`, `j` only through the distance from the origin of their plane. -/
def RotationInvariant (V : Vec n ℝ → ℝ) (i j : Fin n) : Prop :=
  ∀ v w : Vec n ℝ, (∀ k, k ≠ i → k ≠ j → v k = w k) →
    v i * v i + v j * v j = w i * w i + w j * w j → V v = V w

/-- The quadratic approximation of a potential with gradient `g` and Hessian `H` at the origin. -/
noncomputable def quadratic (H : Matrix (Fin n) (Fin n) ℝ) (g x : Vec n ℝ) : ℝ :=
  g ⬝ᵥ x + 1 / 2 * (x ⬝ᵥ H.mulVec x)

/-- `x` is stationary: the derivative along every direction vanishes. -/
def Stationary (f : Vec n ℝ → ℝ) (x : Vec n ℝ) : Prop :=
  ∀ d : Vec n ℝ, HasDerivAt (fun t : ℝ => f (x + t • d)) 0 0

end Verif.Tracer.Spec
