import Verif.Baryo.Config
import Mathlib.Data.List.Forall2

/-!
# What the configuration file of the baryogenesis calculation means
-/

namespace Verif.Baryo.Spec

/-- The characters that separate words. -/
def Space (c : Char) : Prop := c ∈ [' ', '\t', '\n', '\x0b', '\x0c', '\r']

/-- The content of a line. -/
inductive Line where
  /-- a comment, an empty line or a description -/
  | text
  /-- the switch of the next method -/
  | method (b : Bool)
  /-- whether the bottom quark is massive -/
  | massive (b : Bool)
  deriving DecidableEq

/-- The word for a switch. -/
def word (b : Bool) : List Char := if b then ['y', 'e', 's'] else ['n', 'o']

/-- The line begins with the keyword, irrespective of case; this first word may have more characters, such
as a colon.  The second word is yes or no; anything may follow it. -/
def Sets (key line : List Char) (b : Bool) : Prop :=
  ∃ tail gap rest, line.map Char.toLower = key ++ tail ++ gap ++ word b ++ rest ∧
    (∀ c ∈ tail, ¬ Space c) ∧ gap ≠ [] ∧ (∀ c ∈ gap, Space c) ∧
    (rest = [] ∨ ∃ c r, rest = c :: r ∧ Space c)

def includeKey : List Char := ['i', 'n', 'c', 'l', 'u', 'd', 'e']

def massiveKey : List Char := ['m', 'a', 's', 's', 'i', 'v', 'e']

/-- The content of a line of the file. -/
inductive Means (raw : List Char) : Line → Prop
  | comment (r : List Char) (h : raw = '#' :: r) : Means raw .text
  | description (h₁ : ¬ includeKey <+: raw.map Char.toLower)
      (h₂ : ¬ massiveKey <+: raw.map Char.toLower) : Means raw .text
  | method (b : Bool) (h : Sets includeKey raw b) : Means raw (.method b)
  | massive (b : Bool) (h : Sets massiveKey raw b) : Means raw (.massive b)

/-- The switches in the order of the file. -/
def switches : List Line → List Bool
  | [] => []
  | .method b :: l => b :: switches l
  | _ :: l => switches l

/-- The methods in the order in which the configuration file and the legend list them. -/
inductive Ansatz where
  | topOnly | topBot | topBotTau | velocities | velocitiesReplaced
  deriving DecidableEq

def Ansatz.all : List Ansatz := [.topOnly, .topBot, .topBotTau, .velocities, .velocitiesReplaced]

/-- The column name of a method. -/
def Ansatz.name : Ansatz → String
  | .topOnly => "eta_TopOnly"
  | .topBot => "eta_TopBot"
  | .topBotTau => "eta_TopBotTau"
  | .velocities => "eta_PlasmaVelocities"
  | .velocitiesReplaced => "eta_PlasmaVelocitiesReplaced"

/-- The methods that are switched on. -/
def enabled (methods : List Bool) : List Ansatz :=
  ((methods.zip Ansatz.all).filter (·.1)).map (·.2)

variable {K M D G : Type}

/-- The code that solves the fluid equations does not read the choice among the other three methods. -/
def FluidIgnoresMethod (ext : External K M D G) : Prop :=
  ∀ u m m' vw tc d, ext.fluid ⟨u, m, vw, tc, d⟩ = ext.fluid ⟨u, m', vw, tc, d⟩

/-- The transport equations with a bottom quark cannot be evaluated without a valid choice of its mass, so
the densities cannot be computed either. -/
def NeedsBottomMass (ext : External K M D G) : Prop :=
  ∀ m flag c, m ≠ .top → bottomMass flag (1 : Int) = .err .runtime → ext.density m flag c = .err .runtime

/-- The result of one method for one point: it depends on the wall velocity, the temperature and what
was computed for the point, and on nothing else. -/
def value (ext : External K M D G) (botMass : Int) (vw tc : K) (d : D) : Ansatz → Outcome K
  | .topOnly => via .top
  | .topBot => via .bottom
  | .topBotTau => via .tau
  | .velocities => ext.fluid ⟨true, .top, vw, tc, d⟩
  | .velocitiesReplaced => ext.fluid ⟨false, .top, vw, tc, d⟩
where
  /-- the densities in front of the wall and their integral -/
  via (m : Method) : Outcome K := do
    let g ← ext.density m botMass ⟨false, m, vw, tc, d⟩
    ext.asymmetry g tc vw ⟨false, m, vw, tc, d⟩

end Verif.Baryo.Spec
