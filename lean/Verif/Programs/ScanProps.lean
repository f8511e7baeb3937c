import Verif.Programs.Scan
import Verif.Programs.OptionsProps
import Verif.Programs.PositionalProps
import Mathlib.Algebra.Order.Archimedean.Basic
import Mathlib.Data.Rat.Floor
import Mathlib.Tactic.Linarith
import Mathlib.Tactic.Ring

/-!
# The options of the remaining programs and their loops (C120)
-/

namespace Verif.Programs.Scan

open Outcome
open Verif.Parser (Str Parser Logger getValue getBool checkRequired lower C01_boolean_values)
open Verif.Parser.Spec (sameName)
open Positional (Prog)

namespace Spec

/-- The programs of this file. -/
def Covered (g : Prog) : Prop :=
  g ∈ [.bsmpt, .calcCT, .calculateEWBG, .nlovev, .plotNL, .plotVw, .test, .tripleHiggs, .vevevo]

/-- The programs that work on several lines. -/
def Lines (g : Prog) : Prop := g ∈ [.bsmpt, .calcCT, .nlovev, .tripleHiggs, .calculateEWBG]

/-- The programs that work on one line. -/
def OneLine (g : Prog) : Prop := g ∈ [.plotNL, .plotVw, .test, .vevevo]

/-- The programs that minimise. -/
def Minimises (g : Prog) : Prop := g ∈ [.bsmpt, .calculateEWBG, .nlovev, .plotNL, .plotVw, .test, .vevevo]

instance (g : Prog) : Decidable (Covered g) := by unfold Covered; infer_instance
instance (g : Prog) : Decidable (Lines g) := by unfold Lines; infer_instance
instance (g : Prog) : Decidable (OneLine g) := by unfold OneLine; infer_instance
instance (g : Prog) : Decidable (Minimises g) := by unfold Minimises; infer_instance

/-- A switch is on for the value `true` in any capitals, off for any other value and at its default if not given. -/
def Switch (p : Parser) (name : String) (default v : Bool) : Prop :=
  (∃ s, getValue p name.toList = ok s ∧ (v = true ↔ sameName s "true".toList)) ∨
  (getValue p name.toList = err .parser ∧ v = default)

/-- A number is that of the option's text. -/
def Number {α : Type} (read : Str → Outcome α) (p : Parser) (name : String) (v : α) : Prop :=
  ∃ s, getValue p name.toList = ok s ∧ read s = ok v

/-- Every requested minimiser is there, and one is requested. -/
def Available (b : Built) (m : Minimizers) : Prop :=
  (m.gsl = true → b.gsl = true) ∧ (m.cmaes = true → b.cmaes = true) ∧ (m.nlopt = true → b.nlopt = true) ∧
  (m.gsl = true ∨ m.cmaes = true ∨ m.nlopt = true)

/-- Settings that make sense, following the messages of the programs. -/
structure Valid (b : Built) (g : Prog) (o : Opts) : Prop where
  model : o.modelSet = true
  minimizers : Minimises g → Available b o.min
  lines : Lines g → 1 ≤ o.first ∧ o.first ≤ o.last
  line : OneLine g → 1 ≤ o.line
  velocity : g = .calculateEWBG ∨ g = .plotNL → ∃ v, o.vw = .fin v ∧ 0 < v ∧ v ≤ 1
  velocities : g = .plotVw → ∃ a c s, o.vwMin = .fin a ∧ o.vwMax = .fin c ∧ o.vwStep = .fin s ∧
    0 < a ∧ a ≤ c ∧ c ≤ 1 ∧ 0 < s
  temperatures : g = .vevevo → ∃ a c s, o.tStart = .fin a ∧ o.tEnd = .fin c ∧ o.tStep = .fin s ∧
    0 ≤ a ∧ a ≤ c ∧ 0 < s

/-- No option is NaN. -/
def Numbers (o : Opts) : Prop := ∀ x ∈ [o.vw, o.vwMin, o.vwMax, o.vwStep, o.tStart, o.tStep, o.tEnd], x ≠ .nan

end Spec

open Spec

/-! ## Reading -/

theorem bind_iff {α β : Type} {x : Outcome α} {f : α → Outcome β} {b : β} :
    x >>= f = ok b ↔ ∃ a, x = ok a ∧ f a = ok b :=
  ⟨bind_eq_ok, fun ⟨a, h1, h2⟩ => by rw [h1, bind_ok]; exact h2⟩

theorem switch_of (p : Parser) (name : String) (d v : Bool) (h : orDefault (getBool p name.toList) d = ok v) :
    Switch p name d v := by
  cases hg : getValue p name.toList with
  | ok s =>
    obtain ⟨b, h1, h2⟩ := (C01_boolean_values p name.toList).1 s hg
    rw [h1] at h
    have : b = v := by simpa [orDefault] using h
    exact Or.inl ⟨s, hg, this ▸ h2⟩
  | err e =>
    have h1 := (C01_boolean_values p name.toList).2 (by rw [hg]; intro v h; cases h)
    rw [h1] at h
    have hv : d = v := by simpa [orDefault] using h
    have he : getValue p name.toList = err .parser := by
      unfold getBool at h1
      rw [hg] at h1
      rw [hg]
      simpa using h1
    exact Or.inr ⟨he, hv.symm⟩
  | ub u =>
    have h1 := (C01_boolean_values p name.toList).2 (by rw [hg]; intro v h; cases h)
    unfold getBool at h1
    rw [hg] at h1
    simp at h1

theorem minimizers_of (b : Built) (p : Parser) (m : Minimizers) (h : readMinimizers b p = ok m) :
    Switch p "useGSL" b.gsl m.gsl ∧ Switch p "useCMAES" b.cmaes m.cmaes ∧ Switch p "useNLopt" b.nlopt m.nlopt ∧
    Switch p "useMultithreading" true m.threads := by
  unfold readMinimizers at h
  obtain ⟨a1, h1, h⟩ := bind_eq_ok h
  obtain ⟨a2, h2, h⟩ := bind_eq_ok h
  obtain ⟨a3, h3, h⟩ := bind_eq_ok h
  obtain ⟨a4, h4, h⟩ := bind_eq_ok h
  rw [Outcome.ok.injEq] at h
  subst h
  exact ⟨switch_of _ _ _ _ h1, switch_of _ _ _ _ h2, switch_of _ _ _ _ h3, switch_of _ _ _ _ h4⟩

theorem terminal_of (p : Parser) (v : Bool) (h : readTerminal p = ok v) :
    (∃ s, getValue p "terminalOutput".toList = ok s ∧ (v = true ↔ s = "y".toList)) ∨
    (getValue p "terminalOutput".toList = err .parser ∧ v = false) := by
  unfold readTerminal at h
  cases hg : getValue p "terminalOutput".toList with
  | ok s =>
    rw [hg, bind_ok] at h
    have : (s == "y".toList) = v := by simpa [orDefault] using h
    exact Or.inl ⟨s, rfl, by rw [← this, beq_iff_eq]⟩
  | err e =>
    rw [hg, bind_err] at h
    cases e <;> simp [orDefault] at h
    exact Or.inr ⟨rfl, h.symm ▸ rfl⟩
  | ub u => rw [hg] at h; cases h

theorem number_of {α : Type} {read : Str → Outcome α} {p : Parser} {name : String} {v : α}
    (h : getValue p name.toList >>= read = ok v) : Number read p name v := bind_eq_ok h

/-- Every setting comes from its own option, or has the documented default. -/
theorem C120_read (stod : Str → Outcome (Flt ℚ)) (b : Built) (known : Str → Bool) (g : Prog) (p : Parser) (o : Opts)
    (hg : Covered g) (h : readOpts stod b known g p = ok o) :
    checkRequired p = ok () ∧
    (∃ m, getValue p "model".toList = ok m ∧ o.modelSet = known m) ∧ getValue p "input".toList = ok o.input ∧
    (g ≠ .test → getValue p "output".toList = ok o.output) ∧
    (Lines g → Number stoi p "firstLine" o.first ∧ Number stoi p "lastLine" o.last) ∧
    (OneLine g → Number stoi p "line" o.line) ∧
    (g ∈ [.calculateEWBG, .plotNL, .plotVw] → getValue p "config".toList = ok o.config) ∧
    (g ∈ [.bsmpt, .calcCT, .calculateEWBG, .plotNL, .plotVw, .tripleHiggs] →
      (∃ s, getValue p "terminalOutput".toList = ok s ∧ (o.terminal = true ↔ s = "y".toList)) ∨
      (getValue p "terminalOutput".toList = err .parser ∧ o.terminal = false)) ∧
    (Minimises g → Switch p "useGSL" b.gsl o.min.gsl ∧ Switch p "useCMAES" b.cmaes o.min.cmaes ∧
      Switch p "useNLopt" b.nlopt o.min.nlopt ∧ Switch p "useMultithreading" true o.min.threads) ∧
    (g = .plotNL → Number stod p "vw" o.vw) ∧
    (g = .calculateEWBG → (∀ s, stod s ≠ err .parser) →
      Number stod p "vw" o.vw ∨ getValue p "vw".toList = err .parser ∧ o.vw = .fin (1 / 10)) ∧
    (g = .plotVw → Number stod p "vw_min" o.vwMin ∧ Number stod p "vw_max" o.vwMax ∧
      Number stod p "vw_stepsize" o.vwStep) ∧
    (g = .vevevo → Number stod p "temperatureStart" o.tStart ∧ Number stod p "temperatureEnd" o.tEnd ∧
      Number stod p "temperatureStep" o.tStep) := by
  unfold readOpts at h
  obtain ⟨_, hreq, h⟩ := bind_eq_ok h
  obtain ⟨model, hm, h⟩ := bind_eq_ok h
  obtain ⟨input, hi, h⟩ := bind_eq_ok h
  cases g with
  | bsmpt =>
    obtain ⟨output, ho, h⟩ := bind_eq_ok h
    obtain ⟨first, h1, h⟩ := bind_eq_ok h
    obtain ⟨last, h2, h⟩ := bind_eq_ok h
    obtain ⟨terminal, h3, h⟩ := bind_eq_ok h
    obtain ⟨min, h4, h⟩ := bind_eq_ok h
    rw [Outcome.ok.injEq] at h
    subst h
    exact ⟨hreq, ⟨model, hm, rfl⟩, hi, fun _ => ho, fun _ => ⟨number_of h1, number_of h2⟩,
      fun h => absurd h (by decide), fun h => absurd h (by decide), fun _ => terminal_of p _ h3,
      fun _ => minimizers_of b p _ h4, nofun, nofun, nofun, nofun⟩
  | calcCT =>
    obtain ⟨output, ho, h⟩ := bind_eq_ok h
    obtain ⟨first, h1, h⟩ := bind_eq_ok h
    obtain ⟨last, h2, h⟩ := bind_eq_ok h
    obtain ⟨terminal, h3, h⟩ := bind_eq_ok h
    rw [Outcome.ok.injEq] at h
    subst h
    exact ⟨hreq, ⟨model, hm, rfl⟩, hi, fun _ => ho, fun _ => ⟨number_of h1, number_of h2⟩,
      fun h => absurd h (by decide), fun h => absurd h (by decide), fun _ => terminal_of p _ h3,
      fun h => absurd h (by decide), nofun, nofun, nofun, nofun⟩
  | tripleHiggs =>
    obtain ⟨output, ho, h⟩ := bind_eq_ok h
    obtain ⟨first, h1, h⟩ := bind_eq_ok h
    obtain ⟨last, h2, h⟩ := bind_eq_ok h
    obtain ⟨terminal, h3, h⟩ := bind_eq_ok h
    rw [Outcome.ok.injEq] at h
    subst h
    exact ⟨hreq, ⟨model, hm, rfl⟩, hi, fun _ => ho, fun _ => ⟨number_of h1, number_of h2⟩,
      fun h => absurd h (by decide), fun h => absurd h (by decide), fun _ => terminal_of p _ h3,
      fun h => absurd h (by decide), nofun, nofun, nofun, nofun⟩
  | nlovev =>
    obtain ⟨output, ho, h⟩ := bind_eq_ok h
    obtain ⟨first, h1, h⟩ := bind_eq_ok h
    obtain ⟨last, h2, h⟩ := bind_eq_ok h
    obtain ⟨min, h4, h⟩ := bind_eq_ok h
    rw [Outcome.ok.injEq] at h
    subst h
    exact ⟨hreq, ⟨model, hm, rfl⟩, hi, fun _ => ho, fun _ => ⟨number_of h1, number_of h2⟩,
      fun h => absurd h (by decide), fun h => absurd h (by decide), fun h => absurd h (by decide),
      fun _ => minimizers_of b p _ h4, nofun, nofun, nofun, nofun⟩
  | calculateEWBG =>
    obtain ⟨output, ho, h⟩ := bind_eq_ok h
    obtain ⟨first, h1, h⟩ := bind_eq_ok h
    obtain ⟨last, h2, h⟩ := bind_eq_ok h
    obtain ⟨config, hc, h⟩ := bind_eq_ok h
    obtain ⟨terminal, h3, h⟩ := bind_eq_ok h
    obtain ⟨min, h4, h⟩ := bind_eq_ok h
    obtain ⟨vw, h5, h⟩ := bind_eq_ok h
    rw [Outcome.ok.injEq] at h
    subst h
    refine ⟨hreq, ⟨model, hm, rfl⟩, hi, fun _ => ho, fun _ => ⟨number_of h1, number_of h2⟩,
      fun h => absurd h (by decide), fun _ => hc, fun _ => terminal_of p _ h3, fun _ => minimizers_of b p _ h4,
      nofun, fun _ hs => ?_, nofun, nofun⟩
    unfold number at h5
    cases hg : getValue p "vw".toList with
    | ok s =>
      rw [hg, bind_ok] at h5
      left
      refine ⟨s, hg, ?_⟩
      cases hr : stod s with
      | ok v => rw [hr] at h5; exact h5
      | err e =>
        rw [hr] at h5
        cases e <;> first | exact absurd hr (hs s) | cases h5
      | ub u => rw [hr] at h5; cases h5
    | err e =>
      rw [hg, bind_err] at h5
      right
      cases e <;> cases h5
      exact ⟨rfl, rfl⟩
    | ub u => rw [hg] at h5; cases h5
  | plotNL =>
    obtain ⟨output, ho, h⟩ := bind_eq_ok h
    obtain ⟨line, h1, h⟩ := bind_eq_ok h
    obtain ⟨vw, h2, h⟩ := bind_eq_ok h
    obtain ⟨config, hc, h⟩ := bind_eq_ok h
    obtain ⟨terminal, h3, h⟩ := bind_eq_ok h
    obtain ⟨min, h4, h⟩ := bind_eq_ok h
    rw [Outcome.ok.injEq] at h
    subst h
    exact ⟨hreq, ⟨model, hm, rfl⟩, hi, fun _ => ho, fun h => absurd h (by decide), fun _ => number_of h1,
      fun _ => hc, fun _ => terminal_of p _ h3, fun _ => minimizers_of b p _ h4, fun _ => number_of h2, nofun, nofun,
      nofun⟩
  | plotVw =>
    obtain ⟨output, ho, h⟩ := bind_eq_ok h
    obtain ⟨line, h1, h⟩ := bind_eq_ok h
    obtain ⟨config, hc, h⟩ := bind_eq_ok h
    obtain ⟨a, h5, h⟩ := bind_eq_ok h
    obtain ⟨c, h6, h⟩ := bind_eq_ok h
    obtain ⟨s, h7, h⟩ := bind_eq_ok h
    obtain ⟨terminal, h3, h⟩ := bind_eq_ok h
    obtain ⟨min, h4, h⟩ := bind_eq_ok h
    rw [Outcome.ok.injEq] at h
    subst h
    exact ⟨hreq, ⟨model, hm, rfl⟩, hi, fun _ => ho, fun h => absurd h (by decide), fun _ => number_of h1,
      fun _ => hc, fun _ => terminal_of p _ h3, fun _ => minimizers_of b p _ h4, nofun, nofun,
      fun _ => ⟨number_of h5, number_of h6, number_of h7⟩, nofun⟩
  | vevevo =>
    obtain ⟨output, ho, h⟩ := bind_eq_ok h
    obtain ⟨line, h1, h⟩ := bind_eq_ok h
    obtain ⟨a, h5, h⟩ := bind_eq_ok h
    obtain ⟨c, h6, h⟩ := bind_eq_ok h
    obtain ⟨s, h7, h⟩ := bind_eq_ok h
    obtain ⟨min, h4, h⟩ := bind_eq_ok h
    rw [Outcome.ok.injEq] at h
    subst h
    exact ⟨hreq, ⟨model, hm, rfl⟩, hi, fun _ => ho, fun h => absurd h (by decide), fun _ => number_of h1,
      fun h => absurd h (by decide), fun h => absurd h (by decide), fun _ => minimizers_of b p _ h4, nofun, nofun, nofun,
      fun _ => ⟨number_of h5, number_of h6, number_of h7⟩⟩
  | test =>
    obtain ⟨line, h1, h⟩ := bind_eq_ok h
    obtain ⟨min, h4, h⟩ := bind_eq_ok h
    rw [Outcome.ok.injEq] at h
    subst h
    exact ⟨hreq, ⟨model, hm, rfl⟩, hi, fun h => absurd rfl h, fun h => absurd h (by decide), fun _ => number_of h1,
      fun h => absurd h (by decide), fun h => absurd h (by decide), fun _ => minimizers_of b p _ h4, nofun, nofun, nofun,
      nofun⟩
  | calcGW => exact absurd hg (by decide)
  | calcTemps => exact absurd hg (by decide)
  | minimaTracer => exact absurd hg (by decide)
  | potPlotter => exact absurd hg (by decide)

/-- NLOVEV and VEVEVO offer the option `terminalOutput` but, like Test, never look at it. -/
theorem C120_terminal_unused (stod : Str → Outcome (Flt ℚ)) (b : Built) (known : Str → Bool) (g : Prog) (p : Parser)
    (o : Opts) (hg : g ∈ [.nlovev, .vevevo, .test]) (h : readOpts stod b known g p = ok o) : o.terminal = false := by
  unfold readOpts at h
  obtain ⟨_, -, h⟩ := bind_eq_ok h
  obtain ⟨model, -, h⟩ := bind_eq_ok h
  obtain ⟨input, -, h⟩ := bind_eq_ok h
  simp only [List.mem_cons, List.not_mem_nil, or_false] at hg
  rcases hg with rfl | rfl | rfl
  · obtain ⟨output, -, h⟩ := bind_eq_ok h
    obtain ⟨first, -, h⟩ := bind_eq_ok h
    obtain ⟨last, -, h⟩ := bind_eq_ok h
    obtain ⟨min, -, h⟩ := bind_eq_ok h
    rw [Outcome.ok.injEq] at h
    rw [← h]
  · obtain ⟨output, -, h⟩ := bind_eq_ok h
    obtain ⟨line, -, h⟩ := bind_eq_ok h
    obtain ⟨a, -, h⟩ := bind_eq_ok h
    obtain ⟨c, -, h⟩ := bind_eq_ok h
    obtain ⟨s, -, h⟩ := bind_eq_ok h
    obtain ⟨min, -, h⟩ := bind_eq_ok h
    rw [Outcome.ok.injEq] at h
    rw [← h]
  · obtain ⟨line, -, h⟩ := bind_eq_ok h
    obtain ⟨min, -, h⟩ := bind_eq_ok h
    rw [Outcome.ok.injEq] at h
    rw [← h]

/-! ## Validation -/

theorem checkMinimizers_iff (b : Built) (m : Minimizers) : checkMinimizers b m = ok () ↔ Available b m := by
  obtain ⟨m1, m2, m3, m4⟩ := m
  obtain ⟨b1, b2, b3⟩ := b
  unfold checkMinimizers Available Minimizer.calcWhichMinimizer
  cases m1 <;> cases m2 <;> cases m3 <;> cases b1 <;> cases b2 <;> cases b3 <;> simp

theorem goodLines_iff (o : Opts) : goodLines o = true ↔ 1 ≤ o.first ∧ o.first ≤ o.last := by
  unfold goodLines
  rw [ite_false_eq, ite_false_eq]
  constructor
  · rintro ⟨h1, h2, -⟩; omega
  · rintro ⟨h1, h2⟩; exact ⟨by omega, by omega, rfl⟩

theorem goodLine_iff (o : Opts) : goodLine o = true ↔ 1 ≤ o.line := by
  unfold goodLine
  rw [ite_false_eq]
  constructor
  · rintro ⟨h1, -⟩; omega
  · intro h1; exact ⟨by omega, rfl⟩

theorem checkVw_fin (v : ℚ) : checkVw (.fin v) = ok () ↔ 0 < v ∧ v ≤ 1 := by
  unfold checkVw
  by_cases h : (Flt.le (.fin v) (.fin 0) || Flt.gt (.fin v) (.fin 1)) = true
  · rw [if_pos h]
    simp only [Bool.or_eq_true, Flt.le_fin, Flt.gt_fin] at h
    constructor
    · intro h'; cases h'
    · rintro ⟨h1, h2⟩; rcases h with h | h <;> linarith
  · rw [if_neg h]
    simp only [Bool.or_eq_true, Flt.le_fin, Flt.gt_fin, not_or, not_le, not_lt] at h
    exact ⟨fun _ => h, fun _ => rfl⟩

theorem checkVws_fin (o : Opts) (a c s : ℚ) (h1 : o.vwMin = .fin a) (h2 : o.vwMax = .fin c) (h3 : o.vwStep = .fin s) :
    checkVws o = ok () ↔ 0 < a ∧ a ≤ c ∧ c ≤ 1 ∧ s ≠ 0 := by
  unfold checkVws
  rw [h1, h2, h3]
  by_cases h : (Flt.le (.fin a) (.fin 0) || Flt.gt (.fin a) (.fin 1) || Flt.le (.fin c) (.fin 0) ||
      Flt.gt (.fin c) (.fin (1 : ℚ))) = true
  · rw [if_pos h]
    simp only [Bool.or_eq_true, Flt.le_fin, Flt.gt_fin] at h
    constructor
    · intro h'; cases h'
    · rintro ⟨q1, q2, q3, -⟩; rcases h with ((h | h) | h) | h <;> linarith
  · rw [if_neg h]
    simp only [Bool.or_eq_true, Flt.le_fin, Flt.gt_fin, not_or, not_le, not_lt] at h
    by_cases hs : s = 0
    · rw [if_pos (by simp [isZero, hs])]
      exact ⟨fun h => (by cases h), fun h => absurd hs h.2.2.2⟩
    · rw [if_neg (by simp [isZero, hs])]
      by_cases hc : c < a
      · rw [if_pos (by simp [hc])]
        exact ⟨fun h => (by cases h), fun h => absurd h.2.1 (not_le.2 hc)⟩
      · rw [if_neg (by simp [hc])]
        exact ⟨fun _ => ⟨h.1.1.1, not_lt.1 hc, h.2, hs⟩, fun _ => rfl⟩

theorem checkTemps_fin (o : Opts) (a c s : ℚ) (h1 : o.tStart = .fin a) (h2 : o.tEnd = .fin c) (h3 : o.tStep = .fin s) :
    checkTemps o = ok () ↔ 0 ≤ a ∧ a ≤ c ∧ 0 < s := by
  unfold checkTemps
  rw [h1, h2, h3]
  by_cases hs : s ≤ 0
  · rw [if_pos (by simp [hs])]
    exact ⟨fun h => (by cases h), fun h => absurd h.2.2 (not_lt.2 hs)⟩
  · rw [if_neg (by simpa using hs)]
    by_cases ha : a < 0
    · rw [if_pos (by simp [ha])]
      exact ⟨fun h => (by cases h), fun h => absurd h.1 (not_le.2 ha)⟩
    · rw [if_neg (by simpa using ha)]
      by_cases hc : c < a
      · rw [if_pos (by simp [hc])]
        exact ⟨fun h => (by cases h), fun h => absurd h.2.1 (not_le.2 hc)⟩
      · rw [if_neg (by simpa using hc)]
        exact ⟨fun _ => ⟨not_lt.1 ha, not_lt.1 hc, not_le.1 hs⟩, fun _ => rfl⟩

/-- Settings that make sense are accepted. -/
theorem C120_accepts (b : Built) (g : Prog) (o : Opts) (hg : Covered g) (h : Valid b g o) : good b g o = ok true := by
  have hm : (if !o.modelSet then false else true) = true := by rw [h.model]; rfl
  have hm' : ∀ x, (if !o.modelSet then false else x) = x := by intro x; rw [h.model]; rfl
  have mins : Minimises g → checkMinimizers b o.min = ok () := fun hh => (checkMinimizers_iff _ _).2 (h.minimizers hh)
  have lines : Lines g → goodLines o = true := fun hh => (goodLines_iff o).2 (h.lines hh)
  have line : OneLine g → goodLine o = true := fun hh => (goodLine_iff o).2 (h.line hh)
  have vel : g = .calculateEWBG ∨ g = .plotNL → checkVw o.vw = ok () := by
    intro hh
    obtain ⟨v, hv, hr⟩ := h.velocity hh
    rw [hv]; exact (checkVw_fin v).2 hr
  cases g with
  | calcCT => simp only [good, hm', lines (by decide)]
  | tripleHiggs => simp only [good, hm', lines (by decide)]
  | bsmpt => simp only [good, hm', lines (by decide), mins (by decide), bind_ok]
  | nlovev => simp only [good, hm', lines (by decide), mins (by decide), bind_ok]
  | calculateEWBG => simp only [good, hm', lines (by decide), mins (by decide), vel (by decide), bind_ok]
  | plotNL => simp only [good, hm', line (by decide), mins (by decide), vel (by decide), bind_ok]
  | plotVw =>
    obtain ⟨a, c, s, h1, h2, h3, q1, q2, q3, q4⟩ := h.velocities rfl
    have := (checkVws_fin o a c s h1 h2 h3).2 ⟨q1, q2, q3, q4.ne'⟩
    simp only [good, hm', line (by decide), mins (by decide), this, bind_ok]
  | test => simp only [good, hm', line (by decide), mins (by decide), bind_ok]
  | vevevo =>
    obtain ⟨a, c, s, h1, h2, h3, q⟩ := h.temperatures rfl
    have := (checkTemps_fin o a c s h1 h2 h3).2 q
    simp only [good, hm', mins (by decide), this, bind_ok]
  | calcGW => exact absurd hg (by decide)
  | calcTemps => exact absurd hg (by decide)
  | minimaTracer => exact absurd hg (by decide)
  | potPlotter => exact absurd hg (by decide)

theorem fin_of (x : Flt ℚ) (h : x ≠ .nan) : ∃ q, x = .fin q := by
  cases x with
  | nan => exact absurd rfl h
  | fin q => exact ⟨q, rfl⟩

theorem if_model {c b : Bool} (h : (if !c then false else b) = true) : c = true ∧ b = true := by
  cases c <;> simp_all

/-- What is accepted makes sense, if no number is NaN, the step of PlotEWBG_vw is not negative and the line for VEVEVO
counts from 1. -/
theorem C120_accepted_partial (b : Built) (g : Prog) (o : Opts) (hg : Covered g) (h : good b g o = ok true)
    (hn : Numbers o) (hs : g = .plotVw → ∀ s, o.vwStep = .fin s → 0 ≤ s) (hl : g = .vevevo → 1 ≤ o.line) :
    Valid b g o := by
  cases g with
  | calcCT =>
    have h := if_model (Outcome.ok.inj h)
    exact ⟨h.1, fun h => absurd h (by decide), fun _ => (goodLines_iff o).1 h.2, fun h => absurd h (by decide),
      (by rintro (h | h) <;> cases h), nofun, nofun⟩
  | tripleHiggs =>
    have h := if_model (Outcome.ok.inj h)
    exact ⟨h.1, fun h => absurd h (by decide), fun _ => (goodLines_iff o).1 h.2, fun h => absurd h (by decide),
      (by rintro (h | h) <;> cases h), nofun, nofun⟩
  | bsmpt =>
    obtain ⟨_, h1, h⟩ := bind_eq_ok h
    have h := if_model (Outcome.ok.inj h)
    exact ⟨h.1, fun _ => (checkMinimizers_iff _ _).1 h1, fun _ => (goodLines_iff o).1 h.2, fun h => absurd h (by decide),
      (by rintro (h | h) <;> cases h), nofun, nofun⟩
  | nlovev =>
    obtain ⟨_, h1, h⟩ := bind_eq_ok h
    have h := if_model (Outcome.ok.inj h)
    exact ⟨h.1, fun _ => (checkMinimizers_iff _ _).1 h1, fun _ => (goodLines_iff o).1 h.2, fun h => absurd h (by decide),
      (by rintro (h | h) <;> cases h), nofun, nofun⟩
  | calculateEWBG =>
    obtain ⟨_, h1, h⟩ := bind_eq_ok h
    obtain ⟨_, h2, h⟩ := bind_eq_ok h
    have h := if_model (Outcome.ok.inj h)
    obtain ⟨v, hv⟩ := fin_of o.vw (hn _ (by simp))
    refine ⟨h.1, fun _ => (checkMinimizers_iff _ _).1 h1, fun _ => (goodLines_iff o).1 h.2, fun h => absurd h (by decide),
      fun _ => ⟨v, hv, ?_⟩, nofun, nofun⟩
    rw [hv] at h2
    exact (checkVw_fin v).1 h2
  | plotNL =>
    obtain ⟨_, h1, h⟩ := bind_eq_ok h
    obtain ⟨_, h2, h⟩ := bind_eq_ok h
    have h := if_model (Outcome.ok.inj h)
    obtain ⟨v, hv⟩ := fin_of o.vw (hn _ (by simp))
    refine ⟨h.1, fun _ => (checkMinimizers_iff _ _).1 h1, fun h => absurd h (by decide), fun _ => (goodLine_iff o).1 h.2,
      fun _ => ⟨v, hv, ?_⟩, nofun, nofun⟩
    rw [hv] at h2
    exact (checkVw_fin v).1 h2
  | plotVw =>
    obtain ⟨_, h1, h⟩ := bind_eq_ok h
    obtain ⟨_, h2, h⟩ := bind_eq_ok h
    have h := if_model (Outcome.ok.inj h)
    obtain ⟨a, ha⟩ := fin_of o.vwMin (hn _ (by simp))
    obtain ⟨c, hc⟩ := fin_of o.vwMax (hn _ (by simp))
    obtain ⟨s, hs'⟩ := fin_of o.vwStep (hn _ (by simp))
    have q := (checkVws_fin o a c s ha hc hs').1 h2
    exact ⟨h.1, fun _ => (checkMinimizers_iff _ _).1 h1, fun h => absurd h (by decide), fun _ => (goodLine_iff o).1 h.2,
      (by rintro (h | h) <;> cases h), fun _ => ⟨a, c, s, ha, hc, hs', q.1, q.2.1, q.2.2.1,
        lt_of_le_of_ne (hs rfl s hs') q.2.2.2.symm⟩, nofun⟩
  | test =>
    obtain ⟨_, h1, h⟩ := bind_eq_ok h
    have h := if_model (Outcome.ok.inj h)
    exact ⟨h.1, fun _ => (checkMinimizers_iff _ _).1 h1, fun h => absurd h (by decide), fun _ => (goodLine_iff o).1 h.2,
      (by rintro (h | h) <;> cases h), nofun, nofun⟩
  | vevevo =>
    obtain ⟨_, h1, h⟩ := bind_eq_ok h
    obtain ⟨_, h2, h⟩ := bind_eq_ok h
    have h := if_model (Outcome.ok.inj h)
    obtain ⟨a, ha⟩ := fin_of o.tStart (hn _ (by simp))
    obtain ⟨c, hc⟩ := fin_of o.tEnd (hn _ (by simp))
    obtain ⟨s, hs'⟩ := fin_of o.tStep (hn _ (by simp))
    exact ⟨h.1, fun _ => (checkMinimizers_iff _ _).1 h1, fun h => absurd h (by decide), fun _ => hl rfl,
      (by rintro (h | h) <;> cases h), nofun,
      fun _ => ⟨a, c, s, ha, hc, hs', (checkTemps_fin o a c s ha hc hs').1 h2⟩⟩
  | calcGW => exact absurd hg (by decide)
  | calcTemps => exact absurd hg (by decide)
  | minimaTracer => exact absurd hg (by decide)
  | potPlotter => exact absurd hg (by decide)

/-- An example that makes sense for every program of this file. -/
def sample : Opts :=
  { modelSet := true, input := [], first := 2, last := 5, line := 2, min := ⟨true, false, false, true⟩, vw := .fin (1 / 2),
    vwMin := .fin (1 / 10), vwMax := .fin (9 / 10), vwStep := .fin (1 / 10), tStart := .fin 0, tStep := .fin 5,
    tEnd := .fin 100 }

instance (o : Opts) : Decidable (Numbers o) := by unfold Numbers; infer_instance

example : Numbers sample ∧ (∀ s, sample.vwStep = .fin s → 0 ≤ s) ∧ 1 ≤ sample.line ∧
    good ⟨true, false, false⟩ .plotVw sample = ok true ∧ good ⟨true, false, false⟩ .vevevo sample = ok true := by
  refine ⟨by decide +kernel, ?_, by decide, by decide +kernel, by decide +kernel⟩
  intro s hs
  rw [sample, Flt.fin.injEq] at hs
  rw [← hs]; decide +kernel

/-- Settings are accepted, refused with a message, or refused by `std::runtime_error`; nothing else happens. -/
theorem C120_answers (b : Built) (g : Prog) (o : Opts) :
    good b g o = ok true ∨ good b g o = ok false ∨ good b g o = err .runtime := by
  have bool : ∀ x : Bool, (ok x : Outcome Bool) = ok true ∨ (ok x : Outcome Bool) = ok false ∨ (ok x : Outcome Bool) = err .runtime := by
    intro x; cases x <;> simp
  have m : checkMinimizers b o.min = ok () ∨ checkMinimizers b o.min = err .runtime := by
    unfold checkMinimizers; repeat' split
    all_goals simp
  have v : checkVw o.vw = ok () ∨ checkVw o.vw = err .runtime := by
    unfold checkVw; split <;> simp
  have vs : checkVws o = ok () ∨ checkVws o = err .runtime := by
    unfold checkVws; repeat' split
    all_goals simp
  have ts : checkTemps o = ok () ∨ checkTemps o = err .runtime := by
    unfold checkTemps; repeat' split
    all_goals simp
  cases g <;> simp only [good] <;>
    rcases m with m | m <;> rcases v with v | v <;> rcases vs with vs | vs <;> rcases ts with ts | ts <;>
    (try simp only [m, v, vs, ts, bind_ok, bind_err]) <;>
    first | exact bool _ | exact Or.inr (Or.inr rfl) | exact Or.inr (Or.inr trivial)

/-- PlotEWBG_vw refuses the step 0 with the words that it has to be larger than 0, but accepts a negative one. -/
theorem C120_negative_step_fails :
    ∃ (b : Built) (o : Opts), good b .plotVw o = ok true ∧ Numbers o ∧ (∃ s < 0, o.vwStep = .fin s) ∧
      ¬ Valid b .plotVw o := by
  refine ⟨⟨true, false, false⟩, { sample with vwStep := .fin (-1 / 10) }, by decide +kernel, by decide +kernel,
    ⟨-1 / 10, by decide +kernel, rfl⟩, fun h => ?_⟩
  obtain ⟨a, c, s, -, -, h3, -, -, -, q⟩ := h.velocities rfl
  rw [Flt.fin.injEq] at h3
  rw [← h3] at q
  exact absurd q (by decide +kernel)

/-- A wall velocity or a temperature that is NaN passes all tests. -/
theorem C120_nan_fails (b : Built) (o : Opts) (hb : Available b o.min) (hm : o.modelSet = true)
    (hl : 1 ≤ o.line ∧ 1 ≤ o.first ∧ o.first ≤ o.last) :
    good b .plotNL { o with vw := .nan } = ok true ∧ good b .calculateEWBG { o with vw := .nan } = ok true ∧
    good b .plotVw { o with vwMin := .nan, vwMax := .nan, vwStep := .nan } = ok true ∧
    good b .vevevo { o with tStart := .nan, tEnd := .nan, tStep := .nan } = ok true := by
  have h1 := (checkMinimizers_iff b o.min).2 hb
  have hm' : ∀ x, (if !o.modelSet then false else x) = x := by intro x; rw [hm]; rfl
  have e : checkVw .nan = ok () := by decide +kernel
  have l1 : ∀ o' : Opts, o'.line = o.line → goodLine o' = true := by
    intro o' h; rw [goodLine_iff, h]; exact hl.1
  have l2 : ∀ o' : Opts, o'.first = o.first → o'.last = o.last → goodLines o' = true := by
    intro o' h h'; rw [goodLines_iff, h, h']; exact hl.2
  have hv : checkVws { o with vwMin := .nan, vwMax := .nan, vwStep := .nan } = ok () := by
    unfold checkVws; simp [isZero]
  have ht : checkTemps { o with tStart := .nan, tEnd := .nan, tStep := .nan } = ok () := by
    unfold checkTemps; simp
  refine ⟨?_, ?_, ?_, ?_⟩
  · simp only [good, h1, bind_ok, e, hm']; exact congrArg ok (l1 _ rfl)
  · simp only [good, h1, bind_ok, e, hm']; exact congrArg ok (l2 _ rfl rfl)
  · simp only [good, h1, bind_ok, hv, hm']; exact congrArg ok (l1 _ rfl)
  · simp only [good, h1, bind_ok, ht, hm']

example : Available ⟨true, false, false⟩ sample.min ∧ sample.modelSet = true ∧
    (1 ≤ sample.line ∧ 1 ≤ sample.first ∧ sample.first ≤ sample.last) := by
  unfold Available sample; decide

/-- VEVEVO does not look at the number of the line. -/
theorem C120_vevevo_line_fails :
    ∃ (b : Built) (o : Opts), good b .vevevo o = ok true ∧ o.line < 1 ∧ ¬ Valid b .vevevo o := by
  refine ⟨⟨true, false, false⟩, { sample with line := -3 }, by decide +kernel, by decide, fun h => ?_⟩
  have := h.line (by decide)
  revert this
  decide

/-- A text that is not an integer ends the program with `std::invalid_argument`, not with the `parserException`
announced in the description of `get_value`. -/
theorem C120_unreadable_number (p : Parser) (name : String) (s : Str) (h : getValue p name.toList = ok s)
    (hs : ∀ c ∈ s, c.isDigit = false) : integer p name = err .invalidArgument := by
  have hd : ∀ (l : Str) (n : Int), (∀ c ∈ l, c.isDigit = false) → readDigits l n false = (n, false) := by
    intro l n hl
    cases l with
    | nil => rfl
    | cons c l => rw [readDigits, hl c (by simp)]; rfl
  have hsign : ∀ l : Str, (∀ c ∈ l, c.isDigit = false) → ∀ c ∈ (readSign l).2, c.isDigit = false := by
    intro l hl
    cases l with
    | nil => simp [readSign]
    | cons c l =>
      have tail : ∀ d ∈ l, d.isDigit = false := fun d hd => hl d (by simp [hd])
      simp only [readSign]
      split
      · exact tail
      · split
        · exact tail
        · exact hl
  have hdrop : ∀ c ∈ s.dropWhile isSpace, c.isDigit = false := fun c hc => hs c (List.dropWhile_sublist _ |>.subset hc)
  unfold integer
  rw [h, bind_ok]
  unfold stoi
  simp only [hd _ 0 (hsign _ hdrop)]

example : ∀ c ∈ "abc".toList, c.isDigit = false := by decide

/-! ## Loops -/

theorem scan_end (a s c : ℚ) (m : Nat) (hs : 0 < s) (h : c < a + m * s) :
    ∃ n ≤ m, (∀ fuel, scan (.fin s) (.fin c) (m + 1 + fuel) (.fin a) =
        some ((List.range n).map fun k : Nat => Flt.fin (a + k * s))) ∧
      ∀ k : Nat, k < n ↔ a + k * s ≤ c := by
  induction m generalizing a with
  | zero =>
    have h' : c < a := by simpa using h
    refine ⟨0, le_refl _, fun fuel => ?_, fun k => ?_⟩
    · rw [show 0 + 1 + fuel = fuel + 1 by omega, scan, if_neg (by simpa using h')]
      rfl
    · constructor
      · intro hk; omega
      · intro hk
        have : (0 : ℚ) ≤ k * s := mul_nonneg (by exact_mod_cast Nat.zero_le k) hs.le
        linarith
  | succ m ih =>
    by_cases hac : a ≤ c
    · obtain ⟨n, hn, h1, h2⟩ := ih (a + s) (by push_cast at h; linarith)
      refine ⟨n + 1, by omega, fun fuel => ?_, fun k => ?_⟩
      · rw [show m + 1 + 1 + fuel = (m + 1 + fuel) + 1 by omega, scan, if_pos (by simpa using hac), add, h1 fuel]
        rw [List.range_succ_eq_map]
        simp only [Option.map_some, List.map_cons, List.map_map]
        congr 2
        · simp
        · apply List.map_congr_left
          intro k _
          simp only [Function.comp, Nat.succ_eq_add_one, Nat.cast_add, Nat.cast_one]
          congr 1
          ring
      · cases k with
        | zero => simpa using hac
        | succ k =>
          rw [Nat.add_lt_add_iff_right, h2 k]
          push_cast
          constructor <;> intro h <;> linarith
    · refine ⟨0, by omega, fun fuel => ?_, fun k => ?_⟩
      · rw [show m + 1 + 1 + fuel = (m + 1 + fuel) + 1 by omega, scan, if_neg (by simpa using hac)]
        rfl
      · constructor
        · intro hk; omega
        · intro hk
          have : (0 : ℚ) ≤ k * s := mul_nonneg (by exact_mod_cast Nat.zero_le k) hs.le
          linarith

/-- With a positive step the loop ends, and it runs through `start + k * step` for exactly those `k` with
`start + k * step ≤ stop`. -/
theorem C120_scan (a s c : ℚ) (hs : 0 < s) :
    ∃ n m : Nat, (∀ fuel ≥ m, scan (.fin s) (.fin c) fuel (.fin a) =
        some ((List.range n).map fun k : Nat => Flt.fin (a + k * s))) ∧
      ∀ k : Nat, k < n ↔ a + k * s ≤ c := by
  obtain ⟨m, hm⟩ := exists_nat_gt ((c - a) / s)
  rw [div_lt_iff₀ hs] at hm
  obtain ⟨n, -, h1, h2⟩ := scan_end a s c m hs (by linarith)
  refine ⟨n, m + 1, fun fuel hf => ?_, h2⟩
  rw [show fuel = m + 1 + (fuel - (m + 1)) by omega]
  exact h1 _

example : (0 : ℚ) < 1 / 10 := by decide +kernel

/-- With a step that is not positive the loop never ends, once it has begun. -/
theorem C120_endless_scan (a s c : ℚ) (hs : s ≤ 0) (hac : a ≤ c) (fuel : Nat) :
    scan (.fin s) (.fin c) fuel (.fin a) = none := by
  induction fuel generalizing a with
  | zero => rfl
  | succ fuel ih =>
    rw [scan, if_pos (by simpa using hac), add, ih (a + s) (by linarith)]
    rfl

/-- So there are settings that PlotEWBG_vw accepts and for which it never ends. -/
theorem C120_endless_fails :
    ∃ (b : Built) (o : Opts), good b .plotVw o = ok true ∧ ∀ fuel, scan o.vwStep o.vwMax fuel o.vwMin = none :=
  ⟨⟨true, false, false⟩, { sample with vwStep := .fin (-1 / 10) }, by decide +kernel,
    C120_endless_scan _ _ _ (by decide +kernel) (by decide +kernel)⟩

/-- With NaN as first or last value the loop does nothing; with NaN as step it has one round. -/
theorem C120_nan_scan (x step stop : Flt ℚ) (a c : ℚ) (hac : a ≤ c) (fuel : Nat) :
    scan step stop (fuel + 1) .nan = some [] ∧ scan step .nan (fuel + 1) x = some [] ∧
    scan .nan (.fin c) (fuel + 2) (.fin a) = some [.fin a] := by
  refine ⟨?_, ?_, ?_⟩
  · rw [scan, if_neg (by simp)]
  · rw [scan, if_neg (by simp)]
  · rw [scan, if_pos (by simpa using hac), add, scan, if_neg (by simp)]
    · rfl
    · intro b d _ h; cases h

theorem evolve_tail {V : Type} (minimize : Flt ℚ → V → V) (tree : V) (start : Flt ℚ) (ts : List (Flt ℚ)) (sol : V)
    (h : ∀ t ∈ ts, eq t start = false) (i : Nat) (hi : i < ts.length) :
    ∃ s m, (evolve minimize tree start ts sol)[i]? = some (ts[i], s, m) ∧ m = minimize ts[i] s ∧
      (i = 0 → s = sol) ∧
      ∀ j, i = j + 1 → ∃ t s', (evolve minimize tree start ts sol)[j]? = some (t, s', s) := by
  induction ts generalizing sol i with
  | nil => simp at hi
  | cons t ts ih =>
    have ht := h t (by simp)
    cases i with
    | zero =>
      refine ⟨sol, minimize t sol, ?_, rfl, fun _ => rfl, fun j hj => by omega⟩
      rw [evolve, ht]; rfl
    | succ i =>
      simp only [List.length_cons, Nat.add_lt_add_iff_right] at hi
      obtain ⟨s, m, h1, h2, h3, h4⟩ := ih (minimize t sol) (fun t ht => h t (by simp [ht])) i hi
      have he : evolve minimize tree start (t :: ts) sol =
          (t, sol, minimize t sol) :: evolve minimize tree start ts (minimize t sol) := by
        rw [evolve, ht]; rfl
      rw [he]
      refine ⟨s, m, by simpa using h1, by simpa using h2, nofun, fun j hj => ?_⟩
      have hj' : i = j := by omega
      subst hj'
      cases i with
      | zero => exact ⟨t, sol, by rw [h3 rfl]; rfl⟩
      | succ i =>
        obtain ⟨t', s', h5⟩ := h4 i rfl
        exact ⟨t', s', by simpa using h5⟩

/-- The table of VEVEVO has one row for each temperature, in order; the search for the first minimum starts at the
tree-level minimum, every other one at the minimum of the row before. -/
theorem C120_evolution {V : Type} (minimize : Flt ℚ → V → V) (tree sol : V) (a s : ℚ) (n : Nat) (hs : 0 < s) (i : Nat)
    (hi : i < n) :
    ∃ st m, (evolve minimize tree (.fin a) ((List.range n).map fun k : Nat => Flt.fin (a + k * s)) sol)[i]? =
        some (.fin (a + i * s), st, m) ∧ m = minimize (.fin (a + i * s)) st ∧ (i = 0 → st = tree) ∧
      ∀ j, i = j + 1 → ∃ s',
        (evolve minimize tree (.fin a) ((List.range n).map fun k : Nat => Flt.fin (a + k * s)) sol)[j]? =
          some (.fin (a + j * s), s', st) := by
  cases n with
  | zero => omega
  | succ n =>
    have hr : (List.range (n + 1)).map (fun k : Nat => Flt.fin (a + k * s)) =
        .fin a :: (List.range n).map fun k : Nat => Flt.fin (a + (k + 1 : Nat) * s) := by
      rw [List.range_succ_eq_map]
      simp only [List.map_cons, List.map_map, Nat.cast_zero, zero_mul, add_zero]
      rfl
    have hne : ∀ t ∈ (List.range n).map (fun k : Nat => Flt.fin (a + (k + 1 : Nat) * s)), eq t (.fin a) = false := by
      intro t ht
      obtain ⟨k, -, rfl⟩ := List.mem_map.1 ht
      have : (0 : ℚ) < ((k + 1 : Nat) : ℚ) * s := mul_pos (by exact_mod_cast Nat.succ_pos k) hs
      simp only [eq, decide_eq_false_iff_not]
      intro h
      linarith
    have hfirst : eq (.fin a) (.fin a) = true := by simp [eq]
    have he : evolve minimize tree (.fin a) ((List.range (n + 1)).map fun k : Nat => Flt.fin (a + k * s)) sol =
        (.fin a, tree, minimize (.fin a) tree) :: evolve minimize tree (.fin a)
          ((List.range n).map fun k : Nat => Flt.fin (a + (k + 1 : Nat) * s)) (minimize (.fin a) tree) := by
      rw [hr, evolve, hfirst]; rfl
    rw [he]
    cases i with
    | zero =>
      refine ⟨tree, minimize (.fin a) tree, ?_, ?_, fun _ => rfl, fun j hj => by omega⟩
      · simp
      · simp
    | succ i =>
      obtain ⟨st, m, h1, h2, h3, h4⟩ := evolve_tail minimize tree (.fin a) _ (minimize (.fin a) tree) hne i
        (by simp; omega)
      rw [List.getElem_map, List.getElem_range] at h1 h2
      refine ⟨st, m, by simpa using h1, h2, nofun, fun j hj => ?_⟩
      have hj' : i = j := by omega
      subst hj'
      cases i with
      | zero => exact ⟨tree, by rw [h3 rfl]; simp⟩
      | succ i =>
        obtain ⟨t', s', h5⟩ := h4 i rfl
        obtain ⟨s2, m2, h6, -⟩ := evolve_tail minimize tree (.fin a) _ (minimize (.fin a) tree) hne i
          (by simp; omega)
        rw [List.getElem_map, List.getElem_range, h5, Option.some.injEq, Prod.mk.injEq] at h6
        exact ⟨s', by rw [List.getElem?_cons_succ, h5, h6.1]⟩

end Verif.Programs.Scan
