import Verif.Perc.Request
import Mathlib.Data.Rat.Init
import Mathlib.Tactic.NormNum

/-!
# C111: what is requested and what is calculated
-/

namespace Verif.Perc

open Verif Verif.Outcome Verif.Tracer

variable {K G : Type} [DivisionRing K]

/-- What a user who asks for the fractions `percFrac` and `complFrac` expects to be stored. -/
def Expected (r : Request K) (c : Calc K G) (s : Stored K G) : Prop :=
  s.perc = (if (c.perc r.percFrac).status = .success then some (c.perc r.percFrac).temp else none) ∧
  s.compl = (if (c.compl r.complFrac).status = .success then some (c.compl r.complFrac).temp else none)

/-- **C111** (partial: only for the default fractions) With the default fractions, what is stored belongs to the requested
fractions, and each temperature is stored exactly when its calculation succeeded. -/
theorem C111_default_partial (r : Request K) (c : Calc K G) (s : Stored K G) (hp : r.percFrac = 71 / 100)
    (hc : r.complFrac = 1 / 100) (h : pairCalls r c = ok s) :
    Expected r c s ∧
      s.approx = (if c.approx.status = .success then some c.approx.temp else none) ∧
      s.nucl = (if c.nucl.status = .success then some c.nucl.temp else none) := by
  unfold pairCalls at h
  dsimp only at h
  unfold Expected
  rw [hp, hc]
  split_ifs at h <;> cases h <;> exact ⟨⟨rfl, rfl⟩, rfl, rfl⟩

/-- **C111** (failure) The requested fractions have no effect at all. -/
theorem C111_ignored_fails (r r' : Request K) (c : Calc K G) (hg : r.gwCalc = r'.gwCalc) (hw : r.which = r'.which) :
    pairCalls r c = pairCalls r' c := by
  unfold pairCalls
  rw [hg, hw]

/-- **C111** (failure) The stored temperatures are therefore wrong whenever the temperature depends on the fraction. -/
theorem C111_fraction_fails (r : Request K) (c : Calc K G) (s : Stored K G)
    (h1 : (c.perc r.percFrac).status = .success) (h2 : (c.perc (71 / 100)).status = .success)
    (hne : (c.perc r.percFrac).temp ≠ (c.perc (71 / 100)).temp) (h : pairCalls r c = ok s) : ¬ Expected r c s := by
  rintro ⟨he, -⟩
  unfold pairCalls at h
  dsimp only at h
  have hs : s.perc = some (c.perc (71 / 100)).temp := by
    have e : (c.perc percDefault).store = some (c.perc (71 / 100)).temp := by
      unfold Found.store percDefault; rw [if_pos h2]
    split_ifs at h <;> cases h <;> exact e
  rw [hs, if_pos h1] at he
  injection he with he
  exact hne he.symm

/-- A fraction of one half is requested; the temperature falls with the fraction. -/
def exCalc : Calc ℚ Nat :=
  ⟨⟨.success, 110⟩, ⟨.success, 105⟩, fun f => ⟨.success, 90 + 10 * f⟩, fun f => ⟨.success, 80 + 10 * f⟩, fun _ _ => 7⟩

example : ∃ s, pairCalls ⟨1 / 2, 1 / 100, true, 3⟩ exCalc = ok s ∧ ¬ Expected ⟨1 / 2, 1 / 100, true, 3⟩ exCalc s :=
  ⟨_, rfl, C111_fraction_fails _ exCalc _ rfl rfl (by norm_num [exCalc]) rfl⟩

/-- **C111** Which pairs can be calculated: there is a result unless gravitational waves are wanted at a temperature that
was found while there is no percolation temperature; waves are stored exactly when they are wanted and the chosen
temperature was found. -/
theorem C111_result (r : Request K) (c : Calc K G) :
    ((∃ s, pairCalls r c = ok s) ↔
      ¬ (r.gwCalc = true ∧ chosen c r.which = .success ∧ (c.perc (71 / 100)).status ≠ .success)) ∧
    (∀ s, pairCalls r c = ok s →
      ((∃ g, s.waves = some g) ↔ r.gwCalc = true ∧ chosen c r.which = .success)) := by
  unfold pairCalls
  dsimp only
  rw [show (percDefault : K) = 71 / 100 from rfl]
  by_cases h1 : chosen c r.which = .success ∧ r.gwCalc = true
  · rw [if_pos h1]
    by_cases h2 : (c.perc (71 / 100)).status = .success
    · rw [if_pos h2]
      refine ⟨⟨fun _ h => h.2.2 h2, fun _ => ⟨_, rfl⟩⟩, fun s hs => ?_⟩
      cases hs
      exact ⟨fun _ => ⟨h1.2, h1.1⟩, fun _ => ⟨_, rfl⟩⟩
    · rw [if_neg h2]
      refine ⟨⟨fun ⟨s, hs⟩ => (by cases hs), fun h => absurd ⟨h1.2, h1.1, h2⟩ h⟩, fun s hs => (by cases hs)⟩
  · rw [if_neg h1]
    refine ⟨⟨fun _ h => h1 ⟨h.2.1, h.1⟩, fun _ => ⟨_, rfl⟩⟩, fun s hs => ?_⟩
    cases hs
    exact ⟨fun ⟨g, hg⟩ => (by cases hg), fun h => absurd ⟨h.2, h.1⟩ h1⟩

/-- **C111** (failure) When the nucleation temperature is the requested one and was found, but percolation was not reached,
an exception leaves the transition tracer: no result of any pair of this point is delivered. -/
theorem C111_exception_fails (r : Request K) (cs : List (Calc K G)) (c : Calc K G) (hc : c ∈ cs)
    (hg : r.gwCalc = true) (hw : r.which = 2) (hn : c.nucl.status = .success)
    (hp : (c.perc (71 / 100)).status ≠ .success) : pointCalls r cs = err .runtime := by
  unfold pointCalls
  induction cs with
  | nil => cases hc
  | cons a l ih =>
    rw [List.mapM_cons]
    have hcase : (∃ s, pairCalls r a = ok s) ∨ pairCalls r a = err .runtime := by
      unfold pairCalls
      dsimp only
      split_ifs
      · exact Or.inl ⟨_, rfl⟩
      · exact Or.inr rfl
      · exact Or.inl ⟨_, rfl⟩
    rcases hcase with ⟨s, hs⟩ | hs
    · rcases List.mem_cons.1 hc with rfl | hc'
      · exfalso
        apply ((C111_result r c).1.1 ⟨s, hs⟩)
        refine ⟨hg, ?_, hp⟩
        unfold chosen
        rw [hw]
        exact hn
      · rw [hs, bind_ok, ih hc']
        rfl
    · rw [hs]
      rfl

/-- **C111** (failure) Such a point ends the whole program: the points after it are missing from the table. -/
theorem C111_program_fails {L S : Type} (point : L → Outcome S) (before after : List L) (bad : L) (s : L → S)
    (hb : ∀ l ∈ before, point l = ok (s l)) (hbad : point bad = err .runtime) :
    program point (before ++ bad :: after) = (before.map s, false) := by
  induction before with
  | nil => simp only [List.nil_append, program, hbad, List.map_nil]
  | cons a l ih =>
    have ha := hb a List.mem_cons_self
    have := ih fun x hx => hb x (List.mem_cons_of_mem _ hx)
    simp only [List.cons_append, program, ha, this, List.map_cons]

/-- **C111** If no point fails, every point has its line and the program succeeds. -/
theorem C111_program {L S : Type} (point : L → Outcome S) (ls : List L) (s : L → S)
    (hb : ∀ l ∈ ls, point l = ok (s l)) : program point ls = (ls.map s, true) := by
  induction ls with
  | nil => rfl
  | cons a l ih =>
    have ha := hb a List.mem_cons_self
    have := ih fun x hx => hb x (List.mem_cons_of_mem _ hx)
    simp only [program, ha, this, List.map_cons]

/-- Percolation is not reached, nucleation is. -/
example : pointCalls (G := Nat) ⟨71 / 100, 1 / 100, true, 2⟩
    [exCalc, { exCalc with perc := fun _ => ⟨.notMet, -1⟩ }] = err .runtime :=
  C111_exception_fails _ _ _ (List.mem_cons_of_mem _ List.mem_cons_self) rfl rfl rfl (by decide)

end Verif.Perc
