import Verif.Bounce.TempsProps

/-!
# C59: the wall velocity behind the reported numbers
-/

namespace Verif.Bounce

open Verif Verif.Outcome

variable {K : Type} [Field K] [LinearOrder K] [IsStrictOrderedRing K]

/-- What the transition tracer stores about one pair of phases. -/
structure Report (K : Type) where
  percTemp : K
  complTemp : K
  vwall : Flt K
  alpha : Flt K
  /-- transition temperature and wall velocity from which the gravitational waves are calculated -/
  gwTemp : K
  gwVelocity : Flt K

/-- src/bounce_solution/bounce_solution.h:61: the wall velocity of a new object. -/
def initialVelocity : Flt K := .fin (95 / 100)

/-- src/transition_tracer/transition_tracer.cpp:141-146, 207-235, 280-288 for a pair of phases with
percolation and completion, percolation being the requested transition temperature.  The temperatures
are stored first, then the velocity, then the strength is calculated.  `compl v` is the completion
temperature for the velocity `v`; `user` is the requested velocity. -/
def reportPair (e : PTEnv K) (compl : Flt K → K) (user : K) (fuel : Nat) :
    Option (Outcome (Report K)) :=
  let perc := e.perc initialVelocity
  let co := compl initialVelocity
  let v := initialVelocity
  (ptStrength e true fuel ⟨.fin (-1), initialVelocity, perc, user⟩).map fun r => do
    let s ← r
    ok ⟨perc, co, v, s.alpha, s.tperc, s.vwall⟩

/-- **C59** (failure) Whatever velocity is requested, the reported velocity is 0.95 and the reported
percolation and completion temperatures are those for 0.95. -/
theorem C59_request_ignored (e : PTEnv K) (compl : Flt K → K) (user : K) (fuel : Nat) (r : Report K)
    (h : reportPair e compl user fuel = some (ok r)) :
    r.vwall = .fin (95 / 100) ∧ r.percTemp = e.perc (.fin (95 / 100)) ∧
      r.complTemp = compl (.fin (95 / 100)) := by
  unfold reportPair at h
  dsimp only at h
  cases hs : ptStrength e true fuel ⟨.fin (-1), initialVelocity, e.perc initialVelocity, user⟩ with
  | none => rw [hs] at h; simp at h
  | some o =>
    rw [hs] at h
    cases o with
    | ok s =>
      simp only [Option.map_some, bind_ok, Option.some.injEq] at h
      cases h
      exact ⟨rfl, rfl, rfl⟩
    | err x => simp at h
    | ub x => simp at h

/-- **C59** (failure) For a given velocity the strength and the gravitational waves belong to this
velocity, so that they disagree with the velocity reported beside them unless it is 0.95. -/
theorem C59_inconsistent (e : PTEnv K) (compl : Flt K → K) (user : K) (hu : 0 ≤ user) (fuel : Nat) (a : K)
    (ha : e.strength (e.perc (.fin user)) = .fin a) (h0 : a ≠ 0) :
    ∃ r, reportPair e compl user (fuel + 1) = some (ok r) ∧ r.gwVelocity = .fin user ∧
      r.gwTemp = e.perc (.fin user) ∧ r.alpha = .fin a ∧ (user ≠ 95 / 100 → r.vwall ≠ r.gwVelocity) := by
  refine ⟨⟨e.perc initialVelocity, compl initialVelocity, initialVelocity, .fin a,
    e.perc (.fin user), .fin user⟩, ?_, rfl, rfl, rfl, ?_⟩
  · unfold reportPair
    have := C28_given_velocity e fuel ⟨.fin (-1), initialVelocity, e.perc initialVelocity, user⟩ hu a ha h0
    dsimp only at this ⊢
    rw [this]
    rfl
  · intro hne h
    dsimp only [initialVelocity] at h
    injection h with h
    exact hne h.symm

/-- **C59** (partial: only the default velocity) For the default velocity all reported numbers belong to
it. -/
theorem C59_default_partial (e : PTEnv K) (compl : Flt K → K) (fuel : Nat) (a : K)
    (ha : e.strength (e.perc (.fin (95 / 100))) = .fin a) (h0 : a ≠ 0) :
    ∃ r, reportPair e compl (95 / 100) (fuel + 1) = some (ok r) ∧ r.vwall = .fin (95 / 100) ∧
      r.gwVelocity = .fin (95 / 100) ∧ r.percTemp = r.gwTemp ∧ r.gwTemp = e.perc (.fin (95 / 100)) ∧
      r.complTemp = compl (.fin (95 / 100)) ∧ r.alpha = .fin a := by
  obtain ⟨r, h1, h2, h3, h4, -⟩ :=
    C59_inconsistent e compl (95 / 100) (by norm_num) fuel a ha h0
  obtain ⟨g1, g2, g3⟩ := C59_request_ignored e compl _ _ r h1
  exact ⟨r, h1, g1, h2, by rw [g2, h3], h3, g3, h4⟩

/-- A percolation temperature that depends on the velocity; 0.5 is requested. -/
example : (match reportPair (⟨fun v => match v with | .fin x => 100 + x | .nan => 0, fun t => .fin (t / 1000),
      fun _ _ => .nan, fun _ _ => .nan⟩ : PTEnv ℚ) (fun _ => 90) (1 / 2) 1 with
    | some (.ok r) => decide (r.vwall = .fin (95 / 100)) && decide (r.gwVelocity = .fin (1 / 2)) &&
        decide (r.percTemp ≠ r.gwTemp)
    | _ => false) = true := by decide +kernel

end Verif.Bounce
