import Verif.Tracer.TrackSpec
import Mathlib.Algebra.Order.Archimedean.Basic
import Mathlib.Algebra.Order.Field.Basic
import Mathlib.Algebra.Order.AbsoluteValue.Basic
import Mathlib.Tactic.Linarith
import Mathlib.Tactic.Positivity
import Mathlib.Tactic.FieldSimp
import Mathlib.Tactic.Ring

/-!
# C50: tracking a phase
-/

namespace Verif.Tracer

set_option linter.unusedSectionVars false

variable {P K : Type} [Field K] [LinearOrder K] [IsStrictOrderedRing K]

/-- What remains when the loop is left with `break` or by its condition. -/
def finish (s : TState P K) : List (Minimum P K) × Option K :=
  (s.mins, if s.glob then some s.t else s.globEnd)

/-- Induction over the rounds of the tracking loop. -/
theorem trackLoop_inv (e : Env P K) (unp : Bool) (iT fT idT : K) (I : TState P K → Prop)
    (R : List (Minimum P K) × Option K → Prop)
    (hend : ∀ s, I s → R (finish s))
    (hround : ∀ s, I s → (fT - s.t) / s.dT ≥ 0 → match trackRound e unp iT fT idT s with
      | .ret l g => R (l, g)
      | .brk s' => R (finish s')
      | .cont s' => I s')
    (fuel : Nat) (s : TState P K) (hs : I s) (r) (h : trackLoop e unp iT fT idT fuel s = some r) : R r := by
  induction fuel generalizing s with
  | zero => simp [trackLoop] at h
  | succ fuel ih =>
    rw [trackLoop] at h
    dsimp only at h
    split at h
    · rename_i hc
      have := hround s hs hc
      split at h <;> rename_i heq <;> rw [heq] at this
      · cases h; exact this
      · cases h; exact this
      · exact ih _ this h
    · cases h; exact hend s hs

theorem Followed_append (e : Env P K) (unp : Bool) (p : P) (l : List (Minimum P K)) (m : Minimum P K)
    (h : Followed e unp p l) (hm : Continues e unp (endPoint p l) m) : Followed e unp p (l ++ [m]) := by
  induction l generalizing p with
  | nil => exact ⟨hm, trivial⟩
  | cons a l ih => exact ⟨h.1, ih _ h.2 hm⟩

theorem endPoint_append (p : P) (l : List (Minimum P K)) (m : Minimum P K) :
    endPoint p (l ++ [m]) = m.point := by
  induction l generalizing p with
  | nil => rfl
  | cons a l ih => exact ih _

/-- How a round can end, with the conditions under which it does. -/
inductive RoundCase (e : Env P K) (unp : Bool) (iT fT idT : K) (s : TState P K) : Next P K → Prop
  | small (h : |s.dT| < 1 / 10 ^ 5) : RoundCase e unp iT fT idT s (.brk s)
  | failStart (h : ¬ |s.dT| < 1 / 10 ^ 5) (hb : e.bad (e.locate s.point s.t) s.t = true ∨
      e.dist (e.locate s.point s.t) s.point > e.dim) (hi : iT = s.t) :
      RoundCase e unp iT fT idT s (.ret s.mins s.globEnd)
  | fail (h : ¬ |s.dT| < 1 / 10 ^ 5) (hb : e.bad (e.locate s.point s.t) s.t = true ∨
      e.dist (e.locate s.point s.t) s.point > e.dim) (hi : iT ≠ s.t) :
      RoundCase e unp iT fT idT s (advance fT { s with t := s.t - s.dT, dT := s.dT / 10 })
  | okUnprotected (h : ¬ |s.dT| < 1 / 10 ^ 5) (hb : e.bad (e.locate s.point s.t) s.t = false)
      (hd : e.dist (e.locate s.point s.t) s.point ≤ e.dim) (hu : unp = true) :
      RoundCase e unp iT fT idT s (advance fT { s with
        mins := s.mins ++ [⟨e.locate s.point s.t, s.t, e.pot (e.locate s.point s.t) s.t, 0⟩]
        point := e.locate s.point s.t
        dT := nextStep e.dim idT s.dT (e.dist (e.locate s.point s.t) s.point) })
  | zeroFound (h : ¬ |s.dT| < 1 / 10 ^ 5) (hb : e.bad (e.locate s.point s.t) s.t = false)
      (hd : e.dist (e.locate s.point s.t) s.point ≤ e.dim) (hu : unp = false)
      (hn : e.neg (e.locate s.point s.t) s.t = true) (hm : s.isInMin = -1) (z : P) (tz : K)
      (hz : e.zero s.point (s.t - s.dT) (e.locate s.point s.t) s.t = some (z, tz)) :
      RoundCase e unp iT fT idT s (.brk { noteGlob e z tz { s with t := tz } with
        mins := s.mins ++ [⟨z, tz, e.pot z tz, 0⟩] })
  | zeroNone (h : ¬ |s.dT| < 1 / 10 ^ 5) (hb : e.bad (e.locate s.point s.t) s.t = false)
      (hd : e.dist (e.locate s.point s.t) s.point ≤ e.dim) (hu : unp = false)
      (hn : e.neg (e.locate s.point s.t) s.t = true) (hm : s.isInMin = -1)
      (hz : e.zero s.point (s.t - s.dT) (e.locate s.point s.t) s.t = none) :
      RoundCase e unp iT fT idT s (.brk s)
  | saddle (h : ¬ |s.dT| < 1 / 10 ^ 5) (hb : e.bad (e.locate s.point s.t) s.t = false)
      (hd : e.dist (e.locate s.point s.t) s.point ≤ e.dim) (hu : unp = false)
      (hn : e.neg (e.locate s.point s.t) s.t = true) (hm : s.isInMin ≠ -1) :
      RoundCase e unp iT fT idT s (.ret s.mins s.globEnd)
  | never (hm : s.isInMin = 1) : RoundCase e unp iT fT idT s (.brk s)
  | okMin (h : ¬ |s.dT| < 1 / 10 ^ 5) (hb : e.bad (e.locate s.point s.t) s.t = false)
      (hd : e.dist (e.locate s.point s.t) s.point ≤ e.dim) (hu : unp = false)
      (hn : e.neg (e.locate s.point s.t) s.t = false) (hm : s.isInMin ≠ 1) :
      RoundCase e unp iT fT idT s (advance fT { noteGlob e (e.locate s.point s.t) s.t s with
        mins := s.mins ++ [⟨e.locate s.point s.t, s.t, e.pot (e.locate s.point s.t) s.t, 0⟩]
        point := e.locate s.point s.t
        isInMin := -1
        dT := nextStep e.dim idT s.dT (e.dist (e.locate s.point s.t) s.point) })

theorem noteGlob_same (e : Env P K) (p : P) (t : K) (s : TState P K) :
    (noteGlob e p t s).t = s.t ∧ (noteGlob e p t s).dT = s.dT ∧ (noteGlob e p t s).mins = s.mins ∧
    (noteGlob e p t s).point = s.point ∧ (noteGlob e p t s).isInMin = s.isInMin := by
  unfold noteGlob
  split
  · split <;> simp
  · simp

theorem trackRound_cases (e : Env P K) (unp : Bool) (iT fT idT : K) (s : TState P K) :
    RoundCase e unp iT fT idT s (trackRound e unp iT fT idT s) := by
  unfold trackRound
  dsimp only
  split
  · exact .small ‹_›
  · rename_i h
    split
    · rename_i hb
      split
      · exact .failStart h hb ‹_›
      · exact .fail h hb ‹_›
    · rename_i hb
      push Not at hb
      have hb1 : e.bad (e.locate s.point s.t) s.t = false := by simpa using hb.1
      split
      · exact .okUnprotected h hb1 hb.2 ‹_›
      · rename_i hu
        have hu : unp = false := by simpa using hu
        split
        · rename_i hn
          split
          · rename_i hm
            split
            · rename_i z tz hz
              have := noteGlob_same e z tz { s with t := tz }
              rw [this.2.2.1]
              exact .zeroFound h hb1 hb.2 hu hn hm z tz hz
            · exact .zeroNone h hb1 hb.2 hu hn hm ‹_›
          · exact .saddle h hb1 hb.2 hu hn ‹_›
        · rename_i hn
          have hn : e.neg (e.locate s.point s.t) s.t = false := by simpa using hn
          split
          · exact .never ‹_›
          · have := noteGlob_same e (e.locate s.point s.t) s.t s
            have hc := RoundCase.okMin (iT := iT) (fT := fT) (idT := idT) h hb1 hb.2 hu hn ‹_›
            dsimp only at hc
            rw [this.1] at hc
            rw [this.1, this.2.1, this.2.2.1]
            exact hc

/-- The three ways to advance. -/
theorem advance_cases (fT : K) (s : TState P K) :
    (s.t = fT ∧ advance fT s = .brk s) ∨
    (s.t ≠ fT ∧ |fT - s.t| > |s.dT| ∧ advance fT s = .cont { s with t := s.t + s.dT }) ∨
    (s.t ≠ fT ∧ |fT - s.t| ≤ |s.dT| ∧ advance fT s = .cont { s with t := fT }) := by
  unfold advance
  split
  · exact Or.inl ⟨‹_›, rfl⟩
  · split
    · exact Or.inr (Or.inl ⟨‹_›, ‹_›, rfl⟩)
    · exact Or.inr (Or.inr ⟨‹_›, not_lt.1 ‹_›, rfl⟩)

/-- For an invariant that does not mention the temperature, advancing is harmless. -/
theorem advance_inv (fT : K) (s : TState P K) (I : TState P K → Prop)
    (R : List (Minimum P K) × Option K → Prop) (hend : ∀ s, I s → R (finish s))
    (h0 : I s) (hI : ∀ t, I { s with t := t }) :
    match advance fT s with
      | .ret l g => R (l, g)
      | .brk s' => R (finish s')
      | .cont s' => I s' := by
  rcases advance_cases fT s with ⟨_, h⟩ | ⟨_, _, h⟩ | ⟨_, _, h⟩ <;> rw [h]
  · exact hend _ h0
  · exact hI _
  · exact hI _

/-- Induction over the rounds of a whole call. -/
theorem trackPhase_inv (e : Env P K) (unp : Bool) (start : P) (iT fT dT d : K)
    (hd : d = if (fT - iT) / dT < 0 then dT * (-1) else dT) (I : TState P K → Prop)
    (R : List (Minimum P K) × Option K → Prop)
    (hinit : I { t := iT, dT := d, point := start, isInMin := 0, mins := [] })
    (hend : ∀ s, I s → R (finish s))
    (hround : ∀ s, I s → (fT - s.t) / s.dT ≥ 0 → ∀ nx, RoundCase e unp iT fT d s nx → match nx with
      | .ret l g => R (l, g)
      | .brk s' => R (finish s')
      | .cont s' => I s')
    (fuel : Nat) (r) (h : trackPhase e unp fuel start iT fT dT = some r) : R r := by
  unfold trackPhase at h
  dsimp only at h
  rw [← hd] at h
  exact trackLoop_inv e unp iT fT d I R hend
    (fun s hs hc => hround s hs hc _ (trackRound_cases e unp iT fT d s)) fuel _ hinit r h

/-- C50: every minimum in the list is found from its predecessor by a local search at its temperature, with
a small gradient, not too far away and not a saddle point; only the last entry may instead be the place
where the smallest eigenvalue of the curvature changes sign. -/
theorem C50_followed (e : Env P K) (unp : Bool) (fuel : Nat) (start : P) (iT fT dT : K)
    (l : List (Minimum P K)) (g : Option K)
    (h : trackPhase e unp fuel start iT fT dT = some (l, g)) :
    Followed e unp start l ∨
    ∃ l' m, l = l' ++ [m] ∧ l' ≠ [] ∧ unp = false ∧ Followed e unp start l' ∧
      m.potential = e.pot m.point m.temp ∧ ∃ t d, e.neg (e.locate (endPoint start l') t) t = true ∧
        e.zero (endPoint start l') (t - d) (e.locate (endPoint start l') t) t = some (m.point, m.temp) := by
  let I : TState P K → Prop := fun s => Followed e unp start s.mins ∧ s.point = endPoint start s.mins ∧
    (s.isInMin = -1 → s.mins ≠ [])
  let R : List (Minimum P K) × Option K → Prop := fun r => Followed e unp start r.1 ∨
      ∃ l' m, r.1 = l' ++ [m] ∧ l' ≠ [] ∧ unp = false ∧ Followed e unp start l' ∧
      m.potential = e.pot m.point m.temp ∧ ∃ t d, e.neg (e.locate (endPoint start l') t) t = true ∧
        e.zero (endPoint start l') (t - d) (e.locate (endPoint start l') t) t = some (m.point, m.temp)
  have hend : ∀ s, I s → R (finish s) := fun s hs => Or.inl hs.1
  refine trackPhase_inv e unp start iT fT dT _ rfl I R ⟨trivial, rfl, by simp⟩ hend ?_ fuel (l, g) h
  intro s hs _ nx hc
  have hmin : ∀ (hu : unp = true ∨ e.neg (e.locate s.point s.t) s.t = false)
      (_ : e.bad (e.locate s.point s.t) s.t = false)
      (_ : e.dist (e.locate s.point s.t) s.point ≤ e.dim), Followed e unp start
        (s.mins ++ [⟨e.locate s.point s.t, s.t, e.pot (e.locate s.point s.t) s.t, 0⟩]) := by
    intro hu hb hd
    exact Followed_append _ _ _ _ _ hs.1 ⟨by rw [← hs.2.1], rfl, hb, by rw [← hs.2.1]; exact hd, hu⟩
  have hpt := endPoint_append start s.mins
    ⟨e.locate s.point s.t, s.t, e.pot (e.locate s.point s.t) s.t, 0⟩
  cases hc with
  | small h => exact hend s hs
  | failStart h hb hi => exact Or.inl hs.1
  | fail h hb hi =>
    exact advance_inv fT _ I R hend ⟨hs.1, hs.2.1, hs.2.2⟩ (fun t => ⟨hs.1, hs.2.1, hs.2.2⟩)
  | okUnprotected h hb hd hu =>
    have h1 := hmin (Or.inl hu) hb hd
    exact advance_inv fT _ I R hend ⟨h1, hpt.symm, fun _ => by simp⟩
      (fun t => ⟨h1, hpt.symm, fun _ => by simp⟩)
  | zeroFound h hb hd hu hn hm z tz hz =>
    refine Or.inr ⟨s.mins, _, rfl, hs.2.2 hm, hu, hs.1, rfl, s.t, s.dT, ?_, ?_⟩
    · rw [← hs.2.1]; exact hn
    · rw [← hs.2.1]; exact hz
  | zeroNone h hb hd hu hn hm hz => exact hend s hs
  | saddle h hb hd hu hn hm => exact Or.inl hs.1
  | never hm => exact hend s hs
  | okMin h hb hd hu hn hm =>
    have h1 := hmin (Or.inr hn) hb hd
    exact advance_inv fT _ I R hend ⟨h1, hpt.symm, fun _ => by simp⟩
      (fun t => ⟨h1, hpt.symm, fun _ => by simp⟩)

/-- C50: the first minimum of the list is at the temperature where the tracking was to start. -/
theorem C50_first (e : Env P K) (unp : Bool) (fuel : Nat) (start : P) (iT fT dT : K)
    (l : List (Minimum P K)) (g : Option K)
    (h : trackPhase e unp fuel start iT fT dT = some (l, g)) (hl : l ≠ []) :
    l.head?.map (·.temp) = some iT := by
  let I : TState P K → Prop := fun s => (s.mins = [] → s.t = iT ∧ s.isInMin = 0) ∧
    (s.mins ≠ [] → s.mins.head?.map (·.temp) = some iT)
  let R : List (Minimum P K) × Option K → Prop := fun r => r.1 ≠ [] → r.1.head?.map (·.temp) = some iT
  have hend : ∀ s, I s → R (finish s) := fun s hs => hs.2
  refine trackPhase_inv e unp start iT fT dT _ rfl I R ⟨fun _ => ⟨rfl, rfl⟩, by simp⟩ hend ?_ fuel (l, g) h hl
  intro s hs _ nx hc
  have happ : ∀ m : Minimum P K, m.temp = s.t →
      (s.mins ++ [m]).head?.map (·.temp) = some iT := by
    intro m hm
    by_cases h0 : s.mins = []
    · simp [h0, hm, (hs.1 h0).1]
    · obtain ⟨a, l', h'⟩ := List.exists_cons_of_ne_nil h0
      have := hs.2 h0
      rw [h'] at this ⊢
      simpa using this
  cases hc with
  | small h => exact hend s hs
  | failStart h hb hi => exact hs.2
  | fail h hb hi =>
    have h0 : s.mins ≠ [] := fun h0 => hi (hs.1 h0).1.symm
    exact advance_inv fT _ I R hend ⟨fun h => absurd h h0, hs.2⟩ (fun t => ⟨fun h => absurd h h0, hs.2⟩)
  | okUnprotected h hb hd hu =>
    have h1 := happ ⟨e.locate s.point s.t, s.t, e.pot (e.locate s.point s.t) s.t, 0⟩ rfl
    exact advance_inv fT _ I R hend ⟨fun h => by simp at h, fun _ => h1⟩
      (fun t => ⟨fun h => by simp at h, fun _ => h1⟩)
  | zeroFound h hb hd hu hn hm z tz hz =>
    intro _
    have h0 : s.mins ≠ [] := fun h0 => by
      have := (hs.1 h0).2
      omega
    obtain ⟨a, l', h'⟩ := List.exists_cons_of_ne_nil h0
    have := hs.2 h0
    simp only [finish]
    rw [h'] at this ⊢
    simpa using this
  | zeroNone h hb hd hu hn hm hz => exact hend s hs
  | saddle h hb hd hu hn hm => exact hs.2
  | never hm => exact hend s hs
  | okMin h hb hd hu hn hm =>
    have h1 := happ ⟨e.locate s.point s.t, s.t, e.pot (e.locate s.point s.t) s.t, 0⟩ rfl
    exact advance_inv fT _ I R hend ⟨fun h => by simp at h, fun _ => h1⟩
      (fun t => ⟨fun h => by simp at h, fun _ => h1⟩)

/-- C50: `globMinEndT` of the version with global minima.  In protected mode either all minima found are
global, or it is the temperature of the first one that is not. -/
theorem C50_global_end (e : Env P K) (fuel : Nat) (start : P) (iT fT dT : K)
    (l : List (Minimum P K)) (g : Option K)
    (h : trackPhase e false fuel start iT fT dT = some (l, g)) :
    (∀ m ∈ l, e.glob m.point m.temp = true) ∨
    ∃ l1 m l2, l = l1 ++ m :: l2 ∧ (∀ x ∈ l1, e.glob x.point x.temp = true) ∧
      e.glob m.point m.temp = false ∧ g = some m.temp := by
  let Q : List (Minimum P K) → Option K → Prop := fun l g =>
    ∃ l1 m l2, l = l1 ++ m :: l2 ∧ (∀ x ∈ l1, e.glob x.point x.temp = true) ∧
      e.glob m.point m.temp = false ∧ g = some m.temp
  let I : TState P K → Prop := fun s => (s.glob = true ∧ (∀ m ∈ s.mins, e.glob m.point m.temp = true)) ∨
    (s.glob = false ∧ Q s.mins s.globEnd)
  let R : List (Minimum P K) × Option K → Prop := fun r =>
    (∀ m ∈ r.1, e.glob m.point m.temp = true) ∨ Q r.1 r.2
  have hend : ∀ s, I s → R (finish s) := by
    rintro s (hs | hs)
    · exact Or.inl hs.2
    · right
      simpa only [finish, hs.1, Bool.false_eq_true, if_false] using hs.2
  have hret : ∀ s, I s → R (s.mins, s.globEnd) := by
    rintro s (hs | hs)
    · exact Or.inl hs.2
    · exact Or.inr hs.2
  have hQ : ∀ (l : List (Minimum P K)) (g : Option K) (m : Minimum P K), Q l g → Q (l ++ [m]) g := by
    rintro l g m ⟨l1, a, l2, h1, h2, h3, h4⟩
    exact ⟨l1, a, l2 ++ [m], by simp [h1], h2, h3, h4⟩
  -- adding a minimum after noting whether it is global
  have hnote : ∀ (s : TState P K) (p : P) (t : K) (pt : K) (p' : P) (i : Int) (d tt : K), I s →
      I { noteGlob e p t s with
          mins := s.mins ++ [⟨p, t, pt, 0⟩], t := tt, point := p', isInMin := i, dT := d } := by
    intro s p t pt p' i d tt hs
    unfold noteGlob
    rcases hs with ⟨h1, h2⟩ | ⟨h1, h2⟩
    · rw [if_pos h1]
      split
      · rename_i hg
        left
        refine ⟨h1, ?_⟩
        intro m hm
        rcases List.mem_append.1 hm with hm | hm
        · exact h2 m hm
        · obtain rfl := List.mem_singleton.1 hm; exact hg
      · rename_i hg
        right
        refine ⟨rfl, s.mins, _, [], rfl, h2, ?_, rfl⟩
        simpa using hg
    · rw [if_neg (by simp [h1])]
      right
      exact ⟨h1, hQ _ _ _ h2⟩
  refine trackPhase_inv e false start iT fT dT _ rfl I R (Or.inl ⟨rfl, by simp⟩) hend ?_ fuel (l, g) h
  intro s hs _ nx hc
  cases hc with
  | small h => exact hend s hs
  | failStart h hb hi => exact hret s hs
  | fail h hb hi => exact advance_inv fT _ I R hend hs (fun t => hs)
  | okUnprotected h hb hd hu => exact absurd hu (by simp)
  | zeroFound h hb hd hu hn hm z tz hz =>
    exact hend _ (hnote { s with t := tz } z tz _ _ _ _ _ hs)
  | zeroNone h hb hd hu hn hm hz => exact hend s hs
  | saddle h hb hd hu hn hm => exact hret s hs
  | never hm => exact hend s hs
  | okMin h hb hd hu hn hm =>
    exact advance_inv fT _ I R hend (hnote s _ _ _ _ _ _ _ hs) (fun t => hnote s _ _ _ _ _ _ _ hs)

/-! ### Temperatures -/

theorem nextStep_pos (dim idT dT dist σ : K) (h1 : 0 < σ * idT) (h2 : 0 < σ * dT) (hd : 0 ≤ dist)
    (hdim : 0 < dim) : 0 < σ * nextStep dim idT dT dist := by
  unfold nextStep
  split
  · exact h1
  · rename_i h0
    have : 0 < (1 / 2) * dim / dist := div_pos (by positivity) (lt_of_le_of_ne hd (Ne.symm h0))
    dsimp only
    split
    · exact h1
    · rw [← mul_assoc]; exact mul_pos h2 this

/-- A small distance restores the initial step. -/
theorem nextStep_reset (dim idT dT dist : K) (hd : 0 ≤ dist) (hr : |idT| * dist ≤ |dT| * (dim / 2)) :
    nextStep dim idT dT dist = idT := by
  unfold nextStep
  split
  · rfl
  · rename_i h0
    have hp : 0 < dist := lt_of_le_of_ne hd (Ne.symm h0)
    dsimp only
    rw [if_pos]
    have hdim : 0 ≤ |dT| * (dim / 2) := le_trans (by positivity) hr
    have e1 : dT * (1 / 2 * dim / dist) = dT * (dim / 2) / dist := by ring
    rw [e1, abs_div, abs_of_pos hp, le_div_iff₀ hp]
    refine hr.trans ?_
    rw [abs_mul]
    exact mul_le_mul_of_nonneg_left (le_abs_self _) (abs_nonneg _)

/-- The temperatures between two others. -/
theorem between_sign (a b x σ : K) (h : min a b ≤ x ∧ x ≤ max a b) (hσ : σ = 1 ∨ σ = -1)
    (fT : K) (ha : 0 ≤ σ * (fT - a)) (hb : 0 ≤ σ * (fT - b)) : 0 ≤ σ * (fT - x) := by
  rcases hσ with rfl | rfl
  · have : max a b ≤ fT := max_le (by linarith) (by linarith)
    linarith [h.2]
  · have : fT ≤ min a b := le_min (by linarith) (by linarith)
    linarith [h.1]

/-- C50 for both directions: `σ` is 1 for rising and -1 for falling temperature. -/
theorem C50_not_beyond (e : Env P K) (unp : Bool) (fuel : Nat) (start : P) (iT fT dT σ : K)
    (l : List (Minimum P K)) (g : Option K) (hσ : σ = 1 ∨ σ = -1) (hdir : 0 < σ * (fT - iT)) (hdT : dT ≠ 0)
    (hdist : ∀ p q, 0 ≤ e.dist p q) (hdim : 0 < e.dim)
    (hzero : ∀ p a q b z t, e.zero p a q b = some (z, t) → min a b ≤ t ∧ t ≤ max a b)
    (h : trackPhase e unp fuel start iT fT dT = some (l, g)) :
    ∀ m ∈ l, 0 ≤ σ * (fT - m.temp) := by
  obtain ⟨d, hd⟩ : ∃ d, d = if (fT - iT) / dT < 0 then dT * (-1) else dT := ⟨_, rfl⟩
  have hσ2 : σ * σ = 1 := by rcases hσ with rfl | rfl <;> norm_num
  have hpos : 0 < σ * d := by
    have hq : (fT - iT) / dT = (σ * (fT - iT)) / (σ * dT) := by
      rcases hσ with rfl | rfl
      · simp
      · rw [neg_one_mul, neg_one_mul, neg_div_neg_eq]
    have hn : σ * dT ≠ 0 := mul_ne_zero (by rcases hσ with rfl | rfl <;> norm_num) hdT
    rw [hd, hq]
    split
    · rename_i hlt
      have : σ * dT < 0 := by
        by_contra hc
        exact absurd hlt (not_lt.2 (div_nonneg hdir.le (not_lt.1 hc)))
      linarith
    · rename_i hlt
      rcases lt_or_gt_of_ne hn with h' | h'
      · exact absurd (div_neg_of_pos_of_neg hdir h') hlt
      · exact h'
  let I : TState P K → Prop := fun s => 0 < σ * s.dT ∧ 0 ≤ σ * (fT - s.t) ∧
    ∀ m ∈ s.mins, 0 ≤ σ * (fT - m.temp)
  let R : List (Minimum P K) × Option K → Prop := fun r => ∀ m ∈ r.1, 0 ≤ σ * (fT - m.temp)
  have hend : ∀ s, I s → R (finish s) := fun s hs => hs.2.2
  have hadv : ∀ s, I s → match advance fT s with
      | .ret l g => R (l, g)
      | .brk s' => R (finish s')
      | .cont s' => I s' := by
    intro s hs
    have habs : |s.dT| = σ * s.dT := by
      rcases hσ with rfl | rfl
      · rw [abs_of_pos (by linarith [hs.1]), one_mul]
      · rw [abs_of_neg (by linarith [hs.1]), neg_one_mul]
    have habs2 : |fT - s.t| = σ * (fT - s.t) := by
      rcases hσ with rfl | rfl
      · rw [abs_of_nonneg (by linarith [hs.2.1]), one_mul]
      · rw [abs_of_nonpos (by linarith [hs.2.1]), neg_one_mul]
    rcases advance_cases fT s with ⟨_, h⟩ | ⟨_, h1, h⟩ | ⟨_, h1, h⟩ <;> rw [h]
    · exact hend s hs
    · refine ⟨hs.1, ?_, hs.2.2⟩
      rw [habs, habs2] at h1
      have : σ * (fT - (s.t + s.dT)) = σ * (fT - s.t) - σ * s.dT := by ring
      rw [this]; linarith
    · exact ⟨hs.1, by simp, hs.2.2⟩
  refine trackPhase_inv e unp start iT fT dT d hd I R ⟨hpos, hdir.le, by simp⟩ hend ?_ fuel (l, g) h
  intro s hs _ nx hc
  have happ : ∀ m : Minimum P K, 0 ≤ σ * (fT - m.temp) →
      ∀ x ∈ s.mins ++ [m], 0 ≤ σ * (fT - x.temp) := by
    intro m hm x hx
    rcases List.mem_append.1 hx with hx | hx
    · exact hs.2.2 x hx
    · obtain rfl := List.mem_singleton.1 hx; exact hm
  cases hc with
  | small h => exact hend s hs
  | failStart h hb hi => exact hs.2.2
  | fail h hb hi =>
    refine hadv _ ⟨?_, ?_, hs.2.2⟩
    · have : σ * (s.dT / 10) = σ * s.dT / 10 := by ring
      have h1 := hs.1
      simp only [this]; linarith
    · have : σ * (fT - (s.t - s.dT)) = σ * (fT - s.t) + σ * s.dT := by ring
      have h1 := hs.1
      have h2 := hs.2.1
      simp only [this]; linarith
  | okUnprotected h hb hd hu =>
    exact hadv _ ⟨nextStep_pos _ _ _ _ _ hpos hs.1 (hdist _ _) hdim, hs.2.1, happ _ hs.2.1⟩
  | zeroFound h hb hd hu hn hm z tz hz =>
    refine happ _ (between_sign _ _ _ σ (hzero _ _ _ _ _ _ hz) hσ fT ?_ hs.2.1)
    have : σ * (fT - (s.t - s.dT)) = σ * (fT - s.t) + σ * s.dT := by ring
    rw [this]; linarith [hs.1, hs.2.1]
  | zeroNone h hb hd hu hn hm hz => exact hend s hs
  | saddle h hb hd hu hn hm => exact hs.2.2
  | never hm => exact hend s hs
  | okMin h hb hd hu hn hm =>
    have hg := noteGlob_same e (e.locate s.point s.t) s.t s
    refine hadv _ ⟨nextStep_pos _ _ _ _ _ hpos hs.1 (hdist _ _) hdim, ?_, happ _ hs.2.1⟩
    dsimp only
    rw [hg.1]
    exact hs.2.1

end Verif.Tracer
