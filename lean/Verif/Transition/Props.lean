import Verif.Transition.Spec
import Verif.Tracer.CoexProps
import Mathlib.Tactic.Linarith
import Mathlib.Algebra.Order.Field.Rat

/-!
# C23, C24: the transition history and the entries for every pair
-/

set_option linter.unusedSectionVars false

namespace Verif.Transition

open Outcome Verif.Tracer

/-! ## C24 -/

section

variable {K : Type}

theorem foldl_store (n : Nat) (g : Bool) (w : Int) (l : List (PairEnv K)) (s : Store K) :
    l.foldl (pairStep n g w) s =
      let r := l.foldl (pairStep n g w) {}
      ⟨s.crit ++ r.crit, s.bounce ++ r.bounce, s.approx ++ r.approx, s.nucl ++ r.nucl,
        s.perc ++ r.perc, s.compl ++ r.compl, s.data ++ r.data, s.gw ++ r.gw⟩ := by
  induction l generalizing s with
  | nil => simp
  | cons e l ih =>
    rw [List.foldl_cons, ih, List.foldl_cons, ih (pairStep n g w {} e)]
    simp only [pairStep]
    by_cases h : e.critStatus = .success ∨ e.critStatus = .trueLower
    · by_cases hb : e.bounce = .success <;> simp [h, hb]
    · simp [h]

theorem pairLoop_cons (n : Nat) (g : Bool) (w : Int) (e : PairEnv K) (l : List (PairEnv K)) :
    pairLoop n g w (e :: l) =
      let s := pairStep n g w {} e
      let r := pairLoop n g w l
      ⟨s.crit ++ r.crit, s.bounce ++ r.bounce, s.approx ++ r.approx, s.nucl ++ r.nucl,
        s.perc ++ r.perc, s.compl ++ r.compl, s.data ++ r.data, s.gw ++ r.gw⟩ := by
  rw [pairLoop, List.foldl_cons, foldl_store]
  rfl

/-- The entries for a single pair. -/
theorem single (n : Nat) (g : Bool) (w : Int) (e : PairEnv K) :
    ∃ (b : GWStatus) (a nu p c : TempStatus) (d : Trans K) (gw : GW K),
      pairStep n g w {} e = ⟨[e.critStatus], [b], [a], [nu], [p], [c], [d], [gw]⟩ ∧
      b = (if HasBounce e then e.bounce else .notSet) ∧
      StageStored n e e.approx a d.approx ∧ StageStored n e e.nucl nu d.nucl ∧
      StageStored n e e.perc p d.perc ∧ StageStored n e e.compl c d.compl ∧
      d.crit.temp = e.critTemp ∧
      (HasBounce e → d.crit.falseVev = e.falseVev e.critTemp ∧ d.crit.trueVev = e.trueVev e.critTemp) ∧
      (¬ HasBounce e → d.crit.falseVev = List.replicate n none ∧ d.crit.trueVev = List.replicate n none) ∧
      (¬ HasTemps e → gw = {}) ∧ (HasTemps e → gw = gwOf g w e) := by
  by_cases h : HasBounce e
  · have h' : e.critStatus = .success ∨ e.critStatus = .trueLower := h
    by_cases hb : e.bounce = .success
    · have ht : HasTemps e := ⟨h, hb⟩
      have key : ∀ r : TempStatus × Option K, StageStored n e r r.1 (stageOf n e r) := by
        intro r
        refine ⟨fun _ => rfl, fun hn => absurd ht hn, ?_, ?_⟩
        · rintro ⟨_, hr⟩
          simp [stageOf, hr]
        · intro hn
          have hr : ¬ r.1 = .success := fun hr => hn ⟨ht, hr⟩
          simp [stageOf, hr, emptyStage]
      refine ⟨e.bounce, e.approx.1, e.nucl.1, e.perc.1, e.compl.1, _, _, by
        simp only [pairStep, if_pos h', if_pos hb, List.nil_append]; rfl, by simp [h], ?_⟩
      refine ⟨key _, key _, key _, key _, rfl, fun _ => ⟨rfl, rfl⟩, fun hn => absurd h hn,
        fun hn => absurd ht hn, fun _ => rfl⟩
    · have ht : ¬ HasTemps e := fun x => hb x.2
      have key : ∀ r : TempStatus × Option K, StageStored n e r .nan (emptyStage n) :=
        fun r => ⟨fun x => absurd x ht, fun _ => rfl, fun x => absurd x.1 ht, fun _ => ⟨rfl, rfl, rfl⟩⟩
      refine ⟨e.bounce, .nan, .nan, .nan, .nan, _, _, by
        simp only [pairStep, if_pos h', if_neg hb, List.nil_append]; rfl, by simp [h], ?_⟩
      exact ⟨key _, key _, key _, key _, rfl, fun _ => ⟨rfl, rfl⟩, fun hn => absurd h hn,
        fun _ => rfl, fun x => absurd x ht⟩
  · have h' : ¬ (e.critStatus = .success ∨ e.critStatus = .trueLower) := h
    have ht : ¬ HasTemps e := fun x => h x.1
    have key : ∀ r : TempStatus × Option K, StageStored n e r .nan (emptyStage n) :=
      fun r => ⟨fun x => absurd x ht, fun _ => rfl, fun x => absurd x.1 ht, fun _ => ⟨rfl, rfl, rfl⟩⟩
    refine ⟨.notSet, .nan, .nan, .nan, .nan, _, _, by
      simp only [pairStep, if_neg h', List.nil_append]; rfl, by simp [h], ?_⟩
    exact ⟨key _, key _, key _, key _, rfl, fun x => absurd x h, fun _ => ⟨rfl, rfl⟩,
      fun _ => rfl, fun x => absurd x ht⟩

/-- **C24.**  Each list of statuses and each list of data has exactly one entry per pair, and the `k`-th
entries belong to the `k`-th pair: the statuses are those of the calculations as far as they were done,
and the temperatures and VEVs are those found, or NaN. -/
theorem C24_one_entry_per_pair (n : Nat) (g : Bool) (w : Int) (l : List (PairEnv K)) :
    let s := pairLoop n g w l
    (s.crit.length = l.length ∧ s.bounce.length = l.length ∧ s.approx.length = l.length ∧
      s.nucl.length = l.length ∧ s.perc.length = l.length ∧ s.compl.length = l.length ∧
      s.data.length = l.length ∧ s.gw.length = l.length) ∧
    ∀ (k : Nat) (e : PairEnv K), l[k]? = some e →
      ∃ (b : GWStatus) (a nu p c : TempStatus) (d : Trans K) (gw : GW K),
        s.crit[k]? = some e.critStatus ∧ s.bounce[k]? = some b ∧ s.approx[k]? = some a ∧
        s.nucl[k]? = some nu ∧ s.perc[k]? = some p ∧ s.compl[k]? = some c ∧ s.data[k]? = some d ∧
        s.gw[k]? = some gw ∧
        b = (if HasBounce e then e.bounce else .notSet) ∧
        StageStored n e e.approx a d.approx ∧ StageStored n e e.nucl nu d.nucl ∧
        StageStored n e e.perc p d.perc ∧ StageStored n e e.compl c d.compl ∧
        d.crit.temp = e.critTemp ∧
        (HasBounce e → d.crit.falseVev = e.falseVev e.critTemp ∧ d.crit.trueVev = e.trueVev e.critTemp) ∧
        (¬ HasBounce e →
          d.crit.falseVev = List.replicate n none ∧ d.crit.trueVev = List.replicate n none) ∧
        (¬ HasTemps e → gw = {}) ∧ (HasTemps e → gw = gwOf g w e) := by
  intro s
  induction l with
  | nil => exact ⟨by simp [s, pairLoop], by simp⟩
  | cons e l ih =>
    obtain ⟨b, a, nu, p, c, d, gw, he, hrest⟩ := single n g w e
    have hs : s = _ := pairLoop_cons n g w e l
    rw [he] at hs
    obtain ⟨hl, hk⟩ := ih
    refine ⟨?_, ?_⟩
    · rw [hs]
      simp [hl]
    · intro k e' hk'
      cases k with
      | zero =>
        simp only [List.getElem?_cons_zero, Option.some.injEq] at hk'
        subst hk'
        rw [hs]
        exact ⟨b, a, nu, p, c, d, gw, by simp, by simp, by simp, by simp, by simp, by simp, by simp,
          by simp, hrest⟩
      | succ k =>
        simp only [List.getElem?_cons_succ] at hk'
        obtain ⟨b', a', nu', p', c', d', gw', h1, h2, h3, h4, h5, h6, h7, h8, h9⟩ := hk k e' hk'
        rw [hs]
        exact ⟨b', a', nu', p', c', d', gw', by simpa using h1, by simpa using h2, by simpa using h3,
          by simpa using h4, by simpa using h5, by simpa using h6, by simpa using h7,
          by simpa using h8, h9⟩

/-- Both VEVs of a stage have the model's number of entries. -/
theorem stageStored_length {n : Nat} {e : PairEnv K} {r : TempStatus × Option K} {st : TempStatus}
    {s : Stage K} (h : StageStored n e r st s) (hf : ∀ t, (e.falseVev t).length = n)
    (ht : ∀ t, (e.trueVev t).length = n) : s.falseVev.length = n ∧ s.trueVev.length = n := by
  obtain ⟨_, _, h1, h2⟩ := h
  by_cases hc : HasTemps e ∧ r.1 = .success
  · obtain ⟨_, h3, h4⟩ := h1 hc
    rw [h3, h4]
    exact ⟨hf _, ht _⟩
  · obtain ⟨_, h3, h4⟩ := h2 hc
    rw [h3, h4]
    simp

/-- **C24.**  Every VEV stored for a pair has the model's number of entries. -/
theorem C24_vev_lengths (n : Nat) (g : Bool) (w : Int) (l : List (PairEnv K))
    (hf : ∀ e ∈ l, ∀ t, (e.falseVev t).length = n) (ht : ∀ e ∈ l, ∀ t, (e.trueVev t).length = n) :
    ∀ d ∈ (pairLoop n g w l).data, ∀ s ∈ [d.crit, d.approx, d.nucl, d.perc, d.compl],
      s.falseVev.length = n ∧ s.trueVev.length = n := by
  intro d hd
  obtain ⟨k, hk⟩ := List.mem_iff_getElem?.1 hd
  obtain ⟨hlen, hent⟩ := C24_one_entry_per_pair n g w l
  have hlt : k < l.length := by
    rw [← hlen.2.2.2.2.2.2.1]
    exact (List.getElem?_eq_some_iff.1 hk).1
  obtain ⟨b, a, nu, p, c, d', gw, _, _, _, _, _, _, h7, _, _, h9, h10, h11, h12, _, h14, h15, _⟩ :=
    hent k _ (List.getElem?_eq_getElem hlt)
  rw [hk, Option.some.injEq] at h7
  subst h7
  have hm : l[k] ∈ l := List.getElem_mem hlt
  have hc : d.crit.falseVev.length = n ∧ d.crit.trueVev.length = n := by
    by_cases h : HasBounce l[k]
    · obtain ⟨x, y⟩ := h14 h
      rw [x, y]
      exact ⟨hf _ hm _, ht _ hm _⟩
    · obtain ⟨x, y⟩ := h15 h
      rw [x, y]
      simp
  intro s hs
  simp only [List.mem_cons, List.not_mem_nil, or_false] at hs
  rcases hs with rfl | rfl | rfl | rfl | rfl
  · exact hc
  · exact stageStored_length h9 (hf _ hm) (ht _ hm)
  · exact stageStored_length h10 (hf _ hm) (ht _ hm)
  · exact stageStored_length h11 (hf _ hm) (ht _ hm)
  · exact stageStored_length h12 (hf _ hm) (ht _ hm)

/-- **C24.**  Gravitational waves are calculated exactly if the chosen transition temperature was found
and they were asked for; a failed calculation leaves only the first part of the data. -/
theorem C24_gw (g : Bool) (w : Int) (e : PairEnv K) :
    gwOf g w e =
      if g = true ∧ (w = 1 ∧ e.approx.1 = .success ∨ w = 2 ∧ e.nucl.1 = .success ∨
          w = 3 ∧ e.perc.1 = .success ∨ w = 4 ∧ e.compl.1 = .success)
      then (if e.gwStart.status = .failure then e.gwStart else e.gwFull) else {} := by
  have h : (transStatus w e = .success) ↔ (w = 1 ∧ e.approx.1 = .success ∨ w = 2 ∧ e.nucl.1 = .success ∨
          w = 3 ∧ e.perc.1 = .success ∨ w = 4 ∧ e.compl.1 = .success) := by
    unfold transStatus
    by_cases h1 : w = 1
    · subst h1; simp
    by_cases h2 : w = 2
    · subst h2; simp
    by_cases h3 : w = 3
    · subst h3; simp
    by_cases h4 : w = 4
    · subst h4; simp
    simp [h1, h2, h3, h4]
  unfold gwOf
  by_cases hg : g = true
  · by_cases hc : e.gwStart.status = .failure <;> by_cases ht : transStatus w e = .success <;>
      simp [hc, hg, ht, ← h]
  · simp [hg]

end

/-- A pair whose nucleation temperature was found but whose percolation was not. -/
def exPair (pairId falseId trueId : Nat) (compl : TempStatus × Option ℚ) : PairEnv ℚ :=
  { pairId := pairId, falseId := falseId, trueId := trueId, critStatus := .success, critTemp := some 100,
    bounce := .success, approx := (.success, some 80), nucl := (.success, some 79),
    perc := (.notMet, none), compl := compl, falseVev := fun _ => [some 0, some 0],
    trueVev := fun _ => [some 1, some 200], gwStart := {}, gwFull := {} }

/-- A pair that never gets a bounce solution. -/
def exLow : PairEnv ℚ := { exPair 1 0 2 (.notSet, none) with critStatus := .falseLower }

example : (pairLoop 2 false 3 [exPair 0 0 1 (.notMet, none), exLow]).nucl = [.success, .nan] := by
  decide +kernel

example : ((pairLoop 2 false 3 [exPair 0 0 1 (.notMet, none), exLow]).data.map
    fun d => (d.nucl.temp, d.nucl.trueVev, d.perc.trueVev, d.crit.temp)) =
    [(some 79, [some 1, some 200], [none, none], some 100),
     (none, [none, none], [none, none], some 100)] := by
  decide +kernel

/-! ## C23 -/

section

variable {K : Type} [Field K] [LinearOrder K]

/-- What the search for the next phase has found after some of the pairs. -/
def PickInv (data : List (Trans K)) (cur : Nat) (done : List (PairEnv K)) (s : Pick K) : Prop :=
  (s.next = none → s.temp = -1 ∧ ∀ e ∈ done, ∀ b t, ¬ Completed data e cur b t) ∧
  (∀ b, s.next = some b → ∃ pre e post, done = pre ++ e :: post ∧ e.pairId = s.pair ∧
    Completed data e cur b s.temp ∧
    (∀ e' ∈ done, ∀ b' t', Completed data e' cur b' t' → t' ≤ s.temp) ∧
    (∀ e' ∈ pre, ∀ b' t', Completed data e' cur b' t' → t' < s.temp))

theorem pick_inv (data : List (Trans K)) (cur : Nat) (l : List (PairEnv K))
    (hid : ∀ e ∈ l, e.falseId = cur → e.pairId < data.length)
    (hpos : ∀ d ∈ data, ∀ t, d.compl.temp = some t → -1 < t) :
    ∀ done s, PickInv data cur done s →
      ∃ s', l.foldlM (pickStep data cur) s = ok s' ∧ PickInv data cur (done ++ l) s' := by
  induction l with
  | nil => intro done s h; exact ⟨s, rfl, by simpa using h⟩
  | cons e l ih =>
    intro done s h
    have ih' := ih (fun e he => hid e (List.mem_cons_of_mem _ he))
    rw [List.foldlM_cons]
    have keep : (∀ b t, ¬ Completed data e cur b t) → PickInv data cur (done ++ [e]) s := by
      intro hn
      refine ⟨fun h0 => ⟨(h.1 h0).1, ?_⟩, fun b hb => ?_⟩
      · intro e' he'
        simp only [List.mem_append, List.mem_singleton] at he'
        rcases he' with he' | rfl
        · exact (h.1 h0).2 e' he'
        · exact hn
      · obtain ⟨pre, x, post, hd, h1, h2, h3, h4⟩ := h.2 b hb
        refine ⟨pre, x, post ++ [e], by simp [hd], h1, h2, ?_, h4⟩
        intro e' he'
        simp only [List.mem_append, List.mem_singleton] at he'
        rcases he' with he' | rfl
        · exact h3 e' he'
        · intro b' t' hc; exact absurd hc (hn b' t')
    have goon : ∀ s1, pickStep data cur s e = ok s1 → PickInv data cur (done ++ [e]) s1 →
        ∃ s', (pickStep data cur s e >>= fun s' => l.foldlM (pickStep data cur) s') = ok s' ∧
          PickInv data cur (done ++ e :: l) s' := by
      intro s1 hs1 hinv
      obtain ⟨s', h1, h2⟩ := ih' _ _ hinv
      exact ⟨s', by rw [hs1]; exact h1, by simpa using h2⟩
    by_cases hf : e.falseId = cur
    · have hlt := hid e (List.mem_cons_self ..) hf
      have hget : data[e.pairId]? = some data[e.pairId] := List.getElem?_eq_getElem hlt
      cases ht : data[e.pairId].compl.temp with
      | none =>
        refine goon s (by simp [pickStep, hf, hget, ht]) (keep ?_)
        rintro b t ⟨_, _, d, hd, hdt⟩
        rw [hget, Option.some.injEq] at hd
        rw [← hd, ht] at hdt
        cases hdt
      | some t =>
        have hcomp : Completed data e cur e.trueId t := ⟨hf, rfl, _, hget, ht⟩
        have honly : ∀ b t', Completed data e cur b t' → t' = t := by
          rintro b t' ⟨_, _, d, hd, hdt⟩
          rw [hget, Option.some.injEq] at hd
          rw [← hd, ht, Option.some.injEq] at hdt
          exact hdt.symm
        have hall : ∀ e' b' t', Completed data e' cur b' t' → -1 < t' := by
          rintro e' b' t' ⟨_, _, d, hd, hdt⟩
          exact hpos d (List.mem_of_getElem? hd) _ hdt
        have take : (∀ e' ∈ done, ∀ b' t', Completed data e' cur b' t' → t' < t) →
            PickInv data cur (done ++ [e]) ⟨t, some e.trueId, e.pairId⟩ := by
          intro hlt
          refine ⟨by simp, fun b hb => ?_⟩
          simp only [Option.some.injEq] at hb
          subst hb
          refine ⟨done, e, [], rfl, rfl, hcomp, ?_, hlt⟩
          intro e' he'
          simp only [List.mem_append, List.mem_singleton] at he'
          rcases he' with he' | rfl
          · intro b' t' hc; exact le_of_lt (hlt e' he' b' t' hc)
          · intro b' t' hc; exact le_of_eq (honly b' t' hc)
        cases hn : s.next with
        | none =>
          obtain ⟨h1, h2⟩ := h.1 hn
          refine goon _ (by simp [pickStep, hf, hget, ht, h1]) (take ?_)
          intro e' he' b' t' hc
          exact absurd hc (h2 e' he' b' t')
        | some b =>
          obtain ⟨pre, x, post, hd, h1, h2, h3, h4⟩ := h.2 b hn
          have hne : s.temp ≠ -1 := (hall _ _ _ h2).ne'
          by_cases hgt : t > s.temp
          · refine goon _ (by simp [pickStep, hf, hget, ht, hne, hgt]) (take ?_)
            intro e' he' b' t' hc
            exact lt_of_le_of_lt (h3 e' he' b' t' hc) hgt
          · refine goon s (by simp [pickStep, hf, hget, ht, hne, hgt]) ⟨by simp [hn], fun b' hb' => ?_⟩
            obtain ⟨pre, x, post, hd, h1, h2, h3, h4⟩ := h.2 b' hb'
            refine ⟨pre, x, post ++ [e], by simp [hd], h1, h2, ?_, h4⟩
            intro e' he'
            simp only [List.mem_append, List.mem_singleton] at he'
            rcases he' with he' | rfl
            · exact h3 e' he'
            · intro b' t' hc
              rw [honly b' t' hc]
              exact le_of_not_gt hgt
    · refine goon s (by simp [pickStep, hf]) (keep ?_)
      rintro b t ⟨h1, _⟩
      exact hf h1

/-- **C23.**  One step of the history: the search never throws, finds nothing exactly if no transition
from the current phase completes, and otherwise finds the first of those that complete at the highest
temperature. -/
theorem C23_step (data : List (Trans K)) (cur : Nat) (l : List (PairEnv K))
    (hid : ∀ e ∈ l, e.falseId = cur → e.pairId < data.length)
    (hpos : ∀ d ∈ data, ∀ t, d.compl.temp = some t → -1 < t) :
    ∃ s, pick data cur l = ok s ∧ (s.next = none ↔ Final data l cur) ∧
      ∀ b, s.next = some b → BestStep data l cur s.pair b ∧
        ∃ pre e post, l = pre ++ e :: post ∧ e.pairId = s.pair ∧ Completed data e cur b s.temp ∧
          (∀ e' ∈ l, ∀ b' t', Completed data e' cur b' t' → t' ≤ s.temp) ∧
          ∀ e' ∈ pre, ∀ b' t', Completed data e' cur b' t' → t' < s.temp := by
  obtain ⟨s, h1, h2, h3⟩ := pick_inv data cur l hid hpos [] ⟨-1, none, 0⟩ ⟨by simp, by simp⟩
  simp only [List.nil_append] at h2 h3
  refine ⟨s, h1, ⟨fun h => (h2 h).2, fun h => ?_⟩, fun b hb => ?_⟩
  · cases hn : s.next with
    | none => rfl
    | some b =>
      obtain ⟨pre, e, post, hd, _, hc, _⟩ := h3 b hn
      exact absurd hc (h e (by rw [hd]; simp) b _)
  · obtain ⟨pre, e, post, hd, hp, hc, hmax, hpre⟩ := h3 b hb
    refine ⟨⟨e, by rw [hd]; simp, s.temp, hp, hc, fun e' he' b' t' hc' => not_lt.2 (hmax e' he' b' t' hc')⟩,
      pre, e, post, hd, hp, hc, hmax, hpre⟩

/-- The loop from a phase `cur`, when every pair leads to a phase with a higher id below `N`. -/
theorem historyLoop_ends (data : List (Trans K)) (l : List (PairEnv K)) (N : Nat)
    (hid : ∀ e ∈ l, e.pairId < data.length)
    (hpos : ∀ d ∈ data, ∀ t, d.compl.temp = some t → -1 < t)
    (hup : ∀ e ∈ l, e.falseId < e.trueId ∧ e.trueId < N) :
    ∀ (fuel cur : Nat) (hist pairs : List Nat), cur < N → N - cur ≤ fuel →
      ∃ more mpairs, historyLoop data l fuel cur hist pairs =
          some (ok (hist ++ cur :: more, pairs ++ mpairs)) ∧
        more.length = mpairs.length ∧
        (∀ (k a p b : Nat), (cur :: more)[k]? = some a → mpairs[k]? = some p → more[k]? = some b →
          BestStep data l a p b) ∧
        ∃ z, (cur :: more).getLast? = some z ∧ Final data l z := by
  intro fuel
  induction fuel with
  | zero => intro cur hist pairs hc hf; omega
  | succ fuel ih =>
    intro cur hist pairs hc hf
    obtain ⟨s, hs, hfin, hbest⟩ := C23_step data cur l (fun e he _ => hid e he) hpos
    cases hn : s.next with
    | none =>
      refine ⟨[], [], by simp [historyLoop, hs, hn], rfl, by simp, cur, rfl, hfin.1 hn⟩
    | some b =>
      obtain ⟨hb, pre, e, post, hd, hp, hcmp, _⟩ := hbest b hn
      have he : e ∈ l := by rw [hd]; simp
      have h1 : cur < b := by
        have := (hup e he).1
        rw [hcmp.1, hcmp.2.1] at this
        exact this
      have h2 : b < N := by
        have := (hup e he).2
        rw [hcmp.2.1] at this
        exact this
      obtain ⟨more, mpairs, hl, hlen, hstep, z, hz, hzf⟩ :=
        ih b (hist ++ [cur]) (pairs ++ [s.pair]) h2 (by omega)
      refine ⟨b :: more, s.pair :: mpairs, by simp [historyLoop, hs, hn, hl], by simp [hlen], ?_, z, ?_, hzf⟩
      · intro k a p c hk hp' hc'
        cases k with
        | zero =>
          simp only [List.getElem?_cons_zero, Option.some.injEq] at hk hp' hc'
          subst hk hp' hc'
          exact hb
        | succ k =>
          simp only [List.getElem?_cons_succ] at hk hp' hc'
          exact hstep k a p c hk hp' hc'
      · rw [List.getLast?_cons_cons]
        exact hz

theorem stepsText_ok : ∀ hs ps : List Nat, hs.length ≤ ps.length → stepsText hs ps =
    ok ((List.zip ps hs).flatMap fun x => "-(".toList ++ natStr x.1 ++ ")->".toList ++ natStr x.2)
  | [], _, _ => by simp [stepsText]
  | _ :: _, [], h => by simp at h
  | h :: hs, p :: ps, hl => by
    simp only [stepsText, stepsText_ok hs ps (by simpa using hl), bind_ok, List.zip_cons_cons,
      List.flatMap_cons]

theorem stepsText_short : ∀ hs ps : List Nat, ps.length < hs.length → stepsText hs ps = err .outOfRange
  | [], _, h => by simp at h
  | _ :: _, [], _ => rfl
  | h :: hs, p :: ps, hl => by
    simp only [stepsText, stepsText_short hs ps (by simpa using hl), bind_err]

/-- **C23.**  Writing the history out fails with an exception when there are no phases, or fewer transitions
than phases after the first one; otherwise it succeeds. -/
theorem C23_text_length (hist pairs : List Nat) :
    (historyText hist pairs = err .outOfRange ↔ hist = [] ∨ pairs.length + 1 < hist.length) ∧
    ((∃ t, historyText hist pairs = ok t) ↔ 0 < hist.length ∧ hist.length ≤ pairs.length + 1) := by
  cases hist with
  | nil => simp [historyText]
  | cons h hs =>
    by_cases hl : hs.length ≤ pairs.length
    · simp only [historyText, stepsText_ok hs pairs hl, bind_ok]
      simp
      omega
    · simp only [historyText, stepsText_short hs pairs (by omega), bind_err]
      simp
      omega

/-- **C23.**  If every pair leads from a phase to one with a higher id, the history is found after at most
as many rounds as there are ids.  It starts with the phase of id 0, each step is a completed transition
from the current phase, the one with the highest completion temperature, and the last phase is one from
which no transition completes.  Writing it out succeeds. -/
theorem C23_history (data : List (Trans K)) (l : List (PairEnv K)) (N : Nat) (hN : 0 < N)
    (hid : ∀ e ∈ l, e.pairId < data.length)
    (hpos : ∀ d ∈ data, ∀ t, d.compl.temp = some t → -1 < t)
    (hup : ∀ e ∈ l, e.falseId < e.trueId ∧ e.trueId < N) (fuel : Nat) (hfuel : N ≤ fuel) :
    ∃ hist pairs, history data l fuel = some (ok (hist, pairs)) ∧
      hist.head? = some 0 ∧ hist.length = pairs.length + 1 ∧
      (∀ (k a p b : Nat), hist[k]? = some a → pairs[k]? = some p → hist[k + 1]? = some b →
        BestStep data l a p b) ∧
      (∃ z, hist.getLast? = some z ∧ Final data l z) ∧
      historyText hist pairs = ok ("0".toList ++
        (List.zip pairs hist.tail).flatMap fun x =>
          "-(".toList ++ natStr x.1 ++ ")->".toList ++ natStr x.2) := by
  obtain ⟨more, mpairs, hl, hlen, hstep, hz⟩ :=
    historyLoop_ends data l N hid hpos hup fuel 0 [] [] hN (by omega)
  refine ⟨0 :: more, mpairs, by simpa [history] using hl, rfl, by simp [hlen], ?_, hz, ?_⟩
  · intro k a p b h1 h2 h3
    exact hstep k a p b h1 h2 (by simpa using h3)
  · have h0 : natStr 0 = "0".toList := by decide +kernel
    simp only [historyText, stepsText_ok more mpairs (le_of_eq hlen), bind_ok, h0, List.tail_cons]

/-- **C23.**  The pairs formed by the phase tracing satisfy the hypotheses of `C23_history` whenever the
phases are numbered in order. -/
theorem C23_pairs_ordered {P : Type} [IsStrictOrderedRing K] (phases : List (Phase P K)) (hr : ∀ p ∈ phases, p.tLow ≤ p.tHigh)
    (hnum : ∀ (i : Nat) (p : Phase P K), phases[i]? = some p → p.id = i) (l : List (PairEnv K))
    (hl : l.map (fun e => (e.pairId, e.falseId, e.trueId)) =
      (setCoexPhases phases).map fun c => (c.pairId, c.falsePhase.id, c.truePhase.id)) :
    (∀ e ∈ l, e.falseId < e.trueId ∧ e.trueId < phases.length) ∧
    ∀ (n : Nat) (g : Bool) (w : Int), ∀ e ∈ l, e.pairId < (pairLoop n g w l).data.length := by
  obtain ⟨idx, _, hidx, hlen, hpairs⟩ := C22_pairs phases hr
  have hll : l.length = (setCoexPhases phases).length := by
    have := congrArg List.length hl
    simpa using this
  have main : ∀ e ∈ l, e.pairId < l.length ∧ e.falseId < e.trueId ∧ e.trueId < phases.length := by
    intro e he
    obtain ⟨k, hk⟩ := List.mem_iff_getElem?.1 he
    have hklt : k < l.length := (List.getElem?_eq_some_iff.1 hk).1
    have hc : (setCoexPhases phases)[k]? = some ((setCoexPhases phases)[k]'(by omega)) :=
      List.getElem?_eq_getElem _
    generalize (setCoexPhases phases)[k]'(by omega) = c at hc
    have hmap := congrArg (fun x => x[k]?) hl
    simp only [List.getElem?_map, hk, hc, Option.map_some, Option.some.injEq, Prod.mk.injEq] at hmap
    obtain ⟨h1, h2, h3⟩ := hmap
    obtain ⟨hpid, i, j, hij, hi, hj, _⟩ := hpairs k c hc
    have hlt := ((hidx i j).1 (List.mem_of_getElem? hij)).1
    rw [h1, h2, h3, hpid, hnum i _ hi, hnum j _ hj]
    refine ⟨hklt, hlt, (List.getElem?_eq_some_iff.1 hj).1⟩
  refine ⟨fun e he => (main e he).2, fun n g w e he => ?_⟩
  rw [(C24_one_entry_per_pair n g w l).1.2.2.2.2.2.2.1]
  exact (main e he).1

/-- **C23, refuted in general.**  If some chosen transition leads from the phase of id 0 to a phase that
also has id 0, the search for the history never ends. -/
theorem C23_endless (data : List (Trans K)) (l : List (PairEnv K))
    (p : Pick K) (hp : pick data 0 l = ok p) (h0 : p.next = some 0) (fuel : Nat) :
    history data l fuel = none := by
  have : ∀ (fuel : Nat) (hist pairs : List Nat), historyLoop data l fuel 0 hist pairs = none := by
    intro fuel
    induction fuel with
    | zero => intros; rfl
    | succ fuel ih => intro hist pairs; simp [historyLoop, hp, h0, ih]
  exact this fuel [] []

/-- A phase made by tracking has id 0 until the phases are numbered. -/
theorem addAll_id {P : Type} (l : List (Minimum P K)) : ∀ p : Phase P K, (p.addAll l).id = p.id := by
  induction l with
  | nil => intro p; rfl
  | cons m l ih =>
    intro p
    show ((p.add m).addAll l).id = p.id
    rw [ih]
    unfold Phase.add
    split
    · rfl
    · split
      · rfl
      · split
        · rfl
        · split <;> rfl

/-- **C23.**  A phase found while gaps are patched, that is after the numbering, keeps the id 0. -/
theorem C23_patched_phase_id {P : Type} (track : P → K → K → List (Minimum P K)) (prep : P → P) (start : P)
    (t lo hi : K) :
    (Phase.bothWays track prep start t lo hi).id = 0 ∧ (Phase.oneWay track prep start t lo).id = 0 := by
  have h : ∀ l : List (Minimum P K), (Phase.ofMinima l).id = 0 := by
    intro l
    have := addAll_id l (Phase.empty : Phase P K)
    simp only [Phase.ofMinima]
    split <;> exact this
  exact ⟨h _, h _⟩

end

/-- Two numbered phases and a patched one with id 0. -/
def exPhases : List (Phase Unit ℚ) :=
  [⟨0, 100, 300, []⟩, ⟨1, 0, 120, []⟩, ⟨0, 50, 200, []⟩]

/-- The pairs of these phases; the transition to the patched phase completes at 150, to the other at 110. -/
def exPatched : List (PairEnv ℚ) :=
  [exPair 0 0 1 (.success, some 110), exPair 1 0 0 (.success, some 150), exPair 2 1 0 (.notMet, none)]

example : exPatched.map (fun e => (e.pairId, e.falseId, e.trueId)) =
    (setCoexPhases exPhases).map fun c => (c.pairId, c.falsePhase.id, c.truePhase.id) := by
  decide +kernel

/-- **C23, refuted.**  For these pairs the transition tracer never returns. -/
theorem C23_endless_patched (fuel : Nat) :
    history (pairLoop 2 false 3 exPatched).data exPatched fuel = none :=
  C23_endless _ _ ⟨150, some 0, 1⟩ (by decide +kernel) rfl fuel

/-- Three phases: from 0 both 1 and 2 can be reached, 2 earlier; from 2 nothing. -/
def exChain : List (PairEnv ℚ) :=
  [exPair 0 0 1 (.success, some 60), exPair 1 0 2 (.success, some 70), exPair 2 1 2 (.success, some 50),
   exPair 3 2 3 (.success, some 20)]

example : history (pairLoop 2 false 3 exChain).data exChain 4 = some (ok ([0, 2, 3], [1, 3])) := by
  decide +kernel

example : historyText [0, 2, 3] [1, 3] = ok "0-(1)->2-(3)->3".toList := by decide +kernel

example : (∀ e ∈ exChain, e.pairId < (pairLoop 2 false 3 exChain).data.length) ∧
    (∀ e ∈ exChain, e.falseId < e.trueId ∧ e.trueId < 4) := by decide +kernel

end Verif.Transition
