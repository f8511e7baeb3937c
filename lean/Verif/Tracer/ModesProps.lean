import Verif.Tracer.Modes
import Verif.Tracer.RegionProps
import Mathlib.Algebra.Order.Archimedean.Basic

/-!
# C53: the tracing modes
-/

namespace Verif.Tracer

set_option linter.unusedSectionVars false
set_option linter.unusedSimpArgs false

open Spec Outcome

variable {P K : Type} [Field K] [LinearOrder K] [IsStrictOrderedRing K]

/-! ### The default mode -/

theorem tracer_below {σ : Type} [Archimedean K] (e : TracerEnv σ K) (δ : K) (hδ : 0 < δ) (hδ1 : δ ≤ 1)
    (htrace : ∀ s t, e.tLow < t → (e.found s t).2 = false → (e.trace (e.found s t).1 t).2 ≤ t - δ)
    (hfound : ∀ s t, e.tLow < t - 1 → (e.found s t).2 = true →
      (e.found (e.found s t).1 (t - 1)).2 = false) (n : Nat) :
    ∀ s t, t < e.tHigh → t ≤ e.tLow + n * δ → ∃ fuel r, tracer e fuel s t (-1) = some r := by
  induction n with
  | zero =>
    intro s t _ h
    refine ⟨1, e.bottom s, ?_⟩
    rw [tracer, if_pos (by simpa using h)]
  | succ n ih =>
    intro s t hlt h
    rw [Nat.cast_succ, add_mul, one_mul] at h
    have hnohigh : ∀ (s : σ) (t : K), t < e.tHigh → e.tryHigh s t = (s, none) := by
      intro s t hlt
      rw [TracerEnv.tryHigh]
      cases e.high with
      | none => rfl
      | some hh => dsimp only; rw [if_neg hlt.ne]
    by_cases hb : t ≤ e.tLow
    · exact ⟨1, e.bottom s, by rw [tracer, if_pos hb]⟩
    · cases hf : (e.found s t).2 with
      | false =>
        have h1 := htrace s t (not_le.1 hb) hf
        obtain ⟨fuel, r, hr⟩ := ih (e.trace (e.found s t).1 t).1 (e.trace (e.found s t).1 t).2
          (by linarith) (by linarith)
        refine ⟨fuel + 1, r, ?_⟩
        rw [tracer, if_neg hb, hnohigh s t hlt]
        dsimp only
        rw [show e.found s t = ((e.found s t).1, false) from Prod.ext rfl hf]
        exact hr
      | true =>
        by_cases hb2 : t - 1 ≤ e.tLow
        · refine ⟨2, e.bottom (e.found s t).1, ?_⟩
          rw [tracer, if_neg hb, hnohigh s t hlt]
          dsimp only
          rw [show e.found s t = ((e.found s t).1, true) from Prod.ext rfl hf]
          dsimp only
          rw [tracer, if_pos (by rw [← sub_eq_add_neg]; exact hb2)]
        · have hf2 := hfound s t (not_le.1 hb2) hf
          have h1 := htrace (e.found s t).1 (t - 1) (not_le.1 hb2) hf2
          set s2 := (e.found s t).1 with hs2
          obtain ⟨fuel, r, hr⟩ := ih (e.trace (e.found s2 (t - 1)).1 (t - 1)).1
            (e.trace (e.found s2 (t - 1)).1 (t - 1)).2 (by linarith) (by linarith)
          refine ⟨fuel + 2, r, ?_⟩
          rw [tracer, if_neg hb, hnohigh s t hlt]
          dsimp only
          rw [show e.found s t = (s2, true) from Prod.ext rfl hf]
          dsimp only
          rw [← sub_eq_add_neg, tracer, if_neg hb2, hnohigh s2 (t - 1) (by linarith)]
          dsimp only
          rw [show e.found s2 (t - 1) = ((e.found s2 (t - 1)).1, false) from Prod.ext rfl hf2]
          exact hr

/-- C53: the default mode ends if every traced phase reaches at least `δ` below the temperature it was traced
from, if the minimum 1 GeV below the end of a phase does not belong to a known phase, and if nothing is
known at the start. -/
theorem C53_tracer_ends_partial {σ : Type} [Archimedean K] (e : TracerEnv σ K) (δ : K) (hδ : 0 < δ)
    (s : σ)
    (htrace : ∀ s t, e.tLow < t → (e.found s t).2 = false → (e.trace (e.found s t).1 t).2 ≤ t - δ)
    (hhigh : ∀ h s lo, e.high = some h → (h s).2 = some lo → lo ≤ e.tHigh - δ)
    (hfound : ∀ s t, e.tLow < t - 1 → (e.found s t).2 = true →
      (e.found (e.found s t).1 (t - 1)).2 = false)
    (hstart : ∀ s, (e.found s e.tHigh).2 = false) :
    ∃ fuel r, tracer e fuel s e.tHigh 0 = some r := by
  have hδ' : 0 < min δ 1 := lt_min hδ one_pos
  have below : ∀ s t, t < e.tHigh → ∃ fuel r, tracer e fuel s t (-1) = some r := by
    intro s t ht
    obtain ⟨n, hn⟩ := Archimedean.arch (t - e.tLow) hδ'
    refine tracer_below e (min δ 1) hδ' (min_le_right _ _)
      (fun s t h1 h2 => (htrace s t h1 h2).trans (by linarith [min_le_left δ 1])) hfound n s t ht ?_
    rw [nsmul_eq_mul] at hn
    linarith
  by_cases hb : e.tHigh ≤ e.tLow
  · exact ⟨1, e.bottom s, by rw [tracer, if_pos hb]⟩
  · have tr : ∀ s, ∃ fuel r, tracer e fuel (e.trace (e.found s e.tHigh).1 e.tHigh).1
        (e.trace (e.found s e.tHigh).1 e.tHigh).2 (-1) = some r := by
      intro s
      refine below _ _ ?_
      have := htrace s e.tHigh (not_le.1 hb) (hstart s)
      linarith
    match hh : e.tryHigh s e.tHigh with
    | (s1, some lo) =>
      have hlo : lo < e.tHigh := by
        rw [TracerEnv.tryHigh] at hh
        cases hhi : e.high with
        | none => rw [hhi] at hh; cases hh
        | some h =>
          rw [hhi] at hh
          dsimp only at hh
          rw [if_pos rfl] at hh
          have := hhigh h s lo hhi (by rw [hh])
          linarith
      obtain ⟨fuel, r, hr⟩ := below s1 lo hlo
      refine ⟨fuel + 1, r, ?_⟩
      rw [tracer, if_neg hb, hh]
      exact hr
    | (s1, none) =>
      obtain ⟨fuel, r, hr⟩ := tr s1
      refine ⟨fuel + 1, r, ?_⟩
      rw [tracer, if_neg hb, hh]
      dsimp only
      rw [show e.found s1 e.tHigh = ((e.found s1 e.tHigh).1, false) from Prod.ext rfl (hstart s1)]
      exact hr

/-- C53 is false without these conditions: a phase that consists of a single minimum is dropped, its lower
temperature is the one it was traced from, so the same search is repeated for ever. -/
theorem C53_tracer_dropped_phase {σ : Type} (e : TracerEnv σ K) (s : σ) (t d : K) (ht : e.tLow < t)
    (hhigh : e.high = none) (hf : e.found s t = (s, false)) (htr : e.trace s t = (s, t)) (fuel : Nat) :
    tracer e fuel s t d = none := by
  induction fuel generalizing d with
  | zero => rfl
  | succ fuel ih =>
    rw [tracer, if_neg (not_le.2 ht)]
    have hn : ∀ s t, e.tryHigh s t = (s, none) := by
      intro s t; rw [TracerEnv.tryHigh, hhigh]
    rw [hn]
    dsimp only
    rw [hf]
    dsimp only
    rw [htr]
    exact ih (-1)

/-- C53 is false without these conditions: after a minimum that was known already, the next call has the
step 0, so that a second known minimum is looked for at the same temperature for ever. -/
theorem C53_tracer_zero_step {σ : Type} (e : TracerEnv σ K) (s : σ) (t : K) (ht : e.tLow < t - 1)
    (hhigh : e.high = none) (hf : e.found s t = (s, true)) (hf' : e.found s (t - 1) = (s, true))
    (fuel : Nat) : tracer e fuel s t (-1) = none := by
  have zero : ∀ fuel, tracer e fuel s (t - 1) 0 = none := by
    intro fuel
    induction fuel with
    | zero => rfl
    | succ fuel ih =>
      rw [tracer, if_neg (not_le.2 ht)]
      have hn : ∀ s t, e.tryHigh s t = (s, none) := by
        intro s t; rw [TracerEnv.tryHigh, hhigh]
      rw [hn]
      dsimp only
      rw [hf']
      dsimp only
      rw [add_zero]; exact ih
  cases fuel with
  | zero => rfl
  | succ fuel =>
    rw [tracer, if_neg (by linarith)]
    have hn : ∀ s t, e.tryHigh s t = (s, none) := by
      intro s t; rw [TracerEnv.tryHigh, hhigh]
    rw [hn]
    dsimp only
    rw [hf]
    dsimp only
    rw [← sub_eq_add_neg]; exact zero fuel

/-- Two phases, [50, 100] and [0, 60]: the state is the list of the lower ends traced so far. -/
example :
    let e : TracerEnv (List ℚ) ℚ :=
      { tLow := 0, tHigh := 100, found := fun s t => (s, s.any fun x => decide (x ≤ t)),
        trace := fun s t => if 60 < t then (s ++ [50], 50) else (s ++ [0], 0),
        high := none, bottom := fun s => s ++ [-1] }
    tracer e 10 [] 100 0 = some [50, 0, -1] := by
  decide +kernel

/-! ### Overlaps -/

/-- C53: two phases overlap exactly if some temperature belongs to both. -/
theorem C53_overlap (p q : Phase P K) (hp : p.tLow ≤ p.tHigh) (hq : q.tLow ≤ q.tHigh) :
    doPhasesOverlap p q = true ↔ ∃ t, ExistsAt p t ∧ ExistsAt q t := by
  rw [doPhasesOverlap, Bool.and_eq_true, decide_eq_true_eq, decide_eq_true_eq]
  constructor
  · rintro ⟨h1, h2⟩
    exact ⟨max p.tLow q.tLow, ⟨le_max_left _ _, max_le hp h1⟩, le_max_right _ _, max_le h2 hq⟩
  · rintro ⟨t, h1, h2⟩
    exact ⟨h2.1.trans h1.2, h1.1.trans h2.2⟩

/-- C53: what is tested when two phases of more than one minimum overlap and neither contains the other
strictly: the upper phase at the upper end of the lower one and the lower phase at the lower end of the upper
one must be global minima.  (Stated for phases that know these minima; the argument order does not matter
unless both end at the same temperature.) -/
theorem C53_glob_overlap (track : P → K → K → List (Minimum P K)) (glob : Minimum P K → Bool)
    (lo hi : Phase P K) (m1 m2 : Minimum P K) (hlo : 1 < lo.mins.length) (hhi : 1 < hi.mins.length)
    (ho : Ordered lo) (ho' : Ordered hi) (h1 : lo.tLow ≤ hi.tLow) (h2 : hi.tLow ≤ lo.tHigh)
    (h3 : lo.tHigh < hi.tHigh) (hm1 : m1 ∈ hi.mins) (e1 : m1.temp = lo.tHigh) (hm2 : m2 ∈ lo.mins)
    (e2 : m2.temp = hi.tLow) :
    doGlobMinOverlap track glob lo hi = ok (glob m1 && glob m2) ∧
    doGlobMinOverlap track glob hi lo = ok (glob m1 && glob m2) := by
  refine ⟨?_, ?_⟩
  · rw [doGlobMinOverlap, if_pos ⟨hlo, hhi⟩, if_pos ⟨h2, by linarith⟩]
    dsimp only
    rw [if_neg (by exact not_le.2 h3), if_pos h1]
    dsimp only
    rw [get_known track hi _ m1 ho' hm1 e1, bind_ok]
    dsimp only
    rw [get_known track lo _ m2 ho hm2 e2, bind_ok]
  · rw [doGlobMinOverlap, if_pos ⟨hhi, hlo⟩, if_pos ⟨by linarith, by linarith⟩]
    dsimp only
    rw [if_pos h3.le]
    dsimp only
    rw [get_known track hi _ m1 ho' hm1 e1, bind_ok]
    dsimp only
    rw [get_known track lo _ m2 ho hm2 e2, bind_ok]

/-- C53: phases of at most one minimum count as global without a test, phases without a common temperature
never do. -/
theorem C53_glob_overlap_trivial (track : P → K → K → List (Minimum P K)) (glob : Minimum P K → Bool)
    (p q : Phase P K) :
    (p.mins.length ≤ 1 ∨ q.mins.length ≤ 1 → doGlobMinOverlap track glob p q = ok true) ∧
    (1 < p.mins.length → 1 < q.mins.length → doPhasesOverlap p q = false →
      doGlobMinOverlap track glob p q = ok false) := by
  refine ⟨fun h => ?_, fun hp hq h => ?_⟩
  · rw [doGlobMinOverlap, if_neg]
    rintro ⟨h1, h2⟩
    omega
  · rw [doGlobMinOverlap, if_pos ⟨hp, hq⟩, if_neg]
    rintro ⟨h1, h2⟩
    rw [doPhasesOverlap, Bool.and_eq_false_iff, decide_eq_false_iff_not, decide_eq_false_iff_not] at h
    exact h.elim (fun h => h h1) (fun h => h h2)

/-- C53 is false for a phase strictly inside another: the test then reads an uninitialised minimum of an
empty phase. -/
theorem C53_glob_overlap_nested (track : P → K → K → List (Minimum P K)) (glob : Minimum P K → Bool)
    (p q : Phase P K) (hp : 1 < p.mins.length) (hq : 1 < q.mins.length) (hr : p.tLow ≤ p.tHigh)
    (h1 : q.tLow < p.tLow) (h2 : p.tHigh < q.tHigh) :
    doGlobMinOverlap track glob p q = ub .uninitialised := by
  rw [doGlobMinOverlap, if_pos ⟨hp, hq⟩, if_pos ⟨by linarith, by linarith⟩]
  dsimp only
  rw [if_neg (by exact not_le.2 h2), if_neg (not_le.2 h1)]
  rfl

/-! ### Mode 0 -/

/-- C53: the status of mode 0. -/
theorem C53_mode0 (globOverlap : Phase P K → Phase P K → Outcome Bool) (low high : Phase P K)
    (b : Bool) (hb : globOverlap low high = ok b) :
    mode0 globOverlap low high .success = ok (
      if low.mins.length ≤ 1 ∨ high.mins.length ≤ 1 then .noMinsAtBoundaries
      else if low.tHigh ≤ high.tLow then .noCoverage
      else if b = false then .noGlobMinCoverage
      else .success) := by
  rw [mode0]
  by_cases h : low.mins.length > 1 ∧ high.mins.length > 1
  · have h' : ¬ (low.mins.length ≤ 1 ∨ high.mins.length ≤ 1) := by omega
    rw [if_pos h, if_neg h']
    by_cases h2 : high.tLow < low.tHigh
    · rw [if_pos h2, if_neg (not_le.2 h2), hb, bind_ok]
      cases b <;> rfl
    · rw [if_neg h2, if_pos (not_lt.1 h2)]
  · rw [if_neg h, if_pos (by omega)]

/-! ### Mode 1 -/

/-- C53: if mode 1 ends without an error status, then the first or the innermost two phases have a common
temperature, and each test for the global minimum succeeded. -/
theorem C53_mode1_success (mk : K → Outcome (Phase P K))
    (globOverlap : Phase P K → Phase P K → Outcome Bool) (fuel : Nat) (low high : Phase P K)
    (s : M1State P K) (h : mode1 mk globOverlap fuel low high .success = some (ok s)) :
    s.vac = .success ∨ s.vac = .noCoverage ∨ s.vac = .noGlobMinCoverage := by
  have loop : ∀ fuel (s0 s : M1State P K), s0.vac = .success →
      mode1Loop mk globOverlap fuel s0 = some (ok s) →
      s.vac = .success ∨ s.vac = .noCoverage ∨ s.vac = .noGlobMinCoverage := by
    intro fuel
    induction fuel with
    | zero => intro s0 s _ h; cases h
    | succ fuel ih =>
      intro s0 s hv h
      rw [mode1Loop] at h
      split at h
      · dsimp only at h
        split at h
        · split at h
          · split at h
            · cases h
            · cases h
            · cases h; exact Or.inr (Or.inr rfl)
            · split at h
              · cases h
              · cases h
              · cases h; exact Or.inr (Or.inr rfl)
              · split at h
                · cases h
                · cases h
                · rename_i b _
                  cases h
                  cases b
                  · exact Or.inr (Or.inr rfl)
                  · exact Or.inl hv
          · refine ih _ s ?_ h
            exact hv
        · cases h; exact Or.inr (Or.inl rfl)
      · cases h
      · cases h
      · cases h
      · cases h
  rw [mode1] at h
  dsimp only at h
  split at h
  · rw [Option.some.injEq] at h
    cases hg : globOverlap low high with
    | ok b =>
      rw [hg, bind_ok] at h
      cases h
      cases b
      · exact Or.inr (Or.inr rfl)
      · exact Or.inl rfl
    | err e => rw [hg] at h; cases h
    | ub e => rw [hg] at h; cases h
  · exact loop fuel _ s rfl h

/-- A chain of phases from `p` to `q`, neighbours sharing a temperature and global at the overlap. -/
inductive Chain (globOverlap : Phase P K → Phase P K → Outcome Bool) :
    Phase P K → Phase P K → Prop
  | direct {p q} : doPhasesOverlap p q = true → globOverlap p q = ok true → Chain globOverlap p q
  | sides {p q p' q'} : doPhasesOverlap p p' = true → doPhasesOverlap q q' = true →
      Chain globOverlap p' q' → Chain globOverlap p q

/-- C53: mode 1 reports success only if the phases of the two ends of the range are connected by a chain of
traced phases that share temperatures, the innermost pair being global at its overlap. -/
theorem C53_mode1_connected (mk : K → Outcome (Phase P K))
    (globOverlap : Phase P K → Phase P K → Outcome Bool) (fuel : Nat) (low high : Phase P K)
    (s : M1State P K) (h : mode1 mk globOverlap fuel low high .success = some (ok s))
    (hs : s.vac = .success) : Chain globOverlap low high := by
  have loop : ∀ fuel (s0 s : M1State P K),
      mode1Loop mk globOverlap fuel s0 = some (ok s) → s.vac = .success →
      Chain globOverlap s0.low s0.high := by
    intro fuel
    induction fuel with
    | zero => intro s0 s h; cases h
    | succ fuel ih =>
      intro s0 s h hs
      rw [mode1Loop] at h
      split at h
      · dsimp only at h
        split at h
        · rename_i l hh _ _ hside
          rw [Bool.and_eq_true] at hside
          refine Chain.sides hside.1 hside.2 ?_
          split at h
          · rename_i hin
            split at h
            · cases h
            · cases h
            · cases h; cases hs
            · split at h
              · cases h
              · cases h
              · cases h; cases hs
              · split at h
                · cases h
                · cases h
                · rename_i b hb
                  cases h
                  cases b with
                  | false => cases hs
                  | true => exact Chain.direct hin hb
          · exact ih _ s h hs
        · cases h; cases hs
      · cases h
      · cases h
      · cases h
      · cases h
  rw [mode1] at h
  dsimp only at h
  split at h
  · rename_i hov
    rw [Option.some.injEq] at h
    cases hg : globOverlap low high with
    | ok b =>
      rw [hg, bind_ok] at h
      cases h
      cases b with
      | false => cases hs
      | true => exact Chain.direct hov hg
    | err e => rw [hg] at h; cases h
    | ub e => rw [hg] at h; cases h
  · exact loop fuel _ s h hs

/-- C53 is false of the termination of mode 1: if the global minimum at the end of each middle phase still
belongs to this phase, the same two phases are traced for ever. -/
theorem C53_mode1_endless (mk : K → Outcome (Phase P K))
    (globOverlap : Phase P K → Phase P K → Outcome Bool) (l h : Phase P K) (added : List (Phase P K))
    (vac : Tracing) (hl : mk l.tHigh = ok l) (hh : mk h.tLow = ok h) (hr : l.tLow ≤ l.tHigh)
    (hr' : h.tLow ≤ h.tHigh) (hgap : l.tHigh < h.tLow) (fuel : Nat) :
    mode1Loop mk globOverlap fuel ⟨h.tLow, l.tHigh, l, h, vac, added⟩ = none := by
  induction fuel generalizing added with
  | zero => rfl
  | succ fuel ih =>
    rw [mode1Loop]
    dsimp only
    rw [hl, hh]
    dsimp only
    have h1 : doPhasesOverlap l l = true := by simp [doPhasesOverlap, hr]
    have h2 : doPhasesOverlap h h = true := by simp [doPhasesOverlap, hr']
    have h3 : doPhasesOverlap l h = false := by simp [doPhasesOverlap, hgap]
    rw [h1, h2, h3]
    exact ih _

/-- C53: a search outside the range of temperatures is an error: if the outer phases end less than 1 GeV from
the opposite end, mode 1 stops with an exception. -/
theorem C53_mode1_throws (track : P → K → K → List (Minimum P K)) (glob : K → P)
    (globOverlap : Phase P K → Phase P K → Outcome Bool) (tLow tHigh : K) (fuel : Nat)
    (low high : Phase P K) (vac : Tracing) (hov : doPhasesOverlap low high = false)
    (hrange : tLow ≤ tHigh) (h : tHigh < low.tHigh + 1) :
    mode1 (fun t => Phase.fromGlobal track glob t tLow tHigh) globOverlap (fuel + 1) low high vac =
      some (err .invalidArgument) := by
  have hthrow : Phase.fromGlobal track glob (low.tHigh + 1) tLow tHigh = err .invalidArgument := by
    rw [Phase.fromGlobal]
    rw [if_neg (by intro e; linarith), if_neg (by intro e; linarith), if_neg]
    rintro (⟨h1, _⟩ | ⟨h1, _⟩) <;> linarith
  rw [mode1, hov]
  simp only [Bool.false_eq_true, if_false]
  rw [mode1Loop]
  dsimp only
  rw [hthrow]

/-- The phases that are kept: those of more than one minimum. -/
def kept (l : List (Phase P K)) : List (Phase P K) := l.filter fun p => 1 < p.mins.length

theorem addIf_eq (l : List (Phase P K)) (p : Phase P K) : addIf l p = l ++ kept [p] := by
  by_cases h : p.mins.length > 1
  · simp [addIf, kept, h]
  · simp [addIf, kept, h]

/-- C53: the phases mode 1 hands over are the two outer ones followed by those traced in the gap, each only if it has
more than one minimum. -/
theorem C53_mode1_phases (mk : K → Outcome (Phase P K))
    (globOverlap : Phase P K → Phase P K → Outcome Bool) (fuel : Nat) (low high : Phase P K) (vac : Tracing)
    (s : M1State P K) (h : mode1 mk globOverlap fuel low high vac = some (ok s)) :
    ∃ traced : List (Phase P K), s.added = kept ([low, high] ++ traced) ∧ ∀ p ∈ traced, ∃ t, mk t = ok p := by
  have loop : ∀ fuel (s0 s : M1State P K) (tr0 : List (Phase P K)),
      s0.added = kept ([low, high] ++ tr0) → (∀ p ∈ tr0, ∃ t, mk t = ok p) →
      mode1Loop mk globOverlap fuel s0 = some (ok s) →
      ∃ traced : List (Phase P K), s.added = kept ([low, high] ++ traced) ∧ ∀ p ∈ traced, ∃ t, mk t = ok p := by
    intro fuel
    induction fuel with
    | zero => intro s0 s _ _ _ h; cases h
    | succ fuel ih =>
      intro s0 s tr0 hadd htr h
      rw [mode1Loop] at h
      split at h
      · rename_i l hh hl hhh
        have hnew : addIf (addIf s0.added l) hh = kept ([low, high] ++ (tr0 ++ [l, hh])) := by
          rw [addIf_eq, addIf_eq, hadd]
          simp only [kept, ← List.filter_append, List.append_assoc, List.cons_append, List.nil_append]
        have htr' : ∀ p ∈ tr0 ++ [l, hh], ∃ t, mk t = ok p := by
          intro p hp
          simp only [List.mem_append, List.mem_cons, List.not_mem_nil, or_false] at hp
          rcases hp with hp | rfl | rfl
          · exact htr p hp
          · exact ⟨_, hl⟩
          · exact ⟨_, hhh⟩
        dsimp only at h
        split at h
        · split at h
          · split at h
            · cases h
            · cases h
            · cases h; exact ⟨_, hnew, htr'⟩
            · split at h
              · cases h
              · cases h
              · cases h; exact ⟨_, hnew, htr'⟩
              · split at h
                · cases h
                · cases h
                · cases h; exact ⟨_, hnew, htr'⟩
          · exact ih _ s _ hnew htr' h
        · cases h; exact ⟨_, hnew, htr'⟩
      · cases h
      · cases h
      · cases h
      · cases h
  have h0 : addIf (addIf [] low) high = kept ([low, high] ++ []) := by
    rw [addIf_eq, addIf_eq]
    simp only [kept, ← List.filter_append, List.append_assoc, List.cons_append, List.nil_append]
  rw [mode1] at h
  dsimp only at h
  split at h
  · cases hb : globOverlap low high with
    | ok b => rw [hb] at h; cases h; exact ⟨[], h0, by simp⟩
    | err e => rw [hb] at h; cases h
    | ub u => rw [hb] at h; cases h
  · exact loop fuel _ s [] h0 (by simp) h

/-- C53: in a gap between the outer phases mode 1 first looks one degree above the lower and one degree below the upper
phase; if one of the two phases found there does not reach the outer phase next to it, the range is not covered, and an
exception at one of these temperatures ends everything. -/
theorem C53_mode1_gap (mk : K → Outcome (Phase P K))
    (globOverlap : Phase P K → Phase P K → Outcome Bool) (fuel : Nat) (low high : Phase P K) (vac : Tracing)
    (hov : doPhasesOverlap low high = false) :
    (∀ l h, mk (low.tHigh + 1) = ok l → mk (high.tLow - 1) = ok h →
      doPhasesOverlap low l = false ∨ doPhasesOverlap high h = false →
      ∃ s, mode1 mk globOverlap (fuel + 1) low high vac = some (ok s) ∧ s.vac = .noCoverage ∧
        s.added = kept [low, high, l, h]) ∧
    (∀ e, mk (low.tHigh + 1) = err e → mode1 mk globOverlap (fuel + 1) low high vac = some (err e)) ∧
    (∀ l e, mk (low.tHigh + 1) = ok l → mk (high.tLow - 1) = err e →
      mode1 mk globOverlap (fuel + 1) low high vac = some (err e)) := by
  rw [mode1, hov]
  simp only [Bool.false_eq_true, if_false]
  rw [mode1Loop]
  dsimp only
  refine ⟨fun l h hl hh ho => ?_, fun e he => ?_, fun l e hl he => ?_⟩
  · rw [hl, hh]
    dsimp only
    have : (doPhasesOverlap low l && doPhasesOverlap high h) = false := by
      rcases ho with ho | ho <;> simp [ho]
    rw [this]
    refine ⟨_, rfl, rfl, ?_⟩
    simp only [addIf_eq, kept, ← List.filter_append, List.append_assoc, List.cons_append, List.nil_append]
  · rw [he]
  · rw [hl, he]

/-! ### Mode 2 -/

/-- C53 is false of mode 2 if the tracking of an outer phase fails at its start: the temperature at which it
stops being the global minimum is then read uninitialised. -/
theorem C53_mode2_uninitialised (tLow tHigh : K) (mk : K → Side P K) (fuel : Nat)
    (low high : Phase P K × Option K) (h : low.2 = none ∨ high.2 = none) :
    mode2 tLow tHigh mk fuel low high = ub .uninitialised := by
  rw [mode2]
  rcases h with h | h
  · rw [h]
  · rw [h]
    cases low.2 <;> rfl

/-- C53: mode 2 searches between the ends of the global minima of the outer phases, one degree further inside where the
outer phase does not go on beyond this end; the outer phases are kept if they have more than one minimum. -/
theorem C53_mode2_start (tLow tHigh : K) (mk : K → Side P K) (fuel : Nat) (low high : Phase P K) (a b a' b' : K)
    (ha : a < low.tHigh ∧ a' = a ∨ low.tHigh ≤ a ∧ a' = a + 1)
    (hb : high.tLow < b ∧ b' = b ∨ b ≤ high.tLow ∧ b' = b - 1) :
    mode2 tLow tHigh mk fuel (low, some a) (high, some b) =
      ok (mode2Loop tLow tHigh mk fuel a' b' (kept [low, high])) ∧
    (b' ≤ a' → mode2 tLow tHigh mk (fuel + 1) (low, some a) (high, some b) = ok (some (kept [low, high]))) := by
  have h1 : (if low.tHigh > a then a else a + 1) = a' := by
    rcases ha with ⟨h, rfl⟩ | ⟨h, rfl⟩
    · rw [if_pos h]
    · rw [if_neg (not_lt.2 h)]
  have h2 : (if high.tLow < b then b else b - 1) = b' := by
    rcases hb with ⟨h, rfl⟩ | ⟨h, rfl⟩
    · rw [if_pos h]
    · rw [if_neg (not_lt.2 h)]
  have h3 : addIf (addIf [] low) high = kept [low, high] := by
    simp only [addIf_eq, kept, ← List.filter_append, List.append_assoc, List.cons_append, List.nil_append]
  have h4 : ∀ fuel, mode2 tLow tHigh mk fuel (low, some a) (high, some b) =
      ok (mode2Loop tLow tHigh mk fuel a' b' (kept [low, high])) := by
    intro fuel
    rw [mode2]
    dsimp only
    rw [h1, h2, h3]
  refine ⟨h4 fuel, fun h => ?_⟩
  rw [h4, mode2Loop, if_neg (not_lt.2 h)]

/-- C53: the two-way tracing of mode 2 keeps the temperature found downwards whenever there is one, so the
upward search on the low side continues from below its start. -/
theorem C53_mode2_low_side (up down old : K) :
    globEndBothWays (some up) (some down) old = down ∧ globEndBothWays (some up) none old = up ∧
    globEndBothWays none (some down) old = down ∧ globEndBothWays none none old = old := by
  exact ⟨rfl, rfl, rfl, rfl⟩

/-- C53 is false of the termination of mode 2: if the minima at both ends are not recognised as global at
their own temperature, the search stays there. -/
theorem C53_mode2_endless (tLow tHigh : K) (mk : K → Side P K) (a b : K) (hab : a < b)
    (ha : (mk a).2.2 = some a) (hb : (mk b).2.2 = some b) (hla : (mk a).1.tLow < (mk a).1.tHigh)
    (hlb : (mk b).1.tLow < (mk b).1.tHigh) (added : List (Phase P K)) (fuel : Nat) :
    mode2Loop tLow tHigh mk fuel a b added = none := by
  induction fuel generalizing added with
  | zero => rfl
  | succ fuel ih =>
    rw [mode2Loop, if_pos hab]
    simp only [if_pos hla, if_pos hlb, ha, hb, globEndBothWays, Option.some_or, Option.getD_some]
    exact ih _

/-- C53: mode 2 ends if the temperatures found stay above the lower end of the range and each search from
above it comes down by at least `δ`. -/
theorem C53_mode2_ends_partial [Archimedean K] (tLow tHigh δ : K) (hδ : 0 < δ) (mk : K → Side P K)
    (hlow : ∀ t, tLow ≤ t → tLow ≤ globEndBothWays (mk t).2.1 (mk t).2.2 t)
    (hstep : ∀ t, tLow < t → globEndBothWays (mk t).2.1 (mk t).2.2 t ≤ t - δ)
    (a b : K) (ha : tLow ≤ a) (added : List (Phase P K)) :
    ∃ fuel r, mode2Loop tLow tHigh mk fuel a b added = some r := by
  have key : ∀ n : Nat, ∀ a b added, tLow ≤ a → b ≤ tLow + n * δ →
      ∃ fuel r, mode2Loop tLow tHigh mk fuel a b added = some r := by
    intro n
    induction n with
    | zero =>
      intro a b added ha h
      refine ⟨1, added, ?_⟩
      rw [mode2Loop, if_neg]
      have : b ≤ tLow := by simpa using h
      linarith
    | succ n ih =>
      intro a b added ha h
      by_cases hab : a < b
      · rw [Nat.cast_succ, add_mul, one_mul] at h
        have h1 := hlow a ha
        have h2 := hstep b (by linarith)
        obtain ⟨fuel, r, hr⟩ := ih
          (if (mk a).1.tLow < (mk a).1.tHigh then globEndBothWays (mk a).2.1 (mk a).2.2 a
            else if globEndBothWays (mk a).2.1 (mk a).2.2 a + 1 < tHigh then
              globEndBothWays (mk a).2.1 (mk a).2.2 a + 1 else globEndBothWays (mk a).2.1 (mk a).2.2 a)
          (if (mk b).1.tLow < (mk b).1.tHigh then globEndBothWays (mk b).2.1 (mk b).2.2 b
            else if globEndBothWays (mk b).2.1 (mk b).2.2 b > tLow + 1 then
              globEndBothWays (mk b).2.1 (mk b).2.2 b - 1 else globEndBothWays (mk b).2.1 (mk b).2.2 b)
          _ (by split_ifs <;> linarith) (by split_ifs <;> linarith)
        refine ⟨fuel + 1, r, ?_⟩
        rw [mode2Loop, if_pos hab]
        exact hr
      · exact ⟨1, added, by rw [mode2Loop, if_neg hab]⟩
  obtain ⟨n, hn⟩ := Archimedean.arch (b - tLow) hδ
  rw [nsmul_eq_mul] at hn
  exact key n a b added ha (by linarith)

/-- The conditions can be met: every search comes down by 10 GeV, but not below 0. -/
example :
    let mk : ℚ → Side ℚ ℚ := fun t => (⟨0, 0, t, []⟩, some t, some (max 0 (t - 10)))
    (∀ t : ℚ, 0 ≤ t → 0 ≤ globEndBothWays (mk t).2.1 (mk t).2.2 t) ∧
    (mode2Loop 0 300 mk 100 25 45 []).isSome = true ∧
    mode2 0 300 mk 100 (⟨0, 0, 30, []⟩, some 25) (⟨0, 40, 300, []⟩, some 45) ≠ ub .uninitialised := by
  refine ⟨fun t _ => ?_, by decide +kernel, by decide +kernel⟩
  simp [globEndBothWays]

/-! ### The end of the constructor -/

theorem renumber_get (phases : List (Phase P K)) (i : Nat) :
    (renumber phases)[i]? = (phases[i]?).map fun p => { p with id := i } := by
  rw [renumber, List.getElem?_map, List.getElem?_zipIdx]
  cases phases[i]? <;> simp

/-- C53: the coverage and the pairs are computed only for a successful tracing, or, except in mode 0, for one
without coverage; the phases are then in the order of descending upper temperature and numbered in this
order.  No phases at all is a failure. -/
theorem C53_finish (sort : List (Phase P K) → List (Phase P K))
    (hperm : ∀ l, (sort l).Perm l)
    (hsort : ∀ l, (sort l).Pairwise fun p q => ¬ q.tHigh > p.tHigh)
    (region : VState P K → Option (VState P K)) (mode : Int) (only : Bool) (s : VState P K) :
    (s.phases = [] → finishVacuum sort region mode only s = some ({ s with vac := .failure }, [])) ∧
    (s.phases ≠ [] → ¬ (s.vac = .success ∨ mode ≠ 0 ∧ s.vac = .noCoverage) →
      finishVacuum sort region mode only s = some (s, [])) ∧
    (s.phases ≠ [] → (s.vac = .success ∨ mode ≠ 0 ∧ s.vac = .noCoverage) →
      ∃ l : List (Phase P K), (l.map fun p => (p.tLow, p.tHigh, p.mins)).Perm
          (s.phases.map fun p => (p.tLow, p.tHigh, p.mins)) ∧
        (l.Pairwise fun p q => q.tHigh ≤ p.tHigh) ∧
        (∀ (i : Nat) (p : Phase P K), l[i]? = some p → p.id = i) ∧
        finishVacuum sort region mode only s = (region { s with phases := l }).map fun s' =>
          (s', if s'.coex = .success ∧ only = false then setCoexPhases s'.phases else [])) := by
  refine ⟨fun h => ?_, fun h hv => ?_, fun h hv => ?_⟩
  · rw [finishVacuum]; simp [h]
  · rw [finishVacuum]
    have : ¬ s.phases.length = 0 := by simpa using h
    simp only [this, if_false]
    rw [if_neg hv]
  · refine ⟨renumber (sort s.phases), ?_, ?_, ?_, ?_⟩
    · have : (renumber (sort s.phases)).map (fun p => (p.tLow, p.tHigh, p.mins)) =
          (sort s.phases).map fun p => (p.tLow, p.tHigh, p.mins) := by
        apply List.ext_getElem?
        intro i
        rw [List.getElem?_map, renumber_get, List.getElem?_map]
        cases (sort s.phases)[i]? <;> rfl
      rw [this]
      exact (hperm _).map _
    · have hs := hsort s.phases
      rw [List.pairwise_iff_getElem] at hs ⊢
      intro i j hi hj hij
      have key : ∀ (k : Nat) (hk : k < (renumber (sort s.phases)).length)
          (hk' : k < (sort s.phases).length),
          ((renumber (sort s.phases))[k]).tHigh = ((sort s.phases)[k]).tHigh := by
        intro k hk hk'
        have := renumber_get (sort s.phases) k
        rw [List.getElem?_eq_getElem hk, List.getElem?_eq_getElem hk'] at this
        rw [Option.some.inj this]
      have hlen : (renumber (sort s.phases)).length = (sort s.phases).length := by simp [renumber]
      rw [key i hi (by omega), key j hj (by omega)]
      exact not_lt.1 (hs i j (by omega) (by omega) hij)
    · intro i p hp
      rw [renumber_get, Option.map_eq_some_iff] at hp
      obtain ⟨q, _, rfl⟩ := hp
      rfl
    · rw [finishVacuum]
      have : ¬ s.phases.length = 0 := by simpa using h
      simp only [this, if_false]
      rw [if_pos hv]

end Verif.Tracer
