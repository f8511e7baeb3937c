import Verif.Wall.Model
import Mathlib.Data.List.GetD
import Mathlib.Tactic.Ring
import Mathlib.Tactic.Linarith
import Mathlib.Tactic.NormNum

set_option linter.unusedSimpArgs false

/-!
# C86: the parallel calculation of the wall thickness
-/

namespace Verif.Wall

open Outcome

namespace Spec

variable {K P : Type}

/-- A thread has finished. -/
def Finished : Pc P → Prop
  | .done => True
  | _ => False

/-- The base points are numbered by their position. -/
def Numbered (pts : List (Nat × P)) : Prop := ∀ (i : Nat) (d : Nat × P), pts[i]? = some d → d.1 = i

/-- What a sequential program writes. -/
def sequential [Neg K] (pts : List (Nat × P)) (V : P → K) : List K := pts.map fun d => -V d.2

/-- Only unfinished threads act. -/
def Busy [Neg K] (pts : List (Nat × P)) (V : P → K) : State K P → List Nat → Prop
  | _, [] => True
  | s, t :: ts => (∃ p, s.threads[t]? = some p ∧ ¬ Finished p) ∧
      ∀ s', step pts V s t = .ok s' → Busy pts V s' ts

end Spec

open Spec

variable {K P : Type}

/-- What holds in every reachable state. -/
structure Inv [Neg K] (pts : List (Nat × P)) (V : P → K) (s : State K P) : Prop where
  index_le : s.index ≤ pts.length
  length : s.data.length = pts.length
  work : ∀ (t : Nat) (d : Nat × P), s.threads[t]? = some (.work d) → pts[d.1]? = some d
  done : ∀ t : Nat, s.threads[t]? = some .done → pts.length ≤ s.index
  covered : ∀ (i : Nat) (d : Nat × P), i < s.index → pts[i]? = some d →
    s.data[i]? = some (-V d.2) ∨ ∃ t : Nat, s.threads[t]? = some (.work d)

theorem inv_start [Neg K] [Zero K] (pts : List (Nat × P)) (V : P → K) (n : Nat) :
    Inv pts V (start pts n : State K P) := by
  refine ⟨Nat.zero_le _, by simp [start], ?_, ?_, ?_⟩
  · intro t d h
    simp only [start, List.getElem?_replicate] at h
    split at h <;> simp at h
  · intro t h
    simp only [start, List.getElem?_replicate] at h
    split at h <;> simp at h
  · intro i d h
    exact absurd h (Nat.not_lt_zero _)

theorem inv_step [Neg K] {pts : List (Nat × P)} (hn : Numbered pts) (V : P → K) {s s' : State K P}
    (h : Inv pts V s) (t : Nat) (hs : step pts V s t = ok s') : Inv pts V s' := by
  unfold step at hs
  cases ht : s.threads[t]? with
  | none => rw [ht] at hs; injection hs with hs; subst hs; exact h
  | some p =>
    rw [ht] at hs
    have hlt : t < s.threads.length := (List.getElem?_eq_some_iff.1 ht).1
    cases p with
    | done => injection hs with hs; subst hs; exact h
    | check =>
      injection hs with hs
      subst hs
      refine ⟨h.index_le, h.length, ?_, ?_, ?_⟩
      · intro u d hu
        by_cases hut : t = u
        · subst hut
          simp only [List.getElem?_set_self hlt, Option.some.injEq] at hu
          split at hu <;> cases hu
        · simp only [List.getElem?_set_ne hut] at hu
          exact h.work u d hu
      · intro u hu
        by_cases hut : t = u
        · subst hut
          simp only [List.getElem?_set_self hlt, Option.some.injEq] at hu
          split at hu
          · cases hu
          · rename_i hi
            exact Nat.le_of_not_lt hi
        · simp only [List.getElem?_set_ne hut] at hu
          exact h.done u hu
      · intro i d hi hd
        rcases h.covered i d hi hd with hc | ⟨u, hu⟩
        · exact Or.inl hc
        · refine Or.inr ⟨u, ?_⟩
          by_cases hut : t = u
          · subst hut
            rw [ht] at hu
            cases hu
          · simp only [List.getElem?_set_ne hut]
            exact hu
    | fetch =>
      simp only at hs
      cases hd : pts[s.index]? with
      | none => rw [hd] at hs; cases hs
      | some d =>
        rw [hd] at hs
        injection hs with hs
        subst hs
        have hlen : s.index < pts.length := (List.getElem?_eq_some_iff.1 hd).1
        have hnum := hn _ _ hd
        refine ⟨hlen, h.length, ?_, ?_, ?_⟩
        · intro u d' hu
          by_cases hut : t = u
          · subst hut
            simp only [List.getElem?_set_self hlt, Option.some.injEq, Pc.work.injEq] at hu
            subst hu
            rw [hnum]
            exact hd
          · simp only [List.getElem?_set_ne hut] at hu
            exact h.work u d' hu
        · intro u hu
          by_cases hut : t = u
          · subst hut
            simp only [List.getElem?_set_self hlt, Option.some.injEq] at hu
            cases hu
          · simp only [List.getElem?_set_ne hut] at hu
            exact Nat.le_succ_of_le (h.done u hu)
        · intro i d' hi hd'
          by_cases hii : i = s.index
          · subst hii
            rw [hd] at hd'
            cases hd'
            exact Or.inr ⟨t, by simp only [List.getElem?_set_self hlt]⟩
          · have hi' : i < s.index := by
              have : i < s.index + 1 := hi
              omega
            rcases h.covered i d' hi' hd' with hc | ⟨u, hu⟩
            · exact Or.inl hc
            · refine Or.inr ⟨u, ?_⟩
              by_cases hut : t = u
              · subst hut
                rw [ht] at hu
                cases hu
              · simp only [List.getElem?_set_ne hut]
                exact hu
    | work d =>
      simp only at hs
      by_cases hdl : d.1 < s.data.length
      · rw [if_pos hdl] at hs
        injection hs with hs
        subst hs
        have hwd := h.work t d ht
        refine ⟨h.index_le, by simpa using h.length, ?_, ?_, ?_⟩
        · intro u d' hu
          by_cases hut : t = u
          · subst hut
            simp only [List.getElem?_set_self hlt, Option.some.injEq] at hu
            cases hu
          · simp only [List.getElem?_set_ne hut] at hu
            exact h.work u d' hu
        · intro u hu
          by_cases hut : t = u
          · subst hut
            simp only [List.getElem?_set_self hlt, Option.some.injEq] at hu
            cases hu
          · simp only [List.getElem?_set_ne hut] at hu
            exact h.done u hu
        · intro i d' hi hd'
          by_cases hii : d.1 = i
          · subst hii
            rw [hwd] at hd'
            cases hd'
            exact Or.inl (by simp only [List.getElem?_set_self hdl])
          · rcases h.covered i d' hi hd' with hc | ⟨u, hu⟩
            · exact Or.inl (by simp only [List.getElem?_set_ne hii]; exact hc)
            · refine Or.inr ⟨u, ?_⟩
              by_cases hut : t = u
              · subst hut
                rw [ht] at hu
                injection hu with hu
                injection hu with hu
                subst hu
                exact absurd (hn _ _ hd') hii
              · simp only [List.getElem?_set_ne hut]
                exact hu
      · rw [if_neg hdl] at hs
        cases hs

theorem step_threads [Neg K] {pts : List (Nat × P)} {V : P → K} {s s' : State K P} {t : Nat}
    (hs : step pts V s t = ok s') : s'.threads.length = s.threads.length := by
  unfold step at hs
  split at hs
  · injection hs with hs; subst hs; rfl
  · injection hs with hs; subst hs; rfl
  · injection hs with hs; subst hs; simp
  · split at hs
    · cases hs
    · injection hs with hs; subst hs; simp
  · split at hs
    · injection hs with hs; subst hs; simp
    · cases hs

theorem inv_run [Neg K] {pts : List (Nat × P)} (hn : Numbered pts) (V : P → K) {s s' : State K P}
    (h : Inv pts V s) (ts : List Nat) (hr : run pts V s ts = ok s') :
    Inv pts V s' ∧ s'.threads.length = s.threads.length := by
  induction ts generalizing s with
  | nil => injection hr with hr; subst hr; exact ⟨h, rfl⟩
  | cons t ts ih =>
    rw [run] at hr
    cases hs : step pts V s t with
    | err e => rw [hs] at hr; cases hr
    | ub u => rw [hs] at hr; cases hr
    | ok s₁ =>
      rw [hs] at hr
      obtain ⟨h1, h2⟩ := ih (inv_step hn V h t hs) hr
      exact ⟨h1, h2.trans (step_threads hs)⟩

/-- Every schedule of any number of threads that ends gives what a sequential program computes. -/
theorem C86_every_schedule [Neg K] [Zero K] (pts : List (Nat × P)) (hn : Numbered pts) (V : P → K)
    (threads : Nat) (hp : 0 < threads) (ts : List Nat) (s : State K P)
    (hr : run pts V (start pts threads) ts = ok s) (hd : ∀ p ∈ s.threads, Finished p) :
    s.data = sequential pts V := by
  obtain ⟨h, hl⟩ := inv_run hn V (inv_start pts V threads) ts hr
  have hlen : s.threads.length = threads := by rw [hl]; simp [start]
  have hdone : ∀ (t : Nat) (p : Pc P), s.threads[t]? = some p → p = .done := by
    intro t p ht
    have := hd p (List.mem_of_getElem? ht)
    cases p <;> first | rfl | exact this.elim
  have hidx : pts.length ≤ s.index := by
    have h0 : 0 < s.threads.length := by omega
    have h0' : s.threads[0]? = some s.threads[0] := by simp [h0]
    exact h.done 0 (by rw [h0', hdone 0 _ h0'])
  refine List.ext_getElem? fun i => ?_
  rw [sequential, List.getElem?_map]
  cases hi : pts[i]? with
  | none =>
    rw [List.getElem?_eq_none_iff] at hi
    simp only [Option.map_none, List.getElem?_eq_none_iff]
    rw [h.length]
    exact hi
  | some d =>
    have hlt : i < pts.length := (List.getElem?_eq_some_iff.1 hi).1
    rcases h.covered i d (by omega) hi with hc | ⟨t, ht⟩
    · simpa using hc
    · cases hdone t _ ht

/-- The remaining work. -/
def rank : Pc P → Nat
  | .done => 0
  | .check => 2
  | .fetch => 1
  | .work _ => 3

def todo (pts : List (Nat × P)) (s : State K P) : Nat :=
  4 * (pts.length - s.index) + (s.threads.map rank).sum

theorem sum_set (l : List (Pc P)) (t : Nat) (p q : Pc P) (h : l[t]? = some p) :
    ((l.set t q).map rank).sum + rank p = (l.map rank).sum + rank q := by
  induction l generalizing t with
  | nil => simp at h
  | cons a l ih =>
    cases t with
    | zero =>
      simp only [List.getElem?_cons_zero, Option.some.injEq] at h
      subst h
      simp only [List.set_cons_zero, List.map_cons, List.sum_cons]
      omega
    | succ t =>
      simp only [List.getElem?_cons_succ] at h
      have := ih t h
      simp only [List.set_cons_succ, List.map_cons, List.sum_cons]
      omega

theorem todo_step [Neg K] {pts : List (Nat × P)} {V : P → K} {s s' : State K P} {t : Nat} {p : Pc P}
    (ht : s.threads[t]? = some p) (hp : ¬ Finished p) (hs : step pts V s t = ok s') :
    todo pts s' < todo pts s := by
  unfold step at hs
  rw [ht] at hs
  unfold todo
  cases p with
  | done => exact absurd trivial hp
  | check =>
    injection hs with hs
    subst hs
    have := sum_set s.threads t _ (if s.index < pts.length then .fetch else .done) ht
    by_cases hi : s.index < pts.length
    · simp only [if_pos hi, rank] at this ⊢
      omega
    · simp only [if_neg hi, rank] at this ⊢
      omega
  | fetch =>
    simp only at hs
    cases hd : pts[s.index]? with
    | none => rw [hd] at hs; cases hs
    | some d =>
      rw [hd] at hs
      injection hs with hs
      subst hs
      have hlen : s.index < pts.length := (List.getElem?_eq_some_iff.1 hd).1
      have := sum_set s.threads t _ (.work d) ht
      simp only [rank] at this ⊢
      omega
  | work d =>
    simp only at hs
    split at hs
    · injection hs with hs
      subst hs
      have := sum_set s.threads t _ .check ht
      simp only [rank] at this ⊢
      omega
    · cases hs

/-- The threads come to an end: the number of actions is bounded. -/
theorem C86_terminates [Neg K] [Zero K] (pts : List (Nat × P)) (V : P → K) (threads : Nat)
    (ts : List Nat) (hb : Busy pts V (start pts threads : State K P) ts) (s : State K P)
    (hr : run pts V (start pts threads) ts = ok s) : ts.length ≤ 4 * pts.length + 2 * threads := by
  have key : ∀ (ts : List Nat) (s s' : State K P), Busy pts V s ts → run pts V s ts = ok s' →
      ts.length + todo pts s' ≤ todo pts s := by
    intro ts
    induction ts with
    | nil => intro s s' _ hr; injection hr with hr; subst hr; simp
    | cons t ts ih =>
      intro s s' hb hr
      rw [run] at hr
      obtain ⟨⟨p, ht, hp⟩, hb⟩ := hb
      cases hs : step pts V s t with
      | err e => rw [hs] at hr; cases hr
      | ub u => rw [hs] at hr; cases hr
      | ok s₁ =>
        rw [hs] at hr
        have h1 := ih s₁ s' (hb s₁ hs) hr
        have h2 := todo_step ht hp hs
        simp only [List.length_cons]
        omega
  have := key ts _ s hb hr
  have h0 : todo pts (start pts threads : State K P) = 4 * pts.length + 2 * threads := by
    simp [todo, start, rank, Nat.mul_comm]
  omega

/-- A single thread never fails. -/
theorem C86_one_thread [Neg K] [Zero K] (pts : List (Nat × P)) (hn : Numbered pts) (V : P → K)
    (ts : List Nat) : ∃ s : State K P, run pts V (start pts 1) ts = ok s := by
  have key : ∀ (ts : List Nat) (s : State K P), Inv pts V s → s.threads.length = 1 →
      (s.threads[0]? = some .fetch → s.index < pts.length) → ∃ s', run pts V s ts = ok s' := by
    intro ts
    induction ts with
    | nil => intro s _ _ _; exact ⟨s, rfl⟩
    | cons t ts ih =>
      intro s h hl hf
      have step_ok : ∃ s', step pts V s t = ok s' ∧ (s'.threads[0]? = some .fetch → s'.index < pts.length) := by
        by_cases h0 : t = 0
        · subst h0
          have hlt : 0 < s.threads.length := by omega
          unfold step
          cases ht : s.threads[0]? with
          | none => exact ⟨s, rfl, by rw [ht]; simp⟩
          | some p =>
            cases p with
            | done => exact ⟨s, rfl, by rw [ht]; simp⟩
            | check =>
              refine ⟨_, rfl, ?_⟩
              simp only [List.getElem?_set_self hlt]
              by_cases hi : s.index < pts.length
              · intro _; exact hi
              · rw [if_neg hi]; simp
            | fetch =>
              have hi := hf ht
              have hd : pts[s.index]? = some pts[s.index] := by simp [hi]
              simp only [hd]
              refine ⟨_, rfl, ?_⟩
              simp only [List.getElem?_set_self hlt]
              simp
            | work d =>
              have hwd := h.work 0 d ht
              have : d.1 < s.data.length := by
                rw [h.length]
                exact (List.getElem?_eq_some_iff.1 hwd).1
              simp only [if_pos this]
              refine ⟨_, rfl, ?_⟩
              simp only [List.getElem?_set_self hlt]
              simp
        · have ht : s.threads[t]? = none := by
            rw [List.getElem?_eq_none_iff]; omega
          exact ⟨s, by unfold step; rw [ht], hf⟩
      obtain ⟨s₁, hs, hf₁⟩ := step_ok
      rw [run, hs]
      exact ih s₁ (inv_step hn V h t hs) (by rw [step_threads hs, hl]) hf₁
  exact key ts _ (inv_start pts V 1) (by simp [start]) (by simp [start])

theorem run_append [Neg K] (pts : List (Nat × P)) (V : P → K) (a b : List Nat) (s : State K P) :
    run pts V s (a ++ b) = (run pts V s a).bind fun s => run pts V s b := by
  induction a generalizing s with
  | nil => rfl
  | cons t a ih =>
    rw [List.cons_append, run, run]
    cases step pts V s t with
    | ok s => exact ih s
    | err e => rfl
    | ub u => rfl

/-- The actions of one thread that handles `n` base points alone. -/
theorem solo [Neg K] (pts : List (Nat × P)) (hn : Numbered pts) (V : P → K) (rest : List (Pc P)) :
    ∀ n, n ≤ pts.length → ∀ data : List K, data.length = pts.length →
    ∃ ts data', data'.length = pts.length ∧
      run pts V ⟨0, data, .check :: rest⟩ ts = ok ⟨n, data', .check :: rest⟩ := by
  intro n
  induction n with
  | zero => intro _ data hd; exact ⟨[], data, hd, rfl⟩
  | succ n ih =>
    intro hl data hd
    obtain ⟨ts, data', hd', hr⟩ := ih (by omega) data hd
    have hp : pts[n]? = some pts[n] := by simp [show n < pts.length by omega]
    have hnum : (pts[n]).1 = n := hn _ _ hp
    refine ⟨ts ++ [0, 0, 0], data'.set (pts[n]).1 (-V (pts[n]).2), by simpa using hd', ?_⟩
    rw [run_append, hr]
    simp only [Outcome.bind, run, step, List.getElem?_cons_zero, List.set_cons_zero,
      if_pos (show n < pts.length by omega), hp]
    rw [if_pos (by rw [hd', hnum]; omega)]

/-- For every number of threads there are schedules after which all of them have finished. -/
theorem C86_completes [Neg K] [Zero K] (pts : List (Nat × P)) (hn : Numbered pts) (V : P → K)
    (threads : Nat) (hp : 0 < threads) :
    ∃ ts, ∃ s : State K P, run pts V (start pts threads) ts = ok s ∧ s.threads.length = threads ∧
      ∀ p ∈ s.threads, Finished p := by
  obtain ⟨m, rfl⟩ := Nat.exists_eq_add_of_le hp
  obtain ⟨ts, data, hd, hr⟩ := solo pts hn V (List.replicate m .check) pts.length le_rfl
    (List.replicate pts.length 0) (by simp)
  have key : ∀ q k, ∃ us, run pts V (⟨pts.length, data, List.replicate k .done ++ List.replicate q .check⟩ :
      State K P) us = ok ⟨pts.length, data, List.replicate (k + q) .done⟩ := by
    intro q
    induction q with
    | zero => intro k; exact ⟨[], by simp [run]⟩
    | succ q ih =>
      intro k
      obtain ⟨us, hus⟩ := ih (k + 1)
      refine ⟨k :: us, ?_⟩
      have hstep : step pts V (⟨pts.length, data, List.replicate k .done ++ List.replicate (q + 1) .check⟩ :
          State K P) k =
          ok ⟨pts.length, data, List.replicate (k + 1) .done ++ List.replicate q .check⟩ := by
        have hget : (List.replicate k (Pc.done : Pc P) ++ List.replicate (q + 1) .check)[k]? = some .check := by
          rw [List.getElem?_append_right (by simp)]
          simp
        unfold step
        simp only [hget]
        rw [if_neg (lt_irrefl _), List.set_append_right _ _ (by simp)]
        rw [List.replicate_succ (n := q), List.length_replicate, Nat.sub_self, List.set_cons_zero,
          List.replicate_succ' (n := k), List.append_assoc]
        rfl
      rw [run, hstep, Outcome.bind, hus]
      congr 3
      omega
  obtain ⟨us, hus⟩ := key (1 + m) 0
  refine ⟨ts ++ us, ⟨pts.length, data, List.replicate (0 + (1 + m)) .done⟩, ?_, by simp, ?_⟩
  · rw [run_append]
    have hs : (start pts (0 + 1 + m) : State K P) =
        ⟨0, List.replicate pts.length 0, .check :: List.replicate m .check⟩ := by
      rw [start, show 0 + 1 + m = m + 1 by omega, List.replicate_succ]
    rw [hs, hr, Outcome.bind, ← hus, show 1 + m = m + 1 by omega, List.replicate_succ]
    rfl
  · intro p hp
    rw [List.eq_of_mem_replicate hp]
    trivial

/-- The property fails with two or more threads: the index is tested and incremented in two separate
actions, so there are schedules in which a thread reads a base point that does not exist, and the exception
ends the program. -/
theorem C86_race_fails [Neg K] [Zero K] (pts : List (Nat × P)) (hn : Numbered pts) (hne : pts ≠ [])
    (V : P → K) (threads : Nat) (hp : 2 ≤ threads) :
    ∃ ts, run pts V (start pts threads : State K P) ts = err .outOfRange := by
  obtain ⟨m, rfl⟩ := Nat.exists_eq_add_of_le hp
  have hpos : 0 < pts.length := List.length_pos_of_ne_nil hne
  obtain ⟨ts, data, hd, hr⟩ := solo pts hn V (.check :: List.replicate m .check) (pts.length - 1) (by omega)
    (List.replicate pts.length 0) (by simp)
  refine ⟨ts ++ [0, 1, 0, 1], ?_⟩
  have hs : (start pts (2 + m) : State K P) =
      ⟨0, List.replicate pts.length 0, .check :: .check :: List.replicate m .check⟩ := by
    rw [start, show 2 + m = m + 1 + 1 by omega, List.replicate_succ, List.replicate_succ]
  have hp1 : pts[pts.length - 1]? = some pts[pts.length - 1] := by simp [hpos]
  have hp2 : pts[pts.length - 1 + 1]? = none := by
    rw [List.getElem?_eq_none_iff]; omega
  rw [run_append, hs, hr]
  simp only [Outcome.bind, run, step, List.getElem?_cons_zero, List.getElem?_cons_succ,
    List.set_cons_zero, List.set_cons_succ, if_pos (show pts.length - 1 < pts.length by omega), hp1, hp2]

/-- The property fails where the number of processors is unknown: the standard then lets
`hardware_concurrency` return 0, no thread is created, and nothing is computed. -/
theorem C86_no_threads_fails [Neg K] [Zero K] (pts : List (Nat × P)) (V : P → K) (ts : List Nat) :
    run pts V (start pts 0 : State K P) ts = ok ⟨0, List.replicate pts.length 0, []⟩ := by
  have : ∀ ts : List Nat, run pts V (⟨0, List.replicate pts.length 0, []⟩ : State K P) ts =
      ok ⟨0, List.replicate pts.length 0, []⟩ := by
    intro ts
    induction ts with
    | nil => rfl
    | cons t ts ih => rw [run, step]; exact ih
  exact this ts

end Verif.Wall
