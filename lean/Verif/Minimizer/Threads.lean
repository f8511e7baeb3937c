import Verif.Outcome

/-!
# Model of the worker threads of `GSL_Minimize_gen_all` (MinimizeGSL.cpp:192-264)

`n` threads run `thread_Job` (lines 197-231) on the shared queue of start points, the shared counter
`FoundSolutions` and the shared list of results.  A step of the system is one of the following
atomic actions of one thread:

* reading the counter (line 205, an atomic variable, no lock),
* reading `empty()` of the queue (line 205, no lock),
* the block 208-216, which holds the mutex: `front` and `pop`,
* the minimisation (line 219), a thread-local computation,
* the block 220-229, which holds the mutex: `++`, `push`.  Nothing but the unlocked counter check
  can observe its inside, and the results are read only after all threads have been joined, so it
  is one step.

Threads are interleaved arbitrarily.  `front`/`pop` on an empty queue is undefined behaviour; it is
represented by the predicate `PopEmpty` on states.
-/

namespace Verif.Minimizer.Threads

/-- Program counter of a worker: about to read the counter, about to read `empty()`, about to take a
start point, about to minimise from `s`, about to publish `r`, finished. -/
inductive Pc (S R : Type) where
  | readCount
  | readEmpty
  | take
  | work (s : S)
  | publish (r : R)
  | done

/-- Shared state and the threads.  `taken` is a ghost variable: the start points taken so far. -/
structure State (S R : Type) where
  queue : List S
  found : Nat
  results : List R
  taken : List S
  threads : List (Pc S R)

variable {S R : Type}

/-- `MinThreads` just after creation (lines 233-248); without multithreading `n = 1` (line 257). -/
def init (starts : List S) (n : Nat) : State S R :=
  ⟨starts, 0, [], [], List.replicate n .readCount⟩

/-- One action of thread `i`.  `minimise s` is the outcome of `GSL_Minimize_From_S_gen_all`:
a solution when the status is `GSL_SUCCESS`. -/
inductive Step (minimise : S → Option R) (maxSol : Nat) : State S R → State S R → Prop
  | countBelow (σ : State S R) (i : Nat) : σ.threads[i]? = some .readCount → σ.found < maxSol →
      Step minimise maxSol σ { σ with threads := σ.threads.set i .readEmpty }
  | countReached (σ : State S R) (i : Nat) : σ.threads[i]? = some .readCount → ¬ σ.found < maxSol →
      Step minimise maxSol σ { σ with threads := σ.threads.set i .done }
  | notEmpty (σ : State S R) (i : Nat) : σ.threads[i]? = some .readEmpty → σ.queue ≠ [] →
      Step minimise maxSol σ { σ with threads := σ.threads.set i .take }
  | empty (σ : State S R) (i : Nat) : σ.threads[i]? = some .readEmpty → σ.queue = [] →
      Step minimise maxSol σ { σ with threads := σ.threads.set i .done }
  | take (σ : State S R) (i : Nat) (s : S) (q : List S) : σ.threads[i]? = some .take →
      σ.queue = s :: q →
      Step minimise maxSol σ { σ with queue := q, taken := σ.taken ++ [s],
                                      threads := σ.threads.set i (.work s) }
  | success (σ : State S R) (i : Nat) (s : S) (r : R) : σ.threads[i]? = some (.work s) →
      minimise s = some r →
      Step minimise maxSol σ { σ with threads := σ.threads.set i (.publish r) }
  | failure (σ : State S R) (i : Nat) (s : S) : σ.threads[i]? = some (.work s) →
      minimise s = none →
      Step minimise maxSol σ { σ with threads := σ.threads.set i .readCount }
  | publish (σ : State S R) (i : Nat) (r : R) : σ.threads[i]? = some (.publish r) →
      Step minimise maxSol σ { σ with found := σ.found + 1, results := σ.results ++ [r],
                                      threads := σ.threads.set i .readCount }

/-- The states reachable under some schedule. -/
inductive Reachable (minimise : S → Option R) (maxSol n : Nat) (starts : List S) :
    State S R → Prop
  | init : Reachable minimise maxSol n starts (init starts n)
  | step (σ τ : State S R) : Reachable minimise maxSol n starts σ → Step minimise maxSol σ τ →
      Reachable minimise maxSol n starts τ

/-- Some thread is about to execute `front()` and `pop()` on an empty queue. -/
def PopEmpty (σ : State S R) : Prop := ∃ i : Nat, σ.threads[i]? = some .take ∧ σ.queue = []

/-- Two threads are about to access the queue, one of them without the lock, the other one writing:
a data race. -/
def DataRace (σ : State S R) : Prop :=
  ∃ i j : Nat, i ≠ j ∧ σ.threads[i]? = some .readEmpty ∧ σ.threads[j]? = some .take

/-- All threads have finished. -/
def Finished (σ : State S R) : Prop := ∀ pc ∈ σ.threads, pc = .done

end Verif.Minimizer.Threads
