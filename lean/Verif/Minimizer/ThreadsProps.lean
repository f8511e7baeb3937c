import Verif.Minimizer.Threads

/-!
# Properties of the worker threads (C14)
-/

namespace Verif.Minimizer.Threads

variable {S R : Type} {minimise : S → Option R} {maxSol n : Nat} {starts : List S}

/-! ### Lists of threads -/

theorem set_eq_split {α : Type} (l : List α) (i : Nat) (a : α) (h : l[i]? = some a) :
    ∃ l₁ l₂, l = l₁ ++ a :: l₂ ∧ ∀ b, l.set i b = l₁ ++ b :: l₂ := by
  induction l generalizing i with
  | nil => simp at h
  | cons x l ih =>
    cases i with
    | zero =>
      simp only [List.getElem?_cons_zero, Option.some.injEq] at h
      subst h
      exact ⟨[], l, rfl, fun b => rfl⟩
    | succ i =>
      simp only [List.getElem?_cons_succ] at h
      obtain ⟨l₁, l₂, h1, h2⟩ := ih i h
      exact ⟨x :: l₁, l₂, by rw [h1]; rfl, fun b => by rw [List.set_cons_succ, h2]; rfl⟩

/-- Number of threads between the counter check and the publication of a result. -/
def active : Pc S R → Nat
  | .readEmpty | .take | .work _ | .publish _ => 1
  | .readCount | .done => 0

/-- The results a thread has found or will find before its next counter check. -/
def pending (minimise : S → Option R) : Pc S R → List R
  | .work s => (minimise s).toList
  | .publish r => [r]
  | _ => []

/-- Potential for the termination argument. -/
def rank : Pc S R → Nat
  | .readCount => 2
  | .readEmpty => 1
  | .take => 0
  | .work _ => 5
  | .publish _ => 4
  | .done => 0

theorem sum_map_le (f : Pc S R → Nat) (c : Nat) (h : ∀ pc, f pc ≤ c) (l : List (Pc S R)) :
    (l.map f).sum ≤ c * l.length := by
  induction l with
  | nil => simp
  | cons a l ih =>
    have := h a
    simp only [List.map_cons, List.sum_cons, List.length_cons, Nat.mul_add, Nat.mul_one]
    omega

structure Inv (minimise : S → Option R) (maxSol n : Nat) (starts : List S) (σ : State S R) :
    Prop where
  order : σ.taken ++ σ.queue = starts
  count : σ.results.length = σ.found
  len : σ.threads.length = n
  bound : 0 < n → σ.found + (σ.threads.map active).sum ≤ maxSol + n - 1
  perm : (σ.results ++ σ.threads.flatMap (pending minimise)).Perm (σ.taken.filterMap minimise)
  fin : Pc.done ∈ σ.threads → maxSol ≤ σ.found ∨ σ.queue = []

theorem inv_init : Inv minimise maxSol n starts (init starts n) := by
  refine ⟨by simp [init], rfl, by simp [init], ?_, ?_, ?_⟩
  · intro _
    have : ((List.replicate n (Pc.readCount : Pc S R)).map active).sum = 0 := by
      simp [active]
    simp only [init, this]; omega
  · have : (List.replicate n (Pc.readCount : Pc S R)).flatMap (pending minimise) = [] := by
      simp [pending]
    simp [init, this]
  · intro h
    have := List.eq_of_mem_replicate h
    simp at this

theorem inv_step {σ τ : State S R} (h : Inv minimise maxSol n starts σ)
    (hs : Step minimise maxSol σ τ) : Inv minimise maxSol n starts τ := by
  obtain ⟨h1, h2, h3, h4, h5, h6⟩ := h
  cases hs with
  | countBelow i hi hc =>
    obtain ⟨l₁, l₂, e1, e2⟩ := set_eq_split _ _ _ hi
    have e := e2 .readEmpty
    refine ⟨h1, h2, by simp [h3], fun hn => ?_, ?_, ?_⟩
    · have := sum_map_le (S := S) (R := R) active 1
        (fun pc => by cases pc <;> simp [active]) (σ.threads.set i .readEmpty)
      rw [List.length_set, h3] at this
      simp only at this ⊢
      omega
    · dsimp only
      rw [e]; rw [e1] at h5
      simpa [pending] using h5
    · dsimp only
      rw [e]; rw [e1] at h6
      simpa using h6
  | countReached i hi hc =>
    obtain ⟨l₁, l₂, e1, e2⟩ := set_eq_split _ _ _ hi
    have e := e2 .done
    refine ⟨h1, h2, by simp [h3], fun hn => ?_, ?_, ?_⟩
    · have := h4 hn
      dsimp only
      rw [e]; rw [e1] at this
      simpa [active] using this
    · dsimp only
      rw [e]; rw [e1] at h5
      simpa [pending] using h5
    · intro _; left; dsimp only; omega
  | notEmpty i hi hc =>
    obtain ⟨l₁, l₂, e1, e2⟩ := set_eq_split _ _ _ hi
    have e := e2 .take
    refine ⟨h1, h2, by simp [h3], fun hn => ?_, ?_, ?_⟩
    · have := h4 hn
      dsimp only
      rw [e]; rw [e1] at this
      simpa [active] using this
    · dsimp only
      rw [e]; rw [e1] at h5
      simpa [pending] using h5
    · dsimp only
      rw [e]; rw [e1] at h6
      simpa using h6
  | empty i hi hc =>
    obtain ⟨l₁, l₂, e1, e2⟩ := set_eq_split _ _ _ hi
    have e := e2 .done
    refine ⟨h1, h2, by simp [h3], fun hn => ?_, ?_, ?_⟩
    · have := h4 hn
      dsimp only
      rw [e]; rw [e1] at this
      simp only [List.map_append, List.map_cons, List.sum_append, List.sum_cons, active] at this ⊢
      omega
    · dsimp only
      rw [e]; rw [e1] at h5
      simpa [pending] using h5
    · intro _; right; exact hc
  | take i s q hi hc =>
    obtain ⟨l₁, l₂, e1, e2⟩ := set_eq_split _ _ _ hi
    have e := e2 (.work s)
    refine ⟨?_, h2, by simp [h3], fun hn => ?_, ?_, ?_⟩
    · dsimp only; rw [← h1, hc]; simp
    · have := h4 hn
      dsimp only
      rw [e]; rw [e1] at this
      simpa [active] using this
    · dsimp only
      rw [e]; rw [e1] at h5
      rw [List.filterMap_append]
      have h5' := h5.append_right (([s] : List S).filterMap minimise)
      refine List.Perm.trans ?_ h5'
      have e3 : ([s] : List S).filterMap minimise = (minimise s).toList := by
        cases hm : minimise s <;> simp [hm]
      rw [e3]
      simp only [List.flatMap_append, List.flatMap_cons, pending, List.nil_append,
        List.append_assoc]
      refine List.Perm.append_left _ (List.Perm.append_left _ ?_)
      exact List.perm_append_comm
    · dsimp only
      rw [e]; rw [e1, hc] at h6
      simp only [List.mem_append, List.mem_cons, reduceCtorEq, false_or, or_false] at h6 ⊢
      intro h
      exact Or.inl (h6 h)
  | success i s r hi hc =>
    obtain ⟨l₁, l₂, e1, e2⟩ := set_eq_split _ _ _ hi
    have e := e2 (.publish r)
    refine ⟨h1, h2, by simp [h3], fun hn => ?_, ?_, ?_⟩
    · have := h4 hn
      dsimp only
      rw [e]; rw [e1] at this
      simpa [active] using this
    · dsimp only
      rw [e]; rw [e1] at h5
      simpa [pending, hc] using h5
    · dsimp only
      rw [e]; rw [e1] at h6
      simpa using h6
  | failure i s hi hc =>
    obtain ⟨l₁, l₂, e1, e2⟩ := set_eq_split _ _ _ hi
    have e := e2 .readCount
    refine ⟨h1, h2, by simp [h3], fun hn => ?_, ?_, ?_⟩
    · have := h4 hn
      dsimp only
      rw [e]; rw [e1] at this
      simp only [List.map_append, List.map_cons, List.sum_append, List.sum_cons, active] at this ⊢
      omega
    · dsimp only
      rw [e]; rw [e1] at h5
      simpa [pending, hc] using h5
    · dsimp only
      rw [e]; rw [e1] at h6
      simpa using h6
  | publish i r hi =>
    obtain ⟨l₁, l₂, e1, e2⟩ := set_eq_split _ _ _ hi
    have e := e2 .readCount
    refine ⟨h1, by simp [h2], by simp [h3], fun hn => ?_, ?_, ?_⟩
    · have := h4 hn
      dsimp only
      rw [e]; rw [e1] at this
      simp only [List.map_append, List.map_cons, List.sum_append, List.sum_cons, active] at this ⊢
      omega
    · dsimp only
      rw [e]; rw [e1] at h5
      refine List.Perm.trans ?_ h5
      simp only [List.flatMap_append, List.flatMap_cons, pending, List.nil_append,
        List.append_assoc]
      refine List.Perm.append_left _ ?_
      exact List.perm_append_comm_assoc _ _ _
    · dsimp only
      rw [e]; rw [e1] at h6
      simp only [List.mem_append, List.mem_cons, reduceCtorEq, false_or] at h6 ⊢
      intro h
      rcases h6 h with h | h
      · left; omega
      · right; exact h

theorem inv_reachable {σ : State S R} (h : Reachable minimise maxSol n starts σ) :
    Inv minimise maxSol n starts σ := by
  induction h with
  | init => exact inv_init
  | step σ τ _ hs ih => exact inv_step ih hs

/-! ### The properties -/

/-- Under every schedule the start points are taken in order, each at most once: at any time the
points taken so far followed by those still queued are the original list. -/
theorem C14_no_point_twice (σ : State S R) (h : Reachable minimise maxSol n starts σ) :
    σ.taken ++ σ.queue = starts := (inv_reachable h).order

/-- Under every schedule at most `maxSol + n - 1` solutions are delivered by `n ≥ 1` threads. -/
theorem C14_number_of_results (hn : 0 < n) (σ : State S R)
    (h : Reachable minimise maxSol n starts σ) : σ.results.length ≤ maxSol + n - 1 := by
  have hi := inv_reachable h
  have := hi.bound hn
  have := hi.count
  omega

/-- When all (at least one) threads have finished, the results are exactly the solutions of the
start points that were taken, and either enough solutions were found or all points were used. -/
theorem C14_results_when_finished (hn : 0 < n) (σ : State S R)
    (h : Reachable minimise maxSol n starts σ) (hf : Finished σ) :
    σ.results.Perm (σ.taken.filterMap minimise) ∧ (maxSol ≤ σ.results.length ∨ σ.taken = starts) := by
  have hi := inv_reachable h
  have hnil : σ.threads.flatMap (pending minimise) = [] := by
    rw [List.flatMap_eq_nil_iff]
    intro pc hpc
    rw [hf pc hpc]; rfl
  refine ⟨?_, ?_⟩
  · have := hi.perm
    rwa [hnil, List.append_nil] at this
  · have hmem : Pc.done ∈ σ.threads := by
      cases ht : σ.threads with
      | nil => have := hi.len; rw [ht] at this; simp at this; omega
      | cons pc l => rw [← hf pc (by rw [ht]; simp)]; simp
    rw [hi.count]
    rcases hi.fin hmem with h | h
    · exact Or.inl h
    · right; have := hi.order; rwa [h, List.append_nil] at this

/-- The potential of a state. -/
def potential (σ : State S R) : Nat := 6 * σ.queue.length + (σ.threads.map rank).sum

theorem potential_decreases {σ τ : State S R} (hs : Step minimise maxSol σ τ) :
    potential τ < potential σ := by
  unfold potential
  cases hs with
  | take i s q hi hc =>
    obtain ⟨l₁, l₂, e1, e2⟩ := set_eq_split _ _ _ hi
    dsimp only
    rw [e2, e1, hc]
    simp only [List.map_append, List.map_cons, List.sum_append, List.sum_cons, rank,
      List.length_cons]
    omega
  | countBelow i hi _ | countReached i hi _ | notEmpty i hi _ | empty i hi _ | success i s r hi _
  | failure i s hi _ | publish i r hi =>
    obtain ⟨l₁, l₂, e1, e2⟩ := set_eq_split _ _ _ hi
    dsimp only
    rw [e2, e1]
    simp only [List.map_append, List.map_cons, List.sum_append, List.sum_cons, rank]
    omega

/-- `k` actions lead from the first state to the second. -/
inductive Steps (minimise : S → Option R) (maxSol : Nat) : Nat → State S R → State S R → Prop
  | refl (σ : State S R) : Steps minimise maxSol 0 σ σ
  | step (k : Nat) (σ τ υ : State S R) : Steps minimise maxSol k σ τ → Step minimise maxSol τ υ →
      Steps minimise maxSol (k + 1) σ υ

theorem steps_potential {k : Nat} {σ τ : State S R} (h : Steps minimise maxSol k σ τ) :
    potential τ + k ≤ potential σ := by
  induction h with
  | refl => omega
  | step k σ τ υ _ hs ih => have := potential_decreases hs; omega

/-- Every schedule ends: with `m` start points and `n` threads no execution has more than
`6 m + 2 n` actions, and an execution can only stop when all threads have finished or one of them is
about to pop an empty queue. -/
theorem C14_every_schedule_ends :
    (∀ (k : Nat) (σ : State S R), Steps minimise maxSol k (init starts n) σ →
      k ≤ 6 * starts.length + 2 * n) ∧
    (∀ σ : State S R, (∀ τ, ¬ Step minimise maxSol σ τ) → Finished σ ∨ PopEmpty σ) := by
  refine ⟨?_, ?_⟩
  · intro k σ h
    have := steps_potential h
    have e : potential (init starts n : State S R) = 6 * starts.length + 2 * n := by
      simp [potential, init, rank, Nat.mul_comm]
    omega
  · intro σ h
    by_cases hf : Finished σ
    · exact Or.inl hf
    · right
      unfold Finished at hf
      have ⟨pc, hpc, hne⟩ : ∃ pc, pc ∈ σ.threads ∧ pc ≠ .done := by
        by_cases hex : ∃ pc, pc ∈ σ.threads ∧ pc ≠ .done
        · exact hex
        · exfalso; apply hf
          intro pc hpc
          by_cases hd : pc = .done
          · exact hd
          · exact absurd ⟨pc, hpc, hd⟩ hex
      obtain ⟨i, hi⟩ := List.getElem?_of_mem hpc
      cases pc with
      | readCount =>
        exfalso
        by_cases hc : σ.found < maxSol
        · exact h _ (.countBelow σ i hi hc)
        · exact h _ (.countReached σ i hi hc)
      | readEmpty =>
        exfalso
        by_cases hc : σ.queue = []
        · exact h _ (.empty σ i hi hc)
        · exact h _ (.notEmpty σ i hi hc)
      | take =>
        cases hq : σ.queue with
        | nil => exact ⟨i, hi, hq⟩
        | cons s q => exact absurd (.take σ i s q hi hq) (h _)
      | work s =>
        exfalso
        cases hm : minimise s with
        | none => exact h _ (.failure σ i s hi hm)
        | some r => exact h _ (.success σ i s r hi hm)
      | publish r => exact absurd (.publish σ i r hi) (h _)
      | done => exact absurd rfl hne

/-- Part of the property: without multithreading (one worker) no schedule pops an empty queue and
there is no data race. -/
theorem C14_single_thread_safe_partial (σ : State S R) (h : Reachable minimise maxSol 1 starts σ) :
    ¬ PopEmpty σ ∧ ¬ DataRace σ := by
  have key : σ.threads = [.take] → σ.queue ≠ [] := by
    induction h with
    | init => intro h; simp [init] at h
    | step σ τ hr hs ih =>
      have hlen := (inv_reachable hr).len
      match hσ : σ.threads, hlen with
      | [pc], _ =>
        cases hs with
        | notEmpty i hi hc => intro _; exact hc
        | countBelow i hi _ | countReached i hi _ | empty i hi _ | take i _ _ hi _
        | success i _ _ hi _ | failure i _ hi _ | publish i _ hi =>
          rw [hσ] at hi
          cases i with
          | zero => intro h; simp [hσ] at h
          | succ i => simp at hi
  have hlen := (inv_reachable h).len
  match hσ : σ.threads, hlen with
  | [pc], _ =>
    refine ⟨?_, ?_⟩
    · rintro ⟨i, hi, hq⟩
      rw [hσ] at hi
      cases i with
      | zero =>
        simp only [List.getElem?_cons_zero, Option.some.injEq] at hi
        exact key (by rw [hσ, hi]) hq
      | succ i => simp at hi
    · rintro ⟨i, j, hne, hi, hj⟩
      rw [hσ] at hi hj
      cases i with
      | zero =>
        cases j with
        | zero => exact hne rfl
        | succ j => simp at hj
      | succ i => simp at hi

theorem reach_trans {σ τ : State S R} (h : Reachable minimise maxSol n starts σ)
    (hs : Step minimise maxSol σ τ) : Reachable minimise maxSol n starts τ := .step σ τ h hs

/-- The property is false of the code with two or more workers: for every list of start points,
unless enough solutions are found before the last point is reached, there is a schedule in which a
worker executes `front`/`pop` on an empty queue. -/
theorem C14_pop_of_empty_queue (k : Nat) (s : S) (init' : List S)
    (hfew : (init'.filterMap minimise).length < maxSol) :
    ∃ σ : State S R, Reachable minimise maxSol (k + 2) (init' ++ [s]) σ ∧ PopEmpty σ := by
  -- thread 0 alone consumes `init'`
  have phase : ∀ (q done' : List S) (rs : List R), done' ++ q = init' →
      rs = done'.filterMap minimise →
      Reachable minimise maxSol (k + 2) (init' ++ [s])
        ⟨q ++ [s], rs.length, rs, done', .readCount :: List.replicate (k + 1) .readCount⟩ →
      ∃ rs' : List R, rs'.length < maxSol ∧ Reachable minimise maxSol (k + 2) (init' ++ [s])
        ⟨[s], rs'.length, rs', init', .readCount :: List.replicate (k + 1) .readCount⟩ := by
    intro q
    induction q with
    | nil =>
      intro done' rs hq hrs hr
      rw [List.append_nil] at hq
      subst hq
      exact ⟨rs, by rw [hrs]; exact hfew, hr⟩
    | cons x q ih =>
      intro done' rs hq hrs hr
      have hlt : rs.length < maxSol := by
        rw [hrs]
        refine Nat.lt_of_le_of_lt ?_ hfew
        rw [← hq, List.filterMap_append, List.length_append]
        omega
      have r1 := reach_trans hr (.countBelow _ 0 rfl hlt)
      have r2 := reach_trans r1 (.notEmpty _ 0 rfl (by simp))
      have r3 := reach_trans r2 (.take _ 0 x (q ++ [s]) rfl rfl)
      cases hm : minimise x with
      | none =>
        have r4 := reach_trans r3 (.failure _ 0 x rfl hm)
        refine ih (done' ++ [x]) rs (by simpa using hq) (by simp [hrs, hm]) ?_
        exact r4
      | some r =>
        have r4 := reach_trans r3 (.success _ 0 x r rfl hm)
        have r5 := reach_trans r4 (.publish _ 0 r rfl)
        refine ih (done' ++ [x]) (rs ++ [r]) (by simpa using hq) (by simp [hrs, hm]) ?_
        rw [List.length_append]
        exact r5
  obtain ⟨rs, hlt, hr⟩ := phase init' [] [] rfl rfl (by
    have := Reachable.init (minimise := minimise) (maxSol := maxSol) (n := k + 2)
      (starts := init' ++ [s])
    exact this)
  have r1 := reach_trans hr (.countBelow _ 0 rfl hlt)
  have r2 := reach_trans r1 (.notEmpty _ 0 rfl (by simp))
  have r3 := reach_trans r2 (.countBelow _ 1 rfl hlt)
  have r4 := reach_trans r3 (.notEmpty _ 1 rfl (by simp))
  have r5 := reach_trans r4 (.take _ 0 s [] rfl rfl)
  exact ⟨_, r5, 1, rfl, rfl⟩

/-- Even before that, two workers always can race: one reads `empty()` without the lock while the
other one is about to `pop`. -/
theorem C14_data_race (k : Nat) (s : S) (q : List S) (hmax : 0 < maxSol) :
    ∃ σ : State S R, Reachable minimise maxSol (k + 2) (s :: q) σ ∧ DataRace σ := by
  have r0 := Reachable.init (minimise := minimise) (maxSol := maxSol) (n := k + 2)
    (starts := s :: q)
  have r1 := reach_trans r0 (.countBelow _ 0 rfl hmax)
  have r2 := reach_trans r1 (.notEmpty _ 0 rfl (by simp [init]))
  have r3 := reach_trans r2 (.countBelow _ 1 rfl hmax)
  exact ⟨_, r3, 1, 0, by decide, rfl, rfl⟩

/-- A concrete run: two start points, two threads, the second point has no solution. -/
example : (([7, 8].filterMap fun s : Nat => if s = 7 then some s else none).length < 2) := by decide

example : ∃ σ : State Nat Nat, Reachable (fun s => if s = 7 then some s else none) 2 2 [7, 8] σ ∧
    PopEmpty σ :=
  C14_pop_of_empty_queue (minimise := fun s => if s = 7 then some s else none) 0 8 [7] (by decide)

/-- A finished run of one thread exists. -/
example : ∃ σ : State Nat Nat, Reachable (fun s => some s) 1 1 [7] σ ∧ Finished σ ∧
    σ.results = [7] := by
  have r0 := Reachable.init (minimise := fun s : Nat => some s) (maxSol := 1) (n := 1)
    (starts := [7])
  have r1 := reach_trans r0 (.countBelow _ 0 rfl (by simp [init]))
  have r2 := reach_trans r1 (.notEmpty _ 0 rfl (by simp [init]))
  have r3 := reach_trans r2 (.take _ 0 7 [] rfl rfl)
  have r4 := reach_trans r3 (.success _ 0 7 7 rfl rfl)
  have r5 := reach_trans r4 (.publish _ 0 7 rfl)
  have r6 := reach_trans r5 (.countReached _ 0 rfl (by simp [init]))
  refine ⟨_, r6, ?_, rfl⟩
  simp [Finished, init]

end Verif.Minimizer.Threads
