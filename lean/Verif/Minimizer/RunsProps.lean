import Verif.Minimizer.Runs
import Mathlib.Tactic.Ring
import Mathlib.Algebra.Order.Field.Basic
import Mathlib.Algebra.Order.Field.Rat
import Mathlib.Tactic.Linarith
import Mathlib.Tactic.NormNum

/-!
# Single runs of the minimizers (C118)
-/

set_option linter.unusedVariables false
set_option linter.unusedSectionVars false
set_option linter.unusedSimpArgs false

namespace Verif.Minimizer.Runs

open Outcome

/-! ## Specification -/

namespace Spec

variable {S K : Type} [Field K] [LinearOrder K]

/-- The state of the algorithm after `n` iterations. -/
def after (m : Simplex S K) (start : List K) : Nat → S
  | 0 => m.init start
  | n + 1 => (m.iterate (after m start n)).1

/-- The algorithm started at the point has converged after `n` iterations, for the first time: no
iteration failed, the simplex is smaller than 0.0001 and it was not smaller before. -/
def Converged (m : Simplex S K) (start : List K) (n : Nat) : Prop :=
  0 < n ∧ n ≤ 600 ∧ (∀ k < n, (m.iterate (after m start k)).2 = 0) ∧
    (∀ k, 0 < k → k < n → ¬ m.size (after m start k) < 1 / 10000) ∧
    m.size (after m start n) < 1 / 10000

open Classical in
/-- The point to which the algorithm converges from the start point, if it does. -/
noncomputable def limit (m : Simplex S K) (dim : Nat) (start : List K) : Option (List K) :=
  if h : ∃ n, Converged m start n then
    some ((List.range dim).map (m.x (after m start h.choose)))
  else none

end Spec

open Spec

variable {S K : Type} [Field K] [LinearOrder K] [IsStrictOrderedRing K]

/-! ## One run -/

theorem Converged_unique (m : Simplex S K) (start : List K) {a b : Nat}
    (ha : Converged m start a) (hb : Converged m start b) : a = b := by
  rcases Nat.lt_trichotomy a b with h | h | h
  · exact absurd ha.2.2.2.2 (hb.2.2.2.1 a ha.1 h)
  · exact h
  · exact absurd hb.2.2.2.2 (ha.2.2.2.1 b hb.1 h)

theorem limit_eq (m : Simplex S K) (dim : Nat) (start : List K) (n : Nat)
    (h : Converged m start n) :
    limit m dim start = some ((List.range dim).map (m.x (after m start n))) := by
  have hex : ∃ n, Converged m start n := ⟨n, h⟩
  unfold limit
  rw [dif_pos hex, Converged_unique m start hex.choose_spec h]

theorem limit_none (m : Simplex S K) (dim : Nat) (start : List K)
    (h : ∀ n, ¬ Converged m start n) : limit m dim start = none := by
  unfold limit
  rw [dif_neg (fun hex => h _ hex.choose_spec)]

theorem loop_eq (m : Simplex S K) (tol : K) (left : Nat) (s : S) :
    loop m tol left s =
      if (m.iterate s).2 ≠ 0 then m.iterate s
      else if testSize (m.size (m.iterate s).1) tol = -2 then
        (match left with
        | 0 => ((m.iterate s).1, testSize (m.size (m.iterate s).1) tol)
        | left' + 1 => loop m tol left' (m.iterate s).1)
      else ((m.iterate s).1, testSize (m.size (m.iterate s).1) tol) := by
  cases left <;> rfl

theorem tolerance_eq : (tolerance : K) = 1 / 10000 := by norm_num [tolerance]

/-- The loop after `k` iterations, none of which failed or converged. -/
theorem loop_spec (m : Simplex S K) (start : List K) :
    ∀ (left k : Nat), k + left + 1 = 600 →
      (∀ j < k, (m.iterate (after m start j)).2 = 0) →
      (∀ j, 0 < j → j ≤ k → ¬ m.size (after m start j) < 1 / 10000) →
      ((loop m tolerance left (after m start k)).2 = 0 ∧
        ∃ n, Converged m start n ∧ (loop m tolerance left (after m start k)).1 = after m start n) ∨
      ((loop m tolerance left (after m start k)).2 ≠ 0 ∧ ∀ n, ¬ Converged m start n) := by
  intro left
  induction left with
  | zero =>
    intro k hk hit hsz
    rw [loop_eq]
    by_cases h : (m.iterate (after m start k)).2 ≠ 0
    · right
      rw [if_pos h]
      refine ⟨h, fun n hn => ?_⟩
      by_cases hkn : k < n
      · exact h (hn.2.2.1 k hkn)
      · exact hsz n hn.1 (by omega) hn.2.2.2.2
    · have h0 : (m.iterate (after m start k)).2 = 0 := by simpa using h
      rw [if_neg h]
      have ht : ¬ ((1 : K) / 10000 < 0) := by rw [not_lt]; positivity
      by_cases hs : m.size (m.iterate (after m start k)).1 < 1 / 10000
      · left
        rw [if_neg (by rw [tolerance_eq, testSize, if_neg ht, if_pos hs]; decide)]
        refine ⟨by rw [tolerance_eq, testSize, if_neg ht, if_pos hs], k + 1, ?_, rfl⟩
        refine ⟨by omega, by omega, fun j hj => ?_, fun j hj0 hj => hsz j hj0 (by omega), hs⟩
        rcases Nat.lt_succ_iff_lt_or_eq.1 hj with h1 | h1
        · exact hit j h1
        · rw [h1]; exact h0
      · right
        have ht2 : testSize (m.size (m.iterate (after m start k)).1) tolerance = -2 := by
          rw [tolerance_eq, testSize, if_neg ht, if_neg hs]
        rw [if_pos ht2]
        refine ⟨by simp only [ht2]; decide, fun n hn => ?_⟩
        by_cases hkn : n ≤ k
        · exact hsz n hn.1 hkn hn.2.2.2.2
        · have : n = k + 1 := by have := hn.2.1; omega
          subst this
          exact hs hn.2.2.2.2
  | succ left ih =>
    intro k hk hit hsz
    rw [loop_eq]
    by_cases h : (m.iterate (after m start k)).2 ≠ 0
    · right
      rw [if_pos h]
      refine ⟨h, fun n hn => ?_⟩
      by_cases hkn : k < n
      · exact h (hn.2.2.1 k hkn)
      · exact hsz n hn.1 (by omega) hn.2.2.2.2
    · have h0 : (m.iterate (after m start k)).2 = 0 := by simpa using h
      rw [if_neg h]
      have ht : ¬ ((1 : K) / 10000 < 0) := by rw [not_lt]; positivity
      have hit' : ∀ j < k + 1, (m.iterate (after m start j)).2 = 0 := by
        intro j hj
        rcases Nat.lt_succ_iff_lt_or_eq.1 hj with h1 | h1
        · exact hit j h1
        · rw [h1]; exact h0
      by_cases hs : m.size (m.iterate (after m start k)).1 < 1 / 10000
      · left
        rw [if_neg (by rw [tolerance_eq, testSize, if_neg ht, if_pos hs]; decide)]
        refine ⟨by rw [tolerance_eq, testSize, if_neg ht, if_pos hs], k + 1, ?_, rfl⟩
        exact ⟨by omega, by omega, hit', fun j hj0 hj => hsz j hj0 (by omega), hs⟩
      · have ht2 : testSize (m.size (m.iterate (after m start k)).1) tolerance = -2 := by
          rw [tolerance_eq, testSize, if_neg ht, if_neg hs]
        rw [if_pos ht2]
        refine ih (k + 1) (by omega) hit' ?_
        intro j hj0 hj
        rcases Nat.le_succ_iff.1 hj with h1 | h1
        · exact hsz j hj0 h1
        · rw [h1]; exact hs

/-- A run of the simplex algorithm appends to the vector of the caller the point to which it
converged within 600 iterations, and reports success exactly in this case; otherwise it appends
zeros and reports failure. -/
theorem C118_run (m : Simplex S K) (dim : Nat) (sol start : List K) (hd : dim ≤ start.length) :
    ∃ status, fromStart m dim sol start =
        ok (sol ++ (limit m dim (start.take dim)).getD (List.replicate dim 0), status) ∧
      (status = 0 ↔ (limit m dim (start.take dim)).isSome = true) := by
  have hx : (List.range dim).mapM (at' start) = ok (start.take dim) := by
    rw [mapM_ok (g := fun k => start.getD k 0)]
    · congr 1
      refine List.ext_getElem (by simp; omega) ?_
      intro i h1 h2
      simp at h1
      simp [List.getElem?_eq_getElem (by omega : i < start.length)]
    · intro k hk
      have : k < start.length := by have := List.mem_range.1 hk; omega
      rw [at'_of_lt this]
      simp [List.getElem?_eq_getElem this]
  unfold fromStart
  rw [hx, bind_ok]
  dsimp only
  have := loop_spec m (start.take dim) (600 - 1) 0 (by omega) (fun j hj => absurd hj (by omega))
    (fun j h1 h2 => absurd h2 (by omega))
  rcases this with ⟨h0, n, hn, hst⟩ | ⟨h0, hno⟩
  · refine ⟨0, ?_, ?_⟩
    · have h0' : (loop m tolerance (600 - 1) (m.init (start.take dim))).2 = 0 := h0
      have hst' : (loop m tolerance (600 - 1) (m.init (start.take dim))).1 =
        after m (start.take dim) n := hst
      rw [if_pos h0', limit_eq m dim _ n hn, h0', hst']
      rfl
    · rw [limit_eq m dim _ n hn]; simp
  · refine ⟨(loop m tolerance (600 - 1) (m.init (start.take dim))).2, ?_, ?_⟩
    · have h0' : ¬ (loop m tolerance (600 - 1) (m.init (start.take dim))).2 = 0 := h0
      rw [if_neg h0', limit_none m dim _ hno]
      rfl
    · rw [limit_none m dim _ hno]
      simp only [Option.isSome_none, Bool.false_eq_true, iff_false]
      exact h0

/-- A start vector with too few entries is rejected before the algorithm is started. -/
theorem C118_short_start (m : Simplex S K) (dim : Nat) (sol start : List K)
    (hd : start.length < dim) : fromStart m dim sol start = err .outOfRange := by
  have key : ∀ (n k : Nat), k ≤ start.length → start.length < k + n →
      (List.range' k n).mapM (at' start) = err .outOfRange := by
    intro n
    induction n with
    | zero => intro k h1 h2; omega
    | succ n ih =>
      intro k h1 h2
      rw [List.range'_succ, List.mapM_cons]
      by_cases hk : k < start.length
      · rw [at'_of_lt hk, bind_ok, ih (k + 1) (by omega) (by omega)]
        rfl
      · rw [at'_of_ge (by omega)]; rfl
  unfold fromStart
  rw [List.range_eq_range', key dim 0 (by omega) (by omega)]
  rfl

/-! ## The search from many start points -/

/-- The search uses 600 start points with one coordinate for each field; the coordinates come from
successive random numbers and lie between -500 and 500. -/
theorem C118_start_points (rnd : Nat → K) (dim : Nat) :
    (startPoints rnd dim).length = 600 ∧
    (∀ i s, (startPoints rnd dim)[i]? = some s → s.length = dim ∧
      ∀ j x, s[j]? = some x → x = -500 + 1000 * rnd (dim * i + j)) ∧
    ((∀ n, 0 ≤ rnd n ∧ rnd n < 1) →
      ∀ s ∈ startPoints rnd dim, ∀ x ∈ s, -500 ≤ x ∧ x < 500) := by
  refine ⟨by simp [startPoints], ?_, ?_⟩
  · intro i s hs
    unfold startPoints at hs
    rw [List.getElem?_map] at hs
    cases hr : (List.range 600)[i]? with
    | none => rw [hr] at hs; simp at hs
    | some i' =>
      have hii : i' = i := by
        obtain ⟨_, h⟩ := List.getElem?_eq_some_iff.1 hr
        simpa using h.symm
      rw [hr, hii] at hs
      simp only [Option.map_some, Option.some.injEq] at hs
      subst hs
      refine ⟨by simp, ?_⟩
      intro j x hx
      rw [List.getElem?_map] at hx
      cases hj : (List.range dim)[j]? with
      | none => rw [hj] at hx; simp at hx
      | some j' =>
        have hjj : j' = j := by
          obtain ⟨_, h⟩ := List.getElem?_eq_some_iff.1 hj
          simpa using h.symm
        rw [hj, hjj] at hx
        simp only [Option.map_some, Option.some.injEq] at hx
        rw [← hx, Nat.mul_comm i dim]
        ring
  · intro h s hs x hx
    unfold startPoints at hs
    obtain ⟨i, _, rfl⟩ := List.mem_map.1 hs
    obtain ⟨j, _, rfl⟩ := List.mem_map.1 hx
    have := h (i * dim + j)
    constructor <;> linarith [this.1, this.2]

theorem job_eq (run : List K → Outcome (List K × Int)) (lim : List K → Option (List K))
    (maxSol : Nat) : ∀ (queue : List (List K)) (found : Nat) (results : List (List K)),
      found ≤ maxSol →
      (∀ s ∈ queue, ∃ r, run s = ok r ∧ (r.2 = 0 ↔ (lim s).isSome = true) ∧
        ∀ x, lim s = some x → r.1 = x) →
      job run maxSol queue found results =
        ok (results ++ (queue.filterMap lim).take (maxSol - found)) := by
  intro queue
  induction queue with
  | nil => intro f r _ _; simp [job]
  | cons s queue ih =>
    intro f res hf hrun
    obtain ⟨r, hr, hz, hx⟩ := hrun s (by simp)
    have hrest : ∀ t ∈ queue, ∃ r, run t = ok r ∧ (r.2 = 0 ↔ (lim t).isSome = true) ∧
        ∀ x, lim t = some x → r.1 = x := fun t ht => hrun t (by simp [ht])
    unfold job
    by_cases hlt : f < maxSol
    · rw [if_pos hlt, hr, bind_ok]
      cases hl : lim s with
      | none =>
        rw [if_neg (by rw [hz, hl]; simp), ih f res hf hrest, List.filterMap_cons_none hl]
      | some x =>
        rw [if_pos (hz.2 (by rw [hl]; rfl)), hx x hl, ih (f + 1) _ (by omega) hrest,
          List.filterMap_cons_some hl]
        have : maxSol - f = (maxSol - (f + 1)) + 1 := by omega
        rw [this, List.take_succ_cons, List.append_assoc]
        rfl
    · rw [if_neg hlt]
      have : maxSol - f = 0 := by omega
      rw [this]
      simp

/-- Without threads the solutions are the points to which the algorithm converges from the start
points, in the order of the start points and up to the wanted number. -/
theorem C118_solutions (m : Simplex S K) (rnd : Nat → K) (dim maxSol : Nat) :
    job (fromStart m dim []) maxSol (startPoints rnd dim) 0 [] =
      ok (((startPoints rnd dim).filterMap (limit m dim)).take maxSol) := by
  rw [job_eq (fromStart m dim []) (limit m dim) maxSol _ 0 [] (by omega)]
  · simp
  · intro s hs
    obtain ⟨i, hi⟩ := List.getElem?_of_mem hs
    have hlen : s.length = dim := ((C118_start_points rnd dim).2.1 i s hi).1
    obtain ⟨st, h1, h2⟩ := C118_run m dim [] s (by omega)
    rw [List.take_of_length_le (by omega)] at h1 h2
    refine ⟨_, h1, h2, ?_⟩
    intro x hx
    simp [hx]

theorem lowest_spec (r : Row K) : ∀ (rs : List (Row K)) (pre : List (Row K)) (minIndex : Nat)
    (best : Row K), pre[minIndex]? = some best → ∃ b v,
      lowest minIndex best.value pre.length rs = b ∧ (pre ++ rs)[b]? = some v ∧
      (∀ x, best.value = .fin x → ∃ y, v.value = .fin y ∧ y ≤ x ∧
        ∀ q ∈ rs, ∀ z, q.value = .fin z → y ≤ z) ∧
      (best.value = .nan → v.value = .nan) := by
  intro rs
  induction rs with
  | nil =>
    intro pre mi best h
    refine ⟨mi, best, rfl, by simpa using h, ?_, fun h => h⟩
    intro x hx
    exact ⟨x, hx, le_refl x, by simp⟩
  | cons a rs ih =>
    intro pre mi best h
    unfold lowest
    by_cases hle : a.value.le best.value = true
    · rw [if_pos hle]
      obtain ⟨b, v, h1, h2, h3, h4⟩ := ih (pre ++ [a]) pre.length a (by simp)
      refine ⟨b, v, by simpa using h1, by simpa using h2, ?_, ?_⟩
      · intro x hx
        cases ha : a.value with
        | nan => rw [ha] at hle; simp at hle
        | fin w =>
          rw [ha, hx, Flt.le_fin] at hle
          obtain ⟨y, hy, hyw, hall⟩ := h3 w ha
          refine ⟨y, hy, le_trans hyw hle, ?_⟩
          intro q hq z hz
          rcases List.mem_cons.1 hq with rfl | hq
          · rw [ha] at hz; rw [← Flt.fin.inj hz]; exact hyw
          · exact hall q hq z hz
      · intro hn
        rw [hn] at hle; simp at hle
    · rw [if_neg hle]
      have hm : (pre ++ [a])[mi]? = some best := by
        obtain ⟨hlt, hv⟩ := List.getElem?_eq_some_iff.1 h
        rw [List.getElem?_append_left hlt]; exact h
      obtain ⟨b, v, h1, h2, h3, h4⟩ := ih (pre ++ [a]) mi best hm
      refine ⟨b, v, by simpa using h1, by simpa using h2, ?_, h4⟩
      intro x hx
      obtain ⟨y, hy, hyx, hall⟩ := h3 x hx
      refine ⟨y, hy, hyx, ?_⟩
      intro q hq z hz
      rcases List.mem_cons.1 hq with rfl | hq
      · rw [hx, hz, Flt.le_fin, not_le] at hle
        exact le_trans hyx (le_of_lt hle)
      · exact hall q hq z hz

theorem range_mapM_idx (l : List K) : (List.range l.length).mapM (idx l) = ok l := by
  rw [mapM_ok (g := fun k => l.getD k 0)]
  · congr 1
    refine List.ext_getElem (by simp) ?_
    intro i h1 h2
    simp [List.getElem?_eq_getElem h2]
  · intro k hk
    have : k < l.length := List.mem_range.1 hk
    rw [idx_of_lt this]
    simp [List.getElem?_eq_getElem this]

theorem range_mapM_at (l : List K) : (List.range l.length).mapM (at' l) = ok l := by
  rw [mapM_ok (g := fun k => l.getD k 0)]
  · congr 1
    refine List.ext_getElem (by simp) ?_
    intro i h1 h2
    simp [List.getElem?_eq_getElem h2]
  · intro k hk
    have : k < l.length := List.mem_range.1 hk
    rw [at'_of_lt this]
    simp [List.getElem?_eq_getElem this]

theorem limit_length (m : Simplex S K) (dim : Nat) (s x : List K) (h : limit m dim s = some x) :
    x.length = dim := by
  by_cases hex : ∃ n, Converged m s n
  · obtain ⟨n, hn⟩ := hex
    rw [limit_eq m dim s n hn] at h
    rw [← Option.some.inj h]; simp
  · rw [limit_none m dim s (fun n hn => hex ⟨n, hn⟩)] at h
    cases h

/-- The search without threads succeeds exactly if the algorithm converges from one of its start
points.  The point it delivers is one of the saved points, each of which is saved together with the
electroweak VEV and the potential of its own; no saved point has a lower potential, unless the first
of them has none. -/
theorem C118_global (m : Simplex S K) (p : Potential K) (rnd : Nat → K) (maxSol : Nat)
    (ord : List K → List K) (hord : ∀ v, v.length = p.nVEV → p.order v = ok (ord v)) :
    ∃ rows point found, globalMin m p rnd maxSol [] = ok (rows, point, found) ∧
      rows.map (·.point) = ((startPoints rnd p.nVEV).filterMap (limit m p.nVEV)).take maxSol ∧
      (∀ r ∈ rows, r.vev = p.ewsb (ord r.point) ∧ r.value = p.veff (ord r.point)) ∧
      (found = true ↔ 0 < maxSol ∧ ∃ s ∈ startPoints rnd p.nVEV, ∃ n, Converged m s n) ∧
      (found = false → point = []) ∧
      (found = true → ∃ r ∈ rows, r.point = point ∧
        ((∀ first, rows.head? = some first → first.value ≠ .nan) →
          ∃ v, p.veff (ord point) = .fin v ∧
            ∀ q ∈ rows, ∀ w, p.veff (ord q.point) = .fin w → v ≤ w)) := by
  unfold globalMin
  rw [C118_solutions, bind_ok]
  generalize hsol : ((startPoints rnd p.nVEV).filterMap (limit m p.nVEV)).take maxSol = sols
  have hlen : ∀ x ∈ sols, x.length = p.nVEV := by
    intro x hx
    rw [← hsol] at hx
    obtain ⟨s, _, hs⟩ := List.mem_filterMap.1 (List.mem_of_mem_take hx)
    exact limit_length m p.nVEV s x hs
  have hrows : sols.mapM (row p) =
      ok (sols.map fun x => (⟨x, p.ewsb (ord x), p.veff (ord x)⟩ : Row K)) := by
    apply mapM_ok
    intro x hx
    have hl := hlen x hx
    unfold row
    rw [hord x hl, bind_ok, ← hl, range_mapM_at, bind_ok]
  rw [hrows, bind_ok, List.nil_append]
  have hpoints : (sols.map fun x => (⟨x, p.ewsb (ord x), p.veff (ord x)⟩ : Row K)).map (·.point) =
      sols := by rw [List.map_map]; exact List.map_id _
  have hvals : ∀ r ∈ sols.map fun x => (⟨x, p.ewsb (ord x), p.veff (ord x)⟩ : Row K),
      r.vev = p.ewsb (ord r.point) ∧ r.value = p.veff (ord r.point) := by
    intro r hr
    obtain ⟨x, _, rfl⟩ := List.mem_map.1 hr
    exact ⟨rfl, rfl⟩
  have hpl : ∀ r ∈ sols.map fun x => (⟨x, p.ewsb (ord x), p.veff (ord x)⟩ : Row K),
      r.point.length = p.nVEV := by
    intro r hr
    obtain ⟨x, hx, rfl⟩ := List.mem_map.1 hr
    exact hlen x hx
  have hex : (0 < maxSol ∧ ∃ s ∈ startPoints rnd p.nVEV, ∃ n, Converged m s n) ↔ sols ≠ [] := by
    rw [← hsol]
    constructor
    · rintro ⟨h0, s, hs, n, hn⟩ h
      have hmem := List.mem_filterMap.2 ⟨s, hs, limit_eq m p.nVEV s n hn⟩
      cases hl : (startPoints rnd p.nVEV).filterMap (limit m p.nVEV) with
      | nil => rw [hl] at hmem; cases hmem
      | cons a l =>
        rw [hl] at h
        obtain ⟨k, rfl⟩ : ∃ k, maxSol = k + 1 := ⟨maxSol - 1, by omega⟩
        simp at h
    · intro h
      obtain ⟨x, hx⟩ := List.exists_mem_of_ne_nil _ h
      refine ⟨?_, ?_⟩
      · by_contra h0
        have : maxSol = 0 := by omega
        rw [this] at h
        simp at h
      · obtain ⟨s, hs, hl⟩ := List.mem_filterMap.1 (List.mem_of_mem_take hx)
        refine ⟨s, hs, ?_⟩
        by_contra hno
        rw [limit_none m p.nVEV s (fun n hn => hno ⟨n, hn⟩)] at hl
        cases hl
  have hnil : (sols.map fun x => (⟨x, p.ewsb (ord x), p.veff (ord x)⟩ : Row K)) = [] ↔ sols = [] := by
    simp
  generalize (sols.map fun x => (⟨x, p.ewsb (ord x), p.veff (ord x)⟩ : Row K)) = rows at *
  cases rows with
  | nil =>
    refine ⟨[], [], false, rfl, hpoints, hvals, ?_, fun _ => rfl, fun h => by cases h⟩
    have : sols = [] := hnil.1 rfl
    rw [hex]
    simp [this]
  | cons r rs =>
    obtain ⟨b, v, h1, h2, h3, h4⟩ := lowest_spec r rs [r] 0 r (by simp)
    have h1' : lowest 0 r.value 1 rs = b := h1
    have h2' : (r :: rs)[b]? = some v := h2
    have hv : v ∈ r :: rs := List.mem_of_getElem? h2'
    have hch : choose p.nVEV (r :: rs) = ok (v.point, true) := by
      unfold choose
      dsimp only
      rw [h1']
      have : idx (r :: rs) b = ok v := by unfold idx; rw [h2']
      rw [this, bind_ok, ← hpl v hv, range_mapM_idx, bind_ok]
    rw [hch, bind_ok]
    refine ⟨r :: rs, v.point, true, rfl, hpoints, hvals, ?_, fun h => by (cases h), ?_⟩
    · rw [hex]
      have : sols ≠ [] := fun h => by have := hnil.2 h; cases this
      simp [this]
    · intro _
      refine ⟨v, hv, rfl, ?_⟩
      intro hfirst
      have hr := hfirst r rfl
      cases hval : r.value with
      | nan => exact absurd hval hr
      | fin x =>
        obtain ⟨y, hy, hyx, hall⟩ := h3 x hval
        refine ⟨y, by rw [← (hvals v hv).2]; exact hy, ?_⟩
        intro q hq w hw
        rcases List.mem_cons.1 hq with rfl | hq'
        · rw [(hvals q (by simp)).2, hw] at hval
          rw [Flt.fin.inj hval]; exact hyx
        · rw [← (hvals q hq).2] at hw
          exact hall q hq' w hw

/-- The search asks for 50 solutions when GSL is the only minimizer and for 20 when another one is
used as well, always with the same seed, and uses threads exactly as the caller wants. -/
theorem C118_number (use : Use) (mt : Bool) :
    call use mt = if use.gsl = true then
      some (5, if use.cmaes = false ∧ use.nlopt = false then 50 else 20, mt) else none := by
  rcases use with ⟨c, g, n⟩
  cases c <;> cases g <;> cases n <;> cases mt <;> rfl

/-! ## The evolution strategy -/

/-- The evolution strategy minimizes the potential of the first coordinates of its candidates, one
for each field with a VEV, and returns these coordinates of the best candidate: the potential at the
returned point is the value of the objective at the best candidate. -/
theorem C118_cmaes (strategy : (List K → Outcome (Flt K)) → List K → K → Outcome (List K × Int))
    (p : Potential K) (start best : List K) (status : Int) (ord : List K → List K)
    (hord : ∀ v, v.length = p.nVEV → p.order v = ok (ord v))
    (hrun : strategy (objective p) start 5 = ok (best, status))
    (hlen : best.length = start.length) (hs : p.nVEV ≤ start.length) :
    cmaes strategy p start = ok (best.take p.nVEV, status) ∧
    objective p best = ok (p.veff (ord (best.take p.nVEV))) := by
  have hat : ∀ k ∈ List.range p.nVEV, k < best.length := by
    intro k hk; have := List.mem_range.1 hk; omega
  have htake : (List.range p.nVEV).map (fun k => best.getD k 0) = best.take p.nVEV := by
    refine List.ext_getElem (by simp; omega) ?_
    intro i h1 h2
    simp at h1
    simp [List.getElem?_eq_getElem (by omega : i < best.length)]
  constructor
  · unfold cmaes
    rw [hrun, bind_ok]
    rw [mapM_ok (g := fun k => best.getD k 0), htake, bind_ok]
    intro k hk
    rw [at'_of_lt (hat k hk)]
    simp [List.getElem?_eq_getElem (hat k hk)]
  · unfold objective
    rw [mapM_ok (g := fun k => best.getD k 0), htake, bind_ok,
      hord _ (by simp; omega), bind_ok]
    intro k hk
    rw [idx_of_lt (hat k hk)]
    simp [List.getElem?_eq_getElem (hat k hk)]

/-- Coordinates beyond those of the fields with a VEV do not change the objective.  The tracer starts
the strategy with one coordinate for each scalar field of the model, so for every model with fewer
VEVs than scalar fields it searches along directions in which the objective is flat. -/
theorem C118_flat_directions (p : Potential K) (v w : List K) (hv : p.nVEV ≤ v.length)
    (hw : p.nVEV ≤ w.length) (h : v.take p.nVEV = w.take p.nVEV) :
    objective p v = objective p w ∧ (tracerStart p).length = p.nHiggs ∧ ∀ x ∈ tracerStart p, x = 0 := by
  refine ⟨?_, by simp [tracerStart], by simp [tracerStart]⟩
  unfold objective
  have : ∀ u : List K, p.nVEV ≤ u.length →
      (List.range p.nVEV).mapM (idx u) = ok (u.take p.nVEV) := by
    intro u hu
    rw [mapM_ok (g := fun k => u.getD k 0)]
    · congr 1
      refine List.ext_getElem (by simp; omega) ?_
      intro i h1 h2
      simp at h1
      simp [List.getElem?_eq_getElem (by omega : i < u.length)]
    · intro k hk
      have : k < u.length := by have := List.mem_range.1 hk; omega
      rw [idx_of_lt this]
      simp [List.getElem?_eq_getElem this]
  rw [this v hv, this w hw, h]

/-- With a start vector that has fewer entries than there are VEVs the objective reads beyond the
candidate. -/
theorem C118_short_candidate (p : Potential K) (v : List K) (hv : v.length < p.nVEV) :
    objective p v = ub .outOfBounds := by
  have key : ∀ (n k : Nat), k ≤ v.length → v.length < k + n →
      (List.range' k n).mapM (idx v) = ub .outOfBounds := by
    intro n
    induction n with
    | zero => intro k h1 h2; omega
    | succ n ih =>
      intro k h1 h2
      rw [List.range'_succ, List.mapM_cons]
      by_cases hk : k < v.length
      · rw [idx_of_lt hk, bind_ok, ih (k + 1) (by omega) (by omega)]
        rfl
      · rw [idx_of_ge (by omega)]; rfl
  unfold objective
  rw [List.range_eq_range', key p.nVEV 0 (by omega) (by omega)]
  rfl

/-! ## Examples -/

/-- An algorithm whose simplex shrinks by a factor of ten in each iteration. -/
def shrink : Simplex (List Rat × Rat) Rat where
  init x := (x, 1)
  iterate s := ((s.1.map (· / 2), s.2 / 10), 0)
  size s := s.2
  x s k := s.1.getD k 0

example : fromStart shrink 2 [] [64, 32, 7] = ok ([2, 1], 0) := by decide +kernel

example : Converged shrink [64, 32] 5 := by
  refine ⟨by omega, by omega, fun k _ => rfl, ?_, ?_⟩
  · intro k h1 h2
    have : k = 1 ∨ k = 2 ∨ k = 3 ∨ k = 4 := by omega
    rcases this with rfl | rfl | rfl | rfl <;> decide +kernel
  · decide +kernel

/-- A potential of one field in a model with two. -/
def square : Potential Rat where
  nVEV := 1
  nHiggs := 2
  order v := ok (0 :: v)
  ewsb v := .fin (v.getD 1 0)
  veff v := .fin ((v.getD 1 0 - 1) ^ 2)

example : (match globalMin shrink square (fun n => 1 / (n + 2)) 3 [] with
    | ok (rows, point, found) => decide (rows.length = 3 ∧ found = true ∧ point = [0])
    | _ => false) = true := by decide +kernel

/-- Of two equally low rows the later one is taken. -/
example : lowest (K := Rat) 0 (.fin 1) 1 [⟨[], .nan, .fin 1⟩, ⟨[], .nan, .fin 2⟩] = 1 := by decide +kernel

example : objective square [3, 5] = objective square [3, 7] ∧
    objective square [] = ub .outOfBounds := by decide +kernel

end Verif.Minimizer.Runs
