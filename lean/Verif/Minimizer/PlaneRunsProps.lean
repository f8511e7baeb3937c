import Verif.Minimizer.PlaneRuns
import Verif.Minimizer.PlaneProps
import Verif.Minimizer.RunsProps

/-!
# The single searches in a plane (C132)
-/

set_option linter.unusedVariables false
set_option linter.unusedSectionVars false
set_option linter.unusedSimpArgs false

namespace Verif.Minimizer.PlaneRuns

open Outcome
open Runs (Simplex Row Potential)
open Runs.Spec (after)

/-! ## Specification -/

namespace PlaneSpec

variable {S K : Type} [Field K] [LinearOrder K]

/-- The algorithm started at the point has converged after `n` iterations, for the first time: no
iteration failed, the simplex is smaller than one millionth and it was not smaller before. -/
def Converged (m : Simplex S K) (start : List K) (n : Nat) : Prop :=
  0 < n ∧ n ≤ 600 ∧ (∀ k < n, (m.iterate (after m start k)).2 = 0) ∧
    (∀ k, 0 < k → k < n → ¬ m.size (after m start k) < 1 / 1000000) ∧
    m.size (after m start n) < 1 / 1000000

/-- A plane with a direction whose component at the index does not vanish. -/
structure Proper (p : Plane K) : Prop where
  normal : p.normal.length = p.nVEV
  point : p.point.length = p.nVEV
  index : p.index < p.nVEV
  nonzero : ∀ h : p.index < p.normal.length, p.normal[p.index] ≠ 0

/-- The point of the plane with the given other components. -/
def Lies (p : Plane K) (tilde w : List K) : Prop :=
  Minimizer.Spec.OnPlane p.normal p.point w ∧ w.eraseIdx p.index = tilde

/-- What a run delivers: the point to which it has converged, and zeros if it has not. -/
def Delivers (m : Simplex S K) (dim : Nat) (start x : List K) : Prop :=
  (∃ n, Converged m start n ∧ x = (List.range dim).map (m.x (after m start n))) ∨
  ((∀ n, ¬ Converged m start n) ∧ x = List.replicate dim 0)

/-- Which field belongs to a coordinate of the plane. -/
def field (index j : Nat) : Nat := if j < index then j else j + 1

end PlaneSpec

open PlaneSpec

variable {S K : Type} [Field K] [LinearOrder K] [IsStrictOrderedRing K]

/-! ## One run of the simplex algorithm -/

theorem loop_spec (m : Simplex S K) (start : List K) (tol : K) (htol : 0 < tol) :
    ∀ (left k : Nat), k + left + 1 = 600 →
      (∀ j < k, (m.iterate (after m start j)).2 = 0) →
      (∀ j, 0 < j → j ≤ k → ¬ m.size (after m start j) < tol) →
      ((Runs.loop m tol left (after m start k)).2 = 0 ∧
        ∃ n, (0 < n ∧ n ≤ 600 ∧ (∀ k < n, (m.iterate (after m start k)).2 = 0) ∧
          (∀ k, 0 < k → k < n → ¬ m.size (after m start k) < tol) ∧ m.size (after m start n) < tol) ∧
          (Runs.loop m tol left (after m start k)).1 = after m start n) ∨
      ((Runs.loop m tol left (after m start k)).2 ≠ 0 ∧
        ∀ n, ¬ (0 < n ∧ n ≤ 600 ∧ (∀ k < n, (m.iterate (after m start k)).2 = 0) ∧
          (∀ k, 0 < k → k < n → ¬ m.size (after m start k) < tol) ∧ m.size (after m start n) < tol)) := by
  have ht : ¬ (tol < 0) := not_lt.2 htol.le
  intro left
  induction left with
  | zero =>
    intro k hk hit hsz
    rw [Runs.loop_eq]
    by_cases h : (m.iterate (after m start k)).2 ≠ 0
    · right
      rw [if_pos h]
      refine ⟨h, fun n hn => ?_⟩
      by_cases hkn : k < n
      · exact h (hn.2.2.1 k hkn)
      · exact hsz n hn.1 (by omega) hn.2.2.2.2
    · have h0 : (m.iterate (after m start k)).2 = 0 := by simpa using h
      rw [if_neg h]
      by_cases hs : m.size (m.iterate (after m start k)).1 < tol
      · left
        rw [if_neg (by rw [Runs.testSize, if_neg ht, if_pos hs]; decide)]
        refine ⟨by rw [Runs.testSize, if_neg ht, if_pos hs], k + 1, ?_, rfl⟩
        refine ⟨by omega, by omega, fun j hj => ?_, fun j hj0 hj => hsz j hj0 (by omega), hs⟩
        rcases Nat.lt_succ_iff_lt_or_eq.1 hj with h1 | h1
        · exact hit j h1
        · rw [h1]; exact h0
      · right
        have ht2 : Runs.testSize (m.size (m.iterate (after m start k)).1) tol = -2 := by
          rw [Runs.testSize, if_neg ht, if_neg hs]
        rw [if_pos ht2]
        refine ⟨by simp only [ht2]; decide, fun n hn => ?_⟩
        by_cases hkn : n ≤ k
        · exact hsz n hn.1 hkn hn.2.2.2.2
        · have : n = k + 1 := by have := hn.2.1; omega
          subst this
          exact hs hn.2.2.2.2
  | succ left ih =>
    intro k hk hit hsz
    rw [Runs.loop_eq]
    by_cases h : (m.iterate (after m start k)).2 ≠ 0
    · right
      rw [if_pos h]
      refine ⟨h, fun n hn => ?_⟩
      by_cases hkn : k < n
      · exact h (hn.2.2.1 k hkn)
      · exact hsz n hn.1 (by omega) hn.2.2.2.2
    · have h0 : (m.iterate (after m start k)).2 = 0 := by simpa using h
      rw [if_neg h]
      have hit' : ∀ j < k + 1, (m.iterate (after m start j)).2 = 0 := by
        intro j hj
        rcases Nat.lt_succ_iff_lt_or_eq.1 hj with h1 | h1
        · exact hit j h1
        · rw [h1]; exact h0
      by_cases hs : m.size (m.iterate (after m start k)).1 < tol
      · left
        rw [if_neg (by rw [Runs.testSize, if_neg ht, if_pos hs]; decide)]
        refine ⟨by rw [Runs.testSize, if_neg ht, if_pos hs], k + 1, ?_, rfl⟩
        exact ⟨by omega, by omega, hit', fun j hj0 hj => hsz j hj0 (by omega), hs⟩
      · have ht2 : Runs.testSize (m.size (m.iterate (after m start k)).1) tol = -2 := by
          rw [Runs.testSize, if_neg ht, if_neg hs]
        rw [if_pos ht2]
        refine ih (k + 1) (by omega) hit' ?_
        intro j hj0 hj
        rcases Nat.le_succ_iff.1 hj with h1 | h1
        · exact hsz j hj0 h1
        · rw [h1]; exact hs

/-- A run appends the point to which it has converged within 600 iterations and reports success, or
appends zeros and reports failure. -/
theorem C132_run (m : Simplex S K) (dim : Nat) (sol start : List K) (hd : 0 < dim) (hs : start.length = dim) :
    ∃ x status, fromStart m dim sol start = ok (sol ++ x, status) ∧ x.length = dim ∧
      Delivers m dim start x ∧ (status = 0 ↔ ∃ n, Converged m start n) := by
  have hx : (List.range dim).mapM (at' start) = ok start := by rw [← hs]; exact Runs.range_mapM_at start
  have htol : (1 : K) / 10 ^ 6 = 1 / 1000000 := by norm_num
  unfold fromStart
  rw [hx, bind_ok, if_neg (by omega), htol]
  dsimp only
  rcases loop_spec m start (1 / 1000000) (by positivity) (600 - 1) 0 (by omega) (fun j hj => absurd hj (by omega))
    (fun j h1 h2 => absurd h2 (by omega)) with ⟨h0, n, hn, hst⟩ | ⟨h0, hno⟩
  · have h0' : (Runs.loop m (1 / 1000000) (600 - 1) (m.init start)).2 = 0 := h0
    have hst' : (Runs.loop m (1 / 1000000) (600 - 1) (m.init start)).1 = after m start n := hst
    refine ⟨(List.range dim).map (m.x (after m start n)), 0, ?_, by simp, Or.inl ⟨n, hn, rfl⟩, ?_⟩
    · rw [if_pos h0', hst', h0']
    · exact ⟨fun _ => ⟨n, hn⟩, fun _ => rfl⟩
  · have h0' : ¬ (Runs.loop m (1 / 1000000) (600 - 1) (m.init start)).2 = 0 := h0
    refine ⟨List.replicate dim 0, _, by rw [if_neg h0'], by simp, Or.inr ⟨hno, rfl⟩, ?_⟩
    exact ⟨fun h => absurd h h0', fun ⟨n, hn⟩ => absurd hn (hno n)⟩

/-- The property fails for models with one field: the plane has no dimension, for which the library makes
no minimiser. -/
theorem C132_one_field_fails (m : Simplex S K) (sol start : List K) :
    fromStart m 0 sol start = ub .outOfBounds := rfl

theorem lies_of (p : Plane K) (hp : Proper p) (tilde : List K) (ht : tilde.length + 1 = p.nVEV) :
    ∃ w, transformCoordinates p tilde = ok w ∧ Lies p tilde w ∧ w.length = p.nVEV := by
  obtain ⟨w, h1, h2, -⟩ := C39_transform p tilde hp.normal hp.point hp.index hp.nonzero ht
  exact ⟨w, h1, h2, by rw [h2.1.1, hp.point]⟩

/-- The minimisers see the potential on the plane only. -/
theorem C132_objective (p : Plane K) (hp : Proper p) (pot : Potential K) (ord : List K → List K)
    (hord : ∀ v, v.length = p.nVEV → pot.order v = ok (ord v)) (v : List K) (hv : v.length + 1 = p.nVEV) :
    ∃ w, Lies p v w ∧ objective p pot v = ok (pot.veff (ord w)) := by
  obtain ⟨w, h1, h2, h3⟩ := lies_of p hp v hv
  refine ⟨w, h2, ?_⟩
  unfold objective
  have : p.nVEV - 1 = v.length := by omega
  rw [this, Runs.range_mapM_idx, bind_ok, h1, bind_ok, hord w h3, bind_ok]

/-! ## The search with GSL -/

theorem startPoint_spec (rnd : Nat → K) (dim n : Nat) : (startPoint rnd dim n).length = dim ∧
    ∀ j x, (startPoint rnd dim n)[j]? = some x → x = -500 + 1000 * rnd (n * dim + j) := by
  refine ⟨by simp [startPoint], fun j x hx => ?_⟩
  unfold startPoint at hx
  rw [List.getElem?_map] at hx
  cases hj : (List.range dim)[j]? with
  | none => rw [hj] at hx; simp at hx
  | some j' =>
    have hjj : j' = j := by
      obtain ⟨_, h⟩ := List.getElem?_eq_some_iff.1 hj
      simpa using h.symm
    rw [hj, hjj] at hx
    simp only [Option.map_some, Option.some.injEq] at hx
    rw [← hx]
    ring

theorem tries_spec (step : Nat → Outcome (Row K)) (f : Nat → Row K) (hf : ∀ n, step n = ok (f n)) (minSol : Nat)
    (hm : 0 < minSol) : ∀ (left n : Nat) (saved : List (Row K)), n < minSol →
    tries step minSol left n saved = ok (min minSol (n + left + 1),
      saved ++ (List.range' n (min minSol (n + left + 1) - n)).map f) := by
  intro left
  induction left with
  | zero =>
    intro n saved hn
    unfold tries
    rw [hf, bind_ok]
    have : min minSol (n + 0 + 1) = n + 1 := by omega
    rw [this]
    have e : n + 1 - n = 1 := by omega
    rw [e]
    simp
  | succ left ih =>
    intro n saved hn
    unfold tries
    rw [hf, bind_ok]
    by_cases h : n + 1 = minSol
    · rw [if_pos h]
      have : min minSol (n + (left + 1) + 1) = n + 1 := by omega
      rw [this]
      have e : n + 1 - n = 1 := by omega
      rw [e]
      simp
    · rw [if_neg h]
      dsimp only
      rw [ih (n + 1) _ (by omega)]
      have e1 : n + 1 + left + 1 = n + (left + 1) + 1 := by omega
      have e2 : min minSol (n + (left + 1) + 1) - n = (min minSol (n + (left + 1) + 1) - (n + 1)) + 1 := by omega
      rw [e1, e2, List.range'_succ, List.map_cons, List.append_assoc]
      rfl

/-- What one try adds: the point of the plane that belongs to what the run from its start vector delivers,
with the electroweak VEV and the potential of this point. -/
theorem try_spec (m : Simplex S K) (p : Plane K) (hp : Proper p) (pot : Potential K) (hn : p.nVEV = pot.nVEV)
    (h2 : 2 ≤ pot.nVEV) (ord : List K → List K) (hord : ∀ v, v.length = pot.nVEV → pot.order v = ok (ord v))
    (rnd : Nat → K) (n : Nat) : ∃ x w, Delivers m (pot.nVEV - 1) (startPoint rnd (pot.nVEV - 1) n) x ∧ Lies p x w ∧
      w.length = pot.nVEV ∧
      try' m p pot rnd n = ok ⟨w, pot.ewsb (ord w), pot.veff (ord w)⟩ := by
  obtain ⟨x, st, h1, hl, hd, -⟩ := C132_run m (pot.nVEV - 1) [] (startPoint rnd (pot.nVEV - 1) n) (by omega)
    (startPoint_spec rnd _ n).1
  obtain ⟨w, hw1, hw2, hw3⟩ := lies_of p hp x (by omega)
  refine ⟨x, w, hd, hw2, by omega, ?_⟩
  have e : pot.nVEV - 1 + 1 = w.length := by omega
  unfold try'
  simp only [h1, bind_ok, List.nil_append, hw1, hord w (by omega), e, Runs.range_mapM_at]

/-- The search in the plane starts from random points with coordinates between -500 and 500 and adds one point
of the plane for each, as many as wanted but at most 601.  The point it delivers is one of them, together with
its own potential and electroweak VEV, and no other one has a lower potential, unless the first has none. -/
theorem C132_search (m : Simplex S K) (p : Plane K) (hp : Proper p) (pot : Potential K) (hn : p.nVEV = pot.nVEV)
    (h2 : 2 ≤ pot.nVEV) (ord : List K → List K) (hord : ∀ v, v.length = pot.nVEV → pot.order v = ok (ord v))
    (rnd : Nat → K) (minSol : Nat) (hm : 0 < minSol) :
    ∃ rows found, gslPlane m p pot rnd [] minSol = ok (rows, found) ∧ rows.length = min minSol 601 ∧
      (∀ (i : Nat) r, rows[i]? = some r → ∃ start x, start.length + 1 = pot.nVEV ∧
        (∀ j c, start[j]? = some c → c = -500 + 1000 * rnd (i * (pot.nVEV - 1) + j)) ∧
        Delivers m (pot.nVEV - 1) start x ∧ Lies p x r.point ∧ r.vev = pot.ewsb (ord r.point) ∧
        r.value = pot.veff (ord r.point)) ∧
      found.status = true ∧ (∃ r ∈ rows, found.minimum = r.point ∧ found.value = r.value ∧ found.vc = r.vev) ∧
      ((∀ first, rows.head? = some first → first.value ≠ .nan) → ∃ v, found.value = .fin v ∧
        ∀ q ∈ rows, ∀ w, q.value = .fin w → v ≤ w) := by
  have hex := fun n => try_spec m p hp pot hn h2 ord hord rnd n
  choose x w hd hl hlen htry using hex
  have ht := tries_spec (try' m p pot rnd) _ htry minSol hm 600 0 [] hm
  have e0 : min minSol (0 + 600 + 1) = min minSol 601 := by omega
  rw [e0] at ht
  have e1 : min minSol 601 - 0 = min minSol 601 := by omega
  rw [e1, List.nil_append] at ht
  set f : Nat → Row K := fun n => ⟨w n, pot.ewsb (ord (w n)), pot.veff (ord (w n))⟩ with hf
  set rows := (List.range' 0 (min minSol 601)).map f with hrows
  have hrl : rows.length = min minSol 601 := by simp [hrows]
  have hget : ∀ i r, rows[i]? = some r → r = f i := by
    intro i r hr
    rw [hrows, List.getElem?_map] at hr
    cases hi : (List.range' 0 (min minSol 601))[i]? with
    | none => rw [hi] at hr; simp at hr
    | some i' =>
      have : i' = i := by
        obtain ⟨hlt, h⟩ := List.getElem?_eq_some_iff.1 hi
        rw [List.getElem_range'] at h
        omega
      rw [hi, this] at hr
      simpa using hr.symm
  have hpl : ∀ r ∈ rows, r.point.length = pot.nVEV := by
    intro r hr
    rw [hrows] at hr
    obtain ⟨n, -, rfl⟩ := List.mem_map.1 hr
    exact hlen n
  obtain ⟨first, rest, hc⟩ : ∃ a l, rows = a :: l := by
    cases h : rows with
    | nil => rw [h] at hrl; simp at hrl; omega
    | cons a l => exact ⟨a, l, rfl⟩
  obtain ⟨b, v, l1, l2, l3, l4⟩ := Runs.lowest_spec first rest [first] 0 first (by simp)
  have l1' : Runs.lowest 0 first.value 1 rest = b := l1
  have l2' : (first :: rest)[b]? = some v := l2
  have hv : v ∈ rows := by rw [hc]; exact List.mem_of_getElem? l2'
  have hch : choose (pot.nVEV - 1) (min minSol 601) rows = ok ⟨true, v.value, v.vev, v.point⟩ := by
    unfold choose
    have t : rows.take (min minSol 601) = rows := by rw [← hrl, List.take_length]
    have i0 : idx rows 0 = ok first := by rw [hc]; rfl
    have ib : idx rows b = ok v := by unfold idx; rw [hc, l2']
    have d : rows.drop 1 = rest := by rw [hc]; rfl
    have e : pot.nVEV - 1 + 1 = v.point.length := by rw [hpl v hv]; omega
    rw [i0, bind_ok, t, d, l1', ib, bind_ok, e, Runs.range_mapM_idx, bind_ok]
  refine ⟨rows, ⟨true, v.value, v.vev, v.point⟩, ?_, hrl, ?_, rfl, ⟨v, hv, rfl, rfl, rfl⟩, ?_⟩
  · unfold gslPlane
    rw [ht, bind_ok, hch, bind_ok]
  · intro i r hr
    have := hget i r hr
    subst this
    obtain ⟨s1, s2⟩ := startPoint_spec rnd (pot.nVEV - 1) i
    exact ⟨startPoint rnd (pot.nVEV - 1) i, x i, by omega, s2, hd i, hl i, rfl, rfl⟩
  · intro hfirst
    have hr := hfirst first (by rw [hc]; rfl)
    cases hval : first.value with
    | nan => exact absurd hval hr
    | fin y =>
      obtain ⟨z, hz, hzy, hall⟩ := l3 y hval
      refine ⟨z, hz, ?_⟩
      intro q hq u hu
      rw [hc] at hq
      rcases List.mem_cons.1 hq with rfl | hq'
      · rw [hval] at hu
        rw [← Flt.fin.inj hu]; exact hzy
      · exact hall q hq' u hu

/-! ### Where the search goes wrong -/

/-- A minimiser that always fails. -/
def broken : Simplex Unit ℚ := ⟨fun _ => (), fun _ => ((), 1), fun _ => 1, fun _ _ => 0⟩

/-- A potential of two fields: the square of the distance of the second one from 7. -/
def parabola : Potential ℚ := ⟨2, 2, fun v => ok v, fun _ => .fin 0,
  fun v => .fin ((v.getD 1 0 - 7) * (v.getD 1 0 - 7))⟩

/-- The plane of all points whose first field is 1. -/
def wall : Plane ℚ := ⟨2, 0, [1, 0], [1, 0]⟩

theorem wall_proper : Proper wall := ⟨rfl, rfl, by decide, fun h => by simp [wall]⟩

/-- The property that a failure of all runs is reported fails: the search reports success, at the point of the
plane with zeros, where the potential is not stationary. -/
theorem C132_all_failed_fails : (∀ start n, ¬ Converged broken start n) ∧
    ∃ rows, gslPlane broken wall parabola (fun _ => 0) [] 1 = ok (rows, ⟨true, .fin 49, .fin 0, [1, 0]⟩) := by
  refine ⟨fun start n h => by have := h.2.2.1 0 h.1; simp [broken] at this, [⟨[1, 0], .fin 0, .fin 49⟩], ?_⟩
  have hr : fromStart broken 1 [] (startPoint (fun _ => (0 : ℚ)) 1 0) = ok ([0], 1) := by
    decide +kernel
  have ht : transformCoordinates wall [0] = ok [1, 0] := by decide +kernel
  have h1 : try' broken wall parabola (fun _ => (0 : ℚ)) 0 = ok ⟨[1, 0], .fin 0, .fin 49⟩ := by
    unfold try'
    show (fromStart broken 1 [] (startPoint (fun _ => (0 : ℚ)) 1 0) >>= _) = _
    rw [hr, bind_ok]
    show (transformCoordinates wall [0] >>= _) = _
    rw [ht, bind_ok]
    have : (([1, 0] : List ℚ).getD 1 0 - 7) * (([1, 0] : List ℚ).getD 1 0 - 7) = 49 := by norm_num
    simp only [parabola, bind_ok, this]
    rfl
  unfold gslPlane tries
  rw [h1, bind_ok]
  rfl

/-- The property that the lowest point found is delivered fails for a list of minima that is not empty at the
start: as many rows as were added are looked at, but from the beginning of the list. -/
theorem C132_saved_fails : ∃ rows, gslPlane broken wall parabola (fun _ => 0) [⟨[1, 50], .fin 0, .fin 1849⟩] 1 =
      ok (rows, ⟨true, .fin 1849, .fin 0, [1, 50]⟩) ∧
    (⟨[1, 0], .fin 0, .fin 49⟩ : Row ℚ) ∈ rows := by
  refine ⟨[⟨[1, 50], .fin 0, .fin 1849⟩, ⟨[1, 0], .fin 0, .fin 49⟩], ?_, by simp⟩
  have hr : fromStart broken 1 [] (startPoint (fun _ => (0 : ℚ)) 1 0) = ok ([0], 1) := by
    decide +kernel
  have ht : transformCoordinates wall [0] = ok [1, 0] := by decide +kernel
  have h1 : try' broken wall parabola (fun _ => (0 : ℚ)) 0 = ok ⟨[1, 0], .fin 0, .fin 49⟩ := by
    unfold try'
    show (fromStart broken 1 [] (startPoint (fun _ => (0 : ℚ)) 1 0) >>= _) = _
    rw [hr, bind_ok]
    show (transformCoordinates wall [0] >>= _) = _
    rw [ht, bind_ok]
    have : (([1, 0] : List ℚ).getD 1 0 - 7) * (([1, 0] : List ℚ).getD 1 0 - 7) = 49 := by norm_num
    simp only [parabola, bind_ok, this]
    rfl
  unfold gslPlane tries
  rw [h1, bind_ok]
  rfl

/-! ## NLopt -/

/-- The interval of one coordinate for a tree-level VEV. -/
def lowerOf (v : K) : K := if -|v| < -300 then -(3 / 2) * |v| else -300
def upperOf (v : K) : K := if 300 < |v| then 3 / 2 * v else 300

theorem bound_spec (lo up : List K) (j : Nat) (v : K) (hl : lo[j]? = some (-300)) (hu : up[j]? = some 300) :
    bound (lo, up) j v = ok (lo.set j (lowerOf v), up.set j (upperOf v)) := by
  obtain ⟨l1, l2⟩ := List.getElem?_eq_some_iff.1 hl
  obtain ⟨u1, u2⟩ := List.getElem?_eq_some_iff.1 hu
  unfold bound lowerOf upperOf
  simp only [at'_of_lt l1, at'_of_lt u1, bind_ok, l2, u2]
  congr 2
  · split_ifs
    · rfl
    · rw [← l2, List.set_getElem_self]
  · split_ifs
    · rfl
    · rw [← u2, List.set_getElem_self]

theorem bounds_aux (nVEV index : Nat) (tree : List K) (hi : index < nVEV) (ht : tree.length = nVEV) :
    ∀ n, n ≤ nVEV → ∃ lo up, (List.range n).foldlM (fun b i => do
      if i < index then
        let v ← at' tree i
        bound b i v
      else if index < i then
        let v ← at' tree i
        bound b (i - 1) v
      else ok b) (List.replicate (nVEV - 1) (-300), List.replicate (nVEV - 1) (300 : K)) = ok (lo, up) ∧
      lo.length = nVEV - 1 ∧ up.length = nVEV - 1 ∧
      ∀ j, j < nVEV - 1 →
        lo[j]? = some (if field index j < n then lowerOf (tree.getD (field index j) 0) else -300) ∧
        up[j]? = some (if field index j < n then upperOf (tree.getD (field index j) 0) else 300) := by
  intro n
  induction n with
  | zero =>
    intro _
    exact ⟨_, _, rfl, by simp, by simp, fun j hj => by simp [hj]⟩
  | succ n ih =>
    intro hn
    obtain ⟨lo, up, h1, h2, h3, h4⟩ := ih (by omega)
    have htn : n < tree.length := by omega
    have hg : tree[n] = tree.getD n 0 := by simp [List.getElem?_eq_getElem htn]
    have key : ∀ k, field index k = n → k < nVEV - 1 →
        (∀ j, field index j = n → j = k) →
        ∃ lo' up', bound (lo, up) k tree[n] = ok (lo', up') ∧ lo'.length = nVEV - 1 ∧ up'.length = nVEV - 1 ∧
        ∀ j, j < nVEV - 1 →
          lo'[j]? = some (if field index j < n + 1 then lowerOf (tree.getD (field index j) 0) else -300) ∧
          up'[j]? = some (if field index j < n + 1 then upperOf (tree.getD (field index j) 0) else 300) := by
      intro k hk hkl huniq
      obtain ⟨a, b⟩ := h4 k hkl
      rw [hk, if_neg (by omega)] at a b
      refine ⟨_, _, bound_spec lo up k _ a b, by simp [h2], by simp [h3], ?_⟩
      intro j hj
      by_cases hjk : j = k
      · subst hjk
        rw [hk, if_pos (by omega), if_pos (by omega), ← hg]
        constructor
        · rw [List.getElem?_set_self (by omega)]
        · rw [List.getElem?_set_self (by omega)]
      · have hne : field index j ≠ n := fun h => hjk (huniq j h)
        obtain ⟨c, d⟩ := h4 j hj
        rw [List.getElem?_set_ne (Ne.symm hjk), List.getElem?_set_ne (Ne.symm hjk), c, d]
        have : (field index j < n + 1) ↔ (field index j < n) := by omega
        simp only [this]
        exact ⟨trivial, trivial⟩
    rw [List.range_succ, List.foldlM_append, h1]
    simp only [bind_ok, List.foldlM_cons, List.foldlM_nil, at'_of_lt htn]
    rcases Nat.lt_trichotomy n index with h | h | h
    · obtain ⟨lo', up', k1, k2, k3, k4⟩ := key n (by simp [field, h]) (by omega)
        (fun j hj => by unfold field at hj; split_ifs at hj <;> omega)
      refine ⟨lo', up', ?_, k2, k3, k4⟩
      rw [if_pos h, k1]
      rfl
    · refine ⟨lo, up, ?_, h2, h3, ?_⟩
      · rw [if_neg (by omega), if_neg (by omega)]
        rfl
      · intro j hj
        obtain ⟨c, d⟩ := h4 j hj
        have hne : field index j ≠ n := by unfold field; split_ifs <;> omega
        rw [c, d]
        have : (field index j < n + 1) ↔ (field index j < n) := by omega
        simp only [this]
        exact ⟨trivial, trivial⟩
    · obtain ⟨lo', up', k1, k2, k3, k4⟩ := key (n - 1) (by unfold field; split_ifs <;> omega) (by omega)
        (fun j hj => by unfold field at hj; split_ifs at hj <;> omega)
      refine ⟨lo', up', ?_, k2, k3, k4⟩
      rw [if_neg (by omega), if_pos h, k1]
      rfl

/-- NLopt searches each coordinate of the plane in the interval of the field that belongs to it: from -300 to
300, and from -1.5 to 1.5 times the tree-level VEV if this is larger than 300. -/
theorem C132_bounds (nVEV index : Nat) (tree : List K) (hi : index < nVEV) (ht : tree.length = nVEV) :
    ∃ lo up, bounds nVEV index tree = ok (lo, up) ∧ lo.length = nVEV - 1 ∧ up.length = nVEV - 1 ∧
      ∀ j, j < nVEV - 1 → ∀ v, tree[field index j]? = some v →
        (|v| ≤ 300 → lo[j]? = some (-300) ∧ up[j]? = some 300) ∧
        (300 < v → lo[j]? = some (-(3 / 2 * v)) ∧ up[j]? = some (3 / 2 * v)) ∧
        (v < -300 → lo[j]? = some (3 / 2 * v) ∧ up[j]? = some (3 / 2 * v)) := by
  obtain ⟨lo, up, h1, h2, h3, h4⟩ := bounds_aux nVEV index tree hi ht nVEV (le_refl _)
  refine ⟨lo, up, h1, h2, h3, ?_⟩
  intro j hj v hv
  have hfj : field index j < nVEV := by unfold field; split_ifs <;> omega
  obtain ⟨a, b⟩ := h4 j hj
  have hgd : tree.getD (field index j) 0 = v := by rw [List.getD_eq_getElem?_getD, hv]; rfl
  rw [if_pos hfj, hgd] at a b
  rw [a, b]
  unfold lowerOf upperOf
  refine ⟨fun h => ?_, fun h => ?_, fun h => ?_⟩
  · rw [if_neg (by linarith), if_neg (by linarith)]
    exact ⟨rfl, rfl⟩
  · have habs : |v| = v := abs_of_pos (by linarith)
    rw [habs, if_pos (by linarith), if_pos h]
    refine ⟨?_, rfl⟩
    congr 1
    ring
  · have habs : |v| = -v := abs_of_neg (by linarith)
    rw [habs, if_pos (by linarith), if_pos (by linarith)]
    refine ⟨?_, rfl⟩
    congr 1
    ring

/-- The point that NLopt delivers lies in the plane, and success is reported exactly for the three codes of an
ordinary end.  An exception of the library is passed on. -/
theorem C132_nlopt (opt : (List K → Outcome (Flt K)) → List K → List K → List K → Outcome (List K × Flt K × Int))
    (p : Plane K) (hp : Proper p) (pot : Potential K) (hn : p.nVEV = pot.nVEV) (ord : List K → List K)
    (hord : ∀ v, v.length = pot.nVEV → pot.order v = ok (ord v)) (tree : List K) (ht : tree.length = pot.nVEV) :
    ∃ objective lo up, bounds pot.nVEV p.index tree = ok (lo, up) ∧
      (∀ v : List K, v.length + 1 = pot.nVEV → ∃ w, Lies p v w ∧ objective v = ok (pot.veff (ord w))) ∧
      (∀ e, opt objective lo up (List.replicate (pot.nVEV - 1) 0) = err e → nloptPlane opt p pot tree = err e) ∧
      ∀ x value code, opt objective lo up (List.replicate (pot.nVEV - 1) 0) = ok (x, value, code) →
        x.length + 1 = pot.nVEV → ∃ w success, Lies p x w ∧
          nloptPlane opt p pot tree = ok ⟨w, value, code, success⟩ ∧
          (success = true ↔ code = 1 ∨ code = 3 ∨ code = 4) := by
  obtain ⟨lo, up, hb, -⟩ := C132_bounds pot.nVEV p.index tree (hn ▸ hp.index) ht
  refine ⟨fun v => do
      let w ← transformCoordinates p v
      let o ← pot.order w
      ok (pot.veff o), lo, up, hb, ?_, ?_, ?_⟩
  · intro v hv
    obtain ⟨w, h1, h2, h3⟩ := lies_of p hp v (by omega)
    exact ⟨w, h2, by dsimp only; rw [h1, bind_ok, hord w (by omega), bind_ok]⟩
  · intro e he
    unfold nloptPlane
    rw [hb, bind_ok]
    dsimp only
    rw [he]
    rfl
  · intro x value code hr hx
    obtain ⟨w, h1, h2, h3⟩ := lies_of p hp x (by omega)
    refine ⟨w, decide (code = 1) || decide (code = 3) || decide (code = 4), h2, ?_, ?_⟩
    · unfold nloptPlane
      rw [hb, bind_ok]
      dsimp only
      rw [hr, bind_ok]
      dsimp only
      rw [h1, bind_ok]
    · simp [or_assoc]

/-! ## CMAES -/

theorem fill_spec (f : Nat → Outcome K) (g : Nat → K) : ∀ (n k : Nat) (s : List K), k + n ≤ s.length →
    (∀ i, k ≤ i → i < k + n → f i = ok (g i)) →
    ∃ t, (List.range' k n).foldlM (fun s i => do
      let v ← f i
      if i < s.length then ok (s.set i v) else err .outOfRange) s = ok t ∧ t.length = s.length ∧
      ∀ j, t[j]? = if k ≤ j ∧ j < k + n then some (g j) else s[j]? := by
  intro n
  induction n with
  | zero => intro k s _ _; exact ⟨s, rfl, rfl, fun j => by rw [if_neg (by omega)]⟩
  | succ n ih =>
    intro k s hk hf
    rw [List.range'_succ, List.foldlM_cons, hf k (le_refl _) (by omega), bind_ok, if_pos (by omega), bind_ok]
    obtain ⟨t, h1, h2, h3⟩ := ih (k + 1) (s.set k (g k)) (by simp; omega) (fun i h1 h2 => hf i (by omega) (by omega))
    refine ⟨t, h1, by simpa using h2, fun j => ?_⟩
    rw [h3 j]
    by_cases hj : j = k
    · subst hj
      rw [if_neg (by omega), if_pos (by omega), List.getElem?_set_self (by omega)]
    · rw [List.getElem?_set_ne (Ne.symm hj)]
      have : (k + 1 ≤ j ∧ j < k + 1 + n) ↔ (k ≤ j ∧ j < k + (n + 1)) := by omega
      simp only [this]

/-- CMAES starts at the broken vacuum, in the coordinates of the plane. -/
theorem C132_cmaes_start (nVEV index : Nat) (broken : List K) (hi : index < nVEV) (hb : broken.length = nVEV) :
    cmaesStart nVEV index broken = ok (broken.eraseIdx index) := by
  have hg : ∀ i, i < broken.length → at' broken i = ok (broken.getD i 0) := fun i h => by
    rw [at'_of_lt h]
    simp [List.getElem?_eq_getElem h]
  obtain ⟨a, a1, a2, a3⟩ := fill_spec (fun i => at' broken i) (fun i => broken.getD i 0) index 0
    (List.replicate (nVEV - 1) 0) (by simp; omega) (fun i _ h => hg i (by omega))
  obtain ⟨t, t1, t2, t3⟩ := fill_spec (fun i => at' broken (i + 1)) (fun i => broken.getD (i + 1) 0)
    (nVEV - 1 - index) index a (by rw [a2]; simp; omega) (fun i _ h => hg (i + 1) (by omega))
  have e : cmaesStart nVEV index broken = ok t := by
    unfold cmaesStart
    rw [List.range_eq_range', a1, bind_ok, t1]
  rw [e]
  congr 1
  apply List.ext_getElem?
  intro j
  rw [t3 j, a3 j, List.getElem?_eraseIdx]
  simp only [List.length_replicate] at a2
  by_cases h1 : j < index
  · rw [if_neg (by omega), if_pos (by omega), if_pos h1, List.getElem?_eq_getElem (by omega)]
    simp [List.getElem?_eq_getElem (show j < broken.length by omega)]
  · rw [if_neg h1]
    by_cases h2 : j < nVEV - 1
    · rw [if_pos (by omega), List.getElem?_eq_getElem (by omega)]
      simp [List.getElem?_eq_getElem (show j + 1 < broken.length by omega)]
    · rw [if_neg (by omega), if_neg (by omega), List.getElem?_eq_none (by simp; omega),
        List.getElem?_eq_none (by omega)]

/-- The evolution strategy sees the potential on the plane, starts at the given point with a width of 5, and its
best candidate is delivered as a point of the plane, with the status of the library. -/
theorem C132_cmaes (strategy : (List K → Outcome (Flt K)) → List K → K → Outcome (List K × Int))
    (p : Plane K) (hp : Proper p) (pot : Potential K) (start : List K) (hs : start.length + 1 = p.nVEV)
    (x : List K) (status : Int) (hr : strategy (objective p pot) start 5 = ok (x, status))
    (hx : x.length + 1 = p.nVEV) :
    ∃ w, Lies p x w ∧ cmaesPlane strategy p pot start = ok (w, status) := by
  obtain ⟨w, h1, h2, h3⟩ := lies_of p hp x hx
  refine ⟨w, h2, ?_⟩
  have e1 : p.nVEV - 1 = start.length := by omega
  have e2 : start.length = x.length := by omega
  unfold cmaesPlane
  rw [e1, Runs.range_mapM_at, bind_ok, hr, bind_ok, e2, Runs.range_mapM_at, bind_ok, h1, bind_ok]

/-- The hypotheses can be met. -/
example : Proper wall ∧ wall.nVEV = parabola.nVEV ∧ 2 ≤ parabola.nVEV ∧
    ∀ v, v.length = parabola.nVEV → parabola.order v = ok v := ⟨wall_proper, rfl, by decide, fun _ _ => rfl⟩

end Verif.Minimizer.PlaneRuns
