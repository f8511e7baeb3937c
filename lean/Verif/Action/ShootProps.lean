import Mathlib.Analysis.SpecialFunctions.Log.Basic
import Mathlib.Analysis.Complex.ExponentialBounds
import Mathlib.Tactic.Linarith
import Mathlib.Tactic.Ring
import Mathlib.Tactic.FieldSimp
import Mathlib.Tactic.Positivity
import Mathlib.Tactic.NormNum
import Verif.Action.Shoot

/-!
# C69: undershoot and overshoot
-/

set_option linter.unusedSectionVars false
set_option linter.unusedSimpArgs false

namespace Verif.Action

variable {K : Type} [Field K] [LinearOrder K]

/-! ## One trajectory -/

theorem integrateLoop_spec (next : Pt K → K → Pt K × K) (error L : K) (fuel it : Nat)
    (done : List (Pt K)) (p : Pt K) (step : K) :
    ∃ new last, integrateLoop next error L fuel it done p step = (new ++ done, last) ∧
      new.length ≤ fuel ∧ (new.length < fuel → goOn error L (it + new.length) last = false) ∧
      (∀ k < new.length, ∃ q, new.reverse[k]? = some q ∧ goOn error L (it + k) q = true) := by
  induction fuel generalizing it done p step with
  | zero => exact ⟨[], p, rfl, le_rfl, fun h => absurd h (by simp), fun k h => absurd h (by simp)⟩
  | succ fuel ih =>
    rw [integrateLoop]
    by_cases h : goOn error L it p = true
    · rw [if_pos h]
      obtain ⟨new, last, e, h1, h2, h3⟩ := ih (it + 1) (p :: done) (next p step).1 (next p step).2
      refine ⟨new ++ [p], last, by rw [e]; simp, by simp; omega, fun h' => ?_, fun k hk => ?_⟩
      · have := h2 (by simp at h'; omega)
        simpa [Nat.add_assoc, Nat.add_comm] using this
      · rcases k with _ | k
        · exact ⟨p, by simp, by simpa using h⟩
        · obtain ⟨q, hq, hg⟩ := h3 k (by simp at hk; omega)
          refine ⟨q, by simpa using hq, ?_⟩
          rwa [show it + (k + 1) = it + 1 + k by omega]
    · rw [if_neg h]
      refine ⟨[], p, rfl, by simp, fun _ => by simpa using h, fun k hk => absurd hk (by simp)⟩

/-- A trajectory has between seven points (six after an undershoot, whose last point is dropped) and two more
than the allowed number of steps. -/
theorem C69_length (next : Pt K → K → Pt K × K) (error L : K) (maxiter : Nat) (h5 : 5 ≤ maxiter)
    (p0 p1 : Pt K) :
    let r := integrate next error L maxiter p0 p1
    (r.2 = .undershoot → 6 ≤ r.1.length ∧ r.1.length ≤ maxiter + 1) ∧
    (r.2 ≠ .undershoot → 7 ≤ r.1.length ∧ r.1.length ≤ maxiter + 2) ∧
    r.1[0]? = some p0 ∧ r.1[1]? = some p1 := by
  obtain ⟨new, last, e, h1, h2, h3⟩ := integrateLoop_spec next error L maxiter 0 [p0] p1 (p1.rho / 100)
  have hlen : 5 ≤ new.length := by
    by_contra h
    have := h2 (by omega)
    simp only [goOn, zero_add, Bool.or_eq_false_iff, decide_eq_false_iff_not] at this
    omega
  have hp1 : ∀ (fuel it : Nat) (done : List (Pt K)) (p : Pt K) (step : K) (new : List (Pt K)) (last : Pt K),
      integrateLoop next error L fuel it done p step = (new ++ done, last) → 0 < new.length →
      new.reverse[0]? = some p := by
    intro fuel it done p step new last he hn
    rcases fuel with _ | fuel
    · simp only [integrateLoop, Prod.mk.injEq] at he
      have := congrArg List.length he.1
      rw [List.length_append] at this; omega
    · rw [integrateLoop] at he
      by_cases h : goOn error L it p = true
      · rw [if_pos h] at he
        obtain ⟨n2, l2, e2, -⟩ := integrateLoop_spec next error L fuel (it + 1) (p :: done)
          (next p step).1 (next p step).2
        rw [e2] at he
        have h4 : n2 ++ p :: done = new ++ done := congrArg Prod.fst he
        have h5 : (n2 ++ [p]) ++ done = new ++ done := by simpa using h4
        rw [← List.append_cancel_right h5]; simp
      · rw [if_neg h] at he
        have := congrArg (fun x => x.1.length) he
        simp only [List.length_append] at this; omega
  have hq := hp1 _ _ _ _ _ _ _ e (by omega)
  have hrev : ∀ q : Pt K, (new ++ [p0]).reverse = p0 :: new.reverse := by intro q; simp
  intro r
  have hr : r = (if classify error L last = .undershoot then (new ++ [p0]).reverse
      else (last :: (new ++ [p0])).reverse, classify error L last) := by
    simp only [r, integrate, e]
  rw [hr]
  have hnr : new.reverse ≠ [] := by
    intro h; have := congrArg List.length h; simp at this; subst this; simp at hlen
  refine ⟨fun h => ?_, fun h => ?_, ?_, ?_⟩
  · simp only at h
    rw [if_pos h]; simp; omega
  · simp only at h
    rw [if_neg h]; simp; omega
  · by_cases h : classify error L last = .undershoot
    · simp only [if_pos h, hrev p0]; simp
    · simp only [if_neg h]; simp
  · by_cases h : classify error L last = .undershoot
    · simp only [if_pos h, hrev p0]; simpa using hq
    · simp only [if_neg h, List.reverse_cons, hrev p0]
      rw [List.getElem?_append_left (by simp; omega)]
      simpa using hq

/-- All points of the trajectory after the first steps, up to the one that ends it, move forward and have not passed
the false vacuum; the last point ends the integration, unless the steps are used up. -/
theorem C69_points (next : Pt K → K → Pt K × K) (error L : K) (maxiter : Nat) (p0 p1 : Pt K) :
    ∃ body last, (∀ k, 5 ≤ k → ∀ q, body[k]? = some q →
        Flt.gt q.v (.fin error) = true ∧ Flt.lt (q.l.map fun x => (x - L) / L) (.fin error) = true) ∧
      integrate next error L maxiter p0 p1
        = (if classify error L last = .undershoot then p0 :: body else p0 :: body ++ [last],
          classify error L last) ∧
      (body.length = maxiter ∨ (5 ≤ body.length ∧
        (Flt.gt last.v (.fin error) = false ∨
          Flt.lt (last.l.map fun x => (x - L) / L) (.fin error) = false))) := by
  obtain ⟨new, last, e, h1, h2, h3⟩ := integrateLoop_spec next error L maxiter 0 [p0] p1 (p1.rho / 100)
  refine ⟨new.reverse, last, fun k hk q hq => ?_, ?_, ?_⟩
  · have hlt : k < new.length := by
      have := (List.getElem?_eq_some_iff.1 hq).1
      simpa using this
    obtain ⟨q', hq', hg⟩ := h3 k hlt
    rw [hq] at hq'
    obtain rfl : q = q' := by simpa using hq'
    simp only [goOn, zero_add, Bool.or_eq_true, Bool.and_eq_true, decide_eq_true_eq] at hg
    rcases hg with hg | hg
    · exact hg
    · omega
  · simp only [integrate, e]
    congr 1
    by_cases h : classify error L last = .undershoot
    · simp [if_pos h]
    · simp [if_neg h]
  · rcases Nat.lt_or_eq_of_le h1 with h | h
    · right
      have := h2 h
      simp only [goOn, zero_add, Bool.or_eq_false_iff, decide_eq_false_iff_not, Bool.and_eq_false_iff,
        not_lt] at this
      exact ⟨by simpa using this.2, this.1⟩
    · left; simpa using h

/-- The classes in terms of the last point, for numbers. -/
theorem C69_classes (error L rho l v : K) (a : Flt K) :
    let c := classify error L ⟨rho, .fin l, .fin v, a⟩
    (c = .converged ↔ |v| ≤ error ∧ |l - L| / L ≤ error) ∧
    (c = .undershoot ↔ ¬ (|v| ≤ error ∧ |l - L| / L ≤ error) ∧ v ≤ error) ∧
    (c = .overshoot ↔ ¬ (|v| ≤ error ∧ |l - L| / L ≤ error) ∧ error < v ∧ error ≤ (l - L) / L) ∧
    (c = .lost ↔ ¬ (|v| ≤ error ∧ |l - L| / L ≤ error) ∧ error < v ∧ (l - L) / L < error) := by
  simp only [classify, Flt.map, Bool.and_eq_true, Flt.le_fin, Flt.ge_fin]
  by_cases h1 : |v| ≤ error ∧ |l - L| / L ≤ error
  · simp [h1]
  · by_cases h2 : v ≤ error
    · simp [h1, h2, not_lt.2 h2]
    · by_cases h3 : error ≤ (l - L) / L
      · simp [h1, h2, h3, not_le.1 h2, not_lt.2 h3]
      · simp [h1, h2, h3, not_le.1 h2, not_le.1 h3]

/-- Which of the classes can end a trajectory with steps to spare: not the last one. -/
theorem C69_no_lost (error L : K) (last : Pt K) (l v : K) (hl : last.l = .fin l) (hv : last.v = .fin v)
    (hb : Flt.gt last.v (.fin error) = false ∨
      Flt.lt (last.l.map fun x => (x - L) / L) (.fin error) = false) :
    classify error L last ≠ .lost := by
  obtain ⟨rho, l', v', a⟩ := last
  simp only at hl hv
  subst hl hv
  have := (C69_classes error L rho l v a).2.2.2
  intro hc
  obtain ⟨-, h1, h2⟩ := this.1 hc
  simp only [Flt.map] at hb
  rcases hb with hb | hb
  · rw [Bool.eq_false_iff] at hb
    exact hb (by simpa using h1)
  · rw [Bool.eq_false_iff] at hb
    exact hb (by simpa using h2)

/-- A trajectory that became NaN counts as an overshoot, so that the search goes on with larger release points;
`OvershotOnce` is not set. -/
theorem C69_nan_fails (error L rho : K) (l a : Flt K) :
    (Flt.ge (l.map fun x => (x - L) / L) (.fin error) = false →
      classify error L ⟨rho, l, .nan, a⟩ = .lost) ∧
    classify error L ⟨rho, .nan, .nan, a⟩ = .lost := by
  constructor
  · intro h
    cases l with
    | nan => simp [classify, Flt.map]
    | fin x =>
      simp only [Flt.map] at h
      simp [classify, Flt.map, h]
  · simp [classify, Flt.map]

/-! ## The minimum and the upper limit -/

/-- The minimum found is the end of a step of less than 1e-8 of the path from where the second derivative is
positive, in the first hundredth of the path. -/
theorem C69_minimum (threshold : K → Option K) (dV d2V : K → K) (L o lmin : K) (t : Option K)
    (h : backwards threshold dV d2V L (some o) = .ok (lmin, t)) :
    (lmin = -1 * L / 1000 ∧ t = none) ∨
    (0 < d2V lmin ∧ lmin ≤ L / 100 ∧ ∃ l, |(lmin - l) / L| < 1 / 10 ^ 8 ∧
      (lmin = l - dV l / d2V l ∨ lmin = l - dV l / 100)) := by
  have hd : ∀ (move : K → K) (n : Nat) (x r : K), descend move d2V L n x = some r →
      0 < d2V r ∧ r ≤ L / 100 ∧ ∃ l, |(r - l) / L| < 1 / 10 ^ 8 ∧ r = l - move l := by
    intro move n
    induction n with
    | zero => intro x r h; simp [descend] at h
    | succ n ih =>
      intro x r h
      simp only [descend] at h
      split_ifs at h with hc
      · obtain rfl : x - move x = r := by simpa using h
        exact ⟨hc.2.1, hc.2.2, x, hc.1, rfl⟩
      · exact ih _ _ h
  unfold backwards at h
  simp only at h
  split at h
  · rename_i l' hfound
    simp only [Outcome.ok.injEq, Prod.mk.injEq] at h
    obtain ⟨rfl, -⟩ := h
    right
    split at hfound
    · rename_i l'' h1
      obtain rfl : l'' = l' := by simpa using hfound
      obtain ⟨a, b, l, c, d⟩ := hd _ _ _ _ h1
      exact ⟨a, b, l, c, Or.inl d⟩
    · obtain ⟨a, b, l, c, d⟩ := hd _ _ _ _ hfound
      exact ⟨a, b, l, c, Or.inr d⟩
  · simp only [Outcome.ok.injEq, Prod.mk.injEq] at h
    exact Or.inl ⟨h.1.symm, h.2.symm⟩

/-- The threshold between the two analytic starts belongs to the minimum of the previous solution, not to the one
just found; on a new object an uninitialised variable is read. -/
theorem C69_threshold_fails (threshold : K → Option K) (dV d2V : K → K) (L : K) :
    (descend (fun l => dV l / d2V l) d2V L 100 0).isSome = true →
      backwards threshold dV d2V L none = .ub .uninitialised ∧
      ∀ o, ∃ lmin, descend (fun l => dV l / d2V l) d2V L 100 0 = some lmin ∧
        backwards threshold dV d2V L (some o) = .ok (lmin, threshold o) := by
  intro h
  obtain ⟨lmin, hl⟩ := Option.isSome_iff_exists.1 h
  refine ⟨by simp [backwards, hl], fun o => ⟨lmin, hl, by simp [backwards, hl]⟩⟩

example : (descend (fun l : ℚ => (l - 1 / 100) / 1) (fun _ => 1) 10 100 0).isSome = true := by
  decide +kernel

/-- The upper limit of the search is the first of a thousand points where the potential is above that of the false
vacuum, or where the gradient is negative at the position less the minimum; the end of the path if there is
none. -/
theorem C69_upper_limit (V dV : K → K) (lmin L : K) :
    (∃ j, 1 ≤ j ∧ j ≤ 1000 ∧ scanMax V dV lmin L 1000 0 = lmin + (L - lmin) * (j : Nat) / 1000 ∧
      (0 < V (lmin + (L - lmin) * (j : Nat) / 1000) ∨ dV ((L - lmin) * (j : Nat) / 1000) < 0) ∧
      ∀ i, 1 ≤ i → i < j → V (lmin + (L - lmin) * (i : Nat) / 1000) ≤ 0 ∧
        0 ≤ dV ((L - lmin) * (i : Nat) / 1000)) ∨
    (scanMax V dV lmin L 1000 0 = L ∧ ∀ i, 1 ≤ i → i ≤ 1000 →
      V (lmin + (L - lmin) * (i : Nat) / 1000) ≤ 0 ∧ 0 ≤ dV ((L - lmin) * (i : Nat) / 1000)) := by
  have main : ∀ (n k : Nat), (∀ i, 1 ≤ i → i ≤ k → V (lmin + (L - lmin) * (i : Nat) / 1000) ≤ 0 ∧
        0 ≤ dV ((L - lmin) * (i : Nat) / 1000)) →
      (∃ j, 1 ≤ j ∧ j ≤ k + n ∧ scanMax V dV lmin L n k = lmin + (L - lmin) * (j : Nat) / 1000 ∧
      (0 < V (lmin + (L - lmin) * (j : Nat) / 1000) ∨ dV ((L - lmin) * (j : Nat) / 1000) < 0) ∧
      ∀ i, 1 ≤ i → i < j → V (lmin + (L - lmin) * (i : Nat) / 1000) ≤ 0 ∧
        0 ≤ dV ((L - lmin) * (i : Nat) / 1000)) ∨
      (scanMax V dV lmin L n k = L ∧ ∀ i, 1 ≤ i → i ≤ k + n →
      V (lmin + (L - lmin) * (i : Nat) / 1000) ≤ 0 ∧ 0 ≤ dV ((L - lmin) * (i : Nat) / 1000)) := by
    intro n
    induction n with
    | zero => intro k h; right; exact ⟨rfl, h⟩
    | succ n ih =>
      intro k h
      rw [scanMax]
      by_cases c1 : 0 < V (lmin + (L - lmin) * ((k + 1 : Nat) : K) / 1000)
      · rw [if_pos c1]
        left
        exact ⟨k + 1, by omega, by omega, rfl, Or.inl c1, fun i h1 h2 => h i h1 (by omega)⟩
      · rw [if_neg c1]
        by_cases c2 : dV ((L - lmin) * ((k + 1 : Nat) : K) / 1000) < 0
        · rw [if_pos c2]
          left
          exact ⟨k + 1, by omega, by omega, rfl, Or.inr c2, fun i h1 h2 => h i h1 (by omega)⟩
        · rw [if_neg c2]
          have := ih (k + 1) (fun i h1 h2 => by
            rcases Nat.lt_or_eq_of_le h2 with h3 | rfl
            · exact h i h1 (by omega)
            · exact ⟨not_lt.1 c1, not_lt.1 c2⟩)
          rwa [show k + 1 + n = k + (n + 1) by omega] at this
  have := main 1000 0 (fun i h1 h2 => by omega)
  rwa [Nat.zero_add] at this

/-- The gradient is looked at in the wrong place: with the minimum at `-1/10` and a potential that falls
only between `9/10` and `1`, a limit below is reported although no examined point has a negative gradient. -/
theorem C69_upper_limit_fails : ∃ (V dV : ℚ → ℚ) (lmin L : ℚ), (∀ l, V l ≤ 0) ∧
    (∀ i : Nat, i ≤ 1000 → i ≠ 1000 → 0 ≤ dV (lmin + (L - lmin) * i / 1000)) ∧
    scanMax V dV lmin L 1000 0 < L := by
  refine ⟨fun _ => 0, fun l => if l < 10 then 1 else -1, -1, 10, fun _ => le_rfl, fun i hi hi' => ?_, ?_⟩
  · have : (i : ℚ) < 1000 := by exact_mod_cast lt_of_le_of_ne hi hi'
    have h2 : (-1 : ℚ) + (10 - -1) * i / 1000 < 10 := by linarith
    simp only [if_pos h2]; norm_num
  · decide +kernel

/-! ## The binary search -/

section Generic

variable (shoot : K → K → Shot) (ex lg : K → K) (init L error : K)

/-- More passes do not change a finished search. -/
theorem search_mono (n m : Nat) (s s' : Search K) (e : Ending K) (he : e ≠ .notConverged)
    (h : search shoot ex lg init L error n s = (s', e)) :
    search shoot ex lg init L error (n + m) s = (s', e) := by
  induction n generalizing s with
  | zero =>
    simp only [search, Prod.mk.injEq] at h
    exact absurd h.2.symm he
  | succ n ih =>
    rw [show n + 1 + m = (n + m) + 1 by omega, search]
    rw [search] at h
    generalize pass shoot ex lg init L error s = r at h ⊢
    obtain ⟨s1, o⟩ := r
    cases o with
    | none => exact ih s1 h
    | some e' => exact h

/-- `OvershotOnce` is set only by an overshoot. -/
theorem search_over (hs : ∀ l d c n, shoot l d = some (c, n) → c ≠ .overshoot) (n : Nat) (s : Search K) :
    (search shoot ex lg init L error n s).1.over = s.over := by
  have hf : ∀ (s : Search K) c, c ≠ Conv.overshoot → (flags s c).over = s.over := by
    intro s c hc
    have : (c == Conv.overshoot) = false := by simpa using hc
    simp [flags, this]
  have hlog : ∀ s : Search K, (logPass shoot ex init s).1.over = s.over := by
    intro s
    unfold logPass
    simp only
    cases h : shoot (init + ex ((s.muMin + s.muMax) / 2)) (ex ((s.muMin + s.muMax) / 2)) with
    | none => rfl
    | some r =>
      obtain ⟨c, k⟩ := r
      have := hf s c (hs _ _ _ _ h)
      simp only
      split_ifs <;> exact this
  have hlin : ∀ s : Search K, (linearPass shoot lg init L error s).1.over = s.over := by
    intro s
    unfold linearPass
    simp only
    cases h : shoot ((s.lmax + s.lmin) / 2) ((s.lmax + s.lmin) / 2 - init) with
    | none => rfl
    | some r =>
      obtain ⟨c, k⟩ := r
      have := hf s c (hs _ _ _ _ h)
      simp only
      split_ifs <;> exact this
  have hp : ∀ s : Search K, (pass shoot ex lg init L error s).1.over = s.over := by
    intro s
    unfold pass
    by_cases hm : s.logMode = true
    · rw [if_pos hm]; exact hlog s
    · rw [if_neg hm]
      have := hlin s
      generalize linearPass shoot lg init L error s = r at this ⊢
      obtain ⟨s1, o⟩ := r
      cases o with
      | none =>
        simp only at this ⊢
        split_ifs
        · rw [hlog, this]
        · exact this
      | some e => exact this
  induction n generalizing s with
  | zero => rfl
  | succ n ih =>
    rw [search]
    have := hp s
    generalize pass shoot ex lg init L error s = r at this ⊢
    obtain ⟨s1, o⟩ := r
    cases o with
    | none => simp only at this ⊢; rw [ih, this]
    | some e => exact this

variable [IsStrictOrderedRing K]

/-- The logarithmic pass: what can happen when trajectories are separated by `mus`. -/
theorem logPass_spec (G : K → Prop) (mus : K)
    (H : ∀ mu, -200 ≤ mu → ∃ c n, shoot (init + ex mu) (ex mu) = some (c, n) ∧ 7 < n ∧
      (c = .converged → G (init + ex mu)) ∧ (c = .undershoot → mus ≤ mu) ∧
      (c ≠ .converged → c ≠ .undershoot → mu ≤ mus))
    (s : Search K) (h1 : -200 ≤ s.muMin) (h2 : s.muMin ≤ mus) (h3 : mus ≤ s.muMax) :
    (∃ s' l0, logPass shoot ex init s = (s', some (.converged l0)) ∧
      (G l0 ∨ ∃ mu, l0 = init + ex mu ∧ |mu - mus| ≤ 1 / 10 ^ 7)) ∨
    (∃ s', logPass shoot ex init s = (s', none) ∧ s'.logMode = s.logMode ∧ -200 ≤ s'.muMin ∧
      s'.muMin ≤ mus ∧ mus ≤ s'.muMax ∧ s'.muMax - s'.muMin = (s.muMax - s.muMin) / 2 ∧
      1 / 10 ^ 7 ≤ s.muMax - s.muMin) := by
  have hmid : -200 ≤ (s.muMin + s.muMax) / 2 := by linarith
  obtain ⟨c, n, e, hn, hG, hu, ho⟩ := H _ hmid
  unfold logPass
  simp only [e]
  have hn' : ¬ n ≤ 7 := by omega
  rw [if_neg hn']
  by_cases hc : c = .converged
  · rw [if_pos hc]
    exact Or.inl ⟨_, _, rfl, Or.inl (hG hc)⟩
  · rw [if_neg hc]
    have hf1 : (flags s c).muMax = s.muMax := rfl
    have hf2 : (flags s c).muMin = s.muMin := rfl
    rw [hf1, hf2, abs_of_nonneg (by linarith : 0 ≤ s.muMax - s.muMin)]
    by_cases hw : s.muMax - s.muMin < 1 / 10 ^ 7
    · rw [if_pos hw]
      refine Or.inl ⟨_, _, rfl, Or.inr ⟨_, rfl, ?_⟩⟩
      rw [abs_le]; constructor <;> linarith
    · rw [if_neg hw]
      right
      by_cases hcu : c = .undershoot
      · rw [if_pos hcu]
        refine ⟨_, rfl, rfl, h1, h2, hu hcu, ?_, not_lt.1 hw⟩
        simp only [flags]; ring
      · rw [if_neg hcu]
        refine ⟨_, rfl, rfl, hmid, ho hc hcu, h3, ?_, not_lt.1 hw⟩
        simp only [flags]; ring

theorem log_run (G : K → Prop) (mus : K)
    (H : ∀ mu, -200 ≤ mu → ∃ c n, shoot (init + ex mu) (ex mu) = some (c, n) ∧ 7 < n ∧
      (c = .converged → G (init + ex mu)) ∧ (c = .undershoot → mus ≤ mu) ∧
      (c ≠ .converged → c ≠ .undershoot → mu ≤ mus))
    (n : Nat) (s : Search K) (hm : s.logMode = true) (h1 : -200 ≤ s.muMin) (h2 : s.muMin ≤ mus)
    (h3 : mus ≤ s.muMax) (hw : s.muMax - s.muMin < 2 ^ n / 10 ^ 7) :
    ∃ s' l0, search shoot ex lg init L error (n + 1) s = (s', .converged l0) ∧
      (G l0 ∨ ∃ mu, l0 = init + ex mu ∧ |mu - mus| ≤ 1 / 10 ^ 7) := by
  induction n generalizing s with
  | zero =>
    rcases logPass_spec shoot ex init G mus H s h1 h2 h3 with ⟨s', l0, e, h⟩ | ⟨s', e, -, -, -, -, -, h⟩
    · exact ⟨s', l0, by simp only [search, pass, if_pos hm, e], h⟩
    · rw [pow_zero] at hw; linarith
  | succ n ih =>
    rcases logPass_spec shoot ex init G mus H s h1 h2 h3 with
      ⟨s', l0, e, h⟩ | ⟨s', e, a, b, c, d, f, -⟩
    · exact ⟨s', l0, by rw [search, pass, if_pos hm, e], h⟩
    · obtain ⟨s'', l0, e', h⟩ := ih s' (by rw [a, hm]) b c d (by
        rw [f]
        rw [pow_succ] at hw
        have : (2 : K) ^ n * 2 / 10 ^ 7 = 2 * (2 ^ n / 10 ^ 7) := by ring
        linarith)
      exact ⟨s'', l0, by rw [search, pass, if_pos hm, e]; exact e', h⟩

/-- The linear pass. -/
theorem linearPass_spec (G : K → Prop) (r : K) (hL : 0 < L)
    (H : ∀ l0, init ≤ l0 → ∃ c n, shoot l0 (l0 - init) = some (c, n) ∧ 7 < n ∧ c ≠ .lost ∧
      (c = .converged → G l0) ∧ (c = .undershoot → r ≤ l0) ∧ (c = .overshoot → l0 ≤ r))
    (s : Search K) (hm : s.logMode = false) (h0 : init ≤ s.lmin) (h1 : s.lmin ≤ r) (h2 : r ≤ s.lmax)
    (h3 : s.over = false → s.lmin = init) :
    (∃ s' l0, linearPass shoot lg init L error s = (s', some (.converged l0)) ∧
      (G l0 ∨ (s'.over = true ∧ |l0 - r| ≤ L * (error * (1 / 10 ^ 7))))) ∨
    (∃ s', linearPass shoot lg init L error s = (s', none) ∧ s'.logMode = false ∧ init ≤ s'.lmin ∧
      s'.lmin ≤ r ∧ r ≤ s'.lmax ∧ (s'.over = false → s'.lmin = init) ∧
      s'.lmax - s'.lmin = (s.lmax - s.lmin) / 2 ∧ s'.muMin = s.muMin ∧
      L * (error * (1 / 10 ^ 7)) ≤ s.lmax - s.lmin) ∨
    (∃ s', linearPass shoot lg init L error s = (s', none) ∧ s'.logMode = true ∧
      s'.muMin = s.muMin ∧ s'.muMax = lg (s.lmax - s.lmin) + 2 ∧ s.over = false ∧ s'.over = false ∧
      s.lmax - s.lmin < L * (error * (1 / 10 ^ 7))) := by
  have hmid : init ≤ (s.lmax + s.lmin) / 2 := by linarith
  obtain ⟨c, n, e, hn, hlost, hG, hu, ho⟩ := H _ hmid
  unfold linearPass
  simp only [e]
  have hn' : ¬ n ≤ 7 := by omega
  rw [if_neg hn']
  by_cases hc : c = .converged
  · rw [if_pos hc]
    exact Or.inl ⟨_, _, rfl, Or.inl (hG hc)⟩
  · rw [if_neg hc]
    have hf1 : (flags s c).lmax = s.lmax := rfl
    have hf2 : (flags s c).lmin = s.lmin := rfl
    rw [hf1, hf2]
    have hdiv : (s.lmax - s.lmin) / L < error * (1 / 10 ^ 7) ↔
        s.lmax - s.lmin < L * (error * (1 / 10 ^ 7)) := by
      rw [div_lt_iff₀ hL, mul_comm]
    by_cases hw : (s.lmax - s.lmin) / L < error * (1 / 10 ^ 7)
    · have hw' := hdiv.1 hw
      by_cases hov : (flags s c).over = true
      · rw [if_pos ⟨hw, hov⟩]
        refine Or.inl ⟨_, _, rfl, Or.inr ⟨hov, ?_⟩⟩
        rw [abs_le]; constructor <;> linarith
      · rw [if_neg (fun h => hov h.2), if_pos hw]
        right; right
        have hov' : (flags s c).over = false := by simpa using hov
        have hso : s.over = false := by
          simp only [flags, Bool.or_eq_false_iff] at hov'; exact hov'.1
        by_cases hcu : c = .undershoot
        · rw [if_pos hcu]; exact ⟨_, rfl, rfl, rfl, rfl, hso, hov', hw'⟩
        · rw [if_neg hcu]; exact ⟨_, rfl, rfl, rfl, rfl, hso, hov', hw'⟩
    · rw [if_neg (fun h => hw h.1), if_neg hw]
      right; left
      have hw' := not_lt.1 (fun h => hw (hdiv.2 h))
      by_cases hcu : c = .undershoot
      · rw [if_pos hcu]
        refine ⟨_, rfl, hm, h0, h1, hu hcu, ?_, ?_, rfl, hw'⟩
        · intro h
          simp only [flags, Bool.or_eq_false_iff] at h
          exact h3 h.1
        · simp only [flags]; ring
      · rw [if_neg hcu]
        have hco : c = .overshoot := by
          cases c <;> simp_all
        refine ⟨_, rfl, hm, hmid, ho hco, h2, ?_, ?_, rfl, hw'⟩
        · intro h
          simp only [flags, hco, Bool.or_eq_false_iff] at h
          exact absurd h.2 (by decide)
        · simp only [flags]; ring

/-- The whole search, when trajectories released below `r` overshoot and the ones above undershoot. -/
theorem search_run (G : K → Prop) (r mus W : K) (m : Nat) (hL : 0 < L)
    (H : ∀ l0, init ≤ l0 → ∃ c n, shoot l0 (l0 - init) = some (c, n) ∧ 7 < n ∧ c ≠ .lost ∧
      (c = .converged → G l0) ∧ (c = .undershoot → r ≤ l0) ∧ (c = .overshoot → l0 ≤ r))
    (Hlog : ∀ mu, -200 ≤ mu → ∃ c n, shoot (init + ex mu) (ex mu) = some (c, n) ∧ 7 < n ∧
      (c = .converged → G (init + ex mu)) ∧ (c = .undershoot → mus ≤ mu) ∧
      (c ≠ .converged → c ≠ .undershoot → mu ≤ mus))
    (hmu : -200 ≤ mus) (hlg : ∀ w, r - init ≤ w → L * (error * (1 / 10 ^ 7)) / 2 ≤ w →
      w < L * (error * (1 / 10 ^ 7)) → mus ≤ lg w + 2)
    (hW : ∀ w, r - init ≤ w → L * (error * (1 / 10 ^ 7)) / 2 ≤ w → w < L * (error * (1 / 10 ^ 7)) → lg w ≤ W) (hm : W + 2 + 200 < 2 ^ m / 10 ^ 7)
    (n : Nat) (s : Search K) (hlm : s.logMode = false) (h0 : init ≤ s.lmin) (h1 : s.lmin ≤ r)
    (h2 : r ≤ s.lmax) (h3 : s.over = false → s.lmin = init) (hmin : s.muMin = -200)
    (hlow : L * (error * (1 / 10 ^ 7)) / 2 ≤ s.lmax - s.lmin)
    (hw : s.lmax - s.lmin < 2 ^ n * (L * (error * (1 / 10 ^ 7)))) :
    ∃ s' l0, search shoot ex lg init L error (n + 1 + (m + 1)) s = (s', .converged l0) ∧
      (G l0 ∨ (s'.over = true ∧ |l0 - r| ≤ L * (error * (1 / 10 ^ 7))) ∨
        (r - init < L * (error * (1 / 10 ^ 7)) ∧
        ∃ mu, l0 = init + ex mu ∧ |mu - mus| ≤ 1 / 10 ^ 7)) := by
  have switch : ∀ (k : Nat) (s s' : Search K), s.logMode = false → s.lmin = init → r ≤ s.lmax → init ≤ r →
      linearPass shoot lg init L error s = (s', none) →
      s'.logMode = true → s'.muMin = -200 → s'.muMax = lg (s.lmax - s.lmin) + 2 →
      L * (error * (1 / 10 ^ 7)) / 2 ≤ s.lmax - s.lmin → s.lmax - s.lmin < L * (error * (1 / 10 ^ 7)) →
      ∃ s'' l0, search shoot ex lg init L error (k + 1 + (m + 1)) s = (s'', .converged l0) ∧
      (G l0 ∨ ∃ mu, l0 = init + ex mu ∧ |mu - mus| ≤ 1 / 10 ^ 7) := by
    intro k s s' hs hsl hr hir e hl hmn hmx hlw hwd
    have hb : mus ≤ s'.muMax := by rw [hmx]; exact hlg _ (by rw [hsl]; linarith) hlw hwd
    have hwid : s'.muMax - s'.muMin < 2 ^ m / 10 ^ 7 := by
      rw [hmx, hmn]
      have := hW (s.lmax - s.lmin) (by rw [hsl]; linarith) hlw hwd
      linarith
    rw [show k + 1 + (m + 1) = (m + 1 + k) + 1 by omega, search, pass, if_neg (by simp [hs]), e]
    simp only [if_pos hl]
    have hrun := log_run shoot ex lg init L error G mus Hlog m s' hl (by rw [hmn]) (by rw [hmn]; exact hmu)
      hb hwid
    obtain ⟨s2, l0, e2, hg⟩ := hrun
    -- the first pass of this run has already happened
    rw [search, pass, if_pos hl] at e2
    generalize logPass shoot ex init s' = q at e2 ⊢
    obtain ⟨s3, o⟩ := q
    cases o with
    | some e3 => exact ⟨s2, l0, e2, hg⟩
    | none =>
      simp only at e2 ⊢
      have := search_mono shoot ex lg init L error m (1 + k) s3 s2 (.converged l0) (by simp) e2
      exact ⟨s2, l0, by rw [show m + 1 + k = m + (1 + k) by omega]; exact this, hg⟩
  induction n generalizing s with
  | zero =>
    rcases linearPass_spec shoot lg init L error G r hL H s hlm h0 h1 h2 h3 with
      ⟨s', l0, e, h⟩ | ⟨s', e, -, -, -, -, -, -, -, h⟩ | ⟨s', e, a, b, c, d, d', f⟩
    · refine ⟨s', l0, ?_, ?_⟩
      · rw [show 0 + 1 + (m + 1) = (m + 1) + 1 by omega, search, pass, if_neg (by simp [hlm]), e]
      · rcases h with h | h
        · exact Or.inl h
        · exact Or.inr (Or.inl h)
    · rw [pow_zero, one_mul] at hw; linarith
    · obtain ⟨s'', l0, e', h⟩ := switch 0 s s' hlm (h3 d) h2 (h0.trans h1) e a (by rw [b, hmin]) c hlow f
      refine ⟨s'', l0, e', ?_⟩
      rcases h with h | h
      · exact Or.inl h
      · exact Or.inr (Or.inr ⟨by have := h3 d; linarith, h⟩)
  | succ n ih =>
    rcases linearPass_spec shoot lg init L error G r hL H s hlm h0 h1 h2 h3 with
      ⟨s', l0, e, h⟩ | ⟨s', e, a, b, c, d, f, g, g', gw⟩ | ⟨s', e, a, b, c, d, d', f⟩
    · refine ⟨s', l0, ?_, ?_⟩
      · rw [show n + 1 + 1 + (m + 1) = (n + 1 + (m + 1)) + 1 by omega, search, pass,
          if_neg (by simp [hlm]), e]
      · rcases h with h | h
        · exact Or.inl h
        · exact Or.inr (Or.inl h)
    · obtain ⟨s'', l0, e', h⟩ := ih s' a b c d f (by rw [g', hmin]) (by rw [g]; linarith) (by
        rw [g]
        rw [pow_succ] at hw
        linarith)
      refine ⟨s'', l0, ?_, h⟩
      rw [show n + 1 + 1 + (m + 1) = (n + 1 + (m + 1)) + 1 by omega, search, pass,
          if_neg (by simp [hlm]), e]
      simp only [a]
      exact e'
    · obtain ⟨s'', l0, e', h⟩ := switch (n + 1) s s' hlm (h3 d) h2 (h0.trans h1) e a (by rw [b, hmin]) c hlow f
      refine ⟨s'', l0, e', ?_⟩
      rcases h with h | h
      · exact Or.inl h
      · exact Or.inr (Or.inr ⟨by have := h3 d; linarith, h⟩)

end Generic

/-- Trajectories released below `r` overshoot, above it undershoot; only close to `r` they may converge. -/
def Separates (shoot : ℝ → ℝ → Shot) (init r tol : ℝ) : Prop :=
  ∀ l0, init ≤ l0 → ∃ c n, shoot l0 (l0 - init) = some (c, n) ∧ 7 < n ∧ c ≠ .lost ∧
    (c = .converged → |l0 - r| ≤ tol) ∧ (c = .undershoot → r ≤ l0) ∧ (c = .overshoot → l0 ≤ r)

/-- If a release point separates overshooting from undershooting trajectories, the search finds it within the 100
trajectories allowed: to the tolerance of a trajectory, to `1e-7 error` of the path, or, for one closer to
the minimum than this, to a relative precision of its distance of 1e-7. -/
theorem C69_release_point (shoot : ℝ → ℝ → Shot) (init lmax L error r tol : ℝ)
    (hs : Separates shoot init r tol) (hr : init + Real.exp (-200) ≤ r) (hr' : r ≤ lmax)
    (he : 1 / 10 ^ 7 ≤ error) (he' : error ≤ 1) (hL : 0 < L) (hL' : L ≤ 10 ^ 30)
    (hlo : L * (error * (1 / 10 ^ 7)) / 2 ≤ lmax - init) (hhi : lmax - init ≤ 2 * L) :
    ∃ s' l0, search shoot Real.exp Real.log init L error 100 (startSearch Real.log init lmax)
        = (s', .converged l0) ∧
      (|l0 - r| ≤ tol ∨ (s'.over = true ∧ |l0 - r| ≤ L * (error * (1 / 10 ^ 7))) ∨
        (r - init < L * (error * (1 / 10 ^ 7)) ∧ init < l0 ∧
          |Real.log (l0 - init) - Real.log (r - init)| ≤ 1 / 10 ^ 7)) := by
  have hpos : 0 < r - init := by have := Real.exp_pos (-200); linarith
  have hw0 : 0 < L * (error * (1 / 10 ^ 7)) := by
    have : 0 < error := by have : (0 : ℝ) < 1 / 10 ^ 7 := by positivity
                           linarith
    positivity
  have hW' : ∀ w, r - init ≤ w → L * (error * (1 / 10 ^ 7)) / 2 ≤ w → w < L * (error * (1 / 10 ^ 7)) →
      Real.log w ≤ 90 := by
    intro w h1 _ h2
    have hwp : 0 < w := by linarith
    have h3 : w ≤ 10 ^ 30 := by
      have h4 : error * (1 / 10 ^ 7) ≤ 1 := by
        have : (1 : ℝ) / 10 ^ 7 ≤ 1 := by norm_num
        nlinarith
      nlinarith
    rw [Real.log_le_iff_le_exp hwp]
    have h5 : (10 : ℝ) ^ 30 ≤ Real.exp 90 := by
      have h6 : (2.7 : ℝ) ≤ Real.exp 1 := by
        have := Real.exp_one_gt_d9
        linarith
      have h7 : Real.exp 90 = Real.exp 1 ^ 90 := by rw [← Real.exp_nat_mul]; norm_num
      rw [h7]
      calc (10 : ℝ) ^ 30 ≤ 2.7 ^ 90 := by norm_num
        _ ≤ _ := by gcongr
    linarith
  obtain ⟨s', l0, e, h⟩ := search_run shoot Real.exp Real.log init L error (fun l0 => |l0 - r| ≤ tol) r
    (Real.log (r - init)) 90 50 hL hs (by
      intro mu _
      have hx : init ≤ init + Real.exp mu := by have := Real.exp_pos mu; linarith
      obtain ⟨c, n, e, hn, hl, hc, hu, ho⟩ := hs (init + Real.exp mu) hx
      rw [add_sub_cancel_left] at e
      refine ⟨c, n, e, hn, hc, fun h => ?_, fun h1 h2 => ?_⟩
      · rw [Real.log_le_iff_le_exp hpos]; have := hu h; linarith
      · rw [Real.le_log_iff_exp_le hpos]
        have hco : c = .overshoot := by cases c <;> simp_all
        have := ho hco; linarith)
    (by rw [Real.le_log_iff_exp_le hpos]; linarith)
    (fun w h1 _ _ => by have := Real.log_le_log hpos h1; linarith) hW' (by norm_num) 48
    (startSearch Real.log init lmax) rfl (le_refl init)
    (by simp only [startSearch]; linarith) hr' (fun _ => rfl) rfl hlo (by
      simp only [startSearch]
      have h1 : L * (1 / 10 ^ 7 * (1 / 10 ^ 7)) ≤ L * (error * (1 / 10 ^ 7)) := by gcongr
      have h2 : 2 * L < 2 ^ 48 * (L * (1 / 10 ^ 7 * (1 / 10 ^ 7))) := by
        have : (2 : ℝ) ^ 48 * (L * (1 / 10 ^ 7 * (1 / 10 ^ 7))) = 2 * L * (2 ^ 47 / 10 ^ 14) := by ring
        rw [this]
        have : (1 : ℝ) < 2 ^ 47 / 10 ^ 14 := by norm_num
        nlinarith
      have h3 : (2 : ℝ) ^ 48 * (L * (1 / 10 ^ 7 * (1 / 10 ^ 7)))
          ≤ 2 ^ 48 * (L * (error * (1 / 10 ^ 7))) := by gcongr
      linarith)
  refine ⟨s', l0, e, ?_⟩
  rcases h with h | h | ⟨h1, mu, h2, h3⟩
  · exact Or.inl h
  · exact Or.inr (Or.inl h)
  · refine Or.inr (Or.inr ⟨h1, ?_, ?_⟩)
    · rw [h2]; have := Real.exp_pos mu; linarith
    · rw [h2, add_sub_cancel_left, Real.log_exp]; exact h3

/-- If no trajectory ever overshoots, there is no solution; the program nevertheless ends as converged. -/
theorem C69_never_overshoots_fails (init lmax L error : ℝ)
    (he : 1 / 10 ^ 7 ≤ error) (he' : error ≤ 1) (hL : 1 ≤ L) (hL' : L ≤ 10 ^ 30)
    (hlo : L * (error * (1 / 10 ^ 7)) / 2 ≤ lmax - init) (hhi : lmax - init ≤ 2 * L) :
    ∃ s' l0, search (fun _ _ => some (.undershoot, 8)) Real.exp Real.log init L error 100
        (startSearch Real.log init lmax) = (s', .converged l0) ∧ s'.over = false := by
  have hw0 : 1 / 10 ^ 14 ≤ L * (error * (1 / 10 ^ 7)) := by
    calc (1 : ℝ) / 10 ^ 14 = 1 * (1 / 10 ^ 7 * (1 / 10 ^ 7)) := by norm_num
      _ ≤ _ := by gcongr
  have hl0 : (0 : ℝ) < 1 / 10 ^ 14 := by positivity
  have hlog : ∀ w, L * (error * (1 / 10 ^ 7)) / 2 ≤ w → w < L * (error * (1 / 10 ^ 7)) →
      -200 ≤ Real.log w + 2 ∧ Real.log w ≤ 90 := by
    intro w h1 h2
    have hwp : 0 < w := by linarith
    have h6 : (2.7 : ℝ) ≤ Real.exp 1 := by
      have := Real.exp_one_gt_d9
      linarith
    constructor
    · have : -202 ≤ Real.log w := by
        rw [Real.le_log_iff_exp_le hwp]
        have h8 : Real.exp (-202) ≤ 1 / 10 ^ 15 := by
          rw [Real.exp_neg, inv_eq_one_div]
          apply one_div_le_one_div_of_le (by positivity)
          have h7 : Real.exp 202 = Real.exp 1 ^ 202 := by rw [← Real.exp_nat_mul]; norm_num
          rw [h7]
          calc (10 : ℝ) ^ 15 ≤ 2.7 ^ 202 := by norm_num
            _ ≤ _ := by gcongr
        have h9 : (1 : ℝ) / 10 ^ 15 ≤ 1 / 10 ^ 14 / 2 := by norm_num
        linarith
      linarith
    · have h3 : w ≤ 10 ^ 30 := by
        have h4 : error * (1 / 10 ^ 7) ≤ 1 := by
          have : (1 : ℝ) / 10 ^ 7 ≤ 1 := by norm_num
          nlinarith
        nlinarith
      rw [Real.log_le_iff_le_exp hwp]
      have h5 : (10 : ℝ) ^ 30 ≤ Real.exp 90 := by
        have h7 : Real.exp 90 = Real.exp 1 ^ 90 := by rw [← Real.exp_nat_mul]; norm_num
        rw [h7]
        calc (10 : ℝ) ^ 30 ≤ 2.7 ^ 90 := by norm_num
          _ ≤ _ := by gcongr
      linarith
  obtain ⟨s', l0, e, -⟩ := search_run (fun _ _ => some (.undershoot, 8)) Real.exp Real.log init L error
    (fun _ => False) init (-200) 90 50 (by linarith)
    (fun l0 h => ⟨.undershoot, 8, rfl, by norm_num, by simp, by simp, fun _ => h, by simp⟩)
    (fun mu h => ⟨.undershoot, 8, rfl, by norm_num, by simp, fun _ => h, by simp⟩)
    le_rfl (fun w _ h1 h2 => (hlog w h1 h2).1) (fun w _ h1 h2 => (hlog w h1 h2).2) (by norm_num) 48
    (startSearch Real.log init lmax) rfl (le_refl init) (le_refl init)
    (by simp only [startSearch]; linarith) (fun _ => rfl) rfl hlo (by
      simp only [startSearch]
      have h1 : L * (1 / 10 ^ 7 * (1 / 10 ^ 7)) ≤ L * (error * (1 / 10 ^ 7)) := by gcongr
      have h2 : 2 * L < 2 ^ 48 * (L * (1 / 10 ^ 7 * (1 / 10 ^ 7))) := by
        have : (2 : ℝ) ^ 48 * (L * (1 / 10 ^ 7 * (1 / 10 ^ 7))) = 2 * L * (2 ^ 47 / 10 ^ 14) := by ring
        rw [this]
        have : (1 : ℝ) < 2 ^ 47 / 10 ^ 14 := by norm_num
        nlinarith
      have h3 : (2 : ℝ) ^ 48 * (L * (1 / 10 ^ 7 * (1 / 10 ^ 7)))
          ≤ 2 ^ 48 * (L * (error * (1 / 10 ^ 7))) := by gcongr
      linarith)
  refine ⟨s', l0, e, ?_⟩
  have := search_over (fun _ _ => some (.undershoot, 8)) Real.exp Real.log init L error
    (by intro l d c n h
        simp only [Option.some.injEq, Prod.mk.injEq] at h
        rw [← h.1]; simp) 100 (startSearch Real.log init lmax)
  rw [e] at this
  exact this

/-- A failed start or a trajectory of at most seven points ends the search without a result. -/
theorem C69_failures (shoot : K → K → Shot) (ex lg : K → K) (init L error : K) (n : Nat) (s : Search K)
    (hm : s.logMode = false) :
    (shoot ((s.lmax + s.lmin) / 2) ((s.lmax + s.lmin) / 2 - init) = none →
      (search shoot ex lg init L error (n + 1) s).2 = .startFailed) ∧
    (∀ c k, shoot ((s.lmax + s.lmin) / 2) ((s.lmax + s.lmin) / 2 - init) = some (c, k) → k ≤ 7 →
      (search shoot ex lg init L error (n + 1) s).2 = .failed) ∧
    (∀ k, shoot ((s.lmax + s.lmin) / 2) ((s.lmax + s.lmin) / 2 - init) = some (.converged, k) → 7 < k →
      (search shoot ex lg init L error (n + 1) s).2 = .converged ((s.lmax + s.lmin) / 2)) := by
  refine ⟨fun h => ?_, fun c k h hk => ?_, fun k h hk => ?_⟩
  · simp [search, pass, hm, linearPass, h]
  · simp [search, pass, hm, linearPass, h, hk]
  · simp [search, pass, hm, linearPass, h, not_le.2 hk]

/-- A separating family of trajectories. -/
example : Separates (fun l0 _ => some (if l0 ≤ 3 then .overshoot else .undershoot, 100)) 0 3 0 := by
  intro l0 h
  by_cases h3 : l0 ≤ 3
  · exact ⟨.overshoot, 100, by simp [h3], by norm_num, by simp, by simp, by simp, fun _ => h3⟩
  · exact ⟨.undershoot, 100, by simp [h3], by norm_num, by simp, by simp, fun _ => by linarith, by simp⟩

end Verif.Action
