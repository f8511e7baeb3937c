import Verif.Tracer.PhaseProps

/-!
# C22: pairs of coexisting phases; C49: looking up the minimum of a phase
-/

namespace Verif.Tracer

set_option linter.unusedSectionVars false

open Spec Outcome

variable {P K : Type} [Field K] [LinearOrder K] [IsStrictOrderedRing K]

theorem orderedPairs_map {α β : Type} (f : α → β) (l : List α) :
    orderedPairs (l.map f) = (orderedPairs l).map (Prod.map f f) := by
  induction l with
  | nil => rfl
  | cons a l ih =>
    simp [orderedPairs, ih, Function.comp_def]

theorem mem_orderedPairs {α : Type} (l : List α) (a b : α) :
    (a, b) ∈ orderedPairs l ↔ ∃ i j : Nat, i < j ∧ l[i]? = some a ∧ l[j]? = some b := by
  induction l with
  | nil => simp [orderedPairs]
  | cons c l ih =>
    simp only [orderedPairs, List.mem_append, List.mem_map, Prod.mk.injEq, ih]
    constructor
    · rintro (⟨x, hx, rfl, rfl⟩ | ⟨i, j, hij, hi, hj⟩)
      · obtain ⟨j, hj⟩ := List.mem_iff_getElem?.1 hx
        exact ⟨0, j + 1, by omega, by simp, by simpa using hj⟩
      · exact ⟨i + 1, j + 1, by omega, by simpa using hi, by simpa using hj⟩
    · rintro ⟨i, j, hij, hi, hj⟩
      cases j with
      | zero => omega
      | succ j =>
        have hj' : l[j]? = some b := by simpa using hj
        cases i with
        | zero =>
          left
          exact ⟨b, List.mem_iff_getElem?.2 ⟨j, hj'⟩, by simpa using hi, rfl⟩
        | succ i => exact Or.inr ⟨i, j, by omega, by simpa using hi, hj'⟩

theorem nodup_orderedPairs {α : Type} (l : List α) (h : l.Nodup) : (orderedPairs l).Nodup := by
  induction l with
  | nil => exact List.nodup_nil
  | cons a l ih =>
    rw [List.nodup_cons] at h
    rw [orderedPairs]
    refine List.Nodup.append (h.2.map fun x y e => (Prod.mk.inj e).2) (ih h.2) ?_
    rintro ⟨x, y⟩ h1 h2
    obtain ⟨z, _, e⟩ := List.mem_map.1 h1
    obtain ⟨rfl, rfl⟩ := Prod.mk.inj e
    obtain ⟨i, j, _, hi, _⟩ := (mem_orderedPairs l _ _).1 h2
    exact h.1 (List.mem_iff_getElem?.2 ⟨i, hi⟩)

theorem overlaps_iff (f t : Phase P K) (hf : f.tLow ≤ f.tHigh) (ht : t.tLow ≤ t.tHigh) :
    overlaps f t = true ↔ ∃ T, ExistsAt f T ∧ ExistsAt t T := by
  simp only [overlaps, Bool.and_eq_true, decide_eq_true_eq, ge_iff_le, ExistsAt]
  constructor
  · rintro ⟨h1, h2⟩
    exact ⟨max f.tLow t.tLow, ⟨le_max_left _ _, max_le hf h2⟩, ⟨le_max_right _ _, max_le h1 ht⟩⟩
  · rintro ⟨T, ⟨h1, h2⟩, h3, h4⟩
    exact ⟨h1.trans h4, h3.trans h2⟩

/-- C22: the pairs reported are, each exactly once and numbered from 0, the pairs of two different
entries of the list of phases that exist together at some temperature (touching at one temperature
counts), the false phase being the earlier one in the list; the window of a pair consists of exactly
the temperatures at which both exist. -/
theorem C22_pairs (phases : List (Phase P K)) (hr : ∀ p ∈ phases, p.tLow ≤ p.tHigh) :
    ∃ idx : List (Nat × Nat), idx.Nodup ∧
      (∀ i j, (i, j) ∈ idx ↔ i < j ∧ ∃ f t T, phases[i]? = some f ∧ phases[j]? = some t ∧
        ExistsAt f T ∧ ExistsAt t T) ∧
      (setCoexPhases phases).length = idx.length ∧
      ∀ (k : Nat) (c : Coex P K), (setCoexPhases phases)[k]? = some c → c.pairId = k ∧
        ∃ i j, idx[k]? = some (i, j) ∧ phases[i]? = some c.falsePhase ∧
          phases[j]? = some c.truePhase ∧
          ∀ T, (c.tLow ≤ T ∧ T ≤ c.tHigh) ↔ (ExistsAt c.falsePhase T ∧ ExistsAt c.truePhase T) := by
  let q : (Phase P K × Nat) × (Phase P K × Nat) → Bool := fun x => overlaps x.1.1 x.2.1
  let ps := (orderedPairs phases.zipIdx).filter q
  have hzip : ∀ (i : Nat) (x : Phase P K × Nat), phases.zipIdx[i]? = some x ↔ x.2 = i ∧ phases[i]? = some x.1 := by
    intro i x
    rw [List.getElem?_zipIdx]
    cases h : phases[i]? with
    | none => simp
    | some p =>
      obtain ⟨a, b⟩ := x
      simp
      constructor
      · rintro ⟨rfl, rfl⟩; exact ⟨rfl, rfl⟩
      · rintro ⟨rfl, rfl⟩; exact ⟨rfl, rfl⟩
  have hmem : ∀ a b, (a, b) ∈ ps ↔ a.2 < b.2 ∧ phases[a.2]? = some a.1 ∧ phases[b.2]? = some b.1 ∧
      overlaps a.1 b.1 = true := by
    intro a b
    simp only [ps, List.mem_filter, mem_orderedPairs, hzip, q]
    constructor
    · rintro ⟨⟨i, j, hij, ⟨rfl, hi⟩, rfl, hj⟩, ho⟩
      exact ⟨hij, hi, hj, ho⟩
    · rintro ⟨h1, h2, h3, h4⟩
      exact ⟨⟨a.2, b.2, h1, ⟨rfl, h2⟩, rfl, h3⟩, h4⟩
  have hfilter : (orderedPairs phases).filter (fun ft => overlaps ft.1 ft.2) =
      ps.map (Prod.map Prod.fst Prod.fst) := by
    have e : phases = phases.zipIdx.map Prod.fst := by simp
    conv => lhs; rw [e, orderedPairs_map, List.filter_map]
    rfl
  refine ⟨ps.map (Prod.map Prod.snd Prod.snd), ?_, ?_, ?_, ?_⟩
  · -- each once
    have hnd : (phases.zipIdx.map Prod.snd).Nodup := by
      rw [List.zipIdx_map_snd]; exact List.nodup_range'
    have h2 := nodup_orderedPairs _ hnd
    rw [orderedPairs_map] at h2
    exact List.Nodup.sublist (List.Sublist.map _ List.filter_sublist) h2
  · intro i j
    rw [List.mem_map]
    constructor
    · rintro ⟨⟨a, b⟩, hab, e⟩
      obtain ⟨rfl, rfl⟩ := Prod.mk.inj e
      obtain ⟨h1, h2, h3, h4⟩ := (hmem a b).1 hab
      obtain ⟨T, hT1, hT2⟩ := (overlaps_iff a.1 b.1 (hr _ (List.mem_iff_getElem?.2 ⟨_, h2⟩))
        (hr _ (List.mem_iff_getElem?.2 ⟨_, h3⟩))).1 h4
      exact ⟨h1, a.1, b.1, T, h2, h3, hT1, hT2⟩
    · rintro ⟨hij, f, t, T, hf, ht, h1, h2⟩
      refine ⟨((f, i), (t, j)), (hmem _ _).2 ⟨hij, hf, ht, ?_⟩, rfl⟩
      exact (overlaps_iff f t (hr _ (List.mem_iff_getElem?.2 ⟨_, hf⟩))
        (hr _ (List.mem_iff_getElem?.2 ⟨_, ht⟩))).2 ⟨T, h1, h2⟩
  · simp [setCoexPhases, hfilter]
  · intro k c hc
    rw [setCoexPhases, hfilter] at hc
    rw [List.getElem?_map, Option.map_eq_some_iff] at hc
    obtain ⟨⟨x, m⟩, hx, rfl⟩ := hc
    rw [List.getElem?_zipIdx, Option.map_eq_some_iff] at hx
    obtain ⟨y, hy, e⟩ := hx
    rw [List.getElem?_map, Option.map_eq_some_iff] at hy
    obtain ⟨⟨a, b⟩, hab, rfl⟩ := hy
    obtain ⟨rfl, rfl⟩ := Prod.mk.inj e
    obtain ⟨h1, h2, h3, h4⟩ := (hmem a b).1 (List.mem_iff_getElem?.2 ⟨k, hab⟩)
    refine ⟨by simp, a.2, b.2, by simp [hab], h2, h3, ?_⟩
    intro T
    simp only [Prod.map, ExistsAt, max_le_iff, le_min_iff]
    constructor
    · rintro ⟨⟨h1, h2⟩, h3, h4⟩; exact ⟨⟨h1, h3⟩, h2, h4⟩
    · rintro ⟨⟨h1, h3⟩, h2, h4⟩; exact ⟨⟨h1, h2⟩, h3, h4⟩

/-- Three phases, of which the first and the last do not meet and the first two just touch. -/
example :
    let p : ℚ → ℚ → Phase Unit ℚ := fun a b => ⟨0, a, b, []⟩
    (setCoexPhases [p 100 200, p 50 100, p 0 60]).map (fun c => (c.pairId, c.tLow, c.tHigh)) =
      [(0, 100, 100), (1, 50, 60)] := by
  decide +kernel

/-! ## C49: looking up the minimum of a phase -/

theorem nearest_aux (t : K) (l : List (Minimum P K)) (b : Option (Minimum P K) × K)
    (hb : ∀ m, b.1 = some m → b.2 = |t - m.temp|) :
    let r := l.foldl (fun (best : Option (Minimum P K) × K) m =>
      if |t - m.temp| < best.2 then (some m, |t - m.temp|) else best) b
    r.2 ≤ b.2 ∧ (∀ m ∈ l, r.2 ≤ |t - m.temp|) ∧
      ((r = b ∧ ∀ m ∈ l, b.2 ≤ |t - m.temp|) ∨
        ∃ m ∈ l, r = (some m, |t - m.temp|) ∧ |t - m.temp| < b.2) := by
  induction l generalizing b with
  | nil => simp
  | cons a l ih =>
    dsimp only at ih ⊢
    rw [List.foldl_cons]
    by_cases h : |t - a.temp| < b.2
    · rw [if_pos h]
      obtain ⟨h1, h2, h3⟩ := ih (some a, |t - a.temp|) (by rintro m ⟨⟩; rfl)
      refine ⟨h1.trans h.le, ?_, ?_⟩
      · intro m hm
        rcases List.mem_cons.1 hm with rfl | hm
        · exact h1
        · exact h2 m hm
      · right
        rcases h3 with ⟨h3, _⟩ | ⟨m, hm, h3, h4⟩
        · exact ⟨a, by simp, h3, h⟩
        · exact ⟨m, by simp [hm], h3, lt_trans h4 h⟩
    · rw [if_neg h]
      obtain ⟨h1, h2, h3⟩ := ih b hb
      refine ⟨h1, ?_, ?_⟩
      · intro m hm
        rcases List.mem_cons.1 hm with rfl | hm
        · exact h1.trans (not_lt.1 h)
        · exact h2 m hm
      · rcases h3 with ⟨h3, h4⟩ | ⟨m, hm, h3, h4⟩
        · left
          refine ⟨h3, fun m hm => ?_⟩
          rcases List.mem_cons.1 hm with rfl | hm
          · exact not_lt.1 h
          · exact h4 m hm
        · exact Or.inr ⟨m, by simp [hm], h3, h4⟩

/-- C49: what is looked up.  If the temperature is stored, the stored minimum is returned and the phase
is not changed; otherwise the tracker is started at a stored minimum closest in temperature, its
minima are added to the phase and the last one is returned, or that stored minimum if it finds none. -/
theorem C49_get (track : P → K → K → List (Minimum P K)) (p : Phase P K) (t : K) (a : Minimum P K)
    (ha : a ∈ p.mins) (hnear : |t - a.temp| < 10 ^ 100) :
    ∃ best ∈ p.mins, (∀ m ∈ p.mins, |t - best.temp| ≤ |t - m.temp|) ∧
      Phase.get track p t = ok (
        if best.temp = t then (best, p)
        else match (track best.point best.temp t).getLast? with
          | some m => (m, p.addAll (track best.point best.temp t))
          | none => (best, p)) := by
  obtain ⟨_, h2, h3⟩ := nearest_aux t p.mins (none, 10 ^ 100) (by simp)
  rcases h3 with ⟨_, h4⟩ | ⟨m, hm, e, h4⟩
  · exact absurd hnear (not_lt.2 (h4 a ha))
  · refine ⟨m, hm, ?_, ?_⟩
    · intro x hx
      have := h2 x hx
      rw [e] at this
      exact this
    · unfold Phase.get nearest
      rw [e]
      dsimp only
      by_cases h : m.temp = t
      · rw [if_pos h, if_pos (by rw [h]; simp)]
      · have : ¬ |t - m.temp| = 0 := by
          rw [abs_eq_zero, sub_eq_zero]; exact fun h' => h h'.symm
        rw [if_neg h, if_neg this]
        split
        · rename_i x hx
          simp only [hx]
        · rename_i hx
          simp only [hx]

/-- C49: looking up keeps the phase ordered, and the recorded range the span of its minima. -/
theorem C49_get_keeps_invariants (track : P → K → K → List (Minimum P K)) (p p' : Phase P K) (t : K)
    (m : Minimum P K) (ho : Ordered p) (hr : RangeExact p) (h : Phase.get track p t = ok (m, p')) :
    Ordered p' ∧ RangeExact p' ∧ ∀ x ∈ p.mins.map content, x ∈ p'.mins.map content := by
  have key : p' = p ∨ ∃ l, p' = p.addAll l := by
    unfold Phase.get at h
    split at h
    · cases h
    · split at h
      · cases h; exact Or.inl rfl
      · dsimp only at h
        split at h
        · cases h; exact Or.inr ⟨_, rfl⟩
        · cases h; exact Or.inl rfl
  have mono : ∀ (l : List (Minimum P K)) (p : Phase P K), ∀ x ∈ p.mins.map content,
      x ∈ (p.addAll l).mins.map content := by
    intro l
    induction l with
    | nil => exact fun _ _ h => h
    | cons a l ih => exact fun p x hx => ih (p.add a) x ((mem_add p a x).2 (Or.inl hx))
  rcases key with rfl | ⟨l, rfl⟩
  · exact ⟨ho, hr, fun _ h => h⟩
  · exact ⟨addAll_ordered _ _ ho, addAll_range _ _ ho hr, mono l p⟩

/-- C49: a successful look-up is remembered: if the tracker reached the temperature, looking it up again
returns a minimum at exactly this temperature and does not change the phase any more. -/
theorem C49_get_again (track : P → K → K → List (Minimum P K)) (p p' : Phase P K) (t : K)
    (m : Minimum P K) (h : Phase.get track p t = ok (m, p')) (hm : m.temp = t) :
    ∃ m', Phase.get track p' t = ok (m', p') ∧ m'.temp = t := by
  have hmem : ∃ a ∈ p'.mins, a.temp = t := by
    have addmem : ∀ (l : List (Minimum P K)) (p : Phase P K) (x : Minimum P K), x ∈ l →
        ∃ a ∈ (p.addAll l).mins, a.temp = x.temp := by
      have keep : ∀ (l : List (Minimum P K)) (p : Phase P K) (s : K), (∃ a ∈ p.mins, a.temp = s) →
          ∃ a ∈ (p.addAll l).mins, a.temp = s := by
        intro l
        induction l with
        | nil => exact fun _ _ h => h
        | cons b l ih =>
          rintro p s ⟨a, ha, rfl⟩
          apply ih (p.add b)
          obtain ⟨y, hy, e⟩ := List.mem_map.1
            ((mem_add p b (content a)).2 (Or.inl (List.mem_map_of_mem ha)))
          exact ⟨y, hy, congrArg (fun c => c.2.1) e⟩
      intro l
      induction l with
      | nil => intro p x hx; cases hx
      | cons b l ih =>
        intro p x hx
        rcases List.mem_cons.1 hx with rfl | hx
        · refine keep l (p.add x) x.temp ?_
          rcases add_cases p x with h | h
          · rw [add_of_mem p x h]; exact h
          · obtain ⟨y, hy, e⟩ := List.mem_map.1 ((mem_add p x (content x)).2 (Or.inr ⟨rfl, h⟩))
            exact ⟨y, hy, congrArg (fun c => c.2.1) e⟩
        · exact ih (p.add b) x hx
    unfold Phase.get at h
    split at h
    · cases h
    · rename_i best e hn
      have hbest : best ∈ p.mins := by
        obtain ⟨_, _, h3⟩ := nearest_aux t p.mins (none, 10 ^ 100) (by simp)
        rcases h3 with ⟨h3, _⟩ | ⟨x, hx, h3, _⟩
        · unfold nearest at hn; rw [h3] at hn; cases hn
        · unfold nearest at hn; rw [h3] at hn; cases hn; exact hx
      split at h
      · cases h; exact ⟨_, hbest, hm⟩
      · dsimp only at h
        split at h
        · rename_i x hx
          cases h
          obtain ⟨a, ha, e⟩ := addmem _ p _ (List.mem_of_getLast? hx)
          exact ⟨a, ha, e.trans hm⟩
        · cases h; exact ⟨_, hbest, hm⟩
  obtain ⟨a, ha, rfl⟩ := hmem
  obtain ⟨best, _, h1, h2⟩ := C49_get track p' a.temp a ha (by simp)
  have h3 := h1 a ha
  rw [sub_self, abs_zero] at h3
  have h4 : best.temp = a.temp := by
    have := abs_eq_zero.1 (le_antisymm h3 (abs_nonneg _))
    exact (sub_eq_zero.1 this).symm
  rw [if_pos h4] at h2
  exact ⟨best, h2, h4⟩

theorem add_inside (p : Phase P K) (m : Minimum P K) (ho : Ordered p) (hr : RangeExact p)
    (h1 : p.tLow ≤ m.temp) (h2 : m.temp ≤ p.tHigh) :
    (p.add m).tLow = p.tLow ∧ (p.add m).tHigh = p.tHigh := by
  rcases add_cases p m with hm | hm
  · rw [add_of_mem p m hm]; exact ⟨rfl, rfl⟩
  · obtain ⟨a, b, ha, hb, hlo, hhi⟩ := hr
    have hb' : b ∈ p.mins := List.mem_of_getLast? hb
    rw [Phase.add]
    split
    · exact ⟨rfl, rfl⟩
    · match hp : p.mins with
      | [] => exact ⟨rfl, rfl⟩
      | a' :: l =>
        rw [hp] at ha hm hb'
        obtain rfl : a' = a := by simpa using ha
        dsimp only
        rw [if_neg (by rw [← hlo]; exact not_lt.2 h1)]
        split
        · exact ⟨rfl, rfl⟩
        · rename_i hn
          exfalso
          have hac : a'.temp < m.temp := lt_of_le_of_ne (by rw [← hlo]; exact h1) (hm a' (by simp))
          have e := insertMid_none m a' l hac hm hn
          have hs := insertSorted_sorted m (a' :: l) (by rw [← hp]; exact ho) hm
          rw [e, List.pairwise_append] at hs
          have := hs.2.2 b hb' m (by simp)
          rw [← hhi] at this
          exact absurd h2 (not_le.2 this)

/-- C49: looking up a temperature does not change the range of the phase, provided the tracker reports
only temperatures inside the range. -/
theorem C49_get_range_partial (track : P → K → K → List (Minimum P K)) (p p' : Phase P K) (t : K)
    (m : Minimum P K) (ho : Ordered p) (hr : RangeExact p) (h : Phase.get track p t = ok (m, p'))
    (hin : ∀ best ∈ p.mins, ∀ x ∈ track best.point best.temp t, p.tLow ≤ x.temp ∧ x.temp ≤ p.tHigh) :
    p'.tLow = p.tLow ∧ p'.tHigh = p.tHigh := by
  have all : ∀ (l : List (Minimum P K)) (p : Phase P K), Ordered p → RangeExact p →
      (∀ x ∈ l, p.tLow ≤ x.temp ∧ x.temp ≤ p.tHigh) →
      (p.addAll l).tLow = p.tLow ∧ (p.addAll l).tHigh = p.tHigh := by
    intro l
    induction l with
    | nil => exact fun _ _ _ _ => ⟨rfl, rfl⟩
    | cons a l ih =>
      intro p ho hr hl
      obtain ⟨e1, e2⟩ := add_inside p a ho hr (hl a (by simp)).1 (hl a (by simp)).2
      have := ih (p.add a) (C20_add_ordered p a ho) (C20_add_range p a ho hr)
        (fun x hx => by rw [e1, e2]; exact hl x (by simp [hx]))
      rw [e1, e2] at this
      exact this
  unfold Phase.get at h
  split at h
  · cases h
  · rename_i best e hn
    have hbest : best ∈ p.mins := by
      obtain ⟨_, _, h3⟩ := nearest_aux t p.mins (none, 10 ^ 100) (by simp)
      rcases h3 with ⟨h3, _⟩ | ⟨x, hx, h3, _⟩
      · unfold nearest at hn; rw [h3] at hn; cases hn
      · unfold nearest at hn; rw [h3] at hn; cases hn; exact hx
    split at h
    · cases h; exact ⟨rfl, rfl⟩
    · dsimp only at h
      split at h
      · cases h; exact all _ p ho hr (hin best hbest)
      · cases h; exact ⟨rfl, rfl⟩

/-- C49 without that proviso is false: looking up a temperature outside the range, which is only logged,
extends the range of the phase. -/
theorem C49_get_extends_range :
    let p : Phase Unit ℚ := Phase.ofMinima [⟨(), 50, 0, 0⟩, ⟨(), 100, 0, 0⟩]
    let track : Unit → ℚ → ℚ → List (Minimum Unit ℚ) := fun _ s t => [⟨(), s, 0, 0⟩, ⟨(), t, 0, 0⟩]
    (p.tLow, p.tHigh) = (50, 100) ∧
    Phase.get track p 120 = ok (⟨(), 120, 0, 0⟩,
      ⟨0, 50, 120, [⟨(), 50, 0, 0⟩, ⟨(), 100, 0, 0⟩, ⟨(), 120, 0, 1⟩]⟩) := by
  decide +kernel

end Verif.Tracer
