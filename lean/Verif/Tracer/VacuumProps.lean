import Verif.Tracer.VacuumSpec
import Verif.Tracer.CoexProps

/-!
# C51: registering phases
-/

namespace Verif.Tracer

set_option linter.unusedSectionVars false

open Spec Outcome

variable {P K : Type} [Field K] [LinearOrder K] [IsStrictOrderedRing K]

/-! ### Lemmas -/

theorem insertMid_ends (m : Minimum P K) (l : List (Minimum P K)) (a : Minimum P K)
    (l' : List (Minimum P K)) (h : insertMid m (a :: l) = some l') :
    l'.head? = some a ∧ l'.getLast? = (a :: l).getLast? ∧ l'.length = l.length + 2 := by
  induction l generalizing a l' with
  | nil => simp [insertMid] at h
  | cons c l ih =>
    rw [insertMid] at h
    split at h
    · rw [← Option.some.inj h]; simp [List.getLast?_cons_cons]
    · rw [Option.map_eq_some_iff] at h
      obtain ⟨r, hr, rfl⟩ := h
      obtain ⟨h1, h2, h3⟩ := ih c r hr
      refine ⟨rfl, ?_, ?_⟩
      · cases r with
        | nil => cases h1
        | cons d r => rw [List.getLast?_cons_cons, List.getLast?_cons_cons]; exact h2
      · simp only [List.length_cons] at h3 ⊢; omega

theorem mapLast_length {α : Type} (f : α → α) (l : List α) : (mapLast f l).length = l.length := by
  have := congrArg List.length (map_mapLast f (fun _ => ()) (fun _ => rfl) l)
  simpa using this

theorem mapLast_getLast? {α : Type} (f : α → α) (l : List α) :
    (mapLast f l).getLast? = l.getLast?.map f := by
  induction l with
  | nil => rfl
  | cons a l ih =>
    cases l with
    | nil => rfl
    | cons b l =>
      rw [mapLast, List.getLast?_cons_cons, ← ih]
      cases h : mapLast f (b :: l) with
      | nil =>
        have := mapLast_length f (b :: l)
        rw [h] at this; simp at this
      | cons c l' => rw [List.getLast?_cons_cons]

theorem mapLast_head? {α : Type} (f : α → α) (a b : α) (l : List α) :
    (mapLast f (a :: b :: l)).head? = some a := rfl

theorem add_id (p : Phase P K) (m : Minimum P K) : (p.add m).id = p.id := by
  rw [Phase.add]
  split
  · rfl
  · split
    · rfl
    · split
      · rfl
      · split <;> rfl

theorem add_marked (p : Phase P K) (m : Minimum P K) (h : Marked p) : Marked (p.add m) := by
  rw [Phase.add]
  split
  · exact h
  · obtain ⟨hl, ⟨a, ha, hae⟩, b, hb, hbe⟩ := h
    match hp : p.mins with
    | [] => rw [hp] at ha; cases ha
    | [x] => rw [hp] at hl; simp at hl
    | x :: y :: l =>
      rw [hp] at ha hb
      obtain rfl : x = a := by simpa using ha
      dsimp only
      split
      · refine ⟨by simp, ⟨_, rfl, rfl⟩, b, ?_, hbe⟩
        rw [List.getLast?_cons_cons] at hb ⊢
        simpa [List.getLast?_cons_cons] using hb
      · split
        · rename_i l' h'
          obtain ⟨h1, h2, h3⟩ := insertMid_ends m _ _ _ h'
          refine ⟨by dsimp only; rw [h3]; simp, ⟨x, h1, hae⟩, b, by rw [← hb]; exact h2, hbe⟩
        · refine ⟨?_, ⟨x, ?_, hae⟩, { m with edge := 1 }, by simp, rfl⟩
          · simp [mapLast_length]
          · rfl

theorem addAll_marked (p : Phase P K) (l : List (Minimum P K)) (h : Marked p) :
    Marked (p.addAll l) := by
  induction l generalizing p with
  | nil => exact h
  | cons m l ih => exact ih (p.add m) (add_marked p m h)

theorem addAll_good (p : Phase P K) (l : List (Minimum P K)) (h : Good p) : Good (p.addAll l) :=
  ⟨addAll_ordered p l h.1, addAll_range p l h.1 h.2.1, addAll_marked p l h.2.2⟩

theorem grown_refl (p : Phase P K) : Grown p p := ⟨rfl, fun _ h => h⟩

theorem grown_trans {p q r : Phase P K} (h1 : Grown p q) (h2 : Grown q r) : Grown p r :=
  ⟨h2.1.trans h1.1, fun x hx => h2.2 x (h1.2 x hx)⟩

theorem add_grown (p : Phase P K) (m : Minimum P K) : Grown p (p.add m) :=
  ⟨add_id p m, fun x hx => (mem_add p m x).2 (Or.inl hx)⟩

theorem addAll_grown (p : Phase P K) (l : List (Minimum P K)) : Grown p (p.addAll l) := by
  induction l generalizing p with
  | nil => exact grown_refl p
  | cons m l ih => exact grown_trans (add_grown p m) (ih (p.add m))

theorem addAll_has (p : Phase P K) (l : List (Minimum P K)) (m : Minimum P K)
    (h : m ∈ l ∨ ∃ x ∈ p.mins, x.temp = m.temp) : ∃ x ∈ (p.addAll l).mins, x.temp = m.temp := by
  induction l generalizing p with
  | nil => exact h.resolve_left (by simp)
  | cons b l ih =>
    apply ih (p.add b)
    rcases h with h | ⟨x, hx, e⟩
    · rcases List.mem_cons.1 h with rfl | h
      · right
        rcases add_cases p m with h | h
        · rw [add_of_mem p m h]; exact h
        · obtain ⟨y, hy, e⟩ := List.mem_map.1 ((mem_add p m (content m)).2 (Or.inr ⟨rfl, h⟩))
          exact ⟨y, hy, congrArg (fun c => c.2.1) e⟩
      · exact Or.inl h
    · right
      obtain ⟨y, hy, e'⟩ := List.mem_map.1 ((add_grown p b).2 _ (List.mem_map_of_mem hx))
      exact ⟨y, hy, (congrArg (fun c => c.2.1) e').trans e⟩

theorem get_shape (track : P → K → K → List (Minimum P K)) (p p' : Phase P K) (t : K)
    (m : Minimum P K) (h : Phase.get track p t = ok (m, p')) :
    ∃ best ∈ p.mins, ∃ l, p' = p.addAll l ∧ ∀ x ∈ l, x ∈ track best.point best.temp t := by
  unfold Phase.get at h
  split at h
  · cases h
  · rename_i best e hn
    have hbest : best ∈ p.mins := by
      obtain ⟨_, _, h3⟩ := nearest_aux t p.mins (none, 10 ^ 100) (by simp)
      rcases h3 with ⟨h3, _⟩ | ⟨x, hx, h3, _⟩
      · unfold nearest at hn; rw [h3] at hn; cases hn
      · unfold nearest at hn; rw [h3] at hn; cases hn; exact hx
    refine ⟨best, hbest, ?_⟩
    split at h
    · cases h; exact ⟨[], rfl, by simp⟩
    · dsimp only at h
      split at h
      · cases h; exact ⟨_, rfl, fun x hx => hx⟩
      · cases h; exact ⟨[], rfl, by simp⟩

/-- A property of phases kept by additions is kept by look-ups. -/
theorem maxDistance_inv (track : P → K → K → List (Minimum P K)) (dist : P → P → K) (lo hi : K)
    (ns : List Nat) (d d' : K) (ex ph ex' ph' : Phase P K)
    (h : maxDistance track dist lo hi ns d ex ph = ok (d', ex', ph')) :
    ∃ l1 l2, ex' = ex.addAll l1 ∧ ph' = ph.addAll l2 := by
  induction ns generalizing d ex ph with
  | nil => cases h; exact ⟨[], [], rfl, rfl⟩
  | cons n ns ih =>
    rw [maxDistance] at h
    cases h1 : ex.get track (lo + (n : K) / 12 * (hi - lo)) with
    | err e => rw [h1] at h; cases h
    | ub e => rw [h1] at h; cases h
    | ok r1 =>
      rw [h1] at h
      simp only [bind_ok] at h
      cases h2 : ph.get track (lo + (n : K) / 12 * (hi - lo)) with
      | err e => rw [h2] at h; cases h
      | ub e => rw [h2] at h; cases h
      | ok r2 =>
        rw [h2] at h
        simp only [bind_ok] at h
        obtain ⟨_, _, l1, e1, _⟩ := get_shape track ex r1.2 _ r1.1 h1
        obtain ⟨_, _, l2, e2, _⟩ := get_shape track ph r2.2 _ r2.1 h2
        obtain ⟨l3, l4, e3, e4⟩ := ih _ _ _ h
        refine ⟨l1 ++ l3, l2 ++ l4, ?_, ?_⟩
        · rw [e3, e1, Phase.addAll, Phase.addAll, Phase.addAll, List.foldl_append]
        · rw [e4, e2, Phase.addAll, Phase.addAll, Phase.addAll, List.foldl_append]

theorem addAll_append (p : Phase P K) (l1 l2 : List (Minimum P K)) :
    (p.addAll l1).addAll l2 = p.addAll (l1 ++ l2) := by
  rw [Phase.addAll, Phase.addAll, Phase.addAll, List.foldl_append]

theorem mergeInto_inv (track : P → K → K → List (Minimum P K)) (dist : P → P → K)
    (phases l : List (Phase P K)) (ph ph' : Phase P K) (b : Bool)
    (h : mergeInto track dist phases ph = ok (l, ph', b)) :
    (∃ l2, ph' = ph.addAll l2) ∧ List.Forall₂ (fun p q => ∃ l1, q = Phase.addAll p l1) phases l ∧
      (b = true → ∃ i : Nat, ∃ q, l[i]? = some q ∧
        ∀ m ∈ ph'.mins, ∃ x ∈ q.mins, x.temp = m.temp) := by
  have refl' : ∀ phases : List (Phase P K),
      List.Forall₂ (fun p q => ∃ l1, q = Phase.addAll p l1) phases phases := by
    intro phases
    induction phases with
    | nil => exact List.Forall₂.nil
    | cons a l ih => exact List.Forall₂.cons ⟨[], rfl⟩ ih
  induction phases generalizing ph l with
  | nil =>
    cases h
    exact ⟨⟨[], rfl⟩, List.Forall₂.nil, by simp⟩
  | cons ex rest ih =>
    rw [mergeInto] at h
    dsimp only at h
    split at h
    · cases h1 : mergeInto track dist rest ph with
      | err e => rw [h1] at h; cases h
      | ub e => rw [h1] at h; cases h
      | ok r =>
        rw [h1] at h
        obtain ⟨l', ph2, b'⟩ := r
        cases h
        obtain ⟨i1, i2, i3⟩ := ih l' ph h1
        refine ⟨i1, List.Forall₂.cons ⟨[], rfl⟩ i2, fun hb => ?_⟩
        obtain ⟨i, q, hq, h⟩ := i3 hb
        exact ⟨i + 1, q, by simpa using hq, h⟩
    · cases h1 : maxDistance track dist (max ex.tLow ph.tLow) (min ex.tHigh ph.tHigh)
          (List.range' 1 11) 0 ex ph with
      | err e => rw [h1] at h; cases h
      | ub e => rw [h1] at h; cases h
      | ok r =>
        rw [h1] at h
        obtain ⟨d, ex2, ph2⟩ := r
        simp only [bind_ok] at h
        obtain ⟨l1, l2, e1, e2⟩ := maxDistance_inv track dist _ _ _ _ _ _ _ _ _ h1
        split at h
        · cases h
          refine ⟨⟨l2, e2⟩, List.Forall₂.cons ⟨l1 ++ ph'.mins, ?_⟩ (refl' rest), fun _ => ?_⟩
          · rw [e1, addAll_append]
          · exact ⟨0, _, rfl, fun m hm => addAll_has _ _ m (Or.inl hm)⟩
        · cases h2 : mergeInto track dist rest ph2 with
          | err e => rw [h2] at h; cases h
          | ub e => rw [h2] at h; cases h
          | ok r =>
            rw [h2] at h
            obtain ⟨l', ph3, b'⟩ := r
            cases h
            obtain ⟨⟨l3, e3⟩, i2, i3⟩ := ih l' ph2 h2
            refine ⟨⟨l2 ++ l3, by rw [e3, e2, addAll_append]⟩, List.Forall₂.cons ⟨l1, e1⟩ i2,
              fun hb => ?_⟩
            obtain ⟨i, q, hq, h⟩ := i3 hb
            exact ⟨i + 1, q, by simpa using hq, h⟩

theorem setEdges_good (p : Phase P K) (ho : Ordered p) (hr : RangeExact p) (hl : 2 ≤ p.mins.length) :
    Good p.setEdges ∧ p.setEdges.id = p.id ∧ p.setEdges.mins.map content = p.mins.map content := by
  obtain ⟨id, lo, hi, mins⟩ := p
  match mins, hl with
  | a :: b :: l, _ =>
    have hc : (Phase.setEdges (⟨id, lo, hi, a :: b :: l⟩ : Phase P K)).mins.map content =
        (a :: b :: l).map content := by
      simp only [Phase.setEdges]
      rw [map_mapLast (fun x : Minimum P K => { x with edge := 1 }) content (fun _ => rfl)]
      simp [content]
    refine ⟨⟨?_, ?_, ?_⟩, rfl, hc⟩
    · rw [Ordered, ordered_iff] at ho ⊢
      rw [hc]; exact ho
    · obtain ⟨x, y, hx, hy, e1, e2⟩ := hr
      obtain rfl : a = x := by simpa using hx
      simp only [List.getLast?_cons_cons] at hy
      refine ⟨{ a with edge := -1 }, { y with edge := 1 }, rfl, ?_, e1, e2⟩
      simp only [Phase.setEdges]
      rw [mapLast_getLast?, List.getLast?_cons_cons, hy]
      rfl
    · refine ⟨?_, ⟨_, rfl, rfl⟩, ?_⟩
      · simp only [Phase.setEdges]
        rw [mapLast_length]; simp
      · simp only [Phase.setEdges]
        rw [mapLast_getLast?, List.getLast?_cons_cons]
        exact ⟨_, by rw [List.getLast?_eq_some_getLast (by simp : b :: l ≠ [])]; rfl, rfl⟩

theorem add_length (p : Phase P K) (m : Minimum P K) : p.mins.length ≤ (p.add m).mins.length := by
  rcases add_cases p m with h | h
  · rw [add_of_mem p m h]
  · have := congrArg List.length (add_content p m h)
    have h2 := (insertSorted_perm m p.mins).length_eq
    simp at this h2
    omega

theorem addAll_length (p : Phase P K) (l : List (Minimum P K)) :
    p.mins.length ≤ (p.addAll l).mins.length := by
  induction l generalizing p with
  | nil => exact le_refl _
  | cons m l ih => exact (add_length p m).trans (ih (p.add m))

theorem forall₂_good (phases l : List (Phase P K))
    (h : List.Forall₂ (fun p q => ∃ l1, q = Phase.addAll p l1) phases l)
    (hg : ∀ p ∈ phases, Good p) : (∀ q ∈ l, Good q) ∧ List.Forall₂ Grown phases l := by
  induction h with
  | nil => exact ⟨by simp, List.Forall₂.nil⟩
  | cons hab _ ih =>
    obtain ⟨l1, rfl⟩ := hab
    obtain ⟨i1, i2⟩ := ih (fun p hp => hg p (by simp [hp]))
    refine ⟨?_, List.Forall₂.cons (addAll_grown _ l1) i2⟩
    intro q hq
    rcases List.mem_cons.1 hq with rfl | hq
    · exact addAll_good _ _ (hg _ (by simp))
    · exact i1 q hq

/-! ### C51 -/

theorem register_good (track : P → K → K → List (Minimum P K)) (dist : P → P → K)
    (phases r : List (Phase P K)) (ph : Phase P K) (ho : Ordered ph) (hr : RangeExact ph)
    (hl : 2 ≤ ph.mins.length) (hg : ∀ p ∈ phases, Good p)
    (h : register track dist phases ph = ok r) :
    (∀ q ∈ r, Good q) ∧
    ∃ old new, r = old ++ new ∧ List.Forall₂ Grown phases old ∧
      ((∃ q, new = [q] ∧ Grown ph q) ∨
        (new = [] ∧ ∃ q ∈ old, ∀ m ∈ ph.mins, ∃ x ∈ q.mins, x.temp = m.temp)) := by
  rw [register] at h
  cases h1 : mergeInto track dist phases ph with
  | err e => rw [h1] at h; cases h
  | ub e => rw [h1] at h; cases h
  | ok t =>
    rw [h1] at h
    obtain ⟨l, ph', b⟩ := t
    obtain ⟨⟨l2, e2⟩, i2, i3⟩ := mergeInto_inv track dist phases l ph ph' b h1
    obtain ⟨g1, g2⟩ := forall₂_good phases l i2 hg
    cases b with
    | true =>
      cases h
      refine ⟨g1, l, [], by simp, g2, Or.inr ⟨rfl, ?_⟩⟩
      obtain ⟨i, q, hq, hm⟩ := i3 rfl
      refine ⟨q, List.mem_of_getElem? hq, fun m hm' => ?_⟩
      obtain ⟨x, hx, e⟩ := addAll_has ph l2 m (Or.inr ⟨m, hm', rfl⟩)
      rw [← e2] at hx
      obtain ⟨y, hy, e'⟩ := hm x hx
      exact ⟨y, hy, e'.trans e⟩
    | false =>
      cases h
      have hlen := (hl.trans (addAll_length ph l2))
      obtain ⟨s1, s2, s3⟩ := setEdges_good ph' (by rw [e2]; exact addAll_ordered _ _ ho)
        (by rw [e2]; exact addAll_range _ _ ho hr) (by rw [e2]; exact hlen)
      refine ⟨?_, l, [ph'.setEdges], by simp, g2, Or.inl ⟨_, rfl, ?_⟩⟩
      · intro q hq
        simp only [Bool.false_eq_true, if_false, List.mem_append, List.mem_singleton] at hq
        rcases hq with hq | rfl
        · exact g1 q hq
        · exact s1
      · refine ⟨s2.trans (by rw [e2]; exact (addAll_grown ph l2).1), fun x hx => ?_⟩
        rw [s3, e2]
        exact (addAll_grown ph l2).2 x hx

/-- C51: every registered phase has at least two minima, strictly increasing in temperature, the range
they span, the lower edge marked at the first and the upper edge at the last.  Registering keeps all
existing phases with all their minima, and either appends the new phase, or puts a minimum at each of
its temperatures into one existing phase, or drops it, which happens only to phases with at most two
minima. -/
theorem C51_registered (track track3 : P → K → K → List (Minimum P K)) (dist : P → P → K)
    (phases r : List (Phase P K)) (ph : Phase P K)
    (hph : ph.mins ≠ [] → Ordered ph ∧ RangeExact ph) (hg : ∀ p ∈ phases, Good p)
    (h : addPhase track track3 dist phases ph = ok r) :
    (∀ q ∈ r, Good q) ∧
    ((r = phases ∧ ph.mins.length ≤ 2) ∨
    ∃ old new, r = old ++ new ∧ List.Forall₂ Grown phases old ∧ 2 ≤ ph.mins.length ∧
      ((∃ q, new = [q] ∧ Grown ph q) ∨
        (new = [] ∧ ∃ q ∈ old, ∀ m ∈ ph.mins, ∃ x ∈ q.mins, x.temp = m.temp))) := by
  rw [addPhase] at h
  match hp : ph.mins with
  | [] => rw [hp] at h; cases h; exact ⟨hg, Or.inl ⟨rfl, by simp⟩⟩
  | [_] => rw [hp] at h; cases h; exact ⟨hg, Or.inl ⟨rfl, by simp⟩⟩
  | [a, b] =>
    rw [hp] at h
    dsimp only at h
    split at h
    · obtain ⟨ho, hr⟩ := hph (by rw [hp]; simp)
      have hl : 2 ≤ ph.mins.length := by rw [hp]; simp
      obtain ⟨h1, old, new, h2, h3, h4⟩ := register_good track dist phases r _
        (addAll_ordered _ _ ho) (addAll_range _ _ ho hr) (hl.trans (addAll_length _ _)) hg h
      refine ⟨h1, Or.inr ⟨old, new, h2, h3, by simp, ?_⟩⟩
      rcases h4 with ⟨q, e, hq⟩ | ⟨e, q, hq, hm⟩
      · exact Or.inl ⟨q, e, grown_trans (addAll_grown ph _) hq⟩
      · refine Or.inr ⟨e, q, hq, fun m hm' => ?_⟩
        obtain ⟨x, hx, e⟩ := addAll_has ph (track3 a.point a.temp b.temp) m
          (Or.inr ⟨m, by rw [hp]; exact hm', rfl⟩)
        obtain ⟨y, hy, e'⟩ := hm x hx
        exact ⟨y, hy, e'.trans e⟩
    · cases h; exact ⟨hg, Or.inl ⟨rfl, by simp⟩⟩
  | a :: b :: c :: l =>
    rw [hp] at h
    obtain ⟨ho, hr⟩ := hph (by rw [hp]; simp)
    obtain ⟨h1, old, new, h2, h3, h4⟩ := register_good track dist phases r ph ho hr
      (by rw [hp]; simp) hg h
    rw [hp] at h4
    exact ⟨h1, Or.inr ⟨old, new, h2, h3, by simp, h4⟩⟩

/-! ### When a phase is merged -/

theorem get_known (track : P → K → K → List (Minimum P K)) (p : Phase P K) (t : K) (m : Minimum P K)
    (ho : Ordered p) (hm : m ∈ p.mins) (ht : m.temp = t) : Phase.get track p t = ok (m, p) := by
  obtain ⟨best, hb, h1, h2⟩ := C49_get track p t m hm (by rw [ht]; simp)
  have h3 := h1 m hm
  rw [ht, sub_self, abs_zero] at h3
  have h4 : best.temp = t := (sub_eq_zero.1 (abs_eq_zero.1 (le_antisymm h3 (abs_nonneg _)))).symm
  have : best = m := by
    by_contra hne
    have : ∀ (l : List (Minimum P K)), (l.Pairwise fun a b => a.temp < b.temp) → best ∈ l → m ∈ l →
        False := by
      intro l
      induction l with
      | nil => intro _ h; cases h
      | cons a l ih =>
        intro hp hb' hm'
        rw [List.pairwise_cons] at hp
        rcases List.mem_cons.1 hb' with e1 | h1 <;> rcases List.mem_cons.1 hm' with e2 | h2
        · exact hne (e1.trans e2.symm)
        · exact absurd (hp.1 m h2) (by rw [← e1, h4, ht]; exact lt_irrefl _)
        · exact absurd (hp.1 best h1) (by rw [← e2, h4, ht]; exact lt_irrefl _)
        · exact ih hp.2 h1 h2
    exact this p.mins ho hb hm
  rw [h2, if_pos h4, this]

theorem twelfths_eq (lo hi : K) :
    twelfths lo hi = (List.range' 1 11).map fun n : Nat => lo + (n : K) / 12 * (hi - lo) := by
  rw [twelfths, List.range'_eq_map_range, List.map_map]
  apply List.map_congr_left
  intro i _
  simp only [Function.comp_apply, Nat.cast_add, Nat.cast_one]
  ring

theorem maxDistance_known (track : P → K → K → List (Minimum P K)) (dist : P → P → K) (lo hi : K)
    (f g : K → P) (ns : List Nat) (d : K) (ex ph : Phase P K) (he : Ordered ex) (hp : Ordered ph)
    (hk : Knows ex f (ns.map fun n : Nat => lo + (n : K) / 12 * (hi - lo)))
    (hk' : Knows ph g (ns.map fun n : Nat => lo + (n : K) / 12 * (hi - lo))) :
    maxDistance track dist lo hi ns d ex ph =
      ok ((ns.map fun n : Nat => lo + (n : K) / 12 * (hi - lo)).foldl
        (fun d t => max d (dist (f t) (g t))) d, ex, ph) := by
  induction ns generalizing d with
  | nil => rfl
  | cons n ns ih =>
    obtain ⟨m1, hm1, t1, p1⟩ := hk _ (List.mem_map_of_mem (a := n) (by simp))
    obtain ⟨m2, hm2, t2, p2⟩ := hk' _ (List.mem_map_of_mem (a := n) (by simp))
    rw [maxDistance, get_known track ex _ m1 he hm1 t1, bind_ok]
    dsimp only
    rw [get_known track ph _ m2 hp hm2 t2, bind_ok]
    dsimp only
    rw [ih _ (fun t ht => hk t (by simp only [List.map_cons, List.mem_cons]; exact Or.inr ht))
      (fun t ht => hk' t (by simp only [List.map_cons, List.mem_cons]; exact Or.inr ht)), p1, p2]
    rfl

theorem foldl_max_lt (F : K → K) (l : List K) (d c : K) :
    l.foldl (fun d t => max d (F t)) d < c ↔ d < c ∧ ∀ t ∈ l, F t < c := by
  induction l generalizing d with
  | nil => simp
  | cons a l ih =>
    rw [List.foldl_cons, ih, max_lt_iff]
    simp only [List.mem_cons, forall_eq_or_imp, and_assoc]

/-- C51: a phase with at least three minima is taken for an existing one exactly if their ranges overlap in
more than a point and they are closer than 1 GeV at each of the eleven temperatures that cut the common
range into twelve equal pieces; it is merged into the first such phase, and appended, with its edges marked,
if there is none.  (Stated for phases that know their minima at these temperatures; otherwise the
tracker is asked first.) -/
theorem C51_merge (track track3 : P → K → K → List (Minimum P K)) (dist : P → P → K)
    (val : Nat → K → P) (g : K → P) (phases : List (Phase P K)) (ph : Phase P K)
    (hl : 3 ≤ ph.mins.length) (hp : Ordered ph) (ho : ∀ p ∈ phases, Ordered p)
    (hk : ∀ (i : Nat) (p : Phase P K), phases[i]? = some p →
      Knows p (val i) (twelfths (max p.tLow ph.tLow) (min p.tHigh ph.tHigh)) ∧
      Knows ph g (twelfths (max p.tLow ph.tLow) (min p.tHigh ph.tHigh))) :
    let same := fun (i : Nat) (p : Phase P K) =>
      max p.tLow ph.tLow < min p.tHigh ph.tHigh ∧
        ∀ t ∈ twelfths (max p.tLow ph.tLow) (min p.tHigh ph.tHigh), dist (val i t) (g t) < 1
    (∀ (i : Nat) (p : Phase P K), phases[i]? = some p → same i p →
      (∀ (j : Nat) (q : Phase P K), j < i → phases[j]? = some q → ¬ same j q) →
      addPhase track track3 dist phases ph = ok (phases.set i (p.addAll ph.mins))) ∧
    ((∀ (i : Nat) (p : Phase P K), phases[i]? = some p → ¬ same i p) →
      addPhase track track3 dist phases ph = ok (phases ++ [ph.setEdges])) := by
  have hadd : ∀ phases : List (Phase P K),
      addPhase track track3 dist phases ph = register track dist phases ph := by
    intro phases
    rw [addPhase]
    match ph.mins, hl with
    | _ :: _ :: _ :: _, _ => rfl
  intro same
  have core : ∀ (phases : List (Phase P K)) (val : Nat → K → P), (∀ p ∈ phases, Ordered p) →
      (∀ (i : Nat) (p : Phase P K), phases[i]? = some p →
        Knows p (val i) (twelfths (max p.tLow ph.tLow) (min p.tHigh ph.tHigh)) ∧
        Knows ph g (twelfths (max p.tLow ph.tLow) (min p.tHigh ph.tHigh))) →
      (∀ (i : Nat) (p : Phase P K), phases[i]? = some p →
        (max p.tLow ph.tLow < min p.tHigh ph.tHigh ∧
          ∀ t ∈ twelfths (max p.tLow ph.tLow) (min p.tHigh ph.tHigh), dist (val i t) (g t) < 1) →
        (∀ (j : Nat) (q : Phase P K), j < i → phases[j]? = some q →
          ¬ (max q.tLow ph.tLow < min q.tHigh ph.tHigh ∧
            ∀ t ∈ twelfths (max q.tLow ph.tLow) (min q.tHigh ph.tHigh), dist (val j t) (g t) < 1)) →
        mergeInto track dist phases ph = ok (phases.set i (p.addAll ph.mins), ph, true)) ∧
      ((∀ (i : Nat) (p : Phase P K), phases[i]? = some p →
          ¬ (max p.tLow ph.tLow < min p.tHigh ph.tHigh ∧
            ∀ t ∈ twelfths (max p.tLow ph.tLow) (min p.tHigh ph.tHigh), dist (val i t) (g t) < 1)) →
        mergeInto track dist phases ph = ok (phases, ph, false)) := by
    intro phases
    induction phases with
    | nil => intro val _ _; exact ⟨by simp, fun _ => rfl⟩
    | cons ex rest ih =>
      intro val ho hk
      obtain ⟨ih1, ih2⟩ := ih (fun i => val (i + 1)) (fun p hp => ho p (by simp [hp]))
        (fun i p h => hk (i + 1) p (by simpa using h))
      obtain ⟨k1, k2⟩ := hk 0 ex rfl
      have step : mergeInto track dist (ex :: rest) ph =
          if (max ex.tLow ph.tLow < min ex.tHigh ph.tHigh ∧
            ∀ t ∈ twelfths (max ex.tLow ph.tLow) (min ex.tHigh ph.tHigh), dist (val 0 t) (g t) < 1)
          then ok (ex.addAll ph.mins :: rest, ph, true)
          else (mergeInto track dist rest ph >>= fun r => ok (ex :: r.1, r.2.1, r.2.2)) := by
        rw [mergeInto]
        dsimp only
        by_cases hge : max ex.tLow ph.tLow ≥ min ex.tHigh ph.tHigh
        · rw [if_pos hge, if_neg (fun h => absurd h.1 (not_lt.2 hge))]
        · rw [if_neg hge]
          rw [twelfths_eq] at k1 k2
          rw [maxDistance_known track dist _ _ (val 0) g _ 0 ex ph (ho ex (by simp)) hp k1 k2, bind_ok]
          dsimp only
          rw [← twelfths_eq]
          by_cases hd : ∀ t ∈ twelfths (max ex.tLow ph.tLow) (min ex.tHigh ph.tHigh),
              dist (val 0 t) (g t) < 1
          · rw [if_pos ((foldl_max_lt _ _ _ _).2 ⟨zero_lt_one, hd⟩), if_pos ⟨not_le.1 hge, hd⟩]
          · rw [if_neg (fun h => hd ((foldl_max_lt _ _ _ _).1 h).2), if_neg (fun h => hd h.2)]
      refine ⟨?_, ?_⟩
      · intro i p hi hs hfirst
        cases i with
        | zero =>
          obtain rfl : ex = p := by simpa using hi
          rw [step, if_pos hs]; rfl
        | succ i =>
          rw [step, if_neg (hfirst 0 ex (by omega) rfl),
            ih1 i p (by simpa using hi) hs
              (fun j q hj hq => hfirst (j + 1) q (by omega) (by simpa using hq))]
          rfl
      · intro hn
        rw [step, if_neg (hn 0 ex rfl), ih2 (fun i p h => hn (i + 1) p (by simpa using h))]
        rfl
  obtain ⟨c1, c2⟩ := core phases val ho hk
  refine ⟨fun i p hi hs hf => ?_, fun hn => ?_⟩
  · rw [hadd, register, c1 i p hi hs hf]; rfl
  · rw [hadd, register, c2 hn]; rfl

/-- C51: phases with fewer than two minima are dropped; one with two minima is tracked again between them,
thrown away if this finds nothing and otherwise registered with the minima found. -/
theorem C51_small (track track3 : P → K → K → List (Minimum P K)) (dist : P → P → K)
    (phases : List (Phase P K)) (ph : Phase P K) :
    (ph.mins.length < 2 → addPhase track track3 dist phases ph = ok phases) ∧
    (∀ a b, ph.mins = [a, b] →
      (track3 a.point a.temp b.temp = [] → addPhase track track3 dist phases ph = ok phases) ∧
      (track3 a.point a.temp b.temp ≠ [] →
        3 ≤ (ph.addAll (track3 a.point a.temp b.temp)).mins.length →
        addPhase track track3 dist phases ph =
          addPhase track track3 dist phases (ph.addAll (track3 a.point a.temp b.temp)))) := by
  refine ⟨?_, ?_⟩
  · intro h
    rw [addPhase]
    match hp : ph.mins with
    | [] => rfl
    | [_] => rfl
    | _ :: _ :: _ => rw [hp] at h; simp at h
  · intro a b hp
    refine ⟨fun h => ?_, fun h h3 => ?_⟩
    · rw [addPhase, hp]; simp [h]
    · rw [addPhase, hp]
      dsimp only
      rw [if_pos (List.length_pos_iff.2 h)]
      rw [addPhase]
      match (ph.addAll (track3 a.point a.temp b.temp)).mins, h3 with
      | _ :: _ :: _ :: _, _ => rfl

/-- C51: a minimum counts as found already exactly if some phase exists at its temperature (ends included)
and has its minimum there closer than 1 GeV times the number of VEVs; the answer is the first such phase.
(Stated for phases that know their minimum at this temperature.) -/
theorem C51_found (track : P → K → K → List (Minimum P K)) (dist : P → P → K) (nVEV : K)
    (hn : 0 < nVEV) (m : Minimum P K) (val : Nat → P) (phases : List (Phase P K))
    (ho : ∀ p ∈ phases, Ordered p)
    (hk : ∀ (i : Nat) (p : Phase P K), phases[i]? = some p → ExistsAt p m.temp →
      Knows p (fun _ => val i) [m.temp]) :
    (∀ (i : Nat) (p : Phase P K), phases[i]? = some p → ExistsAt p m.temp →
      dist m.point (val i) < nVEV →
      (∀ (j : Nat) (q : Phase P K), j < i → phases[j]? = some q →
        ¬ (ExistsAt q m.temp ∧ dist m.point (val j) < nVEV)) →
      minimumFoundAlready track dist nVEV m phases = ok (some i, phases)) ∧
    ((∀ (j : Nat) (q : Phase P K), phases[j]? = some q →
        ¬ (ExistsAt q m.temp ∧ dist m.point (val j) < nVEV)) →
      minimumFoundAlready track dist nVEV m phases = ok (none, phases)) := by
  classical
  induction phases generalizing val with
  | nil => exact ⟨by simp, fun _ => rfl⟩
  | cons p rest ih =>
    obtain ⟨ih1, ih2⟩ := ih (fun i => val (i + 1)) (fun q hq => ho q (by simp [hq]))
      (fun i q h => hk (i + 1) q (by simpa using h))
    have step : minimumFoundAlready track dist nVEV m (p :: rest) =
        if ExistsAt p m.temp ∧ dist m.point (val 0) < nVEV then ok (some 0, p :: rest)
        else (minimumFoundAlready track dist nVEV m rest >>= fun r =>
          ok (r.1.map (· + 1), p :: r.2)) := by
      rw [minimumFoundAlready]
      by_cases he : ExistsAt p m.temp
      · rw [if_neg (by rintro (h | h); exacts [absurd he.2 (not_le.2 h), absurd he.1 (not_le.2 h)])]
        obtain ⟨x, hx, e1, e2⟩ := hk 0 p rfl he m.temp (by simp)
        rw [get_known track p m.temp x (ho p (by simp)) hx e1, bind_ok]
        dsimp only
        rw [e2]
        by_cases hd : dist m.point (val 0) < nVEV
        · rw [if_pos ((div_lt_one hn).2 hd), if_pos ⟨he, hd⟩]
        · rw [if_neg (fun h => hd ((div_lt_one hn).1 h)), if_neg (fun h => hd h.2)]
      · rw [if_pos, if_neg (fun h => he h.1)]
        rw [ExistsAt, not_and_or, not_le, not_le] at he
        exact he.symm
    refine ⟨?_, ?_⟩
    · intro i q hi he hd hf
      cases i with
      | zero =>
        obtain rfl : p = q := by simpa using hi
        rw [step, if_pos ⟨he, hd⟩]
      | succ i =>
        rw [step, if_neg (hf 0 p (by omega) rfl),
          ih1 i q (by simpa using hi) he hd
            (fun j q hj hq => hf (j + 1) q (by omega) (by simpa using hq))]
        rfl
    · intro hn
      rw [step, if_neg (hn 0 p rfl), ih2 (fun j q h => hn (j + 1) q (by simpa using h))]
      rfl

/-- A phase of three minima is registered; a second one at the same place is merged into it, one 5 GeV
away is appended; a phase of one minimum is dropped. -/
example :
    let track : ℚ → ℚ → ℚ → List (Minimum ℚ ℚ) := fun x s t => [⟨x, s, 0, 0⟩, ⟨x, t, 0, 0⟩]
    let track3 : ℚ → ℚ → ℚ → List (Minimum ℚ ℚ) := fun x s t =>
      [⟨x, s, 0, 0⟩, ⟨x, (s + t) / 2, 0, 0⟩, ⟨x, t, 0, 0⟩]
    let dist : ℚ → ℚ → ℚ := fun a b => |a - b|
    let p1 : Phase ℚ ℚ := Phase.ofMinima [⟨0, 0, 0, 0⟩, ⟨0, 12, 0, 0⟩]
    let p2 : Phase ℚ ℚ := Phase.ofMinima [⟨0, 6, 0, 0⟩, ⟨0, 18, 0, 0⟩]
    let p3 : Phase ℚ ℚ := Phase.ofMinima [⟨5, 0, 0, 0⟩, ⟨5, 12, 0, 0⟩]
    let r := do
      let l ← addPhase track track3 dist [] p1
      let l ← addPhase track track3 dist l p2
      let l ← addPhase track track3 dist l p3
      addPhase track track3 dist l (Phase.ofMinima [⟨7, 0, 0, 0⟩])
    (r >>= fun l => ok (l.map fun p => (p.tLow, p.tHigh, p.mins.head?.map (·.edge),
      p.mins.getLast?.map (·.edge)))) =
      ok [(0, 18, some (-1), some 1), (0, 12, some (-1), some 1)] := by
  decide +kernel

end Verif.Tracer
