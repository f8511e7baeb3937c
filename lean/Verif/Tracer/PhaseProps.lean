import Verif.Tracer.PhaseSpec
import Mathlib.Tactic.Linarith

/-!
# C20, C22: phases and pairs of phases
-/

namespace Verif.Tracer

set_option linter.unusedSectionVars false

open Spec Outcome

variable {P K : Type} [Field K] [LinearOrder K]

/-! ### Lemmas -/

/-- Insertion into a list sorted by temperature. -/
def insertSorted (m : Minimum P K) : List (Minimum P K) → List (Minimum P K)
  | [] => [m]
  | a :: l => if m.temp < a.temp then m :: a :: l else a :: insertSorted m l

theorem insertSorted_perm (m : Minimum P K) (l : List (Minimum P K)) :
    (insertSorted m l).Perm (m :: l) := by
  induction l with
  | nil => exact List.Perm.refl _
  | cons a l ih =>
    rw [insertSorted]
    split
    · exact List.Perm.refl _
    · exact (ih.cons a).trans (List.Perm.swap m a l)

theorem insertSorted_sorted (m : Minimum P K) (l : List (Minimum P K))
    (h : l.Pairwise fun a b => a.temp < b.temp) (hm : ∀ x ∈ l, x.temp ≠ m.temp) :
    (insertSorted m l).Pairwise fun a b => a.temp < b.temp := by
  induction l with
  | nil => simp [insertSorted]
  | cons a l ih =>
    rw [insertSorted]
    rw [List.pairwise_cons] at h
    split
    · rename_i hlt
      rw [List.pairwise_cons, List.pairwise_cons]
      refine ⟨?_, h⟩
      intro x hx
      rcases List.mem_cons.1 hx with rfl | hx
      · exact hlt
      · exact lt_trans hlt (h.1 x hx)
    · rename_i hlt
      rw [List.pairwise_cons]
      refine ⟨?_, ih h.2 (fun x hx => hm x (by simp [hx]))⟩
      intro x hx
      rcases List.mem_cons.1 ((insertSorted_perm m l).mem_iff.1 hx) with rfl | hx
      · exact lt_of_le_of_ne (not_lt.1 hlt) (hm a (by simp))
      · exact h.1 x hx

theorem insertMid_some (m : Minimum P K) (a : Minimum P K) (l l' : List (Minimum P K))
    (ha : a.temp < m.temp) (hm : ∀ x ∈ a :: l, x.temp ≠ m.temp)
    (h : insertMid m (a :: l) = some l') : l' = insertSorted m (a :: l) := by
  induction l generalizing a l' with
  | nil => simp [insertMid] at h
  | cons b l ih =>
    rw [insertMid] at h
    rw [insertSorted, if_neg (not_lt.2 ha.le)]
    split at h
    · rename_i hc
      rw [insertSorted, if_pos hc.2]
      exact (Option.some.inj h).symm
    · rename_i hc
      have hb : b.temp < m.temp :=
        lt_of_le_of_ne (not_lt.1 fun h' => hc ⟨ha, h'⟩) (hm b (by simp))
      rw [Option.map_eq_some_iff] at h
      obtain ⟨r, hr, rfl⟩ := h
      rw [ih b r hb (fun x hx => hm x (by simp [List.mem_cons.1 hx])) hr]

theorem insertMid_none (m : Minimum P K) (a : Minimum P K) (l : List (Minimum P K))
    (ha : a.temp < m.temp) (hm : ∀ x ∈ a :: l, x.temp ≠ m.temp)
    (h : insertMid m (a :: l) = none) : insertSorted m (a :: l) = a :: l ++ [m] := by
  induction l generalizing a with
  | nil => simp [insertSorted, not_lt.2 ha.le]
  | cons b l ih =>
    rw [insertMid] at h
    rw [insertSorted, if_neg (not_lt.2 ha.le)]
    split at h
    · cases h
    · rename_i hc
      have hb : b.temp < m.temp :=
        lt_of_le_of_ne (not_lt.1 fun h' => hc ⟨ha, h'⟩) (hm b (by simp))
      rw [Option.map_eq_none_iff] at h
      rw [ih b hb (fun x hx => hm x (by simp [List.mem_cons.1 hx])) h]
      rfl

theorem map_mapLast {α β : Type} (f : α → α) (g : α → β) (h : ∀ a, g (f a) = g a) (l : List α) :
    (mapLast f l).map g = l.map g := by
  induction l with
  | nil => rfl
  | cons a l ih =>
    cases l with
    | nil => simp [mapLast, h]
    | cons b l => simp only [mapLast, List.map_cons] at ih ⊢; rw [ih]

theorem add_of_mem (p : Phase P K) (m : Minimum P K) (h : ∃ x ∈ p.mins, x.temp = m.temp) :
    p.add m = p := by
  rw [Phase.add, if_pos]
  obtain ⟨x, hx, e⟩ := h
  rw [List.any_eq_true]
  exact ⟨x, hx, by simp [e]⟩

theorem add_content (p : Phase P K) (m : Minimum P K) (h : ∀ x ∈ p.mins, x.temp ≠ m.temp) :
    (p.add m).mins.map content = (insertSorted m p.mins).map content := by
  rw [Phase.add, if_neg]
  · match hp : p.mins with
    | [] => simp [insertSorted]
    | a :: l =>
      dsimp only
      rw [hp] at h
      split
      · rename_i hlt
        simp [insertSorted, hlt, content]
      · rename_i hlt
        have ha : a.temp < m.temp := lt_of_le_of_ne (not_lt.1 hlt) (h a (by simp))
        split
        · rename_i l' hl
          rw [insertMid_some m a l l' ha h hl]
        · rename_i hl
          rw [insertMid_none m a l ha h hl]
          simp only [List.map_append]
          rw [map_mapLast (fun x : Minimum P K => { x with edge := 0 }) content (fun _ => rfl)]
          simp [content]
  · rw [List.any_eq_true]
    rintro ⟨x, hx, e⟩
    exact h x hx (by simpa using (of_decide_eq_true e).symm)

theorem ordered_iff (l : List (Minimum P K)) :
    (l.Pairwise fun a b => a.temp < b.temp) ↔ (l.map content).Pairwise fun a b => a.2.1 < b.2.1 := by
  rw [List.pairwise_map]; rfl

theorem add_cases (p : Phase P K) (m : Minimum P K) :
    (∃ x ∈ p.mins, x.temp = m.temp) ∨ ∀ x ∈ p.mins, x.temp ≠ m.temp := by
  by_cases h : ∃ x ∈ p.mins, x.temp = m.temp
  · exact Or.inl h
  · exact Or.inr fun x hx e => h ⟨x, hx, e⟩

/-! ### C20 -/

/-- C20: adding keeps the order. -/
theorem C20_add_ordered (p : Phase P K) (m : Minimum P K) (h : Ordered p) : Ordered (p.add m) := by
  rcases add_cases p m with hm | hm
  · rw [add_of_mem p m hm]; exact h
  · rw [Ordered, ordered_iff, add_content p m hm, ← ordered_iff]
    exact insertSorted_sorted m p.mins h hm

theorem addAll_ordered (p : Phase P K) (l : List (Minimum P K)) (h : Ordered p) :
    Ordered (p.addAll l) := by
  induction l generalizing p with
  | nil => exact h
  | cons m l ih => exact ih (p.add m) (C20_add_ordered p m h)

/-- C20: after any sequence of additions the minima are strictly increasing in temperature. -/
theorem C20_ordered (l : List (Minimum P K)) : Ordered ((Phase.empty : Phase P K).addAll l) :=
  addAll_ordered _ _ List.Pairwise.nil

theorem mem_add (p : Phase P K) (m : Minimum P K) (c : P × K × K) :
    c ∈ (p.add m).mins.map content ↔
      c ∈ p.mins.map content ∨ (c = content m ∧ ∀ x ∈ p.mins, x.temp ≠ m.temp) := by
  rcases add_cases p m with hm | hm
  · rw [add_of_mem p m hm]
    constructor
    · exact Or.inl
    · rintro (h | ⟨_, h⟩)
      · exact h
      · obtain ⟨x, hx, e⟩ := hm
        exact absurd e (h x hx)
  · rw [add_content p m hm, ((insertSorted_perm m p.mins).map content).mem_iff, List.map_cons,
      List.mem_cons, or_comm]
    constructor
    · rintro (h | h)
      · exact Or.inl h
      · exact Or.inr ⟨h, hm⟩
    · rintro (h | ⟨h, _⟩)
      · exact Or.inl h
      · exact Or.inr h

/-- C20: exactly the first minimum added at every temperature is stored (with its point and
potential): nothing is lost, a temperature already present is not stored again, nor overwritten. -/
theorem C20_stored (l : List (Minimum P K)) (c : P × K × K) :
    c ∈ ((Phase.empty : Phase P K).addAll l).mins.map content ↔
      ∃ m, content m = c ∧ FirstAt m l := by
  induction l using List.reverseRecOn generalizing c with
  | nil =>
    simp only [Phase.addAll, List.foldl_nil, Phase.empty, List.map_nil, List.not_mem_nil, false_iff]
    rintro ⟨m, _, pre, post, h, _⟩
    simp at h
  | append_singleton l m ih =>
    have temps : ∀ l : List (Minimum P K), (∀ c, c ∈ ((Phase.empty : Phase P K).addAll l).mins.map
        content ↔ ∃ m, content m = c ∧ FirstAt m l) → ∀ t,
        (∃ x ∈ ((Phase.empty : Phase P K).addAll l).mins, x.temp = t) ↔ ∃ x ∈ l, x.temp = t := by
      intro l ih t
      constructor
      · rintro ⟨x, hx, rfl⟩
        obtain ⟨m, hm, pre, post, rfl, _⟩ := (ih (content x)).1 (List.mem_map_of_mem hx)
        exact ⟨m, by simp, congrArg (fun c => c.2.1) hm⟩
      · rintro ⟨x, hx, rfl⟩
        -- the first element with this temperature
        have : ∃ m, m.temp = x.temp ∧ FirstAt m l := by
          clear ih
          induction l with
          | nil => cases hx
          | cons a l ih =>
            by_cases ha : a.temp = x.temp
            · exact ⟨a, ha, [], l, rfl, by simp⟩
            · rcases List.mem_cons.1 hx with rfl | hx
              · exact absurd rfl ha
              · obtain ⟨m, hm, pre, post, e, hp⟩ := ih hx
                refine ⟨m, hm, a :: pre, post, by simp [e], ?_⟩
                intro y hy
                rcases List.mem_cons.1 hy with rfl | hy
                · rw [hm]; exact ha
                · exact hp y hy
        obtain ⟨m, hm, hf⟩ := this
        obtain ⟨y, hy, e⟩ := List.mem_map.1 ((ih (content m)).2 ⟨m, rfl, hf⟩)
        exact ⟨y, hy, by rw [← hm]; exact congrArg (fun c => c.2.1) e⟩
    have hadd : (Phase.empty : Phase P K).addAll (l ++ [m]) =
        ((Phase.empty : Phase P K).addAll l).add m := by
      simp [Phase.addAll]
    rw [hadd, mem_add, ih]
    constructor
    · rintro (⟨m', hm', pre, post, rfl, hp⟩ | ⟨rfl, hno⟩)
      · exact ⟨m', hm', pre, post ++ [m], by simp, hp⟩
      · refine ⟨m, rfl, l, [], rfl, fun x hx e => ?_⟩
        obtain ⟨y, hy, e'⟩ := (temps l ih m.temp).2 ⟨x, hx, e⟩
        exact hno y hy e'
    · rintro ⟨m', rfl, pre, post, e, hp⟩
      rcases List.eq_nil_or_concat post with rfl | ⟨post', z, rfl⟩
      · have := List.append_inj' (e : l ++ [m] = pre ++ [m']) rfl
        obtain ⟨rfl, h2⟩ := this
        cases h2
        refine Or.inr ⟨rfl, fun x hx e' => ?_⟩
        obtain ⟨y, hy, e''⟩ := (temps l ih m.temp).1 ⟨x, hx, e'⟩
        exact hp y hy e''
      · have : l ++ [m] = (pre ++ m' :: post') ++ [z] := by simpa using e
        obtain ⟨rfl, _⟩ := List.append_inj' this rfl
        exact Or.inl ⟨m', rfl, pre, post', rfl, hp⟩

theorem head_map_content (l : List (Minimum P K)) :
    (l.map content).head? = l.head?.map content := by cases l <;> rfl

/-- C20: once the range is right, additions keep it right. -/
theorem C20_add_range (p : Phase P K) (m : Minimum P K) (h : Ordered p) (hr : RangeExact p) :
    RangeExact (p.add m) := by
  rcases add_cases p m with hm | hm
  · rw [add_of_mem p m hm]; exact hr
  · have hnot : ¬ (p.mins.any fun x => decide (m.temp = x.temp)) = true := by
      rw [List.any_eq_true]
      rintro ⟨x, hx, e⟩
      exact hm x hx (by simpa using (of_decide_eq_true e).symm)
    obtain ⟨a, b, ha, hb, hlo, hhi⟩ := hr
    obtain ⟨id, tl, th, mins⟩ := p
    cases mins with
    | nil => simp at ha
    | cons a' l =>
      obtain rfl : a' = a := by simpa using ha
      rw [Phase.add, if_neg hnot]
      dsimp only at hm hb hlo hhi ⊢
      split
      · -- new lowest temperature
        cases l with
        | nil =>
          simp only [List.getLast?_singleton, Option.some.injEq] at hb
          subst hb
          exact ⟨_, _, rfl, rfl, rfl, by simpa using hhi⟩
        | cons c l =>
          refine ⟨_, b, rfl, ?_, rfl, hhi⟩
          simpa [List.getLast?_cons_cons] using hb
      · rename_i hlt
        have hac : a'.temp < m.temp := lt_of_le_of_ne (not_lt.1 hlt) (hm a' (by simp))
        split
        · rename_i l' hl
          have key : ∀ (l : List (Minimum P K)) (a : Minimum P K) (l' : List (Minimum P K)),
              insertMid m (a :: l) = some l' → l'.head? = some a ∧ l'.getLast? = (a :: l).getLast? := by
            intro l
            induction l with
            | nil => intro a l' h; simp [insertMid] at h
            | cons c l ih =>
              intro a l' h
              rw [insertMid] at h
              split at h
              · rw [← Option.some.inj h]; simp [List.getLast?_cons_cons]
              · rw [Option.map_eq_some_iff] at h
                obtain ⟨r, hr, rfl⟩ := h
                obtain ⟨h1, h2⟩ := ih c r hr
                refine ⟨rfl, ?_⟩
                cases r with
                | nil => cases h1
                | cons d r =>
                  rw [List.getLast?_cons_cons, List.getLast?_cons_cons]; exact h2
          obtain ⟨h1, h2⟩ := key l a' l' hl
          exact ⟨a', b, h1, by rw [h2]; exact hb, hlo, hhi⟩
        · refine ⟨(mapLast (fun x => { x with edge := 0 }) (a' :: l)).head (by cases l <;> simp [mapLast]),
            { m with edge := 1 }, ?_, by simp, ?_, rfl⟩
          · cases l <;> simp [mapLast]
          · cases l <;> simp [mapLast, hlo]

theorem addAll_range (p : Phase P K) (l : List (Minimum P K)) (h : Ordered p) (hr : RangeExact p) :
    RangeExact (p.addAll l) := by
  induction l generalizing p with
  | nil => exact hr
  | cons m l ih => exact ih (p.add m) (C20_add_ordered p m h) (C20_add_range p m h hr)

theorem add_ne_nil (p : Phase P K) (m : Minimum P K) : (p.add m).mins ≠ [] := by
  rcases add_cases p m with hm | hm
  · rw [add_of_mem p m hm]
    obtain ⟨x, hx, _⟩ := hm
    exact List.ne_nil_of_mem hx
  · intro h
    have := add_content p m hm
    rw [h] at this
    have h2 := congrArg List.length this
    have h3 := (insertSorted_perm m p.mins).length_eq
    simp at h2 h3
    omega

theorem addAll_ne_nil (p : Phase P K) (l : List (Minimum P K)) (h : l ≠ [] ∨ p.mins ≠ []) :
    (p.addAll l).mins ≠ [] := by
  induction l generalizing p with
  | nil => exact h.resolve_left (by simp)
  | cons m l ih => exact ih (p.add m) (Or.inr (add_ne_nil p m))

/-- C20: a phase built by a constructor from at least one minimum is ordered and its recorded range is
exactly the span of its minima, and this stays so after every further sequence of additions. -/
theorem C20_constructed (l more : List (Minimum P K)) (h : l ≠ []) :
    Ordered ((Phase.ofMinima l).addAll more) ∧ RangeExact ((Phase.ofMinima l).addAll more) := by
  have ho := C20_ordered l
  have hne := addAll_ne_nil (Phase.empty : Phase P K) l (Or.inl h)
  have key : Ordered (Phase.ofMinima l) ∧ RangeExact (Phase.ofMinima l) := by
    rw [Phase.ofMinima]
    obtain ⟨a, ha⟩ : ∃ a, ((Phase.empty : Phase P K).addAll l).mins.head? = some a := by
      cases hc : ((Phase.empty : Phase P K).addAll l).mins with
      | nil => exact absurd hc hne
      | cons a l => exact ⟨a, rfl⟩
    obtain ⟨b, hb⟩ : ∃ b, ((Phase.empty : Phase P K).addAll l).mins.getLast? = some b :=
      ⟨_, List.getLast?_eq_some_getLast hne⟩
    simp only [ha, hb]
    exact ⟨ho, a, b, ha, hb, rfl, rfl⟩
  exact ⟨addAll_ordered _ _ key.1, addAll_range _ _ key.1 key.2⟩

/-- C20 is false of `Add` alone: the range of a phase filled by `Add` is not the span of its minima,
because the first minimum does not set it.  (The constructors repair it.) -/
theorem C20_range_needs_constructor :
    let p := (Phase.empty : Phase Unit ℚ).addAll [⟨(), 100, 0, 0⟩, ⟨(), 50, 0, 0⟩]
    p.mins.map (·.temp) = [50, 100] ∧ p.tLow = 50 ∧ p.tHigh = 0 := by
  decide +kernel

/-- C20: the constructor starting from the global minimum rejects exactly the temperatures outside the
range, whichever way round the range is given. -/
theorem C20_start_checked (track : P → K → K → List (Minimum P K)) (glob : K → P) (t a b : K) :
    (Phase.fromGlobal track glob t a b = err .invalidArgument ↔ t < min a b ∨ max a b < t) ∧
    ∀ e, Phase.fromGlobal track glob t a b = err e → e = .invalidArgument := by
  unfold Phase.fromGlobal
  dsimp only
  split_ifs with h1 h2 h3
  · subst h1; simp
  · subst h2; simp
  · constructor
    · simp only [false_iff]
      rintro (h | h)
      · rcases h3 with h3 | h3
        · exact absurd (lt_of_lt_of_le h (min_le_left _ _)) (not_lt.2 h3.2.le)
        · exact absurd (lt_of_lt_of_le h (min_le_right _ _)) (not_lt.2 h3.2.le)
      · rcases h3 with h3 | h3
        · exact absurd (lt_of_le_of_lt (le_max_right _ _) h) (not_lt.2 h3.1.le)
        · exact absurd (lt_of_le_of_lt (le_max_left _ _) h) (not_lt.2 h3.1.le)
    · simp
  · constructor
    · simp only [true_iff]
      by_contra hc
      push Not at hc
      obtain ⟨hc1, hc2⟩ := hc
      apply h3
      rcases min_le_iff.1 hc1 with ha | ha
      · rcases le_max_iff.1 hc2 with hb | hb
        · exact absurd (le_antisymm hb ha) h1
        · exact Or.inl ⟨lt_of_le_of_ne hb h2, lt_of_le_of_ne ha (Ne.symm h1)⟩
      · rcases le_max_iff.1 hc2 with hb | hb
        · exact Or.inr ⟨lt_of_le_of_ne hb h1, lt_of_le_of_ne ha (Ne.symm h2)⟩
        · exact absurd (le_antisymm hb ha) h2
    · intro e he; cases he; rfl

/-- C20: with a start inside the range, the minima added are those tracked from there, in both
directions unless the start is an end of the range. -/
theorem C20_directions (track : P → K → K → List (Minimum P K)) (glob : K → P) (t a b : K) :
    (t = a → Phase.fromGlobal track glob t a b = ok (Phase.ofMinima (track (glob t) t b))) ∧
    (t = b → t ≠ a → Phase.fromGlobal track glob t a b = ok (Phase.ofMinima (track (glob t) t a))) ∧
    (min a b < t → t < max a b → Phase.fromGlobal track glob t a b =
      ok (Phase.ofMinima (track (glob t) t b ++ track (glob t) t a))) := by
  refine ⟨?_, ?_, ?_⟩
  · rintro rfl; simp [Phase.fromGlobal]
  · rintro rfl h; simp [Phase.fromGlobal, h]
  · intro h1 h2
    have hin : (t < b ∧ t > a) ∨ (t < a ∧ t > b) := by
      rcases min_lt_iff.1 h1 with ha | ha <;> rcases lt_max_iff.1 h2 with hb | hb
      · exact absurd ha (not_lt.2 hb.le)
      · exact Or.inl ⟨hb, ha⟩
      · exact Or.inr ⟨hb, ha⟩
      · exact absurd ha (not_lt.2 hb.le)
    have ha : t ≠ a := by rintro rfl; rcases hin with h | h <;> exact lt_irrefl _ (by first | exact h.1 | exact h.2)
    have hb : t ≠ b := by rintro rfl; rcases hin with h | h <;> exact lt_irrefl _ (by first | exact h.1 | exact h.2)
    rw [Phase.fromGlobal]
    simp only [if_neg ha, if_neg hb, if_pos hin]

/-- Both constructions on three minima. -/
example : (Phase.ofMinima ([⟨(), 100, 1, 0⟩, ⟨(), 50, 2, 0⟩, ⟨(), 70, 3, 0⟩, ⟨(), 50, 4, 0⟩] :
    List (Minimum Unit ℚ))) = ⟨0, 50, 100, [⟨(), 50, 2, -1⟩, ⟨(), 70, 3, 0⟩, ⟨(), 100, 1, 0⟩]⟩ := by
  decide +kernel

end Verif.Tracer
