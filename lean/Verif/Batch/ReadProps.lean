import Verif.Batch.Read
import Verif.Batch.ReadSpec

/-!
# C100: what is read from a line with a parameter point
-/

namespace Verif.Batch

open Outcome Spec
open Models (Class)

/-! ## White space -/

theorem cell_space {x : List Char} (h : Cell x) : ∀ c ∈ x, isSpace c = false := by
  intro c hc
  obtain ⟨h1, h2, h3, h4, h5, h6⟩ := h c hc
  simp [isSpace, h1, h2, h3, h4, h5, h6]

theorem tokens_tab {x : List Char} (h : Cell x) (y : List Char) :
    tokens (x ++ '\t' :: y) = (if x = [] then [] else [x]) ++ tokens y := by
  induction x with
  | nil => simp [tokens, isSpace]
  | cons c l ih =>
    have hc := cell_space h c (by simp)
    have hl : Cell l := fun d hd => h d (by simp [hd])
    have ih := ih hl
    cases l with
    | nil =>
      have ht : isSpace '\t' = true := by decide
      simp [tokens, hc, ht]
    | cons d l =>
      have hd := cell_space h d (by simp)
      rw [if_neg (by simp)] at ih ⊢
      rw [List.cons_append, List.cons_append]
      rw [List.cons_append] at ih
      rw [tokens]
      simp [hc, hd, ih]

theorem tokens_cell {x : List Char} (h : Cell x) : tokens x = if x = [] then [] else [x] := by
  induction x with
  | nil => simp [tokens]
  | cons c l ih =>
    have hc := cell_space h c (by simp)
    have hl : Cell l := fun d hd => h d (by simp [hd])
    have ih := ih hl
    cases l with
    | nil => simp [tokens, hc]
    | cons d l =>
      have hd := cell_space h d (by simp)
      rw [if_neg (by simp)] at ih ⊢
      rw [tokens]
      simp [hc, hd, ih]

/-- The pieces of a line are its cells without the empty ones. -/
theorem tokens_tabbed {l : List (List Char)} (h : ∀ x ∈ l, Cell x) :
    tokens (tabbed l) = l.filter (fun x => !x.isEmpty) := by
  induction l with
  | nil => simp [tabbed, tokens]
  | cons a l ih =>
    have ha := h a (by simp)
    have ih := ih fun x hx => h x (by simp [hx])
    cases l with
    | nil => rw [tabbed, tokens_cell ha]; cases a <;> simp
    | cons b l =>
      rw [tabbed, tokens_tab ha, ih, List.filter_cons (xs := b :: l)]
      cases a <;> simp only [List.isEmpty_nil, List.isEmpty_cons, Bool.not_true, Bool.not_false, Bool.false_eq_true, if_true,
        if_false, List.nil_append, List.singleton_append, reduceCtorEq]

theorem tokens_full {l : List (List Char)} (h : ∀ x ∈ l, Cell x ∧ x ≠ []) : tokens (tabbed l) = l := by
  rw [tokens_tabbed fun x hx => (h x hx).1, List.filter_eq_self]
  intro x hx
  have := (h x hx).2
  cases x <;> simp_all

/-! ## Extractions -/

variable {K : Type} [Zero K] (conv : List Char → Option K)

theorem reads_length (n : Nat) (r : Reader K) : (reads conv n r).length = n := by
  induction n generalizing r with
  | zero => rfl
  | succ n ih => simp [reads, ih]

/-- Once the stream has failed nothing changes. -/
theorem reads_failed (n : Nat) (t : Option K) (l : List (List Char)) :
    reads conv n ⟨t, true, l⟩ = List.replicate n t := by
  induction n with
  | zero => rfl
  | succ n ih => simp [reads, extract, ih, List.replicate_succ]

/-- After the last piece nothing changes. -/
theorem reads_end (n : Nat) (t : Option K) : reads conv n ⟨t, false, []⟩ = List.replicate n t := by
  cases n with
  | zero => rfl
  | succ n => simp [reads, extract, reads_failed, List.replicate_succ]

/-- The values while there are numbers. -/
theorem reads_get {l : List (List Char)} {n k : Nat} {x : K} (hk : k < n) (t : Option K)
    (h : ∀ j ≤ k, ∃ s y, l[j]? = some s ∧ conv s = some y) (hx : (l[k]?).bind conv = some x) :
    (reads conv n ⟨t, false, l⟩)[k]? = some (some x) := by
  induction k generalizing n l t with
  | zero =>
    obtain ⟨s, y, hs, hy⟩ := h 0 (Nat.le_refl _)
    cases n with
    | zero => omega
    | succ n =>
      cases l with
      | nil => simp at hs
      | cons a l =>
        simp only [List.getElem?_cons_zero, Option.some.injEq] at hs hx
        subst hs
        simp only [Option.bind_some] at hx
        simp [reads, extract, hx]
  | succ k ih =>
    obtain ⟨s, y, hs, hy⟩ := h 0 (Nat.zero_le _)
    cases n with
    | zero => omega
    | succ n =>
      cases l with
      | nil => simp at hs
      | cons a l =>
        simp only [List.getElem?_cons_zero, Option.some.injEq] at hs
        subst hs
        rw [reads, List.getElem?_cons_succ]
        simp only [extract, hy, Bool.false_eq_true, if_false]
        refine ih (by omega) (some y) (fun j hj => ?_) (by simpa using hx)
        simpa using h (j + 1) (by omega)

/-- The values after the last number. -/
theorem reads_last {l : List (List Char)} {n k m : Nat} {x : K} (hk : k < n) (t : Option K) (hm : l.length = m + 1)
    (hle : m ≤ k) (h : ∀ s ∈ l, ∃ y, conv s = some y) (hx : (l[m]?).bind conv = some x) :
    (reads conv n ⟨t, false, l⟩)[k]? = some (some x) := by
  induction m generalizing n l t k with
  | zero =>
    obtain ⟨a, rfl⟩ : ∃ a, l = [a] := by
      cases l with
      | nil => simp at hm
      | cons a l => cases l with
        | nil => exact ⟨a, rfl⟩
        | cons b l => simp at hm
    simp only [List.getElem?_cons_zero, Option.bind_some] at hx
    cases n with
    | zero => omega
    | succ n =>
      rw [reads]
      simp only [extract, hx, Bool.false_eq_true, if_false, reads_end]
      cases k with
      | zero => simp
      | succ k => simp [List.getElem?_replicate]; omega
  | succ m ih =>
    cases n with
    | zero => omega
    | succ n =>
      cases l with
      | nil => simp at hm
      | cons a l =>
        obtain ⟨y, hy⟩ := h a (by simp)
        rw [reads]
        simp only [extract, hy, Bool.false_eq_true, if_false]
        cases k with
        | zero => omega
        | succ k =>
          rw [List.getElem?_cons_succ]
          exact ih (by omega) (some y) (by simpa using hm) (by omega) (fun s hs => h s (by simp [hs])) (by simpa using hx)

/-- The values from a piece that is not a number on. -/
theorem reads_text {l : List (List Char)} {n k m : Nat} {s : List Char} (hk : k < n) (t : Option K) (hle : m ≤ k)
    (h : ∀ j < m, ∃ s y, l[j]? = some s ∧ conv s = some y) (hs : l[m]? = some s) (hn : conv s = none) :
    (reads conv n ⟨t, false, l⟩)[k]? = some (some 0) := by
  induction m generalizing n l t k with
  | zero =>
    cases l with
    | nil => simp at hs
    | cons a l =>
      simp only [List.getElem?_cons_zero, Option.some.injEq] at hs
      subst hs
      cases n with
      | zero => omega
      | succ n =>
        rw [reads]
        simp only [extract, hn, Bool.false_eq_true, if_false, reads_failed]
        cases k with
        | zero => simp
        | succ k => simp [List.getElem?_replicate]; omega
  | succ m ih =>
    cases l with
    | nil => simp at hs
    | cons a l =>
      obtain ⟨s', y, hs', hy⟩ := h 0 (by omega)
      simp only [List.getElem?_cons_zero, Option.some.injEq] at hs'
      subst hs'
      cases n with
      | zero => omega
      | succ n =>
        rw [reads]
        simp only [extract, hy, Bool.false_eq_true, if_false]
        cases k with
        | zero => omega
        | succ k =>
          rw [List.getElem?_cons_succ]
          refine ih (by omega) (some y) (by omega) (fun j hj => ?_) (by simpa using hs)
          simpa using h (j + 1) (by omega)

/-! ## The parameters -/

theorem mapM_ok {α β : Type} {f : α → Outcome β} {g : α → β} {l : List α} (h : ∀ a ∈ l, f a = ok (g a)) :
    l.mapM f = ok (l.map g) := by
  induction l with
  | nil => rfl
  | cons a l ih =>
    rw [List.mapM_cons, h a (by simp), ih fun b hb => h b (by simp [hb])]
    rfl

theorem entries_table (c : Class) : (entries c).length = (parameters c).length ∧ count c = (documented c).length ∧
    (∀ e ∈ entries c, 1 ≤ e.1 ∧ e.1 ≤ count c ∧ (e.2 = true → e.1 = 1)) ∧
    (∀ i < (entries c).length, ∀ e ∈ (entries c)[i]?, (documented c)[e.1 - 1]? = (parameters c)[i]?) ∧
    (documented c).Nodup ∧ (parameters c).Nodup := by
  cases c <;> decide +kernel

omit [Zero K] in
/-- The list of parameters, when every value that is needed is known. -/
theorem entry_all {c : Class} {values : List (Option K)} {trunc : K → K} {val : Nat → K}
    (h : ∀ k < count c, values[k]? = some (some (val k))) (ht : trunc (val 0) = val 0) :
    (entries c).mapM (entry trunc values) = ok ((entries c).map fun e => val (e.1 - 1)) := by
  refine mapM_ok fun e he => ?_
  obtain ⟨-, -, h3, -⟩ := entries_table c
  obtain ⟨h1, h2, h4⟩ := h3 e he
  unfold entry
  rw [h (e.1 - 1) (by omega)]
  by_cases h5 : e.2 = true
  · simp [h5, h4 h5, ht]
  · simp [h5]

omit [Zero K] in
theorem parameter_value {c : Class} (val : Nat → K) {i j : Nat} (hi : i < (parameters c).length)
    (hj : j < (documented c).length) (h : (parameters c)[i]? = (documented c)[j]?) :
    ((entries c).map fun e => val (e.1 - 1))[i]? = some (val j) := by
  obtain ⟨h1, h2, h3, h4, h5, -⟩ := entries_table c
  have hi' : i < (entries c).length := by omega
  rw [List.getElem?_map, List.getElem?_eq_getElem hi']
  have h6 := h4 i hi' (entries c)[i] (by simp)
  obtain ⟨h7, h8, -⟩ := h3 _ (List.getElem_mem hi')
  have h9 : (entries c)[i].1 - 1 = j := by
    rw [h] at h6
    exact (List.getElem?_inj (by omega) h5).1 h6
  simp [h9]

omit [Zero K] in
theorem values_exist {l : List (List Char)} (h : ∀ x ∈ l, ∃ y, conv x = some y) (d : K) :
    ∃ val : Nat → K, ∀ k < l.length, (l[k]?).bind conv = some (val k) := by
  refine ⟨fun k => ((l[k]?).bind conv).getD d, fun k hk => ?_⟩
  obtain ⟨y, hy⟩ := h l[k] (List.getElem_mem hk)
  simp [List.getElem?_eq_getElem hk, hy]

/-- C100.  A file has the documented columns of the model, then any others.  If the header begins with a tab, there is a column
in front with the number of the point.  For every line of the file whose cells are numbers, each parameter of the model
is the number in the column with its name. -/
theorem C100_columns (trunc : K → K) (c : Class) (more : List (List Char)) (indexed : Bool) (index : List Char)
    (cells : List (List Char)) (row : List Char)
    (hrow : row = tabbed (if indexed then index :: cells else cells))
    (hcell : ∀ x ∈ index :: cells, Cell x ∧ x ≠ [])
    (hlen : (documented c).length ≤ cells.length)
    (hnum : ∀ x ∈ index :: cells.take (documented c).length, ∃ y, conv x = some y)
    (htype : ∀ x, (cells[0]?).bind conv = some x → trunc x = x) :
    let names := (documented c).map String.toList ++ more
    let header := tabbed (if indexed then [] :: names else names)
    ∃ par, readAndSet conv trunc (useIndexCol header) c row = ok par ∧ par.length = (parameters c).length ∧
      ∀ i j : Nat, i < (parameters c).length → j < (documented c).length → (parameters c)[i]? = (documented c)[j]? →
        ∃ x : K, (cells[j]?).bind conv = some x ∧ par[i]? = some x := by
  intro names header
  obtain ⟨h1, h2, -, -, -⟩ := entries_table c
  have hindex : useIndexCol header = indexed := by
    cases indexed with
    | true =>
      have : ∃ a l, names = a :: l := by cases c <;> exact ⟨_, _, rfl⟩
      obtain ⟨a, l, ha⟩ := this
      simp [header, ha, tabbed, useIndexCol]
    | false =>
      simp only [header, names, Bool.false_eq_true, if_false]
      cases more with
      | nil => cases c <;> rfl
      | cons a l => cases c <;> rfl
  obtain ⟨val, hval⟩ := values_exist conv (l := cells.take (documented c).length)
    (fun x hx => hnum x (by simp [hx])) (0 : K)
  have hval' : ∀ k < count c, (cells[k]?).bind conv = some (val k) := by
    intro k hk
    have := hval k (by rw [List.length_take]; omega)
    rwa [List.getElem?_take, if_pos (by omega)] at this
  have hpos : 0 < count c := by cases c <;> decide
  have hreads : ∀ (t : Option K), ∀ k < count c, (reads conv (count c) ⟨t, false, cells⟩)[k]? = some (some (val k)) := by
    intro t k hk
    refine reads_get conv hk t (fun j hj => ?_) (hval' k hk)
    have := hval' j (by omega)
    rcases h : cells[j]? with _ | s
    · simp [h] at this
    · exact ⟨s, val j, rfl, by simpa [h] using this⟩
  have ht : trunc (val 0) = val 0 := htype _ (hval' 0 hpos)
  have hres : readAndSet conv trunc (useIndexCol header) c row = ok ((entries c).map fun e => val (e.1 - 1)) := by
    rw [hindex]
    unfold readAndSet
    cases indexed with
    | true =>
      obtain ⟨y, hy⟩ := hnum index (by simp)
      have htok : tokens row = index :: cells := by
        rw [hrow]; exact tokens_full hcell
      simp only [if_true, htok, extract, hy, Bool.false_eq_true, if_false]
      exact entry_all (hreads _) ht
    | false =>
      have htok : tokens row = cells := by
        rw [hrow, if_neg (by simp)]; exact tokens_full fun x hx => hcell x (by simp [hx])
      simp only [htok, Bool.false_eq_true, if_false]
      exact entry_all (hreads _) ht
  refine ⟨_, hres, by simp [h1], fun i j hi hj hij => ⟨val j, hval' j (by omega), parameter_value val hi hj hij⟩⟩

/-- C100.  A line with too few columns is not rejected: every parameter whose column is missing gets the number in the last
column that is there. -/
theorem C100_short_fails (trunc : K → K) (c : Class) (cells : List (List Char)) (m : Nat) (last : K)
    (hcell : ∀ x ∈ cells, Cell x ∧ x ≠ []) (hlen : cells.length = m + 1) (hm : m + 1 ≤ (documented c).length)
    (hnum : ∀ x ∈ cells, ∃ y, conv x = some y) (hlast : (cells[m]?).bind conv = some last)
    (htype : ∀ x, (cells[0]?).bind conv = some x → trunc x = x) :
    ∃ par, readAndSet conv trunc false c (tabbed cells) = ok par ∧
      ∀ i j : Nat, i < (parameters c).length → j < (documented c).length → (parameters c)[i]? = (documented c)[j]? →
        m ≤ j → par[i]? = some last := by
  obtain ⟨h1, h2, -, -, -⟩ := entries_table c
  obtain ⟨val, hval⟩ := values_exist conv hnum (0 : K)
  have hreads : ∀ k < count c,
      (reads conv (count c) ⟨none, false, cells⟩)[k]? = some (some (if k ≤ m then val k else last)) := by
    intro k hk
    by_cases hkm : k ≤ m
    · rw [if_pos hkm]
      refine reads_get conv hk none (fun j hj => ?_) (hval k (by omega))
      have hj' : j < cells.length := by omega
      obtain ⟨y, hy⟩ := hnum cells[j] (List.getElem_mem hj')
      exact ⟨cells[j], y, List.getElem?_eq_getElem hj', hy⟩
    · rw [if_neg hkm]
      exact reads_last conv hk none hlen (by omega) hnum hlast
  refine ⟨_, ?_, fun i j hi hj hij hmj => (parameter_value (fun k => if k ≤ m then val k else last) hi hj hij).trans ?_⟩
  · unfold readAndSet
    rw [tokens_full hcell]
    simp only [Bool.false_eq_true, if_false]
    refine entry_all hreads ?_
    rw [if_pos (Nat.zero_le _)]
    exact htype _ (hval 0 (by omega))
  · by_cases hjm : j ≤ m
    · obtain rfl : j = m := by omega
      have := hval j (by omega)
      rw [if_pos (Nat.le_refl _)]
      rw [hlast] at this
      exact this.symm
    · rw [if_neg hjm]

/-- C100.  A cell that is not a number is not reported: its parameter and those of all later columns become 0. -/
theorem C100_text_fails (trunc : K → K) (c : Class) (cells : List (List Char)) (m : Nat) (text : List Char)
    (hcell : ∀ x ∈ cells, Cell x ∧ x ≠ [])
    (hnum : ∀ j < m, ∃ s y, cells[j]? = some s ∧ conv s = some y) (htext : cells[m]? = some text)
    (hno : conv text = none) (htype : ∀ x, (cells[0]?).bind conv = some x → trunc x = x) (hzero : trunc 0 = 0) :
    ∃ par, readAndSet conv trunc false c (tabbed cells) = ok par ∧
      ∀ i j : Nat, i < (parameters c).length → j < (documented c).length → (parameters c)[i]? = (documented c)[j]? →
        m ≤ j → par[i]? = some 0 := by
  have hreads : ∀ k < count c, (reads conv (count c) ⟨none, false, cells⟩)[k]? =
      some (some (if k < m then ((cells[k]?).bind conv).getD 0 else 0)) := by
    intro k hk
    by_cases hkm : k < m
    · rw [if_pos hkm]
      obtain ⟨s, y, hs, hy⟩ := hnum k hkm
      refine reads_get conv hk none (fun j hj => hnum j (by omega)) ?_
      simp [hs, hy]
    · rw [if_neg hkm]
      exact reads_text conv hk none (by omega) hnum htext hno
  refine ⟨_, ?_, fun i j hi hj hij hmj =>
    (parameter_value (fun k => if k < m then ((cells[k]?).bind conv).getD 0 else 0) hi hj hij).trans ?_⟩
  · unfold readAndSet
    rw [tokens_full hcell]
    simp only [Bool.false_eq_true, if_false]
    refine entry_all hreads ?_
    by_cases h0 : 0 < m
    · obtain ⟨s, y, hs, hy⟩ := hnum 0 h0
      have := htype y (by simp [hs, hy])
      simp [h0, hs, hy, this]
    · simp [h0, hzero]
  · rw [if_neg (by omega)]

/-- C100.  A cell that is left empty is not reported: all later cells are taken for the columns one further to the left. -/
theorem C100_blank_fails (trunc : K → K) (c : Class) (index : Bool) (before after : List (List Char))
    (hcell : ∀ x ∈ before ++ after, Cell x) :
    readAndSet conv trunc index c (tabbed (before ++ [] :: after)) =
      readAndSet conv trunc index c (tabbed (before ++ after)) := by
  have h : tokens (tabbed (before ++ [] :: after)) = tokens (tabbed (before ++ after)) := by
    rw [tokens_tabbed hcell, tokens_tabbed]
    · simp
    · intro x hx
      rcases List.mem_append.1 hx with hx | hx
      · exact hcell x (by simp [hx])
      · rcases List.mem_cons.1 hx with rfl | hx
        · intro c hc; simp at hc
        · exact hcell x (by simp [hx])
  unfold readAndSet
  rw [h]

/-- C100.  On an empty line, which C99 shows to be passed on by `NLOVEV` and by the programs for one line, variables are used
that have no value. -/
theorem C100_empty_fails (trunc : K → K) (c : Class) (index : Bool) (line : List Char)
    (hline : ∀ ch ∈ line, isSpace ch = true) :
    readAndSet conv trunc index c line = ub .uninitialised := by
  have htok : tokens line = [] := by
    induction line with
    | nil => rfl
    | cons a l ih =>
      have ha := hline a (by simp)
      have := ih fun ch hch => hline ch (by simp [hch])
      rw [tokens.eq_def]
      simp [ha, this]
  have hreads : reads conv (count c) (if index then extract conv ⟨none, false, tokens line⟩
      else (⟨none, false, tokens line⟩ : Reader K)) = List.replicate (count c) none := by
    rw [htok]
    cases index with
    | true => simp [extract, reads_failed]
    | false => simp [reads_end]
  unfold readAndSet
  simp only
  rw [hreads]
  have : ∀ e : Nat × Bool, entry trunc (List.replicate (count c) (none : Option K)) e = ub .uninitialised := by
    intro e
    unfold entry
    by_cases h : e.1 - 1 < count c
    · simp [h]
    · simp [h]
  have hne : ∃ a l, entries c = a :: l := by cases c <;> exact ⟨_, _, rfl⟩
  obtain ⟨a, l, hal⟩ := hne
  rw [hal, List.mapM_cons, this]
  rfl

/-! ## Cases -/

/-- The numbers 1, 2, …, 9 written with one digit. -/
def exConv : List Char → Option Int
  | [c] => if '1' ≤ c ∧ c ≤ '9' then some (c.toNat - '0'.toNat) else none
  | _ => none

example : readAndSet exConv id (useIndexCol "\ttype\tL1".toList) .r2hdm "1\t2\t3\t4\t5\t6\t7\t8\t9".toList =
    ok [3, 4, 5, 6, 7, 8, 9, 2] := by decide +kernel

example : readAndSet exConv id false .r2hdm "2\t3\t4".toList = ok [3, 4, 4, 4, 4, 4, 4, 2] := by decide +kernel

example : readAndSet exConv id false .r2hdm "2\t3\tx\t5\t6\t7\t8\t9".toList = ok [3, 0, 0, 0, 0, 0, 0, 2] := by
  decide +kernel

example : readAndSet exConv id false .r2hdm "2\t3\t\t5\t6\t7\t8\t9".toList = ok [3, 5, 6, 7, 8, 9, 9, 2] := by
  decide +kernel

example : ∀ x ∈ ([['1'], ['2']] : List (List Char)), Cell x ∧ x ≠ [] := by
  intro x hx
  simp only [List.mem_cons, List.not_mem_nil, or_false] at hx
  rcases hx with rfl | rfl <;> refine ⟨?_, by simp⟩ <;> intro c hc <;> simp only [List.mem_singleton] at hc <;>
    subst hc <;> decide

end Verif.Batch
