import Verif.Transition.Props

/-!
# C11, C54: the constructor as a whole and the output tables
-/

set_option linter.unusedSectionVars false

namespace Verif.Transition

open Outcome Verif.Tracer

/-! ## C54: which points are analysed -/

section

variable {K : Type} [Field K] [LinearOrder K]

/-- **C54.**  A point whose electroweak minimum is not the global one is not analysed further when the
check is on: nothing but this status is set. -/
theorem C54_unstable (i : TracerInput K) (fuel : Nat) (hc : i.nloCheck = true) (hn : i.nlo = false) :
    transitionTracer i fuel =
      some (ok { legend := getLegend i.vevNames 0 i.gwCalc, nlo := .noNLOStability }) := by
  simp [transitionTracer, hc, hn, getStatusNLOVEV]

/-- **C54.**  A point removed by the check of symmetry restoration is not traced; the two statuses tell
why. -/
theorem C54_filtered (i : TracerInput K) (fuel : Nat) (hn : i.nloCheck = false ∨ i.nlo = true)
    (hf : i.ewsrCheck = 2 ∧ i.ewsr < 2 ∨ i.ewsrCheck = 3 ∧ i.ewsr < 3) :
    transitionTracer i fuel =
      some (ok { legend := getLegend i.vevNames 0 i.gwCalc,
                 nlo := if i.nloCheck then .success else .off,
                 ewsr := getStatusEWSR i.ewsr }) := by
  have hpos : i.ewsrCheck > 0 := by omega
  have hd : ewsrDecision i.ewsrCheck i.ewsr = (getStatusEWSR i.ewsr, true) := by
    rw [ewsrDecision, if_pos hpos]
    rcases hf with ⟨h1, h2⟩ | ⟨h1, h2⟩ <;> simp [h1, h2]
  cases hb : i.nloCheck with
  | false => simp [transitionTracer, hb, hd]
  | true =>
    have : i.nlo = true := by simpa [hb] using hn
    simp [transitionTracer, hb, hd, this, getStatusNLOVEV]

/-- **C54.**  All other points are traced, with the statuses of the two checks. -/
theorem C54_traced (i : TracerInput K) (fuel : Nat) (hn : i.nloCheck = false ∨ i.nlo = true)
    (hf : ¬ (i.ewsrCheck = 2 ∧ i.ewsr < 2 ∨ i.ewsrCheck = 3 ∧ i.ewsr < 3)) :
    transitionTracer i fuel =
      traced i fuel { legend := getLegend i.vevNames 0 i.gwCalc,
                      nlo := if i.nloCheck then .success else .off,
                      ewsr := if i.ewsrCheck > 0 then getStatusEWSR i.ewsr else .off } := by
  have hd : ewsrDecision i.ewsrCheck i.ewsr =
      (if i.ewsrCheck > 0 then getStatusEWSR i.ewsr else .off, false) := by
    rw [ewsrDecision]
    split
    · have h1 : ¬ (i.ewsrCheck = 2 ∧ i.ewsr < 2) := fun h => hf (Or.inl h)
      have h2 : ¬ (i.ewsrCheck = 3 ∧ i.ewsr < 3) := fun h => hf (Or.inr h)
      simp [h1, h2]
    · rfl
  cases hb : i.nloCheck with
  | false => simp [transitionTracer, hb, hd]
  | true =>
    have : i.nlo = true := by simpa [hb] using hn
    simp [transitionTracer, hb, hd, this, getStatusNLOVEV]

/-- **C54.**  The tracing statuses and the number of pairs are always reported; without coexisting pairs
or with a failed tracing there are no entries for pairs. -/
theorem C54_no_pairs (i : TracerInput K) (fuel : Nat) (o : Output K)
    (h : ¬ (i.tracing = .success ∧ i.coex = .success)) :
    traced i fuel o =
      some (ok { o with num := i.pairs.length, tracing := i.tracing, coex := i.coex }) := by
  simp [traced, h]

/-- The number of pairs for which there are columns with values. -/
def shownPairs (o : Output K) : Nat := if o.tracing = .success ∧ o.coex = .success then o.num else 0

/-- What is known about every output of the constructor. -/
theorem output_shape (i : TracerInput K) (fuel : Nat) (o : Output K)
    (h : transitionTracer i fuel = some (ok o)) :
    o.legend = getLegend i.vevNames (shownPairs o) i.gwCalc ∧
    (o.tracing = .success ∧ o.coex = .success →
      o.num = i.pairs.length ∧ o.store = pairLoop i.vevNames.length i.gwCalc i.which i.pairs) ∧
    (o.history = "not_set".toList ∨ ∃ hist pairs, historyText hist pairs = ok o.history) := by
  by_cases hn : i.nloCheck = false ∨ i.nlo = true
  · by_cases hf : i.ewsrCheck = 2 ∧ i.ewsr < 2 ∨ i.ewsrCheck = 3 ∧ i.ewsr < 3
    · rw [C54_filtered i fuel hn hf, Option.some.injEq, Outcome.ok.injEq] at h
      subst h
      exact ⟨by simp [shownPairs], by simp, Or.inl rfl⟩
    · rw [C54_traced i fuel hn hf] at h
      by_cases hs : i.tracing = .success ∧ i.coex = .success
      · rw [traced] at h
        simp only [hs, and_self, if_true] at h
        cases hh : history (pairLoop i.vevNames.length i.gwCalc i.which i.pairs).data i.pairs fuel with
        | none => rw [hh] at h; cases h
        | some r =>
          rw [hh, Option.map_some, Option.some.injEq] at h
          cases r with
          | err e => cases h
          | ub u => cases h
          | ok x =>
            rw [bind_ok] at h
            cases ht : historyText x.1 x.2 with
            | err e => rw [ht] at h; cases h
            | ub u => rw [ht] at h; cases h
            | ok text =>
              rw [ht, bind_ok, Outcome.ok.injEq] at h
              subst h
              exact ⟨by simp [shownPairs], fun _ => ⟨rfl, rfl⟩, Or.inr ⟨_, _, ht⟩⟩
      · rw [C54_no_pairs _ _ _ hs, Option.some.injEq, Outcome.ok.injEq] at h
        subst h
        exact ⟨by simp [shownPairs, hs], fun h => absurd h hs, Or.inl rfl⟩
  · push Not at hn
    rw [C54_unstable i fuel (by simpa using hn.1) (by simpa using hn.2), Option.some.injEq,
      Outcome.ok.injEq] at h
    subst h
    exact ⟨by simp [shownPairs], by simp, Or.inl rfl⟩

end

/-! ## Text without tabs -/

theorem natStr_tab (n : Nat) : '\t' ∉ natStr n := by
  intro h
  have := Nat.isDigit_of_mem_toDigits (by decide) (by decide) h
  simp at this

theorem columns_ne (x : List Char) : columns x ≠ [] := by
  cases x with
  | nil => simp [columns]
  | cons c l =>
    unfold columns
    split
    · simp
    · split <;> simp

theorem columns_tab (x y : List Char) : columns (x ++ '\t' :: y) = columns x ++ columns y := by
  induction x with
  | nil => simp [columns]
  | cons c l ih =>
    by_cases h : c = '\t'
    · subst h
      simp [columns, ih]
    · rw [List.cons_append, columns, columns, if_neg h, if_neg h, ih]
      cases hc : columns l with
      | nil => exact absurd hc (columns_ne l)
      | cons a b => simp

theorem columns_plain {x : List Char} (h : '\t' ∉ x) : columns x = [x] := by
  induction x with
  | nil => rfl
  | cons c l ih =>
    simp only [List.mem_cons, not_or] at h
    unfold columns
    rw [if_neg (Ne.symm h.1), ih h.2]

theorem columns_length (x : List Char) : (columns x).length = tabCount x := by
  unfold tabCount
  induction x with
  | nil => rfl
  | cons c l ih =>
    unfold columns
    by_cases h : c = '\t'
    · subst h
      simp [ih]
    · rw [if_neg h, List.count_cons_of_ne h]
      cases hc : columns l with
      | nil => exact absurd hc (columns_ne l)
      | cons a b => rw [← ih, hc]; simp

theorem columns_cell (x y : List Char) : columns (cell x ++ y) = columns x ++ columns y := by
  rw [cell, List.append_assoc]
  exact columns_tab x y

/-- The columns that a vector takes: one (empty) column for an empty vector. -/
def vecCols (l : List (List Char)) : List (List Char) := if l = [] then [[]] else l

theorem columns_joinTab {l : List (List Char)} (h : ∀ x ∈ l, '\t' ∉ x) : columns (joinTab l) = vecCols l := by
  have : l ≠ [] → columns (joinTab l) = l := by
    induction l with
    | nil => intro h; exact absurd rfl h
    | cons a l ih =>
      intro _
      cases l with
      | nil => exact columns_plain (h a (by simp))
      | cons b l =>
        rw [joinTab, columns_tab, columns_plain (h a (by simp)),
          ih (fun x hx => h x (List.mem_cons_of_mem _ hx)) (by simp)]
        rfl
  unfold vecCols
  split
  · rename_i h0; subst h0; rfl
  · exact this ‹_›

/-- Cells in a row. -/
def cells (l : List (List Char)) : List Char := (l.map cell).flatten

theorem cells_append (a b : List (List Char)) : cells (a ++ b) = cells a ++ cells b := by
  simp [cells]

theorem cells_cons (a : List Char) (b : List (List Char)) : cells (a :: b) = cell a ++ cells b := rfl

theorem columns_cells {l : List (List Char)} (h : ∀ x ∈ l, '\t' ∉ x) (y : List Char) :
    columns (cells l ++ y) = l ++ columns y := by
  induction l with
  | nil => rfl
  | cons a l ih =>
    rw [cells_cons, List.append_assoc, columns_cell, columns_plain (h a (by simp)),
      ih (fun x hx => h x (List.mem_cons_of_mem _ hx))]
    rfl

theorem cell_joinTab {l : List (List Char)} (h : l ≠ []) : cell (joinTab l) = cells l := by
  induction l with
  | nil => exact absurd rfl h
  | cons a l ih =>
    cases l with
    | nil => simp [joinTab, cells]
    | cons b l =>
      rw [cells_cons, ← ih (by simp), joinTab]
      simp [cell]

/-! ## The columns of a pair -/

section

variable {K : Type} (show' : Option K → List Char)

/-- Entry `i` of all lists. -/
def InfoAt (s : Store K) (i : Nat) (x : PairInfo K) : Prop :=
  s.crit[i]? = some x.crit ∧ s.bounce[i]? = some x.bounce ∧ s.approx[i]? = some x.approx ∧
  s.nucl[i]? = some x.nucl ∧ s.perc[i]? = some x.perc ∧ s.compl[i]? = some x.compl ∧
  s.data[i]? = some x.data ∧ s.gw[i]? = some x.gw

/-- The VEVs of a pair have `n` entries. -/
def InfoSized (n : Nat) (x : PairInfo K) : Prop :=
  ∀ s ∈ [x.data.crit, x.data.approx, x.data.nucl, x.data.perc, x.data.compl],
    s.falseVev.length = n ∧ s.trueVev.length = n

theorem stage_names (vev : List (List Char)) (i : Nat) (key : String) (s : Stage K)
    (h : s.falseVev.length = vev.length ∧ s.trueVev.length = vev.length) :
    (stageCols show' vev i key s).map (·.1) = stageLegend vev i key := by
  simp only [stageCols, List.map_append, List.map_cons, List.map_nil]
  have h1 : ((vev.map fun v => v ++ "_".toList ++ key.toList ++ "_false_".toList ++ natStr i).zip
      (s.falseVev.map show')).map (·.1) =
      vev.map fun v => v ++ "_".toList ++ key.toList ++ "_false_".toList ++ natStr i := by
    apply List.map_fst_zip; simp [h.1]
  have h2 : ((vev.map fun v => v ++ "_".toList ++ key.toList ++ "_true_".toList ++ natStr i).zip
      (s.trueVev.map show')).map (·.1) =
      vev.map fun v => v ++ "_".toList ++ key.toList ++ "_true_".toList ++ natStr i := by
    apply List.map_fst_zip; simp [h.2]
  rw [h1, h2]
  simp [stageLegend, numbered, String.toList_append]

theorem stage_values (vev : List (List Char)) (hv : vev ≠ []) (i : Nat) (key : String) (s : Stage K)
    (h : s.falseVev.length = vev.length ∧ s.trueVev.length = vev.length) :
    stageRow show' s = cells ((stageCols show' vev i key s).map (·.2)) := by
  simp only [stageCols, List.map_append, List.map_cons, List.map_nil]
  have h1 : ((vev.map fun v => v ++ "_".toList ++ key.toList ++ "_false_".toList ++ natStr i).zip
      (s.falseVev.map show')).map (·.2) = s.falseVev.map show' := by
    apply List.map_snd_zip; simp [h.1]
  have h2 : ((vev.map fun v => v ++ "_".toList ++ key.toList ++ "_true_".toList ++ natStr i).zip
      (s.trueVev.map show')).map (·.2) = s.trueVev.map show' := by
    apply List.map_snd_zip; simp [h.2]
  have hlen : 0 < vev.length := List.length_pos_of_ne_nil hv
  have hf : s.falseVev.map show' ≠ [] := by
    intro h0
    have := congrArg List.length h0
    simp at this
    rw [this] at h
    simp at h
    omega
  have ht : s.trueVev.map show' ≠ [] := by
    intro h0
    have := congrArg List.length h0
    simp at this
    rw [this] at h
    simp at h
    omega
  rw [h1, h2, cells_append, cells_append, ← cell_joinTab hf, ← cell_joinTab ht]
  simp [stageRow, vecCell, cells]

theorem pair_names (vev : List (List Char)) (g : Bool) (i : Nat) (x : PairInfo K)
    (h : InfoSized vev.length x) :
    (pairCols show' vev g i x).map (·.1) = pairLegend vev g i := by
  have h1 := h x.data.crit (by simp)
  have h2 := h x.data.approx (by simp)
  have h3 := h x.data.nucl (by simp)
  have h4 := h x.data.perc (by simp)
  have h5 := h x.data.compl (by simp)
  simp only [pairCols, pairLegend, List.map_append, List.map_cons, List.map_nil,
    stage_names show' vev i _ _ h1, stage_names show' vev i _ _ h2, stage_names show' vev i _ _ h3,
    stage_names show' vev i _ _ h4, stage_names show' vev i _ _ h5]
  cases g
  · simp [numbered]
  · simp [numbered, gwCols, gwLegend]

theorem pair_values (vev : List (List Char)) (hv : vev ≠ []) (g : Bool) (s : Store K) (i : Nat)
    (x : PairInfo K) (hx : InfoAt s i x) (h : InfoSized vev.length x) :
    pairRow show' g s i = ok (cells ((pairCols show' vev g i x).map (·.2))) := by
  have h1 := h x.data.crit (by simp)
  have h2 := h x.data.approx (by simp)
  have h3 := h x.data.nucl (by simp)
  have h4 := h x.data.perc (by simp)
  have h5 := h x.data.compl (by simp)
  obtain ⟨a1, a2, a3, a4, a5, a6, a7, a8⟩ := hx
  have e1 : at' s.crit i = ok x.crit := by simp [at', a1]
  have e2 : at' s.bounce i = ok x.bounce := by simp [at', a2]
  have e3 : at' s.approx i = ok x.approx := by simp [at', a3]
  have e4 : at' s.nucl i = ok x.nucl := by simp [at', a4]
  have e5 : at' s.perc i = ok x.perc := by simp [at', a5]
  have e6 : at' s.compl i = ok x.compl := by simp [at', a6]
  have e7 : at' s.data i = ok x.data := by simp [at', a7]
  have e8 : at' s.gw i = ok x.gw := by simp [at', a8]
  have hg : gwPart show' g s i =
      ok (cells ((if g = true then gwCols show' i x.gw else []).map (·.2))) := by
    cases g
    · rfl
    · simp only [gwPart, if_true, e8, bind_ok, Outcome.ok.injEq]
      simp [gwRow, gwCols, cells, cell]
  rw [pairRow, e1, bind_ok, e7, bind_ok, e2, bind_ok, e3, bind_ok, e4, bind_ok, e5, bind_ok, e6,
    bind_ok, hg, bind_ok]
  simp only [pairCols, List.map_append, List.map_cons, List.map_nil, cells_append,
    ← stage_values show' vev hv i _ _ h1, ← stage_values show' vev hv i _ _ h2,
    ← stage_values show' vev hv i _ _ h3, ← stage_values show' vev hv i _ _ h4,
    ← stage_values show' vev hv i _ _ h5, Outcome.ok.injEq]
  simp [cells]

/-! ## The whole file -/

/-- A point of the input file together with its result. -/
structure PointOk [Field K] [LinearOrder K] (vev : List (List Char)) (g : Bool) (input : List Char)
    (ct : List (List Char)) (p : Point K) : Prop where
  made : ∃ (i : TracerInput K) (fuel : Nat), transitionTracer i fuel = some (ok p.out) ∧
    i.vevNames = vev ∧ i.gwCalc = g ∧
    ∀ e ∈ i.pairs, ∀ t, (e.falseVev t).length = vev.length ∧ (e.trueVev t).length = vev.length
  width : (columns p.line).length = (columns input).length
  params : p.params.length = ct.length
  paramsTab : ∀ x ∈ p.params, '\t' ∉ x
  timeTab : '\t' ∉ p.time

theorem stepsText_tab : ∀ (hs ps : List Nat) (t : List Char), stepsText hs ps = ok t → '\t' ∉ t
  | [], _, t, h => by
    simp only [stepsText, Outcome.ok.injEq] at h
    subst h
    simp
  | _ :: _, [], t, h => by simp [stepsText] at h
  | a :: hs, p :: ps, t, h => by
    rw [stepsText] at h
    cases hr : stepsText hs ps with
    | err e => rw [hr] at h; cases h
    | ub u => rw [hr] at h; cases h
    | ok r =>
      rw [hr, bind_ok, Outcome.ok.injEq] at h
      have := stepsText_tab hs ps r hr
      subst h
      simp [natStr_tab, this]

theorem history_tab [Field K] [LinearOrder K] (i : TracerInput K) (fuel : Nat) (o : Output K)
    (h : transitionTracer i fuel = some (ok o)) : '\t' ∉ o.history := by
  rcases (output_shape i fuel o h).2.2 with h | ⟨hist, pairs, h⟩
  · rw [h]; decide
  · cases hist with
    | nil => simp [historyText] at h
    | cons a hs =>
      rw [historyText] at h
      cases hr : stepsText hs pairs with
      | err e => rw [hr] at h; cases h
      | ub u => rw [hr] at h; cases h
      | ok r =>
        rw [hr, bind_ok, Outcome.ok.injEq] at h
        have := stepsText_tab hs pairs r hr
        rw [← h]
        simp [natStr_tab, this]

theorem legend_tab (vev : List (List Char)) (hvt : ∀ v ∈ vev, '\t' ∉ v) (g : Bool) (i : Nat) :
    ∀ x ∈ pairLegend vev g i, '\t' ∉ x := by
  have hnum : ∀ name : String, '\t' ∉ name.toList → '\t' ∉ numbered i name := by
    intro name hn
    simp [numbered, hn, natStr_tab]
  have hst : ∀ key : String, '\t' ∉ key.toList → ∀ x ∈ stageLegend vev i key, '\t' ∉ x := by
    intro key hk x hx
    simp only [stageLegend, List.mem_append, List.mem_map, List.mem_singleton] at hx
    rcases hx with (rfl | ⟨v, hv, rfl⟩) | ⟨v, hv, rfl⟩
    · refine hnum _ ?_
      simp [String.toList_append, hk]
    · simp [hvt v hv, numbered, String.toList_append, hk, natStr_tab]
    · simp [hvt v hv, numbered, String.toList_append, hk, natStr_tab]
  intro x hx
  simp only [pairLegend, List.mem_append, List.mem_singleton] at hx
  rcases hx with (((((((((((rfl | hx) | rfl) | rfl) | hx) | rfl) | hx) | rfl) | hx) | rfl) | hx) | hx)
  · exact hnum _ (by decide)
  · exact hst _ (by decide) x hx
  · exact hnum _ (by decide)
  · exact hnum _ (by decide)
  · exact hst _ (by decide) x hx
  · exact hnum _ (by decide)
  · exact hst _ (by decide) x hx
  · exact hnum _ (by decide)
  · exact hst _ (by decide) x hx
  · exact hnum _ (by decide)
  · exact hst _ (by decide) x hx
  · split at hx
    · simp only [gwLegend, List.mem_map] at hx
      obtain ⟨name, hname, rfl⟩ := hx
      refine hnum _ ?_
      revert name
      decide
    · simp at hx

theorem names_tab :
    (∀ s : NLOStatus, '\t' ∉ s.name.toList) ∧ (∀ s : EWSR, '\t' ∉ s.name.toList) ∧
    (∀ s : Tracing, '\t' ∉ s.name.toList) ∧ (∀ s : CoexPair, '\t' ∉ s.name.toList) ∧
    (∀ s : Crit, '\t' ∉ s.name.toList) ∧ (∀ s : TempStatus, '\t' ∉ s.name.toList) ∧
    (∀ s : GWStatus, '\t' ∉ s.name.toList) := by
  refine ⟨?_, ?_, ?_, ?_, ?_, ?_, ?_⟩ <;> intro s <;> cases s <;> decide

theorem stage_tab (hshow : ∀ t, '\t' ∉ show' t) (vev : List (List Char)) (i : Nat) (key : String)
    (s : Stage K) : ∀ x ∈ stageCols show' vev i key s, '\t' ∉ x.2 := by
  intro x hx
  simp only [stageCols, List.mem_append, List.mem_singleton] at hx
  rcases hx with (rfl | hx) | hx
  · exact hshow _
  · have := (List.of_mem_zip (a := x.1) (b := x.2) hx).2
    simp only [List.mem_map] at this
    obtain ⟨y, _, hy⟩ := this
    rw [← hy]
    exact hshow _
  · have := (List.of_mem_zip (a := x.1) (b := x.2) hx).2
    simp only [List.mem_map] at this
    obtain ⟨y, _, hy⟩ := this
    rw [← hy]
    exact hshow _

theorem values_tab (hshow : ∀ t, '\t' ∉ show' t) (vev : List (List Char)) (g : Bool) (i : Nat)
    (x : PairInfo K) : ∀ y ∈ (pairCols show' vev g i x).map (·.2), '\t' ∉ y := by
  have hc := names_tab.2.2.2.2.1
  have ht := names_tab.2.2.2.2.2.1
  have hg := names_tab.2.2.2.2.2.2
  intro y hy
  rw [List.mem_map] at hy
  obtain ⟨z, hz, rfl⟩ := hy
  simp only [pairCols, List.mem_append, List.mem_singleton] at hz
  rcases hz with (((((((((((rfl | hx) | rfl) | rfl) | hx) | rfl) | hx) | rfl) | hx) | rfl) | hx) | hx)
  · exact hc _
  · exact stage_tab show' hshow _ _ _ _ _ hx
  · exact hg _
  · exact ht _
  · exact stage_tab show' hshow _ _ _ _ _ hx
  · exact ht _
  · exact stage_tab show' hshow _ _ _ _ _ hx
  · exact ht _
  · exact stage_tab show' hshow _ _ _ _ _ hx
  · exact ht _
  · exact stage_tab show' hshow _ _ _ _ _ hx
  · split at hx
    · simp only [gwCols, List.map_cons, List.map_nil, List.mem_cons, List.not_mem_nil, or_false] at hx
      rcases hx with rfl | rfl | rfl | rfl | rfl | rfl | rfl | rfl | rfl | rfl | rfl | rfl | rfl | rfl
      · exact hg _
      all_goals exact hshow _
    · simp at hx

theorem cells_flatMap (l : List Nat) (f : Nat → List (List Char)) :
    (l.map fun i => cells (f i)).flatten = cells (l.flatMap f) := by
  induction l with
  | nil => rfl
  | cons a l ih => simp only [List.map_cons, List.flatten_cons, List.flatMap_cons, cells_append, ih]

variable [Field K] [LinearOrder K]

/-- The information about pair `i` in an output of the constructor. -/
theorem info_exists (i : TracerInput K) (fuel : Nat) (o : Output K)
    (h : transitionTracer i fuel = some (ok o))
    (hlen : ∀ e ∈ i.pairs, ∀ t, (e.falseVev t).length = i.vevNames.length ∧
      (e.trueVev t).length = i.vevNames.length) (k : Nat) (hk : k < shownPairs o) :
    ∃ x, InfoAt o.store k x ∧ InfoSized i.vevNames.length x := by
  obtain ⟨_, hstore, _⟩ := output_shape i fuel o h
  have hs : o.tracing = .success ∧ o.coex = .success := by
    by_contra hn
    simp [shownPairs, hn] at hk
  obtain ⟨hnum, hst⟩ := hstore hs
  rw [shownPairs, if_pos hs, hnum] at hk
  obtain ⟨b, a, nu, p, c, d, gw, h1, h2, h3, h4, h5, h6, h7, h8, _⟩ :=
    (C24_one_entry_per_pair i.vevNames.length i.gwCalc i.which i.pairs).2 k _
      (List.getElem?_eq_getElem hk)
  rw [← hst] at h1 h2 h3 h4 h5 h6 h7 h8
  refine ⟨⟨_, b, a, nu, p, c, d, gw⟩, ⟨h1, h2, h3, h4, h5, h6, h7, h8⟩, ?_⟩
  rw [hst] at h7
  exact C24_vev_lengths i.vevNames.length i.gwCalc i.which i.pairs (fun e he t => (hlen e he t).1)
    (fun e he t => (hlen e he t).2) d (List.mem_of_getElem? h7)

/-- The values of a point in the fixed columns. -/
def fixedValues (p : Point K) : List (List Char) :=
  [p.out.nlo.name.toList, p.out.ewsr.name.toList, p.out.tracing.name.toList,
    p.out.coex.name.toList, p.time]

/-- The row of a point, before it is filled up. -/
theorem point_row (vev : List (List Char)) (hv : vev ≠ []) (g : Bool) (input : List Char)
    (ct : List (List Char)) (p : Point K) (hp : PointOk vev g input ct p) :
    ∃ vals : Nat → List (List Char),
      (∀ i < shownPairs p.out, ∃ x, InfoAt p.out.store i x ∧ InfoSized vev.length x ∧
        vals i = (pairCols show' vev g i x).map (·.2)) ∧
      pointRow show' g p = ok (cell p.line ++ cell (joinTab p.params) ++ cells (fixedValues p) ++
        cells ((List.range (shownPairs p.out)).flatMap vals)) := by
  classical
  obtain ⟨i, fuel, hi, hvev, hg, hlen⟩ := hp.made
  subst hvev hg
  have hinfo := info_exists i fuel p.out hi hlen
  let vals : Nat → List (List Char) := fun k =>
    if h : ∃ x, InfoAt p.out.store k x ∧ InfoSized i.vevNames.length x
    then (pairCols show' i.vevNames i.gwCalc k h.choose).map (·.2) else []
  have hvals : ∀ k < shownPairs p.out, ∃ x, InfoAt p.out.store k x ∧ InfoSized i.vevNames.length x ∧
      vals k = (pairCols show' i.vevNames i.gwCalc k x).map (·.2) := by
    intro k hk
    have h := hinfo k hk
    refine ⟨h.choose, h.choose_spec.1, h.choose_spec.2, ?_⟩
    simp only [vals]
    rw [dif_pos h]
  refine ⟨vals, hvals, ?_⟩
  have hrest : pairsRow show' i.gwCalc p.out =
      ok (cells ((List.range (shownPairs p.out)).flatMap vals)) := by
    unfold pairsRow
    by_cases hs : p.out.tracing = .success ∧ p.out.coex = .success
    · rw [if_pos hs]
      have hn : shownPairs p.out = p.out.num := by simp [shownPairs, hs]
      rw [hn]
      have hm : (List.range p.out.num).mapM (pairRow show' i.gwCalc p.out.store) =
          ok ((List.range p.out.num).map fun k => cells (vals k)) := by
        refine mapM_ok fun k hk => ?_
        rw [List.mem_range, ← hn] at hk
        obtain ⟨x, h1, h2, h3⟩ := hvals k hk
        rw [h3]
        exact pair_values show' i.vevNames hv i.gwCalc p.out.store k x h1 h2
      rw [hm, bind_ok, cells_flatMap]
    · rw [if_neg hs]
      simp [shownPairs, hs, cells]
  rw [pointRow, hrest, bind_ok]
  simp [cells, fixedValues]

/-- The largest number of pairs of any point. -/
theorem table_ok (vev : List (List Char)) (hv : vev ≠ []) (g : Bool) (input : List Char)
    (ct : List (List Char)) (row : Point K → List Char) (points : List (Point K))
    (hrow : ∀ p ∈ points, pointRow show' g p = ok (row p))
    (hleg : ∀ p ∈ points, p.out.legend = getLegend vev (shownPairs p.out) g) :
    ∀ (t : Table) (M : Nat), t.legend = getLegend vev M g →
      ∃ M', points.foldlM (tableStep show' g) t =
          ok ⟨getLegend vev M' g, t.rows ++ points.map row, t.histories ++ points.map (·.out.history)⟩ ∧
        M ≤ M' ∧ (∀ p ∈ points, shownPairs p.out ≤ M') ∧
        (M' = M ∨ ∃ p ∈ points, shownPairs p.out = M') := by
  have hmono : ∀ a b : Nat, (getLegend vev a g).length < (getLegend vev b g).length ↔ a < b := by
    have hlen : ∀ i, (pairLegend vev g i).length = (pairLegend vev g 0).length := by
      intro i
      cases g <;> simp [pairLegend, stageLegend, gwLegend]
    have hpos : 0 < (pairLegend vev g 0).length := by
      simp [pairLegend]
    have : ∀ a, (getLegend vev a g).length = 5 + a * (pairLegend vev g 0).length + 1 := by
      intro a
      have : ((List.range a).flatMap (pairLegend vev g)).length = a * (pairLegend vev g 0).length := by
        rw [List.length_flatMap]
        have : (List.range a).map (fun i => (pairLegend vev g i).length) =
            List.replicate a (pairLegend vev g 0).length := by
          rw [List.eq_replicate_iff]
          refine ⟨by simp, ?_⟩
          intro b hb
          rw [List.mem_map] at hb
          obtain ⟨i, _, rfl⟩ := hb
          exact hlen i
        rw [this]
        simp
      simp [getLegend, fixedLegend, this]
      omega
    intro a b
    rw [this, this]
    constructor
    · intro h
      have : a * (pairLegend vev g 0).length < b * (pairLegend vev g 0).length := by omega
      exact lt_of_mul_lt_mul_right this (Nat.zero_le _)
    · intro h
      have := Nat.mul_lt_mul_of_pos_right h hpos
      omega
  induction points with
  | nil => intro t M ht; exact ⟨M, by simp [← ht], le_rfl, by simp, Or.inl rfl⟩
  | cons p points ih =>
    intro t M ht
    have ih' := ih (fun q hq => hrow q (List.mem_cons_of_mem _ hq))
      (fun q hq => hleg q (List.mem_cons_of_mem _ hq))
    have hp := hrow p (List.mem_cons_self ..)
    have hl := hleg p (List.mem_cons_self ..)
    let M1 := max M (shownPairs p.out)
    have hstep : tableStep show' g t p =
        ok ⟨getLegend vev M1 g, t.rows ++ [row p], t.histories ++ [p.out.history]⟩ := by
      rw [tableStep, hp, bind_ok, hl, ht]
      by_cases h : M < shownPairs p.out
      · rw [if_pos ((hmono _ _).2 h)]
        simp [M1, max_eq_right (le_of_lt h)]
      · rw [if_neg (fun x => h ((hmono _ _).1 x))]
        simp [M1, max_eq_left (not_lt.1 h)]
    rw [List.foldlM_cons, hstep, bind_ok]
    obtain ⟨M', h1, h2, h3, h4⟩ := ih'
      ⟨getLegend vev M1 g, t.rows ++ [row p], t.histories ++ [p.out.history]⟩ M1 rfl
    refine ⟨M', by rw [h1]; simp, le_trans (le_max_left _ _) h2, ?_, ?_⟩
    · intro q hq
      rcases List.mem_cons.1 hq with rfl | hq
      · exact le_trans (le_max_right _ _) h2
      · exact h3 q hq
    · rcases h4 with h4 | ⟨q, hq, h4⟩
      · rcases le_total M (shownPairs p.out) with hm | hm
        · exact Or.inr ⟨p, List.mem_cons_self .., by rw [h4]; simp [M1, max_eq_right hm]⟩
        · exact Or.inl (by rw [h4]; simp [M1, max_eq_left hm])
      · exact Or.inr ⟨q, List.mem_cons_of_mem _ hq, h4⟩

/-- **C11.**  The file after any number of points.  Let `M` be the largest number of pairs of a point.
The header has the columns of the input header, the names of the derived parameters, the fixed columns,
the columns of `M` pairs and the history.  The row of each point has the columns of its input line, its
derived parameters, its statuses and run time, for each of its pairs the values that belong to the
names in the header, for the pairs it does not have as many "nan", and its history. -/
theorem C11_table (hshow : ∀ t, '\t' ∉ show' t) (vev : List (List Char)) (hv : vev ≠ [])
    (hvt : ∀ v ∈ vev, '\t' ∉ v) (g : Bool) (input : List Char) (ct : List (List Char))
    (hct : ∀ x ∈ ct, '\t' ∉ x) (points : List (Point K)) (hne : points ≠ [])
    (hp : ∀ p ∈ points, PointOk vev g input ct p) :
    ∃ (t : Table) (M : Nat) (header : List Char) (lines : List (List Char)),
      table show' g points = ok t ∧ fileLines input ct t = header :: lines ∧
      (∀ p ∈ points, shownPairs p.out ≤ M) ∧ (∃ p ∈ points, shownPairs p.out = M) ∧
      columns header = columns input ++ vecCols ct ++ fixedLegend ++
        (List.range M).flatMap (pairLegend vev g) ++ ["transition_history".toList] ∧
      lines.length = points.length ∧
      ∀ (k : Nat) (p : Point K), points[k]? = some p →
        ∃ (line : List Char) (vals : Nat → List (List Char)), lines[k]? = some line ∧
          columns line = columns p.line ++ vecCols p.params ++ fixedValues p ++
            (List.range M).flatMap vals ++ [p.out.history] ∧
          (∀ i < shownPairs p.out, ∃ x, InfoAt p.out.store i x ∧
            pairLegend vev g i = (pairCols show' vev g i x).map (·.1) ∧
            vals i = (pairCols show' vev g i x).map (·.2)) ∧
          ∀ i, shownPairs p.out ≤ i → vals i = (pairLegend vev g i).map fun _ => "nan".toList := by
  classical
  have hex : ∀ p : Point K, ∃ v : Nat → List (List Char), p ∈ points →
      (∀ i < shownPairs p.out, ∃ x, InfoAt p.out.store i x ∧ InfoSized vev.length x ∧
        v i = (pairCols show' vev g i x).map (·.2)) ∧
      pointRow show' g p = ok (cell p.line ++ cell (joinTab p.params) ++ cells (fixedValues p) ++
        cells ((List.range (shownPairs p.out)).flatMap v)) := by
    intro p
    by_cases h : p ∈ points
    · obtain ⟨v, hv1, hv2⟩ := point_row show' vev hv g input ct p (hp p h)
      exact ⟨v, fun _ => ⟨hv1, hv2⟩⟩
    · exact ⟨fun _ => [], fun h' => absurd h' h⟩
  choose V hV using hex
  let row : Point K → List Char := fun p => cell p.line ++ cell (joinTab p.params) ++
    cells (fixedValues p) ++ cells ((List.range (shownPairs p.out)).flatMap (V p))
  have hleg : ∀ p ∈ points, p.out.legend = getLegend vev (shownPairs p.out) g := by
    intro p h
    obtain ⟨i, fuel, hi, h1, h2, _⟩ := (hp p h).made
    rw [← h1, ← h2]
    exact (output_shape i fuel p.out hi).1
  have hhist : ∀ p ∈ points, '\t' ∉ p.out.history := by
    intro p h
    obtain ⟨i, fuel, hi, _⟩ := (hp p h).made
    exact history_tab i fuel p.out hi
  obtain ⟨p0, ps, rfl⟩ : ∃ p0 ps, points = p0 :: ps := by
    cases points with
    | nil => exact absurd rfl hne
    | cons a b => exact ⟨a, b, rfl⟩
  -- the first point
  have h0 : tableStep show' g {} p0 =
      ok ⟨getLegend vev (shownPairs p0.out) g, [row p0], [p0.out.history]⟩ := by
    rw [tableStep, (hV p0 (by simp)).2, bind_ok, hleg p0 (by simp)]
    have : ([] : List (List Char)).length < (getLegend vev (shownPairs p0.out) g).length := by
      simp [getLegend]
    rw [if_pos this]
    rfl
  obtain ⟨M, hM, hM0, hMle, hMatt⟩ := table_ok show' vev hv g input ct row ps
    (fun p h => (hV p (List.mem_cons_of_mem _ h)).2)
    (fun p h => hleg p (List.mem_cons_of_mem _ h))
    ⟨getLegend vev (shownPairs p0.out) g, [row p0], [p0.out.history]⟩ (shownPairs p0.out) rfl
  let t : Table := ⟨getLegend vev M g, (p0 :: ps).map row, (p0 :: ps).map (·.out.history)⟩
  have ht : table show' g (p0 :: ps) = ok t := by
    rw [table, List.foldlM_cons, h0, bind_ok, hM]
    rfl
  have hall : ∀ p ∈ p0 :: ps, shownPairs p.out ≤ M := by
    intro p h
    rcases List.mem_cons.1 h with rfl | h
    · exact hM0
    · exact hMle p h
  have htabL : ∀ x ∈ getLegend vev M g, '\t' ∉ x := by
    intro x hx
    simp only [getLegend, List.mem_append, List.mem_singleton, List.mem_flatMap] at hx
    rcases hx with (hx | ⟨i, _, hx⟩) | rfl
    · revert x; decide
    · exact legend_tab vev hvt g i x hx
    · decide
  have hheader : columns (headerLine input ct t) = columns input ++ vecCols ct ++ fixedLegend ++
      (List.range M).flatMap (pairLegend vev g) ++ ["transition_history".toList] := by
    have hne' : getLegend vev M g ≠ [] := by simp [getLegend]
    rw [headerLine, List.append_assoc, columns_cell, columns_cell, columns_joinTab hct,
      columns_joinTab htabL]
    simp [vecCols, hne', getLegend, List.append_assoc, t]
  refine ⟨t, M, headerLine input ct t,
    List.zipWith (bodyLine (headerLine input ct t)) t.rows t.histories, ht, rfl, hall, ?_, hheader, ?_, ?_⟩
  · rcases hMatt with h | ⟨p, h, h'⟩
    · exact ⟨p0, by simp, h.symm⟩
    · exact ⟨p, List.mem_cons_of_mem _ h, h'⟩
  · simp [t]
  · intro k p hk
    have hmem : p ∈ p0 :: ps := List.mem_of_getElem? hk
    obtain ⟨hV1, _⟩ := hV p hmem
    have hok := hp p hmem
    let n := shownPairs p.out
    let vals : Nat → List (List Char) := fun i =>
      if i < n then V p i else (pairLegend vev g i).map fun _ => "nan".toList
    refine ⟨bodyLine (headerLine input ct t) (row p) p.out.history, vals, ?_, ?_, ?_, ?_⟩
    · rw [List.getElem?_zipWith]
      simp only [t, List.getElem?_map, hk, Option.map_some]
    · -- the number of columns missing
      have hvlen : ∀ i < n, (V p i).length = (pairLegend vev g i).length := by
        intro i hi
        obtain ⟨x, _, h2, h3⟩ := hV1 i hi
        rw [h3, ← pair_names show' vev g i x h2]
        simp
      have hvt' : ∀ x ∈ (List.range n).flatMap (V p), '\t' ∉ x := by
        intro x hx
        rw [List.mem_flatMap] at hx
        obtain ⟨i, hi, hx⟩ := hx
        obtain ⟨y, _, _, h3⟩ := hV1 i (List.mem_range.1 hi)
        rw [h3] at hx
        exact values_tab show' hshow vev g i y x hx
      have hfix : ∀ x ∈ fixedValues p, '\t' ∉ x := by
        intro x hx
        simp only [fixedValues, List.mem_cons, List.not_mem_nil, or_false] at hx
        rcases hx with rfl | rfl | rfl | rfl | rfl
        · exact names_tab.1 _
        · exact names_tab.2.1 _
        · exact names_tab.2.2.1 _
        · exact names_tab.2.2.2.1 _
        · exact hok.timeTab
      have hcolrow : ∀ y, columns (row p ++ y) = columns p.line ++ vecCols p.params ++ fixedValues p ++
          (List.range n).flatMap (V p) ++ columns y := by
        intro y
        simp only [row, List.append_assoc]
        rw [columns_cell, columns_cell, columns_joinTab hok.paramsTab, columns_cells hfix,
          columns_cells hvt']
      have hsplit : ∀ f : Nat → List (List Char), (List.range M).flatMap f =
          (List.range n).flatMap f ++ ((List.range (M - n)).map (n + ·)).flatMap f := by
        intro f
        rw [← List.flatMap_append, ← List.range_add]
        rw [Nat.add_sub_cancel' (hall p hmem)]
      have hflen : ∀ (l : List Nat) (f h : Nat → List (List Char)), (∀ i ∈ l, (f i).length = (h i).length) →
          (l.flatMap f).length = (l.flatMap h).length := by
        intro l f h hl
        rw [List.length_flatMap, List.length_flatMap]
        congr 1
        exact List.map_congr_left hl
      have hdiff : tabCount (headerLine input ct t) - tabCount (row p) =
          (((List.range (M - n)).map (n + ·)).flatMap (pairLegend vev g)).length := by
        have hr := congrArg List.length (hcolrow [])
        rw [List.append_nil, columns_length] at hr
        have hh := congrArg List.length hheader
        rw [columns_length, hsplit] at hh
        have e1 : ((List.range n).flatMap (V p)).length =
            ((List.range n).flatMap (pairLegend vev g)).length :=
          hflen _ _ _ fun i hi => hvlen i (List.mem_range.1 hi)
        have e2 : (vecCols p.params).length = (vecCols ct).length := by
          have := hok.params
          unfold vecCols
          cases hc : ct with
          | nil => rw [hc] at this; rw [List.eq_nil_of_length_eq_zero this]
          | cons a b =>
            cases hc' : p.params with
            | nil => rw [hc, hc'] at this; simp at this
            | cons a' b' => rw [hc, hc'] at this; simpa using this
        have e3 : (columns ([] : List Char)).length = 1 := rfl
        have e4 : (fixedValues p).length = 5 := rfl
        have e5 : fixedLegend.length = 5 := rfl
        have e6 := hok.width
        simp only [List.length_append, e1, e2, e3, e4] at hr
        simp only [List.length_append, e5, List.length_singleton] at hh
        omega
      have hnan : (List.replicate (tabCount (headerLine input ct t) - tabCount (row p))
          (cell "nan".toList)).flatten =
          cells ((((List.range (M - n)).map (n + ·)).flatMap (pairLegend vev g)).map
            fun _ => "nan".toList) := by
        rw [hdiff, cells, List.map_map]
        congr 1
        exact (List.map_const' ..).symm
      rw [bodyLine, hnan, List.append_assoc, hcolrow, columns_cells (by
        intro x hx
        rw [List.mem_map] at hx
        obtain ⟨_, _, rfl⟩ := hx
        decide), columns_plain (hhist p hmem), hsplit vals]
      have hA : (List.range n).flatMap vals = (List.range n).flatMap (V p) := by
        refine List.flatMap_congr fun i hi => ?_
        simp [vals, List.mem_range.1 hi]
      have hB : ((List.range (M - n)).map (n + ·)).flatMap vals =
          (((List.range (M - n)).map (n + ·)).flatMap (pairLegend vev g)).map fun _ => "nan".toList := by
        rw [List.map_flatMap]
        refine List.flatMap_congr fun i hi => ?_
        rw [List.mem_map] at hi
        obtain ⟨j, _, rfl⟩ := hi
        simp [vals]
      rw [hA, hB]
      simp only [List.append_assoc]
    · intro i hi
      obtain ⟨x, h1, h2, h3⟩ := hV1 i hi
      refine ⟨x, h1, (pair_names show' vev g i x h2).symm, ?_⟩
      rw [← h3]
      simp [vals, n, hi]
    · intro i hi
      simp [vals, n, not_lt.2 hi]

/-- **C11.**  Every row of the file has as many columns as the header. -/
theorem C11_aligned (hshow : ∀ t, '\t' ∉ show' t) (vev : List (List Char)) (hv : vev ≠ [])
    (hvt : ∀ v ∈ vev, '\t' ∉ v) (g : Bool) (input : List Char) (ct : List (List Char))
    (hct : ∀ x ∈ ct, '\t' ∉ x) (points : List (Point K)) (hne : points ≠ [])
    (hp : ∀ p ∈ points, PointOk vev g input ct p) :
    ∃ t, table show' g points = ok t ∧ (fileLines input ct t).length = points.length + 1 ∧
      ∀ a ∈ fileLines input ct t, ∀ b ∈ fileLines input ct t, (columns a).length = (columns b).length := by
  obtain ⟨t, M, header, lines, h1, h2, _, _, h5, h6, h7⟩ :=
    C11_table show' hshow vev hv hvt g input ct hct points hne hp
  refine ⟨t, h1, by rw [h2]; simp [h6], ?_⟩
  have key : ∀ a ∈ fileLines input ct t, (columns a).length = (columns header).length := by
    intro a ha
    rw [h2] at ha
    rcases List.mem_cons.1 ha with rfl | ha
    · rfl
    · obtain ⟨k, hk⟩ := List.mem_iff_getElem?.1 ha
      have hlt : k < points.length := by
        rw [← h6]
        exact (List.getElem?_eq_some_iff.1 hk).1
      obtain ⟨line, vals, hl, hc, hi, hn⟩ := h7 k _ (List.getElem?_eq_getElem hlt)
      rw [hk, Option.some.injEq] at hl
      subst hl
      have hok := hp _ (List.getElem_mem hlt)
      rw [hc, h5]
      have e2 : (vecCols points[k].params).length = (vecCols ct).length := by
        have := hok.params
        unfold vecCols
        cases hc : ct with
        | nil => rw [hc] at this; rw [List.eq_nil_of_length_eq_zero this]
        | cons a b =>
          cases hc' : points[k].params with
          | nil => rw [hc, hc'] at this; simp at this
          | cons a' b' => rw [hc, hc'] at this; simpa using this
      have e1 : ((List.range M).flatMap vals).length =
          ((List.range M).flatMap (pairLegend vev g)).length := by
        rw [List.length_flatMap, List.length_flatMap]
        congr 1
        refine List.map_congr_left fun i _ => ?_
        by_cases h : i < shownPairs points[k].out
        · obtain ⟨x, _, hx1, hx2⟩ := hi i h
          rw [hx1, hx2]
          simp
        · rw [hn i (not_lt.1 h)]
          simp
      simp only [List.length_append, e1, e2, hok.width]
      rfl
  intro a ha b hb
  rw [key a ha, key b hb]

end

/-- An input with one pair, and one that is not stable. -/
def exInput : TracerInput ℚ :=
  { nloCheck := true, ewsrCheck := 1, gwCalc := false, which := 3, vevNames := ["w1".toList, "w2".toList],
    nlo := true, ewsr := 3, tracing := .success, coex := .success,
    pairs := [exPair 0 0 1 (.success, some 60)] }

/-- How numbers are shown in the examples. -/
def exShow : Option ℚ → List Char
  | none => "nan".toList
  | some _ => "1".toList

/-- The outputs of the two points. -/
def exOut : Option (List (Output ℚ)) :=
  match transitionTracer exInput 2, transitionTracer { exInput with nlo := false } 2 with
  | some (.ok a), some (.ok b) => some [b, a]
  | _, _ => none

/-- The two points, the unstable one first. -/
def exPoints : List (Point ℚ) :=
  (exOut.getD []).map fun o => ⟨"1.5\t7".toList, ["2".toList], o, "0.1".toList⟩

example : ∃ p q, exPoints = [p, q] ∧ PointOk exInput.vevNames false "a\tb".toList ["dT".toList] p ∧
    PointOk exInput.vevNames false "a\tb".toList ["dT".toList] q ∧ shownPairs p.out = 0 ∧
    shownPairs q.out = 1 := by
  have h1 : ∃ a, transitionTracer exInput 2 = some (ok a) ∧ shownPairs a = 1 := by
    have hd : (match transitionTracer exInput 2 with
      | some (.ok a) => decide (shownPairs a = 1) | _ => false) = true := by decide +kernel
    cases h : transitionTracer exInput 2 with
    | none => rw [h] at hd; cases hd
    | some r =>
      cases r with
      | ok a => rw [h] at hd; exact ⟨a, rfl, by simpa using hd⟩
      | err e => rw [h] at hd; cases hd
      | ub u => rw [h] at hd; cases hd
  have h2 : ∃ b, transitionTracer { exInput with nlo := false } 2 = some (ok b) ∧ shownPairs b = 0 :=
    ⟨_, C54_unstable _ _ rfl rfl, rfl⟩
  obtain ⟨a, ha, hna⟩ := h1
  obtain ⟨b, hb, hnb⟩ := h2
  refine ⟨_, _, by simp only [exPoints, exOut, ha, hb, Option.getD_some, List.map_cons, List.map_nil]; rfl,
    ⟨⟨{ exInput with nlo := false }, 2, hb, rfl, rfl, ?_⟩, ?_, rfl, ?_, ?_⟩, ⟨⟨exInput, 2, ha, rfl, rfl, ?_⟩, ?_, rfl, ?_, ?_⟩, hnb, hna⟩
  · intro e he t
    simp only [exInput, List.mem_singleton] at he
    subst he
    exact ⟨rfl, rfl⟩
  · show (columns "1.5\t7".toList).length = (columns "a\tb".toList).length
    decide
  · show ∀ x ∈ ["2".toList], '\t' ∉ x
    decide
  · show '\t' ∉ "0.1".toList
    decide
  · intro e he t
    simp only [exInput, List.mem_singleton] at he
    subst he
    exact ⟨rfl, rfl⟩
  · show (columns "1.5\t7".toList).length = (columns "a\tb".toList).length
    decide
  · show ∀ x ∈ ["2".toList], '\t' ∉ x
    decide
  · show '\t' ∉ "0.1".toList
    decide

/-- The width of the rows before they are filled up differs; in the file it does not. -/
example : (match table exShow false exPoints with
    | .ok t => t.rows.map tabCount == [9, 40] &&
        (fileLines "a\tb".toList ["dT".toList] t).map tabCount == [40, 40, 40]
    | _ => false) = true := by decide +kernel

/-- **C11.**  The condition on the input lines is needed: a line with one column less than the input header
still gets as many columns as the header, but one "nan" comes after its values, which stand one column
to the left of their names. -/
theorem C11_short_line :
    let t : Table := ⟨["x".toList, "transition_history".toList], ["1\t2\t3\t".toList], ["0".toList]⟩
    fileLines "a\tb".toList ["c".toList] t = ["a\tb\tc\tx\ttransition_history".toList,
      "1\t2\t3\tnan\t0".toList] := by
  decide +kernel

end Verif.Transition
