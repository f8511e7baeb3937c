import Verif.Batch.Minima
import Verif.Batch.LegendProps
import Verif.Programs.OptionsProps

/-!
# The program `MinimaTracer` (C117)
-/

set_option linter.unusedSimpArgs false

namespace Verif.Batch.Minima

open Outcome
open Models (Class)
open Transition (columns joinTab columns_tab columns_plain columns_joinTab vecCols)
open Verif.Programs (Options Built orDefault multistep doubleOpt intOpt flagOpt stoi minimizersOk MinimizersAvailable)
open Verif.Parser (Parser getValue)

namespace Spec

/-- The names of the columns of the phase `j`. -/
def names (vev : List (List Char)) (j : Nat) : List (List Char) :=
  ("Temp_".toList ++ Nat.toDigits 10 j) ::
    vev.map (fun s => s ++ "(Temp_".toList ++ Nat.toDigits 10 j ++ ")".toList) ++
    ["Veff(Temp_".toList ++ Nat.toDigits 10 j ++ ")".toList]

/-- The cells of a phase in the row `i`: the minimum with this number, or `nan` after the phase has ended. -/
def cells (nVEV : Nat) (p : List Minimum) (i : Nat) : List (List Char) :=
  match p[i]? with
  | some m => m.temp :: m.point ++ [m.potential]
  | none => List.replicate (nVEV + 2) "nan".toList

/-- A result of the tracing of a model with the fields `vev`: no text contains a separator, each minimum has a value for
each field, no phase is empty. -/
structure Traced (legendCT vev : List (List Char)) (r : Result) : Prop where
  ct : r.ct.length = legendCT.length
  ctNonempty : legendCT ≠ []
  ctNames : ∀ x ∈ legendCT, '\t' ∉ x
  ctTexts : ∀ x ∈ r.ct, '\t' ∉ x
  vevNonempty : vev ≠ []
  vevNames : ∀ x ∈ vev, '\t' ∉ x
  states : '\t' ∉ r.nlo ∧ '\t' ∉ r.ewsr ∧ '\t' ∉ r.tracing
  times : ∀ i, '\t' ∉ r.time i
  points : ∀ p ∈ r.phases, ∀ m ∈ p, m.point.length = vev.length
  texts : ∀ p ∈ r.phases, ∀ m ∈ p, '\t' ∉ m.temp ∧ '\t' ∉ m.potential ∧ ∀ x ∈ m.point, '\t' ∉ x
  phases : ∀ p ∈ r.phases, p ≠ []

end Spec

theorem number_tab (n : Nat) : '\t' ∉ Nat.toDigits 10 n := by
  intro h
  have := Nat.isDigit_of_mem_toDigits (by norm_num) (by norm_num) h
  exact absurd this (by decide)

theorem names_tab {vev : List (List Char)} (h : ∀ x ∈ vev, '\t' ∉ x) (j : Nat) : ∀ x ∈ Spec.names vev j, '\t' ∉ x := by
  have hn := number_tab j
  have h1 : '\t' ∉ "Temp_".toList := by decide
  have h2 : '\t' ∉ "(Temp_".toList := by decide
  have h3 : '\t' ∉ "Veff(Temp_".toList := by decide
  have h4 : '\t' ∉ ")".toList := by decide
  intro x hx
  rw [Spec.names, List.cons_append, List.mem_cons, List.mem_append, List.mem_map, List.mem_singleton] at hx
  rcases hx with rfl | ⟨s, hs, rfl⟩ | rfl
  · rw [List.mem_append]; exact fun h => h.elim h1 hn
  · rw [List.mem_append, List.mem_append, List.mem_append]
    rintro (((h' | h') | h') | h')
    exacts [h s hs h', h2 h', hn h', h4 h']
  · rw [List.mem_append, List.mem_append]
    rintro ((h' | h') | h')
    exacts [h3 h', hn h', h4 h']

theorem phaseNames_eq (vev : List (List Char)) (j : Nat) :
    phaseNames vev vev.length j = ok (Spec.names vev j) := by
  have h : ((List.range vev.length).mapM fun k => do
      let s ← at' vev k
      ok (s ++ ("(Temp_".toList ++ number j ++ ")".toList)))
      = ok ((List.range vev.length).map fun k => vev.getD k [] ++ ("(Temp_".toList ++ number j ++ ")".toList)) := by
    refine Outcome.mapM_ok fun k hk => ?_
    have hk' : k < vev.length := by simpa using hk
    simp [at', List.getElem?_eq_getElem hk', List.getD]
  rw [phaseNames, h, bind_ok]
  congr 1
  rw [Spec.names]
  congr 2
  refine List.ext_getElem (by simp) fun k h1 h2 => ?_
  have hk : k < vev.length := by simpa using h1
  simp [List.getD, List.getElem?_eq_getElem hk, number, List.append_assoc]

theorem legendMinima_eq (vev : List (List Char)) (n : Nat) :
    legendMinima vev vev.length n = ok (["status_nlo_stability".toList, "status_ewsr".toList, "status_tracing".toList] ++
      (List.range n).flatMap (Spec.names vev) ++ ["runtime".toList]) := by
  rw [legendMinima, Outcome.mapM_ok fun j _ => phaseNames_eq vev j, bind_ok, List.flatMap_def]

theorem longest_eq (phases : List (List Minimum)) (k : Nat) :
    phases.foldl (fun length p =>
      if length = 0 then p.length else if length < p.length then p.length else length) k
      = (phases.map List.length).foldl max k := by
  induction phases generalizing k with
  | nil => rfl
  | cons p l ih =>
    rw [List.foldl_cons, ih, List.map_cons, List.foldl_cons]
    congr 1
    split
    · omega
    · split <;> omega

theorem le_foldl_max (l : List Nat) (k : Nat) : k ≤ l.foldl max k ∧ (∀ a ∈ l, a ≤ l.foldl max k) ∧
    (l.foldl max k = k ∨ l.foldl max k ∈ l) := by
  induction l generalizing k with
  | nil => simp
  | cons a l ih =>
    obtain ⟨h1, h2, h3⟩ := ih (max k a)
    rw [List.foldl_cons]
    refine ⟨by omega, ?_, ?_⟩
    · intro b hb
      rcases List.mem_cons.1 hb with rfl | hb
      · omega
      · exact h2 b hb
    · rcases h3 with h3 | h3
      · rw [h3]
        rcases le_total k a with h | h
        · right; simp [h]
        · left; simp [h]
      · right; exact List.mem_cons_of_mem _ h3

/-- There are as many rows with minima as the longest phase has minima. -/
theorem C117_longest (phases : List (List Minimum)) : (∀ p ∈ phases, p.length ≤ longest phases) ∧
    (longest phases = 0 ∨ ∃ p ∈ phases, p.length = longest phases) := by
  have e : longest phases = (phases.map List.length).foldl max 0 := longest_eq phases 0
  obtain ⟨-, h2, h3⟩ := le_foldl_max (phases.map List.length) 0
  rw [← e] at h2 h3
  refine ⟨fun p hp => h2 _ (List.mem_map_of_mem hp), h3.imp id fun h => ?_⟩
  obtain ⟨p, hp, h⟩ := List.mem_map.1 h
  exact ⟨p, hp, h⟩

theorem columns_start {legendCT vev : List (List Char)} {r : Result} (h : Spec.Traced legendCT vev r) (line : List Char) :
    columns (start line r) = columns line ++ r.ct ++ [r.nlo, r.ewsr, r.tracing] := by
  have hne : r.ct ≠ [] := by
    intro hz
    have := h.ct
    rw [hz] at this
    exact h.ctNonempty (List.length_eq_zero_iff.1 this.symm)
  rw [start, columns_sep _ h.states.2.2, columns_sep _ h.states.2.1, columns_sep _ h.states.1,
    columns_sepVec _ h.ctTexts hne]
  simp

theorem columns_cells {legendCT vev : List (List Char)} {r : Result} (h : Spec.Traced legendCT vev r) (i : Nat) :
    ∀ (l : List (List Minimum)), (∀ p ∈ l, p ∈ r.phases) → ∀ x : List Char, ∃ c,
      (l.mapM fun p => phaseCells vev.length i p) = ok c ∧
      columns (x ++ c.flatten) = columns x ++ l.flatMap fun p => Spec.cells vev.length p i := by
  intro l
  induction l with
  | nil => intro _ x; exact ⟨[], by simp, by simp⟩
  | cons p l ih =>
    intro hl x
    have hp := hl p (by simp)
    by_cases hi : i < p.length
    · have hm : p[i] ∈ p := List.getElem_mem hi
      obtain ⟨t1, t2, t3⟩ := h.texts p hp _ hm
      have hne : p[i].point ≠ [] := by
        intro hz
        have := h.points p hp _ hm
        rw [hz] at this
        exact h.vevNonempty (List.length_eq_zero_iff.1 this.symm)
      obtain ⟨c, hc, e⟩ := ih (fun q hq => hl q (by simp [hq]))
        (x ++ '\t' :: p[i].temp ++ sepVec p[i].point ++ '\t' :: p[i].potential)
      refine ⟨(('\t' :: p[i].temp) ++ sepVec p[i].point ++ ('\t' :: p[i].potential)) :: c, ?_, ?_⟩
      · have hph : phaseCells vev.length i p
            = ok (('\t' :: p[i].temp) ++ sepVec p[i].point ++ ('\t' :: p[i].potential)) := by
          rw [phaseCells, if_pos hi]
          simp [at', List.getElem?_eq_getElem hi]
        rw [List.mapM_cons, hph, hc]; rfl
      · rw [List.flatten_cons, ← List.append_assoc]
        rw [show x ++ (('\t' :: p[i].temp) ++ sepVec p[i].point ++ ('\t' :: p[i].potential))
          = x ++ '\t' :: p[i].temp ++ sepVec p[i].point ++ '\t' :: p[i].potential by simp]
        rw [e, columns_sep _ t2, columns_sepVec _ t3 hne, columns_sep _ t1]
        simp [Spec.cells, List.getElem?_eq_getElem hi]
    · obtain ⟨c, hc, e⟩ := ih (fun q hq => hl q (by simp [hq]))
        (x ++ sepVec (List.replicate (2 + vev.length) "nan".toList))
      refine ⟨sepVec (List.replicate (2 + vev.length) "nan".toList) :: c, ?_, ?_⟩
      · rw [List.mapM_cons, hc, phaseCells, if_neg hi]; rfl
      · rw [List.flatten_cons, ← List.append_assoc, e, columns_sepVec]
        · rw [List.flatMap_cons, Spec.cells, List.getElem?_eq_none (by omega), Nat.add_comm 2]
          simp
        · intro y hy
          rw [List.eq_of_mem_replicate hy]
          decide
        · intro hz
          have := congrArg List.length hz
          simp at this

/-- The file has a header and one row for each minimum of the longest phase (a single row if nothing was traced). The row
`i` has, behind the input and the counterterms, the three states, then for each phase the minimum number `i` or `nan` if the
phase has ended, then the time. -/
theorem C117_table {legendCT vev : List (List Char)} {r : Result} (h : Spec.Traced legendCT vev r)
    (line1 line : List Char) :
    ∃ head rows, table legendCT vev vev.length line1 line r = ok (head :: rows) ∧
      rows.length = max 1 (longest r.phases) ∧
      columns head = columns line1 ++ legendCT ++
        ["status_nlo_stability".toList, "status_ewsr".toList, "status_tracing".toList] ++
        (List.range r.phases.length).flatMap (Spec.names vev) ++ ["runtime".toList] ∧
      ∀ i text, rows[i]? = some text → columns text = columns line ++ r.ct ++ [r.nlo, r.ewsr, r.tracing] ++
        (r.phases.flatMap fun p => Spec.cells vev.length p i) ++ [r.time i] := by
  have hh : header legendCT vev vev.length r.phases.length line1 = ok (line1 ++ sepVec legendCT ++ sepVec
      (["status_nlo_stability".toList, "status_ewsr".toList, "status_tracing".toList] ++
      (List.range r.phases.length).flatMap (Spec.names vev) ++ ["runtime".toList])) := by
    rw [header, legendMinima_eq, bind_ok]
  have hc : columns (line1 ++ sepVec legendCT ++ sepVec
      (["status_nlo_stability".toList, "status_ewsr".toList, "status_tracing".toList] ++
      (List.range r.phases.length).flatMap (Spec.names vev) ++ ["runtime".toList])) = columns line1 ++ legendCT ++
        ["status_nlo_stability".toList, "status_ewsr".toList, "status_tracing".toList] ++
        (List.range r.phases.length).flatMap (Spec.names vev) ++ ["runtime".toList] := by
    rw [columns_sepVec, columns_sepVec _ h.ctNames h.ctNonempty]
    · simp only [List.append_assoc]
    · intro y hy
      rw [List.mem_append, List.mem_append, List.mem_flatMap] at hy
      rcases hy with (hy | ⟨j, -, hy⟩) | hy
      · revert y; decide
      · exact names_tab h.vevNames j y hy
      · revert y; decide
    · simp
  have hrow : ∀ i, ∃ text, row vev.length line r i = ok text ∧
      columns text = columns line ++ r.ct ++ [r.nlo, r.ewsr, r.tracing] ++
        (r.phases.flatMap fun p => Spec.cells vev.length p i) ++ [r.time i] := by
    intro i
    obtain ⟨c, h1, h2⟩ := columns_cells h i r.phases (fun p hp => hp) (start line r)
    refine ⟨start line r ++ c.flatten ++ ('\t' :: r.time i), by rw [row, h1, bind_ok], ?_⟩
    rw [columns_sep _ (h.times i), h2, columns_start h]
  have hrows : ((List.range (longest r.phases)).mapM fun i => row vev.length line r i)
      = ok ((List.range (longest r.phases)).map fun i => (hrow i).choose) :=
    Outcome.mapM_ok fun i _ => (hrow i).choose_spec.1
  refine ⟨_, (if longest r.phases = 0 then [start line r ++ ('\t' :: r.time 0)] else []) ++
    (List.range (longest r.phases)).map fun i => (hrow i).choose, by rw [table, hh, hrows]; rfl, ?_, hc, ?_⟩
  · split <;> simp <;> omega
  · intro i text ht
    by_cases h0 : longest r.phases = 0
    · have hp : r.phases = [] := by
        cases hp : r.phases with
        | nil => rfl
        | cons p l =>
          have hm : p ∈ r.phases := by simp [hp]
          have := (C117_longest r.phases).1 p hm
          rw [h0] at this
          exact absurd (List.length_eq_zero_iff.1 (by omega)) (h.phases p hm)
      rw [if_pos h0, h0] at ht
      cases i with
      | zero =>
        simp only [List.range_zero, List.map_nil, List.append_nil, List.getElem?_cons_zero, Option.some.injEq] at ht
        rw [← ht, columns_sep _ (h.times 0), columns_start h, hp]
        simp
      | succ i => simp at ht
    · rw [if_neg h0, List.nil_append, List.getElem?_map, Option.map_eq_some_iff] at ht
      obtain ⟨k, hk, rfl⟩ := ht
      have : k = i := by
        rw [List.getElem?_range (by
          by_contra hlt
          rw [List.getElem?_eq_none (by simpa using hlt)] at hk
          exact absurd hk (by simp))] at hk
        exact (Option.some.inj hk).symm
      rw [this]
      exact (hrow i).choose_spec.2

theorem number_inj {i j : Nat} (h : Nat.toDigits 10 i = Nat.toDigits 10 j) : i = j := by
  have h1 := Programs.readDigits_toDigits i
  rw [h, Programs.readDigits_toDigits j] at h1
  have := congrArg Prod.fst h1
  have h2 : ((j : Int)) = i := this
  omega

theorem split_unique {a b x y : List Char} {c : Char} (ha : c ∉ a) (hb : c ∉ b) (h : a ++ c :: x = b ++ c :: y) :
    a = b ∧ x = y := by
  induction a generalizing b with
  | nil =>
    cases b with
    | nil => simpa using h
    | cons d b => simp at h; exact absurd (by simp [h.1]) hb
  | cons d a ih =>
    cases b with
    | nil => simp at h; exact absurd (by simp [h.1]) ha
    | cons e b =>
      simp only [List.cons_append, List.cons.injEq] at h
      obtain ⟨rfl, h⟩ := h
      obtain ⟨rfl, rfl⟩ := ih (fun m => ha (by simp [m])) (fun m => hb (by simp [m])) h
      exact ⟨rfl, rfl⟩

/-- The columns of the phases of each model have different names: a name determines the phase and the entry. -/
theorem C117_names (cb : Bool) (c : Class) {i j k l : Nat} {s : List Char}
    (h1 : (Spec.names (chars (legendVEV cb c)) i)[k]? = some s)
    (h2 : (Spec.names (chars (legendVEV cb c)) j)[l]? = some s) : i = j ∧ k = l := by
  -- every name is a head, `Temp_` or `…(Temp_`, with the number and perhaps a bracket
  have hv : ∀ x ∈ chars (legendVEV cb c), '(' ∉ x ∧ x ≠ "Veff".toList := by
    cases cb <;> cases c <;> decide +kernel
  have hnd : (chars (legendVEV cb c)).Nodup := by cases cb <;> cases c <;> decide +kernel
  generalize chars (legendVEV cb c) = vev at hv hnd h1 h2
  have hd : ∀ n, '(' ∉ Nat.toDigits 10 n ∧ ')' ∉ Nat.toDigits 10 n := fun n =>
    ⟨fun h => absurd (Nat.isDigit_of_mem_toDigits (by norm_num) (by norm_num) h) (by decide),
      fun h => absurd (Nat.isDigit_of_mem_toDigits (by norm_num) (by norm_num) h) (by decide)⟩
  have key : ∀ n m (t : List Char), (Spec.names vev n)[m]? = some t →
      (m = 0 ∧ t = "Temp_".toList ++ Nat.toDigits 10 n) ∨
      ∃ a, (vev ++ ["Veff".toList])[m - 1]? = some a ∧ m ≠ 0 ∧
        t = a ++ '(' :: ("Temp_".toList ++ Nat.toDigits 10 n ++ [')']) := by
    intro n m t ht
    cases m with
    | zero =>
      left
      simp only [Spec.names, List.cons_append, List.getElem?_cons_zero, Option.some.injEq] at ht
      exact ⟨rfl, ht.symm⟩
    | succ m =>
      right
      rw [Spec.names, List.cons_append, List.getElem?_cons_succ] at ht
      rw [show vev.map (fun s => s ++ "(Temp_".toList ++ Nat.toDigits 10 n ++ ")".toList) ++
          ["Veff(Temp_".toList ++ Nat.toDigits 10 n ++ ")".toList]
          = (vev ++ ["Veff".toList]).map (fun s => s ++ "(Temp_".toList ++ Nat.toDigits 10 n ++ ")".toList) by
        rw [List.map_append, List.map_singleton]; rfl, List.getElem?_map, Option.map_eq_some_iff] at ht
      obtain ⟨a, ha, rfl⟩ := ht
      exact ⟨a, ha, by omega, by simp⟩
  have hv' : ∀ x ∈ vev ++ ["Veff".toList], '(' ∉ x := by
    intro x hx
    rw [List.mem_append, List.mem_singleton] at hx
    rcases hx with hx | rfl
    · exact (hv x hx).1
    · decide
  have hnd' : (vev ++ ["Veff".toList]).Nodup := by
    rw [List.nodup_append]
    refine ⟨hnd, by simp, ?_⟩
    intro a ha b hb
    rw [List.mem_singleton] at hb
    rw [hb]
    exact (hv a ha).2
  have hT : ∀ n, '(' ∉ "Temp_".toList ++ Nat.toDigits 10 n := by
    intro n h
    rw [List.mem_append] at h
    exact h.elim (by decide) (hd n).1
  rcases key i k s h1 with ⟨hk, e1⟩ | ⟨a, ha, hk, e1⟩ <;> rcases key j l s h2 with ⟨hl, e2⟩ | ⟨b, hb, hl, e2⟩
  · rw [e1] at e2
    exact ⟨number_inj (List.append_cancel_left e2), by omega⟩
  · exact absurd (by rw [← e1, e2]; simp) (hT i)
  · exact absurd (by rw [← e2, e1]; simp) (hT j)
  · rw [e1] at e2
    obtain ⟨rfl, e⟩ := split_unique (hv' a (List.mem_of_getElem? ha)) (hv' b (List.mem_of_getElem? hb)) e2
    have e' := List.append_cancel_right e
    refine ⟨number_inj (List.append_cancel_left e'), ?_⟩
    have hk1 : k - 1 < (vev ++ ["Veff".toList]).length := by
      by_contra hlt
      rw [List.getElem?_eq_none (by omega)] at ha
      exact absurd ha (by simp)
    have := (List.getElem?_inj hk1 hnd').1 (ha.trans hb.symm)
    omega

theorem names_length (vev : List (List Char)) (j : Nat) : (Spec.names vev j).length = vev.length + 2 := by
  simp [Spec.names]

theorem cells_length {legendCT vev : List (List Char)} {r : Result} (h : Spec.Traced legendCT vev r) {p : List Minimum}
    (hp : p ∈ r.phases) (i : Nat) : (Spec.cells vev.length p i).length = vev.length + 2 := by
  rw [Spec.cells]
  split
  · rename_i m hm
    simp [h.points p hp m (List.mem_of_getElem? hm)]
  · simp

/-- If the line of the point has as many cells as the first line of the input, the tables are rectangular. -/
theorem C117_rectangular {legendCT vev : List (List Char)} {r : Result} (h : Spec.Traced legendCT vev r)
    (line1 line : List Char) (hc : (columns line).length = (columns line1).length) {head : List Char}
    {rows : List (List Char)} (ht : table legendCT vev vev.length line1 line r = ok (head :: rows)) :
    ∀ text ∈ rows, (columns text).length = (columns head).length := by
  obtain ⟨head', rows', e, -, h1, h2⟩ := C117_table h line1 line
  rw [ht, Outcome.ok.injEq, List.cons.injEq] at e
  obtain ⟨rfl, rfl⟩ := e
  intro text hm
  obtain ⟨i, hi⟩ := List.mem_iff_getElem?.1 hm
  rw [h1, h2 i text hi]
  have e1 : ((List.range r.phases.length).flatMap (Spec.names vev)).length = r.phases.length * (vev.length + 2) := by
    rw [List.length_flatMap, List.map_congr_left fun j _ => names_length vev j]
    simp
  have e2 : (r.phases.flatMap fun p => Spec.cells vev.length p i).length = r.phases.length * (vev.length + 2) := by
    rw [List.length_flatMap, List.map_congr_left fun p hp => cells_length h hp i]
    simp
  simp only [List.length_append, e1, e2, hc, h.ct, List.length_cons, List.length_nil]

/-- Why no phase may be empty (the tracing adds none with fewer than two minima): the columns of an empty phase would be
announced but not written. -/
theorem C117_empty_phase : ∃ (legendCT vev : List (List Char)) (r : Result) (line1 line : List Char) (head row : List Char),
    r.phases = [[]] ∧ table legendCT vev vev.length line1 line r = ok [head, row] ∧
      (columns row).length < (columns head).length :=
  ⟨["dT".toList], ["omega".toList], ⟨["1".toList], [], [], [], [[]], fun _ => []⟩, [], [], _, _, rfl, rfl, by decide +kernel⟩

/-! ## Options -/

/-- Every setting is taken from its own option. -/
theorem C117_read (stod : List Char → Outcome ℚ) (b : Built) (known : List Char → Bool) (p : Parser) (o : Options)
    (h : readOptions stod b known p = ok o) :
    (∃ m, getValue p "model".toList = ok m ∧ o.modelSet = known m) ∧
    (getValue p "firstline".toList >>= stoi) = ok o.firstline ∧
    (getValue p "lastline".toList >>= stoi) = ok o.lastline ∧
    o.templow = 0 ∧ doubleOpt stod p "thigh" 300 = ok o.temphigh ∧
    multistep p = ok o.multistep ∧ intOpt p "num_pts" 10 = ok o.numPts ∧
    flagOpt p "usegsl" b.gsl = ok o.useGSL ∧ flagOpt p "usecmaes" b.cmaes = ok o.useCMAES ∧
    flagOpt p "usenlopt" b.nlopt = ok o.useNLopt ∧
    flagOpt p "usemultithreading" false = ok o.multithreading ∧
    (∀ s, getValue p "checkewsr".toList = ok s → o.ewsr = if s = "off".toList then 0 else 1) ∧
    (getValue p "checkewsr".toList = err .parser → o.ewsr = 1) := by
  unfold readOptions at h
  obtain ⟨_, _, h⟩ := Programs.bind_eq_ok h
  obtain ⟨model, h1, h⟩ := Programs.bind_eq_ok h
  obtain ⟨_, _, h⟩ := Programs.bind_eq_ok h
  obtain ⟨_, _, h⟩ := Programs.bind_eq_ok h
  obtain ⟨first, h2, h⟩ := Programs.bind_eq_ok h
  obtain ⟨last, h3, h⟩ := Programs.bind_eq_ok h
  obtain ⟨thigh, h4, h⟩ := Programs.bind_eq_ok h
  obtain ⟨gsl, h5, h⟩ := Programs.bind_eq_ok h
  obtain ⟨cmaes, h6, h⟩ := Programs.bind_eq_ok h
  obtain ⟨nlopt, h7, h⟩ := Programs.bind_eq_ok h
  obtain ⟨mt, h8, h⟩ := Programs.bind_eq_ok h
  obtain ⟨ms, h9, h⟩ := Programs.bind_eq_ok h
  obtain ⟨pts, h10, h⟩ := Programs.bind_eq_ok h
  obtain ⟨ewsr, h11, h⟩ := Programs.bind_eq_ok h
  rw [Outcome.ok.injEq] at h
  subst h
  refine ⟨⟨model, h1, rfl⟩, h2, h3, rfl, h4, h9, h10, h5, h6, h7, h8, ?_, ?_⟩
  · intro s hs
    rw [checkEWSR, hs, bind_ok] at h11
    by_cases a : s = "on".toList
    · rw [if_pos a] at h11
      have : (1 : Int) = ewsr := by simpa [orDefault] using h11
      rw [if_neg (by rw [a]; decide), ← this]
    · rw [if_neg a] at h11
      by_cases c : s = "off".toList
      · rw [if_pos c] at h11
        have : (0 : Int) = ewsr := by simpa [orDefault] using h11
        rw [if_pos c, ← this]
      · rw [if_neg c] at h11
        have : (1 : Int) = ewsr := by simpa [orDefault] using h11
        rw [if_neg c, ← this]
  · intro hs
    rw [checkEWSR, hs] at h11
    simp [orDefault] at h11
    exact h11.symm

/-- What is accepted: available minimizers, a known model, a range of lines from the first on, a positive highest temperature
and a documented mode. -/
theorem C117_accepts (b : Built) (o : Options) (hlow : o.templow = 0) (he : o.ewsr = 0 ∨ o.ewsr = 1) :
    good b o = ok true ↔ MinimizersAvailable b o ∧ o.modelSet = true ∧ 1 ≤ o.firstline ∧ o.firstline ≤ o.lastline ∧
      0 < o.temphigh ∧ (-1 ≤ o.multistep ∧ o.multistep ≤ 3) ∧ 0 ≤ o.numPts := by
  rw [← Programs.C40_minimizers]
  unfold good
  cases hm : minimizersOk b o with
  | err e => simp
  | ub u => simp
  | ok u =>
    simp only [bind_ok, Outcome.ok.injEq, Programs.ite_false_eq, true_and]
    constructor
    · rintro ⟨h1, h2, h3, h4, h5, h6, h7, h8, -⟩
      push Not at h2 h3 h4 h5 h6 h7 h8
      rw [hlow] at h5
      exact ⟨by simpa using h1, by omega, h4, h5, ⟨h6.2, h6.1⟩, h7⟩
    · rintro ⟨h1, h2, h3, h4, h5, h6⟩
      rw [hlow]
      exact ⟨by simp [h1], by omega, by omega, by omega, not_le.2 h4, by omega, by omega, by omega, trivial⟩

/-! ## Examples -/

/-- Two phases, the first with two minima, the second with one. -/
def exResult : Result :=
  ⟨["1".toList, "2".toList], "success".toList, "ew_sym_res".toList, "success".toList,
    [[⟨"0".toList, ["246".toList], "-1".toList⟩, ⟨"10".toList, ["245".toList], "-2".toList⟩],
      [⟨"100".toList, ["0".toList], "-3".toList⟩]], fun _ => "0.5".toList⟩

theorem exTraced : Spec.Traced ["dT".toList, "dL".toList] ["omega".toList] exResult :=
  { ct := by decide, ctNonempty := by decide, ctNames := by decide, ctTexts := by decide, vevNonempty := by decide
    vevNames := by decide, states := by decide, times := fun _ => (by decide : '\t' ∉ "0.5".toList)
    points := by decide, texts := by decide, phases := by intro p hp; fin_cases hp <;> simp }

example : ∃ head rows, table ["dT".toList, "dL".toList] ["omega".toList] 1 "a".toList "7".toList exResult = ok (head :: rows) ∧
    rows.map columns = [["7", "1", "2", "success", "ew_sym_res", "success", "0", "246", "-1", "100", "0", "-3", "0.5"].map String.toList,
      ["7", "1", "2", "success", "ew_sym_res", "success", "10", "245", "-2", "nan", "nan", "nan", "0.5"].map String.toList] :=
  ⟨_, _, rfl, by decide +kernel⟩

example : ∃ (b : Built) (o : Options), good b o = ok true ∧ o.templow = 0 ∧ o.ewsr = 1 :=
  ⟨⟨true, true, true⟩, { modelSet := true, firstline := 2, lastline := 3, useGSL := true, useCMAES := false, useNLopt := false },
    by decide +kernel, rfl, rfl⟩

end Verif.Batch.Minima
