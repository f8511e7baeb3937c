import Verif.Models.Model
import Verif.Models.Spec
import Verif.Parser.Props

/-!
# Properties of the model selection (C10) and of the VEV embedding (C33)
-/

namespace Verif.Models

open Outcome Parser
open Models.Spec (IsEmbedding)
open Parser.Spec (sameName)

/-! ## C10: model names and identifiers round-trip -/

theorem lower_iff_sameName (a b : Str) : lower a = lower b ↔ sameName a b := Iff.rfl

/-- A table in which different entries have different names ignoring case. -/
def Unambiguous (names : List (Str × ModelID)) : Prop :=
  ∀ e ∈ names, ∀ e' ∈ names, sameName e.1 e'.1 → e = e'

theorem getModel_of_mem (names : List (Str × ModelID)) (hn : Unambiguous names) (s : Str)
    (e : Str × ModelID) (he : e ∈ names) (hs : sameName s e.1) : getModel names s = e.2 := by
  induction names with
  | nil => simp at he
  | cons a rest ih =>
    obtain ⟨key, id⟩ := a
    unfold getModel
    by_cases h : lower s = lower key
    · rw [if_pos h]
      have : sameName e.1 key := by
        show lower e.1 = lower key
        rw [← h]; exact Eq.symm hs
      have := hn e he (key, id) (by simp) this
      rw [this]
    · rw [if_neg h]
      rcases List.mem_cons.1 he with rfl | he
      · exact absurd hs h
      · exact ih (fun x hx y hy => hn x (by simp [hx]) y (by simp [hy])) he

theorem getModel_of_not_mem (names : List (Str × ModelID)) (s : Str)
    (h : ∀ e ∈ names, ¬ sameName s e.1) : getModel names s = .notSet := by
  induction names with
  | nil => rfl
  | cons a rest ih =>
    obtain ⟨key, id⟩ := a
    unfold getModel
    have hk : ¬ lower s = lower key := h (key, id) (by simp)
    rw [if_neg hk]
    exact ih (fun e he => h e (by simp [he]))

/-- Different implemented models have names that differ ignoring case. -/
theorem C10_names_differ : Unambiguous modelNames := by
  unfold Unambiguous
  decide

/-- The name of a model, in any capitalisation, is read back as that model, whatever the iteration
order of the table. -/
theorem C10_name_read_back (names : List (Str × ModelID)) (hp : names.Perm modelNames)
    (name s : Str) (id : ModelID) (h : (name, id) ∈ modelNames) (hs : sameName s name) :
    getModel names s = id := by
  apply getModel_of_mem names _ s (name, id) (hp.mem_iff.2 h) hs
  intro e he e' he'
  exact C10_names_differ e (hp.mem_iff.1 he) e' (hp.mem_iff.1 he')

/-- Every other string is reported as not set. -/
theorem C10_other_strings (names : List (Str × ModelID)) (hp : names.Perm modelNames) (s : Str)
    (h : ∀ e ∈ modelNames, ¬ sameName s e.1) : getModel names s = .notSet :=
  getModel_of_not_mem names s fun e he => h e (hp.mem_iff.1 he)

/-- The names are those of the documentation, one for each value of the enumeration between the
markers. -/
theorem C10_name_table :
    ∀ id, id ≠ .notSet → id ≠ .stop → ∃ name, (name, id) ∈ modelNames ∧
      ∀ name', (name', id) ∈ modelNames → name' = name := by
  intro id h1 h2
  cases id
  · exact absurd rfl h1
  · exact ⟨"c2hdm".toList, by decide, by simp [modelNames]⟩
  · exact ⟨"r2hdm".toList, by decide, by simp [modelNames]⟩
  · exact ⟨"n2hdm".toList, by decide, by simp [modelNames]⟩
  · exact ⟨"cxsm".toList, by decide, by simp [modelNames]⟩
  · exact ⟨"cpinthedark".toList, by decide, by simp [modelNames]⟩
  · exact ⟨"sm".toList, by decide, by simp [modelNames]⟩
  · exact ⟨"template".toList, by decide, by simp [modelNames]⟩
  · exact absurd rfl h2

theorem invert_aux (names : List (Str × ModelID)) (m : List (ModelID × Str))
    (hnd : (m.map Prod.fst ++ names.map Prod.snd).Nodup) :
    (names.foldlM (init := m) fun m e => emplaceName m e.2 e.1) =
      ok (m ++ names.map fun e => (e.2, e.1)) := by
  induction names generalizing m with
  | nil => simp
  | cons e rest ih =>
    obtain ⟨s, id⟩ := e
    have hnot : (m.any fun e => e.1 = id) = false := by
      rw [List.any_eq_false]
      intro e he
      rw [List.map_cons, List.nodup_append] at hnd
      have := hnd.2.2 e.1 (List.mem_map.2 ⟨e, he, rfl⟩) id (by simp)
      simp [this]
    have h1 : emplaceName m id s = ok (m ++ [(id, s)]) := by
      simp only [emplaceName, hnot, Bool.false_eq_true, if_false]
    rw [List.foldlM_cons]
    dsimp only
    rw [h1, bind_ok, ih]
    · simp
    · simpa using hnd

/-- `InvertModelNames` succeeds and, for every model, gives a name that is read back as it. -/
theorem C10_inverse_table (names : List (Str × ModelID)) (hp : names.Perm modelNames) :
    ∃ inv, invertModelNames names = ok inv ∧
      ∀ id, id ≠ .notSet → id ≠ .stop →
        ∃ name, nameOf inv id = ok name ∧ (name, id) ∈ modelNames ∧ getModel names name = id := by
  have hnd : (names.map Prod.snd).Nodup := by
    rw [(hp.map Prod.snd).nodup_iff]; decide
  refine ⟨names.map fun e => (e.2, e.1), ?_, ?_⟩
  · have := invert_aux names [] (by simpa using hnd)
    simpa [invertModelNames] using this
  · intro id h1 h2
    obtain ⟨name, hm, _⟩ := C10_name_table id h1 h2
    have hm' : (name, id) ∈ names := hp.mem_iff.2 hm
    have hsome : ((names.map fun e => (e.2, e.1)).find? (fun e => e.1 = id)).isSome := by
      rw [List.find?_isSome]
      exact ⟨(id, name), List.mem_map.2 ⟨_, hm', rfl⟩, by simp⟩
    obtain ⟨e, he⟩ := Option.isSome_iff_exists.1 hsome
    have hmem := List.mem_of_find?_eq_some he
    have hid := List.find?_some he
    obtain ⟨e', he', rfl⟩ := List.mem_map.1 hmem
    obtain ⟨n', id'⟩ := e'
    have hid' : id' = id := by simpa using hid
    subst hid'
    refine ⟨n', ?_, hp.mem_iff.1 he', ?_⟩
    · unfold nameOf; rw [he]
    · exact C10_name_read_back names hp n' n' id' (hp.mem_iff.1 he') rfl

/-- The inverse table knows no other identifier. -/
theorem C10_inverse_unknown (names : List (Str × ModelID)) (hp : names.Perm modelNames)
    (inv : List (ModelID × Str)) (h : invertModelNames names = ok inv) (id : ModelID)
    (hid : id = .notSet ∨ id = .stop) : nameOf inv id = err .outOfRange := by
  have hnd : (names.map Prod.snd).Nodup := by
    rw [(hp.map Prod.snd).nodup_iff]; decide
  have := invert_aux names [] (by simpa using hnd)
  rw [invertModelNames] at h
  rw [h] at this
  obtain rfl : inv = names.map fun e => (e.2, e.1) := by simpa using this
  have hnone : (names.map fun e => (e.2, e.1)).find? (fun e => e.1 = id) = none := by
    rw [List.find?_eq_none]
    intro e he
    obtain ⟨e', he', rfl⟩ := List.mem_map.1 he
    have hm := hp.mem_iff.1 he'
    have hall : ∀ e ∈ modelNames, e.2 ≠ .notSet ∧ e.2 ≠ .stop := by decide
    have := hall e' hm
    rcases hid with rfl | rfl <;> simp [this.1, this.2]
  rw [nameOf, hnone]

/-- `FChoose` creates the class that carries the chosen identifier, for every implemented model,
and throws for the two markers. -/
theorem C10_construct (id : ModelID) :
    (id ≠ .notSet ∧ id ≠ .stop → ∃ c, fChoose id = ok c ∧ c.model = id) ∧
    (id = .notSet ∨ id = .stop → fChoose id = err .runtime) := by
  cases id <;> simp [fChoose, Class.model]

example : modelNames.reverse.Perm modelNames ∧ sameName "CPinTheDark".toList "cpinthedark".toList ∧
    (∀ e ∈ modelNames, ¬ sameName "2hdm".toList e.1) := by
  exact ⟨List.reverse_perm _, by decide, by decide⟩

/-! ## C33: minimizer coordinates are embedded into the full field vector -/

section Embedding

variable {α : Type} [Zero α]

/-- The loop on the unconsumed parts of the two lists. -/
def loopS (os : List Nat) (vs : List α) : (fuel i : Nat) → Outcome (List α)
  | 0, _ => ok []
  | fuel + 1, i =>
    match os with
    | [] => ub .outOfBounds
    | o :: os' =>
      if i = o then
        match vs with
        | [] => err .outOfRange
        | x :: vs' => (loopS os' vs' fuel (i + 1)).bind fun r => ok (x :: r)
      else (loopS (o :: os') vs fuel (i + 1)).bind fun r => ok (0 :: r)

theorem loop_eq_loopS (order : List Nat) (v : List α) (fuel i count : Nat) :
    minimizeOrderVEVLoop order v fuel i count =
      loopS (order.drop count) (v.drop count) fuel i := by
  induction fuel generalizing i count with
  | zero => rfl
  | succ fuel ih =>
    unfold minimizeOrderVEVLoop
    by_cases hc : count < order.length
    · rw [idx_of_lt hc, bind_ok, List.drop_eq_getElem_cons hc]
      unfold loopS
      dsimp only
      by_cases hi : i = order[count]
      · rw [if_pos hi, if_pos hi]
        by_cases hv : count < v.length
        · rw [at'_of_lt hv, bind_ok, ih, List.drop_eq_getElem_cons hv]
          rfl
        · rw [at'_of_ge (by omega), bind_err, List.drop_eq_nil_of_le (by omega)]
      · rw [if_neg hi, if_neg hi, ih, ← List.drop_eq_getElem_cons hc]
        rfl
    · rw [idx_of_ge (by omega), bind_ub, List.drop_eq_nil_of_le (by omega)]
      rfl

theorem loopS_ok (os : List Nat) (vs : List α) (fuel i : Nat) (hs : os.Pairwise (· < ·))
    (hr : ∀ o ∈ os, i ≤ o ∧ o < i + fuel) (hlast : 0 < fuel → i + fuel - 1 ∈ os)
    (hv : os.length ≤ vs.length) :
    ∃ w, loopS os vs fuel i = ok w ∧ w.length = fuel ∧
      (∀ (k o : Nat) (x : α), os[k]? = some o → vs[k]? = some x → w[o - i]? = some x) ∧
      (∀ j : Nat, j < fuel → i + j ∉ os → w[j]? = some 0) := by
  induction fuel generalizing os vs i with
  | zero =>
    have : os = [] := by
      cases os with
      | nil => rfl
      | cons o os => have := hr o (by simp); omega
    subst this
    exact ⟨[], rfl, rfl, by simp, by simp⟩
  | succ fuel ih =>
    cases os with
    | nil => have := hlast (by omega); simp at this
    | cons o os =>
      rw [List.pairwise_cons] at hs
      unfold loopS
      dsimp only
      by_cases hio : i = o
      · subst hio
        cases vs with
        | nil => simp at hv
        | cons x vs =>
          rw [if_pos rfl]
          dsimp only
          obtain ⟨w, h1, h2, h3, h4⟩ := ih os vs (i + 1) hs.2
            (fun o' ho' => by
              have := hs.1 o' ho'
              have := hr o' (by simp [ho'])
              omega)
            (fun hf => by
              have := hlast (by omega)
              rcases List.mem_cons.1 this with h | h
              · omega
              · have e : i + 1 + fuel - 1 = i + (fuel + 1) - 1 := by omega
                rw [e]; exact h)
            (by simpa using hv)
          refine ⟨x :: w, by rw [h1]; rfl, by simp [h2], ?_, ?_⟩
          · intro k o' y hk hy
            cases k with
            | zero =>
              simp only [List.getElem?_cons_zero, Option.some.injEq] at hk hy
              subst hk; subst hy; simp
            | succ k =>
              simp only [List.getElem?_cons_succ] at hk hy
              have h5 := h3 k o' y hk hy
              have : i < o' := hs.1 o' (List.mem_of_getElem? hk)
              have e : o' - i = (o' - (i + 1)) + 1 := by omega
              rw [e, List.getElem?_cons_succ]; exact h5
          · intro j hj hn
            cases j with
            | zero => simp at hn
            | succ j =>
              rw [List.getElem?_cons_succ]
              apply h4 j (by omega)
              intro h; apply hn
              have e : i + 1 + j = i + (j + 1) := by omega
              rw [e] at h; simp [h]
      · rw [if_neg hio]
        have hio' : i < o := by have := hr o (by simp); omega
        obtain ⟨w, h1, h2, h3, h4⟩ := ih (o :: os) vs (i + 1) (List.pairwise_cons.2 hs)
          (fun o' ho' => by
            have h := hr o' ho'
            rcases List.mem_cons.1 ho' with rfl | h'
            · omega
            · have := hs.1 o' h'; omega)
          (fun hf => by
            have := hlast (by omega)
            have e : i + 1 + fuel - 1 = i + (fuel + 1) - 1 := by omega
            rw [e]; exact this)
          hv
        refine ⟨0 :: w, by rw [h1]; rfl, by simp [h2], ?_, ?_⟩
        · intro k o' y hk hy
          have h5 := h3 k o' y hk hy
          have : i < o' := by
            have hm := List.mem_of_getElem? hk
            rcases List.mem_cons.1 hm with rfl | h'
            · exact hio'
            · have := hs.1 o' h'; omega
          have e : o' - i = (o' - (i + 1)) + 1 := by omega
          rw [e, List.getElem?_cons_succ]; exact h5
        · intro j hj hn
          cases j with
          | zero => simp
          | succ j =>
            rw [List.getElem?_cons_succ]
            apply h4 j (by omega)
            have e : i + 1 + j = i + (j + 1) := by omega
            rw [e]; exact hn

theorem loopS_ub (os : List Nat) (vs : List α) (fuel i : Nat) (hs : os.Pairwise (· < ·))
    (hr : ∀ o ∈ os, i ≤ o ∧ o + 1 < i + fuel) (hf : 0 < fuel)
    (hv : os.length ≤ vs.length) : loopS os vs fuel i = ub .outOfBounds := by
  induction fuel generalizing os vs i with
  | zero => omega
  | succ fuel ih =>
    cases os with
    | nil => rfl
    | cons o os =>
      rw [List.pairwise_cons] at hs
      have hro := hr o (by simp)
      unfold loopS
      dsimp only
      by_cases hio : i = o
      · subst hio
        cases vs with
        | nil => simp at hv
        | cons x vs =>
          rw [if_pos rfl]
          dsimp only
          rw [ih os vs (i + 1) hs.2
            (fun o' ho' => by
              have := hs.1 o' ho'
              have := hr o' (by simp [ho'])
              omega) (by omega) (by simpa using hv)]
          rfl
      · rw [if_neg hio]
        rw [ih (o :: os) vs (i + 1) (List.pairwise_cons.2 hs)
          (fun o' ho' => by
            have h := hr o' ho'
            rcases List.mem_cons.1 ho' with rfl | h'
            · omega
            · have := hs.1 o' h'; omega) (by omega) hv]
        rfl

theorem loopS_short (os : List Nat) (vs : List α) (fuel i : Nat) (hs : os.Pairwise (· < ·))
    (hr : ∀ o ∈ os, i ≤ o ∧ o < i + fuel) (hv : vs.length < os.length) :
    loopS os vs fuel i = err .outOfRange := by
  induction fuel generalizing os vs i with
  | zero =>
    cases os with
    | nil => simp at hv
    | cons o os => have := hr o (by simp); omega
  | succ fuel ih =>
    cases os with
    | nil => simp at hv
    | cons o os =>
      rw [List.pairwise_cons] at hs
      have hro := hr o (by simp)
      unfold loopS
      dsimp only
      by_cases hio : i = o
      · subst hio
        cases vs with
        | nil => rw [if_pos rfl]
        | cons x vs =>
          rw [if_pos rfl]
          dsimp only
          rw [ih os vs (i + 1) hs.2
            (fun o' ho' => by
              have := hs.1 o' ho'
              have := hr o' (by simp [ho'])
              omega) (by simpa using hv)]
          rfl
      · rw [if_neg hio]
        rw [ih (o :: os) vs (i + 1) (List.pairwise_cons.2 hs)
          (fun o' ho' => by
            have h := hr o' ho'
            rcases List.mem_cons.1 ho' with rfl | h'
            · omega
            · have := hs.1 o' h'; omega) hv]
        rfl

/-- The full property, of which `C33_sm_reads_past_the_end` shows that it fails for the SM: for
every implemented model the embedding is produced. -/
def EmbedsForEveryModel : Prop :=
  ∀ (cb : Bool) (c : Class) (v : List Int), v.length = (c.vevOrder cb).length →
    ∃ w, minimizeOrderVEV c.nHiggs (c.vevOrder cb) v = ok w ∧
      IsEmbedding c.nHiggs (c.vevOrder cb) v w

/-- When the last VEV position is the last field, `MinimizeOrderVEV` gives the embedding, for every
ascending list of positions and all values. -/
theorem C33_embedding (n : Nat) (order : List Nat) (v : List α) (hs : order.Pairwise (· < ·))
    (hr : ∀ o ∈ order, o < n) (hlast : 0 < n → n - 1 ∈ order) (hv : order.length ≤ v.length) :
    ∃ w, minimizeOrderVEV n order v = ok w ∧ IsEmbedding n order v w := by
  obtain ⟨w, h1, h2, h3, h4⟩ := loopS_ok order v n 0 hs (fun o ho => ⟨by omega, by
    have := hr o ho; omega⟩) (fun h => by simpa using hlast h) hv
  refine ⟨w, by rw [minimizeOrderVEV, loop_eq_loopS]; simpa using h1, h2, ?_, ?_⟩
  · intro k i x hk hx
    simpa using h3 k i x hk hx
  · intro i hi hn
    simpa using h4 i hi (by simpa using hn)

/-- Otherwise the loop reads `VevOrder` past its end. -/
theorem C33_reads_past_the_end (n : Nat) (order : List Nat) (v : List α)
    (hs : order.Pairwise (· < ·)) (hr : ∀ o ∈ order, o + 1 < n) (hn : 0 < n)
    (hv : order.length ≤ v.length) : minimizeOrderVEV n order v = ub .outOfBounds := by
  rw [minimizeOrderVEV, loop_eq_loopS]
  exact loopS_ub order v n 0 hs (fun o ho => ⟨by omega, by have := hr o ho; omega⟩) hn hv

/-- A vector with too few values is refused with `std::out_of_range`. -/
theorem C33_too_few_values (n : Nat) (order : List Nat) (v : List α)
    (hs : order.Pairwise (· < ·)) (hr : ∀ o ∈ order, o < n) (hv : v.length < order.length) :
    minimizeOrderVEV n order v = err .outOfRange := by
  rw [minimizeOrderVEV, loop_eq_loopS]
  exact loopS_short order v n 0 hs (fun o ho => ⟨by omega, by have := hr o ho; omega⟩) hv

/-- Every implemented model other than the SM satisfies the hypotheses, so the embedding is
produced for all values. -/
theorem C33_models_partial (cb : Bool) (c : Class) (hc : c ≠ .sm) (v : List α)
    (hv : v.length = (c.vevOrder cb).length) :
    ∃ w, minimizeOrderVEV c.nHiggs (c.vevOrder cb) v = ok w ∧
      IsEmbedding c.nHiggs (c.vevOrder cb) v w := by
  apply C33_embedding
  · revert hc; revert c; intro c _ hc; cases c <;> cases cb <;> first | exact absurd rfl hc | decide
  · revert hc; revert c; intro c _ hc; cases c <;> cases cb <;> first | exact absurd rfl hc | decide
  · intro _
    revert hc; revert c; intro c _ hc; cases c <;> cases cb <;> first | exact absurd rfl hc | decide
  · omega

/-- Which of the eight real components of the two doublets, in the basis of the two-doublet models without
singlet: charged component, neutral real parts, neutral imaginary part of the second doublet. -/
example (cb : Bool) : Class.r2hdm.vevOrder cb = Class.c2hdm.vevOrder true ∧
    Class.c2hdm.vevOrder false = (Class.c2hdm.vevOrder true).tail ∧
    Class.cpinthedark.vevOrder cb = Class.r2hdm.vevOrder cb ++ [8] ∧
    Class.r2hdm.vevOrder cb = [2, 4, 6, 7] ∧ Class.n2hdm.vevOrder cb = [1, 5, 6, 7, 8] ∧
    Class.cxsm.vevOrder cb = [3, 4, 5] ∧ Class.sm.vevOrder cb = [2] ∧ Class.template.vevOrder cb = [0] := by
  cases cb <;> decide

/-- For the SM (VEV at position 2 of 4 fields) every call reads past the end of `VevOrder`. -/
theorem C33_sm_reads_past_the_end (cb : Bool) (v : List α) (hv : v.length = 1) :
    minimizeOrderVEV Class.sm.nHiggs (Class.sm.vevOrder cb) v = ub .outOfBounds := by
  apply C33_reads_past_the_end
  · cases cb <;> decide
  · cases cb <;> decide
  · decide
  · simp [Class.vevOrder, hv]

theorem C33_not_for_every_model : ¬ EmbedsForEveryModel := by
  intro h
  obtain ⟨w, hw, _⟩ := h false .sm [1] rfl
  rw [C33_sm_reads_past_the_end false [1] rfl] at hw
  simp at hw

end Embedding

example : minimizeOrderVEV Class.cxsm.nHiggs (Class.cxsm.vevOrder true) [(1 : Int), 2, 3] =
    ok [0, 0, 0, 1, 2, 3] := by decide

end Verif.Models
