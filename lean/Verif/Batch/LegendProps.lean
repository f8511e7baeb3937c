import Verif.Batch.LegendSpec
import Verif.Transition.TableProps
import Mathlib.Data.List.Nodup

/-!
# C101: headers and rows of the tables agree
-/

namespace Verif.Batch

open Spec
open Models (Class)
open Transition (columns joinTab columns_tab columns_plain columns_joinTab vecCols)

/-! ## Columns -/

theorem columns_sepVec (x : List Char) {l : List (List Char)} (h : ∀ y ∈ l, '\t' ∉ y) (hl : l ≠ []) :
    columns (x ++ sepVec l) = columns x ++ l := by
  rw [sepVec, columns_tab, columns_joinTab h]
  cases l with
  | nil => exact absurd rfl hl
  | cons a l => simp [vecCols]

theorem columns_sep (x : List Char) {y : List Char} (h : '\t' ∉ y) : columns (x ++ '\t' :: y) = columns x ++ [y] := by
  rw [columns_tab, columns_plain h]

theorem columns_sepEach (x : List Char) {l : List (List Char)} (h : ∀ y ∈ l, '\t' ∉ y) :
    columns (x ++ sepEach l) = columns x ++ l := by
  induction l generalizing x with
  | nil => simp [sepEach]
  | cons a l ih =>
    have : x ++ sepEach (a :: l) = (x ++ '\t' :: a) ++ sepEach l := by simp [sepEach]
    rw [this, ih _ fun y hy => h y (by simp [hy]), columns_sep x (h a (by simp))]
    simp

/-! ## Names -/

def plain (l : List String) : Bool := l.all fun s => !s.toList.contains '\t'

theorem plain_tabs {l : List String} (h : plain l = true) : ∀ y ∈ chars l, '\t' ∉ y := by
  intro y hy
  obtain ⟨s, hs, rfl⟩ := List.mem_map.1 hy
  have := List.all_eq_true.1 h s hs
  simpa using this

theorem ct_plain (c : Class) : plain (legendCT c) = true ∧ legendCT c ≠ [] ∧ setCT c ≠ [] ∧ (setCT c).Nodup ∧
    (legendCT c).length = (setCT c).length := by
  cases c <;> decide +kernel

/-- Only the names of the C2HDM depend on the choices. -/
theorem by_choice {P : Bool → Class → Prop} (h : ∀ c, P true c) (h' : P false .c2hdm)
    (hs : ∀ c, c ≠ .c2hdm → (P true c → P false c)) (cb : Bool) (c : Class) : P cb c := by
  cases cb with
  | true => exact h c
  | false =>
    by_cases hc : c = .c2hdm
    · subst hc; exact h'
    · exact hs c hc (h c)

theorem particles_plain (hsm : Bool) (c : Class) : plain (particles hsm c) = true ∧ (particles hsm c).length = c.nHiggs := by
  refine by_choice (P := fun hsm c => plain (particles hsm c) = true ∧ (particles hsm c).length = c.nHiggs)
    (fun c => ?_) (by decide +kernel) (fun c hc h => ?_) hsm c
  · cases c <;> decide +kernel
  · cases c <;> first | exact absurd rfl hc | exact h

theorem temp_plain (cb : Bool) (c : Class) : plain (legendTemp cb c) = true ∧ plain (legendVEV cb c) = true ∧
    legendTemp cb c ≠ [] ∧ legendVEV cb c ≠ [] ∧ c.vevOrder cb ≠ [] ∧ (c.vevOrder cb).Nodup := by
  refine by_choice (P := fun cb c => plain (legendTemp cb c) = true ∧ plain (legendVEV cb c) = true ∧
    legendTemp cb c ≠ [] ∧ legendVEV cb c ≠ [] ∧ c.vevOrder cb ≠ [] ∧ (c.vevOrder cb).Nodup)
    (fun c => ?_) (by decide +kernel) (fun c hc h => ?_) cb c
  · cases c <;> decide +kernel
  · cases c <;> first | exact absurd rfl hc | exact h

theorem plain_suffix {l : List String} (h : plain l = true) : plain (l.map (· ++ "_EWBG")) = true := by
  have hs : '\t' ∉ "_EWBG".toList := by decide
  rw [plain, List.all_eq_true]
  intro x hx
  obtain ⟨s, hm, rfl⟩ := List.mem_map.1 hx
  have := List.all_eq_true.1 h s hm
  simp only [String.toList_append, List.contains_eq_mem, List.mem_append, hs, or_false] at this ⊢
  exact this

/-- What is expected in the columns of a critical point. -/
def tempQuantities (cb : Bool) (c : Class) : List Quantity := [.tc, .vc, .ratio] ++ (c.vevOrder cb).map .field

theorem ct_table {c : Class} (hc : c ≠ .cpinthedark) : (legendCT c).length = (setCT c).length ∧
    (∀ e ∈ (legendCT c).zip ((setCT c).map Quantity.counterterm), e ∈ cts c) ∧ (legendCT c).Nodup := by
  cases c <;> first | exact absurd rfl hc | decide +kernel

theorem temp_table (cb : Bool) (c : Class) : (legendTemp cb c).length = 3 + (c.vevOrder cb).length ∧
    (∀ e ∈ (legendTemp cb c).zip (tempQuantities cb c), e ∈ tempDictionary c) ∧
    (legendCT c ++ legendTemp cb c).Nodup := by
  refine by_choice (P := fun cb c => (legendTemp cb c).length = 3 + (c.vevOrder cb).length ∧
    (∀ e ∈ (legendTemp cb c).zip (tempQuantities cb c), e ∈ tempDictionary c) ∧
    (legendCT c ++ legendTemp cb c).Nodup) (fun c => ?_) (by decide +kernel) (fun c hc h => ?_) cb c
  · cases c <;> decide +kernel
  · cases c <;> first | exact absurd rfl hc | exact h

theorem vev_table (cb : Bool) (c : Class) : (legendVEV cb c).length = (c.vevOrder cb).length ∧
    (∀ e ∈ (legendVEV cb c).zip ((c.vevOrder cb).map Quantity.field), e ∈ vevs c) ∧
    (legendCT c ++ legendVEV cb c ++ ["v_NLO"]).Nodup ∧ (["T", "v"] ++ legendVEV cb c ++ ["Veff(v,T)"]).Nodup := by
  refine by_choice (P := fun cb c => (legendVEV cb c).length = (c.vevOrder cb).length ∧
    (∀ e ∈ (legendVEV cb c).zip ((c.vevOrder cb).map Quantity.field), e ∈ vevs c) ∧
    (legendCT c ++ legendVEV cb c ++ ["v_NLO"]).Nodup ∧ (["T", "v"] ++ legendVEV cb c ++ ["Veff(v,T)"]).Nodup)
    (fun c => ?_) (by decide +kernel) (fun c hc h => ?_) cb c
  · cases c <;> decide +kernel
  · cases c <;> first | exact absurd rfl hc | exact h

/-! ## Texts -/

theorem idxOf_get {α : Type} [BEq α] [LawfulBEq α] {l : List α} (h : l.Nodup) {i : Nat} (hi : i < l.length) :
    l.idxOf? l[i] = some i := by
  rw [List.idxOf?_eq_some_iff]
  refine ⟨hi, rfl, fun j hj heq => ?_⟩
  exact absurd (h.getElem_inj_iff.1 heq) (by omega)

theorem lookup_all {α β : Type} [BEq α] [LawfulBEq α] {l : List α} {v : List β} (h : l.Nodup) (hlen : v.length = l.length) :
    l.map (fun a => (l.idxOf? a).bind fun i => v[i]?) = v.map some := by
  refine List.ext_getElem (by simp [hlen]) fun i h1 h2 => ?_
  simp only [List.length_map] at h1 h2
  simp [idxOf_get h h1, h2]

theorem text_ct {cb : Bool} {c : Class} {p : Point} (hp : Written cb c p) :
    ((setCT c).map Quantity.counterterm).map (text cb c p) = p.ct.map some := by
  rw [List.map_map, ← lookup_all (ct_plain c).2.2.2.1 hp.ct]
  rfl

theorem text_field {cb : Bool} {c : Class} {p : Point} (hp : Written cb c p) :
    ((c.vevOrder cb).map Quantity.field).map (text cb c p) = p.minimum.map some := by
  rw [List.map_map, ← lookup_all (temp_plain cb c).2.2.2.2.2 hp.minimum]
  rfl

theorem text_temp {cb : Bool} {c : Class} {p : Point} (hp : Written cb c p) :
    (tempQuantities cb c).map (text cb c p) = ([p.tc, p.vc, p.ratio] ++ p.minimum).map some := by
  rw [tempQuantities, List.map_append, text_field hp]
  simp [text]

/-- A table from its names, their meaning and the cells. -/
theorem described {cb : Bool} {c : Class} {p : Point} {dict : List (String × Quantity)} {names : List String}
    {qs : List Quantity} {cells : List (List Char)} (hn : names.Nodup) (hlen : names.length = qs.length)
    (hd : ∀ e ∈ names.zip qs, e ∈ dict) (ht : qs.map (text cb c p) = cells.map some) :
    Described cb c p dict (names.zip cells) ∧ (names.zip cells).map (·.1) = names ∧
      (names.zip cells).map (·.2) = cells ∧ (names.zip cells).length = names.length := by
  have hl : qs.length = cells.length := by simpa using congrArg List.length ht
  have h1 : (names.zip cells).map (·.1) = names := List.map_fst_zip (by omega)
  have h2 : (names.zip cells).map (·.2) = cells := List.map_snd_zip (by omega)
  refine ⟨⟨by rw [h1]; exact hn, fun e he => ?_⟩, h1, h2, by simp; omega⟩
  obtain ⟨i, hi, rfl⟩ := List.mem_iff_getElem.1 he
  simp only [List.length_zip] at hi
  have hiq : i < qs.length := by omega
  refine ⟨qs[i], ?_, ?_⟩
  · apply hd
    rw [List.mem_iff_getElem]
    exact ⟨i, by simp; omega, by simp⟩
  · have := congrArg (fun l => l[i]?) ht
    simp only [List.getElem?_map] at this
    rw [List.getElem?_eq_getElem hiq, List.getElem?_eq_getElem (by omega)] at this
    simpa using this

theorem zip_append_mem {α β : Type} {a a' : List α} {b b' : List β} (h : a.length = b.length) {e : α × β}
    (he : e ∈ (a ++ a').zip (b ++ b')) : e ∈ a.zip b ∨ e ∈ a'.zip b' := by
  rw [List.zip_append h] at he
  exact List.mem_append.1 he

section

variable {cb : Bool} {c : Class} {p : Point}

theorem tabs_ct (hp : Written cb c p) : ∀ x ∈ p.ct, '\t' ∉ x := fun x hx => hp.tabs x (by simp [hx])

theorem tabs_minimum (hp : Written cb c p) : ∀ x ∈ p.minimum, '\t' ∉ x := fun x hx => hp.tabs x (by simp [hx])

theorem ct_ne (hp : Written cb c p) : p.ct ≠ [] := by
  intro h
  have := hp.ct
  rw [h] at this
  exact (ct_plain c).2.2.1 (List.length_eq_zero_iff.1 this.symm)

theorem minimum_ne (hp : Written cb c p) : p.minimum ≠ [] := by
  intro h
  have := hp.minimum
  rw [h] at this
  exact (temp_plain cb c).2.2.2.2.1 (List.length_eq_zero_iff.1 this.symm)

theorem chars_ne {l : List String} (h : l ≠ []) : chars l ≠ [] := by
  cases l with
  | nil => exact absurd rfl h
  | cons a l => simp [chars]

/-- C101, `CalcCT`.  For every model but CPintheDark, every line of the input file and every point, the header and the row of
the output have the columns of the input and then, under the name of each counterterm, the value that is used for it. -/
theorem C101_calcct_partial (hc : c ≠ .cpinthedark) (hp : Written cb c p) (line1 line : List Char) :
    ∃ table, Described cb c p (cts c) table ∧ table.length = (setCT c).length ∧
      columns (calcCTHeader c line1) = columns line1 ++ chars (table.map (·.1)) ∧
      columns (calcCTRow line p.ct) = columns line ++ table.map (·.2) := by
  obtain ⟨h1, h2, h3⟩ := ct_table hc
  obtain ⟨d1, d2, d3, d4⟩ := described h3 (by simpa using h1) h2 (text_ct hp)
  refine ⟨_, d1, by rw [d4, h1], ?_, ?_⟩
  · rw [d2, calcCTHeader, columns_sepVec _ (plain_tabs (ct_plain c).1) (chars_ne (ct_plain c).2.1)]
  · rw [d3, calcCTRow, columns_sepVec _ (tabs_ct hp) (ct_ne hp)]

/-- C101.  In CPintheDark four counterterms are written under the names of others. -/
theorem C101_calcct_fails (hp : Written cb .cpinthedark p) (line1 line : List Char) :
    ∀ e ∈ [("dT1", "dTCB"), ("dT2", "dT1"), ("dTCP", "dT2"), ("dTCB", "dTCP")],
      ∃ i : Nat, (columns (calcCTHeader .cpinthedark line1))[(columns line1).length + i]? = some (String.toList e.1) ∧
        (columns (calcCTRow line p.ct))[(columns line).length + i]? = text cb .cpinthedark p (.counterterm e.2) := by
  have hh := columns_sepVec line1 (plain_tabs (ct_plain .cpinthedark).1) (chars_ne (ct_plain .cpinthedark).2.1)
  have hr := columns_sepVec line (tabs_ct hp) (ct_ne hp)
  have key : ∀ e ∈ [("dT1", "dTCB"), ("dT2", "dT1"), ("dTCP", "dT2"), ("dTCB", "dTCP")], ∃ i : Nat,
      (chars (legendCT .cpinthedark))[i]? = some (String.toList e.1) ∧ (setCT .cpinthedark).idxOf? e.2 = some i := by
    intro e he
    simp only [List.mem_cons, List.not_mem_nil, or_false] at he
    rcases he with rfl | rfl | rfl | rfl
    · exact ⟨13, by decide +kernel⟩
    · exact ⟨14, by decide +kernel⟩
    · exact ⟨15, by decide +kernel⟩
    · exact ⟨16, by decide +kernel⟩
  intro e he
  obtain ⟨i, h1, h2⟩ := key e he
  refine ⟨i, ?_, ?_⟩
  · rw [calcCTHeader, hh, List.getElem?_append_right (by omega)]
    simpa using h1
  · rw [calcCTRow, hr, List.getElem?_append_right (by omega)]
    simp [text, h2]

/-- C101, `BSMPT`.  The same for the counterterms, the critical temperature and vacuum expectation value, their ratio and the
components of the minimum; when no strong transition was found, the status flag takes the place of the ratio. -/
theorem C101_bsmpt_partial (hc : c ≠ .cpinthedark) (hp : Written cb c p) (line1 line : List Char) :
    ∃ table, Described cb c { p with ratio := if p.strong then p.ratio else p.status } (cts c ++ tempDictionary c) table ∧
      table.length = (setCT c).length + 3 + (c.vevOrder cb).length ∧
      columns (bsmptHeader cb c line1) = columns line1 ++ chars (table.map (·.1)) ∧
      columns (bsmptRow line p) = columns line ++ table.map (·.2) := by
  obtain ⟨p', hp'⟩ : ∃ p', p' = { p with ratio := if p.strong then p.ratio else p.status } := ⟨_, rfl⟩
  rw [← hp']
  have hw : Written cb c p' := by
    subst hp'
    refine ⟨hp.ct, hp.minimum, fun x hx => ?_⟩
    apply hp.tabs
    rcases p with ⟨a1, a2, a3, a4, a5, st, a6, a7, a8, a9⟩
    cases st
    · simp_all; tauto
    · simp_all
  obtain ⟨h1, h2, -⟩ := ct_table hc
  obtain ⟨t1, t2, t3⟩ := temp_table cb c
  have hlen : (legendTemp cb c).length = (tempQuantities cb c).length := by rw [t1]; simp [tempQuantities]; omega
  obtain ⟨d1, d2, d3, d4⟩ := described (cb := cb) (c := c) (p := p') (dict := cts c ++ tempDictionary c)
    (names := legendCT c ++ legendTemp cb c) (qs := (setCT c).map Quantity.counterterm ++ tempQuantities cb c)
    (cells := p'.ct ++ ([p'.tc, p'.vc, p'.ratio] ++ p'.minimum)) t3 (by simp [h1, hlen])
    (fun e he => List.mem_append.2 ((zip_append_mem (by simpa using h1) he).imp (h2 e) (t2 e)))
    (by rw [List.map_append, text_ct hw, text_temp hw, ← List.map_append])
  refine ⟨_, d1, by rw [d4, List.length_append, h1, t1]; omega, ?_, ?_⟩
  · rw [d2, bsmptHeader, columns_sepVec _ (plain_tabs (temp_plain cb c).1) (chars_ne (temp_plain cb c).2.2.1),
      columns_sepVec _ (plain_tabs (ct_plain c).1) (chars_ne (ct_plain c).2.1)]
    simp [chars]
  · have e : bsmptRow line p = line ++ sepVec p'.ct ++ ('\t' :: p'.tc) ++ ('\t' :: p'.vc) ++ ('\t' :: p'.ratio) ++
        sepVec p'.minimum := by rw [hp']; rfl
    rw [d3, e, columns_sepVec _ (tabs_minimum hw) (minimum_ne hw), columns_sep _ (hw.tabs _ (by simp)),
      columns_sep _ (hw.tabs _ (by simp)), columns_sep _ (hw.tabs _ (by simp)), columns_sepVec _ (tabs_ct hw) (ct_ne hw)]
    simp

/-- C101, `NLOVEV`: the counterterms, the components of the minimum and its distance from the origin. -/
theorem C101_nlovev_partial (hc : c ≠ .cpinthedark) (hp : Written cb c p) (line1 line : List Char) :
    ∃ table, Described cb c p (cts c ++ vevs c ++ [("v_NLO", .vev)]) table ∧
      table.length = (setCT c).length + (c.vevOrder cb).length + 1 ∧
      columns (nlovevHeader cb c line1) = columns line1 ++ chars (table.map (·.1)) ∧
      columns (nlovevRow line p) = columns line ++ table.map (·.2) := by
  obtain ⟨h1, h2, -⟩ := ct_table hc
  obtain ⟨t1, t2, t3, -⟩ := vev_table cb c
  obtain ⟨d1, d2, d3, d4⟩ := described (cb := cb) (c := c) (p := p) (dict := cts c ++ vevs c ++ [("v_NLO", .vev)])
    (names := legendCT c ++ legendVEV cb c ++ ["v_NLO"])
    (qs := (setCT c).map Quantity.counterterm ++ (c.vevOrder cb).map Quantity.field ++ [.vev])
    (cells := p.ct ++ p.minimum ++ [p.vev]) t3 (by simp [h1, t1])
    (fun e he => List.mem_append.2 ((zip_append_mem (by simp [h1, t1]) he).imp
      (fun h => List.mem_append.2 ((zip_append_mem (by simpa using h1) h).imp (h2 e) (t2 e))) (fun h => by simpa using h)))
    (by rw [List.map_append, List.map_append, text_ct hp, text_field hp]; simp [text])
  refine ⟨_, d1, by rw [d4]; simp [h1, t1, Nat.add_assoc], ?_, ?_⟩
  · have hv : '\t' ∉ "v_NLO".toList := by decide
    rw [d2, nlovevHeader, columns_sep _ hv, columns_sepEach _ (plain_tabs (temp_plain cb c).2.1),
      columns_sepEach _ (plain_tabs (ct_plain c).1)]
    simp [chars]
  · rw [d3, nlovevRow, columns_sep _ (hp.tabs _ (by simp)), columns_sepVec _ (tabs_minimum hp) (minimum_ne hp),
      columns_sepVec _ (tabs_ct hp) (ct_ne hp)]
    simp

/-- C101, `VEVEVO`: the temperature, the distance of the minimum from the origin, its components and the value of the potential,
for every model. -/
theorem C101_vevevo (hp : Written cb c p) :
    ∃ table, Described cb c p ([("T", .temp), ("v", .vev)] ++ vevs c ++ [("Veff(v,T)", .veff)]) table ∧
      table.length = (c.vevOrder cb).length + 3 ∧
      columns (vevevoHeader cb c) = chars (table.map (·.1)) ∧ columns (vevevoRow p) = table.map (·.2) := by
  obtain ⟨t1, t2, -, t3⟩ := vev_table cb c
  obtain ⟨d1, d2, d3, d4⟩ := described (cb := cb) (c := c) (p := p)
    (dict := [("T", .temp), ("v", .vev)] ++ vevs c ++ [("Veff(v,T)", .veff)])
    (names := ["T", "v"] ++ legendVEV cb c ++ ["Veff(v,T)"])
    (qs := [.temp, .vev] ++ (c.vevOrder cb).map Quantity.field ++ [.veff])
    (cells := [p.temp, p.vev] ++ p.minimum ++ [p.veff]) t3 (by simp [t1])
    (fun e he => List.mem_append.2 ((zip_append_mem (by simp [t1]) he).imp
      (fun h => List.mem_append.2 ((zip_append_mem (by simp) h).imp (fun h => by simpa using h) (t2 e)))
      (fun h => by simpa using h)))
    (by rw [List.map_append, List.map_append, text_field hp]; simp [text])
  refine ⟨_, d1, by rw [d4]; simp [t1], ?_, ?_⟩
  · have hT : '\t' ∉ "T".toList := by decide
    have hv : '\t' ∉ "v".toList := by decide
    have hV : '\t' ∉ "Veff(v,T)".toList := by decide
    rw [d2, vevevoHeader, columns_sep _ hV,
      columns_sepVec _ (plain_tabs (temp_plain cb c).2.1) (chars_ne (temp_plain cb c).2.2.2.1), columns_sep _ hv,
      columns_plain hT]
    simp [chars]
  · rw [d3, vevevoRow, columns_sep _ (hp.tabs _ (by simp)), columns_sepVec _ (tabs_minimum hp) (minimum_ne hp),
      columns_sep _ (hp.tabs _ (by simp)), columns_plain (hp.tabs _ (by simp))]
    simp

/-! ## `CalculateEWBG` -/

def ewbgNames : List String :=
  ["vw", "L_W", "top_sym_phase", "top_brk_phase", "bot_sym_phase", "bot_brk_phase", "tau_sym_phase", "tau_brk_phase"]

theorem ewbg_header (cb : Bool) (c : Class) {eta : List String} (he : eta ≠ []) (htab : plain eta = true)
    (line1 : List Char) : columns (ewbgHeader cb c eta line1) = columns line1 ++
      chars ((legendCT c ++ legendTemp cb c).map (· ++ "_EWBG")) ++ chars ewbgNames ++ chars eta := by
  have h8 : plain ewbgNames = true := by decide +kernel
  rw [ewbgHeader, ← ewbgNames, columns_sepVec _ (plain_tabs htab) (chars_ne he), columns_sepEach _ (plain_tabs (l := ewbgNames) h8),
    columns_sepEach _ (plain_tabs (plain_suffix (temp_plain cb c).1)),
    columns_sepEach _ (plain_tabs (plain_suffix (ct_plain c).1))]
  simp [chars]

/-- C101, `CalculateEWBG`.  With a strong transition the same quantities as in `BSMPT` stand under their names, to which
`_EWBG` is appended, and then the velocity and thickness of the wall, the phases and the asymmetries. -/
theorem C101_ewbg_partial (hc : c ≠ .cpinthedark) (hp : Written cb c p) (w : Wall) (eta : List String) (he : eta ≠ [])
    (htab : ∀ s ∈ eta, '\t' ∉ s.toList) (heta : w.eta.length = eta.length)
    (hw : ∀ x ∈ [w.vw, w.lw, w.topSym, w.topBrk, w.botSym, w.botBrk, w.tauSym, w.tauBrk] ++ w.eta, '\t' ∉ x)
    (line1 line : List Char) :
    ∃ table, Described cb c p (cts c ++ tempDictionary c) table ∧
      table.length = (setCT c).length + 3 + (c.vevOrder cb).length ∧
      columns (ewbgHeader cb c eta line1) = columns line1 ++ chars (table.map (·.1 ++ "_EWBG")) ++
        chars ["vw", "L_W", "top_sym_phase", "top_brk_phase", "bot_sym_phase", "bot_brk_phase", "tau_sym_phase",
          "tau_brk_phase"] ++ chars eta ∧
      columns (ewbgRow line p w) = columns line ++ table.map (·.2) ++
        [w.vw, w.lw, w.topSym, w.topBrk, w.botSym, w.botBrk, w.tauSym, w.tauBrk] ++ w.eta := by
  obtain ⟨h1, h2, -⟩ := ct_table hc
  obtain ⟨t1, t2, t3⟩ := temp_table cb c
  have hlen : (legendTemp cb c).length = (tempQuantities cb c).length := by rw [t1]; simp [tempQuantities]; omega
  obtain ⟨d1, d2, d3, d4⟩ := described (cb := cb) (c := c) (p := p) (dict := cts c ++ tempDictionary c)
    (names := legendCT c ++ legendTemp cb c) (qs := (setCT c).map Quantity.counterterm ++ tempQuantities cb c)
    (cells := p.ct ++ ([p.tc, p.vc, p.ratio] ++ p.minimum)) t3 (by simp [h1, hlen])
    (fun e he => List.mem_append.2 ((zip_append_mem (by simpa using h1) he).imp (h2 e) (t2 e)))
    (by rw [List.map_append, text_ct hp, text_temp hp, ← List.map_append])
  have hpl : plain eta = true := by
    rw [plain, List.all_eq_true]; intro s hs; simpa using htab s hs
  have hne : w.eta ≠ [] := by
    intro h; rw [h] at heta; exact he (List.length_eq_zero_iff.1 heta.symm)
  refine ⟨_, d1, by rw [d4, List.length_append, h1, t1]; omega, ?_, ?_⟩
  · rw [ewbg_header cb c he hpl]
    have : ((legendCT c ++ legendTemp cb c).zip (p.ct ++ ([p.tc, p.vc, p.ratio] ++ p.minimum))).map
        (fun e => e.1 ++ "_EWBG") = (legendCT c ++ legendTemp cb c).map (· ++ "_EWBG") := by
      conv => rhs; rw [← d2, List.map_map]
      rfl
    rw [this]
    rfl
  · rw [d3, ewbgRow, columns_sepVec _ (fun x hx => hw x (by simp only [List.mem_append]; exact Or.inr hx)) hne,
      columns_sepEach _ (fun x hx => hw x (by simp only [List.mem_append]; exact Or.inl hx)),
      columns_sepVec _ (tabs_minimum hp) (minimum_ne hp), columns_sep _ (hp.tabs _ (by simp)),
      columns_sep _ (hp.tabs _ (by simp)), columns_sep _ (hp.tabs _ (by simp)), columns_sepVec _ (tabs_ct hp) (ct_ne hp)]
    simp

theorem temp_names (cb : Bool) (c : Class) :
    (∃ s ∈ (legendTemp cb c)[2]?, (s, Quantity.ratio) ∈ tempDictionary c) ∧
    (∃ s ∈ (legendTemp cb c)[2 + (c.vevOrder cb).length]?, ∃ f ∈ c.vevOrder cb, (s, Quantity.field f) ∈ tempDictionary c) := by
  refine by_choice (P := fun cb c => (∃ s ∈ (legendTemp cb c)[2]?, (s, Quantity.ratio) ∈ tempDictionary c) ∧
    (∃ s ∈ (legendTemp cb c)[2 + (c.vevOrder cb).length]?, ∃ f ∈ c.vevOrder cb,
      (s, Quantity.field f) ∈ tempDictionary c)) (fun c => ?_) (by decide +kernel) (fun c hc h => ?_) cb c
  · cases c <;> decide +kernel
  · cases c <;> first | exact absurd rfl hc | exact h

/-- C101.  Without a strong transition the columns of `CalculateEWBG` are shifted: for every model the first component of the
minimum stands under the name of the ratio, and the ratio under the name of the last component. -/
theorem C101_ewbg_fails (hp : Written cb c p) (eta : List String) (he : eta ≠ []) (htab : ∀ s ∈ eta, '\t' ∉ s.toList)
    (vw : List Char) (hvw : '\t' ∉ vw) (line1 line : List Char) :
    (∃ (i : Nat) (name : String), (name, Quantity.ratio) ∈ tempDictionary c ∧
      (columns (ewbgHeader cb c eta line1))[(columns line1).length + i]? = some (name ++ "_EWBG").toList ∧
      (columns (ewbgErrorRow line p vw eta.length))[(columns line).length + i]? = p.minimum[0]?) ∧
    ∃ (i : Nat) (name : String), (∃ f ∈ c.vevOrder cb, (name, Quantity.field f) ∈ tempDictionary c) ∧
      (columns (ewbgHeader cb c eta line1))[(columns line1).length + i]? = some (name ++ "_EWBG").toList ∧
      (columns (ewbgErrorRow line p vw eta.length))[(columns line).length + i]? = some p.ratio := by
  have hpl : plain eta = true := by
    rw [plain, List.all_eq_true]; intro s hs; simpa using htab s hs
  have hzero : ∀ x ∈ List.replicate eta.length "0".toList, '\t' ∉ x := by
    intro x hx; rw [List.eq_of_mem_replicate hx]; decide
  have hrow : columns (ewbgErrorRow line p vw eta.length) = columns line ++ (p.ct ++ ([p.tc, p.vc] ++ (p.minimum ++ [p.ratio] ++
      ([vw, "-1".toList, "-50".toList, "-50".toList, "-50".toList, "-50".toList, "-50".toList, "-50".toList] ++
        List.replicate eta.length "0".toList)))) := by
    have h8 : ∀ x ∈ [vw, "-1".toList, "-50".toList, "-50".toList, "-50".toList, "-50".toList, "-50".toList, "-50".toList],
        '\t' ∉ x := by
      intro x hx
      rcases List.mem_cons.1 hx with rfl | hx
      · exact hvw
      · have : ∀ x ∈ ["-1".toList, "-50".toList, "-50".toList, "-50".toList, "-50".toList, "-50".toList, "-50".toList],
            '\t' ∉ x := by decide
        exact this x hx
    rw [ewbgErrorRow, columns_sepEach _ hzero, columns_sepEach _ h8, columns_sep _ (hp.tabs _ (by simp)),
      columns_sepVec _ (tabs_minimum hp) (minimum_ne hp),
      columns_sep _ (hp.tabs _ (by simp)), columns_sep _ (hp.tabs _ (by simp)), columns_sepVec _ (tabs_ct hp) (ct_ne hp)]
    simp
  have hhead := ewbg_header cb c he hpl line1
  obtain ⟨⟨s, hs, hsd⟩, ⟨s', hs', hsd'⟩⟩ := temp_names cb c
  have n1 := (ct_plain c).2.2.2.2
  have t1 := (temp_table cb c).1
  have hct : p.ct.length = (legendCT c).length := by rw [hp.ct, n1]
  have hmin := hp.minimum
  have hpos : 0 < p.minimum.length := List.length_pos_iff.2 (minimum_ne hp)
  have head : ∀ (j : Nat) (s : String), s ∈ (legendTemp cb c)[j]? →
      (columns (ewbgHeader cb c eta line1))[(columns line1).length + ((legendCT c).length + j)]? =
        some (s ++ "_EWBG").toList := by
    intro j s hs
    have hs : (legendTemp cb c)[j]? = some s := hs
    have hj : j < (legendTemp cb c).length := by
      rw [List.getElem?_eq_some_iff] at hs; exact hs.1
    rw [hhead, List.append_assoc, List.append_assoc, List.getElem?_append_right (by omega)]
    rw [List.getElem?_append_left (by simp [chars]; omega)]
    simp only [chars, List.map_append, List.map_map, Nat.add_sub_cancel_left]
    rw [List.getElem?_append_right (by simp)]
    simp [hs]
  refine ⟨⟨(legendCT c).length + 2, s, hsd, head 2 s hs, ?_⟩,
    ⟨(legendCT c).length + (2 + (c.vevOrder cb).length), s', hsd', head _ s' hs', ?_⟩⟩
  · rw [hrow, List.getElem?_append_right (by omega), List.getElem?_append_right (by omega),
      List.getElem?_append_right (by simp; omega), List.append_assoc, List.getElem?_append_left (by simp; omega)]
    congr 1
    simp
    omega
  · rw [hrow, List.getElem?_append_right (by omega), List.getElem?_append_right (by omega),
      List.getElem?_append_right (by simp; omega), List.getElem?_append_left (by simp; omega),
      List.getElem?_append_right (by simp; omega)]
    rw [List.getElem?_eq_some_iff]
    exact ⟨by simp; omega, by simp⟩

/-! ## `TripleHiggsNLO` -/

theorem triples_mem {n i j k : Nat} : (i, j, k) ∈ triples n ↔ i ≤ j ∧ j ≤ k ∧ k < n := by
  simp only [triples, List.mem_flatMap, List.mem_range, List.mem_range'_1, List.mem_map, Prod.mk.injEq]
  constructor
  · rintro ⟨a, ha, b, hb, d, hd, rfl, rfl, rfl⟩
    omega
  · rintro ⟨h1, h2, h3⟩
    exact ⟨i, by omega, j, by omega, k, by omega, rfl, rfl, rfl⟩

theorem triples_nodup (n : Nat) : (triples n).Nodup := by
  rw [triples, List.nodup_flatMap]
  refine ⟨fun i _ => ?_, ?_⟩
  · rw [List.nodup_flatMap]
    refine ⟨fun j _ => ?_, ?_⟩
    · exact List.Nodup.map (fun a b h => by simpa using h) List.nodup_range'
    · refine List.Pairwise.imp (fun hne x hx hy => ?_) (List.nodup_range' (s := i) (n := n - i))
      simp only [List.mem_map] at hx hy
      obtain ⟨_, _, rfl⟩ := hx
      obtain ⟨_, _, h⟩ := hy
      exact hne (by simpa using (congrArg (·.2.1) h).symm)
  · refine List.nodup_range.imp fun hne x hx hy => ?_
    simp only [List.mem_flatMap, List.mem_map] at hx hy
    obtain ⟨_, _, _, _, rfl⟩ := hx
    obtain ⟨_, _, _, _, h⟩ := hy
    exact hne (by simpa using (congrArg (·.1) h).symm)

/-- The label of a coupling. -/
theorem label_tab {names : List String} (h : plain names = true) {i j k : Nat} (pre : String) (hpre : '\t' ∉ pre.toList) :
    '\t' ∉ (pre ++ (names.getD i "" ++ names.getD j "" ++ names.getD k "")).toList := by
  have key : ∀ i, '\t' ∉ (names.getD i "").toList := by
    intro i
    by_cases hi : i < names.length
    · rw [List.getD_eq_getElem?_getD, List.getElem?_eq_getElem hi]
      have := List.all_eq_true.1 h names[i] (List.getElem_mem hi)
      simpa using this
    · rw [List.getD_eq_getElem?_getD, List.getElem?_eq_none (by omega)]
      decide
  simp only [String.toList_append, List.mem_append, hpre, key, or_self, not_false_eq_true]

/-- C101, `TripleHiggsNLO`: after the counterterms come the couplings of all triples of fields, each triple once, and the name
of a coupling consists of the names of its three particles. -/
theorem C101_triple_partial (hsm : Bool) (hc : c ≠ .cpinthedark) (hp : Written cb c p)
    (tree cterm cw : Nat → Nat → Nat → List Char) (htab : ∀ i j k, '\t' ∉ tree i j k ∧ '\t' ∉ cterm i j k ∧ '\t' ∉ cw i j k)
    (line1 line : List Char) :
    ∃ (table : List (String × List Char)) (fields : List (Nat × Nat × Nat)),
      Described cb c p (cts c) table ∧ table.length = (setCT c).length ∧
      fields.Nodup ∧ (∀ i j k, (i, j, k) ∈ fields ↔ i ≤ j ∧ j ≤ k ∧ k < c.nHiggs) ∧ (particles hsm c).length = c.nHiggs ∧
      columns (tripleHeader hsm c line1) = columns line1 ++ chars (table.map (·.1)) ++ fields.flatMap (fun t =>
        let name := (particles hsm c).getD t.1 "" ++ (particles hsm c).getD t.2.1 "" ++ (particles hsm c).getD t.2.2 ""
        [("Tree_" ++ name).toList, ("CT_" ++ name).toList, ("CW_" ++ name).toList]) ∧
      columns (tripleRow line p.ct c.nHiggs tree cterm cw) = columns line ++ table.map (·.2) ++ fields.flatMap (fun t =>
        [tree t.1 t.2.1 t.2.2, cterm t.1 t.2.1 t.2.2, cw t.1 t.2.1 t.2.2]) := by
  obtain ⟨h1, h2, h3⟩ := ct_table hc
  obtain ⟨d1, d2, d3, d4⟩ := described h3 (by simpa using h1) h2 (text_ct hp)
  have hn := (particles_plain hsm c).2
  refine ⟨_, triples c.nHiggs, d1, by rw [d4, h1], triples_nodup _, fun i j k => triples_mem, hn, ?_, ?_⟩
  · have hl : ∀ x ∈ chars (legendTriple (particles hsm c)), '\t' ∉ x := by
      intro x hx
      obtain ⟨s, hs, rfl⟩ := List.mem_map.1 hx
      rw [legendTriple, List.mem_flatMap] at hs
      obtain ⟨t, -, ht⟩ := hs
      have hpl := (particles_plain hsm c).1
      simp only [List.mem_cons, List.not_mem_nil, or_false] at ht
      rcases ht with rfl | rfl | rfl
      · exact label_tab hpl _ (by decide)
      · exact label_tab hpl _ (by decide)
      · exact label_tab hpl _ (by decide)
    rw [d2, tripleHeader, columns_sepEach _ hl, columns_sepEach _ (plain_tabs (ct_plain c).1)]
    congr 1
    rw [legendTriple, hn, chars, List.map_flatMap]
    rfl
  · have hl : ∀ x ∈ (triples c.nHiggs).flatMap (fun t => [tree t.1 t.2.1 t.2.2, cterm t.1 t.2.1 t.2.2, cw t.1 t.2.1 t.2.2]),
        '\t' ∉ x := by
      intro x hx
      rw [List.mem_flatMap] at hx
      obtain ⟨t, -, ht⟩ := hx
      simp only [List.mem_cons, List.not_mem_nil, or_false] at ht
      rcases ht with rfl | rfl | rfl
      · exact (htab _ _ _).1
      · exact (htab _ _ _).2.1
      · exact (htab _ _ _).2.2
    rw [d3, tripleRow, columns_sepEach _ hl, columns_sepEach _ (tabs_ct hp)]

end

/-! ## A case -/

def exPoint : Point where
  ct := [['1'], ['2'], ['3'], ['4'], ['5'], ['6']]
  tc := ['7']
  vc := ['8']
  ratio := ['9']
  status := ['1']
  strong := true
  minimum := [['8']]
  vev := ['8']
  temp := ['0']
  veff := ['5']

example : Written true .sm exPoint := ⟨by decide, by decide, by decide⟩

example : columns (bsmptRow "a\tb".toList exPoint) =
    ["a", "b", "1", "2", "3", "4", "5", "6", "7", "8", "9", "8"].map String.toList := by decide +kernel

example : columns (bsmptHeader true .sm "muSq\tlambda".toList) =
    ["muSq", "lambda", "dmuSq", "dlambda", "dT1", "dT2", "dT3", "dT4", "T_c", "v_c", "omega_c/T_c", "omega_c"].map
      String.toList := by decide +kernel

end Verif.Batch
