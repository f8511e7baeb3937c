import Verif.Programs.MuGrid
import Verif.Parser.Props
import Mathlib.Data.List.Induction
import Mathlib.Tactic.Linarith

/-!
# C122: the command line of CreateMuGrid
-/

namespace Verif.Programs.MuGrid

open Outcome Verif.Utility
open Verif.Parser (Str Logger lower setLoggerArgs startsWith_sep prefixes C06_raw_arguments_undefined)
open Verif.Parser.Spec (sameName lastValue)
open Verif.Models (ModelID getModel)

namespace Spec

/-- The settings of the program. -/
def keys : List String := ["model", "input", "output", "line", "vw", "useGSL", "useCMAES", "useNLopt"]

/-- An argument `--name=value`. -/
def written (s : Str × Str) : Str := "--".toList ++ s.1 ++ "=".toList ++ s.2

/-- A setting of the program, the name in any capitals, with a readable number where one is needed. -/
structure Setting (stod : Str → Outcome (Flt ℚ)) (s : Str × Str) : Prop where
  name : ∃ k ∈ keys, sameName s.1 k.toList
  line : sameName s.1 "line".toList → ∃ n, stoi (lower s.2) = ok n
  vw : sameName s.1 "vw".toList → ∃ x, stod (lower s.2) = ok x

/-- The switch that the last setting of this name gives. -/
def switch (key : String) (l : List (Str × Str)) (d : Bool) : Bool :=
  match lastValue key.toList l with
  | none => d
  | some v => decide (sameName v "true".toList)

end Spec

open Spec

theorem lower_written (s : Str × Str) : lower (written s) = "--".toList ++ lower s.1 ++ "=".toList ++ lower s.2 := by
  unfold written lower
  simp only [List.map_append]
  rfl

theorem starts (n v : Str) (k key : String) (hk : key ∈ keys) (hn : sameName n key.toList) (hkk : k ∈ keys) :
    stringStartsWith (lower (written (n, v))) ("--".toList ++ lower k.toList ++ ['=']) =
      decide (lower k.toList = lower key.toList) := by
  have hno : ∀ k ∈ keys, '=' ∉ "--".toList ++ lower k.toList := by decide
  have e : lower n = lower key.toList := hn
  have h1 := startsWith_sep ("--".toList ++ lower key.toList) ("--".toList ++ lower k.toList) (lower v) '=' (hno _ hk) (hno _ hkk)
  rw [lower_written]
  dsimp only
  rw [e]
  have h2 : "=".toList = ['='] := by decide
  rw [h2, h1]
  rw [decide_eq_decide]
  exact List.append_right_inj _

theorem drop_written (n v : Str) (len : Nat) (h : n.length + 3 = len) :
    (written (n, v)).drop len = v ∧ (lower (written (n, v))).drop len = lower v := by
  constructor
  · unfold written
    rw [List.drop_left' (by simp; omega)]
  · rw [lower_written, List.drop_left' (by simp [lower]; omega)]

theorem same_length {a b : Str} (h : sameName a b) : a.length = b.length := by
  have := congrArg List.length h
  simpa using this

/-- What one setting does. -/
theorem namedArg_setting (stod : Str → Outcome (Flt ℚ)) (names : List (Str × ModelID)) (o : Opts) (u : List Str) (n v : Str) :
    (sameName n "model".toList → namedArg stod names (o, u) (written (n, v)) =
      ok ({ o with model := getModel names (lower v) }, u)) ∧
    (sameName n "input".toList → namedArg stod names (o, u) (written (n, v)) = ok ({ o with input := v }, u)) ∧
    (sameName n "output".toList → namedArg stod names (o, u) (written (n, v)) = ok ({ o with output := v }, u)) ∧
    (sameName n "line".toList → namedArg stod names (o, u) (written (n, v)) =
      stoi (lower v) >>= fun x => ok ({ o with line := x }, u)) ∧
    (sameName n "vw".toList → namedArg stod names (o, u) (written (n, v)) =
      stod (lower v) >>= fun x => ok ({ o with vw := x }, u)) ∧
    (sameName n "useGSL".toList → namedArg stod names (o, u) (written (n, v)) =
      ok ({ o with gsl := decide (sameName v "true".toList) }, u)) ∧
    (sameName n "useCMAES".toList → namedArg stod names (o, u) (written (n, v)) =
      ok ({ o with cmaes := decide (sameName v "true".toList) }, u)) ∧
    (sameName n "useNLopt".toList → namedArg stod names (o, u) (written (n, v)) =
      ok ({ o with nlopt := decide (sameName v "true".toList) }, u)) := by
  have htrue : ∀ v : Str, (lower v == "true".toList) = decide (sameName v "true".toList) := by
    intro v
    have : "true".toList.map Char.toLower = "true".toList := by decide
    rw [Bool.eq_iff_iff, beq_iff_eq, decide_eq_true_iff]
    unfold sameName
    rw [this]
    rfl
  have key : ∀ key ∈ keys, sameName n key.toList →
      stringStartsWith (lower (written (n, v))) "--model=".toList = decide (key = "model") ∧
      stringStartsWith (lower (written (n, v))) "--input=".toList = decide (key = "input") ∧
      stringStartsWith (lower (written (n, v))) "--output=".toList = decide (key = "output") ∧
      stringStartsWith (lower (written (n, v))) "--line=".toList = decide (key = "line") ∧
      stringStartsWith (lower (written (n, v))) "--vw=".toList = decide (key = "vw") ∧
      stringStartsWith (lower (written (n, v))) "--usegsl=".toList = decide (key = "useGSL") ∧
      stringStartsWith (lower (written (n, v))) "--usecmaes=".toList = decide (key = "useCMAES") ∧
      stringStartsWith (lower (written (n, v))) "--usenlopt=".toList = decide (key = "useNLopt") := by
    intro key hk hn
    have h := fun k hkk => starts n v k key hk hn hkk
    have conv : ∀ key ∈ keys, ∀ k ∈ keys, decide (lower k.toList = lower key.toList) = decide (key = k) := by decide
    have c := conv key hk
    refine ⟨?_, ?_, ?_, ?_, ?_, ?_, ?_, ?_⟩
    · exact (h "model" (by decide)).trans (c _ (by decide))
    · exact (h "input" (by decide)).trans (c _ (by decide))
    · exact (h "output" (by decide)).trans (c _ (by decide))
    · exact (h "line" (by decide)).trans (c _ (by decide))
    · exact (h "vw" (by decide)).trans (c _ (by decide))
    · exact (h "useGSL" (by decide)).trans (c _ (by decide))
    · exact (h "useCMAES" (by decide)).trans (c _ (by decide))
    · exact (h "useNLopt" (by decide)).trans (c _ (by decide))
  have dr := fun len h => drop_written n v len h
  refine ⟨fun hn => ?_, fun hn => ?_, fun hn => ?_, fun hn => ?_, fun hn => ?_, fun hn => ?_, fun hn => ?_, fun hn => ?_⟩
  · obtain ⟨h1, -⟩ := key "model" (by decide) hn
    have hd := (dr 8 (by have := same_length hn; simp at this; omega)).2
    simp only [namedArg, h1, after]
    exact congrArg (fun x => ok ({ o with model := getModel names x }, u)) hd
  · obtain ⟨h1, h2, -⟩ := key "input" (by decide) hn
    have hd := (dr 8 (by have := same_length hn; simp at this; omega)).1
    simp only [namedArg, h1, h2, after]
    exact congrArg (fun x => ok ({ o with input := x }, u)) hd
  · obtain ⟨h1, h2, h3, -⟩ := key "output" (by decide) hn
    have hd := (dr 9 (by have := same_length hn; simp at this; omega)).1
    simp only [namedArg, h1, h2, h3, after]
    exact congrArg (fun x => ok ({ o with output := x }, u)) hd
  · obtain ⟨h1, h2, h3, h4, -⟩ := key "line" (by decide) hn
    have hd := (dr 7 (by have := same_length hn; simp at this; omega)).2
    simp only [namedArg, h1, h2, h3, h4, after]
    exact congrArg (fun x => stoi x >>= fun n => ok ({ o with line := n }, u)) hd
  · obtain ⟨h1, h2, h3, h4, h5, -⟩ := key "vw" (by decide) hn
    have hd := (dr 5 (by have := same_length hn; simp at this; omega)).2
    simp only [namedArg, h1, h2, h3, h4, h5, after]
    exact congrArg (fun x => stod x >>= fun n => ok ({ o with vw := n }, u)) hd
  · obtain ⟨h1, h2, h3, h4, h5, h6, -⟩ := key "useGSL" (by decide) hn
    have hd := (dr 9 (by have := same_length hn; simp at this; omega)).2
    simp only [namedArg, h1, h2, h3, h4, h5, h6, after, ← htrue]
    exact congrArg (fun x => ok ({ o with gsl := x == "true".toList }, u)) hd
  · obtain ⟨h1, h2, h3, h4, h5, h6, h7, -⟩ := key "useCMAES" (by decide) hn
    have hd := (dr 11 (by have := same_length hn; simp at this; omega)).2
    simp only [namedArg, h1, h2, h3, h4, h5, h6, h7, after, ← htrue]
    exact congrArg (fun x => ok ({ o with cmaes := x == "true".toList }, u)) hd
  · obtain ⟨h1, h2, h3, h4, h5, h6, h7, h8⟩ := key "useNLopt" (by decide) hn
    have hd := (dr 11 (by have := same_length hn; simp at this; omega)).2
    simp only [namedArg, h1, h2, h3, h4, h5, h6, h7, h8, after, ← htrue]
    exact congrArg (fun x => ok ({ o with nlopt := x == "true".toList }, u)) hd

/-- What a list of settings does to the members. -/
structure Effect (stod : Str → Outcome (Flt ℚ)) (names : List (Str × ModelID)) (l : List (Str × Str)) (o o' : Opts) : Prop where
  model : o'.model = match lastValue "model".toList l with
    | none => o.model
    | some v => getModel names (lower v)
  input : o'.input = (lastValue "input".toList l).getD o.input
  output : o'.output = (lastValue "output".toList l).getD o.output
  line : match lastValue "line".toList l with
    | none => o'.line = o.line
    | some v => stoi (lower v) = ok o'.line
  vw : match lastValue "vw".toList l with
    | none => o'.vw = o.vw
    | some v => stod (lower v) = ok o'.vw
  gsl : o'.gsl = switch "useGSL" l o.gsl
  cmaes : o'.cmaes = switch "useCMAES" l o.cmaes
  nlopt : o'.nlopt = switch "useNLopt" l o.nlopt
  which : o'.which = o.which

theorem last_append (name : Str) (l : List (Str × Str)) (s : Str × Str) :
    lastValue name (l ++ [s]) = if sameName s.1 name then some s.2 else lastValue name l := by
  induction l with
  | nil => obtain ⟨k, v⟩ := s; simp [lastValue]
  | cons a l ih =>
    obtain ⟨k, v⟩ := a
    rw [List.cons_append, lastValue, ih, lastValue]
    by_cases h : sameName s.1 name
    · simp [h]
    · simp [h]

theorem last_hit {key : String} {l : List (Str × Str)} {s : Str × Str} (h : sameName s.1 key.toList) :
    lastValue key.toList (l ++ [s]) = some s.2 := by rw [last_append, if_pos h]

theorem last_miss {key key' : String} {l : List (Str × Str)} {s : Str × Str} (h : sameName s.1 key'.toList)
    (hk : ¬ sameName key'.toList key.toList) : lastValue key.toList (l ++ [s]) = lastValue key.toList l := by
  rw [last_append, if_neg]
  intro h'
  exact hk (h.symm.trans h')

theorem fold_settings (stod : Str → Outcome (Flt ℚ)) (names : List (Str × ModelID)) (o : Opts) (u : List Str)
    (l : List (Str × Str)) (hl : ∀ s ∈ l, Setting stod s) :
    ∃ o', (l.map written).foldlM (namedArg stod names) (o, u) = ok (o', u) ∧ Effect stod names l o o' := by
  induction l using List.reverseRecOn with
  | nil => exact ⟨o, rfl, ⟨rfl, rfl, rfl, rfl, rfl, rfl, rfl, rfl, rfl⟩⟩
  | append_singleton l s ih =>
    obtain ⟨o1, h1, e⟩ := ih fun s hs => hl s (by simp [hs])
    obtain ⟨⟨k, hk, hn⟩, hline, hvw⟩ := hl s (by simp)
    have hfold : ((l ++ [s]).map written).foldlM (namedArg stod names) (o, u) =
        namedArg stod names (o1, u) (written s) := by
      rw [List.map_append, List.foldlM_append, h1]
      simp only [bind_ok, List.map_cons, List.map_nil, List.foldlM_cons, List.foldlM_nil]
      cases namedArg stod names (o1, u) (written s) <;> rfl
    rw [hfold]
    obtain ⟨n, v⟩ := s
    dsimp only at hn hline hvw
    obtain ⟨q1, q2, q3, q4, q5, q6, q7, q8⟩ := namedArg_setting stod names o1 u n v
    obtain ⟨e1, e2, e3, e4, e5, e6, e7, e8, e9⟩ := e
    simp only [keys, List.mem_cons, List.not_mem_nil, or_false] at hk
    rcases hk with rfl | rfl | rfl | rfl | rfl | rfl | rfl | rfl
    · refine ⟨_, q1 hn, ?_, ?_, ?_, ?_, ?_, ?_, ?_, ?_, e9⟩
      · rw [last_hit hn]
      all_goals first
        | (rw [last_miss hn (by decide)]; assumption)
        | (rw [switch, last_miss hn (by decide)]; assumption)
    · refine ⟨_, q2 hn, ?_, ?_, ?_, ?_, ?_, ?_, ?_, ?_, e9⟩
      · rw [last_miss hn (by decide)]; exact e1
      · rw [last_hit hn]; rfl
      all_goals first
        | (rw [last_miss hn (by decide)]; assumption)
        | (rw [switch, last_miss hn (by decide)]; assumption)
    · refine ⟨_, q3 hn, ?_, ?_, ?_, ?_, ?_, ?_, ?_, ?_, e9⟩
      · rw [last_miss hn (by decide)]; exact e1
      · rw [last_miss hn (by decide)]; exact e2
      · rw [last_hit hn]; rfl
      all_goals first
        | (rw [last_miss hn (by decide)]; assumption)
        | (rw [switch, last_miss hn (by decide)]; assumption)
    · obtain ⟨x, hx⟩ := hline hn
      refine ⟨{ o1 with line := x }, by rw [q4 hn, hx, bind_ok], ?_, ?_, ?_, ?_, ?_, ?_, ?_, ?_, e9⟩
      · rw [last_miss hn (by decide)]; exact e1
      · rw [last_miss hn (by decide)]; exact e2
      · rw [last_miss hn (by decide)]; exact e3
      · rw [last_hit hn]; exact hx
      all_goals first
        | (rw [last_miss hn (by decide)]; assumption)
        | (rw [switch, last_miss hn (by decide)]; assumption)
    · obtain ⟨x, hx⟩ := hvw hn
      refine ⟨{ o1 with vw := x }, by rw [q5 hn, hx, bind_ok], ?_, ?_, ?_, ?_, ?_, ?_, ?_, ?_, e9⟩
      · rw [last_miss hn (by decide)]; exact e1
      · rw [last_miss hn (by decide)]; exact e2
      · rw [last_miss hn (by decide)]; exact e3
      · rw [last_miss hn (by decide)]; exact e4
      · rw [last_hit hn]; exact hx
      all_goals
        (rw [switch, last_miss hn (by decide)]; assumption)
    · refine ⟨_, q6 hn, ?_, ?_, ?_, ?_, ?_, ?_, ?_, ?_, e9⟩
      · rw [last_miss hn (by decide)]; exact e1
      · rw [last_miss hn (by decide)]; exact e2
      · rw [last_miss hn (by decide)]; exact e3
      · rw [last_miss hn (by decide)]; exact e4
      · rw [last_miss hn (by decide)]; exact e5
      · rw [switch, last_hit hn]
      all_goals
        (rw [switch, last_miss hn (by decide)]; assumption)
    · refine ⟨_, q7 hn, ?_, ?_, ?_, ?_, ?_, ?_, ?_, ?_, e9⟩
      · rw [last_miss hn (by decide)]; exact e1
      · rw [last_miss hn (by decide)]; exact e2
      · rw [last_miss hn (by decide)]; exact e3
      · rw [last_miss hn (by decide)]; exact e4
      · rw [last_miss hn (by decide)]; exact e5
      · rw [switch, last_miss hn (by decide)]; exact e6
      · rw [switch, last_hit hn]
      · rw [switch, last_miss hn (by decide)]; exact e8
    · refine ⟨_, q8 hn, ?_, ?_, ?_, ?_, ?_, ?_, ?_, ?_, e9⟩
      · rw [last_miss hn (by decide)]; exact e1
      · rw [last_miss hn (by decide)]; exact e2
      · rw [last_miss hn (by decide)]; exact e3
      · rw [last_miss hn (by decide)]; exact e4
      · rw [last_miss hn (by decide)]; exact e5
      · rw [switch, last_miss hn (by decide)]; exact e6
      · rw [switch, last_miss hn (by decide)]; exact e7
      · rw [switch, last_hit hn]

theorem written_ne_help (s : Str × Str) : written s ≠ "--help".toList := by
  intro h
  have : '=' ∈ written s := by unfold written; simp
  rw [h] at this
  exact absurd this (by decide)

theorem written_starts (s : Str × Str) : stringStartsWith (written s) "--".toList = true := by
  unfold written stringStartsWith
  simp

/-- A call with at least four settings `--name=value`, names in any capitals and any order: the last setting of a name counts,
file names are taken letter by letter, the other members keep the defaults of the help, and the logger is not touched. -/
theorem C122_named (stod : Str → Outcome (Flt ℚ)) (names : List (Str × ModelID)) (b : Built) (lg : Logger)
    (l : List (Str × Str)) (hl : ∀ s ∈ l, Setting stod s) (h4 : 4 ≤ l.length) :
    ∃ o, start stod names b (l.map written) lg = .run (ok (o, lg)) ∧
      (o.model = match lastValue "model".toList l with
        | none => .notSet
        | some v => getModel names (lower v)) ∧
      o.input = (lastValue "input".toList l).getD [] ∧ o.output = (lastValue "output".toList l).getD [] ∧
      (match lastValue "line".toList l with
        | none => o.line = 0
        | some v => stoi (lower v) = ok o.line) ∧
      (match lastValue "vw".toList l with
        | none => o.vw = .fin (1 / 10)
        | some v => stod (lower v) = ok o.vw) ∧
      o.gsl = switch "useGSL" l b.gsl ∧ o.cmaes = switch "useCMAES" l b.cmaes ∧ o.nlopt = switch "useNLopt" l b.nlopt ∧
      (o.which = 0 ↔ o.gsl = false ∧ o.cmaes = false ∧ o.nlopt = false) := by
  obtain ⟨o, h, e⟩ := fold_settings stod names (initial b) [] l hl
  have hst : start stod names b (l.map written) lg = .run (named stod names b (l.map written) lg) := by
    cases l with
    | nil => simp at h4
    | cons s l =>
      simp only [List.length_cons] at h4
      rw [List.map_cons, start, if_neg (written_ne_help s), if_neg (by simp; omega), if_pos (written_starts s)]
  refine ⟨{ o with which := Minimizer.calcWhichMinimizer o.gsl o.cmaes o.nlopt }, ?_, e.model, e.input, e.output, e.line, e.vw,
    e.gsl, e.cmaes, e.nlopt, ?_⟩
  · rw [hst, named, h, bind_ok]
    rfl
  · dsimp only
    cases o.gsl <;> cases o.cmaes <;> cases o.nlopt <;> decide

/-- The same settings as numbers of the example below. -/
def sampleStod (s : Str) : Outcome (Flt ℚ) := if s = "0.3".toList then ok (.fin (3 / 10)) else err .invalidArgument

example : ∀ s ∈ [("Model".toList, "c2hdm".toList), ("input".toList, "In.tsv".toList), ("OUTPUT".toList, "o".toList),
    ("Line".toList, "2".toList), ("vw".toList, "0.3".toList)], Setting sampleStod s := by
  intro s hs
  simp only [List.mem_cons, List.not_mem_nil, or_false] at hs
  rcases hs with rfl | rfl | rfl | rfl | rfl
  · exact ⟨⟨"model", by decide, by decide⟩, fun h => absurd h (by decide), fun h => absurd h (by decide)⟩
  · exact ⟨⟨"input", by decide, by decide⟩, fun h => absurd h (by decide), fun h => absurd h (by decide)⟩
  · exact ⟨⟨"output", by decide, by decide⟩, fun h => absurd h (by decide), fun h => absurd h (by decide)⟩
  · exact ⟨⟨"line", by decide, by decide⟩, fun _ => ⟨2, by decide +kernel⟩, fun h => absurd h (by decide)⟩
  · exact ⟨⟨"vw", by decide, by decide⟩, fun h => absurd h (by decide), fun _ => ⟨.fin (3 / 10), by decide +kernel⟩⟩

/-- A call without names: the first four words are the model, the input, the output and the line; what follows is ignored. -/
theorem C122_plain (stod : Str → Outcome (Flt ℚ)) (names : List (Str × ModelID)) (b : Built) (lg : Logger)
    (model input output line : Str) (rest : List Str) (n : Int) (hn : stoi line = ok n) (hm : ¬ "--".toList <+: model) :
    start stod names b (model :: input :: output :: line :: rest) lg = .run (ok (⟨getModel names model, n, input, output,
      .fin (1 / 10), b.gsl, b.cmaes, b.nlopt, Minimizer.calcWhichMinimizer b.gsl b.cmaes b.nlopt⟩, lg)) := by
  have h1 : model ≠ "--help".toList := by
    rintro rfl
    exact hm (by decide)
  have h2 : stringStartsWith model "--".toList = false := by
    unfold stringStartsWith
    rw [Bool.and_eq_false_iff]
    right
    rw [Bool.eq_false_iff]
    intro h
    exact hm (List.isPrefixOf_iff_prefix.1 h)
  rw [start, if_neg h1, if_neg (by simp), h2, if_neg (by decide)]
  simp only [plain, at', List.getElem?_cons_zero, List.getElem?_cons_succ, bind_ok, hn]
  rfl

example : stoi "12".toList = ok 12 ∧ ¬ "--".toList <+: "c2hdm".toList := by decide +kernel

/-- With `--help` as the first argument the program shows its help and ends without an error; with fewer than four arguments
and without `--help` it ends with an error. -/
theorem C122_help (stod : Str → Outcome (Flt ℚ)) (names : List (Str × ModelID)) (b : Built) (lg : Logger) (args : List Str) :
    (args.head? = some "--help".toList ↔ start stod names b args lg = .help) ∧
    (args.length < 4 → args.head? ≠ some "--help".toList → start stod names b args lg = .run (err .runtime)) := by
  cases args with
  | nil => exact ⟨⟨fun h => (by cases h), fun h => (by cases h)⟩, fun _ _ => rfl⟩
  | cons a l =>
    simp only [List.head?_cons, Option.some.injEq, ne_eq, List.length_cons]
    by_cases h : a = "--help".toList
    · exact ⟨⟨fun _ => by rw [start, if_pos h], fun _ => h⟩, fun _ h' => absurd h h'⟩
    · refine ⟨⟨fun h' => absurd h' h, fun h' => ?_⟩, fun hlen _ => ?_⟩
      · rw [start, if_neg h] at h'
        split at h'
        · cases h'
        · split at h' <;> cases h'
      · rw [start, if_neg h, if_pos (by omega)]

/-- Any further argument that is neither one of the settings nor an option of the logger is undefined behaviour: the end of a
map is dereferenced.  Here such an argument follows four correct settings. -/
theorem C122_unknown_fails (stod : Str → Outcome (Flt ℚ)) (names : List (Str × ModelID)) (b : Built) (lg : Logger)
    (l : List (Str × Str)) (hl : ∀ s ∈ l, Setting stod s) (h4 : 4 ≤ l.length) (arg : Str)
    (hk : ∀ k ∈ keys, ¬ ("--".toList ++ lower k.toList ++ "=".toList) <+: lower arg)
    (hp : ∀ e ∈ prefixes, stringStartsWith (lower arg) ("--".toList ++ e.1 ++ "=".toList) = false)
    (hd : lower arg ≠ "--logginglevel::disabled".toList) :
    start stod names b (l.map written ++ [arg]) lg = .run (ub .endDeref) := by
  obtain ⟨o, h, -⟩ := fold_settings stod names (initial b) [] l hl
  have hst : start stod names b (l.map written ++ [arg]) lg = .run (named stod names b (l.map written ++ [arg]) lg) := by
    cases l with
    | nil => simp at h4
    | cons s l =>
      simp only [List.length_cons] at h4
      rw [List.map_cons, List.cons_append, start, if_neg (written_ne_help s), if_neg (by simp; omega),
        if_pos (written_starts s)]
  have hno : ∀ k ∈ keys, stringStartsWith (lower arg) ("--".toList ++ lower k.toList ++ "=".toList) = false := by
    intro k hkk
    unfold stringStartsWith
    rw [Bool.and_eq_false_iff]
    right
    rw [Bool.eq_false_iff]
    intro h
    exact hk k hkk (List.isPrefixOf_iff_prefix.1 h)
  have hlast : namedArg stod names (o, []) arg = ok (o, [lower arg]) := by
    have n1 : stringStartsWith (lower arg) "--model=".toList = false := hno "model" (by decide)
    have n2 : stringStartsWith (lower arg) "--input=".toList = false := hno "input" (by decide)
    have n3 : stringStartsWith (lower arg) "--output=".toList = false := hno "output" (by decide)
    have n4 : stringStartsWith (lower arg) "--line=".toList = false := hno "line" (by decide)
    have n5 : stringStartsWith (lower arg) "--vw=".toList = false := hno "vw" (by decide)
    have n6 : stringStartsWith (lower arg) "--usegsl=".toList = false := hno "useGSL" (by decide)
    have n7 : stringStartsWith (lower arg) "--usecmaes=".toList = false := hno "useCMAES" (by decide)
    have n8 : stringStartsWith (lower arg) "--usenlopt=".toList = false := hno "useNLopt" (by decide)
    simp only [namedArg, n1, n2, n3, n4, n5, n6, n7, n8, Bool.false_eq_true, if_false, List.nil_append]
  rw [hst, named, List.foldlM_append, h]
  simp only [bind_ok, List.foldlM_cons, List.foldlM_nil, hlast]
  have := C06_raw_arguments_undefined [] [] lg (lower arg) (by simpa using hd.symm) (by simp) hp
  simp only [List.nil_append] at this
  congr 1
  show (setLoggerArgs [lower arg] lg >>= _) = _
  rw [this]
  rfl

example : (∀ k ∈ keys, ¬ ("--".toList ++ lower k.toList ++ "=".toList) <+: lower "--firstLine=2".toList) ∧
    (∀ e ∈ prefixes, stringStartsWith (lower "--firstLine=2".toList) ("--".toList ++ e.1 ++ "=".toList) = false) ∧
    lower "--firstLine=2".toList ≠ "--logginglevel::disabled".toList := by decide

/-- Settings that make sense. -/
structure Valid (b : Built) (o : Opts) : Prop where
  model : o.model ≠ .notSet
  line : 1 ≤ o.line
  velocity : ∃ v, o.vw = .fin v ∧ 0 < v ∧ v ≤ 1
  gsl : o.gsl = true → b.gsl = true
  cmaes : o.cmaes = true → b.cmaes = true
  nlopt : o.nlopt = true → b.nlopt = true
  some : o.which ≠ 0

/-- Apart from NaN as the velocity, the program goes on exactly with settings that make sense. -/
theorem C122_good_partial (b : Built) (o : Opts) (hn : o.vw ≠ .nan) : good b o = ok true ↔ Valid b o := by
  obtain ⟨m, line, i, out, vw, g, c, n, w⟩ := o
  obtain ⟨bg, bc, bn⟩ := b
  cases vw with
  | nan => exact absurd rfl hn
  | fin v =>
    constructor
    · intro h
      simp only [good] at h
      split at h
      · cases h
      rename_i h1
      split at h
      · cases h
      rename_i h2
      split at h
      · cases h
      rename_i h3
      split at h
      · cases h
      rename_i h4
      split at h
      · cases h
      rename_i h5
      split at h
      · cases h
      rename_i h6
      split at h
      · cases h
      rename_i h7
      simp only [Bool.or_eq_true, Flt.le_fin, Flt.gt_fin, not_or, not_le, not_lt] at h5
      exact ⟨h6, by dsimp only; omega, ⟨v, rfl, h5⟩, by cases g <;> simp_all, by cases c <;> simp_all, by cases n <;> simp_all,
        by simpa using h4⟩
    · rintro ⟨h1, h2, ⟨v', hv, h3, h4⟩, h5, h6, h7, h8⟩
      rw [Flt.fin.injEq] at hv
      subst hv
      dsimp only at *
      have q5 : ¬ (Flt.le (.fin v) (.fin 0) || Flt.gt (.fin v) (.fin (1 : ℚ))) = true := by
        simp only [Bool.or_eq_true, Flt.le_fin, Flt.gt_fin, not_or, not_le, not_lt]
        exact ⟨h3, h4⟩
      unfold good
      rw [if_neg (by cases g <;> simp_all), if_neg (by cases c <;> simp_all), if_neg (by cases n <;> simp_all),
        if_neg (by simpa using h8), if_neg q5, if_neg h1, if_neg (by dsimp only; omega)]

/-- **C122** a refusal is either the answer `false` or a runtime error, the latter whenever a minimiser is asked for that
was not built, or none is chosen. -/
theorem C122_answers (b : Built) (o : Opts) :
    (good b o = ok true ∨ good b o = ok false ∨ good b o = err .runtime) ∧
    ((o.gsl = true ∧ b.gsl = false) ∨ (o.cmaes = true ∧ b.cmaes = false) ∨ (o.nlopt = true ∧ b.nlopt = false) ∨
      o.which = 0 → good b o = err .runtime) := by
  unfold good
  refine ⟨?_, ?_⟩
  · split_ifs <;> simp
  · rintro (⟨h1, h2⟩ | ⟨h1, h2⟩ | ⟨h1, h2⟩ | h) <;> simp [*]

/-- NaN as the velocity is accepted. -/
theorem C122_nan_fails : ∃ (b : Built) (o : Opts), o.vw = .nan ∧ good b o = ok true :=
  ⟨⟨true, true, true⟩, ⟨.c2hdm, 2, [], [], .nan, true, true, true, 7⟩, rfl, by decide +kernel⟩

end Verif.Programs.MuGrid
