import Verif.Programs.Positional
import Verif.Parser.Props

/-!
# Calling the programs without option names (C119)
-/

namespace Verif.Programs.Positional

open Outcome Verif.Utility
open Verif.Parser (Str Parser Logger Res ArgMap addArgument addInput checkRequired addKeyValues getKeyValue getValue
  find assign lower printHelp setValue Declared addKeyValues_cons C01_last_setting_wins C02_undeclared_rejected
  C02_missing_required C04_key_value C03_many_arguments C03_one_argument C03_help)
open Verif.Parser.Spec (sameName lastValue)

namespace Spec

/-- The calls shown by the help of each program, as the options they stand for. -/
def usage : Prog → List String
  | .bsmpt => ["model", "input", "output", "firstLine", "lastLine"]
  | .calcCT => ["model", "input", "output", "firstLine", "lastLine"]
  | .calcGW => ["model", "input", "output", "firstline", "lastline"]
  | .calcTemps => ["model", "input", "output", "firstline", "lastline"]
  | .calculateEWBG => ["model", "input", "output", "firstLine", "lastLine", "config"]
  | .minimaTracer => ["model", "input", "output", "firstline", "lastline"]
  | .nlovev => ["model", "input", "output", "firstLine", "lastLine"]
  | .plotNL => ["model", "input", "output", "line", "vw", "config"]
  | .plotVw => ["model", "input", "output", "line", "vw_min", "vw_stepsize", "vw_max", "config"]
  | .potPlotter => []
  | .test => ["model", "input", "line"]
  | .tripleHiggs => ["model", "input", "output", "firstLine", "lastLine"]
  | .vevevo => ["model", "input", "output", "line", "temperatureStart", "temperatureStep", "temperatureEnd"]

/-- A call without option names: the first argument does not begin with a dash. -/
def Plain : List Str → Prop
  | [] => False
  | a :: _ => a.head? ≠ some '-'

end Spec

/-! ## Lemmas -/

theorem startsWith_dash (s : Str) :
    (stringStartsWith s "--".toList || stringStartsWith s "-".toList) = true ↔ s.head? = some '-' := by
  cases s with
  | nil => decide
  | cons a s =>
    have h1 : stringStartsWith (a :: s) "-".toList = decide (a = '-') := by
      show (decide (1 ≤ s.length + 1) && (('-' == a) && [].isPrefixOf s)) = _
      by_cases h : a = '-'
      · subst h; simp
      · simp [h, Ne.symm h]
    have h2 : stringStartsWith (a :: s) "--".toList = true → a = '-' := by
      intro h
      have : (decide (2 ≤ s.length + 1) && (('-' == a) && ['-'].isPrefixOf s)) = true := h
      simp only [Bool.and_eq_true, beq_iff_eq] at this
      exact this.2.1.symm
    rw [h1]
    simp only [Bool.or_eq_true, decide_eq_true_eq, List.head?_cons, Option.some.injEq]
    exact ⟨fun h => h.elim h2 id, Or.inr⟩

theorem keys_assign (m : ArgMap) (k v : Str) : (assign m k v).map Prod.fst = m.map Prod.fst := by
  induction m with
  | nil => rfl
  | cons e m ih =>
    obtain ⟨a, w⟩ := e
    simp only [assign]
    split
    · rfl
    · simp [ih]

theorem keys_setValue (p : Parser) (k v : Str) :
    (setValue p k v).required.map Prod.fst = p.required.map Prod.fst := by
  unfold setValue
  split
  · exact keys_assign _ _ _
  · rfl

/-- The required arguments stay the same ones. -/
theorem keys_addKeyValues (p : Parser) (lg : Logger) (l : List (Str × Str)) :
    (addKeyValues p lg l).parser.required.map Prod.fst = p.required.map Prod.fst := by
  induction l generalizing p with
  | nil => rfl
  | cons kv l ih =>
    obtain ⟨k, v⟩ := kv
    rw [addKeyValues_cons]
    split
    · exact ih _
    · split
      · rw [ih, keys_setValue]
      · rfl

theorem find_isSome_iff (m : ArgMap) (k : Str) : (find m k).isSome ↔ k ∈ m.map Prod.fst := by
  induction m with
  | nil => simp [find]
  | cons e m ih =>
    obtain ⟨a, w⟩ := e
    simp only [find, List.map_cons, List.mem_cons]
    by_cases h : a = k
    · simp [h]
    · simp only [h, if_false, ih]
      constructor
      · exact Or.inr
      · rintro (h' | h')
        · exact absurd h'.symm h
        · exact h'

theorem lastValue_not_mem (n : Str) (l : List (Str × Str)) (h : lower n ∉ l.map fun kv => lower kv.1) :
    lastValue n l = none := by
  induction l with
  | nil => rfl
  | cons kv l ih =>
    obtain ⟨k, v⟩ := kv
    simp only [List.map_cons, List.mem_cons, not_or] at h
    rw [lastValue, ih h.2]
    exact if_neg fun hs => h.1 (Eq.symm hs)

theorem lastValue_zip (ns : List Str) (vs : List Str) (hn : (ns.map lower).Nodup) (i : Nat) (n v : Str)
    (h1 : ns[i]? = some n) (h2 : vs[i]? = some v) : lastValue n (ns.zip vs) = some v := by
  induction ns generalizing vs i with
  | nil => simp at h1
  | cons a ns ih =>
    cases vs with
    | nil => simp at h2
    | cons b vs =>
      simp only [List.map_cons, List.nodup_cons] at hn
      cases i with
      | zero =>
        simp only [List.getElem?_cons_zero, Option.some.injEq] at h1 h2
        subst h1; subst h2
        have : lastValue a (ns.zip vs) = none := by
          apply lastValue_not_mem
          intro hm
          apply hn.1
          obtain ⟨kv, hkv, e⟩ := List.mem_map.1 hm
          rw [← e]
          exact List.mem_map.2 ⟨kv.1, (List.of_mem_zip hkv).1, rfl⟩
        rw [List.zip_cons_cons, lastValue, this]
        exact if_pos rfl
      | succ i =>
        simp only [List.getElem?_cons_succ] at h1 h2
        rw [List.zip_cons_cons, lastValue, ih vs hn.2 i h1 h2]

/-- What the declarations of all programs have in common. -/
theorem prepare_facts (g : Prog) :
    (g ≠ .potPlotter → (names g).map (fun n => lower n.toList) ≠ [] ∧
      ∀ k, k ∈ (prepare g).required.map Prod.fst ↔ k ∈ (names g).map fun n => lower n.toList) ∧
    ((names g).map fun n => lower n.toList).Nodup ∧ ((prepare g).required.map Prod.fst).Nodup ∧
    (∀ n ∈ names g, n.toList.head? ≠ none ∧ n.toList.head? ≠ some '-' ∧ '=' ∉ n.toList ∧
      lower n.toList ≠ "help".toList ∧ n.toList ≠ "json".toList ∧ n.toList ≠ "help".toList) ∧
    (∀ n ∈ required g, getValue (prepare g) n.toList = err .parser ∧
      find (prepare g).required (lower n.toList) = some none) ∧ required g ≠ [] ∧
    (∀ n ∈ names g, n ∈ required g) := by
  refine ⟨?_, ?_, ?_, ?_, ?_, ?_, ?_⟩
  · intro hg
    have h : (∀ k ∈ (prepare g).required.map Prod.fst, k ∈ (names g).map fun n => lower n.toList) ∧
        (∀ k ∈ (names g).map fun n => lower n.toList, k ∈ (prepare g).required.map Prod.fst) ∧
        (names g).map (fun n => lower n.toList) ≠ [] := by
      cases g <;> first | exact absurd rfl hg | decide +kernel
    exact ⟨h.2.2, fun k => ⟨h.1 k, h.2.1 k⟩⟩
  all_goals cases g <;> decide +kernel

theorem keyValue_name (n : String) (v : Str) (h : n.toList.head? ≠ none ∧ n.toList.head? ≠ some '-' ∧ '=' ∉ n.toList) :
    getKeyValue ("--".toList ++ n.toList ++ "=".toList ++ v) = ok (n.toList, v) := by
  cases e : n.toList with
  | nil => rw [e] at h; exact absurd rfl h.1
  | cons c l =>
    rw [e] at h
    have := C04_key_value 2 c l v (fun hc => h.2.1 (by rw [hc]; rfl)) h.2.2
    have e2 : List.replicate 2 '-' ++ (c :: l) ++ '=' :: v = "--".toList ++ (c :: l) ++ "=".toList ++ v := by
      show '-' :: '-' :: ((c :: l) ++ '=' :: v) = '-' :: '-' :: (((c :: l) ++ ['=']) ++ v)
      simp
    rw [← e2]; exact this

theorem mapM_zipWith (ns : List String) (vs : List Str)
    (h : ∀ n ∈ ns, n.toList.head? ≠ none ∧ n.toList.head? ≠ some '-' ∧ '=' ∉ n.toList) :
    (List.zipWith (fun n v => "--".toList ++ n.toList ++ "=".toList ++ v) ns vs).mapM getKeyValue =
      ok ((ns.map String.toList).zip vs) := by
  induction ns generalizing vs with
  | nil => rfl
  | cons n ns ih =>
    cases vs with
    | nil => rfl
    | cons v vs =>
      rw [List.zipWith_cons_cons, List.mapM_cons, keyValue_name n v (h n (by simp)),
        ih vs fun m hm => h m (by simp [hm])]
      rfl

theorem convert_plain (g : Prog) (argv : List Str) (h : Spec.Plain argv) :
    convertInput g argv = List.zipWith (fun n v => "--".toList ++ n.toList ++ "=".toList ++ v) (names g) argv := by
  cases argv with
  | nil => exact absurd h id
  | cons a l =>
    show (if _ then _ else _) = _
    rw [if_neg]
    intro hc
    exact h ((startsWith_dash a).1 hc)

theorem addInput_plain (json : Str → Outcome (List (Str × Str))) (g : Prog) (lg : Logger) (argv : List Str)
    (h : Spec.Plain argv) :
    addInput json (prepare g) lg (convertInput g argv) =
      addKeyValues (prepare g) lg (((names g).map String.toList).zip argv) := by
  have f := prepare_facts g
  have hm := mapM_zipWith (names g) argv fun n hn => ⟨(f.2.2.2.1 n hn).1, (f.2.2.2.1 n hn).2.1, (f.2.2.2.1 n hn).2.2.1⟩
  rw [convert_plain g argv h]
  by_cases hl : (List.zipWith (fun n v => "--".toList ++ n.toList ++ "=".toList ++ v) (names g) argv).length = 1
  · cases hn : names g with
    | nil => rw [hn] at hl; simp at hl
    | cons n ns =>
      cases argv with
      | nil => exact absurd h id
      | cons a l =>
        rw [hn] at hl hm
        have hz : List.zipWith (fun n v => "--".toList ++ n.toList ++ "=".toList ++ v) ns l = [] := by
          apply List.eq_nil_of_length_eq_zero
          rw [List.zipWith_cons_cons, List.length_cons] at hl
          omega
        have hz2 : (ns.map String.toList).zip l = [] := by
          apply List.eq_nil_of_length_eq_zero
          have := congrArg List.length hz
          simp only [List.length_zipWith, List.length_nil] at this
          simpa using this
        have fn := f.2.2.2.1 n (by rw [hn]; simp)
        rw [List.zipWith_cons_cons, hz, List.map_cons, List.zip_cons_cons, hz2]
        exact C03_one_argument json _ lg _ _ _ (keyValue_name n a ⟨fn.1, fn.2.1, fn.2.2.1⟩) fn.2.2.2.2.2 fn.2.2.2.2.1
  · exact C03_many_arguments json _ lg _ _ hl hm

theorem plain_ok (g : Prog) (lg : Logger) (argv : List Str) :
    (addKeyValues (prepare g) lg (((names g).map String.toList).zip argv)).out = ok () := by
  have f := prepare_facts g
  refine (C02_undeclared_rejected (prepare g) lg _).2 ?_
  intro kv hkv
  right
  left
  obtain ⟨n, hn, e⟩ := List.mem_map.1 (List.of_mem_zip hkv).1
  rw [← e, (f.2.2.2.2.1 n (f.2.2.2.2.2.2 n hn)).2]
  rfl

theorem value_plain (g : Prog) (lg : Logger) (argv : List Str) (n : String) (hn : n ∈ names g) :
    getValue (addKeyValues (prepare g) lg (((names g).map String.toList).zip argv)).parser n.toList =
      match lastValue n.toList (((names g).map String.toList).zip argv) with
      | some v => ok v
      | none => err .parser := by
  have f := prepare_facts g
  have := C01_last_setting_wins (prepare g) lg (((names g).map String.toList).zip argv) n.toList
    (plain_ok g lg argv) (fun h => (f.2.2.2.1 n hn).2.2.2.1 (by
      have : lower n.toList = lower "help".toList := h
      rw [this]; decide))
  rw [this, (f.2.2.2.2.1 n (f.2.2.2.2.2.2 n hn)).1]
  cases lastValue n.toList (((names g).map String.toList).zip argv) <;> rfl

theorem nodup_strings (g : Prog) : (((names g).map String.toList).map lower).Nodup := by
  have := (prepare_facts g).2.1
  rwa [List.map_map]

/-! ## C119 -/

/-- The words of a plain call become the values of the options named in the help, in the order shown there, letter
for letter, and the call passes the test for required options. -/
theorem C119_plain_call (json : Str → Outcome (List (Str × Str))) (g : Prog) (lg : Logger) (argv : List Str)
    (hg : g ≠ .potPlotter) (hp : Spec.Plain argv) (hl : (Spec.usage g).length ≤ argv.length) :
    ∃ p, start json g lg argv = ok p ∧
      ∀ (i : Nat) (n : String) (v : Str), (Spec.usage g)[i]? = some n → argv[i]? = some v →
        getValue p n.toList = ok v := by
  have f := prepare_facts g
  have hu : Spec.usage g = names g := by cases g <;> rfl
  rw [hu] at hl ⊢
  have hval : ∀ (i : Nat) (n : String) (v : Str), (names g)[i]? = some n → argv[i]? = some v →
      getValue (addKeyValues (prepare g) lg (((names g).map String.toList).zip argv)).parser n.toList = ok v := by
    intro i n v h1 h2
    rw [value_plain g lg argv n (List.mem_of_getElem? h1),
      lastValue_zip _ argv (nodup_strings g) i n.toList v (by rw [List.getElem?_map, h1]; rfl) h2]
  have hreq : checkRequired (addKeyValues (prepare g) lg (((names g).map String.toList).zip argv)).parser = ok () := by
    have hk := keys_addKeyValues (prepare g) lg (((names g).map String.toList).zip argv)
    refine (C02_missing_required _ (by rw [hk]; exact f.2.2.1)).1.2 ?_
    intro k w hw
    have hmem : k ∈ (prepare g).required.map Prod.fst := by
      rw [← hk, ← find_isSome_iff, hw]; rfl
    obtain ⟨n, hn, e⟩ := List.mem_map.1 (((f.1 hg).2 k).1 hmem)
    obtain ⟨i, hi⟩ := List.getElem?_of_mem hn
    have hlt : i < argv.length := by
      have := (List.getElem?_eq_some_iff.1 hi).1
      omega
    have := hval i n argv[i] hi (List.getElem?_eq_getElem hlt)
    subst e
    unfold getValue at this
    rw [hw] at this
    cases w with
    | none => simp at this
    | some v => rfl
  refine ⟨_, ?_, hval⟩
  unfold start
  rw [addInput_plain json g lg argv hp]
  simp only [plain_ok, hreq, bind_ok]

example : Spec.Plain ["sm".toList, "in.tsv".toList, "3".toList] ∧ (Prog.test ≠ .potPlotter) ∧
    (Spec.usage .test).length ≤ ["sm".toList, "in.tsv".toList, "3".toList].length := by
  refine ⟨by intro h; revert h; decide, by decide, by decide⟩

/-- A plain call with fewer words than shown in the help ends with the parser's error. -/
theorem C119_too_few (json : Str → Outcome (List (Str × Str))) (g : Prog) (lg : Logger) (argv : List Str)
    (hg : g ≠ .potPlotter) (hp : Spec.Plain argv) (hl : argv.length < (Spec.usage g).length) :
    start json g lg argv = err .parser := by
  have f := prepare_facts g
  have hu : Spec.usage g = names g := by cases g <;> rfl
  rw [hu] at hl
  have hk := keys_addKeyValues (prepare g) lg (((names g).map String.toList).zip argv)
  have hi : (names g)[argv.length]? = some (names g)[argv.length] := List.getElem?_eq_getElem hl
  have hmem : (names g)[argv.length] ∈ names g := List.getElem_mem hl
  have hnone : lastValue ((names g)[argv.length]).toList (((names g).map String.toList).zip argv) = none := by
    apply lastValue_not_mem
    intro hm
    obtain ⟨kv, hkv, e⟩ := List.mem_map.1 hm
    obtain ⟨j, hj⟩ := List.getElem?_of_mem hkv
    rw [List.getElem?_zip_eq_some] at hj
    have hj2 := (List.getElem?_eq_some_iff.1 hj.2).1
    have hj1 : ((names g).map fun n => lower n.toList)[j]? = some (lower kv.1) := by
      have := hj.1
      rw [List.getElem?_map] at this ⊢
      cases hq : (names g)[j]? with
      | none => rw [hq] at this; simp at this
      | some q =>
        rw [hq] at this
        simp only [Option.map_some, Option.some.injEq] at this ⊢
        rw [this]
    have hi1 : ((names g).map fun n => lower n.toList)[argv.length]? = some (lower ((names g)[argv.length]).toList) := by
      rw [List.getElem?_map, hi]; rfl
    rw [e] at hj1
    have hnd := f.2.1
    have h1 := List.getElem?_eq_some_iff.1 hj1
    have h2 := List.getElem?_eq_some_iff.1 hi1
    have := (List.getElem?_inj h1.1 hnd).1 (hj1.trans hi1.symm)
    omega
  have hv := value_plain g lg argv _ hmem
  rw [hnone] at hv
  have hfind : find (addKeyValues (prepare g) lg (((names g).map String.toList).zip argv)).parser.required
      (lower ((names g)[argv.length]).toList) = some none := by
    have hs : (find (addKeyValues (prepare g) lg (((names g).map String.toList).zip argv)).parser.required
        (lower ((names g)[argv.length]).toList)).isSome := by
      rw [find_isSome_iff, hk, (f.1 hg).2]
      exact List.mem_map.2 ⟨_, hmem, rfl⟩
    obtain ⟨w, hw⟩ := Option.isSome_iff_exists.1 hs
    cases w with
    | none => exact hw
    | some v =>
      unfold getValue at hv
      rw [hw] at hv
      simp at hv
  have hreq : checkRequired (addKeyValues (prepare g) lg (((names g).map String.toList).zip argv)).parser = err .parser :=
    (C02_missing_required _ (by rw [hk]; exact f.2.2.1)).2.2 ⟨_, hfind⟩
  unfold start
  rw [addInput_plain json g lg argv hp]
  simp only [plain_ok, hreq, bind_ok, bind_err]

/-- Words beyond those shown in the help are ignored without a message, options such as `--vw=0.3` among them. -/
theorem C119_rest_ignored (json : Str → Outcome (List (Str × Str))) (g : Prog) (lg : Logger) (argv extra : List Str)
    (hp : Spec.Plain argv) (hl : (Spec.usage g).length ≤ argv.length) :
    start json g lg (argv ++ extra) = start json g lg argv := by
  have hu : Spec.usage g = names g := by cases g <;> rfl
  rw [hu] at hl
  have hp' : Spec.Plain (argv ++ extra) := by
    cases argv with
    | nil => exact absurd hp id
    | cons a l => exact hp
  unfold start
  rw [addInput_plain json g lg argv hp, addInput_plain json g lg _ hp']
  have : ((names g).map String.toList).zip (argv ++ extra) = ((names g).map String.toList).zip argv := by
    have gen : ∀ (a b c : List Str), a.length ≤ b.length → a.zip (b ++ c) = a.zip b := by
      intro a
      induction a with
      | nil => intros; rfl
      | cons x a ih =>
        intro b c h
        cases b with
        | nil => simp at h
        | cons y b =>
          simp only [List.length_cons, Nat.add_le_add_iff_right] at h
          simp [ih b c h]
    exact gen _ _ _ (by simpa using hl)
  rw [this]

/-- A wall velocity given after the words of a plain call of `CalculateEWBG` is lost. -/
example : ∃ p, start (fun _ => err .runtime) .calculateEWBG Logger.init
      ["sm".toList, "a".toList, "b".toList, "2".toList, "2".toList, "c".toList, "--vw=0.3".toList] = ok p ∧
    getValue p "vw".toList = err .parser := by
  refine ⟨_, rfl, ?_⟩
  decide +kernel

/-- Arguments of which the first begins with a dash reach the parser unchanged. -/
theorem C119_named_call (g : Prog) (a : Str) (l : List Str) (h : a.head? = some '-') :
    convertInput g (a :: l) = a :: l := if_pos ((startsWith_dash a).2 h)

example : ("--model=sm".toList).head? = some '-' := by decide

/-- Without arguments, and for `--help` in any capitals, every program shows the help and ends with the parser's
error, as required options are missing. -/
theorem C119_no_arguments (json : Str → Outcome (List (Str × Str))) (g : Prog) (lg : Logger) :
    start json g lg [] = err .parser := by
  have f := prepare_facts g
  have hreq : checkRequired (prepare g) = err .parser := by
    cases g <;> decide +kernel
  have : addInput json (prepare g) lg (convertInput g []) = addKeyValues (prepare g) lg [] := rfl
  unfold start
  rw [this]
  simp only [addKeyValues, bind_ok, hreq, bind_err]

theorem C119_help (json : Str → Outcome (List (Str × Str))) (g : Prog) (lg : Logger) (name : Str)
    (hn : sameName name "help".toList) :
    start json g lg ["--".toList ++ name] = err .parser := by
  have hreq : checkRequired { prepare g with helpPrinted := true } = err .parser := by
    cases g <;> decide +kernel
  cases name with
  | nil => exact absurd hn (by decide)
  | cons c name =>
    have h := C03_help json (prepare g) lg 2 c name hn
    have e : List.replicate 2 '-' ++ (c :: name) = "--".toList ++ (c :: name) := rfl
    rw [e] at h
    have hc : convertInput g ["--".toList ++ (c :: name)] = ["--".toList ++ (c :: name)] :=
      C119_named_call g _ _ rfl
    unfold start
    rw [hc]
    simp only [h.1, h.2, bind_ok, hreq, bind_err]

example : sameName "Help".toList "help".toList := by decide

/-- PotPlotter has no such form: words without option names are dropped, and the required options are missing. -/
theorem C119_potplotter (json : Str → Outcome (List (Str × Str))) (lg : Logger) (argv : List Str)
    (hp : Spec.Plain argv) : start json .potPlotter lg argv = err .parser := by
  have : start json .potPlotter lg argv = start json .potPlotter lg [] := by
    unfold start
    rw [addInput_plain json .potPlotter lg argv hp]
    rfl
  rw [this]
  exact C119_no_arguments json _ lg

/-- Every option that the sample calls of the help leave out has a default: exactly the words of the help are
required, in all programs with a plain call. -/
theorem C119_required (g : Prog) (hg : g ≠ .potPlotter) (n : String) :
    (find (prepare g).required (lower n.toList)).isSome ↔ ∃ m ∈ Spec.usage g, sameName n.toList m.toList := by
  have f := prepare_facts g
  have hu : Spec.usage g = names g := by cases g <;> rfl
  rw [find_isSome_iff, (f.1 hg).2, hu]
  simp only [List.mem_map]
  exact ⟨fun ⟨m, h1, h2⟩ => ⟨m, h1, h2.symm⟩, fun ⟨m, h1, h2⟩ => ⟨m, h1, Eq.symm h2⟩⟩

/-- Only BSMPT, CalculateEWBG, NLOVEV, the two plotting programs, Test, VEVEVO and the programs for transitions let
the user choose the minimisers; in CalcCT and TripleHiggsNLO `--useGSL` is rejected. -/
theorem C119_minimizer_options (g : Prog) :
    Declared (prepare g) "useGSL".toList ↔ g ≠ .calcCT ∧ g ≠ .tripleHiggs ∧ g ≠ .potPlotter := by
  cases g <;> decide +kernel

theorem addArgument_helpPrinted (b : Bool) (l : List String) (p : Parser) :
    (l.foldl (fun p n => addArgument p n.toList b) p).helpPrinted = p.helpPrinted := by
  induction l generalizing p with
  | nil => rfl
  | cons n l ih =>
    rw [List.foldl_cons, ih]
    unfold addArgument
    split <;> rfl

/-- The help has not been printed before the arguments are read, so the first error can print it. -/
theorem C119_help_not_printed (g : Prog) : (prepare g).helpPrinted = false := by
  unfold prepare
  simp only [addArgument_helpPrinted]

end Verif.Programs.Positional
