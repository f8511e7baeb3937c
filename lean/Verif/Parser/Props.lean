import Verif.Parser.Lemmas

/-!
# Properties of the command-line parser and the logger (C01–C04, C06)
-/

namespace Verif.Parser

open Outcome Utility Spec

/-- A parser for the examples: `--model` required, `--input` required, `--useGSL` optional. -/
def demo : Parser :=
  addArgument (addArgument (addArgument ⟨[], [], false⟩ "model".toList true) "input".toList true)
    "useGSL".toList false

/-! ## C01: values are stored under case-insensitive names and the last setting wins -/

/-- After an accepted list of settings every declared argument (other than the reserved name
`help`), asked for in any capitalisation, has the value of the last setting of its name in the
list, or the value it had before when there is none. -/
theorem C01_last_setting_wins (p : Parser) (lg : Logger) (l : List (Str × Str)) (n : Str)
    (hok : (addKeyValues p lg l).out = ok ()) (hhelp : ¬ sameName n "help".toList) :
    getValue (addKeyValues p lg l).parser n =
      match lastValue n l with
      | some v => ok v
      | none => getValue p n := by
  induction l generalizing p with
  | nil => simp [addKeyValues, lastValue]
  | cons kv rest ih =>
    obtain ⟨k, v⟩ := kv
    rw [addKeyValues_cons] at hok ⊢
    by_cases hk : lower k = "help".toList
    · rw [if_pos hk] at hok ⊢
      rw [ih _ hok, getValue_printHelp]
      have : ¬ sameName k n := by
        intro h
        apply hhelp
        unfold sameName at h ⊢
        rw [← h]
        show lower k = lower "help".toList
        rw [hk]; decide
      simp only [lastValue, this, if_false]
      cases lastValue n rest <;> rfl
    · rw [if_neg hk] at hok ⊢
      by_cases hd : Declared p k
      · rw [if_pos hd] at hok ⊢
        rw [ih _ hok, getValue_setValue p k v n hd]
        simp only [lastValue]
        cases lastValue n rest with
        | some w => rfl
        | none => by_cases hs : sameName k n <;> simp [hs]
      · rw [if_neg hd] at hok; simp at hok

/-- The capitalisation used in the query does not matter. -/
theorem C01_query_case_insensitive (p : Parser) (n n' : Str) (h : sameName n n') :
    getValue p n = getValue p n' := by
  have h' : lower n = lower n' := h
  simp [getValue, h']

/-- A list of settings never changes which arguments are declared. -/
theorem C01_declarations_unchanged (p : Parser) (lg : Logger) (l : List (Str × Str)) (n : Str) :
    Declared (addKeyValues p lg l).parser n ↔ Declared p n := by
  induction l generalizing p with
  | nil => simp [addKeyValues]
  | cons kv rest ih =>
    obtain ⟨k, v⟩ := kv
    rw [addKeyValues_cons]
    split
    · rw [ih, declared_printHelp]
    · split
      · rw [ih, declared_setValue]
      · exact Iff.rfl

/-- A freshly declared argument has no value; declaring again does not lose a value. -/
theorem C01_declare (p : Parser) (n m : Str) (req : Bool) :
    Declared (addArgument p n req) n ∧
    (¬ Declared p n → getValue (addArgument p n req) n = err .parser) ∧
    (Declared p m → ¬ (req = true ∧ sameName m n ∧ find p.required (lower n) = none) →
      getValue (addArgument p n req) m = getValue p m) := by
  refine ⟨?_, ?_, ?_⟩
  · cases req
    · right
      simp only [addArgument, Bool.false_eq_true, if_false, find_emplace]
      cases find p.optional (lower n) <;> simp
    · left
      simp only [addArgument, if_true, find_emplace]
      cases find p.required (lower n) <;> simp
  · intro hd
    simp only [Declared, not_or] at hd
    have h1 : find p.required (lower n) = none := by simpa using hd.1
    have h2 : find p.optional (lower n) = none := by simpa using hd.2
    cases req
    · simp [addArgument, getValue, find_emplace, h1, h2]
    · simp [addArgument, getValue, find_emplace, h1]
  · intro hd hne
    cases req
    · simp only [addArgument, Bool.false_eq_true, if_false, getValue, find_emplace]
      by_cases h : lower m = lower n ∧ find p.optional (lower n) = none
      · have h2 : find p.optional (lower m) = none := by rw [h.1]; exact h.2
        have h1 : (find p.required (lower m)).isSome := by
          rcases hd with h1 | h1
          · exact h1
          · rw [h2] at h1; simp at h1
        obtain ⟨w, hw⟩ := Option.isSome_iff_exists.1 h1
        rw [hw]
        cases w <;> rfl
      · rw [if_neg h]
    · simp only [addArgument, if_true, getValue, find_emplace]
      have : ¬ (lower m = lower n ∧ find p.required (lower n) = none) :=
        fun h => hne ⟨rfl, h.1, h.2⟩
      rw [if_neg this]

example : (addKeyValues demo Logger.init
      [("Model".toList, "a".toList), ("USEgsl".toList, "b".toList), ("mODEL".toList, "c".toList)]).out
        = ok () ∧
    getValue (addKeyValues demo Logger.init
      [("Model".toList, "a".toList), ("USEgsl".toList, "b".toList), ("mODEL".toList, "c".toList)]).parser
        "model".toList = ok "c".toList ∧ ¬ sameName "model".toList "help".toList := by
  decide

/-- Boolean options: `get_value<bool>` is true exactly for the value `true` in any capitalisation;
every other value counts as false, and an argument without a value raises `parserException`. -/
theorem C01_boolean_values (p : Parser) (n : Str) :
    (∀ v, getValue p n = ok v → ∃ b, getBool p n = ok b ∧ (b = true ↔ sameName v "true".toList)) ∧
    ((∀ v, getValue p n ≠ ok v) → getBool p n = err .parser) := by
  have ht : lower "true".toList = "true".toList := by decide
  refine ⟨fun v h => ⟨lower v == "true".toList, by simp only [getBool, h, bind_ok], ?_⟩, fun h => ?_⟩
  · rw [beq_iff_eq]
    show _ ↔ lower v = lower "true".toList
    rw [ht]
  · have : getValue p n = err .parser := by
      revert h
      unfold getValue
      split
      · intro h; exact absurd rfl (h _)
      · intro _; rfl
      · split
        · intro h; exact absurd rfl (h _)
        · intro _; rfl
        · intro _; rfl
    simp only [getBool, this, bind_err]

example : getBool (addKeyValues demo Logger.init [("usegsl".toList, "TRUE".toList)]).parser
    "useGSL".toList = ok true ∧ getBool demo "useGSL".toList = err .parser := by decide

/-! ## C02: undeclared arguments are rejected, missing required ones are detected -/

/-- `add_input` ends with a `parserException` exactly when the list contains a name that is neither
`help` nor declared; otherwise it ends normally. -/
theorem C02_undeclared_rejected (p : Parser) (lg : Logger) (l : List (Str × Str)) :
    ((∃ kv ∈ l, ¬ sameName kv.1 "help".toList ∧ ¬ Declared p kv.1) →
      (addKeyValues p lg l).out = err .parser) ∧
    ((∀ kv ∈ l, sameName kv.1 "help".toList ∨ Declared p kv.1) →
      (addKeyValues p lg l).out = ok ()) := by
  have hhelp : lower "help".toList = "help".toList := by decide
  induction l generalizing p with
  | nil => simp [addKeyValues]
  | cons kv rest ih =>
    obtain ⟨k, v⟩ := kv
    rw [addKeyValues_cons]
    by_cases hk : lower k = "help".toList
    · have hs : sameName k "help".toList := by
        show lower k = lower "help".toList
        rw [hk, hhelp]
      rw [if_pos hk]
      have := ih (printHelp p)
      simp only [declared_printHelp] at this
      refine ⟨?_, fun h => this.2 fun kv hm => h kv (by simp [hm])⟩
      rintro ⟨kv, hm, h1, h2⟩
      rcases List.mem_cons.1 hm with rfl | hm
      · exact absurd hs h1
      · exact this.1 ⟨kv, hm, h1, h2⟩
    · have hs : ¬ sameName k "help".toList := by
        intro h
        have : lower k = lower "help".toList := h
        rw [hhelp] at this; exact hk this
      rw [if_neg hk]
      by_cases hd : Declared p k
      · rw [if_pos hd]
        have := ih (setValue p k v)
        simp only [declared_setValue] at this
        refine ⟨?_, fun h => this.2 fun kv hm => h kv (by simp [hm])⟩
        rintro ⟨kv, hm, h1, h2⟩
        rcases List.mem_cons.1 hm with rfl | hm
        · exact absurd hd h2
        · exact this.1 ⟨kv, hm, h1, h2⟩
      · rw [if_neg hd]
        refine ⟨fun _ => rfl, fun h => ?_⟩
        rcases h (k, v) (by simp) with h | h
        · exact absurd h hs
        · exact absurd h hd

/-- A rejected list is not rolled back: the settings before the first undeclared name are applied
(the logger, however, is untouched). -/
theorem C02_rejection_keeps_prefix (p : Parser) (lg : Logger) (l₁ l₂ : List (Str × Str))
    (k v n : Str) (h₁ : ∀ kv ∈ l₁, sameName kv.1 "help".toList ∨ Declared p kv.1)
    (hk : ¬ sameName k "help".toList ∧ ¬ Declared p k) :
    getValue (addKeyValues p lg (l₁ ++ (k, v) :: l₂)).parser n =
      getValue (addKeyValues p lg l₁).parser n ∧
    (addKeyValues p lg (l₁ ++ (k, v) :: l₂)).logger = lg := by
  have hhelp : lower "help".toList = "help".toList := by decide
  induction l₁ generalizing p with
  | nil =>
    rw [List.nil_append, addKeyValues_cons, if_neg, if_neg hk.2]
    · simp [addKeyValues]
    · intro h; apply hk.1; show lower k = lower "help".toList; rw [h, hhelp]
  | cons kv rest ih =>
    obtain ⟨k', v'⟩ := kv
    rw [List.cons_append, addKeyValues_cons, addKeyValues_cons]
    by_cases hk' : lower k' = "help".toList
    · rw [if_pos hk', if_pos hk']
      exact ih (printHelp p) (fun kv hm => h₁ kv (by simp [hm])) hk
    · rw [if_neg hk', if_neg hk']
      have hd : Declared p k' := by
        rcases h₁ (k', v') (by simp) with h | h
        · exfalso; apply hk'
          have : lower k' = lower "help".toList := h
          rw [this, hhelp]
        · exact h
      rw [if_pos hd, if_pos hd]
      exact ih (setValue p k' v') (fun kv hm => by
        rw [declared_setValue]; exact h₁ kv (by simp [hm])) (by rw [declared_setValue]; exact hk)

/-- `check_required_parameters` throws exactly when some required argument has no value.
(A parser's map has no duplicate keys.) -/
theorem C02_missing_required (p : Parser) (hnd : (p.required.map Prod.fst).Nodup) :
    (checkRequired p = ok () ↔ ∀ k w, find p.required k = some w → w.isSome) ∧
    (checkRequired p = err .parser ↔ ∃ k, find p.required k = some none) := by
  have h := all_iff_find p.required hnd
  have h' : allRequiredSet p = true ↔ ∀ k w, find p.required k = some w → w.isSome := h
  constructor
  · rw [← h']
    unfold checkRequired
    cases allRequiredSet p <;> simp
  · unfold checkRequired
    cases hb : allRequiredSet p with
    | true =>
      have := h'.1 hb
      simp only [if_true]
      constructor
      · intro hc; simp at hc
      · rintro ⟨k, hk⟩; have := this k none hk; simp at this
    | false =>
      simp only [Bool.false_eq_true, if_false, true_iff]
      by_cases hex : ∃ k, find p.required k = some none
      · exact hex
      · exfalso
        have : allRequiredSet p = true := h'.2 fun k w hf => by
          cases w with
          | none => exact absurd ⟨k, hf⟩ hex
          | some v => rfl
        rw [hb] at this; simp at this

/-- No sequence of declarations produces duplicate keys, so the hypothesis of
`C02_missing_required` holds for every parser built through the interface. -/
theorem C02_no_duplicate_keys (p : Parser) (n : Str) (req : Bool)
    (h : (p.required.map Prod.fst).Nodup) :
    ((addArgument p n req).required.map Prod.fst).Nodup := by
  cases req
  · simpa [addArgument] using h
  · simp only [addArgument, if_true, emplace]
    cases hf : find p.required (lower n) with
    | some w => exact h
    | none =>
      have hnot : ∀ m : ArgMap, find m (lower n) = none → lower n ∉ m.map Prod.fst := by
        intro m
        induction m with
        | nil => simp
        | cons e m ih =>
          obtain ⟨a, w⟩ := e
          intro hm
          simp only [find] at hm
          by_cases ha : a = lower n
          · simp [ha] at hm
          · simp only [ha, if_false] at hm
            simp only [List.map_cons, List.mem_cons, not_or]
            exact ⟨Ne.symm ha, ih hm⟩
      simp only [List.map_append, List.map_cons, List.map_nil]
      rw [List.nodup_append]
      refine ⟨h, by simp, ?_⟩
      intro a ha b hb
      simp only [List.mem_singleton] at hb
      rintro rfl
      exact hnot _ hf (hb ▸ ha)

example : (demo.required.map Prod.fst).Nodup ∧ checkRequired demo = err .parser ∧
    checkRequired (addKeyValues demo Logger.init
      [("model".toList, "x".toList), ("input".toList, "y".toList)]).parser = ok () := by decide

example : (∀ kv ∈ [("Model".toList, "a".toList)], sameName kv.1 "help".toList ∨ Declared demo kv.1) ∧
    (¬ sameName "nosuch".toList "help".toList ∧ ¬ Declared demo "nosuch".toList) := by decide

/-! ## C04: splitting an argument gives back its name and value -/

theorem findIdx?_replicate_append (p : Char → Bool) (k : Nat) (c : Char) (r : Str)
    (hc : p c = false) :
    (List.replicate k c ++ r).findIdx? p = (r.findIdx? p).map (· + k) := by
  induction k with
  | zero => simp
  | succ k ih =>
    rw [List.replicate_succ, List.cons_append, List.findIdx?_cons, hc, ih]
    cases r.findIdx? p with
    | none => simp
    | some x => simp; omega

theorem findIdx?_append_cons (p : Char → Bool) (l : Str) (c : Char) (r : Str)
    (hl : ∀ x ∈ l, p x = false) (hc : p c = true) :
    (l ++ c :: r).findIdx? p = some l.length := by
  induction l with
  | nil => simp [List.findIdx?_cons, hc]
  | cons a l ih =>
    rw [List.cons_append, List.findIdx?_cons, hl a (by simp), ih (fun x hx => hl x (by simp [hx]))]
    simp

theorem findIdx?_none (p : Char → Bool) (l : Str) (hl : ∀ x ∈ l, p x = false) :
    l.findIdx? p = none := by
  induction l with
  | nil => simp
  | cons a l ih =>
    rw [List.findIdx?_cons, hl a (by simp), ih (fun x hx => hl x (by simp [hx]))]
    simp

/-- `--name=value` (with any number of dashes, also none) is split into exactly `name` and `value`,
for every name that is not empty, does not start with a dash and contains no `=`, and for every
value whatsoever (including values with `=`, blanks and dashes). -/
theorem C04_key_value (dashes : Nat) (c : Char) (name value : Str)
    (hc : c ≠ '-') (hname : '=' ∉ c :: name) :
    getKeyValue (List.replicate dashes '-' ++ (c :: name) ++ '=' :: value) =
      ok (c :: name, value) := by
  have hb : (List.replicate dashes '-' ++ (c :: name) ++ '=' :: value).findIdx? (· != '-') =
      some dashes := by
    rw [List.append_assoc, findIdx?_replicate_append _ _ _ _ (by simp), List.cons_append,
      List.findIdx?_cons]
    simp [hc]
  have hs : (List.replicate dashes '-' ++ (c :: name) ++ '=' :: value).findIdx? (· == '=') =
      some (dashes + (name.length + 1)) := by
    rw [findIdx?_append_cons]
    · simp
    · intro x hx
      rw [List.mem_append] at hx
      rcases hx with hx | hx
      · rw [List.eq_of_mem_replicate hx]; decide
      · rw [beq_eq_false_iff_ne]; rintro rfl; exact hname hx
    · simp
  simp only [getKeyValue, hb, hs]
  congr 1
  rw [List.append_assoc, List.drop_append_of_le_length (by simp)]
  have e1 : List.drop dashes (List.replicate dashes '-') = [] := by simp
  have e2 : dashes + (name.length + 1) - dashes = (c :: name).length := by simp
  rw [e1, List.nil_append, e2, List.take_left]
  congr 1
  have e3 : List.replicate dashes '-' ++ (c :: name ++ '=' :: value) =
      (List.replicate dashes '-' ++ (c :: name ++ ['='])) ++ value := by simp
  have e4 : dashes + (name.length + 1) + 1 =
      (List.replicate dashes '-' ++ (c :: name ++ ['='])).length := by
    simp; omega
  rw [e3, e4, List.drop_left]

/-- The older form `--name value` in one argument, when there is no `=` anywhere. -/
theorem C04_key_space_value (dashes : Nat) (c : Char) (name value : Str)
    (hc : c ≠ '-') (hname : ' ' ∉ c :: name) (heq : '=' ∉ c :: name ++ value) :
    getKeyValue (List.replicate dashes '-' ++ (c :: name) ++ ' ' :: value) =
      ok (c :: name, value) := by
  have hb : (List.replicate dashes '-' ++ (c :: name) ++ ' ' :: value).findIdx? (· != '-') =
      some dashes := by
    rw [List.append_assoc, findIdx?_replicate_append _ _ _ _ (by simp), List.cons_append,
      List.findIdx?_cons]
    simp [hc]
  have hs0 : (List.replicate dashes '-' ++ (c :: name) ++ ' ' :: value).findIdx? (· == '=') =
      none := by
    apply findIdx?_none
    intro x hx
    rw [beq_eq_false_iff_ne]
    rintro rfl
    simp only [List.mem_append, List.mem_cons] at hx heq
    rcases hx with (hx | hx) | hx | hx
    · have := List.eq_of_mem_replicate hx; revert this; decide
    · exact heq (Or.inl hx)
    · revert hx; decide
    · exact heq (Or.inr hx)
  have hs : (List.replicate dashes '-' ++ (c :: name) ++ ' ' :: value).findIdx? (· == ' ') =
      some (dashes + (name.length + 1)) := by
    rw [findIdx?_append_cons]
    · simp
    · intro x hx
      rw [List.mem_append] at hx
      rcases hx with hx | hx
      · rw [List.eq_of_mem_replicate hx]; decide
      · rw [beq_eq_false_iff_ne]; rintro rfl; exact hname hx
    · simp
  simp only [getKeyValue, hb, hs0, hs]
  congr 1
  rw [List.append_assoc, List.drop_append_of_le_length (by simp)]
  have e1 : List.drop dashes (List.replicate dashes '-') = [] := by simp
  have e2 : dashes + (name.length + 1) - dashes = (c :: name).length := by simp
  rw [e1, List.nil_append, e2, List.take_left]
  congr 1
  have e3 : List.replicate dashes '-' ++ (c :: name ++ ' ' :: value) =
      (List.replicate dashes '-' ++ (c :: name ++ [' '])) ++ value := by simp
  have e4 : dashes + (name.length + 1) + 1 =
      (List.replicate dashes '-' ++ (c :: name ++ [' '])).length := by
    simp; omega
  rw [e3, e4, List.drop_left]

/-- Without any separator the whole argument, dashes included, becomes the value. -/
theorem C04_no_separator (dashes : Nat) (c : Char) (name : Str) (hc : c ≠ '-')
    (h1 : '=' ∉ c :: name) (h2 : ' ' ∉ c :: name) :
    getKeyValue (List.replicate dashes '-' ++ (c :: name)) =
      ok (c :: name, List.replicate dashes '-' ++ (c :: name)) := by
  have hb : (List.replicate dashes '-' ++ (c :: name)).findIdx? (· != '-') = some dashes := by
    rw [findIdx?_replicate_append _ _ _ _ (by simp), List.findIdx?_cons]
    simp [hc]
  have hnone : ∀ d : Char, d ≠ '-' → d ∉ c :: name →
      (List.replicate dashes '-' ++ (c :: name)).findIdx? (· == d) = none := by
    intro d hd hn
    apply findIdx?_none
    intro x hx
    rw [beq_eq_false_iff_ne]
    rintro rfl
    rcases List.mem_append.1 hx with hx | hx
    · exact hd (List.eq_of_mem_replicate hx)
    · exact hn hx
  simp only [getKeyValue, hb, hnone '=' (by decide) h1, hnone ' ' (by decide) h2]
  congr 2
  rw [List.drop_append_of_le_length (by simp)]
  simp

/-- An argument of dashes only (in particular the empty argument) raises `std::out_of_range`. -/
theorem C04_dashes_only (dashes : Nat) :
    getKeyValue (List.replicate dashes '-') = err .outOfRange := by
  have : (List.replicate dashes '-').findIdx? (· != '-') = none := by
    apply findIdx?_none
    intro x hx
    rw [List.eq_of_mem_replicate hx]; decide
  simp [getKeyValue, this]

example : ('o' ≠ '-') ∧ '=' ∉ 'o' :: "utput".toList ∧
    getKeyValue "--output=a=b -c".toList = ok ("output".toList, "a=b -c".toList) := by decide

/-! ## C03: `--help` and `--json` in any capitalisation -/

/-- What the documentation promises ("This is case insensitive", parser.h:29-32) for the one-argument
command line `--json=FILE`: it behaves like the lower-case spelling. -/
def JsonAnyCase (json : Str → Outcome (List (Str × Str))) (p : Parser) (lg : Logger) : Prop :=
  ∀ name file : Str, sameName name "json".toList →
    ∀ n, getValue (addInput json p lg ["--".toList ++ name ++ '=' :: file]).parser n =
      getValue (addInput json p lg ["--".toList ++ "json".toList ++ '=' :: file]).parser n

/-- `JsonAnyCase` is false of the code: with a parser that declares `json`, as `parser()` does,
`--JSON=f` stores the file name and loads nothing. -/
theorem C03_json_case_sensitive :
    ∃ (json : Str → Outcome (List (Str × Str))) (p : Parser),
      Declared p "json".toList ∧ ¬ JsonAnyCase json p Logger.init := by
  refine ⟨fun _ => ok [("model".toList, "c2hdm".toList)],
    addArgument (addArgument ⟨[], [], false⟩ "json".toList false) "model".toList true,
    by decide, ?_⟩
  intro h
  have := h "JSON".toList "f".toList (by decide) "model".toList
  revert this
  decide

/-- In lower case a single `--json=FILE` loads the file: the result is that of the settings in the
file other than the `..._comment` entries. -/
theorem C03_json_partial (json : Str → Outcome (List (Str × Str))) (p : Parser) (lg : Logger)
    (file : Str) (items : List (Str × Str)) (hj : json file = ok items) (dashes : Nat) :
    addInput json p lg [List.replicate dashes '-' ++ "json".toList ++ '=' :: file] =
      addKeyValues p lg (items.filter fun kv => !stringEndsWith kv.1 "_comment".toList) := by
  have := C04_key_value dashes 'j' "son".toList file (by decide) (by decide)
  have e : 'j' :: "son".toList = "json".toList := by decide
  rw [e] at this
  simp only [addInput, this]
  rw [if_neg (by decide), if_pos trivial]
  simp [addJson, hj]

/-- A json file that cannot be read or parsed leaves the parser and the logger as they were. -/
theorem C03_json_unreadable (json : Str → Outcome (List (Str × Str))) (p : Parser) (lg : Logger)
    (file : Str) (e : Err) (hj : json file = err e) (dashes : Nat) :
    addInput json p lg [List.replicate dashes '-' ++ "json".toList ++ '=' :: file] =
      ⟨p, lg, err e⟩ := by
  have := C04_key_value dashes 'j' "son".toList file (by decide) (by decide)
  have e : 'j' :: "son".toList = "json".toList := by decide
  rw [e] at this
  simp only [addInput, this]
  rw [if_neg (by decide), if_pos trivial]
  simp [addJson, hj]

/-- `--help` in any capitalisation shows the help and sets nothing. -/
theorem C03_help (json : Str → Outcome (List (Str × Str))) (p : Parser) (lg : Logger)
    (dashes : Nat) (c : Char) (name : Str) (hn : sameName (c :: name) "help".toList) :
    (addInput json p lg [List.replicate dashes '-' ++ (c :: name)]).parser =
      { p with helpPrinted := true } ∧
    (addInput json p lg [List.replicate dashes '-' ++ (c :: name)]).out = ok () := by
  have hl : lower (c :: name) = "help".toList := by
    have : lower (c :: name) = lower "help".toList := hn
    rw [this]; decide
  have hmem : ∀ d : Char, d.toLower ∉ "help".toList → d ∉ c :: name := by
    intro d hd hm
    apply hd
    rw [← hl]
    exact List.mem_map.2 ⟨d, hm, rfl⟩
  have hc : c ≠ '-' := by
    rintro rfl
    exact hmem '-' (by decide) (by simp)
  have h1 := C04_no_separator dashes c name hc (hmem '=' (by decide)) (hmem ' ' (by decide))
  simp only [addInput, h1, List.mapM_cons, List.mapM_nil, bind_ok, pure_def]
  by_cases h : c :: name = "help".toList
  · rw [if_pos h]; exact ⟨rfl, rfl⟩
  · rw [if_neg h, if_neg]
    · simp [addKeyValues, hl, printHelp]
    · intro hj
      rw [hj] at hl
      revert hl; decide

/-- Several arguments: `add_input` acts as the list of split settings, in order. -/
theorem C03_many_arguments (json : Str → Outcome (List (Str × Str))) (p : Parser) (lg : Logger)
    (args : List Str) (kvs : List (Str × Str)) (hlen : args.length ≠ 1)
    (h : args.mapM getKeyValue = ok kvs) :
    addInput json p lg args = addKeyValues p lg kvs := by
  match args, hlen with
  | [], _ => simp [addInput, h]
  | [_], h => simp at h
  | _ :: _ :: _, _ => simp only [addInput, h]

/-- A single argument that is not `--help`/`--json` in lower case is treated the same way. -/
theorem C03_one_argument (json : Str → Outcome (List (Str × Str))) (p : Parser) (lg : Logger)
    (arg k v : Str) (h : getKeyValue arg = ok (k, v)) (h1 : k ≠ "help".toList)
    (h2 : k ≠ "json".toList) :
    addInput json p lg [arg] = addKeyValues p lg [(k, v)] := by
  simp only [addInput, h, if_neg h1, if_neg h2, List.mapM_cons, List.mapM_nil, bind_ok, pure_def]

example : sameName "HeLp".toList "help".toList ∧ sameName "JSON".toList "json".toList ∧
    ["--a=1".toList, "--b=2".toList].mapM getKeyValue =
      ok [("a".toList, "1".toList), ("b".toList, "2".toList)] := by decide

/-! ## C06: logging switches -/

/-- The value given for an option, if any. -/
def optionValue (p : Parser) (name : Str) : Option Str :=
  match getValue p name with
  | ok v => some v
  | _ => none

/-- The command-line option that belongs to a level (documentation of the parser constructors,
parser.cpp:30-93). -/
def optionName : Level → Str
  | .none => []
  | .default => "logginglevel::default".toList
  | .minimizerDetailed => "logginglevel::minimizerdetailed".toList
  | .minTracerDetailed => "logginglevel::mintracerdetailed".toList
  | .transitionDetailed => "logginglevel::transitiondetailed".toList
  | .gwDetailed => "logginglevel::gwdetailed".toList
  | .bounceDetailed => "logginglevel::bouncedetailed".toList
  | .progDetailed => "logginglevel::progdetailed".toList
  | .ewbgDetailed => "logginglevel::ewbgdetailed".toList
  | .debug => "logginglevel::debug".toList
  | .complete => "logginglevel::complete".toList

/-- What a user expects of the switches: an explicit setting of a level counts; otherwise
`complete=true` switches everything but the minimizer output on; otherwise nothing changes. -/
def expected (p : Parser) (lg : Logger) (l : Level) : Bool :=
  match optionValue p (optionName l) with
  | some v => v == "true".toList
  | none =>
    if optionValue p "logginglevel::complete".toList = some "true".toList then
      l != .minimizerDetailed
    else writes lg l

/-- The list of prefixes is in the iteration order of `std::map`, and it has one entry per level
other than `None`. -/
theorem prefixes_sorted :
    (prefixes.map fun e => String.ofList ("--".toList ++ e.1 ++ "=".toList)).Pairwise (· < ·) ∧
    prefixes.map (fun e => optionName e.2) = prefixes.map Prod.fst := by decide

theorem fold_all_true (lg : Logger) (l : Level) :
    prefixes.foldl (fun lg e' => setLevel lg e'.2 true) lg l =
      if l = .none then lg l else some true := by
  cases l <;> rfl

theorem step_other (p : Parser) (lg : Logger) (e : Str × Level) (l : Level)
    (hc : e.1 ≠ "logginglevel::complete".toList) (hl : e.2 ≠ l) :
    setLoggerStep p lg e l = lg l := by
  unfold setLoggerStep
  cases getValue p e.1 with
  | ok v => simp only [hc, false_and, if_false, setLevel, Ne.symm hl]
  | err e => rfl
  | ub u => rfl

theorem step_own (p : Parser) (lg : Logger) (e : Str × Level)
    (hc : e.1 ≠ "logginglevel::complete".toList) :
    setLoggerStep p lg e e.2 =
      match optionValue p e.1 with
      | some v => some (v == "true".toList)
      | none => lg e.2 := by
  unfold setLoggerStep optionValue
  cases getValue p e.1 with
  | ok v => simp only [hc, false_and, if_false, setLevel, if_true]
  | err e => rfl
  | ub u => rfl

theorem step_complete (p : Parser) (lg : Logger) (l : Level) (hl : l ≠ .none) (hl' : l ≠ .complete) :
    setLoggerStep p lg ("logginglevel::complete".toList, .complete) l =
      if optionValue p "logginglevel::complete".toList = some "true".toList then
        some (l != .minimizerDetailed)
      else lg l := by
  unfold setLoggerStep optionValue
  dsimp only
  generalize "logginglevel::complete".toList = key
  generalize "true".toList = t
  cases getValue p key with
  | ok v =>
    simp only [true_and, Option.some.injEq]
    by_cases hv : v = t
    · rw [if_pos hv, if_pos hv]
      simp only [setLevel]
      by_cases hm : l = .minimizerDetailed
      · simp [hm]
      · rw [if_neg hm]
        simp only [bne,
          beq_eq_false_iff_ne.2 hm, Bool.not_false]
        have := fold_all_true (setLevel lg .complete (v == t)) l
        rw [if_neg hl] at this
        exact this
    · rw [if_neg hv, if_neg hv]
      simp [setLevel, hl']
  | err e => simp
  | ub u => simp

/-- The value after the loop over the prefixes, for every level with an option of its own. -/
theorem setLogger_value (p : Parser) (lg : Logger) (l : Level) (hl : l ≠ .none)
    (hl' : l ≠ .complete) (hd : optionValue p "logginglevel::disabled".toList = none) :
    setLogger p lg l =
      if l = .bounceDetailed then
        if optionValue p "logginglevel::complete".toList = some "true".toList then some true
        else match optionValue p (optionName l) with
          | some v => some (v == "true".toList)
          | none => lg l
      else match optionValue p (optionName l) with
        | some v => some (v == "true".toList)
        | none =>
          if optionValue p "logginglevel::complete".toList = some "true".toList then
            some (l != .minimizerDetailed)
          else lg l := by
  have hset : setLogger p lg = prefixes.foldl (setLoggerStep p) lg := by
    unfold setLogger
    unfold optionValue at hd
    cases h : getValue p "logginglevel::disabled".toList with
    | ok v => rw [h] at hd; simp at hd
    | err e => rfl
    | ub u => rfl
  rw [hset]
  simp only [prefixes, List.foldl_cons, List.foldl_nil]
  cases l
  case none => exact absurd rfl hl
  case complete => exact absurd rfl hl'
  case bounceDetailed =>
    iterate 8 rw [step_other _ _ _ _ (by decide) (by decide)]
    rw [step_complete p _ _ (by decide) (by decide)]
    rw [step_own p lg ("logginglevel::bouncedetailed".toList, .bounceDetailed) (by decide)]
    rfl
  case debug =>
    iterate 7 rw [step_other _ _ _ _ (by decide) (by decide)]
    rw [step_own p _ ("logginglevel::debug".toList, .debug) (by decide),
      step_complete p _ _ (by decide) (by decide), step_other _ _ _ _ (by decide) (by decide)]
    rfl
  case default =>
    iterate 6 rw [step_other _ _ _ _ (by decide) (by decide)]
    rw [step_own p _ ("logginglevel::default".toList, .default) (by decide)]
    iterate 1 rw [step_other _ _ _ _ (by decide) (by decide)]
    rw [step_complete p _ _ (by decide) (by decide), step_other _ _ _ _ (by decide) (by decide)]
    rfl
  case ewbgDetailed =>
    iterate 5 rw [step_other _ _ _ _ (by decide) (by decide)]
    rw [step_own p _ ("logginglevel::ewbgdetailed".toList, .ewbgDetailed) (by decide)]
    iterate 2 rw [step_other _ _ _ _ (by decide) (by decide)]
    rw [step_complete p _ _ (by decide) (by decide), step_other _ _ _ _ (by decide) (by decide)]
    rfl
  case gwDetailed =>
    iterate 4 rw [step_other _ _ _ _ (by decide) (by decide)]
    rw [step_own p _ ("logginglevel::gwdetailed".toList, .gwDetailed) (by decide)]
    iterate 3 rw [step_other _ _ _ _ (by decide) (by decide)]
    rw [step_complete p _ _ (by decide) (by decide), step_other _ _ _ _ (by decide) (by decide)]
    rfl
  case minimizerDetailed =>
    iterate 3 rw [step_other _ _ _ _ (by decide) (by decide)]
    rw [step_own p _ ("logginglevel::minimizerdetailed".toList, .minimizerDetailed) (by decide)]
    iterate 4 rw [step_other _ _ _ _ (by decide) (by decide)]
    rw [step_complete p _ _ (by decide) (by decide), step_other _ _ _ _ (by decide) (by decide)]
    rfl
  case minTracerDetailed =>
    iterate 2 rw [step_other _ _ _ _ (by decide) (by decide)]
    rw [step_own p _ ("logginglevel::mintracerdetailed".toList, .minTracerDetailed) (by decide)]
    iterate 5 rw [step_other _ _ _ _ (by decide) (by decide)]
    rw [step_complete p _ _ (by decide) (by decide), step_other _ _ _ _ (by decide) (by decide)]
    rfl
  case progDetailed =>
    iterate 1 rw [step_other _ _ _ _ (by decide) (by decide)]
    rw [step_own p _ ("logginglevel::progdetailed".toList, .progDetailed) (by decide)]
    iterate 6 rw [step_other _ _ _ _ (by decide) (by decide)]
    rw [step_complete p _ _ (by decide) (by decide), step_other _ _ _ _ (by decide) (by decide)]
    rfl
  case transitionDetailed =>
    rw [step_own p _ ("logginglevel::transitiondetailed".toList, .transitionDetailed) (by decide)]
    iterate 7 rw [step_other _ _ _ _ (by decide) (by decide)]
    rw [step_complete p _ _ (by decide) (by decide), step_other _ _ _ _ (by decide) (by decide)]
    rfl

/-- C06 for every level but the bounce level: after `SetLogger` a message of the level is written
iff the expectation says so. -/
theorem C06_switches_partial (p : Parser) (lg : Logger) (l : Level) (hl : l ≠ .none)
    (hl' : l ≠ .complete) (hb : l ≠ .bounceDetailed)
    (hd : optionValue p "logginglevel::disabled".toList = none) :
    writes (setLogger p lg) l = expected p lg l := by
  unfold writes expected
  rw [setLogger_value p lg l hl hl' hd, if_neg hb]
  cases optionValue p (optionName l) with
  | some v => rfl
  | none =>
    by_cases hc : optionValue p "logginglevel::complete".toList = some "true".toList
    · simp only [hc, if_true]
    · simp only [hc, if_false]; rfl

/-- For the bounce level the expectation is met when `complete=true` and an explicit setting of the
level are not combined. -/
theorem C06_bounce_partial (p : Parser) (lg : Logger)
    (hd : optionValue p "logginglevel::disabled".toList = none)
    (hcomb : optionValue p "logginglevel::complete".toList ≠ some "true".toList ∨
      optionValue p "logginglevel::bouncedetailed".toList = none) :
    writes (setLogger p lg) .bounceDetailed = expected p lg .bounceDetailed := by
  unfold writes expected
  rw [setLogger_value p lg .bounceDetailed (by decide) (by decide) hd, if_pos rfl]
  by_cases hc : optionValue p "logginglevel::complete".toList = some "true".toList
  · have hn : optionValue p (optionName .bounceDetailed) = none := by
      rcases hcomb with h | h
      · exact absurd hc h
      · exact h
    simp only [hc, hn, if_true]; rfl
  · simp only [hc, if_false]
    cases optionValue p (optionName .bounceDetailed) <;> rfl

/-- The parser of the refutation below: `complete` and `bouncedetailed` are declared. -/
def loggerDemo : Parser :=
  addArgument (addArgument ⟨[], [], false⟩ "logginglevel::complete".toList false)
    "logginglevel::bouncedetailed".toList false

/-- C06 is false of the code for the bounce level: `--logginglevel::complete=true
--logginglevel::bouncedetailed=false` leaves the bounce output on, because the options are applied
in alphabetical order. -/
theorem C06_bounce_switch_ignored :
    let p := (addKeyValues loggerDemo Logger.init
      [("logginglevel::complete".toList, "true".toList),
       ("logginglevel::bouncedetailed".toList, "false".toList)])
    writes p.logger .bounceDetailed = true ∧
    optionValue p.parser "logginglevel::bouncedetailed".toList = some "false".toList := by
  decide

/-- `--logginglevel::disabled` with any value whatsoever (even `false`) turns every level off. -/
theorem C06_disabled (p : Parser) (lg : Logger) (v : Str)
    (hd : optionValue p "logginglevel::disabled".toList = some v) (l : Level) :
    writes (setLogger p lg) l = false := by
  unfold setLogger
  unfold optionValue at hd
  cases h : getValue p "logginglevel::disabled".toList with
  | ok w => rfl
  | err e => rw [h] at hd; simp at hd
  | ub u => rw [h] at hd; simp at hd

/-- After a successful `add_input` the logger is configured from the final option values. -/
theorem C06_applied_after_input (p : Parser) (lg : Logger) (l : List (Str × Str))
    (hok : (addKeyValues p lg l).out = ok ()) :
    (addKeyValues p lg l).logger = setLogger (addKeyValues p lg l).parser lg := by
  induction l generalizing p with
  | nil => rfl
  | cons kv rest ih =>
    obtain ⟨k, v⟩ := kv
    rw [addKeyValues_cons] at hok ⊢
    split at hok
    · rename_i h; rw [if_pos h]; exact ih _ hok
    · rename_i h; rw [if_neg h]
      split at hok
      · rename_i h; rw [if_pos h]; exact ih _ hok
      · simp at hok

/-- Initially only default messages are written. -/
theorem C06_initial (l : Level) : writes Logger.init l = true ↔ l = .default := by
  cases l <;> decide

/-- The programmatic switches: a level set by `SetLevel` is written iff it was switched on, other
levels are unaffected; `Disable` silences all levels but does not prevent switching on again. -/
theorem C06_set_level (lg : Logger) (l l' : Level) (b : Bool) :
    writes (setLevel lg l b) l' = (if l' = l then b else writes lg l') ∧
    writes disable l' = false ∧ writes (setLevel disable l b) l = b := by
  refine ⟨?_, rfl, ?_⟩
  · unfold writes setLevel
    by_cases h : l' = l <;> simp [h]
  · simp [writes, setLevel]

/-- `SetLevel` with a map: a level is on iff the map switches it on, or the map does not mention it
and it was on before. -/
theorem C06_set_levels (lg : Logger) (m : List (Level × Bool)) (l : Level)
    (hnd : (m.map Prod.fst).Nodup) :
    writes (setLevels lg m) l = true ↔
      (l, true) ∈ m ∨ ((∀ b, (l, b) ∉ m) ∧ writes lg l = true) := by
  induction m generalizing lg with
  | nil => simp [setLevels]
  | cons e m ih =>
    obtain ⟨k, b⟩ := e
    simp only [List.map_cons, List.nodup_cons] at hnd
    have h := ih (setLevel lg k b) hnd.2
    have e1 : setLevels lg ((k, b) :: m) = setLevels (setLevel lg k b) m := rfl
    rw [e1, h, (C06_set_level lg k l b).1]
    have hk : ∀ c, (k, c) ∉ m := fun c hc => hnd.1 (List.mem_map.2 ⟨_, hc, rfl⟩)
    by_cases hl : l = k
    · subst hl
      simp only [hk, List.mem_cons, if_true]
      cases b <;> simp
    · simp [hl]

example : (([(.debug, true), (.default, false)] : List (Level × Bool)).map Prod.fst).Nodup ∧
    writes (setLevels Logger.init [(.debug, true), (.default, false)]) .debug = true := by decide

theorem startsWith_sep (p q v : Str) (c : Char) (hp : c ∉ p) (hq : c ∉ q) :
    stringStartsWith (p ++ [c] ++ v) (q ++ [c]) = decide (q = p) := by
  have key : (q ++ [c]).isPrefixOf (p ++ [c] ++ v) = decide (q = p) := by
    induction q generalizing p with
    | nil =>
      cases p with
      | nil => simp
      | cons a p =>
        have : c ≠ a := fun h => hp (by simp [h])
        simp [List.isPrefixOf, this]
    | cons b q ih =>
      have hb : b ≠ c := fun h => hq (by simp [h])
      cases p with
      | nil => simp [List.isPrefixOf, hb]
      | cons a p =>
        have := ih p (fun h => hp (by simp [h])) (fun h => hq (by simp [h]))
        simp only [List.cons_append, List.isPrefixOf, this]
        by_cases hab : b = a <;> simp [hab]
  unfold stringStartsWith
  rw [key]
  by_cases h : q = p
  · subst h; simp
  · simp [h]

/-- The overload taking raw arguments, for a list of switches `--logginglevel::X=v` (not
`complete`): the switches are applied in the order given. -/
theorem C06_raw_arguments (lg : Logger) (sw : List (Level × Str))
    (hsw : ∀ s ∈ sw, s.1 ≠ .none ∧ s.1 ≠ .complete) :
    setLoggerArgs (sw.map fun s => "--".toList ++ optionName s.1 ++ "=".toList ++ s.2) lg =
      ok (sw.foldl (fun lg s => setLevel lg s.1 (s.2 == "true".toList)) lg) := by
  have hdis : '=' ∉ "--logginglevel::disabled".toList := by decide
  have heq : "=".toList = ['='] := by decide
  have hall : ∀ l, '=' ∉ "--".toList ++ optionName l := by intro l; cases l <;> decide
  have hpre : ∀ e ∈ prefixes, '=' ∉ "--".toList ++ e.1 := by decide
  have hname : ∀ e ∈ prefixes, ∀ l, e.1 = optionName l → e.2 = l := by
    intro e he l; revert e; cases l <;> decide
  have hmem : ∀ l, l ≠ .none → (optionName l, l) ∈ prefixes := by
    intro l; cases l <;> decide
  have hne : "--logginglevel::disabled".toList ∉
      (sw.map fun s => "--".toList ++ optionName s.1 ++ "=".toList ++ s.2) := by
    intro hm
    obtain ⟨s, _, he⟩ := List.mem_map.1 hm
    apply hdis
    rw [← he, heq]
    simp
  unfold setLoggerArgs
  rw [if_neg hne]
  clear hne
  induction sw generalizing lg with
  | nil => rfl
  | cons s sw ih =>
    obtain ⟨l, v⟩ := s
    obtain ⟨h1, h2⟩ := hsw (l, v) (by simp)
    dsimp only at h1 h2
    have hstart : ∀ e ∈ prefixes, stringStartsWith
        ("--".toList ++ optionName l ++ "=".toList ++ v) ("--".toList ++ e.1 ++ "=".toList) =
        decide (e.1 = optionName l) := by
      intro e he
      rw [heq, startsWith_sep _ _ _ _ (hall l) (hpre e he)]
      rw [decide_eq_decide]
      exact List.append_right_inj _
    have hfind : prefixes.find? (fun e => stringStartsWith
        ("--".toList ++ optionName l ++ "=".toList ++ v) ("--".toList ++ e.1 ++ "=".toList)) =
        some (optionName l, l) := by
      cases hf : prefixes.find? (fun e => stringStartsWith
        ("--".toList ++ optionName l ++ "=".toList ++ v) ("--".toList ++ e.1 ++ "=".toList)) with
      | none =>
        rw [List.find?_eq_none] at hf
        have := hf _ (hmem l h1)
        rw [hstart _ (hmem l h1)] at this
        exact absurd (decide_eq_true rfl) this
      | some e =>
        have he := List.mem_of_find?_eq_some hf
        have hs := List.find?_some hf
        rw [hstart e he] at hs
        have e1 : e.1 = optionName l := of_decide_eq_true hs
        have e2 := hname e he l e1
        rw [← e1, ← e2]
    rw [List.map_cons, List.foldlM_cons]
    dsimp only
    rw [hfind]
    dsimp only
    rw [List.drop_left, if_neg (fun h => h2 h.1)]
    exact ih _ (fun s hs => hsw s (by simp [hs]))

example : setLoggerArgs ["--logginglevel::debug=true".toList, "--logginglevel::default=no".toList]
    Logger.init = ok (setLevel (setLevel Logger.init .debug true) .default false) :=
  C06_raw_arguments Logger.init [(.debug, "true".toList), (.default, "no".toList)] (by decide)

/-- The overload taking raw arguments: `--logginglevel::complete=true` switches every level on but the output of
the minimisers, whatever was set before. -/
theorem C06_raw_complete (lg : Logger) (l : Level) (hl : l ≠ .none) :
    ∃ lg', setLoggerArgs ["--logginglevel::complete=true".toList] lg = ok lg' ∧
      writes lg' l = decide (l ≠ .minimizerDetailed) := by
  refine ⟨_, rfl, ?_⟩
  cases l <;> first | exact absurd rfl hl | rfl

/-- The overload taking raw arguments: any argument that is not a logging option dereferences the
end iterator of the prefix map (unless the logger is disabled). -/
theorem C06_raw_arguments_undefined (args₁ args₂ : List Str) (lg : Logger) (el : Str)
    (hd : "--logginglevel::disabled".toList ∉ args₁ ++ el :: args₂)
    (hpre : ∀ a ∈ args₁, ∃ e ∈ prefixes, stringStartsWith a ("--".toList ++ e.1 ++ "=".toList))
    (hel : ∀ e ∈ prefixes, stringStartsWith el ("--".toList ++ e.1 ++ "=".toList) = false) :
    setLoggerArgs (args₁ ++ el :: args₂) lg = ub .endDeref := by
  unfold setLoggerArgs
  rw [if_neg hd]
  clear hd
  induction args₁ generalizing lg with
  | nil =>
    rw [List.nil_append, List.foldlM_cons]
    have : prefixes.find? (fun e => stringStartsWith el ("--".toList ++ e.1 ++ "=".toList)) = none := by
      rw [List.find?_eq_none]
      intro e he; rw [hel e he]; decide
    rw [this]
    rfl
  | cons a as ih =>
    rw [List.cons_append, List.foldlM_cons]
    obtain ⟨e, he, hs⟩ := hpre a (by simp)
    have hsome : (prefixes.find? (fun e => stringStartsWith a ("--".toList ++ e.1 ++ "=".toList))).isSome := by
      rw [List.find?_isSome]; exact ⟨e, he, hs⟩
    obtain ⟨e', he'⟩ := Option.isSome_iff_exists.1 hsome
    rw [he']
    dsimp only
    split
    · exact ih _ (fun a ha => hpre a (by simp [ha]))
    · exact ih _ (fun a ha => hpre a (by simp [ha]))

example : (∀ e ∈ prefixes, stringStartsWith "--model=sm".toList
      ("--".toList ++ e.1 ++ "=".toList) = false) ∧
    setLoggerArgs ["--logginglevel::debug=true".toList, "--model=sm".toList] Logger.init
      = ub .endDeref := by
  refine ⟨by decide, ?_⟩
  exact C06_raw_arguments_undefined ["--logginglevel::debug=true".toList] [] Logger.init
    "--model=sm".toList (by decide) (by decide) (by decide)

example : optionValue loggerDemo "logginglevel::disabled".toList = none := by decide

end Verif.Parser
