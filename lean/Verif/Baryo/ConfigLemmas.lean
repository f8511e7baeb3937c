import Verif.Baryo.ConfigSpec

namespace Verif.Baryo

open Outcome Verif.Utility Spec

theorem blank_iff (c : Char) : blank c = true ↔ Space c := by
  simp [blank, Space, or_assoc]

theorem wordsFrom_append {a : Str} (h : ∀ c ∈ a, ¬ Space c) (l cur : Str) :
    wordsFrom (a ++ l) cur = wordsFrom l (a.reverse ++ cur) := by
  induction a generalizing cur with
  | nil => rfl
  | cons c a ih =>
    have hc : ¬ blank c = true := by rw [blank_iff]; exact h c (by simp)
    rw [List.cons_append, wordsFrom, if_neg hc, ih fun x hx => h x (by simp [hx])]
    simp

theorem wordsFrom_gap {g : Str} (h : ∀ c ∈ g, Space c) (l : Str) :
    wordsFrom (g ++ l) [] = wordsFrom l [] := by
  induction g with
  | nil => rfl
  | cons c g ih =>
    have hc : blank c = true := by rw [blank_iff]; exact h c (by simp)
    rw [List.cons_append, wordsFrom, if_pos hc, if_pos rfl, ih fun x hx => h x (by simp [hx])]

theorem wordsFrom_end {cur r : Str} (hcur : cur ≠ []) (h : r = [] ∨ ∃ c s, r = c :: s ∧ Space c) :
    wordsFrom r cur = cur.reverse :: wordsFrom r [] := by
  rcases h with rfl | ⟨c, s, rfl, hc⟩
  · simp [wordsFrom, hcur]
  · have hb : blank c = true := (blank_iff c).2 hc
    simp [wordsFrom, hb, hcur]

/-- The first word. -/
theorem words_cons {a r : Str} (ha : a ≠ []) (h : ∀ c ∈ a, ¬ Space c)
    (hr : r = [] ∨ ∃ c s, r = c :: s ∧ Space c) : words (a ++ r) = a :: words r := by
  rw [words, wordsFrom_append h, List.append_nil, wordsFrom_end (by simpa using ha) hr,
    List.reverse_reverse]
  rfl

theorem words_gap {g : Str} (h : ∀ c ∈ g, Space c) (l : Str) : words (g ++ l) = words l :=
  wordsFrom_gap h l

/-- Every text starts with a stretch without separators. -/
theorem split_word (l : Str) : ∃ a r, l = a ++ r ∧ (∀ c ∈ a, ¬ Space c) ∧
    (r = [] ∨ ∃ c s, r = c :: s ∧ Space c) := by
  induction l with
  | nil => exact ⟨[], [], rfl, by simp, Or.inl rfl⟩
  | cons c l ih =>
    by_cases hc : Space c
    · exact ⟨[], c :: l, rfl, by simp, Or.inr ⟨c, l, rfl, hc⟩⟩
    · obtain ⟨a, r, rfl, ha, hr⟩ := ih
      exact ⟨c :: a, r, rfl, by
        intro x hx
        rcases List.mem_cons.1 hx with rfl | hx
        · exact hc
        · exact ha x hx, hr⟩

/-- Every text starts with a stretch of separators. -/
theorem split_gap (l : Str) : ∃ g r, l = g ++ r ∧ (∀ c ∈ g, Space c) ∧
    (r = [] ∨ ∃ c s, r = c :: s ∧ ¬ Space c) := by
  induction l with
  | nil => exact ⟨[], [], rfl, by simp, Or.inl rfl⟩
  | cons c l ih =>
    by_cases hc : Space c
    · obtain ⟨g, r, rfl, hg, hr⟩ := ih
      exact ⟨c :: g, r, rfl, by
        intro x hx
        rcases List.mem_cons.1 hx with rfl | hx
        · exact hc
        · exact hg x hx, hr⟩
    · exact ⟨[], c :: l, rfl, by simp, Or.inr ⟨c, l, rfl, hc⟩⟩

theorem startsWith_iff (s pre : Str) : stringStartsWith s pre = true ↔ pre <+: s := by
  unfold stringStartsWith
  rw [Bool.and_eq_true, decide_eq_true_eq, List.isPrefixOf_iff_prefix]
  exact ⟨fun h => h.2, fun h => ⟨h.length_le, h⟩⟩

/-- The second word of a line that begins with a keyword. -/
theorem second_word {key line : Str} (hk : key ≠ []) (hs : ∀ c ∈ key, ¬ Space c) {v : Str} (hv : v ≠ [])
    (hvs : ∀ c ∈ v, ¬ Space c) :
    (key <+: line ∧ 2 ≤ (words line).length ∧ (words line).getD 1 [] = v) ↔
      ∃ tail gap rest, line = key ++ tail ++ gap ++ v ++ rest ∧ (∀ c ∈ tail, ¬ Space c) ∧ gap ≠ [] ∧
        (∀ c ∈ gap, Space c) ∧ (rest = [] ∨ ∃ c r, rest = c :: r ∧ Space c) := by
  constructor
  · rintro ⟨⟨t, rfl⟩, hl, hw⟩
    obtain ⟨tail, r, rfl, ht, hr⟩ := split_word t
    obtain ⟨gap, r', rfl, hg, hr'⟩ := split_gap r
    obtain ⟨v', rest, rfl, hv', hrest⟩ := split_word r'
    have h1 : words (key ++ (tail ++ (gap ++ (v' ++ rest)))) =
        (key ++ tail) :: words (v' ++ rest) := by
      rw [← List.append_assoc, words_cons (by simp [hk]) (by
        intro c hc
        rcases List.mem_append.1 hc with h | h
        · exact hs c h
        · exact ht c h) hr, words_gap hg]
    rw [h1] at hl hw
    have hne : v' ≠ [] := by
      rintro rfl
      rcases hr' with h | ⟨c, s, h, hc⟩
      · rw [h] at hl; simp [words, wordsFrom] at hl
      · rw [List.nil_append] at h
        rcases hrest with h' | ⟨c', s', h', hc'⟩
        · rw [h] at h'; cases h'
        · rw [h] at h'; cases h'; exact hc hc'
    rw [words_cons hne hv' hrest] at hw
    have hw : v' = v := by simpa using hw
    subst hw
    refine ⟨tail, gap, rest, by simp [List.append_assoc], ht, ?_, hg, hrest⟩
    rintro rfl
    rcases hr with h | ⟨c, s, h, hc⟩
    · simp [hne] at h
    · rw [List.nil_append] at h
      cases v' with
      | nil => exact hne rfl
      | cons x v' => cases h; exact hv' _ (by simp) hc
  · rintro ⟨tail, gap, rest, rfl, ht, hgne, hg, hrest⟩
    have hgap : gap ++ (v ++ rest) = [] ∨ ∃ c s, gap ++ (v ++ rest) = c :: s ∧ Space c := by
      cases gap with
      | nil => exact absurd rfl hgne
      | cons c g => exact Or.inr ⟨c, g ++ (v ++ rest), rfl, hg c (by simp)⟩
    have h1 : words (key ++ tail ++ gap ++ v ++ rest) = (key ++ tail) :: v :: words rest := by
      rw [List.append_assoc, List.append_assoc, words_cons (by simp [hk]) (by
        intro c hc
        rcases List.mem_append.1 hc with h | h
        · exact hs c h
        · exact ht c h) hgap, words_gap hg, words_cons hv hvs hrest]
    refine ⟨⟨tail ++ gap ++ v ++ rest, by simp [List.append_assoc]⟩, ?_, ?_⟩
    · rw [h1]; simp
    · rw [h1]; rfl

theorem word_ne (b : Bool) : word b ≠ [] := by cases b <;> simp [word]

theorem word_space (b : Bool) : ∀ c ∈ word b, ¬ Space c := by
  cases b <;> simp [word, Space]

theorem includeKey_space : ∀ c ∈ includeKey, ¬ Space c := by
  simp [includeKey, Space]

theorem massiveKey_space : ∀ c ∈ massiveKey, ¬ Space c := by
  simp [massiveKey, Space]

theorem sets_include (raw : Str) (b : Bool) : Sets includeKey raw b ↔
    (includeKey <+: raw.map Char.toLower ∧ 2 ≤ (words (raw.map Char.toLower)).length ∧
      (words (raw.map Char.toLower)).getD 1 [] = word b) :=
  (second_word (by simp [includeKey]) includeKey_space (word_ne b) (word_space b)).symm

theorem sets_massive (raw : Str) (b : Bool) : Sets massiveKey raw b ↔
    (massiveKey <+: raw.map Char.toLower ∧ 2 ≤ (words (raw.map Char.toLower)).length ∧
      (words (raw.map Char.toLower)).getD 1 [] = word b) :=
  (second_word (by simp [massiveKey]) massiveKey_space (word_ne b) (word_space b)).symm

/-- The effect of a line of the file. -/
def Line.apply : Line → Config → Config
  | .text, c => c
  | .method b, c => { c with methods := c.methods ++ [b] }
  | .massive true, c => { c with botMass := 1 }
  | .massive false, c => c

theorem not_both {l : Str} : includeKey <+: l → ¬ massiveKey <+: l := by
  rintro ⟨t, rfl⟩ ⟨s, h⟩
  simp [includeKey, massiveKey] at h

theorem toLower_hash (r : Str) : ¬ includeKey <+: (('#' :: r).map Char.toLower) ∧
    ¬ massiveKey <+: (('#' :: r).map Char.toLower) := by
  constructor
  · rintro ⟨t, h⟩
    simp only [includeKey, List.map_cons, List.cons_append, List.cons.injEq] at h
    exact absurd h.1 (by decide)
  · rintro ⟨t, h⟩
    simp only [massiveKey, List.map_cons, List.cons_append, List.cons.injEq] at h
    exact absurd h.1 (by decide)

/-- What the loop body does. -/
theorem configLine_eq (raw : Str) (c c' : Config) :
    configLine raw c = ok c' ↔ ∃ l, Means raw l ∧ c' = Line.apply l c := by
  have hI : ("include".toList : Str) = includeKey := rfl
  have hM : ("massive".toList : Str) = massiveKey := rfl
  have hY : ("yes".toList : Str) = word true := rfl
  have hN : ("no".toList : Str) = word false := rfl
  unfold configLine
  by_cases hcom : stringStartsWith raw "#".toList = true ∨ raw = []
  · rw [if_pos hcom]
    have hno : ¬ includeKey <+: raw.map Char.toLower ∧ ¬ massiveKey <+: raw.map Char.toLower := by
      rcases hcom with h | rfl
      · rw [startsWith_iff] at h
        obtain ⟨r, rfl⟩ := h
        exact toLower_hash r
      · constructor <;> (rintro ⟨t, h⟩; simp [includeKey, massiveKey] at h)
    constructor
    · intro h
      injection h with h
      exact ⟨.text, .description hno.1 hno.2, h.symm⟩
    · rintro ⟨l, hl, rfl⟩
      cases hl with
      | comment r h => rfl
      | description h₁ h₂ => rfl
      | method b h => exact absurd ((sets_include raw b).1 h).1 hno.1
      | massive b h => exact absurd ((sets_massive raw b).1 h).1 hno.2
  · rw [if_neg hcom]
    have hhash : ∀ r, raw ≠ '#' :: r := by
      rintro r rfl
      exact hcom (Or.inl (by rw [startsWith_iff]; exact ⟨r, rfl⟩))
    simp only [includeLine, hI, hY, hN, startsWith_iff]
    by_cases hi : includeKey <+: raw.map Char.toLower
    · have hm := not_both hi
      rw [if_pos hi]
      by_cases hl : (words (raw.map Char.toLower)).length < 2
      · rw [if_pos hl]
        constructor
        · intro h; cases h
        · rintro ⟨l, hl', rfl⟩
          cases hl' with
          | comment r h => exact absurd h (hhash r)
          | description h₁ h₂ => exact absurd hi h₁
          | method b h => exact absurd ((sets_include raw b).1 h).2.1 (by omega)
          | massive b h => exact absurd ((sets_massive raw b).1 h).1 hm
      · rw [if_neg hl]
        by_cases hw : (words (raw.map Char.toLower)).getD 1 [] ≠ word true ∧
            (words (raw.map Char.toLower)).getD 1 [] ≠ word false
        · rw [if_pos hw]
          constructor
          · intro h; cases h
          · rintro ⟨l, hl', rfl⟩
            cases hl' with
            | comment r h => exact absurd h (hhash r)
            | description h₁ h₂ => exact absurd hi h₁
            | method b h =>
              have := ((sets_include raw b).1 h).2.2
              cases b
              · exact absurd this hw.2
              · exact absurd this hw.1
            | massive b h => exact absurd ((sets_massive raw b).1 h).1 hm
        · rw [if_neg hw]
          obtain ⟨b, hb⟩ : ∃ b, (words (raw.map Char.toLower)).getD 1 [] = word b := by
            refine Classical.byContradiction fun hno => ?_
            exact hw ⟨fun h => hno ⟨true, h⟩, fun h => hno ⟨false, h⟩⟩
          have hs : Sets includeKey raw b := (sets_include raw b).2 ⟨hi, by omega, hb⟩
          simp only [Outcome.bind, massiveLine, hM, startsWith_iff, if_neg hm, hb]
          have hdec : decide (word b = word true) = b := by cases b <;> decide
          rw [hdec]
          constructor
          · intro h
            injection h with h
            exact ⟨.method b, .method b hs, h.symm⟩
          · rintro ⟨l, hl', rfl⟩
            cases hl' with
            | comment r h => exact absurd h (hhash r)
            | description h₁ h₂ => exact absurd hi h₁
            | method b' h =>
              have : word b = word b' := hb.symm.trans ((sets_include raw b').1 h).2.2
              have : b = b' := by cases b <;> cases b' <;> first | rfl | exact absurd this (by decide)
              subst this
              rfl
            | massive b h => exact absurd ((sets_massive raw b).1 h).1 hm
    · rw [if_neg hi]
      simp only [Outcome.bind, massiveLine, hM, hY, hN, startsWith_iff]
      by_cases hm : massiveKey <+: raw.map Char.toLower
      · rw [if_pos hm]
        by_cases hl : (words (raw.map Char.toLower)).length < 2
        · rw [if_pos hl]
          constructor
          · intro h; cases h
          · rintro ⟨l, hl', rfl⟩
            cases hl' with
            | comment r h => exact absurd h (hhash r)
            | description h₁ h₂ => exact absurd hm h₂
            | method b h => exact absurd ((sets_include raw b).1 h).1 hi
            | massive b h => exact absurd ((sets_massive raw b).1 h).2.1 (by omega)
        · rw [if_neg hl]
          by_cases hw : (words (raw.map Char.toLower)).getD 1 [] ≠ word true ∧
              (words (raw.map Char.toLower)).getD 1 [] ≠ word false
          · rw [if_pos hw]
            constructor
            · intro h; cases h
            · rintro ⟨l, hl', rfl⟩
              cases hl' with
              | comment r h => exact absurd h (hhash r)
              | description h₁ h₂ => exact absurd hm h₂
              | method b h => exact absurd ((sets_include raw b).1 h).1 hi
              | massive b h =>
                have := ((sets_massive raw b).1 h).2.2
                cases b
                · exact absurd this hw.2
                · exact absurd this hw.1
          · rw [if_neg hw]
            obtain ⟨b, hb⟩ : ∃ b, (words (raw.map Char.toLower)).getD 1 [] = word b := by
              refine Classical.byContradiction fun hno => ?_
              exact hw ⟨fun h => hno ⟨true, h⟩, fun h => hno ⟨false, h⟩⟩
            have hs : Sets massiveKey raw b := (sets_massive raw b).2 ⟨hm, by omega, hb⟩
            rw [hb]
            have hval : (if word b = word true then ok { c with botMass := 1 } else ok c) =
                ok (Line.apply (.massive b) c) := by
              cases b
              · rw [if_neg (by decide)]; rfl
              · rw [if_pos rfl]; rfl
            rw [hval]
            constructor
            · intro h
              injection h with h
              exact ⟨.massive b, .massive b hs, h.symm⟩
            · rintro ⟨l, hl', rfl⟩
              cases hl' with
              | comment r h => exact absurd h (hhash r)
              | description h₁ h₂ => exact absurd hm h₂
              | method b h => exact absurd ((sets_include raw b).1 h).1 hi
              | massive b' h =>
                have : word b = word b' := hb.symm.trans ((sets_massive raw b').1 h).2.2
                have : b = b' := by
                  cases b <;> cases b' <;> first | rfl | exact absurd this (by decide)
                subst this
                rfl
      · rw [if_neg hm]
        constructor
        · intro h
          injection h with h
          exact ⟨.text, .description hi hm, h.symm⟩
        · rintro ⟨l, hl', rfl⟩
          cases hl' with
          | comment r h => exact absurd h (hhash r)
          | description h₁ h₂ => rfl
          | method b h => exact absurd ((sets_include raw b).1 h).1 hi
          | massive b h => exact absurd ((sets_massive raw b).1 h).1 hm

/-- A line is accepted or refused with an exception. -/
theorem massiveLine_err (line : Str) (c : Config) :
    (∃ c', massiveLine line c = ok c') ∨ massiveLine line c = err .runtime := by
  simp only [massiveLine]
  split
  · split
    · exact Or.inr rfl
    · split
      · exact Or.inr rfl
      · split <;> exact Or.inl ⟨_, rfl⟩
  · exact Or.inl ⟨_, rfl⟩

theorem configLine_err (raw : Str) (c : Config) :
    (∃ c', configLine raw c = ok c') ∨ configLine raw c = err .runtime := by
  unfold configLine
  split
  · exact Or.inl ⟨_, rfl⟩
  · simp only [includeLine]
    split
    · split
      · exact Or.inr rfl
      · split
        · exact Or.inr rfl
        · exact massiveLine_err _ _
    · exact massiveLine_err _ _

/-- The whole loop. -/
theorem configLines_eq (ls : List Str) (c c' : Config) :
    configLines ls c = ok c' ↔ ∃ l, List.Forall₂ Means ls l ∧
      c' = ⟨c.methods ++ switches l, if .massive true ∈ l then 1 else c.botMass⟩ := by
  induction ls generalizing c with
  | nil =>
    constructor
    · intro h
      injection h with h
      exact ⟨[], .nil, by simp [switches, ← h]⟩
    · rintro ⟨l, hl, rfl⟩
      cases hl
      simp [configLines, switches]
  | cons r ls ih =>
    have key : ∀ x l, (⟨(Line.apply x c).methods ++ switches l,
        if .massive true ∈ l then 1 else (Line.apply x c).botMass⟩ : Config) =
        ⟨c.methods ++ switches (x :: l), if .massive true ∈ x :: l then 1 else c.botMass⟩ := by
      intro x l
      cases x with
      | text => simp [Line.apply, switches]
      | method b => simp [Line.apply, switches]
      | massive b => cases b <;> simp [Line.apply, switches]
    rw [configLines]
    constructor
    · intro h
      rcases configLine_err r c with ⟨c₁, h₁⟩ | h₁
      · rw [h₁] at h
        obtain ⟨x, hx, rfl⟩ := (configLine_eq r c c₁).1 h₁
        obtain ⟨l, hl, rfl⟩ := (ih _).1 h
        exact ⟨x :: l, .cons hx hl, key x l⟩
      · rw [h₁] at h; cases h
    · rintro ⟨l, hl, rfl⟩
      cases hl with
      | cons hx hl =>
        rename_i x l
        rw [(configLine_eq r c _).2 ⟨x, hx, rfl⟩]
        exact (ih _).2 ⟨l, hl, (key x l).symm⟩

theorem configLines_err (ls : List Str) (c : Config) :
    (∃ c', configLines ls c = ok c') ∨ configLines ls c = err .runtime := by
  induction ls generalizing c with
  | nil => exact Or.inl ⟨_, rfl⟩
  | cons r ls ih =>
    rw [configLines]
    rcases configLine_err r c with ⟨c₁, h₁⟩ | h₁
    · rw [h₁]; exact ih c₁
    · rw [h₁]; exact Or.inr rfl

end Verif.Baryo
