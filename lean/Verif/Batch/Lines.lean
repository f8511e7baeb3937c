import Verif.Batch.Model
import Verif.Batch.Spec

/-!
# C99: the requested lines of an input file are processed once and in order
-/

namespace Verif.Batch

open Spec

theorem takeWhile_line (l rest : List Char) (h : '\n' ∉ l) :
    (l ++ '\n' :: rest).takeWhile (· != '\n') = l ∧ (l ++ '\n' :: rest).dropWhile (· != '\n') = '\n' :: rest := by
  induction l with
  | nil => simp
  | cons c l ih =>
    have hc : c ≠ '\n' := fun e => h (by simp [e])
    have := ih (fun hm => h (List.mem_cons_of_mem _ hm))
    simp [hc, this.1, this.2]

/-- Reading a line that ends with a newline. -/
theorem getLine_line (l rest old : List Char) (h : '\n' ∉ l) :
    getLine (openFile (l ++ '\n' :: rest)) old = (openFile rest, l) := by
  have := takeWhile_line l rest h
  simp [getLine, openFile, this.1, this.2]

/-- Reading a line at the end of the file. -/
theorem getLine_end (l old : List Char) (h : '\n' ∉ l) :
    getLine (openFile l) old = (⟨[], true, l.isEmpty⟩, l) := by
  simp [getLine, openFile, h]

/-- A file with lines begins with its first line, and the rest is a file with the other lines. -/
theorem text_cases {l : List Char} {ls : List (List Char)} {file : List Char} (h : IsText (l :: ls) file) :
    '\n' ∉ l ∧ ((∃ rest, file = l ++ '\n' :: rest ∧ IsText ls rest ∧ (Terminated (l :: ls) file → Terminated ls rest) ∧
      (Unterminated (l :: ls) file → Unterminated ls rest)) ∨
      (ls = [] ∧ file = l ∧ l ≠ [] ∧ Unterminated (l :: ls) file)) := by
  have hunt : ∀ (rest : List Char), file = l ++ '\n' :: rest → Unterminated (l :: ls) file → Unterminated ls rest := by
    rintro rest hf ⟨hn, init, last, he, hl, hfile⟩
    refine ⟨fun x hx => hn x (List.mem_cons_of_mem _ hx), ?_⟩
    cases init with
    | nil =>
      simp only [List.nil_append, List.cons.injEq] at he
      simp only [List.map_nil, List.flatten_nil, List.nil_append] at hfile
      exfalso
      have h1 := hn l (List.mem_cons_self ..)
      rw [he.1] at h1
      exact h1 (by rw [← hfile, hf]; simp)
    | cons a init =>
      simp only [List.cons_append, List.cons.injEq] at he
      refine ⟨init, last, he.2, hl, ?_⟩
      rw [hf, he.1] at hfile
      simpa using hfile
  have hter : ∀ (rest : List Char), file = l ++ '\n' :: rest → Terminated (l :: ls) file → Terminated ls rest := by
    rintro rest hf ⟨hn, hfile⟩
    refine ⟨fun x hx => hn x (List.mem_cons_of_mem _ hx), ?_⟩
    rw [hf] at hfile
    simpa using hfile
  rcases h with h | h
  · refine ⟨h.1 l (List.mem_cons_self ..), Or.inl ?_⟩
    have hf : file = l ++ '\n' :: (ls.map (· ++ ['\n'])).flatten := by rw [h.2]; simp
    exact ⟨_, hf, Or.inl (hter _ hf h), hter _ hf, hunt _ hf⟩
  · refine ⟨h.1 l (List.mem_cons_self ..), ?_⟩
    obtain ⟨hn, init, last, he, hl, hfile⟩ := h
    cases init with
    | nil =>
      simp only [List.nil_append, List.cons.injEq] at he
      refine Or.inr ⟨he.2, by rw [hfile, he.1]; simp, by rw [he.1]; exact hl, hn, [], last, by simp [he.1, he.2], hl, hfile⟩
    | cons a init =>
      simp only [List.cons_append, List.cons.injEq] at he
      have hf : file = l ++ '\n' :: ((init.map (· ++ ['\n'])).flatten ++ last) := by rw [hfile, he.1]; simp
      have hu : Unterminated (l :: ls) file := ⟨hn, a :: init, last, by simp [he.1, he.2], hl, hfile⟩
      exact Or.inl ⟨_, hf, Or.inr (hunt _ hf hu), hter _ hf, hunt _ hf⟩

theorem text_nil {file : List Char} (h : IsText [] file) : file = [] := by
  rcases h with h | ⟨_, init, last, he, _⟩
  · simpa using h.2
  · simp at he

theorem numbered_cons (a b : Nat) (ha : 2 ≤ a) (hb : 1 ≤ b) (l : List Char) (ls : List (List Char)) :
    numbered a b (l :: ls) = (ls.take (b + 1 - 2)).drop (a - 2) := by
  obtain ⟨a, rfl⟩ : ∃ m, a = m + 2 := ⟨a - 2, by omega⟩
  obtain ⟨b, rfl⟩ : ∃ m, b = m + 1 := ⟨b - 1, by omega⟩
  rfl

/-- The loop after the lines before line `n`: with a body that takes every line from `first` to `last` as a point. -/
theorem while_lines (body : Nat → List Char → List Step) (first last : Nat)
    (hbody : ∀ n l, 2 ≤ n → n ≤ last → body n l = if first ≤ n then [.point l] else [])
    (ls : List (List Char)) :
    ∀ (file : List Char) (n fuel : Nat) (old : List Char), 2 ≤ n → IsText ls file → ls.length < fuel →
      whileLoop body last fuel n (openFile file) old =
        some (((ls.take (last + 1 - n)).drop (first - n)).map .point) := by
  induction ls with
  | nil =>
    intro file n fuel old hn ht hf
    obtain ⟨fuel, rfl⟩ : ∃ m, fuel = m + 1 := ⟨fuel - 1, by simp at hf; omega⟩
    rw [text_nil ht, whileLoop, getLine_end [] old (by simp)]
    simp
  | cons l ls ih =>
    intro file n fuel old hn ht hf
    obtain ⟨fuel, rfl⟩ : ∃ m, fuel = m + 1 := ⟨fuel - 1, by simp at hf; omega⟩
    simp only [List.length_cons, Nat.add_lt_add_iff_right] at hf
    obtain ⟨hl, hc⟩ := text_cases ht
    rw [whileLoop]
    by_cases hlast : last < n
    · have : last + 1 - n = 0 := by omega
      have hL : (last : Int) < n := by exact_mod_cast hlast
      simp only [hL, if_true, this, List.take_zero, List.drop_nil, List.map_nil, ite_self]
    · have hL : ¬ (last : Int) < n := by exact_mod_cast hlast
      have htake : (l :: ls).take (last + 1 - n) = l :: ls.take (last + 1 - (n + 1)) := by
        have : last + 1 - n = (last + 1 - (n + 1)) + 1 := by omega
        rw [this, List.take_succ_cons]
      have hb := hbody n l hn (by omega)
      rcases hc with ⟨rest, hfile, hrest, _⟩ | ⟨he, hfile, hne, _⟩
      · rw [hfile, getLine_line l rest old hl]
        simp only [openFile, Bool.false_eq_true, if_false, hL]
        have := ih rest (n + 1) fuel l (by omega) hrest hf
        simp only [openFile] at this
        rw [this, Option.map_some, hb, htake]
        by_cases h1 : first ≤ n
        · have e1 : first - n = 0 := by omega
          have e2 : first - (n + 1) = 0 := by omega
          simp [h1, e1, e2]
        · have e1 : first - n = (first - (n + 1)) + 1 := by omega
          rw [if_neg h1, e1, List.drop_succ_cons]; simp
      · rw [hfile, getLine_end l old hl, he]
        simp only [hL, if_false, if_true]
        have : l.isEmpty = false := by cases l <;> simp_all
        simp only [this, Bool.false_eq_true, if_false]
        rw [hb]
        rw [he] at htake
        rw [htake]
        by_cases h1 : first ≤ n
        · have e1 : first - n = 0 := by omega
          simp [h1, e1]
        · have e1 : first - n = (first - (n + 1)) + 1 := by omega
          rw [if_neg h1, e1, List.drop_succ_cons]; simp

/-- The loop from the first line, for a body that gives `start` for the first line. -/
theorem while_file (body : Nat → List Char → List Step) (first last : Nat) (hlast : 1 ≤ last)
    (hbody : ∀ n l, 2 ≤ n → n ≤ last → body n l = if first ≤ n then [.point l] else [])
    (l : List Char) (ls : List (List Char)) (file : List Char) (h : IsText (l :: ls) file) (fuel : Nat)
    (hf : ls.length + 1 < fuel) :
    whileLoop body last fuel 1 (openFile file) [] =
      some (body 1 l ++ (numbered (max first 2) last (l :: ls)).map .point) := by
  obtain ⟨fuel, rfl⟩ : ∃ m, fuel = m + 1 := ⟨fuel - 1, by omega⟩
  obtain ⟨hl, hc⟩ := text_cases h
  have hL : ¬ (last : Int) < ((1 : Nat) : Int) := by exact_mod_cast (by omega : ¬ last < 1)
  have hnum : numbered (max first 2) last (l :: ls) = (ls.take (last + 1 - 2)).drop (first - 2) := by
    rw [numbered_cons _ _ (by omega) (by omega)]
    congr 1; omega
  rw [whileLoop]
  rcases hc with ⟨rest, hfile, hrest, _⟩ | ⟨he, hfile, hne, _⟩
  · rw [hfile, getLine_line l rest [] hl]
    simp only [openFile, Bool.false_eq_true, if_false, hL]
    have := while_lines body first last hbody ls rest 2 fuel l (by omega) hrest (by omega)
    simp only [openFile] at this
    rw [this, Option.map_some, hnum]
  · rw [hfile, getLine_end l [] hl, he]
    have : l.isEmpty = false := by cases l <;> simp_all
    simp only [this, Bool.false_eq_true, if_false, hL, if_true]
    rw [he] at hnum
    rw [hnum]; simp

/-- CalcCT, BSMPT, TripleHiggsNLO and CalculateEWBG: the first line is the legend, and the requested lines after it are
processed once and in order, whether or not the file ends with a newline. -/
theorem C99_legend (first last : Nat) (h1 : 1 ≤ first) (h2 : first ≤ last) (l : List Char) (ls : List (List Char))
    (file : List Char) (h : IsText (l :: ls) file) (fuel : Nat) (hf : ls.length + 1 < fuel) :
    legendProgram first last fuel file =
      some (.legend l :: (numbered (max first 2) last (l :: ls)).map .point) := by
  unfold legendProgram
  rw [while_file _ first last (by omega) _ l ls file h fuel hf]
  · simp [legendBody]
  · intro n x hn hnl
    unfold legendBody
    rw [if_neg (by omega)]
    by_cases hfn : first ≤ n
    · rw [if_pos ⟨by exact_mod_cast hfn, by exact_mod_cast hnl, by omega⟩, if_pos hfn]; rfl
    · rw [if_neg (fun hh => hfn (by exact_mod_cast hh.1)), if_neg hfn]; rfl

/-- The program `Test`: the requested line is processed once if there is one. -/
theorem C99_test (line : Nat) (h1 : 1 ≤ line) (l : List Char) (ls : List (List Char))
    (file : List Char) (h : IsText (l :: ls) file) (fuel : Nat) (hf : ls.length + 1 < fuel) :
    testProgram line fuel file = some (.legend l :: (numbered (max line 2) line (l :: ls)).map .point) := by
  unfold testProgram
  rw [while_file _ line line h1 _ l ls file h fuel hf]
  · simp
  · intro n x hn hnl
    rw [if_neg (by omega)]
    by_cases hfn : line ≤ n
    · have : n = line := by omega
      rw [if_pos ⟨by exact_mod_cast this, by omega⟩, if_pos hfn]; rfl
    · rw [if_neg (fun hh => hfn (by have := hh.1; omega)), if_neg hfn]; rfl

/-- The tracing programs process the requested lines once and in order when the legend is not requested. -/
theorem C99_tracing_partial (first last : Nat) (h1 : 2 ≤ first) (h2 : first ≤ last) (l : List Char)
    (ls : List (List Char)) (file : List Char) (h : IsText (l :: ls) file) (fuel : Nat) (hf : ls.length + 1 < fuel) :
    tracingProgram first last fuel file = some (.legend l :: (numbered first last (l :: ls)).map .point) := by
  unfold tracingProgram
  rw [while_file _ first last (by omega) _ l ls file h fuel hf]
  · have e : ¬ ((first : Int) ≤ ((1 : Nat) : Int) ∧ (((1 : Nat) : Int)) ≤ (last : Int)) := by omega
    have e2 : max first 2 = first := by omega
    unfold tracingBody
    rw [if_neg e, e2]; simp
  · intro n x hn hnl
    unfold tracingBody
    rw [if_neg (by omega)]
    by_cases hfn : first ≤ n
    · rw [if_pos ⟨by exact_mod_cast hfn, by exact_mod_cast hnl⟩, if_pos hfn]; rfl
    · rw [if_neg (fun hh => hfn (by exact_mod_cast hh.1)), if_neg hfn]; rfl

/-- Started with the first line, the tracing programs take the legend as a parameter point, which the other programs do
not. -/
theorem C99_tracing_fails (last : Nat) (h2 : 1 ≤ last) (l : List Char)
    (ls : List (List Char)) (file : List Char) (h : IsText (l :: ls) file) (fuel : Nat) (hf : ls.length + 1 < fuel) :
    tracingProgram 1 last fuel file =
      some (.legend l :: .point l :: (numbered 2 last (l :: ls)).map .point) := by
  unfold tracingProgram
  rw [while_file _ 1 last h2 _ l ls file h fuel hf]
  · have e : ((1 : Int) ≤ ((1 : Nat) : Int) ∧ (((1 : Nat) : Int)) ≤ (last : Int)) := by omega
    unfold tracingBody
    rw [if_pos e]; simp
  · intro n x hn hnl
    unfold tracingBody
    rw [if_neg (by omega), if_pos (by omega)]
    rw [if_pos (by omega)]; rfl

/-- The loop of NLOVEV after the lines before line `n`. -/
theorem endless_lines (first last : Nat) (ls : List (List Char)) :
    ∀ (file : List Char) (n fuel : Nat) (old : List Char), 2 ≤ n → IsText ls file → ls.length < fuel →
      (Unterminated ls file → endlessLoop first last fuel n (openFile file) old =
        some (((ls.take (last + 1 - n)).drop (first - n)).map .point)) ∧
      (Terminated ls file → endlessLoop first last fuel n (openFile file) old =
        some (((ls.take (last + 1 - n)).drop (first - n)).map .point ++
          if n + ls.length ≤ last ∧ first ≤ n + ls.length then [.point []] else [])) := by
  have hbody : ∀ n l, 2 ≤ n → n ≤ last → legendBody first last n l = if first ≤ n then [.point l] else [] := by
    intro n x hn hnl
    unfold legendBody
    rw [if_neg (by omega)]
    by_cases hfn : first ≤ n
    · rw [if_pos ⟨by exact_mod_cast hfn, by exact_mod_cast hnl, by omega⟩, if_pos hfn]; rfl
    · rw [if_neg (fun hh => hfn (by exact_mod_cast hh.1)), if_neg hfn]; rfl
  induction ls with
  | nil =>
    intro file n fuel old hn ht hf
    obtain ⟨fuel, rfl⟩ : ∃ m, fuel = m + 1 := ⟨fuel - 1, by simp at hf; omega⟩
    constructor
    · rintro ⟨_, init, last, he, _⟩; simp at he
    · intro _
      rw [text_nil ht, endlessLoop, getLine_end [] old (by simp)]
      by_cases hlast : last < n
      · have hL : (last : Int) < n := by exact_mod_cast hlast
        simp only [hL, if_true]
        rw [if_neg (by simp; omega)]; simp
      · have hL : ¬ (last : Int) < n := by exact_mod_cast hlast
        simp only [hL, if_false, if_true]
        rw [hbody n [] hn (by omega)]
        by_cases hfn : first ≤ n
        · rw [if_pos hfn, if_pos (by simp; omega)]; simp
        · rw [if_neg hfn, if_neg (by simp; omega)]; simp
  | cons l ls ih =>
    intro file n fuel old hn ht hf
    obtain ⟨fuel, rfl⟩ : ∃ m, fuel = m + 1 := ⟨fuel - 1, by simp at hf; omega⟩
    simp only [List.length_cons, Nat.add_lt_add_iff_right] at hf
    obtain ⟨hl, hc⟩ := text_cases ht
    by_cases hlast : last < n
    · have hz : last + 1 - n = 0 := by omega
      have hL : (last : Int) < n := by exact_mod_cast hlast
      have hno : ¬ (n + (l :: ls).length ≤ last ∧ first ≤ n + (l :: ls).length) := by omega
      rw [endlessLoop]
      simp only [hL, if_true, hz, List.take_zero, List.drop_nil, List.map_nil, if_neg hno, List.append_nil]
      exact ⟨fun _ => trivial, fun _ => trivial⟩
    · have hL : ¬ (last : Int) < n := by exact_mod_cast hlast
      have htake : (l :: ls).take (last + 1 - n) = l :: ls.take (last + 1 - (n + 1)) := by
        have : last + 1 - n = (last + 1 - (n + 1)) + 1 := by omega
        rw [this, List.take_succ_cons]
      have hb := hbody n l hn (by omega)
      have hcomb : ∀ t : List (List Char), legendBody first last n l ++ ((t.drop (first - (n + 1))).map Step.point) =
          ((l :: t).drop (first - n)).map Step.point := by
        intro t
        rw [hb]
        by_cases h1 : first ≤ n
        · have e1 : first - n = 0 := by omega
          have e2 : first - (n + 1) = 0 := by omega
          simp [h1, e1, e2]
        · have e1 : first - n = (first - (n + 1)) + 1 := by omega
          rw [if_neg h1, e1, List.drop_succ_cons]; simp
      rw [endlessLoop]
      rcases hc with ⟨rest, hfile, hrest, hter, hunt⟩ | ⟨he, hfile, hne, hU⟩
      · have hg := getLine_line l rest old hl
        obtain ⟨ihu, iht⟩ := ih rest (n + 1) fuel l (by omega) hrest hf
        constructor
        · intro hu
          have hthis := ihu (hunt hu)
          rw [hfile, hg]
          simp only [openFile] at hthis ⊢
          simp only [Bool.false_eq_true, if_false, hL]
          rw [hthis, Option.map_some, htake, hcomb]
        · intro hT
          have hthis := iht (hter hT)
          rw [hfile, hg]
          simp only [openFile] at hthis ⊢
          simp only [Bool.false_eq_true, if_false, hL]
          have e3 : n + 1 + ls.length = n + (l :: ls).length := by simp; omega
          rw [hthis, Option.map_some, htake, ← List.append_assoc, hcomb, e3]
      · constructor
        · intro _
          rw [hfile, getLine_end l old hl]
          simp only [hL, if_false, if_true]
          rw [htake, he]
          have := hcomb []
          simpa using this
        · rintro ⟨_, hT⟩
          exfalso
          rw [he] at hT
          apply hl
          rw [← hfile, hT]; simp

theorem endless_file (first last : Nat) (h1 : 1 ≤ first) (h2 : first ≤ last) (l : List Char)
    (ls : List (List Char)) (file : List Char) (h : IsText (l :: ls) file) (fuel : Nat) (hf : ls.length + 1 < fuel) :
    (Unterminated (l :: ls) file → nlovevProgram first last fuel file =
      some (.legend l :: (numbered (max first 2) last (l :: ls)).map .point)) ∧
    (Terminated (l :: ls) file → nlovevProgram first last fuel file =
      some (.legend l :: (numbered (max first 2) last (l :: ls)).map .point ++
        if ls.length + 2 ≤ last ∧ first ≤ ls.length + 2 then [.point []] else [])) := by
  obtain ⟨fuel, rfl⟩ : ∃ m, fuel = m + 1 := ⟨fuel - 1, by omega⟩
  obtain ⟨hl, hc⟩ := text_cases h
  have hL : ¬ (last : Int) < ((1 : Nat) : Int) := by exact_mod_cast (by omega : ¬ last < 1)
  have hnum : numbered (max first 2) last (l :: ls) = (ls.take (last + 1 - 2)).drop (first - 2) := by
    rw [numbered_cons _ _ (by omega) (by omega)]
    congr 1; omega
  have hb : legendBody first last 1 l = [.legend l] := by simp [legendBody]
  have e4 : 2 + ls.length = ls.length + 2 := by omega
  unfold nlovevProgram
  rw [endlessLoop]
  rcases hc with ⟨rest, hfile, hrest, hter, hunt⟩ | ⟨he, hfile, hne, _⟩
  · have hg := getLine_line l rest [] hl
    obtain ⟨ihu, iht⟩ := endless_lines first last ls rest 2 fuel l (by omega) hrest (by omega)
    constructor
    · intro hu
      have hthis := ihu (hunt hu)
      rw [hfile, hg]
      simp only [openFile] at hthis ⊢
      simp only [Bool.false_eq_true, if_false, hL, hb]
      rw [hthis, Option.map_some, hnum]; rfl
    · intro hT
      have hthis := iht (hter hT)
      rw [hfile, hg]
      simp only [openFile] at hthis ⊢
      simp only [Bool.false_eq_true, if_false, hL, hb]
      rw [hthis, Option.map_some, hnum, e4]; rfl
  · constructor
    · intro _
      rw [hfile, getLine_end l [] hl]
      simp only [hL, if_false, if_true, hb]
      rw [hnum, he]; simp
    · rintro ⟨_, hT⟩
      exfalso
      rw [he] at hT
      apply hl
      rw [← hfile, hT]; simp

/-- NLOVEV processes the requested lines once and in order when no more lines are requested than there are, or when the
file does not end with a newline. -/
theorem C99_nlovev_partial (first last : Nat) (h1 : 1 ≤ first) (h2 : first ≤ last) (l : List Char)
    (ls : List (List Char)) (file : List Char) (h : IsText (l :: ls) file) (fuel : Nat) (hf : ls.length + 1 < fuel)
    (hl : last ≤ (l :: ls).length ∨ Unterminated (l :: ls) file) :
    nlovevProgram first last fuel file =
      some (.legend l :: (numbered (max first 2) last (l :: ls)).map .point) := by
  obtain ⟨hu, ht⟩ := endless_file first last h1 h2 l ls file h fuel hf
  rcases hl with hl | hl
  · rcases h with h | h
    · rw [ht h, if_neg]
      · simp
      · simp at hl; omega
    · exact hu h
  · exact hu hl

/-- Otherwise NLOVEV takes the end of the file for an empty line with a parameter point. -/
theorem C99_nlovev_fails (first last : Nat) (h1 : 1 ≤ first) (l : List Char)
    (ls : List (List Char)) (file : List Char) (h : Terminated (l :: ls) file) (fuel : Nat) (hf : ls.length + 1 < fuel)
    (hl : (l :: ls).length < last) (hfirst : first ≤ (l :: ls).length + 1) :
    nlovevProgram first last fuel file =
      some (.legend l :: (numbered (max first 2) last (l :: ls)).map .point ++ [.point []]) := by
  simp only [List.length_cons] at hl hfirst
  rw [(endless_file first last h1 (by omega) l ls file (Or.inl h) fuel hf).2 h, if_pos ⟨by omega, by omega⟩]

/-- The search for a line after the lines before line `n`. -/
theorem search_lines (line : Nat) (ls : List (List Char)) :
    ∀ (file : List Char) (n fuel : Nat) (old : List Char), 2 ≤ n → IsText ls file → ls.length < fuel →
      (Unterminated ls file → searchLoop line fuel n (openFile file) old =
        some (((ls.take (line + 1 - n)).drop (line - n)).map .point)) ∧
      (Terminated ls file → searchLoop line fuel n (openFile file) old =
        some (((ls.take (line + 1 - n)).drop (line - n)).map .point ++
          if n + ls.length = line then [.point []] else [])) := by
  induction ls with
  | nil =>
    intro file n fuel old hn ht hf
    obtain ⟨fuel, rfl⟩ : ∃ m, fuel = m + 1 := ⟨fuel - 1, by simp at hf; omega⟩
    constructor
    · rintro ⟨_, init, last, he, _⟩; simp at he
    · intro _
      rw [text_nil ht, searchLoop, getLine_end [] old (by simp)]
      have hn1 : n ≠ 1 := by omega
      simp only [openFile, Bool.false_eq_true, if_false, if_true]
      by_cases h1 : n = line
      · subst h1
        simp [hn1]
      · have h1' : ¬ (n : Int) = line := by exact_mod_cast h1
        by_cases h2 : line < n
        · rw [if_pos ⟨hn1, h1', by exact_mod_cast h2⟩]
          simp [h1]
        · rw [if_neg (fun h => h2 (by exact_mod_cast h.2.2))]
          simp [h1, h1', hn1]
  | cons l ls ih =>
    intro file n fuel old hn ht hf
    obtain ⟨fuel, rfl⟩ : ∃ m, fuel = m + 1 := ⟨fuel - 1, by simp at hf; omega⟩
    simp only [List.length_cons, Nat.add_lt_add_iff_right] at hf
    obtain ⟨hl, hc⟩ := text_cases ht
    have hn1 : n ≠ 1 := by omega
    by_cases hlast : line < n
    · have hz : line + 1 - n = 0 := by omega
      have hcond : n ≠ 1 ∧ (n : Int) ≠ line ∧ (line : Int) < n :=
        ⟨hn1, by omega, by exact_mod_cast hlast⟩
      have hno : ¬ n + (l :: ls).length = line := by omega
      rw [searchLoop]
      simp only [openFile, Bool.false_eq_true, if_false, if_pos hcond, hz, List.take_zero, List.drop_nil,
        List.map_nil, if_neg hno, List.append_nil]
      exact ⟨fun _ => trivial, fun _ => trivial⟩
    · have hcond : ¬ (n ≠ 1 ∧ (n : Int) ≠ line ∧ (line : Int) < n) := fun h => hlast (by exact_mod_cast h.2.2)
      have htake : (l :: ls).take (line + 1 - n) = l :: ls.take (line + 1 - (n + 1)) := by
        have : line + 1 - n = (line + 1 - (n + 1)) + 1 := by omega
        rw [this, List.take_succ_cons]
      have hcomb : ∀ t : List (List Char), (n = line → t = []) →
          (if n = 1 then [Step.legend l] else if (n : Int) = line then [Step.point l] else []) ++
            ((t.drop (line - (n + 1))).map Step.point) = ((l :: t).drop (line - n)).map Step.point := by
        intro t ht
        rw [if_neg hn1]
        by_cases h1 : n = line
        · have e1 : line - n = 0 := by omega
          rw [if_pos (by exact_mod_cast h1), ht h1, e1]; simp
        · have e1 : line - n = (line - (n + 1)) + 1 := by omega
          rw [if_neg (by exact_mod_cast h1), e1, List.drop_succ_cons]; simp
      have hzero : n = line → ls.take (line + 1 - (n + 1)) = [] := by
        intro h1
        have : line + 1 - (n + 1) = 0 := by omega
        rw [this, List.take_zero]
      rw [searchLoop]
      simp only [openFile, Bool.false_eq_true, if_false, if_neg hcond]
      rcases hc with ⟨rest, hfile, hrest, hter, hunt⟩ | ⟨he, hfile, hne, hU⟩
      · have hg := getLine_line l rest old hl
        obtain ⟨ihu, iht⟩ := ih rest (n + 1) fuel l (by omega) hrest hf
        constructor
        · intro hu
          have hthis := ihu (hunt hu)
          simp only [openFile] at hthis hg
          rw [hfile]
          simp only [hg, Bool.false_eq_true, if_false]
          rw [hthis, Option.map_some, htake, hcomb _ hzero]
        · intro hT
          have hthis := iht (hter hT)
          simp only [openFile] at hthis hg
          rw [hfile]
          simp only [hg, Bool.false_eq_true, if_false]
          have e3 : n + 1 + ls.length = n + (l :: ls).length := by simp; omega
          rw [hthis, Option.map_some, htake, ← List.append_assoc, hcomb _ hzero, e3]
      · constructor
        · intro _
          have hg := getLine_end l old hl
          simp only [openFile] at hg
          rw [hfile]
          simp only [hg, if_true]
          rw [htake, he]
          have := hcomb [] (fun _ => rfl)
          simpa using this
        · rintro ⟨_, hT⟩
          exfalso
          rw [he] at hT
          apply hl
          rw [← hfile, hT]; simp

theorem search_file (line : Nat) (h1 : 2 ≤ line) (l : List Char)
    (ls : List (List Char)) (file : List Char) (h : IsText (l :: ls) file) (fuel : Nat) (hf : ls.length + 1 < fuel) :
    (Unterminated (l :: ls) file → searchProgram line fuel file =
      some (.legend l :: (numbered line line (l :: ls)).map .point)) ∧
    (Terminated (l :: ls) file → searchProgram line fuel file =
      some (.legend l :: (numbered line line (l :: ls)).map .point ++
        if ls.length + 2 = line then [.point []] else [])) := by
  obtain ⟨fuel, rfl⟩ : ∃ m, fuel = m + 1 := ⟨fuel - 1, by omega⟩
  obtain ⟨hl, hc⟩ := text_cases h
  have hnum : numbered line line (l :: ls) = (ls.take (line + 1 - 2)).drop (line - 2) := numbered_cons _ _ (by omega) (by omega) _ _
  have e4 : 2 + ls.length = ls.length + 2 := by omega
  unfold searchProgram
  rw [searchLoop]
  simp only [openFile, Bool.false_eq_true, if_false, ne_eq, not_true_eq_false, false_and, if_true]
  rcases hc with ⟨rest, hfile, hrest, hter, hunt⟩ | ⟨he, hfile, hne, _⟩
  · have hg := getLine_line l rest [] hl
    obtain ⟨ihu, iht⟩ := search_lines line ls rest 2 fuel l (by omega) hrest (by omega)
    simp only [openFile] at hg
    constructor
    · intro hu
      have hthis := ihu (hunt hu)
      simp only [openFile] at hthis
      rw [hfile]
      simp only [hg, Bool.false_eq_true, if_false]
      rw [hthis, Option.map_some, hnum]; rfl
    · intro hT
      have hthis := iht (hter hT)
      simp only [openFile] at hthis
      rw [hfile]
      simp only [hg, Bool.false_eq_true, if_false]
      rw [hthis, Option.map_some, hnum, e4]; rfl
  · constructor
    · intro _
      have hg := getLine_end l [] hl
      simp only [openFile] at hg
      rw [hfile]
      simp only [hg, if_true]
      rw [hnum, he]; simp
    · rintro ⟨_, hT⟩
      exfalso
      rw [he] at hT
      apply hl
      rw [← hfile, hT]; simp

/-- VEVEVO, PotPlotter, CreateMuGrid and the plots of the asymmetry: the requested line is used if there is one, and
otherwise the program says that it was not found; except for the line after the last one of a file that ends with a
newline. -/
theorem C99_search_partial (line : Nat) (h1 : 2 ≤ line) (l : List Char)
    (ls : List (List Char)) (file : List Char) (h : IsText (l :: ls) file) (fuel : Nat) (hf : ls.length + 1 < fuel)
    (hne : line ≠ (l :: ls).length + 1 ∨ Unterminated (l :: ls) file) :
    ∃ steps, searchProgram line fuel file = some steps ∧
      steps = .legend l :: (numbered line line (l :: ls)).map .point ∧
      (found steps = true ↔ line ≤ (l :: ls).length) := by
  refine ⟨.legend l :: (numbered line line (l :: ls)).map .point, ?_, rfl, ?_⟩
  · obtain ⟨hu, ht⟩ := search_file line h1 l ls file h fuel hf
    rcases hne with hl | hl
    · rcases h with h | h
      · rw [ht h, if_neg]
        · simp
        · simp at hl; omega
      · exact hu h
    · exact hu hl
  · have : ∀ t : List (List Char), found (.legend l :: t.map .point) = true ↔ ¬ t = [] := by
      intro t
      cases t <;> simp [found]
    rw [this]
    unfold numbered
    rw [List.drop_eq_nil_iff, List.length_take]
    omega

/-- In that case the programs do not say that the line was not found, but use an empty line. -/
theorem C99_search_fails (l : List Char)
    (ls : List (List Char)) (file : List Char) (h : Terminated (l :: ls) file) (fuel : Nat)
    (hf : ls.length + 1 < fuel) :
    ∃ steps, searchProgram ((l :: ls).length + 1 : Nat) fuel file = some steps ∧
      steps = [.legend l, .point []] ∧ found steps = true := by
  refine ⟨[.legend l, .point []], ?_, rfl, rfl⟩
  rw [(search_file ((l :: ls).length + 1) (by simp) l ls file (Or.inl h) fuel hf).2 h, if_pos (by simp)]
  have : numbered ((l :: ls).length + 1) ((l :: ls).length + 1) (l :: ls) = [] := by
    unfold numbered
    rw [List.drop_eq_nil_iff, List.length_take]
    omega
  rw [this]; rfl

/-- A file with a legend and two points, with and without a newline at its end. -/
example : IsText ["a".toList, "1".toList, "2".toList] "a\n1\n2\n".toList ∧
    Unterminated ["a".toList, "1".toList, "2".toList] "a\n1\n2".toList :=
  ⟨Or.inl ⟨by decide, by decide⟩, by decide, ["a".toList, "1".toList], "2".toList, by decide, by decide, by decide⟩

end Verif.Batch
