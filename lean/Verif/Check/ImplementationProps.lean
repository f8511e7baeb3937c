import Verif.Check.Implementation
import Verif.Check.Lemmas
import Verif.Batch.Lines
import Verif.Batch.LegendProps
import Mathlib.Tactic.Linarith
import Mathlib.Tactic.Ring

/-!
# What the program `Test` tells

The checks of a model are listed once, the final message is right, and what the exit status says.
-/

set_option linter.unusedSimpArgs false

namespace Verif.Check

open Outcome
open Verif.Models (Class)
open Verif.Batch (Step)
open Verif.Batch.Spec (IsText numbered)

/-- **The tests.**  If no check throws then every check is listed once with its result; the simplified
potentials only if they are used. -/
theorem C107_tests (a b c d e f g h i j k o p q r s t u v w x : TestResult) (y z : Option TestResult) :
    implementation ⟨ok a, ok b, ok c, ok d, ok e, ok f, ok (g, h), ok i, ok j, ok k, y.map ok, z.map ok, ok o, ok p,
      ok q, ok r, ok s, ok t, ok u, ok v, ok w, ok x⟩ =
    ok ([("CT number/label match", a), ("VEV number/label match", b), ("addLegendTemp number/label match", c),
      ("addLegendTripleCouplings number/label match", d), ("CKM matrix unitarity", e),
      ("Matching gauge boson masses with SMparam.h", f), ("Matching lepton masses with SMparam.h", g),
      ("Matching quark masses with SMparam.h", h), ("Correct EW Minimum", i), ("Tadpole relations fullfilled", j),
      ("Matching Masses between NLO and tree-level", k)] ++
      y.toList.map (fun y => ("Checking VTreeSimplified", y)) ++
      z.toList.map (fun z => ("Checking VCounterSimplified", z)) ++
      [("Checking second derivative of CW+CT", o), ("Checking first derivative of CW+CT", p),
      ("Check symmetric properties of the scalar tensor Lij", q),
      ("Check symmetric properties of the scalar tensor Lijk", r),
      ("Check symmetric properties of the scalar tensor Lijkl", s),
      ("Check symmetric properties of the gauge tensor in the C2HDM", t),
      ("Check symmetric properties of the Lepton tensor in the C2HDM", u),
      ("Check symmetric properties of the mass Lepton tensor in the C2HDM", v),
      ("Check symmetric properties of the Quark tensor in the C2HDM", w),
      ("Check symmetric properties of the mass Quark tensor in the C2HDM", x)]) := by
  cases y <;> cases z <;>
    simp only [implementation, push, pushIf, bind_ok, Option.map_none, Option.map_some, Option.toList_none,
      Option.toList_some, List.map_nil, List.map_cons, List.nil_append, List.append_nil, List.cons_append]

/-- The checks in their order. -/
def Spec.all (c : Checks) : List (Outcome TestResult) :=
  [c.ctLabels, c.vevLabels, c.tempLabels, c.tripleLabels, c.ckm, c.gaugeMasses, c.fermionMasses.bind fun r => ok r.1,
    c.minimum, c.tadpoles, c.nlo] ++ c.treeSimplified.toList ++ c.counterSimplified.toList ++
    [c.ctSecond, c.ctFirst, c.l2, c.l3, c.l4, c.gaugeTensor, c.leptonTensor, c.leptonMass, c.quarkTensor, c.quarkMass]

theorem push_ok {rows out : List (String × TestResult)} {name : String} {check : Outcome TestResult}
    (h : push rows name check = ok out) : ∃ r, check = ok r := by
  cases check with
  | ok r => exact ⟨r, rfl⟩
  | err e => cases h
  | ub u => cases h

theorem pushIf_ok {rows out : List (String × TestResult)} {name : String} {check : Option (Outcome TestResult)}
    (h : pushIf rows name check = ok out) : ∃ r : Option TestResult, check = r.map ok := by
  cases check with
  | none => exact ⟨none, rfl⟩
  | some c => obtain ⟨r, rfl⟩ := push_ok h; exact ⟨some r, rfl⟩

theorem bind_eq_ok {α β : Type} {x : Outcome α} {f : α → Outcome β} {y : β} (h : x.bind f = ok y) :
    ∃ a, x = ok a ∧ f a = ok y := by
  cases x with
  | ok a => exact ⟨a, rfl, h⟩
  | err e => cases h
  | ub u => cases h

/-- If one of the checks throws then there is no table at all. -/
theorem C107_throws (c : Checks) (h : ∃ x ∈ Spec.all c, ∀ r, x ≠ ok r) : ∀ rows, implementation c ≠ ok rows := by
  intro rows hr
  unfold implementation at hr
  obtain ⟨_, h1, hr⟩ := bind_eq_ok hr
  obtain ⟨_, h2, hr⟩ := bind_eq_ok hr
  obtain ⟨_, h3, hr⟩ := bind_eq_ok hr
  obtain ⟨_, h4, hr⟩ := bind_eq_ok hr
  obtain ⟨_, h5, hr⟩ := bind_eq_ok hr
  obtain ⟨_, h6, hr⟩ := bind_eq_ok hr
  obtain ⟨f, h7, hr⟩ := bind_eq_ok hr
  obtain ⟨_, _, hr⟩ := bind_eq_ok hr
  obtain ⟨_, _, hr⟩ := bind_eq_ok hr
  obtain ⟨_, h8, hr⟩ := bind_eq_ok hr
  obtain ⟨_, h9, hr⟩ := bind_eq_ok hr
  obtain ⟨_, h10, hr⟩ := bind_eq_ok hr
  obtain ⟨_, h11, hr⟩ := bind_eq_ok hr
  obtain ⟨_, h12, hr⟩ := bind_eq_ok hr
  obtain ⟨_, h13, hr⟩ := bind_eq_ok hr
  obtain ⟨_, h14, hr⟩ := bind_eq_ok hr
  obtain ⟨_, h15, hr⟩ := bind_eq_ok hr
  obtain ⟨_, h16, hr⟩ := bind_eq_ok hr
  obtain ⟨_, h17, hr⟩ := bind_eq_ok hr
  obtain ⟨_, h18, hr⟩ := bind_eq_ok hr
  obtain ⟨_, h19, hr⟩ := bind_eq_ok hr
  obtain ⟨_, h20, hr⟩ := bind_eq_ok hr
  obtain ⟨_, h21, h22⟩ := bind_eq_ok hr
  obtain ⟨x, hx, hne⟩ := h
  obtain ⟨r11, e11⟩ := pushIf_ok h11
  obtain ⟨r12, e12⟩ := pushIf_ok h12
  simp only [Spec.all, List.mem_append, List.mem_cons, List.not_mem_nil, or_false, e11, e12] at hx
  have hopt : ∀ o : Option TestResult, x ∈ (o.map ok).toList → False := fun o ho => by
    cases o with
    | none => simp at ho
    | some r => exact hne r (by simpa using ho)
  rcases hx with ((hx | hx) | hx) | hx
  · rcases hx with rfl | rfl | rfl | rfl | rfl | rfl | rfl | rfl | rfl | rfl
    · obtain ⟨r, hr⟩ := push_ok h1; exact hne r hr
    · obtain ⟨r, hr⟩ := push_ok h2; exact hne r hr
    · obtain ⟨r, hr⟩ := push_ok h3; exact hne r hr
    · obtain ⟨r, hr⟩ := push_ok h4; exact hne r hr
    · obtain ⟨r, hr⟩ := push_ok h5; exact hne r hr
    · obtain ⟨r, hr⟩ := push_ok h6; exact hne r hr
    · exact hne f.1 (by rw [h7]; rfl)
    · obtain ⟨r, hr⟩ := push_ok h8; exact hne r hr
    · obtain ⟨r, hr⟩ := push_ok h9; exact hne r hr
    · obtain ⟨r, hr⟩ := push_ok h10; exact hne r hr
  · exact hopt _ hx
  · exact hopt _ hx
  · rcases hx with rfl | rfl | rfl | rfl | rfl | rfl | rfl | rfl | rfl | rfl
    · obtain ⟨r, hr⟩ := push_ok h13; exact hne r hr
    · obtain ⟨r, hr⟩ := push_ok h14; exact hne r hr
    · obtain ⟨r, hr⟩ := push_ok h15; exact hne r hr
    · obtain ⟨r, hr⟩ := push_ok h16; exact hne r hr
    · obtain ⟨r, hr⟩ := push_ok h17; exact hne r hr
    · obtain ⟨r, hr⟩ := push_ok h18; exact hne r hr
    · obtain ⟨r, hr⟩ := push_ok h19; exact hne r hr
    · obtain ⟨r, hr⟩ := push_ok h20; exact hne r hr
    · obtain ⟨r, hr⟩ := push_ok h21; exact hne r hr
    · obtain ⟨r, hr⟩ := push_ok h22; exact hne r hr

/-! ### The output -/

theorem filter_all {A : Type} (l : List A) (p : A → Bool) : (l.filter p).length = l.length ↔ ∀ x ∈ l, p x = true := by
  rw [List.length_filter_eq_length_iff]

theorem pass_text (r : TestResult) : (resultText r = "Pass".toList) ↔ r = .pass := by
  cases r <;> decide

/-- **The final message.**  "You're good to go!" is printed exactly if all tests passed. -/
theorem C107_message (rows : List (String × TestResult)) :
    "You're good to go!".toList ∈ report rows ↔ ∀ r ∈ rows, r.2 = .pass := by
  have hlast : ∀ l : List Char, "You're good to go!".toList = l → l.getLast? = some '!' := by
    rintro l rfl; decide
  have hiff : (rows.filter fun r => resultText r.2 = "Pass".toList).length = rows.length ↔
      ∀ r ∈ rows, r.2 = .pass := by
    rw [filter_all]
    exact forall₂_congr fun r _ => by rw [decide_eq_true_iff, pass_text]
  unfold report
  simp only [List.mem_append, List.mem_cons, List.not_mem_nil, or_false]
  constructor
  · rintro (((h | h) | h) | h)
    · rcases h with h | h | h | h
      · exact absurd h (by decide)
      · exact absurd h (by decide)
      · exact absurd h (by decide)
      · exact absurd h (by decide)
    · obtain ⟨r, -, hr⟩ := List.mem_map.1 h
      have := hlast _ hr.symm
      cases hres : r.2 <;> rw [hres] at this <;> simp [resultText] at this
    · rcases h with h | h
      · have := hlast _ h
        rw [List.getLast?_append] at this
        exact absurd this (by simp)
      · exact absurd h (by decide)
    · split_ifs at h with hc
      · have := hlast _ (by simpa using h)
        simp at this
      · exact hiff.1 (not_not.1 hc)
  · intro h
    right
    rw [if_neg (not_not.2 (hiff.2 h))]
    simp

/-- The row of every test shows its name and its result. -/
theorem C107_rows (rows : List (String × TestResult)) (r : String × TestResult) (hr : r ∈ rows) :
    ∃ n, r.1.toList ++ List.replicate n ' ' ++ "| ".toList ++ (if r.2 = .pass then "Pass".toList else "Fail".toList) ∈
      report rows := by
  refine ⟨width rows - r.1.toList.length, ?_⟩
  unfold report
  simp only [List.mem_append]
  refine .inl (.inl (.inr (List.mem_map.2 ⟨r, hr, ?_⟩)))
  rw [pad]
  cases h : r.2 <;> simp [resultText, h]

theorem le_foldl_max (l : List (String × TestResult)) (m : Nat) :
    m ≤ l.foldl (fun m r => if r.1.toList.length > m then r.1.toList.length else m) m ∧
      ∀ r ∈ l, r.1.toList.length ≤ l.foldl (fun m r => if r.1.toList.length > m then r.1.toList.length else m) m := by
  induction l generalizing m with
  | nil => simp
  | cons a l ih =>
    rw [List.foldl_cons]
    obtain ⟨h1, h2⟩ := ih (if a.1.toList.length > m then a.1.toList.length else m)
    have hm : m ≤ (if a.1.toList.length > m then a.1.toList.length else m) ∧
        a.1.toList.length ≤ (if a.1.toList.length > m then a.1.toList.length else m) := by split_ifs <;> omega
    refine ⟨hm.1.trans h1, fun r hr => ?_⟩
    rcases List.mem_cons.1 hr with rfl | hr
    · exact hm.2.trans h1
    · exact h2 r hr

/-- The results stand in one column: the part before them has the same length in all rows, and at least five
spaces follow every name. -/
theorem C107_aligned (rows : List (String × TestResult)) (r : String × TestResult) (hr : r ∈ rows) :
    (pad (width rows) r.1.toList).length = width rows ∧ r.1.toList.length + 5 ≤ width rows := by
  have h := (le_foldl_max rows ((rows.head?.map fun r => r.1.toList.length).getD 0)).2 r hr
  have hw : r.1.toList.length + 5 ≤ width rows := by unfold width; omega
  refine ⟨?_, hw⟩
  rw [pad, List.length_append, List.length_replicate]
  omega

/-- The printed numbers are those of the passed and of all tests. -/
theorem C107_counts (rows : List (String × TestResult)) :
    (toString (rows.countP fun r => r.2 == .pass)).toList ++ " tests out of ".toList ++
      (toString rows.length).toList ++ " passed.".toList ∈ report rows ∧
    ((∃ r ∈ rows, r.2 = .fail) → (toString (rows.countP fun r => r.2 == .fail)).toList ++
      " tests failed. Please check and try again.".toList ∈ report rows) := by
  have e : (rows.filter fun r => resultText r.2 = "Pass".toList).length =
      rows.countP fun r => r.2 == .pass := by
    rw [List.countP_eq_length_filter]
    congr 1
    refine List.filter_congr fun r _ => ?_
    cases r.2 <;> decide
  have e2 : rows.length = (rows.countP fun r => r.2 == .pass) + rows.countP fun r => r.2 == .fail := by
    rw [List.length_eq_countP_add_countP fun r : String × TestResult => r.2 == .pass]
    congr 1
    refine List.countP_congr fun r _ => ?_
    cases r.2 <;> decide
  constructor
  · unfold report
    dsimp only
    rw [e]
    exact List.mem_append_left _ (List.mem_append_right _ List.mem_cons_self)
  · rintro ⟨r, hr, hf⟩
    have hpos : 0 < rows.countP fun r => r.2 == .fail := by
      rw [List.countP_pos_iff]
      exact ⟨r, hr, by rw [hf]; rfl⟩
    have hsub : rows.length - (rows.countP fun r => r.2 == .pass) = rows.countP fun r => r.2 == .fail := by omega
    unfold report
    dsimp only
    rw [e, if_pos (by omega), hsub]
    exact List.mem_append_right _ List.mem_cons_self

/-! ### The labels -/

theorem length_range'_sum (n : Nat) : ∀ m i, (((List.range' i m).map fun j => i + m - j).sum) * 2 = m * (m + 1) := by
  intro m
  induction m with
  | zero => simp
  | succ m ih =>
    intro i
    rw [List.range'_succ, List.map_cons, List.sum_cons]
    have := ih (i + 1)
    have e : ((List.range' (i + 1) m).map fun j => i + (m + 1) - j) =
        (List.range' (i + 1) m).map fun j => i + 1 + m - j :=
      List.map_congr_left fun j _ => by omega
    rw [e]
    rw [show i + (m + 1) - i = m + 1 by omega]
    nlinarith

theorem length_triples (n : Nat) : (Batch.triples n).length * 6 = n * (n + 1) * (n + 2) := by
  have key : ∀ m i, ((List.range' i m).flatMap fun a => (List.range' a (i + m - a)).flatMap fun j =>
      (List.range' j (i + m - j)).map fun k => (a, j, k)).length * 6 = m * (m + 1) * (m + 2) := by
    intro m
    induction m with
    | zero => simp
    | succ m ih =>
      intro i
      rw [List.range'_succ, List.flatMap_cons, List.length_append]
      have h1 := ih (i + 1)
      have e : ((List.range' (i + 1) m).flatMap fun a => (List.range' a (i + (m + 1) - a)).flatMap fun j =>
          (List.range' j (i + (m + 1) - j)).map fun k => (a, j, k)) =
          (List.range' (i + 1) m).flatMap fun a => (List.range' a (i + 1 + m - a)).flatMap fun j =>
          (List.range' j (i + 1 + m - j)).map fun k => (a, j, k) := by
        rw [show i + (m + 1) = i + 1 + m by omega]
      rw [e]
      have h2 : ((List.range' i (i + (m + 1) - i)).flatMap fun j =>
          (List.range' j (i + (m + 1) - j)).map fun k => (i, j, k)).length * 2 = (m + 1) * (m + 2) := by
        rw [List.length_flatMap, show i + (m + 1) - i = m + 1 by omega]
        have := length_range'_sum 0 (m + 1) i
        simp only [List.length_map, List.length_range'] at this ⊢
        rw [this]
      nlinarith
  have := key n 0
  rw [← this, Batch.triples, List.range_eq_range']
  simp

/-- The expected number of labels of triple couplings: three for every choice of three of the `n` scalars, where
one may be chosen several times. -/
theorem C107_triples (n : Nat) : expectedTriple n * 2 = n * (n + 1) * (n + 2) := by
  have h : expectedTriple n = (Batch.triples n).length * 3 := rfl
  have := length_triples n
  omega

/-- **The labels of the shipped models** have the right numbers, with all options. -/
theorem C107_labels (cb hsm : Bool) (c : Class) :
    numberOfCTParameters (nParCT c) (Batch.legendCT c) = .pass ∧
      numberOfVEVLabels (c.vevOrder cb).length (Batch.legendVEV cb c) = .pass ∧
      legendTemp (c.vevOrder cb).length (Batch.legendTemp cb c) = .pass ∧
      numberOfTripleCouplings c.nHiggs (Batch.legendTriple (Batch.particles hsm c)) = .pass := by
  refine ⟨?_, ?_, ?_, ?_⟩
  · cases c <;> decide +kernel
  · rw [numberOfVEVLabels, if_pos (Batch.vev_table cb c).1.symm]
  · rw [legendTemp, if_pos]
    have := (Batch.temp_table cb c).1
    omega
  · rw [numberOfTripleCouplings, if_pos]
    rw [Batch.legendTriple, (Batch.particles_plain hsm c).2, List.length_flatMap]
    simp only [List.length_cons, List.length_nil, List.map_const', List.sum_replicate, smul_eq_mul]
    rfl

/-- Only the numbers are compared: every list of names with the right length passes, such as the names of the
counterterms of CP in the Dark, which stand in the wrong order (C101), or names that are all the same. -/
theorem C107_labels_fails (c : Class) : numberOfCTParameters (nParCT c) (List.replicate (nParCT c) "x") = .pass ∧
    ∀ l : List String, l.length = nParCT c → numberOfCTParameters (nParCT c) l = .pass := by
  have : ∀ l : List String, l.length = nParCT c → numberOfCTParameters (nParCT c) l = .pass := fun l hl => by
    rw [numberOfCTParameters, if_pos hl.symm]
  exact ⟨this _ (by simp), this⟩

/-! ### The program -/

variable (point : List Char → List Char → Outcome (List (List Char)))

/-- **The program `Test`.**  A line of the file after the first is read with the first line as legend, its
report is printed, and the status is that of success; an exception gives the status of failure. -/
theorem C107_program (line : Nat) (l : List Char) (ls : List (List Char)) (file : List Char)
    (h : IsText (l :: ls) file) (fuel : Nat) (hf : ls.length + 1 < fuel) (h2 : 2 ≤ line)
    (hl : line ≤ ls.length + 1) :
    testMain (ok true) (some file) line fuel point = some (match point l ((l :: ls)[line - 1]'(by simp; omega)) with
      | .ok out => ok (.success, out)
      | .err _ => ok (.failure, [])
      | .ub u => .ub u) := by
  unfold testMain
  dsimp only
  rw [Batch.C99_test line (by omega) l ls file h fuel hf, Option.map_some]
  have e : numbered (max line 2) line (l :: ls) = [(l :: ls)[line - 1]'(by simp; omega)] := by
    rw [numbered, max_eq_left h2]
    have hlen : ((l :: ls).take line).length = line := by simp; omega
    refine List.ext_getElem (by rw [List.length_drop, hlen]; simp; omega) fun i h1 h2 => ?_
    simp only [List.length_singleton] at h2
    have : i = 0 := by omega
    subst this
    simp
  rw [e]
  simp only [List.map_cons, List.map_nil, testSteps]
  cases point l ((l :: ls)[line - 1]'(by simp; omega)) with
  | ok out => simp [bind_ok]
  | err x => rfl
  | ub u => rfl

/-- The status does not say whether the tests passed: it is that of success for every report. -/
theorem C107_status_fails (line : Nat) (l : List Char) (ls : List (List Char)) (file : List Char)
    (h : IsText (l :: ls) file) (fuel : Nat) (hf : ls.length + 1 < fuel) (h2 : 2 ≤ line)
    (hl : line ≤ ls.length + 1) (rows : List (String × TestResult))
    (hp : point l ((l :: ls)[line - 1]'(by simp; omega)) = ok (report rows)) :
    testMain (ok true) (some file) line fuel point = some (ok (.success, report rows)) := by
  rw [C107_program point line l ls file h fuel hf h2 hl, hp]

/-- Neither is it an error if there is nothing to test: if the line does not exist, or is the legend, then
nothing is printed and the status is that of success. -/
theorem C107_nothing_fails (line : Nat) (l : List Char) (ls : List (List Char)) (file : List Char)
    (h : IsText (l :: ls) file) (fuel : Nat) (hf : ls.length + 1 < fuel)
    (hl : line = 1 ∨ ls.length + 1 < line) :
    testMain (ok true) (some file) line fuel point = some (ok (.success, [])) := by
  unfold testMain
  dsimp only
  rw [Batch.C99_test line (by omega) l ls file h fuel hf, Option.map_some]
  have e : numbered (max line 2) line (l :: ls) = [] := by
    rw [numbered, List.drop_eq_nil_iff, List.length_take]
    simp only [List.length_cons]
    omega
  rw [e]
  simp [testSteps]

/-- Wrong options and a missing file are errors. -/
theorem C107_errors (good : Outcome Bool) (file : Option (List Char)) (line : Int) (fuel : Nat) :
    (good = ok false ∨ (∃ e, good = err e) ∨ (good = ok true ∧ file = none)) →
      testMain good file line fuel point = some (ok (.failure, [])) := by
  rintro (rfl | ⟨e, rfl⟩ | ⟨rfl, rfl⟩) <;> rfl

/-- A table with a failed test. -/
example : report [("a", .pass), ("bcd", .fail)] = ["", "TEST | Pass/Fail", "================================", "",
    "a       | Pass", "bcd     | Fail", "1 tests out of 2 passed.", "",
    "1 tests failed. Please check and try again."].map String.toList := by decide +kernel

/-- The second line of a file with a legend and one point. -/
example : testMain (ok true) (some "a\nb\n".toList) 2 5 (fun l x => ok [l ++ x]) =
    some (ok (.success, ["ab".toList])) :=
  C107_program _ 2 "a".toList ["b".toList] _ (.inl (by simp [Batch.Spec.Terminated])) 5 (by decide) (by decide) (by decide)

example : expectedTriple 4 = 60 := by decide +kernel

end Verif.Check
