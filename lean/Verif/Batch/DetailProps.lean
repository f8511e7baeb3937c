import Verif.Batch.ReadProps
import Verif.Batch.LegendSpec
import Verif.Batch.Model

/-!
# Details of the tables and of reading (C99 to C101)
-/

namespace Verif.Batch

open Models (Class)

/-! ## Lines -/

/-- On a stream that is at its end or has failed, nothing is read: the line keeps its value and the stream has failed. -/
theorem C99_bad_stream (s : Stream) (old : List Char) :
    (s.eof = true → getLine s old = (⟨s.rest, true, true⟩, old)) ∧
    (s.failed = true → getLine s old = (⟨s.rest, s.eof, true⟩, old)) := by
  obtain ⟨r, e, f⟩ := s
  constructor <;> intro h <;> simp only at h <;> subst h <;> simp [getLine]

/-! ## White space -/

theorem tokens_sep {x : List Char} (h : Spec.Cell x) (c : Char) (hs : isSpace c = true) (y : List Char) :
    tokens (x ++ c :: y) = (if x = [] then [] else [x]) ++ tokens y := by
  induction x with
  | nil => simp [tokens, hs]
  | cons a l ih =>
    have hc := cell_space h a (by simp)
    have hl : Spec.Cell l := fun d hd => h d (by simp [hd])
    have ih := ih hl
    cases l with
    | nil => simp [tokens, hc, hs]
    | cons d l =>
      have hd := cell_space h d (by simp)
      rw [if_neg (by simp)] at ih ⊢
      rw [List.cons_append, List.cons_append]
      rw [List.cons_append] at ih
      rw [tokens]
      simp [hc, hd, ih]

/-- The separators of numbers. -/
def Spec.separators : List Char := [' ', '\t', '\n', '\x0b', '\x0c', '\r']

/-- Any of the six characters of white space separates two pieces, and leading ones are skipped. -/
theorem C100_separators {x y : List Char} (hx : Spec.Cell x) (hy : Spec.Cell y) (hx0 : x ≠ []) (hy0 : y ≠ []) :
    ∀ c ∈ Spec.separators, ∀ d ∈ Spec.separators, tokens (d :: x ++ c :: y) = [x, y] := by
  have hsp : ∀ c ∈ Spec.separators, isSpace c = true := by decide
  intro c hc d hd
  have h0 := tokens_sep (x := []) (fun _ h => absurd h (by simp)) d (hsp d hd) (x ++ c :: y)
  simp only [List.nil_append, if_true] at h0
  rw [List.cons_append, h0, tokens_sep hx c (hsp c hc), tokens_cell hy, if_neg hx0, if_neg hy0]
  rfl

example : tokens "\r1.5\x0b2".toList = ["1.5".toList, "2".toList] := by decide

/-! ## Names -/

/-- In `CPintheDark` the counterterms apart from four tadpoles stand in the columns with their names. -/
theorem C101_cpinthedark_others : ∀ i : Fin 19, ¬ (13 ≤ i.1 ∧ i.1 ≤ 16) →
    (legendCT .cpinthedark)[i.1]? = (setCT .cpinthedark)[i.1]? ∧
      ∃ n, (legendCT .cpinthedark)[i.1]? = some n ∧ (n, n) ∈ Spec.ctDictionary .cpinthedark ∧
        n ∉ ["dT1", "dT2", "dTCP", "dTCB"] := by
  intro i hi
  have key : ∀ i : Fin 19, ¬ (13 ≤ i.1 ∧ i.1 ≤ 16) →
      ((legendCT .cpinthedark)[i.1]? = (setCT .cpinthedark)[i.1]? ∧
        ((legendCT .cpinthedark)[i.1]?.any fun n => decide ((n, n) ∈ Spec.ctDictionary .cpinthedark) &&
          decide (n ∉ ["dT1", "dT2", "dTCP", "dTCB"])) = true) := by decide +kernel
  obtain ⟨h1, h2⟩ := key i hi
  refine ⟨h1, ?_⟩
  cases h : (legendCT .cpinthedark)[i.1]? with
  | none => rw [h] at h2; simp at h2
  | some n =>
    rw [h, Option.any_some, Bool.and_eq_true, decide_eq_true_eq, decide_eq_true_eq] at h2
    exact ⟨n, rfl, h2.1, h2.2⟩

namespace Spec

/-- The states of definite mass in the order of the mixing matrices: two charged Goldstone bosons, two charged Higgs bosons,
the neutral Goldstone boson and the neutral Higgs bosons; in `CPintheDark` the boson `h` of the visible doublet comes before the
neutral Goldstone boson. -/
def massStates (hsm : Bool) : Class → List String
  | .template => ["H"]
  | .sm => ["G+", "G-"] ++ ["G0"] ++ ["H"]
  | .cxsm => ["G+", "G-"] ++ ["G0"] ++ ["H1", "H2", "H3"]
  | .r2hdm => ["G^+", "G^-"] ++ ["H^+", "H^-"] ++ ["G^0"] ++ ["A", "h", "H"]
  | .c2hdm => ["G^+", "G^-"] ++ ["H^+", "H^-"] ++ ["G^0"] ++
      (match hsm with | true => ["h_SM", "h_l", "h_H"] | false => ["h_1", "h_2", "h_3"])
  | .n2hdm => ["G^+", "G^-"] ++ ["H^+", "H^-"] ++ ["G^0"] ++ ["A", "h_SM", "h_l", "h_H"]
  | .cpinthedark => ["G^+", "G^-"] ++ ["H^+", "H^-"] ++ ["h"] ++ ["G^0"] ++ ["h_1", "h_2", "h_3"]

end Spec

/-- The names of the particles in the headers of the triple couplings. -/
theorem C101_particle_names (hsm : Bool) (c : Class) : particles hsm c = Spec.massStates hsm c := by
  cases c <;> cases hsm <;> rfl

end Verif.Batch
