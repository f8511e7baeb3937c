/-!
# Lines of a file
-/

namespace Verif.Batch.Spec

/-- A file with these lines, in which every line ends with a newline. -/
def Terminated (ls : List (List Char)) (file : List Char) : Prop :=
  (∀ l ∈ ls, '\n' ∉ l) ∧ file = (ls.map (· ++ ['\n'])).flatten

/-- A file with these lines, in which no newline follows the last line. -/
def Unterminated (ls : List (List Char)) (file : List Char) : Prop :=
  (∀ l ∈ ls, '\n' ∉ l) ∧ ∃ init last, ls = init ++ [last] ∧ last ≠ [] ∧
    file = (init.map (· ++ ['\n'])).flatten ++ last

/-- A text file with these lines. -/
def IsText (ls : List (List Char)) (file : List Char) : Prop := Terminated ls file ∨ Unterminated ls file

/-- The lines with numbers from `first` to `last`, when lines are numbered from 1. -/
def numbered (first last : Nat) (ls : List (List Char)) : List (List Char) := (ls.take last).drop (first - 1)

end Verif.Batch.Spec
