import Verif.Outcome

/-!
# Model of `src/utility/utility.cpp` and `include/BSMPT/utility/utility.h`

Strings are lists of characters.  Numbers are elements of an arbitrary type with the
operations that are used; rounding is not modelled.
-/

namespace Verif.Utility

open Outcome

/-- One successful `std::getline(ss, token, delimiter)` on a string stream holding the remaining
characters `s`: the extracted token and what remains; `none` when the stream is exhausted (no
character could be extracted).  Used by `split`, utility.cpp:26-37. -/
def getline (d : Char) (s : List Char) : Option (List Char × List Char) :=
  match s with
  | [] => none
  | _ => some (s.takeWhile (· != d), (s.dropWhile (· != d)).tail)

theorem getline_lt {d : Char} {s tok rest : List Char} (h : getline d s = some (tok, rest)) :
    rest.length < s.length := by
  cases s with
  | nil => simp [getline] at h
  | cons c s =>
    simp only [getline, Option.some.injEq, Prod.mk.injEq] at h
    rw [← h.2, List.length_tail]
    have := (List.dropWhile_sublist (fun x => x != d) (l := c :: s)).length_le
    simp only [List.length_cons] at this ⊢
    omega

/-- `split(str, delimiter)`, utility.cpp:26-37. -/
def split (s : List Char) (d : Char) : List (List Char) :=
  match _h : getline d s with
  | none => []
  | some (tok, rest) => tok :: split rest d
termination_by s.length
decreasing_by exact getline_lt _h

/-- `StringStartsWith(str, prefix)`, utility.cpp:46-49.  `str.find(prefix) == 0` holds iff the first
occurrence of `prefix` is at position 0, i.e. iff `prefix` is a prefix. -/
def stringStartsWith (s pre : List Char) : Bool :=
  decide (pre.length ≤ s.length) && pre.isPrefixOf s

/-- `StringEndsWith(str, suffix)`, utility.cpp:104-108.  `substr(pos, n)` with
`pos = size - suffix.size()` takes everything from `pos` on. -/
def stringEndsWith (s suf : List Char) : Bool :=
  decide (suf.length ≤ s.length) && (s.drop (s.length - suf.length) == suf)

/-- 32-bit `int` range. -/
def inInt32 (x : Int) : Bool := decide (-2147483648 ≤ x) && decide (x ≤ 2147483647)

/-- Result of an `int` operation: signed overflow is undefined. -/
def int32 (x : Int) : Outcome Int := if inInt32 x then ok x else ub .overflow

/-- `factorial(a)`, utility.cpp:51-54, on a stack with room for `fuel` nested calls.
`a - 1` and the product are `int` operations. -/
def factorial : (fuel : Nat) → Int → Outcome Int
  | 0, _ => ub .recursion
  | fuel + 1, a =>
    if a = 1 ∨ a = 0 then ok 1
    else do
      let a' ← int32 (a - 1)
      let r ← factorial fuel a'
      int32 (r * a)

variable {α β : Type}

/-- `Transpose(A)`, utility.cpp:67-82.  `A[i][j]` is undefined when row `i` has no entry `j`.
For no rows the code returns `{{}}`, one empty row. -/
def transpose (A : List (List α)) : Outcome (List (List α)) :=
  match A with
  | [] => ok [[]]
  | row0 :: _ => (List.range row0.length).mapM fun j => A.mapM fun row => idx row j

/-- `operator<<` for vectors, utility.h:95-112, and `vec_to_string`, utility.h:69-86: the printed
elements separated by `sep = "\t"`. -/
def printVec : List (List Char) → List Char
  | [] => []
  | [x] => x
  | x :: xs => x ++ '\t' :: printVec xs

/-- `operator+` on vectors, utility.h:118-132 (throws `std::runtime_error`). -/
def vadd [Add α] (a b : List α) : Outcome (List α) :=
  if a.length ≠ b.length then err .runtime else ok (List.zipWith (· + ·) a b)

/-- `operator-` on vectors, utility.h:138-152 (throws a string literal). -/
def vsub [Sub α] (a b : List α) : Outcome (List α) :=
  if a.length ≠ b.length then err .cstring else ok (List.zipWith (· - ·) a b)

/-- scalar times vector, utility.h:158-169. -/
def smul [Mul α] (a : α) (b : List α) : List α := b.map (a * ·)

/-- vector divided by scalar, utility.h:174-185 (division by zero is left to the field). -/
def sdiv [Div α] (a : List α) (b : α) : List α := a.map (· / b)

/-- dot product, utility.h:190-208; `std::accumulate` from `0.0`. -/
def dot [Add α] [Mul α] [Zero α] (a b : List α) : Outcome α :=
  if a.length ≠ b.length then err .cstring
  else ok ((List.zipWith (· * ·) a b).foldl (· + ·) 0)

/-- matrix times vector, utility.h:214-230: the guard compares the number of *rows* with the
vector length; each row is then multiplied with the dot product above. -/
def matVec [Add α] [Mul α] [Zero α] (a : List (List α)) (b : List α) : Outcome (List α) :=
  if a.length ≠ b.length then err .cstring else a.mapM (fun row => dot row b)

/-- `flatten`, utility.h:236-245. -/
def flatten (v : List (List α)) : List α := v.foldl (fun acc row => acc ++ row) []

end Verif.Utility
