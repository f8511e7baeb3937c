import Verif.Outcome
import Verif.Models.Model

/-!
# Reading a parameter point from a line

`ReadAndSet` of all models.  The line is divided into the pieces between white space.  A piece is a number or not; a piece
that begins with a number and goes on with other characters is not modelled.
-/

namespace Verif.Batch

open Outcome

/-- `std::isspace` in the C locale. -/
def isSpace (c : Char) : Bool := c = ' ' || c = '\t' || c = '\n' || c = '\x0b' || c = '\x0c' || c = '\r'

/-- The pieces between white space, which `ss >> tmp` skips. -/
def tokens : List Char → List (List Char)
  | [] => []
  | c :: l =>
    if isSpace c then tokens l
    else match l with
      | [] => [[c]]
      | d :: _ => if isSpace d then [c] :: tokens l
        else match tokens l with
          | [] => [[c]]
          | t :: ts => (c :: t) :: ts

/-- The variable `tmp`, `none` before it has a value, the `failbit` of the string stream and what is left of it. -/
structure Reader (K : Type) where
  tmp : Option K
  failed : Bool
  rest : List (List Char)

/-- `ss >> tmp`: at the end of the line and after a failure `tmp` keeps its value, and it becomes 0 when there is no
number. -/
def extract {K : Type} [Zero K] (conv : List Char → Option K) (r : Reader K) : Reader K :=
  if r.failed then r
  else match r.rest with
    | [] => { r with failed := true }
    | t :: ts => match conv t with
      | some x => ⟨some x, false, ts⟩
      | none => ⟨some 0, true, ts⟩

/-- The values of `tmp` after each of the next `n` extractions. -/
def reads {K : Type} [Zero K] (conv : List Char → Option K) : Nat → Reader K → List (Option K)
  | 0, _ => []
  | n + 1, r => (extract conv r).tmp :: reads conv n (extract conv r)

/-- `setUseIndexCol`, ClassPotentialOrigin.cpp:3534-3537. -/
def useIndexCol : List Char → Bool
  | '\t' :: _ => true
  | _ => false

/-- The number of values that `ReadAndSet` reads: ClassPotentialSM.cpp:122, ClassPotentialCxSM.cpp:169,
ClassPotentialR2HDM.cpp:158, ClassPotentialC2HDM.cpp:181, ClassPotentialN2HDM.cpp:176, ClassPotentialCPintheDark.cpp:192,
ClassTemplate.cpp:161. -/
def count : Models.Class → Nat
  | .sm => 2
  | .cxsm => 12
  | .r2hdm => 8
  | .c2hdm => 9
  | .n2hdm => 12
  | .cpinthedark => 27
  | .template => 2

/-- For each entry of `par` the number `k` of the value that is stored there, and whether it is stored as an integer:
ClassPotentialSM.cpp:122-130, ClassPotentialCxSM.cpp:169-197, ClassPotentialR2HDM.cpp:158-208,
ClassPotentialC2HDM.cpp:181-212, ClassPotentialN2HDM.cpp:176-215, ClassPotentialCPintheDark.cpp:192-237,
ClassTemplate.cpp:161-170. -/
def entries : Models.Class → List (Nat × Bool)
  | .sm => [(1, false), (2, false)]
  | .cxsm => [(1, false), (2, false), (3, false), (4, false), (5, false), (6, false), (7, false), (8, false), (9, false),
      (10, false), (11, false), (12, false)]
  | .r2hdm => [(2, false), (3, false), (4, false), (5, false), (6, false), (7, false), (8, false), (1, true)]
  | .c2hdm => [(2, false), (3, false), (4, false), (5, false), (6, false), (7, false), (8, false), (9, false), (1, true)]
  | .n2hdm => [(2, false), (3, false), (4, false), (5, false), (6, false), (7, false), (8, false), (9, false),
      (11, false), (10, false), (12, false), (1, false)]
  | .cpinthedark => [(25, false), (26, false), (27, false), (23, false), (24, false), (15, false), (16, false),
      (17, false), (18, false), (19, false), (20, false), (21, false), (22, false)]
  | .template => [(1, false), (2, false)]

/-- One entry of `par`; reading `tmp` before it has a value is undefined. -/
def entry {K : Type} (trunc : K → K) (values : List (Option K)) (e : Nat × Bool) : Outcome K :=
  match values[e.1 - 1]? with
  | some (some x) => ok (if e.2 then trunc x else x)
  | _ => ub .uninitialised

/-- `ReadAndSet` of the models: ClassPotentialSM.cpp:112-134, ClassPotentialCxSM.cpp:158-201,
ClassPotentialR2HDM.cpp:147-213, ClassPotentialC2HDM.cpp:170-216, ClassPotentialN2HDM.cpp:162-219,
ClassPotentialCPintheDark.cpp:178-242, ClassTemplate.cpp:148-174.  `trunc` is the conversion to `int`. -/
def readAndSet {K : Type} [Zero K] (conv : List Char → Option K) (trunc : K → K) (index : Bool) (c : Models.Class)
    (line : List Char) : Outcome (List K) :=
  let r : Reader K := ⟨none, false, tokens line⟩
  let values := reads conv (count c) (if index then extract conv r else r)
  (entries c).mapM (entry trunc values)

end Verif.Batch
