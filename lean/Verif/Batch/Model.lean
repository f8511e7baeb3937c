import Verif.Outcome

/-!
# Input files of the programs

The loops of the programs over the lines of an input file.  What a program does with a line is recorded as a step: the
line is taken as the legend, or as a parameter point.
-/

namespace Verif.Batch

/-- A `std::ifstream`: the characters that are left, `eofbit` and `failbit`. -/
structure Stream where
  rest : List Char
  eof : Bool
  failed : Bool

/-- A file that has just been opened. -/
def openFile (file : List Char) : Stream := ⟨file, false, false⟩

/-- `std::getline(infile, linestr)`.  On a stream that is not good the string keeps its `old` value.  Reaching the end
sets `eofbit`, and also `failbit` when nothing was extracted. -/
def getLine (s : Stream) (old : List Char) : Stream × List Char :=
  if s.eof = true ∨ s.failed = true then ({ s with failed := true }, old)
  else if '\n' ∈ s.rest then
    (⟨(s.rest.dropWhile (· != '\n')).tail, false, false⟩, s.rest.takeWhile (· != '\n'))
  else (⟨[], true, s.rest.isEmpty⟩, s.rest)

/-- What is done with a line: its first columns are taken as the names of columns (`setUseIndexCol`), or as a parameter
point (`initModel`). -/
inductive Step where
  | legend (line : List Char)
  | point (line : List Char)
  deriving DecidableEq

/-- The loop `while (getline(infile, linestr))` that breaks after line `last` and at the end of the file; `n` is
`linecounter`.  `none` when the loop does not end within `fuel` passes. -/
def whileLoop (body : Nat → List Char → List Step) (last : Int) : Nat → Nat → Stream → List Char → Option (List Step)
  | 0, _, _, _ => none
  | fuel + 1, n, s, old =>
    let r := getLine s old
    if r.1.failed then some []
    else if last < n then some []
    else if r.1.eof then some (body n r.2)
    else (whileLoop body last fuel (n + 1) r.1 r.2).map (body n r.2 ++ ·)

/-- The body of the loop in the programs with a legend in the first line: CalcCT.cpp:82-99, BSMPT.cpp:95-113,
TripleHiggsNLO.cpp:84-106, CalculateEWBG.cpp:97-128, NLOVEV.cpp:87-105. -/
def legendBody (first last : Int) (n : Nat) (line : List Char) : List Step :=
  (if n = 1 then [.legend line] else []) ++
    if first ≤ n ∧ (n : Int) ≤ last ∧ n ≠ 1 then [.point line] else []

/-- The main loop of CalcCT.cpp:80-100, BSMPT.cpp:93-225, TripleHiggsNLO.cpp:81-141 and CalculateEWBG.cpp:95-237. -/
def legendProgram (first last : Int) (fuel : Nat) (file : List Char) : Option (List Step) :=
  whileLoop (legendBody first last) last fuel 1 (openFile file) []

/-- The body of the loop in the tracing programs, which keep the first line as legend: CalcTemps.cpp:99-115,
CalcGW.cpp:102-118, MinimaTracer.cpp:90-114. -/
def tracingBody (first last : Int) (n : Nat) (line : List Char) : List Step :=
  (if n = 1 then [.legend line] else []) ++
    if first ≤ n ∧ (n : Int) ≤ last then [.point line] else []

/-- The main loop of CalcTemps.cpp:97-255, CalcGW.cpp:100-275 and MinimaTracer.cpp:88-272. -/
def tracingProgram (first last : Int) (fuel : Nat) (file : List Char) : Option (List Step) :=
  whileLoop (tracingBody first last) last fuel 1 (openFile file) []

/-- The loop of Test.cpp:81-101. -/
def testProgram (line : Int) (fuel : Nat) (file : List Char) : Option (List Step) :=
  whileLoop (fun n l => (if n = 1 then [.legend l] else []) ++
    if (n : Int) = line ∧ n ≠ 1 then [.point l] else []) line fuel 1 (openFile file) []

/-- The loop `while (true)` of NLOVEV.cpp:83-137, which does not look whether a line could be read. -/
def endlessLoop (first last : Int) : Nat → Nat → Stream → List Char → Option (List Step)
  | 0, _, _, _ => none
  | fuel + 1, n, s, old =>
    let r := getLine s old
    if last < n then some []
    else if r.1.eof then some (legendBody first last n r.2)
    else (endlessLoop first last fuel (n + 1) r.1 r.2).map (legendBody first last n r.2 ++ ·)

/-- The main loop of NLOVEV.cpp:83-137. -/
def nlovevProgram (first last : Int) (fuel : Nat) (file : List Char) : Option (List Step) :=
  endlessLoop first last fuel 1 (openFile file) []

/-- The search for one line in VEVEVO.cpp:84-102, PotPlotter.cpp:92-110, CreateMuGrid.cpp:76-94, PlotEWBG_vw.cpp:87-112
and PlotEWBG_nL.cpp:91-116. -/
def searchLoop (line : Int) : Nat → Nat → Stream → List Char → Option (List Step)
  | 0, _, _, _ => none
  | fuel + 1, n, s, old =>
    if s.eof then some []
    else
      let r := getLine s old
      if n ≠ 1 ∧ (n : Int) ≠ line ∧ line < n then some []
      else
        let now := if n = 1 then [.legend r.2] else if (n : Int) = line then [.point r.2] else []
        if r.1.eof then some now else (searchLoop line fuel (n + 1) r.1 r.2).map (now ++ ·)

/-- The search for one line in a file. -/
def searchProgram (line : Int) (fuel : Nat) (file : List Char) : Option (List Step) :=
  searchLoop line fuel 1 (openFile file) []

/-- `found`, VEVEVO.cpp:83-108: whether the program goes on after the search. -/
def found (steps : List Step) : Bool := steps.any fun
  | .legend _ => false
  | .point _ => true

end Verif.Batch
