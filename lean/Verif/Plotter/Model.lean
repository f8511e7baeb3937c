import Verif.Programs.Options
import Verif.Batch.Model
import Verif.Tracer.Geometry
import Verif.Utility.Model

/-!
# Model of the program `PotPlotter`

Floating-point numbers are rational numbers; `std::stod` is the parameter `stod`.
-/

namespace Verif.Plotter

open Outcome Verif.Parser Verif.Programs

/-- The options of one direction, PotPlotter.cpp:39-42. -/
structure Dir where
  low : ℚ := -1
  high : ℚ := -1
  n : Int := 0
  deriving DecidableEq

/-- `struct CLIOptions`, PotPlotter.cpp:33-49. -/
structure Options where
  modelSet : Bool
  line : Int := 2
  temperature : ℚ := -1
  npoints : Int := 100
  d1 : Dir := {}
  d2 : Dir := {}
  d3 : Dir := {}
  d4 : Dir := {}
  d5 : Dir := {}
  d6 : Dir := {}
  slice : Bool := false
  minStart : List ℚ := []
  minEnd : List ℚ := []
  point : List ℚ := []

/-- `CLIOptions::good`, PotPlotter.cpp:374-425. -/
def good (o : Options) : Bool :=
  if o.modelSet = false then false
  else if o.temperature < 0 then false
  else if o.slice ∧ (o.minStart.length = 0 ∨ o.minEnd.length = 0) then false
  else if o.d1.n < 0 ∨ o.d2.n < 0 ∨ o.d3.n < 0 ∨ o.d4.n < 0 ∨ o.d5.n < 0 ∨ o.d6.n < 0 ∨ o.npoints < 0 then false
  else if o.d1.low > o.d1.high ∨ o.d2.low > o.d2.high ∨ o.d3.low > o.d3.high ∨ o.d4.low > o.d4.high ∨
      o.d5.low > o.d5.high ∨ o.d6.low > o.d6.high then false
  else if (o.d1.n > 0 ∧ (o.d1.low = -1 ∨ o.d1.high = -1)) ∨ (o.d2.n > 0 ∧ (o.d2.low = -1 ∨ o.d2.high = -1)) ∨
      (o.d3.n > 0 ∧ (o.d3.low = -1 ∨ o.d3.high = -1)) ∨ (o.d4.n > 0 ∧ (o.d4.low = -1 ∨ o.d4.high = -1)) ∨
      (o.d5.n > 0 ∧ (o.d5.low = -1 ∨ o.d5.high = -1)) ∨ (o.d6.n > 0 ∧ (o.d6.low = -1 ∨ o.d6.high = -1)) then false
  else true

/-- A list of numbers, e.g. PotPlotter.cpp:443-449. -/
def vectorOpt (stod : List Char → Outcome ℚ) (p : Parser) (name : String) : Outcome (List ℚ) :=
  orDefault (getValue p name.toList >>= fun s => (Utility.split s ',').mapM stod) []

/-- `lowi`, `highi` and `npointsi`; all three are read as integers, PotPlotter.cpp:456-592. -/
def dirOpt (p : Parser) (low high n : String) : Outcome Dir := do
  let n ← intOpt p n 0
  let low ← intOpt p low (-1)
  let high ← intOpt p high (-1)
  ok ⟨low, high, n⟩

/-- The constructor of `CLIOptions`, PotPlotter.cpp:427-644.  The numbers of points, the lower and the upper bounds
of all directions are read one after the other in the program. -/
def readOptions (stod : List Char → Outcome ℚ) (modelSet : List Char → Bool) (p : Parser) : Outcome Options := do
  checkRequired p
  let model ← getValue p "model".toList
  let _ ← getValue p "input".toList
  let _ ← getValue p "output".toList
  let line ← getValue p "line".toList >>= stoi
  let temperature ← getValue p "temperature".toList >>= stod
  let point ← vectorOpt stod p "point"
  let d1 ← dirOpt p "low1" "high1" "npoints1"
  let d2 ← dirOpt p "low2" "high2" "npoints2"
  let d3 ← dirOpt p "low3" "high3" "npoints3"
  let d4 ← dirOpt p "low4" "high4" "npoints4"
  let d5 ← dirOpt p "low5" "high5" "npoints5"
  let d6 ← dirOpt p "low6" "high6" "npoints6"
  let slice ← flagOpt p "slice" false
  let minStart ← vectorOpt stod p "min_start"
  let minEnd ← vectorOpt stod p "min_end"
  let npoints ← intOpt p "npoints" 100
  ok ⟨modelSet model, line, temperature, npoints, d1, d2, d3, d4, d5, d6, slice, minStart, minEnd, point⟩

/-- One level of the nested loops with index `i` of the outermost loop, PotPlotter.cpp:212-359: level `j` varies the
direction `i + j - 1` of `a` with the `j`-th options.  The result are the points that are printed. -/
def level (nVEV i : Nat) : Nat → List Dir → List ℚ → Outcome (List (List ℚ))
  | _, [], _ => ok []
  | j, d :: ds, a => do
    let grid ← Tracer.create1DimGrid a ((i + j - 1 : Nat) : Int) d.low d.high d.n
    if nVEV = j then ok grid
    else if i + j < nVEV then
      if ds = [] then err .runtime
      else do
        let inner ← grid.mapM (level nVEV i (j + 1) ds)
        ok inner.flatten
    else ok []

/-- The options of all directions. -/
def dirs (o : Options) : List Dir := [o.d1, o.d2, o.d3, o.d4, o.d5, o.d6]

/-- The start vector, PotPlotter.cpp:191-207. -/
def startIni (o : Options) (vevStart : List ℚ) : Outcome (List ℚ) :=
  (List.range vevStart.length).mapM fun i => do
    let d ← at' (dirs o) i
    let v ← at' vevStart i
    ok (if d.n > 0 then 0 else v)

/-- All points that are printed, PotPlotter.cpp:191-359. -/
def points (o : Options) (nVEV : Nat) (vevStart : List ℚ) : Outcome (List (List ℚ)) := do
  let ini ← startIni o vevStart
  let all ← (List.range nVEV).mapM fun i => level nVEV i 1 (dirs o) ini
  ok all.flatten

/-- `Create1DimGrid(min_start, min_end, npoints)` for vectors of the same size, minimum_tracer.cpp:1409-1426. -/
def line (a b : List ℚ) (npoints : Int) : List (List ℚ) :=
  let diff := List.zipWith (fun x y => x - y) b a
  if npoints > 0 then
    let step := diff.map fun x => 1 / (npoints : ℚ) * x
    a :: (List.range npoints.toNat).map fun i : Nat => List.zipWith (fun x y => x + ((i : ℚ) + 1) * y) a step
  else [a]

/-- What the program finds: files, the steps of the search for the line, labels and number of the fields and the
effective potential. -/
structure Env where
  inGood : Bool
  outGood : Bool
  steps : List Batch.Step
  labels : List String
  nVEV : Nat
  veff : List ℚ → ℚ → ℚ

/-- Exit status and cells of the file: header and rows, `none` if it was not opened. -/
structure Run where
  success : Bool
  file : Option (List String × List (List ℚ))

/-- `main` after the options have been read, PotPlotter.cpp:62-372.  The values of a row are separated by `sep`. -/
def main (o : Options) (e : Env) : Run :=
  if good o = false then ⟨false, none⟩
  else if e.inGood = false then ⟨false, none⟩
  else if e.outGood = false then ⟨false, none⟩
  else if Batch.found e.steps = false then ⟨false, some ([], [])⟩
  else
    let temp := o.temperature
    if o.slice then
      if o.minEnd.length = o.minStart.length ∧ o.minEnd.length = e.nVEV then
        ⟨true, some (e.labels ++ ["Veff(v,T)", "T"],
          (line o.minStart o.minEnd o.npoints).map fun a => a ++ [e.veff a temp, temp])⟩
      else ⟨false, some ([], [])⟩
    else
      let header := e.labels ++ e.labels.map (· ++ "_point") ++ ["Veff(v,T)", "Veff(point,T)", "T"]
      let run := fun vevStart => match points o e.nVEV vevStart with
        | .ok ps => (⟨true, some (header, ps.map fun a => a ++ vevStart ++ [e.veff a temp, e.veff vevStart temp, temp])⟩ : Run)
        | _ => ⟨false, some (header, [])⟩
      if o.point.length = 0 then run (List.replicate e.nVEV 0)
      else if o.point.length = e.nVEV then run o.point
      else ⟨false, some (header, [])⟩

end Verif.Plotter
