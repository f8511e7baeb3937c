import Verif.Outcome

/-!
# Initialising a model object

`initModel`, `resetScale`, `set_All`, `resetbools` and the lazily calculated parts of
`Class_Potential_Origin`.  What a concrete model calculates is a parameter (`Hooks`): the members that
`set_gen` assigns (all of them, including the renormalisation scale; ClassPotentialSM.cpp:137-158 and
the other models), the tensors as a function of these members, the couplings, the counterterms, the
thermal masses and the triple Higgs couplings.  `initVectors` (ClassPotentialOrigin.cpp:3332-3390)
makes `SetCurvatureArrays` forget the counterterm tensors and the thermal masses.
-/

namespace Verif.Potential

/-- The parts that a concrete model supplies. -/
structure Hooks where
  Par : Type
  Gen : Type
  Scale : Type
  Curv : Type
  Coup : Type
  CT : Type
  Deb : Type
  Tri : Type
  /-- `set_gen`: the members calculated from the parameters … -/
  gen : Par → Gen
  /-- … and the renormalisation scale it assigns. -/
  scaleOf : Gen → Scale
  /-- whether `set_gen` calls `SetCurvatureArrays` itself (SM, CxSM, C2HDM, CP in the dark) -/
  genSetsCurv : Bool
  curvature : Gen → Curv
  couplings : Curv → Coup
  calcCT : Gen → Curv → Coup → Scale → CT
  debye : Curv → Deb
  triple : Curv → Coup → Option CT → Scale → Tri
  /-- whether the triple couplings are calculated only once (C2HDM, ClassPotentialC2HDM.cpp:2404) -/
  cachesTriple : Bool

variable (H : Hooks)

/-- The members of the object. -/
structure Obj where
  gen : H.Gen
  scale : H.Scale
  curv : H.Curv
  coup : H.Coup
  ct : Option H.CT
  deb : Option H.Deb
  tri : H.Tri
  curvDone : Bool
  coupDone : Bool
  triDone : Bool
  parStored : Option H.Par
  ctStored : Option H.CT

variable {H}

namespace Obj

/-- `resetbools`, ClassPotentialOrigin.cpp:3472-3479. -/
def resetbools (o : Obj H) : Obj H :=
  { o with curvDone := false, coupDone := false, triDone := false, parStored := none,
           ctStored := none }

/-- `SetCurvatureArrays` with `initVectors`, for example ClassPotentialSM.cpp:363-613. -/
def setCurvatureArrays (o : Obj H) : Obj H :=
  { o with curv := H.curvature o.gen, ct := none, deb := none, curvDone := true }

/-- `if (!SetCurvatureDone) SetCurvatureArrays();` -/
def ensureCurv (o : Obj H) : Obj H := if o.curvDone then o else o.setCurvatureArrays

/-- `set_gen`, for example ClassPotentialSM.cpp:137-158. -/
def setGen (o : Obj H) (par : H.Par) : Obj H :=
  let o := { o with gen := H.gen par, scale := H.scaleOf (H.gen par) }
  if H.genSetsCurv then o.ensureCurv else o

/-- `CalculatePhysicalCouplings`, ClassPotentialOrigin.cpp:962-1401. -/
def calcCouplings (o : Obj H) : Obj H :=
  let o := o.ensureCurv
  { o with coup := H.couplings o.curv, coupDone := true }

/-- `if (!CalcCouplingsdone) CalculatePhysicalCouplings();` -/
def ensureCoup (o : Obj H) : Obj H := if o.coupDone then o else o.calcCouplings

/-- `calc_CT`, for example ClassPotentialSM.cpp:229-269: a constant function that throws when the
tensors or the couplings have not been calculated. -/
def calcCT (o : Obj H) : Outcome H.CT :=
  if !o.curvDone then .err .runtime
  else if !o.coupDone then .err .runtime
  else .ok (H.calcCT o.gen o.curv o.coup o.scale)

/-- `set_CT_Pot_Par`, for example ClassPotentialSM.cpp:160-226. -/
def setCT (o : Obj H) (ct : H.CT) : Obj H := { o with ct := some ct }

/-- `CalculateDebye` and `CalculateDebyeGauge`, ClassPotentialOrigin.cpp:3223-3330. -/
def calcDebye (o : Obj H) : Obj H :=
  let o := o.ensureCurv
  { o with deb := some (H.debye o.curv) }

/-- `initModel(const std::vector<double> &)`, ClassPotentialOrigin.cpp:3769-3785: the object after
the call and the value returned. -/
def initModel (o : Obj H) (par : H.Par) : Obj H × Outcome H.CT :=
  let o := (o.resetbools.setGen par).calcCouplings
  match o.calcCT with
  | .ok ct => ({ (o.setCT ct).calcDebye with parStored := some par, ctStored := some ct }, .ok ct)
  | .err e => (o, .err e)
  | .ub u => (o, .ub u)

/-- `initModel(std::string)`, ClassPotentialOrigin.cpp:3751-3767; `ReadAndSet` reads the parameters
from the line and calls `set_gen`. -/
def initModelLine {Line : Type} (read : Line → H.Par) (o : Obj H) (line : Line) :
    Obj H × Outcome (H.Par × H.CT) :=
  let par := read line
  let p := (o.resetbools.setGen par).initModel par
  match p.2 with
  | .ok ct => ({ p.1 with parStored := some par, ctStored := some ct }, .ok (par, ct))
  | .err e => (p.1, .err e)
  | .ub u => (p.1, .ub u)

/-- `resetScale`, ClassPotentialOrigin.cpp:3787-3796: the object after the call and the value
returned; the scale is changed even when `calc_CT` throws. -/
def resetScale (o : Obj H) (s : H.Scale) : Obj H × Outcome H.CT :=
  let o := { o with scale := s }
  match o.calcCT with
  | .ok ct => ({ o.setCT ct with ctStored := some ct }, .ok ct)
  | .err e => (o, .err e)
  | .ub u => (o, .ub u)

/-- `set_All`, ClassPotentialOrigin.cpp:50-59. -/
def setAll (o : Obj H) (par : H.Par) (ct : H.CT) : Obj H :=
  ((o.setGen par).ensureCurv.setCT ct).calcDebye

/-- `TripleHiggsCouplings`, for example ClassPotentialC2HDM.cpp:2399-2405 and
ClassPotentialR2HDM.cpp:751-755. -/
def tripleHiggs (o : Obj H) : Obj H :=
  let o := o.ensureCurv.ensureCoup
  if H.cachesTriple && o.triDone then o
  else { o with tri := H.triple o.curv o.coup o.ct o.scale, triDone := H.cachesTriple || o.triDone }

end Obj

/-- The public calls that change a model object. -/
inductive Call (H : Hooks) where
  | init (par : H.Par)
  | scale (s : H.Scale)
  | setAll (par : H.Par) (ct : H.CT)
  | setCT (ct : H.CT)
  | setGen (par : H.Par)
  | triple
  | couplings
  | debye
  | curvature

/-- The object after one call, exceptions being caught by the caller. -/
def Obj.call (o : Obj H) : Call H → Obj H
  | .init par => (o.initModel par).1
  | .scale s => (o.resetScale s).1
  | .setAll par ct => o.setAll par ct
  | .setCT ct => o.setCT ct
  | .setGen par => o.setGen par
  | .triple => o.tripleHiggs
  | .couplings => o.calcCouplings
  | .debye => o.calcDebye
  | .curvature => o.setCurvatureArrays

end Verif.Potential
