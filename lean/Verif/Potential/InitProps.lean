import Verif.Potential.Init

/-!
# Re-initialising a model object (C44)
-/

namespace Verif.Potential

variable {H : Hooks}

/-- What an object calculates for the parameters `par` at the scale `s`. -/
def Spec.counterterms (par : H.Par) (s : H.Scale) : H.CT :=
  H.calcCT (H.gen par) (H.curvature (H.gen par)) (H.couplings (H.curvature (H.gen par))) s

/-- An object that belongs to the parameters `par` and the scale `s`. -/
structure Spec.Holds (o : Obj H) (par : H.Par) (s : H.Scale) : Prop where
  gen : o.gen = H.gen par
  scale : o.scale = s
  curv : o.curv = H.curvature (H.gen par)
  coup : o.coup = H.couplings (H.curvature (H.gen par))
  ct : o.ct = some (Spec.counterterms par s)
  deb : o.deb = some (H.debye (H.curvature (H.gen par)))
  curvDone : o.curvDone = true
  coupDone : o.coupDone = true
  parStored : o.parStored = some par
  ctStored : o.ctStored = some (Spec.counterterms par s)

/-- After `initModel(par)` everything belongs to `par`, whatever the state of the object was before;
no exception is thrown, the counterterms returned are those of the scale of the model, and the
triple couplings will be calculated again. -/
theorem C44_init (o : Obj H) (par : H.Par) :
    Spec.Holds (o.initModel par).1 par (H.scaleOf (H.gen par)) ∧
      (o.initModel par).2 = .ok (Spec.counterterms par (H.scaleOf (H.gen par))) ∧
      (o.initModel par).1.triDone = false ∧ (o.initModel par).1.tri = o.tri := by
  cases hg : H.genSetsCurv <;>
    exact ⟨by
      constructor <;>
        simp [Obj.initModel, Obj.resetbools, Obj.setGen, Obj.calcCouplings, Obj.ensureCurv,
          Obj.setCurvatureArrays, Obj.calcCT, Obj.setCT, Obj.calcDebye, Spec.counterterms, hg],
      by simp [Obj.initModel, Obj.resetbools, Obj.setGen, Obj.calcCouplings, Obj.ensureCurv,
          Obj.setCurvatureArrays, Obj.calcCT, Obj.setCT, Obj.calcDebye, Spec.counterterms, hg]⟩

/-- Two objects with any histories agree after `initModel(par)` in everything but the old triple
couplings, … -/
theorem C44_history (o o' : Obj H) (calls calls' : List (Call H)) (par : H.Par) :
    ((calls.foldl Obj.call o).initModel par).1 =
      { ((calls'.foldl Obj.call o').initModel par).1 with
        tri := (calls.foldl Obj.call o).tri } := by
  generalize calls.foldl Obj.call o = a
  generalize calls'.foldl Obj.call o' = b
  obtain ⟨⟨a1, a2, a3, a4, a5, a6, a7, a8, a9, a10⟩, -, a11, a12⟩ := C44_init a par
  obtain ⟨⟨b1, b2, b3, b4, b5, b6, b7, b8, b9, b10⟩, -, b11, b12⟩ := C44_init b par
  generalize (a.initModel par).1 = x at *
  generalize (b.initModel par).1 = y at *
  cases x
  cases y
  simp_all

/-- … and in the triple couplings as soon as these are asked for. -/
theorem C44_history_triple (o o' : Obj H) (calls calls' : List (Call H)) (par : H.Par) :
    ((calls.foldl Obj.call o).initModel par).1.tripleHiggs =
      ((calls'.foldl Obj.call o').initModel par).1.tripleHiggs := by
  generalize calls.foldl Obj.call o = a
  generalize calls'.foldl Obj.call o' = b
  obtain ⟨⟨a1, a2, a3, a4, a5, a6, a7, a8, a9, a10⟩, -, a11, a12⟩ := C44_init a par
  obtain ⟨⟨b1, b2, b3, b4, b5, b6, b7, b8, b9, b10⟩, -, b11, b12⟩ := C44_init b par
  generalize (a.initModel par).1 = x at *
  generalize (b.initModel par).1 = y at *
  cases x
  cases y
  simp_all [Obj.tripleHiggs, Obj.ensureCurv, Obj.ensureCoup]

/-- The triple couplings asked for after `initModel(par)` belong to `par`. -/
theorem C44_triple (o : Obj H) (par : H.Par) :
    (o.initModel par).1.tripleHiggs.tri =
      H.triple (H.curvature (H.gen par)) (H.couplings (H.curvature (H.gen par)))
        (some (Spec.counterterms par (H.scaleOf (H.gen par)))) (H.scaleOf (H.gen par)) := by
  obtain ⟨⟨a1, a2, a3, a4, a5, a6, a7, a8, a9, a10⟩, -, a11, -⟩ := C44_init o par
  simp [Obj.tripleHiggs, Obj.ensureCurv, Obj.ensureCoup, *]

/-- Initialising from a line of the input file is initialising from the parameters in the line; both
the parameters and the counterterms are returned. -/
theorem C44_line {Line : Type} (read : Line → H.Par) (o : Obj H) (line : Line) :
    Obj.initModelLine read o line =
      ((o.initModel (read line)).1,
        .ok (read line, Spec.counterterms (read line) (H.scaleOf (H.gen (read line))))) := by
  have hpre : ((o.resetbools.setGen (read line))).tri = o.tri := by
    cases hg : H.genSetsCurv <;>
      simp [Obj.resetbools, Obj.setGen, Obj.ensureCurv, Obj.setCurvatureArrays, hg]
  obtain ⟨⟨a1, a2, a3, a4, a5, a6, a7, a8, a9, a10⟩, a0, a11, a12⟩ :=
    C44_init (o.resetbools.setGen (read line)) (read line)
  obtain ⟨⟨b1, b2, b3, b4, b5, b6, b7, b8, b9, b10⟩, -, b11, b12⟩ := C44_init o (read line)
  rw [hpre] at a12
  simp only [Obj.initModelLine, a0]
  generalize ((o.resetbools.setGen (read line)).initModel (read line)).1 = x at *
  generalize (o.initModel (read line)).1 = y at *
  cases x
  cases y
  simp_all

/-- After a change of the scale the returned, the stored and the used counterterms are those of the
new scale and everything else still belongs to `par`; earlier changes of the scale have no effect. -/
theorem C44_reset_scale (o : Obj H) (par : H.Par) (s : H.Scale) (ss : List H.Scale) :
    Spec.Holds
        ((ss.foldl (fun a t => (Obj.resetScale a t).1) (o.initModel par).1).resetScale s).1 par s ∧
      ((ss.foldl (fun a t => (Obj.resetScale a t).1) (o.initModel par).1).resetScale s).2 =
        .ok (Spec.counterterms par s) := by
  have hstep : ∀ (a : Obj H) (t t' : H.Scale), Spec.Holds a par t →
      Spec.Holds (a.resetScale t').1 par t' ∧
        (a.resetScale t').2 = .ok (Spec.counterterms par t') := by
    rintro a t t' ⟨a1, a2, a3, a4, a5, a6, a7, a8, a9, a10⟩
    refine ⟨?_, ?_⟩
    · constructor <;> simp [Obj.resetScale, Obj.calcCT, Obj.setCT, Spec.counterterms, *]
    · simp [Obj.resetScale, Obj.calcCT, Spec.counterterms, *]
  have hall : ∀ (ss : List H.Scale) (a : Obj H) (t : H.Scale), Spec.Holds a par t →
      ∃ t', Spec.Holds (ss.foldl (fun a t => (Obj.resetScale a t).1) a) par t' := by
    intro ss
    induction ss with
    | nil => exact fun a t h => ⟨t, h⟩
    | cons t' ss ih => exact fun a t h => ih _ t' (hstep a t t' h).1
  obtain ⟨t, h⟩ := hall ss _ _ (C44_init o par).1
  exact hstep _ t s h

/-- On an object that has not been initialised `resetScale` throws (having changed the scale). -/
theorem C44_reset_scale_uninitialised (o : Obj H) (ho : o.curvDone = false ∨ o.coupDone = false)
    (s : H.Scale) : o.resetScale s = ({ o with scale := s }, .err .runtime) := by
  rcases ho with ho | ho
  · simp [Obj.resetScale, Obj.calcCT, ho]
  · cases h : o.curvDone <;> simp [Obj.resetScale, Obj.calcCT, ho, h]

/-- In a model that calculates the triple couplings only once they are not updated by a change of
the scale. -/
theorem C44_triple_stale (hc : H.cachesTriple = true) (o : Obj H) (par : H.Par) (s : H.Scale) :
    ((o.initModel par).1.tripleHiggs.resetScale s).1.tripleHiggs.tri =
      (o.initModel par).1.tripleHiggs.tri := by
  obtain ⟨⟨a1, a2, a3, a4, a5, a6, a7, a8, a9, a10⟩, -, a11, -⟩ := C44_init o par
  simp [Obj.tripleHiggs, Obj.resetScale, Obj.calcCT, Obj.setCT, Obj.ensureCurv, Obj.ensureCoup, *]

/-- In the other models they are. -/
theorem C44_triple_scale (hc : H.cachesTriple = false) (o : Obj H) (par : H.Par) (s : H.Scale) :
    ((o.initModel par).1.tripleHiggs.resetScale s).1.tripleHiggs.tri =
      H.triple (H.curvature (H.gen par)) (H.couplings (H.curvature (H.gen par)))
        (some (Spec.counterterms par s)) s := by
  obtain ⟨⟨a1, a2, a3, a4, a5, a6, a7, a8, a9, a10⟩, -, a11, -⟩ := C44_init o par
  simp [Obj.tripleHiggs, Obj.resetScale, Obj.calcCT, Obj.setCT, Obj.ensureCurv, Obj.ensureCoup,
    Spec.counterterms, *]

/-- Without `initModel`, `set_All` on a used object keeps the tensors of the old parameters, … -/
theorem C44_set_all_stale (o : Obj H) (par par' : H.Par) (ct : H.CT) :
    ((o.initModel par).1.setAll par' ct).curv = H.curvature (H.gen par) ∧
      ((o.initModel par).1.setAll par' ct).gen = H.gen par' := by
  obtain ⟨⟨a1, a2, a3, a4, a5, a6, a7, a8, a9, a10⟩, -⟩ := C44_init o par
  cases hg : H.genSetsCurv <;>
    simp [Obj.setAll, Obj.setGen, Obj.ensureCurv, Obj.setCT, Obj.calcDebye, *]

/-- … on an unused one it gives the tensors of the new ones. -/
theorem C44_set_all_fresh (o : Obj H) (ho : o.curvDone = false) (par : H.Par) (ct : H.CT) :
    (o.setAll par ct).curv = H.curvature (H.gen par) ∧ (o.setAll par ct).ct = some ct ∧
      (o.setAll par ct).deb = some (H.debye (H.curvature (H.gen par))) ∧
      (o.setAll par ct).gen = H.gen par ∧ (o.setAll par ct).scale = H.scaleOf (H.gen par) := by
  cases hg : H.genSetsCurv <;>
    simp [Obj.setAll, Obj.setGen, Obj.ensureCurv, Obj.setCurvatureArrays, Obj.setCT, Obj.calcDebye,
      hg, ho]

/-- A toy model in which every part depends on the parameter and the scale. -/
@[reducible] def toyHooks : Hooks where
  Par := Nat
  Gen := Nat
  Scale := Nat
  Curv := Nat
  Coup := Nat
  CT := Nat
  Deb := Nat
  Tri := Nat
  gen := fun p => p + 1
  scaleOf := fun _ => 246
  genSetsCurv := false
  curvature := fun g => 2 * g
  couplings := fun c => 3 * c
  calcCT := fun g c k s => g + c + k + s
  debye := fun c => c + 5
  triple := fun c k ct s => c + k + ct.getD 0 + s
  cachesTriple := true

/-- A fresh object of the toy model. -/
def toyObj : Obj toyHooks :=
  ⟨(0 : Nat), (0 : Nat), (0 : Nat), (0 : Nat), none, none, (0 : Nat), false, false, false, none, none⟩

/-- In the toy model the caching is visible: the triple couplings after a change of the scale are
not those of a new object at the new scale. -/
example : ((toyObj.initModel (3 : Nat)).1.tripleHiggs.resetScale (100 : Nat)).1.tripleHiggs.tri ≠
    ((toyObj.initModel (3 : Nat)).1.resetScale (100 : Nat)).1.tripleHiggs.tri := by
  show (toyObj.initModel (3 : Nat)).1.tripleHiggs.tri ≠ _
  have h : ∀ a b : Nat, a = 560 → b = 268 → a ≠ b := by omega
  exact h _ _ rfl rfl

/-- The object of the toy model after `initModel`. -/
example : (toyObj.initModel (3 : Nat)).2 = .ok (282 : Nat) := rfl

end Verif.Potential
