import Verif.Via.Model
import Verif.Via.Spec
import Verif.Via.Ode
import Mathlib.Tactic.Ring
import Mathlib.Tactic.FinCases
import Mathlib.Tactic.Positivity
import Mathlib.Topology.Algebra.Field
import Mathlib.Topology.MetricSpace.Pseudo.Defs

set_option linter.unusedSimpArgs false

/-!
# The three systems are linear in the densities and the sources
-/

namespace Verif.Via

open Set

/-! ## Linearity -/

theorem topSystem_lin (r : Rates ℝ) (num gamM s s' c : ℝ) (w w' : Fin 8 → ℝ) :
    topSystem r num gamM (s + c * s') (w + c • w') =
      topSystem r num gamM s w + c • topSystem r num gamM s' w' := by
  ext i
  fin_cases i <;> simp [topSystem] <;> ring

theorem botSystem_lin (r : Rates ℝ) (gamYb numT numB gamMt gamMb sT sB sT' sB' c : ℝ) (w w' : Fin 12 → ℝ) :
    botSystem r gamYb numT numB gamMt gamMb (sT + c * sT') (sB + c * sB') (w + c • w') =
      botSystem r gamYb numT numB gamMt gamMb sT sB w +
        c • botSystem r gamYb numT numB gamMt gamMb sT' sB' w' := by
  ext i
  fin_cases i <;> simp [botSystem] <;> ring

theorem tauSystem_lin (r : Rates ℝ) (gamYb numT numB numTau gamMt gamMb gamMtau sT sB sL sT' sB' sL' c : ℝ)
    (w w' : Fin 18 → ℝ) :
    tauSystem r gamYb numT numB numTau gamMt gamMb gamMtau (sT + c * sT') (sB + c * sB') (sL + c * sL')
        (w + c • w') =
      tauSystem r gamYb numT numB numTau gamMt gamMb gamMtau sT sB sL w +
        c • tauSystem r gamYb numT numB numTau gamMt gamMb gamMtau sT' sB' sL' w' := by
  ext i
  fin_cases i <;> simp [tauSystem] <;> ring

/-- The homogeneous parts as linear maps. -/
noncomputable def topLin (r : Rates ℝ) (num gamM : ℝ) : (Fin 8 → ℝ) →ₗ[ℝ] (Fin 8 → ℝ) where
  toFun := topSystem r num gamM 0
  map_add' w w' := by have := topSystem_lin r num gamM 0 0 1 w w'; simpa using this
  map_smul' c w := by
    have := topSystem_lin r num gamM 0 0 c 0 w
    have h0 : topSystem r num gamM 0 0 = 0 := by
      ext i
      fin_cases i <;> simp [topSystem]
    simpa [h0] using this

noncomputable def botLin (r : Rates ℝ) (gamYb numT numB gamMt gamMb : ℝ) : (Fin 12 → ℝ) →ₗ[ℝ] (Fin 12 → ℝ) where
  toFun := botSystem r gamYb numT numB gamMt gamMb 0 0
  map_add' w w' := by have := botSystem_lin r gamYb numT numB gamMt gamMb 0 0 0 0 1 w w'; simpa using this
  map_smul' c w := by
    have := botSystem_lin r gamYb numT numB gamMt gamMb 0 0 0 0 c 0 w
    have h0 : botSystem r gamYb numT numB gamMt gamMb 0 0 0 = 0 := by
      ext i
      fin_cases i <;> simp [botSystem]
    simpa [h0] using this

noncomputable def tauLin (r : Rates ℝ) (gamYb numT numB numTau gamMt gamMb gamMtau : ℝ) :
    (Fin 18 → ℝ) →ₗ[ℝ] (Fin 18 → ℝ) where
  toFun := tauSystem r gamYb numT numB numTau gamMt gamMb gamMtau 0 0 0
  map_add' w w' := by
    have := tauSystem_lin r gamYb numT numB numTau gamMt gamMb gamMtau 0 0 0 0 0 0 1 w w'
    simpa using this
  map_smul' c w := by
    have := tauSystem_lin r gamYb numT numB numTau gamMt gamMb gamMtau 0 0 0 0 0 0 c 0 w
    have h0 : tauSystem r gamYb numT numB numTau gamMt gamMb gamMtau 0 0 0 0 = 0 := by
      ext i
      fin_cases i <;> simp [tauSystem]
    simpa [h0] using this

/-! ## Continuity of the coefficients -/

theorem topSystem_cont (r : Rates ℝ) {num gamM : ℝ → ℝ} {S : Set ℝ} (hn : ContinuousOn num S)
    (hg : ContinuousOn gamM S) (h0 : ∀ z ∈ S, 0 < num z) (w : Fin 8 → ℝ) :
    ContinuousOn (fun z => topSystem r (num z) (gamM z) 0 w) S := by
  have a1 : ContinuousOn (fun z => kappaQL * num z) S := continuousOn_const.mul hn
  have a2 : ContinuousOn (fun z => kappaQR * num z) S := continuousOn_const.mul hn
  have n1 : ∀ z ∈ S, kappaQL * num z ≠ 0 := fun z hz => by
    have := h0 z hz; simp only [kappaQL]; positivity
  have n2 : ∀ z ∈ S, kappaQR * num z ≠ 0 := fun z hz => by
    have := h0 z hz; simp only [kappaQR]; positivity
  have d1 : ∀ x : ℝ, ContinuousOn (fun z => x / (kappaQL * num z)) S := fun x => continuousOn_const.div a1 n1
  have d2 : ∀ x : ℝ, ContinuousOn (fun z => x / (kappaQR * num z)) S := fun x => continuousOn_const.div a2 n2
  have c1 := d1 (w 0)
  have c2 := d1 (2 * w 0)
  have c3 := d2 (w 1)
  rw [continuousOn_pi]
  intro i
  fin_cases i <;> simp only [topSystem, Matrix.cons_val', Matrix.cons_val, Fin.mk_one, Fin.zero_eta,
    Fin.reduceFinMk] <;> fun_prop

theorem botSystem_cont (r : Rates ℝ) (gamYb : ℝ) {numT numB gamMt gamMb : ℝ → ℝ} {S : Set ℝ}
    (hT : ContinuousOn numT S) (hB : ContinuousOn numB S) (hgT : ContinuousOn gamMt S)
    (hgB : ContinuousOn gamMb S) (pT : ∀ z ∈ S, 0 < numT z) (pB : ∀ z ∈ S, 0 < numB z) (w : Fin 12 → ℝ) :
    ContinuousOn (fun z => botSystem r gamYb (numT z) (numB z) (gamMt z) (gamMb z) 0 0 w) S := by
  have n1 : ∀ z ∈ S, kappaQR * numT z ≠ 0 := fun z hz => by
    have := pT z hz; simp only [kappaQR]; positivity
  have n2 : ∀ z ∈ S, kappaQR * numB z ≠ 0 := fun z hz => by
    have := pB z hz; simp only [kappaQR]; positivity
  have n3 : ∀ z ∈ S, kappaQL * numT z + kappaQL * numB z ≠ 0 := fun z hz => by
    have := pT z hz; have := pB z hz; simp only [kappaQL]; positivity
  have n4 : ∀ z ∈ S, kappaQL * numT z * (kappaQL * numB z) / (kappaQL * numT z + kappaQL * numB z) ≠ 0 :=
    fun z hz => by
      have := pT z hz; have := pB z hz; simp only [kappaQL]; positivity
  have a1 : ContinuousOn (fun z => kappaQL * numT z) S := continuousOn_const.mul hT
  have a2 : ContinuousOn (fun z => kappaQL * numB z) S := continuousOn_const.mul hB
  have aq : ContinuousOn
      (fun z => kappaQL * numT z * (kappaQL * numB z) / (kappaQL * numT z + kappaQL * numB z)) S :=
    (a1.mul a2).div (a1.add a2) n3
  have c1 : ∀ x : ℝ, ContinuousOn (fun z => x / (kappaQR * numT z)) S := fun x =>
    continuousOn_const.div (continuousOn_const.mul hT) n1
  have c2 : ∀ x : ℝ, ContinuousOn (fun z => x / (kappaQR * numB z)) S := fun x =>
    continuousOn_const.div (continuousOn_const.mul hB) n2
  have c3 : ∀ x : ℝ, ContinuousOn (fun z => x /
      (kappaQL * numT z * (kappaQL * numB z) / (kappaQL * numT z + kappaQL * numB z))) S := fun x =>
    continuousOn_const.div aq n4
  have e1 := c1 (w 1)
  have e2 := c2 (w 2)
  have e3 := c3 (w 0)
  have e4 := c3 (2 * w 0)
  rw [continuousOn_pi]
  intro i
  fin_cases i <;> simp only [botSystem, Matrix.cons_val', Matrix.cons_val, Fin.mk_one, Fin.zero_eta,
    Fin.reduceFinMk] <;> fun_prop

theorem tauSystem_cont (r : Rates ℝ) (gamYb : ℝ) {numT numB numL gamMt gamMb gamMl : ℝ → ℝ} {S : Set ℝ}
    (hT : ContinuousOn numT S) (hB : ContinuousOn numB S) (hL : ContinuousOn numL S)
    (hgT : ContinuousOn gamMt S) (hgB : ContinuousOn gamMb S) (hgL : ContinuousOn gamMl S)
    (pT : ∀ z ∈ S, 0 < numT z) (pB : ∀ z ∈ S, 0 < numB z) (pL : ∀ z ∈ S, 0 < numL z) (w : Fin 18 → ℝ) :
    ContinuousOn (fun z => tauSystem r gamYb (numT z) (numB z) (numL z) (gamMt z) (gamMb z) (gamMl z) 0 0 0 w)
      S := by
  have n1 : ∀ z ∈ S, kappaQR * numT z ≠ 0 := fun z hz => by
    have := pT z hz; simp only [kappaQR]; positivity
  have n2 : ∀ z ∈ S, kappaQR * numB z ≠ 0 := fun z hz => by
    have := pB z hz; simp only [kappaQR]; positivity
  have n3 : ∀ z ∈ S, kappaQL * numT z + kappaQL * numB z ≠ 0 := fun z hz => by
    have := pT z hz; have := pB z hz; simp only [kappaQL]; positivity
  have n4 : ∀ z ∈ S, kappaQL * numT z * (kappaQL * numB z) / (kappaQL * numT z + kappaQL * numB z) ≠ 0 :=
    fun z hz => by
      have := pT z hz; have := pB z hz; simp only [kappaQL]; positivity
  have n5 : ∀ z ∈ S, kappaLL * numL z ≠ 0 := fun z hz => by
    have := pL z hz; simp only [kappaLL]; positivity
  have n6 : ∀ z ∈ S, kappaRL * numL z ≠ 0 := fun z hz => by
    have := pL z hz; simp only [kappaRL]; positivity
  have a1 : ContinuousOn (fun z => kappaQL * numT z) S := continuousOn_const.mul hT
  have a2 : ContinuousOn (fun z => kappaQL * numB z) S := continuousOn_const.mul hB
  have aq : ContinuousOn
      (fun z => kappaQL * numT z * (kappaQL * numB z) / (kappaQL * numT z + kappaQL * numB z)) S :=
    (a1.mul a2).div (a1.add a2) n3
  have c1 : ∀ x : ℝ, ContinuousOn (fun z => x / (kappaQR * numT z)) S := fun x =>
    continuousOn_const.div (continuousOn_const.mul hT) n1
  have c2 : ∀ x : ℝ, ContinuousOn (fun z => x / (kappaQR * numB z)) S := fun x =>
    continuousOn_const.div (continuousOn_const.mul hB) n2
  have c3 : ∀ x : ℝ, ContinuousOn (fun z => x /
      (kappaQL * numT z * (kappaQL * numB z) / (kappaQL * numT z + kappaQL * numB z))) S := fun x =>
    continuousOn_const.div aq n4
  have c4 : ∀ x : ℝ, ContinuousOn (fun z => x / (kappaLL * numL z)) S := fun x =>
    continuousOn_const.div (continuousOn_const.mul hL) n5
  have c5 : ∀ x : ℝ, ContinuousOn (fun z => x / (kappaRL * numL z)) S := fun x =>
    continuousOn_const.div (continuousOn_const.mul hL) n6
  have e1 := c1 (w 1)
  have e2 := c2 (w 2)
  have e3 := c3 (w 0)
  have e4 := c3 (2 * w 0)
  have e5 := c4 (w 3)
  have e6 := c5 (w 5)
  rw [continuousOn_pi]
  intro i
  fin_cases i <;> simp only [tauSystem, Matrix.cons_val', Matrix.cons_val, Fin.mk_one, Fin.zero_eta,
    Fin.reduceFinMk] <;> fun_prop

end Verif.Via
