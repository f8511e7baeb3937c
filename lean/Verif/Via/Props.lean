import Verif.Via.Solutions
import Verif.Via.Reactions
import Mathlib.Analysis.SpecialFunctions.Log.Deriv
import Mathlib.MeasureTheory.Integral.IntervalIntegral.Basic
import Mathlib.Analysis.Calculus.Deriv.Prod
import Mathlib.Order.Filter.AtTopBot.Basic
import Mathlib.Tactic.FinCases

set_option linter.unusedSimpArgs false

/-!
# C88: the phase, the source, and solutions that are not zero
-/

namespace Verif.Via

open Set Verif Outcome Spec Filter Topology

private theorem tanh_eq (x : ℝ) : Real.tanh x = 1 - 2 / (Real.exp (2 * x) + 1) := by
  rw [Real.tanh_eq_sinh_div_cosh, Real.sinh_eq, Real.cosh_eq, Real.exp_neg,
    show 2 * x = x + x by ring, Real.exp_add]
  have h := Real.exp_pos x
  have : Real.exp x * Real.exp x + 1 ≠ 0 := by positivity
  field_simp
  ring

private theorem tanh_top : Tendsto Real.tanh atTop (𝓝 1) := by
  have h : Tendsto (fun x : ℝ => 1 - 2 / (Real.exp (2 * x) + 1)) atTop (𝓝 (1 - 0)) := by
    apply Tendsto.sub tendsto_const_nhds
    apply Tendsto.div_atTop tendsto_const_nhds
    apply tendsto_atTop_add_const_right
    exact Real.tendsto_exp_atTop.comp (tendsto_id.const_mul_atTop (by norm_num))
  rw [sub_zero] at h
  exact h.congr fun x => (tanh_eq x).symm

private theorem tanh_bot : Tendsto Real.tanh atBot (𝓝 (-1)) := by
  have h := (tanh_top.comp tendsto_neg_atBot_atTop).neg
  refine h.congr fun x => ?_
  simp [Real.tanh_neg]

/-- The phase interpolates between its values in the broken and the symmetric phase; the program's first and
second derivatives are the derivatives. -/
theorem C88_theta (lw sym brk : ℝ) (hl : 0 < lw) (h : ¬ (|sym| < 1e-12 ∧ |brk| < 1e-12)) :
    (∀ z, HasDerivAt (fun z => (calcTheta lw sym brk z).1) (calcTheta lw sym brk z).2.1 z) ∧
    (∀ z, HasDerivAt (fun z => (calcTheta lw sym brk z).2.1) (calcTheta lw sym brk z).2.2 z) ∧
    Tendsto (fun z => (calcTheta lw sym brk z).1) atBot (𝓝 brk) ∧
    Tendsto (fun z => (calcTheta lw sym brk z).1) atTop (𝓝 sym) ∧
    (calcTheta lw sym brk 0).1 = (brk + sym) / 2 := by
  unfold calcTheta
  simp only [if_neg h]
  have hc : ∀ x, Real.cosh x ≠ 0 := fun x => (Real.cosh_pos x).ne'
  have hdiv : ∀ z : ℝ, HasDerivAt (fun z : ℝ => z / lw) (1 / lw) z := fun z => (hasDerivAt_id z).div_const lw
  have ht : ∀ x, HasDerivAt Real.tanh (1 / Real.cosh x ^ 2) x := by
    intro x
    have := (Real.hasDerivAt_sinh x).div (Real.hasDerivAt_cosh x) (hc x)
    refine (this.congr_of_eventuallyEq (Eventually.of_forall fun y => ?_)).congr_deriv ?_
    · exact Real.tanh_eq_sinh_div_cosh y
    · rw [show Real.cosh x * Real.cosh x - Real.sinh x * Real.sinh x = 1 by
        have := Real.cosh_sq x; linarith [sq (Real.cosh x), sq (Real.sinh x)]]
  have hl' := hl.ne'
  refine ⟨fun z => ?_, fun z => ?_, ?_, ?_, ?_⟩
  · have := (((ht (z / lw)).comp z (hdiv z)).const_add 1).const_mul ((brk - sym) / 2)
    have := this.const_sub brk
    refine this.congr_deriv ?_
    have := hc (z / lw)
    field_simp
  · have h2 : HasDerivAt (fun z => Real.cosh (z / lw)) (Real.sinh (z / lw) * (1 / lw)) z :=
      HasDerivAt.comp (h₂ := Real.cosh) z (Real.hasDerivAt_cosh (z / lw)) (hdiv z)
    have h3 : HasDerivAt (fun z => 2 * lw * Real.cosh (z / lw) ^ 2)
        (2 * lw * (2 * Real.cosh (z / lw) * (Real.sinh (z / lw) * (1 / lw)))) z := by
      simpa using (h2.pow 2).const_mul (2 * lw)
    have h4 := (hasDerivAt_const z (-(brk - sym))).div h3
      (by have := hc (z / lw); positivity)
    refine h4.congr_deriv ?_
    have := hc (z / lw)
    rw [Real.tanh_eq_sinh_div_cosh]
    field_simp
    ring
  · have hz : Tendsto (fun z : ℝ => z / lw) atBot atBot := tendsto_id.atBot_div_const hl
    have := (((tanh_bot.comp hz).const_add 1).const_mul ((brk - sym) / 2)).const_sub brk
    simpa using this
  · have hz : Tendsto (fun z : ℝ => z / lw) atTop atTop := tendsto_id.atTop_div_const hl
    have := (((tanh_top.comp hz).const_add 1).const_mul ((brk - sym) / 2)).const_sub brk
    refine this.trans ?_
    rw [show brk - (brk - sym) / 2 * (1 + 1) = sym by ring]
  · simp
    ring

/-- Below the threshold the phase and its derivatives are zero. -/
theorem C88_theta_threshold (lw sym brk z : ℝ) (hs : |sym| < 1e-12) (hb : |brk| < 1e-12) :
    calcTheta lw sym brk z = (0, 0, 0) := by
  unfold calcTheta
  rw [if_pos ⟨hs, hb⟩]

/-- The source is proportional to the wall velocity, to the squared mass and to the derivative of the phase,
for every momentum; so is its integral. -/
theorem C88_source_linear (lepton : Bool) (temp vw m msq dmsq c x : ℝ) :
    (∀ k, dScp lepton temp vw m (c * x) msq dmsq k = c * dScp lepton temp vw m x msq dmsq k) ∧
    (∀ a b, ∫ k in a..b, dScp lepton temp vw m (c * x) msq dmsq k =
      c * ∫ k in a..b, dScp lepton temp vw m x msq dmsq k) ∧
    (∀ k, dScp lepton temp vw m x msq dmsq k = vw * m ^ 2 * x * dScp lepton temp 1 1 1 msq dmsq k) ∧
    ∀ k, dScp lepton temp vw 0 x msq dmsq k = 0 := by
  have h1 : ∀ k, dScp lepton temp vw m (c * x) msq dmsq k = c * dScp lepton temp vw m x msq dmsq k := by
    intro k
    unfold dScp
    simp only
    split_ifs <;> ring
  refine ⟨h1, fun a b => ?_, fun k => ?_, fun k => ?_⟩
  · rw [← intervalIntegral.integral_const_mul]
    exact intervalIntegral.integral_congr fun k _ => h1 k
  · unfold dScp
    simp only
    split_ifs <;> ring
  · unfold dScp
    simp only
    split_ifs <;> ring

/-! ## A solution that is not zero -/

/-- Functions for the examples: the source is the derivative of the phase. -/
noncomputable def exExternal : External ℝ where
  mass := fun _ _ => 1
  kappa := fun _ => 1
  gamM := fun _ _ => 0
  scp := fun _ _ x => x
  thetaPrime := fun s b z => (calcTheta 1 s b z).2.1

theorem exRegular (a b : ℝ) : Regular exExternal 1 a b where
  kappa := fun _ => continuousOn_const
  pos := fun _ _ _ => one_pos
  zero := one_pos
  gam := fun _ => continuousOn_const
  source := fun _ _ _ _ => rfl
  theta := fun _ _ _ => rfl

/-- No reactions, wall at rest. -/
def exRates : Rates ℝ := ⟨0, 1, 1, 1, 1, 1, 0, 0, 0, 0, 0⟩

/-- The phase of the examples changes by two. -/
def exPhases : Phases ℝ := ⟨0, -2, fun _ => 0, fun _ => -2⟩

theorem exTheta (z : ℝ) : (calcTheta 1 0 (-2) z).2.1 = 1 / Real.cosh z ^ 2 := by
  unfold calcTheta
  rw [if_neg (by norm_num)]
  simp only [div_one]
  have := (Real.cosh_pos z).ne'
  field_simp
  norm_num

/-- The density: its second derivative is the source. -/
theorem exDeriv (z : ℝ) : HasDerivAt (fun z => Real.log (Real.cosh z)) (Real.tanh z) z ∧
    HasDerivAt Real.tanh (1 / Real.cosh z ^ 2) z := by
  have hc : Real.cosh z ≠ 0 := (Real.cosh_pos z).ne'
  constructor
  · have := (Real.hasDerivAt_cosh z).log hc
    rwa [← Real.tanh_eq_sinh_div_cosh] at this
  · have := (Real.hasDerivAt_sinh z).div (Real.hasDerivAt_cosh z) hc
    refine (this.congr_of_eventuallyEq (Eventually.of_forall fun y => ?_)).congr_deriv ?_
    · exact Real.tanh_eq_sinh_div_cosh y
    · rw [show Real.cosh z * Real.cosh z - Real.sinh z * Real.sinh z = 1 by
        have := Real.cosh_sq z; linarith [sq (Real.cosh z), sq (Real.sinh z)]]

/-- The theorems on solutions are not about nothing: left-handed and right-handed top quarks are separated by
the source, with a density that is not zero anywhere behind the start. -/
theorem exSolution (a : ℝ) : Solves (fun w z => ok (top exExternal exRates exPhases w z)) a 0
    (fun z => ![Real.log (Real.cosh z), -Real.log (Real.cosh z), 0, 0, Real.tanh z, -Real.tanh z, 0, 0]) := by
  refine ⟨?_, fun z _ => ⟨_, rfl, ?_⟩⟩
  · ext i
    fin_cases i <;> simp
  · apply HasDerivAt.hasDerivWithinAt
    rw [hasDerivAt_pi]
    obtain ⟨h1, h2⟩ := exDeriv z
    have e : (calcTheta 1 0 (-2) z).2.1 = 1 / Real.cosh z ^ 2 := exTheta z
    intro i
    fin_cases i
    · exact h1
    · exact h1.neg
    · exact hasDerivAt_const _ _
    · exact hasDerivAt_const _ _
    · refine h2.congr_deriv ?_
      simp [top, topSystem, exExternal, exRates, exPhases, e]
    · refine h2.neg.congr_deriv ?_
      simp [top, topSystem, exExternal, exRates, exPhases, e]
    · refine (hasDerivAt_const _ _).congr_deriv ?_
      simp [top, topSystem, exExternal, exRates, exPhases]
    · refine (hasDerivAt_const _ _).congr_deriv ?_
      simp [top, topSystem, exExternal, exRates, exPhases]

example : topNL ![Real.log (Real.cosh 1), -Real.log (Real.cosh 1), 0, 0, Real.tanh 1, -Real.tanh 1, 0, 0] ≠ 0 := by
  have h1 : 1 < Real.cosh 1 := Real.one_lt_cosh.2 one_ne_zero
  have h2 := Real.log_pos h1
  simp only [topNL, Matrix.cons_val]
  linarith

/-- The same solution of the equations with a massless bottom quark and of those with a tau lepton. -/
theorem exSolution' (a : ℝ) : Solves (bot exExternal exRates exPhases 2) a 0
    (fun z => ![Real.log (Real.cosh z), -Real.log (Real.cosh z), 0, 0, 0, 0,
      Real.tanh z, -Real.tanh z, 0, 0, 0, 0]) := by
  refine ⟨?_, fun z _ => ⟨_, by simp only [bot]; rfl, ?_⟩⟩
  · ext i
    fin_cases i <;> simp
  · apply HasDerivAt.hasDerivWithinAt
    rw [hasDerivAt_pi]
    obtain ⟨h1, h2⟩ := exDeriv z
    have e : (calcTheta 1 0 (-2) z).2.1 = 1 / Real.cosh z ^ 2 := exTheta z
    intro i
    fin_cases i
    · exact h1
    · exact h1.neg
    · exact hasDerivAt_const _ _
    · exact hasDerivAt_const _ _
    · exact hasDerivAt_const _ _
    · exact hasDerivAt_const _ _
    · refine h2.congr_deriv ?_
      simp [botSystem, exExternal, exRates, exPhases, e]
    · refine h2.neg.congr_deriv ?_
      simp [botSystem, exExternal, exRates, exPhases, e]
    all_goals
      refine (hasDerivAt_const _ _).congr_deriv ?_
      simp [botSystem, exExternal, exRates, exPhases]

end Verif.Via
