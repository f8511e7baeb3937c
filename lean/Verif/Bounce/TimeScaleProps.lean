import Verif.Bounce.TimeScale
import Verif.Bounce.RatesProps
import Verif.Spline.Props
import Mathlib.Analysis.Calculus.Deriv.Inv
import Mathlib.Data.List.GetD

/-!
# C57: the inverse time scale from the calculated actions
-/

namespace Verif.Bounce

open Verif Verif.Outcome

/-- What the scan leaves: at least four actions at increasing temperatures. -/
structure Actions (pts : List (ℝ × ℝ)) : Prop where
  four : 4 ≤ pts.length
  incr : ∀ i : Nat, i + 1 < pts.length → (pts.getD i (0, 0)).1 < (pts.getD (i + 1) (0, 0)).1

theorem actions_points {pts : List (ℝ × ℝ)} (h : Actions pts) :
    Spline.Spec.Points (Spline.setBoundary (Spline.fresh ℝ) .notAKnot 0 .notAKnot 0) pts.length
      (fun i => (pts.getD i (0, 0)).1) :=
  ⟨by have := h.four; omega, fun _ => h.four, h.incr⟩

/-- **C57** The action used at a temperature of the scan is the one calculated there. -/
theorem C57_action_spline (pts : List (ℝ × ℝ)) (h : Actions pts) (p : ℝ × ℝ) (hp : p ∈ pts) :
    getBounceSol pts p.1 = p.2 := by
  obtain ⟨i, hi, rfl⟩ := List.getElem_of_mem hp
  have e := Spline.C64_interpolates _ _ _ (fun i => (pts.getD i (0, 0)).2) .cspline (actions_points h)
    i hi
  simpa [getBounceSol, actionSpline, List.getD_eq_getElem, hi] using e

theorem nderive_eq (pts : List (ℝ × ℝ)) (t d : ℝ) (ht : t ≠ 0)
    (hd : HasDerivAt (getBounceSol pts) d t) :
    t * nderiveBounceRatio pts t = d - getBounceSol pts t / t := by
  have := (hd.div (hasDerivAt_id t) ht).deriv
  unfold nderiveBounceRatio
  have e : actionRatio pts = getBounceSol pts / id := by funext x; rfl
  rw [e, this]
  simp only [id]
  field_simp

/-- **C57** The inverse time scale is the slope of the action less the action over temperature, both at
the percolation temperature; the slope always exists. -/
theorem C57_time_scale_slope (pts : List (ℝ × ℝ)) (h : Actions pts) (t b : ℝ) (ht : t ≠ 0)
    (s' : ScaleState ℝ)
    (hr : getInvTimeScale (nderiveBounceRatio pts) ⟨-1, t, true⟩ = ok (b, s')) :
    ∃ d, HasDerivAt (getBounceSol pts) d t ∧ b = d - getBounceSol pts t / t := by
  have hd := Spline.C64_derivative _ _ _ (fun i => (pts.getD i (0, 0)).2) .cspline (actions_points h)
    (by simp) t
  refine ⟨_, hd, ?_⟩
  rw [← nderive_eq pts t _ ht hd]
  simp only [getInvTimeScale, calcInvTimeScale, bind_ok, if_true, Bool.true_eq_false, if_false] at hr
  injection hr with hr
  injection hr with h1 h2
  exact h1.symm

/-- **C57** For actions on a cubic polynomial of the temperature the inverse time scale is exact inside
the range of the scan. -/
theorem C57_time_scale_cubic (pts : List (ℝ × ℝ)) (h : Actions pts) (a0 a1 a2 a3 : ℝ)
    (hy : ∀ p ∈ pts, p.2 = a0 + a1 * p.1 + a2 * p.1 ^ 2 + a3 * p.1 ^ 3) (t : ℝ) (ht : 0 < t)
    (h1 : (pts.getD 0 (0, 0)).1 ≤ t) (h2 : t ≤ (pts.getD (pts.length - 1) (0, 0)).1) :
    ∃ s', getInvTimeScale (nderiveBounceRatio pts) ⟨-1, t, true⟩
      = ok (2 * a3 * t ^ 2 + a2 * t - a0 / t, s') := by
  have hp := actions_points h
  obtain ⟨e1, e2, -⟩ := Spline.C64_reproduces _ pts.length _ (fun i => (pts.getD i (0, 0)).2) hp
    a0 a1 a2 a3 (by
      intro i hi
      have := hy pts[i] (List.getElem_mem hi)
      simpa [List.getD_eq_getElem, hi] using this)
    (by simp [Spline.setBoundary]) (by simp [Spline.setBoundary]) (by simp [Spline.setBoundary])
    (by simp [Spline.setBoundary]) (by simp [Spline.setBoundary]) t h1 h2
  have hd := Spline.C64_derivative _ _ _ (fun i => (pts.getD i (0, 0)).2) .cspline hp (by simp) t
  have e := nderive_eq pts t _ ht.ne' hd
  rw [e2] at e
  obtain ⟨s', hs, -⟩ := (C57_time_scale (nderiveBounceRatio pts) ⟨-1, t, true⟩ rfl).2 rfl
  refine ⟨s', ?_⟩
  rw [hs]
  simp only
  rw [e, show getBounceSol pts t = _ from e1]
  congr 2
  field_simp
  ring

/-- **C57** Where the action over temperature does not fall around the percolation temperature the inverse time scale is not
negative. -/
theorem C57_time_scale_sign (pts : List (ℝ × ℝ)) (t b e : ℝ) (ht : 0 < t) (he : 0 < e)
    (s' : ScaleState ℝ) (hm : MonotoneOn (actionRatio pts) (Set.Ioo (t - e) (t + e)))
    (hr : getInvTimeScale (nderiveBounceRatio pts) ⟨-1, t, true⟩ = ok (b, s')) : 0 ≤ b := by
  simp only [getInvTimeScale, calcInvTimeScale, bind_ok, if_true, Bool.true_eq_false, if_false] at hr
  injection hr with hr
  injection hr with h1 h2
  rw [← h1]
  have hmem : t ∈ Set.Ioo (t - e) (t + e) := ⟨by linarith, by linarith⟩
  have := hm.derivWithin_nonneg (x := t)
  rw [derivWithin_of_isOpen isOpen_Ioo hmem] at this
  exact mul_nonneg ht.le this

example : Actions [(50, 1), (60, 2), (70, 3), (80, 5)] := by
  refine ⟨by simp, ?_⟩
  intro i hi
  have : i = 0 ∨ i = 1 ∨ i = 2 := by simp at hi; omega
  rcases this with rfl | rfl | rfl <;> norm_num

/-- The action `T³` at 1, 2, 3, 4: the inverse time scale at 2 is `2 · 2² = 8`. -/
example : ∃ s', getInvTimeScale (nderiveBounceRatio [(1, 1), (2, 8), (3, 27), (4, 64)]) ⟨-1, 2, true⟩
    = ok (8, s') := by
  have h : Actions [(1, 1), (2, 8), (3, 27), (4, 64)] := by
    refine ⟨by simp, ?_⟩
    intro i hi
    have : i = 0 ∨ i = 1 ∨ i = 2 := by simp at hi; omega
    rcases this with rfl | rfl | rfl <;> norm_num
  obtain ⟨s', hs⟩ := C57_time_scale_cubic _ h 0 0 0 1 (by simp; norm_num) 2 (by norm_num) (by norm_num)
    (by norm_num)
  exact ⟨s', by rw [hs]; norm_num⟩

end Verif.Bounce
