import Verif.Fh.Short
import Verif.Via.Ode
import Mathlib.Topology.Algebra.Field
import Mathlib.Topology.ContinuousOn
import Mathlib.Tactic.FinCases
import Mathlib.Tactic.FunProp
import Mathlib.Tactic.Ring
import Mathlib.Tactic.NormNum
import Mathlib.Tactic.Linarith

set_option linter.unusedVariables false
set_option linter.unusedSimpArgs false

/-!
# C92: the chemical potentials of the fluid equations

The program starts with zeros at the end of the interval and integrates towards the wall
(`mubl_func`, `calculateTransportEquation`, transport_equations.cpp:807-892).
-/

namespace Verif.Fh

open Set

theorem coll_lin (r : Spec.Rates ℝ) (a t b tc u t' b' tc' u' : ℝ) :
    Spec.collT r (t + a * t') (b + a * b') (tc + a * tc') (u + a * u') =
      Spec.collT r t b tc u + a * Spec.collT r t' b' tc' u' ∧
    Spec.collB r (t + a * t') (b + a * b') (tc + a * tc') (u + a * u') =
      Spec.collB r t b tc u + a * Spec.collB r t' b' tc' u' ∧
    Spec.collTc r (t + a * t') (b + a * b') (tc + a * tc') (u + a * u') =
      Spec.collTc r t b tc u + a * Spec.collTc r t' b' tc' u' ∧
    Spec.collH r (t + a * t') (b + a * b') (tc + a * tc') (u + a * u') =
      Spec.collH r t b tc u + a * Spec.collH r t' b' tc' u' := by
  simp only [Spec.collT, Spec.collB, Spec.collTc, Spec.collH, Spec.sphaleron, Spec.light]
  refine ⟨?_, ?_, ?_, ?_⟩ <;> ring

theorem velocity_lin (c : Coeffs ℝ) (s s' a : ℝ) (w w' : Fin 8 → ℝ) :
    velocity c (s + a * s') (w + a • w') = velocity c s w + a • velocity c s' w' := by
  have h (i : Fin 8) : (w + a • w') i = w i + a * w' i := rfl
  obtain ⟨c1, c2, c3, c4⟩ := coll_lin (rates c) a (w 0) (w 1) (w 2) (w 3) (w' 0) (w' 1) (w' 2) (w' 3)
  funext i
  show _ = velocity c s w i + a * velocity c s' w' i
  match i with
  | 0 => rw [velocity_0, velocity_0, velocity_0]; simp only [h]; rw [c1]; ring
  | 1 => rw [velocity_1, velocity_1, velocity_1]; simp only [h]; rw [c2]; ring
  | 2 => rw [velocity_2, velocity_2, velocity_2]; simp only [h]; rw [c3]; ring
  | 3 => rw [velocity_3, velocity_3, velocity_3]; simp only [h]; rw [c4]; ring
  | 4 => rw [velocity_4, velocity_4, velocity_4]; simp only [h]; rw [c1]; ring
  | 5 => rw [velocity_5, velocity_5, velocity_5]; simp only [h]; rw [c2]; ring
  | 6 => rw [velocity_6, velocity_6, velocity_6]; simp only [h]; rw [c3]; ring
  | 7 => rw [velocity_7, velocity_7, velocity_7]; simp only [h]; rw [c4]; ring

theorem second_lin (c : Coeffs ℝ) (s s' a : ℝ) (w w' : Fin 8 → ℝ) :
    second c (s + a * s') (w + a • w') = second c s w + a • second c s' w' := by
  have h (i : Fin 8) : (w + a • w') i = w i + a * w' i := rfl
  obtain ⟨c1, c2, c3, c4⟩ := coll_lin (rates c) a (w 0) (w 1) (w 2) (w 3) (w' 0) (w' 1) (w' 2) (w' 3)
  funext i
  show _ = second c s w i + a * second c s' w' i
  match i with
  | 0 => exact h 4
  | 1 => exact h 5
  | 2 => exact h 6
  | 3 => exact h 7
  | 4 => rw [second_4, second_4, second_4]; simp only [h]; rw [c1]; ring
  | 5 => rw [second_5, second_5, second_5]; simp only [h]; rw [c2]; ring
  | 6 => rw [second_6, second_6, second_6]; simp only [h]; rw [c3]; ring
  | 7 => rw [second_7, second_7, second_7]; simp only [h]; rw [c4]; ring

/-- The coefficients change continuously and the equations can be solved for the derivatives. -/
structure Regular (c : ℝ → Coeffs ℝ) (S : Set ℝ) : Prop where
  k1t : ContinuousOn (fun z => (c z).k1t) S
  k2t : ContinuousOn (fun z => (c z).k2t) S
  k4t : ContinuousOn (fun z => (c z).k4t) S
  k5t : ContinuousOn (fun z => (c z).k5t) S
  k6t : ContinuousOn (fun z => (c z).k6t) S
  k1b : ContinuousOn (fun z => (c z).k1b) S
  k4b : ContinuousOn (fun z => (c z).k4b) S
  k5b : ContinuousOn (fun z => (c z).k5b) S
  k1h : ContinuousOn (fun z => (c z).k1h) S
  k4h : ContinuousOn (fun z => (c z).k4h) S
  k5h : ContinuousOn (fun z => (c z).k5h) S
  mt2 : ContinuousOn (fun z => (c z).mt2) S
  dmt2 : ContinuousOn (fun z => (c z).dmt2) S
  mw2 : ContinuousOn (fun z => (c z).mw2) S
  tc : ContinuousOn (fun z => (c z).tc) S
  vw : ContinuousOn (fun z => (c z).vw) S
  tc_pos : ∀ z ∈ S, 0 < (c z).tc
  k1_pos : ∀ z ∈ S, 0 < (c z).k1t ∧ 0 < (c z).k1b ∧ 0 < (c z).k1h
  k4_pos : ∀ z ∈ S, 0 < (c z).k4t ∧ 0 < (c z).k4b ∧ 0 < (c z).k4h
  k5_pos : ∀ z ∈ S, 0 ≤ (c z).k5t ∧ 0 ≤ (c z).k5b ∧ 0 ≤ (c z).k5h

variable {c : ℝ → Coeffs ℝ} {S : Set ℝ}

theorem Regular.tot (h : Regular c S) : ContinuousOn (fun z => gTTot (c z)) S ∧
    ContinuousOn (fun z => gBTot (c z)) S ∧ ContinuousOn (fun z => gHTot (c z)) S := by
  have ht := h.tc
  have d (k : ℝ) (hk : k ≠ 0) : ContinuousOn (fun z => k / (c z).tc) S :=
    continuousOn_const.div ht fun z hz => (h.tc_pos z hz).ne'
  have n (k : ℝ) (hk : 0 < k) (z) (hz : z ∈ S) : 0 < k / (c z).tc := div_pos hk (h.tc_pos z hz)
  refine ⟨h.k4t.div (h.k1t.mul (d 6 (by norm_num))) fun z hz => ?_,
    h.k4b.div (h.k1b.mul (d 6 (by norm_num))) fun z hz => ?_,
    h.k4h.div (h.k1h.mul (d 20 (by norm_num))) fun z hz => ?_⟩
  · exact (mul_pos (h.k1_pos z hz).1 (n 6 (by norm_num) z hz)).ne'
  · exact (mul_pos (h.k1_pos z hz).2.1 (n 6 (by norm_num) z hz)).ne'
  · exact (mul_pos (h.k1_pos z hz).2.2 (n 20 (by norm_num) z hz)).ne'

theorem Regular.rates (h : Regular c S) : ContinuousOn (fun z => gY (c z)) S ∧
    ContinuousOn (fun z => gM (c z)) S ∧ ContinuousOn (fun z => gH (c z)) S ∧
    ContinuousOn (fun z => gSS (c z)) S := by
  refine ⟨continuousOn_const.mul h.tc, h.mt2.div (continuousOn_const.mul h.tc) fun z hz => ?_,
    h.mw2.div (continuousOn_const.mul h.tc) fun z hz => ?_, continuousOn_const.mul h.tc⟩
  · have := h.tc_pos z hz; positivity
  · have := h.tc_pos z hz; positivity

theorem Regular.det (h : Regular c S) :
    (∀ z ∈ S, (c z).k1t * (c z).k5t * (c z).vw * (c z).vw + (c z).k4t ≠ 0) ∧
    (∀ z ∈ S, (c z).k1b * (c z).k5b * (c z).vw * (c z).vw + (c z).k4b ≠ 0) ∧
    ∀ z ∈ S, (c z).k1h * (c z).k5h * (c z).vw * (c z).vw + (c z).k4h ≠ 0 := by
  have pos : ∀ k1 k5 k4 v : ℝ, 0 < k1 → 0 ≤ k5 → 0 < k4 → k1 * k5 * v * v + k4 ≠ 0 := by
    intro k1 k5 k4 v h1 h5 h4
    have : 0 ≤ k1 * k5 * (v * v) := mul_nonneg (mul_nonneg h1.le h5) (mul_self_nonneg v)
    nlinarith
  exact ⟨fun z hz => pos _ _ _ _ (h.k1_pos z hz).1 (h.k5_pos z hz).1 (h.k4_pos z hz).1,
    fun z hz => pos _ _ _ _ (h.k1_pos z hz).2.1 (h.k5_pos z hz).2.1 (h.k4_pos z hz).2.1,
    fun z hz => pos _ _ _ _ (h.k1_pos z hz).2.2 (h.k5_pos z hz).2.2 (h.k4_pos z hz).2.2⟩

theorem Regular.coll (h : Regular c S) (t b tc u : ℝ) :
    ContinuousOn (fun z => Spec.collT (Fh.rates (c z)) t b tc u) S ∧
    ContinuousOn (fun z => Spec.collB (Fh.rates (c z)) t b tc u) S ∧
    ContinuousOn (fun z => Spec.collTc (Fh.rates (c z)) t b tc u) S ∧
    ContinuousOn (fun z => Spec.collH (Fh.rates (c z)) t b tc u) S := by
  obtain ⟨t1, t2, t3⟩ := h.tot
  obtain ⟨r1, r2, r3, r4⟩ := h.rates
  have t4 : ContinuousOn (fun z => gW (c z)) S := t3
  have a1 := h.k1t
  have a6 := h.k1b
  simp only [Spec.collT, Spec.collB, Spec.collTc, Spec.collH, Spec.sphaleron, Spec.light, Fh.rates]
  refine ⟨?_, ?_, ?_, ?_⟩ <;> fun_prop

theorem fluid_cont {v k1 k2 k4 k5 k6 dm g C : ℝ → ℝ} (hv : ContinuousOn v S) (h1 : ContinuousOn k1 S)
    (h2 : ContinuousOn k2 S) (h4 : ContinuousOn k4 S) (h5 : ContinuousOn k5 S) (h6 : ContinuousOn k6 S)
    (hd : ContinuousOn dm S) (hg : ContinuousOn g S) (hC : ContinuousOn C S)
    (h : ∀ z ∈ S, k1 z * k5 z * v z * v z + k4 z ≠ 0) (s m u : ℝ) :
    ContinuousOn (fun z => (v z * k5 z * (C z - v z * k2 z * dm z * m) -
      (s - v z * k6 z * dm z * u - g z * u)) / (k1 z * k5 z * v z * v z + k4 z)) S ∧
    ContinuousOn (fun z => (k4 z * (C z - v z * k2 z * dm z * m) +
      v z * k1 z * (s - v z * k6 z * dm z * u - g z * u)) / (k1 z * k5 z * v z * v z + k4 z)) S := by
  constructor <;> fun_prop (disch := assumption)

theorem diffusion_cont {v k1 k2 k4 k6 dm g C : ℝ → ℝ} (hv : ContinuousOn v S) (h1 : ContinuousOn k1 S)
    (h2 : ContinuousOn k2 S) (h4 : ContinuousOn k4 S) (h6 : ContinuousOn k6 S)
    (hd : ContinuousOn dm S) (hg : ContinuousOn g S) (hC : ContinuousOn C S)
    (h : ∀ z ∈ S, k4 z ≠ 0) (s m m' : ℝ) :
    ContinuousOn (fun z => ((g z + v z * k6 z * dm z) * (C z - v z * k1 z * m' - v z * k2 z * dm z * m) - s) /
      k4 z) S := by
  fun_prop (disch := assumption)

theorem velocity_cont (h : Regular c S) (w : Fin 8 → ℝ) : ContinuousOn (fun z => velocity (c z) 0 w) S := by
  obtain ⟨t1, t2, t3⟩ := h.tot
  obtain ⟨d1, d2, d3⟩ := h.det
  obtain ⟨c1, c2, c3, c4⟩ := h.coll (w 0) (w 1) (w 2) (w 3)
  have z0 : ContinuousOn (fun _ : ℝ => (0 : ℝ)) S := continuousOn_const
  have ft := fluid_cont h.vw h.k1t h.k2t h.k4t h.k5t h.k6t h.dmt2 t1 c1 d1 (0 / 3) (w 0) (w 4)
  have fb := fluid_cont h.vw h.k1b z0 h.k4b h.k5b z0 z0 t2 c2 d2 0 (w 1) (w 5)
  have fc := fluid_cont h.vw h.k1t h.k2t h.k4t h.k5t h.k6t h.dmt2 t1 c3 d1 (0 / 3) (w 2) (w 6)
  have fh := fluid_cont h.vw h.k1h z0 h.k4h h.k5h z0 z0 t3 c4 d3 0 (w 3) (w 7)
  rw [continuousOn_pi]
  intro i
  match i with
  | 0 => exact ft.1.congr fun z _ => velocity_0 (c z) 0 w
  | 1 => exact fb.1.congr fun z _ => velocity_1 (c z) 0 w
  | 2 => exact fc.1.congr fun z _ => velocity_2 (c z) 0 w
  | 3 => exact fh.1.congr fun z _ => velocity_3 (c z) 0 w
  | 4 => exact ft.2.congr fun z _ => velocity_4 (c z) 0 w
  | 5 => exact fb.2.congr fun z _ => velocity_5 (c z) 0 w
  | 6 => exact fc.2.congr fun z _ => velocity_6 (c z) 0 w
  | 7 => exact fh.2.congr fun z _ => velocity_7 (c z) 0 w

theorem second_cont (h : Regular c S) (w : Fin 8 → ℝ) : ContinuousOn (fun z => second (c z) 0 w) S := by
  obtain ⟨t1, t2, t3⟩ := h.tot
  obtain ⟨c1, c2, c3, c4⟩ := h.coll (w 0) (w 1) (w 2) (w 3)
  have d1 : ∀ z ∈ S, (c z).k4t ≠ 0 := fun z hz => (h.k4_pos z hz).1.ne'
  have d2 : ∀ z ∈ S, (c z).k4b ≠ 0 := fun z hz => (h.k4_pos z hz).2.1.ne'
  have d3 : ∀ z ∈ S, (c z).k4h ≠ 0 := fun z hz => (h.k4_pos z hz).2.2.ne'
  have z0 : ContinuousOn (fun _ : ℝ => (0 : ℝ)) S := continuousOn_const
  have ft := diffusion_cont h.vw h.k1t h.k2t h.k4t h.k6t h.dmt2 t1 c1 d1 (0 / 3) (w 0) (w 4)
  have fb := diffusion_cont h.vw h.k1b z0 h.k4b z0 z0 t2 c2 d2 0 (w 1) (w 5)
  have fc := diffusion_cont h.vw h.k1t h.k2t h.k4t h.k6t h.dmt2 t1 c3 d1 (0 / 3) (w 2) (w 6)
  have fh := diffusion_cont h.vw h.k1h z0 h.k4h z0 z0 t3 c4 d3 0 (w 3) (w 7)
  rw [continuousOn_pi]
  intro i
  match i with
  | 0 => exact continuousOn_const
  | 1 => exact continuousOn_const
  | 2 => exact continuousOn_const
  | 3 => exact continuousOn_const
  | 4 => exact ft.congr fun z _ => second_4 (c z) 0 w
  | 5 => exact fb.congr fun z _ => second_5 (c z) 0 w
  | 6 => exact fc.congr fun z _ => second_6 (c z) 0 w
  | 7 => exact fh.congr fun z _ => second_7 (c z) 0 w

end Verif.Fh
