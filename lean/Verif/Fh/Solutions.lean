import Verif.Fh.Solve
import Verif.Via.Solutions
import Mathlib.Analysis.Calculus.Deriv.Comp
import Mathlib.Analysis.Calculus.Deriv.Add
import Mathlib.Analysis.ODE.ExistUnique
import Mathlib.Topology.Algebra.Module.FiniteDimension

set_option linter.unusedVariables false

/-!
# C92: what the chemical potentials depend on
-/

namespace Verif.Fh

open Set

/-- The functions follow the equations of the program; `d` and `d2` are the derivatives of the phase. -/
def Follows (vel : Bool) (c : ℝ → Coeffs ℝ) (d d2 : ℝ → ℝ) (a b : ℝ) (x : ℝ → Fin 8 → ℝ) : Prop :=
  ∀ z ∈ Icc a b, HasDerivWithinAt x (rhs vel (c z) (d z) (d2 z) (x z)) (Icc a b) z

/-- The exact result of the integration from zeros at the end `b` of the interval. -/
structure Solves (vel : Bool) (c : ℝ → Coeffs ℝ) (d d2 : ℝ → ℝ) (a b : ℝ) (x : ℝ → Fin 8 → ℝ) : Prop where
  start : x b = 0
  deriv : Follows vel c d d2 a b x

/-- The linear part of the equations. -/
noncomputable def lin (vel : Bool) (c : Coeffs ℝ) : (Fin 8 → ℝ) →ₗ[ℝ] (Fin 8 → ℝ) where
  toFun x := if vel then velocity c 0 x else second c 0 x
  map_add' x y := by
    have h1 := velocity_lin c 0 0 1 x y
    have h2 := second_lin c 0 0 1 x y
    simp only [mul_zero, add_zero, one_smul] at h1 h2
    cases vel <;> simp [h1, h2]
  map_smul' r x := by
    have h1 := velocity_lin c 0 0 r 0 x
    have h2 := second_lin c 0 0 r 0 x
    have z1 := velocity_lin c 0 0 (-1) 0 0
    have z2 := second_lin c 0 0 (-1) 0 0
    simp only [mul_zero, add_zero, zero_add, smul_zero, neg_smul, one_smul] at h1 h2 z1 z2
    have z1' : velocity c 0 0 = 0 := by rw [z1]; simp
    have z2' : second c 0 0 = 0 := by rw [z2]; simp
    rw [z1', zero_add] at h1
    rw [z2', zero_add] at h2
    cases vel <;> simp [h1, h2]

theorem rhs_sub (vel : Bool) (c : Coeffs ℝ) (d d2 : ℝ) (x y : Fin 8 → ℝ) :
    rhs vel c d d2 x - rhs vel c d d2 y = lin vel c (x - y) := by
  have h1 := velocity_lin c (st c d d2) (st c d d2) (-1) x y
  have h2 := second_lin c (dst c d d2) (dst c d d2) (-1) x y
  simp only [neg_mul, one_mul, add_neg_cancel, neg_smul, one_smul, ← sub_eq_add_neg] at h1 h2
  cases vel
  · simp only [rhs, lin, LinearMap.coe_mk, AddHom.coe_mk, Bool.false_eq_true, if_false, h2]
  · simp only [rhs, lin, LinearMap.coe_mk, AddHom.coe_mk, if_true, h1]

theorem lin_cont {c : ℝ → Coeffs ℝ} {S : Set ℝ} (h : Regular c S) (vel : Bool) (v : Fin 8 → ℝ) :
    ContinuousOn (fun z => lin vel (c z) v) S := by
  cases vel
  · simpa [lin] using second_cont h v
  · simpa [lin] using velocity_cont h v

theorem Regular.mono {c : ℝ → Coeffs ℝ} {S T : Set ℝ} (h : Regular c S) (hT : T ⊆ S) : Regular c T :=
  ⟨h.k1t.mono hT, h.k2t.mono hT, h.k4t.mono hT, h.k5t.mono hT, h.k6t.mono hT, h.k1b.mono hT, h.k4b.mono hT,
    h.k5b.mono hT, h.k1h.mono hT, h.k4h.mono hT, h.k5h.mono hT, h.mt2.mono hT, h.dmt2.mono hT, h.mw2.mono hT,
    h.tc.mono hT, h.vw.mono hT, fun z hz => h.tc_pos z (hT hz), fun z hz => h.k1_pos z (hT hz),
    fun z hz => h.k4_pos z (hT hz), fun z hz => h.k5_pos z (hT hz)⟩

variable {vel : Bool} {c : ℝ → Coeffs ℝ} {d d2 d' d2' : ℝ → ℝ} {a b : ℝ} {x y : ℝ → Fin 8 → ℝ}

theorem Follows.sub (hx : Follows vel c d d2 a b x) (hy : Follows vel c d d2 a b y) :
    ∀ z ∈ Icc a b, HasDerivWithinAt (fun z => x z - y z) (lin vel (c z) (x z - y z)) (Icc a b) z := by
  intro z hz
  have := (hx z hz).sub (hy z hz)
  rw [rhs_sub] at this
  exact this

theorem Follows.mono {z0 : ℝ} (hz0 : a ≤ z0) (hx : Follows vel c d d2 a b x) : Follows vel c d d2 z0 b x :=
  fun z hz => (hx z ⟨hz0.trans hz.1, hz.2⟩).mono (Icc_subset_Icc_left hz0)

theorem Follows.congr (hx : Follows vel c d d2 a b x) (h : ∀ z ∈ Icc a b, d z = d' z ∧ d2 z = d2' z) :
    Follows vel c d' d2' a b x := by
  intro z hz
  have := hx z hz
  rwa [(h z hz).1, (h z hz).2] at this

/-- Two solutions that agree at the end of the interval agree everywhere. -/
theorem agree_back (h : Regular c (Icc a b)) (hx : Follows vel c d d2 a b x) (hy : Follows vel c d d2 a b y)
    (hb : x b = y b) : ∀ z ∈ Icc a b, x z = y z := by
  intro z hz
  have := Via.linear_zero (fun z => lin vel (c z)) (fun v => lin_cont h vel v) (hx.sub hy) (by simp [hb]) z hz
  exact sub_eq_zero.1 this

/-- A solution of linear equations that is zero at the beginning is zero at the end. -/
theorem linear_zero_fwd {n : ℕ} (A : ℝ → (Fin n → ℝ) →ₗ[ℝ] (Fin n → ℝ)) (hab : a ≤ b)
    (hA : ∀ v, ContinuousOn (fun z => A z v) (Icc a b)) {f : ℝ → Fin n → ℝ}
    (hf : ∀ z ∈ Icc a b, HasDerivWithinAt f (A z (f z)) (Icc a b) z) (ha : f a = 0) : f b = 0 := by
  have maps : MapsTo (fun t : ℝ => -t) (Icc (-b) (-a)) (Icc a b) := fun t ht =>
    ⟨by linarith [ht.2], by linarith [ht.1]⟩
  have key := Via.linear_zero (a := -b) (b := -a) (fun t => -(A (-t)))
    (fun v => by
      have := (hA v).comp (continuous_neg.continuousOn) maps
      exact this.neg)
    (f := fun t => f (-t))
    (fun t ht => by
      have h1 := hf (-t) (maps ht)
      have h2 : HasDerivWithinAt (fun t : ℝ => -t) (-1) (Icc (-b) (-a)) t := (hasDerivWithinAt_id t _).fun_neg
      have := HasDerivWithinAt.scomp t h1 h2 maps
      refine this.congr_deriv ?_
      simp)
    (by simp [ha]) (-b) ⟨le_rfl, by linarith⟩
  simpa only [neg_neg] using key

/-- Two solutions that agree at the beginning of the interval agree at its end. -/
theorem agree_fwd (h : Regular c (Icc a b)) (hab : a ≤ b) (hx : Follows vel c d d2 a b x)
    (hy : Follows vel c d d2 a b y) (ha : x a = y a) : x b = y b :=
  sub_eq_zero.1 (linear_zero_fwd (fun z => lin vel (c z)) hab (fun v => lin_cont h vel v) (hx.sub hy)
    (by simp [ha]))

/-- The chemical potentials at a position depend only on the CP violation between this position and the end of
the interval, in front of the wall. -/
theorem C92_ahead (h : Regular c (Icc a b)) {z0 : ℝ} (hz0 : z0 ∈ Icc a b) (hx : Solves vel c d d2 a b x)
    (hy : Solves vel c d' d2' a b y) (hs : ∀ z ∈ Icc z0 b, d z = d' z ∧ d2 z = d2' z) :
    x z0 = y z0 ∧ mubl (c z0).k1t (c z0).k1b (x z0) = mubl (c z0).k1t (c z0).k1b (y z0) := by
  have := agree_back (h.mono (Icc_subset_Icc_left hz0.1)) ((hx.deriv.mono hz0.1).congr hs)
    (hy.deriv.mono hz0.1) (by rw [hx.start, hy.start]) z0 ⟨le_rfl, hz0.2⟩
  exact ⟨this, by rw [this]⟩

/-- The result for a phase is unique. -/
theorem C92_unique (h : Regular c (Icc a b)) (hx : Solves vel c d d2 a b x) (hy : Solves vel c d d2 a b y) :
    ∀ z ∈ Icc a b, x z = y z := fun z hz =>
  (C92_ahead h hz hx hy fun _ _ => ⟨rfl, rfl⟩).1

theorem zero_solves : Solves vel c (fun _ => 0) (fun _ => 0) a b (fun _ => 0) := by
  refine ⟨rfl, fun z hz => ?_⟩
  have : rhs vel (c z) 0 0 0 = 0 := by
    have h0 := (lin vel (c z)).map_zero
    simp only [lin, LinearMap.coe_mk, AddHom.coe_mk] at h0
    simpa [rhs, st, dst] using h0
  rw [this]
  exact hasDerivWithinAt_const _ _ _

/-- Positions in front of all CP violation have no chemical potentials: nothing diffuses out of the wall. -/
theorem C92_no_diffusion (h : Regular c (Icc a b)) {z0 : ℝ} (hz0 : z0 ∈ Icc a b) (hx : Solves vel c d d2 a b x)
    (hs : ∀ z ∈ Icc z0 b, d z = 0 ∧ d2 z = 0) : x z0 = 0 ∧ mubl (c z0).k1t (c z0).k1b (x z0) = 0 := by
  obtain ⟨h1, h2⟩ := C92_ahead h hz0 hx zero_solves hs
  exact ⟨h1, by rw [h1]; simp [mubl]⟩

/-- A solution with chemical potentials at the end of the interval, as diffusion in front of the wall gives
them, differs from the result of the program at every position. -/
theorem C92_diffusion_fails (h : Regular c (Icc a b)) (hx : Solves vel c d d2 a b x)
    (hy : Follows vel c d d2 a b y) (hb : y b ≠ 0) : ∀ z ∈ Icc a b, x z ≠ y z := by
  intro z hz e
  refine hb ?_
  rw [← agree_fwd (h.mono (Icc_subset_Icc_left hz.1)) hz.2 (hx.deriv.mono hz.1) (hy.mono hz.1) e, hx.start]

theorem rhs_neg (vel : Bool) (c : Coeffs ℝ) (d d2 : ℝ) (x : Fin 8 → ℝ) :
    rhs vel c (-d) (-d2) (-x) = -rhs vel c d d2 x := by
  have z := (lin vel c).map_zero
  have e1 : st c (-d) (-d2) = 0 + (-1) * st c d d2 := by simp only [st]; ring
  have e2 : dst c (-d) (-d2) = 0 + (-1) * dst c d d2 := by simp only [dst]; ring
  have e3 : -x = 0 + (-1 : ℝ) • x := by simp
  simp only [lin, LinearMap.coe_mk, AddHom.coe_mk] at z
  cases vel
  · simp only [Bool.false_eq_true, if_false] at z
    simp only [rhs, Bool.false_eq_true, if_false]
    rw [e2, e3, second_lin, z]; simp
  · simp only [if_true] at z
    simp only [rhs, if_true]
    rw [e1, e3, velocity_lin, z]; simp

/-- The opposite CP violation gives the opposite chemical potentials; without CP violation there are none. -/
theorem C92_cp_odd (h : Regular c (Icc a b)) (hx : Solves vel c d d2 a b x) :
    (∀ y, Solves vel c (fun z => -d z) (fun z => -d2 z) a b y → ∀ z ∈ Icc a b,
      y z = -x z ∧ mubl (c z).k1t (c z).k1b (y z) = -mubl (c z).k1t (c z).k1b (x z)) ∧
    ((∀ z ∈ Icc a b, d z = 0 ∧ d2 z = 0) → ∀ z ∈ Icc a b, x z = 0) := by
  constructor
  · intro y hy z hz
    have hn : Solves vel c (fun z => -d z) (fun z => -d2 z) a b (fun z => -x z) := by
      refine ⟨by simp [hx.start], fun z hz => ?_⟩
      rw [rhs_neg]
      exact (hx.deriv z hz).fun_neg
    have := C92_unique h hy hn z hz
    refine ⟨this, ?_⟩
    rw [this]
    simp only [mubl, Pi.neg_apply]
    ring
  · intro hs z hz
    exact (C92_no_diffusion h hz hx fun z' hz' => hs z' ⟨hz.1.trans hz'.1, hz'.2⟩).1

/-- The same holds for the densities of the other approach with the source of the top quark: a solution with
densities at the end of the interval differs from the result of the program everywhere. -/
theorem C92_top_diffusion_fails {e : Via.External ℝ} {lw : ℝ} (h : Via.Regular e lw a b) (r : Via.Rates ℝ)
    (p : Via.Phases ℝ) {w y : ℝ → Fin 8 → ℝ}
    (hw : Via.Spec.Solves (fun w z => Outcome.ok (Via.top e r p w z)) a b w)
    (hy : ∀ z ∈ Icc a b, HasDerivWithinAt y (Via.top e r p (y z) z) (Icc a b) z) (hb : y b ≠ 0) :
    ∀ z ∈ Icc a b, w z ≠ y z := by
  intro z0 hz0 e0
  refine hb ?_
  have sub : Icc z0 b ⊆ Icc a b := Icc_subset_Icc_left hz0.1
  have := linear_zero_fwd (a := z0) (b := b)
    (fun z => Via.topLin r (e.kappa (e.mass .top z)) (e.gamM .top (e.mass .top z))) hz0.2
    (fun v => Via.topSystem_cont r ((h.kappa .top).mono sub) ((h.gam .top).mono sub)
      (fun z hz => h.pos .top z (sub hz)) v)
    (f := fun z => w z - y z)
    (fun z hz => by
      obtain ⟨d, hd, hD⟩ := hw.deriv z (sub hz)
      simp only [Outcome.ok.injEq] at hd
      have := (hD.mono sub).sub ((hy z (sub hz)).mono sub)
      rw [← hd] at this
      refine HasDerivWithinAt.congr_deriv this (Eq.symm ?_)
      simp only [Via.top, Via.topLin, LinearMap.coe_mk, AddHom.coe_mk]
      have l := Via.topSystem_lin r (e.kappa (e.mass .top z)) (e.gamM .top (e.mass .top z))
        (e.scp .top (e.mass .top z) (e.thetaPrime p.sym p.brk z))
        (e.scp .top (e.mass .top z) (e.thetaPrime p.sym p.brk z)) (-1) (w z) (y z)
      simp only [neg_mul, one_mul, add_neg_cancel, neg_smul, one_smul, ← sub_eq_add_neg] at l
      exact l)
    (by simp [e0])
  have e1 := sub_eq_zero.1 this
  rw [← e1, hw.start]

/-- Constant coefficients. -/
noncomputable def exCoeffs : Coeffs ℝ := ⟨1, 1, 1, 1, 1, 1, 1, 1, 1, 1, 1, 1, 1, 2, 3, 1, 100, 1 / 10⟩

theorem exRegular {S : Set ℝ} : Regular (fun _ => exCoeffs) S := by
  refine ⟨?_, ?_, ?_, ?_, ?_, ?_, ?_, ?_, ?_, ?_, ?_, ?_, ?_, ?_, ?_, ?_, ?_, ?_, ?_, ?_⟩
  all_goals first | exact continuousOn_const | (intro z _; simp only [exCoeffs]; norm_num)

/-- Solutions exist on some interval for every value at its end. -/
theorem exFollows (vel : Bool) (v : Fin 8 → ℝ) :
    ∃ a < (0 : ℝ), ∃ x, x 0 = v ∧ Follows vel (fun _ => exCoeffs) (fun _ => 1) (fun _ => 1) a 0 x := by
  have hf : (fun x => rhs vel exCoeffs 1 1 x) =
      fun x => rhs vel exCoeffs 1 1 0 + LinearMap.toContinuousLinearMap (lin vel exCoeffs) x := by
    funext x
    have := rhs_sub vel exCoeffs 1 1 x 0
    rw [sub_zero] at this
    rw [LinearMap.coe_toContinuousLinearMap', ← this]
    simp
  have hc : ContDiffAt ℝ 1 (fun x => rhs vel exCoeffs 1 1 x) v := by
    rw [hf]
    exact (contDiff_const.add (ContinuousLinearMap.contDiff _)).contDiffAt
  obtain ⟨x, hx, e, he, hd⟩ := hc.exists_forall_mem_closedBall_exists_eq_forall_mem_Ioo_hasDerivAt₀ 0
  refine ⟨-(e / 2), by linarith, x, hx, fun z hz => (hd z ⟨?_, ?_⟩).hasDerivWithinAt⟩
  · linarith [hz.1]
  · linarith [hz.2]

/-- A result of the program that is not zero. -/
example : ∃ a < (0 : ℝ), ∃ x, Solves true (fun _ => exCoeffs) (fun _ => 1) (fun _ => 1) a 0 x ∧
    ∃ z ∈ Icc a 0, x z ≠ 0 := by
  obtain ⟨a, ha, x, hx, h⟩ := exFollows true 0
  refine ⟨a, ha, x, ⟨hx, h⟩, ?_⟩
  by_contra hn
  have hz : ∀ z ∈ Icc a 0, x z = 0 := fun z hz => by
    by_contra h'
    exact hn ⟨z, hz, h'⟩
  have h0 := h 0 ⟨ha.le, le_rfl⟩
  have h1 : HasDerivWithinAt x 0 (Icc a 0) 0 :=
    (hasDerivWithinAt_const 0 (Icc a 0) (0 : Fin 8 → ℝ)).congr hz hx
  have e := (uniqueDiffOn_Icc ha 0 ⟨ha.le, le_rfl⟩).eq_deriv _ h0 h1
  have := congrFun e 0
  rw [hx] at this
  simp [rhs, velocity, st, exCoeffs] at this
  norm_num at this

/-- A solution with chemical potentials in front of the wall. -/
example : ∃ a < (0 : ℝ), ∃ y, Follows true (fun _ => exCoeffs) (fun _ => 1) (fun _ => 1) a 0 y ∧ y 0 ≠ 0 := by
  obtain ⟨a, ha, x, hx, h⟩ := exFollows true (fun _ => 1)
  exact ⟨a, ha, x, h, fun e => by rw [hx] at e; exact one_ne_zero (congrFun e 0)⟩

end Verif.Fh
