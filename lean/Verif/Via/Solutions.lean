import Verif.Via.Linear
import Verif.Via.Source
import Mathlib.Tactic.Linarith
import Mathlib.Tactic.NormNum
import Mathlib.Tactic.FieldSimp
import Mathlib.Tactic.LinearCombination

set_option linter.unusedSimpArgs false

/-!
# C88: solutions of the transport equations

CP violation is the only origin of the densities: without it they vanish, and they change sign when the
sign of all phases is changed.  Baryon number and lepton number are conserved.
-/

namespace Verif.Via

open Set Verif Outcome Spec

/-- The functions outside the model are continuous in the wall, statistical factors are positive, the source
is linear in the derivative of the phase, and this derivative is that of `Calc_theta`. -/
structure Regular (e : External ℝ) (lw a b : ℝ) : Prop where
  kappa : ∀ f, ContinuousOn (fun z => e.kappa (e.mass f z)) (Icc a b)
  pos : ∀ f, ∀ z ∈ Icc a b, 0 < e.kappa (e.mass f z)
  zero : 0 < e.kappa 0
  gam : ∀ f, ContinuousOn (fun z => e.gamM f (e.mass f z)) (Icc a b)
  source : ∀ f m c x, e.scp f m (c * x) = c * e.scp f m x
  theta : ∀ s b' z, e.thetaPrime s b' z = (calcTheta lw s b' z).2.1

/-- All phases with the opposite sign. -/
def Phases.conj (p : Phases ℝ) : Phases ℝ := ⟨-p.sym, -p.brk, fun f => -p.sym' f, fun f => -p.brk' f⟩

/-- No CP violation: all phases are below the threshold of the program. -/
structure Phases.Conserving (p : Phases ℝ) : Prop where
  sym : |p.sym| < 1e-12
  brk : |p.brk| < 1e-12
  sym' : ∀ f, |p.sym' f| < 1e-12
  brk' : ∀ f, |p.brk' f| < 1e-12

theorem theta_neg (lw s b z : ℝ) : (calcTheta lw (-s) (-b) z).2.1 = -(calcTheta lw s b z).2.1 := by
  unfold calcTheta
  rw [abs_neg, abs_neg]
  split
  · simp
  · simp only
    ring

theorem theta_zero (lw s b z : ℝ) (hs : |s| < 1e-12) (hb : |b| < 1e-12) : (calcTheta lw s b z).2.1 = 0 := by
  unfold calcTheta
  rw [if_pos ⟨hs, hb⟩]

namespace Regular

variable {e : External ℝ} {lw a b : ℝ}

theorem scp_neg (h : Regular e lw a b) (f : Fermion) (m s b' z : ℝ) :
    e.scp f m (e.thetaPrime (-s) (-b') z) = -e.scp f m (e.thetaPrime s b' z) := by
  rw [h.theta, h.theta, theta_neg, ← neg_one_mul, h.source, neg_one_mul]

theorem scp_zero (h : Regular e lw a b) (f : Fermion) (m s b' z : ℝ) (hs : |s| < 1e-12) (hb : |b'| < 1e-12) :
    e.scp f m (e.thetaPrime s b' z) = 0 := by
  rw [h.theta, theta_zero _ _ _ _ hs hb]
  have := h.source f m 0 0
  simpa using this

end Regular

/-! ## No asymmetry without CP violation, and the sign of the asymmetry -/

theorem top_odd {e : External ℝ} {lw a b : ℝ} (h : Regular e lw a b) (r : Rates ℝ) (p p' : Phases ℝ)
    (hp : ∀ z ∈ Icc a b, ∀ m, e.scp .top m (e.thetaPrime p'.sym p'.brk z) =
      -e.scp .top m (e.thetaPrime p.sym p.brk z))
    {w w' : ℝ → Fin 8 → ℝ} (hw : Solves (fun w z => ok (top e r p w z)) a b w)
    (hw' : Solves (fun w z => ok (top e r p' w z)) a b w') : ∀ z ∈ Icc a b, w' z = -w z := by
  have key := linear_zero (a := a) (b := b)
    (fun z => topLin r (e.kappa (e.mass .top z)) (e.gamM .top (e.mass .top z)))
    (fun v => topSystem_cont r (h.kappa .top) (h.gam .top) (h.pos .top) v)
    (f := fun z => w z + w' z)
    (fun z hz => by
      obtain ⟨d, hd, hD⟩ := hw.deriv z hz
      obtain ⟨d', hd', hD'⟩ := hw'.deriv z hz
      simp only [Outcome.ok.injEq] at hd hd'
      have := hD.add hD'
      rw [← hd, ← hd'] at this
      refine HasDerivWithinAt.congr_deriv this (Eq.symm ?_)
      simp only [top, topLin, LinearMap.coe_mk, AddHom.coe_mk]
      have l := topSystem_lin r (e.kappa (e.mass .top z)) (e.gamM .top (e.mass .top z))
        (e.scp .top (e.mass .top z) (e.thetaPrime p.sym p.brk z))
        (e.scp .top (e.mass .top z) (e.thetaPrime p'.sym p'.brk z)) 1 (w z) (w' z)
      rw [one_smul, one_smul, hp z hz, one_mul, add_neg_cancel] at l
      rw [l, hp z hz])
    (by simp [hw.start, hw'.start])
  exact fun z hz => eq_neg_of_add_eq_zero_right (key z hz)

theorem bot_odd {e : External ℝ} {lw a b : ℝ} (h : Regular e lw a b) (r : Rates ℝ) (p p' : Phases ℝ)
    (flag : Int)
    (hp : ∀ z ∈ Icc a b, ∀ f m, e.scp f m (e.thetaPrime (p'.sym' f) (p'.brk' f) z) =
      -e.scp f m (e.thetaPrime (p.sym' f) (p.brk' f) z))
    {w w' : ℝ → Fin 12 → ℝ} (hw : Solves (bot e r p flag) a b w) (hw' : Solves (bot e r p' flag) a b w') :
    ∀ z ∈ Icc a b, w' z = -w z := by
  have hB : ContinuousOn (fun z => e.kappa (if flag = 1 then e.mass .bottom z else 0)) (Icc a b) := by
    by_cases hf : flag = 1
    · simp only [hf, if_true]; exact h.kappa .bottom
    · simp only [hf, if_false]; exact continuousOn_const
  have hgB : ContinuousOn (fun z => e.gamM .bottom (if flag = 1 then e.mass .bottom z else 0)) (Icc a b) := by
    by_cases hf : flag = 1
    · simp only [hf, if_true]; exact h.gam .bottom
    · simp only [hf, if_false]; exact continuousOn_const
  have pB : ∀ z ∈ Icc a b, 0 < e.kappa (if flag = 1 then e.mass .bottom z else 0) := by
    intro z hz
    by_cases hf : flag = 1
    · simp only [hf, if_true]; exact h.pos .bottom z hz
    · simp only [hf, if_false]; exact h.zero
  have key := linear_zero (a := a) (b := b)
    (fun z => botLin r (if flag = 2 then 0 else r.gamYb) (e.kappa (e.mass .top z))
      (e.kappa (if flag = 1 then e.mass .bottom z else 0)) (e.gamM .top (e.mass .top z))
      (e.gamM .bottom (if flag = 1 then e.mass .bottom z else 0)))
    (fun v => botSystem_cont r _ (h.kappa .top) hB (h.gam .top) hgB (h.pos .top) pB v)
    (f := fun z => w z + w' z)
    (fun z hz => by
      obtain ⟨d, hd, hD⟩ := hw.deriv z hz
      obtain ⟨d', hd', hD'⟩ := hw'.deriv z hz
      unfold bot at hd hd'
      simp only at hd hd'
      split at hd
      · cases hd
      rename_i hflag
      rw [if_neg hflag] at hd'
      simp only [Outcome.ok.injEq] at hd hd'
      have := hD.add hD'
      rw [← hd, ← hd'] at this
      refine HasDerivWithinAt.congr_deriv this (Eq.symm ?_)
      simp only [botLin, LinearMap.coe_mk, AddHom.coe_mk]
      rw [hp z hz, hp z hz]
      have e2 : ∀ x : ℝ, (if flag = 1 then -x else 0) = -(if flag = 1 then x else 0) := by
        intro x; split <;> simp
      rw [e2]
      rw [← one_smul ℝ (w' z)]
      rw [← one_smul ℝ (botSystem _ _ _ _ _ _ (-_) _ _)]
      rw [← botSystem_lin]
      simp)
    (by simp [hw.start, hw'.start])
  exact fun z hz => eq_neg_of_add_eq_zero_right (key z hz)

theorem tau_odd {e : External ℝ} {lw a b : ℝ} (h : Regular e lw a b) (r : Rates ℝ) (p p' : Phases ℝ)
    (flag flagL : Int)
    (hp : ∀ z ∈ Icc a b, ∀ f m, e.scp f m (e.thetaPrime (p'.sym' f) (p'.brk' f) z) =
      -e.scp f m (e.thetaPrime (p.sym' f) (p.brk' f) z))
    {w w' : ℝ → Fin 18 → ℝ} (hw : Solves (tau e r p flag flagL) a b w)
    (hw' : Solves (tau e r p' flag flagL) a b w') :
    ∀ z ∈ Icc a b, w' z = -w z := by
  have hK : ∀ (g : Int) (f : Fermion),
      ContinuousOn (fun z => e.kappa (if g = 1 then e.mass f z else 0)) (Icc a b) := by
    intro g f
    by_cases hf : g = 1
    · simp only [hf, if_true]; exact h.kappa f
    · simp only [hf, if_false]; exact continuousOn_const
  have hG : ∀ (g : Int) (f : Fermion),
      ContinuousOn (fun z => e.gamM f (if g = 1 then e.mass f z else 0)) (Icc a b) := by
    intro g f
    by_cases hf : g = 1
    · simp only [hf, if_true]; exact h.gam f
    · simp only [hf, if_false]; exact continuousOn_const
  have hP : ∀ (g : Int) (f : Fermion), ∀ z ∈ Icc a b, 0 < e.kappa (if g = 1 then e.mass f z else 0) := by
    intro g f z hz
    by_cases hf : g = 1
    · simp only [hf, if_true]; exact h.pos f z hz
    · simp only [hf, if_false]; exact h.zero
  have key := linear_zero (a := a) (b := b)
    (fun z => tauLin r (if flag = 2 then 0 else r.gamYb) (e.kappa (e.mass .top z))
      (e.kappa (if flag = 1 then e.mass .bottom z else 0)) (e.kappa (if flagL = 1 then e.mass .tau z else 0))
      (e.gamM .top (e.mass .top z)) (e.gamM .bottom (if flag = 1 then e.mass .bottom z else 0))
      (e.gamM .tau (if flagL = 1 then e.mass .tau z else 0)))
    (fun v => tauSystem_cont r _ (h.kappa .top) (hK flag .bottom) (hK flagL .tau) (h.gam .top)
      (hG flag .bottom) (hG flagL .tau) (h.pos .top) (hP flag .bottom) (hP flagL .tau) v)
    (f := fun z => w z + w' z)
    (fun z hz => by
      obtain ⟨d, hd, hD⟩ := hw.deriv z hz
      obtain ⟨d', hd', hD'⟩ := hw'.deriv z hz
      unfold tau at hd hd'
      simp only at hd hd'
      split at hd
      · cases hd
      rename_i hflag
      rw [if_neg hflag] at hd'
      split at hd
      · cases hd
      rename_i hflagL
      rw [if_neg hflagL] at hd'
      simp only [Outcome.ok.injEq] at hd hd'
      have := hD.add hD'
      rw [← hd, ← hd'] at this
      refine HasDerivWithinAt.congr_deriv this (Eq.symm ?_)
      simp only [tauLin, LinearMap.coe_mk, AddHom.coe_mk]
      rw [hp z hz, hp z hz, hp z hz]
      have e2 : ∀ x : ℝ, (if flag = 1 ∧ flagL = 1 then -x else 0) =
          -(if flag = 1 ∧ flagL = 1 then x else 0) := by
        intro x; split <;> simp
      rw [e2, e2]
      rw [← one_smul ℝ (w' z)]
      rw [← one_smul ℝ (tauSystem _ _ _ _ _ _ _ _ (-_) _ _ _)]
      rw [← tauSystem_lin]
      simp)
    (by simp [hw.start, hw'.start])
  exact fun z hz => eq_neg_of_add_eq_zero_right (key z hz)

/-- With the opposite phases, all densities and the density of left-handed particles change sign. -/
theorem C88_cp_odd {e : External ℝ} {lw a b : ℝ} (h : Regular e lw a b) (r : Rates ℝ) (p : Phases ℝ) :
    (∀ w w', Solves (fun w z => ok (top e r p w z)) a b w →
      Solves (fun w z => ok (top e r p.conj w z)) a b w' →
      ∀ z ∈ Icc a b, w' z = -w z ∧ topNL (w' z) = -topNL (w z)) ∧
    (∀ flag w w', Solves (bot e r p flag) a b w → Solves (bot e r p.conj flag) a b w' →
      ∀ z ∈ Icc a b, w' z = -w z ∧ botNL (w' z) = -botNL (w z)) ∧
    ∀ flag flagL w w', Solves (tau e r p flag flagL) a b w → Solves (tau e r p.conj flag flagL) a b w' →
      ∀ z ∈ Icc a b, w' z = -w z ∧ tauNL (w' z) = -tauNL (w z) := by
  refine ⟨fun w w' hw hw' z hz => ?_, fun flag w w' hw hw' z hz => ?_, fun flag flagL w w' hw hw' z hz => ?_⟩
  · have := top_odd h r p p.conj (fun z _ m => h.scp_neg _ _ _ _ _) hw hw' z hz
    exact ⟨this, by rw [this]; simp only [topNL, Pi.neg_apply]; ring⟩
  · have := bot_odd h r p p.conj flag (fun z _ f m => h.scp_neg _ _ _ _ _) hw hw' z hz
    exact ⟨this, by rw [this]; simp only [botNL, Pi.neg_apply]; ring⟩
  · have := tau_odd h r p p.conj flag flagL (fun z _ f m => h.scp_neg _ _ _ _ _) hw hw' z hz
    exact ⟨this, by rw [this]; simp only [tauNL, Pi.neg_apply]; ring⟩

/-- Without CP violation there are no densities. -/
theorem C88_no_cp_violation {e : External ℝ} {lw a b : ℝ} (h : Regular e lw a b) (r : Rates ℝ) (p : Phases ℝ)
    (hp : p.Conserving) :
    (∀ w, Solves (fun w z => ok (top e r p w z)) a b w → ∀ z ∈ Icc a b, w z = 0 ∧ topNL (w z) = 0) ∧
    (∀ flag w, Solves (bot e r p flag) a b w → ∀ z ∈ Icc a b, w z = 0 ∧ botNL (w z) = 0) ∧
    ∀ flag flagL w, Solves (tau e r p flag flagL) a b w → ∀ z ∈ Icc a b, w z = 0 ∧ tauNL (w z) = 0 := by
  have half : ∀ {n : ℕ} (v : Fin n → ℝ), v = -v → v = 0 := by
    intro n v hv
    ext i
    have := congrFun hv i
    simp only [Pi.neg_apply, Pi.zero_apply] at this ⊢
    linarith
  refine ⟨fun w hw z hz => ?_, fun flag w hw z hz => ?_, fun flag flagL w hw z hz => ?_⟩
  · have := half _ (top_odd h r p p (fun z _ m => by rw [h.scp_zero _ _ _ _ _ hp.sym hp.brk, neg_zero])
      hw hw z hz)
    exact ⟨this, by rw [this]; simp [topNL]⟩
  · have := half _ (bot_odd h r p p flag
      (fun z _ f m => by rw [h.scp_zero _ _ _ _ _ (hp.sym' f) (hp.brk' f), neg_zero]) hw hw z hz)
    exact ⟨this, by rw [this]; simp [botNL]⟩
  · have := half _ (tau_odd h r p p flag flagL
      (fun z _ f m => by rw [h.scp_zero _ _ _ _ _ (hp.sym' f) (hp.brk' f), neg_zero]) hw hw z hz)
    exact ⟨this, by rw [this]; simp [tauNL]⟩

/-- The densities for given phases are determined: two solutions agree. -/
theorem C88_unique {e : External ℝ} {lw a b : ℝ} (h : Regular e lw a b) (r : Rates ℝ) (p : Phases ℝ) :
    (∀ w w', Solves (fun w z => ok (top e r p w z)) a b w → Solves (fun w z => ok (top e r p w z)) a b w' →
      ∀ z ∈ Icc a b, w z = w' z) ∧
    (∀ flag w w', Solves (bot e r p flag) a b w → Solves (bot e r p flag) a b w' →
      ∀ z ∈ Icc a b, w z = w' z) ∧
    ∀ flag flagL w w', Solves (tau e r p flag flagL) a b w → Solves (tau e r p flag flagL) a b w' →
      ∀ z ∈ Icc a b, w z = w' z := by
  have hs : ∀ (f : Fermion) m x y z, e.scp f m (e.thetaPrime (-x) (-y) z) =
      -e.scp f m (e.thetaPrime x y z) := fun f m x y z => h.scp_neg _ _ _ _ _
  have neg_top : ∀ w, Solves (fun w z => ok (top e r p w z)) a b w →
      Solves (fun w z => ok (top e r p.conj w z)) a b (-w) := by
    intro w hw
    refine ⟨by simp [hw.start], fun z hz => ?_⟩
    obtain ⟨d, hd, hD⟩ := hw.deriv z hz
    refine ⟨-d, ?_, hD.neg⟩
    simp only [Outcome.ok.injEq] at hd ⊢
    rw [← hd]
    simp only [top, Phases.conj, hs]
    have := topSystem_lin r (e.kappa (e.mass .top z)) (e.gamM .top (e.mass .top z)) 0
      (e.scp .top (e.mass .top z) (e.thetaPrime p.sym p.brk z)) (-1) 0 (w z)
    have h0 := (topLin r (e.kappa (e.mass .top z)) (e.gamM .top (e.mass .top z))).map_zero
    simp only [topLin, LinearMap.coe_mk, AddHom.coe_mk] at h0
    rw [h0] at this
    simpa using this
  have neg_bot : ∀ flag w, Solves (bot e r p flag) a b w → Solves (bot e r p.conj flag) a b (-w) := by
    intro flag w hw
    refine ⟨by simp [hw.start], fun z hz => ?_⟩
    obtain ⟨d, hd, hD⟩ := hw.deriv z hz
    refine ⟨-d, ?_, hD.neg⟩
    unfold bot at hd ⊢
    simp only at hd ⊢
    split at hd
    · cases hd
    rename_i hflag
    rw [if_neg hflag]
    simp only [Outcome.ok.injEq] at hd ⊢
    rw [← hd]
    simp only [Phases.conj, hs]
    have e2 : ∀ x : ℝ, (if flag = 1 then -x else 0) = -(if flag = 1 then x else 0) := by
      intro x; split <;> simp
    rw [e2]
    have := botSystem_lin r (if flag = 2 then 0 else r.gamYb) (e.kappa (e.mass .top z))
      (e.kappa (if flag = 1 then e.mass .bottom z else 0)) (e.gamM .top (e.mass .top z))
      (e.gamM .bottom (if flag = 1 then e.mass .bottom z else 0)) 0 0
      (e.scp .top (e.mass .top z) (e.thetaPrime (p.sym' .top) (p.brk' .top) z))
      (if flag = 1 then e.scp .bottom (if flag = 1 then e.mass .bottom z else 0)
        (e.thetaPrime (p.sym' .bottom) (p.brk' .bottom) z) else 0) (-1) 0 (w z)
    have h0 := (botLin r (if flag = 2 then 0 else r.gamYb) (e.kappa (e.mass .top z))
      (e.kappa (if flag = 1 then e.mass .bottom z else 0)) (e.gamM .top (e.mass .top z))
      (e.gamM .bottom (if flag = 1 then e.mass .bottom z else 0))).map_zero
    simp only [botLin, LinearMap.coe_mk, AddHom.coe_mk] at h0
    rw [h0] at this
    simpa only [zero_add, neg_one_mul, neg_smul, one_smul, Pi.neg_apply] using this
  have neg_tau : ∀ flag flagL w, Solves (tau e r p flag flagL) a b w →
      Solves (tau e r p.conj flag flagL) a b (-w) := by
    intro flag flagL w hw
    refine ⟨by simp [hw.start], fun z hz => ?_⟩
    obtain ⟨d, hd, hD⟩ := hw.deriv z hz
    refine ⟨-d, ?_, hD.neg⟩
    unfold tau at hd ⊢
    simp only at hd ⊢
    split at hd
    · cases hd
    rename_i hflag
    rw [if_neg hflag]
    split at hd
    · cases hd
    rename_i hflagL
    rw [if_neg hflagL]
    simp only [Outcome.ok.injEq] at hd ⊢
    rw [← hd]
    simp only [Phases.conj, hs]
    have e2 : ∀ x : ℝ, (if flag = 1 ∧ flagL = 1 then -x else 0) =
        -(if flag = 1 ∧ flagL = 1 then x else 0) := by
      intro x; split <;> simp
    rw [e2, e2]
    have := tauSystem_lin r (if flag = 2 then 0 else r.gamYb) (e.kappa (e.mass .top z))
      (e.kappa (if flag = 1 then e.mass .bottom z else 0)) (e.kappa (if flagL = 1 then e.mass .tau z else 0))
      (e.gamM .top (e.mass .top z))
      (e.gamM .bottom (if flag = 1 then e.mass .bottom z else 0))
      (e.gamM .tau (if flagL = 1 then e.mass .tau z else 0)) 0 0 0
      (e.scp .top (e.mass .top z) (e.thetaPrime (p.sym' .top) (p.brk' .top) z))
      (if flag = 1 ∧ flagL = 1 then e.scp .bottom (if flag = 1 then e.mass .bottom z else 0)
        (e.thetaPrime (p.sym' .bottom) (p.brk' .bottom) z) else 0)
      (if flag = 1 ∧ flagL = 1 then e.scp .tau (if flagL = 1 then e.mass .tau z else 0)
        (e.thetaPrime (p.sym' .tau) (p.brk' .tau) z) else 0) (-1) 0 (w z)
    have h0 := (tauLin r (if flag = 2 then 0 else r.gamYb) (e.kappa (e.mass .top z))
      (e.kappa (if flag = 1 then e.mass .bottom z else 0)) (e.kappa (if flagL = 1 then e.mass .tau z else 0))
      (e.gamM .top (e.mass .top z))
      (e.gamM .bottom (if flag = 1 then e.mass .bottom z else 0))
      (e.gamM .tau (if flagL = 1 then e.mass .tau z else 0))).map_zero
    simp only [tauLin, LinearMap.coe_mk, AddHom.coe_mk] at h0
    rw [h0] at this
    simpa only [zero_add, neg_one_mul, neg_smul, one_smul, Pi.neg_apply] using this
  have C := C88_cp_odd h r p
  refine ⟨fun w w' hw hw' z hz => ?_, fun flag w w' hw hw' z hz => ?_, fun flag flagL w w' hw hw' z hz => ?_⟩
  · have := (C.1 w (-w') hw (neg_top w' hw') z hz).1
    exact (neg_injective this).symm
  · have := (C.2.1 flag w (-w') hw (neg_bot flag w' hw') z hz).1
    exact (neg_injective this).symm
  · have := (C.2.2 flag flagL w (-w') hw (neg_tau flag flagL w' hw') z hz).1
    exact (neg_injective this).symm

/-! ## Conservation laws -/

/-- In the equations with a bottom quark the baryon number of the third generation vanishes everywhere, and
both Higgs doublets have the same density.  With a massless bottom quark its right-handed density is that of
a light quark. -/
theorem C88_bottom_conserved (e : External ℝ) (r : Rates ℝ) (p : Phases ℝ) (flag : Int) {a b : ℝ}
    {w : ℝ → Fin 12 → ℝ} (hw : Solves (bot e r p flag) a b w) :
    ∀ z ∈ Icc a b, w z 0 + w z 1 + w z 2 = 0 ∧ w z 3 = w z 4 ∧
      (flag = 2 → (∀ m, e.gamM .bottom 0 = m → m = 0) → w z 2 = w z 5) := by
  have hsys : ∀ z ∈ Icc a b, ∃ gY k k' g g' s s', HasDerivWithinAt w
      (botSystem r gY k k' g g' s s' (w z)) (Icc a b) z ∧
      (flag = 2 → gY = 0 ∧ g' = e.gamM .bottom 0 ∧ s' = 0) := by
    intro z hz
    obtain ⟨d, hd, hD⟩ := hw.deriv z hz
    unfold bot at hd
    simp only at hd
    split at hd
    · cases hd
    simp only [Outcome.ok.injEq] at hd
    rw [← hd] at hD
    refine ⟨_, _, _, _, _, _, _, hD, fun hf => ?_⟩
    subst hf
    simp
  have hcomp : ∀ z ∈ Icc a b, ∃ gY k k' g g' s s', (∀ i, HasDerivWithinAt (fun z => w z i)
      (botSystem r gY k k' g g' s s' (w z) i) (Icc a b) z) ∧
      (flag = 2 → gY = 0 ∧ g' = e.gamM .bottom 0 ∧ s' = 0) := by
    intro z hz
    obtain ⟨gY, k, k', g, g', s, s', h, hf⟩ := hsys z hz
    exact ⟨gY, k, k', g, g', s, s', fun i => hasDerivWithinAt_pi.1 h i, hf⟩
  have h0 : ∀ i, w b i = 0 := fun i => by rw [hw.start]; rfl
  have B := free_zero (a := a) (b := b) (f := fun z => w z 0 + w z 1 + w z 2)
    (g := fun z => w z 6 + w z 7 + w z 8) (r.vw / r.dq)
    (fun z hz => by
      obtain ⟨gY, k, k', g, g', s, s', h, -⟩ := hcomp z hz
      exact ((h 0).add (h 1)).add (h 2))
    (fun z hz => by
      obtain ⟨gY, k, k', g, g', s, s', h, -⟩ := hcomp z hz
      have := ((h 6).add (h 7)).add (h 8)
      refine HasDerivWithinAt.congr_deriv this (Eq.symm ?_)
      simp only [botSystem, Matrix.cons_val', Matrix.cons_val]
      ring)
    (by simp [h0]) (by simp [h0])
  have H := free_zero (a := a) (b := b) (f := fun z => w z 3 - w z 4)
    (g := fun z => w z 9 - w z 10) (r.vw / r.dh)
    (fun z hz => by
      obtain ⟨gY, k, k', g, g', s, s', h, -⟩ := hcomp z hz
      exact (h 3).sub (h 4))
    (fun z hz => by
      obtain ⟨gY, k, k', g, g', s, s', h, -⟩ := hcomp z hz
      have := (h 9).sub (h 10)
      refine HasDerivWithinAt.congr_deriv this (Eq.symm ?_)
      simp only [botSystem, Matrix.cons_val', Matrix.cons_val]
      ring)
    (by simp [h0]) (by simp [h0])
  intro z hz
  refine ⟨(B z hz).1, sub_eq_zero.1 (H z hz).1, fun hf hg => ?_⟩
  have L := free_zero (a := a) (b := b) (f := fun z => w z 2 - w z 5)
    (g := fun z => w z 8 - w z 11) (r.vw / r.dq)
    (fun z hz => by
      obtain ⟨gY, k, k', g, g', s, s', h, -⟩ := hcomp z hz
      exact (h 2).sub (h 5))
    (fun z hz => by
      obtain ⟨gY, k, k', g, g', s, s', h, h2⟩ := hcomp z hz
      obtain ⟨e1, e2, e3⟩ := h2 hf
      have := (h 8).sub (h 11)
      refine HasDerivWithinAt.congr_deriv this (Eq.symm ?_)
      simp only [botSystem, Matrix.cons_val', Matrix.cons_val, e1, e2, e3, hg _ rfl]
      ring)
    (by simp [h0]) (by simp [h0])
  exact sub_eq_zero.1 (L z hz).1

/-- In the equations with a tau lepton the baryon number of the third generation vanishes everywhere, there
are no neutrinos, both Higgs doublets have the same density, and the current of lepton number vanishes. -/
theorem C88_tau_conserved (e : External ℝ) (r : Rates ℝ) (p : Phases ℝ) (flag flagL : Int) {a b : ℝ}
    (hl : r.dlep ≠ 0) (ht : r.dtau ≠ 0)
    {w : ℝ → Fin 18 → ℝ} (hw : Solves (tau e r p flag flagL) a b w) :
    ∀ z ∈ Icc a b, w z 0 + w z 1 + w z 2 = 0 ∧ w z 4 = 0 ∧ w z 6 = w z 7 ∧
      r.vw * (w z 3 + w z 5) = r.dlep * w z 12 + r.dtau * w z 14 := by
  have hcomp : ∀ z ∈ Icc a b, ∃ gY k k' k'' g g' g'' s s' s'', ∀ i, HasDerivWithinAt (fun z => w z i)
      (tauSystem r gY k k' k'' g g' g'' s s' s'' (w z) i) (Icc a b) z := by
    intro z hz
    obtain ⟨d, hd, hD⟩ := hw.deriv z hz
    unfold tau at hd
    simp only at hd
    split at hd
    · cases hd
    split at hd
    · cases hd
    simp only [Outcome.ok.injEq] at hd
    rw [← hd] at hD
    exact ⟨_, _, _, _, _, _, _, _, _, _, fun i => hasDerivWithinAt_pi.1 hD i⟩
  have h0 : ∀ i, w b i = 0 := fun i => by rw [hw.start]; rfl
  have B := free_zero (a := a) (b := b) (f := fun z => w z 0 + w z 1 + w z 2)
    (g := fun z => w z 9 + w z 10 + w z 11) (r.vw / r.dq)
    (fun z hz => by
      obtain ⟨gY, k, k', k'', g, g', g'', s, s', s'', h⟩ := hcomp z hz
      exact ((h 0).add (h 1)).add (h 2))
    (fun z hz => by
      obtain ⟨gY, k, k', k'', g, g', g'', s, s', s'', h⟩ := hcomp z hz
      have := ((h 9).add (h 10)).add (h 11)
      refine HasDerivWithinAt.congr_deriv this (Eq.symm ?_)
      simp only [tauSystem, Matrix.cons_val', Matrix.cons_val]
      ring)
    (by simp [h0]) (by simp [h0])
  have N := free_zero (a := a) (b := b) (f := fun z => w z 4) (g := fun z => w z 13) (r.vw / r.dtau)
    (fun z hz => by
      obtain ⟨gY, k, k', k'', g, g', g'', s, s', s'', h⟩ := hcomp z hz
      exact h 4)
    (fun z hz => by
      obtain ⟨gY, k, k', k'', g, g', g'', s, s', s'', h⟩ := hcomp z hz
      have := h 13
      refine HasDerivWithinAt.congr_deriv this (Eq.symm ?_)
      simp only [tauSystem, Matrix.cons_val', Matrix.cons_val]
      ring)
    (h0 4) (h0 13)
  have H := free_zero (a := a) (b := b) (f := fun z => w z 6 - w z 7)
    (g := fun z => w z 15 - w z 16) (r.vw / r.dh)
    (fun z hz => by
      obtain ⟨gY, k, k', k'', g, g', g'', s, s', s'', h⟩ := hcomp z hz
      exact (h 6).sub (h 7))
    (fun z hz => by
      obtain ⟨gY, k, k', k'', g, g', g'', s, s', s'', h⟩ := hcomp z hz
      have := (h 15).sub (h 16)
      refine HasDerivWithinAt.congr_deriv this (Eq.symm ?_)
      simp only [tauSystem, Matrix.cons_val', Matrix.cons_val]
      ring)
    (by simp [h0]) (by simp [h0])
  have L := const_zero (a := a) (b := b)
    (f := fun z => r.vw * (w z 3 + w z 5) - (r.dlep * w z 12 + r.dtau * w z 14))
    (fun z hz => by
      obtain ⟨gY, k, k', k'', g, g', g'', s, s', s'', h⟩ := hcomp z hz
      have := (((h 3).add (h 5)).const_mul r.vw).sub (((h 12).const_mul r.dlep).add ((h 14).const_mul r.dtau))
      refine HasDerivWithinAt.congr_deriv this (Eq.symm ?_)
      simp only [tauSystem, Matrix.cons_val', Matrix.cons_val]
      rw [mul_div_cancel₀ _ hl, mul_div_cancel₀ _ ht]
      ring)
    (by simp [h0])
  exact fun z hz => ⟨(B z hz).1, (N z hz).1, sub_eq_zero.1 (H z hz).1, sub_eq_zero.1 (L z hz)⟩

end Verif.Via
