import Verif.Potential.Loop
import Verif.Potential.Init
import Mathlib.Data.List.GetD
import Mathlib.Tactic.Ring
import Mathlib.Tactic.FieldSimp
import Mathlib.Tactic.Positivity

/-!
# The one-loop potential written out
-/

namespace Verif.Potential

namespace Spec

/-- The Coleman-Weinberg term of a squared mass `m` at the scale `Q`, cut off at `|m| = 1e-4`. -/
noncomputable def cw (Q c m : ℝ) : ℝ :=
  if |m| < 0.0001 then 0 else m ^ 2 / (64 * Real.pi ^ 2) * (Real.log (|m| / Q ^ 2) - c)

/-- `max(m, 0)^(3/2)` -/
noncomputable def threeHalves (m : ℝ) : ℝ := if 0 < m then m ^ (3 / 2 : ℝ) else 0

end Spec

theorem sumTo_map (l : List ℝ) (f : ℝ → ℝ) (n : Nat) (h : l.length = n) :
    sumTo n (fun k => f (nth l k)) = (l.map f).sum := by
  subst h
  unfold sumTo nth
  congr 1
  apply List.ext_getElem (by simp)
  intro i h1 h2
  simp only [List.getElem_map, List.getElem_range]
  rw [List.getD_eq_getElem]

theorem cwTerm_spec {Q : ℝ} (hQ : 0 < Q) (c m : ℝ) : cwTerm Q |m| c 0 = Spec.cw Q c m := by
  unfold cwTerm Spec.cw
  have ht : cThreshold = (0.0001 : ℝ) := by unfold cThreshold; norm_num
  rw [abs_abs, ht, if_pos rfl]
  split_ifs with h
  · rfl
  · have hm : (0.0001 : ℝ) ≤ |m| := not_lt.1 h
    have h0 : 0 < |m| := lt_of_lt_of_le (by norm_num) hm
    have hn : ¬ |m| < 1 / 10 ^ 200 := by
      apply not_lt.2
      refine le_trans ?_ hm
      norm_num
    have hl : Real.log (|m| / Q ^ 2) = fcw Q |m| := by
      unfold fcw
      rw [abs_abs, if_neg hn, Real.log_div h0.ne' (by positivity), Real.log_pow]
      push_cast
      ring
    rw [hl, ← sq_abs m]
    ring

theorem particle_zero {Q : ℝ} (hQ : 0 < Q) (J : Thermal) (c m T : ℝ) :
    particle J Q m T c 0 =
      Spec.cw Q c m + T ^ 4 / (2 * Real.pi ^ 2) * (if T = 0 then 0 else J.interpolated (m / T ^ 2)) := by
  unfold particle
  simp only [le_refl, if_true]
  rw [cwTerm_spec hQ]
  split_ifs <;> simp

/-- The one-loop potential: every scalar counts once, every gauge boson three times, every quark and lepton with
`-2` (quarks once for every colour); the subtraction is 3/2, for gauge bosons 5/6; the resummed masses enter with
`-T/(12 π)` times the difference of their powers 3/2. -/
theorem C141_one_loop {V : Type} (S : Spectra V) (v : V) (T : ℝ) (hQ : 0 < S.scale)
    (hH : (S.higgs v 0 0).length = S.nHiggs) (hG : (S.gauge v 0 0).length = S.nGauge)
    (hHT : (S.higgs v T 0).length = S.nHiggs) (hGT : (S.gauge v T 0).length = S.nGauge)
    (hq : (S.quark v 0).length = S.nQuarks) (hl : (S.lepton v 0).length = S.nLepton) :
    v1Loop S v T 0 =
      (((S.higgs v 0 0).map (Spec.cw S.scale 1.5)).sum
        + 3 * ((S.gauge v 0 0).map (Spec.cw S.scale (5 / 6))).sum
        - 2 * S.nColour * ((S.quark v 0).map (Spec.cw S.scale 1.5)).sum
        - 2 * ((S.lepton v 0).map (Spec.cw S.scale 1.5)).sum)
      + T ^ 4 / (2 * Real.pi ^ 2) * (if T = 0 then 0 else
        ((S.higgs v 0 0).map fun m => S.JB.interpolated (m / T ^ 2)).sum
        + 3 * ((S.gauge v 0 0).map fun m => S.JB.interpolated (m / T ^ 2)).sum
        - 2 * S.nColour * ((S.quark v 0).map fun m => S.JF.interpolated (m / T ^ 2)).sum
        - 2 * ((S.lepton v 0).map fun m => S.JF.interpolated (m / T ^ 2)).sum)
      - T / (12 * Real.pi) *
        (((S.higgs v T 0).map Spec.threeHalves).sum - ((S.higgs v 0 0).map Spec.threeHalves).sum
        + ((S.gauge v T 0).map Spec.threeHalves).sum - ((S.gauge v 0 0).map Spec.threeHalves).sum) := by
  have hb : cCWcb = 1.5 := by unfold cCWcb; norm_num
  have hg : cCWcbGB = 5 / 6 := rfl
  have add : ∀ (n : Nat) (f g : Nat → ℝ), sumTo n (fun k => f k + g k) = sumTo n f + sumTo n g := by
    intro n f g
    unfold sumTo
    exact List.sum_map_add
  have mul : ∀ (n : Nat) (a : ℝ) (f : Nat → ℝ), sumTo n (fun k => a * f k) = a * sumTo n f := by
    intro n a f
    unfold sumTo
    exact List.sum_map_mul_left (List.range n) f a
  have deb : ∀ a b : ℝ, debyeTerm a b = Spec.threeHalves a + -1 * Spec.threeHalves b := by
    intro a b
    unfold debyeTerm Spec.threeHalves
    split_ifs <;> simp
  rw [v1Loop, if_pos rfl]
  unfold v1Loop0 boson fermion
  simp only [particle_zero hQ, deb, add, mul, hb, hg, mul_add]
  by_cases hT : T = 0
  · simp only [hT, if_true, mul_zero, add_zero]
    simp only [← hT]
    simp only [sumTo_map _ _ _ hq, sumTo_map _ _ _ hl, sumTo_map _ _ _ hHT, sumTo_map _ _ _ hGT]
    subst hT
    have z : ∀ n : Nat, sumTo n (fun _ => (0 : ℝ)) = 0 := by intro n; unfold sumTo; simp
    simp [z]
    try ring
  · simp only [hT, if_false]
    simp only [sumTo_map _ _ _ hH, sumTo_map _ _ _ hG, sumTo_map _ _ _ hq, sumTo_map _ _ _ hl,
      sumTo_map _ _ _ hHT, sumTo_map _ _ _ hGT,
      sumTo_map _ (fun m => S.JB.interpolated (m / T ^ 2)) _ hH,
      sumTo_map _ (fun m => S.JB.interpolated (m / T ^ 2)) _ hG,
      sumTo_map _ (fun m => S.JF.interpolated (m / T ^ 2)) _ hq,
      sumTo_map _ (fun m => S.JF.interpolated (m / T ^ 2)) _ hl]
    ring

/-- One scalar and one gauge boson with squared mass 1 at the scale 1, without temperature. -/
example (J : Thermal) : v1Loop (V := Unit) ⟨1, 1, 0, 0, 3, fun _ _ _ => [1], fun _ _ _ => [1], fun _ _ => [],
    fun _ _ => [], 1, J, J⟩ () 0 0 = 1 / (64 * Real.pi ^ 2) * (-3 / 2) + 3 * (1 / (64 * Real.pi ^ 2) * (-5 / 6)) := by
  rw [C141_one_loop _ _ _ (by norm_num) rfl rfl rfl rfl rfl rfl]
  have : ¬ ((1 : ℝ) < 0.0001) := by norm_num
  simp [Spec.cw, this]
  ring

/-- The logarithm used in the derivatives of the potential is finite for massless particles as well: it is that of
the squared mass, but of 1e-200 at least, and therefore never below that value. -/
theorem C141_logarithm {Q : ℝ} (hQ : 0 < Q) (m : ℝ) :
    fcw Q m = Real.log (max |m| (1e-200) / Q ^ 2) ∧ Real.log (1e-200 / Q ^ 2) ≤ fcw Q m := by
  have e : fcw Q m = Real.log (max |m| (1e-200) / Q ^ 2) := by
    have h200 : (1e-200 : ℝ) = 1 / 10 ^ 200 := by norm_num
    have hp : (0 : ℝ) < max |m| (1e-200) := lt_max_of_lt_right (by norm_num)
    rw [Real.log_div hp.ne' (by positivity), Real.log_pow, fcw, h200]
    push_cast
    split_ifs with h
    · rw [max_eq_right h.le]
    · rw [max_eq_left (not_lt.1 h)]
  refine ⟨e, ?_⟩
  rw [e]
  apply Real.log_le_log (by positivity)
  gcongr
  exact le_max_right _ _

/-- A massless particle at the scale 1. -/
example : fcw 1 0 = Real.log (max |0| (1e-200) / 1 ^ 2) := (C141_logarithm one_pos 0).1

namespace Spec

/-- The squares of the squared masses above the cut. -/
noncomputable def fourth (m : ℝ) : ℝ := if |m| < 0.0001 then 0 else m ^ 2

end Spec

theorem cw_scale {Q Q' : ℝ} (hQ : 0 < Q) (hQ' : 0 < Q') (c : ℝ) (l : List ℝ) :
    (l.map (Spec.cw Q' c)).sum =
      (l.map (Spec.cw Q c)).sum - Real.log (Q' / Q) / (32 * Real.pi ^ 2) * (l.map Spec.fourth).sum := by
  induction l with
  | nil => simp
  | cons m l ih =>
    simp only [List.map_cons, List.sum_cons]
    rw [ih]
    have e : Spec.cw Q' c m =
        Spec.cw Q c m - Real.log (Q' / Q) / (32 * Real.pi ^ 2) * Spec.fourth m := by
      unfold Spec.cw Spec.fourth
      split_ifs with h
      · simp
      · have h0 : 0 < |m| := lt_of_lt_of_le (by norm_num) (not_lt.1 h)
        have hp := Real.pi_pos
        rw [Real.log_div h0.ne' (by positivity), Real.log_div h0.ne' (by positivity),
          Real.log_div hQ'.ne' hQ.ne', Real.log_pow, Real.log_pow]
        push_cast
        field_simp
        ring
    rw [e]
    ring

/-- A change of the renormalisation scale from `Q` to `Q'` changes the one-loop potential by
`-log(Q'/Q) / (32 π²)` times the supertrace of the fourth powers of the masses, at every temperature. -/
theorem C141_scale {V : Type} (S : Spectra V) (v : V) (T : ℝ) {Q : ℝ} (hS : 0 < S.scale) (hQ : 0 < Q)
    (hH : (S.higgs v 0 0).length = S.nHiggs) (hG : (S.gauge v 0 0).length = S.nGauge)
    (hHT : (S.higgs v T 0).length = S.nHiggs) (hGT : (S.gauge v T 0).length = S.nGauge)
    (hq : (S.quark v 0).length = S.nQuarks) (hl : (S.lepton v 0).length = S.nLepton) :
    v1Loop { S with scale := Q } v T 0 = v1Loop S v T 0 - Real.log (Q / S.scale) / (32 * Real.pi ^ 2) *
      (((S.higgs v 0 0).map Spec.fourth).sum + 3 * ((S.gauge v 0 0).map Spec.fourth).sum
        - 2 * S.nColour * ((S.quark v 0).map Spec.fourth).sum
        - 2 * ((S.lepton v 0).map Spec.fourth).sum) := by
  rw [C141_one_loop S v T hS hH hG hHT hGT hq hl,
    C141_one_loop { S with scale := Q } v T hQ hH hG hHT hGT hq hl]
  simp only [cw_scale hS hQ]
  ring

/-- At the scale 2 instead of 1, for one scalar of squared mass 1. -/
example (J : Thermal) : v1Loop (V := Unit) ⟨1, 0, 0, 0, 3, fun _ _ _ => [1], fun _ _ _ => [], fun _ _ => [],
    fun _ _ => [], 2, J, J⟩ () 0 0 = v1Loop (V := Unit) ⟨1, 0, 0, 0, 3, fun _ _ _ => [1], fun _ _ _ => [],
    fun _ _ => [], fun _ _ => [], 1, J, J⟩ () 0 0 - Real.log (2 / 1) / (32 * Real.pi ^ 2) := by
  have h := C141_scale (V := Unit) ⟨1, 0, 0, 0, 3, fun _ _ _ => [1], fun _ _ _ => [], fun _ _ => [],
    fun _ _ => [], 1, J, J⟩ () 0 (Q := 2) (by norm_num) (by norm_num) rfl rfl rfl rfl rfl rfl
  have : ¬ ((1 : ℝ) < 0.0001) := by norm_num
  simpa [Spec.fourth, this] using h

namespace Obj

variable {H : Hooks}

/-- Setting the parameters alone calculates the tensors exactly in the models that do so, and never the
couplings. -/
theorem C44_set_gen (o : Obj H) (ho : o.curvDone = false) (par : H.Par) :
    (o.setGen par).gen = H.gen par ∧ (o.setGen par).scale = H.scaleOf (H.gen par) ∧
    (o.setGen par).coup = o.coup ∧ (o.setGen par).coupDone = o.coupDone ∧
    (o.setGen par).curvDone = H.genSetsCurv ∧
    (H.genSetsCurv = true → (o.setGen par).curv = H.curvature (H.gen par)) ∧
    (H.genSetsCurv = false → (o.setGen par).curv = o.curv) := by
  cases hg : H.genSetsCurv <;> simp [setGen, ensureCurv, setCurvatureArrays, hg, ho]

end Obj

end Verif.Potential
