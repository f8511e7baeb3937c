import Verif.Weinberg.Assemble
import Verif.Potential.LoopProps

/-!
# The one-loop potential of the code
-/

namespace Verif.Weinberg

open Matrix Verif.Potential Verif.Invariance
open scoped BigOperators
open Spec (cw Lawful)

variable {n : Nat}

theorem cwTerm_eq (scale x c : ℝ) : cwTerm scale |x| c 0 = cw (1 / 10 ^ 4) scale c x := by
  unfold Spec.cw
  by_cases h : |x| < 1 / 10 ^ 4
  · rw [if_pos h, cwTerm, abs_abs, if_pos (show |x| < cThreshold from h)]
  · rw [cwTerm_zero_eq _ _ _ (by rw [abs_abs]; exact not_lt.1 h), if_neg h]
    have := abs_mul_abs_self x
    rw [mul_assoc, mul_assoc, ← mul_assoc |x|, this]
    ring

theorem cw_cut (scale c x : ℝ) {ε : ℝ} (hε : ε ≤ 1 / 10 ^ 4) :
    cw (1 / 10 ^ 4) scale c (if |x| < ε then 0 else x) = cw (1 / 10 ^ 4) scale c x := by
  split_ifs with h
  · unfold Spec.cw
    rw [if_pos (by rw [abs_zero]; positivity), if_pos (h.trans_le hε)]
  · rfl

theorem nth_map {f : ℝ → ℝ} (hf : f 0 = 0) (l : List ℝ) (k : Nat) : nth (l.map f) k = f (nth l k) := by
  simp only [nth, List.getD, List.getElem?_map]
  cases l[k]? with
  | none => exact hf.symm
  | some x => rfl

theorem sumTo_fin (k : Nat) (f : Nat → ℝ) : sumTo k f = ∑ i : Fin k, f i := by
  rw [sumTo, ← List.sum_ofFn, List.ofFn_eq_map]
  congr 1
  rw [← List.map_coe_finRange_eq_range, List.map_map]
  rfl

/-- **`V1Loop` at zero temperature** is the Coleman-Weinberg potential in which the particles whose
squared mass is smaller than `10⁻⁴` are neglected. -/
theorem v1Loop_eq {S : Solver} (hS : S.Correct) (T : Tensors n) (hT : Lawful T) (scale : ℝ)
    (JB JF : Thermal) (φ : Fin n → ℝ) :
    v1Loop (T.spectra S scale JB JF) φ 0 0 = Spec.potential (1 / 10 ^ 4) scale T φ := by
  have e1 : of (mass0 T.scalar T.debyeHiggs φ 0) = massHiggs T.scalar φ := by
    have hu : ∀ i j, massUpper T.scalar T.debyeHiggs φ 0 i j = massHiggs T.scalar φ i j := fun i j => by
      unfold massUpper massHiggs
      simp [Finset.sum_add_distrib]
    have hm := hermitian_scalar _ hT.scalar φ
    ext i j
    rw [of_apply, mass0]
    split_ifs
    · exact hu i j
    · rw [hu, ← hm.apply, star_trivial]
  have e2 : Spectrum.gaugeMatrix T.gauge T.debyeGauge 0 φ = massGauge T.gauge φ := by
    have hu : ∀ a b, Spectrum.gaugeEntry T.gauge T.debyeGauge 0 φ a b = massGauge T.gauge φ a b :=
      fun a b => by
        unfold Spectrum.gaugeEntry massGauge
        simp
    have hm := hermitian_gauge _ hT.gauge φ
    ext a b
    rw [Spectrum.gaugeMatrix]
    split_ifs
    · rw [hu, ← hm.apply, star_trivial]
    · exact hu a b
  rw [potential_eq hS hT, v1Loop, if_pos rfl, v1Loop0]
  simp only [Tensors.spectra, sumTo_fin]
  rw [higgsSpectrum_zero]
  simp only [gaugeSpectrum, fermionSpectrum, if_true, le_refl]
  have c1 : cutMass 0 = 0 := by simp [cutMass]
  have c2 : cutFermion 0 = 0 := by simp [cutFermion]
  have b : ∀ (J : Thermal) (c x : ℝ), particle J scale (cutMass x) 0 c 0 = cw (1 / 10 ^ 4) scale c x :=
    fun J c x => by
      rw [particle]
      simp only [le_refl, if_true]
      rw [cwTerm_eq]
      exact cw_cut scale c x (by norm_num)
  have f : ∀ (J : Thermal) (x : ℝ), particle J scale (cutFermion x) 0 cCWcb 0 =
      cw (1 / 10 ^ 4) scale (3 / 2) x := fun J x => by
    rw [particle]
    simp only [le_refl, if_true]
    rw [cwTerm_eq]
    exact cw_cut scale _ x (by norm_num)
  simp only [nth_map c1, nth_map c2, boson, fermion, b, f]
  rw [← e1, ← e2]
  simp only [← Finset.mul_sum, neg_zero, zero_div, zero_mul, add_zero, cCWcb, cCWcbGB]
  have e3 : ∀ m F, Yukawa.squaredMatrix (m := m) Lagrangian.zeroTensor F φ = massFermion m F φ :=
    fun m F => rfl
  simp only [e3, Solver.lib]
  push_cast
  ring

end Verif.Weinberg
