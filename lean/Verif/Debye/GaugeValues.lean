import Verif.Debye.OneDoublet

/-!
# Thermal masses of the gauge bosons
-/

namespace Verif.Debye

open Verif.Potential Verif.Lagrangian Verif.Spectrum Matrix
open scoped BigOperators

variable {n : Nat}

/-- The couplings of two gauge bosons of the same kind to two scalar fields of the same kind. -/
theorem gauge_diagonal (G : List Nat → ℝ) (k : Fin n) (a : Fin 4) :
    G [(a : Nat), (a : Nat), (k : Nat), (k : Nat)] =
      2 * gaugeMatrix G 0 0 (fun i => if i = k then 1 else 0) a a := by
  simp [gaugeMatrix, gaugeEntry]

/-- The general calculation for a theory in which the fields of the set `S` belong to `N` doublets, and
the other fields do not couple to the gauge bosons. -/
theorem gauge_values (g gs : ℝ) (G : List Nat → ℝ) (S : Finset (Fin n)) (N : Nat) (hN : 0 < N)
    (hS : S.card = 4 * N)
    (hG : ∀ (a : Fin 4) (k : Fin n), G [(a : Nat), (a : Nat), (k : Nat), (k : Nat)] =
      if k ∈ S then (if a = 3 then gs ^ 2 / 2 else g ^ 2 / 2) else 0) :
    (g = 0 → gaugeGeneral 4 n G = none) ∧
      (g ≠ 0 → ∃ D, gaugeGeneral 4 n G = some D ∧
        Spec.IsDiagonal D (fun a => if a = 3 then Spec.gaugeBoson N gs else Spec.gaugeBoson N g)) := by
  have h0 : ∀ k : Fin n, G [0, 0, (k : Nat), (k : Nat)] = if k ∈ S then g ^ 2 / 2 else 0 := by
    intro k
    have h := hG 0 k
    simpa using h
  constructor
  · rintro rfl
    have hc : nGaugeHiggs n G = 0 := by
      unfold nGaugeHiggs
      rw [Finset.card_eq_zero, Finset.filter_eq_empty_iff]
      intro k _
      rw [h0]
      simp
    unfold gaugeGeneral
    rw [if_pos hc]
  · intro hg
    have hc : nGaugeHiggs n G = 4 * N := by
      unfold nGaugeHiggs
      rw [← hS]
      congr 1
      ext k
      rw [Finset.mem_filter, h0]
      by_cases hk : k ∈ S <;> simp [hk, hg]
    refine ⟨fun a b => _, by unfold gaugeGeneral; rw [if_neg (by omega)], ?_, ?_⟩
    · intro a
      dsimp only
      rw [if_pos rfl, hc]
      have hsum : ∑ k : Fin n, G [(a : Nat), (a : Nat), (k : Nat), (k : Nat)] =
          (4 * N : ℝ) * (if a = 3 then gs ^ 2 / 2 else g ^ 2 / 2) := by
        simp only [hG]
        rw [Finset.sum_ite_mem, Finset.univ_inter, Finset.sum_const, hS, nsmul_eq_mul]
        push_cast
        ring
      have hN' : (N : ℝ) ≠ 0 := by exact_mod_cast hN.ne'
      have e : 2 / 3 * (((4 * N : ℕ) : ℝ) / 8 + 5) *
          ((∑ k : Fin n, G [(a : Nat), (a : Nat), (k : Nat), (k : Nat)]) * (1 / ((4 * N : ℕ) : ℝ))) =
          if a = 3 then Spec.gaugeBoson N gs else Spec.gaugeBoson N g := by
        rw [hsum]
        push_cast
        unfold Spec.gaugeBoson
        split_ifs <;> field_simp <;> ring
      rw [e]
      exact clip_rounded _
    · intro a b h
      dsimp only
      rw [if_neg h]

theorem pauli_diagonal (g gs N s0 s1 s2 : ℝ) (a : Fin 4) :
    2 * pauliGauge g gs N s0 s1 s2 a a = (if a = 3 then gs ^ 2 / 2 else g ^ 2 / 2) * N := by
  fin_cases a <;> simp [pauliGauge] <;> ring

theorem sm_gauge_values (g gs : ℝ) (a : Fin 4) (k : Fin 4) :
    SM.gauge g gs [(a : Nat), (a : Nat), (k : Nat), (k : Nat)] =
      if k ∈ (Finset.univ : Finset (Fin 4)) then (if a = 3 then gs ^ 2 / 2 else g ^ 2 / 2) else 0 := by
  rw [gauge_diagonal (SM.gauge g gs), gaugeMatrix_one g gs _ 0 _
    (fun a b i j => (SM.C77_sm_gauge_symmetric _ _ a b i j).1) _ _ _ _
    (fun W => SM.C77_sm_gauge _ _ W _), pauli_diagonal]
  fin_cases k <;> simp

theorem cxsm_gauge_values (g gs : ℝ) (a : Fin 4) (k : Fin 6) :
    CxSM.gauge g gs [(a : Nat), (a : Nat), (k : Nat), (k : Nat)] =
      if k ∈ ({0, 1, 2, 3} : Finset (Fin 6)) then
        (if a = 3 then gs ^ 2 / 2 else g ^ 2 / 2) else 0 := by
  rw [gauge_diagonal (CxSM.gauge g gs), gaugeMatrix_one g gs _ 0 _
    (fun a b i j => (CxSM.C77_cxsm_gauge_symmetric _ _ a b i j).1) _ _ _ _
    (fun W => CxSM.C77_cxsm_gauge _ _ W _), pauli_diagonal]
  fin_cases k <;> simp

theorem r2hdm_gauge_values (g gs : ℝ) (a : Fin 4) (k : Fin 8) :
    R2HDM.gauge g gs [(a : Nat), (a : Nat), (k : Nat), (k : Nat)] =
      if k ∈ (Finset.univ : Finset (Fin 8)) then (if a = 3 then gs ^ 2 / 2 else g ^ 2 / 2) else 0 := by
  rw [gauge_diagonal (R2HDM.gauge g gs), gaugeMatrix_two g gs _ 0 _
    (fun a b i j => (R2HDM.C77_r2hdm_gauge_symmetric _ _ a b i j).1) _ _ _ _ _ _ _ _
    (fun W => R2HDM.C77_r2hdm_gauge _ _ W _), pauli_diagonal]
  fin_cases k <;> simp

theorem c2hdm_gauge_values (g gs : ℝ) (a : Fin 4) (k : Fin 8) :
    C2HDM.gauge g gs [(a : Nat), (a : Nat), (k : Nat), (k : Nat)] =
      if k ∈ (Finset.univ : Finset (Fin 8)) then (if a = 3 then gs ^ 2 / 2 else g ^ 2 / 2) else 0 := by
  rw [gauge_diagonal (C2HDM.gauge g gs), gaugeMatrix_two g gs _ 0 _
    (fun a b i j => (C2HDM.C77_c2hdm_gauge_symmetric _ _ a b i j).1) _ _ _ _ _ _ _ _
    (fun W => C2HDM.C77_c2hdm_gauge _ _ W _), pauli_diagonal]
  fin_cases k <;> simp

theorem n2hdm_gauge_values (g gs : ℝ) (a : Fin 4) (k : Fin 9) :
    N2HDM.gauge g gs [(a : Nat), (a : Nat), (k : Nat), (k : Nat)] =
      if k ∈ ({0, 1, 2, 3, 4, 5, 6, 7} : Finset (Fin 9)) then
        (if a = 3 then gs ^ 2 / 2 else g ^ 2 / 2) else 0 := by
  rw [gauge_diagonal (N2HDM.gauge g gs), gaugeMatrix_two g gs _ 0 _
    (fun a b i j => (N2HDM.C77_n2hdm_gauge_symmetric _ _ a b i j).1) _ _ _ _ _ _ _ _
    (fun W => N2HDM.C77_n2hdm_gauge _ _ W _), pauli_diagonal]
  fin_cases k <;> simp

theorem cpinthedark_gauge_values (g gs : ℝ) (a : Fin 4) (k : Fin 9) :
    CPintheDark.gauge g gs [(a : Nat), (a : Nat), (k : Nat), (k : Nat)] =
      if k ∈ ({0, 1, 2, 3, 4, 5, 6, 7} : Finset (Fin 9)) then
        (if a = 3 then gs ^ 2 / 2 else g ^ 2 / 2) else 0 := by
  rw [gauge_diagonal (CPintheDark.gauge g gs), gaugeMatrix_two g gs _ 0 _
    (fun a b i j => (CPintheDark.C77_cpinthedark_gauge_symmetric _ _ a b i j).1) _ _ _ _ _ _ _ _
    (fun W => CPintheDark.C77_cpinthedark_gauge _ _ W _), pauli_diagonal]
  fin_cases k <;> simp

end Verif.Debye
