import Verif.Via.Model
import Verif.Via.Spec
import Mathlib.Tactic.Linarith
import Mathlib.Tactic.NormNum
import Mathlib.Tactic.FieldSimp
import Mathlib.Tactic.Ring
import Mathlib.Tactic.LinearCombination
import Mathlib.Tactic.Positivity
import Mathlib.Algebra.BigOperators.Fin
import Mathlib.Data.Real.Basic

set_option linter.unusedSimpArgs false
set_option linter.unusedVariables false

/-!
# C89: the transport equations as reactions
-/

namespace Verif.Via

open Verif Outcome Spec Species

/-- The chemical potentials `n / κ` for the statistical factors `nT`, `nB` and `nL` of massive top, bottom
and tau: doublets have twice the number of components. -/
structure Potentials (nT nB nL : ℝ) (n μ : Species → ℝ) : Prop where
  q : μ Species.q = n Species.q / (6 * nT * nB / (nT + nB))
  t : μ Species.t = n Species.t / (3 * nT)
  b : μ Species.b = n Species.b / (3 * nB)
  l : μ Species.l = n Species.l / (2 * nL)
  rtau : μ Species.rtau = n Species.rtau / nL
  h1 : μ Species.h1 = n Species.h1 / 4
  h2 : μ Species.h2 = n Species.h2 / 4
  q1 : μ Species.q1 = n Species.q1 / 6
  q2 : μ Species.q2 = n Species.q2 / 6
  u : μ Species.u = n Species.u / 3
  d : μ Species.d = n Species.d / 3
  c : μ Species.c = n Species.c / 3
  s : μ Species.s = n Species.s / 3

theorem sum_species (f : Species → ℝ) : ∑ i, f i = f q + f t + f b + f l + f nu + f rtau + f h1 + f h2 +
    f q1 + f q2 + f u + f d + f c + f s := by
  have : (Finset.univ : Finset Species) = {q, t, b, l, nu, rtau, h1, h2, q1, q2, u, d, c, s} := rfl
  rw [this]
  repeat rw [Finset.sum_insert (by decide)]
  rw [Finset.sum_singleton]
  ring

theorem force_mass_t (μ : Species → ℝ) (g : ℝ) : force μ (mass t q g) = μ t - μ q := by
  simp [force, sum_species, Spec.mass]; ring
theorem force_mass_b (μ : Species → ℝ) (g : ℝ) : force μ (mass b q g) = μ b - μ q := by
  simp [force, sum_species, Spec.mass]; ring
theorem force_mass_tau (μ : Species → ℝ) (g : ℝ) : force μ (mass rtau l g) = μ rtau - μ l := by
  simp [force, sum_species, Spec.mass]; ring
theorem force_up (μ : Species → ℝ) (g : ℝ) : force μ (upYukawa t q g) = μ t - μ q - μ h1 - μ h2 := by
  simp [force, sum_species, upYukawa]; ring
theorem force_down_b (μ : Species → ℝ) (g : ℝ) :
    force μ (downYukawa b q g) = μ b - μ q + μ h1 + μ h2 := by
  simp [force, sum_species, downYukawa]; ring
theorem force_down_tau (μ : Species → ℝ) (g : ℝ) :
    force μ (downYukawa rtau l g) = μ rtau - μ l + μ h1 + μ h2 := by
  simp [force, sum_species, downYukawa]; ring
theorem force_sphaleron (μ : Species → ℝ) (g : ℝ) : force μ (sphaleron g) =
    2 * (μ q + μ q1 + μ q2) - (μ t + μ b + μ u + μ d + μ c + μ s) := by
  simp [force, sum_species, sphaleron]; ring

/-- The reactions for a bottom quark. -/
noncomputable def quarkReactions (r : Rates ℝ) (gamYb gamMt gamMb : ℝ) : List Reaction :=
  [mass t q gamMt, mass b q gamMb, upYukawa t q r.gamYt, downYukawa b q gamYb, sphaleron r.gamSS]

/-- The reactions for a bottom quark and a tau lepton. -/
noncomputable def tauReactions (r : Rates ℝ) (gamYb gamMt gamMb gamMtau : ℝ) : List Reaction :=
  quarkReactions r gamYb gamMt gamMb ++ [mass rtau l gamMtau, downYukawa rtau l r.gamYtau]

/-- The flow `v n' − D n''` of every density in the equations with a bottom quark is what reactions and
sources create, except that the force of the bottom Yukawa reaction has the Higgs potentials with the wrong
sign. -/
theorem C89_bottom_reactions_partial (r : Rates ℝ) (gamYb nT nB gamMt gamMb scpT scpB : ℝ)
    (hq : r.dq ≠ 0) (hh : r.dh ≠ 0) (n μ : Species → ℝ) (hn : Light n) (hμ : Potentials nT nB 1 n μ)
    (w : Fin 12 → ℝ) (h0 : w 0 = n q) (h1' : w 1 = n t) (h2' : w 2 = n b) (h3 : w 3 = n h1) (h4 : w 4 = n h2)
    (h5 : w 5 = n u) :
    let d := botSystem r gamYb nT nB gamMt gamMb scpT scpB w
    let c := created μ (quarkReactions r gamYb gamMt gamMb)
    let x := 2 * gamYb * (μ h1 + μ h2)
    (d 0 = w 6 ∧ d 1 = w 7 ∧ d 2 = w 8 ∧ d 3 = w 9 ∧ d 4 = w 10 ∧ d 5 = w 11) ∧
    r.vw * w 6 - r.dq * d 6 = c q - x - scpT - scpB ∧
    r.vw * w 7 - r.dq * d 7 = c t + scpT ∧
    r.vw * w 8 - r.dq * d 8 = c b + x + scpB ∧
    r.vw * w 9 - r.dh * d 9 = c h1 + x ∧
    r.vw * w 10 - r.dh * d 10 = c h2 + x ∧
    r.vw * w 11 - r.dq * d 11 = c u := by
  have kq : (6 * nT * (6 * nB)) / (6 * nT + 6 * nB) = 6 * nT * nB / (nT + nB) := by
    rw [← mul_add, show 6 * nT * (6 * nB) = 6 * (6 * nT * nB) by ring,
      mul_div_mul_left _ _ (by norm_num : (6 : ℝ) ≠ 0)]
  have e0 : w 0 / (6 * nT * nB / (nT + nB)) = μ q := by rw [hμ.q, h0]
  have e1 : w 1 / (3 * nT) = μ t := by rw [hμ.t, h1']
  have e2 : w 2 / (3 * nB) = μ b := by rw [hμ.b, h2']
  have e3 : w 3 / 4 = μ h1 := by rw [hμ.h1, h3]
  have e4 : w 4 / 4 = μ h2 := by rw [hμ.h2, h4]
  have e5 : -4 * w 5 * (2 / 6 + 1 / 3) = 2 * (μ q1 + μ q2) - (μ u + μ d + μ c + μ s) := by
    rw [hμ.q1, hμ.q2, hμ.u, hμ.d, hμ.c, hμ.s, hn.q1, hn.q2, hn.d, hn.c, hn.s, h5]
    ring
  have e0' : 2 * w 0 / (6 * nT * nB / (nT + nB)) = 2 * μ q := by rw [mul_div_assoc, e0]
  have cs : ∀ i, created μ (quarkReactions r gamYb gamMt gamMb) i =
      ((mass t q gamMt).creates i : ℝ) * (gamMt * (μ t - μ q)) +
      (((mass b q gamMb).creates i : ℝ) * (gamMb * (μ b - μ q)) +
      (((upYukawa t q r.gamYt).creates i : ℝ) * (r.gamYt * (μ t - μ q - μ h1 - μ h2)) +
      (((downYukawa b q gamYb).creates i : ℝ) * (gamYb * (μ b - μ q + μ h1 + μ h2)) +
      (((sphaleron r.gamSS).creates i : ℝ) * (r.gamSS * (2 * (μ q + μ q1 + μ q2) -
        (μ t + μ b + μ u + μ d + μ c + μ s))))))) := by
    intro i
    simp only [created, quarkReactions, List.map_cons, List.map_nil, List.sum_cons, List.sum_nil, add_zero,
      force_mass_t, force_mass_b, force_up, force_down_b, force_sphaleron]
    rfl
  simp only [cs]
  refine ⟨⟨rfl, rfl, rfl, rfl, rfl, rfl⟩, ?_, ?_, ?_, ?_, ?_, ?_⟩ <;>
  · simp only [botSystem, kappaQL, kappaQR, kappaH, Matrix.cons_val, kq, e0, e1, e2, e3, e4,
      e5, e0']
    first
    | rw [mul_div_cancel₀ _ hq]
    | rw [mul_div_cancel₀ _ hh]
    simp [Spec.mass, upYukawa, downYukawa, sphaleron, -mul_eq_mul_left_iff]
    try ring

/-- The same for the equations with a tau lepton. -/
theorem C89_tau_reactions_partial (r : Rates ℝ) (gamYb nT nB nL gamMt gamMb gamMtau scpT scpB scpTau : ℝ)
    (hq : r.dq ≠ 0) (hh : r.dh ≠ 0) (hl : r.dlep ≠ 0) (hta : r.dtau ≠ 0)
    (n μ : Species → ℝ) (hn : Light n) (hμ : Potentials nT nB nL n μ)
    (w : Fin 18 → ℝ) (h0 : w 0 = n q) (h1' : w 1 = n t) (h2' : w 2 = n b) (h3 : w 3 = n l) (h5 : w 5 = n rtau)
    (h6 : w 6 = n h1) (h7 : w 7 = n h2) (h8 : w 8 = n u) :
    let d := tauSystem r gamYb nT nB nL gamMt gamMb gamMtau scpT scpB scpTau w
    let c := created μ (tauReactions r gamYb gamMt gamMb gamMtau)
    let x := 2 * gamYb * (μ h1 + μ h2)
    (d 0 = w 9 ∧ d 1 = w 10 ∧ d 2 = w 11 ∧ d 3 = w 12 ∧ d 4 = w 13 ∧ d 5 = w 14 ∧ d 6 = w 15 ∧
      d 7 = w 16 ∧ d 8 = w 17) ∧
    r.vw * w 9 - r.dq * d 9 = c q - x - scpT - scpB ∧
    r.vw * w 10 - r.dq * d 10 = c t + scpT ∧
    r.vw * w 11 - r.dq * d 11 = c b + x + scpB ∧
    r.vw * w 12 - r.dlep * d 12 = c l - scpTau ∧
    r.vw * w 13 - r.dtau * d 13 = c nu ∧
    r.vw * w 14 - r.dtau * d 14 = c rtau + scpTau ∧
    r.vw * w 15 - r.dh * d 15 = c h1 + x ∧
    r.vw * w 16 - r.dh * d 16 = c h2 + x ∧
    r.vw * w 17 - r.dq * d 17 = c u := by
  have kq : (6 * nT * (6 * nB)) / (6 * nT + 6 * nB) = 6 * nT * nB / (nT + nB) := by
    rw [← mul_add, show 6 * nT * (6 * nB) = 6 * (6 * nT * nB) by ring,
      mul_div_mul_left _ _ (by norm_num : (6 : ℝ) ≠ 0)]
  have e0 : w 0 / (6 * nT * nB / (nT + nB)) = μ q := by rw [hμ.q, h0]
  have e1 : w 1 / (3 * nT) = μ t := by rw [hμ.t, h1']
  have e2 : w 2 / (3 * nB) = μ b := by rw [hμ.b, h2']
  have e3 : w 3 / (2 * nL) = μ l := by rw [hμ.l, h3]
  have e4 : w 5 / (1 * nL) = μ rtau := by rw [hμ.rtau, h5, one_mul]
  have e6 : w 6 / 4 = μ h1 := by rw [hμ.h1, h6]
  have e7 : w 7 / 4 = μ h2 := by rw [hμ.h2, h7]
  have e5 : -4 * w 8 * (2 / 6 + 1 / 3) = 2 * (μ q1 + μ q2) - (μ u + μ d + μ c + μ s) := by
    rw [hμ.q1, hμ.q2, hμ.u, hμ.d, hμ.c, hμ.s, hn.q1, hn.q2, hn.d, hn.c, hn.s, h8]
    ring
  have e0' : 2 * w 0 / (6 * nT * nB / (nT + nB)) = 2 * μ q := by rw [mul_div_assoc, e0]
  have cs : ∀ i, created μ (tauReactions r gamYb gamMt gamMb gamMtau) i =
      ((mass t q gamMt).creates i : ℝ) * (gamMt * (μ t - μ q)) +
      (((mass b q gamMb).creates i : ℝ) * (gamMb * (μ b - μ q)) +
      (((upYukawa t q r.gamYt).creates i : ℝ) * (r.gamYt * (μ t - μ q - μ h1 - μ h2)) +
      (((downYukawa b q gamYb).creates i : ℝ) * (gamYb * (μ b - μ q + μ h1 + μ h2)) +
      (((sphaleron r.gamSS).creates i : ℝ) * (r.gamSS * (2 * (μ q + μ q1 + μ q2) -
        (μ t + μ b + μ u + μ d + μ c + μ s))) +
      (((mass rtau l gamMtau).creates i : ℝ) * (gamMtau * (μ rtau - μ l)) +
      (((downYukawa rtau l r.gamYtau).creates i : ℝ) *
        (r.gamYtau * (μ rtau - μ l + μ h1 + μ h2)))))))) := by
    intro i
    simp only [created, tauReactions, quarkReactions, List.cons_append, List.nil_append, List.map_cons,
      List.map_nil, List.sum_cons, List.sum_nil, add_zero,
      force_mass_t, force_mass_b, force_up, force_down_b, force_sphaleron, force_mass_tau, force_down_tau]
    rfl
  simp only [cs]
  refine ⟨⟨rfl, rfl, rfl, rfl, rfl, rfl, rfl, rfl, rfl⟩, ?_, ?_, ?_, ?_, ?_, ?_, ?_, ?_, ?_⟩ <;>
  · simp only [tauSystem, kappaQL, kappaQR, kappaH, kappaLL, kappaRL, Matrix.cons_val, kq,
      e0, e1, e2, e3, e4, e5, e6, e7, e0']
    first
    | rw [mul_div_cancel₀ _ hq]
    | rw [mul_div_cancel₀ _ hh]
    | rw [mul_div_cancel₀ _ hl]
    | rw [mul_div_cancel₀ _ hta]
    simp [Spec.mass, upYukawa, downYukawa, sphaleron, -mul_eq_mul_left_iff]
    try ring

/-- The equations for a top quark alone are those of the mass and Yukawa reactions and the strong sphaleron
without the light quarks, except that the sphaleron does not create right-handed top quarks. -/
theorem C89_top_reactions_partial (r : Rates ℝ) (num gamM scp : ℝ)
    (hq : r.dq ≠ 0) (ht : r.dt ≠ 0) (hh : r.dh ≠ 0) (μ : Species → ℝ) (w : Fin 8 → ℝ)
    (h0 : μ q = w 0 / (6 * num)) (h1' : μ t = w 1 / (3 * num)) (h2' : μ b = -(w 0 + w 1) / 3)
    (h3 : μ h1 = w 2 / 4) (h4 : μ h2 = w 3 / 4)
    (hl : μ q1 = 0 ∧ μ q2 = 0 ∧ μ u = 0 ∧ μ d = 0 ∧ μ c = 0 ∧ μ s = 0) :
    let d := topSystem r num gamM scp w
    let c := created μ [mass t q gamM, upYukawa t q r.gamY, sphaleron r.gamSS]
    (d 0 = w 4 ∧ d 1 = w 5 ∧ d 2 = w 6 ∧ d 3 = w 7) ∧
    r.vw * w 4 - r.dq * d 4 = c q - scp ∧
    r.vw * w 5 - r.dt * d 5 = c t + scp - r.gamSS * (2 * μ q - μ t - μ b) ∧
    r.vw * w 6 - r.dh * d 6 = c h1 ∧
    r.vw * w 7 - r.dh * d 7 = c h2 := by
  obtain ⟨l1, l2, l3, l4, l5, l6⟩ := hl
  have e0' : 2 * w 0 / (6 * num) = 2 * μ q := by rw [mul_div_assoc, h0]
  have e2 : -(w 1 + w 0) / 3 = μ b := by rw [h2', add_comm]
  have cs : ∀ i, created μ [mass t q gamM, upYukawa t q r.gamY, sphaleron r.gamSS] i =
      ((mass t q gamM).creates i : ℝ) * (gamM * (μ t - μ q)) +
      (((upYukawa t q r.gamY).creates i : ℝ) * (r.gamY * (μ t - μ q - μ h1 - μ h2)) +
      (((sphaleron r.gamSS).creates i : ℝ) * (r.gamSS * (2 * μ q - (μ t + μ b))))) := by
    intro i
    simp only [created, List.map_cons, List.map_nil, List.sum_cons, List.sum_nil, add_zero,
      force_mass_t, force_up, force_sphaleron, l1, l2, l3, l4, l5, l6]
    rfl
  simp only [cs]
  refine ⟨⟨rfl, rfl, rfl, rfl⟩, ?_, ?_, ?_, ?_⟩ <;>
  · simp only [topSystem, kappaQL, kappaQR, kappaH, Matrix.cons_val, ← h0, ← h1', ← h3, ← h4,
      e0', e2]
    first
    | rw [mul_div_cancel₀ _ hq]
    | rw [mul_div_cancel₀ _ ht]
    | rw [mul_div_cancel₀ _ hh]
    simp [Spec.mass, upYukawa, sphaleron, -mul_eq_mul_left_iff]
    try ring

/-- Reactions relax: the chemical potentials weighted with the created particles never increase. -/
theorem C89_reactions_relax (μ : Species → ℝ) (l : List Reaction) (h : ∀ x ∈ l, 0 ≤ x.rate) :
    ∑ i, μ i * created μ l i ≤ 0 := by
  induction l with
  | nil => simp [created]
  | cons x l ih =>
    have e : ∑ i, μ i * created μ (x :: l) i = -(x.rate * force μ x ^ 2) + ∑ i, μ i * created μ l i := by
      have : ∀ i, μ i * created μ (x :: l) i =
          (x.creates i : ℝ) * μ i * (x.rate * force μ x) + μ i * created μ l i := by
        intro i
        simp only [created, List.map_cons, List.sum_cons]
        ring
      rw [Finset.sum_congr rfl fun i _ => this i, Finset.sum_add_distrib, ← Finset.sum_mul]
      have : ∑ i, (x.creates i : ℝ) * μ i = -force μ x := by simp [force]
      rw [this]
      ring
    rw [e]
    have h1 := ih fun y hy => h y (List.mem_cons_of_mem _ hy)
    have h2 := mul_nonneg (h x List.mem_cons_self) (sq_nonneg (force μ x))
    linarith

/-- Finding: the bottom Yukawa reaction does not relax.  Whatever the other rates, there are densities in the
symmetric phase, with all other reactions in equilibrium, for which the program's reaction increases the
potentials that drive it. -/
theorem C89_bottom_yukawa_fails (r : Rates ℝ) (gamYb : ℝ) (hq : r.dq ≠ 0) (hh : r.dh ≠ 0) (hY : 0 < gamYb) :
    ∃ w : Fin 12 → ℝ, w 0 = 0 ∧ w 2 = 0 ∧ w 4 = 0 ∧
      let d := botSystem r gamYb 1 1 0 0 0 0 w
      -- top Yukawa and sphaleron reactions are in equilibrium
      r.vw * w 7 - r.dq * d 7 = 0 ∧ r.vw * w 11 - r.dq * d 11 = 0 ∧
      -- the Higgs density grows with itself
      r.vw * w 9 - r.dh * d 9 = gamYb / 4 * w 3 ∧
      0 < w 3 / 4 * (r.vw * w 9 - r.dh * d 9) := by
  refine ⟨![0, 3, 0, 4, 0, -(3 / 8), 0, 0, 0, 0, 0, 0], by simp, by simp, by simp, ?_, ?_, ?_, ?_⟩ <;>
  · simp only [botSystem, kappaQL, kappaQR, kappaH, Matrix.cons_val]
    first
    | rw [mul_div_cancel₀ _ hq]
    | rw [mul_div_cancel₀ _ hh]
    norm_num
    try linarith

/-- Finding: hypercharge is not conserved.  In the symmetric phase without sources, a density of right-handed
top quarks alone changes the total hypercharge: each Yukawa reaction creates two Higgs doublets. -/
theorem C89_hypercharge_fails (r : Rates ℝ) (hq : r.dq ≠ 0) (hh : r.dh ≠ 0) (hY : r.gamYt ≠ 0) :
    ∃ w : Fin 12 → ℝ,
      let d := botSystem r 0 1 1 0 0 0 0 w
      let flow := fun (D : ℝ) (i : Fin 12) => r.vw * w i - D * d i
      flow r.dq 6 / 6 + 2 * flow r.dq 7 / 3 - flow r.dq 8 / 3 + (flow r.dh 9 + flow r.dh 10) / 2 ≠ 0 := by
  refine ⟨![0, 3, 0, 0, 0, -(3 / 8), 0, 0, 0, 0, 0, 0], ?_⟩
  simp only [botSystem, kappaQL, kappaQR, kappaH, Matrix.cons_val]
  rw [mul_div_cancel₀ _ hq, mul_div_cancel₀ _ hq, mul_div_cancel₀ _ hq, mul_div_cancel₀ _ hh]
  norm_num
  intro h
  apply hY
  linarith

/-- Finding: the equations for a top quark alone lose the right-handed top quarks that the strong sphaleron
creates; the right-handed bottom quarks, which follow from baryon number, get them. -/
theorem C89_top_sphaleron_fails (r : Rates ℝ) (hq : r.dq ≠ 0) (ht : r.dt ≠ 0) (hs : r.gamSS ≠ 0) :
    ∃ w : Fin 8 → ℝ,
      let d := topSystem r 1 0 0 w
      let flowQ := r.vw * w 4 - r.dq * d 4
      let flowT := r.vw * w 5 - r.dt * d 5
      let flowB := -(flowQ + flowT)
      flowT = 0 ∧ flowB = -flowQ ∧ flowQ ≠ 0 := by
  refine ⟨![6, 3, 0, 0, 0, 0, 0, 0], ?_, ?_, ?_⟩ <;>
  · simp only [topSystem, kappaQL, kappaQR, kappaH, Matrix.cons_val]
    first
    | (rw [mul_div_cancel₀ _ ht, mul_div_cancel₀ _ hq]; norm_num)
    | (rw [mul_div_cancel₀ _ ht]; norm_num)
    | (rw [mul_div_cancel₀ _ hq]; norm_num; exact hs)

/-- Finding: the statistical factor of the left-handed doublet.  For massless quarks it is 6 in the equations
for a top quark, as for light doublets, but 3 in those with a bottom quark: the same doublet density is in
equilibrium with different densities of right-handed top quarks. -/
theorem C89_statistics_fails (r : Rates ℝ) (hq : r.dq ≠ 0) (ht : r.dt ≠ 0) (gamM n : ℝ) (hM : gamM ≠ 0)
    (hS : r.gamSS = 0) (hY : r.gamY = 0) (hYt : r.gamYt = 0) (w : Fin 8 → ℝ) (v : Fin 12 → ℝ)
    (hw : w 0 = n ∧ w 4 = 0 ∧ w 5 = 0) (hv : v 0 = n ∧ v 6 = 0 ∧ v 7 = 0) :
    (topSystem r 1 gamM 0 w 5 = 0 ↔ w 1 = n / 2) ∧ (botSystem r 0 1 1 gamM 0 0 0 v 7 = 0 ↔ v 1 = n) := by
  obtain ⟨a1, a2, a3⟩ := hw
  obtain ⟨b1, b2, b3⟩ := hv
  constructor
  · simp only [topSystem, kappaQL, kappaQR, kappaH, Matrix.cons_val, a1, a2, a3, hY]
    rw [div_eq_zero_iff, or_iff_left ht]
    constructor
    · intro h
      have : gamM * (w 1 / (3 * 1) - n / (6 * 1)) = 0 := by linarith
      have := (mul_eq_zero.1 this).resolve_left hM
      linarith
    · intro h
      rw [h]; ring
  · simp only [botSystem, kappaQL, kappaQR, kappaH, Matrix.cons_val, b1, b2, b3, hYt, hS]
    rw [div_eq_zero_iff, or_iff_left hq]
    norm_num
    rw [or_iff_right hM]
    constructor <;> intro h <;> linarith

/-- Without reactions of leptons, the quarks and Higgs bosons in the equations with a tau lepton follow the
equations with a bottom quark. -/
theorem C89_tau_quarks (r : Rates ℝ) (gamYb nT nB nL gamMt gamMb gamMtau scpT scpB scpTau : ℝ)
    (h : r.gamYtau = 0) (w : Fin 18 → ℝ) :
    let d := tauSystem r gamYb nT nB nL gamMt gamMb gamMtau scpT scpB scpTau w
    botSystem r gamYb nT nB gamMt gamMb scpT scpB
      ![w 0, w 1, w 2, w 6, w 7, w 8, w 9, w 10, w 11, w 15, w 16, w 17] =
      ![d 0, d 1, d 2, d 6, d 7, d 8, d 9, d 10, d 11, d 15, d 16, d 17] := by
  simp [tauSystem, botSystem, h]

/-- Which equations the program uses for the flags: flag 2 means massless, other flags are an error. -/
theorem C89_flags (e : External ℝ) (r : Rates ℝ) (p : Phases ℝ) (w : Fin 12 → ℝ) (v : Fin 18 → ℝ) (z : ℝ) :
    (bot e r p 1 w z = ok (botSystem r r.gamYb (e.kappa (e.mass .top z)) (e.kappa (e.mass .bottom z))
      (e.gamM .top (e.mass .top z)) (e.gamM .bottom (e.mass .bottom z))
      (e.scp .top (e.mass .top z) (e.thetaPrime (p.sym' .top) (p.brk' .top) z))
      (e.scp .bottom (e.mass .bottom z) (e.thetaPrime (p.sym' .bottom) (p.brk' .bottom) z)) w)) ∧
    (bot e r p 2 w z = ok (botSystem r 0 (e.kappa (e.mass .top z)) (e.kappa 0)
      (e.gamM .top (e.mass .top z)) (e.gamM .bottom 0)
      (e.scp .top (e.mass .top z) (e.thetaPrime (p.sym' .top) (p.brk' .top) z)) 0 w)) ∧
    (∀ f, f ≠ 1 → f ≠ 2 → bot e r p f w z = err .runtime) ∧
    (tau e r p 1 1 v z = ok (tauSystem r r.gamYb (e.kappa (e.mass .top z)) (e.kappa (e.mass .bottom z))
      (e.kappa (e.mass .tau z)) (e.gamM .top (e.mass .top z)) (e.gamM .bottom (e.mass .bottom z))
      (e.gamM .tau (e.mass .tau z))
      (e.scp .top (e.mass .top z) (e.thetaPrime (p.sym' .top) (p.brk' .top) z))
      (e.scp .bottom (e.mass .bottom z) (e.thetaPrime (p.sym' .bottom) (p.brk' .bottom) z))
      (e.scp .tau (e.mass .tau z) (e.thetaPrime (p.sym' .tau) (p.brk' .tau) z)) v)) ∧
    (∀ f g, (f ≠ 1 ∧ f ≠ 2) ∨ (g ≠ 1 ∧ g ≠ 2) → tau e r p f g v z = err .runtime) ∧
    top e r p = fun w z => topSystem r (e.kappa (e.mass .top z)) (e.gamM .top (e.mass .top z))
      (e.scp .top (e.mass .top z) (e.thetaPrime p.sym p.brk z)) w := by
  refine ⟨by simp [bot], by simp [bot], fun f h1 h2 => by simp [bot, h1, h2], by simp [tau], ?_, rfl⟩
  rintro f g (⟨h1, h2⟩ | ⟨h1, h2⟩)
  · simp [tau, h1, h2]
  · unfold tau
    simp only
    split
    · rfl
    · simp [h1, h2]

/-- Finding: a massless bottom quark also removes the source of the massive tau lepton, and a massless tau
lepton that of the massive bottom quark. -/
theorem C89_tau_source_fails (e : External ℝ) (r : Rates ℝ) (p : Phases ℝ) (w : Fin 18 → ℝ) (z : ℝ) :
    tau e r p 2 1 w z = ok (tauSystem r 0 (e.kappa (e.mass .top z)) (e.kappa 0)
      (e.kappa (e.mass .tau z)) (e.gamM .top (e.mass .top z)) (e.gamM .bottom 0)
      (e.gamM .tau (e.mass .tau z))
      (e.scp .top (e.mass .top z) (e.thetaPrime (p.sym' .top) (p.brk' .top) z)) 0 0 w) ∧
    tau e r p 1 2 w z = ok (tauSystem r r.gamYb (e.kappa (e.mass .top z)) (e.kappa (e.mass .bottom z))
      (e.kappa 0) (e.gamM .top (e.mass .top z)) (e.gamM .bottom (e.mass .bottom z)) (e.gamM .tau 0)
      (e.scp .top (e.mass .top z) (e.thetaPrime (p.sym' .top) (p.brk' .top) z)) 0 0 w) ∧
    tau e r p 2 2 w z = ok (tauSystem r 0 (e.kappa (e.mass .top z)) (e.kappa 0)
      (e.kappa 0) (e.gamM .top (e.mass .top z)) (e.gamM .bottom 0) (e.gamM .tau 0)
      (e.scp .top (e.mass .top z) (e.thetaPrime (p.sym' .top) (p.brk' .top) z)) 0 0 w) := by
  simp [tau]

/-- The density of left-handed particles that the program returns is that of the third and one light
generation (with `b = u` for the equations for a top quark alone). -/
theorem C89_left_partial (n : Species → ℝ) (hn : Light n) :
    (∀ w : Fin 8 → ℝ, w 0 = n q → w 1 = n t → n q + n t + n b = 0 → n u = n b →
      topNL w = n q + n q1) ∧
    (∀ w : Fin 12 → ℝ, w 0 = n q → w 5 = n u → botNL w = n q + n q1) ∧
    ∀ w : Fin 18 → ℝ, w 0 = n q → w 3 = n l → w 8 = n u → tauNL w = n q + n q1 + n l := by
  refine ⟨fun w h0 h1 hb hu => ?_, fun w h0 h5 => ?_, fun w h0 h3 h8 => ?_⟩
  · rw [topNL, h0, h1, hn.q1, hn.d, hu]; linear_combination 2 * hb
  · rw [botNL, h0, h5, hn.q1, hn.d]; ring
  · rw [tauNL, h0, h3, h8, hn.q1, hn.d]; ring

/-- Finding: the second light generation, whose density equals that of the first, is not counted. -/
theorem C89_second_generation_fails (n : Species → ℝ) (hn : Light n) (hu : n u ≠ 0) (w : Fin 12 → ℝ)
    (h0 : w 0 = n q) (h5 : w 5 = n u) :
    n q2 = n q1 ∧ n q2 ≠ 0 ∧ botNL w = n q + n q1 + n q2 - n q1 ∧ botNL w ≠ n q + n q1 + n q2 := by
  have e : n q2 = n q1 := by rw [hn.q1, hn.q2, hn.c, hn.s, hn.d]
  have hne : n q2 ≠ 0 := by
    rw [hn.q2, hn.c, hn.s]
    intro h
    apply hu
    linarith
  have hb := (C89_left_partial n hn).2.1 w h0 h5
  refine ⟨e, hne, by rw [hb, e]; ring, fun h => hne ?_⟩
  rw [hb] at h
  linarith

/-- Densities of light quarks that meet `Light`, with potentials for massless quarks. -/
example : ∃ n μ : Species → ℝ, Light n ∧ Potentials 1 1 1 n μ ∧ n u ≠ 0 ∧ n q ≠ 0 :=
  ⟨fun i => match i with
    | q => 1 | u | d | c | s => 3 | q1 | q2 => -6 | _ => 0,
   fun i => match i with
    | q => 1 / 3 | u | d | c | s => 1 | q1 | q2 => -1 | _ => 0,
   by constructor <;> norm_num, by constructor <;> norm_num, by norm_num, by norm_num⟩

end Verif.Via
