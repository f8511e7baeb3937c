import Verif.Kfactors.Model
import Verif.Kfactors.Spec
import Mathlib.Analysis.SpecialFunctions.ExpDeriv
import Mathlib.Analysis.Calculus.Deriv.Inv
import Mathlib.MeasureTheory.Measure.Lebesgue.EqHaar
import Mathlib.MeasureTheory.Measure.Haar.Unique
import Mathlib.Tactic.FieldSimp
import Mathlib.Tactic.Ring
import Mathlib.Tactic.FinCases
import Mathlib.Tactic.Positivity

/-!
# Integrands and the integration over one octant
-/

set_option linter.unusedSimpArgs false

namespace Verif.Kfactors

open Outcome Real MeasureTheory

/-! ### The distribution -/

theorem distribution_deriv (s T E : ℝ) (h : exp (E / T) + s ≠ 0) :
    HasDerivAt (Spec.distribution s T) (-(1 / T) * exp (1 / T * E) / (exp (1 / T * E) + s) ^ 2) E := by
  have h1 : HasDerivAt (fun E => E / T) (1 / T) E := (hasDerivAt_id' E).div_const T
  have h2 : HasDerivAt (fun E => exp (E / T) + s) (exp (E / T) * (1 / T)) E := h1.exp.add_const s
  have := h2.fun_inv h
  have e : Spec.distribution s T = fun E => (exp (E / T) + s)⁻¹ := by
    funext E; rw [Spec.distribution, one_div]
  rw [e]
  refine this.congr_deriv ?_
  rw [show 1 / T * E = E / T by ring]
  ring

theorem d_eq (s T E : ℝ) (h : exp (E / T) + s ≠ 0) :
    Spec.d s T E = -(1 / T) * exp (1 / T * E) / (exp (1 / T * E) + s) ^ 2 := (distribution_deriv s T E h).deriv

theorem d_deriv (s T E : ℝ) (h : exp (E / T) + s ≠ 0) :
    HasDerivAt (Spec.d s T) (1 / T * (1 / T) * exp (1 / T * E) * (exp (1 / T * E) - s) /
      (exp (1 / T * E) + s) ^ 3) E := by
  have hc : Continuous fun E => exp (E / T) + s := by fun_prop
  have hev : Spec.d s T =ᶠ[nhds E] fun E => -(1 / T) * exp (1 / T * E) / (exp (1 / T * E) + s) ^ 2 :=
    (hc.continuousAt.eventually_ne h).mono fun E hE => d_eq s T E hE
  refine HasDerivAt.congr_of_eventuallyEq ?_ hev
  have h' : exp (1 / T * E) + s ≠ 0 := by rwa [show 1 / T * E = E / T by ring]
  have h1 : HasDerivAt (fun E => 1 / T * E) (1 / T) E :=
    ((hasDerivAt_id' E).const_mul (1 / T)).congr_deriv (by ring)
  have h2 := h1.exp
  have h3 := (h2.add_const s).fun_pow 2
  refine ((h2.const_mul (-(1 / T))).fun_div h3 (pow_ne_zero 2 h')).congr_deriv ?_
  generalize exp (1 / T * E) = x at h' ⊢
  generalize 1 / T = b
  rw [div_eq_div_iff (pow_ne_zero 2 (pow_ne_zero 2 h')) (pow_ne_zero 3 h')]
  push_cast
  ring

theorem dd_eq (s T E : ℝ) (h : exp (E / T) + s ≠ 0) : Spec.dd s T E =
    1 / T * (1 / T) * exp (1 / T * E) * (exp (1 / T * E) - s) / (exp (1 / T * E) + s) ^ 3 := (d_deriv s T E h).deriv

/-- **The distribution.**  The values are those of the distribution and of its first two derivatives, and zero
for other numbers of derivatives. -/
theorem C108_distribution (E T : ℝ) (s : ℤ) (h : exp (E / T) + s ≠ 0) :
    f0 E s T 0 = Spec.distribution s T E ∧ f0 E s T 1 = Spec.d s T E ∧ f0 E s T 2 = Spec.dd s T E ∧
      ∀ n : ℤ, n ≠ 0 → n ≠ 1 → n ≠ 2 → f0 E s T n = 0 := by
  refine ⟨?_, ?_, ?_, fun n h0 h1 h2 => ?_⟩
  · simp only [f0, Spec.distribution]
    rw [show 1 / T * E = E / T by ring]
    rfl
  · rw [d_eq _ _ _ h]; simp [f0]
  · rw [dd_eq _ _ _ h]; simp [f0]
  · simp [f0, h0, h1, h2]

/-- The derivatives are derivatives. -/
theorem C108_derivatives (E T : ℝ) (s : ℤ) (h : exp (E / T) + s ≠ 0) :
    HasDerivAt (fun E => f0 E s T 0) (f0 E s T 1) E ∧ HasDerivAt (fun E => f0 E s T 1) (f0 E s T 2) E := by
  have hc : Continuous fun E => exp (E / T) + (s : ℝ) := by fun_prop
  have hev := hc.continuousAt.eventually_ne h
  obtain ⟨-, h1, h2, -⟩ := C108_distribution E T s h
  constructor
  · rw [h1]
    refine HasDerivAt.congr_of_eventuallyEq ?_ (hev.mono fun E hE => (C108_distribution E T s hE).1)
    exact (distribution_deriv s T E h).differentiableAt.hasDerivAt
  · rw [h2]
    refine HasDerivAt.congr_of_eventuallyEq ?_ (hev.mono fun E hE => (C108_distribution E T s hE).2.1)
    exact (d_deriv s T E h).differentiableAt.hasDerivAt

/-! ### The integrands -/

/-- **The integrands** are the published functions. -/
theorem C108_integrand (p : Fin 3 → ℝ) (m2 T : ℝ) (i s : ℤ) (h : exp (Spec.energy m2 p / T) + s ≠ 0) :
    kernel (p 0) (p 1) (p 2) m2 i s T = Spec.X s T m2 i p := by
  obtain ⟨h0, h1, h2, -⟩ := C108_distribution _ T s h
  have e0 : √ (p 0 * p 0 + p 1 * p 1 + p 2 * p 2 + m2) = Spec.energy m2 p := by
    rw [Spec.energy]; congr 1; ring
  have e1 : √ (p 2 * p 2 + m2) = Spec.energyZ m2 p := by rw [Spec.energyZ]; congr 1; ring
  unfold kernel
  simp only [e0, e1, h0, h1, h2]
  generalize hE : Spec.energy m2 p = E
  generalize hZ : Spec.energyZ m2 p = Z
  split_ifs with c1 c2 c3 c4 c5 c6 c7 c8 c9 c10
  · subst c1; simp only [Spec.X, hE]; ring
  · subst c2; simp only [Spec.X, hE]
  · subst c3; simp only [Spec.X, hE]
  · subst c4; simp only [Spec.X, hE]; ring
  · subst c5; simp only [Spec.X, hE]; ring
  · subst c6; simp only [Spec.X, hE]; ring
  · subst c7; simp only [Spec.X, hE, hZ]; ring
  · subst c8; simp only [Spec.X, hE, hZ]; ring
  · subst c9; simp only [Spec.X, hE, hZ]
  · subst c10; simp only [Spec.X, hE, hZ]
  · unfold Spec.X
    split <;> first | rfl | (exfalso; simp_all; done)

/-- A momentum with less than three components makes it throw; further components are ignored. -/
theorem C108_components (p : List ℝ) (m2 T : ℝ) (i s : ℤ) :
    integrand p m2 i s T = if h : 3 ≤ p.length then ok (kernel p[0] p[1] p[2] m2 i s T) else err .outOfRange := by
  unfold integrand at'
  rcases p with _ | ⟨a, _ | ⟨b, _ | ⟨c, p⟩⟩⟩ <;> simp

/-- They do not change if a component of the momentum changes its sign. -/
theorem C108_even (px py pz m2 T : ℝ) (i s : ℤ) :
    kernel (-px) py pz m2 i s T = kernel px py pz m2 i s T ∧ kernel px (-py) pz m2 i s T = kernel px py pz m2 i s T ∧
      kernel px py (-pz) m2 i s T = kernel px py pz m2 i s T := by
  refine ⟨?_, ?_, ?_⟩ <;> simp [kernel]

/-! ### Octants -/

/-- The reflection of a component. -/
def reflect (i : Fin 3) (p : Fin 3 → ℝ) : Fin 3 → ℝ := fun j => if j = i then -p j else p j

theorem reflect_reflect (i : Fin 3) (p : Fin 3 → ℝ) : reflect i (reflect i p) = p := by
  funext j; by_cases h : j = i <;> simp [reflect, h]

theorem reflect_preserving (i : Fin 3) : MeasurePreserving (reflect i) volume volume := by
  have h : ∀ j : Fin 3, MeasurePreserving (fun x : ℝ => if j = i then -x else x) volume volume := fun j => by
    by_cases hj : j = i
    · simpa [hj] using Measure.measurePreserving_neg (volume : Measure ℝ)
    · simp only [hj, if_false]; exact MeasurePreserving.id (volume : Measure ℝ)
  exact volume_preserving_pi h

theorem reflect_embedding (i : Fin 3) : MeasurableEmbedding (reflect i) :=
  (MeasurableEquiv.ofInvolutive (reflect i) (reflect_reflect i) (reflect_preserving i).measurable).measurableEmbedding

/-- The integral of a symmetric function over a symmetric set is twice that over one half. -/
theorem integral_half (i : Fin 3) (f : (Fin 3 → ℝ) → ℝ) (A : Set (Fin 3 → ℝ)) (hA : MeasurableSet A)
    (hf : ∀ p, f (reflect i p) = f p) (hs : ∀ p, reflect i p ∈ A ↔ p ∈ A) :
    ∫ p in A, f p = 2 * ∫ p in A ∩ {p | 0 ≤ p i}, f p := by
  have hle : MeasurableSet {p : Fin 3 → ℝ | 0 ≤ p i} := measurableSet_le measurable_const (measurable_pi_apply i)
  have hpre : reflect i ⁻¹' (A ∩ {p | 0 ≤ p i}) = A ∩ {p | p i ≤ 0} := by
    ext p; simp [hs, reflect]
  have hint : ∫ p in A ∩ {p | p i ≤ 0}, f p = ∫ p in A ∩ {p | 0 ≤ p i}, f p := by
    rw [← hpre, ← (reflect_preserving i).setIntegral_preimage_emb (reflect_embedding i) f (A ∩ {p | 0 ≤ p i})]
    exact integral_congr_ae (ae_of_all _ fun p => (hf p).symm)
  have hio : IntegrableOn f (A ∩ {p | p i ≤ 0}) ↔ IntegrableOn f (A ∩ {p | 0 ≤ p i}) := by
    have : f ∘ reflect i = f := funext hf
    rw [← hpre, ← (reflect_preserving i).integrableOn_comp_preimage (reflect_embedding i)
      (s := A ∩ {p | 0 ≤ p i}), this]
  have hun : A = A ∩ {p | p i ≤ 0} ∪ A ∩ {p | 0 ≤ p i} := by
    ext p
    simp only [Set.mem_union, Set.mem_inter_iff, Set.mem_setOf_eq]
    have := le_total (p i) 0
    tauto
  by_cases h : IntegrableOn f (A ∩ {p | 0 ≤ p i})
  · have hnull : volume (A ∩ {p | p i ≤ 0} ∩ (A ∩ {p : Fin 3 → ℝ | 0 ≤ p i})) = 0 := by
      refine measure_mono_null (fun p hp => ?_) (Measure.pi_hyperplane (fun _ : Fin 3 => (volume : Measure ℝ)) i 0)
      exact le_antisymm hp.1.2 hp.2.2
    conv_lhs => rw [hun]
    rw [setIntegral_union₀ hnull (hA.inter hle).nullMeasurableSet (hio.2 h) h, hint]
    ring
  · have h' : ¬ IntegrableOn f A volume := fun h' => h (h'.mono_set Set.inter_subset_left)
    rw [integral_undef h, integral_undef h']
    ring

/-- **One octant is enough.** -/
theorem octants (f : (Fin 3 → ℝ) → ℝ) (L : ℝ) (hf : ∀ i p, f (reflect i p) = f p) :
    ∫ p in Spec.box L, f p = (∫ p in Set.Icc (fun _ : Fin 3 => (0 : ℝ)) (fun _ => L), f p) * 8 := by
  have hm : ∀ i : Fin 3, MeasurableSet {p : Fin 3 → ℝ | 0 ≤ p i} := fun i =>
    measurableSet_le measurable_const (measurable_pi_apply i)
  have hbox : MeasurableSet (Spec.box L) := measurableSet_Icc
  have key : ∀ i p, reflect i p ∈ Spec.box L ↔ p ∈ Spec.box L := fun i p => by
    simp only [Spec.box, Set.mem_Icc, Pi.le_def, reflect]
    constructor
    · rintro ⟨h1, h2⟩
      refine ⟨fun j => ?_, fun j => ?_⟩ <;> have a := h1 j <;> have b := h2 j <;> split_ifs at a b <;> linarith
    · rintro ⟨h1, h2⟩
      refine ⟨fun j => ?_, fun j => ?_⟩ <;> have a := h1 j <;> have b := h2 j <;> split_ifs <;> linarith
  have key2 : ∀ i j p, i ≠ j → (reflect i p ∈ {p : Fin 3 → ℝ | 0 ≤ p j} ↔ p ∈ {p : Fin 3 → ℝ | 0 ≤ p j}) := by
    intro i j p h
    simp [reflect, h.symm]
  rw [integral_half 0 f _ hbox (hf 0) (key 0),
    integral_half 1 f _ (hbox.inter (hm 0)) (hf 1) (fun p => and_congr (key 1 p) (key2 1 0 p (by decide))),
    integral_half 2 f _ ((hbox.inter (hm 0)).inter (hm 1)) (hf 2) (fun p => and_congr (and_congr (key 2 p)
      (key2 2 0 p (by decide))) (key2 2 1 p (by decide)))]
  have e : Spec.box L ∩ {p | 0 ≤ p 0} ∩ {p | 0 ≤ p 1} ∩ {p | 0 ≤ p 2} =
      Set.Icc (fun _ : Fin 3 => (0 : ℝ)) (fun _ => L) := by
    ext p
    simp only [Spec.box, Set.mem_inter_iff, Set.mem_Icc, Pi.le_def, Set.mem_setOf_eq, Fin.forall_fin_succ,
      Fin.forall_fin_zero]
    constructor
    · rintro ⟨⟨⟨⟨_, h⟩, h0⟩, h1⟩, h2⟩
      exact ⟨⟨h0, h1, h2, trivial⟩, h⟩
    · rintro ⟨⟨h0, h1, h2, -⟩, h⟩
      refine ⟨⟨⟨⟨⟨?_, ?_, ?_, trivial⟩, h⟩, h0⟩, h1⟩, h2⟩ <;> simp at * <;> linarith
  rw [e]
  ring

theorem energy_pos {m2 : ℝ} (hm : 0 ≤ m2) {p : Fin 3 → ℝ} (hp : p ≠ 0) : 0 < Spec.energy m2 p := by
  rw [Spec.energy, sqrt_pos]
  have : 0 < p 0 ^ 2 + p 1 ^ 2 + p 2 ^ 2 := by
    by_contra h
    have h' : p 0 ^ 2 + p 1 ^ 2 + p 2 ^ 2 ≤ 0 := not_lt.1 h
    refine hp (funext fun i => ?_)
    have : p i ^ 2 ≤ 0 := by fin_cases i <;> simp <;> nlinarith [sq_nonneg (p 0), sq_nonneg (p 1), sq_nonneg (p 2)]
    exact pow_eq_zero_iff (two_ne_zero) |>.1 (le_antisymm this (sq_nonneg _))
  linarith

theorem denominator_pos {s : ℤ} (hs : s = 1 ∨ s = -1) {T E : ℝ} (hT : 0 < T) (hE : 0 < E) :
    0 < exp (E / T) + s := by
  have : 1 < exp (E / T) := by rw [one_lt_exp_iff]; positivity
  rcases hs with rfl | rfl <;> push_cast <;> linarith

/-- **The numerical integral** over one octant is that of the published function over all momenta whose components
do not exceed 1000 GeV. -/
theorem C108_box (m2 T : ℝ) (i s : ℤ) (hm : 0 ≤ m2) (hT : 0 < T) (hs : s = 1 ∨ s = -1) :
    integration m2 T i s = ∫ p in Spec.box 1000, Spec.X s T m2 i p := by
  have hae : ∀ᵐ p : Fin 3 → ℝ, p ≠ 0 := by
    have : volume ({0} : Set (Fin 3 → ℝ)) = 0 := measure_singleton 0
    exact compl_mem_ae_iff.2 this
  rw [integration, cutoff, ← octants (fun p => kernel (p 0) (p 1) (p 2) m2 i s T)]
  · refine integral_congr_ae (ae_restrict_of_ae (hae.mono fun p hp => ?_))
    exact C108_integrand p m2 T i s (denominator_pos hs hT (energy_pos hm hp)).ne'
  · intro j p
    obtain ⟨a, b, c⟩ := C108_even (p 0) (p 1) (p 2) m2 T i s
    fin_cases j
    · simpa [reflect] using a
    · simpa [reflect] using b
    · simpa [reflect] using c

end Verif.Kfactors
