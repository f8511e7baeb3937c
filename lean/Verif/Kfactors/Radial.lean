import Verif.Kfactors.Spec
import Mathlib.MeasureTheory.Constructions.HaarToSphere
import Mathlib.MeasureTheory.Measure.Lebesgue.VolumeOfBalls
import Mathlib.MeasureTheory.Measure.Haar.InnerProductSpace
import Mathlib.Tactic.FieldSimp
import Mathlib.Tactic.Ring
import Mathlib.Tactic.FinCases

/-!
# Integrals over momenta of functions of the energy
-/

namespace Verif.Kfactors

open Real MeasureTheory

/-- The absolute value of a momentum. -/
noncomputable def radius (p : Fin 3 → ℝ) : ℝ := √ (p 0 ^ 2 + p 1 ^ 2 + p 2 ^ 2)

theorem radius_eq (p : Fin 3 → ℝ) : ‖(WithLp.toLp 2 p : EuclideanSpace ℝ (Fin 3))‖ = radius p := by
  rw [EuclideanSpace.norm_eq, radius, Fin.sum_univ_three]
  simp

theorem radius_sq (p : Fin 3 → ℝ) : radius p ^ 2 = p 0 ^ 2 + p 1 ^ 2 + p 2 ^ 2 := sq_sqrt (by positivity)

theorem radius_nonneg (p : Fin 3 → ℝ) : 0 ≤ radius p := sqrt_nonneg _

theorem toLp_embedding : MeasurableEmbedding (WithLp.toLp 2 : (Fin 3 → ℝ) → EuclideanSpace ℝ (Fin 3)) :=
  (MeasurableEquiv.toLp 2 (Fin 3 → ℝ)).measurableEmbedding

/-- Integrals of functions of the absolute value. -/
theorem integral_radius (g : ℝ → ℝ) : ∫ p : Fin 3 → ℝ, g (radius p) = 4 * π * ∫ r in Set.Ioi (0 : ℝ), r ^ 2 * g r := by
  have h := (PiLp.volume_preserving_toLp (Fin 3)).integral_comp toLp_embedding fun x => g ‖x‖
  simp only [radius_eq] at h
  rw [h, integral_fun_norm_addHaar volume g]
  have hv : (volume : Measure (EuclideanSpace ℝ (Fin 3))).real (Metric.ball 0 1) = π * 4 / 3 := by
    rw [Measure.real, EuclideanSpace.volume_ball_fin_three]
    simp [ENNReal.toReal_ofReal (show 0 ≤ π * 4 / 3 by positivity)]
  rw [hv]
  simp only [finrank_euclideanSpace, Fintype.card_fin, smul_eq_mul, nsmul_eq_mul]
  push_cast
  ring

theorem integrable_radius (g : ℝ → ℝ) : (Integrable fun p : Fin 3 → ℝ => g (radius p)) ↔
    IntegrableOn (fun r => r ^ 2 * g r) (Set.Ioi 0) := by
  have h := (PiLp.volume_preserving_toLp (Fin 3)).integrable_comp_emb toLp_embedding (g := fun x => g ‖x‖)
  have e : ((fun x : EuclideanSpace ℝ (Fin 3) => g ‖x‖) ∘ WithLp.toLp 2) = fun p => g (radius p) :=
    funext fun p => by rw [Function.comp, radius_eq]
  rw [e] at h
  rw [h, integrable_fun_norm_addHaar volume]
  simp

/-! ### Permutations of the components -/

/-- The exchange of two components. -/
def exchange (i j : Fin 3) (p : Fin 3 → ℝ) : Fin 3 → ℝ := fun k => p (Equiv.swap i j k)

theorem exchange_exchange (i j : Fin 3) (p : Fin 3 → ℝ) : exchange i j (exchange i j p) = p := by
  funext k; simp [exchange]

theorem exchange_preserving (i j : Fin 3) : MeasurePreserving (exchange i j) volume volume := by
  have h := volume_measurePreserving_piCongrLeft (fun _ : Fin 3 => ℝ) (Equiv.swap i j)
  have e : (MeasurableEquiv.piCongrLeft (fun _ : Fin 3 => ℝ) (Equiv.swap i j) : (Fin 3 → ℝ) → Fin 3 → ℝ) =
      exchange i j := by
    funext p k
    obtain ⟨l, rfl⟩ := (Equiv.swap i j).surjective k
    rw [MeasurableEquiv.coe_piCongrLeft, Equiv.piCongrLeft_apply_apply]
    simp [exchange]
  rw [← e]
  exact h

theorem exchange_embedding (i j : Fin 3) : MeasurableEmbedding (exchange i j) :=
  (MeasurableEquiv.ofInvolutive (exchange i j) (exchange_exchange i j)
    (exchange_preserving i j).measurable).measurableEmbedding

theorem radius_exchange (i j : Fin 3) (p : Fin 3 → ℝ) : radius (exchange i j p) = radius p := by
  rw [radius, radius]
  congr 1
  have : ∀ q : Fin 3 → ℝ, q 0 ^ 2 + q 1 ^ 2 + q 2 ^ 2 = ∑ k, q k ^ 2 := fun q => by rw [Fin.sum_univ_three]
  rw [this, this]
  exact Equiv.sum_comp (Equiv.swap i j) fun k => p k ^ 2

/-- In an integral of a function of the absolute value over a set that does not change under permutations, the
square of a component can be replaced by a third of the square of the absolute value. -/
theorem integral_component (A : Set (Fin 3 → ℝ)) (hs : ∀ i j p, exchange i j p ∈ A ↔ p ∈ A) (g : ℝ → ℝ)
    (hg : IntegrableOn (fun p : Fin 3 → ℝ => radius p ^ 2 * g (radius p)) A) (hm : Measurable g) (i : Fin 3) :
    ∫ p in A, p i ^ 2 * g (radius p) = 1 / 3 * ∫ p in A, radius p ^ 2 * g (radius p) := by
  have hrm : Measurable radius := by unfold radius; fun_prop
  have hint : ∀ j : Fin 3, IntegrableOn (fun p : Fin 3 → ℝ => p j ^ 2 * g (radius p)) A := fun j => by
    refine Integrable.mono hg (by fun_prop) (ae_of_all _ fun p => ?_)
    rw [norm_mul, norm_mul]
    refine mul_le_mul_of_nonneg_right ?_ (norm_nonneg _)
    rw [norm_of_nonneg (sq_nonneg _), norm_of_nonneg (sq_nonneg _), radius_sq]
    fin_cases j <;> simp <;> nlinarith [sq_nonneg (p 0), sq_nonneg (p 1), sq_nonneg (p 2)]
  have heq : ∀ j : Fin 3, ∫ p in A, p j ^ 2 * g (radius p) = ∫ p in A, p i ^ 2 * g (radius p) := fun j => by
    have hpre : exchange i j ⁻¹' A = A := Set.ext fun p => hs i j p
    have h := (exchange_preserving i j).setIntegral_preimage_emb (exchange_embedding i j)
      (fun p => p j ^ 2 * g (radius p)) A
    rw [hpre] at h
    rw [← h]
    simp only [radius_exchange]
    simp [exchange]
  have hsum : ∫ p in A, radius p ^ 2 * g (radius p) = ∑ j : Fin 3, ∫ p in A, p j ^ 2 * g (radius p) := by
    rw [← integral_finset_sum _ fun j _ => hint j]
    refine integral_congr_ae (ae_of_all _ fun p => ?_)
    simp only [radius_sq, Fin.sum_univ_three]
    ring
  rw [hsum, Fin.sum_univ_three, heq 0, heq 1, heq 2]
  ring

theorem box_exchange (L : ℝ) (i j : Fin 3) (p : Fin 3 → ℝ) : exchange i j p ∈ Spec.box L ↔ p ∈ Spec.box L := by
  simp only [Spec.box, Set.mem_Icc, Pi.le_def, exchange]
  constructor
  · rintro ⟨h1, h2⟩
    exact ⟨fun k => by simpa using h1 (Equiv.swap i j k), fun k => by simpa using h2 (Equiv.swap i j k)⟩
  · rintro ⟨h1, h2⟩
    exact ⟨fun k => h1 _, fun k => h2 _⟩

/-- The box lies between two balls. -/
theorem ball_subset_box {L : ℝ} {p : Fin 3 → ℝ} (h : radius p ≤ L) : p ∈ Spec.box L := by
  have hk : ∀ k, |p k| ≤ L := fun k => by
    refine le_trans ?_ h
    rw [← sqrt_sq_eq_abs, radius]
    refine sqrt_le_sqrt ?_
    fin_cases k <;> simp <;> nlinarith [sq_nonneg (p 0), sq_nonneg (p 1), sq_nonneg (p 2)]
  exact ⟨fun k => (abs_le.1 (hk k)).1, fun k => (abs_le.1 (hk k)).2⟩

theorem box_subset_ball {L : ℝ} {p : Fin 3 → ℝ} (h : p ∈ Spec.box L) : radius p ^ 2 ≤ 3 * L ^ 2 := by
  have hk : ∀ k, p k ^ 2 ≤ L ^ 2 := fun k => sq_le_sq' (h.1 k) (h.2 k)
  rw [radius_sq]
  linarith [hk 0, hk 1, hk 2]

end Verif.Kfactors
