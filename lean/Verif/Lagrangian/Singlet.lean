import Verif.Lagrangian.TwoDoublets

/-!
# Two doublets and a real singlet

The symmetries of models with two doublets and a real singlet act on the doublets for every value of
the singlet.
-/

set_option linter.unusedSectionVars false
set_option linter.unusedSimpArgs false

namespace Verif.Lagrangian.Singlet

open Verif.Lagrangian.Spec
open Verif.Lagrangian.TwoDoublets

/-- The nine fields: the fields of the doublets in the order `π` and the singlet at the end. -/
def place (π : Fin 9 → Fin 8) (s : ℝ) (φ : Fin 8 → ℝ) : Fin 9 → ℝ :=
  fun k => if k = 8 then s else φ (π k)

/-- `σ i` is the position of the field `i` of the doublets. -/
structure Order (σ : Fin 8 → Fin 9) (π : Fin 9 → Fin 8) : Prop where
  left : ∀ i, π (σ i) = i
  ne : ∀ i, σ i ≠ 8
  right : ∀ k, k ≠ 8 → σ (π k) = k

/-- Invariance under `SU(2) × U(1)`, which acts on the doublets only. -/
def GaugeInvariant (π : Fin 9 → Fin 8) (W : (Fin 9 → ℝ) → ℝ) : Prop :=
  ∀ s, TwoDoublets.GaugeInvariant fun φ => W (place π s φ)

/-- Invariance under the complex conjugation of the doublets. -/
def CPInvariant (π : Fin 9 → Fin 8) (W : (Fin 9 → ℝ) → ℝ) : Prop :=
  ∀ s, TwoDoublets.CPInvariant fun φ => W (place π s φ)

variable {σ : Fin 8 → Fin 9} {π : Fin 9 → Fin 8}

/-- The linear part of `place`. -/
noncomputable def placeL (π : Fin 9 → Fin 8) : (Fin 8 → ℝ) →L[ℝ] (Fin 9 → ℝ) :=
  LinearMap.toContinuousLinearMap
    { toFun := fun φ k => if k = 8 then 0 else φ (π k)
      map_add' := by intro x y; funext k; by_cases h : k = 8 <;> simp [h]
      map_smul' := by intro x y; funext k; by_cases h : k = 8 <;> simp [h] }

theorem placeL_apply (φ : Fin 8 → ℝ) (k : Fin 9) :
    placeL π φ k = if k = 8 then 0 else φ (π k) := rfl

theorem place_eq (s : ℝ) (φ : Fin 8 → ℝ) : place π s φ = Pi.single 8 s + placeL π φ := by
  funext k
  rw [place, Pi.add_apply, placeL_apply]
  by_cases h : k = 8 <;> simp [h]

theorem expansion (ho : Order σ π) {W : (Fin 9 → ℝ) → ℝ} {s : ℝ} {v : Fin 8 → ℝ} {N : Fin 9 → ℝ}
    {H : Fin 9 → Fin 9 → ℝ} (h : Expansion W (place π s v) N H) :
    Expansion (fun φ => W (place π s φ)) v (fun i => N (σ i)) (fun i j => H (σ i) (σ j)) := by
  simp only [place_eq] at h ⊢
  refine Expansion.restrict _ _ _ (fun i => ?_) _ h
  funext k
  rw [placeL_apply]
  by_cases hk : k = 8
  · subst hk
    simp [(ho.ne i).symm]
  · rw [if_neg hk]
    by_cases hi : k = σ i
    · subst hi; simp [ho.left]
    · have : π k ≠ i := fun e => hi (by rw [← e, ho.right k hk])
      simp [hi, this]

theorem place_self (ho : Order σ π) (φ : Fin 9 → ℝ) : place π (φ 8) (fun i => φ (σ i)) = φ := by
  funext k
  rw [place]
  by_cases hk : k = 8
  · simp [hk]
  · rw [if_neg hk, ho.right k hk]

/-- A symmetry which exchanges fields of the doublets up to signs. -/
theorem signed (ho : Order σ π) {W : (Fin 9 → ℝ) → ℝ} {s : ℝ} {v : Fin 8 → ℝ} {N : Fin 9 → ℝ}
    {H : Fin 9 → Fin 9 → ℝ} (h : Expansion W (place π s v) N H) (τ : Fin 8 → Fin 8)
    (hτ : ∀ k, τ (τ k) = k) (c : Fin 8 → ℝ) (hv : ∀ k, c k * v (τ k) = v k)
    (hinv : ∀ s φ, W (place π s fun k => c k * φ (τ k)) = W (place π s φ)) (i : Fin 8) :
    c (τ i) * H 8 (σ (τ i)) = H 8 (σ i) := by
  have key := h.signed (fun k => if k = 8 then 8 else σ (τ (π k)))
    (by
      intro k
      by_cases hk : k = 8
      · simp [hk]
      · simp only [hk, if_false, ho.ne, ho.left, hτ, ho.right k hk])
    (fun k => if k = 8 then 1 else c (π k))
    (by
      intro k
      by_cases hk : k = 8
      · simp [hk, place]
      · simp only [hk, if_false, place, ho.ne, ho.left, hv])
    (by
      intro φ
      have := hinv (φ 8) (fun i => φ (σ i))
      rw [place_self ho] at this
      rw [← this]
      congr 1
      funext k
      by_cases hk : k = 8
      · simp [hk, place]
      · simp only [hk, if_false, place])
  have h8 := key.2 8 (σ i)
  simpa only [ho.ne, ho.left, if_true, if_false, one_mul] using h8

/-- The singlet does not mix with the charged fields. -/
theorem singlet_charged (ho : Order σ π) {W : (Fin 9 → ℝ) → ℝ} (hW : GaugeInvariant π W)
    {s v1 v2 : ℝ} {N : Fin 9 → ℝ} {H : Fin 9 → Fin 9 → ℝ}
    (h : Expansion W (place π s (vacuum v1 v2)) N H) (i : Fin 8) (hi : (i : Nat) < 4) :
    H 8 (σ i) = 0 := by
  have key := signed ho h chargedSwap (by intro k; fin_cases k <;> rfl) chargedSign
    (by intro k; fin_cases k <;> simp [chargedSign, chargedSwap, vacuum])
    (fun s φ => charged_invariant (hW s) φ)
  have k0 := key 0
  have k1 := key 1
  have k2 := key 2
  have k3 := key 3
  simp [chargedSwap, chargedSign] at k0 k1 k2 k3
  have : i = 0 ∨ i = 1 ∨ i = 2 ∨ i = 3 := by omega
  rcases this with rfl | rfl | rfl | rfl <;> linarith

/-- With CP conserved the singlet does not mix with the imaginary parts. -/
theorem singlet_cp (ho : Order σ π) {W : (Fin 9 → ℝ) → ℝ} (hg : GaugeInvariant π W)
    (hW : CPInvariant π W) {s v1 v2 : ℝ} {N : Fin 9 → ℝ} {H : Fin 9 → Fin 9 → ℝ}
    (h : Expansion W (place π s (vacuum v1 v2)) N H) (i : Fin 8) (hi : (i : Nat) % 2 = 1) :
    H 8 (σ i) = 0 := by
  have hi' : Function.LeftInverse π σ := ho.left
  have hne := ho.ne
  have inj : ∀ i j, σ i = σ j ↔ i = j := fun i j => hi'.injective.eq_iff
  have hp : ∀ φ : Fin 5 → ℝ, includeL ![σ 4, σ 5, σ 6, σ 7, 8] φ =
      place π (φ 4) ![0, 0, 0, 0, φ 0, φ 1, φ 2, φ 3] := by
    intro φ
    funext k
    rw [includeL_apply, Fin.sum_univ_five]
    by_cases hk : k = 8
    · subst hk
      simp [place, hne]
    · have h8 : ¬ (8 : Fin 9) = k := fun h => hk h.symm
      rw [← ho.right k hk] at h8 ⊢
      generalize π k = j at *
      simp only [place, hne, if_false, ho.left, Matrix.cons_val, Matrix.cons_val_zero,
        Matrix.cons_val_one, inj, h8, add_zero]
      fin_cases j <;> simp
  have hs := h.some ![σ 4, σ 5, σ 6, σ 7, 8] (by
      intro a b hab
      fin_cases a <;> fin_cases b <;> simp [inj, hne, Ne.symm (hne _)] at hab ⊢) ![v1, 0, v2, 0, s]
    (by rw [hp]; rfl)
  obtain ⟨-, h2⟩ := hs.signed id (fun _ => rfl) ![1, -1, 1, -1, 1]
    (by intro k; fin_cases k <;> simp) (by
      intro φ
      have := hW (φ 4) ![0, 0, 0, 0, φ 0, φ 1, φ 2, φ 3] (by
        intro k hk
        have : k = 0 ∨ k = 1 ∨ k = 2 ∨ k = 3 := by omega
        rcases this with rfl | rfl | rfl | rfl <;> rfl)
      dsimp only at this
      rw [hp, hp, ← this]
      congr 1
      have e : conjugate ![0, 0, 0, 0, φ 0, φ 1, φ 2, φ 3] =
          ![0, 0, 0, 0, φ 0, -φ 1, φ 2, -φ 3] := by
        funext k
        fin_cases k <;> simp [conjugate]
      rw [e]
      simp)
  by_cases hc : (i : Nat) < 4
  · exact singlet_charged ho hg h i hc
  · have : i = 5 ∨ i = 7 := by omega
    rcases this with rfl | rfl
    · have := h2 4 1
      simp at this
      linarith
    · have := h2 4 3
      simp at this
      linarith

end Verif.Lagrangian.Singlet
