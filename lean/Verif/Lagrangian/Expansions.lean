import Verif.Lagrangian.Invariance

/-!
# First and second derivatives of polynomials
-/

namespace Verif.Lagrangian.Spec

open Filter Topology

variable {n : Nat} {v N N' : Fin n → ℝ} {H H' : Fin n → Fin n → ℝ} {W W' : (Fin n → ℝ) → ℝ}

theorem expansion_const (v : Fin n → ℝ) (c : ℝ) :
    Expansion (fun _ => c) v (fun _ => 0) (fun _ _ => 0) :=
  ⟨fun _ => 0, Eventually.of_forall fun φ => hasFDerivAt_const c φ, 0, hasFDerivAt_const _ _,
    fun _ => rfl, fun _ _ => rfl⟩

theorem expansion_proj (v : Fin n → ℝ) (k : Fin n) :
    Expansion (fun φ => φ k) v (fun i => if i = k then 1 else 0) (fun _ _ => 0) :=
  ⟨fun _ => ContinuousLinearMap.proj (R := ℝ) (φ := fun _ : Fin n => ℝ) k,
    Eventually.of_forall fun φ =>
      (ContinuousLinearMap.proj (R := ℝ) (φ := fun _ : Fin n => ℝ) k).hasFDerivAt,
    0, hasFDerivAt_const _ _, fun i => by simp [Pi.single_apply, eq_comm], fun _ _ => rfl⟩

theorem Expansion.add (h : Expansion W v N H) (h' : Expansion W' v N' H') :
    Expansion (fun φ => W φ + W' φ) v (fun i => N i + N' i) (fun i j => H i j + H' i j) := by
  obtain ⟨G, hG, D, hD, hN, hH⟩ := h
  obtain ⟨G', hG', D', hD', hN', hH'⟩ := h'
  refine ⟨fun φ => G φ + G' φ, ?_, D + D', hD.add hD', fun i => ?_, fun i j => ?_⟩
  · filter_upwards [hG, hG'] with φ h1 h2
    exact h1.add h2
  · dsimp only; rw [hN, hN']; rfl
  · dsimp only; rw [hH, hH']; rfl

theorem Expansion.mul (h : Expansion W v N H) (h' : Expansion W' v N' H') :
    Expansion (fun φ => W φ * W' φ) v (fun i => W v * N' i + W' v * N i)
      (fun i j => W v * H' i j + N i * N' j + (W' v * H i j + N' i * N j)) := by
  obtain ⟨G, hG, D, hD, hN, hH⟩ := h
  obtain ⟨G', hG', D', hD', hN', hH'⟩ := h'
  have h0 := hG.self_of_nhds
  have h0' := hG'.self_of_nhds
  refine ⟨fun φ => W φ • G' φ + W' φ • G φ, ?_, _, (h0.smul hD').add (h0'.smul hD),
    fun i => ?_, fun i j => ?_⟩
  · filter_upwards [hG, hG'] with φ h1 h2
    exact h1.mul h2
  · dsimp only; rw [hN, hN']; rfl
  · dsimp only; rw [hH, hH', hN, hN, hN', hN']; simp

theorem Expansion.congr (h : Expansion W v N H) (hW : W = W') (hN : ∀ i, N i = N' i)
    (hH : ∀ i j, H i j = H' i j) : Expansion W' v N' H' := by
  have h1 : N = N' := funext hN
  have h2 : H = H' := funext fun i => funext fun j => hH i j
  subst hW h1 h2
  exact h

end Verif.Lagrangian.Spec
