import Verif.Yukawa.Block
import Mathlib.LinearAlgebra.UnitaryGroup
import Mathlib.Tactic.LinearCombination

/-!
# The masses of the fermions do not change under gauge transformations
-/

namespace Verif.Invariance

open Verif.Yukawa Matrix
open scoped BigOperators ComplexConjugate

/-- The matrix with the blocks `a 1`, `b 1`, `c 1`, `d 1`. -/
def scalarBlocks (a b c d : ℂ) : Matrix (Fin 3 ⊕ Fin 3) (Fin 3 ⊕ Fin 3) ℂ :=
  fromBlocks (a • 1) (b • 1) (c • 1) (d • 1)

theorem scalarBlocks_mul (a b c d a' b' c' d' : ℂ) : scalarBlocks a b c d * scalarBlocks a' b' c' d' =
    scalarBlocks (a * a' + b * c') (a * b' + b * d') (c * a' + d * c') (c * b' + d * d') := by
  simp only [scalarBlocks, fromBlocks_multiply, Matrix.smul_mul, Matrix.one_mul, smul_smul, add_smul]

/-- Unitary matrices with two rows. -/
structure Unitary2 (U : Matrix (Fin 2) (Fin 2) ℂ) : Prop where
  r0 : U 0 0 * conj (U 0 0) + U 0 1 * conj (U 0 1) = 1
  r1 : U 1 0 * conj (U 1 0) + U 1 1 * conj (U 1 1) = 1
  r01 : U 0 0 * conj (U 1 0) + U 0 1 * conj (U 1 1) = 0
  r10 : U 1 0 * conj (U 0 0) + U 1 1 * conj (U 0 1) = 0
  c0 : conj (U 0 0) * U 0 0 + conj (U 1 0) * U 1 0 = 1
  c1 : conj (U 0 1) * U 0 1 + conj (U 1 1) * U 1 1 = 1
  c01 : conj (U 0 0) * U 0 1 + conj (U 1 0) * U 1 1 = 0
  c10 : conj (U 0 1) * U 0 0 + conj (U 1 1) * U 1 0 = 0

theorem unitary2 {U : Matrix (Fin 2) (Fin 2) ℂ} (hU : U ∈ unitaryGroup (Fin 2) ℂ) : Unitary2 U := by
  have h1 := mem_unitaryGroup_iff.1 hU
  have h2 := mem_unitaryGroup_iff'.1 hU
  have e1 := fun i j => congrFun (congrFun h1 i) j
  have e2 := fun i j => congrFun (congrFun h2 i) j
  simp only [Matrix.mul_apply, Fin.sum_univ_two, star_apply, RCLike.star_def] at e1 e2
  exact ⟨by simpa using e1 0 0, by simpa using e1 1 1, by simpa using e1 0 1, by simpa using e1 1 0,
    by simpa using e2 0 0, by simpa using e2 1 1, by simpa using e2 0 1, by simpa using e2 1 0⟩

theorem scalarBlocks_unitary {a b c d : ℂ} (h0 : a * conj a + b * conj b = 1)
    (h1 : c * conj c + d * conj d = 1) (h2 : a * conj c + b * conj d = 0) :
    scalarBlocks a b c d ∈ unitaryGroup (Fin 3 ⊕ Fin 3) ℂ := by
  rw [mem_unitaryGroup_iff, star_eq_conjTranspose, scalarBlocks, fromBlocks_conjTranspose,
    fromBlocks_multiply, ← fromBlocks_one]
  have h3 : c * conj a + d * conj b = 0 := by
    have := congrArg conj h2
    simp only [map_add, map_mul, Complex.conj_conj, map_zero] at this
    linear_combination this
  congr 1 <;>
    simp only [conjTranspose_smul, conjTranspose_one, Matrix.smul_mul, Matrix.mul_smul, Matrix.one_mul,
      smul_smul, ← add_smul, RCLike.star_def]
  · rw [mul_comm _ a, mul_comm _ b, h0, one_smul]
  · rw [mul_comm _ a, mul_comm _ b, h2, zero_smul]
  · rw [mul_comm _ c, mul_comm _ d, h3, zero_smul]
  · rw [mul_comm _ c, mul_comm _ d, h1, one_smul]

/-- The leptons. -/
theorem lepton_invariant (ye : Fin 3 → ℝ) (U : Matrix (Fin 2) (Fin 2) ℂ)
    (hU : U ∈ unitaryGroup (Fin 2) ℂ) (Φ : Fin 2 → ℂ) :
    ((chiral (leptonBlock ye (U *ᵥ Φ))).map conj * chiral (leptonBlock ye (U *ᵥ Φ))).charpoly =
      ((chiral (leptonBlock ye Φ)).map conj * chiral (leptonBlock ye Φ)).charpoly := by
  have u := unitary2 hU
  have hQ : scalarBlocks (U 1 1) (U 0 1) (U 1 0) (U 0 0) ∈ unitaryGroup (Fin 3 ⊕ Fin 3) ℂ :=
    scalarBlocks_unitary (by linear_combination u.c1) (by linear_combination u.c0)
      (by linear_combination u.c01)
  have e : leptonBlock ye (U *ᵥ Φ) =
      (1 : Matrix (Fin 3) (Fin 3) ℂ) * leptonBlock ye Φ * scalarBlocks (U 1 1) (U 0 1) (U 1 0) (U 0 0) := by
    rw [Matrix.one_mul]
    ext i j
    have p : ∀ (i k : Fin 3) (x y : ℂ), ∑ l : Fin 3, (if l = i then x else 0) *
        (y * if l = k then 1 else 0) = if k = i then x * y else 0 := by
      intro i k x y
      rw [Finset.sum_eq_single i]
      · by_cases h : k = i
        · simp [h]
        · simp [h, Ne.symm h]
      · intro l _ h; simp [h]
      · simp
    rcases j with j | j
    · simp only [Matrix.mul_apply, Fintype.sum_sum_type, leptonBlock, scalarBlocks, Sum.elim_inl,
        Sum.elim_inr, fromBlocks_apply₁₁, fromBlocks_apply₂₁, Matrix.smul_apply, one_apply, smul_eq_mul, p,
        mulVec, dotProduct, Fin.sum_univ_two]
      split_ifs <;> ring
    · simp only [Matrix.mul_apply, Fintype.sum_sum_type, leptonBlock, scalarBlocks, Sum.elim_inl,
        Sum.elim_inr, fromBlocks_apply₁₂, fromBlocks_apply₂₂, Matrix.smul_apply, one_apply, smul_eq_mul, p,
        mulVec, dotProduct, Fin.sum_univ_two]
      split_ifs <;> ring
  rw [e]
  exact chiral_charpoly _ _ _ (one_mem _) hQ

/-- The block of the quarks without mixing. -/
theorem quarkBlock_eq (V : Matrix (Fin 3) (Fin 3) ℂ) (hV : V ∈ unitaryGroup (Fin 3) ℂ)
    (yu yd : Fin 3 → ℝ) (Φu Φd : Fin 2 → ℂ) :
    quarkBlock V yu yd Φu Φd =
      fromBlocks (diagonal fun i => (yu i : ℂ)) 0 0 ((diagonal fun i => (yd i : ℂ)) * Vᵀ) *
        scalarBlocks (conj (Φu 1)) (-conj (Φu 0)) (Φd 0) (Φd 1) *
        fromBlocks 1 0 0 (V.map conj) := by
  have hv : Vᵀ * V.map conj = 1 := by
    have h := mem_unitaryGroup_iff'.1 hV
    rw [star_eq_conjTranspose] at h
    have h2 := congrArg Matrix.transpose h
    rw [transpose_mul, transpose_one] at h2
    rw [← h2]
    rfl
  rw [scalarBlocks, fromBlocks_multiply, fromBlocks_multiply, quarkBlock]
  congr 1
  · ext i j
    by_cases h : i = j
    · simp [h, mul_comm]
    · simp [h]
  · ext i j
    simp [Matrix.mul_apply, diagonal_apply, one_apply]
    ring
  · ext i j
    simp [Matrix.mul_apply, diagonal_apply, one_apply]
    ring
  · have e : (0 * -conj (Φu 0) • (1 : Matrix (Fin 3) (Fin 3) ℂ) +
        (diagonal fun i => (yd i : ℂ)) * Vᵀ * Φd 1 • (1 : Matrix (Fin 3) (Fin 3) ℂ)) * V.map conj =
        Φd 1 • (diagonal fun i => (yd i : ℂ)) := by
      rw [Matrix.zero_mul, zero_add, Matrix.mul_smul, Matrix.mul_one, Matrix.smul_mul, Matrix.mul_assoc,
        hv, Matrix.mul_one]
    simp only [Matrix.mul_zero, zero_add, e]
    ext i j
    by_cases h : i = j
    · subst h; simp [mul_comm]
    · simp [h]

/-- The quarks. -/
theorem quark_invariant (V : Matrix (Fin 3) (Fin 3) ℂ) (hV : V ∈ unitaryGroup (Fin 3) ℂ)
    (yu yd : Fin 3 → ℝ) (U : Matrix (Fin 2) (Fin 2) ℂ) (hU : U ∈ unitaryGroup (Fin 2) ℂ)
    (Φu Φd : Fin 2 → ℂ) :
    ((chiral (quarkBlock V yu yd (U *ᵥ Φu) (U *ᵥ Φd))).map conj *
        chiral (quarkBlock V yu yd (U *ᵥ Φu) (U *ᵥ Φd))).charpoly =
      ((chiral (quarkBlock V yu yd Φu Φd)).map conj * chiral (quarkBlock V yu yd Φu Φd)).charpoly := by
  have u := unitary2 hU
  set d : ℂ := conj (U 0 0 * U 1 1 - U 0 1 * U 1 0) with hd
  have d00 : conj (U 0 0) = d * U 1 1 := by
    simp only [hd, map_sub, map_mul]
    linear_combination -conj (U 0 0) * u.r1 + conj (U 1 0) * u.r10
  have d11 : conj (U 1 1) = d * U 0 0 := by
    simp only [hd, map_sub, map_mul]
    linear_combination -conj (U 1 1) * u.r0 + conj (U 0 1) * u.r01
  have d01 : conj (U 0 1) = -d * U 1 0 := by
    simp only [hd, map_sub, map_mul]
    linear_combination -conj (U 0 1) * u.r1 + conj (U 1 1) * u.r10
  have d10 : conj (U 1 0) = -d * U 0 1 := by
    simp only [hd, map_sub, map_mul]
    linear_combination -conj (U 1 0) * u.r0 + conj (U 0 0) * u.r01
  have dd : d * conj d = 1 := by
    simp only [hd, Complex.conj_conj]
    rw [← hd]
    linear_combination u.r0 + U 0 0 * -d00 + U 0 1 * -d01
  have hP : scalarBlocks d 0 0 1 ∈ unitaryGroup (Fin 3 ⊕ Fin 3) ℂ :=
    scalarBlocks_unitary (by simpa using dd) (by simp) (by simp)
  have hQ : scalarBlocks (U 0 0) (U 1 0) (U 0 1) (U 1 1) ∈ unitaryGroup (Fin 3 ⊕ Fin 3) ℂ :=
    scalarBlocks_unitary (by linear_combination u.c0) (by linear_combination u.c1)
      (by linear_combination u.c10)
  have hE : fromBlocks 1 0 0 (V.map conj) ∈ unitaryGroup (Fin 3 ⊕ Fin 3) ℂ := by
    have h := mem_unitaryGroup_iff'.1 hV
    rw [star_eq_conjTranspose] at h
    rw [mem_unitaryGroup_iff, star_eq_conjTranspose, fromBlocks_conjTranspose, fromBlocks_multiply,
      ← fromBlocks_one]
    have hv : V.map conj * (V.map conj)ᴴ = 1 := by
      have h := mem_unitaryGroup_iff.1 hV
      rw [star_eq_conjTranspose] at h
      have h2 := congrArg (fun M : Matrix (Fin 3) (Fin 3) ℂ => M.map conj) h
      rw [Matrix.map_mul] at h2
      have e1 : (1 : Matrix (Fin 3) (Fin 3) ℂ).map conj = 1 := by simp
      rw [e1] at h2
      rw [← h2]
      congr 1
    congr 1 <;> simp [hv]
  have hEE : fromBlocks 1 0 0 (V.map conj) * star (fromBlocks 1 0 0 (V.map conj)) =
      (1 : Matrix (Fin 3 ⊕ Fin 3) (Fin 3 ⊕ Fin 3) ℂ) := mem_unitaryGroup_iff.1 hE
  have hK : scalarBlocks (conj ((U *ᵥ Φu) 1)) (-conj ((U *ᵥ Φu) 0)) ((U *ᵥ Φd) 0) ((U *ᵥ Φd) 1) =
      scalarBlocks d 0 0 1 * scalarBlocks (conj (Φu 1)) (-conj (Φu 0)) (Φd 0) (Φd 1) *
        scalarBlocks (U 0 0) (U 1 0) (U 0 1) (U 1 1) := by
    rw [scalarBlocks_mul, scalarBlocks_mul]
    simp only [mulVec, dotProduct, Fin.sum_univ_two, map_add, map_mul, d00, d01, d10, d11]
    congr 1 <;> ring
  have hB : ∀ B1 B2 : Matrix (Fin 3) (Fin 3) ℂ, fromBlocks B1 0 0 B2 * scalarBlocks d 0 0 1 =
      scalarBlocks d 0 0 1 * fromBlocks B1 0 0 B2 := by
    intro B1 B2
    simp [scalarBlocks, fromBlocks_multiply]
  have e : quarkBlock V yu yd (U *ᵥ Φu) (U *ᵥ Φd) =
      scalarBlocks d 0 0 1 * quarkBlock V yu yd Φu Φd *
        (star (fromBlocks 1 0 0 (V.map conj)) * scalarBlocks (U 0 0) (U 1 0) (U 0 1) (U 1 1) *
          fromBlocks 1 0 0 (V.map conj)) := by
    rw [quarkBlock_eq V hV, quarkBlock_eq V hV, hK]
    generalize (fromBlocks 1 0 0 (V.map conj) : Matrix (Fin 3 ⊕ Fin 3) (Fin 3 ⊕ Fin 3) ℂ) = E at hEE ⊢
    have c1 : ∀ X Y : Matrix (Fin 3 ⊕ Fin 3) (Fin 3 ⊕ Fin 3) ℂ,
        X * E * (star E * Y) = X * Y := by
      intro X Y
      rw [Matrix.mul_assoc, ← Matrix.mul_assoc E, hEE, Matrix.one_mul]
    rw [← Matrix.mul_assoc, ← Matrix.mul_assoc, hB, Matrix.mul_assoc (star E)]
    simp only [← Matrix.mul_assoc (scalarBlocks d 0 0 1)]
    rw [c1]
    simp only [Matrix.mul_assoc]
  rw [e]
  exact chiral_charpoly _ _ _ hP (mul_mem (mul_mem (Unitary.star_mem hE) hQ) hE)

end Verif.Invariance
