import Verif.Spectrum.Gauge
import Verif.Invariance.Rotation

/-!
# The masses of the gauge bosons do not change under rotations of the doublets
-/

namespace Verif.Invariance

open Verif.Spectrum Verif.Lagrangian.Spec Matrix Polynomial
open scoped BigOperators

variable {n : Nat}

/-- A matrix with equal entries on the diagonal apart from the last row and column. -/
theorem arrow_charpoly (p q x y z : ℝ) :
    (!![p, 0, 0, x; 0, p, 0, y; 0, 0, p, z; x, y, z, q] : Matrix (Fin 4) (Fin 4) ℝ).charpoly =
      (X - C p) ^ 2 * ((X - C p) * (X - C q) - C (x ^ 2 + y ^ 2 + z ^ 2)) := by
  unfold Matrix.charpoly
  rw [Matrix.det_succ_row_zero]
  simp only [Fin.sum_univ_four, Matrix.det_fin_three, Matrix.submatrix_apply, charmatrix_apply,
    of_apply, cons_val', cons_val_zero, cons_val_one, cons_val, Fin.succ_zero_eq_one,
    Fin.succ_one_eq_two]
  simp [Fin.succAbove]
  ring

/-- The thermal masses are added. -/
theorem gaugeMatrix_thermal (G : List Nat → ℝ) (d : Fin 4 → ℝ) (T : ℝ) (v : Fin n → ℝ) :
    gaugeMatrix G (diagonal d) T v = gaugeMatrix G (diagonal d) 0 v + diagonal fun a => d a * T ^ 2 := by
  have e : ∀ a b, gaugeEntry G (diagonal d) T v a b =
      gaugeEntry G (diagonal d) 0 v a b + diagonal (fun a => d a * T ^ 2) a b := by
    intro a b
    unfold gaugeEntry
    by_cases hT : T = 0
    · by_cases hab : a = b
      · subst hab; simp [hT]
      · simp [hT, hab]
    · by_cases hab : a = b
      · subst hab; simp [hT]
      · simp [hab]
  ext a b
  rw [Matrix.add_apply]
  unfold gaugeMatrix
  split_ifs with h
  · rw [e, diagonal_apply_ne' _ (ne_of_gt h), diagonal_apply_ne _ (ne_of_gt h)]
  · rw [e]

/-- The masses depend only on the size of the doublets and on the length of `s`. -/
theorem gauge_charpoly (g gs : ℝ) (G : List Nat → ℝ) (x y T : ℝ) (v v' : Fin n → ℝ)
    {N s0 s1 s2 s0' s1' s2' : ℝ}
    (h : gaugeMatrix G (diagonal ![x, x, x, y]) 0 v = pauliGauge g gs N s0 s1 s2)
    (h' : gaugeMatrix G (diagonal ![x, x, x, y]) 0 v' = pauliGauge g gs N s0' s1' s2')
    (hs : s0 ^ 2 + s1 ^ 2 + s2 ^ 2 = s0' ^ 2 + s1' ^ 2 + s2' ^ 2) :
    (gaugeMatrix G (diagonal ![x, x, x, y]) T v).charpoly =
      (gaugeMatrix G (diagonal ![x, x, x, y]) T v').charpoly := by
  have e : ∀ s0 s1 s2 : ℝ, pauliGauge g gs N s0 s1 s2 + diagonal (fun a => ![x, x, x, y] a * T ^ 2) =
      !![g ^ 2 * N / 4 + x * T ^ 2, 0, 0, g * gs * s0 / 4; 0, g ^ 2 * N / 4 + x * T ^ 2, 0, g * gs * s1 / 4;
        0, 0, g ^ 2 * N / 4 + x * T ^ 2, g * gs * s2 / 4;
        g * gs * s0 / 4, g * gs * s1 / 4, g * gs * s2 / 4, gs ^ 2 * N / 4 + y * T ^ 2] := by
    intro s0 s1 s2
    ext i j
    fin_cases i <;> fin_cases j <;> simp [pauliGauge]
  have hs' : (g * gs * s0 / 4) ^ 2 + (g * gs * s1 / 4) ^ 2 + (g * gs * s2 / 4) ^ 2 =
      (g * gs * s0' / 4) ^ 2 + (g * gs * s1' / 4) ^ 2 + (g * gs * s2' / 4) ^ 2 := by
    linear_combination g ^ 2 * gs ^ 2 / 16 * hs
  rw [gaugeMatrix_thermal, gaugeMatrix_thermal G _ T v', h, h', e, e, arrow_charpoly, arrow_charpoly, hs']

section

variable (g gs : ℝ) (G : List Nat → ℝ) (x y T : ℝ) (v v' : Fin n → ℝ)
  (hs : ∀ (a b : Fin 4) (i j : Fin n), G [(a : Nat), (b : Nat), (i : Nat), (j : Nat)] =
      G [(b : Nat), (a : Nat), (i : Nat), (j : Nat)])
include hs

/-- One doublet. -/
theorem gauge_one {a : Fin 4} {θ p q r s : ℝ}
    (hf : ∀ W : Fin 4 → ℝ, ((1 / 4 * ∑ a : Fin 4, ∑ b : Fin 4, ∑ i : Fin n, ∑ j : Fin n,
        G [(a : Nat), (b : Nat), (i : Nat), (j : Nat)] * (W a * (W b * (v i * v j))) : ℝ) : ℂ) =
      dagger (covariant g gs W (doublet p q r s)) (covariant g gs W (doublet p q r s)))
    (hf' : ∀ W : Fin 4 → ℝ, ((1 / 4 * ∑ a : Fin 4, ∑ b : Fin 4, ∑ i : Fin n, ∑ j : Fin n,
        G [(a : Nat), (b : Nat), (i : Nat), (j : Nat)] * (W a * (W b * (v' i * v' j))) : ℝ) : ℂ) =
      dagger (covariant g gs W (gaugeRotation a θ (doublet p q r s)))
        (covariant g gs W (gaugeRotation a θ (doublet p q r s)))) :
    (gaugeMatrix G (diagonal ![x, x, x, y]) T v').charpoly =
      (gaugeMatrix G (diagonal ![x, x, x, y]) T v).charpoly := by
  simp only [← gaugeRotation_doublet] at hf'
  have h := gaugeMatrix_one g gs G (diagonal ![x, x, x, y]) v hs _ _ _ _ hf
  have h' := gaugeMatrix_one g gs G (diagonal ![x, x, x, y]) v' hs _ _ _ _ hf'
  rw [turn_square] at h'
  refine (gauge_charpoly g gs G x y T v v' h h' ?_).symm
  have e := turn_square a θ p q r s
  generalize turn a θ p q r s 0 = p' at *
  generalize turn a θ p q r s 1 = q' at *
  generalize turn a θ p q r s 2 = r' at *
  generalize turn a θ p q r s 3 = s' at *
  linear_combination -(p' ^ 2 + q' ^ 2 + r' ^ 2 + s' ^ 2 + (p ^ 2 + q ^ 2 + r ^ 2 + s ^ 2)) * e

/-- Two doublets. -/
theorem gauge_two {a : Fin 4} {θ p q r s p2 q2 r2 s2 : ℝ}
    (hf : ∀ W : Fin 4 → ℝ, ((1 / 4 * ∑ a : Fin 4, ∑ b : Fin 4, ∑ i : Fin n, ∑ j : Fin n,
        G [(a : Nat), (b : Nat), (i : Nat), (j : Nat)] * (W a * (W b * (v i * v j))) : ℝ) : ℂ) =
      dagger (covariant g gs W (doublet p q r s)) (covariant g gs W (doublet p q r s)) +
      dagger (covariant g gs W (doublet p2 q2 r2 s2)) (covariant g gs W (doublet p2 q2 r2 s2)))
    (hf' : ∀ W : Fin 4 → ℝ, ((1 / 4 * ∑ a : Fin 4, ∑ b : Fin 4, ∑ i : Fin n, ∑ j : Fin n,
        G [(a : Nat), (b : Nat), (i : Nat), (j : Nat)] * (W a * (W b * (v' i * v' j))) : ℝ) : ℂ) =
      dagger (covariant g gs W (gaugeRotation a θ (doublet p q r s)))
        (covariant g gs W (gaugeRotation a θ (doublet p q r s))) +
      dagger (covariant g gs W (gaugeRotation a θ (doublet p2 q2 r2 s2)))
        (covariant g gs W (gaugeRotation a θ (doublet p2 q2 r2 s2)))) :
    (gaugeMatrix G (diagonal ![x, x, x, y]) T v').charpoly =
      (gaugeMatrix G (diagonal ![x, x, x, y]) T v).charpoly := by
  simp only [← gaugeRotation_doublet] at hf'
  have h := gaugeMatrix_two g gs G (diagonal ![x, x, x, y]) v hs _ _ _ _ _ _ _ _ hf
  have h' := gaugeMatrix_two g gs G (diagonal ![x, x, x, y]) v' hs _ _ _ _ _ _ _ _ hf'
  rw [turn_square, turn_square] at h'
  refine (gauge_charpoly g gs G x y T v v' h h' ?_).symm
  have key : ∀ a b c d e f g h : ℝ,
      (2 * (a * c + b * d) + 2 * (e * g + f * h)) ^ 2 + (2 * (a * d - b * c) + 2 * (e * h - f * g)) ^ 2 +
        (a ^ 2 + b ^ 2 - c ^ 2 - d ^ 2 + (e ^ 2 + f ^ 2 - g ^ 2 - h ^ 2)) ^ 2 =
      (a ^ 2 + b ^ 2 + c ^ 2 + d ^ 2 - (e ^ 2 + f ^ 2 + g ^ 2 + h ^ 2)) ^ 2 +
        4 * ((a * e + b * f + c * g + d * h) ^ 2 + (a * f - b * e + c * h - d * g) ^ 2) := by
    intros; ring
  rw [key, key, turn_square, turn_square, turn_even, turn_odd]

end

end Verif.Invariance
