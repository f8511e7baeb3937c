import Verif.Debye.Lemmas
import Verif.Yukawa.Masses

/-!
# The contributions to the thermal masses
-/

namespace Verif.Debye

open Verif.Potential Verif.Potential.Spec Verif.Lagrangian Verif.Spectrum Verif.Yukawa Matrix
open scoped BigOperators ComplexConjugate

variable {n : Nat}

/-! ### The contributions as quadratic forms -/

theorem gauge_trace (G : List Nat → ℝ) (D : Matrix (Fin 4) (Fin 4) ℝ) (φ : Fin n → ℝ) :
    ∑ i : Fin n, ∑ j : Fin n, (∑ k : Fin 4, G [(k : Nat), (k : Nat), (i : Nat), (j : Nat)]) *
      (φ i * φ j) = 2 * (gaugeMatrix G D 0 φ).trace := by
  have e : ∀ k, gaugeMatrix G D 0 φ k k = ∑ i : Fin n, ∑ j : Fin n,
      1 / 2 * G [(k : Nat), (k : Nat), (i : Nat), (j : Nat)] * φ i * φ j := by
    intro k
    simp [gaugeMatrix, gaugeEntry]
  rw [Matrix.trace, Finset.mul_sum]
  simp only [Matrix.diag_apply, e, Finset.mul_sum, Finset.sum_mul]
  rw [Finset.sum_congr rfl fun i _ => Finset.sum_comm, Finset.sum_comm]
  exact Finset.sum_congr rfl fun k _ => Finset.sum_congr rfl fun i _ =>
    Finset.sum_congr rfl fun j _ => by ring

theorem fermion_trace {m : Nat} (F : List Nat → ℂ) (hs : ∀ a b k : Nat, F [a, b, k] = F [b, a, k])
    (φ : Fin n → ℝ) :
    ∑ i : Fin n, ∑ j : Fin n, (∑ a : Fin m, ∑ b : Fin m,
      (conj (F [(a : Nat), (b : Nat), (j : Nat)]) * F [(a : Nat), (b : Nat), (i : Nat)] +
        conj (F [(a : Nat), (b : Nat), (i : Nat)]) * F [(a : Nat), (b : Nat), (j : Nat)]).re) *
      (φ i * φ j) = 2 * (squaredMatrix zeroTensor F φ : Matrix (Fin m) (Fin m) ℂ).trace.re := by
  have e1 : ∀ a b : Fin m, (conj (∑ i : Fin n, F [(a : Nat), (b : Nat), (i : Nat)] * φ i) *
      ∑ i : Fin n, F [(b : Nat), (a : Nat), (i : Nat)] * φ i).re = 1 / 2 * ∑ i : Fin n, ∑ j : Fin n,
      (conj (F [(a : Nat), (b : Nat), (j : Nat)]) * F [(a : Nat), (b : Nat), (i : Nat)] +
        conj (F [(a : Nat), (b : Nat), (i : Nat)]) * F [(a : Nat), (b : Nat), (j : Nat)]).re *
      (φ i * φ j) := by
    intro a b
    simp only [hs b a]
    rw [map_sum, Finset.sum_mul_sum, Complex.re_sum]
    simp only [Complex.re_sum]
    have h1 : ∀ x y : Fin n → Fin n → ℝ, (∀ i j, x i j + x j i = y i j) →
        ∑ i, ∑ j, x i j = 1 / 2 * ∑ i, ∑ j, y i j := by
      intro x y hxy
      have : ∑ i, ∑ j, x j i = ∑ i, ∑ j, x i j := Finset.sum_comm
      have h2 : ∑ i, ∑ j, y i j = ∑ i, ∑ j, x i j + ∑ i, ∑ j, x j i := by
        simp only [← Finset.sum_add_distrib, hxy]
      rw [h2, this]
      ring
    apply h1
    intro i j
    simp
    ring
  rw [Matrix.trace, Complex.re_sum, Finset.mul_sum]
  simp only [Matrix.diag_apply, squaredMatrix, Matrix.mul_apply, Matrix.map_apply, massMatrix,
    zeroTensor, zero_add, Complex.re_sum, e1]
  simp only [Finset.sum_mul, Finset.mul_sum]
  rw [Finset.sum_congr rfl fun i _ => Finset.sum_comm, Finset.sum_comm]
  refine Finset.sum_congr rfl fun a _ => ?_
  rw [Finset.sum_congr rfl fun i _ => Finset.sum_comm, Finset.sum_comm]
  exact Finset.sum_congr rfl fun b _ => Finset.sum_congr rfl fun i _ =>
    Finset.sum_congr rfl fun j _ => by ring

/-- The quadratic form of the thermal masses. -/
theorem raw_form (nQ nL : Nat) (c : Curv n ℝ) (G : List Nat → ℝ) (D : Matrix (Fin 4) (Fin 4) ℝ)
    (Q L : List Nat → ℂ)
    (hQ : ∀ a b k : Nat, Q [a, b, k] = Q [b, a, k]) (hL : ∀ a b k : Nat, L [a, b, k] = L [b, a, k])
    (φ : Fin n → ℝ) :
    ∑ i, ∑ j, higgsRaw 4 nQ nL c G Q L i j * (φ i * φ j) =
      1 / 24 * (∑ i, ∑ j, (∑ k, c.L4 i j k k) * (φ i * φ j)) +
        1 / 4 * (gaugeMatrix G D 0 φ).trace +
        1 / 4 * (squaredMatrix zeroTensor Q φ : Matrix (Fin nQ) (Fin nQ) ℂ).trace.re +
        1 / 12 * (squaredMatrix zeroTensor L φ : Matrix (Fin nL) (Fin nL) ℂ).trace.re := by
  have hg := gauge_trace G D φ
  have hq := fermion_trace (m := nQ) Q hQ φ
  have hl := fermion_trace (m := nL) L hL φ
  have e : ∀ i j, higgsRaw 4 nQ nL c G Q L i j * (φ i * φ j) =
      1 / 24 * ((∑ k, c.L4 i j k k) * (φ i * φ j)) +
      1 / 8 * ((∑ k : Fin 4, G [(k : Nat), (k : Nat), (i : Nat), (j : Nat)]) * (φ i * φ j)) +
      1 / 8 * ((∑ a : Fin nQ, ∑ b : Fin nQ,
      (conj (Q [(a : Nat), (b : Nat), (j : Nat)]) * Q [(a : Nat), (b : Nat), (i : Nat)] +
        conj (Q [(a : Nat), (b : Nat), (i : Nat)]) * Q [(a : Nat), (b : Nat), (j : Nat)]).re) *
      (φ i * φ j)) +
      1 / 24 * ((∑ a : Fin nL, ∑ b : Fin nL,
      (conj (L [(a : Nat), (b : Nat), (j : Nat)]) * L [(a : Nat), (b : Nat), (i : Nat)] +
        conj (L [(a : Nat), (b : Nat), (i : Nat)]) * L [(a : Nat), (b : Nat), (j : Nat)]).re) *
      (φ i * φ j)) := by
    intro i j
    have a1 : ∀ (m : Nat) (y : Fin m → Fin m → ℝ) (x : ℝ),
        ∑ a, ∑ b, x * (1 / 2 * y a b) = x / 2 * ∑ a, ∑ b, y a b := by
      intro m y x
      simp only [Finset.mul_sum]
      exact Finset.sum_congr rfl fun a _ => Finset.sum_congr rfl fun b _ => by ring
    have a2 : ∑ k, 1 / 2 * c.L4 i j k k / 12 = 1 / 24 * ∑ k, c.L4 i j k k := by
      rw [Finset.mul_sum]
      exact Finset.sum_congr rfl fun k _ => by ring
    have a3 : ∑ k : Fin 4, 3 * (1 / 2) * G [(k : Nat), (k : Nat), (i : Nat), (j : Nat)] / 12 =
        1 / 8 * ∑ k : Fin 4, G [(k : Nat), (k : Nat), (i : Nat), (j : Nat)] := by
      rw [Finset.mul_sum]
      exact Finset.sum_congr rfl fun k _ => by ring
    unfold higgsRaw
    rw [a1, a1, a2, a3]
    ring
  simp only [e, Finset.sum_add_distrib]
  simp only [← Finset.mul_sum]
  rw [hg, hq, hl]
  ring

theorem raw_symm (nQ nL : Nat) (c : Curv n ℝ) (hc : Symmetric c) (G : List Nat → ℝ)
    (hG : ∀ (a : Fin 4) (i j : Fin n), G [(a : Nat), (a : Nat), (i : Nat), (j : Nat)] =
      G [(a : Nat), (a : Nat), (j : Nat), (i : Nat)]) (Q L : List Nat → ℂ) (i j : Fin n) :
    higgsRaw 4 nQ nL c G Q L i j = higgsRaw 4 nQ nL c G Q L j i := by
  unfold higgsRaw
  simp only [hc.s4a i j, hG _ i j]
  congr 1
  · congr 1
    exact Finset.sum_congr rfl fun a _ => Finset.sum_congr rfl fun b _ => by rw [add_comm]
  · exact Finset.sum_congr rfl fun a _ => Finset.sum_congr rfl fun b _ => by rw [add_comm]

/-! ### The traces in closed form -/

theorem pauliGauge_trace (g gs N s0 s1 s2 : ℝ) :
    (pauliGauge g gs N s0 s1 s2).trace = (3 * g ^ 2 + gs ^ 2) * N / 4 := by
  simp [Matrix.trace, Fin.sum_univ_four, pauliGauge]
  ring

theorem chiral_trace {ι κ : Type} [Fintype ι] [Fintype κ] [DecidableEq ι] [DecidableEq κ]
    (A : Matrix ι κ ℂ) : ((chiral A).map conj * chiral A).trace.re =
      2 * ∑ i, ∑ j, Complex.normSq (A i j) := by
  have h0 : ∀ (X : Matrix ι ι ℂ) (Y : Matrix κ κ ℂ), (fromBlocks X 0 0 Y).trace =
      X.trace + Y.trace := by
    intro X Y
    simp [Matrix.trace, Fintype.sum_sum_type]
  rw [chiral_squared, h0]
  have h1 : (A.map conj * Aᵀ).trace.re = ∑ i, ∑ j, Complex.normSq (A i j) := by
    rw [Matrix.trace, Complex.re_sum]
    refine Finset.sum_congr rfl fun i _ => ?_
    rw [Matrix.diag_apply, Matrix.mul_apply, Complex.re_sum]
    refine Finset.sum_congr rfl fun j _ => ?_
    simp [Complex.normSq_apply]
  have h2 : (Aᴴ * A).trace.re = ∑ i, ∑ j, Complex.normSq (A i j) := by
    rw [Matrix.trace, Complex.re_sum, Finset.sum_comm]
    refine Finset.sum_congr rfl fun i _ => ?_
    rw [Matrix.diag_apply, Matrix.mul_apply, Complex.re_sum]
    refine Finset.sum_congr rfl fun j _ => ?_
    simp [Complex.normSq_apply]
  rw [Complex.add_re, h1, h2]
  ring

/-- `|Φ|²`. -/
noncomputable def size (Φ : Fin 2 → ℂ) : ℝ := Complex.normSq (Φ 0) + Complex.normSq (Φ 1)

theorem size_doublet (a b c d : ℝ) :
    size (Lagrangian.Spec.doublet a b c d) = (a ^ 2 + b ^ 2 + c ^ 2 + d ^ 2) / 2 := by
  have h2 : √(2 : ℝ) * √2 = 2 := Real.mul_self_sqrt (by norm_num)
  have hs : Complex.normSq ((√2 : ℝ) : ℂ) = 2 := by rw [Complex.normSq_ofReal, h2]
  have e : ∀ x y : ℝ, Complex.normSq (x + y * Complex.I) = x ^ 2 + y ^ 2 := fun x y => by
    rw [Complex.normSq_add_mul_I]
  simp only [size, Lagrangian.Spec.doublet, Matrix.cons_val_zero, Matrix.cons_val_one,
    Complex.normSq_div]
  rw [hs, e, e]
  ring

theorem quark_trace (V : Matrix (Fin 3) (Fin 3) ℂ) (hV : V ∈ unitaryGroup (Fin 3) ℂ)
    (yu yd : Fin 3 → ℝ) (Φu Φd : Fin 2 → ℂ) :
    ((chiral (quarkBlock V yu yd Φu Φd)).map conj *
        chiral (quarkBlock V yu yd Φu Φd)).trace.re =
      2 * ((∑ i, yu i ^ 2) * size Φu + (∑ i, yd i ^ 2) * size Φd) := by
  have r : ∀ i, ∑ j, Complex.normSq (V i j) = 1 := by
    intro i
    have h := congrFun (congrFun (mem_unitaryGroup_iff.1 hV) i) i
    rw [Matrix.mul_apply, one_apply_eq] at h
    have h' := congrArg Complex.re h
    rw [Complex.re_sum] at h'
    rw [← Complex.one_re, ← h']
    refine Finset.sum_congr rfl fun j _ => ?_
    simp [Complex.normSq_apply, star_apply]
  have l : ∀ i, ∑ j, Complex.normSq (V j i) = 1 := by
    intro i
    have h := congrFun (congrFun (mem_unitaryGroup_iff'.1 hV) i) i
    rw [Matrix.mul_apply, one_apply_eq] at h
    have h' := congrArg Complex.re h
    rw [Complex.re_sum] at h'
    rw [← Complex.one_re, ← h']
    refine Finset.sum_congr rfl fun j _ => ?_
    simp [Complex.normSq_apply, star_apply]
  rw [chiral_trace, Fintype.sum_sum_type]
  simp only [Fintype.sum_sum_type, quarkBlock, fromBlocks_apply₁₁, fromBlocks_apply₁₂,
    fromBlocks_apply₂₁, fromBlocks_apply₂₂, of_apply, diagonal_apply]
  have d : ∀ (i : Fin 3) (x : ℂ), ∑ j, Complex.normSq (if i = j then x else 0) =
      Complex.normSq x := by
    intro i x
    rw [Finset.sum_eq_single i] <;> simp +contextual [eq_comm]
  simp only [d, Complex.normSq_neg, Complex.normSq_mul, Complex.normSq_conj, Complex.normSq_ofReal]
  have e1 : ∀ i, ∑ j, yu i * yu i * Complex.normSq (V i j) * Complex.normSq (Φu 0) =
      yu i ^ 2 * Complex.normSq (Φu 0) := by
    intro i
    rw [← Finset.sum_mul, ← Finset.mul_sum, r]
    ring
  have e2 : ∀ i, ∑ j, yd i * yd i * Complex.normSq (V j i) * Complex.normSq (Φd 0) =
      yd i ^ 2 * Complex.normSq (Φd 0) := by
    intro i
    rw [← Finset.sum_mul, ← Finset.mul_sum, l]
    ring
  simp only [e1, e2, size, Finset.sum_add_distrib, Fin.sum_univ_three]
  ring

theorem lepton_trace (ye : Fin 3 → ℝ) (Φl : Fin 2 → ℂ) :
    ((chiral (leptonBlock ye Φl)).map conj * chiral (leptonBlock ye Φl)).trace.re =
      2 * ((∑ i, ye i ^ 2) * size Φl) := by
  rw [chiral_trace]
  have d : ∀ (i : Fin 3) (x : ℂ), ∑ j, Complex.normSq (if j = i then x else 0) =
      Complex.normSq x := by
    intro i x
    rw [Finset.sum_eq_single i] <;> simp +contextual
  simp only [Fintype.sum_sum_type, leptonBlock, Sum.elim_inl, Sum.elim_inr, d, Complex.normSq_mul,
    Complex.normSq_ofReal, size, Fin.sum_univ_three]
  ring

end Verif.Debye
