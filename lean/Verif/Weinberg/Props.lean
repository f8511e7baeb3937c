import Verif.Weinberg.Loop

/-!
# The derivatives of the Coleman-Weinberg potential are its true derivatives (C83)
-/

namespace Verif.Weinberg

open Matrix Verif.Potential Verif.Invariance
open scoped BigOperators
open Lagrangian.Spec (Expansion)
open Spec (Regular Apart Clean Lawful Uncut)

variable {n : Nat} {S : Solver} {X : Vectors} {T : Tensors n} {v : Fin n → ℝ}

/-! ### Small entries -/

theorem column_le {R : Matrix (Fin n) (Fin n) ℝ} (hR : Rᵀ * R = 1) (k : Fin n) :
    (∑ i, |R i k|) ^ 2 ≤ n := by
  have h := sq_sum_le_card_mul_sum_sq (s := (Finset.univ : Finset (Fin n))) (f := fun i => |R i k|)
  simp only [sq_abs, Finset.card_univ, Fintype.card_fin] at h
  refine h.trans_eq ?_
  have := orthogonal hR k k
  rw [if_pos rfl] at this
  rw [show ∑ i, R i k ^ 2 = ∑ i, R i k * R i k from Finset.sum_congr rfl fun i _ => by ring, this, mul_one]

theorem columns_le {R : Matrix (Fin n) (Fin n) ℝ} (hR : Rᵀ * R = 1) (k l : Fin n) :
    (∑ i, |R i k|) * ∑ j, |R j l| ≤ n := by
  have h1 := column_le hR k
  have h2 := column_le hR l
  have h3 := two_mul_le_add_sq (∑ i, |R i k|) (∑ j, |R j l|)
  linarith

/-- The result of `WeinbergSecondDerivative` differs from the matrix without cuts by little. -/
theorem second_near {R : Matrix (Fin n) (Fin n) ℝ} (hR : Rᵀ * R = 1) (T : Matrix (Fin n) (Fin n) ℝ)
    (k l : Fin n)
    (hsym : ∑ i, ∑ j, R i k * R j l * T i j = ∑ i, ∑ j, R i l * R j k * T i j) :
    |1 / 2 * (∑ j, (∑ i, R i k * (cutSmall (T i j) + cutSmall (T j i))) * R j l) -
      ∑ i, ∑ j, R i k * R j l * T i j| ≤ n / 10 ^ 10 := by
  have e : ∑ i, ∑ j, R i k * R j l * T i j =
      1 / 2 * ∑ j, (∑ i, R i k * (T i j + T j i)) * R j l := by
    have e1 : ∑ j, (∑ i, R i k * (T i j + T j i)) * R j l =
        (∑ i, ∑ j, R i k * R j l * T i j) + ∑ i, ∑ j, R i l * R j k * T i j := by
      rw [Finset.sum_comm (f := fun i j => R i k * R j l * T i j), ← Finset.sum_add_distrib]
      refine Finset.sum_congr rfl fun j _ => ?_
      rw [Finset.sum_mul, ← Finset.sum_add_distrib]
      exact Finset.sum_congr rfl fun i _ => by ring
    rw [e1, ← hsym]
    ring
  rw [e, ← mul_sub, ← Finset.sum_sub_distrib, abs_mul, abs_of_pos (by norm_num : (0 : ℝ) < 1 / 2)]
  have hb : ∀ j, |(∑ i, R i k * (cutSmall (T i j) + cutSmall (T j i))) * R j l -
      (∑ i, R i k * (T i j + T j i)) * R j l| ≤ (∑ i, |R i k|) * (2 / 10 ^ 10) * |R j l| := fun j => by
    rw [← sub_mul, ← Finset.sum_sub_distrib, abs_mul]
    refine mul_le_mul_of_nonneg_right ?_ (abs_nonneg _)
    rw [Finset.sum_mul]
    refine (Finset.abs_sum_le_sum_abs _ _).trans (Finset.sum_le_sum fun i _ => ?_)
    rw [← mul_sub, abs_mul]
    refine mul_le_mul_of_nonneg_left ?_ (abs_nonneg _)
    have h1 := cutSmall_near (T i j)
    have h2 := cutSmall_near (T j i)
    rw [show cutSmall (T i j) + cutSmall (T j i) - (T i j + T j i) =
      (cutSmall (T i j) - T i j) + (cutSmall (T j i) - T j i) by ring]
    refine (abs_add_le _ _).trans ?_
    linarith
  have hs := (Finset.abs_sum_le_sum_abs (fun j => (∑ i, R i k * (cutSmall (T i j) + cutSmall (T j i))) * R j l -
      (∑ i, R i k * (T i j + T j i)) * R j l) Finset.univ).trans (Finset.sum_le_sum fun j _ => hb j)
  rw [← Finset.mul_sum] at hs
  have hc := columns_le hR k l
  have : (∑ i, |R i k|) * (2 / 10 ^ 10) * ∑ j, |R j l| = ((∑ i, |R i k|) * ∑ j, |R j l|) * (2 / 10 ^ 10) := by
    ring
  rw [this] at hs
  have := mul_le_mul_of_nonneg_right hc (by norm_num : (0 : ℝ) ≤ 2 / 10 ^ 10)
  linarith

theorem second_exact {R : Matrix (Fin n) (Fin n) ℝ} (T : Matrix (Fin n) (Fin n) ℝ) (k l : Fin n)
    (hT : ∀ i j, cutSmall (T i j) = T i j)
    (hsym : ∑ i, ∑ j, R i k * R j l * T i j = ∑ i, ∑ j, R i l * R j k * T i j) :
    1 / 2 * (∑ j, (∑ i, R i k * (cutSmall (T i j) + cutSmall (T j i))) * R j l) =
      ∑ i, ∑ j, R i k * R j l * T i j := by
  simp only [hT]
  have e1 : ∑ j, (∑ i, R i k * (T i j + T j i)) * R j l =
      (∑ i, ∑ j, R i k * R j l * T i j) + ∑ i, ∑ j, R i l * R j k * T i j := by
    rw [Finset.sum_comm (f := fun i j => R i k * R j l * T i j), ← Finset.sum_add_distrib]
    refine Finset.sum_congr rfl fun j _ => ?_
    rw [Finset.sum_mul, ← Finset.sum_add_distrib]
    exact Finset.sum_congr rfl fun i _ => by ring
  rw [e1, ← hsym]
  ring

theorem gradient_unique {W : (Fin n → ℝ) → ℝ} {N N' : Fin n → ℝ} {H H' : Fin n → Fin n → ℝ}
    (h : Expansion W v N H) (h' : Expansion W v N' H') : N = N' := by
  obtain ⟨G, hG, _, _, hN, _⟩ := h
  obtain ⟨G', hG', _, _, hN', _⟩ := h'
  funext k
  rw [hN, hN', hG.self_of_nhds.unique hG'.self_of_nhds]

/-! ### The claims -/

/-- **First derivatives.**  The numbers that `WeinbergFirstDerivative` returns are the gradient of the
Coleman-Weinberg potential at the vacuum, apart from entries smaller than `10⁻¹⁰`, which are set to
zero.  No two masses have to be different, and the mass spectrum may be degenerate. -/
theorem C83_first (hS : S.Correct) (hX : X.Correct S) (hT : Lawful T) {t scale : ℝ} (ht : 0 < t)
    (hs : 0 < scale) (hm : Regular t T v) (hc : Clean X T v) :
    ∃ N H, Expansion (Spec.potential t scale T) v N H ∧
      weinbergFirst (some (physicalCouplings S X T v)) scale =
        .ok fun k => .fin (if |N k| < 1 / 10 ^ 10 then 0 else N k) := by
  obtain ⟨H, hE⟩ := gradient hS hX hT ht hs hm hc
  refine ⟨_, H, hE, ?_⟩
  unfold weinbergFirst
  simp only [if_neg (not_negative (X := X) hS hT ht hm)]
  rfl

/-- **Second derivatives.**  The numbers that `WeinbergSecondDerivative` returns are the second
derivatives of the Coleman-Weinberg potential at the vacuum up to the entries that are set to zero. -/
theorem C83_second (hS : S.Correct) (hX : X.Correct S) (hT : Lawful T) {t scale : ℝ} (ht : 0 < t)
    (hs : 0 < scale) (hm : Regular t T v) (hc : Clean X T v) (hd : Apart T v) :
    ∃ (N : Fin n → ℝ) (H R : Fin n → Fin n → ℝ), Expansion (Spec.potential t scale T) v N H ∧
      weinbergSecond (some (physicalCouplings S X T v)) scale = .ok (fun k l => .fin (R k l)) ∧
      ∀ k l, |R k l - H k l| ≤ (1 + n / (16 * Real.pi ^ 2)) / 10 ^ 10 := by
  have hE := hessian hS hX hT ht hs hm hc hd
  refine ⟨_, _, fun k l => cutSmall (secondRaw (physicalCouplings S X T v) scale k l), hE, ?_, fun k l => ?_⟩
  · unfold weinbergSecond
    simp only [if_neg (not_negative (X := X) hS hT ht hm)]
  · have pi0 : 0 < Real.pi := Real.pi_pos
    have hsym := hE.symm k l
    have hsym' := mul_right_cancel₀ (by positivity : (1 / (16 * Real.pi * Real.pi) : ℝ) ≠ 0) hsym
    have hn := second_near (higgsRot_orthogonal hX hT hc) (storage (physicalCouplings S X T v) scale) k l
      hsym'
    have h1 := cutSmall_near (secondRaw (physicalCouplings S X T v) scale k l)
    have h2 := mul_le_mul_of_nonneg_right hn (by positivity : (0 : ℝ) ≤ 1 / (16 * Real.pi * Real.pi))
    rw [← abs_of_pos (by positivity : (0 : ℝ) < 1 / (16 * Real.pi * Real.pi)), ← abs_mul, sub_mul,
      abs_of_pos (by positivity : (0 : ℝ) < 1 / (16 * Real.pi * Real.pi))] at h2
    have h3 := abs_add_le (cutSmall (secondRaw (physicalCouplings S X T v) scale k l) -
      secondRaw (physicalCouplings S X T v) scale k l) (secondRaw (physicalCouplings S X T v) scale k l -
      (∑ i, ∑ j, higgsRot X T.scalar v i k * higgsRot X T.scalar v j l *
      storage (physicalCouplings S X T v) scale i j) * (1 / (16 * Real.pi * Real.pi)))
    rw [sub_add_sub_cancel] at h3
    refine h3.trans ((add_le_add h1 h2).trans_eq ?_)
    field_simp

/-- If no entry of the matrix in the basis of the mass eigenstates and no entry of the result is set to
zero, then the results are exactly the first and second derivatives. -/
theorem C83_exact (hS : S.Correct) (hX : X.Correct S) (hT : Lawful T) {t scale : ℝ} (ht : 0 < t)
    (hs : 0 < scale) (hm : Regular t T v) (hc : Clean X T v) (hd : Apart T v)
    (hu : Uncut (physicalCouplings S X T v) scale) :
    ∃ N H, Expansion (Spec.potential t scale T) v N H ∧
      weinbergFirst (some (physicalCouplings S X T v)) scale = .ok (fun k => .fin (N k)) ∧
      weinbergSecond (some (physicalCouplings S X T v)) scale = .ok (fun k l => .fin (H k l)) ∧
      weinbergSecondVector (some (physicalCouplings S X T v)) scale =
        .ok ((List.finRange n).flatMap fun i => (List.finRange n).map fun j => .fin (H i j)) := by
  have hE := hessian hS hX hT ht hs hm hc hd
  have e2 : weinbergSecond (some (physicalCouplings S X T v)) scale = .ok (fun k l => .fin
      ((∑ i, ∑ j, higgsRot X T.scalar v i k * higgsRot X T.scalar v j l *
        storage (physicalCouplings S X T v) scale i j) * (1 / (16 * Real.pi * Real.pi)))) := by
    unfold weinbergSecond
    simp only [if_neg (not_negative (X := X) hS hT ht hm)]
    congr 1
    funext k l
    congr 1
    have pi0 : 0 < Real.pi := Real.pi_pos
    have hsym := mul_right_cancel₀ (by positivity : (1 / (16 * Real.pi * Real.pi) : ℝ) ≠ 0) (hE.symm k l)
    rw [cutSmall_eq (hu.second k l), secondRaw]
    have := second_exact (R := higgsRot X T.scalar v) (storage (physicalCouplings S X T v) scale) k l
      (fun i j => cutSmall_eq (hu.inner i j)) hsym
    rw [← this]
    rfl
  refine ⟨_, _, hE, ?_, e2, ?_⟩
  · unfold weinbergFirst
    simp only [if_neg (not_negative (X := X) hS hT ht hm)]
    congr 1
    funext k
    rw [cutSmall_eq (hu.first k)]
  · unfold weinbergSecondVector
    rw [e2]
    dsimp only
    congr 1
    refine congrArg (fun f => List.flatMap f _) ?_
    funext i
    refine List.map_congr_left fun j _ => ?_
    exact congrArg _ (hE.symm j i)

/-- **The potential of the program.**  At zero temperature `V1Loop` is the Coleman-Weinberg potential in
which particles with a squared mass below `10⁻⁴` are neglected. -/
theorem C83_loop (hS : S.Correct) (hT : Lawful T) (scale : ℝ) (JB JF : Thermal) (φ : Fin n → ℝ) :
    v1Loop (T.spectra S scale JB JF) φ 0 0 = Spec.potential (1 / 10 ^ 4) scale T φ :=
  v1Loop_eq hS T hT scale JB JF φ

/-- Therefore the derivatives are those of `V1Loop` if every particle is massless or has a squared mass
above `10⁻⁴`. -/
theorem C83_loop_derivatives (hS : S.Correct) (hX : X.Correct S) (hT : Lawful T) {scale : ℝ}
    (hs : 0 < scale) (hm : Regular (1 / 10 ^ 4) T v) (hc : Clean X T v) (hd : Apart T v)
    (JB JF : Thermal) :
    ∃ (N : Fin n → ℝ) (H R : Fin n → Fin n → ℝ), Expansion (fun φ => v1Loop (T.spectra S scale JB JF) φ 0 0) v N H ∧
      weinbergFirst (some (physicalCouplings S X T v)) scale =
        .ok (fun k => .fin (if |N k| < 1 / 10 ^ 10 then 0 else N k)) ∧
      weinbergSecond (some (physicalCouplings S X T v)) scale = .ok (fun k l => .fin (R k l)) ∧
      ∀ k l, |R k l - H k l| ≤ (1 + n / (16 * Real.pi ^ 2)) / 10 ^ 10 := by
  obtain ⟨N, H, R, hE, h2, hR⟩ := C83_second hS hX hT (by norm_num) hs hm hc hd
  obtain ⟨N', H', hE', h1⟩ := C83_first hS hX hT (by norm_num) hs hm hc
  have e : (fun φ => v1Loop (T.spectra S scale JB JF) φ 0 0) = Spec.potential (1 / 10 ^ 4) scale T :=
    funext fun φ => v1Loop_eq hS T hT scale JB JF φ
  have hN : N' = N := gradient_unique hE' hE
  refine ⟨N, H, R, by rw [e]; exact hE, hN ▸ h1, h2, hR⟩

/-- The derivatives are refused before the couplings have been calculated. -/
theorem C83_uncalculated (scale : ℝ) :
    weinbergFirst (n := n) none scale = .err .runtime ∧ weinbergSecond (n := n) none scale = .err .runtime ∧
      weinbergSecondVector (n := n) none scale = .err .runtime := ⟨rfl, rfl, rfl⟩

/-- **Negative squared masses.**  If the vacuum is a saddle point (a scalar has a squared mass of less than
`-10⁻⁵`), then every derivative is NaN, although the potential has derivatives there. -/
theorem C83_negative (scale : ℝ) (hS : S.Correct) (hT : Lawful T)
    (h : ∃ x ∈ (Spec.scalarMatrix T.scalar v).charpoly.roots, x ≤ -(1 / 10 ^ 5)) :
    weinbergFirst (some (physicalCouplings S X T v)) scale = .ok (fun _ => .nan) ∧
      weinbergSecond (some (physicalCouplings S X T v)) scale = .ok (fun _ _ => .nan) := by
  have hneg : (physicalCouplings S X T v).Negative := by
    obtain ⟨x, hx, hle⟩ := h
    rw [← massHiggs_eq, ← (hS.real _ (hermitian_scalar _ hT.scalar v)).2, Multiset.mem_coe] at hx
    obtain ⟨i, hi, rfl⟩ := List.getElem_of_mem hx
    have hlen : (S.real (massHiggs T.scalar v)).length = n := by
      have h2 := (hS.real _ (hermitian_scalar _ hT.scalar v)).2
      rw [(hermitian_scalar _ hT.scalar v).roots_charpoly_eq_eigenvalues] at h2
      have := congrArg Multiset.card h2
      simpa using this
    refine Or.inl ⟨⟨i, hlen ▸ hi⟩, ?_⟩
    have e : nth (S.real (massHiggs T.scalar v)) i = (S.real (massHiggs T.scalar v))[i] := by
      simp [nth, List.getD, hi]
    dsimp only [physicalCouplings]
    rw [e]
    have hlt : (S.real (massHiggs T.scalar v))[i] < 0 := lt_of_le_of_lt hle (by norm_num)
    rw [cutMass, if_neg]
    · exact hlt
    · rw [abs_of_neg hlt, not_lt]
      linarith
  constructor
  · simp only [weinbergFirst, if_pos hneg]
  · simp only [weinbergSecond, if_pos hneg]

end Verif.Weinberg
