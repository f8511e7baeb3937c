import Mathlib.RingTheory.Polynomial.Bernstein
import Mathlib.Topology.Algebra.Polynomial
import Mathlib.Analysis.Calculus.Deriv.Polynomial
import Mathlib.MeasureTheory.Integral.IntervalIntegral.FundThmCalculus
import Mathlib.Analysis.SpecialFunctions.Integrals.Basic
import Verif.Action.Bernstein

/-!
# C66: the Bernstein basis of the path deformation
-/

namespace Verif.Action

open scoped BigOperators
open Polynomial

theorem toInt32_of_lt {a : Int} (h0 : 0 ≤ a) (h : a < 2 ^ 31) : toInt32 a = a := by
  unfold toInt32
  rw [Int.emod_eq_of_lt (by omega) (by omega)]
  omega

/-- The loop of `nChoosek` as long as its products fit. -/
theorem choose_loop (n m : Nat) (hm : m + 1 ≤ n)
    (h : ∀ i, i ≤ m + 1 → n.choose i * i < 2 ^ 31) :
    (List.range' 2 m).foldl (chooseStep n) n = (n.choose (m + 1) : Int) := by
  induction m with
  | zero => simp
  | succ m ih =>
    rw [List.range'_1_concat, List.foldl_append, ih (by omega) (fun i hi => h i (by omega))]
    simp only [List.foldl_cons, List.foldl_nil, chooseStep]
    have key : (n.choose (m + 1) : Int) * ((n : Int) - ((2 + m : Nat) : Int) + 1)
        = (n.choose (m + 2) * (m + 2) : Nat) := by
      have := Nat.choose_succ_right_eq n (m + 1)
      have hs : ((n - (m + 1) : Nat) : Int) = (n : Int) - (m + 1) := by
        rw [Nat.cast_sub (by omega)]; push_cast; ring
      rw [show m + 2 = m + 1 + 1 from rfl, this]
      push_cast
      rw [hs]
      ring
    have hb := h (m + 2) le_rfl
    have hb' : ((n.choose (m + 2) * (m + 2) : Nat) : Int) < 2 ^ 31 :=
      lt_of_lt_of_eq (Int.ofNat_lt.2 hb) (by norm_num)
    rw [key, toInt32_of_lt (by positivity) hb']
    have hmod : ((n.choose (m + 2) * (m + 2) : Nat) : Int) % 2 ^ 64
        = (n.choose (m + 2) * (m + 2) : Nat) := by
      apply Int.emod_eq_of_lt (by positivity)
      omega
    rw [hmod]
    have hdiv : ((n.choose (m + 2) * (m + 2) : Nat) : Int) / ((2 + m : Nat) : Int)
        = n.choose (m + 2) := by
      rw [add_comm 2 m]
      push_cast
      rw [Int.mul_ediv_cancel _ (by omega)]
    rw [hdiv, toInt32_of_lt (by positivity)]
    have : n.choose (m + 2) ≤ n.choose (m + 2) * (m + 2) := Nat.le_mul_of_pos_right _ (by omega)
    exact lt_of_lt_of_eq (Int.ofNat_lt.2 (lt_of_le_of_lt this hb)) (by norm_num)

/-- `nChoosek` is the binomial coefficient as long as the products of its loop fit into an `int`. -/
theorem C66_nChoosek (n k : Nat)
    (h : ∀ i, 2 * i ≤ n → n.choose i * i < 2 ^ 31) : nChoosek n k = n.choose k := by
  rw [nChoosek.eq_def]
  by_cases h1 : k > n
  · rw [if_pos h1, Nat.choose_eq_zero_of_lt h1]; rfl
  rw [if_neg h1]
  by_cases h2 : k * 2 > n
  · simp only [if_pos h2]
    by_cases h3 : n - k = 0
    · have : n = k := by omega
      subst this; simp
    · rw [if_neg h3, choose_loop n (n - k - 1) (by omega) (fun i hi => h i (by omega)),
        show n - k - 1 + 1 = n - k by omega, Nat.choose_symm (by omega)]
  · simp only [if_neg h2]
    by_cases h3 : k = 0
    · subst h3; simp
    · rw [if_neg h3, choose_loop n (k - 1) (by omega) (fun i hi => h i (by omega)),
        show k - 1 + 1 = k by omega]

/-- This holds for all `n` up to 29; the program uses 8 to 10 and 20. -/
theorem C66_nChoosek_small (n k : Nat) (hn : n ≤ 29) : nChoosek n k = n.choose k := by
  apply C66_nChoosek
  intro i hi
  have h1 : n.choose i ≤ Nat.choose 29 i := Nat.choose_le_choose i hn
  have h2 : i ≤ 14 := by omega
  calc n.choose i * i ≤ Nat.choose 29 i * i := Nat.mul_le_mul_right _ h1
    _ < 2 ^ 31 := by interval_cases i <;> decide +kernel

/-- For 31 a product exceeds the range of an `unsigned`. -/
theorem C66_nChoosek_overflow : nChoosek 31 15 ≠ Nat.choose 31 15 := by decide +kernel

theorem bernstein_eq (n nu : Nat) (hn : n ≤ 29) (x : ℝ) :
    bernstein n nu x = (bernsteinPolynomial ℝ n nu).eval x := by
  unfold bernstein
  split_ifs with h
  · have : n < nu := by omega
    rw [bernsteinPolynomial.eq_zero_of_lt _ this]; simp
  · simp only [Int.toNat_natCast]
    rw [C66_nChoosek_small n nu hn]
    have e : ((n : Int) - nu).toNat = n - nu := by omega
    rw [e]
    simp [bernsteinPolynomial]

theorem bernstein_neg (n nu : Int) (h : nu < 0) (x : ℝ) : bernstein n nu x = 0 := by
  unfold bernstein; rw [if_pos (Or.inl h)]

/-- `Bernstein` is the Bernstein polynomial; indices outside give zero. -/
theorem C66_bernstein (n : Nat) (nu : Int) (hn : n ≤ 29) (x : ℝ) :
    (0 ≤ nu → nu ≤ n → bernstein n nu x
      = n.choose nu.toNat * x ^ nu.toNat * (1 - x) ^ (n - nu.toNat)) ∧
    (nu < 0 ∨ (n : Int) < nu → bernstein n nu x = 0) := by
  constructor
  · intro h0 h1
    unfold bernstein
    rw [if_neg (by omega)]
    simp only [Int.toNat_natCast]
    rw [C66_nChoosek_small n _ hn, show ((n : Int) - nu).toNat = n - nu.toNat by omega]
    push_cast
    rfl
  · intro h
    unfold bernstein
    rw [if_pos (by omega)]

/-- The whole basis adds up to one. -/
theorem C66_partition_of_unity (n : Nat) (hn : n ≤ 29) (x : ℝ) :
    ∑ nu ∈ Finset.range (n + 1), bernstein n nu x = 1 := by
  rw [Finset.sum_congr rfl fun nu _ => bernstein_eq n nu hn x]
  have := congrArg (Polynomial.eval x) (bernsteinPolynomial.sum ℝ n)
  simpa [Polynomial.eval_finsetSum] using this

/-- The derivative of a basis element in the form the code uses. -/
theorem bernstein_deriv (n : Nat) (h1 : 1 ≤ n) (hn : n ≤ 29) (b : Nat) (x : ℝ) :
    HasDerivAt (fun x => bernstein n b x)
      (n * (bernstein (n - 1) (b - 1) x - bernstein (n - 1) b x)) x := by
  have hf : (fun x => bernstein n b x) = fun x => (bernsteinPolynomial ℝ n b).eval x := by
    funext x; exact bernstein_eq n b hn x
  rw [hf]
  refine ((bernsteinPolynomial ℝ n b).hasDerivAt x).congr_deriv ?_
  have hn1 : ((n : Int) - 1) = ((n - 1 : Nat) : Int) := by omega
  rw [hn1]
  cases b with
  | zero =>
    rw [bernsteinPolynomial.derivative_zero, bernstein_neg _ _ (by omega)]
    rw [bernstein_eq (n - 1) 0 (by omega)]
    simp
  | succ b =>
    rw [bernsteinPolynomial.derivative_succ]
    have : ((b + 1 : Nat) : Int) - 1 = (b : Int) := by omega
    rw [this, bernstein_eq (n - 1) b (by omega), bernstein_eq (n - 1) (b + 1) (by omega)]
    simp

theorem bernstein_comp_deriv (n : Nat) (h1 : 1 ≤ n) (hn : n ≤ 29) (b : Nat) (l0 lf l : ℝ) :
    HasDerivAt (fun l => bernstein n b ((l - l0) / (lf - l0)))
      (n * (bernstein (n - 1) (b - 1) ((l - l0) / (lf - l0))
        - bernstein (n - 1) b ((l - l0) / (lf - l0))) / (lf - l0)) l := by
  have hg : HasDerivAt (fun l => (l - l0) / (lf - l0)) (1 / (lf - l0)) l :=
    ((hasDerivAt_id' l).sub_const l0).div_const (lf - l0)
  have := HasDerivAt.comp l (h₂ := fun x => bernstein n b x) (bernstein_deriv n h1 hn b _) hg
  refine this.congr_deriv ?_
  ring

/-- Same with an index that may be negative. -/
theorem bernstein_comp_deriv_int (n : Nat) (h1 : 1 ≤ n) (hn : n ≤ 29) (b : Int) (l0 lf l : ℝ) :
    HasDerivAt (fun l => bernstein n b ((l - l0) / (lf - l0)))
      (n * (bernstein (n - 1) (b - 1) ((l - l0) / (lf - l0))
        - bernstein (n - 1) b ((l - l0) / (lf - l0))) / (lf - l0)) l := by
  rcases lt_or_ge b 0 with hb | hb
  · have : (fun l : ℝ => bernstein n b ((l - l0) / (lf - l0))) = fun _ => 0 := by
      funext l; exact bernstein_neg _ _ hb _
    rw [this, bernstein_neg _ _ hb, bernstein_neg _ _ (by omega)]
    simpa using hasDerivAt_const l (0 : ℝ)
  · obtain ⟨k, rfl⟩ := Int.eq_ofNat_of_zero_le hb
    exact bernstein_comp_deriv n h1 hn k l0 lf l

/-- What the path deformation uses as first and second derivative of the path are its derivatives. -/
theorem C66_derivatives (n : Nat) (h2 : 2 ≤ n) (hn : n ≤ 29) (c : Nat → ℝ) (l0 lf l : ℝ) :
    HasDerivAt (bernPhi n c l0 lf) (bernDphi n c l0 lf l) l ∧
    HasDerivAt (bernDphi n c l0 lf) (bernD2phi n c l0 lf l) l := by
  constructor
  · have := HasDerivAt.fun_sum (u := Finset.range n) (A := fun b l =>
      bernstein n b ((l - l0) / (lf - l0)) * c b)
      (A' := fun b => n * (bernstein (n - 1) (b - 1) ((l - l0) / (lf - l0))
        - bernstein (n - 1) b ((l - l0) / (lf - l0))) / (lf - l0) * c b) (x := l)
      (fun b _ => (bernstein_comp_deriv n (by omega) hn b l0 lf l).mul_const (c b))
    refine this.congr_deriv ?_
    exact Finset.sum_congr rfl fun b _ => by ring
  · have hn1 : ((n : Int) - 1) = ((n - 1 : Nat) : Int) := by omega
    have hn2 : ((n : Int) - 2) = ((n - 1 : Nat) : Int) - 1 := by omega
    have hnr : ((n : ℝ) - 1) = ((n - 1 : Nat) : ℝ) := by rw [Nat.cast_sub (by omega)]; simp
    have hd : ∀ b : Nat, HasDerivAt (fun l => n * (bernstein (n - 1) (b - 1) ((l - l0) / (lf - l0))
        - bernstein (n - 1) b ((l - l0) / (lf - l0))) * c b / (lf - l0))
        (n * (n - 1) * (bernstein (n - 2) (b - 2) ((l - l0) / (lf - l0))
          - 2 * bernstein (n - 2) (b - 1) ((l - l0) / (lf - l0))
          + bernstein (n - 2) b ((l - l0) / (lf - l0))) * c b / (lf - l0) ^ 2) l := by
      intro b
      rw [hn1, hn2, hnr]
      have d1 := bernstein_comp_deriv_int (n - 1) (by omega) (by omega) ((b : Int) - 1) l0 lf l
      have d2 := bernstein_comp_deriv_int (n - 1) (by omega) (by omega) (b : Int) l0 lf l
      have := (((d1.fun_sub d2).const_mul (n : ℝ)).mul_const (c b)).div_const (lf - l0)
      refine this.congr_deriv ?_
      rw [show (b : Int) - 1 - 1 = b - 2 by ring]
      generalize lf - l0 = w
      ring
    exact HasDerivAt.fun_sum (u := Finset.range n) (fun b _ => hd b)

/-- The end of the deformed path is the false vacuum: the basis element that does not vanish there is
left out. The beginning is the first coefficient. -/
theorem C66_ends (n : Nat) (h1 : 1 ≤ n) (hn : n ≤ 29) (c : Nat → ℝ) (l0 lf : ℝ) (h : l0 < lf) :
    bernPhi n c l0 lf lf = 0 ∧ bernPhi n c l0 lf l0 = c 0 := by
  have hne : lf - l0 ≠ 0 := (sub_pos.2 h).ne'
  simp only [bernPhi, sub_self, zero_div, div_self hne]
  constructor
  · apply Finset.sum_eq_zero
    intro b hb
    rw [bernstein_eq n b hn, bernsteinPolynomial.eval_at_1,
      if_neg (by rw [Finset.mem_range] at hb; omega), zero_mul]
  · rw [Finset.sum_eq_single 0]
    · rw [bernstein_eq n 0 hn, bernsteinPolynomial.eval_at_0, if_pos rfl, one_mul]
    · intro b _ hb
      rw [bernstein_eq n b hn, bernsteinPolynomial.eval_at_0, if_neg hb, zero_mul]
    · intro h; exact absurd (Finset.mem_range.2 (by omega)) h

/-- All Bernstein polynomials of one degree have the same integral. -/
theorem integral_bernstein (m nu : Nat) (h : nu ≤ m) :
    ∫ x in (0 : ℝ)..1, (bernsteinPolynomial ℝ m nu).eval x = 1 / (m + 1) := by
  have hm : (m : ℝ) + 1 ≠ 0 := by positivity
  set F : Polynomial ℝ := ∑ k ∈ Finset.range (m - nu + 1),
    bernsteinPolynomial ℝ (m + 1) (nu + 1 + k) with hF
  have hd : Polynomial.derivative F = (m + 1 : ℝ[X]) * bernsteinPolynomial ℝ m nu := by
    rw [hF, Polynomial.derivative_sum]
    have : ∀ k ∈ Finset.range (m - nu + 1),
        Polynomial.derivative (bernsteinPolynomial ℝ (m + 1) (nu + 1 + k))
          = (m + 1 : ℝ[X]) * bernsteinPolynomial ℝ m (nu + k)
            - (m + 1 : ℝ[X]) * bernsteinPolynomial ℝ m (nu + (k + 1)) := by
      intro k _
      rw [show nu + 1 + k = nu + k + 1 by omega, bernsteinPolynomial.derivative_succ]
      simp only [Nat.add_sub_cancel]
      push_cast
      rw [show nu + (k + 1) = nu + k + 1 by omega]
      ring
    rw [Finset.sum_congr rfl this, Finset.sum_range_sub']
    rw [bernsteinPolynomial.eq_zero_of_lt ℝ (show m < nu + (m - nu + 1) by omega)]
    simp
  have hderiv : ∀ x ∈ Set.uIcc (0 : ℝ) 1, HasDerivAt (fun x => F.eval x / (m + 1))
      ((bernsteinPolynomial ℝ m nu).eval x) x := by
    intro x _
    refine ((F.hasDerivAt x).div_const ((m : ℝ) + 1)).congr_deriv ?_
    rw [hd]
    simp only [Polynomial.eval_mul, Polynomial.eval_add, Polynomial.eval_natCast, Polynomial.eval_one]
    field_simp
  rw [intervalIntegral.integral_eq_sub_of_hasDerivAt hderiv
    ((Polynomial.continuous _).intervalIntegrable _ _)]
  have e0 : F.eval 0 = 0 := by
    rw [hF, Polynomial.eval_finsetSum]
    apply Finset.sum_eq_zero
    intro k _
    rw [bernsteinPolynomial.eval_at_0, if_neg (by omega)]
  have e1 : F.eval 1 = 1 := by
    rw [hF, Polynomial.eval_finsetSum, Finset.sum_eq_single (m - nu)]
    · rw [bernsteinPolynomial.eval_at_1, if_pos (by omega)]
    · intro k hk hne
      rw [bernsteinPolynomial.eval_at_1, if_neg (by rw [Finset.mem_range] at hk; omega)]
    · intro h'; exact absurd (Finset.mem_range.2 (by omega)) h'
  rw [e0, e1]
  ring

/-- The matrix `K` contains the integrals of the products of the basis elements over the path. -/
theorem C66_gram (n : Nat) (hn : 2 * n ≤ 29) (l0 lf : ℝ) (h : l0 < lf) (i j : Nat) (hi : i ≤ n)
    (hj : j ≤ n) :
    gram n l0 lf i j = ∫ l in l0..lf,
      bernstein n i ((l - l0) / (lf - l0)) * bernstein n j ((l - l0) / (lf - l0)) := by
  have hne : lf - l0 ≠ 0 := (sub_pos.2 h).ne'
  have hC : (((2 * n).choose (i + j) : Nat) : ℝ) ≠ 0 := by
    exact_mod_cast (Nat.choose_pos (by omega)).ne'
  have hprod : ∀ x : ℝ, bernstein n i x * bernstein n j x
      = (n.choose i * n.choose j / (2 * n).choose (i + j) : ℝ)
        * (bernsteinPolynomial ℝ (2 * n) (i + j)).eval x := by
    intro x
    rw [bernstein_eq n i (by omega), bernstein_eq n j (by omega)]
    simp only [bernsteinPolynomial, Polynomial.eval_mul, Polynomial.eval_natCast,
      Polynomial.eval_pow, Polynomial.eval_X, Polynomial.eval_sub, Polynomial.eval_one]
    rw [show 2 * n - (i + j) = (n - i) + (n - j) by omega, pow_add, pow_add]
    field_simp
  have hsub : (∫ l in l0..lf,
      bernstein n i ((l - l0) / (lf - l0)) * bernstein n j ((l - l0) / (lf - l0)))
      = (lf - l0) * ∫ x in (0 : ℝ)..1, bernstein n i x * bernstein n j x := by
    have := intervalIntegral.integral_comp_div_sub
      (fun x => bernstein n i x * bernstein n j x) hne (l0 / (lf - l0)) (a := l0) (b := lf)
    simp only [← sub_div, sub_self, div_self hne, smul_eq_mul] at this
    exact this
  rw [hsub]
  simp only [hprod]
  rw [intervalIntegral.integral_const_mul, integral_bernstein (2 * n) (i + j) (by omega)]
  simp only [gram]
  rw [C66_nChoosek_small n i (by omega), C66_nChoosek_small n j (by omega),
    C66_nChoosek_small (2 * n) (i + j) (by omega)]
  push_cast
  field_simp

/-- So solving with `K` recovers the coefficients of a path in the span of the basis: the right hand
side of such a path is `K` times its coefficients. -/
theorem C66_projection (n : Nat) (hn : 2 * n ≤ 29) (c : Nat → ℝ) (l0 lf : ℝ) (h : l0 < lf) (i : Nat)
    (hi : i ≤ n) :
    ∑ j ∈ Finset.range n, gram n l0 lf i j * c j
      = ∫ l in l0..lf, bernstein n i ((l - l0) / (lf - l0)) * bernPhi n c l0 lf l := by
  have hcont : ∀ k : Nat, Continuous fun l : ℝ => bernstein n k ((l - l0) / (lf - l0)) := by
    intro k
    have : (fun l : ℝ => bernstein n k ((l - l0) / (lf - l0)))
        = fun l => (bernsteinPolynomial ℝ n k).eval ((l - l0) / (lf - l0)) := by
      funext l; exact bernstein_eq n k (by omega) _
    rw [this]
    exact (Polynomial.continuous _).comp (by fun_prop)
  have e : (fun l => bernstein n i ((l - l0) / (lf - l0)) * bernPhi n c l0 lf l)
      = fun l => ∑ j ∈ Finset.range n, bernstein n i ((l - l0) / (lf - l0))
        * bernstein n j ((l - l0) / (lf - l0)) * c j := by
    funext l
    simp only [bernPhi, Finset.mul_sum]
    exact Finset.sum_congr rfl fun j _ => by ring
  rw [e, intervalIntegral.integral_finsetSum]
  · refine Finset.sum_congr rfl fun j hj => ?_
    rw [Finset.mem_range] at hj
    rw [intervalIntegral.integral_mul_const, C66_gram n hn l0 lf h i j hi (by omega)]
  · intro j _
    exact ((((hcont i).mul (hcont j)).mul continuous_const)).intervalIntegrable _ _

/-- The degree the program uses meets the hypotheses. -/
example : 2 ≤ 10 ∧ 2 * 10 ≤ 29 := by decide

end Verif.Action
