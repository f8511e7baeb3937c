import Mathlib.Analysis.SpecialFunctions.Integrals.Basic
import Mathlib.MeasureTheory.Integral.IntervalIntegral.FundThmCalculus
import Mathlib.Tactic.Ring
import Mathlib.Tactic.Linarith
import Mathlib.Tactic.FieldSimp
import Mathlib.Tactic.NormNum
import Verif.Action.Quad

/-!
# C72 The action is the integral over the bounce
-/

set_option linter.unusedSectionVars false
set_option linter.unusedSimpArgs false

namespace Verif.Action

open intervalIntegral

/-- One cell: Simpson's weights for the integrand, the weight of the volume at the lower end. -/
noncomputable def cell (w g : ℝ → ℝ) (delta r : ℝ) : ℝ :=
  w r * (g r + 4 * g (r + delta / 2) + g (r + delta))

theorem quadLoop_spec (w g : ℝ → ℝ) (delta R : ℝ) : ∀ (n : Nat) (r acc : ℝ) (m : Nat), m < n →
    (∀ k : Nat, k < m → r + k * delta ≤ R) → ¬ r + m * delta ≤ R →
    quadLoop w g delta R n r acc = some (acc + ∑ k ∈ Finset.range m, cell w g delta (r + k * delta)) := by
  intro n
  induction n with
  | zero => intro r acc m hm; omega
  | succ n ih =>
    intro r acc m hm h1 h2
    cases m with
    | zero =>
      have : ¬ r ≤ R := by simpa using h2
      simp [quadLoop, this]
    | succ m =>
      have h0 : r ≤ R := by simpa using h1 0 (by omega)
      rw [quadLoop, if_pos h0, ih (r + delta) _ m (by omega)
        (fun k hk => by
          have := h1 (k + 1) (by omega)
          push_cast at this
          linarith)
        (by push_cast at h2; intro h; exact h2 (by linarith)), Finset.sum_range_succ']
      congr 1
      have : ∀ k ∈ Finset.range m, cell w g delta (r + delta + k * delta)
          = cell w g delta (r + (k + 1 : Nat) * delta) := by
        intro k _
        congr 1
        push_cast
        ring
      rw [Finset.sum_congr rfl this]
      simp only [cell, Nat.cast_zero, zero_mul, add_zero]
      ring

theorem loop_2001 (w g : ℝ → ℝ) (R : ℝ) (hR : 0 < R) (fuel : Nat) (hf : 2001 < fuel) :
    quadLoop w g (R / 2000) R fuel 0 0
      = some (∑ k ∈ Finset.range 2001, cell w g (R / 2000) (k * (R / 2000))) := by
  rw [quadLoop_spec w g (R / 2000) R fuel 0 0 2001 hf (fun k hk => ?_) ?_]
  · simp
  · push_cast
    intro h
    linarith
  · have h1 : (k : ℝ) ≤ 2000 := by exact_mod_cast (by omega : k ≤ 2000)
    have := mul_le_mul_of_nonneg_right h1 (by positivity : 0 ≤ R / 2000)
    linarith

/-- What the two functions compute: 2001 cells, the last one behind the last radius, in three and in four dimensions. -/
theorem C72_sum (g : ℝ → ℝ) (R : ℝ) (hR : 0 < R) (fuel : Nat) (hf : 2001 < fuel) :
    quad fuel 2 g R = some (4 * Real.pi * (R / 2000) *
      ∑ k ∈ Finset.range 2001, (k * (R / 2000)) ^ 2 *
        ((g (k * (R / 2000)) + 4 * g (k * (R / 2000) + R / 2000 / 2) + g (k * (R / 2000) + R / 2000)) / 6)) ∧
    quad fuel 3 g R = some (2 * Real.pi ^ 2 * (R / 2000) *
      ∑ k ∈ Finset.range 2001, (k * (R / 2000)) ^ 3 *
        ((g (k * (R / 2000)) + 4 * g (k * (R / 2000) + R / 2000 / 2) + g (k * (R / 2000) + R / 2000)) / 6)) := by
  constructor
  · rw [quad, if_pos rfl, loop_2001 _ g R hR fuel hf, Option.map_some]
    congr 1
    rw [Finset.sum_mul, Finset.sum_mul, Finset.sum_mul, Finset.sum_div, Finset.mul_sum]
    apply Finset.sum_congr rfl
    intro k _
    simp only [cell]
    ring
  · rw [quad, if_neg (by norm_num), if_pos rfl, loop_2001 _ g R hR fuel hf, Option.map_some]
    congr 1
    rw [Finset.sum_mul, Finset.sum_mul, Finset.sum_mul, Finset.sum_mul, Finset.sum_div, Finset.mul_sum]
    apply Finset.sum_congr rfl
    intro k _
    simp only [cell]
    ring

/-- The parts are the sums for half the squared velocity and for the potential; in other dimensions the result is `-1`. -/
theorem C72_parts (v V l : ℝ → ℝ) (R alpha : ℝ) (fuel : Nat) :
    kineticPart fuel alpha v R = quad fuel alpha (fun r => v r ^ 2 / 2) R ∧
    potentialPart fuel alpha V l R = quad fuel alpha (fun r => V (l r)) R ∧
    (alpha ≠ 2 → alpha ≠ 3 → ∀ g, quad fuel alpha g R = some (-1)) := by
  refine ⟨?_, rfl, fun h2 h3 g => by rw [quad, if_neg h2, if_neg h3]⟩
  unfold kineticPart
  congr 1
  funext r
  ring

/-- If the trajectory ends at radius zero the loop does not end. -/
theorem C72_endless_fails (g : ℝ → ℝ) (fuel : Nat) : quad fuel 2 g 0 = none ∧ quad fuel 3 g 0 = none := by
  have : ∀ (w : ℝ → ℝ) (n : Nat) (a : ℝ), quadLoop w g 0 0 n 0 a = none := by
    intro w n
    induction n with
    | zero => intro a; rfl
    | succ n ih => intro a; simp [quadLoop, ih]
  constructor
  · simp [quad, this]
  · have h : ¬ (3 : ℝ) = 2 := by norm_num
    simp [quad, this, h]

/-! ## The error -/

theorem cell_error (p : Nat) (g : ℝ → ℝ) (a delta B M lam : ℝ) (ha : 0 ≤ a) (hd : 0 ≤ delta) (hB : a + delta ≤ B)
    (hc : ContinuousOn g (Set.Icc a (a + delta)))
    (hM : ∀ r ∈ Set.Icc a (a + delta), |g r| ≤ M)
    (hl : ∀ r ∈ Set.Icc a (a + delta), ∀ s ∈ Set.Icc a (a + delta), |g r - g s| ≤ lam * |r - s|) :
    |(∫ r in a..a + delta, r ^ (p + 1) * g r) -
      delta * (a ^ (p + 1) * ((g a + 4 * g (a + delta / 2) + g (a + delta)) / 6))|
      ≤ delta * (delta * ((p + 1) * B ^ p * M + B ^ (p + 1) * lam)) := by
  have hle : a ≤ a + delta := by linarith
  have hB0 : 0 ≤ B := by linarith
  set c := a ^ (p + 1) * ((g a + 4 * g (a + delta / 2) + g (a + delta)) / 6) with hcdef
  have hconst : delta * c = ∫ _ in a..a + delta, c := by
    rw [intervalIntegral.integral_const]; simp
  have hci : ContinuousOn (fun r => r ^ (p + 1) * g r) (Set.Icc a (a + delta)) :=
    ContinuousOn.mul (by fun_prop) hc
  have hint : IntervalIntegrable (fun r => r ^ (p + 1) * g r) MeasureTheory.volume a (a + delta) :=
    ContinuousOn.intervalIntegrable (by rwa [Set.uIcc_of_le hle])
  rw [hconst, ← intervalIntegral.integral_sub hint (by simp)]
  have hM0 : 0 ≤ M := (abs_nonneg _).trans (hM a ⟨le_rfl, hle⟩)
  rcases eq_or_lt_of_le hd with rfl | hd0
  · simp
  have hlam : 0 ≤ lam := by
    have h := hl (a + delta) ⟨hle, le_rfl⟩ a ⟨le_rfl, hle⟩
    have h0 : 0 ≤ lam * |a + delta - a| := (abs_nonneg _).trans h
    rw [add_sub_cancel_left, abs_of_pos hd0] at h0
    exact nonneg_of_mul_nonneg_left h0 hd0
  have key : ∀ r ∈ Set.uIoc a (a + delta), ‖r ^ (p + 1) * g r - c‖ ≤
      delta * ((p + 1) * B ^ p * M + B ^ (p + 1) * lam) := by
    intro r hr
    rw [Set.uIoc_of_le hle] at hr
    have hrI : r ∈ Set.Icc a (a + delta) := ⟨hr.1.le, hr.2⟩
    have hr0 : 0 ≤ r := by linarith [hr.1]
    have hrB : r ≤ B := hr.2.trans hB
    -- the weight
    have hw : |r ^ (p + 1) - a ^ (p + 1)| ≤ delta * ((p + 1) * B ^ p) := by
      have hmono : a ^ (p + 1) ≤ r ^ (p + 1) := pow_le_pow_left₀ ha hr.1.le _
      rw [abs_of_nonneg (by linarith)]
      have hgeom : r ^ (p + 1) - a ^ (p + 1)
          = (∑ i ∈ Finset.range (p + 1), r ^ i * a ^ (p + 1 - 1 - i)) * (r - a) :=
        (geom_sum₂_mul r a (p + 1)).symm
      rw [hgeom]
      have hs : (∑ i ∈ Finset.range (p + 1), r ^ i * a ^ (p + 1 - 1 - i)) ≤ (p + 1) * B ^ p := by
        calc (∑ i ∈ Finset.range (p + 1), r ^ i * a ^ (p + 1 - 1 - i))
            ≤ ∑ i ∈ Finset.range (p + 1), B ^ p := by
              apply Finset.sum_le_sum
              intro i hi
              have hi' : i ≤ p := by have := Finset.mem_range.1 hi; omega
              have e : B ^ p = B ^ i * B ^ (p + 1 - 1 - i) := by rw [← pow_add]; congr 1; omega
              rw [e]
              exact mul_le_mul (pow_le_pow_left₀ hr0 hrB _) (pow_le_pow_left₀ ha (by linarith) _)
                (by positivity) (by positivity)
          _ = (p + 1) * B ^ p := by simp
      have h1 : r - a ≤ delta := by linarith [hr.2]
      have h0 : 0 ≤ r - a := by linarith [hr.1]
      calc _ ≤ ((p + 1) * B ^ p) * delta :=
            mul_le_mul hs h1 h0 (by positivity)
        _ = _ := by ring
    -- the integrand
    have hg : |g r - (g a + 4 * g (a + delta / 2) + g (a + delta)) / 6| ≤ lam * delta := by
      have m1 : a ∈ Set.Icc a (a + delta) := ⟨le_rfl, hle⟩
      have m2 : a + delta / 2 ∈ Set.Icc a (a + delta) := ⟨by linarith, by linarith⟩
      have m3 : a + delta ∈ Set.Icc a (a + delta) := ⟨hle, le_rfl⟩
      have b : ∀ s ∈ Set.Icc a (a + delta), |g r - g s| ≤ lam * delta := by
        intro s hs
        refine (hl r hrI s hs).trans (mul_le_mul_of_nonneg_left ?_ hlam)
        rw [abs_le]
        constructor <;> linarith [hrI.1, hrI.2, hs.1, hs.2]
      have e : g r - (g a + 4 * g (a + delta / 2) + g (a + delta)) / 6
          = (g r - g a) / 6 + (4 / 6) * (g r - g (a + delta / 2)) + (g r - g (a + delta)) / 6 := by ring
      have b1 := abs_le.1 (b _ m1)
      have b2 := abs_le.1 (b _ m2)
      have b3 := abs_le.1 (b _ m3)
      rw [e, abs_le]
      constructor <;> linarith [b1.1, b1.2, b2.1, b2.2, b3.1, b3.2]
    have haB : a ^ (p + 1) ≤ B ^ (p + 1) := pow_le_pow_left₀ ha (by linarith) _
    rw [Real.norm_eq_abs, hcdef]
    have e : r ^ (p + 1) * g r - a ^ (p + 1) * ((g a + 4 * g (a + delta / 2) + g (a + delta)) / 6)
        = (r ^ (p + 1) - a ^ (p + 1)) * g r
          + a ^ (p + 1) * (g r - (g a + 4 * g (a + delta / 2) + g (a + delta)) / 6) := by ring
    rw [e]
    refine (abs_add_le _ _).trans ?_
    rw [abs_mul, abs_mul, abs_of_nonneg (pow_nonneg ha _)]
    have t1 := mul_le_mul hw (hM r hrI) (abs_nonneg _) (by positivity)
    have t2 := mul_le_mul haB hg (abs_nonneg _) (by positivity)
    linarith
  have := intervalIntegral.norm_integral_le_of_norm_le_const key
  rw [Real.norm_eq_abs, add_sub_cancel_left, abs_of_nonneg hd] at this
  linarith

theorem sum_error (p n : Nat) (g : ℝ → ℝ) (delta M lam : ℝ) (hd : 0 ≤ delta)
    (hc : ContinuousOn g (Set.Icc 0 (n * delta)))
    (hM : ∀ r ∈ Set.Icc 0 (n * delta), |g r| ≤ M)
    (hl : ∀ r ∈ Set.Icc 0 (n * delta), ∀ s ∈ Set.Icc 0 (n * delta), |g r - g s| ≤ lam * |r - s|) :
    |(∫ r in (0)..n * delta, r ^ (p + 1) * g r) -
      delta * ∑ k ∈ Finset.range n, (k * delta) ^ (p + 1) *
        ((g (k * delta) + 4 * g (k * delta + delta / 2) + g (k * delta + delta)) / 6)|
      ≤ n * (delta * (delta * ((p + 1) * (n * delta) ^ p * M + (n * delta) ^ (p + 1) * lam))) := by
  set B := (n : ℝ) * delta with hB
  have hsub : ∀ k, k < n → Set.Icc ((k : ℝ) * delta) (k * delta + delta) ⊆ Set.Icc 0 B := by
    intro k hk x hx
    refine ⟨le_trans (by positivity) hx.1, hx.2.trans ?_⟩
    have h1 : ((k + 1 : Nat) : ℝ) ≤ n := by exact_mod_cast hk
    have := mul_le_mul_of_nonneg_right h1 hd
    push_cast at this
    rw [hB]; linarith
  have hle : ∀ k, k < n → (k : ℝ) * delta + delta ≤ B := fun k hk =>
    (hsub k hk ⟨by linarith, le_rfl⟩).2
  have hsplit : (∫ r in (0)..B, r ^ (p + 1) * g r)
      = ∑ k ∈ Finset.range n, ∫ r in ((k : ℝ) * delta)..(k * delta + delta), r ^ (p + 1) * g r := by
    have := intervalIntegral.sum_integral_adjacent_intervals (f := fun r => r ^ (p + 1) * g r)
      (μ := MeasureTheory.volume) (a := fun k : Nat => (k : ℝ) * delta) (n := n) (fun k hk => ?_)
    · simp only [Nat.cast_zero, zero_mul] at this
      rw [← this]
      apply Finset.sum_congr rfl
      intro k _
      congr 1
      push_cast
      ring
    · have e : ((k + 1 : Nat) : ℝ) * delta = k * delta + delta := by push_cast; ring
      show IntervalIntegrable _ _ ((k : ℝ) * delta) (((k + 1 : Nat) : ℝ) * delta)
      rw [e]
      apply ContinuousOn.intervalIntegrable
      rw [Set.uIcc_of_le (by linarith)]
      exact ContinuousOn.mul (by fun_prop) (hc.mono (hsub k hk))
  rw [hsplit, Finset.mul_sum, ← Finset.sum_sub_distrib]
  refine (Finset.abs_sum_le_sum_abs _ _).trans ?_
  calc _ ≤ ∑ k ∈ Finset.range n, (delta * (delta * ((p + 1) * B ^ p * M + B ^ (p + 1) * lam))) := by
        apply Finset.sum_le_sum
        intro k hk
        have hk' := Finset.mem_range.1 hk
        exact cell_error p g (k * delta) delta B M lam (by positivity) hd (hle k hk')
          (hc.mono (hsub k hk')) (fun r hr => hM r (hsub k hk' hr))
          (fun r hr s hs => hl r (hsub k hk' hr) s (hsub k hk' hs))
    _ = _ := by simp

/-- In three dimensions the result is the integral `4π ∫ r² g(r) dr` up to one cell behind the last radius, with an error
of the order of the width of a cell, for integrands with bound `M` and Lipschitz constant `lam`. -/
theorem C72_integral_3d (g : ℝ → ℝ) (R M lam : ℝ) (hR : 0 < R) (fuel : Nat) (hf : 2001 < fuel)
    (hM : ∀ r ∈ Set.Icc 0 (2001 * (R / 2000)), |g r| ≤ M)
    (hl : ∀ r ∈ Set.Icc 0 (2001 * (R / 2000)), ∀ s ∈ Set.Icc 0 (2001 * (R / 2000)),
      |g r - g s| ≤ lam * |r - s|) :
    ∃ S, quad fuel 2 g R = some S ∧
      |(4 * Real.pi * ∫ r in (0)..2001 * (R / 2000), r ^ 2 * g r) - S| ≤
        4 * Real.pi * (2001 * (R / 2000)) * (R / 2000) *
          (2 * (2001 * (R / 2000)) * M + (2001 * (R / 2000)) ^ 2 * lam) := by
  refine ⟨_, (C72_sum g R hR fuel hf).1, ?_⟩
  have hc : ContinuousOn g (Set.Icc 0 (2001 * (R / 2000))) := by
    have : LipschitzOnWith (Real.toNNReal lam) g (Set.Icc 0 (2001 * (R / 2000))) := by
      refine LipschitzOnWith.of_dist_le_mul fun x hx y hy => ?_
      rw [Real.dist_eq, Real.dist_eq]
      exact (hl x hx y hy).trans (mul_le_mul_of_nonneg_right (Real.le_coe_toNNReal _) (abs_nonneg _))
    exact this.continuousOn
  have := sum_error 1 2001 g (R / 2000) M lam (by positivity) (by exact_mod_cast hc)
    (by exact_mod_cast hM) (by exact_mod_cast hl)
  have hpi := Real.pi_pos
  push_cast at this
  rw [mul_assoc (4 * Real.pi), ← mul_sub, abs_mul, abs_of_pos (by positivity)]
  calc _ ≤ 4 * Real.pi * (2001 * (R / 2000 * (R / 2000 *
        ((1 + 1) * (2001 * (R / 2000)) ^ 1 * M + (2001 * (R / 2000)) ^ (1 + 1) * lam)))) :=
        mul_le_mul_of_nonneg_left this (by positivity)
    _ = _ := by ring

/-- The same in four dimensions with `2π² ∫ r³ g(r) dr`. -/
theorem C72_integral_4d (g : ℝ → ℝ) (R M lam : ℝ) (hR : 0 < R) (fuel : Nat) (hf : 2001 < fuel)
    (hM : ∀ r ∈ Set.Icc 0 (2001 * (R / 2000)), |g r| ≤ M)
    (hl : ∀ r ∈ Set.Icc 0 (2001 * (R / 2000)), ∀ s ∈ Set.Icc 0 (2001 * (R / 2000)),
      |g r - g s| ≤ lam * |r - s|) :
    ∃ S, quad fuel 3 g R = some S ∧
      |(2 * Real.pi ^ 2 * ∫ r in (0)..2001 * (R / 2000), r ^ 3 * g r) - S| ≤
        2 * Real.pi ^ 2 * (2001 * (R / 2000)) * (R / 2000) *
          (3 * (2001 * (R / 2000)) ^ 2 * M + (2001 * (R / 2000)) ^ 3 * lam) := by
  refine ⟨_, (C72_sum g R hR fuel hf).2, ?_⟩
  have hc : ContinuousOn g (Set.Icc 0 (2001 * (R / 2000))) := by
    have : LipschitzOnWith (Real.toNNReal lam) g (Set.Icc 0 (2001 * (R / 2000))) := by
      refine LipschitzOnWith.of_dist_le_mul fun x hx y hy => ?_
      rw [Real.dist_eq, Real.dist_eq]
      exact (hl x hx y hy).trans (mul_le_mul_of_nonneg_right (Real.le_coe_toNNReal _) (abs_nonneg _))
    exact this.continuousOn
  have := sum_error 2 2001 g (R / 2000) M lam (by positivity) (by exact_mod_cast hc)
    (by exact_mod_cast hM) (by exact_mod_cast hl)
  have hpi := Real.pi_pos
  push_cast at this
  rw [mul_assoc (2 * Real.pi ^ 2), ← mul_sub, abs_mul, abs_of_pos (by positivity)]
  calc _ ≤ 2 * Real.pi ^ 2 * (2001 * (R / 2000 * (R / 2000 *
        ((2 + 1) * (2001 * (R / 2000)) ^ 2 * M + (2001 * (R / 2000)) ^ (2 + 1) * lam)))) :=
        mul_le_mul_of_nonneg_left this (by positivity)
    _ = _ := by ring

example (r s : ℝ) : |(fun x : ℝ => x) r - (fun x : ℝ => x) s| ≤ 1 * |r - s| := by simp

/-- The error is really of the order of one cell, other than that of Simpson's rule: for a constant integrand, for which
Simpson's rule is exact, the result is wrong by the factor 2001 · 4001 / (2 · 2000²), about 1.00075. -/
theorem C72_simpson_fails (c R : ℝ) (hR : 0 < R) (fuel : Nat) (hf : 2001 < fuel) :
    quad fuel 2 (fun _ => c) R
      = some ((2001 * 4001 / (2 * 2000 ^ 2)) * (4 * Real.pi * ∫ r in (0)..R, r ^ 2 * c)) := by
  rw [(C72_sum _ R hR fuel hf).1]
  congr 1
  have h1 : (∫ r in (0)..R, r ^ 2 * c) = R ^ 3 / 3 * c := by
    rw [intervalIntegral.integral_mul_const, integral_pow]
    norm_num
  have h2 : ∀ n : Nat, ∑ k ∈ Finset.range (n + 1), ((k : ℝ) * (R / 2000)) ^ 2 * ((c + 4 * c + c) / 6)
      = (R / 2000) ^ 2 * c * (n * (n + 1) * (2 * n + 1) / 6) := by
    intro n
    induction n with
    | zero => simp
    | succ n ih =>
      rw [Finset.sum_range_succ, ih]
      push_cast
      ring
  have := h2 2000
  norm_num at this
  rw [h1]
  norm_num
  rw [this]
  ring

/-! ## The virial theorem -/

/-- For a solution of the bounce equation `l'' + α/ρ l' = V'(l)` the function `ρ^(α+1) (V - l'²/2)` has the derivative
`ρ^α ((α+1) V + (α-1) l'²/2)`. -/
theorem C72_virial_derivative (n : Nat) (l v a V dV : ℝ → ℝ) (r : ℝ) (hr : r ≠ 0)
    (hl : HasDerivAt l (v r) r) (hv : HasDerivAt v (a r) r) (hV : HasDerivAt V (dV (l r)) (l r))
    (eq : a r + n / r * v r = dV (l r)) :
    HasDerivAt (fun x => x ^ (n + 1) * (V (l x) - v x ^ 2 / 2))
      (r ^ n * ((n + 1) * V (l r) + (n - 1) * (v r ^ 2 / 2))) r := by
  have h1 : HasDerivAt (fun x : ℝ => x ^ (n + 1)) (((n + 1 : Nat) : ℝ) * r ^ n) r := by
    simpa using hasDerivAt_pow (n + 1) r
  have h2 : HasDerivAt (fun x => V (l x)) (dV (l r) * v r) r := HasDerivAt.comp r hV hl
  have h3 : HasDerivAt (fun x => v x ^ 2 / 2) (v r * a r) r := by
    have := (hv.fun_pow 2).div_const 2
    refine this.congr_deriv ?_
    simp only [Nat.cast_ofNat, pow_one]
    ring
  refine (h1.fun_mul (h2.fun_sub h3)).congr_deriv ?_
  rw [← eq]
  push_cast
  rw [pow_succ]
  field_simp
  ring

/-- Hence for an exact bounce that ends in the false vacuum, the sum of the parts equals both estimates from one part
only. -/
theorem C72_virial (alpha kin pot : ℝ) (ha : alpha ≠ 1) (ha' : alpha ≠ -1)
    (h : (alpha + 1) * pot + (alpha - 1) * kin = 0) :
    kin + pot = kineticAction alpha kin ∧ kin + pot = potentialAction alpha pot := by
  have h1 : 1 + alpha ≠ 0 := fun h0 => ha' (by linarith)
  have h2 : 1 - alpha ≠ 0 := fun h0 => ha (by linarith)
  constructor
  · rw [kineticAction, eq_div_iff h1]; linarith
  · rw [potentialAction, eq_div_iff h2]; linarith

/-- The virial theorem itself: between two radii. -/
theorem C72_virial_integral (n : Nat) (l v a V dV : ℝ → ℝ) (r0 R : ℝ) (h0 : 0 < r0) (hR : r0 ≤ R)
    (hl : ∀ r ∈ Set.Icc r0 R, HasDerivAt l (v r) r) (hv : ∀ r ∈ Set.Icc r0 R, HasDerivAt v (a r) r)
    (hV : ∀ r ∈ Set.Icc r0 R, HasDerivAt V (dV (l r)) (l r))
    (eq : ∀ r ∈ Set.Icc r0 R, a r + n / r * v r = dV (l r)) :
    (n + 1) * (∫ r in r0..R, r ^ n * V (l r)) + (n - 1) * (∫ r in r0..R, r ^ n * (v r ^ 2 / 2))
      = R ^ (n + 1) * (V (l R) - v R ^ 2 / 2) - r0 ^ (n + 1) * (V (l r0) - v r0 ^ 2 / 2) := by
  have cl : ContinuousOn l (Set.Icc r0 R) := fun r hr => (hl r hr).continuousAt.continuousWithinAt
  have cv : ContinuousOn v (Set.Icc r0 R) := fun r hr => (hv r hr).continuousAt.continuousWithinAt
  have cV : ContinuousOn (fun r => V (l r)) (Set.Icc r0 R) := fun r hr =>
    ((hV r hr).continuousAt.comp (hl r hr).continuousAt).continuousWithinAt
  have i1 : IntervalIntegrable (fun r => r ^ n * V (l r)) MeasureTheory.volume r0 R :=
    ContinuousOn.intervalIntegrable (by rw [Set.uIcc_of_le hR]; exact ContinuousOn.mul (by fun_prop) cV)
  have i2 : IntervalIntegrable (fun r => r ^ n * (v r ^ 2 / 2)) MeasureTheory.volume r0 R :=
    ContinuousOn.intervalIntegrable (by rw [Set.uIcc_of_le hR]; exact ContinuousOn.mul (by fun_prop) (by fun_prop))
  have key := intervalIntegral.integral_eq_sub_of_hasDerivAt
    (f := fun x => x ^ (n + 1) * (V (l x) - v x ^ 2 / 2))
    (f' := fun r => r ^ n * ((n + 1) * V (l r) + (n - 1) * (v r ^ 2 / 2))) (a := r0) (b := R)
    (fun r hr => by
      rw [Set.uIcc_of_le hR] at hr
      exact C72_virial_derivative n l v a V dV r (by linarith [hr.1]) (hl r hr) (hv r hr) (hV r hr) (eq r hr))
    (by
      have := (i1.const_mul (n + 1 : ℝ)).add (i2.const_mul (n - 1 : ℝ))
      refine this.congr ?_
      intro r _
      simp only [Pi.add_apply]
      ring)
  rw [← key, ← intervalIntegral.integral_const_mul, ← intervalIntegral.integral_const_mul,
    ← intervalIntegral.integral_add (i1.const_mul _) (i2.const_mul _)]
  apply intervalIntegral.integral_congr
  intro r _
  simp only
  ring

end Verif.Action
