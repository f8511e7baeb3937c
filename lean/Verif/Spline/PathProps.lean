import Mathlib.Tactic.NormNum.RealSqrt
import Mathlib.Algebra.BigOperators.Field
import Verif.Spline.Path
import Verif.Spline.Props

/-!
# C65: paths in field space
-/

set_option linter.unusedSimpArgs false

namespace Verif.Spline

open scoped BigOperators

theorem listX_eq (step : ℝ) (i : Nat) : listX step i = i * step := by
  induction i with
  | zero => simp [listX]
  | succ i ih => simp only [listX, ih]; push_cast; ring

theorem natural_points (n : Nat) (hn : 3 ≤ n) (x : Nat → ℝ) (hx : ∀ i, i + 1 < n → x i < x (i + 1)) :
    Spec.Points (fresh ℝ) n x := ⟨hn, by simp [fresh], hx⟩

theorem nak_points (n : Nat) (hn : 4 ≤ n) (x : Nat → ℝ) (hx : ∀ i, i + 1 < n → x i < x (i + 1)) :
    Spec.Points (setBoundary (fresh ℝ) .notAKnot 0 .notAKnot 0) n x := ⟨by omega, fun _ => hn, hx⟩

/-- The points `initialize` works with: neighbouring points differ, at least four or exactly two. -/
structure Spec.Path (dim n : Nat) (phi : Nat → Nat → ℝ) : Prop where
  count : n = 2 ∨ 4 ≤ n
  differ : ∀ i, i + 1 < n → ∃ j < dim, phi i j ≠ phi (i + 1) j

theorem norm2_pos {dim : Nat} {v : Nat → ℝ} (h : ∃ j < dim, v j ≠ 0) : 0 < norm2 dim v := by
  obtain ⟨j, hj, hv⟩ := h
  refine Real.sqrt_pos.2 (Finset.sum_pos' (fun i _ => mul_self_nonneg _) ⟨j, Finset.mem_range.2 hj, ?_⟩)
  exact mul_self_pos.2 hv

theorem linLengths_lt (dim n : Nat) (phi : Nat → Nat → ℝ) (hp : Spec.Path dim n phi) :
    ∀ i, i + 1 < pathLen n → linLengths dim (pathPoints n phi) i
      < linLengths dim (pathPoints n phi) (i + 1) := by
  intro i hi
  have : 0 < norm2 dim (fun j => pathPoints n phi (i + 1) j - pathPoints n phi i j) := by
    apply norm2_pos
    by_cases h2 : n = 2
    · subst h2
      obtain ⟨j, hj, hne⟩ := hp.differ 0 (by omega)
      refine ⟨j, hj, ?_⟩
      rw [zero_add] at hne
      have hd : phi 1 j - phi 0 j ≠ 0 := sub_ne_zero.2 hne.symm
      have hi' : i < 3 := by simp [pathLen] at hi; omega
      intro h
      apply hd
      interval_cases i <;> simp [pathPoints] at h <;> linarith
    · have hi' : i + 1 < n := by simpa [pathLen, h2] using hi
      obtain ⟨j, hj, hne⟩ := hp.differ i hi'
      refine ⟨j, hj, ?_⟩
      simp only [pathPoints, h2, if_false]
      exact sub_ne_zero.2 hne.symm
  simp only [linLengths]
  linarith

/-- The first and last point are kept and at least four points are used. -/
theorem C65_points (n : Nat) (phi : Nat → Nat → ℝ) (hn : n = 2 ∨ 4 ≤ n) :
    4 ≤ pathLen n ∧ pathPoints n phi 0 = phi 0 ∧
    pathPoints n phi (pathLen n - 1) = phi (n - 1) := by
  rcases hn with rfl | h
  · refine ⟨le_rfl, ?_, ?_⟩ <;> funext j <;> simp [pathPoints, pathLen]
  · have h2 : n ≠ 2 := by omega
    refine ⟨by simp [pathLen, h2, h], ?_, ?_⟩ <;> funext j <;> simp [pathPoints, pathLen, h2]

theorem speed_nonneg (dim n : Nat) (phi : Nat → Nat → ℝ) (t : ℝ) : 0 ≤ speed dim n phi t :=
  Real.sqrt_nonneg _

theorem listL_lt (f : ℝ → ℝ) (step : ℝ) (hs : 0 < step) (hf : ∀ t, 0 < f t) (i : Nat) :
    listL f step i < listL f step (i + 1) := by
  simp only [listL, simpsonStep, add_sub_cancel_left]
  have h1 := hf (listL f step i)
  have h2 := hf ((2 * listL f step i + (listL f step i + step)) / 3)
  have h3 := hf ((listL f step i + 2 * (listL f step i + step)) / 3)
  have h4 := hf (listL f step i + step)
  have : 0 < (f (listL f step i) + 3 * f ((2 * listL f step i + (listL f step i + step)) / 3)
      + 3 * f ((listL f step i + 2 * (listL f step i + step)) / 3) + f (listL f step i + step))
      * step / 8 := by positivity
  linarith

/-- If no point of the path has zero velocity, the path begins at the first point and ends at the
last one, up to the conversion of its linear length to `float`; it passes through the first point at
position 0 and the last one at the end. -/
theorem C65_ends (fl : ℝ → ℝ) (dim n numInter : Nat) (phi : Nat → Nat → ℝ)
    (hp : Spec.Path dim n phi) (hnum : 2 ≤ numInter)
    (hfl : 0 < fl (linLengths dim (pathPoints n phi) (pathLen n - 1)))
    (hreg : ∀ t, 0 < speed dim (pathLen n) (pathPoints n phi) t) (j : Nat) :
    (initPath fl dim n numInter phi).point 0 j = phi 0 j ∧
    (initPath fl dim n numInter phi).point (listL (speed dim (pathLen n) (pathPoints n phi))
        (fl (linLengths dim (pathPoints n phi) (pathLen n - 1)) / numInter) numInter) j
      = eval (pathSpline dim (pathLen n) (pathPoints n phi) j)
          (fl (linLengths dim (pathPoints n phi) (pathLen n - 1))) ∧
    (fl (linLengths dim (pathPoints n phi) (pathLen n - 1))
        = linLengths dim (pathPoints n phi) (pathLen n - 1) →
      (initPath fl dim n numInter phi).point (listL (speed dim (pathLen n) (pathPoints n phi))
        (fl (linLengths dim (pathPoints n phi) (pathLen n - 1)) / numInter) numInter) j
        = phi (n - 1) j ∧
      (initPath fl dim n numInter phi).position 0 = 0 ∧
      (initPath fl dim n numInter phi).position (pathLen n - 1)
        = listL (speed dim (pathLen n) (pathPoints n phi))
          (fl (linLengths dim (pathPoints n phi) (pathLen n - 1)) / numInter) numInter) := by
  obtain ⟨hm, hp0, hp1⟩ := C65_points n phi hp.count
  have hlin := linLengths_lt dim n phi hp
  have hnum0 : (0 : ℝ) < numInter := by exact_mod_cast (by omega : 0 < numInter)
  set m := pathLen n with hmd
  set q := pathPoints n phi with hq
  set linL := fl (linLengths dim q (m - 1)) with hlinL
  set step := linL / numInter with hstep
  have hs : 0 < step := div_pos hfl hnum0
  have hL := listL_lt (speed dim m q) step hs hreg
  have hend : listX step numInter = linL := by
    rw [listX_eq, hstep]; field_simp
  have hll := natural_points (numInter + 1) (by omega) (listL (speed dim m q) step) (fun i _ => hL i)
  have hlx := natural_points (numInter + 1) (by omega) (listX step) (fun i _ => by
    simp only [listX]; linarith)
  have ip : ∀ i ≤ numInter, eval (initPath fl dim n numInter phi).lToX
      (listL (speed dim m q) step i) = listX step i := by
    intro i hi
    exact C64_interpolates _ _ _ _ .cspline hll i (by omega)
  have ipx : ∀ i ≤ numInter, eval (initPath fl dim n numInter phi).xToL
      (listX step i) = listL (speed dim m q) step i := by
    intro i hi
    exact C64_interpolates _ _ _ _ .cspline hlx i (by omega)
  have isp : ∀ i < m, eval (pathSpline dim m q j) (linLengths dim q i) = q i j := by
    intro i hi
    exact C64_interpolates _ _ _ _ .cspline (nak_points m hm _ hlin) i hi
  have e2 : (initPath fl dim n numInter phi).point (listL (speed dim m q) step numInter) j
      = eval (pathSpline dim m q j) linL := by
    unfold Path.point
    rw [ip numInter le_rfl, hend]
    rfl
  refine ⟨?_, e2, fun he => ⟨?_, ?_, ?_⟩⟩
  · have := ip 0 (by omega)
    simp only [listL, listX] at this
    unfold Path.point
    rw [this]
    have := isp 0 (by omega)
    simp only [linLengths] at this
    rw [← hp0]
    exact this
  · rw [e2, he, isp (m - 1) (by omega), hp1]
  · have := ipx 0 (by omega)
    simp only [listL, listX] at this
    exact this
  · have := ipx numInter le_rfl
    rw [hend, he] at this
    exact this

/-- The velocity of the path has norm one wherever it does not vanish, and the direction of the
derivative. -/
theorem C65_dl_norm (p : Path) (l : ℝ) (h : ∃ k < p.dim, p.deriv 1 (eval p.lToX l) k ≠ 0) :
    ∑ k ∈ Finset.range p.dim, p.dl l k ^ 2 = 1 ∧
    ∃ c > 0, ∀ k, p.deriv 1 (eval p.lToX l) k = c * p.dl l k := by
  have hpos : 0 < ∑ k ∈ Finset.range p.dim,
      p.deriv 1 (eval p.lToX l) k * p.deriv 1 (eval p.lToX l) k := by
    obtain ⟨j, hj, hv⟩ := h
    exact Finset.sum_pos' (fun i _ => mul_self_nonneg _) ⟨j, Finset.mem_range.2 hj, mul_self_pos.2 hv⟩
  have hs := Real.sqrt_pos.2 hpos
  constructor
  · simp only [Path.dl, div_pow]
    rw [← Finset.sum_div, Real.sq_sqrt hpos.le, div_eq_one_iff_eq hpos.ne']
    exact Finset.sum_congr rfl fun k _ => by ring
  · refine ⟨_, hs, fun k => ?_⟩
    simp only [Path.dl]
    rw [mul_div_cancel₀ _ hs.ne']

/-- `∑ (c v)² = c² ∑ v²` under the root. -/
theorem norm2_smul (dim : Nat) (c : ℝ) (hc : 0 ≤ c) (v : Nat → ℝ) :
    norm2 dim (fun j => c * v j) = c * norm2 dim v := by
  simp only [norm2]
  rw [show ∑ i ∈ Finset.range dim, c * v i * (c * v i)
      = c ^ 2 * ∑ i ∈ Finset.range dim, v i * v i by
    rw [Finset.mul_sum]; exact Finset.sum_congr rfl fun i _ => by ring]
  rw [Real.sqrt_mul (sq_nonneg c), Real.sqrt_sq hc]

/-- Points in order on a straight line. -/
structure Spec.Straight (dim n : Nat) (phi : Nat → Nat → ℝ) (v : Nat → ℝ) (sigma : Nat → ℝ) :
    Prop where
  count : n = 2 ∨ 4 ≤ n
  line : ∀ i < n, ∀ j, phi i j = phi 0 j + sigma i * v j
  zero : sigma 0 = 0
  order : ∀ i, i + 1 < n → sigma i < sigma (i + 1)
  unit : ∑ j ∈ Finset.range dim, v j * v j = 1

/-- A path of points in order on a straight line, in particular every path of two points, is this
line at constant velocity one: its length is the distance of the end points, and position, velocity
and acceleration are those of the line. -/
theorem C65_straight (fl : ℝ → ℝ) (dim n numInter : Nat) (phi : Nat → Nat → ℝ) (v sigma : Nat → ℝ)
    (hs : Spec.Straight dim n phi v sigma) (hnum : 2 ≤ numInter)
    (hfl : fl (sigma (n - 1)) = sigma (n - 1)) :
    (initPath fl dim n numInter phi).L = sigma (n - 1) ∧
    ∀ l, 0 ≤ l → l ≤ sigma (n - 1) → ∀ j,
      (initPath fl dim n numInter phi).point l j = phi 0 j + l * v j ∧
      (initPath fl dim n numInter phi).dl l j = v j ∧
      (initPath fl dim n numInter phi).d2l l j = 0 := by
  obtain ⟨hm, hp0, hp1⟩ := C65_points n phi hs.count
  -- the parameters of all points
  obtain ⟨τ, hτ0, hτl, hτo, hq⟩ : ∃ τ : Nat → ℝ, τ 0 = 0 ∧ τ (pathLen n - 1) = sigma (n - 1) ∧
      (∀ i, i + 1 < pathLen n → τ i < τ (i + 1)) ∧
      ∀ i < pathLen n, ∀ j, pathPoints n phi i j = phi 0 j + τ i * v j := by
    by_cases h2 : n = 2
    · subst h2
      have ho := hs.order 0 (by omega)
      have hz := hs.zero
      have hl := hs.line 1 (by omega)
      refine ⟨fun i => i / 3 * sigma 1, by simp, by simp [pathLen], ?_, ?_⟩
      · intro i _
        rw [hz, zero_add] at ho
        push_cast
        nlinarith
      · intro i hi j
        have hi' : i < 4 := by simpa [pathLen] using hi
        interval_cases i <;> simp [pathPoints, hl] <;> ring
    · have e : pathLen n = n := by simp [pathLen, h2]
      rw [e]
      refine ⟨sigma, hs.zero, rfl, hs.order, ?_⟩
      intro i hi j
      simp only [pathPoints, h2, if_false]
      exact hs.line i hi j
  have hfl' : fl (τ (pathLen n - 1)) = τ (pathLen n - 1) := by rw [hτl]; exact hfl
  rw [← hτl]
  unfold initPath
  generalize pathLen n = m at *
  generalize pathPoints n phi = q at *
  have hv1 : norm2 dim v = 1 := by simp [norm2, hs.unit]
  -- the linear lengths are the parameters
  have hlin : ∀ i < m, linLengths dim q i = τ i := by
    intro i
    induction i with
    | zero => intro _; simp [linLengths, hτ0]
    | succ i ih =>
      intro hi
      simp only [linLengths]
      rw [ih (by omega)]
      have : (fun j => q (i + 1) j - q i j) = fun j => (τ (i + 1) - τ i) * v j := by
        funext j
        rw [hq (i + 1) hi, hq i (by omega)]
        ring
      rw [this, norm2_smul _ _ (by have := hτo i hi; linarith), hv1]
      ring
  have hlo : ∀ i, i + 1 < m → linLengths dim q i < linLengths dim q (i + 1) := by
    intro i hi
    rw [hlin i (by omega), hlin (i + 1) hi]
    exact hτo i hi
  have hT : 0 < τ (m - 1) := by
    rw [← hτ0, ← hlin 0 (by omega), ← hlin (m - 1) (by omega)]
    exact Increasing.lt (n := m) (x := linLengths dim q) hlo (by omega) (by omega)
  have hlast : linLengths dim q (m - 1) = τ (m - 1) := hlin _ (by omega)
  have hl0 : linLengths dim q 0 = 0 := rfl
  -- the splines of the fields
  have hspl : ∀ j t, 0 ≤ t → t ≤ τ (m - 1) → eval (pathSpline dim m q j) t = phi 0 j + t * v j ∧
      deriv (pathSpline dim m q j) 1 t = v j ∧ deriv (pathSpline dim m q j) 2 t = 0 := by
    intro j t h0 h1
    have := C64_reproduces (setBoundary (fresh ℝ) .notAKnot 0 .notAKnot 0) m (linLengths dim q)
      (fun i => q i j) (nak_points m hm _ hlo) (phi 0 j) (v j) 0 0
      (by intro i hi; simp only [hq i hi, hlin i hi]; ring)
      (by simp [setBoundary]) (by simp [setBoundary]) (by simp [setBoundary])
      (by simp [setBoundary]) (by simp [setBoundary]) t (by rw [hl0]; exact h0)
      (by rw [hlast]; exact h1)
    obtain ⟨a1, a2, a3⟩ := this
    refine ⟨?_, ?_, ?_⟩
    · rw [pathSpline, a1]; ring
    · rw [pathSpline, a2]; ring
    · rw [pathSpline, a3 (by simp [setBoundary])]; ring
  have hspeed : ∀ t, 0 ≤ t → t ≤ τ (m - 1) → speed dim m q t = 1 := by
    intro t h0 h1
    simp only [speed]
    rw [Finset.sum_congr rfl (g := fun j => v j * v j) (fun j _ => by rw [(hspl j t h0 h1).2.1]; ring),
      hs.unit, Real.sqrt_one]
  -- so the lengths agree
  have hnum0 : (0 : ℝ) < numInter := by exact_mod_cast (by omega : 0 < numInter)
  have hstep : 0 < τ (m - 1) / numInter := div_pos hT hnum0
  have hll : ∀ i ≤ numInter, listL (speed dim m q) (τ (m - 1) / numInter) i
      = listX (τ (m - 1) / numInter) i := by
    intro i
    induction i with
    | zero => intro _; rfl
    | succ i ih =>
      intro hi
      simp only [listL, listX, ih (by omega)]
      have h0 : 0 ≤ listX (τ (m - 1) / numInter) i := by rw [listX_eq]; positivity
      have h1 : listX (τ (m - 1) / numInter) i + τ (m - 1) / numInter ≤ τ (m - 1) := by
        rw [listX_eq]
        have : ((i : ℝ) + 1) * (τ (m - 1) / numInter) ≤ numInter * (τ (m - 1) / numInter) := by
          apply mul_le_mul_of_nonneg_right _ hstep.le
          exact_mod_cast hi
        rw [mul_div_cancel₀ _ hnum0.ne'] at this
        linarith
      generalize τ (m - 1) / numInter = st at *
      generalize listX st i = a at *
      simp only [simpsonStep]
      rw [hspeed a h0 (by linarith), hspeed _ (by linarith) (by linarith),
        hspeed _ (by linarith) (by linarith), hspeed (a + st) (by linarith) h1]
      ring
  have hX : listX (τ (m - 1) / numInter) numInter = τ (m - 1) := by
    rw [listX_eq]; field_simp
  have hXl : ∀ i, i + 1 < numInter + 1 →
      listX (τ (m - 1) / numInter) i < listX (τ (m - 1) / numInter) (i + 1) := by
    intro i _; simp only [listX]; linarith
  have hLl : ∀ i, i + 1 < numInter + 1 → listL (speed dim m q) (τ (m - 1) / numInter) i
      < listL (speed dim m q) (τ (m - 1) / numInter) (i + 1) := by
    intro i hi; rw [hll i (by omega), hll (i + 1) (by omega)]; exact hXl i hi
  simp only [hlast, hfl']
  -- the conversions between the two lengths are the identity
  have hconv : ∀ t, 0 ≤ t → t ≤ τ (m - 1) →
      eval (setPoints (fresh ℝ) (numInter + 1) (listL (speed dim m q) (τ (m - 1) / numInter))
        (listX (τ (m - 1) / numInter)) .cspline) t = t ∧
      deriv (setPoints (fresh ℝ) (numInter + 1) (listX (τ (m - 1) / numInter))
        (listL (speed dim m q) (τ (m - 1) / numInter)) .cspline) 1 t = 1 ∧
      deriv (setPoints (fresh ℝ) (numInter + 1) (listX (τ (m - 1) / numInter))
        (listL (speed dim m q) (τ (m - 1) / numInter)) .cspline) 2 t = 0 := by
    intro t h0 h1
    have r1 := C64_reproduces (fresh ℝ) (numInter + 1)
      (listL (speed dim m q) (τ (m - 1) / numInter)) (listX (τ (m - 1) / numInter))
      (natural_points _ (by omega) _ hLl) 0 1 0 0
      (by intro i hi; rw [hll i (by omega)]; ring) (by simp [fresh]) (by simp [fresh])
      (by simp [fresh]) (by simp [fresh]) (by simp [fresh]) t h0
      (by rw [Nat.add_sub_cancel, hll _ le_rfl, hX]; exact h1)
    have r2 := C64_reproduces (fresh ℝ) (numInter + 1)
      (listX (τ (m - 1) / numInter)) (listL (speed dim m q) (τ (m - 1) / numInter))
      (natural_points _ (by omega) _ hXl) 0 1 0 0
      (by intro i hi; rw [hll i (by omega)]; ring) (by simp [fresh]) (by simp [fresh])
      (by simp [fresh]) (by simp [fresh]) (by simp [fresh]) t h0
      (by rw [Nat.add_sub_cancel, hX]; exact h1)
    refine ⟨?_, ?_, ?_⟩
    · rw [r1.1]; ring
    · rw [r2.2.1]; ring
    · rw [r2.2.2 (Or.inr (by simp [fresh]))]; ring
  refine ⟨by rw [hll _ le_rfl, hX, hfl'], fun l h0 h1 j => ?_⟩
  obtain ⟨c1, c2, c3⟩ := hconv l h0 h1
  have hdl : ∀ j, v j / Real.sqrt (∑ k ∈ Finset.range dim, v k * v k) = v j := by
    intro j; rw [hs.unit, Real.sqrt_one, div_one]
  refine ⟨?_, ?_, ?_⟩
  · simp only [Path.point, c1]
    exact (hspl j l h0 h1).1
  · simp only [Path.dl, Path.deriv, c1]
    rw [Finset.sum_congr rfl (g := fun j => v j * v j) (fun j _ => by rw [(hspl j l h0 h1).2.1]),
      (hspl j l h0 h1).2.1, hdl]
  · simp only [Path.d2l, Path.deriv, c1, c2, c3, (hspl j l h0 h1).2.2]
    simp

/-- A straight path that meets the hypotheses. -/
example : Spec.Straight 2 2 (fun i j => if j = 0 then 3 * i else 4 * i)
    (fun j => if j = 0 then 3 / 5 else 4 / 5) (fun i => 5 * i) := by
  refine ⟨Or.inl rfl, ?_, by simp, ?_, ?_⟩
  · intro i _ j
    by_cases h : j = 0 <;> simp [h] <;> ring
  · intro i _; push_cast; linarith
  · norm_num [Finset.sum_range_succ]

/-- The path 0, 1, 0, 1 of one field. -/
noncomputable def zigzag (i _j : Nat) : ℝ := if i = 1 ∨ i = 3 then 1 else 0

theorem zigzag_lin : ∀ i < 4, linLengths 1 zigzag i = i := by
  intro i hi
  interval_cases i <;> norm_num [linLengths, zigzag, norm2]

theorem zigzag_order : ∀ i, i + 1 < 4 → linLengths 1 zigzag i < linLengths 1 zigzag (i + 1) := by
  intro i hi
  rw [zigzag_lin i (by omega), zigzag_lin (i + 1) hi]
  push_cast; linarith

theorem zigzag_speed (t : ℝ) (h0 : 0 ≤ t) :
    speed 1 4 zigzag t = |if t ≤ 3 then 10 / 3 - 6 * t + 2 * t ^ 2 else 6 * (t - 3) + 10 / 3| := by
  have hl3 : linLengths 1 zigzag (4 - 1) = 3 := by rw [zigzag_lin _ (by omega)]; norm_num
  have hpts := nak_points 4 le_rfl _ zigzag_order
  have hy : ∀ i < 4, zigzag i 0 = 0 + 10 / 3 * linLengths 1 zigzag i
      + (-3) * linLengths 1 zigzag i ^ 2 + 2 / 3 * linLengths 1 zigzag i ^ 3 := by
    intro i hi
    rw [zigzag_lin i hi]
    interval_cases i <;> norm_num [zigzag]
  have hrep := C64_reproduces _ 4 (linLengths 1 zigzag) (fun i => zigzag i 0) hpts 0 (10 / 3) (-3)
    (2 / 3) hy (by simp [setBoundary]) (by simp [setBoundary]) (by simp [setBoundary])
    (by simp [setBoundary]) (by simp [setBoundary])
  have hdat := reproduces_data _ 4 (linLengths 1 zigzag) (fun i => zigzag i 0) hpts 0 (10 / 3) (-3)
    (2 / 3) hy (by simp [setBoundary]) (by simp [setBoundary]) (by simp [setBoundary])
    (by simp [setBoundary]) (by simp [setBoundary])
  simp only [speed, Finset.sum_range_one, Real.sqrt_sq_eq_abs]
  congr 1
  split_ifs with h
  · rw [pathSpline, (hrep t h0 (by rw [hl3]; exact h)).2.1]
    ring
  · have f := cspline_fits (setBoundary (fresh ℝ) .notAKnot 0 .notAKnot 0) 4 (linLengths 1 zigzag)
      (fun i => zigzag i 0) (by omega) zigzag_order
    have hc := hdat.2 (by simp [setBoundary])
    have e3 := (hrep 3 (by rw [zigzag_lin 0 (by omega)]; norm_num) (by rw [hl3])).2.1
    rw [setPoints] at e3
    have d3 := deriv1_right _ f 3 (le_of_eq hl3)
    have dt := deriv1_right _ f t (by
      change linLengths 1 zigzag (4 - 1) ≤ t
      rw [hl3]; exact (not_le.1 h).le)
    change _ = 2 * (setCspline _ 4 _ _).c (4 - 1) * (3 - linLengths 1 zigzag (4 - 1))
      + (setCspline _ 4 _ _).b (4 - 1) at d3
    change _ = 2 * (setCspline _ 4 _ _).c (4 - 1) * (t - linLengths 1 zigzag (4 - 1))
      + (setCspline _ 4 _ _).b (4 - 1) at dt
    rw [e3, hc, hl3] at d3
    rw [hc, hl3] at dt
    rw [pathSpline, setPoints, dt]
    linarith

/-- The length of a curved path is not the integral of the speed over its parameter: each step of
the integration starts at the length reached so far instead of the parameter. -/
theorem C65_length_fails : ∃ (dim n numInter : Nat) (phi : Nat → Nat → ℝ),
    Spec.Path dim n phi ∧ 2 ≤ numInter ∧
    (initPath id dim n numInter phi).L ≠ ∑ i ∈ Finset.range numInter,
      simpsonStep (speed dim (pathLen n) (pathPoints n phi))
        (i * (linLengths dim (pathPoints n phi) (pathLen n - 1) / numInter))
        ((i + 1) * (linLengths dim (pathPoints n phi) (pathLen n - 1) / numInter)) := by
  refine ⟨1, 4, 2, zigzag, ⟨Or.inr le_rfl, ?_⟩, le_rfl, ?_⟩
  · intro i hi
    refine ⟨0, by omega, ?_⟩
    have : i < 3 := by omega
    interval_cases i <;> norm_num [zigzag]
  · have hq : pathPoints 4 zigzag = zigzag := by funext i j; simp [pathPoints]
    have hm : pathLen 4 = 4 := by simp [pathLen]
    have hl3 : linLengths 1 zigzag 3 = 3 := by rw [zigzag_lin 3 (by omega)]; norm_num
    simp only [initPath, hq, hm, id, Nat.reduceSub, hl3, Finset.sum_range_succ, Finset.sum_range_zero,
      listL, simpsonStep]
    norm_num [zigzag_speed, abs_of_nonneg, abs_of_neg, abs_of_nonpos]

/-- A new point before the beginning or behind the end becomes the first or last point. -/
theorem C65_add_outside (points : List (List ℝ)) (pos : List ℝ) (L p : ℝ) (new : List ℝ) (fuel : Nat)
    (hL : 0 ≤ L) :
    (p < 0 → addPoint points pos L p new fuel = some (.ok (new :: points))) ∧
    (L < p → addPoint points pos L p new fuel = some (.ok (points ++ [new]))) := by
  constructor
  · intro h; simp [addPoint, h]
  · intro h
    have : ¬ p < 0 := by linarith
    simp [addPoint, h, this]

/-- A new point between the ends is never added: the first comparison reads behind the end of the
list of positions. -/
theorem C65_add_inside_fails (points : List (List ℝ)) (pos : List ℝ) (L p : ℝ) (new : List ℝ)
    (fuel : Nat) (hlen : pos.length ≤ points.length) (h2 : 2 ≤ points.length) (h0 : 0 ≤ p)
    (h1 : p ≤ L) : addPoint points pos L p new (fuel + 1) = some (.ub .outOfBounds) := by
  have e : ¬ points.length - 0 = 1 := by omega
  simp only [addPoint, not_lt.2 h0, not_lt.2 h1, if_false, addLoop, e, Outcome.idx_of_ge hlen]

example : addPoint [[0], [1], [2]] [0, 1, 2] 2 (1 / 2) [1 / 2] 1 = some (.ub .outOfBounds) :=
  C65_add_inside_fails _ _ _ _ _ _ (by simp) (by simp) (by norm_num) (by norm_num)

end Verif.Spline
