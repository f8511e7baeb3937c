import Mathlib.Analysis.Calculus.Deriv.MeanValue
import Verif.Spline.Monotone
import Verif.Spline.Props

/-!
# C64: making a spline monotone
-/

set_option linter.unusedSimpArgs false

namespace Verif.Spline

/-- The sufficient condition of Fritsch and Carlson. -/
theorem fritsch_carlson {a b w u : ℝ} (ha : 0 ≤ a) (hb : 0 ≤ b) (hw : 0 ≤ w) (hu0 : 0 ≤ u)
    (hu1 : u ≤ 1) (h : a ^ 2 + b ^ 2 ≤ 9 * w ^ 2) :
    0 ≤ a * (1 - u) ^ 2 + b * u ^ 2 + 2 * (u * (1 - u)) * (3 * w - a - b) := by
  have hv : 0 ≤ 1 - u := by linarith
  rcases le_total (a + b) (3 * w) with hs | hs
  · have := mul_nonneg hu0 hv
    have := mul_nonneg this (show 0 ≤ 3 * w - a - b by linarith)
    nlinarith [mul_nonneg ha (sq_nonneg (1 - u)), mul_nonneg hb (sq_nonneg u)]
  · -- `(a + b - 3w)² ≤ a b`
    have hs6 : a + b ≤ 9 * w := by
      nlinarith [sq_nonneg (a - b), mul_nonneg hw ha, mul_nonneg hw hb, mul_nonneg ha hb]
    have hd : (a + b - 3 * w) ^ 2 ≤ a * b := by
      nlinarith [mul_nonneg (show 0 ≤ a + b - 3 * w by linarith) (show 0 ≤ 9 * w - a - b by linarith)]
    have hsq : a + b - 3 * w ≤ Real.sqrt a * Real.sqrt b := by
      rw [← Real.sqrt_mul ha]
      exact Real.le_sqrt_of_sq_le hd
    have e : a * (1 - u) ^ 2 + b * u ^ 2 + 2 * (u * (1 - u)) * (3 * w - a - b)
        = (Real.sqrt a * (1 - u) - Real.sqrt b * u) ^ 2
          + 2 * (u * (1 - u)) * (Real.sqrt a * Real.sqrt b - (a + b - 3 * w)) := by
      have h1 := Real.sq_sqrt ha
      have h2 := Real.sq_sqrt hb
      linear_combination (-(1 - u) ^ 2) * h1 - u ^ 2 * h2
    rw [e]
    have := mul_nonneg (mul_nonneg hu0 hv)
      (show 0 ≤ Real.sqrt a * Real.sqrt b - (a + b - 3 * w) by linarith)
    nlinarith [sq_nonneg (Real.sqrt a * (1 - u) - Real.sqrt b * u)]

/-- The first loop: all slopes get the sign of the data, other slopes are kept. -/
theorem monoSign_loop (e : ℝ) (he : e = 1 ∨ e = -1) (n : Nat) (y : Nat → ℝ)
    (hy : ∀ i j, i ≤ j → j < n → e * y i ≤ e * y j) (m : Mono) :
    ∀ k ≤ n, ∀ i < k, 0 ≤ e * ((List.range k).foldl (monoSign n y) m).b i := by
  intro k
  induction k with
  | zero => intro _ i hi; omega
  | succ k ih =>
    intro hk i hi
    rw [List.range_succ, List.foldl_append]
    simp only [List.foldl_cons, List.foldl_nil]
    generalize hM : (List.range k).foldl (monoSign n y) m = M
    have hM' : ∀ i < k, 0 ≤ e * M.b i := by rw [← hM]; exact ih (by omega)
    simp only [monoSign]
    split_ifs with hc
    · simp only [setVec]
      split_ifs with hik
      · simp
      · exact hM' i (by omega)
    · rcases Nat.lt_succ_iff_lt_or_eq.1 hi with h | rfl
      · exact hM' i h
      · have h1 := hy (i - 1) i (by omega) (by omega)
        have h2 := hy i (min (i + 1) (n - 1)) (by omega) (by omega)
        push Not at hc
        rcases he with rfl | rfl
        · have := hc.1 (by linarith) (by linarith)
          linarith
        · have := hc.2 (by linarith) (by linarith)
          linarith

/-- What the second loop has achieved for interval `i`. -/
def Ok (x y b : Nat → ℝ) (i : Nat) : Prop :=
  b i ^ 2 + b (i + 1) ^ 2 ≤ 9 * ((y (i + 1) - y i) / (x (i + 1) - x i)) ^ 2

theorem monoScale_loop (e : ℝ) (he : e = 1 ∨ e = -1) (n : Nat) (x y : Nat → ℝ)
    (hx : Increasing n x) (hy : ∀ i j, i ≤ j → j < n → e * y i ≤ e * y j) (m : Mono)
    (hm : ∀ i < n, 0 ≤ e * m.b i) :
    ∀ k ≤ n - 1, (∀ i < n, 0 ≤ e * ((List.range k).foldl (monoScale x y) m).b i) ∧
      ∀ i < k, Ok x y ((List.range k).foldl (monoScale x y) m).b i := by
  intro k
  induction k with
  | zero => intro _; exact ⟨hm, fun i hi => by omega⟩
  | succ k ih =>
    intro hk
    obtain ⟨ih1, ih2⟩ := ih (by omega)
    rw [List.range_succ, List.foldl_append]
    simp only [List.foldl_cons, List.foldl_nil]
    generalize (List.range k).foldl (monoScale x y) m = M at ih1 ih2
    have hh : 0 < x (k + 1) - x k := sub_pos.2 (hx k (by omega))
    set avg := (y (k + 1) - y k) / (x (k + 1) - x k) with havg
    have hea : 0 ≤ e * avg := by
      rw [havg, ← mul_div_assoc]
      refine div_nonneg ?_ hh.le
      have := hy k (k + 1) (by omega) (by omega)
      linarith
    -- scaling both slopes by a factor between zero and one keeps everything
    have keep : ∀ (f : ℝ) (b' : Nat → ℝ), 0 ≤ f → f ≤ 1 → (∀ j, j ≠ k → j ≠ k + 1 → b' j = M.b j) →
        b' k = M.b k * f → b' (k + 1) = M.b (k + 1) * f →
        b' k ^ 2 + b' (k + 1) ^ 2 ≤ 9 * avg ^ 2 →
        (∀ i < n, 0 ≤ e * b' i) ∧ ∀ i < k + 1, Ok x y b' i := by
      intro f b' hf0 hf1 ho h1 h2 h3
      refine ⟨fun i hi => ?_, fun i hi => ?_⟩
      · by_cases e1 : i = k
        · subst e1; rw [h1, ← mul_assoc]; exact mul_nonneg (ih1 i hi) hf0
        by_cases e2 : i = k + 1
        · subst e2; rw [h2, ← mul_assoc]; exact mul_nonneg (ih1 _ hi) hf0
        rw [ho i e1 e2]; exact ih1 i hi
      · rcases Nat.lt_succ_iff_lt_or_eq.1 hi with h | rfl
        · have hok := ih2 i h
          unfold Ok at hok ⊢
          rw [ho i (by omega) (by omega)]
          by_cases e1 : i + 1 = k
          · rw [e1] at hok ⊢
            rw [h1]
            have : (M.b k * f) ^ 2 ≤ M.b k ^ 2 := by
              rw [mul_pow]
              have hf2 : f ^ 2 ≤ 1 := by nlinarith
              nlinarith [sq_nonneg (M.b k)]
            linarith
          · rw [ho (i + 1) e1 (by omega)]; exact hok
        · exact h3
    simp only [monoScale]
    rw [← havg]
    split_ifs with hc1 hc2 hc3
    · refine keep 0 _ le_rfl zero_le_one ?_ ?_ ?_ ?_
      · intro j h1 h2; simp [setVec, h1, h2]
      · simp [setVec]
      · simp [setVec]
      · simp [setVec, hc1.1]
    · set r := Real.sqrt (M.b k * M.b k + M.b (k + 1) * M.b (k + 1)) / |avg| with hr
      have hrpos : 0 < r := by linarith
      have hav : avg ≠ 0 := by rcases hc2 with h | h <;> [exact h.2.2.ne'; exact h.2.2.ne]
      have hab : 0 < |avg| := abs_pos.2 hav
      refine keep (3 / r) _ (by positivity) (by rw [div_le_one hrpos]; linarith) ?_ ?_ ?_ ?_
      · intro j h1 h2; simp [setVec, h1, h2]
      · simp [setVec]
      · simp [setVec]
      · have hs : M.b k ^ 2 + M.b (k + 1) ^ 2 = (r * |avg|) ^ 2 := by
          rw [hr, div_mul_cancel₀ _ hab.ne', Real.sq_sqrt (by nlinarith [mul_self_nonneg (M.b k), mul_self_nonneg (M.b (k + 1))])]
          ring
        have e1 : (M.b k * (3 / r)) ^ 2 + (M.b (k + 1) * (3 / r)) ^ 2 = 9 * avg ^ 2 := by
          rw [mul_pow, mul_pow, ← add_mul, hs, mul_pow, sq_abs]
          field_simp
          norm_num
        simp only [setVec, if_true, if_false, show ¬ k = k + 1 by omega, show ¬ k + 1 = k by omega]
        exact e1.le
    · refine keep 1 _ zero_le_one le_rfl (fun _ _ _ => rfl) (by ring) (by ring) ?_
      have hav : avg ≠ 0 := by rcases hc2 with h | h <;> [exact h.2.2.ne'; exact h.2.2.ne]
      have hab : 0 < |avg| := abs_pos.2 hav
      have hr := not_lt.1 hc3
      rw [div_le_iff₀ hab] at hr
      have h0 : 0 ≤ M.b k * M.b k + M.b (k + 1) * M.b (k + 1) := by
        nlinarith [mul_self_nonneg (M.b k), mul_self_nonneg (M.b (k + 1))]
      have := Real.sqrt_le_left (show 0 ≤ 3 * |avg| by positivity) |>.1 hr
      rw [mul_pow, sq_abs] at this
      nlinarith
    · refine keep 1 _ zero_le_one le_rfl (fun _ _ _ => rfl) (by ring) (by ring) ?_
      have b0 := ih1 k (by omega)
      have b1 := ih1 (k + 1) (by omega)
      by_cases hz : avg = 0
      · push Not at hc1
        obtain ⟨z1, z2⟩ := hc1 hz
        simp [hz, z1, z2]
      · exfalso
        apply hc2
        rcases he with rfl | rfl
        · left
          refine ⟨by linarith, by linarith, lt_of_le_of_ne (by linarith) (Ne.symm hz)⟩
        · right
          refine ⟨by linarith, by linarith, lt_of_le_of_ne (by linarith) hz⟩

/-- The loops only set `modified` when they change a slope. -/
theorem monoSign_flag (n : Nat) (y : Nat → ℝ) (l : List Nat) (m : Mono)
    (h : (l.foldl (monoSign n y) m).modified = false) : l.foldl (monoSign n y) m = m := by
  induction l generalizing m with
  | nil => rfl
  | cons a l ih =>
    simp only [List.foldl_cons] at h ⊢
    have h1 := ih _ h
    rw [h1] at h ⊢
    simp only [monoSign] at h ⊢
    split_ifs at h ⊢
    rfl

theorem monoScale_flag (x y : Nat → ℝ) (l : List Nat) (m : Mono)
    (h : (l.foldl (monoScale x y) m).modified = false) : l.foldl (monoScale x y) m = m := by
  induction l generalizing m with
  | nil => rfl
  | cons a l ih =>
    simp only [List.foldl_cons] at h ⊢
    have h1 := ih _ h
    rw [h1] at h ⊢
    simp only [monoScale] at h ⊢
    split_ifs at h ⊢ <;> rfl

/-- After `make_monotonic` a cubic or hermite spline through monotone data is monotone between the
first and last point. -/
theorem C64_make_monotonic (s : Spl ℝ) (n : Nat) (x y : Nat → ℝ) (type : SplineType)
    (ht : type ≠ .linear) (hp : Spec.Points s n x) :
    ((∀ i, i + 1 < n → y i ≤ y (i + 1)) →
      MonotoneOn (eval (makeMonotonic (setPoints s n x y type)).1) (Set.Icc (x 0) (x (n - 1)))) ∧
    ((∀ i, i + 1 < n → y (i + 1) ≤ y i) →
      AntitoneOn (eval (makeMonotonic (setPoints s n x y type)).1) (Set.Icc (x 0) (x (n - 1)))) := by
  have h3 := hp.three
  have hx : Increasing n x := hp.incr
  have main : ∀ e : ℝ, e = 1 ∨ e = -1 → (∀ i j, i ≤ j → j < n → e * y i ≤ e * y j) →
      MonotoneOn (fun t => e * eval (makeMonotonic (setPoints s n x y type)).1 t)
        (Set.Icc (x 0) (x (n - 1))) := by
    intro e he hy
    have f := setPoints_fits s n x y type hp.three hp.incr
    have f1 : Fits1 (setPoints s n x y type) := by
      cases type
      · exact absurd rfl ht
      · exact cspline_fits1 s n x y hp.three (fun h => hp.four (Or.inr h)) hp.incr
      · exact (hermite_fits s n x y hp.three hp.incr).2
    obtain ⟨e1, e2, e3⟩ := setPoints_n s n x y type
    generalize setPoints s n x y type = S at f f1 e1 e2 e3
    subst e1; subst e2; subst e3
    -- the slopes after the loops
    have hs := monoSign_loop e he S.n S.y hy { b := S.b, modified := false } S.n le_rfl
    have hl := monoScale_loop e he S.n S.x S.y hx hy _ hs (S.n - 1) le_rfl
    -- the spline after the loops
    have hS : ∃ S' : Spl ℝ, (makeMonotonic S).1 = S' ∧ Fits S' ∧ Fits1 S' ∧ S'.n = S.n ∧ S'.x = S.x ∧
        S'.y = S.y ∧ S'.b = ((List.range (S.n - 1)).foldl (monoScale S.x S.y)
          ((List.range S.n).foldl (monoSign S.n S.y) { b := S.b, modified := false })).b := by
      simp only [makeMonotonic]
      split_ifs with hm
      · have hc := coeffs_fit { S with b := ((List.range (S.n - 1)).foldl (monoScale S.x S.y)
          ((List.range S.n).foldl (monoSign S.n S.y) { b := S.b, modified := false })).b }
          f.two f.incr f.last
        exact ⟨_, rfl, ⟨hc.1.two, hc.1.incr, hc.1.value, hc.1.last⟩, hc.2, rfl, rfl, rfl, rfl⟩
      · have hm : _ = false := Bool.eq_false_iff.2 hm
        have h2 := monoScale_flag _ _ _ _ hm
        rw [h2] at hm ⊢
        rw [monoSign_flag _ _ _ _ hm]
        exact ⟨S, rfl, f, f1, rfl, rfl, rfl, rfl⟩
    obtain ⟨S', hS', F, F1, g1, g2, g3, g4⟩ := hS
    rw [hS', ← g1, ← g2]
    rw [← g4, ← g1] at hl
    rw [← g2, ← g3] at hl
    rw [← g1] at h3 hy
    rw [← g3] at hy
    clear hs f f1
    refine monotoneOn_of_deriv_nonneg (convex_Icc _ _) ?_ ?_ ?_
    · intro t _
      exact ((hasDerivAt_eval S' F F1 t).const_mul e).continuousAt.continuousWithinAt
    · intro t _
      exact ((hasDerivAt_eval S' F F1 t).const_mul e).differentiableAt.differentiableWithinAt
    · intro t ht
      rw [interior_Icc] at ht
      rw [((hasDerivAt_eval S' F F1 t).const_mul e).deriv]
      obtain ⟨i, hi, h1, h2⟩ := exists_piece F.incr (by omega) ht.1.le ht.2
      rw [deriv1_piece S' F F1 i hi t h1 h2.le]
      have hh : 0 < S'.x (i + 1) - S'.x i := sub_pos.2 (F.incr i hi)
      have hv := F.value i hi
      have hsl := F1 i hi
      have b0 := hl.1 i (by omega)
      have b1 := hl.1 (i + 1) hi
      have hok := hl.2 i (by omega)
      have hyi := hy i (i + 1) (by omega) hi
      unfold Ok at hok
      set h := S'.x (i + 1) - S'.x i with hhd
      set w := (S'.y (i + 1) - S'.y i) / h with hw
      have hwv : S'.y (i + 1) - S'.y i = w * h := by rw [hw]; field_simp
      set u := (t - S'.x i) / h with hu
      have hut : t - S'.x i = u * h := by rw [hu]; field_simp
      have hu0 : 0 ≤ u := div_nonneg (by linarith) hh.le
      have hu1 : u ≤ 1 := by rw [hu, div_le_one hh]; linarith
      have he2 : e * e = 1 := by rcases he with rfl | rfl <;> norm_num
      have hew : 0 ≤ e * w := by
        rw [hw, ← mul_div_assoc]
        exact div_nonneg (by linarith) hh.le
      have key := fritsch_carlson b0 b1 hew hu0 hu1 (by
        have : (e * S'.b i) ^ 2 + (e * S'.b (i + 1)) ^ 2
            = e * e * (S'.b i ^ 2 + S'.b (i + 1) ^ 2) := by ring
        rw [this, mul_pow, sq e, he2]
        linarith)
      rw [hut]
      -- eliminate the coefficients
      have hc : S'.c i * h = 3 * w - 2 * S'.b i - S'.b (i + 1) := by
        have hv' : ((S'.d i * h + S'.c i) * h + S'.b i) = w := by
          have : ((S'.d i * h + S'.c i) * h + S'.b i) * h = w * h := by linarith
          exact mul_right_cancel₀ hh.ne' this
        linear_combination 3 * hv' - hsl
      have hd : S'.d i * h * h = S'.b i + S'.b (i + 1) - 2 * w := by
        have hv' : ((S'.d i * h + S'.c i) * h + S'.b i) = w := by
          have : ((S'.d i * h + S'.c i) * h + S'.b i) * h = w * h := by linarith
          exact mul_right_cancel₀ hh.ne' this
        linear_combination hv' - hc
      have : e * ((3 * S'.d i * (u * h) + 2 * S'.c i) * (u * h) + S'.b i)
          = e * S'.b i * (1 - u) ^ 2 + e * S'.b (i + 1) * u ^ 2
            + 2 * (u * (1 - u)) * (3 * (e * w) - e * S'.b i - e * S'.b (i + 1)) := by
        linear_combination 3 * e * u ^ 2 * hd + 2 * e * u * hc
      rw [this]
      exact key
  have chain : ∀ e : ℝ, (∀ i, i + 1 < n → e * y i ≤ e * y (i + 1)) →
      ∀ i j, i ≤ j → j < n → e * y i ≤ e * y j := by
    intro e h i j hij hj
    induction j, hij using Nat.le_induction with
    | base => exact le_rfl
    | succ j _ ih => exact (ih (by omega)).trans (h j hj)
  constructor
  · intro h
    have := main 1 (Or.inl rfl) (chain 1 (by intro i hi; linarith [h i hi]))
    simpa using this
  · intro h
    have := main (-1) (Or.inr rfl) (chain (-1) (by intro i hi; linarith [h i hi]))
    intro u hu v hv huv
    have := this hu hv huv
    simp only [neg_mul, one_mul] at this
    linarith

/-- `make_monotonic` still passes through the points and says whether it changed the spline. -/
theorem C64_make_monotonic_interpolates (s : Spl ℝ) (n : Nat) (x y : Nat → ℝ) (type : SplineType)
    (ht : type ≠ .linear) (hp : Spec.Points s n x) :
    (∀ i < n, eval (makeMonotonic (setPoints s n x y type)).1 (x i) = y i) ∧
    ((makeMonotonic (setPoints s n x y type)).2 = false →
      (makeMonotonic (setPoints s n x y type)).1 = setPoints s n x y type) ∧
    (makeMonotonic (setPoints s n x y type)).1.madeMonotonic
      = (makeMonotonic (setPoints s n x y type)).2 := by
  have h3 := hp.three
  refine ⟨fun i hi => ?_, ?_, ?_⟩
  · have f := setPoints_fits s n x y type hp.three hp.incr
    obtain ⟨e1, e2, e3⟩ := setPoints_n s n x y type
    generalize setPoints s n x y type = S at f e1 e2 e3
    subst e1; subst e2; subst e3
    have hS : ∃ S' : Spl ℝ, (makeMonotonic S).1 = S' ∧ Fits S' ∧ S'.n = S.n ∧ S'.x = S.x ∧
        S'.y = S.y := by
      simp only [makeMonotonic]
      split_ifs with hm
      · have hc := coeffs_fit { S with b := ((List.range (S.n - 1)).foldl (monoScale S.x S.y)
          ((List.range S.n).foldl (monoSign S.n S.y) { b := S.b, modified := false })).b }
          f.two f.incr f.last
        exact ⟨_, rfl, ⟨hc.1.two, hc.1.incr, hc.1.value, hc.1.last⟩, rfl, rfl, rfl⟩
      · exact ⟨S, rfl, f, rfl, rfl, rfl⟩
    obtain ⟨S', hS', F, g1, g2, g3⟩ := hS
    rw [hS', ← g2, ← g3]
    rw [← g1] at hi h3
    by_cases h : i + 1 < S'.n
    · rw [eval_piece _ F i h _ le_rfl (F.incr i h).le]; simp
    · obtain rfl : i = S'.n - 1 := by omega
      rw [eval_right _ F _ le_rfl]; simp
  · simp only [makeMonotonic]
    split_ifs <;> simp
  · simp only [makeMonotonic]
    split_ifs with hm
    · rfl
    · cases type <;> simp [setPoints, setLinear, setCspline, setHermite, setCoeffsFromB]

example : ∃ y : Nat → ℝ, (∀ i, i + 1 < 4 → y i ≤ y (i + 1)) ∧ y 0 ≠ y 3 :=
  ⟨fun i => i, fun i _ => by push_cast; linarith, by norm_num⟩

end Verif.Spline
