import Verif.Spline.PathProps

/-!
# Ends, slopes and second derivatives of splines (C64, C65)
-/

namespace Verif.Spline

section Field

variable {K : Type} [Field K] [LinearOrder K] [IsStrictOrderedRing K]

/-- The conditions given to `set_boundary` are those the spline meets, on the right … -/
theorem C64_set_boundary (s : Spl K) (left right : Bd) (a b : K) (n : Nat) (x y : Nat → K)
    (hp : Spec.Points (setBoundary s left a right b) n x) :
    (right = .first → deriv (setPoints (setBoundary s left a right b) n x y .cspline) 1 (x (n - 1)) = b) ∧
    (right = .second → deriv (setPoints (setBoundary s left a right b) n x y .cspline) 2 (x (n - 1)) = b) ∧
    (left = .first → right ≠ .notAKnot →
      deriv (setPoints (setBoundary s left a right b) n x y .cspline) 1 (x 0) = a) ∧
    (left = .second → right ≠ .notAKnot →
      deriv (setPoints (setBoundary s left a right b) n x y .cspline) 2 (x 0) = a) := by
  obtain ⟨r1, r2, -⟩ := C64_boundary_right _ n x y hp
  obtain ⟨l1, l2, -⟩ := C64_boundary_left_partial _ n x y hp
  exact ⟨r1, r2, l1, l2⟩

/-- The second derivative of a hermite spline has no jump at the last point unless the slope there is prescribed. -/
theorem C64_hermite_curvature (s : Spl K) (n : Nat) (x y : Nat → K) (hp : Spec.Points s n x) (hr : s.right ≠ .first)
    (t : K) (h1 : x (n - 2) ≤ t) (h2 : t < x (n - 1)) :
    deriv (setPoints s n x y .hermite) 2 t = deriv (setPoints s n x y .hermite) 2 (x (n - 1)) +
      deriv (setPoints s n x y .hermite) 3 t * (t - x (n - 1)) := by
  have h3 := hp.three
  have hx : Increasing n x := hp.incr
  obtain ⟨f, f1⟩ := hermite_fits s n x y h3 hx
  obtain ⟨m, rfl⟩ : ∃ m, n = m + 3 := ⟨n - 3, by omega⟩
  simp only [show m + 3 - 1 = m + 2 by omega, show m + 3 - 2 = m + 1 by omega] at h1 h2 ⊢
  have hne : x (m + 2) - x (m + 1) ≠ 0 := (sub_pos.2 (hx (m + 1) (by omega))).ne'
  have hc : (setHermite s (m + 3) x y).c (m + 1) = coeffC x y (setHermite s (m + 3) x y).b (m + 1) := by
    simp only [setHermite, setCoeffsFromB]
    rw [if_pos (by omega)]
  have hd : (setHermite s (m + 3) x y).d (m + 1) = coeffD x y (setHermite s (m + 3) x y).b (m + 1) := by
    simp only [setHermite, setCoeffsFromB]
    rw [if_pos (by omega)]
  have hcl : (setHermite s (m + 3) x y).c (m + 2) = hermiteLastC s (m + 3) x y (setHermite s (m + 3) x y).b := by
    simp only [setHermite, setCoeffsFromB]
    rw [if_neg (by omega)]
  have hbl : (setHermite s (m + 3) x y).b (m + 2) = hermiteLast s (m + 3) x y
      (setVec (hermiteB x y) 0 (hermiteFirst s x y (hermiteB x y))) := by
    simp only [setHermite, setCoeffsFromB, setVec]
    rw [if_pos (by omega)]
  have hbi : (setHermite s (m + 3) x y).b (m + 1) =
      setVec (hermiteB x y) 0 (hermiteFirst s x y (hermiteB x y)) (m + 1) := by
    simp only [setHermite, setCoeffsFromB, setVec]
    rw [if_neg (by omega)]
  have e2 := deriv2_piece _ f (m + 1) (show m + 1 + 1 < m + 3 by omega) t h1 h2
  have e3 := deriv3_piece _ f (m + 1) (show m + 1 + 1 < m + 3 by omega) t h1 h2
  have el := deriv2_right _ f (x (m + 2)) (show x (m + 3 - 1) ≤ _ from le_rfl)
  change deriv (setHermite s (m + 3) x y) 2 t = 6 * (setHermite s (m + 3) x y).d (m + 1) * (t - x (m + 1)) +
    2 * (setHermite s (m + 3) x y).c (m + 1) at e2
  change deriv (setHermite s (m + 3) x y) 2 (x (m + 2)) = 2 * (setHermite s (m + 3) x y).c (m + 2) at el
  simp only [setPoints]
  rw [e2, e3, el, hcl, hc, hd]
  simp only [coeffD, coeffC, show m + 1 + 1 = m + 2 by omega]
  cases hrt : s.right with
  | first => exact absurd hrt hr
  | second =>
    rw [hbl, hbi]
    simp only [hermiteLast, hermiteLastC, hrt, show m + 3 - 1 = m + 2 by omega, show m + 3 - 2 = m + 1 by omega]
    field_simp
    ring
  | notAKnot =>
    simp only [hermiteLastC, hrt, show m + 3 - 1 = m + 2 by omega, show m + 3 - 2 = m + 1 by omega]
    field_simp
    ring

example (y : Nat → ℚ) : deriv (setPoints (setBoundary (fresh ℚ) .second 0 .second 5) 4 (fun i => i) y .hermite) 2
    (5 / 2 : ℚ) = deriv (setPoints (setBoundary (fresh ℚ) .second 0 .second 5) 4 (fun i => i) y .hermite) 2 ((3 : ℕ) : ℚ) +
      deriv (setPoints (setBoundary (fresh ℚ) .second 0 .second 5) 4 (fun i => i) y .hermite) 3 (5 / 2 : ℚ) *
        (5 / 2 - ((3 : ℕ) : ℚ)) :=
  C64_hermite_curvature _ 4 _ y ⟨by norm_num, (by rintro (h | h) <;> cases h), by
    intro i _; exact_mod_cast Nat.lt_succ_self i⟩ (by simp [setBoundary]) _ (by norm_num) (by norm_num)

example (y : Nat → ℚ) :
    deriv (setPoints (setBoundary (fresh ℚ) .second 0 .first 5) 4 (fun i => i) y .cspline) 1 ((3 : ℕ) : ℚ) = 5 :=
  (C64_set_boundary (fresh ℚ) .second .first 0 5 4 (fun i => i) y ⟨by norm_num, (by rintro (h | h) <;> cases h), by
    intro i _; exact_mod_cast Nat.lt_succ_self i⟩).1 rfl

end Field

/-- A spline through increasing data whose slopes are not negative and small enough in every interval is left alone by
`make_monotonic`. -/
theorem C64_make_monotonic_keeps (s : Spl ℝ) (hn : 2 ≤ s.n) (hx : ∀ i, i + 1 < s.n → s.x i < s.x (i + 1))
    (hy : ∀ i, i + 1 < s.n → s.y i < s.y (i + 1)) (hb : ∀ i < s.n, 0 ≤ s.b i)
    (hs : ∀ i, i + 1 < s.n → s.b i ^ 2 + s.b (i + 1) ^ 2 ≤ (3 * ((s.y (i + 1) - s.y i) / (s.x (i + 1) - s.x i))) ^ 2) :
    makeMonotonic s = (s, false) := by
  have first : ∀ i, i < s.n → monoSign s.n s.y ⟨s.b, false⟩ i = ⟨s.b, false⟩ := by
    intro i hi
    unfold monoSign
    rw [if_neg]
    rintro (⟨-, -, h⟩ | ⟨h1, h2, h3⟩)
    · exact absurd (hb i hi) (not_le.2 h)
    · by_cases hl : i + 1 < s.n
      · have := hy i hl
        simp only [Nat.min_eq_left (by omega : i + 1 ≤ s.n - 1)] at h2
        linarith
      · have := hy (i - 1) (by omega)
        rw [Nat.sub_add_cancel (by omega)] at this
        linarith
  have second : ∀ i, i + 1 < s.n → monoScale s.x s.y ⟨s.b, false⟩ i = ⟨s.b, false⟩ := by
    intro i hi
    have ha : 0 < (s.y (i + 1) - s.y i) / (s.x (i + 1) - s.x i) :=
      div_pos (sub_pos.2 (hy i hi)) (sub_pos.2 (hx i hi))
    have hi' := hs i hi
    unfold monoScale
    simp only
    generalize (s.y (i + 1) - s.y i) / (s.x (i + 1) - s.x i) = avg at *
    rw [if_neg (fun h => ha.ne' h.1)]
    split
    · rw [if_neg]
      rw [not_lt, abs_of_pos ha, div_le_iff₀ ha]
      refine Real.sqrt_le_iff.2 ⟨by positivity, ?_⟩
      linarith [hi', sq (s.b i), sq (s.b (i + 1))]
    · rfl
  have fold : ∀ (g : Mono → Nat → Mono) (l : List Nat), (∀ i ∈ l, g ⟨s.b, false⟩ i = ⟨s.b, false⟩) →
      l.foldl g ⟨s.b, false⟩ = ⟨s.b, false⟩ := by
    intro g l
    induction l with
    | nil => intro _; rfl
    | cons a l ih =>
      intro h
      rw [List.foldl_cons, h a (by simp)]
      exact ih fun i hi => h i (by simp [hi])
  unfold makeMonotonic
  simp only
  rw [fold _ _ fun i hi => first i (List.mem_range.1 hi), fold _ _ fun i hi => second i (by
    have := List.mem_range.1 hi; omega)]
  simp

example : makeMonotonic { fresh ℝ with n := 3, x := fun i => i, y := fun i => i, b := fun _ => 1 } =
    ({ fresh ℝ with n := 3, x := fun i => i, y := fun i => i, b := fun _ => 1 }, false) :=
  C64_make_monotonic_keeps _ (by norm_num) (fun i _ => by simp) (fun i _ => by simp) (fun i _ => by norm_num)
    (fun i _ => by simp; norm_num)

/-- The second derivative along the path is the one of the chain rule for the parameter with speed 1. -/
theorem C65_second (p : Path) (l : ℝ) (j : Nat) (h : Spline.deriv p.xToL 1 (eval p.lToX l) ≠ 0) :
    p.deriv 2 (eval p.lToX l) j = p.d2l l j * Spline.deriv p.xToL 1 (eval p.lToX l) ^ 2 +
      p.dl l j * Spline.deriv p.xToL 2 (eval p.lToX l) := by
  unfold Path.d2l
  field_simp
  ring

end Verif.Spline
