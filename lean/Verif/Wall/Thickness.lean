import Verif.Wall.Props
import Mathlib.LinearAlgebra.Lagrange
import Mathlib.Topology.Algebra.Polynomial
import Mathlib.Topology.Order.LocalExtr
import Mathlib.Topology.MetricSpace.Pseudo.Defs
import Mathlib.Tactic.FieldSimp
import Mathlib.Tactic.Positivity
import Mathlib.Tactic.FinCases
import Mathlib.Tactic.IntervalCases

set_option linter.unusedSimpArgs false

/-!
# C86 and C87: the wall thickness

The thickness of the wall is the electroweak vacuum expectation value divided by `√(8 V_b)`, where `V_b` is
the height of the barrier between the two minima.
-/

namespace Verif.Wall

open Outcome

namespace Spec

/-- A spline through values at equidistant knots takes these values. -/
def Interpolates (spline : List ℝ → ℝ → ℝ → ℝ → ℝ) : Prop :=
  ∀ (l : List ℝ) (a h : ℝ), 0 < h → ∀ (i : Nat) (x : ℝ), l[i]? = some x → spline l a h (a + i * h) = x

/-- The minimiser returns the least value of a function in an interval. -/
def Minimises (brent : (ℝ → ℝ) → ℝ → ℝ → ℝ) (f : ℝ → ℝ) : Prop :=
  ∀ a b, a ≤ b → IsLeast (f '' Set.Icc a b) (brent f a b)

/-- The point at the fraction `t` of the way from one point to another. -/
def between (vsym vcrit : List ℝ) (t : ℝ) : List ℝ :=
  List.zipWith (fun s c => (1 - t) * s + t * c) vsym vcrit

/-- The thickness of a wall with a barrier of the given height. -/
noncomputable def wall (vc barrier : ℝ) : ℝ := vc / √(8 * barrier)

/-- What the result `L` means: it comes from the barrier of a function that agrees with the potential `V`
at eleven points from one minimum to the other. -/
def IsThickness (vc : ℝ) (V : List ℝ → ℝ) (vsym vcrit : List ℝ) (L : ℝ) : Prop :=
  ∃ (F : ℝ → ℝ) (top : ℝ),
    (∀ j : Nat, j ≤ 10 → F (j / 10) = V (between vsym vcrit (j / 10))) ∧
    IsGreatest (F '' Set.Icc 0 1) top ∧
    V vsym ≤ top ∧ V vcrit ≤ top ∧ L = wall vc (top - min (V vsym) (V vcrit))

end Spec

open Spec

theorem basePoint_eq (vsym vcrit : List ℝ) (n : Nat) :
    basePoint vsym vcrit n = between vsym vcrit (n / 10) := by
  simp only [basePoint, between, maxstep]
  congr 1
  funext s c
  push_cast
  ring

theorem between_zero (vsym vcrit : List ℝ) (h : vcrit.length = vsym.length) :
    between vsym vcrit 0 = vsym := by
  apply List.ext_getElem
  · simp [between, h]
  · intro i h1 h2
    simp [between]

theorem between_one (vsym vcrit : List ℝ) (h : vcrit.length = vsym.length) :
    between vsym vcrit 1 = vcrit := by
  apply List.ext_getElem
  · simp [between, h]
  · intro i h1 h2
    simp [between]

theorem basePoints_numbered (vsym vcrit : List ℝ) : Numbered (basePoints vsym vcrit) := by
  intro i d h
  simp only [basePoints, List.getElem?_map, Option.map_eq_some_iff] at h
  obtain ⟨a, ha, rfl⟩ := h
  have := List.getElem?_eq_some_iff.1 ha
  obtain ⟨h1, h2⟩ := this
  simpa using h2.symm

/-- Whatever the schedule, once all threads have finished the result is the thickness of the wall. -/
theorem C86_thickness (spline : List ℝ → ℝ → ℝ → ℝ → ℝ) (brent : (ℝ → ℝ) → ℝ → ℝ → ℝ)
    (hs : Interpolates spline) (hb : ∀ l a h, Minimises brent (spline l a h)) (vc : ℝ) (V : List ℝ → ℝ)
    (threads : Nat) (hp : 0 < threads) (schedule : List Nat) (vsym vcrit : List ℝ)
    (hl : vcrit.length = vsym.length) (L : ℝ)
    (hr : planeThickness spline brent vc V threads schedule vsym vcrit = ok (some L)) :
    IsThickness vc V vsym vcrit L := by
  unfold planeThickness at hr
  rw [if_neg (by simpa using hl)] at hr
  cases hrun : run (basePoints vsym vcrit) V (start (basePoints vsym vcrit) threads) schedule with
  | err e => rw [hrun] at hr; cases hr
  | ub u => rw [hrun] at hr; cases hr
  | ok s =>
    rw [hrun] at hr
    simp only [Outcome.bind, Outcome.ok.injEq] at hr
    split at hr
    · rename_i hall
      simp only [Option.some.injEq] at hr
      have hdata := C86_every_schedule _ (basePoints_numbered vsym vcrit) V threads hp schedule s hrun
        (by
          intro p hp
          have := List.all_eq_true.1 hall p hp
          cases p <;> simp_all [Finished])
      have hval : ∀ j : Nat, j ≤ 10 → s.data[j]? = some (-V (between vsym vcrit (j / 10))) := by
        intro j hj
        rw [hdata, sequential, basePoints]
        simp only [List.map_map, List.getElem?_map, maxstep]
        rw [List.getElem?_range (by omega)]
        simp [basePoint_eq]
      have hspl : ∀ j : Nat, j ≤ 10 → spline s.data 0 (1 / 10) (j / 10) = -V (between vsym vcrit (j / 10)) := by
        intro j hj
        have := hs s.data 0 (1 / 10) (by norm_num) j _ (hval j hj)
        rw [show (0 : ℝ) + j * (1 / 10) = j / 10 by ring] at this
        exact this
      have h0 := hspl 0 (by omega)
      have h1 := hspl 10 (by omega)
      rw [show ((0 : ℕ) : ℝ) / 10 = 0 by norm_num, between_zero _ _ hl] at h0
      rw [show ((10 : ℕ) : ℝ) / 10 = 1 by norm_num, between_one _ _ hl] at h1
      obtain ⟨⟨x, hx, hxv⟩, hlow⟩ := hb s.data 0 (1 / 10) 0 1 (by norm_num)
      have hlow' : ∀ y ∈ Set.Icc (0 : ℝ) 1, brent (spline s.data 0 (1 / 10)) 0 1 ≤ spline s.data 0 (1 / 10) y :=
        fun y hy => hlow ⟨y, hy, rfl⟩
      refine ⟨fun t => -spline s.data 0 (1 / 10) t, -brent (spline s.data 0 (1 / 10)) 0 1, ?_, ?_, ?_, ?_, ?_⟩
      · intro j hj
        simp only [hspl j hj, neg_neg]
      · refine ⟨⟨x, hx, by simp only [hxv]⟩, ?_⟩
        rintro _ ⟨y, hy, rfl⟩
        have := hlow' y hy
        simp only
        linarith
      · have := hlow' 0 (by simp)
        linarith
      · have := hlow' 1 (by simp)
        linarith
      · rw [← hr, thickness, wall]
        simp only [maxstep, Nat.cast_ofNat]
        rw [h0, h1, neg_neg, neg_neg]
    · cases hr

/-- Vacuum expectation values of different lengths are refused. -/
theorem C86_sizes (spline : List ℝ → ℝ → ℝ → ℝ → ℝ) (brent : (ℝ → ℝ) → ℝ → ℝ → ℝ) (vc : ℝ)
    (V : List ℝ → ℝ) (threads : Nat) (schedule : List Nat) (vsym vcrit : List ℝ) :
    planeThickness spline brent vc V threads schedule vsym vcrit = err .runtime ↔
      vcrit.length ≠ vsym.length := by
  unfold planeThickness
  by_cases h : vcrit.length ≠ vsym.length
  · rw [if_pos h]; exact ⟨fun _ => h, fun _ => rfl⟩
  · rw [if_neg h]
    refine ⟨fun hr => ?_, fun hn => absurd hn h⟩
    exfalso
    have key : ∀ (ts : List Nat) (s : State ℝ (List ℝ)), Inv (basePoints vsym vcrit) V s →
        run (basePoints vsym vcrit) V s ts ≠ err .runtime := by
      intro ts
      induction ts with
      | nil => intro s _ hr; cases hr
      | cons t ts ih =>
        intro s hi hr
        rw [run] at hr
        cases hst : step (basePoints vsym vcrit) V s t with
        | ok s' =>
          rw [hst] at hr
          exact ih s' (inv_step (basePoints_numbered _ _) V hi t hst) hr
        | ub u => rw [hst] at hr; cases hr
        | err e =>
          rw [hst] at hr
          have : e = .runtime := by injection hr
          subst this
          unfold step at hst
          split at hst
          · cases hst
          · cases hst
          · cases hst
          · split at hst <;> cases hst
          · split at hst <;> cases hst
    cases hrun : run (basePoints vsym vcrit) V (start (basePoints vsym vcrit) threads) schedule with
    | ok s => rw [hrun] at hr; cases hr
    | ub u => rw [hrun] at hr; cases hr
    | err e =>
      rw [hrun] at hr
      have : e = .runtime := by injection hr
      subst this
      exact key schedule _ (inv_start _ _ _) hrun

/-! ### Interpolation and minimisation as assumed exist -/

/-- Interpolation by a polynomial. -/
noncomputable def polySpline (l : List ℝ) (a h x : ℝ) : ℝ :=
  (Lagrange.interpolate (Finset.range l.length) (fun i : ℕ => a + i * h) (fun i => l.getD i 0)).eval x

noncomputable def leastValue (f : ℝ → ℝ) (a b : ℝ) : ℝ := sInf (f '' Set.Icc a b)

theorem polySpline_interpolates : Interpolates polySpline := by
  intro l a h hh i x hx
  unfold polySpline
  have hlt : i < l.length := (List.getElem?_eq_some_iff.1 hx).1
  have := Lagrange.eval_interpolate_at_node (s := Finset.range l.length) (v := fun i : ℕ => a + i * h)
    (fun i => l.getD i 0) (i := i)
    (by
      intro p _ q _ hpq
      simp only [add_right_inj] at hpq
      have := mul_right_cancel₀ hh.ne' hpq
      exact_mod_cast this)
    (Finset.mem_range.2 hlt)
  rw [this]
  simp [List.getD, hx]

theorem leastValue_minimises (l : List ℝ) (a h : ℝ) : Minimises leastValue (polySpline l a h) := by
  intro p q hpq
  exact ((isCompact_Icc).image (Polynomial.continuous _)).isLeast_sInf
    ((Set.nonempty_Icc.2 hpq).image _)

/-- The hypotheses of `C86_thickness` hold for two threads and a suitable schedule. -/
example : ∃ schedule L, planeThickness polySpline leastValue 1 (fun v => v.sum) 2 schedule [0, 0] [1, 2] =
    ok (some L) := by
  obtain ⟨ts, s, hr, -, hd⟩ := C86_completes (basePoints [0, 0] [1, 2]) (basePoints_numbered _ _)
    (fun v => v.sum) 2 (by norm_num)
  refine ⟨ts, thickness polySpline leastValue 1 s.data, ?_⟩
  unfold planeThickness
  rw [if_neg (by simp), hr, Outcome.bind, if_pos]
  rw [List.all_eq_true]
  intro p hp
  have := hd p hp
  cases p <;> first | rfl | exact this.elim

/-! ## C87: the one-dimensional search -/

theorem choose_cases {K : Type} [LinearOrder K] (first : K × K) (rest : List (K × K)) :
    ∃ pre post, first :: rest = pre ++ choose first rest :: post ∧
      (∀ s ∈ pre, s.2 < (choose first rest).2) ∧ ∀ s ∈ post, s.2 ≤ (choose first rest).2 := by
  induction rest using List.reverseRecOn with
  | nil => exact ⟨[], [], rfl, by simp, by simp⟩
  | append_singleton rest s ih =>
    obtain ⟨pre, post, he, h1, h2⟩ := ih
    have hc : choose first (rest ++ [s]) =
        if (choose first rest).2 < s.2 then s else choose first rest := by
      rw [choose, List.foldl_append]
      rfl
    rw [hc]
    by_cases h : (choose first rest).2 < s.2
    · rw [if_pos h]
      refine ⟨first :: rest, [], by simp, ?_, by simp⟩
      intro x hx
      rw [he] at hx
      rcases List.mem_append.1 hx with hx | hx
      · exact (h1 x hx).trans h
      · rcases List.mem_cons.1 hx with rfl | hx
        · exact h
        · exact (h2 x hx).trans_lt h
    · rw [if_neg h]
      refine ⟨pre, post ++ [s], by rw [← List.cons_append, he]; simp, h1, ?_⟩
      intro x hx
      rcases List.mem_append.1 hx with hx | hx
      · exact h2 x hx
      · rw [List.mem_singleton] at hx
        subst hx
        exact not_lt.1 h

/-- Among the solutions of the minimiser of `−V` the program chooses the first of those with the LARGEST
value of `−V`, that is the lowest barrier it has found. -/
theorem C87_choice {K : Type} [LinearOrder K] (first : K × K) (rest : List (K × K)) :
    ∃ pre post, first :: rest = pre ++ choose first rest :: post ∧
      (∀ s ∈ pre, s.2 < (choose first rest).2) ∧ ∀ s ∈ post, s.2 ≤ (choose first rest).2 :=
  choose_cases first rest

theorem lineValue_eq (V : List ℝ → ℝ) (vcrit vsym : List ℝ) (h : vcrit.length = vsym.length) (t : ℝ) :
    lineValue V vcrit vsym t = -V (between vsym vcrit t) := by
  rw [lineValue, neg_one_mul]
  congr 2
  apply List.ext_getElem
  · simp [between, h]
  · intro i h1 h2
    simp only [between, List.getElem_zipWith]
    ring

theorem between_origin (vcrit : List ℝ) (t : ℝ) :
    between (vcrit.map fun _ => 0) vcrit t = vcrit.map fun v => t * v := by
  apply List.ext_getElem
  · simp [between]
  · intro i h1 h2
    simp [between]

/-- If the symmetric minimum is the origin and every solution is a highest point between the minima, the
result is the thickness for the true barrier.  What is missing: several barriers of different height, and a
symmetric minimum that is not the origin, see the two theorems below. -/
theorem C87_thickness_partial (V : List ℝ → ℝ) (vcrit : List ℝ) (vc : ℝ) (first : ℝ × ℝ)
    (rest : List (ℝ × ℝ))
    (hsol : ∀ s ∈ first :: rest, s.1 ∈ Set.Icc (0 : ℝ) 1 ∧
      s.2 = lineValue V vcrit (vcrit.map fun _ => 0) s.1 ∧
      ∀ t ∈ Set.Icc (0 : ℝ) 1, V (between (vcrit.map fun _ => 0) vcrit t) ≤
        V (between (vcrit.map fun _ => 0) vcrit s.1))
    (top : ℝ) (htop : IsGreatest ((fun t => V (between (vcrit.map fun _ => 0) vcrit t)) '' Set.Icc 0 1) top)
    (hbar : min (V (vcrit.map fun _ => 0)) (V vcrit) < top) :
    V (maximumLine V vcrit first rest).1 = top ∧
      (maximumLine V vcrit first rest).2 = top - min (V (vcrit.map fun _ => 0)) (V vcrit) ∧
      thickness1D vc (maximumLine V vcrit first rest).2 =
        wall vc (top - min (V (vcrit.map fun _ => 0)) (V vcrit)) := by
  obtain ⟨pre, post, he, -, -⟩ := choose_cases first rest
  have hm : choose first rest ∈ first :: rest := by rw [he]; simp
  obtain ⟨h1, h2, h3⟩ := hsol _ hm
  have hV : V (maximumLine V vcrit first rest).1 = top := by
    simp only [maximumLine]
    rw [← between_origin]
    obtain ⟨t, ht, htv⟩ := htop.1
    exact le_antisymm (htop.2 ⟨_, h1, rfl⟩) (htv ▸ h3 t ht)
  have hh : (maximumLine V vcrit first rest).2 =
      top - min (V (vcrit.map fun _ => 0)) (V vcrit) := by
    rw [← hV]
    rfl
  refine ⟨hV, hh, ?_⟩
  rw [hh, thickness1D, if_pos (by
    have := sub_pos.2 hbar
    exact this.ne'), wall]

/-- A potential with two barriers between its minima at 0 and 1, in one direction. -/
noncomputable def twoBarriers (v : List ℝ) : ℝ :=
  let x := 4 * v.headD 0 - 1;
  -(x ^ 4 / 4 - 7 * x ^ 3 / 6 + 3 * x ^ 2 / 2)

/-- The property fails when there are two barriers: both maxima are among the solutions, the program takes
the lower one, and the wall it reports is thicker than the wall of the true barrier. -/
theorem C87_two_barriers_fails :
    ∃ (V : List ℝ → ℝ) (vcrit : List ℝ) (first : ℝ × ℝ) (rest : List (ℝ × ℝ)) (top : ℝ),
      (∀ s ∈ first :: rest, s.1 ∈ Set.Ioo (0 : ℝ) 1 ∧ s.2 = lineValue V vcrit [0] s.1 ∧
        IsLocalMax (fun t => V (between [0] vcrit t)) s.1) ∧
      IsGreatest ((fun t => V (between [0] vcrit t)) '' Set.Icc 0 1) top ∧
      (∃ s ∈ first :: rest, V (between [0] vcrit s.1) = top) ∧
      (maximumLine V vcrit first rest).2 < top - min (V [0]) (V vcrit) ∧
      wall 1 (top - min (V [0]) (V vcrit)) < thickness1D 1 (maximumLine V vcrit first rest).2 := by
  have hf : ∀ t : ℝ, twoBarriers (between [0] [1] t) =
      -((4 * t - 1) ^ 4 / 4 - 7 * (4 * t - 1) ^ 3 / 6 + 3 * (4 * t - 1) ^ 2 / 2) := by
    intro t
    simp [between, twoBarriers]
  have e1 : twoBarriers [1] = -(9 / 4) := by simp only [twoBarriers, List.headD_cons]; norm_num
  have e0 : twoBarriers [0] = -(35 / 12) := by simp only [twoBarriers, List.headD_cons]; norm_num
  have em : min (twoBarriers [0]) (twoBarriers [1]) = -(35 / 12) := by
    rw [e0, e1]; norm_num
  have v1 : lineValue twoBarriers [1] [0] (1 / 4) = 0 := by
    rw [lineValue_eq twoBarriers [1] [0] rfl, hf]; norm_num
  have v2 : lineValue twoBarriers [1] [0] (3 / 4) = 2 / 3 := by
    rw [lineValue_eq twoBarriers [1] [0] rfl, hf]; norm_num
  have hmax : ∀ t : ℝ, twoBarriers (between [0] [1] t) ≤ 0 := by
    intro t
    rw [hf]
    nlinarith [mul_nonneg (sq_nonneg (4 * t - 1)) (sq_nonneg ((4 * t - 1) / 2 - 7 / 6)),
      sq_nonneg (4 * t - 1)]
  have hml : (maximumLine twoBarriers [1] (1 / 4, 0) [(3 / 4, 2 / 3)]).2 = 9 / 4 := by
    have hc : choose ((1 / 4 : ℝ), (0 : ℝ)) [(3 / 4, 2 / 3)] = (3 / 4, 2 / 3) := by
      simp only [choose, List.foldl_cons, List.foldl_nil]
      rw [if_pos (by norm_num)]
    simp only [maximumLine, hc, List.map_cons, List.map_nil, em]
    simp only [twoBarriers, List.headD_cons]
    norm_num
  refine ⟨twoBarriers, [1], (1 / 4, 0), [(3 / 4, 2 / 3)], 0, ?_, ?_, ?_, ?_, ?_⟩
  · intro s hs
    simp only [List.mem_cons, List.not_mem_nil, or_false] at hs
    rcases hs with rfl | rfl
    · refine ⟨by constructor <;> norm_num, v1.symm, ?_⟩
      refine Filter.Eventually.of_forall fun t => ?_
      have := hmax t
      have h4 : twoBarriers (between [0] [1] (1 / 4)) = 0 := by rw [hf]; norm_num
      simp only [h4]
      exact this
    · refine ⟨by constructor <;> norm_num, v2.symm, ?_⟩
      have : Set.Ioo (5 / 8 : ℝ) (7 / 8) ∈ nhds (3 / 4 : ℝ) :=
        Ioo_mem_nhds (by norm_num) (by norm_num)
      filter_upwards [this] with t ht
      simp only [hf]
      obtain ⟨ht1, ht2⟩ := ht
      have hq : 0 ≤ (4 * t - 1) ^ 2 / 4 - (4 * t - 1) / 6 - 1 / 6 := by nlinarith
      have := mul_nonneg (sq_nonneg (4 * t - 1 - 2)) hq
      nlinarith
  · refine ⟨⟨1 / 4, by constructor <;> norm_num, by simp only [hf]; norm_num⟩, ?_⟩
    rintro _ ⟨t, -, rfl⟩
    exact hmax t
  · exact ⟨(1 / 4, 0), by simp, by rw [hf]; norm_num⟩
  · rw [hml, em]; norm_num
  · rw [hml, em, wall, thickness1D, if_pos (by norm_num)]
    apply div_lt_div_of_pos_left one_pos (Real.sqrt_pos.2 (by norm_num))
    exact Real.sqrt_lt_sqrt (by norm_num) (by norm_num)

/-- The property fails when the symmetric minimum is not the origin: the search is along the line from it to
the broken minimum, but the height is taken at a point of the line from the origin, and can be negative, so
that the square root is taken of a negative number. -/
theorem C87_symmetric_vev_fails :
    ∃ (V : List ℝ → ℝ) (vcrit vsym : List ℝ) (t : ℝ),
      vcrit.length = vsym.length ∧ t ∈ Set.Ioo (0 : ℝ) 1 ∧
      IsGreatest ((fun t => V (between vsym vcrit t)) '' Set.Icc 0 1) (V (between vsym vcrit t)) ∧
      0 < V (between vsym vcrit t) - min (V vsym) (V vcrit) ∧
      (maximumLine V vcrit (t, lineValue V vcrit vsym t) []).2 < 0 := by
  refine ⟨fun v => -(v.headD 0 * (1 - v.headD 0)) + 8 * (v.headD 0 * v.tail.headD 0), [1, 0], [0, 1], 1 / 2,
    rfl, by constructor <;> norm_num, ⟨⟨1 / 2, by constructor <;> norm_num, rfl⟩, ?_⟩, ?_, ?_⟩
  · rintro _ ⟨t, -, rfl⟩
    simp [between]
    nlinarith [sq_nonneg (t - 1 / 2)]
  · simp [between]
    norm_num
  · simp [maximumLine, choose]
    norm_num

/-- The hypotheses of `C87_thickness_partial` hold for a potential with one barrier. -/
example : ∃ (V : List ℝ → ℝ) (vcrit : List ℝ) (s : ℝ × ℝ) (top : ℝ),
    (∀ s' ∈ s :: [], s'.1 ∈ Set.Icc (0 : ℝ) 1 ∧ s'.2 = lineValue V vcrit (vcrit.map fun _ => 0) s'.1 ∧
      ∀ t ∈ Set.Icc (0 : ℝ) 1, V (between (vcrit.map fun _ => 0) vcrit t) ≤
        V (between (vcrit.map fun _ => 0) vcrit s'.1)) ∧
    IsGreatest ((fun t => V (between (vcrit.map fun _ => 0) vcrit t)) '' Set.Icc 0 1) top ∧
    min (V (vcrit.map fun _ => 0)) (V vcrit) < top := by
  refine ⟨fun v => v.headD 0 * (1 - v.headD 0), [1], (1 / 2, -(1 / 4)), 1 / 4, ?_, ⟨⟨1 / 2, ?_, ?_⟩, ?_⟩, ?_⟩
  · intro s' hs
    rw [List.mem_singleton] at hs
    subst hs
    refine ⟨by constructor <;> norm_num, ?_, ?_⟩
    · simp [lineValue]; norm_num
    · intro t _
      simp [between]
      nlinarith [sq_nonneg (t - 1 / 2)]
  · constructor <;> norm_num
  · simp [between]; norm_num
  · rintro _ ⟨t, -, rfl⟩
    simp [between]
    nlinarith [sq_nonneg (t - 1 / 2)]
  · simp

end Verif.Wall
