import Verif.Action.ExactProps
import Verif.Action.ShootProps
import Verif.Action.RKProps
import Verif.Action.DeformProps
import Verif.Action.CalcProps

set_option linter.unusedSectionVars false

/-!
# Details of the bounce solution (C67 to C71)
-/

namespace Verif.Action

section Field

variable {K : Type} [Field K] [LinearOrder K] [IsStrictOrderedRing K]

/-- The system that is integrated is `l'' + alpha l' / rho = dV/dl` as two equations of first order. -/
theorem C67_equation (dV : K → K) (alpha rho : K) (v : Nat → K) :
    auxDev dV alpha rho v 0 = v 1 ∧ auxDev dV alpha rho v 1 + alpha * v 1 / rho = dV (v 0) := by
  refine ⟨rfl, ?_⟩
  change (if v 1 = 0 then dV (v 0) else dV (v 0) - alpha * v 1 / rho) + alpha * v 1 / rho = dV (v 0)
  split
  · next h => simp [h]
  · ring

/-- The steps of a search for the minimum. -/
def Spec.stepFrom (move : K → K) (l : K) : K := l - move l

/-- When such a step counts as the end of the search: it is short, the curvature is positive and the point is at most at
one hundredth of the path. -/
def Spec.Arrived (move d2V : K → K) (L l : K) : Prop :=
  |(Spec.stepFrom move l - l) / L| < 1 / 10 ^ 8 ∧ 0 < d2V (Spec.stepFrom move l) ∧ Spec.stepFrom move l ≤ L / 100

theorem descend_spec (move d2V : K → K) (L : K) (n : Nat) (l : K) :
    (∃ k < n, Spec.Arrived move d2V L ((Spec.stepFrom move)^[k] l) ∧
      (∀ j < k, ¬ Spec.Arrived move d2V L ((Spec.stepFrom move)^[j] l)) ∧
      descend move d2V L n l = some ((Spec.stepFrom move)^[k + 1] l)) ∨
    ((∀ k < n, ¬ Spec.Arrived move d2V L ((Spec.stepFrom move)^[k] l)) ∧ descend move d2V L n l = none) := by
  induction n generalizing l with
  | zero => exact Or.inr ⟨fun k hk => absurd hk (Nat.not_lt_zero k), rfl⟩
  | succ n ih =>
    by_cases h : Spec.Arrived move d2V L l
    · refine Or.inl ⟨0, Nat.succ_pos n, h, fun j hj => absurd hj (Nat.not_lt_zero j), ?_⟩
      simp only [descend]
      rw [if_pos (by exact h)]; rfl
    · have e : descend move d2V L (n + 1) l = descend move d2V L n (Spec.stepFrom move l) := by
        simp only [descend]
        rw [if_neg (by exact h)]; rfl
      rcases ih (Spec.stepFrom move l) with ⟨k, hk, h1, h2, h3⟩ | ⟨h1, h2⟩
      · refine Or.inl ⟨k + 1, by omega, h1, fun j hj => ?_, by rw [e, h3]; rfl⟩
        cases j with
        | zero => exact h
        | succ j => exact h2 j (by omega)
      · refine Or.inr ⟨fun k hk => ?_, by rw [e, h2]⟩
        cases k with
        | zero => exact h
        | succ k => exact h1 k (by omega)

/-- The minimum at the beginning of the path is searched with at most 100 steps of Newton's method and then with at most
1000 steps along the gradient; the first step that arrives decides, and if none does there is no minimum. -/
theorem C69_minimum_search (threshold : K → Option K) (dV d2V : K → K) (L o : K) :
    let newton := Spec.Arrived (fun l => dV l / d2V l) d2V L
    let n := Spec.stepFrom fun l => dV l / d2V l
    let gradient := Spec.Arrived (fun l => dV l / 100) d2V L
    let g := Spec.stepFrom fun l => dV l / 100
    (∀ k < 100, newton (n^[k] 0) → (∀ j < k, ¬ newton (n^[j] 0)) →
      backwards threshold dV d2V L (some o) = .ok (n^[k + 1] 0, threshold o)) ∧
    ((∀ k < 100, ¬ newton (n^[k] 0)) → ∀ k < 1000, gradient (g^[k] 0) → (∀ j < k, ¬ gradient (g^[j] 0)) →
      backwards threshold dV d2V L (some o) = .ok (g^[k + 1] 0, threshold o)) ∧
    ((∀ k < 100, ¬ newton (n^[k] 0)) → (∀ k < 1000, ¬ gradient (g^[k] 0)) →
      backwards threshold dV d2V L (some o) = .ok (-L / 1000, none)) := by
  intro newton n gradient g
  have first : ∀ (move : K → K) (m k : Nat), k < m → Spec.Arrived move d2V L ((Spec.stepFrom move)^[k] 0) →
      (∀ j < k, ¬ Spec.Arrived move d2V L ((Spec.stepFrom move)^[j] 0)) →
      descend move d2V L m 0 = some ((Spec.stepFrom move)^[k + 1] 0) := by
    intro move m k hk h1 h2
    rcases descend_spec move d2V L m 0 with ⟨i, hi, a, b, c⟩ | ⟨a, -⟩
    · have : i = k := by
        rcases lt_trichotomy i k with h | h | h
        · exact absurd a (h2 i h)
        · exact h
        · exact absurd h1 (b k h)
      rw [c, this]
    · exact absurd h1 (a k hk)
  have none' : ∀ (move : K → K) (m : Nat), (∀ k < m, ¬ Spec.Arrived move d2V L ((Spec.stepFrom move)^[k] 0)) →
      descend move d2V L m 0 = none := by
    intro move m h
    rcases descend_spec move d2V L m 0 with ⟨i, hi, a, -, -⟩ | ⟨-, a⟩
    · exact absurd a (h i hi)
    · exact a
  refine ⟨fun k hk h1 h2 => ?_, fun h k hk h1 h2 => ?_, fun h1 h2 => ?_⟩
  · simp only [backwards, first _ 100 k hk h1 h2]; rfl
  · simp only [backwards, none' _ 100 h, first _ 1000 k hk h1 h2]; rfl
  · simp only [backwards, none' _ 100 h1, none' _ 1000 h2]
    rw [neg_one_mul]

/-- A trajectory of some class occurred. -/
def Spec.Occurs (shoot : K → K → Shot) (c : Conv) : Prop := ∃ l0 delta n, shoot l0 delta = some (c, n)

theorem flags_cases (s : Search K) (c : Conv) :
    ((flags s c).over = true ↔ s.over = true ∨ c = .overshoot) ∧
    ((flags s c).under = true ↔ s.under = true ∨ c = .undershoot) := by
  cases c <;> simp [flags]

theorem linearPass_flags (shoot : K → K → Shot) (lg : K → K) (init L error : K) (s : Search K) :
    ((linearPass shoot lg init L error s).1.over = true → s.over = true ∨ Spec.Occurs shoot .overshoot) ∧
    ((linearPass shoot lg init L error s).1.under = true → s.under = true ∨ Spec.Occurs shoot .undershoot) := by
  unfold linearPass
  simp only
  cases hsh : shoot ((s.lmax + s.lmin) / 2) ((s.lmax + s.lmin) / 2 - init) with
  | none => exact ⟨Or.inl, Or.inl⟩
  | some r =>
    obtain ⟨c, n⟩ := r
    have f := flags_cases s c
    have h1 : (flags s c).over = true → s.over = true ∨ Spec.Occurs shoot .overshoot := fun h =>
      (f.1.1 h).imp_right fun e => ⟨_, _, n, by rw [hsh, e]⟩
    have h2 : (flags s c).under = true → s.under = true ∨ Spec.Occurs shoot .undershoot := fun h =>
      (f.2.1 h).imp_right fun e => ⟨_, _, n, by rw [hsh, e]⟩
    simp only
    split_ifs <;> exact ⟨h1, h2⟩

theorem logPass_flags (shoot : K → K → Shot) (ex : K → K) (init : K) (s : Search K) :
    ((logPass shoot ex init s).1.over = true → s.over = true ∨ Spec.Occurs shoot .overshoot) ∧
    ((logPass shoot ex init s).1.under = true → s.under = true ∨ Spec.Occurs shoot .undershoot) := by
  unfold logPass
  simp only
  cases hsh : shoot (init + ex ((s.muMin + s.muMax) / 2)) (ex ((s.muMin + s.muMax) / 2)) with
  | none => exact ⟨Or.inl, Or.inl⟩
  | some r =>
    obtain ⟨c, n⟩ := r
    have f := flags_cases s c
    have h1 : (flags s c).over = true → s.over = true ∨ Spec.Occurs shoot .overshoot := fun h =>
      (f.1.1 h).imp_right fun e => ⟨_, _, n, by rw [hsh, e]⟩
    have h2 : (flags s c).under = true → s.under = true ∨ Spec.Occurs shoot .undershoot := fun h =>
      (f.2.1 h).imp_right fun e => ⟨_, _, n, by rw [hsh, e]⟩
    simp only
    split_ifs <;> exact ⟨h1, h2⟩

/-- The search reports an overshoot only if there was one, and an undershoot only if there was one. -/
theorem C69_flags (shoot : K → K → Shot) (ex lg : K → K) (init L error lmin lmax : K) (n : Nat) :
    let s := (search shoot ex lg init L error n (startSearch lg lmin lmax)).1
    (s.over = true → Spec.Occurs shoot .overshoot) ∧ (s.under = true → Spec.Occurs shoot .undershoot) := by
  have hpass : ∀ s : Search K, ((pass shoot ex lg init L error s).1.over = true →
        s.over = true ∨ Spec.Occurs shoot .overshoot) ∧
      ((pass shoot ex lg init L error s).1.under = true → s.under = true ∨ Spec.Occurs shoot .undershoot) := by
    intro s
    unfold pass
    split
    · exact logPass_flags shoot ex init s
    · have hl := linearPass_flags shoot lg init L error s
      rcases hp : linearPass shoot lg init L error s with ⟨s', e⟩
      rw [hp] at hl
      cases e with
      | some e => exact hl
      | none =>
        simp only
        split
        · have h2 := logPass_flags shoot ex init s'
          exact ⟨fun h => (h2.1 h).elim hl.1 Or.inr, fun h => (h2.2 h).elim hl.2 Or.inr⟩
        · exact hl
  have key : ∀ (n : Nat) (s : Search K), ((search shoot ex lg init L error n s).1.over = true →
        s.over = true ∨ Spec.Occurs shoot .overshoot) ∧
      ((search shoot ex lg init L error n s).1.under = true → s.under = true ∨ Spec.Occurs shoot .undershoot) := by
    intro n
    induction n with
    | zero => intro s; exact ⟨Or.inl, Or.inl⟩
    | succ n ih =>
      intro s
      have hp := hpass s
      rw [search]
      rcases he : pass shoot ex lg init L error s with ⟨s', e⟩
      rw [he] at hp
      cases e with
      | some e => exact hp
      | none =>
        have := ih s'
        exact ⟨fun h => (this.1 h).elim hp.1 Or.inr, fun h => (this.2 h).elim hp.2 Or.inr⟩
  refine ⟨fun h => ?_, fun h => ?_⟩
  · exact ((key n _).1 h).elim (fun h => nomatch h) id
  · exact ((key n _).2 h).elim (fun h => nomatch h) id

/-- … and it reports the first one: the class of the first trajectory is never forgotten. -/
theorem C69_first_flag (shoot : K → K → Shot) (lg : K → K) (init L error : K) (s : Search K) (c : Conv) (n : Nat)
    (h : shoot ((s.lmax + s.lmin) / 2) ((s.lmax + s.lmin) / 2 - init) = some (c, n)) :
    (c = .overshoot → (linearPass shoot lg init L error s).1.over = true) ∧
    (c = .undershoot → (linearPass shoot lg init L error s).1.under = true) := by
  have f := flags_cases s c
  unfold linearPass
  simp only [h]
  refine ⟨fun hc => ?_, fun hc => ?_⟩
  · have := f.1.2 (Or.inr hc)
    split_ifs <;> exact this
  · have := f.2.2 (Or.inr hc)
    split_ifs <;> exact this

example : (search (fun _ _ => some (.overshoot, 8)) id id (0 : ℚ) 1 1 100 (startSearch id 0 1)).1.under ≠ true :=
  fun h => by
    obtain ⟨_, _, _, e⟩ := (C69_flags (fun _ _ => some (Conv.overshoot, 8)) id id (0 : ℚ) 1 1 0 1 100).2 h
    cases e

/-- The relative error of a path is its largest force in units of its largest gradient. -/
theorem C71_relative_error {d : Nat} (e : Eval K d) (x : K) (h : e.grad ≠ 0) :
    relError e = .fin x ↔ x * e.grad = e.force := by
  unfold relError
  rw [if_neg h]
  constructor
  · intro he
    injection he with he
    rw [← he, div_mul_cancel₀ _ h]
  · intro he
    rw [← he, mul_div_cancel_right₀ _ h]

/-- A bounce that has failed is not marked as solved by another attempt to solve it, unless the attempt ends before the
first trajectory. -/
theorem C70_failed_unsolved {P T : Type} (E : Env P T K) (o : Obj P T K) (t : T) (h : o.status ≠ .notCalculated)
    (he : E.solve o.path ≠ .early) :
    (applySolve E o t).1.oneD = false ∧ (applySolve E o t).1.under = false ∧ (applySolve E o t).1.over = false ∧
      (applySolve E o t).1.status = o.status ∧ (applySolve E o t).2 = t := by
  unfold applySolve
  cases hs : E.solve o.path with
  | early => exact absurd hs he
  | failed s u v t' => simp [h]
  | done c u v t' => simp [h]

end Field

/-- The start without a solution of the linearised equation is the motion without friction after `1e-5`. -/
theorem C68_fallback_values (l0 dV : ℝ) :
    ∃ rho : ℝ, rho = 1 / 10 ^ 5 ∧ fallback l0 dV = (rho, l0 + dV * rho ^ 2 / 2, dV * rho) := by
  refine ⟨_, rfl, ?_⟩
  unfold fallback
  refine Prod.ext rfl (Prod.ext ?_ ?_) <;> simp only <;> ring

/-- In four dimensions with negative curvature the velocity is a difference quotient of the position over `0.002`. -/
theorem C68_numerical_velocity (bJ : ℝ → ℝ) (l l0 dV H rho : ℝ) :
    linNeg3' bJ l l0 dV H rho = (linNeg3 bJ l0 dV H (rho + 1 / 1000) - linNeg3 bJ l0 dV H (rho - 1 / 1000)) / (2 / 1000) := by
  unfold linNeg3'
  rw [show (0.001 : ℝ) = 1 / 1000 by norm_num, show (0.002 : ℝ) = 2 / 1000 by norm_num]
  ring

end Verif.Action
