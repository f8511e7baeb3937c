import Mathlib.Algebra.Order.Ring.Rat
import Mathlib.Algebra.BigOperators.Ring.Finset
import Mathlib.Algebra.BigOperators.Fin
import Mathlib.Data.Fin.VecNotation
import Mathlib.Tactic.Ring
import Mathlib.Tactic.Linarith
import Mathlib.Tactic.FieldSimp
import Mathlib.Tactic.NormNum
import Mathlib.Tactic.LinearCombination
import Verif.Action.Calc

/-!
# C70 The reported action belongs to a converged bounce
-/

set_option linter.unusedSectionVars false
set_option linter.unusedSimpArgs false

namespace Verif.Action

/-! ## Specification -/

/-- The solver fails only with a status other than `NotCalculated`. -/
def Env.WF {P T K : Type} (E : Env P T K) : Prop :=
  ∀ p s u v t, E.solve p = .failed s u v t → s ≠ .notCalculated

/-- `k` deformations lead from the path `p` with the trajectory `t` to the path `q` with the trajectory `s`: each
deforms the path with the trajectory before it without reaching a satisfactory error, the trajectory on the new path
converges after undershooting and overshooting, and the new path is not accepted. -/
inductive Deformed {P T K : Type} (E : Env P T K) (p : P) (t : T) : Nat → P → T → Prop where
  | zero : Deformed E p t 0 p t
  | succ {k : Nat} {q q' : P} {s s' : T} : Deformed E p t k q s → 4 ≤ E.size s →
      E.deform q s = (q', false) → E.solve q' = .done true true true s' → E.check q' s' s = false →
      Deformed E p t (k + 1) q' s'

/-! ## The normal force -/

section Force

variable {K : Type} [Field K] {n : Nat}

/-- On a path with unit velocity, to which its curvature is orthogonal, the normal force is orthogonal to the
path. -/
theorem C70_force_normal (v : K) (g d d2 : Fin n → K) (h1 : dotp d d = 1) (h2 : dotp d2 d = 0) :
    dotp (normalForce v g d d2) d = 0 := by
  have : dotp (normalForce v g d d2) d = v ^ 2 * dotp d2 d - (dotp g d - dotp g d * dotp d d) := by
    simp only [dotp, normalForce, sub_mul, mul_assoc, Finset.sum_sub_distrib, Finset.mul_sum]
  rw [this, h1, h2]; ring

/-- What is missing to the equation of motion of the fields, `φ'' + α/ρ φ' = ∇V` for `φ(ρ) = Φ(l(ρ))`, is the normal
force and, along the path, what is missing to the one-dimensional equation. -/
theorem C70_equation_of_motion (v a fr : K) (g d d2 : Fin n → K) :
    (fun i => (d2 i * v ^ 2 + d i * a) + fr * (d i * v) - g i)
      = fun i => normalForce v g d d2 i + (a + fr * v - dotp g d) * d i := by
  funext i
  simp only [normalForce]
  ring

/-- The two parts are orthogonal: the square of what is missing is the sum of both squares. -/
theorem C70_pythagoras (v a fr : K) (g d d2 : Fin n → K) (h1 : dotp d d = 1) (h2 : dotp d2 d = 0) :
    let r := fun i => (d2 i * v ^ 2 + d i * a) + fr * (d i * v) - g i
    dotp r r = dotp (normalForce v g d d2) (normalForce v g d d2) + (a + fr * v - dotp g d) ^ 2 := by
  intro r
  have h3 := C70_force_normal v g d d2 h1 h2
  have e : r = fun i => normalForce v g d d2 i + (a + fr * v - dotp g d) * d i :=
    C70_equation_of_motion v a fr g d d2
  generalize a + fr * v - dotp g d = c at e ⊢
  generalize normalForce v g d d2 = f at e h3 ⊢
  have : dotp r r = dotp f f + 2 * c * dotp f d + c ^ 2 * dotp d d := by
    rw [e]
    simp only [dotp, Finset.mul_sum, ← Finset.sum_add_distrib]
    exact Finset.sum_congr rfl fun i _ => by ring
  rw [this, h3, h1]; ring

example : dotp (![3 / 5, 4 / 5] : Fin 2 → ℚ) ![3 / 5, 4 / 5] = 1 ∧
    dotp (![-4, 3] : Fin 2 → ℚ) ![3 / 5, 4 / 5] = 0 := by
  constructor <;> simp [dotp, Fin.sum_univ_succ] <;> norm_num

end Force

/-! ## The check of the path -/

section Check

variable {K : Type} [Field K] [LinearOrder K] [IsStrictOrderedRing K]

theorem lt_maxStd (a c : K) (x : Flt K) : (a < c ∧ Flt.ge x (.fin c) = false) ↔
    Flt.lt (maxStd (.fin a) x) (.fin c) = true := by
  cases x with
  | nan => simp [maxStd]
  | fin b =>
    have : (Flt.ge (.fin b) (.fin c) = false) ↔ b < c := by
      rw [Bool.eq_false_iff]; simp
    rw [this]
    by_cases h : a < b
    · simp only [maxStd, Flt.lt_fin, h, if_pos]
      exact ⟨fun h' => h'.2, fun h' => ⟨h.trans h', h'⟩⟩
    · simp only [maxStd, Flt.lt_fin, h, if_false]
      exact ⟨fun h' => h'.1, fun h' => ⟨h', (not_lt.1 h).trans_lt h'⟩⟩

theorem checkLoop_spec (rel : K → Flt K) (delta hi c : K) : ∀ (n : Nat) (np a : K) (m : Nat), m < n →
    (∀ k : Nat, k < m → np + k * delta ≤ hi) → ¬ np + m * delta ≤ hi →
    ∃ e, checkLoop rel delta hi n np (.fin a) = some (.fin e) ∧
      (e < c ↔ a < c ∧ ∀ k : Nat, k < m → Flt.ge (rel (np + k * delta)) (.fin c) = false) := by
  intro n
  induction n with
  | zero => intro np a m hm; omega
  | succ n ih =>
    intro np a m hm h1 h2
    cases m with
    | zero =>
      have : ¬ np ≤ hi := by simpa using h2
      exact ⟨a, by simp [checkLoop, this], by simp⟩
    | succ m =>
      have h0 : np ≤ hi := by simpa using h1 0 (by omega)
      have hfin : ∃ b, maxStd (.fin a) (rel np) = .fin b := by
        unfold maxStd
        by_cases h : Flt.lt (.fin a) (rel np) = true
        · rw [if_pos h]
          cases hr : rel np with
          | nan => simp [hr] at h
          | fin b => exact ⟨b, rfl⟩
        · rw [if_neg h]; exact ⟨a, rfl⟩
      obtain ⟨b, hb⟩ := hfin
      obtain ⟨e, he, hc⟩ := ih (np + delta) b m (by omega)
        (fun k hk => by
          have := h1 (k + 1) (by omega)
          push_cast at this
          linarith)
        (by push_cast at h2; intro h; exact h2 (by linarith))
      refine ⟨e, by simp [checkLoop, h0, hb, he], ?_⟩
      have hbc : b < c ↔ a < c ∧ Flt.ge (rel np) (.fin c) = false := by
        have := lt_maxStd a c (rel np)
        rw [hb] at this
        rw [this]; simp
      rw [hc, hbc]
      constructor
      · rintro ⟨⟨p1, p2⟩, p3⟩
        refine ⟨p1, fun k hk => ?_⟩
        cases k with
        | zero => simpa using p2
        | succ k =>
          have := p3 k (by omega)
          rw [show np + ((k + 1 : Nat) : K) * delta = np + delta + k * delta by push_cast; ring]
          exact this
      · rintro ⟨p1, p2⟩
        refine ⟨⟨p1, by simpa using p2 0 (by omega)⟩, fun k hk => ?_⟩
        have := p2 (k + 1) (by omega)
        rw [show np + ((k + 1 : Nat) : K) * delta = np + delta + k * delta by push_cast; ring] at this
        exact this

/-- A path is accepted exactly if at none of the inner points that divide the trajectory into ten parts per knot the
normal force reaches five per cent of the gradient. -/
theorem C70_check (N fuel : Nat) (rel : K → Flt K) (lf lb : K) (hN : 1 ≤ N) (hl : lf < lb)
    (hf : 10 * N ≤ fuel) :
    ∃ b, pathCheck fuel (N : K) rel lf lb = some b ∧
      (b = true ↔ ∀ k : Nat, 1 ≤ k → k < 10 * N →
        Flt.ge (rel (lf + k * ((lb - lf) / (10 * N)))) (.fin (5 / 100)) = false) := by
  have hN0 : (0 : K) < N := by exact_mod_cast hN
  set delta := (lb - lf) / (10 * (N : K)) with hd
  have hd0 : 0 < delta := by
    apply div_pos (by linarith) (by linarith)
  have hlb : lb = lf + 10 * N * delta := by rw [hd]; field_simp; ring
  obtain ⟨e, he, hc⟩ := checkLoop_spec rel delta (lb - delta / 10) (5 / 100) fuel (lf + delta) 0
    (10 * N - 1) (by omega)
    (fun k hk => by
      have h1 : ((k + 2 : Nat) : K) ≤ ((10 * N : Nat) : K) := by exact_mod_cast (by omega : k + 2 ≤ 10 * N)
      push_cast at h1
      have h2 := mul_le_mul_of_nonneg_right h1 hd0.le
      rw [hlb]
      linarith)
    (by
      rw [Nat.cast_sub (by omega), hlb]
      push_cast
      intro h
      linarith)
  refine ⟨Flt.lt (.fin e) (.fin (5 / 100)), by simp only [pathCheck, ← hd, he]; rfl, ?_⟩
  rw [Flt.lt_fin, hc]
  constructor
  · rintro ⟨-, h⟩ k h1 h2
    have := h (k - 1) (by omega)
    rw [Nat.cast_sub h1] at this
    rw [show lf + (k : K) * delta = lf + delta + ((k : K) - (1 : Nat)) * delta by push_cast; ring]
    exact this
  · intro h
    refine ⟨by norm_num, fun k hk => ?_⟩
    have := h (k + 1) (by omega) (by omega)
    rw [show lf + ((k + 1 : Nat) : K) * delta = lf + delta + (k : K) * delta by push_cast; ring] at this
    exact this

/-- A path on which nothing could be computed, or whose trajectory runs backwards, is accepted; the check does not end
for a trajectory that ends where it starts. -/
theorem C70_check_fails (N : Nat) (hN : 1 ≤ N) (rel : K → Flt K) (lf lb : K) :
    (lf < lb → pathCheck (10 * N) (N : K) (fun _ => .nan) lf lb = some true) ∧
    (lb < lf → ∀ fuel, pathCheck (fuel + 1) (N : K) rel lf lb = some true) ∧
    (∀ fuel, pathCheck fuel (N : K) rel lf lf = none) := by
  have hN0 : (0 : K) < N := by exact_mod_cast hN
  refine ⟨fun hl => ?_, fun hl fuel => ?_, fun fuel => ?_⟩
  · obtain ⟨b, hb, h⟩ := C70_check N (10 * N) (fun _ => .nan) lf lb hN hl le_rfl
    rw [hb, h.2 fun k _ _ => by simp]
  · have hN1 : (1 : K) ≤ N := by exact_mod_cast hN
    have hlb : lb = lf + 10 * N * ((lb - lf) / (10 * N)) := by field_simp; ring
    set delta := (lb - lf) / (10 * (N : K)) with hd
    have hd0 : delta < 0 := div_neg_of_neg_of_pos (by linarith) (by linarith)
    have h2 : 10 * (N : K) * delta ≤ 10 * delta := by nlinarith
    have : ¬ lf + delta ≤ lb - delta / 10 := by
      rw [not_le]
      linarith
    simp only [pathCheck, ← hd, checkLoop, this, if_false, Option.map_some]
    congr 1
    rw [Flt.lt_fin]; norm_num
  · have : ∀ (n : Nat) (a : Flt K), checkLoop rel 0 lf n lf a = none := by
      intro n
      induction n with
      | zero => intro a; rfl
      | succ n ih => intro a; simp [checkLoop, ih]
    simp [pathCheck, this]

end Check

/-! ## The calculation -/

section Calc

variable {P T K : Type} [Field K] [LinearOrder K] [IsStrictOrderedRing K]

theorem roundOf_spec (E : Env P T K) (hE : E.WF) (o : Obj P T K) (t : T) (hs : o.status = .notCalculated)
    (hw : o.without1D = false) (ha : -1 ≤ o.action) :
    (∃ o' t', roundOf E o t = (o', t', .ret) ∧ o'.status ≠ .notCalculated ∧ o'.action = o.action) ∨
    (o.under = true ∧ o.over = true ∧ 4 ≤ E.size t ∧ ∃ q b c t', E.deform o.path t = (q, b) ∧
      E.solve q = .done c true true t' ∧
      (((b = true ∨ E.check q t' t = true) ∧ roundOf E o t = ({ o with
          path := q, oneD := c, without1D := b, pathConv := true, sol := some t' }, t', .brk)) ∨
       (b = false ∧ E.check q t' t = false ∧ c = true ∧
        roundOf E o t = ({ o with path := q, oneD := true }, t', .cont)))) := by
  obtain ⟨path, st, action, oneD, pathConv, w, under, over, sol⟩ := o
  simp only at hs hw ha ⊢
  subst hs hw
  cases under
  · left
    exact ⟨_, _, by simp [roundOf, never, ha]; exact ⟨rfl, rfl⟩, by simp, rfl⟩
  cases over
  · left
    exact ⟨_, _, by simp [roundOf, never, ha]; exact ⟨rfl, rfl⟩, by simp, rfl⟩
  by_cases h4 : E.size t < 4
  · left
    exact ⟨_, _, by simp [roundOf, never, h4]; exact ⟨rfl, rfl⟩, by simp, rfl⟩
  obtain ⟨⟨q, b⟩, hd⟩ : ∃ d, E.deform path t = d := ⟨_, rfl⟩
  have hround : roundOf E ⟨path, .notCalculated, action, oneD, pathConv, false, true, true, sol⟩ t
      = afterDeform E ⟨q, .notCalculated, action, oneD, pathConv, b, true, true, sol⟩ t := by
    simp [roundOf, never, h4, hd]
  rw [hround]
  cases hsv : E.solve q with
  | early =>
    left
    refine ⟨_, _, by simp [afterDeform, applySolve, hsv, never]; exact ⟨rfl, rfl⟩, by simp, rfl⟩
  | failed s u v t' =>
    left
    have hs := hE _ _ _ _ _ hsv
    cases u <;> cases v <;>
      exact ⟨_, _, by simp [afterDeform, applySolve, hsv, never, hs, ha]; exact ⟨rfl, rfl⟩, by simp [hs], rfl⟩
  | done c u v t' =>
    cases u
    · left
      exact ⟨_, _, by simp [afterDeform, applySolve, hsv, never, ha]; exact ⟨rfl, rfl⟩, by simp, rfl⟩
    cases v
    · left
      exact ⟨_, _, by simp [afterDeform, applySolve, hsv, never, ha]; exact ⟨rfl, rfl⟩, by simp, rfl⟩
    cases b
    · cases hc : E.check q t' t
      · cases c
        · left
          exact ⟨_, _, by simp [afterDeform, applySolve, hsv, never, hc]; exact ⟨rfl, rfl⟩, by simp, rfl⟩
        · right
          exact ⟨rfl, rfl, not_lt.1 h4, q, false, true, t', hd, hsv, Or.inr ⟨rfl, hc, rfl, by
            simp [afterDeform, applySolve, hsv, never, hc]⟩⟩
      · right
        exact ⟨rfl, rfl, not_lt.1 h4, q, false, c, t', hd, hsv, Or.inl ⟨Or.inr hc, by
          simp [afterDeform, applySolve, hsv, never, hc]⟩⟩
    · right
      exact ⟨rfl, rfl, not_lt.1 h4, q, true, c, t', hd, hsv, Or.inl ⟨Or.inl rfl, by
        simp [afterDeform, applySolve, hsv, never]⟩⟩

theorem Deformed.cons {E : Env P T K} {p q : P} {t s : T} (h4 : 4 ≤ E.size t)
    (hd : E.deform p t = (q, false)) (hs : E.solve q = .done true true true s) (hc : E.check q s t = false) :
    ∀ {k : Nat} {q' : P} {s' : T}, Deformed E q s k q' s' → Deformed E p t (k + 1) q' s' := by
  intro k q' s' h
  induction h with
  | zero => exact .succ .zero h4 hd hs hc
  | succ _ a b c d ih => exact .succ ih a b c d

theorem Deformed.head {E : Env P T K} {p : P} {t : T} : ∀ {k : Nat} {q' : P} {s' : T},
    Deformed E p t (k + 1) q' s' → ∃ q s, 4 ≤ E.size t ∧ E.deform p t = (q, false) ∧
      E.solve q = .done true true true s ∧ E.check q s t = false ∧ Deformed E q s k q' s' := by
  intro k
  induction k with
  | zero =>
    intro q' s' h
    cases h with
    | succ h a b c d => cases h with
      | zero => exact ⟨_, _, a, b, c, d, .zero⟩
  | succ k ih =>
    intro q' s' h
    cases h with
    | succ h a b c d =>
      obtain ⟨q, s, h1, h2, h3, h4, h5⟩ := ih h
      exact ⟨q, s, h1, h2, h3, h4, .succ h5 a b c d⟩

theorem rounds_sound (E : Env P T K) (hE : E.WF) : ∀ (n : Nat) (o : Obj P T K) (t : T),
    o.status = .notCalculated → o.without1D = false → -1 ≤ o.action → o.pathConv = false →
    (∃ o' t', rounds E n o t = (o', t', true) ∧ o'.status ≠ .notCalculated ∧ o'.action = o.action) ∨
    (∃ o' t', rounds E n o t = (o', t', false) ∧ o'.pathConv = false ∧ o'.action = o.action) ∨
    (o.under = true ∧ o.over = true ∧ ∃ k q s q' b c t', k < n ∧ Deformed E o.path t k q s ∧ 4 ≤ E.size s ∧
      E.deform q s = (q', b) ∧ E.solve q' = .done c true true t' ∧ (b = true ∨ E.check q' t' s = true) ∧
      rounds E n o t = ({ o with
        path := q', oneD := c, without1D := b, pathConv := true, sol := some t' }, t', false)) := by
  intro n
  induction n with
  | zero => intro o t hs hw ha hp; exact Or.inr (Or.inl ⟨o, t, rfl, hp, rfl⟩)
  | succ n ih =>
    intro o t hs hw ha hp
    rcases roundOf_spec E hE o t hs hw ha with ⟨o', t', h, h1, h2⟩ | ⟨hu, hv, h4, q, b, c, t', hd, hsv, h⟩
    · exact Or.inl ⟨o', t', by simp [rounds, hp, h], h1, h2⟩
    · rcases h with ⟨hb, h⟩ | ⟨rfl, hc, rfl, h⟩
      · exact Or.inr (Or.inr ⟨hu, hv, 0, o.path, t, q, b, c, t', by omega, .zero, h4, hd, hsv, hb, by
          simp [rounds, hp, h]⟩)
      · have e : rounds E (n + 1) o t = rounds E n { o with path := q, oneD := true } t' := by
          simp [rounds, hp, h]
        rw [e]
        rcases ih { o with path := q, oneD := true } t' hs hw ha hp with ⟨o', t2, g, g1, g2⟩ |
          ⟨o', t2, g, g1, g2⟩ | ⟨-, -, k, q1, s, q', b, c, t2, g1, g2, g3, g4, g5, g6, g7⟩
        · exact Or.inl ⟨o', t2, g, g1, g2⟩
        · exact Or.inr (Or.inl ⟨o', t2, g, g1, g2⟩)
        · exact Or.inr (Or.inr ⟨hu, hv, k + 1, q1, s, q', b, c, t2, by omega, g2.cons h4 hd hsv hc, g3, g4, g5,
            g6, g7⟩)

theorem rounds_complete (E : Env P T K) : ∀ (k n : Nat) (o : Obj P T K) (t : T),
    o.status = .notCalculated → o.without1D = false → o.pathConv = false → o.under = true →
    o.over = true → ∀ q s q' b c t', k < n → Deformed E o.path t k q s → 4 ≤ E.size s →
      E.deform q s = (q', b) → E.solve q' = .done c true true t' → (b = true ∨ E.check q' t' s = true) →
      rounds E n o t = ({ o with
        path := q', oneD := c, without1D := b, pathConv := true, sol := some t' }, t', false) := by
  intro k
  induction k with
  | zero =>
    intro n o t hs hw hp hu hv q s q' b c t' hk hD h4 hd hsv hb
    obtain ⟨path, st, action, oneD, pathConv, w, under, over, sol⟩ := o
    simp only at hs hw hp hu hv hD
    subst hs hw hp hu hv
    obtain ⟨m, rfl⟩ : ∃ m, n = m + 1 := ⟨n - 1, by omega⟩
    cases hD
    have : roundOf E ⟨q, .notCalculated, action, oneD, false, false, true, true, sol⟩ t
        = (⟨q', .notCalculated, action, c, true, b, true, true, some t'⟩, t', .brk) := by
      have hn : ¬ E.size t < 4 := not_lt.2 h4
      rcases hb with rfl | hb
      · simp [roundOf, never, hn, hd, afterDeform, applySolve, hsv]
      · cases b <;> simp [roundOf, never, hn, hd, afterDeform, applySolve, hsv, hb]
    simp [rounds, this]
  | succ k ih =>
    intro n o t hs hw hp hu hv q s q' b c t' hk hD h4 hd hsv hb
    obtain ⟨q1, s1, g1, g2, g3, g4, g5⟩ := hD.head
    obtain ⟨m, rfl⟩ : ∃ m, n = m + 1 := ⟨n - 1, by omega⟩
    have hr : roundOf E o t = ({ o with path := q1, oneD := true }, s1, .cont) := by
      obtain ⟨path, st, action, oneD, pathConv, w, under, over, sol⟩ := o
      simp only at hs hw hp hu hv g2
      subst hs hw hp hu hv
      have hn : ¬ E.size t < 4 := not_lt.2 g1
      simp [roundOf, never, hn, g2, afterDeform, applySolve, g3, g4]
    have e : rounds E (m + 1) o t = rounds E m { o with path := q1, oneD := true } s1 := by
      simp [rounds, hp, hr]
    rw [e, ih m { o with path := q1, oneD := true } s1 hs hw hp hu hv q s q' b c t' (by omega) g5 h4 hd hsv hb]

/-- A new object: nothing calculated yet. -/
def Fresh (o : Obj P T K) : Prop :=
  o.status = .notCalculated ∧ o.action = -1 ∧ o.without1D = false

/-- With several fields an action is reported only together with a converged bounce: the trajectory on the final path
converged, the action is the sum of its two parts, the trajectory is saved, and the path is either the first one,
accepted by the check, or the last of less than `MaxPathIntegrations` deformations, accepted by the deformation or by
the check, with undershooting and overshooting trajectories on every path. -/
theorem C70_several (E : Env P T K) (hE : E.WF) (empty : T) (maxInt : Nat) (o : Obj P T K) (ho : Fresh o)
    (hr : (calculate E empty maxInt true o).status = .notCalculated) :
    let r := calculate E empty maxInt true o
    E.falseVacuumUnstable o.path = false ∧ ∃ c u v t0, E.solve o.path = .done c u v t0 ∧ 4 ≤ E.size t0 ∧
      ((E.check o.path t0 t0 = true ∧ c = true ∧ r.path = o.path ∧
          r.action = E.kinetic t0 + E.potential o.path t0 ∧ r.sol = some t0) ∨
       (E.check o.path t0 t0 = false ∧ u = true ∧ v = true ∧ ∃ k q s b t', k + 1 < maxInt ∧
          Deformed E o.path t0 k q s ∧ 4 ≤ E.size s ∧ E.deform q s = (r.path, b) ∧
          E.solve r.path = .done true true true t' ∧ (b = true ∨ E.check r.path t' s = true) ∧
          r.action = E.kinetic t' + E.potential r.path t' ∧ r.sol = some t')) := by
  intro r
  obtain ⟨hs, ha, hw⟩ := ho
  have hr' : r.status = .notCalculated := hr
  have hrdef : r = calculate E empty maxInt true o := rfl
  clear_value r
  obtain ⟨path, st, action, oneD, pathConv, w, under, over, sol⟩ := o
  simp only at hs ha hw ⊢
  subst hs ha hw
  cases hfv : E.falseVacuumUnstable path
  case true => rw [hrdef] at hr'; simp [calculate, hfv] at hr'
  refine ⟨rfl, ?_⟩
  cases hsv : E.solve path with
  | early => rw [hrdef] at hr'; simp [calculate, hfv, applySolve, hsv, multi] at hr'
  | failed s u v t' =>
    have := hE _ _ _ _ _ hsv
    rw [hrdef] at hr'; simp [calculate, hfv, applySolve, hsv, multi, this] at hr'
  | done c u v t0 =>
    refine ⟨c, u, v, t0, rfl, ?_⟩
    by_cases h4 : E.size t0 < 4
    · rw [hrdef] at hr'; simp [calculate, hfv, applySolve, hsv, multi, h4] at hr'
    refine ⟨not_lt.1 h4, ?_⟩
    cases hc : E.check path t0 t0
    · right
      rcases rounds_sound E hE (maxInt - 1) ⟨path, .notCalculated, -1, c, false, false, u, v, some t0⟩ t0 rfl rfl
        le_rfl rfl with ⟨o', t', h, h1, h2⟩ | ⟨o', t', h, h1, h2⟩ |
        ⟨hu, hv, k, q, s, q', b, c', t', hk, hD, hz, hd, hs', hb, h⟩
      · have : r = o' := by rw [hrdef]; simp [calculate, hfv, applySolve, hsv, multi, h4, hc, h]
        rw [this] at hr'; exact absurd hr' h1
      · have : r.status = .pathDeformationNotConverged := by
          rw [hrdef]; simp [calculate, hfv, applySolve, hsv, multi, h4, hc, h, h1]
        rw [this] at hr'; simp at hr'
      · have he : r = finish E ⟨q', .notCalculated, -1, c', true, b, u, v, some t'⟩ t' := by
          rw [hrdef]; simp [calculate, hfv, applySolve, hsv, multi, h4, hc, h]
        cases c'
        · rw [he] at hr'; simp [finish] at hr'
        · rw [he]
          simp only at hD hu hv
          exact ⟨rfl, hu, hv, k, q, s, b, t', by omega, hD, hz, by simpa [finish] using hd,
            by simpa [finish] using hs', by simpa [finish] using hb, by simp [finish], by simp [finish]⟩
    · left
      have hro : ∀ n, rounds E n ⟨path, .notCalculated, -1, c, true, false, u, v, some t0⟩ t0
          = (⟨path, .notCalculated, -1, c, true, false, u, v, some t0⟩, t0, false) := by
        intro n; cases n <;> simp [rounds]
      have he : r = finish E ⟨path, .notCalculated, -1, c, true, false, u, v, some t0⟩ t0 := by
        rw [hrdef]; simp [calculate, hfv, applySolve, hsv, multi, h4, hc, hro]
      cases c
      · rw [he] at hr'; simp [finish] at hr'
      · rw [he]; simp [finish]

/-- Conversely these bounces are reported. -/
theorem C70_reported (E : Env P T K) (empty : T) (maxInt : Nat) (o : Obj P T K) (ho : Fresh o)
    (hfv : E.falseVacuumUnstable o.path = false) (c u v : Bool) (t0 : T)
    (hsv : E.solve o.path = .done c u v t0) (h4 : 4 ≤ E.size t0) :
    let r := calculate E empty maxInt true o
    (E.check o.path t0 t0 = true → c = true → r.status = .notCalculated ∧ r.path = o.path ∧
      r.action = E.kinetic t0 + E.potential o.path t0) ∧
    (E.check o.path t0 t0 = false → u = true → v = true → ∀ k q s q' b t', k + 1 < maxInt →
      Deformed E o.path t0 k q s → 4 ≤ E.size s → E.deform q s = (q', b) →
      E.solve q' = .done true true true t' → (b = true ∨ E.check q' t' s = true) →
      r.status = .notCalculated ∧ r.path = q' ∧ r.action = E.kinetic t' + E.potential q' t') := by
  obtain ⟨hs, ha, hw⟩ := ho
  obtain ⟨path, st, action, oneD, pathConv, w, under, over, sol⟩ := o
  simp only at hs ha hw hfv hsv ⊢
  subst hs ha hw
  have hn : ¬ E.size t0 < 4 := not_lt.2 h4
  refine ⟨fun hc hc' => ?_, fun hc hu hv k q s q' b t' hk hD hz hd hs' hb => ?_⟩
  · subst hc'
    have hro : ∀ n, rounds E n ⟨path, .notCalculated, -1, true, true, false, u, v, some t0⟩ t0
        = (⟨path, .notCalculated, -1, true, true, false, u, v, some t0⟩, t0, false) := by
      intro n; cases n <;> simp [rounds]
    simp [calculate, hfv, applySolve, hsv, multi, hn, hc, hro, finish]
  · subst hu hv
    have h := rounds_complete E k (maxInt - 1) ⟨path, .notCalculated, -1, c, false, false, true, true, some t0⟩ t0
      rfl rfl rfl rfl rfl q s q' b true t' (by omega) hD hz hd hs' hb
    simp [calculate, hfv, applySolve, hsv, multi, hn, hc, h, finish]

/-- With one field the action is reported exactly if the only solution converged. -/
theorem C70_single (E : Env P T K) (empty : T) (maxInt : Nat) (o : Obj P T K) (ho : Fresh o) :
    let r := calculate E empty maxInt false o
    (r.status = .notCalculated ↔ E.falseVacuumUnstable o.path = false ∧
      ∃ u v t, E.solve o.path = .done true u v t) ∧
    (∀ u v t, E.falseVacuumUnstable o.path = false → E.solve o.path = .done true u v t →
      r.action = E.kinetic t + E.potential o.path t ∧ r.path = o.path) := by
  obtain ⟨hs, ha, hw⟩ := ho
  obtain ⟨path, st, action, oneD, pathConv, w, under, over, sol⟩ := o
  simp only at hs ha hw ⊢
  subst hs ha hw
  cases hfv : E.falseVacuumUnstable path
  case true => simp [calculate, hfv]
  cases hsv : E.solve path with
  | early => simp [calculate, hfv, applySolve, hsv, finish]
  | failed s u v t => simp [calculate, hfv, applySolve, hsv, finish]
  | done c u v t =>
    cases c
    · simp [calculate, hfv, applySolve, hsv, finish]
    · simp [calculate, hfv, applySolve, hsv, finish]

/-- When no bounce is reported the action keeps its value `-1`. -/
theorem C70_failure (E : Env P T K) (hE : E.WF) (empty : T) (maxInt : Nat) (several : Bool) (o : Obj P T K)
    (ho : Fresh o) (hr : (calculate E empty maxInt several o).status ≠ .notCalculated) :
    (calculate E empty maxInt several o).action = -1 := by
  obtain ⟨hs, ha, hw⟩ := ho
  obtain ⟨path, st, action, oneD, pathConv, w, under, over, sol⟩ := o
  simp only at hs ha hw
  subst hs ha hw
  cases hfv : E.falseVacuumUnstable path
  case true => simp [calculate, hfv]
  cases several
  · cases hsv : E.solve path with
    | early => simp [calculate, hfv, applySolve, hsv, finish]
    | failed s u v t => simp [calculate, hfv, applySolve, hsv, finish]
    | done c u v t =>
      cases c
      · simp [calculate, hfv, applySolve, hsv, finish]
      · simp [calculate, hfv, applySolve, hsv, finish] at hr
  · cases hsv : E.solve path with
    | early => simp [calculate, hfv, applySolve, hsv, multi]
    | failed s u v t' =>
      have := hE _ _ _ _ _ hsv
      simp [calculate, hfv, applySolve, hsv, multi, this]
    | done c u v t0 =>
      by_cases h4 : E.size t0 < 4
      · simp [calculate, hfv, applySolve, hsv, multi, h4]
      cases hc : E.check path t0 t0
      · rcases rounds_sound E hE (maxInt - 1) ⟨path, .notCalculated, -1, c, false, false, u, v, some t0⟩ t0 rfl
          rfl le_rfl rfl with ⟨o', t', h, h1, h2⟩ | ⟨o', t', h, h1, h2⟩ |
          ⟨hu, hv, k, q, s, q', b, c', t', hk, hD, hz, hd, hs', hb, h⟩
        · simp [calculate, hfv, applySolve, hsv, multi, h4, hc, h, h2]
        · simp [calculate, hfv, applySolve, hsv, multi, h4, hc, h, h1, h2]
        · cases c'
          · simp [calculate, hfv, applySolve, hsv, multi, h4, hc, h, finish]
          · simp [calculate, hfv, applySolve, hsv, multi, h4, hc, h, finish] at hr
      · have hro : ∀ n, rounds E n ⟨path, .notCalculated, -1, c, true, false, u, v, some t0⟩ t0
            = (⟨path, .notCalculated, -1, c, true, false, u, v, some t0⟩, t0, false) := by
          intro n; cases n <;> simp [rounds]
        cases c
        · simp [calculate, hfv, applySolve, hsv, multi, h4, hc, hro, finish]
        · simp [calculate, hfv, applySolve, hsv, multi, h4, hc, hro, finish] at hr

/-- The first failures and their status; with one field each of them but the first becomes a failure of the integration. -/
theorem C70_reasons (E : Env P T K) (hE : E.WF) (empty : T) (maxInt : Nat) (o : Obj P T K) (ho : Fresh o) :
    (∀ several, E.falseVacuumUnstable o.path = true →
      (calculate E empty maxInt several o).status = .falseVacuumNotMinimum) ∧
    (E.falseVacuumUnstable o.path = false →
      (E.solve o.path = .early →
        (calculate E empty maxInt true o).status = .backwardsPropagationFailed ∧
        (calculate E empty maxInt false o).status = .integration1DFailed) ∧
      (∀ s u v t, E.solve o.path = .failed s u v t → (calculate E empty maxInt true o).status = s ∧
        (calculate E empty maxInt false o).status = .integration1DFailed) ∧
      (∀ u v t, E.solve o.path = .done false u v t →
        (calculate E empty maxInt false o).status = .integration1DFailed) ∧
      (∀ c u v t, E.solve o.path = .done c u v t → 4 ≤ E.size t → E.check o.path t t = false →
        (maxInt ≤ 1 → (calculate E empty maxInt true o).status = .pathDeformationNotConverged) ∧
        (2 ≤ maxInt → u = false ∨ v = false →
          (calculate E empty maxInt true o).status = .neverUndershootOvershoot))) := by
  obtain ⟨hs, ha, hw⟩ := ho
  obtain ⟨path, st, action, oneD, pathConv, w, under, over, sol⟩ := o
  simp only at hs ha hw ⊢
  subst hs ha hw
  refine ⟨fun several h => by simp [calculate, h], fun hfv => ⟨fun h => ?_, fun s u v t h => ?_,
    fun u v t h => ?_, fun c u v t h h4 hc => ⟨fun hm => ?_, fun hm huv => ?_⟩⟩⟩
  · simp [calculate, hfv, applySolve, h, multi, finish]
  · have := hE _ _ _ _ _ h
    simp [calculate, hfv, applySolve, h, multi, finish, this]
  · simp [calculate, hfv, applySolve, h, finish]
  · have h0 : maxInt - 1 = 0 := by omega
    simp [calculate, hfv, applySolve, h, multi, not_lt.2 h4, hc, h0, rounds]
  · obtain ⟨m, hm'⟩ : ∃ m, maxInt - 1 = m + 1 := ⟨maxInt - 2, by omega⟩
    rcases huv with rfl | rfl
    · simp [calculate, hfv, applySolve, h, multi, not_lt.2 h4, hc, hm', rounds, roundOf, never]
    · simp [calculate, hfv, applySolve, h, multi, not_lt.2 h4, hc, hm', rounds, roundOf, never]

/-- A failed object stays failed: its state is not reset, so that no later calculation reports an action. -/
theorem C70_failed_object (E : Env P T K) (empty : T) (maxInt : Nat) (several : Bool)
    (o : Obj P T K) (ho : o.status ≠ .notCalculated) :
    (calculate E empty maxInt several o).status ≠ .notCalculated ∧
    (calculate E empty maxInt several o).action = o.action := by
  obtain ⟨path, st, action, oneD, pathConv, w, under, over, sol⟩ := o
  simp only at ho ⊢
  cases hfv : E.falseVacuumUnstable path
  case true => simp [calculate, hfv]
  cases several <;> cases hsv : E.solve path <;>
    simp [calculate, hfv, applySolve, hsv, finish, multi, ho]

/-- The state `Success` is never reached. -/
theorem C70_no_success (E : Env P T K) (hS : ∀ p u v t, E.solve p ≠ .failed .success u v t) (empty : T)
    (maxInt : Nat) (several : Bool) (o : Obj P T K) (ho : o.status ≠ .success) :
    (calculate E empty maxInt several o).status ≠ .success := by
  have hap : ∀ (o : Obj P T K) t, o.status ≠ .success → (applySolve E o t).1.status ≠ .success := by
    intro o t h
    unfold applySolve
    cases hs : E.solve o.path with
    | early => simp
    | failed s u v t' =>
      simp only
      split_ifs
      · intro hh
        simp only at hh
        subst hh
        exact hS _ _ _ _ hs
      · exact h
    | done c u v t' => simp only; split_ifs <;> exact h
  have hnv : ∀ (o : Obj P T K), o.status ≠ .success → (never o).status ≠ .success := by
    intro o h
    unfold never
    split_ifs
    · simp
    · exact h
  have had : ∀ (o : Obj P T K) t, o.status ≠ .success → (afterDeform E o t).1.status ≠ .success := by
    intro o t h
    have h1 := hnv _ (hap o t h)
    unfold afterDeform
    simp only
    split_ifs <;> first | exact h1 | simp
  have hro : ∀ (o : Obj P T K) t, o.status ≠ .success → (roundOf E o t).1.status ≠ .success := by
    intro o t h
    have h1 := hnv o h
    unfold roundOf
    simp only
    split_ifs
    · exact h1
    · simp
    · exact had _ _ h1
  have hrs : ∀ n (o : Obj P T K) t, o.status ≠ .success → (rounds E n o t).1.status ≠ .success := by
    intro n
    induction n with
    | zero => intro o t h; exact h
    | succ n ih =>
      intro o t h
      have h1 := hro o t h
      rw [rounds]
      split_ifs
      · exact h
      · obtain ⟨⟨o', t', f⟩, hf⟩ : ∃ x, roundOf E o t = x := ⟨_, rfl⟩
        rw [hf] at h1 ⊢
        cases f
        · exact h1
        · exact h1
        · exact ih _ _ h1
  have hfi : ∀ (o : Obj P T K) t, o.status ≠ .success → (finish E o t).status ≠ .success := by
    intro o t h
    unfold finish
    split_ifs
    · simp
    · exact h
  have hmu : ∀ (o : Obj P T K) t, o.status ≠ .success → (multi E maxInt o t).status ≠ .success := by
    intro o t h
    unfold multi
    split_ifs
    · exact h
    · simp
    · have h1 := hrs (maxInt - 1) { o with pathConv := E.check o.path t t, sol := some t } t h
      obtain ⟨⟨o', t', f⟩, hf⟩ : ∃ x, rounds E (maxInt - 1)
        { o with pathConv := E.check o.path t t, sol := some t } t = x := ⟨_, rfl⟩
      rw [hf] at h1 ⊢
      cases f
      · simp only
        split_ifs
        · simp
        · exact hfi _ _ h1
      · exact h1
  unfold calculate
  split_ifs
  · simp
  · exact hmu _ _ (hap _ _ ho)
  · exact hfi _ _ (hap _ _ ho)

/-- An action is reported although no trajectory overshot: with one field, and with several fields if the first path is
accepted. -/
theorem C70_never_overshot_fails (E : Env P T K) (empty : T) (maxInt : Nat) (o : Obj P T K) (ho : Fresh o)
    (hfv : E.falseVacuumUnstable o.path = false) (u v : Bool) (t : T) (hsv : E.solve o.path = .done true u v t) :
    (calculate E empty maxInt false o).status = .notCalculated ∧
    (calculate E empty maxInt false o).action = E.kinetic t + E.potential o.path t ∧
    (4 ≤ E.size t → E.check o.path t t = true →
      (calculate E empty maxInt true o).status = .notCalculated ∧
      (calculate E empty maxInt true o).action = E.kinetic t + E.potential o.path t) := by
  obtain ⟨hs, ha, hw⟩ := id ho
  refine ⟨?_, ?_, fun h4 hc => ?_⟩
  · simp [calculate, hfv, applySolve, hsv, hs, finish]
  · simp [calculate, hfv, applySolve, hsv, hs, finish]
  · have := (C70_reported E empty maxInt o ho hfv true u v t hsv h4).1 hc rfl
    exact ⟨this.1, this.2.2⟩

end Calc

/-- An environment with paths and trajectories numbered: the trajectory on path `p` is `p`, the check of path `1` passes
only with the spline of trajectory `0`. -/
def staleEnv : Env Nat Nat ℚ where
  solve p := .done true true true p
  size _ := 100
  check p l spl := decide (p = 1 ∧ l = 1 ∧ spl = 0)
  deform p _ := (p + 1, false)
  kinetic t := t
  potential p t := p + t
  falseVacuumUnstable _ := false

/-- The check of a deformed path uses the spline of the trajectory on the path before it: a path can be accepted whose
own trajectory does not pass the check. -/
theorem C70_stale_spline_fails :
    (calculate staleEnv 0 7 true ⟨0, .notCalculated, -1, false, false, false, false, false, none⟩).status
      = .notCalculated ∧
    (calculate staleEnv 0 7 true ⟨0, .notCalculated, -1, false, false, false, false, false, none⟩).path = 1 ∧
    staleEnv.solve 1 = .done true true true 1 ∧ staleEnv.check 1 1 1 = false := by
  refine ⟨by decide +kernel, by decide +kernel, rfl, by decide +kernel⟩

example : staleEnv.WF ∧ Fresh (⟨0, .notCalculated, -1, false, false, false, false, false, none⟩ : Obj Nat Nat ℚ) ∧
    Deformed staleEnv 1 1 1 2 2 ∧ staleEnv.falseVacuumUnstable 0 = false := by
  refine ⟨fun p s u v t h => by simp [staleEnv] at h, ⟨rfl, rfl, rfl⟩, ?_, rfl⟩
  exact .succ .zero (by decide) (by decide) rfl (by decide)

end Verif.Action
