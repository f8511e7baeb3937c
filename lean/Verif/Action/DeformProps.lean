import Mathlib.Algebra.Order.Ring.Rat
import Mathlib.Logic.Function.Iterate
import Mathlib.Tactic.Ring
import Mathlib.Tactic.Linarith
import Mathlib.Tactic.FieldSimp
import Mathlib.Tactic.NormNum
import Verif.Action.Deform

/-!
# C71 The deformation keeps the best path
-/

set_option linter.unusedSectionVars false
set_option linter.unusedSimpArgs false

namespace Verif.Action

variable {K : Type} [Field K] [LinearOrder K] [IsStrictOrderedRing K] {d : Nat}

/-! ## The knots -/

theorem knotLoop_spec (delta hi : K) : ∀ (n : Nat) (np : K) (m : Nat), m < n →
    (∀ k : Nat, k < m → np + k * delta ≤ hi) → ¬ np + m * delta ≤ hi →
    knotLoop delta hi n np = some ((List.range m).map fun k : Nat => np + k * delta) := by
  intro n
  induction n with
  | zero => intro np m hm; omega
  | succ n ih =>
    intro np m hm h1 h2
    cases m with
    | zero =>
      have : ¬ np ≤ hi := by simpa using h2
      simp [knotLoop, this]
    | succ m =>
      have h0 : np ≤ hi := by simpa using h1 0 (by omega)
      have := ih (np + delta) m (by omega)
        (fun k hk => by
          have := h1 (k + 1) (by omega)
          push_cast at this
          linarith)
        (by push_cast at h2; intro h; exact h2 (by linarith))
      rw [knotLoop, if_pos h0, this, List.range_succ_eq_map]
      simp only [Option.map_some, List.map_cons, List.map_map, Nat.cast_zero, zero_mul, add_zero]
      congr 2
      apply List.map_congr_left
      intro k _
      simp only [Function.comp]
      push_cast
      ring

/-- A trajectory is divided into `NumberPathKnots` equal parts: one knot at the beginning of each, and the false vacuum
at the end. -/
theorem C71_knots (N fuel : Nat) (lf lb L : K) (hN : 1 ≤ N) (hl : lf < lb) (hf : N < fuel) :
    knotParams fuel (N : K) lf lb L
      = some ((List.range N).map (fun k : Nat => lf + k * ((lb - lf) / N)) ++ [L]) := by
  have hN0 : (0 : K) < N := by exact_mod_cast hN
  set delta := (lb - lf) / (N : K) with hd
  have hd0 : 0 < delta := div_pos (by linarith) hN0
  have hlb : lb = lf + N * delta := by rw [hd]; field_simp; ring
  have := knotLoop_spec delta (lb - delta / 10) fuel lf N hf
    (fun k hk => by
      have h1 : ((k + 1 : Nat) : K) ≤ (N : K) := by exact_mod_cast hk
      push_cast at h1
      have h2 := mul_le_mul_of_nonneg_right h1 hd0.le
      rw [hlb]
      linarith)
    (by rw [hlb]; intro h; linarith)
  simp only [knotParams, ← hd, this, Option.map_some]

/-- For a trajectory that runs backwards there is only the false vacuum, and the new path is written past its end. -/
theorem C71_knots_fails (N fuel : Nat) (lf lb L : K) (hN : 1 ≤ N) (hl : lb < lf) (fv v : Vec K d) :
    knotParams (fuel + 1) (N : K) lf lb L = some [L] ∧ reshift N fv [v] = .ub .outOfBounds := by
  have hN0 : (0 : K) < N := by exact_mod_cast hN
  have hN1 : (1 : K) ≤ N := by exact_mod_cast hN
  constructor
  · set delta := (lb - lf) / (N : K) with hd
    have hd0 : delta < 0 := div_neg_of_neg_of_pos (by linarith) hN0
    have hlb : lb = lf + N * delta := by rw [hd]; field_simp; ring
    have h2 : (N : K) * delta ≤ 1 * delta := by nlinarith
    have : ¬ lf ≤ lb - delta / 10 := by rw [not_le]; linarith
    simp [knotParams, ← hd, knotLoop, this]
  · have : ([v] : List (Vec K d)).length < N + 1 := by simp; omega
    rw [reshift, if_pos this]

example : knotParams 60 (2 : ℚ) 0 10 11 = some [0, 5, 11] := by decide +kernel

/-! ## One pass -/

/-- One pass of the loop with its counter. -/
def onePass (eval : List (Vec K d) → Eval K d) (N : Nat) (L : K) (s : DefSt K d) : DefSt K d :=
  { single eval N L s with noBest := if Flt.ne (single eval N L s).err s.err then 0 else s.noBest + 1 }

/-- The loop is left after the pass that led to `s`. -/
def Leaves (s : DefSt K d) : Prop :=
  Flt.lt s.err (.fin (5 / 100)) = true ∨ Flt.gt s.err (.fin 5) = true ∨ 20 < s.noBest

theorem adapt_fields (s : DefSt K d) (old : List (Vec K d)) :
    (adapt s old).best = s.best ∧ (adapt s old).err = s.err ∧ (adapt s old).grad = s.grad ∧
      (adapt s old).forces = s.forces ∧ (adapt s old).noBest = s.noBest ∧
      ((adapt s old).next = s.next ∨ (adapt s old).next = s.best) := by
  unfold adapt
  split_ifs <;> simp

/-- A smaller error replaces the best path by the path just evaluated, moved by the force; otherwise best path, error and
gradient stay. -/
theorem C71_pass (eval : List (Vec K d) → Eval K d) (N : Nat) (L : K) (s : DefSt K d) :
    let e := eval s.next
    let r := onePass eval N L s
    (Flt.gt s.err (relError e) = true → r.err = relError e ∧ r.grad = e.grad ∧
      r.best = moveKnots N (s.grad / L / s.step) e s.next) ∧
    (Flt.gt s.err (relError e) = false → r.err = s.err ∧ r.grad = s.grad ∧ r.best = s.best) ∧
    r.forces = e.knots.map Prod.snd ∧
    (r.next = r.best ∨ r.next = moveKnots N (s.grad / L / s.step) e s.next) ∧
    r.noBest = (if Flt.ne r.err s.err then 0 else s.noBest + 1) := by
  intro e r
  by_cases h : Flt.gt s.err (relError e) = true
  · have hs : single eval N L s = adapt { s with
        best := moveKnots N (s.grad / L / s.step) e s.next, next := moveKnots N (s.grad / L / s.step) e s.next,
        err := relError e, grad := e.grad, forces := e.knots.map Prod.snd } s.forces := by
      simp only [single]; rw [if_pos h]; rfl
    obtain ⟨h1, h2, h3, h4, h5, h6⟩ := adapt_fields { s with
        best := moveKnots N (s.grad / L / s.step) e s.next, next := moveKnots N (s.grad / L / s.step) e s.next,
        err := relError e, grad := e.grad, forces := e.knots.map Prod.snd } s.forces
    simp only [r, onePass, hs]
    refine ⟨fun _ => ⟨h2, h3, h1⟩, fun h' => by rw [h] at h'; simp at h', h4, ?_, trivial⟩
    rcases h6 with h6 | h6
    · exact Or.inr h6
    · exact Or.inl (h6.trans h1.symm)
  · have h' : Flt.gt s.err (relError e) = false := by simpa using h
    have hs : single eval N L s = adapt { s with
        next := moveKnots N (s.grad / L / s.step) e s.next, forces := e.knots.map Prod.snd } s.forces := by
      simp only [single]; rw [if_neg h]; rfl
    obtain ⟨h1, h2, h3, h4, h5, h6⟩ := adapt_fields { s with
        next := moveKnots N (s.grad / L / s.step) e s.next, forces := e.knots.map Prod.snd } s.forces
    simp only [r, onePass, hs]
    refine ⟨fun h'' => by rw [h'] at h''; simp at h'', fun _ => ⟨h2, h3, h1⟩, h4, ?_, trivial⟩
    rcases h6 with h6 | h6
    · exact Or.inr h6
    · exact Or.inl (h6.trans h1.symm)

/-- The next path starts again from the best one exactly if the force changed its direction on more than fifteen per
cent of the knots, and then the step is divided by five; otherwise it grows by one half. The first pass leaves it. -/
theorem C71_step_rule (eval : List (Vec K d) → Eval K d) (N : Nat) (L : K) (s : DefSt K d) :
    let e := eval s.next
    let r := onePass eval N L s
    let f := e.knots.map Prod.snd
    (s.forces = [] → r.step = s.step ∧ r.next = moveKnots N (s.grad / L / s.step) e s.next) ∧
    (s.forces ≠ [] → (15 / 100 : K) * f.length < (reversed f s.forces : K) →
      r.next = r.best ∧ r.step = max (min (s.step / 5) (1 / 10)) (1 / 10 ^ 4)) ∧
    (s.forces ≠ [] → (reversed f s.forces : K) ≤ 15 / 100 * f.length →
      r.next = moveKnots N (s.grad / L / s.step) e s.next ∧
      r.step = max (min (s.step * (3 / 2)) (1 / 10)) (1 / 10 ^ 4)) := by
  intro e r f
  have hcomm : (f.length : K) * (15 / 100) = 15 / 100 * f.length := mul_comm _ _
  by_cases h : Flt.gt s.err (relError e) = true
  · have hs : single eval N L s = adapt { s with
        best := moveKnots N (s.grad / L / s.step) e s.next, next := moveKnots N (s.grad / L / s.step) e s.next,
        err := relError e, grad := e.grad, forces := f } s.forces := by
      simp only [single]; rw [if_pos h]; rfl
    simp only [r, onePass, hs]
    refine ⟨fun h0 => ?_, fun h0 h1 => ?_, fun h0 h1 => ?_⟩
    · simp [adapt, h0]
    · rw [← hcomm] at h1
      simp [adapt, h0, h1, clampStep]
    · rw [← hcomm, ← not_lt] at h1
      simp [adapt, h0, h1, clampStep]
  · have hs : single eval N L s = adapt { s with
        next := moveKnots N (s.grad / L / s.step) e s.next, forces := f } s.forces := by
      simp only [single]; rw [if_neg h]; rfl
    simp only [r, onePass, hs]
    refine ⟨fun h0 => ?_, fun h0 h1 => ?_, fun h0 h1 => ?_⟩
    · simp [adapt, h0]
    · rw [← hcomm] at h1
      simp [adapt, h0, h1, clampStep]
    · rw [← hcomm, ← not_lt] at h1
      simp [adapt, h0, h1, clampStep]

/-- Forces are counted as reversed exactly where they point against the force before. -/
theorem C71_reversed (f g : List (Vec K d)) (h : f.length = g.length) :
    reversed f g = ((f.zip g).filter fun p => decide (dotp p.1 p.2 < 0)).length := by
  induction f generalizing g with
  | nil => simp [reversed]
  | cons a f ih =>
    cases g with
    | nil => simp at h
    | cons b g =>
      have := ih g (by simpa using h)
      unfold reversed at this ⊢
      by_cases hc : dotp a b < 0 <;> simp [List.filter_cons, hc, this]

/-- A knot moves by the force in units of the largest gradient, times the step size and the length of the path. -/
theorem C71_displacement (N : Nat) (L : K) (s : DefSt K d) (e : Eval K d) (k : Nat) (p f : Vec K d) (i : Fin d)
    (hk : e.knots[k]? = some (p, f)) :
    ∃ v, (moveKnots N (reductor L s) e s.next)[k]? = some v ∧ v i - p i = s.step * L * (f i / s.grad) := by
  have hlt : k < e.knots.length := (List.getElem?_eq_some_iff.1 hk).1
  refine ⟨fun i => p i + f i / reductor L s, ?_, ?_⟩
  · rw [moveKnots, List.getElem?_append_left (by simpa using hlt), List.getElem?_map, hk]
    rfl
  · simp only [reductor, add_sub_cancel_left, div_div_eq_mul_div, div_eq_mul_inv, mul_inv, inv_inv]
    ring

/-! ## All passes -/

/-- The loop consists of passes until one of the conditions to leave is met, and reports a satisfactory error exactly if
that is the condition. -/
theorem C71_passes (eval : List (Vec K d) → Eval K d) (N : Nat) (L : K) : ∀ (n : Nat) (s : DefSt K d),
    ∃ k ≤ n, (deformLoop eval N L n s).1 = (onePass eval N L)^[k] s ∧
      (∀ j, 1 ≤ j → j < k → ¬ Leaves ((onePass eval N L)^[j] s)) ∧
      (k < n → 1 ≤ k ∧ Leaves ((onePass eval N L)^[k] s)) ∧
      ((deformLoop eval N L n s).2 = true ↔
        1 ≤ k ∧ Flt.lt ((onePass eval N L)^[k] s).err (.fin (5 / 100)) = true) := by
  intro n
  induction n with
  | zero => intro s; exact ⟨0, le_rfl, rfl, fun j h1 h2 => by omega, fun h => by omega, by simp [deformLoop]⟩
  | succ n ih =>
    intro s
    have hdef : deformLoop eval N L (n + 1) s =
        if Flt.lt (onePass eval N L s).err (.fin (5 / 100)) then (onePass eval N L s, true)
        else if Flt.gt (onePass eval N L s).err (.fin 5) then (onePass eval N L s, false)
        else if 20 < (onePass eval N L s).noBest then (onePass eval N L s, false)
        else deformLoop eval N L n (onePass eval N L s) := rfl
    by_cases h1 : Flt.lt (onePass eval N L s).err (.fin (5 / 100)) = true
    · refine ⟨1, by omega, by rw [hdef, if_pos h1]; rfl, fun j a b => by omega, fun _ => ⟨le_rfl, Or.inl h1⟩, ?_⟩
      rw [hdef, if_pos h1]
      simp [h1]
    by_cases h2 : Flt.gt (onePass eval N L s).err (.fin 5) = true
    · refine ⟨1, by omega, by rw [hdef, if_neg h1, if_pos h2]; rfl, fun j a b => by omega,
        fun _ => ⟨le_rfl, Or.inr (Or.inl h2)⟩, ?_⟩
      rw [hdef, if_neg h1, if_pos h2]
      simp [h1]
    by_cases h3 : 20 < (onePass eval N L s).noBest
    · refine ⟨1, by omega, by rw [hdef, if_neg h1, if_neg h2, if_pos h3]; rfl, fun j a b => by omega,
        fun _ => ⟨le_rfl, Or.inr (Or.inr h3)⟩, ?_⟩
      rw [hdef, if_neg h1, if_neg h2, if_pos h3]
      simp [h1]
    obtain ⟨k, hk, e1, e2, e3, e4⟩ := ih (onePass eval N L s)
    refine ⟨k + 1, by omega, by rw [hdef, if_neg h1, if_neg h2, if_neg h3, e1]; rfl, fun j a b => ?_, fun h => ?_, ?_⟩
    · obtain ⟨j, rfl⟩ : ∃ i, j = i + 1 := ⟨j - 1, by omega⟩
      rw [Function.iterate_succ_apply]
      rcases Nat.eq_zero_or_pos j with rfl | hj
      · rintro (h | h | h)
        · exact h1 h
        · exact h2 h
        · exact h3 h
      · exact e2 j hj (by omega)
    · rw [Function.iterate_succ_apply]
      exact ⟨by omega, (e3 (by omega)).2⟩
    · rw [hdef, if_neg h1, if_neg h2, if_neg h3, e4, Function.iterate_succ_apply]
      constructor
      · rintro ⟨-, h⟩; exact ⟨by omega, h⟩
      · rintro ⟨-, h⟩
        refine ⟨?_, h⟩
        by_contra h0
        have : k = 0 := by omega
        subst this
        exact h1 h

/-- The error after some passes is the least of the errors of the paths evaluated so far, and the best path is the one
with this error, moved by its forces; the path at the beginning if none was below `1e100`. -/
theorem C71_best (eval : List (Vec K d) → Eval K d) (N : Nat) (L : K) (path : List (Vec K d)) (grad : K) (k : Nat) :
    let s := fun j => (onePass eval N L)^[j] (startDeform path grad)
    ∃ b, (s k).err = .fin b ∧
      (∀ j < k, ∀ x, relError (eval (s j).next) = .fin x → b ≤ x) ∧
      ((b = 10 ^ 100 ∧ (s k).best = path) ∨
       ∃ j < k, relError (eval (s j).next) = .fin b ∧
        (s k).best = moveKnots N ((s j).grad / L / (s j).step) (eval (s j).next) (s j).next) := by
  intro s
  induction k with
  | zero => exact ⟨10 ^ 100, rfl, fun j hj => by omega, Or.inl ⟨rfl, rfl⟩⟩
  | succ k ih =>
    obtain ⟨b, h1, h2, h3⟩ := ih
    have hs : s (k + 1) = onePass eval N L (s k) := Function.iterate_succ_apply' _ _ _
    obtain ⟨p1, p2, -, -, -⟩ := C71_pass eval N L (s k)
    by_cases hg : Flt.gt (s k).err (relError (eval (s k).next)) = true
    · obtain ⟨q1, q2, q3⟩ := p1 hg
      cases hx : relError (eval (s k).next) with
      | nan => rw [hx] at hg; simp at hg
      | fin x =>
        rw [hx, h1] at hg
        have hxb : x < b := by simpa using hg
        refine ⟨x, by rw [hs, q1, hx], fun j hj y hy => ?_, Or.inr ⟨k, by omega, hx, by rw [hs, q3]⟩⟩
        rcases Nat.lt_succ_iff_lt_or_eq.1 hj with hj | rfl
        · exact hxb.le.trans (h2 j hj y hy)
        · rw [hx] at hy; simp only [Flt.fin.injEq] at hy; exact hy.le
    · have hg' : Flt.gt (s k).err (relError (eval (s k).next)) = false := by simpa using hg
      obtain ⟨q1, q2, q3⟩ := p2 hg'
      refine ⟨b, by rw [hs, q1, h1], fun j hj y hy => ?_, ?_⟩
      · rcases Nat.lt_succ_iff_lt_or_eq.1 hj with hj | rfl
        · exact h2 j hj y hy
        · rw [hy, h1] at hg
          simpa using hg
      · rcases h3 with ⟨a, b⟩ | ⟨j, hj, a, c⟩
        · exact Or.inl ⟨a, by rw [hs, q3, b]⟩
        · exact Or.inr ⟨j, by omega, a, by rw [hs, q3, c]⟩

/-- The step size is `2e-5` for the first two passes, then at least `1e-4` and at most `0.1`. -/
theorem C71_step (eval : List (Vec K d) → Eval K d) (N : Nat) (L : K) (path : List (Vec K d)) (grad : K)
    (he : ∀ p, (eval p).knots ≠ []) (k : Nat) :
    let s := fun j => (onePass eval N L)^[j] (startDeform path grad)
    (k ≤ 1 → (s k).step = 2 / 10 ^ 5) ∧ (2 ≤ k → 1 / 10 ^ 4 ≤ (s k).step ∧ (s k).step ≤ 1 / 10) := by
  intro s
  have hsucc : ∀ k, s (k + 1) = onePass eval N L (s k) := fun k => Function.iterate_succ_apply' _ _ _
  have hf : ∀ k, 1 ≤ k → (s k).forces ≠ [] := by
    intro k hk
    obtain ⟨k, rfl⟩ : ∃ i, k = i + 1 := ⟨k - 1, by omega⟩
    rw [hsucc, (C71_pass eval N L (s k)).2.2.1]
    simpa using he _
  have h0 : (s 0).step = 2 / 10 ^ 5 := rfl
  have h1 : (s 1).step = 2 / 10 ^ 5 := by
    rw [hsucc 0, ((C71_step_rule eval N L (s 0)).1 rfl).1]; rfl
  have hb : ∀ x : K, 1 / 10 ^ 4 ≤ max (min x (1 / 10)) (1 / 10 ^ 4) ∧
      max (min x (1 / 10)) (1 / 10 ^ 4) ≤ 1 / 10 := by
    intro x
    refine ⟨le_max_right _ _, max_le (min_le_right _ _) (by norm_num)⟩
  refine ⟨fun hk => ?_, fun hk => ?_⟩
  · rcases Nat.le_one_iff_eq_zero_or_eq_one.1 hk with rfl | rfl
    · exact h0
    · exact h1
  · obtain ⟨k, rfl⟩ : ∃ i, k = i + 1 := ⟨k - 1, by omega⟩
    obtain ⟨-, r2, r3⟩ := C71_step_rule eval N L (s k)
    have hfk := hf k (by omega)
    rw [hsucc]
    rcases lt_or_ge ((15 / 100 : K) * ((eval (s k).next).knots.map Prod.snd).length)
      (reversed ((eval (s k).next).knots.map Prod.snd) (s k).forces : K) with h | h
    · rw [(r2 hfk h).2]; exact hb _
    · rw [(r3 hfk h).2]; exact hb _

/-- The deformation ends after twenty-one passes without a better path. -/
theorem C71_no_progress (eval : List (Vec K d) → Eval K d) (N : Nat) (L : K) (s0 : DefSt K d) (i : Nat) (b : K)
    (h : ∀ j, i ≤ j → j ≤ i + 21 → ((onePass eval N L)^[j] s0).err = .fin b) :
    Leaves ((onePass eval N L)^[i + 21] s0) := by
  have hn : ∀ m, m ≤ 21 → m ≤ ((onePass eval N L)^[i + m] s0).noBest := by
    intro m
    induction m with
    | zero => intro _; exact Nat.zero_le _
    | succ m ih =>
      intro hm
      have e : (onePass eval N L)^[i + (m + 1)] s0 = onePass eval N L ((onePass eval N L)^[i + m] s0) :=
        Function.iterate_succ_apply' _ _ _
      have h5 := (C71_pass eval N L ((onePass eval N L)^[i + m] s0)).2.2.2.2
      rw [← e, h (i + (m + 1)) (by omega) (by omega), h (i + m) (by omega) (by omega)] at h5
      simp only [Flt.ne, ne_eq, not_true_eq_false, decide_false, Bool.false_eq_true, if_false] at h5
      rw [h5]
      have := ih (by omega)
      omega
  exact Or.inr (Or.inr (by have := hn 21 le_rfl; omega))

/-- The number of knots and the knot at the false vacuum are kept. -/
theorem C71_end_fixed (eval : List (Vec K d) → Eval K d) (N maxSingle : Nat) (L : K) (fv : Vec K d)
    (path : List (Vec K d)) (grad : K) (he : ∀ p, (eval p).knots.length = N) (hp : path.length = N + 1)
    (hl : path[N]? = some 0) :
    ∃ p b, pathDeformation eval N maxSingle L fv path grad = .ok (p, b) ∧ p.length = N + 1 ∧ p[N]? = some fv ∧
      p = (deformLoop eval N L maxSingle (startDeform path grad)).1.best.map (fun v => fun i => fv i + v i) ∧
      b = (deformLoop eval N L maxSingle (startDeform path grad)).2 := by
  have good : ∀ k, let s := (onePass eval N L)^[k] (startDeform path grad)
      (s.best.length = N + 1 ∧ s.best[N]? = some 0) ∧ (s.next.length = N + 1 ∧ s.next[N]? = some 0) := by
    intro k
    induction k with
    | zero => exact ⟨⟨hp, hl⟩, hp, hl⟩
    | succ k ih =>
      rw [Function.iterate_succ_apply']
      set s := (onePass eval N L)^[k] (startDeform path grad) with hs
      obtain ⟨i1, i2, i3⟩ := ih
      have hm : ∀ red, (moveKnots N red (eval s.next) s.next).length = N + 1 ∧
          (moveKnots N red (eval s.next) s.next)[N]? = some 0 := by
        intro red
        constructor
        · simp [moveKnots, he, i2]
        · rw [moveKnots, List.getElem?_append_right (by simp [he])]
          simp [he, List.getElem?_drop, i3]
      obtain ⟨p1, p2, -, p4, -⟩ := C71_pass eval N L s
      have hbest : (onePass eval N L s).best.length = N + 1 ∧ (onePass eval N L s).best[N]? = some 0 := by
        by_cases hg : Flt.gt s.err (relError (eval s.next)) = true
        · rw [(p1 hg).2.2]; exact hm _
        · rw [(p2 (by simpa using hg)).2.2]; exact i1
      refine ⟨hbest, ?_⟩
      rcases p4 with h | h
      · rw [h]; exact hbest
      · rw [h]; exact hm _
  obtain ⟨k, -, e1, -, -, -⟩ := C71_passes eval N L maxSingle (startDeform path grad)
  obtain ⟨⟨g1, g2⟩, -⟩ := good k
  rw [← e1] at g1 g2
  set r := deformLoop eval N L maxSingle (startDeform path grad) with hr
  have hre : reshift N fv r.1.best = .ok (r.1.best.map (fun v => fun i => fv i + v i)) := by
    have : ¬ r.1.best.length < N + 1 := by omega
    rw [reshift, if_neg this, List.take_of_length_le (by omega), List.drop_eq_nil_of_le (by omega),
      List.append_nil]
  refine ⟨_, _, by rw [pathDeformation, ← hr, hre]; rfl, by simp [g1], ?_, rfl, rfl⟩
  rw [List.getElem?_map, g2]
  simp only [Option.map_some, Pi.zero_apply, add_zero]

/-- Forces on a single knot: small where the knot is at `1`, large elsewhere. -/
def movedEval (p : List (Vec ℚ 1)) : Eval ℚ 1 :=
  if (p.headD 0) 0 = 1 then ⟨[(fun _ => 1, fun _ => 1 / 100)], 1, 1 / 100⟩
  else ⟨[(p.headD 0, fun _ => 10)], 1, 10⟩

/-- The path that is adopted is not the one whose error was found satisfactory but this path moved once more: its own
error may be of any size. -/
theorem C71_moved_fails : ∃ p, pathDeformation movedEval 1 200 1 0 [fun _ => 1, 0] 1 = .ok (p, true) ∧
    relError (movedEval p) = .fin 10 := by
  refine ⟨[fun _ => 1 + 1 / 100 * (2 / 10 ^ 5), fun _ => 0], ?_, ?_⟩
  · have e1 : movedEval [fun _ => 1, 0] = ⟨[(fun _ => 1, fun _ => 1 / 100)], 1, 1 / 100⟩ := by
      simp [movedEval]
    have hg : Flt.gt (.fin ((10 : ℚ) ^ 100)) (relError (⟨[(fun _ => 1, fun _ => 1 / 100)], 1, 1 / 100⟩ : Eval ℚ 1))
        = true := by
      simp only [relError]; norm_num
    have hl : Flt.lt (relError (⟨[(fun _ => 1, fun _ => 1 / 100)], 1, 1 / 100⟩ : Eval ℚ 1)) (.fin (5 / 100)) = true := by
      simp only [relError]; norm_num
    have hs : single movedEval 1 1 (startDeform [fun _ => 1, 0] 1)
        = { startDeform (d := 1) [fun _ => 1, 0] (1 : ℚ) with
            best := moveKnots 1 (1 / 1 / (2 / 10 ^ 5)) ⟨[(fun _ => 1, fun _ => 1 / 100)], 1, 1 / 100⟩ [fun _ => 1, 0],
            next := moveKnots 1 (1 / 1 / (2 / 10 ^ 5)) ⟨[(fun _ => 1, fun _ => 1 / 100)], 1, 1 / 100⟩ [fun _ => 1, 0],
            err := relError (⟨[(fun _ => 1, fun _ => 1 / 100)], 1, 1 / 100⟩ : Eval ℚ 1),
            grad := 1, forces := [fun _ => 1 / 100] } := by
      simp only [single, startDeform, e1, hg, if_true]
      simp [adapt, reductor]
    have hb : moveKnots 1 ((1 : ℚ) / 1 / (2 / 10 ^ 5)) (⟨[(fun _ => 1, fun _ => 1 / 100)], 1, 1 / 100⟩ : Eval ℚ 1)
        [fun _ => 1, 0] = ([fun _ => 1 + 1 / 100 * (2 / 10 ^ 5), 0] : List (Vec ℚ 1)) := by
      simp only [moveKnots, List.map_cons, List.map_nil, List.drop_succ_cons, List.drop_zero, List.cons_append,
        List.nil_append]
      congr 1
      funext i
      norm_num
    rw [pathDeformation, deformLoop, hs]
    simp only [hl, if_true, hb]
    rw [reshift, if_neg (by simp)]
    simp only [Outcome.bind, List.take_succ_cons, List.take_nil, List.map_cons, List.map_nil, List.drop_succ_cons,
      List.drop_nil, List.append_nil, Pi.zero_apply, zero_add, add_zero, List.take_zero, List.drop_zero]
  · have : ¬ (1 : ℚ) + 1 / 100 * (2 / 10 ^ 5) = 1 := by norm_num
    simp only [movedEval, List.headD_cons, if_neg this, relError]
    norm_num

example : (∀ p, (movedEval p).knots.length = 1) ∧ (∀ p, (movedEval p).knots ≠ []) := by
  constructor <;> intro p <;> unfold movedEval <;> split_ifs <;> simp

end Verif.Action
