import Verif.Baryo.Align
import Verif.Models.Spec
import Verif.Programs.OptionsProps
import Mathlib.Tactic.Linarith
import Mathlib.Tactic.Ring
import Mathlib.Algebra.BigOperators.Group.List.Basic

/-!
# C136: the calculation of the baryon asymmetry starts from equivalent vacua
-/

set_option linter.unusedSectionVars false
set_option linter.unusedSimpArgs false
set_option linter.unusedVariables false

namespace Verif.Baryo.Align

open Outcome

/-! ## Specification -/

namespace AlignSpec

section

variable {K : Type} [Field K] [LinearOrder K]

/-- The squared distance of two vacua. -/
def distSq (a b : List K) : K := (List.zipWith (fun x y => (x - y) ^ 2) a b).sum

/-- A vacuum with the signs of its components changed. -/
def signed (s v : List K) : List K := List.zipWith (fun g x => g * x) s v

/-- The squared size of a vacuum. -/
def sizeSq (a : List K) : K := (a.map fun x => x ^ 2).sum

/-- `w` is the vacuum used instead of `v`: `v` itself if it is not farther from the tree-level vacuum than the
origin is; otherwise the image under the first symmetry that is nearer to the tree-level vacuum than the origin
is, and `v` itself if there is none. -/
inductive Used (tree : List K) (syms : List (List K)) (v : List K) : List K → Prop
  | near : distSq tree v ≤ sizeSq tree → Used tree syms v v
  | moved (pre : List (List K)) (s : List K) (post : List (List K)) :
      sizeSq tree < distSq tree v → syms = pre ++ s :: post →
      (∀ p ∈ pre, sizeSq tree ≤ distSq tree (signed p v)) →
      distSq tree (signed s v) < sizeSq tree → Used tree syms v (signed s v)
  | stays : sizeSq tree < distSq tree v → (∀ p ∈ syms, sizeSq tree ≤ distSq tree (signed p v)) →
      Used tree syms v v

end

/-- The point at one percent of the way from the symmetric to the broken vacuum. -/
noncomputable def percent (symmetric critical : List ℝ) : List ℝ :=
  List.zipWith (fun s c => 99 / 100 * s + 1 / 100 * c) symmetric critical

end AlignSpec

open AlignSpec

section

variable {K : Type} [Field K] [LinearOrder K] [IsStrictOrderedRing K]

theorem range_zipWith {α β : Type} (f : α → β → K) (a : List α) (v : List β) (h : v.length ≤ a.length) :
    (List.range v.length).mapM (fun i => do
      let t ← at' a i
      let x ← at' v i
      ok (f t x)) = ok (List.zipWith f a v) := by
  have key : ∀ i ∈ List.range v.length, (do
      let t ← at' a i
      let x ← at' v i
      ok (f t x)) = ok ((List.zipWith f a v).getD i 0) := by
    intro i hi
    rw [List.mem_range] at hi
    rw [at'_of_lt (by omega : i < a.length), at'_of_lt hi]
    simp [List.getD, List.getElem?_zipWith, List.getElem?_eq_getElem hi,
      List.getElem?_eq_getElem (by omega : i < a.length)]
  rw [mapM_ok key]
  congr 1
  apply List.ext_getElem
  · simp; omega
  · intro i h1 h2
    simp at h1 h2
    simp [List.getD, List.getElem?_zipWith, List.getElem?_eq_getElem h1,
      List.getElem?_eq_getElem (by omega : i < a.length)]

theorem testNorm_eq (tree v : List K) (h : v.length ≤ tree.length) :
    testNorm tree v = ok (distSq tree v) := by
  unfold testNorm distSq
  rw [range_zipWith (fun t x => (t - x) ^ 2) tree v h, bind_ok]

theorem flip_eq (s v : List K) (h : v.length ≤ s.length) : flip s v = ok (signed s v) := by
  unfold flip signed
  rw [← range_zipWith (fun g x => g * x) s v h]
  congr 1
  funext i
  cases h1 : at' v i <;> cases h2 : at' s i <;> simp [mul_comm]
  all_goals
    unfold at' at h1 h2
    split at h1 <;> split at h2 <;> simp_all

theorem signed_length (s v : List K) (h : v.length ≤ s.length) : (signed s v).length = v.length := by
  simp [signed]; omega

theorem testFlip_eq (tree s v : List K) (h : v.length ≤ tree.length) (hs : v.length ≤ s.length) :
    testFlip tree s v = ok (distSq tree (signed s v)) := by
  have hl := signed_length s v hs
  rw [← testNorm_eq tree (signed s v) (by omega)]
  unfold testFlip testNorm
  rw [hl]
  congr 1
  have : ∀ i ∈ List.range v.length, (do
      let t ← at' tree i
      let g ← at' s i
      let x ← at' v i
      ok ((t - g * x) ^ 2)) = (do
      let t ← at' tree i
      let x ← at' (signed s v) i
      ok ((t - x) ^ 2)) := by
    intro i hi
    rw [List.mem_range] at hi
    rw [at'_of_lt (by omega : i < tree.length), at'_of_lt hi, at'_of_lt (by omega : i < s.length),
      at'_of_lt (by omega : i < (signed s v).length)]
    simp [signed]
  have gen : ∀ (l : List Nat) (f g : Nat → Outcome K), (∀ i ∈ l, f i = g i) → l.mapM f = l.mapM g := by
    intro l f g hfg
    induction l with
    | nil => rfl
    | cons a l ih => simp [List.mapM_cons, hfg a (by simp), ih fun i hi => hfg i (by simp [hi])]
  exact gen _ _ _ this

theorem firstFlip_spec (tree v : List K) (h : v.length ≤ tree.length) (norm : K) :
    ∀ (syms : List (List K)), (∀ s ∈ syms, v.length ≤ s.length) →
      (∃ pre s post, syms = pre ++ s :: post ∧ (∀ p ∈ pre, norm ≤ distSq tree (signed p v)) ∧
        distSq tree (signed s v) < norm ∧ firstFlip tree norm v syms = ok (signed s v)) ∨
      ((∀ p ∈ syms, norm ≤ distSq tree (signed p v)) ∧ firstFlip tree norm v syms = ok v) := by
  intro syms
  induction syms with
  | nil => intro _; exact .inr ⟨by simp, rfl⟩
  | cons s rest ih =>
    intro hs
    have h1 := hs s (by simp)
    rw [firstFlip, testFlip_eq tree s v h h1, bind_ok]
    by_cases hc : distSq tree (signed s v) < norm
    · rw [if_pos hc]
      exact .inl ⟨[], s, rest, rfl, by simp, hc, flip_eq s v h1⟩
    · rw [if_neg hc]
      rcases ih fun p hp => hs p (by simp [hp]) with ⟨pre, p, post, e, hpre, hp, hr⟩ | ⟨hall, hr⟩
      · refine .inl ⟨s :: pre, p, post, by rw [e]; rfl, ?_, hp, hr⟩
        intro q hq
        rcases List.mem_cons.1 hq with rfl | hq
        · exact not_lt.1 hc
        · exact hpre q hq
      · refine .inr ⟨?_, hr⟩
        intro q hq
        rcases List.mem_cons.1 hq with rfl | hq
        · exact not_lt.1 hc
        · exact hall q hq

/-- For vacua with at most as many components as the tree-level vacuum and the symmetries have, the vacuum used is
the one of the specification. -/
theorem C136_used (tree : List K) (syms : List (List K)) (v : List K) (h : v.length ≤ tree.length)
    (hs : ∀ s ∈ syms, v.length ≤ s.length) : ∃ w, align tree syms v = ok w ∧ Used tree syms v w := by
  unfold align
  rw [testNorm_eq tree v h, bind_ok]
  by_cases hc : compareNorm tree < distSq tree v
  · rw [if_pos hc]
    rcases firstFlip_spec tree v h (compareNorm tree) syms hs with ⟨pre, s, post, e, h1, h2, h3⟩ | ⟨h1, h2⟩
    · exact ⟨_, h3, .moved pre s post hc e h1 h2⟩
    · exact ⟨v, h2, .stays hc h1⟩
  · rw [if_neg hc]
    exact ⟨v, rfl, .near (not_lt.1 hc)⟩

/-- Moving a vacuum twice is moving it once: the specification determines the vacuum, and the vacuum used is its
own replacement. -/
theorem C136_idempotent (tree : List K) (syms : List (List K)) (v w : List K) (h : v.length ≤ tree.length)
    (hs : ∀ s ∈ syms, v.length ≤ s.length) (hw : align tree syms v = ok w) : align tree syms w = ok w := by
  obtain ⟨w', e, hu⟩ := C136_used tree syms v h hs
  rw [hw] at e
  injection e with e
  subst e
  cases hu with
  | near hn => exact hw
  | stays h1 h2 => exact hw
  | moved pre s post h1 e h2 h3 =>
    have hl := signed_length s v (hs s (by rw [e]; simp))
    unfold align
    rw [testNorm_eq tree _ (by omega), bind_ok, if_neg]
    exact not_lt.2 h3.le

/-- If the signs are symmetries of the potential, the vacuum used has the same potential as the given one, and
every quantity that does not depend on the signs is unchanged. -/
theorem C136_equivalent {A : Type} (V : List K → A) (tree : List K) (syms : List (List K)) (v w : List K)
    (h : v.length ≤ tree.length) (hs : ∀ s ∈ syms, v.length ≤ s.length)
    (hV : ∀ s ∈ syms, ∀ x : List K, x.length = v.length → V (signed s x) = V x)
    (hw : align tree syms v = ok w) : V w = V v ∧ w.length = v.length := by
  obtain ⟨w', e, hu⟩ := C136_used tree syms v h hs
  rw [hw] at e
  injection e with e
  subst e
  cases hu with
  | near hn => exact ⟨rfl, rfl⟩
  | stays h1 h2 => exact ⟨rfl, rfl⟩
  | moved pre s post h1 e h2 h3 =>
    have hm : s ∈ syms := by rw [e]; simp
    exact ⟨hV s hm v rfl, signed_length s v (hs s hm)⟩

/-- The vacuum used is never farther from the tree-level vacuum than the given one. -/
theorem C136_nearer (tree : List K) (syms : List (List K)) (v w : List K) (h : v.length ≤ tree.length)
    (hs : ∀ s ∈ syms, v.length ≤ s.length) (hw : align tree syms v = ok w) :
    distSq tree w ≤ distSq tree v ∧
      ((∃ s ∈ syms, distSq tree (signed s v) < sizeSq tree) → distSq tree w ≤ sizeSq tree) := by
  obtain ⟨w', e, hu⟩ := C136_used tree syms v h hs
  rw [hw] at e
  injection e with e
  subst e
  cases hu with
  | near hn => exact ⟨le_refl _, fun _ => hn⟩
  | stays h1 h2 => exact ⟨le_refl _, fun ⟨s, hm, hlt⟩ => absurd hlt (not_lt.2 (h2 s hm))⟩
  | moved pre s post h1 e h2 h3 => exact ⟨(h3.trans h1).le, fun _ => h3.le⟩

/-- A vacuum with more components than the tree-level vacuum is refused. -/
theorem C136_long (tree : List K) (syms : List (List K)) (v : List K) (h : tree.length < v.length) :
    align tree syms v = err .outOfRange := by
  have gen : ∀ (l : List Nat) (f : Nat → Outcome K) (i : Nat), (∀ j ∈ l, j < i → ∃ x, f j = ok x) →
      (∀ j ∈ l, i ≤ j → f j = err .outOfRange) → i ∈ l → l.mapM f = err .outOfRange := by
    intro l f i h1 h2 hi
    induction l with
    | nil => simp at hi
    | cons a l ih =>
      rw [List.mapM_cons]
      by_cases ha : a < i
      · obtain ⟨x, hx⟩ := h1 a (by simp) ha
        rw [hx, bind_ok, ih (fun j hj => h1 j (by simp [hj])) (fun j hj => h2 j (by simp [hj])) ?_, bind_err]
        rcases List.mem_cons.1 hi with rfl | hi
        · omega
        · exact hi
      · rw [h2 a (by simp) (by omega), bind_err]
  unfold align testNorm
  rw [gen (List.range v.length) _ tree.length ?_ ?_ ?_]
  · rfl
  · intro j hj hlt
    rw [List.mem_range] at hj
    exact ⟨_, by rw [at'_of_lt hlt, at'_of_lt hj]; rfl⟩
  · intro j _ hle
    rw [at'_of_ge hle]; rfl
  · simpa using h

end

/-- The nearest of the equivalent vacua is not what is used: the first symmetry that brings the vacuum near enough
is taken. -/
theorem C136_nearest_fails : ∃ (tree : List ℚ) (syms : List (List ℚ)) (v w u : List ℚ),
    align tree syms v = ok w ∧ (∃ s ∈ syms, u = signed s v) ∧ distSq tree u < distSq tree w :=
  ⟨[10, 3], [[-1, 1], [1, -1], [-1, -1]], [-8, -2], [8, -2], [8, 2], by decide +kernel,
    ⟨[-1, -1], by decide +kernel, by decide +kernel⟩, by decide +kernel⟩

/-- The two vacua are moved independently of each other: there are symmetries and two vacua such that no single
symmetry, and not the identity either, takes the given pair to the pair used.  The bubble wall is then calculated
between vacua that are not the images of the given ones. -/
theorem C136_pair_fails : ∃ (tree : List ℚ) (syms : List (List ℚ)) (c s c' s' : List ℚ),
    align tree syms c = ok c' ∧ align tree syms s = ok s' ∧ ¬ (c' = c ∧ s' = s) ∧
      (∀ g : List ℚ, g.length = 2 → ¬ (signed g c = c' ∧ signed g s = s')) := by
  refine ⟨[10, 1], [[-1, 1], [1, -1], [-1, -1]], [-5, -1], [0, -1], [5, -1], [0, 1], by decide +kernel,
    by decide +kernel, by decide +kernel, ?_⟩
  intro g hg ⟨h1, h2⟩
  match g, hg with
  | [a, b], _ =>
    simp [signed] at h1 h2
    linarith [h1.2, h2]

/-- The nearest copy is not looked for at all if the given vacuum is not farther than the origin: the vacuum
`(1, -2)` of a tree-level vacuum `(10, 1)` is kept although `(1, 2)` is nearer. -/
theorem C136_kept_fails : align [(10 : ℚ), 1] [[1, -1]] [1, -2] = ok [1, -2] ∧
    distSq [(10 : ℚ), 1] (signed [1, -1] [1, -2]) < distSq [(10 : ℚ), 1] [1, -2] :=
  ⟨by decide +kernel, by decide +kernel⟩

example : align [(246 : ℚ), 5] [[-1, 1], [1, -1], [-1, -1]] [-200, 3] = ok [200, 3] := by decide +kernel
example : align [(246 : ℚ), 5] [[-1, 1]] [100, 3] = ok [100, 3] := by decide +kernel
example : align [(3 : ℚ)] [[1]] [-1] = ok [-1] := by decide +kernel

/-! ## The start -/

theorem basepoint_eq (c s : List ℝ) (h : c.length ≤ s.length) :
    basepoint c s = ok (percent s c) := by
  have e : basepoint c s = (List.range c.length).mapM (fun i => do
      let t ← at' s i
      let x ← at' c i
      ok (99 / 100 * t + 1 / 100 * x)) := by
    unfold basepoint
    congr 1
    funext i
    cases h1 : at' s i <;> cases h2 : at' c i <;> simp
    ring
  rw [e, range_zipWith (fun t x : ℝ => 99 / 100 * t + 1 / 100 * x) s c h]
  rfl

/-- What `init` leaves behind: velocity, temperature and the electroweak VEV of the given broken vacuum, the two
vacua used, the thickness of the wall between these, four times this as the end of the integration, and the phases
of the masses at the minimum of the plane one percent inside the wall and at the broken vacuum.  The velocities in
the transport equations are switched off. -/
theorem C136_started (e : Env) (vw : ℝ) (c s : List ℝ) (tc : ℝ) (r : Started)
    (hc : c.length ≤ e.tree.length) (hs : s.length = c.length) (hg : ∀ g ∈ e.syms, g.length = e.tree.length)
    (hp : ∀ b x y p, e.plane tc b x y = ok p → p.length ≤ e.tree.length)
    (h : init e vw c s tc = ok r) :
    r.vw = vw ∧ r.tc = tc ∧ r.velocities = false ∧
    (∃ f, Models.minimizeOrderVEV e.nHiggs e.order c = ok f ∧ e.ewsb f = ok r.vc) ∧
    Used e.tree e.syms c r.critical ∧ Used e.tree e.syms s r.symmetric ∧
    e.wall tc r.critical r.symmetric = ok r.lw ∧ r.zmax = 4 * r.lw ∧
    (∃ p, e.plane tc (percent r.symmetric r.critical) r.symmetric r.critical = ok p ∧
      Used e.tree e.syms p r.symTheta) ∧
    (∃ f q l, Models.minimizeOrderVEV e.nHiggs e.order r.symTheta = ok f ∧ e.quarks f = ok q ∧
      e.leptons f = ok l ∧ phases q l = ok r.symPhases) ∧
    (∃ f q l, Models.minimizeOrderVEV e.nHiggs e.order r.critical = ok f ∧ e.quarks f = ok q ∧
      e.leptons f = ok l ∧ phases q l = ok r.brokenPhases) := by
  obtain ⟨c', ec, uc⟩ := C136_used e.tree e.syms c hc fun g m => by rw [hg g m]; exact hc
  obtain ⟨s', es, us⟩ := C136_used e.tree e.syms s (by omega) fun g m => by rw [hg g m]; omega
  have lc := (C136_equivalent (fun _ => ()) e.tree e.syms c c' hc
    (fun g m => by rw [hg g m]; exact hc) (fun _ _ _ _ => rfl) ec).2
  have ls := (C136_equivalent (fun _ => ()) e.tree e.syms s s' (by omega)
    (fun g m => by rw [hg g m]; omega) (fun _ _ _ _ => rfl) es).2
  unfold init at h
  obtain ⟨f, hf, h⟩ := Programs.bind_eq_ok h
  obtain ⟨vc, hvc, h⟩ := Programs.bind_eq_ok h
  rw [ec, bind_ok, es, bind_ok] at h
  obtain ⟨lw, hlw, h⟩ := Programs.bind_eq_ok h
  rw [basepoint_eq c' s' (by omega), bind_ok] at h
  obtain ⟨p, hpl, h⟩ := Programs.bind_eq_ok h
  have hpt := hp _ _ _ _ hpl
  obtain ⟨p', ep, up⟩ := C136_used e.tree e.syms p hpt fun g m => by rw [hg g m]; exact hpt
  rw [ep, bind_ok] at h
  obtain ⟨fs, hfs, h⟩ := Programs.bind_eq_ok h
  obtain ⟨qs, hqs, h⟩ := Programs.bind_eq_ok h
  obtain ⟨lls, hls, h⟩ := Programs.bind_eq_ok h
  obtain ⟨ps, hps, h⟩ := Programs.bind_eq_ok h
  obtain ⟨fb, hfb, h⟩ := Programs.bind_eq_ok h
  obtain ⟨qb, hqb, h⟩ := Programs.bind_eq_ok h
  obtain ⟨lb, hlb, h⟩ := Programs.bind_eq_ok h
  obtain ⟨pb, hpb, h⟩ := Programs.bind_eq_ok h
  injection h with h
  subst h
  exact ⟨rfl, rfl, rfl, ⟨f, hf, hvc⟩, uc, us, hlw, rfl, ⟨p, hpl, up⟩, ⟨fs, qs, lls, hfs, hqs, hls, hps⟩,
    ⟨fb, qb, lb, hfb, hqb, hlb, hpb⟩⟩

/-- A small model for which the hypotheses of `C136_started` hold and `init` succeeds. -/
noncomputable def exEnv : Env where
  tree := [246]
  syms := [[-1]]
  nHiggs := 1
  order := [0]
  ewsb := fun v => ok (v.getD 0 0)
  wall := fun _ _ _ => ok 1
  plane := fun _ b _ _ => ok (b.take 1)
  quarks := fun v => ok [(v.getD 0 0 : ℂ), -(v.getD 0 0 : ℂ), (v.getD 0 0 : ℂ), -(v.getD 0 0 : ℂ)]
  leptons := fun v => ok [(v.getD 0 0 : ℂ), -(v.getD 0 0 : ℂ)]

theorem phase_ok (l : List ℂ) (k k' : Nat) (h : k ≤ l.length) (h' : k' ≤ l.length) (hk : 0 < k) (hk' : 0 < k') :
    ∃ x, phase l k k' = ok x := by
  unfold phase fromEnd
  rw [if_neg (by omega), if_neg (by omega), at'_of_lt (by omega : l.length - k < l.length),
    at'_of_lt (by omega : l.length - k' < l.length)]
  simp only [bind_ok]
  split_ifs <;> exact ⟨_, rfl⟩

theorem phases_ok (q l : List ℂ) (hq : 4 ≤ q.length) (hl : 2 ≤ l.length) : ∃ p, phases q l = ok p := by
  obtain ⟨t, ht⟩ := phase_ok q 1 2 (by omega) (by omega) (by omega) (by omega)
  obtain ⟨b, hb⟩ := phase_ok q 3 4 (by omega) (by omega) (by omega) (by omega)
  obtain ⟨a, ha⟩ := phase_ok l 1 2 (by omega) (by omega) (by omega) (by omega)
  exact ⟨_, by rw [phases, ht, bind_ok, hb, bind_ok, ha, bind_ok]⟩

example : (∃ r, init exEnv 1 [-200] [0] 100 = ok r) ∧ (∀ g ∈ exEnv.syms, g.length = exEnv.tree.length) ∧
    (∀ (b x y p : List ℝ), exEnv.plane 100 b x y = ok p → p.length ≤ exEnv.tree.length) := by
  refine ⟨?_, by simp [exEnv], fun b x y p h => ?_⟩
  · obtain ⟨c, hc, uc⟩ := C136_used exEnv.tree exEnv.syms [-200] (by simp [exEnv]) (by simp [exEnv])
    obtain ⟨s, hs, us⟩ := C136_used exEnv.tree exEnv.syms [0] (by simp [exEnv]) (by simp [exEnv])
    have lc := (C136_equivalent (fun _ => ()) exEnv.tree exEnv.syms [-200] c (by simp [exEnv]) (by simp [exEnv])
      (fun _ _ _ _ => rfl) hc).2
    have ls := (C136_equivalent (fun _ => ()) exEnv.tree exEnv.syms [0] s (by simp [exEnv]) (by simp [exEnv])
      (fun _ _ _ _ => rfl) hs).2
    obtain ⟨c0, rfl⟩ := List.length_eq_one_iff.1 lc
    obtain ⟨s0, rfl⟩ := List.length_eq_one_iff.1 ls
    obtain ⟨p, hp, up⟩ := C136_used exEnv.tree exEnv.syms (percent [s0] [c0]) (by simp [exEnv, percent])
      (by simp [exEnv, percent])
    have lp := (C136_equivalent (fun _ => ()) exEnv.tree exEnv.syms (percent [s0] [c0]) p
      (by simp [exEnv, percent]) (by simp [exEnv, percent]) (fun _ _ _ _ => rfl) hp).2
    obtain ⟨p0, rfl⟩ := List.length_eq_one_iff.1 (lp.trans (by simp [percent]))
    have hm : ∀ x : ℝ, Models.minimizeOrderVEV exEnv.nHiggs exEnv.order [x] = ok [x] := by
      intro x
      simp [exEnv, Models.minimizeOrderVEV, Models.minimizeOrderVEVLoop, idx, at']
    obtain ⟨p1, h1⟩ := phases_ok [(p0 : ℂ), -(p0 : ℂ), (p0 : ℂ), -(p0 : ℂ)] [(p0 : ℂ), -(p0 : ℂ)] (by simp) (by simp)
    obtain ⟨p2, h2⟩ := phases_ok [(c0 : ℂ), -(c0 : ℂ), (c0 : ℂ), -(c0 : ℂ)] [(c0 : ℂ), -(c0 : ℂ)] (by simp) (by simp)
    refine ⟨?w, ?e⟩
    case e =>
      unfold init
      rw [hm, bind_ok, show exEnv.ewsb [-200] = ok (-200) by simp [exEnv], bind_ok, hc, bind_ok, hs, bind_ok,
        show exEnv.wall 100 [c0] [s0] = ok 1 from rfl, bind_ok, basepoint_eq _ _ (by simp), bind_ok,
        show exEnv.plane 100 (percent [s0] [c0]) [s0] [c0] = ok (percent [s0] [c0]) from rfl, bind_ok, hp, bind_ok,
        hm, bind_ok, show exEnv.quarks [p0] = ok [(p0 : ℂ), -(p0 : ℂ), (p0 : ℂ), -(p0 : ℂ)] from rfl, bind_ok,
        show exEnv.leptons [p0] = ok [(p0 : ℂ), -(p0 : ℂ)] from rfl, bind_ok, h1, bind_ok, hm, bind_ok,
        show exEnv.quarks [c0] = ok [(c0 : ℂ), -(c0 : ℂ), (c0 : ℂ), -(c0 : ℂ)] from rfl, bind_ok,
        show exEnv.leptons [c0] = ok [(c0 : ℂ), -(c0 : ℂ)] from rfl, bind_ok, h2, bind_ok]
  · injection h with h
    subst h
    simp [exEnv]

end Verif.Baryo.Align
