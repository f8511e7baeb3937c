import Mathlib.Algebra.BigOperators.Fin
import Mathlib.Tactic.Ring
import Mathlib.Tactic.Linarith
import Mathlib.Tactic.FieldSimp
import Mathlib.Tactic.LinearCombination
import Verif.Minimizer.Plane
import Verif.Minimizer.Props

/-!
# Points on the tunnelling plane (C39)
-/

set_option linter.unusedSectionVars false

namespace Verif.Minimizer

open Outcome

section
variable {K : Type} [Field K]

/-- The scalar product of two lists. -/
def Spec.dot (a b : List K) : K := (List.zipWith (· * ·) a b).sum

/-- `v` lies on the plane through `point` perpendicular to `normal`. -/
def Spec.OnPlane (normal point v : List K) : Prop :=
  v.length = point.length ∧ Spec.dot normal v = Spec.dot normal point

theorem foldlM_sum (a b : List K) : ∀ (m : Nat) (k : Nat) (s : K), k + m ≤ a.length →
    k + m ≤ b.length →
    (List.range' k m).foldlM (fun s i => do
      let x ← at' a i
      let y ← at' b i
      Outcome.ok (s + x * y)) s =
      Outcome.ok (s + (List.zipWith (· * ·) ((a.drop k).take m) ((b.drop k).take m)).sum) := by
  intro m
  induction m with
  | zero => intro k s _ _; simp
  | succ m ih =>
    intro k s ha hb
    have h1 : k < a.length := by omega
    have h2 : k < b.length := by omega
    rw [List.range'_succ, List.foldlM_cons, at'_of_lt h1, at'_of_lt h2]
    simp only [bind_ok]
    have e1 : (a.drop k).take (m + 1) = a[k] :: (a.drop (k + 1)).take m := by
      rw [List.drop_eq_getElem_cons h1, List.take_succ_cons]
    have e2 : (b.drop k).take (m + 1) = b[k] :: (b.drop (k + 1)).take m := by
      rw [List.drop_eq_getElem_cons h2, List.take_succ_cons]
    rw [ih (k + 1) _ (by omega) (by omega), e1, e2]
    simp [add_assoc]

theorem planeSum_ok (a b : List K) (n : Nat) (ha : a.length = n) (hb : b.length = n) :
    planeSum n a b = Outcome.ok (Spec.dot a b) := by
  unfold planeSum
  rw [List.range_eq_range', foldlM_sum a b n 0 0 (by omega) (by omega)]
  subst ha
  simp only [List.drop_zero, List.take_length, zero_add, Spec.dot]
  rw [← hb, List.take_length]

theorem dot_set (a b : List K) (i : Nat) (x : K) (hi : i < a.length) (hb : b.length = a.length) :
    Spec.dot a (b.set i x) = Spec.dot a b + a[i] * (x - b[i]'(by omega)) := by
  induction a generalizing b i with
  | nil => simp at hi
  | cons u a ih =>
    cases b with
    | nil => simp at hb
    | cons w b =>
      cases i with
      | zero => simp [Spec.dot]; ring
      | succ i =>
        have := ih b i (by simpa using hi) (by simpa using hb)
        simp only [Spec.dot] at this
        simp only [Spec.dot, List.set_cons_succ, List.zipWith_cons_cons, List.sum_cons, this,
          List.getElem_cons_succ]
        ring

theorem insert_length (tilde : List K) (i : Nat) (hi : i ≤ tilde.length) (x : K) :
    (tilde.take i ++ x :: tilde.drop i).length = tilde.length + 1 := by
  simp; omega

theorem insert_eraseIdx (tilde : List K) (i : Nat) (hi : i ≤ tilde.length) (x : K) :
    (tilde.take i ++ x :: tilde.drop i).eraseIdx i = tilde := by
  rw [List.eraseIdx_append_of_length_le (by simp)]
  have : i - (tilde.take i).length = 0 := by simp; omega
  rw [this]
  simp

theorem insert_set (tilde : List K) (i : Nat) (hi : i ≤ tilde.length) (x y : K) :
    (tilde.take i ++ x :: tilde.drop i).set i y = tilde.take i ++ y :: tilde.drop i := by
  have hl : (tilde.take i).length = i := by simp; omega
  rw [List.set_append_right _ _ (by omega)]
  simp [hl]

theorem eraseIdx_insert (v : List K) (i : Nat) (hi : i < v.length) :
    v = (v.eraseIdx i).take i ++ v[i] :: (v.eraseIdx i).drop i := by
  have h1 : (v.eraseIdx i).take i = v.take i := by
    rw [List.eraseIdx_eq_take_drop_succ, List.take_append_of_le_length (by simp; omega)]
    simp
  have h2 : (v.eraseIdx i).drop i = v.drop (i + 1) := by
    rw [List.eraseIdx_eq_take_drop_succ, List.drop_append]
    have : (v.take i).length = i := by simp; omega
    simp [this]
  rw [h1, h2, ← List.drop_eq_getElem_cons hi, List.take_append_drop]

theorem insert_get (tilde : List K) (i : Nat) (hi : i ≤ tilde.length) (x : K)
    (h : i < (tilde.take i ++ x :: tilde.drop i).length) :
    (tilde.take i ++ x :: tilde.drop i)[i] = x := by
  have hl : (tilde.take i).length = i := by simp; omega
  rw [List.getElem_append_right (by omega)]
  simp [hl]

/-- For every plane with a direction whose component at `Index` does not vanish, and all coordinates
of the right number, the result is the one point on the plane whose other components are the
coordinates. -/
theorem C39_transform (p : Plane K) (tilde : List K) (hn : p.normal.length = p.nVEV)
    (hp : p.point.length = p.nVEV) (hi : p.index < p.nVEV)
    (h0 : ∀ h : p.index < p.normal.length, p.normal[p.index] ≠ 0)
    (ht : tilde.length + 1 = p.nVEV) :
    ∃ v, transformCoordinates p tilde = .ok v ∧
      (Spec.OnPlane p.normal p.point v ∧ v.eraseIdx p.index = tilde) ∧
      ∀ w, Spec.OnPlane p.normal p.point w → w.eraseIdx p.index = tilde → w = v := by
  have hin : p.index < p.normal.length := by omega
  have hne := h0 hin
  have hit : p.index ≤ tilde.length := by omega
  have hlen := insert_length tilde p.index hit (0 : K)
  set z := tilde.take p.index ++ (0 : K) :: tilde.drop p.index with hz
  have hzn : z.length = p.normal.length := by omega
  set x := 1 / p.normal[p.index] * (Spec.dot p.normal p.point - Spec.dot p.normal z) with hx
  have hz0 : z[p.index]'(by omega) = 0 := insert_get tilde p.index hit 0 _
  refine ⟨z.set p.index x, ?_, ⟨⟨?_, ?_⟩, ?_⟩, ?_⟩
  · simp only [transformCoordinates, ht, ne_eq, not_true_eq_false, if_false,
      if_neg (not_le.mpr hi), planeSum_ok _ _ _ hn hp, bind_ok, ← hz,
      planeSum_ok _ z _ hn (by omega), at'_of_lt hin, hx]
  · simp; omega
  · rw [dot_set _ _ _ _ hin hzn, hz0, hx]
    field_simp
    ring
  · rw [hz, insert_set _ _ hit, insert_eraseIdx _ _ hit]
  · rintro w ⟨hw1, hw2⟩ hw3
    have hwi : p.index < w.length := by omega
    have hw := eraseIdx_insert w p.index hwi
    rw [hw3] at hw
    have hwz : w = z.set p.index w[p.index] := by
      conv_lhs => rw [hw]
      rw [hz, insert_set _ _ hit]
    rw [hwz, dot_set _ _ _ _ hin hzn, hz0] at hw2
    have : w[p.index] = x := by
      rw [hx]
      field_simp
      linear_combination hw2
    rw [hwz, this]

/-- Coordinates of a wrong number are rejected with an exception. -/
theorem C39_wrong_length (p : Plane K) (tilde : List K) (ht : tilde.length + 1 ≠ p.nVEV) :
    transformCoordinates p tilde = .err .runtime := by
  simp [transformCoordinates, ht]

/-- A component beyond the last one is written past the end. -/
theorem C39_index_too_large (p : Plane K) (tilde : List K) (ht : tilde.length + 1 = p.nVEV)
    (hi : p.nVEV ≤ p.index) : transformCoordinates p tilde = .ub .outOfBounds := by
  simp [transformCoordinates, ht, hi]

/-- The base point itself is reached from its own components. -/
theorem C39_base_point (p : Plane K) (hn : p.normal.length = p.nVEV)
    (hp : p.point.length = p.nVEV) (hi : p.index < p.nVEV)
    (h0 : ∀ h : p.index < p.normal.length, p.normal[p.index] ≠ 0) :
    transformCoordinates p (p.point.eraseIdx p.index) = .ok p.point := by
  obtain ⟨v, hv, -, huniq⟩ := C39_transform p (p.point.eraseIdx p.index) hn hp hi h0
    (by rw [List.length_eraseIdx]; split <;> omega)
  rw [hv, huniq p.point ⟨rfl, rfl⟩ rfl]

example : transformCoordinates (⟨3, 1, [1, 2, 0], [1, 1, 5]⟩ : Plane ℚ) [3, 4] = .ok [3, 0, 4] := by
  decide +kernel

end

section
variable {K : Type} [Field K] [LinearOrder K] [IsStrictOrderedRing K]

/-- The component that is left out is the first one that differs by `10⁻³` or more. -/
theorem indexNorm_some {l : List K} {i : Nat} (h : indexNorm l = some i) :
    ∃ hi : i < l.length, (1 / 1000 : K) ≤ |l[i]| := by
  unfold indexNorm at h
  obtain ⟨hi, h1, -⟩ := List.findIdx?_eq_some_iff_getElem.mp h
  exact ⟨hi, by simpa using h1⟩

theorem indexNorm_none {l : List K} :
    indexNorm l = none ↔ ∀ x ∈ l, |x| < (1 / 1000 : K) := by
  unfold indexNorm
  simp [List.findIdx?_eq_none_iff]

theorem planeNormal_ok (broken symmetric : List K) (h : symmetric.length = broken.length) :
    planeNormal broken symmetric = .ok (List.zipWith (· - ·) broken symmetric) := by
  unfold planeNormal
  rw [Outcome.mapM_ok (g := fun i => (broken[i]?.getD 0) - (symmetric[i]?.getD 0))]
  · congr 1
    apply List.ext_getElem
    · simp [h]
    · intro i h1 h2
      have hb : i < broken.length := by simpa using h1
      have hs : i < symmetric.length := by omega
      simp [List.getElem?_eq_getElem hb, List.getElem?_eq_getElem hs]
  · intro i hi
    have hb : i < broken.length := by simpa using hi
    have hs : i < symmetric.length := by omega
    simp [at'_of_lt hb, at'_of_lt hs, List.getElem?_eq_getElem hb, List.getElem?_eq_getElem hs]

/-- When the two minima agree up to `10⁻³` in every component the call throws, whatever the
minimisers do. -/
theorem C39_same_minima (use : Use) (nVEV : Nat) (base symmetric broken : List K)
    (V : List K → Flt K) (found : Plane K → PlaneFound K) (hl : symmetric.length = broken.length)
    (h : ∀ x ∈ List.zipWith (· - ·) broken symmetric, |x| < (1 / 1000 : K)) :
    minimizePlane use nVEV base symmetric broken V found = .err .runtime := by
  simp [minimizePlane, planeNormal_ok _ _ hl, indexNorm_none.mpr h]

/-- What the libraries are trusted to return: coordinates of the right number, and with NLopt the
value of the potential at its point. -/
structure Spec.GoodFound (p : Plane K) (V : List K → Flt K) (f : PlaneFound K) : Prop where
  gsl : ∀ t ∈ f.gsl, t.length + 1 = p.nVEV
  gslNonempty : f.gsl ≠ []
  cmaes : f.cmaes.length + 1 = p.nVEV
  nlopt : f.nlopt.length + 1 = p.nVEV
  nloptValue : ∀ s, transformCoordinates p f.nlopt = .ok s → f.nloptValue = V s

theorem foldl_le_mem {P : Type} (cs : List (Cand P K)) (c : Cand P K) :
    cs.foldl (fun best c => if c.value.le best.value then c else best) c ∈ c :: cs := by
  induction cs generalizing c with
  | nil => simp
  | cons d cs ih =>
    rw [List.foldl_cons]
    rcases List.mem_cons.mp (ih (if d.value.le c.value then d else c)) with h | h
    · rw [h]; split <;> simp
    · exact List.mem_cons_of_mem _ (List.mem_cons_of_mem _ h)

theorem foldl_le_lowest {P : Type} (cs : List (Cand P K)) (c : Cand P K)
    (hfin : ∀ d ∈ c :: cs, ∃ v, d.value = .fin v) :
    ∀ d ∈ c :: cs, Flt.le (cs.foldl (fun best c => if c.value.le best.value then c else best) c).value
      d.value = true := by
  induction cs generalizing c with
  | nil =>
    intro d hd
    obtain rfl : d = c := by simpa using hd
    obtain ⟨v, hv⟩ := hfin d (by simp)
    simp [hv]
  | cons e cs ih =>
    intro d hd
    rw [List.foldl_cons]
    obtain ⟨u, hu⟩ := hfin e (by simp)
    obtain ⟨v, hv⟩ := hfin c (by simp)
    have hnext : ∀ x ∈ (if e.value.le c.value then e else c) :: cs, ∃ w, x.value = .fin w := by
      intro x hx
      rcases List.mem_cons.mp hx with rfl | hx
      · split
        · exact ⟨u, hu⟩
        · exact ⟨v, hv⟩
      · exact hfin x (by simp [hx])
    have hall := ih _ hnext
    rcases List.mem_cons.mp hd with rfl | hd
    · have h1 := hall _ List.mem_cons_self
      obtain ⟨w, hw⟩ := hnext _ (foldl_le_mem cs _)
      rw [hw] at h1 ⊢
      rw [hv]
      split at h1
      · rename_i hle
        rw [hu] at h1
        rw [hu, hv] at hle
        simp only [Flt.le_fin] at h1 hle ⊢
        exact h1.trans hle
      · rwa [hv] at h1
    · rcases List.mem_cons.mp hd with rfl | hd
      · have h1 := hall _ List.mem_cons_self
        obtain ⟨w, hw⟩ := hnext _ (foldl_le_mem cs _)
        rw [hw] at h1 ⊢
        rw [hu]
        split at h1
        · rwa [hu] at h1
        · rename_i hle
          rw [hv] at h1
          rw [hu, hv] at hle
          simp only [Flt.le_fin] at h1 hle ⊢
          exact h1.trans (le_of_lt (not_le.mp hle))
      · exact hall d (List.mem_cons_of_mem _ hd)

/-- A plane as `MinimizePlane` sets it up. -/
def Spec.planeOf (nVEV : Nat) (base symmetric broken : List K) (i : Nat) : Plane K :=
  ⟨nVEV, i, List.zipWith (· - ·) broken symmetric, base⟩

/-- The result of `MinimizePlane`: with at least one usable minimiser, points of the right length and
minima that are not identical, it is a point on the plane through the base point perpendicular to the
line between the minima, with the value of the potential there; when the potential is never NaN, no
point proposed by any of the minimisers used lies lower. -/
theorem C39_minimize_plane (use : Use) (base symmetric broken : List K)
    (V : List K → Flt K) (found : Plane K → PlaneFound K)
    (hs : symmetric.length = broken.length) (hb : base.length = broken.length)
    (hdiff : ∃ x ∈ List.zipWith (· - ·) broken symmetric, (1 / 1000 : K) ≤ |x|)
    (huse : use.gsl = true ∨ use.nlopt = true ∨ (use.cmaes = true ∧ 3 ≤ broken.length))
    (hgood : ∀ i < broken.length, Spec.GoodFound (Spec.planeOf broken.length base symmetric broken i) V
      (found (Spec.planeOf broken.length base symmetric broken i))) :
    ∃ c i, minimizePlane use broken.length base symmetric broken V found = .ok c ∧
      i < broken.length ∧
      Spec.OnPlane (List.zipWith (· - ·) broken symmetric) base c.point ∧
      c.value = V c.point ∧
      ((∀ x, V x ≠ .nan) → ∀ t s,
        ((use.gsl = true ∧ t ∈ (found (Spec.planeOf broken.length base symmetric broken i)).gsl) ∨
          (use.cmaes = true ∧ 3 ≤ broken.length ∧
            t = (found (Spec.planeOf broken.length base symmetric broken i)).cmaes) ∨
          (use.nlopt = true ∧
            t = (found (Spec.planeOf broken.length base symmetric broken i)).nlopt)) →
        Spec.OnPlane (List.zipWith (· - ·) broken symmetric) base s → s.eraseIdx i = t →
        Flt.le c.value (V s) = true) := by
  classical
  cases hidx : indexNorm (List.zipWith (· - ·) broken symmetric) with
  | none =>
    obtain ⟨x, hx, h⟩ := hdiff
    exact absurd (indexNorm_none.mp hidx x hx) (not_lt.mpr h)
  | some i =>
    obtain ⟨hi, habs⟩ := indexNorm_some hidx
    have hib : i < broken.length := by simp at hi; omega
    obtain ⟨g1, g2, g3, g4, g5⟩ := hgood i hib
    set p := Spec.planeOf broken.length base symmetric broken i with hp
    set f := found p with hf
    have hT : ∀ t : List K, t.length + 1 = p.nVEV → ∃ v, transformCoordinates p t = .ok v ∧
        (Spec.OnPlane p.normal p.point v ∧ v.eraseIdx p.index = t) ∧
        ∀ w, Spec.OnPlane p.normal p.point w → w.eraseIdx p.index = t → w = v := by
      intro t ht
      refine C39_transform p t (by simp [hp, Spec.planeOf, hs]) (by simp [hp, Spec.planeOf, hb])
        (by simpa [hp, Spec.planeOf] using hib) ?_ ht
      intro h h0
      have h2 := habs.trans_eq (abs_eq_zero.mpr h0)
      norm_num at h2
    choose! T hT1 hT2 hT3 using hT
    -- the candidates
    have hgslM : f.gsl.mapM (transformCoordinates p) = .ok (f.gsl.map T) :=
      Outcome.mapM_ok fun t ht => hT1 t (g1 t ht)
    obtain ⟨t0, ts, hts⟩ := List.exists_cons_of_ne_nil g2
    set G : Cand (List K) K := (ts.map fun t => (⟨T t, V (T t)⟩ : Cand (List K) K)).foldl
      (fun best c => if c.value.le best.value then c else best) ⟨T t0, V (T t0)⟩ with hG
    have hgsl : gslPlane p V f.gsl = .ok (some G) := by
      unfold gslPlane
      rw [hgslM, hts, hG]
      simp only [bind_ok, List.map_cons, gslSelect, List.map_map, Function.comp_def]
    have hGmem : G ∈ f.gsl.map fun t => (⟨T t, V (T t)⟩ : Cand (List K) K) := by
      rw [hts, List.map_cons]
      exact foldl_le_mem _ _
    set cands : List (Cand (List K) K) :=
      (if use.gsl then [G] else []) ++
      (if use.cmaes && decide (3 ≤ p.nVEV) then [⟨T f.cmaes, V (T f.cmaes)⟩] else []) ++
      (if use.nlopt then [⟨T f.nlopt, V (T f.nlopt)⟩] else []) with hcands
    have hval : f.nloptValue = V (T f.nlopt) := g5 _ (hT1 _ g4)
    have hC : planeCandidates use p V f = .ok cands := by
      unfold planeCandidates planeGSL planeCMAES planeNLopt
      rw [hcands, hgsl, hT1 _ g3, hT1 _ g4, hval]
      cases use.gsl <;> cases (use.cmaes && decide (3 ≤ p.nVEV)) <;> cases use.nlopt <;> simp
    have hne : cands ≠ [] := by
      rw [hcands]
      rcases huse with h | h | ⟨h, h'⟩
      · simp [h]
      · simp [h]
      · have : (use.cmaes && decide (3 ≤ p.nVEV)) = true := by
          simpa [h, hp, Spec.planeOf] using h'
        simp [this]
    obtain ⟨c0, cs, hcs⟩ := List.exists_cons_of_ne_nil hne
    have hon : ∀ c ∈ cands, ∃ t, t.length + 1 = p.nVEV ∧ c = ⟨T t, V (T t)⟩ := by
      intro c hc
      rw [hcands] at hc
      simp only [List.mem_append] at hc
      rcases hc with (hc | hc) | hc
      · split at hc
        · obtain rfl : c = G := by simpa using hc
          obtain ⟨t, ht, h⟩ := List.mem_map.mp hGmem
          exact ⟨t, g1 t ht, h.symm⟩
        · simp at hc
      · split at hc
        · exact ⟨_, g3, by simpa using hc⟩
        · simp at hc
      · split at hc
        · exact ⟨_, g4, by simpa using hc⟩
        · simp at hc
    have hmem : argmin c0 cs ∈ cands := hcs ▸ argmin_mem c0 cs
    refine ⟨argmin c0 cs, i, ?_, hib, ?_, ?_, ?_⟩
    · have hp' : (⟨broken.length, i, List.zipWith (· - ·) broken symmetric, base⟩ : Plane K) = p :=
        rfl
      simp only [minimizePlane, planeNormal_ok _ _ hs, bind_ok, hidx, hp', ← hf, hC, hcs]
    · obtain ⟨t, ht, h⟩ := hon _ hmem
      rw [h]
      exact (hT2 t ht).1
    · obtain ⟨t, ht, h⟩ := hon _ hmem
      rw [h]
    · intro hV t s ht hs1 hs2
      have hfin : ∀ x, ∃ v, V x = .fin v := by
        intro x
        cases hx : V x with
        | nan => exact absurd hx (hV x)
        | fin v => exact ⟨v, rfl⟩
      have hlen : t.length + 1 = p.nVEV := by
        rcases ht with ⟨-, h⟩ | ⟨-, -, rfl⟩ | ⟨-, rfl⟩
        · exact g1 t h
        · exact g3
        · exact g4
      obtain rfl : s = T t := hT3 t hlen s hs1 hs2
      obtain ⟨v0, hv0⟩ : ∃ v, c0.value = .fin v := by
        obtain ⟨t', -, h⟩ := hon c0 (by rw [hcs]; simp)
        rw [h]
        exact hfin _
      obtain ⟨b, hb1, hb2⟩ := argmin_lowest c0 cs v0 hv0
      rw [← hcs] at hb2
      have key : ∀ d ∈ cands, Flt.le d.value (V (T t)) = true →
          Flt.le (argmin c0 cs).value (V (T t)) = true := by
        intro d hd hle
        obtain ⟨w, hw⟩ := hfin (T t)
        obtain ⟨u, hu⟩ : ∃ u, d.value = .fin u := by
          obtain ⟨t', -, h⟩ := hon d hd
          rw [h]
          exact hfin _
        rw [hu, hw] at hle
        rw [hb1, hw]
        simp only [Flt.le_fin] at hle ⊢
        exact (hb2 d hd u hu).trans hle
      have hrefl : Flt.le (V (T t)) (V (T t)) = true := by
        obtain ⟨w, hw⟩ := hfin (T t)
        simp [hw]
      rcases ht with ⟨hu, h⟩ | ⟨hu, h3, rfl⟩ | ⟨hu, rfl⟩
      · refine key G (by rw [hcands]; simp [hu]) ?_
        have hm : (⟨T t, V (T t)⟩ : Cand (List K) K) ∈
            f.gsl.map fun t => (⟨T t, V (T t)⟩ : Cand (List K) K) := List.mem_map.mpr ⟨t, h, rfl⟩
        rw [hts, List.map_cons] at hm
        exact foldl_le_lowest _ _ (fun d hd => by
          rcases List.mem_cons.mp hd with rfl | hd
          · exact hfin _
          · obtain ⟨t', -, rfl⟩ := List.mem_map.mp hd
            exact hfin _) _ hm
      · have h3' : (use.cmaes && decide (3 ≤ p.nVEV)) = true := by
          simpa [hu, hp, Spec.planeOf] using h3
        exact key ⟨T f.cmaes, V (T f.cmaes)⟩ (by rw [hcands]; simp [h3']) hrefl
      · exact key ⟨T f.nlopt, V (T f.nlopt)⟩ (by rw [hcands]; simp [hu]) hrefl

/-- Without a usable minimiser the call throws; in particular when only CMAES is selected for a model
with fewer than three fields. -/
theorem C39_no_minimizer (use : Use) (nVEV : Nat) (base symmetric broken : List K)
    (V : List K → Flt K) (found : Plane K → PlaneFound K)
    (hs : symmetric.length = broken.length)
    (hdiff : ∃ x ∈ List.zipWith (· - ·) broken symmetric, (1 / 1000 : K) ≤ |x|)
    (hg : use.gsl = false) (hn : use.nlopt = false) (hc : use.cmaes = false ∨ nVEV < 3) :
    minimizePlane use nVEV base symmetric broken V found = .err .outOfRange := by
  cases hidx : indexNorm (List.zipWith (· - ·) broken symmetric) with
  | none =>
    obtain ⟨x, hx, h⟩ := hdiff
    exact absurd (indexNorm_none.mp hidx x hx) (not_lt.mpr h)
  | some i =>
    have h3 : (use.cmaes && decide (3 ≤ nVEV)) = false := by
      rcases hc with h | h
      · simp [h]
      · simp [h]
    simp [minimizePlane, planeNormal_ok _ _ hs, hidx, planeCandidates, planeGSL, planeCMAES,
      planeNLopt, hg, hn, h3]

/-- A NaN at the first candidate is kept although another minimiser proposes a number. -/
theorem C39_nan_first : ∃ (V : List ℚ → Flt ℚ) (found : Plane ℚ → PlaneFound ℚ) (c : Cand (List ℚ) ℚ),
    minimizePlane ⟨false, true, true⟩ 2 [1, 1] [0, 0] [2, 0] V found = .ok c ∧ c.value = .nan ∧
      V [1, 7] = .fin 0 ∧ (∀ p, (found p).nlopt = [7]) :=
  ⟨fun x => if x = [1, 7] then .fin 0 else .nan, fun _ => ⟨[[3]], [], [7], .fin 0⟩, ⟨[1, 3], .nan⟩,
    by decide +kernel, rfl, by decide +kernel, fun _ => rfl⟩

example : ∃ c, minimizePlane ⟨false, true, true⟩ 2 [1, 1] [0, 0] [2, 0]
      (fun x : List ℚ => .fin ((x.map fun y => y * y).sum))
      (fun _ => ⟨[[3], [-1], [2]], [], [-2], .fin 5⟩) = .ok c ∧ c.point = [1, -1] ∧
      c.value = .fin 2 := ⟨⟨[1, -1], .fin 2⟩, by decide +kernel⟩

end

end Verif.Minimizer
