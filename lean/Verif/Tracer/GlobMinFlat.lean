import Verif.Tracer.GlobMinProps
import Mathlib.Tactic.FieldSimp
import Mathlib.Tactic.LinearCombination

/-!
# C115: the global minimum with symmetries and flat planes at the same time
-/

namespace Verif.Tracer

open Spec

variable {n : Nat}

/-! ## Specification -/

/-- The planes have no direction in common. -/
def Disjoint' (pairs : List (Fin n × Fin n)) : Prop :=
  (∀ p ∈ pairs, p.1 ≠ p.2) ∧
  pairs.Pairwise fun p q => p.1 ≠ q.1 ∧ p.1 ≠ q.2 ∧ p.2 ≠ q.1 ∧ p.2 ≠ q.2

/-- The direction lies in one of the planes. -/
def InPlane (pairs : List (Fin n × Fin n)) (k : Fin n) : Prop := ∃ p ∈ pairs, k = p.1 ∨ k = p.2

/-! ## Rotations -/

/-- A rotation of the plane of `i` and `j`. -/
noncomputable def rot (i j : Fin n) (c s : ℝ) (v : Vec n ℝ) : Vec n ℝ :=
  fun k => if k = i then c * v i - s * v j else if k = j then s * v i + c * v j else v k

/-- A map under which neither the potential nor distances change. -/
def Keeps (V : Vec n ℝ → ℝ) (f : Vec n ℝ → Vec n ℝ) : Prop :=
  (∀ v, V (f v) = V v) ∧ ∀ v w, ∑ k, (f v k - f w k) ^ 2 = ∑ k, (v k - w k) ^ 2

theorem Keeps.comp {V : Vec n ℝ → ℝ} {f g : Vec n ℝ → Vec n ℝ} (hf : Keeps V f) (hg : Keeps V g) :
    Keeps V (fun v => f (g v)) :=
  ⟨fun v => by rw [hf.1, hg.1], fun v w => by rw [hf.2, hg.2]⟩

theorem keeps_id (V : Vec n ℝ → ℝ) : Keeps V (fun v => v) := ⟨fun _ => rfl, fun _ _ => rfl⟩

theorem keeps_flip {V : Vec n ℝ → ℝ} {g : Mask n} (hg : Invariant V g) : Keeps V (flip g) := by
  refine ⟨hg, fun v w => Finset.sum_congr rfl fun k _ => ?_⟩
  simp only [flip]
  split <;> ring

theorem sum_split (i j : Fin n) (hij : i ≠ j) (f : Fin n → ℝ) :
    ∑ k, f k = f i + f j + ∑ k ∈ (Finset.univ.erase i).erase j, f k := by
  rw [← Finset.add_sum_erase Finset.univ f (Finset.mem_univ i),
    ← Finset.add_sum_erase (Finset.univ.erase i) f (Finset.mem_erase.2 ⟨hij.symm, Finset.mem_univ j⟩)]
  ring

theorem keeps_rot {V : Vec n ℝ → ℝ} {i j : Fin n} (hij : i ≠ j) (hV : RotationInvariant V i j) (c s : ℝ)
    (h : c ^ 2 + s ^ 2 = 1) : Keeps V (rot i j c s) := by
  constructor
  · intro v
    refine hV _ _ (fun k hi hj => by simp [rot, hi, hj]) ?_
    simp only [rot, if_true, if_neg hij.symm]
    linear_combination (v i ^ 2 + v j ^ 2) * h
  · intro v w
    rw [sum_split i j hij, sum_split i j hij]
    have e : ∑ k ∈ (Finset.univ.erase i).erase j, (rot i j c s v k - rot i j c s w k) ^ 2 =
        ∑ k ∈ (Finset.univ.erase i).erase j, (v k - w k) ^ 2 := by
      refine Finset.sum_congr rfl fun k hk => ?_
      have h1 : k ≠ j := (Finset.mem_erase.1 hk).1
      have h2 : k ≠ i := (Finset.mem_erase.1 (Finset.mem_erase.1 hk).2).1
      simp [rot, h1, h2]
    rw [e]
    simp only [rot, if_true, if_neg hij.symm]
    linear_combination ((v i - w i) ^ 2 + (v j - w j) ^ 2) * h

/-- The conversion of one plane is undone by a rotation. -/
theorem undo_one {V : Vec n ℝ → ℝ} (i j : Fin n) (hij : i ≠ j) (hV : RotationInvariant V i j) (v : Vec n ℝ) :
    ∃ R, Keeps V R ∧ R (convertToNonFlat [(i, j)] v) = v := by
  set c := Real.sqrt (v i * v i + v j * v j) with hc
  have hnn : 0 ≤ v i * v i + v j * v j := add_nonneg (mul_self_nonneg _) (mul_self_nonneg _)
  have hcc : c * c = v i * v i + v j * v j := Real.mul_self_sqrt hnn
  by_cases h0 : c = 0
  · rw [h0] at hcc
    have h1 : v i = 0 := by nlinarith [sq_nonneg (v i), sq_nonneg (v j)]
    have h2 : v j = 0 := by nlinarith [sq_nonneg (v i), sq_nonneg (v j)]
    refine ⟨_, keeps_id V, ?_⟩
    funext k
    simp only [convertToNonFlat, List.foldl_cons, List.foldl_nil, ← hc, h0, Function.update_apply]
    split_ifs with a b
    · rw [a, h2]
    · rw [b, h1]
    · rfl
  · refine ⟨rot i j (v i / c) (v j / c), keeps_rot hij hV _ _ ?_, ?_⟩
    · field_simp
      linear_combination -hcc
    · funext k
      simp only [convertToNonFlat, List.foldl_cons, List.foldl_nil, ← hc, rot, Function.update_apply]
      by_cases hki : k = i
      · subst hki
        simp [hij, h0]
      · by_cases hkj : k = j
        · subst hkj
          simp [hki, hij, h0]
        · simp [hki, hkj]

theorem convert_cons (p : Fin n × Fin n) (l : List (Fin n × Fin n)) (v : Vec n ℝ) :
    convertToNonFlat (p :: l) v = convertToNonFlat l (convertToNonFlat [p] v) := rfl

theorem undo {V : Vec n ℝ → ℝ} (pairs : List (Fin n × Fin n))
    (hp : ∀ p ∈ pairs, p.1 ≠ p.2 ∧ RotationInvariant V p.1 p.2) (v : Vec n ℝ) :
    ∃ R, Keeps V R ∧ R (convertToNonFlat pairs v) = v := by
  induction pairs generalizing v with
  | nil => exact ⟨_, keeps_id V, rfl⟩
  | cons p l ih =>
    obtain ⟨R1, h1, e1⟩ := undo_one p.1 p.2 (hp p (by simp)).1 (hp p (by simp)).2 v
    obtain ⟨R2, h2, e2⟩ := ih (fun q hq => hp q (List.mem_cons_of_mem _ hq)) (convertToNonFlat [p] v)
    refine ⟨_, h1.comp h2, ?_⟩
    rw [convert_cons, e2, e1]

theorem convert_keeps {V : Vec n ℝ → ℝ} (pairs : List (Fin n × Fin n))
    (hp : ∀ p ∈ pairs, p.1 ≠ p.2 ∧ RotationInvariant V p.1 p.2) (v : Vec n ℝ) :
    V (convertToNonFlat pairs v) = V v := by
  obtain ⟨R, hR, e⟩ := undo pairs hp v
  rw [← hR.1 (convertToNonFlat pairs v), e]

/-! ## C115 -/

/-- **C115, marked minima, with flat planes.**  A minimum that is marked as global has a copy with the same
potential within 1 GeV of the global minimum, for every potential with the symmetries and flat planes. -/
theorem C115_marked_flat (group : List (Mask n)) (pairs : List (Fin n × Fin n)) (V : Vec n ℝ → ℝ)
    (hV : ∀ g ∈ group, Invariant V g) (hp : ∀ p ∈ pairs, p.1 ≠ p.2 ∧ RotationInvariant V p.1 p.2)
    (glob point : Vec n ℝ) (h : isGlobMin group pairs glob point) :
    ∃ copy : Vec n ℝ, V copy = V point ∧ Real.sqrt (∑ i, (glob i - copy i) ^ 2) < 1 := by
  obtain ⟨a, ha, ea⟩ := reduceLoop_orbit (fun g => Invariant V g) (fun v => by rw [flip_id])
    (fun g h hg hh v => by rw [flip_comp, hg, hh]) group hV (-1) glob
  obtain ⟨R, hR, eR⟩ := undo pairs hp (reduceVEV group glob)
  have hK := (keeps_flip ha).comp hR
  refine ⟨flip a (R (convertToNonFlat pairs (reduceVEV group point))), ?_, ?_⟩
  · rw [hK.1, convert_keeps pairs hp, C16_potential_unchanged group V hV]
  · have e : flip a (R (convertToNonFlat pairs (reduceVEV group glob))) = glob := by
      rw [eR, reduceVEV, ea, ← flip_comp]
      have : comp a a = idMask := by
        funext k
        simp [comp, idMask]
      rw [this, flip_id]
    have h2 := hK.2 (convertToNonFlat pairs (reduceVEV group glob)) (convertToNonFlat pairs (reduceVEV group point))
    dsimp only at h2
    rw [e] at h2
    rw [h2]
    have h3 := h
    unfold isGlobMin l2Norm at h3
    simpa only [pow_two] using h3

/-- The conversion of disjoint planes. -/
theorem convert_disjoint (pairs : List (Fin n × Fin n)) (hd : Disjoint' pairs) (v : Vec n ℝ) :
    (∀ k, ¬ InPlane pairs k → convertToNonFlat pairs v k = v k) ∧
    ∀ p ∈ pairs, convertToNonFlat pairs v p.1 = Real.sqrt (v p.1 * v p.1 + v p.2 * v p.2) ∧
      convertToNonFlat pairs v p.2 = 0 := by
  induction pairs generalizing v with
  | nil => exact ⟨fun _ _ => rfl, fun p hp => by cases hp⟩
  | cons q l ih =>
    obtain ⟨h1, h2⟩ := hd
    rw [List.pairwise_cons] at h2
    obtain ⟨i1, i2⟩ := ih ⟨fun p hp => h1 p (List.mem_cons_of_mem _ hp), h2.2⟩ (convertToNonFlat [q] v)
    have hq := h1 q (by simp)
    have hone : ∀ k, convertToNonFlat [q] v k = if k = q.2 then 0 else if k = q.1 then
        Real.sqrt (v q.1 * v q.1 + v q.2 * v q.2) else v k := by
      intro k
      simp [convertToNonFlat, Function.update_apply]
    refine ⟨?_, ?_⟩
    · intro k hk
      rw [convert_cons, i1 k (fun ⟨p, hp, h⟩ => hk ⟨p, List.mem_cons_of_mem _ hp, h⟩), hone, if_neg, if_neg]
      · exact fun h => hk ⟨q, by simp, Or.inl h⟩
      · exact fun h => hk ⟨q, by simp, Or.inr h⟩
    · intro p hp
      rw [convert_cons]
      rcases List.mem_cons.1 hp with e | hp
      · subst e
        have n1 : ¬ InPlane l p.1 := by
          rintro ⟨r, hr, e | e⟩
          · exact (h2.1 r hr).1 e
          · exact (h2.1 r hr).2.1 e
        have n2 : ¬ InPlane l p.2 := by
          rintro ⟨r, hr, e | e⟩
          · exact (h2.1 r hr).2.2.1 e
          · exact (h2.1 r hr).2.2.2 e
        rw [i1 _ n1, i1 _ n2, hone, hone, if_neg hq, if_pos rfl, if_pos rfl]
        exact ⟨rfl, rfl⟩
      · obtain ⟨a, b, c, d⟩ := h2.1 p hp
        rw [(i2 p hp).1, (i2 p hp).2, hone, hone, if_neg c.symm, if_neg a.symm, if_neg d.symm, if_neg b.symm]
        exact ⟨rfl, rfl⟩

/-- The flip of one direction. -/
def single (i : Fin n) : Mask n := fun k => decide (k = i)

theorem single_invariant {V : Vec n ℝ → ℝ} {i j : Fin n} (hij : i ≠ j) (hV : RotationInvariant V i j) :
    Invariant V (single i) ∧ Invariant V (single j) := by
  constructor <;> intro v <;> refine hV _ _ (fun k hi hj => by simp [flip, single, hi, hj]) ?_
  · simp [flip, single, hij.symm]
  · simp [flip, single, hij]

/-- **C115, copies of the global minimum, with flat planes.**  When the symmetries are the compositions of
flips of disjoint sets of directions and the planes have no direction in common, every point that is
obtained from the global minimum by a symmetry and rotations of the planes is marked as global. -/
theorem C115_copies_flat (V : Vec n ℝ → ℝ) (bs : List (Mask n)) (hbs : Blocks bs) (check : Mask n → Bool)
    (hcheck : ∀ g, check g = true ↔ Invariant V g) (hunion : ∀ g, Invariant V g ↔ IsUnion bs g)
    (pairs : List (Fin n × Fin n)) (hd : Disjoint' pairs)
    (hp : ∀ p ∈ pairs, RotationInvariant V p.1 p.2) (t : Mask n) (ht : Invariant V t)
    (glob point : Vec n ℝ) (hpt : ∀ k, ¬ InPlane pairs k → point k = flip t glob k)
    (hrad : ∀ p ∈ pairs, point p.1 * point p.1 + point p.2 * point p.2 =
      glob p.1 * glob p.1 + glob p.2 * glob p.2) (hn : n ≤ 10 ^ 9) :
    isGlobMin (findDiscreteSymmetries check) pairs glob point := by
  classical
  have hcu : ∀ g, check g = true ↔ IsUnion bs g := fun g => (hcheck g).trans (hunion g)
  have htu := (hunion t).1 ht
  -- a block with a direction of a plane has no other direction
  have hsingle : ∀ B ∈ bs, ∀ k, B k = true → InPlane pairs k → ∀ m, B m = true → m = k := by
    rintro B hB k hBk ⟨p, hpm, hk⟩ m hm
    have hinv : Invariant V (single k) := by
      obtain ⟨a, b⟩ := single_invariant (hd.1 p hpm) (hp p hpm)
      rcases hk with e | e <;> rw [e] <;> assumption
    obtain ⟨C, hC, hCk, hsub⟩ := (hunion _).1 hinv k (by simp [single])
    rw [hbs.disjoint B hB C hC k hBk hCk] at hm
    simpa [single] using hsub m hm
  have hopt : ∀ w : Vec n ℝ, ∀ B ∈ bs, Opt B (reduceVEV (findDiscreteSymmetries check) w) :=
    fun w B hB j hj hneg => C16_principal_quadrant_partial bs hbs check hcu w B hB j hj hneg
  have horb : ∀ w : Vec n ℝ, ∃ s, IsUnion bs s ∧
      reduceVEV (findDiscreteSymmetries check) w = flip s w := fun w =>
    reduceLoop_orbit (IsUnion bs) (IsUnion.id bs) (fun _ _ => IsUnion.comp hbs) _
      (fun g hg => (hcu g).1 (((C16_all_flips_considered check).1 g).1 hg)) (-1) w
  obtain ⟨s, hs, es⟩ := horb glob
  obtain ⟨s', hs', es'⟩ := horb point
  have hog := hopt glob
  have hop := hopt point
  unfold isGlobMin
  rw [es, es'] at *
  -- outside the planes both are reduced to the same point, up to small entries
  have hout : ∀ k, ¬ InPlane pairs k → |flip s glob k - flip s' point k| ≤ 2 / 100000 := by
    intro k hk
    by_cases hi : 1 / 100000 ≤ |glob k|
    · have hu0 : IsUnion bs (comp (comp s' t) s) := IsUnion.comp hbs (IsUnion.comp hbs hs' htu) hs
      let u : Mask n := fun m => if InPlane pairs m then false else comp (comp s' t) s m
      have hu : IsUnion bs u := by
        intro m hm
        have hmP : ¬ InPlane pairs m := by
          intro h
          simp [u, h] at hm
        simp only [u, if_neg hmP] at hm
        obtain ⟨B, hB, hBm, hsub⟩ := hu0 m hm
        refine ⟨B, hB, hBm, fun j hj => ?_⟩
        have hjP : ¬ InPlane pairs j := by
          intro h
          exact hmP (hsingle B hB j hj h m hBm ▸ h)
        simp only [u, if_neg hjP]
        exact hsub j hj
      have hval : ∀ m, ¬ InPlane pairs m → flip u (flip s glob) m = flip s' point m := by
        intro m hm
        simp only [flip, u, if_neg hm, comp, hpt m hm]
        cases s m <;> cases s' m <;> cases t m <;> simp
      have hval' : ∀ m, InPlane pairs m → flip u (flip s glob) m = flip s glob m := by
        intro m hm
        simp [flip, u, hm]
      have h2 : ∀ B ∈ bs, Opt B (flip u (flip s glob)) := by
        intro B hB
        by_cases hc : ∃ m, B m = true ∧ InPlane pairs m
        · obtain ⟨m, hm, hmP⟩ := hc
          refine opt_congr B (flip s glob) _ (fun j hj => ?_) (hog B hB)
          rw [hval' j (hsingle B hB m hm hmP j hj ▸ hmP)]
        · refine opt_congr B (flip s' point) _ (fun j hj => ?_) (hop B hB)
          rw [hval j (fun h => hc ⟨j, hj, h⟩)]
      have h3 := opt_unique bs u hu (flip s glob) hog h2 k (by rw [abs_flip]; exact hi)
      rw [hval k hk] at h3
      rw [h3, sub_self, abs_zero]
      norm_num
    · have h3 := abs_sub (flip s glob k) (flip s' point k)
      rw [abs_flip, abs_flip, hpt k hk, abs_flip] at h3
      linarith [not_le.1 hi]
  obtain ⟨c1, c2⟩ := convert_disjoint pairs hd (flip s glob)
  obtain ⟨d1, d2⟩ := convert_disjoint pairs hd (flip s' point)
  have hsq : ∀ (g : Mask n) (v : Vec n ℝ) k, flip g v k * flip g v k = v k * v k := by
    intro g v k
    simp only [flip]
    split <;> ring
  have hall : ∀ k, |convertToNonFlat pairs (flip s glob) k - convertToNonFlat pairs (flip s' point) k| ≤
      2 / 100000 := by
    intro k
    by_cases hk : InPlane pairs k
    · obtain ⟨p, hpm, e | e⟩ := hk
      · rw [e, (c2 p hpm).1, (d2 p hpm).1, hsq, hsq, hsq, hsq, hrad p hpm, sub_self, abs_zero]
        norm_num
      · rw [e, (c2 p hpm).2, (d2 p hpm).2, sub_self, abs_zero]
        norm_num
    · rw [c1 k hk, d1 k hk]
      exact hout k hk
  unfold l2Norm
  rw [Real.sqrt_lt' one_pos]
  have hsum : ∑ k, (convertToNonFlat pairs (flip s glob) k - convertToNonFlat pairs (flip s' point) k) *
      (convertToNonFlat pairs (flip s glob) k - convertToNonFlat pairs (flip s' point) k) ≤
      ∑ _k : Fin n, ((2 / 100000 : ℝ) * (2 / 100000)) := by
    refine Finset.sum_le_sum fun k _ => ?_
    rw [← abs_mul_abs_self]
    exact mul_self_le_mul_self (abs_nonneg _) (hall k)
  have hcard : ∑ _k : Fin n, ((2 / 100000 : ℝ) * (2 / 100000)) = n * ((2 / 100000 : ℝ) * (2 / 100000)) := by
    simp
  have hn' : (n : ℝ) ≤ 10 ^ 9 := by exact_mod_cast hn
  rw [hcard] at hsum
  nlinarith

/-- The hypotheses hold for a potential with a flat plane and a third direction. -/
example : isGlobMin (findDiscreteSymmetries fun _ : Mask 3 => true) [(0, 1)] ![3, 4, 7] ![0, -5, -7] := by
  refine C115_copies_flat (fun v => (v 0 * v 0 + v 1 * v 1) ^ 2 + (v 2) ^ 2) [single 0, single 1, single 2]
    ⟨by decide, by decide⟩ _ (fun g => ⟨fun _ v => ?_, fun _ => rfl⟩) (fun g => ⟨fun _ i hi => ?_, fun _ v => ?_⟩)
    _ ⟨by decide, by decide⟩ ?_ (single 2) (fun v => ?_) _ _ ?_ ?_ (by norm_num)
  · simp only [flip]; split_ifs <;> ring
  · refine ⟨single i, by fin_cases i <;> simp, by simp [single], fun j hj => ?_⟩
    simp [single] at hj
    rw [hj, hi]
  · simp only [flip]; split_ifs <;> ring
  · intro p hp v w hk hr
    simp only [List.mem_singleton] at hp
    subst hp
    have h2 := hk 2 (by decide) (by decide)
    dsimp only at hr ⊢
    rw [hr, h2]
  · simp only [flip]; split_ifs <;> ring
  · intro k hk
    fin_cases k
    · exact absurd ⟨(0, 1), by simp, Or.inl rfl⟩ hk
    · exact absurd ⟨(0, 1), by simp, Or.inr rfl⟩ hk
    · simp [flip, single]
  · intro p hp
    simp only [List.mem_singleton] at hp
    subst hp
    simp
    norm_num

end Verif.Tracer
