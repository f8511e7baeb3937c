import Verif.Tracer.ReduceLemmas
import Verif.Tracer.GeometrySpec

/-!
# The loop of `ReduceVEV` on a group of block flips, and the enumeration of the sign flips
-/

namespace Verif.Tracer

set_option linter.unusedSectionVars false

open Spec

variable {n : Nat} {K : Type} [Field K] [LinearOrder K] [IsStrictOrderedRing K]

theorem IsUnion.id (bs : List (Mask n)) : IsUnion bs idMask := by
  intro i h; cases h

theorem IsUnion.comp {bs : List (Mask n)} (hb : Blocks bs) {g h : Mask n} (hg : IsUnion bs g)
    (hh : IsUnion bs h) : IsUnion bs (comp g h) := by
  have key : ∀ g h : Mask n, IsUnion bs g → IsUnion bs h → ∀ i, g i = true → h i = false →
      ∃ B ∈ bs, B i = true ∧ ∀ j, B j = true → g j = true ∧ h j = false := by
    intro g h hg hh i h1 h2
    obtain ⟨B, hB, hBi, hsub⟩ := hg i h1
    refine ⟨B, hB, hBi, fun j hj => ⟨hsub j hj, ?_⟩⟩
    by_contra hc
    obtain ⟨C, hC, hCj, hsubC⟩ := hh j (by simpa using hc)
    have := hb.disjoint B hB C hC j hj hCj
    subst this
    rw [hsubC i hBi] at h2; cases h2
  intro i hi
  simp only [Tracer.comp] at hi
  cases h1 : g i <;> cases h2 : h i <;> rw [h1, h2] at hi
  · cases hi
  · obtain ⟨B, hB, hBi, hs⟩ := key h g hh hg i h2 h1
    refine ⟨B, hB, hBi, fun j hj => ?_⟩
    simp [Tracer.comp, (hs j hj).1, (hs j hj).2]
  · obtain ⟨B, hB, hBi, hs⟩ := key g h hg hh i h1 h2
    refine ⟨B, hB, hBi, fun j hj => ?_⟩
    simp [Tracer.comp, (hs j hj).1, (hs j hj).2]
  · cases hi

theorem opt_all_true (v : Vec n K) (h : binary (heaviside v) = 2 ^ n - 1) (B : Mask n) : Opt B v := by
  rw [heaviside_eq] at h
  have := binary_ofFn_eq_max _ h
  intro i _ hneg
  have h1 := (bit_true _).1 (this i)
  have : (0 : K) < 1 / 100000 := by norm_num
  linarith

/-- The invariant of the loop: when every block is scanned before any other element containing it,
the result is optimal on every block. -/
theorem reduceLoop_opt (bs : List (Mask n)) (hb : Blocks bs) (gs done : List (Mask n)) (v : Vec n K)
    (hu : ∀ g ∈ gs, IsUnion bs g)
    (hord : ∀ pre g post, gs = pre ++ g :: post → ∀ B ∈ bs, (∃ i, B i = true ∧ g i = true) →
      B = g ∨ B ∈ done ++ pre)
    (hall : ∀ B ∈ bs, B ∈ done ∨ B ∈ gs)
    (hdone : ∀ B ∈ bs, B ∈ done → Opt B v) :
    ∀ B ∈ bs, Opt B (reduceLoop gs (binary (heaviside v)) v) := by
  induction gs generalizing done v with
  | nil =>
    intro B hB
    rw [reduceLoop]
    rcases hall B hB with h | h
    · exact hdone B hB h
    · cases h
  | cons g gs ih =>
    -- the point after this element
    have step : ∀ v' : Vec n K, v' = (if binary (heaviside v) < binary (heaviside (flip g v)) then
        flip g v else v) → ∀ B ∈ bs, B ∈ done ++ [g] → Opt B v' := by
      intro v' hv' B hB hmem
      by_cases hg : g ∈ bs
      · by_cases hBg : B = g
        · subst hBg
          split at hv'
          · rw [hv']; exact opt_of_flipped _ _ (by assumption)
          · rw [hv']; exact opt_of_not_flipped _ _ (by assumption)
        · have hmem' : B ∈ done := by
            rcases List.mem_append.1 hmem with h | h
            · exact h
            · exact absurd (by simpa using h) hBg
          have ho := hdone B hB hmem'
          rw [hv']
          split
          · refine opt_congr B v _ (fun i hi => ?_) ho
            have : g i = false := by
              by_contra hc
              exact hBg (hb.disjoint B hB g hg i hi (by simpa using hc))
            simp [flip, this]
          · exact ho
      · have hnot : ¬ binary (heaviside v) < binary (heaviside (flip g v)) := by
          apply union_not_flipped bs
          intro i hi
          obtain ⟨C, hC, hCi, hsub⟩ := hu g (by simp) i hi
          refine ⟨C, hC, hCi, hsub, ?_⟩
          rcases hord [] g gs rfl C hC ⟨i, hCi, hi⟩ with h | h
          · exact absurd (h ▸ hC) hg
          · exact hdone C hC (by simpa using h)
        rw [if_neg hnot] at hv'
        rw [hv']
        rcases List.mem_append.1 hmem with h | h
        · exact hdone B hB h
        · exact absurd ((by simpa using h : B = g) ▸ hB) hg
    have rest : ∀ v' : Vec n K, v' = (if binary (heaviside v) < binary (heaviside (flip g v)) then
        flip g v else v) → ∀ B ∈ bs, Opt B (reduceLoop gs (binary (heaviside v')) v') := by
      intro v' hv'
      refine ih (done ++ [g]) v' (fun h hh => hu h (by simp [hh])) ?_ ?_ (step v' hv')
      · intro pre h post e B hB hov
        have := hord (g :: pre) h post (by rw [e]; rfl) B hB hov
        simpa using this
      · intro B hB
        rcases hall B hB with h | h
        · exact Or.inl (by simp [h])
        · rcases List.mem_cons.1 h with h | h
          · exact Or.inl (by simp [h])
          · exact Or.inr h
    intro B hB
    rw [reduceLoop]
    have hmax : ∀ w : Vec n K, ((binary (heaviside w) : Nat) : Int) = 2 ^ n - 1 → Opt B w := by
      intro w hw
      apply opt_all_true
      have h1 : 1 ≤ 2 ^ n := Nat.one_le_two_pow
      have : ((binary (heaviside w) : Nat) : Int) = ((2 ^ n - 1 : Nat) : Int) := by
        rw [hw]; push_cast [Nat.cast_sub h1]; rfl
      exact_mod_cast this
    by_cases hlt : binary (heaviside v) < binary (heaviside (flip g v))
    · have hlt' : ((binary (heaviside (flip g v)) : Nat) : Int) > (binary (heaviside v) : Nat) := by
        exact_mod_cast hlt
      simp only [if_pos hlt']
      split
      · exact hmax _ (by assumption)
      · exact rest (flip g v) (by rw [if_pos hlt]) B hB
    · have hlt' : ¬ ((binary (heaviside (flip g v)) : Nat) : Int) > (binary (heaviside v) : Nat) := by
        intro hc; exact hlt (by exact_mod_cast hc)
      simp only [if_neg hlt']
      split
      · exact hmax _ (by assumption)
      · exact rest v (by rw [if_neg hlt]) B hB

/-- The same for the whole function, whose list starts with the identity. -/
theorem reduceVEV_opt (bs : List (Mask n)) (hb : Blocks bs) (gs : List (Mask n)) (v : Vec n K)
    (hu : ∀ g ∈ gs, IsUnion bs g)
    (hord : ∀ pre g post, gs = pre ++ g :: post → ∀ B ∈ bs, (∃ i, B i = true ∧ g i = true) →
      B = g ∨ B ∈ pre)
    (hall : ∀ B ∈ bs, B ∈ idMask :: gs) :
    ∀ B ∈ bs, Opt B (reduceVEV (idMask :: gs) v) := by
  intro B hB
  rw [reduceVEV, reduceLoop]
  simp only [flip_id]
  have h0 : ((binary (heaviside v) : Nat) : Int) > -1 := by omega
  simp only [if_pos h0]
  split
  · rename_i hw
    apply opt_all_true
    have h1 : 1 ≤ 2 ^ n := Nat.one_le_two_pow
    have : ((binary (heaviside v) : Nat) : Int) = ((2 ^ n - 1 : Nat) : Int) := by
      rw [hw]; push_cast [Nat.cast_sub h1]; rfl
    exact_mod_cast this
  · refine reduceLoop_opt bs hb gs [] v hu ?_ ?_ ?_ B hB
    · intro pre g post e C hC hov
      simpa using hord pre g post e C hC hov
    · intro C hC
      refine Or.inr ?_
      rcases List.mem_cons.1 (hall C hC) with h | h
      · obtain ⟨i, hi⟩ := hb.nonempty C hC
        rw [h] at hi; cases hi
      · exact h
    · intro C _ h; cases h

/-- Two points of one orbit that are optimal on every block agree where they are not small. -/
theorem opt_unique (bs : List (Mask n)) (t : Mask n) (ht : IsUnion bs t)
    (w : Vec n K) (h1 : ∀ B ∈ bs, Opt B w) (h2 : ∀ B ∈ bs, Opt B (flip t w)) (i : Fin n)
    (hi : 1 / 100000 ≤ |w i|) : flip t w i = w i := by
  have hpos : (0 : K) < 1 / 100000 := by norm_num
  by_cases hti : t i = true
  swap
  · simp [flip, hti]
  exfalso
  obtain ⟨B, hB, hBi, hsub⟩ := ht i hti
  have e : ∀ j, B j = true → flip t w j = -w j := fun j hj => by simp [flip, hsub j hj]
  -- descend to a smaller significant entry of the block
  have desc : ∀ i : Fin n, B i = true → ¬ 1 / 100000 ≤ |w i| := by
    intro i
    induction i using WellFoundedLT.induction with
    | _ i ih =>
      intro hBi hi
      rcases le_abs.1 hi with h | h
      · obtain ⟨j, hj, hBj, hw⟩ := h2 B hB i hBi (by rw [e i hBi]; linarith)
        rw [e j hBj] at hw
        exact ih j hj hBj (le_abs.2 (Or.inr hw))
      · obtain ⟨j, hj, hBj, hw⟩ := h1 B hB i hBi (by linarith)
        exact ih j hj hBj (le_abs.2 (Or.inl hw))
  exact desc i hBi hi

/-! ### The enumeration -/

theorem mem_masks (n k : Nat) (l : List Bool) : l ∈ masks n k ↔ l.length = n ∧ l.count true = k := by
  induction n generalizing k l with
  | zero =>
    cases k with
    | zero =>
      simp only [masks, List.mem_singleton, List.length_eq_zero_iff]
      constructor
      · rintro rfl; simp
      · exact fun h => h.1
    | succ k =>
      simp only [masks, List.not_mem_nil, List.length_eq_zero_iff, false_iff]
      rintro ⟨rfl, h⟩; simp at h
  | succ n ih =>
    cases k with
    | zero =>
      simp only [masks, List.mem_map]
      constructor
      · rintro ⟨l', h, rfl⟩
        obtain ⟨h1, h2⟩ := (ih _ _).1 h
        exact ⟨by simp [h1], by simp [h2]⟩
      · rintro ⟨h1, h2⟩
        cases l with
        | nil => simp at h1
        | cons b l =>
          cases b with
          | true => simp at h2
          | false => exact ⟨l, (ih _ _).2 ⟨by simpa using h1, by simpa using h2⟩, rfl⟩
    | succ k =>
      simp only [masks, List.mem_append, List.mem_map]
      constructor
      · rintro (⟨l', h, rfl⟩ | ⟨l', h, rfl⟩)
        · obtain ⟨h1, h2⟩ := (ih _ _).1 h
          exact ⟨by simp [h1], by simp [h2]⟩
        · obtain ⟨h1, h2⟩ := (ih _ _).1 h
          exact ⟨by simp [h1], by simp [h2]⟩
      · rintro ⟨h1, h2⟩
        cases l with
        | nil => simp at h1
        | cons b l =>
          cases b with
          | true =>
            exact Or.inl ⟨l, (ih _ _).2 ⟨by simpa using h1, by simpa using h2⟩, rfl⟩
          | false =>
            exact Or.inr ⟨l, (ih _ _).2 ⟨by simpa using h1, by simpa using h2⟩, rfl⟩

theorem nodup_masks (n k : Nat) : (masks n k).Nodup := by
  have hinj : ∀ b : Bool, Function.Injective (fun l : List Bool => b :: l) := by
    intro b l l' h; exact (List.cons.inj h).2
  induction n generalizing k with
  | zero => cases k <;> simp [masks]
  | succ n ih =>
    cases k with
    | zero => exact (ih 0).map (hinj false)
    | succ k =>
      rw [masks]
      refine List.Nodup.append ((ih k).map (hinj true)) ((ih (k + 1)).map (hinj false)) ?_
      intro l h1 h2
      obtain ⟨a, _, rfl⟩ := List.mem_map.1 h1
      obtain ⟨b, _, hb⟩ := List.mem_map.1 h2
      cases (List.cons.inj hb).1

theorem ofFn_toMask (l : List Bool) (h : l.length = n) : List.ofFn (toMask n l) = l := by
  apply List.ext_getElem
  · simp [h]
  · intro i h1 h2
    simp [toMask, h2]

theorem toMask_ofFn (g : Mask n) : toMask n (List.ofFn g) = g := by
  funext i
  simp [toMask]

theorem mem_flat (l : List Bool) :
    l ∈ (List.range (n + 1)).flatMap (masks n) ↔ l.length = n := by
  simp only [List.mem_flatMap, List.mem_range, mem_masks]
  constructor
  · rintro ⟨k, _, h, _⟩; exact h
  · intro h
    exact ⟨l.count true, by have := List.count_le_length (a := true) (l := l); omega, h, rfl⟩

theorem mem_allMasks (g : Mask n) : g ∈ allMasks n := by
  rw [allMasks, List.mem_map]
  exact ⟨List.ofFn g, (mem_flat _).2 (by simp), toMask_ofFn g⟩

theorem nodup_flat (n : Nat) (m : Nat) : ((List.range m).flatMap (masks n)).Nodup := by
  rw [List.nodup_flatMap]
  refine ⟨fun k _ => nodup_masks n k, ?_⟩
  refine (List.nodup_range (n := m)).imp ?_
  intro a b hab l h1 h2
  exact hab (((mem_masks _ _ _).1 h1).2.symm.trans ((mem_masks _ _ _).1 h2).2)

theorem nodup_allMasks (n : Nat) : (allMasks n).Nodup := by
  rw [allMasks]
  refine List.Nodup.map_on ?_ (nodup_flat n (n + 1))
  intro l hl l' hl' h
  rw [← ofFn_toMask l ((mem_flat l).1 hl), ← ofFn_toMask l' ((mem_flat l').1 hl'), h]

theorem sorted_allMasks (n : Nat) : (allMasks n).Pairwise fun g h => weight g ≤ weight h := by
  rw [allMasks, List.pairwise_map]
  have key : ((List.range (n + 1)).flatMap (masks n)).Pairwise fun l l' =>
      l.count true ≤ l'.count true := by
    rw [List.pairwise_flatMap]
    constructor
    · intro k _
      refine List.Pairwise.imp_of_mem (R := fun _ _ => True) ?_ (List.pairwise_of_forall (by simp))
      intro l l' h h' _
      rw [((mem_masks _ _ _).1 h).2, ((mem_masks _ _ _).1 h').2]
    · refine List.pairwise_lt_range.imp ?_
      intro a b hab l hl l' hl'
      rw [((mem_masks _ _ _).1 hl).2, ((mem_masks _ _ _).1 hl').2]
      omega
  refine key.imp_of_mem ?_
  intro l l' h h' hle
  rw [weight, weight, ofFn_toMask l ((mem_flat l).1 h), ofFn_toMask l' ((mem_flat l').1 h')]
  exact hle

theorem masks_zero (n : Nat) : masks n 0 = [List.replicate n false] := by
  induction n with
  | zero => rfl
  | succ n ih => rw [masks, ih]; rfl

theorem allMasks_cons (n : Nat) : ∃ tl, allMasks n = idMask :: tl := by
  rw [allMasks, List.range_succ_eq_map, List.flatMap_cons, masks_zero]
  rw [List.map_append, List.map_singleton, List.singleton_append]
  have : toMask n (List.replicate n false) = idMask := by
    funext i
    simp [toMask, idMask]
  exact ⟨_, by rw [this]⟩

theorem weight_succ {n : Nat} (g : Mask (n + 1)) :
    weight g = weight (fun i => g i.succ) + if g 0 = true then 1 else 0 := by
  rw [weight, List.ofFn_succ, List.count_cons, weight]
  cases g 0 <;> rfl

theorem weight_le_aux (n : Nat) (B g : Mask n) (hsub : ∀ i, B i = true → g i = true) :
    weight B ≤ weight g ∧ (weight B = weight g → B = g) := by
  induction n with
  | zero => exact ⟨by simp [weight], fun _ => funext fun i => i.elim0⟩
  | succ n ih =>
    obtain ⟨h1, h2⟩ := ih (fun i => B i.succ) (fun i => g i.succ) (fun i hi => hsub _ hi)
    rw [weight_succ, weight_succ]
    have h0 := hsub 0
    constructor
    · by_cases hb : B 0 = true
      · rw [if_pos hb, if_pos (h0 hb)]; omega
      · rw [if_neg hb]; omega
    · intro h
      by_cases hb : B 0 = true
      · rw [if_pos hb, if_pos (h0 hb)] at h
        have := h2 (by omega)
        funext i
        refine Fin.cases ?_ (fun i => congrFun this i) i
        rw [hb, h0 hb]
      · by_cases hg : g 0 = true
        · rw [if_neg hb, if_pos hg] at h; omega
        · rw [if_neg hb, if_neg hg] at h
          have := h2 (by omega)
          funext i
          refine Fin.cases ?_ (fun i => congrFun this i) i
          simp only [Bool.not_eq_true] at hb hg
          rw [hb, hg]

/-- A flip properly containing another one flips more directions. -/
theorem weight_lt (B g : Mask n) (hsub : ∀ i, B i = true → g i = true) (hne : B ≠ g) :
    weight B < weight g := by
  obtain ⟨h1, h2⟩ := weight_le_aux n B g hsub
  exact lt_of_le_of_ne h1 fun h => hne (h2 h)

end Verif.Tracer
