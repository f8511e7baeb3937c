import Verif.Third.Function
import Verif.Weinberg.Species

/-!
# The third derivatives of the contribution of one species
-/

namespace Verif.Weinberg

open Matrix Filter Topology
open scoped BigOperators
open Spec (cw ThirdDerivatives)

variable {𝕜 : Type} [RCLike 𝕜] {m n : Nat}

/-! ### Rotations -/

theorem sum_in {α : Type} [AddCommMonoid α] (f : Fin m → Fin n → Fin n → Fin n → α) :
    ∑ a, ∑ x, ∑ y, ∑ z, f a x y z = ∑ x, ∑ y, ∑ z, ∑ a, f a x y z := by
  rw [Finset.sum_comm]
  refine Finset.sum_congr rfl fun x _ => ?_
  rw [Finset.sum_comm]
  refine Finset.sum_congr rfl fun y _ => ?_
  rw [Finset.sum_comm]

theorem prod3 (x y z : Fin n → 𝕜) : (∑ k, x k) * (∑ l, y l) * (∑ r, z r) = ∑ k, ∑ l, ∑ r, x k * y l * z r := by
  rw [Finset.sum_mul_sum, Finset.sum_mul]
  refine Finset.sum_congr rfl fun k _ => ?_
  rw [Finset.sum_mul]
  refine Finset.sum_congr rfl fun l _ => ?_
  rw [Finset.mul_sum]

theorem unrotate3 {R : Matrix (Fin n) (Fin n) ℝ} (hR : Rᵀ * R = 1) (X : Fin n → Fin n → Fin n → 𝕜)
    (k l r : Fin n) :
    ∑ i, ∑ j, ∑ q, (R i k : 𝕜) * (R j l : 𝕜) * (R q r : 𝕜) *
      ∑ k', ∑ l', ∑ r', (R i k' : 𝕜) * (R j l' : 𝕜) * (R q r' : 𝕜) * X k' l' r' = X k l r := by
  have e : ∀ i j, ∑ q, (R i k : 𝕜) * (R j l : 𝕜) * (R q r : 𝕜) *
        (∑ k', ∑ l', ∑ r', (R i k' : 𝕜) * (R j l' : 𝕜) * (R q r' : 𝕜) * X k' l' r') =
      (R i k : 𝕜) * (R j l : 𝕜) * ∑ k', ∑ l', (R i k' : 𝕜) * (R j l' : 𝕜) * X k' l' r := fun i j => by
    have h1 : ∀ q, (∑ k', ∑ l', ∑ r', (R i k' : 𝕜) * (R j l' : 𝕜) * (R q r' : 𝕜) * X k' l' r') =
        ∑ r', (R q r' : 𝕜) * ∑ k', ∑ l', (R i k' : 𝕜) * (R j l' : 𝕜) * X k' l' r' := fun q => by
      simp only [Finset.mul_sum]
      rw [Finset.sum_congr rfl fun k' _ => Finset.sum_comm, Finset.sum_comm]
      refine Finset.sum_congr rfl fun r' _ => Finset.sum_congr rfl fun k' _ => Finset.sum_congr rfl fun l' _ => ?_
      ring
    have h2 := unrotate (𝕜 := 𝕜) hR (fun r' => ∑ k', ∑ l', (R i k' : 𝕜) * (R j l' : 𝕜) * X k' l' r') r
    rw [← h2, Finset.mul_sum]
    refine Finset.sum_congr rfl fun q _ => ?_
    rw [h1]
    ring
  simp only [e]
  exact unrotate2 hR (fun k' l' => X k' l' r) k l

theorem thirdPart_rotate (R : Matrix (Fin n) (Fin n) ℝ) (scale cb : ℝ) (M : Fin m → ℝ)
    {C3 C3' : Fin m → Fin m → Fin n → 𝕜} {C4 C4' : Fin m → Fin m → Fin n → Fin n → 𝕜}
    (h3 : ∀ p q i, C3' p q i = ∑ k, (R i k : 𝕜) * C3 p q k)
    (h4 : ∀ p q i j, C4' p q i j = ∑ k, ∑ l, (R i k : 𝕜) * (R j l : 𝕜) * C4 p q k l) (i j q : Fin n) :
    thirdPart scale cb M C3' C4' i j q = ∑ k, ∑ l, ∑ r, (R i k : 𝕜) * (R j l : 𝕜) * (R q r : 𝕜) *
      thirdPart scale cb M C3 C4 k l r := by
  have e3 : ∀ a b c, 2 * (triValue scale (M a) (M b) (M c) : 𝕜) * C3' a b i * C3' b c j * C3' c a q =
      ∑ k, ∑ l, ∑ r, (R i k : 𝕜) * (R j l : 𝕜) * (R q r : 𝕜) *
        (2 * (triValue scale (M a) (M b) (M c) : 𝕜) * C3 a b k * C3 b c l * C3 c a r) := fun a b c => by
    rw [h3, h3, h3, mul_assoc, mul_assoc, ← mul_assoc (∑ k, (R i k : 𝕜) * C3 a b k), prod3]
    simp only [Finset.mul_sum]
    refine Finset.sum_congr rfl fun k _ => Finset.sum_congr rfl fun l _ => Finset.sum_congr rfl fun r _ => ?_
    ring
  have e4 : ∀ a b, 3 * C4' a b i j * C3' b a q * ((fbaseValue scale (M a) (M b) - cb + 1 / 2 : ℝ) : 𝕜) =
      ∑ k, ∑ l, ∑ r, (R i k : 𝕜) * (R j l : 𝕜) * (R q r : 𝕜) *
        (3 * C4 a b k l * C3 b a r * ((fbaseValue scale (M a) (M b) - cb + 1 / 2 : ℝ) : 𝕜)) := fun a b => by
    rw [h3, h4]
    simp only [Finset.mul_sum, Finset.sum_mul]
    rw [Finset.sum_comm]
    refine Finset.sum_congr rfl fun k _ => ?_
    rw [Finset.sum_comm]
    refine Finset.sum_congr rfl fun l _ => Finset.sum_congr rfl fun r _ => ?_
    ring
  simp only [thirdPart, e3, e4]
  have h : ∀ a b : Fin m, (∑ c, ∑ k, ∑ l, ∑ r, (R i k : 𝕜) * (R j l : 𝕜) * (R q r : 𝕜) *
        (2 * (triValue scale (M a) (M b) (M c) : 𝕜) * C3 a b k * C3 b c l * C3 c a r)) +
      (∑ k, ∑ l, ∑ r, (R i k : 𝕜) * (R j l : 𝕜) * (R q r : 𝕜) *
        (3 * C4 a b k l * C3 b a r * ((fbaseValue scale (M a) (M b) - cb + 1 / 2 : ℝ) : 𝕜))) =
      ∑ k, ∑ l, ∑ r, (R i k : 𝕜) * (R j l : 𝕜) * (R q r : 𝕜) *
        ((∑ c, 2 * (triValue scale (M a) (M b) (M c) : 𝕜) * C3 a b k * C3 b c l * C3 c a r) +
          3 * C4 a b k l * C3 b a r * ((fbaseValue scale (M a) (M b) - cb + 1 / 2 : ℝ) : 𝕜)) := fun a b => by
    rw [sum_in]
    simp only [← Finset.sum_add_distrib, ← Finset.mul_sum, ← mul_add]
  simp only [h]
  rw [Finset.sum_congr rfl fun a _ => sum_in _, sum_in]
  simp only [← Finset.mul_sum]

theorem thirdSym_rotate (R : Matrix (Fin n) (Fin n) ℝ) {P P' : Fin n → Fin n → Fin n → 𝕜}
    (h : ∀ i j q, P' i j q = ∑ k, ∑ l, ∑ r, (R i k : 𝕜) * (R j l : 𝕜) * (R q r : 𝕜) * P k l r) (i j q : Fin n) :
    thirdSym P' i j q = ∑ k, ∑ l, ∑ r, (R i k : 𝕜) * (R j l : 𝕜) * (R q r : 𝕜) * thirdSym P k l r := by
  have c12 : ∀ f : Fin n → Fin n → Fin n → 𝕜, ∑ k, ∑ l, ∑ r, f k l r = ∑ k, ∑ l, ∑ r, f l k r := fun f => by
    rw [Finset.sum_comm]
  have c23 : ∀ f : Fin n → Fin n → Fin n → 𝕜, ∑ k, ∑ l, ∑ r, f k l r = ∑ k, ∑ l, ∑ r, f k r l := fun f =>
    Finset.sum_congr rfl fun k _ => by rw [Finset.sum_comm]
  have e1 : P' i q j = ∑ k, ∑ l, ∑ r, (R i k : 𝕜) * (R j l : 𝕜) * (R q r : 𝕜) * P k r l := by
    rw [h, c23]
    refine Finset.sum_congr rfl fun k _ => Finset.sum_congr rfl fun l _ => Finset.sum_congr rfl fun r _ => ?_
    ring
  have e2 : P' j i q = ∑ k, ∑ l, ∑ r, (R i k : 𝕜) * (R j l : 𝕜) * (R q r : 𝕜) * P l k r := by
    rw [h, c12]
    refine Finset.sum_congr rfl fun k _ => Finset.sum_congr rfl fun l _ => Finset.sum_congr rfl fun r _ => ?_
    ring
  have e3 : P' j q i = ∑ k, ∑ l, ∑ r, (R i k : 𝕜) * (R j l : 𝕜) * (R q r : 𝕜) * P l r k := by
    rw [h, c23, c12]
    refine Finset.sum_congr rfl fun k _ => Finset.sum_congr rfl fun l _ => Finset.sum_congr rfl fun r _ => ?_
    ring
  have e4 : P' q i j = ∑ k, ∑ l, ∑ r, (R i k : 𝕜) * (R j l : 𝕜) * (R q r : 𝕜) * P r k l := by
    rw [h, c12, c23]
    refine Finset.sum_congr rfl fun k _ => Finset.sum_congr rfl fun l _ => Finset.sum_congr rfl fun r _ => ?_
    ring
  have e5 : P' q j i = ∑ k, ∑ l, ∑ r, (R i k : 𝕜) * (R j l : 𝕜) * (R q r : 𝕜) * P r l k := by
    rw [h, c12, c23, c12]
    refine Finset.sum_congr rfl fun k _ => Finset.sum_congr rfl fun l _ => Finset.sum_congr rfl fun r _ => ?_
    ring
  unfold thirdSym
  rw [h i j q, e1, e2, e3, e4, e5]
  simp only [← Finset.sum_add_distrib, Finset.sum_mul]
  refine Finset.sum_congr rfl fun k _ => Finset.sum_congr rfl fun l _ => Finset.sum_congr rfl fun r _ => ?_
  ring

/-! ### The two orders of three couplings -/

section

variable (g : Fin m → Fin m → Fin m → ℝ) (s : Fin m → Fin m → ℝ) (P : Fin n → Matrix (Fin m) (Fin m) 𝕜)
  (Q : Fin n → Fin n → Matrix (Fin m) (Fin m) 𝕜)

/-- The sum over three particles. -/
def loop3 (i j k : Fin n) : 𝕜 := ∑ a, ∑ b, ∑ c, (g a b c : 𝕜) * (P i a b * P j b c * P k c a)

/-- The sum over two particles. -/
def loop2 (i j k : Fin n) : 𝕜 := ∑ a, ∑ b, (s a b : 𝕜) * (Q i j a b * P k b a)

variable {g s P Q}

theorem loop3_cyc (hg : ∀ a b c, g b c a = g a b c) (i j k : Fin n) : loop3 g P j k i = loop3 g P i j k := by
  unfold loop3
  have e : ∀ f : Fin m → Fin m → Fin m → 𝕜, ∑ a, ∑ b, ∑ c, f a b c = ∑ a, ∑ b, ∑ c, f b c a := fun f => by
    rw [Finset.sum_congr rfl fun a _ => Finset.sum_comm, Finset.sum_comm]
  rw [e]
  refine Finset.sum_congr rfl fun a _ => Finset.sum_congr rfl fun b _ => Finset.sum_congr rfl fun c _ => ?_
  rw [hg]
  ring

theorem loop2_symm (hQ : ∀ i j, Q i j = Q j i) (i j k : Fin n) : loop2 s P Q j i k = loop2 s P Q i j k := by
  unfold loop2
  rw [hQ]

theorem thirdPart_eq {scale cb : ℝ} {M : Fin m → ℝ} (i j k : Fin n) :
    thirdPart scale cb M (fun p q i => P i p q) (fun p q i j => Q i j p q) i j k =
      2 * loop3 (fun a b c => triValue scale (M a) (M b) (M c)) P i j k +
        3 * loop2 (fun a b => fbaseValue scale (M a) (M b) - cb + 1 / 2) P Q i j k := by
  unfold thirdPart loop3 loop2
  simp only [Finset.mul_sum, ← Finset.sum_add_distrib]
  refine Finset.sum_congr rfl fun a _ => Finset.sum_congr rfl fun b _ => ?_
  congr 1
  · exact Finset.sum_congr rfl fun c _ => by ring
  · ring

theorem thirdSym_eq {scale cb : ℝ} {M : Fin m → ℝ}
    (hg : ∀ a b c, triValue scale (M b) (M c) (M a) = triValue scale (M a) (M b) (M c))
    (hQ : ∀ i j, Q i j = Q j i) (i j k : Fin n) :
    thirdSym (thirdPart scale cb M (fun p q i => P i p q) (fun p q i j => Q i j p q)) i j k =
      loop3 (fun a b c => triValue scale (M a) (M b) (M c)) P k j i +
        loop3 (fun a b c => triValue scale (M a) (M b) (M c)) P j k i +
        (loop2 (fun a b => fbaseValue scale (M a) (M b) - cb + 1 / 2) P Q j k i +
          loop2 (fun a b => fbaseValue scale (M a) (M b) - cb + 1 / 2) P Q i k j) +
        loop2 (fun a b => fbaseValue scale (M a) (M b) - cb + 1 / 2) P Q j i k := by
  unfold thirdSym
  simp only [thirdPart_eq]
  have c := fun i j k => loop3_cyc (P := P) (g := fun a b c => triValue scale (M a) (M b) (M c)) hg i j k
  have d := fun i j k => loop2_symm (P := P) (s := fun a b => fbaseValue scale (M a) (M b) - cb + 1 / 2) hQ i j k
  rw [d i j k, d i k j, d j k i, c i j k, c i k j, ← c k i j, c k j i, c i k j]
  ring

end

theorem triValue_cyc {t a b d : ℝ} (ht : 1 / 10 ^ 8 ≤ t) (ha : Above t a) (hb : Above t b) (hd : Above t d)
    (hab : Told a b) (had : Told a d) (hbd : Told b d) (hba : Told b a) (hda : Told d a) (scale : ℝ) :
    triValue scale b d a = triValue scale a b d := by
  have t0 : 0 < t := lt_of_lt_of_le (by norm_num) ht
  rw [triValue, triValue, fbaseTri_told ht hb hd ha hbd hba hda, fbaseTri_told ht ha hb hd hab had hbd,
    Verif.Potential.tri_swap23 scale b a d (hb.nonneg t0) (ha.nonneg t0) (hd.nonneg t0),
    Verif.Potential.tri_swap12 scale a b d (ha.nonneg t0) (hb.nonneg t0) (hd.nonneg t0)]

/-- **Third derivatives of the contribution of one species**: what the loops of the code compute, rotated back to
the fields. -/
theorem species_third {M : (Fin n → ℝ) → Matrix (Fin m) (Fin m) 𝕜}
    {D : Fin n → (Fin n → ℝ) → Matrix (Fin m) (Fin m) 𝕜} {E : Fin n → Fin n → Matrix (Fin m) (Fin m) 𝕜}
    (hM : Smooth M D E) (hE : ∀ k l, E k l = E l k) {U : (Fin n → ℝ) → Matrix (Fin m) (Fin m) 𝕜}
    {a : (Fin n → ℝ) → Fin m → ℝ}
    (hU : ∀ φ, Diag (M φ) (U φ) (a φ)) (v : Fin n → ℝ) {t : ℝ} (ht : 1 / 10 ^ 8 ≤ t) (scale c : ℝ)
    (ha : ∀ p, Above t (a v p)) (hd : ∀ p q, Told (a v p) (a v q))
    (hp : ∀ p q, c = 3 / 2 ∨ ¬ (a v p = 0 ∧ a v q = 0) ∨ ∀ k, (star (U v) * D k v * U v) p q = 0)
    {A : Matrix (Fin m) (Fin m) ℝ} (hA : ∀ p q, (A p q : 𝕜) = U v q p)
    (hV : ∀ p q, star (U v p q) = U v p q) {R : Matrix (Fin n) (Fin n) ℝ} (hR : Rᵀ * R = 1) :
    ThirdDerivatives (fun φ => ∑ i, cw t scale c (a φ i)) v fun l k r => 1 / (32 * Real.pi ^ 2) *
      ∑ i, ∑ j, ∑ q, R i l * R j k * R q r * RCLike.re (thirdSym (thirdPart scale c (a v)
        (rotate3 A R fun p q i => D i v p q) (rotate4 A R fun p q i j => E i j p q)) i j q) := by
  have t0 : 0 < t := lt_of_lt_of_le (by norm_num) ht
  refine (hM.third hU v (F := cw t scale c) (f := cw1 t scale c) (f' := cw2 t scale c) (f'' := cw3 t)
    (fun j => (ha j).eventually t0 scale c) (bounded_cw t0 scale c)
    (fun j => (ha j).eventually1 t0 scale c) (bounded_cw1 t0 scale c)
    (fun j => hasDerivAt_cw2 t0 ((ha j).ne t0) scale c)).congr rfl fun l k r => ?_
  obtain ⟨P, hP⟩ : ∃ P : Fin n → Matrix (Fin m) (Fin m) 𝕜, ∀ k, P k = star (U v) * D k v * U v := ⟨_, fun _ => rfl⟩
  obtain ⟨Q, hQ⟩ : ∃ Q : Fin n → Fin n → Matrix (Fin m) (Fin m) 𝕜, ∀ k l, Q k l = star (U v) * E k l * U v :=
    ⟨_, fun _ _ => rfl⟩
  have e3 : ∀ p q i, rotate3 A R (fun p q i => D i v p q) p q i = ∑ k, (R i k : 𝕜) * P k p q := fun p q i => by
    rw [rotate3_eq hA hV R (fun k => D k v) p q i]
    exact Finset.sum_congr rfl fun k _ => by rw [hP]
  have e4 : ∀ p q i j, rotate4 A R (fun p q i j => E i j p q) p q i j =
      ∑ k, ∑ l, (R i k : 𝕜) * (R j l : 𝕜) * Q k l p q := fun p q i j => by
    rw [rotate4_eq hA hV R E p q i j]
    exact Finset.sum_congr rfl fun k _ => Finset.sum_congr rfl fun l _ => by rw [hQ]
  have hrot := thirdSym_rotate R (fun i j q => thirdPart_rotate (C3 := fun p q i => P i p q)
    (C4 := fun p q i j => Q i j p q) R scale c (a v) e3 e4 i j q)
  have hback : ∑ i, ∑ j, ∑ q, R i l * R j k * R q r * RCLike.re (thirdSym (thirdPart scale c (a v)
        (rotate3 A R fun p q i => D i v p q) (rotate4 A R fun p q i j => E i j p q)) i j q) =
      RCLike.re (thirdSym (thirdPart scale c (a v) (fun p q i => P i p q) (fun p q i j => Q i j p q)) l k r) := by
    rw [← unrotate3 (𝕜 := 𝕜) hR (thirdSym (thirdPart scale c (a v) (fun p q i => P i p q)
      (fun p q i j => Q i j p q))) l k r, map_sum]
    refine Finset.sum_congr rfl fun i _ => ?_
    rw [map_sum]
    refine Finset.sum_congr rfl fun j _ => ?_
    rw [map_sum]
    refine Finset.sum_congr rfl fun q _ => ?_
    rw [hrot, ← RCLike.re_ofReal_mul]
    congr 1
    push_cast
    ring
  rw [hback]
  have hcyc : ∀ x y z, triValue scale (a v y) (a v z) (a v x) = triValue scale (a v x) (a v y) (a v z) :=
    fun x y z => triValue_cyc ht (ha x) (ha y) (ha z) (hd x y) (hd x z) (hd y z) (hd y x) (hd z x) scale
  rw [thirdSym_eq hcyc (fun i j => by rw [hQ, hQ, hE])]
  -- one triple of particles
  have tri : ∀ i j k x y z, curve1 (cw1 t scale c) (cw2 t scale c) (cw3 t) (a v x) (a v y) (a v z) *
        RCLike.re (P i x y * P j y z * P k z x) =
      1 / (32 * Real.pi ^ 2) * RCLike.re ((triValue scale (a v x) (a v y) (a v z) : 𝕜) *
        (P i x y * P j y z * P k z x)) := fun i j k x y z => by
    rw [RCLike.re_ofReal_mul]
    have h0 : (c = 3 / 2 ∨ (¬ (a v x = 0 ∧ a v y = 0) ∧ ¬ (a v x = 0 ∧ a v z = 0) ∧ ¬ (a v y = 0 ∧ a v z = 0))) ∨
        P i x y * P j y z * P k z x = 0 := by
      rcases hp x y with h | h | h
      · exact Or.inl (Or.inl h)
      · rcases hp z x with h' | h' | h'
        · exact Or.inl (Or.inl h')
        · rcases hp y z with h'' | h'' | h''
          · exact Or.inl (Or.inl h'')
          · exact Or.inl (Or.inr ⟨h, fun hx => h' ⟨hx.2, hx.1⟩, h''⟩)
          · rw [hP j, h'' j]; exact Or.inr (by ring)
        · rw [hP k, h' k]; exact Or.inr (by ring)
      · rw [hP i, h i]; exact Or.inr (by ring)
    rcases h0 with h0 | h0
    · rw [curve_eq ht (ha x) (ha y) (ha z) (hd x y) (hd x z) (hd y z) scale c h0, mul_assoc]
    · rw [h0, map_zero, mul_zero, mul_zero, mul_zero]
  have two : ∀ i x y (w : 𝕜), slope (cw1 t scale c) (cw2 t scale c) (a v x) (a v y) * RCLike.re (w * P i y x) =
      1 / (32 * Real.pi ^ 2) * RCLike.re (((fbaseValue scale (a v x) (a v y) - c + 1 / 2 : ℝ) : 𝕜) *
        (w * P i y x)) := fun i x y w => by
    rw [RCLike.re_ofReal_mul]
    have h0 : ((a v x = a v y ∧ (c = 3 / 2 ∨ a v x ≠ 0)) ∨ 1 / 10 ^ 5 < |a v x - a v y|) ∨ P i y x = 0 := by
      rcases hd x y with h | h
      · rcases hp y x with h' | h' | h'
        · exact Or.inl (Or.inl ⟨h, Or.inl h'⟩)
        · exact Or.inl (Or.inl ⟨h, Or.inr fun h0 => h' ⟨h ▸ h0, h0⟩⟩)
        · rw [hP i, h' i]; exact Or.inr rfl
      · exact Or.inl (Or.inr h)
    rcases h0 with h0 | h0
    · rw [slope_eq t0 (ha x) (ha y) scale c h0, mul_assoc]
    · rw [h0, mul_zero, map_zero, mul_zero, mul_zero, mul_zero]
  simp only [map_add, mul_add, ← hP, ← hQ]
  simp only [loop3, loop2, map_sum, Finset.mul_sum, Finset.sum_add_distrib]
  congr 1
  congr 1
  · congr 1
    · refine Finset.sum_congr rfl fun x _ => Finset.sum_congr rfl fun y _ => Finset.sum_congr rfl fun z _ => ?_
      exact tri r k l x y z
    · refine Finset.sum_congr rfl fun x _ => Finset.sum_congr rfl fun y _ => Finset.sum_congr rfl fun z _ => ?_
      have h := tri r l k y z x
      rw [hcyc] at h
      rw [curve2_eq, mul_assoc (P k x y), mul_comm (P k x y), h]
  · congr 1
    · refine Finset.sum_congr rfl fun x _ => Finset.sum_congr rfl fun y _ => ?_
      exact two l x y _
    · rw [Finset.sum_comm]
      refine Finset.sum_congr rfl fun x _ => Finset.sum_congr rfl fun y _ => ?_
      rw [slope_symm, mul_comm (P k y x)]
      exact two k x y _
  · refine Finset.sum_congr rfl fun x _ => Finset.sum_congr rfl fun y _ => ?_
    exact two r x y _

end Verif.Weinberg
