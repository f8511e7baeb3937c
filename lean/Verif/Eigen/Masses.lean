import Verif.Eigen.Props
import Verif.Invariance.Model
import Verif.Potential.LoopProps
import Mathlib.Analysis.Calculus.Deriv.Pow
import Mathlib.Analysis.Calculus.Deriv.Star

/-!
# C95: the derivatives of the masses
-/

set_option linter.unusedSectionVars false

namespace Verif.Eigen

open Matrix Module Spec
open Verif.Potential Verif.Spectrum Verif.Yukawa Verif.Invariance
open scoped ComplexConjugate

variable {n : ℕ}

/-- The functions for masses with an eigensolver of Eigen. -/
noncomputable def withSolver (solve : SelfAdjoint) (S : Solver) : Solver :=
  { S with derivative := fun M D => firstDerivative solve M D }

theorem update_hasDerivAt (v : Fin n → ℝ) (i j : Fin n) (t : ℝ) :
    HasDerivAt (fun s => Function.update v i s j) (if j = i then 1 else 0) t := by
  by_cases h : j = i
  · subst h
    simpa using hasDerivAt_id' t
  · simpa [h] using hasDerivAt_const t (v j)

section Gauge

variable (G : List Nat → ℝ) (D : Matrix (Fin 4) (Fin 4) ℝ)
  (hG : ∀ (a b : Fin 4) (i j : Fin n), G [(a : Nat), (b : Nat), (i : Nat), (j : Nat)] =
      G [(b : Nat), (a : Nat), (i : Nat), (j : Nat)])
  (hG' : ∀ (a b : Fin 4) (i j : Fin n), G [(a : Nat), (b : Nat), (i : Nat), (j : Nat)] =
      G [(a : Nat), (b : Nat), (j : Nat), (i : Nat)])
  (hD : ∀ a b, D a b = D b a)
include hG hG' hD

theorem gaugeMatrix_entry (T : ℝ) (v : Fin n → ℝ) (a b : Fin 4) :
    gaugeMatrix G D T v a b = gaugeEntry G D T v a b := by
  unfold gaugeMatrix
  split_ifs
  · unfold gaugeEntry
    simp only [hG b a, hD b a]
  · rfl

omit hG' in
theorem gaugeMatrix_symm (T : ℝ) (v : Fin n → ℝ) (a b : Fin 4) :
    gaugeMatrix G D T v a b = gaugeMatrix G D T v b a := by
  have : ∀ a b, gaugeMatrix G D T v a b = gaugeEntry G D T v a b := fun a b => by
    unfold gaugeMatrix
    split_ifs
    · unfold gaugeEntry
      simp only [hG b a, hD b a]
    · rfl
  rw [this, this]
  unfold gaugeEntry
  simp only [hG b a, hD b a]

theorem gauge_hasDerivAt (T : ℝ) (v : Fin n → ℝ) (i : Fin n) (a b : Fin 4) :
    HasDerivAt (fun s => gaugeMatrix G D T (Function.update v i s) a b) (gaugeD G v i a b) (v i) := by
  have hfun : (fun s => gaugeMatrix G D T (Function.update v i s) a b) =
      fun s => gaugeEntry G D T (Function.update v i s) a b :=
    funext fun s => gaugeMatrix_entry G D hG hG' hD T _ a b
  rw [hfun]
  unfold gaugeEntry
  refine HasDerivAt.add_const _ (HasDerivAt.congr_deriv (HasDerivAt.fun_sum fun j _ => HasDerivAt.fun_sum fun k _ =>
    ((update_hasDerivAt v i j (v i)).const_mul _).fun_mul (update_hasDerivAt v i k (v i))) ?_)
  simp only [Function.update_eq_self, mul_ite, ite_mul, mul_one, mul_zero, zero_mul, Finset.sum_add_distrib,
    Finset.sum_ite_eq', Finset.mem_univ, if_true]
  rw [Finset.sum_comm]
  simp only [Finset.sum_ite_eq', Finset.mem_univ, if_true]
  rw [gaugeD, ← Finset.sum_add_distrib]
  refine Finset.sum_congr rfl fun j _ => ?_
  rw [hG' a b j i]
  ring

theorem gauge_temp_hasDerivAt (T : ℝ) (v : Fin n → ℝ) (a b : Fin 4) :
    HasDerivAt (fun s => gaugeMatrix G D s v a b) (2 * D a b * T) T := by
  have hfun : (fun s => gaugeMatrix G D s v a b) = fun s => gaugeEntry G D 0 v a b + D a b * s ^ 2 := by
    funext s
    rw [gaugeMatrix_entry G D hG hG' hD]
    unfold gaugeEntry
    by_cases h : s = 0
    · simp [h]
    · simp [h]
  rw [hfun]
  refine HasDerivAt.congr_deriv (((hasDerivAt_pow 2 T).const_mul (D a b)).const_add _) ?_
  simp; ring

omit hG' in
theorem gauge_herm (T : ℝ) (v : Fin n → ℝ) : ((gaugeMatrix G D T v).map Complex.ofReal).IsHermitian := by
  ext a b
  simp [gaugeMatrix_symm G D hG hD T v a b]

theorem real_curve {k : ℕ} {A : ℝ → Matrix (Fin k) (Fin k) ℝ} {w : ℝ → Fin k → ℝ} {l : ℝ → ℝ}
    (h : ∀ s, A s *ᵥ w s = l s • w s) (s : ℝ) :
    (A s).map Complex.ofReal *ᵥ (fun a => (w s a : ℂ)) = (l s : ℂ) • fun a => (w s a : ℂ) := by
  funext a
  have := congrFun (h s) a
  simp only [mulVec, dotProduct, Pi.smul_apply, smul_eq_mul, Matrix.map_apply] at this ⊢
  exact_mod_cast this

/-- A mass of the gauge bosons that moves with a field is given with its derivative. -/
theorem C95_gauge (solve : SelfAdjoint) (hs : IsSolver solve) (S : Solver) (T : ℝ) (v : Fin n → ℝ) (i : Fin n)
    (w : ℝ → Fin 4 → ℝ) (w' : Fin 4 → ℝ) (l : ℝ → ℝ) (l' : ℝ)
    (hw : ∀ a, HasDerivAt (fun s => w s a) (w' a) (v i)) (hl : HasDerivAt l l' (v i))
    (heig : ∀ s, gaugeMatrix G D T (Function.update v i s) *ᵥ w s = l s • w s) (h0 : w (v i) ≠ 0)
    (hsep : Separated ((gaugeMatrix G D T v).map Complex.ofReal)) :
    ∃ p < 4, (gaugeSpectrum (withSolver solve S) G D v T ((i : Int) + 1))[p]? = some (l (v i)) ∧
      (gaugeSpectrum (withSolver solve S) G D v T ((i : Int) + 1))[4 + p]? =
        some (if |l'| < 1 / 10 ^ 6 then 0 else l') := by
  have hi : ¬ ((i : Int) + 1 = 0) := by omega
  simp only [gaugeSpectrum, hi, if_false, fieldIndex_succ]
  have hv : Function.update v i (v i) = v := Function.update_eq_self i v
  have := C94_moving solve hs (fun s => (gaugeMatrix G D T (Function.update v i s)).map Complex.ofReal)
    ((gaugeD G v i).map Complex.ofReal) (fun s a => (w s a : ℂ)) (fun a => (w' a : ℂ)) l l' (v i)
    (gauge_herm G D hG hD T _) (by ext a b; simp [gaugeD, hG a b]) (by simpa only [hv] using hsep)
    (fun a b => (gauge_hasDerivAt G D hG hG' hD T v i a b).ofReal_comp) (fun a => (hw a).ofReal_comp) hl
    (real_curve G D hG hG' hD heig) (fun e => h0 (funext fun a => by simpa using congrFun e a))
  rw [hv] at this
  exact this

/-- A mass of the gauge bosons that moves with the temperature is given with its derivative. -/
theorem C95_gauge_temperature (solve : SelfAdjoint) (hs : IsSolver solve) (S : Solver) (T : ℝ) (v : Fin n → ℝ)
    (w : ℝ → Fin 4 → ℝ) (w' : Fin 4 → ℝ) (l : ℝ → ℝ) (l' : ℝ)
    (hw : ∀ a, HasDerivAt (fun s => w s a) (w' a) T) (hl : HasDerivAt l l' T)
    (heig : ∀ s, gaugeMatrix G D s v *ᵥ w s = l s • w s) (h0 : w T ≠ 0)
    (hsep : Separated ((gaugeMatrix G D T v).map Complex.ofReal)) :
    ∃ p < 4, (gaugeSpectrum (withSolver solve S) G D v T (-1))[p]? = some (l T) ∧
      (gaugeSpectrum (withSolver solve S) G D v T (-1))[4 + p]? =
        some (if |l'| < 1 / 10 ^ 6 then 0 else l') := by
  simp only [gaugeSpectrum, fieldIndex_eq_none (n := n) (d := -1) (by omega)]
  exact C94_moving solve hs (fun s => (gaugeMatrix G D s v).map Complex.ofReal)
    (fun a b => ((2 * D a b * T : ℝ) : ℂ)) (fun s a => (w s a : ℂ)) (fun a => (w' a : ℂ)) l l' T
    (gauge_herm G D hG hD T _) (IsHermitian.ext fun a b => by
      rw [hD a b]; simp) hsep
    (fun a b => (gauge_temp_hasDerivAt G D hG hG' hD T v a b).ofReal_comp) (fun a => (hw a).ofReal_comp) hl
    (real_curve G D hG hG' hD heig) (fun e => h0 (funext fun a => by simpa using congrFun e a))

end Gauge

section Fermion

variable {m : ℕ} (F : List Nat → ℂ)
  (hF : ∀ (a b : Fin m) (k : Fin n), F [(a : Nat), (b : Nat), (k : Nat)] = F [(b : Nat), (a : Nat), (k : Nat)])
include hF

theorem mass_symm (v : Fin n → ℝ) (a b : Fin m) :
    massMatrix (m := m) Lagrangian.zeroTensor F v a b = massMatrix (m := m) Lagrangian.zeroTensor F v b a := by
  simp only [massMatrix, hF a b]
  rfl

theorem squared_herm (v : Fin n → ℝ) : (squaredMatrix (m := m) Lagrangian.zeroTensor F v).IsHermitian := by
  ext a b
  simp only [squaredMatrix, conjTranspose_apply, Matrix.mul_apply, Matrix.map_apply, star_sum, star_mul']
  refine Finset.sum_congr rfl fun i _ => ?_
  rw [mass_symm F hF v b i, mass_symm F hF v i a]
  simp [mul_comm]

omit hF in
theorem mass_hasDerivAt (v : Fin n → ℝ) (k : Fin n) (a b : Fin m) :
    HasDerivAt (fun s => massMatrix (m := m) Lagrangian.zeroTensor F (Function.update v k s) a b)
      (F [(a : Nat), (b : Nat), (k : Nat)]) (v k) := by
  unfold massMatrix
  refine HasDerivAt.const_add _ (HasDerivAt.congr_deriv (HasDerivAt.fun_sum fun j _ =>
    ((update_hasDerivAt v k j (v k)).ofReal_comp).const_mul _) ?_)
  rw [Finset.sum_eq_single k (fun j _ hj => by rw [if_neg hj]; simp) (fun h => (h (Finset.mem_univ k)).elim),
    if_pos rfl]
  simp

omit hF in
theorem squared_hasDerivAt (v : Fin n → ℝ) (k : Fin n) (a b : Fin m) :
    HasDerivAt (fun s => squaredMatrix (m := m) Lagrangian.zeroTensor F (Function.update v k s) a b)
      (fermionD m F v k a b) (v k) := by
  simp only [squaredMatrix, Matrix.mul_apply, Matrix.map_apply]
  refine HasDerivAt.congr_deriv (HasDerivAt.fun_sum fun i _ =>
    ((mass_hasDerivAt F v k a i).star).fun_mul (mass_hasDerivAt F v k i b)) ?_
  simp only [Function.update_eq_self]
  rfl

theorem fermionD_herm (v : Fin n → ℝ) (k : Fin n) : (fermionD m F v k).IsHermitian := by
  ext a b
  simp only [fermionD, conjTranspose_apply, star_sum, star_add, star_mul']
  refine Finset.sum_congr rfl fun i _ => ?_
  rw [mass_symm F hF v i a, mass_symm F hF v b i, hF b i, hF i a]
  simp
  ring

/-- A squared mass of the quarks or leptons that moves with a field is given with its derivative. -/
theorem C95_fermion (solve : SelfAdjoint) (hs : IsSolver solve) (S : Solver) (v : Fin n → ℝ) (k : Fin n)
    (w : ℝ → Fin m → ℂ) (w' : Fin m → ℂ) (l : ℝ → ℝ) (l' : ℝ)
    (hw : ∀ a, HasDerivAt (fun s => w s a) (w' a) (v k)) (hl : HasDerivAt l l' (v k))
    (heig : ∀ s, squaredMatrix (m := m) Lagrangian.zeroTensor F (Function.update v k s) *ᵥ w s = (l s : ℂ) • w s)
    (h0 : w (v k) ≠ 0) (hsep : Separated (squaredMatrix (m := m) Lagrangian.zeroTensor F v)) :
    ∃ p < m, (fermionSpectrum (withSolver solve S) m F v ((k : Int) + 1))[p]? = some (l (v k)) ∧
      (fermionSpectrum (withSolver solve S) m F v ((k : Int) + 1))[m + p]? =
        some (if |l'| < 1 / 10 ^ 6 then 0 else l') := by
  have hi : ¬ ((k : Int) + 1 ≤ 0) := by omega
  simp only [fermionSpectrum, hi, if_false, fieldIndex_succ]
  have hv : Function.update v k (v k) = v := Function.update_eq_self k v
  have := C94_moving solve hs (fun s => squaredMatrix (m := m) Lagrangian.zeroTensor F (Function.update v k s))
    (fermionD m F v k) w w' l l' (v k) (squared_herm F hF _) (fermionD_herm F hF v k)
    (by simpa only [hv] using hsep) (squared_hasDerivAt F v k) hw hl heig h0
  rw [hv] at this
  exact this

end Fermion

section Higgs

open Classical in
/-- With equal arguments the derivatives are the eigenvalues again. -/
theorem firstDerivative_self (solve : SelfAdjoint) (hs : IsSolver solve) (M : Matrix (Fin n) (Fin n) ℂ)
    (hM : M.IsHermitian) (hsep : Separated M) :
    ∃ ev : Fin n → ℝ, firstDerivative solve M M = List.ofFn ev ++ List.ofFn ev ∧ ∀ i, IsEigenvalue M (ev i) := by
  obtain ⟨ev, d, hres, hcard⟩ := C94_derivatives solve hs M M hM hM hsep
  have key : ∀ i, ev i = d i ∧ IsEigenvalue M (ev i) := by
    intro i
    have hpos : 0 < finrank ℂ (firstOrder M M (ev i) (d i)) := by
      rw [← hcard, Fintype.card_pos_iff]
      exact ⟨⟨i, rfl, rfl⟩⟩
    rw [finrank_pos_iff_exists_ne_zero] at hpos
    obtain ⟨⟨v, h1, h2⟩, h0⟩ := hpos
    have hv0 : v ≠ 0 := fun e => h0 (Subtype.ext e)
    refine ⟨?_, v, hv0, h1⟩
    have := h2 v h1
    rw [h1, ← sub_smul, dotProduct_smul, smul_eq_mul, mul_eq_zero] at this
    have hne : star v ⬝ᵥ v ≠ 0 := by
      open ComplexOrder in exact fun e => hv0 (dotProduct_star_self_eq_zero.1 e)
    have := this.resolve_right hne
    exact_mod_cast sub_eq_zero.1 this
  refine ⟨ev, ?_, fun i => (key i).2⟩
  rw [hres]
  congr 2
  funext i
  rw [← (key i).1]
  have := cut_of (hsep.zero _ (key i).2)
  unfold cutValue evThres at this
  exact this

/-- For the scalars the mass matrix is requested as a derivative too: instead of masses and their derivatives the
eigenvalues of the derivative of the mass matrix are given twice. -/
theorem C95_higgs_fails (solve : SelfAdjoint) (hs : IsSolver solve) (S : Solver) (c : Curv n ℝ)
    (debye : Fin n → Fin n → ℝ) (v : Fin n → ℝ) (T : ℝ) (i : Fin n)
    (h3 : ∀ a b, c.L3 a b i = c.L3 b a i) (h4 : ∀ a b k, c.L4 a b i k = c.L4 b a i k)
    (hsep : Separated (fun a b => ((massD c v i a b : ℝ) : ℂ))) :
    ∃ ev : Fin n → ℝ, higgsSpectrum ((withSolver solve S).lib n) c debye v T ((i : Int) + 1) =
        List.ofFn ev ++ List.ofFn ev ∧
      ∀ a, IsEigenvalue (fun a b => ((massD c v i a b : ℝ) : ℂ)) (ev a) := by
  rw [higgsSpectrum_field]
  exact firstDerivative_self solve hs _ (by
    ext a b; simp [massD, h3 a b, fun k => h4 a b k]) hsep

end Higgs

end Verif.Eigen
