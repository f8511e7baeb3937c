import Verif.Check.Props
import Verif.Weinberg.Models
import Mathlib.GroupTheory.Perm.Fin

/-!
# The tensors of the shipped models pass the checks

`CheckImplementation` calls the checks of the tensors for the vectors that the model has filled,
ClassPotentialOrigin.cpp:3621-3659.
-/

set_option linter.unusedSectionVars false

namespace Verif.Check

open Outcome Spec Verif.Potential Verif.Invariance Verif.Yukawa Verif.Lagrangian Verif.Weinberg

variable {n : Nat}

/-- A `std::complex<double>` without NaN. -/
def complexOf (z : ℂ) : Cplx ℝ := (.fin z.re, .fin z.im)

/-- `CheckSymmetricTensorScalarSecond(Curvature_Higgs_L2)` etc. for the tensors `c` of the scalars,
ClassPotentialOrigin.cpp:3622-3632. -/
noncomputable def scalarTests (c : Curv n ℝ) : List (Outcome TestResult) :=
  [scalarSecond (table2 fun i j => Flt.fin (c.L2 i j)),
   scalarThird (table3 fun i j k => Flt.fin (c.L3 i j k)),
   scalarFourth (table4 fun i j k l => Flt.fin (c.L4 i j k l))]

/-- The checks of all tensors of a model, ClassPotentialOrigin.cpp:3622-3659.  The mass terms
`Curvature_Lepton_F2` and `Curvature_Quark_F2` of the shipped models are zero. -/
noncomputable def tensorTests (T : Tensors n) : List (Outcome TestResult) :=
  scalarTests T.scalar ++
  [gauge (table4 fun (a b : Fin 4) (i j : Fin n) =>
      Flt.fin (T.gauge [(a : Nat), (b : Nat), (i : Nat), (j : Nat)])),
   fermionThird (table3 fun (a b : Fin 9) (k : Fin n) =>
      complexOf (T.lepton [(a : Nat), (b : Nat), (k : Nat)])),
   fermionSecond (table2 fun (_ _ : Fin 9) => complexOf 0),
   fermionThird (table3 fun (a b : Fin 12) (k : Fin n) =>
      complexOf (T.quark [(a : Nat), (b : Nat), (k : Nat)])),
   fermionSecond (table2 fun (_ _ : Fin 12) => complexOf 0)]

theorem perm_of_swaps {k : Nat} {A B : Type} (f : (Fin (k + 1) → A) → B)
    (h : ∀ (q : Fin k) (x : Fin (k + 1) → A),
      f (fun p => x (Equiv.swap q.castSucc q.succ p)) = f x)
    (σ : Equiv.Perm (Fin (k + 1))) (x : Fin (k + 1) → A) : f (fun p => x (σ p)) = f x := by
  have hσ : σ ∈ Submonoid.closure
      (Set.range fun i : Fin k => Equiv.swap i.castSucc i.succ) := by
    rw [Equiv.Perm.mclosure_swap_castSucc_succ]; trivial
  induction hσ using Submonoid.closure_induction generalizing x with
  | mem σ hσ => obtain ⟨q, rfl⟩ := hσ; exact h q x
  | one => rfl
  | mul σ τ _ _ hs ht =>
    have h1 := ht (fun p => x (σ p))
    have h2 := hs x
    exact h1.trans h2

theorem flt_number (x : ℝ) : HasNaN.number (Flt.fin x) := by
  intro h; cases h

theorem complex_number (z : ℂ) : HasNaN.number (complexOf z) := by
  refine ⟨?_, ?_⟩ <;> · intro h; cases h

theorem complexOf_injective {z w : ℂ} (h : complexOf z = complexOf w) : z = w := by
  simp only [complexOf, Prod.mk.injEq, Flt.fin.injEq] at h
  exact Complex.ext h.1 h.2

theorem ok_pass {p : Prop} : (ok (verdict p) = ok TestResult.pass) ↔ p := by
  rw [Outcome.ok.injEq, verdict_pass]

theorem second_iff (t : Fin n → Fin n → ℝ) : scalarSecond (table2 fun i j => Flt.fin (t i j)) =
    ok .pass ↔ ∀ i j, t i j = t j i := by
  rw [C105_second, ok_pass]
  constructor
  · rintro ⟨m, u, hu, -, H⟩
    have hm : m = n := by rw [← length_table2 u, ← hu, length_table2]
    subst hm
    have e := table2_injective hu
    intro i j
    have := H i j
    rw [← e] at this
    exact Flt.fin.inj this
  · exact fun H => ⟨n, _, rfl, fun i j => flt_number _, fun i j => congrArg _ (H i j)⟩

theorem third_iff (t : Fin n → Fin n → Fin n → ℝ) :
    scalarThird (table3 fun i j k => Flt.fin (t i j k)) = ok .pass ↔
      (∀ i j k, t i j k = t j i k) ∧ ∀ i j k, t i j k = t i k j := by
  rw [C105_third, ok_pass]
  constructor
  · rintro ⟨m, u, hu, -, H⟩
    have hm : m = n := by rw [← length_table3 u, ← hu, length_table3]
    subst hm
    have e := table3_injective hu
    rw [← e] at H
    refine ⟨fun i j k => ?_, fun i j k => ?_⟩
    · exact (Flt.fin.inj (H (Equiv.swap 0 1) ![i, j, k])).symm
    · exact (Flt.fin.inj (H (Equiv.swap 1 2) ![i, j, k])).symm
  · rintro ⟨h1, h2⟩
    refine ⟨n, _, rfl, fun i j k => flt_number _, fun σ x => ?_⟩
    refine perm_of_swaps (fun y : Fin 3 → Fin n => Flt.fin (t (y 0) (y 1) (y 2))) ?_ σ x
    intro q x
    fin_cases q
    · exact congrArg _ (h1 (x 1) (x 0) (x 2))
    · exact congrArg _ (h2 (x 0) (x 2) (x 1))

theorem fourth_iff (t : Fin n → Fin n → Fin n → Fin n → ℝ) :
    scalarFourth (table4 fun i j k l => Flt.fin (t i j k l)) = ok .pass ↔
      (∀ i j k l, t i j k l = t j i k l) ∧ (∀ i j k l, t i j k l = t i k j l) ∧
        ∀ i j k l, t i j k l = t i j l k := by
  rw [C105_fourth, ok_pass]
  constructor
  · rintro ⟨m, u, hu, -, H⟩
    have hm : m = n := by rw [← length_table4 u, ← hu, length_table4]
    subst hm
    have e := table4_injective hu
    rw [← e] at H
    refine ⟨fun i j k l => ?_, fun i j k l => ?_, fun i j k l => ?_⟩
    · exact (Flt.fin.inj (H (Equiv.swap 0 1) ![i, j, k, l])).symm
    · exact (Flt.fin.inj (H (Equiv.swap 1 2) ![i, j, k, l])).symm
    · exact (Flt.fin.inj (H (Equiv.swap 2 3) ![i, j, k, l])).symm
  · rintro ⟨h1, h2, h3⟩
    refine ⟨n, _, rfl, fun i j k l => flt_number _, fun σ x => ?_⟩
    refine perm_of_swaps (fun y : Fin 4 → Fin n => Flt.fin (t (y 0) (y 1) (y 2) (y 3))) ?_ σ x
    intro q x
    fin_cases q
    · exact congrArg _ (h1 (x 1) (x 0) (x 2) (x 3))
    · exact congrArg _ (h2 (x 0) (x 2) (x 1) (x 3))
    · exact congrArg _ (h3 (x 0) (x 1) (x 3) (x 2))

/-- The checks of the tensors of the scalars pass exactly if the tensors do not depend on the order
of their indices. -/
theorem C105_scalar (c : Curv n ℝ) :
    (∀ r ∈ scalarTests c, r = ok .pass) ↔ Potential.Spec.Symmetric c := by
  simp only [scalarTests, List.mem_cons, List.not_mem_nil, or_false, forall_eq_or_imp, forall_eq,
    second_iff, third_iff, fourth_iff]
  constructor
  · rintro ⟨h2, ⟨h3a, h3b⟩, h4a, h4b, h4c⟩
    exact ⟨h2, h3a, h3b, h4a, h4b, h4c⟩
  · rintro ⟨h2, h3a, h3b, h4a, h4b, h4c⟩
    exact ⟨h2, ⟨h3a, h3b⟩, h4a, h4b, h4c⟩

/-- So if the checks pass then the derivative modes of `VTree` and `HiggsMassMatrix` are the
derivatives of the tree-level potential. -/
theorem C105_derivatives (c : Curv n ℝ) (h : ∀ r ∈ scalarTests c, r = ok .pass) :
    TreeDerivatives (fun φ => vTree false (fun _ => 0) c φ 0 true) c :=
  tree_derivatives _ _ ((C105_scalar c).1 h) fun s φ => by
    simp [vTree]

theorem yukawa_iff {m : Nat} (t : Fin m → Fin m → Fin n → ℂ) (h : ∀ a b k, t a b k = t b a k) :
    fermionThird (table3 fun a b k => complexOf (t a b k)) = ok .pass := by
  rw [C105_yukawa_partial n, ok_pass]
  · exact ⟨m, n, _, rfl, fun a b k => complex_number _, fun a b k => congrArg _ (h a b k)⟩
  · intro r hr s hs
    obtain ⟨i, rfl⟩ := mem_table3 _ hr
    obtain ⟨j, rfl⟩ := mem_table2 _ hs
    rw [List.length_ofFn]

/-- All checks of the tensors pass for every model whose tensors are symmetric. -/
theorem C105_lawful [NeZero n] (T : Tensors n) (hT : Weinberg.Spec.Lawful T) :
    ∀ r ∈ tensorTests T, r = ok .pass := by
  have hz : ∀ m : Nat, fermionSecond (table2 fun (_ _ : Fin m) => complexOf 0) = ok .pass :=
    fun m => by
      rw [C105_mass, ok_pass]
      exact ⟨m, _, rfl, fun _ _ => complex_number _, fun _ _ => rfl⟩
  intro r hr
  rw [tensorTests, List.mem_append] at hr
  rcases hr with hr | hr
  · exact (C105_scalar T.scalar).2 hT.scalar r hr
  · simp only [List.mem_cons, List.not_mem_nil, or_false] at hr
    rcases hr with rfl | rfl | rfl | rfl | rfl
    · rw [C105_gauge, ok_pass]
      exact ⟨4, n, _, rfl, Or.inr (Nat.pos_of_ne_zero (NeZero.ne n)), fun _ _ _ _ => flt_number _,
        fun a b i j => ⟨congrArg _ (hT.gauge.gauge a b i j), congrArg _ (hT.gauge.scalar a b i j)⟩⟩
    · exact yukawa_iff _ hT.lepton
    · exact hz 9
    · exact yukawa_iff _ hT.quark
    · exact hz 12

/-- The tensors of the standard model pass, for all parameters. -/
theorem C105_sm (p : SM.Par ℝ) (g gs : ℝ) (c : Constants) (v : ℝ) (force : Bool)
    (D : Matrix (Fin 4) (Fin 4) ℝ) : ∀ r ∈ tensorTests (smTensors p g gs c v force D), r = ok .pass :=
  C105_lawful _ (sm_lawful p g gs c v force D)

/-- The tensors of the CxSM pass, for all parameters. -/
theorem C105_cxsm (p : CxSM.Par) (g gs : ℝ) (c : Constants) (v : ℝ) (force : Bool)
    (D : Matrix (Fin 4) (Fin 4) ℝ) :
    ∀ r ∈ tensorTests (cxsmTensors p g gs c v force D), r = ok .pass :=
  C105_lawful _ (cxsm_lawful p g gs c v force D)

/-- The tensors of the R2HDM pass, for all parameters and types. -/
theorem C105_r2hdm (p : R2HDM.Par ℝ) (g gs : ℝ) (c : Constants) (cosBeta sinBeta : ℝ) (type : Int)
    (force : Bool) (D : Matrix (Fin 4) (Fin 4) ℝ) :
    ∀ r ∈ tensorTests (r2hdmTensors p g gs c cosBeta sinBeta type force D), r = ok .pass :=
  C105_lawful _ (r2hdm_lawful p g gs c cosBeta sinBeta type force D)

/-- The tensors of the C2HDM pass, for all parameters and types. -/
theorem C105_c2hdm (p : C2HDM.Par ℝ) (g gs : ℝ) (c : Constants) (cosBeta sinBeta : ℝ) (type : Int)
    (force : Bool) (D : Matrix (Fin 4) (Fin 4) ℝ) :
    ∀ r ∈ tensorTests (c2hdmTensors p g gs c cosBeta sinBeta type force D), r = ok .pass :=
  C105_lawful _ (c2hdm_lawful p g gs c cosBeta sinBeta type force D)

/-- The tensors of the N2HDM pass, for all parameters and types. -/
theorem C105_n2hdm (p : N2HDM.Par ℝ) (g gs : ℝ) (c : Constants) (cosBeta sinBeta : ℝ) (type : Int)
    (force : Bool) (D : Matrix (Fin 4) (Fin 4) ℝ) :
    ∀ r ∈ tensorTests (n2hdmTensors p g gs c cosBeta sinBeta type force D), r = ok .pass :=
  C105_lawful _ (n2hdm_lawful p g gs c cosBeta sinBeta type force D)

/-- The tensors of CP in the Dark pass, for all parameters. -/
theorem C105_cpinthedark (p : CPintheDark.Par ℝ) (g gs : ℝ) (c : Constants) (v : ℝ) (force : Bool)
    (D : Matrix (Fin 4) (Fin 4) ℝ) :
    ∀ r ∈ tensorTests (darkTensors p g gs c v force D), r = ok .pass :=
  C105_lawful _ (cpinthedark_lawful p g gs c v force D)

end Verif.Check
