import Verif.Invariance.Orbit
import Verif.Models.Props

/-!
# The search for minima in the directions of the vacuum expectation values loses nothing (C84)

The minimiser varies only the fields with a vacuum expectation value, `VEff(MinimizeOrderVEV(v))`.  By
gauge invariance every value of the potential of all fields is taken there.
-/

set_option linter.unusedSimpArgs false

namespace Verif.Invariance

open Verif.Potential Verif.Lagrangian Verif.Lagrangian.Spec Verif.Spectrum Verif.Yukawa Verif.Debye Matrix
open Verif.Models (Class minimizeOrderVEV)
open Verif.Models.Spec (IsEmbedding)

namespace Spec

/-- The vector of fields as a function. -/
def fields (n : Nat) (w : List ℝ) : Fin n → ℝ := fun i => w.getD i 0

/-- `V` is the potential of all fields, `P` the potential that the program evaluates.  Every value of `V`
is a value of `P` for some vacuum expectation values in the directions `order`. -/
def Searched {n : Nat} (order : List Nat) (P V : (Fin n → ℝ) → ℝ) : Prop :=
  ∀ φ, ∃ v w : List ℝ, v.length = order.length ∧ IsEmbedding n order v w ∧ P (fields n w) = V φ

/-- The same with the function that the program uses for the embedding. -/
def SearchedByProgram {n : Nat} (c : Class) (chargeBreaking : Bool) (P V : (Fin n → ℝ) → ℝ) : Prop :=
  c.nHiggs = n ∧ ∀ φ, ∃ v w : List ℝ, v.length = (c.vevOrder chargeBreaking).length ∧
    minimizeOrderVEV c.nHiggs (c.vevOrder chargeBreaking) v = .ok w ∧ w.length = n ∧ P (fields n w) = V φ

end Spec

open Spec (fields Searched SearchedByProgram)

theorem embedding_of {n : Nat} (order : List Nat) (hr : ∀ o ∈ order, o < n) (ψ : Fin n → ℝ)
    (h0 : ∀ i : Fin n, (i : Nat) ∉ order → ψ i = 0) :
    IsEmbedding n order (order.map fun k => if h : k < n then ψ ⟨k, h⟩ else 0) (List.ofFn ψ) := by
  refine ⟨by simp, fun k i x hk hx => ?_, fun i hi hn => ?_⟩
  · rw [List.getElem?_map, hk, Option.map_some, Option.some.injEq] at hx
    have hi : i < n := hr i (List.mem_of_getElem? hk)
    rw [dif_pos hi] at hx
    rw [List.getElem?_ofFn, dif_pos hi, hx]
  · rw [List.getElem?_ofFn, dif_pos hi, h0 ⟨i, hi⟩ hn]

theorem embedding_unique {n : Nat} {order : List Nat} {v w w' : List ℝ} (hv : v.length = order.length)
    (h : IsEmbedding n order v w) (h' : IsEmbedding n order v w') : w = w' := by
  refine List.ext_getElem? fun i => ?_
  by_cases hi : i < n
  · by_cases ho : i ∈ order
    · obtain ⟨k, hk, e⟩ := List.getElem_of_mem ho
      have e1 : order[k]? = some i := by rw [List.getElem?_eq_getElem hk, e]
      have e2 : v[k]? = some (v[k]'(hv ▸ hk)) := List.getElem?_eq_getElem _
      rw [h.2.1 k i _ e1 e2, h'.2.1 k i _ e1 e2]
    · rw [h.2.2 i hi ho, h'.2.2 i hi ho]
  · rw [List.getElem?_eq_none (by rw [h.1]; omega), List.getElem?_eq_none (by rw [h'.1]; omega)]

theorem fields_ofFn {n : Nat} (ψ : Fin n → ℝ) : fields n (List.ofFn ψ) = ψ := by
  funext i
  simp [fields, List.getD]

/-- If every orbit meets the directions `order`, then the search is complete. -/
theorem searched {n : Nat} (order : List Nat) (hr : ∀ o ∈ order, o < n) {P V : (Fin n → ℝ) → ℝ}
    (h : ∀ φ, ∃ ψ : Fin n → ℝ, (∀ i : Fin n, (i : Nat) ∉ order → ψ i = 0) ∧ P ψ = V φ) :
    Searched order P V := fun φ => by
  obtain ⟨ψ, h0, hP⟩ := h φ
  exact ⟨_, _, by simp, embedding_of order hr ψ h0, by rw [fields_ofFn, hP]⟩

theorem searched_by_program {n : Nat} (c : Class) (cb : Bool) (hc : c ≠ .sm) (hn : c.nHiggs = n)
    {P V : (Fin n → ℝ) → ℝ} (h : Searched (c.vevOrder cb) P V) : SearchedByProgram c cb P V := by
  subst hn
  refine ⟨rfl, fun φ => ?_⟩
  obtain ⟨v, w, hv, hw, hP⟩ := h φ
  obtain ⟨w', e, hw'⟩ := Models.C33_models_partial cb c hc v hv
  rw [← embedding_unique hv hw hw'] at e
  exact ⟨v, w, hv, e, hw.1, hP⟩

/-- **The minimum in the directions of the vacuum expectation values is the global minimum.**  If the
vacuum expectation values `v` minimise what the program evaluates, then no fields have a smaller
potential. -/
theorem C84_minimum {n : Nat} (c : Class) (cb : Bool) {P V : (Fin n → ℝ) → ℝ}
    (h : SearchedByProgram c cb P V) (x : ℝ)
    (hmin : ∀ v w : List ℝ, v.length = (c.vevOrder cb).length →
      minimizeOrderVEV c.nHiggs (c.vevOrder cb) v = .ok w → x ≤ P (fields n w)) :
    ∀ φ, x ≤ V φ := fun φ => by
  obtain ⟨v, w, hv, e, -, hP⟩ := h.2 φ
  exact hP ▸ hmin v w hv e

/-! ### The models -/

/-- Standard model.  (`MinimizeOrderVEV` itself reads past the end of an array in this model, C33.) -/
theorem C84_sm {S : Solver} (hS : S.Correct) (p : SM.Par ℝ) (ct : SM.CT ℝ) (g gs : ℝ)
    (c : Constants) (hV : c.ckm ∈ unitaryGroup (Fin 3) ℂ) (v : ℝ) (force : Bool)
    (D : Matrix (Fin 4) (Fin 4) ℝ) (hD : calculateDebyeGauge 4 4 (SM.gauge g gs) none = some D)
    (scale : ℝ) (JB JF : Thermal) (T : ℝ)
    (h : ct.dT1 = 0 ∧ ct.dT2 = 0 ∧ ct.dT3 = 0 ∧ ct.dT4 = 0) (cb : Bool) :
    Searched (Class.sm.vevOrder cb)
      ((smTensors p g gs c v force D).effective (SM.counter ct) none S scale JB JF T)
      ((smTensors p g gs c v force D).effective (SM.counter ct) none S scale JB JF T) := by
  refine searched _ (by cases cb <;> decide) fun φ => ?_
  obtain ⟨ψ, h0, h1, h3, hW⟩ := SM.orbit φ
  refine ⟨ψ, fun i hi => ?_, hW _ (C82_sm_potential hS p ct g gs c hV v force D hD scale JB JF T h)⟩
  fin_cases i
  · exact h0
  · exact h1
  · exact absurd (by cases cb <;> decide) hi
  · exact h3

/-- Standard model with a complex singlet. -/
theorem C84_cxsm {S : Solver} (hS : S.Correct) (p : CxSM.Par) (ct : CxSM.CT) (g gs : ℝ)
    (c : Constants) (hV : c.ckm ∈ unitaryGroup (Fin 3) ℂ) (v : ℝ) (force : Bool)
    (D : Matrix (Fin 4) (Fin 4) ℝ) (hD : calculateDebyeGauge 4 6 (CxSM.gauge g gs) none = some D)
    (scale : ℝ) (JB JF : Thermal) (T : ℝ)
    (h : ct.dT1 = 0 ∧ ct.dT2 = 0 ∧ ct.dT3 = 0 ∧ ct.dT4 = 0) (cb : Bool) :
    SearchedByProgram Class.cxsm cb
      ((cxsmTensors p g gs c v force D).effective (CxSM.counter ct) none S scale JB JF T)
      ((cxsmTensors p g gs c v force D).effective (CxSM.counter ct) none S scale JB JF T) := by
  refine searched_by_program _ _ (by decide) rfl (searched _ (by cases cb <;> decide) fun φ => ?_)
  obtain ⟨ψ, h0, h1, h2, -, -, hW⟩ := CxSM.orbit φ
  refine ⟨ψ, fun i hi => ?_, hW _ (C82_cxsm_potential hS p ct g gs c hV v force D hD scale JB JF T h)⟩
  fin_cases i
  · exact h0
  · exact h1
  · exact h2
  all_goals exact absurd (by cases cb <;> decide) hi

/-- The eight fields of two doublets. -/
theorem two_doublets (cb : Bool) {P V : (Fin 8 → ℝ) → ℝ} (hV : TwoDoublets.GaugeInvariant V)
    (hP : ∀ ψ : Fin 8 → ℝ, ψ 0 = 0 → ψ 1 = 0 → ψ 3 = 0 → ψ 5 = 0 → P ψ = V ψ) :
    Searched (Class.r2hdm.vevOrder cb) P V := by
  refine searched _ (by cases cb <;> decide) fun φ => ?_
  obtain ⟨ψ, h0, h1, h3, h5, hW⟩ := TwoDoublets.orbit φ
  refine ⟨ψ, fun i hi => ?_, (hP ψ h0 h1 h3 h5).trans (hW _ hV)⟩
  fin_cases i
  · exact h0
  · exact h1
  · exact absurd (by cases cb <;> decide) hi
  · exact h3
  · exact absurd (by cases cb <;> decide) hi
  · exact h5
  all_goals exact absurd (by cases cb <;> decide) hi

/-- Real two Higgs doublet model. -/
theorem C84_r2hdm {S : Solver} (hS : S.Correct) (p : R2HDM.Par ℝ) (ct : R2HDM.CT ℝ)
    (g gs : ℝ) (c : Constants) (hV : c.ckm ∈ unitaryGroup (Fin 3) ℂ) (cosBeta sinBeta : ℝ)
    (type : Int) (ht : TwoHDM.Documented type) (force : Bool) (D : Matrix (Fin 4) (Fin 4) ℝ)
    (hD : calculateDebyeGauge 4 8 (R2HDM.gauge g gs) (some (gaugeSimplified g gs)) = some D)
    (scale : ℝ) (JB JF : Thermal) (T : ℝ) (h : ct.DT1 = 0 ∧ ct.DT2 = 0 ∧ ct.DT3 = 0) (cb : Bool) :
    SearchedByProgram Class.r2hdm cb
      ((r2hdmTensors p g gs c cosBeta sinBeta type force D).effective (R2HDM.counter ct) none S scale JB JF T)
      ((r2hdmTensors p g gs c cosBeta sinBeta type force D).effective (R2HDM.counter ct) none S scale JB JF
        T) :=
  searched_by_program _ _ (by decide) rfl (two_doublets cb
    (C82_r2hdm_potential hS p ct g gs c hV cosBeta sinBeta type ht force D hD scale JB JF T h)
    fun _ _ _ _ _ => rfl)

/-- Complex two Higgs doublet model, with the charge-breaking direction: the program evaluates the
simplified potentials, the potential of all fields is the documented one. -/
theorem C84_c2hdm {S : Solver} (hS : S.Correct) (p : C2HDM.Par ℝ) (ct : C2HDM.CT ℝ)
    (g gs : ℝ) (c : Constants) (hV : c.ckm ∈ unitaryGroup (Fin 3) ℂ) (cosBeta sinBeta : ℝ)
    (type : Int) (ht : TwoHDM.Documented type) (force : Bool) (D : Matrix (Fin 4) (Fin 4) ℝ)
    (hD : calculateDebyeGauge 4 8 (C2HDM.gauge g gs) (some (gaugeSimplified g gs)) = some D)
    (scale : ℝ) (JB JF : Thermal) (T : ℝ)
    (h : ct.DTCharged = 0 ∧ ct.DT1 = 0 ∧ ct.DT2 = 0 ∧ ct.DT3 = 0) :
    SearchedByProgram Class.c2hdm true
      ((c2hdmTensors p g gs c cosBeta sinBeta type force D).effective (C2HDM.counter ct)
        (some (C2HDM.treeSimplified p, C2HDM.counterSimplified ct)) S scale JB JF T)
      ((c2hdmTensors p g gs c cosBeta sinBeta type force D).effective (C2HDM.counter ct) none S scale JB JF
        T) := by
  refine searched_by_program _ _ (by decide) rfl (two_doublets true
    (C82_c2hdm_potential_partial hS p ct g gs c hV cosBeta sinBeta type ht force D hD scale JB JF T h)
    fun ψ h0 h1 h3 h5 => ?_)
  obtain ⟨e1, e2⟩ := C2HDM.C74_c2hdm_simplified p ct ψ h0 h1 h3 h5
  unfold Tensors.effective
  refine congrArg₂ (· + ·) (congrArg₂ (· + ·) ?_ ?_) rfl
  · refine Complex.ofReal_injective (e1.trans ?_)
    exact (C2HDM.C74_c2hdm_potential p ψ _ false).symm
  · refine Complex.ofReal_injective (e2.trans ?_)
    exact (C2HDM.C74_c2hdm_counterterms ct ψ _ false).symm

/-- Complex two Higgs doublet model without the charge-breaking direction: deeper minima are missed, for
example at tree level. -/
theorem C84_c2hdm_neutral_fails : ∃ (p : C2HDM.Par ℝ) (φ : Fin 8 → ℝ), ∀ v w : List ℝ,
    v.length = (Class.c2hdm.vevOrder false).length →
    minimizeOrderVEV Class.c2hdm.nHiggs (Class.c2hdm.vevOrder false) v = .ok w →
    vTree true (C2HDM.treeSimplified p) (C2HDM.tree p) φ 0 false <
      vTree true (C2HDM.treeSimplified p) (C2HDM.tree p) (fields 8 w) 0 false := by
  refine ⟨⟨2, 2, 0, 2, 0, 0, 0, -1, -1, 0⟩, ![0, 0, 1, 0, 1, 0, 0, 0], fun v w hv hw => ?_⟩
  obtain ⟨w', e, h⟩ := Models.C33_models_partial false Class.c2hdm (by decide) v hv
  obtain rfl : w' = w := by
    rw [hw] at e
    exact (Outcome.ok.inj e).symm
  have h2 : fields 8 w' 2 = 0 := by
    have := h.2.2 2 (by decide) (by decide)
    simp [fields, List.getD, this]
  simp only [vTree, C2HDM.treeSimplified, h2]
  generalize fields 8 w' 4 = x
  generalize fields 8 w' 6 = y
  generalize fields 8 w' 7 = z
  simp
  nlinarith [sq_nonneg (x ^ 2 + y ^ 2 + z ^ 2 - 1)]

/-- The nine fields of two doublets and a singlet. -/
theorem two_doublets_singlet {σ : Fin 8 → Fin 9} {π : Fin 9 → Fin 8} (ho : Singlet.Order σ π)
    (order : List Nat) (hr : ∀ o ∈ order, o < 9)
    (hc : ∀ i : Fin 9, (i : Nat) ∉ order → i = σ 0 ∨ i = σ 1 ∨ i = σ 3 ∨ i = σ 5)
    {P V : (Fin 9 → ℝ) → ℝ} (hV : Singlet.GaugeInvariant π V)
    (hP : ∀ ψ : Fin 9 → ℝ, ψ (σ 0) = 0 → ψ (σ 1) = 0 → ψ (σ 3) = 0 → ψ (σ 5) = 0 → P ψ = V ψ) :
    Searched order P V := by
  refine searched _ hr fun φ => ?_
  obtain ⟨ψ, h0, h1, h3, h5, -, hW⟩ := TwoDoublets.orbit_singlet ho φ
  refine ⟨ψ, fun i hi => ?_, (hP ψ h0 h1 h3 h5).trans (hW _ hV)⟩
  rcases hc i hi with rfl | rfl | rfl | rfl
  · exact h0
  · exact h1
  · exact h3
  · exact h5

/-- Next-to-minimal two Higgs doublet model. -/
theorem C84_n2hdm {S : Solver} (hS : S.Correct) (p : N2HDM.Par ℝ) (ct : N2HDM.CT ℝ)
    (g gs : ℝ) (c : Constants) (hV : c.ckm ∈ unitaryGroup (Fin 3) ℂ) (cosBeta sinBeta : ℝ)
    (type : Int) (ht : TwoHDM.Documented type) (force : Bool) (D : Matrix (Fin 4) (Fin 4) ℝ)
    (hD : calculateDebyeGauge 4 9 (N2HDM.gauge g gs) (some (gaugeSimplified g gs)) = some D)
    (scale : ℝ) (JB JF : Thermal) (T : ℝ) (h : ct.DT1 = 0 ∧ ct.DT2 = 0) (cb : Bool) :
    SearchedByProgram Class.n2hdm cb
      ((n2hdmTensors p g gs c cosBeta sinBeta type force D).effective (N2HDM.counter ct) none S scale JB JF T)
      ((n2hdmTensors p g gs c cosBeta sinBeta type force D).effective (N2HDM.counter ct) none S scale JB JF
        T) :=
  searched_by_program _ _ (by decide) rfl (two_doublets_singlet N2HDM.order _ (by cases cb <;> decide)
    (by cases cb <;> decide)
    (C82_n2hdm_potential hS p ct g gs c hV cosBeta sinBeta type ht force D hD scale JB JF T h)
    fun _ _ _ _ _ => rfl)

/-- CP in the Dark: the program evaluates the simplified potentials, the potential of all fields is the
documented one. -/
theorem C84_cpinthedark {S : Solver} (hS : S.Correct) (p : CPintheDark.Par ℝ)
    (ct : CPintheDark.CT ℝ) (g gs : ℝ) (c : Constants) (hV : c.ckm ∈ unitaryGroup (Fin 3) ℂ) (v : ℝ)
    (force : Bool) (D : Matrix (Fin 4) (Fin 4) ℝ)
    (hD : calculateDebyeGauge 4 9 (CPintheDark.gauge g gs) none = some D) (scale : ℝ)
    (JB JF : Thermal) (T : ℝ) (h : ct.dTCB = 0 ∧ ct.dT1 = 0 ∧ ct.dT2 = 0 ∧ ct.dTCP = 0) (cb : Bool) :
    SearchedByProgram Class.cpinthedark cb
      ((darkTensors p g gs c v force D).effective (CPintheDark.counter ct)
        (some (CPintheDark.treeSimplified p, CPintheDark.counterSimplified ct)) S scale JB JF T)
      ((darkTensors p g gs c v force D).effective (CPintheDark.counter ct) none S scale JB JF T) := by
  refine searched_by_program _ _ (by decide) rfl (two_doublets_singlet CPintheDark.order _
    (by cases cb <;> decide) (by cases cb <;> decide)
    (C82_cpinthedark_potential_partial hS p ct g gs c hV v force D hD scale JB JF T h)
    fun ψ h0 h1 h3 h5 => ?_)
  obtain ⟨e1, e2⟩ := CPintheDark.C74_cpinthedark_simplified p ct ψ h0 h1 h3 h5
  unfold Tensors.effective
  refine congrArg₂ (· + ·) (congrArg₂ (· + ·) ?_ ?_) rfl
  · refine Complex.ofReal_injective (e1.trans ?_)
    exact (CPintheDark.C74_cpinthedark_potential p ψ _ false).symm
  · refine Complex.ofReal_injective (e2.trans ?_)
    exact (CPintheDark.C74_cpinthedark_counterterms ct ψ _ false).symm

/-- The hypotheses are met, with the constants of the program. -/
example (p : C2HDM.Par ℝ) (scale : ℝ) (JB JF : Thermal) (T : ℝ) : ∃ (S : Solver) (D : Matrix (Fin 4) (Fin 4) ℝ),
    SearchedByProgram Class.c2hdm true
      ((c2hdmTensors p (65 / 100) (36 / 100) (getSMConstants numbers) (3 / 5) (4 / 5) 2 false D).effective
        (C2HDM.counter ⟨1, 2, 3, 4, 5, 6, 7, 8, 9, 10, 0, 0, 0, 0, 11⟩)
        (some (C2HDM.treeSimplified p, C2HDM.counterSimplified ⟨1, 2, 3, 4, 5, 6, 7, 8, 9, 10, 0, 0, 0, 0, 11⟩))
        S scale JB JF T)
      ((c2hdmTensors p (65 / 100) (36 / 100) (getSMConstants numbers) (3 / 5) (4 / 5) 2 false D).effective
        (C2HDM.counter ⟨1, 2, 3, 4, 5, 6, 7, 8, 9, 10, 0, 0, 0, 0, 11⟩) none S scale JB JF T) := by
  obtain ⟨S, hS⟩ := solver_exists
  exact ⟨S, _, C84_c2hdm hS p _ _ _ _ (C79_ckm_unitary numbers) _ _ 2 (.inr (.inl rfl)) false _
    (C81_c2hdm_gauge (65 / 100) (36 / 100)).1 scale JB JF T ⟨rfl, rfl, rfl, rfl⟩⟩

/-- Three values of the CxSM as fields. -/
example : IsEmbedding 6 (Class.cxsm.vevOrder true) [(1 : ℝ), 2, 3] [0, 0, 0, 1, 2, 3] ∧
    fields 6 [0, 0, 0, 1, 2, 3] = ![0, 0, 0, 1, 2, 3] := by
  constructor
  · have h := embedding_of (n := 6) (Class.cxsm.vevOrder true) (by decide) ![0, 0, 0, 1, 2, 3] (by
      intro i hi
      fin_cases i <;> first | rfl | exact absurd (by decide) hi)
    simpa [Class.vevOrder] using h
  · funext i
    fin_cases i <;> rfl

end Verif.Invariance
