import Verif.Shapes.Model
import Verif.Models.Props
import Verif.Potential.TreeProps
import Verif.Programs.OptionsProps

/-!
# C138: vacua of either length
-/

set_option linter.unusedSectionVars false
set_option linter.unusedSimpArgs false
set_option linter.unusedVariables false

namespace Verif.Shapes

open Outcome Verif.Potential Verif.Invariance Verif.Spectrum Verif.Yukawa
open Models.Spec (IsEmbedding)

variable {n : Nat}

/-! ## Specification -/

/-- The routines of the library when every result is a number. -/
noncomputable def exact (S : Solver) : Lib where
  real := S.real
  complex := S.complex
  derivative := fun M D => (S.derivative M D).map .fin

/-- The numbers of a list. -/
def numbers (l : List ℝ) : List (Flt ℝ) := l.map .fin

/-- The fields that a list holds. -/
noncomputable def fields (n : Nat) (v : List ℝ) : Fin n → ℝ := fun i => v.getD i 0

/-- What the functions return for a list of fields `x`: the masses of the spectra that the potential uses. -/
structure Answers (L : Lib) (s : State n) (v : List ℝ) (S : Solver) (x : Fin n → ℝ) (scale : ℝ)
    (JB JF : Thermal) : Prop where
  gauge : ∀ T diff, gaugeMasses L s v T diff = ok (numbers ((s.tensors.spectra S scale JB JF).gauge x T diff))
  quark : ∀ diff, quarkMasses L s v diff = ok (numbers ((s.tensors.spectra S scale JB JF).quark x diff))
  lepton : ∀ diff, leptonMasses L s v diff = ok (numbers ((s.tensors.spectra S scale JB JF).lepton x diff))
  quarkMatrix : quarkMatrix s v = ok (massMatrix Lagrangian.zeroTensor s.tensors.quark x)
  leptonMatrix : leptonMatrix s v = ok (massMatrix Lagrangian.zeroTensor s.tensors.lepton x)
  higgsMatrix : ∀ T diff, Shapes.higgsMatrix s v T diff =
    higgsMassMatrix s.tensors.scalar s.tensors.debyeHiggs x T diff

/-! ## The vector that is used -/

theorem resolve_full (s : State n) (v : List ℝ) (hv : v.length = n) (hr : s.ready = true) :
    resolve s depth v = ok (fields n v) := by
  rw [depth, resolve, if_neg (by omega), if_neg (by omega), if_pos hr, components, if_neg (by omega)]
  rfl

theorem minimizeOrderVEV_length (order : List Nat) (v w : List ℝ) :
    Models.minimizeOrderVEV n order v = ok w → w.length = n := by
  have : ∀ (fuel i c : Nat) (w : List ℝ), Models.minimizeOrderVEVLoop order v fuel i c = ok w → w.length = fuel := by
    intro fuel
    induction fuel with
    | zero => intro i c w h; simp [Models.minimizeOrderVEVLoop] at h; simp [← h]
    | succ f ih =>
      intro i c w h
      rw [Models.minimizeOrderVEVLoop] at h
      obtain ⟨o, _, h⟩ := Programs.bind_eq_ok h
      split_ifs at h
      · obtain ⟨x, _, h⟩ := Programs.bind_eq_ok h
        obtain ⟨r, hr, h⟩ := Programs.bind_eq_ok h
        injection h with h
        simp [← h, ih _ _ _ hr]
      · obtain ⟨r, hr, h⟩ := Programs.bind_eq_ok h
        injection h with h
        simp [← h, ih _ _ _ hr]
  exact this n 0 0 w

theorem resolve_minimizer (s : State n) (v w : List ℝ) (hv : v.length = s.nVEV) (hn : s.nVEV ≠ n)
    (hw : Models.minimizeOrderVEV n s.order v = ok w) (hr : s.ready = true) :
    resolve s depth v = ok (fields n w) := by
  have hl := minimizeOrderVEV_length s.order v w hw
  rw [depth, resolve, if_neg (by omega), if_pos ⟨hv, hn⟩, hw, bind_ok, resolve, if_neg (by omega),
    if_neg (by omega), if_pos hr, components, if_neg (by omega)]
  rfl

theorem numbers_check (m : Nat) (v : List ℝ) (l : List ℝ) : checkNumbers n m v (numbers l) = ok (numbers l) := by
  rw [checkNumbers, if_neg]
  simp [numbers]

theorem fermion_of (S : Solver) (s : State n) (m : Nat) (F : List Nat → ℂ) (v : List ℝ) (x : Fin n → ℝ)
    (h : resolve s depth v = ok x) (diff : Int) :
    fermionMasses (exact S) s m F v diff = ok (numbers (fermionSpectrum S m F x diff)) := by
  unfold fermionMasses fermionSpectrum
  rw [h, bind_ok]
  split_ifs with hd
  · simp [exact, numbers, Function.comp_def]
  · cases hf : fieldIndex n diff with
    | some k => exact numbers_check m v _
    | none => rfl

theorem answers_of (S : Solver) (s : State n) (v : List ℝ) (x : Fin n → ℝ) (h : resolve s depth v = ok x)
    (scale : ℝ) (JB JF : Thermal) : Answers (exact S) s v S x scale JB JF where
  gauge := by
    intro T diff
    show _ = ok (numbers (gaugeSpectrum S s.tensors.gauge s.tensors.debyeGauge x T diff))
    unfold gaugeMasses gaugeSpectrum
    rw [h, bind_ok]
    dsimp only
    by_cases h0 : diff = 0
    · rw [if_pos h0, if_pos h0]
      simp [exact, numbers, Function.comp_def]
    · rw [if_neg h0, if_neg h0]
      cases hf : fieldIndex n diff with
      | some k => rfl
      | none => dsimp only; split_ifs <;> rfl
  quark := fun diff => fermion_of S s 12 s.tensors.quark v x h diff
  lepton := fun diff => fermion_of S s 9 s.tensors.lepton v x h diff
  quarkMatrix := by rw [Shapes.quarkMatrix, h, bind_ok]
  leptonMatrix := by rw [Shapes.leptonMatrix, h, bind_ok]
  higgsMatrix := fun T diff => by rw [Shapes.higgsMatrix, h, bind_ok]

/-- Called with all fields of an initialised model, the functions give the spectra of the potential. -/
theorem C138_full (S : Solver) (s : State n) (v : List ℝ) (hv : v.length = n) (hr : s.ready = true) (scale : ℝ)
    (JB JF : Thermal) : Answers (exact S) s v S (fields n v) scale JB JF ∧
    ∀ T diff, higgsMasses (exact S) s v T diff =
      ok (numbers ((s.tensors.spectra S scale JB JF).higgs (fields n v) T diff)) := by
  have h := resolve_full s v hv hr
  refine ⟨answers_of S s v _ h scale JB JF, fun T diff => ?_⟩
  show _ = ok (numbers (higgsSpectrum (S.lib n) s.tensors.scalar s.tensors.debyeHiggs (fields n v) T diff))
  unfold higgsMasses higgsSpectrum higgsMassesSquared higgsMassMatrix
  rw [h, bind_ok]
  by_cases h0 : diff = 0
  · subst h0
    simp [exact, numbers, Solver.lib, Function.comp_def]
  · rw [if_neg h0, if_neg h0]
    cases hf : fieldIndex n diff with
    | some k =>
      dsimp only
      rw [components, if_neg (by omega), bind_ok]
      simp only [bind_ok, if_neg h0]
      rfl
    | none =>
      dsimp only
      by_cases h1 : diff = -1
      · rw [if_pos h1, if_pos h1]
        simp only [bind_ok, if_neg h0, if_pos h1]
        rfl
      · rw [if_neg h1, if_neg h1]
        rfl

/-- Called with the fields the minimizer uses, they give what they give for the vector with zeros elsewhere, except
for the derivatives of the scalar masses. -/
theorem C138_minimizer_partial (S : Solver) (s : State n) (v w : List ℝ) (hv : v.length = s.nVEV)
    (hn : s.nVEV ≠ n) (hw : Models.minimizeOrderVEV n s.order v = ok w) (hr : s.ready = true) (scale : ℝ)
    (JB JF : Thermal) : Answers (exact S) s v S (fields n w) scale JB JF ∧
    ∀ T diff, (diff ≤ 0 ∨ (n : Int) < diff) → higgsMasses (exact S) s v T diff = higgsMasses (exact S) s w T diff := by
  have h := resolve_minimizer s v w hv hn hw hr
  have h' := resolve_full s w (minimizeOrderVEV_length s.order v w hw) hr
  refine ⟨answers_of S s v _ h scale JB JF, fun T diff hd => ?_⟩
  unfold higgsMasses
  rw [h, h', bind_ok, bind_ok, fieldIndex_eq_none hd]

/-- The state of an implemented model after its tensors have been set. -/
def implemented (cb : Bool) (c : Models.Class) (t : Tensors c.nHiggs) : State c.nHiggs :=
  ⟨(c.vevOrder cb).length, c.vevOrder cb, true, t⟩

theorem shorter (cb : Bool) (c : Models.Class) (hc : c ≠ .template) : (c.vevOrder cb).length < c.nHiggs := by
  cases c <;> cases cb <;> first | exact absurd rfl hc | decide

/-- The implemented models other than the SM, with the fields of the minimizer. -/
theorem C138_models_partial (S : Solver) (cb : Bool) (c : Models.Class) (hc : c ≠ .sm) (t : Tensors c.nHiggs)
    (v : List ℝ) (hv : v.length = (c.vevOrder cb).length) (scale : ℝ) (JB JF : Thermal) :
    ∃ w, IsEmbedding c.nHiggs (c.vevOrder cb) v w ∧
      Answers (exact S) (implemented cb c t) v S (fields c.nHiggs w) scale JB JF := by
  obtain ⟨w, hw, he⟩ := Models.C33_models_partial cb c hc v hv
  refine ⟨w, he, ?_⟩
  by_cases ht : c = .template
  · subst ht
    have hl : v.length = 1 := by rw [hv]; cases cb <;> rfl
    have : fields Models.Class.template.nHiggs w = fields Models.Class.template.nHiggs v := by
      match v, hl with
      | [a], _ =>
        have h := he.2.1 0 0 a (by cases cb <;> rfl) rfl
        funext i
        have hi : i.val = 0 := by
          have := i.isLt
          simp [Models.Class.nHiggs] at this
          omega
        unfold fields
        rw [hi, List.getD_eq_getElem?_getD, h]
        rfl
    rw [this]
    exact (C138_full S (implemented cb .template t) v hl rfl scale JB JF).1
  · exact (C138_minimizer_partial S (implemented cb c t) v w hv (shorter cb c ht).ne hw rfl scale JB JF).1

/-- A vector of another length is refused. -/
theorem C138_other_length (L : Lib) (s : State n) (v : List ℝ) (h1 : v.length ≠ s.nVEV) (h2 : v.length ≠ n) (T : ℝ)
    (diff : Int) : higgsMasses L s v T diff = err .runtime ∧ gaugeMasses L s v T diff = err .runtime ∧
      quarkMasses L s v diff = err .runtime ∧ leptonMasses L s v diff = err .runtime ∧
      higgsMatrix s v T diff = err .runtime ∧ quarkMatrix s v = err .runtime ∧ leptonMatrix s v = err .runtime := by
  have h : resolve s depth v = err .runtime := by rw [depth, resolve, if_pos ⟨h1, h2⟩]
  unfold higgsMasses gaugeMasses quarkMasses leptonMasses fermionMasses higgsMatrix quarkMatrix leptonMatrix
  rw [h]
  exact ⟨rfl, rfl, rfl, rfl, rfl, rfl, rfl⟩

/-- A model whose tensors have not been set is refused, for either length. -/
theorem C138_not_ready (L : Lib) (s : State n) (v : List ℝ)
    (hv : v.length = n ∨ (v.length = s.nVEV ∧ ∃ w, Models.minimizeOrderVEV n s.order v = ok w))
    (hr : s.ready = false) (T : ℝ)
    (diff : Int) : higgsMasses L s v T diff = err .runtime ∧ gaugeMasses L s v T diff = err .runtime ∧
      quarkMasses L s v diff = err .runtime ∧ leptonMasses L s v diff = err .runtime ∧
      higgsMatrix s v T diff = err .runtime ∧ quarkMatrix s v = err .runtime ∧ leptonMatrix s v = err .runtime := by
  have full : ∀ (fuel : Nat) (v : List ℝ), v.length = n → resolve s (fuel + 1) v = err .runtime := by
    intro fuel v hv
    rw [resolve, if_neg (by omega), if_neg (by omega), hr]
    rfl
  have h : resolve s depth v = err .runtime := by
    by_cases hl : v.length = n
    · exact full 1 v hl
    · rcases hv with hv | ⟨hv, w, hw⟩
      · exact absurd hv hl
      · rw [depth, resolve, if_neg (by omega), if_pos ⟨hv, by omega⟩, hw, bind_ok]
        exact full 0 w (minimizeOrderVEV_length s.order v w hw)
  unfold higgsMasses gaugeMasses quarkMasses leptonMasses fermionMasses higgsMatrix quarkMatrix leptonMatrix
  rw [h]
  exact ⟨rfl, rfl, rfl, rfl, rfl, rfl, rfl⟩

/-- Numbers of a derivative that do not exist give no masses, only the fermion functions treat negative ones as no
derivative; nothing is refused. -/
theorem C138_other_derivative (S : Solver) (s : State n) (v : List ℝ) (x : Fin n → ℝ)
    (h : resolve s depth v = ok x) (T : ℝ) (diff : Int) :
    ((n : Int) < diff → 0 < diff → higgsMasses (exact S) s v T diff = ok [] ∧ gaugeMasses (exact S) s v T diff = ok [] ∧
      quarkMasses (exact S) s v diff = ok [] ∧ leptonMasses (exact S) s v diff = ok []) ∧
    (diff < -1 → higgsMasses (exact S) s v T diff = ok [] ∧ gaugeMasses (exact S) s v T diff = ok []) ∧
    (diff < 0 → quarkMasses (exact S) s v diff = quarkMasses (exact S) s v 0 ∧
      leptonMasses (exact S) s v diff = leptonMasses (exact S) s v 0) := by
  unfold higgsMasses gaugeMasses quarkMasses leptonMasses fermionMasses
  rw [h]
  simp only [bind_ok]
  refine ⟨fun h1 h2 => ?_, fun h1 => ?_, fun h1 => ?_⟩
  · rw [fieldIndex_eq_none (.inr h1)]
    simp [show ¬ diff = -1 by omega, show ¬ diff = 0 by omega, show ¬ diff ≤ 0 by omega]
  · rw [fieldIndex_eq_none (.inl (by omega)), if_neg (by omega), if_neg (by omega)]
    simp [show ¬ diff = -1 by omega, show ¬ diff = 0 by omega]
  · simp [show diff ≤ 0 by omega]

/-! ## What is not true -/

/-- The derivative of the scalar masses along a field reads past the end of a vector with the fields of the
minimizer, in every implemented model except the template. -/
theorem C138_higgs_derivative_fails (L : Lib) (cb : Bool) (c : Models.Class) (hc : c ≠ .template)
    (t : Tensors c.nHiggs) (v : List ℝ) (hv : v.length = (c.vevOrder cb).length) (T : ℝ) (k : Fin c.nHiggs) :
    higgsMasses L (implemented cb c t) v T ((k : Int) + 1) = ub .outOfBounds := by
  have hlt := shorter cb c hc
  by_cases hs : c = .sm
  · subst hs
    have hl : v.length = 1 := by rw [hv]; cases cb <;> rfl
    unfold higgsMasses depth
    rw [resolve, if_neg (by simp [implemented, hv]), if_pos ⟨hv, hlt.ne⟩]
    show (do let x ← (do let w ← Models.minimizeOrderVEV Models.Class.sm.nHiggs (Models.Class.sm.vevOrder cb) v; _); _) = _
    rw [Models.C33_sm_reads_past_the_end cb v hl]
    rfl
  · obtain ⟨w, hw, _⟩ := Models.C33_models_partial cb c hs v hv
    have h := resolve_minimizer (implemented cb c t) v w hv hlt.ne hw rfl
    unfold higgsMasses
    rw [h, bind_ok, if_neg (by omega), fieldIndex_succ]
    dsimp only
    rw [components, if_pos (by omega)]
    rfl

/-- So does the message about a fermion mass whose derivative is not a number. -/
theorem C138_message_fails (L : Lib) (cb : Bool) (c : Models.Class) (hc : c ≠ .template) (hs : c ≠ .sm)
    (t : Tensors c.nHiggs) (v : List ℝ) (hv : v.length = (c.vevOrder cb).length) (k : Fin c.nHiggs)
    (hL : ∀ M D : Matrix (Fin 12) (Fin 12) ℂ, Flt.nan ∈ L.derivative M D ∧ 12 ≤ (L.derivative M D).length) :
    quarkMasses L (implemented cb c t) v ((k : Int) + 1) = ub .outOfBounds := by
  have hlt := shorter cb c hc
  obtain ⟨w, hw, _⟩ := Models.C33_models_partial cb c hs v hv
  have h := resolve_minimizer (implemented cb c t) v w hv hlt.ne hw rfl
  unfold quarkMasses fermionMasses
  rw [h, bind_ok, if_neg (by omega), fieldIndex_succ]
  dsimp only
  rw [checkNumbers, if_pos (hL _ _).1, if_neg (not_lt.2 (hL _ _).2), components, if_pos (by omega)]
  rfl

/-- With all fields the message is the reason of the exception. -/
theorem C138_message (L : Lib) (s : State n) (v : List ℝ) (hv : v.length = n) (hr : s.ready = true) (m : Nat)
    (F : List Nat → ℂ) (k : Fin n)
    (hL : Flt.nan ∈ L.derivative (squaredMatrix (m := m) Lagrangian.zeroTensor F (fields n v))
      (fermionD m F (fields n v) k))
    (hm : m ≤ (L.derivative (squaredMatrix (m := m) Lagrangian.zeroTensor F (fields n v))
      (fermionD m F (fields n v) k)).length) :
    fermionMasses L s m F v ((k : Int) + 1) = err .runtime := by
  unfold fermionMasses
  rw [resolve_full s v hv hr, bind_ok, if_neg (by omega), fieldIndex_succ]
  dsimp only
  rw [checkNumbers, if_pos hL, if_neg (by omega), components, if_neg (by omega)]
  rfl

/-- The SM with its one field of the minimizer: every function reads past the end of the order of the fields. -/
theorem C138_sm_fails (L : Lib) (cb : Bool) (t : Tensors Models.Class.sm.nHiggs) (a T : ℝ) (diff : Int) :
    higgsMasses L (implemented cb .sm t) [a] T diff = ub .outOfBounds ∧
    gaugeMasses L (implemented cb .sm t) [a] T diff = ub .outOfBounds ∧
    quarkMasses L (implemented cb .sm t) [a] diff = ub .outOfBounds ∧
    leptonMasses L (implemented cb .sm t) [a] diff = ub .outOfBounds := by
  have h : resolve (implemented cb .sm t) depth [a] = ub .outOfBounds := by
    have e1 : [a].length = (implemented cb .sm t).nVEV := by cases cb <;> rfl
    have e2 : (implemented cb .sm t).nVEV ≠ Models.Class.sm.nHiggs :=
      (shorter cb .sm (by decide)).ne
    rw [depth, resolve, if_neg (by rintro ⟨h, _⟩; exact h e1), if_pos ⟨e1, e2⟩]
    have : Models.minimizeOrderVEV Models.Class.sm.nHiggs (implemented cb .sm t).order [a] = ub .outOfBounds :=
      Models.C33_sm_reads_past_the_end cb [a] rfl
    rw [this]
    rfl
  unfold higgsMasses gaugeMasses quarkMasses leptonMasses fermionMasses
  rw [h]
  exact ⟨rfl, rfl, rfl, rfl⟩

/-! ## Examples -/

/-- A vector with the three fields of the minimizer of the CxSM. -/
example : ([246, 1, 2] : List ℝ).length = (Models.Class.vevOrder false .cxsm).length := rfl

example : Models.minimizeOrderVEV Models.Class.cxsm.nHiggs (Models.Class.vevOrder false .cxsm) [(246 : Int), 1, 2] =
    ok [0, 0, 0, 246, 1, 2] := by decide

example (t : Tensors 6) (S : Solver) : resolve (implemented false .cxsm t) depth [246, 1, 2] =
    ok (fields 6 [0, 0, 0, 246, 1, 2]) :=
  resolve_minimizer (implemented false .cxsm t) _ _ rfl (shorter false .cxsm (by decide)).ne
    (by simp [Models.minimizeOrderVEV, Models.minimizeOrderVEVLoop, implemented, Models.Class.vevOrder,
      Models.Class.nHiggs, idx, at']) rfl

/-- A library all of whose derivatives are not a number. -/
example : ∃ L : Lib, ∀ M D : Matrix (Fin 12) (Fin 12) ℂ,
    Flt.nan ∈ L.derivative M D ∧ 12 ≤ (L.derivative M D).length :=
  ⟨⟨fun _ => [], fun _ => [], fun _ _ => List.replicate 24 .nan⟩, fun _ _ => ⟨by simp, by simp⟩⟩

end Verif.Shapes
