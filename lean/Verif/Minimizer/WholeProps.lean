import Verif.Minimizer.Whole
import Verif.Minimizer.Props
import Verif.Minimizer.PlaneRunsProps
import Verif.Programs.OptionsProps

/-!
# C139: the whole search for the global minimum
-/

set_option linter.unusedSectionVars false

namespace Verif.Minimizer.Whole

open Outcome
open Programs (bind_eq_ok)
open Runs (Potential)

variable {K : Type} [Field K] [LinearOrder K]

/-! ## Specification -/

/-- What the libraries promise: a solution has one coordinate for each field with a VEV, and NLopt reports
the value of the objective at its point. -/
structure Fair (s : Searches K) (p : Potential K) : Prop where
  gsl : ∀ n x, s.gsl n = ok (x, true) → x.length = p.nVEV
  opt : ∀ f lo hi st x v c, s.opt f lo hi st = ok (x, v, c) → x.length = st.length ∧ f x = ok v

/-- The points delivered by the selected searches. -/
def Delivered (s : Searches K) (p : Potential K) (tree start : List K) (use : Use) (x : List K) : Prop :=
  (use.gsl = true ∧ s.gsl (if use.cmaes = false ∧ use.nlopt = false then 50 else 20) = ok (x, true)) ∨
  (use.cmaes = true ∧ ∃ best status, s.strategy (Runs.objective p) start 5 = ok (best, status) ∧
    p.nVEV ≤ best.length ∧ x = best.take p.nVEV) ∨
  (use.nlopt = true ∧ ∃ lo hi v code, bounds p.nVEV tree = ok (lo, hi) ∧
    s.opt (nloptObjective p) lo hi (List.replicate p.nVEV 0) = ok (x, v, code) ∧
    (code = 1 ∨ code = 3 ∨ code = 4))

/-! ## Lemmas -/

theorem take_of_mapM (v sol : List K) (n : Nat) (h : (List.range n).mapM (at' v) = ok sol) :
    n ≤ v.length ∧ sol = v.take n := by
  have hl : n ≤ v.length := by
    by_contra hc
    have : ∀ (l : List Nat), v.length ∈ l → ∀ r, l.mapM (at' v) ≠ ok r := by
      intro l
      induction l with
      | nil => intro h; cases h
      | cons a l ih =>
        intro hm r hr
        rw [List.mapM_cons] at hr
        obtain ⟨x, hx, hr⟩ := bind_eq_ok hr
        obtain ⟨y, hy, _⟩ := bind_eq_ok hr
        rcases List.mem_cons.1 hm with e | hm
        · rw [← e, at'_of_ge (le_refl _)] at hx; cases hx
        · exact ih hm y hy
    exact this _ (List.mem_range.2 (by omega)) _ h
  refine ⟨hl, ?_⟩
  rw [mapM_ok (g := fun k => v.getD k 0)] at h
  · cases h
    refine List.ext_getElem (by simp; omega) ?_
    intro i h1 h2
    simp at h1
    simp [List.getElem?_eq_getElem (by omega : i < v.length)]
  · intro k hk
    have : k < v.length := by have := List.mem_range.1 hk; omega
    rw [at'_of_lt this]
    simp [List.getElem?_eq_getElem this]

theorem cmaes_ok (s : Searches K) (p : Potential K) (start x : List K) (status : Int) :
    Runs.cmaes s.strategy p start = ok (x, status) ↔
      ∃ best, s.strategy (Runs.objective p) start 5 = ok (best, status) ∧ p.nVEV ≤ best.length ∧
        x = best.take p.nVEV := by
  constructor
  · intro h
    rw [Runs.cmaes] at h
    obtain ⟨⟨best, st⟩, h1, h⟩ := bind_eq_ok h
    obtain ⟨sol, h2, h⟩ := bind_eq_ok h
    cases h
    obtain ⟨h3, h4⟩ := take_of_mapM _ _ _ h2
    exact ⟨best, h1, h3, h4⟩
  · rintro ⟨best, h1, h2, rfl⟩
    rw [Runs.cmaes, h1, bind_ok]
    dsimp only
    rw [mapM_ok (g := fun k => best.getD k 0)]
    · rw [bind_ok]
      congr 2
      refine List.ext_getElem (by simp; omega) ?_
      intro i h1 h2
      simp at h1
      simp [List.getElem?_eq_getElem (by omega : i < best.length)]
    · intro k hk
      have : k < best.length := by have := List.mem_range.1 hk; omega
      rw [at'_of_lt this]
      simp [List.getElem?_eq_getElem this]

theorem success_iff (c : Int) : success c = true ↔ c = 1 ∨ c = 3 ∨ c = 4 := by
  simp [success, or_assoc]

/-- The candidates are the origin and the points delivered, with the potential there. -/
theorem collect_spec (s : Searches K) (p : Potential K) (tree start : List K) (use : Use) (mt : Bool)
    (ord : List K → List K) (hord : ∀ v, v.length = p.nVEV → p.order v = ok (ord v)) (hs : Fair s p)
    (hmt : mt = true ∨ use.cmaes = false) (c : Cand (List K) K) (cs : List (Cand (List K) K))
    (chk : List Int) (g : Bool) (h : collect s p tree start use mt = ok (c, cs, chk, g)) :
    c = ⟨List.replicate p.nVEV 0, p.veff (List.replicate p.nHiggs 0)⟩ ∧
    (∀ d, d ∈ cs ↔ ∃ x, Delivered s p tree start use x ∧ d = ⟨x, p.veff (ord x)⟩) ∧
    (∀ d ∈ cs, d.point.length = p.nVEV) := by
  rw [collect] at h
  obtain ⟨⟨gx, gok⟩, hg, h⟩ := bind_eq_ok h
  obtain ⟨cm, hc, h⟩ := bind_eq_ok h
  obtain ⟨n, hn, h⟩ := bind_eq_ok h
  obtain ⟨fc, hfc, h⟩ := bind_eq_ok h
  obtain ⟨fg, hfg, h⟩ := bind_eq_ok h
  cases h
  rw [runGsl, Runs.C118_number] at hg
  rw [candGsl] at hfg
  rw [runCmaes] at hc
  rw [runNlopt] at hn
  have hcand : ∀ x, x.length = p.nVEV → cand p x = ok ⟨x, p.veff (ord x)⟩ := by
    intro x hx
    rw [cand, hord x hx, bind_ok]
  have h1 : ∀ d, d ∈ fg ↔ ∃ x, (use.gsl = true ∧
      s.gsl (if use.cmaes = false ∧ use.nlopt = false then 50 else 20) = ok (x, true)) ∧
      x.length = p.nVEV ∧ d = ⟨x, p.veff (ord x)⟩ := by
    intro d
    by_cases hu : use.gsl = true
    · rw [if_pos hu] at hg
      dsimp only at hg
      cases gok with
      | true =>
        have hl := hs.gsl _ _ hg
        simp only [if_true] at hfg
        rw [hcand gx hl] at hfg
        cases hfg
        rw [List.mem_singleton]
        constructor
        · rintro rfl; exact ⟨gx, ⟨hu, hg⟩, hl, rfl⟩
        · rintro ⟨x, ⟨_, hx⟩, _, rfl⟩
          rw [hg] at hx; cases hx; rfl
      | false =>
        simp only [Bool.false_eq_true, if_false] at hfg
        cases hfg
        constructor
        · intro h; cases h
        · rintro ⟨x, ⟨_, hx⟩, _⟩
          rw [hg] at hx; cases hx
    · rw [if_neg hu] at hg
      cases hg
      simp only [Bool.false_eq_true, if_false] at hfg
      cases hfg
      constructor
      · intro h; cases h
      · rintro ⟨x, ⟨h, _⟩, _⟩; exact absurd h hu
  have h2 : ∀ d, d ∈ fc.map (·.1) ↔ ∃ x, (use.cmaes = true ∧ ∃ best status,
      s.strategy (Runs.objective p) start 5 = ok (best, status) ∧
      p.nVEV ≤ best.length ∧ x = best.take p.nVEV) ∧ x.length = p.nVEV ∧ d = ⟨x, p.veff (ord x)⟩ := by
    intro d
    by_cases hu : use.cmaes = true
    · rw [if_pos hu] at hc
      obtain ⟨⟨x, st⟩, hr, hc⟩ := bind_eq_ok hc
      cases hc
      have hm : mt = true := hmt.resolve_right (by rw [hu]; simp)
      obtain ⟨best, e1, e2, e3⟩ := (cmaes_ok s p start x st).1 hr
      have hl : x.length = p.nVEV := by rw [e3, List.length_take]; omega
      rw [candCmaes, if_pos hm, hcand x hl] at hfc
      cases hfc
      simp only [List.map_cons, List.map_nil, List.mem_singleton]
      constructor
      · rintro rfl; exact ⟨x, ⟨hu, best, st, e1, e2, e3⟩, hl, rfl⟩
      · rintro ⟨x', ⟨_, b', s', f1, _, f3⟩, _, rfl⟩
        rw [e1] at f1; cases f1
        rw [f3, e3]
    · rw [if_neg hu] at hc
      cases hc
      cases hfc
      constructor
      · intro h; cases h
      · rintro ⟨x, ⟨h, _⟩, _⟩; exact absurd h hu
  have h3 : ∀ d, d ∈ (if n.success then [(⟨n.minimum, n.value⟩ : Cand (List K) K)] else []) ↔
      ∃ x, (use.nlopt = true ∧ ∃ lo hi v code, bounds p.nVEV tree = ok (lo, hi) ∧
        s.opt (nloptObjective p) lo hi (List.replicate p.nVEV 0) = ok (x, v, code) ∧
        (code = 1 ∨ code = 3 ∨ code = 4)) ∧ x.length = p.nVEV ∧ d = ⟨x, p.veff (ord x)⟩ := by
    intro d
    by_cases hu : use.nlopt = true
    · rw [if_pos hu, nlopt] at hn
      obtain ⟨⟨lo, hi⟩, hb, hn⟩ := bind_eq_ok hn
      dsimp only at hn
      cases ho : s.opt (nloptObjective p) lo hi (List.replicate p.nVEV 0) with
      | ub u => rw [ho] at hn; cases hn
      | err e =>
        rw [ho] at hn
        cases hn
        constructor
        · intro h; cases h
        · rintro ⟨x, ⟨_, lo', hi', v, code, hb', ho', _⟩, _⟩
          rw [hb] at hb'; cases hb'
          rw [ho] at ho'; cases ho'
      | ok r =>
        rw [ho] at hn
        obtain ⟨x, v, code⟩ := r
        cases hn
        obtain ⟨hl, hf⟩ := hs.opt _ _ _ _ _ _ _ ho
        rw [List.length_replicate] at hl
        rw [nloptObjective, hord x hl, bind_ok] at hf
        cases hf
        dsimp only
        by_cases hsu : success code = true
        · rw [if_pos hsu, List.mem_singleton]
          constructor
          · rintro rfl
            exact ⟨x, ⟨hu, lo, hi, _, code, hb, ho, (success_iff code).1 hsu⟩, hl, rfl⟩
          · rintro ⟨x', ⟨_, lo', hi', v', code', hb', ho', _⟩, _, rfl⟩
            rw [hb] at hb'; cases hb'
            rw [ho] at ho'; cases ho'
            rfl
        · rw [if_neg hsu]
          constructor
          · intro h; cases h
          · rintro ⟨x', ⟨_, lo', hi', v', code', hb', ho', hc'⟩, _⟩
            rw [hb] at hb'; cases hb'
            rw [ho] at ho'; cases ho'
            exact absurd ((success_iff _).2 hc') hsu
    · rw [if_neg hu] at hn
      cases hn
      constructor
      · intro h; cases h
      · rintro ⟨x, ⟨h, _⟩, _⟩; exact absurd h hu
  refine ⟨rfl, ?_, ?_⟩
  · intro d
    rw [List.mem_append, List.mem_append, h1, h2, h3]
    constructor
    · rintro ((⟨x, a, _, b⟩ | ⟨x, a, _, b⟩) | ⟨x, a, _, b⟩)
      · exact ⟨x, Or.inr (Or.inr a), b⟩
      · exact ⟨x, Or.inr (Or.inl a), b⟩
      · exact ⟨x, Or.inl a, b⟩
    · rintro ⟨x, a | a | a, b⟩
      · exact Or.inr ⟨x, a, hs.gsl _ _ a.2, b⟩
      · refine Or.inl (Or.inr ⟨x, a, ?_, b⟩)
        obtain ⟨_, best, st, _, e2, e3⟩ := a
        rw [e3, List.length_take]; omega
      · refine Or.inl (Or.inl ⟨x, a, ?_, b⟩)
        obtain ⟨_, lo, hi, v, code, _, e2, _⟩ := a
        rw [(hs.opt _ _ _ _ _ _ _ e2).1, List.length_replicate]
  · intro d hd
    rw [List.mem_append, List.mem_append, h1, h2, h3] at hd
    rcases hd with (⟨x, _, a, b⟩ | ⟨x, _, a, b⟩) | ⟨x, _, a, b⟩ <;> rw [b] <;> exact a

/-! ## C139 -/

/-- C139: of the origin and all points delivered by the selected searches the one with the lowest potential is
returned; only if its electroweak VEV is at most 0.5 GeV is the electroweak part set to zero.  (With
threads, or without CMAES.) -/
theorem C139_lowest_partial (s : Searches K) (p : Potential K) (setZero : List K → Outcome (List K))
    (tree start : List K) (use : Use) (mt : Bool) (ord : List K → List K)
    (hord : ∀ v, v.length = p.nVEV → p.order v = ok (ord v))
    (hzero : ord (List.replicate p.nVEV 0) = List.replicate p.nHiggs 0) (hs : Fair s p)
    (hmt : mt = true ∨ (effective use p.nVEV).cmaes = false) (v0 : K)
    (h0 : p.veff (List.replicate p.nHiggs 0) = .fin v0) (sol : List K) (check : List Int)
    (h : minimize s p setZero tree start use mt = ok (sol, check)) :
    ∃ best v, best.length = p.nVEV ∧ p.veff (ord best) = .fin v ∧ v ≤ v0 ∧
      (best = List.replicate p.nVEV 0 ∨ Delivered s p tree start (effective use p.nVEV) best) ∧
      (∀ x w, Delivered s p tree start (effective use p.nVEV) x → p.veff (ord x) = .fin w → v ≤ w) ∧
      ((∃ e, p.ewsb (ord best) = .fin e ∧ e ≤ 1 / 2) → setZero best = ok sol) ∧
      ((¬ ∃ e, p.ewsb (ord best) = .fin e ∧ e ≤ 1 / 2) → sol = best) := by
  rw [minimize] at h
  obtain ⟨⟨c, cs, chk, g⟩, hc, h⟩ := bind_eq_ok h
  obtain ⟨e, hcs, hlen⟩ := collect_spec s p tree start _ mt ord hord hs hmt c cs chk g hc
  obtain ⟨o, ho, h⟩ := bind_eq_ok h
  obtain ⟨sol', hsol, h⟩ := bind_eq_ok h
  cases h
  dsimp only at ho hsol
  rw [finish] at hsol
  have hv : c.value = .fin v0 := by rw [e]; exact h0
  obtain ⟨v, hb, hmin⟩ := argmin_lowest c cs v0 hv
  have hmem := argmin_mem c cs
  have key : (argmin c cs).point.length = p.nVEV ∧ p.veff (ord (argmin c cs).point) = (argmin c cs).value ∧
      ((argmin c cs).point = List.replicate p.nVEV 0 ∨
        Delivered s p tree start (effective use p.nVEV) (argmin c cs).point) := by
    rcases List.mem_cons.1 hmem with e' | hm
    · rw [e', e]
      exact ⟨by simp, by rw [hzero], Or.inl rfl⟩
    · obtain ⟨x, hx, e'⟩ := (hcs _).1 hm
      refine ⟨hlen _ hm, by rw [e'], Or.inr (by rw [e']; exact hx)⟩
  obtain ⟨k1, k2, k3⟩ := key
  rw [hord _ k1] at ho
  cases ho
  refine ⟨(argmin c cs).point, v, k1, k2.trans hb, hmin c (by simp) v0 hv, k3, ?_, ?_, ?_⟩
  · intro x w hx hw
    exact hmin ⟨x, p.veff (ord x)⟩ (List.mem_cons_of_mem _ ((hcs _).2 ⟨x, hx, rfl⟩)) w hw
  · rintro ⟨e, he, hle⟩
    rw [he, if_pos ((Flt.le_fin _ _).2 hle)] at hsol
    exact hsol
  · intro hne
    rw [if_neg] at hsol
    · cases hsol; rfl
    · intro hle
      cases he : p.ewsb (ord (argmin c cs).point) with
      | nan => rw [he] at hle; simp at hle
      | fin e => rw [he, Flt.le_fin] at hle; exact hne ⟨e, he, hle⟩

/-- C139: a returned minimum with broken electroweak symmetry is not above the origin. -/
theorem C139_below_origin (s : Searches K) (p : Potential K) (setZero : List K → Outcome (List K))
    (tree start : List K) (use : Use) (mt : Bool) (ord : List K → List K)
    (hord : ∀ v, v.length = p.nVEV → p.order v = ok (ord v))
    (hzero : ord (List.replicate p.nVEV 0) = List.replicate p.nHiggs 0) (hs : Fair s p)
    (hmt : mt = true ∨ (effective use p.nVEV).cmaes = false) (v0 : K)
    (h0 : p.veff (List.replicate p.nHiggs 0) = .fin v0) (sol : List K) (check : List Int)
    (hset : ∀ x y, setZero x = ok y → p.ewsb (ord y) = .fin 0) (e : K)
    (he : p.ewsb (ord sol) = .fin e) (hpos : 0 < e)
    (h : minimize s p setZero tree start use mt = ok (sol, check)) :
    ∃ v, p.veff (ord sol) = .fin v ∧ v ≤ v0 := by
  obtain ⟨best, v, _, h2, h3, _, _, h4, h5⟩ := C139_lowest_partial s p setZero tree start use mt ord hord hzero
    hs hmt v0 h0 sol check h
  by_cases hc : ∃ e, p.ewsb (ord best) = .fin e ∧ e ≤ 1 / 2
  · rw [hset _ _ (h4 hc)] at he
    cases he
    exact absurd hpos (lt_irrefl _)
  · rw [h5 hc]
    exact ⟨v, h2, h3⟩

/-- C139: what is appended to `Check`: the status of CMAES if it ran with threads, then 1 or -1 for the
success of GSL. -/
theorem C139_check (s : Searches K) (p : Potential K) (setZero : List K → Outcome (List K))
    (tree start : List K) (use : Use) (mt : Bool) (sol : List K) (check : List Int)
    (h : minimize s p setZero tree start use mt = ok (sol, check)) :
    ∃ l e, check = l ++ [e] ∧
      (e = 1 ↔ (effective use p.nVEV).gsl = true ∧ ∃ x, s.gsl (if (effective use p.nVEV).cmaes = false ∧
        (effective use p.nVEV).nlopt = false then 50 else 20) = ok (x, true)) ∧ (e = 1 ∨ e = -1) ∧
      ((effective use p.nVEV).cmaes = true ∧ mt = true → ∃ best status,
        s.strategy (Runs.objective p) start 5 = ok (best, status) ∧ l = [status]) ∧
      ((effective use p.nVEV).cmaes = false ∨ mt = false → l = []) := by
  rw [minimize] at h
  obtain ⟨⟨c, cs, chk, g⟩, hc, h⟩ := bind_eq_ok h
  obtain ⟨o, ho, h⟩ := bind_eq_ok h
  obtain ⟨sol', hsol, h⟩ := bind_eq_ok h
  cases h
  generalize effective use p.nVEV = u at hc ⊢
  rw [collect] at hc
  obtain ⟨⟨gx, gok⟩, hg, hc⟩ := bind_eq_ok hc
  obtain ⟨cm, hcm, hc⟩ := bind_eq_ok hc
  obtain ⟨n, hn, hc⟩ := bind_eq_ok hc
  obtain ⟨fc, hfc, hc⟩ := bind_eq_ok hc
  obtain ⟨fg, hfg, hc⟩ := bind_eq_ok hc
  cases hc
  refine ⟨_, _, rfl, ?_, ?_, ?_, ?_⟩
  · rw [runGsl, Runs.C118_number] at hg
    by_cases hu : u.gsl = true
    · rw [if_pos hu] at hg
      dsimp only at hg ⊢
      rw [hg, hu]
      cases gok <;> simp
    · simp [hu]
  · split_ifs <;> simp
  · rintro ⟨hu, hm⟩
    rw [runCmaes, if_pos hu] at hcm
    obtain ⟨⟨x, st⟩, hr, hcm⟩ := bind_eq_ok hcm
    cases hcm
    rw [candCmaes, if_pos hm] at hfc
    obtain ⟨cc, _, hfc⟩ := bind_eq_ok hfc
    cases hfc
    obtain ⟨best, e1, _, _⟩ := (cmaes_ok s p start x st).1 hr
    exact ⟨best, st, e1, rfl⟩
  · intro hh
    dsimp only
    cases cm with
    | none =>
      rw [candCmaes] at hfc
      cases hfc; rfl
    | some r =>
      rcases hh with hu | hm
      · rw [runCmaes, if_neg (by rw [hu]; simp)] at hcm; cases hcm
      · rw [hm, candCmaes, if_neg (by simp)] at hfc
        cases hfc; rfl

/-- C139: the bounds given to NLopt: ±300 GeV, widened to one and a half times the tree level VEV if that is
larger; if the VEV is below -300 GeV both bounds are the same. -/
theorem C139_bounds [IsStrictOrderedRing K] (nVEV : Nat) (tree : List K) (ht : nVEV ≤ tree.length) :
    ∃ lo up, bounds nVEV tree = ok (lo, up) ∧ lo.length = nVEV ∧ up.length = nVEV ∧
      ∀ j, j < nVEV → ∀ v, tree[j]? = some v →
        (|v| ≤ 300 → lo[j]? = some (-300) ∧ up[j]? = some 300) ∧
        (300 < v → lo[j]? = some (-(3 / 2 * v)) ∧ up[j]? = some (3 / 2 * v)) ∧
        (v < -300 → lo[j]? = some (3 / 2 * v) ∧ up[j]? = some (3 / 2 * v)) := by
  have aux : ∀ n, n ≤ nVEV → ∃ lo up, (List.range n).foldlM (fun b i => do
      let v ← at' tree i
      PlaneRuns.bound b i v) (List.replicate nVEV (-300), List.replicate nVEV (300 : K)) = ok (lo, up) ∧
      lo.length = nVEV ∧ up.length = nVEV ∧ ∀ j, j < nVEV →
        lo[j]? = some (if j < n then PlaneRuns.lowerOf (tree.getD j 0) else -300) ∧
        up[j]? = some (if j < n then PlaneRuns.upperOf (tree.getD j 0) else 300) := by
    intro n
    induction n with
    | zero =>
      intro _
      refine ⟨_, _, rfl, by simp, by simp, ?_⟩
      intro j hj
      simp [hj]
    | succ n ih =>
      intro hn
      obtain ⟨lo, up, h1, h2, h3, h4⟩ := ih (by omega)
      have hnt : n < tree.length := by omega
      rw [List.range_succ, List.foldlM_append, h1, bind_ok]
      simp only [List.foldlM_cons, List.foldlM_nil, at'_of_lt hnt, bind_ok]
      have h5 := h4 n (by omega)
      simp only [lt_irrefl, if_false] at h5
      rw [PlaneRuns.bound_spec lo up n _ h5.1 h5.2, bind_ok]
      refine ⟨_, _, rfl, by simp [h2], by simp [h3], ?_⟩
      intro j hj
      rcases eq_or_ne n j with e | e
      · subst e
        rw [List.getElem?_set_self (by omega), List.getElem?_set_self (by omega), if_pos (by omega),
          if_pos (by omega)]
        simp [List.getElem?_eq_getElem hnt]
      · rw [List.getElem?_set_ne e, List.getElem?_set_ne e, (h4 j hj).1, (h4 j hj).2]
        have : j < n ↔ j < n + 1 := by omega
        simp only [this, and_self]
  obtain ⟨lo, up, h1, h2, h3, h4⟩ := aux nVEV (le_refl _)
  refine ⟨lo, up, h1, h2, h3, ?_⟩
  intro j hj v hv
  obtain ⟨a, b⟩ := h4 j hj
  have hgd : tree.getD j 0 = v := by rw [List.getD_eq_getElem?_getD, hv]; rfl
  rw [if_pos hj, hgd] at a b
  rw [a, b]
  unfold PlaneRuns.lowerOf PlaneRuns.upperOf
  refine ⟨fun h => ?_, fun h => ?_, fun h => ?_⟩
  · rw [if_neg (by linarith), if_neg (by linarith)]
    exact ⟨rfl, rfl⟩
  · have habs : |v| = v := abs_of_pos (by linarith)
    rw [habs, if_pos (by linarith), if_pos h]
    refine ⟨?_, rfl⟩
    congr 1
    ring
  · have habs : |v| = -v := abs_of_neg (by linarith)
    rw [habs, if_pos (by linarith), if_pos (by linarith)]
    refine ⟨?_, rfl⟩
    congr 1
    ring

/-- C139: NLopt starts at the origin inside the bounds; its result with the success flag is handed on, an
exception of NLopt becomes a result without success and without coordinates. -/
theorem C139_nlopt [IsStrictOrderedRing K]
    (opt : (List K → Outcome (Flt K)) → List K → List K → List K → Outcome (List K × Flt K × Int))
    (p : Potential K) (tree : List K) (ht : p.nVEV ≤ tree.length) :
    ∃ lo up, bounds p.nVEV tree = ok (lo, up) ∧
      (∀ x v c, opt (nloptObjective p) lo up (List.replicate p.nVEV 0) = ok (x, v, c) →
        ∃ r, nlopt opt p tree = ok r ∧ r.minimum = x ∧ r.value = v ∧ r.code = c ∧
          (r.success = true ↔ c = 1 ∨ c = 3 ∨ c = 4)) ∧
      (∀ e, opt (nloptObjective p) lo up (List.replicate p.nVEV 0) = err e →
        ∃ r, nlopt opt p tree = ok r ∧ r.minimum = [] ∧ r.success = false ∧ r.code = -5) := by
  obtain ⟨lo, up, h, _⟩ := C139_bounds p.nVEV tree ht
  refine ⟨lo, up, h, ?_, ?_⟩
  · intro x v c ho
    refine ⟨⟨x, v, c, success c⟩, ?_, rfl, rfl, rfl, success_iff c⟩
    rw [nlopt, h, bind_ok]
    dsimp only
    rw [ho]
    rfl
  · intro e ho
    refine ⟨⟨[], .fin 0, -5, false⟩, ?_, rfl, rfl, rfl⟩
    rw [nlopt, h, bind_ok]
    dsimp only
    rw [ho]
    rfl

/-- C139: the local search of NLopt hands on the result with the success flag and lets exceptions through. -/
theorem C139_local (opt : (List K → Outcome (Flt K)) → List K → Outcome (List K × Flt K × Int))
    (p : Potential K) (start : List K) :
    (∀ x v c, opt (nloptObjective p) start = ok (x, v, c) →
        ∃ r, nloptLocal opt p start = ok r ∧ r.minimum = x ∧ r.value = v ∧ r.code = c ∧
          (r.success = true ↔ c = 1 ∨ c = 3 ∨ c = 4)) ∧
      (∀ e, opt (nloptObjective p) start = err e → nloptLocal opt p start = err e) := by
  refine ⟨?_, ?_⟩
  · intro x v c ho
    refine ⟨⟨x, v, c, success c⟩, ?_, rfl, rfl, rfl, success_iff c⟩
    rw [nloptLocal, ho, bind_ok]
  · intro e ho
    rw [nloptLocal, ho]
    rfl

/-- C139: NLopt and the tracer ask the potential at the point completed to all fields. -/
theorem C139_objective (p : Potential K) (x o : List K) (h : p.order x = ok o) :
    nloptObjective p x = ok (p.veff o) := by
  rw [nloptObjective, h, bind_ok]

/-- C139: the global minimum asked for by the tracer is the minimum completed to all fields; without a start
point the search starts at the origin. -/
theorem C139_tracer (s : Searches K) (p : Potential K) (setZero : List K → Outcome (List K))
    (tree start : List K) (use : Use) (mt : Bool) (o : List K) :
    (globalMinimumFrom s p setZero tree start use mt = ok o ↔
      ∃ sol check, minimize s p setZero tree start use mt = ok (sol, check) ∧ p.order sol = ok o) ∧
    (globalMinimum s p setZero tree use mt = ok o ↔
      ∃ sol check, minimize s p setZero tree (List.replicate p.nHiggs 0) use mt = ok (sol, check) ∧
        p.order sol = ok o) := by
  have key : ∀ st, globalMinimumFrom s p setZero tree st use mt = ok o ↔
      ∃ sol check, minimize s p setZero tree st use mt = ok (sol, check) ∧ p.order sol = ok o := by
    intro st
    constructor
    · intro h
      rw [globalMinimumFrom] at h
      obtain ⟨⟨sol, check⟩, h1, h⟩ := bind_eq_ok h
      exact ⟨sol, check, h1, h⟩
    · rintro ⟨sol, check, h1, h2⟩
      rw [globalMinimumFrom, h1, bind_ok]
      exact h2
  exact ⟨key start, key _⟩

/-- C139: the search at tree level is the search with the tree level potential at zero temperature. -/
theorem C139_tree (s : Searches K) (pot : Bool → K → Potential K) (setZero : List K → Outcome (List K))
    (tree start : List K) (use : Use) (mt : Bool) (p : Potential K) (h : pot true 0 = p) :
    treeLevel s pot setZero tree start use mt = minimize s p setZero tree start use mt := by
  rw [treeLevel, h]

/-- C139: with three or more fields an exception of NLopt leaves the result of the other searches: it is the
same as without NLopt, up to the number of solutions asked of GSL. -/
theorem C139_nlopt_exception [IsStrictOrderedRing K] (s : Searches K) (p : Potential K) (tree start : List K)
    (mt : Bool) (use : Use) (e : Err) (ht : p.nVEV ≤ tree.length) (hu : use.nlopt = true)
    (hc : use.cmaes = true)
    (h : ∀ f lo hi st, s.opt f lo hi st = err e) :
    collect s p tree start use mt = collect s p tree start { use with nlopt := false } mt := by
  have hn : ∃ v c, runNlopt s p tree use = ok ⟨[], v, c, false⟩ := by
    obtain ⟨lo, up, hb, _⟩ := C139_bounds p.nVEV tree ht
    refine ⟨.fin 0, -5, ?_⟩
    rw [runNlopt, if_pos hu, nlopt, hb, bind_ok, h]
    rfl
  obtain ⟨v, c, hn⟩ := hn
  have hg : runGsl s { use with nlopt := false } mt = runGsl s use mt := by
    rw [runGsl, runGsl, Runs.C118_number, Runs.C118_number]
    simp [hc]
  rw [collect, collect, hg, hn]
  rfl

/-! ## Witnesses -/

/-- Two fields: the first breaks the electroweak symmetry, the second does not. -/
def witPot : Potential ℚ where
  nVEV := 2
  nHiggs := 2
  order v := ok v
  ewsb v := .fin |v.getD 0 0|
  veff v := .fin (if v = [1 / 4, 1] then -1 else if v = [0, 1] then 1 else 0)

/-- GSL finds the minimum. -/
def witSearches : Searches ℚ where
  gsl _ := ok ([1 / 4, 1], true)
  opt _ _ _ _ := err .runtime
  strategy _ _ _ := err .runtime

/-- C139: the returned point can have a higher potential than the origin: the lowest point had an electroweak
VEV of 0.25 GeV, which was set to zero. -/
theorem C139_zeroed_fails :
    ∃ check, minimize witSearches witPot (fun v => ok (v.set 0 0)) [0, 0] [0, 0] ⟨false, true, false⟩ true
      = ok ([0, 1], check) ∧ witPot.veff [0, 1] = .fin 1 ∧ witPot.veff [0, 0] = .fin 0 :=
  ⟨[1], by decide +kernel, by decide +kernel, by decide +kernel⟩

example : Fair witSearches witPot := by
  constructor
  · intro n x h
    cases h; rfl
  · intro f lo hi st x v c h
    cases h

/-- The same searches in a potential with a deep minimum. -/
example : minimize ⟨fun _ => ok ([200, 1], true), fun f _ _ _ => Outcome.bind (f [100, 1]) fun v => ok ([100, 1], v, 3),
    fun _ _ _ => ok ([50, 2], 0)⟩
    { witPot with veff := fun v => .fin (if v = [200, 1] then -2 else if v = [100, 1] then -3 else 0) }
    (fun v => ok (v.set 0 0)) [0, 0] [0, 0] ⟨false, true, true⟩ true = ok ([100, 1], [1]) := by
  decide +kernel

end Verif.Minimizer.Whole
