import Verif.Baryo.ConfigLemmas

/-!
# C85: the configuration and the columns of the baryogenesis calculation
-/

namespace Verif.Baryo

open Outcome Verif.Utility Spec

/-- A configuration file is accepted exactly when every line that begins with one of the two keywords says
yes or no.  The switches are then those of the file, in its order, and the flag of the bottom mass is 1
exactly when a line says so. -/
theorem C85_config (text : Str) (c : Config) :
    readConfigFile (some text) = ok c ↔ ∃ l, List.Forall₂ Means (split text '\n') l ∧
      c = ⟨switches l, if .massive true ∈ l then 1 else 0⟩ := by
  rw [readConfigFile, configLines_eq]
  simp only [List.nil_append]

/-- Everything else is refused with an exception, as is a file that cannot be opened. -/
theorem C85_refused (file : Option Str) :
    (∃ c, readConfigFile file = ok c) ∨ readConfigFile file = err .runtime := by
  cases file with
  | none => exact Or.inr rfl
  | some text => exact configLines_err _ _

variable {K M D G : Type}

/-- An object exists only for five switches. -/
theorem C85_constructor (file : Option Str) (s s' : Interface K M D) :
    constructFromFile file s = ok s' ↔ ∃ c, readConfigFile file = ok c ∧ c.methods.length = 5 ∧
      s' = { s with methods := c.methods, botMass := c.botMass } := by
  unfold constructFromFile construct
  rcases C85_refused file with ⟨c, h⟩ | h
  · rw [h]
    simp only [Outcome.bind]
    constructor
    · intro h'
      split at h'
      · cases h'
      · rename_i hl
        injection h' with h'
        exact ⟨c, rfl, by simpa using hl, h'.symm⟩
    · rintro ⟨c', hc', hl, rfl⟩
      injection hc' with hc'
      subst hc'
      rw [if_neg (by simpa using hl)]
  · rw [h]
    simp only [Outcome.bind]
    constructor
    · intro h'; cases h'
    · rintro ⟨c', hc', -, -⟩; cases hc'

theorem five {l : List Bool} (h : l.length = 5) : ∃ a b c d e, l = [a, b, c, d, e] := by
  match l, h with
  | [a, b, c, d, e], _ => exact ⟨a, b, c, d, e, rfl⟩

/-- The legend names the methods that are switched on. -/
theorem C85_legend (s : Interface K M D) (h : s.methods.length = 5) :
    legend s = ok ((enabled s.methods).map fun a => a.name.toList) := by
  obtain ⟨a, b, c, d, e, hm⟩ := five h
  unfold legend
  rw [hm]
  cases a <;> cases b <;> cases c <;> cases d <;> cases e <;> rfl

/-- The computations of the methods one after the other. -/
def runAll (f : Ansatz → Outcome K) : List Ansatz → Outcome (List K)
  | [] => ok []
  | a :: l => (f a).bind fun x => (runAll f l).bind fun xs => ok (x :: xs)

theorem runAll_ok {f : Ansatz → Outcome K} {l : List Ansatz} {xs : List K} (h : runAll f l = ok xs) :
    List.Forall₂ (fun a x => f a = ok x) l xs := by
  induction l generalizing xs with
  | nil => injection h with h; subst h; exact .nil
  | cons a l ih =>
    rw [runAll] at h
    cases hf : f a with
    | err e => rw [hf] at h; cases h
    | ub u => rw [hf] at h; cases h
    | ok x =>
      rw [hf] at h
      cases hr : runAll f l with
      | err e => rw [Outcome.bind, hr] at h; cases h
      | ub u => rw [Outcome.bind, hr] at h; cases h
      | ok ys =>
        rw [Outcome.bind, hr] at h
        injection h with h
        subst h
        exact .cons hf (ih hr)

/-- The blocks of the program in general: a result is appended when the switch is on. -/
def runFlags (f : Ansatz → Outcome K) : List (Bool × Ansatz) → List K → Outcome (List K)
  | [], eta => ok eta
  | (b, a) :: l, eta =>
    (if b then (f a).bind fun x => ok (eta ++ [x]) else ok eta).bind fun eta => runFlags f l eta

theorem runFlags_eq (f : Ansatz → Outcome K) (l : List (Bool × Ansatz)) (eta : List K) :
    runFlags f l eta = (runAll f ((l.filter (·.1)).map (·.2))).bind fun xs => ok (eta ++ xs) := by
  induction l generalizing eta with
  | nil => simp [runFlags, runAll, Outcome.bind]
  | cons p l ih =>
    obtain ⟨b, a⟩ := p
    rw [runFlags]
    cases b
    · simp only [Outcome.bind, Bool.false_eq_true, if_false, ih, List.filter_cons]
    · simp only [if_true, List.filter_cons, List.map_cons, runAll]
      cases f a with
      | err e => rfl
      | ub u => rfl
      | ok x =>
        simp only [Outcome.bind, ih]
        cases runAll f ((l.filter (·.1)).map (·.2)) <;> simp

/-- The state of the object while the methods run. -/
structure At (methods : List Bool) (bm : Int) (vw tc : K) (d : D) (s : Interface K M D) : Prop where
  hmethods : s.methods = methods
  hbm : s.botMass = bm
  hvw : s.vw = vw
  htc : s.tc = tc
  hcvw : s.container.vw = vw
  hctc : s.container.tc = tc
  hdata : s.container.data = d

theorem andThen_snd (r : Interface K M D × Outcome (List K))
    (f : Interface K M D → List K → Interface K M D × Outcome (List K)) :
    (andThen r f).2 = r.2.bind fun eta => (f r.1 eta).2 := by
  obtain ⟨s, o⟩ := r
  cases o <;> rfl

/-- One of the first three blocks. -/
theorem viaBlock_at (ext : External K M D G) {methods : List Bool} {bm : Int} {vw tc : K} {d : D}
    {s : Interface K M D} (h : At methods bm vw tc d s) (hu : s.container.useVelocity = false) (i : Nat)
    (m : Method) (eta : List K) :
    At methods bm vw tc d (viaBlock ext i m s eta).1 ∧
      (viaBlock ext i m s eta).1.container.useVelocity = false ∧
      (viaBlock ext i m s eta).2 = (flag methods i).bind fun b =>
        if b then (value.via ext bm vw tc d m).bind fun x => ok (eta ++ [x]) else ok eta := by
  obtain ⟨rfl, rfl, rfl, rfl, hvw, htc, rfl⟩ := h
  unfold viaBlock
  cases hf : flag s.methods i with
  | err e => exact ⟨⟨rfl, rfl, rfl, rfl, hvw, htc, rfl⟩, hu, rfl⟩
  | ub u => exact ⟨⟨rfl, rfl, rfl, rfl, hvw, htc, rfl⟩, hu, rfl⟩
  | ok b =>
    cases b
    · exact ⟨⟨rfl, rfl, rfl, rfl, hvw, htc, rfl⟩, hu, rfl⟩
    · refine ⟨⟨rfl, rfl, rfl, rfl, hvw, htc, rfl⟩, hu, ?_⟩
      have hc : ({ s.container with method := m } : Container K D) =
          ⟨false, m, s.vw, s.tc, s.container.data⟩ := by
        rw [← hu, ← hvw, ← htc]
      simp only [hc, value.via, Outcome.bind, if_true]
      show _ = Outcome.bind (Outcome.bind (ext.density m s.botMass ⟨false, m, s.vw, s.tc, s.container.data⟩)
        fun g => ext.asymmetry g s.tc s.vw ⟨false, m, s.vw, s.tc, s.container.data⟩) _
      cases ext.density m s.botMass ⟨false, m, s.vw, s.tc, s.container.data⟩ <;> rfl

/-- One of the last two blocks. -/
theorem fluidBlock_at (ext : External K M D G) (hx : FluidIgnoresMethod ext) {methods : List Bool}
    {bm : Int} {vw tc : K} {d : D} {s : Interface K M D} (h : At methods bm vw tc d s) (i : Nat)
    (v : Bool) (eta : List K) :
    At methods bm vw tc d (fluidBlock ext i v s eta).1 ∧
      (fluidBlock ext i v s eta).2 = (flag methods i).bind fun b =>
        if b then (ext.fluid ⟨v, .top, vw, tc, d⟩).bind fun x => ok (eta ++ [x]) else ok eta := by
  obtain ⟨rfl, rfl, rfl, rfl, hvw, htc, rfl⟩ := h
  unfold fluidBlock
  cases hf : flag s.methods i with
  | err e => exact ⟨⟨rfl, rfl, rfl, rfl, hvw, htc, rfl⟩, rfl⟩
  | ub u => exact ⟨⟨rfl, rfl, rfl, rfl, hvw, htc, rfl⟩, rfl⟩
  | ok b =>
    cases b
    · exact ⟨⟨rfl, rfl, rfl, rfl, hvw, htc, rfl⟩, rfl⟩
    · refine ⟨⟨rfl, rfl, rfl, rfl, hvw, htc, rfl⟩, ?_⟩
      have hc : ({ s.container with useVelocity := v } : Container K D) =
          ⟨v, s.container.method, s.vw, s.tc, s.container.data⟩ := by
        rw [← hvw, ← htc]
      simp only [hc, Outcome.bind, if_true]
      rw [hx v s.container.method .top]

/-- The outcome of all blocks. -/
theorem calcEta_at (ext : External K M D G) (hx : FluidIgnoresMethod ext) {methods : List Bool}
    (hl : methods.length = 5) {bm : Int} {vw tc : K} {d : D} {s : Interface K M D}
    (h : At methods bm vw tc d s) (hu : s.container.useVelocity = false) :
    (calcEta ext s).2 = runAll (value ext bm vw tc d) (enabled methods) := by
  obtain ⟨h0, hu0, e0⟩ := viaBlock_at ext h hu 0 .top []
  have e : (calcEta ext s).2 = (flag methods 0).bind fun b =>
      Outcome.bind (if b then (value.via ext bm vw tc d .top).bind fun x => ok ([] ++ [x]) else ok [])
        fun eta => (flag methods 1).bind fun b =>
      Outcome.bind (if b then (value.via ext bm vw tc d .bottom).bind fun x => ok (eta ++ [x]) else ok eta)
        fun eta => (flag methods 2).bind fun b =>
      Outcome.bind (if b then (value.via ext bm vw tc d .tau).bind fun x => ok (eta ++ [x]) else ok eta)
        fun eta => (flag methods 3).bind fun b =>
      Outcome.bind (if b then (ext.fluid ⟨true, .top, vw, tc, d⟩).bind fun x => ok (eta ++ [x]) else ok eta)
        fun eta => (flag methods 4).bind fun b =>
      (if b then (ext.fluid ⟨false, .top, vw, tc, d⟩).bind fun x => ok (eta ++ [x]) else ok eta) := by
    have assoc : ∀ {α β γ : Type} (x : Outcome α) (f : α → Outcome β) (g : β → Outcome γ),
        (x.bind f).bind g = x.bind fun a => (f a).bind g := by
      intro α β γ x f g
      cases x <;> rfl
    have cong : ∀ {α β : Type} (x : Outcome α) (f g : α → Outcome β), (∀ a, f a = g a) →
        x.bind f = x.bind g := by
      intro α β x f g hfg
      rw [funext hfg]
    unfold calcEta
    rw [andThen_snd, e0, assoc]
    refine cong _ _ _ fun b => cong _ _ _ fun eta => ?_
    obtain ⟨h1, hu1, e1⟩ := viaBlock_at ext h0 hu0 1 .bottom eta
    rw [andThen_snd, e1, assoc]
    refine cong _ _ _ fun b => cong _ _ _ fun eta => ?_
    obtain ⟨h2, hu2, e2⟩ := viaBlock_at ext h1 hu1 2 .tau eta
    rw [andThen_snd, e2, assoc]
    refine cong _ _ _ fun b => cong _ _ _ fun eta => ?_
    obtain ⟨h3, e3⟩ := fluidBlock_at ext hx h2 3 true eta
    rw [andThen_snd, e3, assoc]
    refine cong _ _ _ fun b => cong _ _ _ fun eta => ?_
    exact (fluidBlock_at ext hx h3 4 false eta).2
  rw [e]
  obtain ⟨a, b, c, d', e', rfl⟩ := five hl
  have hv0 : value ext bm vw tc d .topOnly = value.via ext bm vw tc d .top := rfl
  have hv1 : value ext bm vw tc d .topBot = value.via ext bm vw tc d .bottom := rfl
  have hv2 : value ext bm vw tc d .topBotTau = value.via ext bm vw tc d .tau := rfl
  have hv3 : value ext bm vw tc d .velocities = ext.fluid ⟨true, .top, vw, tc, d⟩ := rfl
  have hv4 : value ext bm vw tc d .velocitiesReplaced = ext.fluid ⟨false, .top, vw, tc, d⟩ := rfl
  rw [← hv0, ← hv1, ← hv2, ← hv3, ← hv4]
  generalize value ext bm vw tc d = f
  have key := runFlags_eq f [(a, .topOnly), (b, .topBot), (c, .topBotTau), (d', .velocities),
    (e', .velocitiesReplaced)] []
  have hok : ∀ x : Outcome (List K), (x.bind fun xs => ok ([] ++ xs)) = x := by
    intro x
    cases x <;> rfl
  rw [hok] at key
  refine Eq.trans ?_ key
  have last : ∀ x : Outcome (List K), (x.bind fun eta => ok eta) = x := by
    intro x
    cases x <;> rfl
  have first : ∀ {α β : Type} (a : α) (g : α → Outcome β), (Outcome.ok a).bind g = g a := fun _ _ => rfl
  simp only [runFlags, flag, first, last, List.getElem?_cons_zero, List.getElem?_cons_succ]

/-- The outcome of a calculation for a point of the C2HDM. -/
theorem calcEtaAt_eq (ext : External K M D G) (hx : FluidIgnoresMethod ext) (s : Interface K M D)
    (hl : s.methods.length = 5) (a : Args K M) (hm : ext.modelId a.model = .c2hdm) :
    (calcEtaAt ext s a).2 = (ext.init a).bind fun d =>
      runAll (value ext s.botMass a.vw a.tc d) (enabled s.methods) := by
  simp only [calcEtaAt, setNumerics, hm, ne_eq, not_true_eq_false, if_false]
  cases hd : ext.init a with
  | err e => rfl
  | ub u => rfl
  | ok d => exact calcEta_at ext hx hl ⟨rfl, rfl, rfl, rfl, rfl, rfl, rfl⟩ rfl

/-- The results stand in the columns of their methods: there are as many of them as names in the legend,
and each is the result of the method of that name for the given point. -/
theorem C85_columns (ext : External K M D G) (hx : FluidIgnoresMethod ext) (s : Interface K M D)
    (hl : s.methods.length = 5) (a : Args K M) (eta : List K) (h : (calcEtaAt ext s a).2 = ok eta) :
    ∃ d, ext.init a = ok d ∧ legend s = ok ((enabled s.methods).map fun m => m.name.toList) ∧
      List.Forall₂ (fun m x => value ext s.botMass a.vw a.tc d m = ok x) (enabled s.methods) eta := by
  by_cases hm : ext.modelId a.model = .c2hdm
  · rw [calcEtaAt_eq ext hx s hl a hm] at h
    cases hd : ext.init a with
    | err e => rw [hd] at h; cases h
    | ub u => rw [hd] at h; cases h
    | ok d =>
      rw [hd] at h
      exact ⟨d, rfl, C85_legend s hl, runAll_ok h⟩
  · simp [calcEtaAt, setNumerics, hm] at h

/-- Other models are refused. -/
theorem C85_model (ext : External K M D G) (s : Interface K M D) (a : Args K M)
    (hm : ext.modelId a.model ≠ .c2hdm) : (calcEtaAt ext s a).2 = err .runtime := by
  simp [calcEtaAt, setNumerics, hm]

/-- The results for a point do not depend on what the object was used for before. -/
theorem C85_history (ext : External K M D G) (hx : FluidIgnoresMethod ext) (s s' : Interface K M D)
    (hl : s.methods.length = 5) (hs : s'.methods = s.methods) (hb : s'.botMass = s.botMass)
    (a : Args K M) : (calcEtaAt ext s' a).2 = (calcEtaAt ext s a).2 := by
  by_cases hm : ext.modelId a.model = .c2hdm
  · rw [calcEtaAt_eq ext hx s hl a hm, calcEtaAt_eq ext hx s' (by rw [hs]; exact hl) a hm, hs, hb]
  · rw [C85_model ext s a hm, C85_model ext s' a hm]

/-- The switches of an object never change. -/
theorem C85_switches (ext : External K M D G) (s : Interface K M D) (a : Args K M) :
    (calcEtaAt ext s a).1.methods = s.methods ∧ (calcEtaAt ext s a).1.botMass = s.botMass := by
  have hvia : ∀ i m (s : Interface K M D) eta, (viaBlock ext i m s eta).1.methods = s.methods ∧
      (viaBlock ext i m s eta).1.botMass = s.botMass := by
    intro i m s eta
    unfold viaBlock
    split <;> exact ⟨rfl, rfl⟩
  have hfluid : ∀ i v (s : Interface K M D) eta, (fluidBlock ext i v s eta).1.methods = s.methods ∧
      (fluidBlock ext i v s eta).1.botMass = s.botMass := by
    intro i v s eta
    unfold fluidBlock
    split <;> exact ⟨rfl, rfl⟩
  have hthen : ∀ (r : Interface K M D × Outcome (List K)) (s : Interface K M D) f,
      (r.1.methods = s.methods ∧ r.1.botMass = s.botMass) →
      (∀ t eta, (t.methods = s.methods ∧ t.botMass = s.botMass) →
        ((f t eta).1.methods = s.methods ∧ (f t eta).1.botMass = s.botMass)) →
      ((andThen r f).1.methods = s.methods ∧ (andThen r f).1.botMass = s.botMass) := by
    rintro ⟨t, o⟩ s f hr hf
    cases o with
    | ok eta => exact hf t eta hr
    | err e => exact hr
    | ub u => exact hr
  have hcalc : ∀ s : Interface K M D, (calcEta ext s).1.methods = s.methods ∧
      (calcEta ext s).1.botMass = s.botMass := by
    intro s
    unfold calcEta
    refine hthen _ s _ (hvia _ _ _ _) fun t eta ht => ?_
    refine hthen _ s _ ⟨(hvia _ _ _ _).1.trans ht.1, (hvia _ _ _ _).2.trans ht.2⟩ fun t eta ht => ?_
    refine hthen _ s _ ⟨(hvia _ _ _ _).1.trans ht.1, (hvia _ _ _ _).2.trans ht.2⟩ fun t eta ht => ?_
    refine hthen _ s _ ⟨(hfluid _ _ _ _).1.trans ht.1, (hfluid _ _ _ _).2.trans ht.2⟩ fun t eta ht => ?_
    exact ⟨(hfluid _ _ _ _).1.trans ht.1, (hfluid _ _ _ _).2.trans ht.2⟩
  unfold calcEtaAt setNumerics
  by_cases hm : ext.modelId a.model = .c2hdm
  · simp only [hm, ne_eq, not_true_eq_false, if_false]
    cases ext.init a with
    | ok d => exact hcalc _
    | err e => exact ⟨rfl, rfl⟩
    | ub u => exact ⟨rfl, rfl⟩
  · simp [hm]

/-- A change of the wall velocity alone gives the results of a calculation for the same point with that
velocity, if what is computed for the point does not depend on the velocity. -/
theorem C85_velocity (ext : External K M D G) (hx : FluidIgnoresMethod ext) (s : Interface K M D)
    (hl : s.methods.length = 5) (a : Args K M) (hm : ext.modelId a.model = .c2hdm) (vw : K)
    (hi : ext.init { a with vw := vw } = ext.init a) (h : (setNumerics ext s a).2 = ok ()) :
    (calcEta ext (setvw (setNumerics ext s a).1 vw)).2 = (calcEtaAt ext s { a with vw := vw }).2 := by
  rw [calcEtaAt_eq ext hx s hl { a with vw := vw } hm, hi]
  simp only [setNumerics, hm, ne_eq, not_true_eq_false, if_false] at h ⊢
  cases hd : ext.init a with
  | err e => rw [hd] at h; cases h
  | ub u => rw [hd] at h; cases h
  | ok d => exact calcEta_at ext hx hl ⟨rfl, rfl, rfl, rfl, rfl, rfl, rfl⟩ rfl

theorem forall2_mem {α β : Type} {R : α → β → Prop} {l : List α} {xs : List β}
    (h : List.Forall₂ R l xs) : ∀ a ∈ l, ∃ x, R a x := by
  induction h with
  | nil => simp
  | cons h _ ih =>
    intro a ha
    rcases List.mem_cons.1 ha with rfl | ha
    · exact ⟨_, h⟩
    · exact ih a ha

/-- The property fails: a file that says that the bottom quark is massless (or does not mention it) is
accepted, but the methods with a bottom quark then never give a result.  The file reader writes the flag 0
for a massless quark, the transport equations expect 2. -/
theorem C85_massless_fails (ext : External K M D G) (hx : FluidIgnoresMethod ext)
    (hb : NeedsBottomMass ext) (text : Str) (l : List Line)
    (hf : List.Forall₂ Means (split text '\n') l) (hno : .massive true ∉ l)
    (h5 : (switches l).length = 5) (hon : (switches l)[1]? = some true ∨ (switches l)[2]? = some true)
    (s : Interface K M D) : ∃ s', constructFromFile (some text) s = ok s' ∧
      ∀ a eta, (calcEtaAt ext s' a).2 ≠ ok eta := by
  refine ⟨{ s with methods := switches l, botMass := 0 }, ?_, ?_⟩
  · rw [C85_constructor]
    exact ⟨⟨switches l, 0⟩, (C85_config text _).2 ⟨l, hf, by rw [if_neg hno]⟩, h5, rfl⟩
  · intro a eta h
    obtain ⟨d, -, -, hv⟩ := C85_columns ext hx _ h5 a eta h
    have bad : ∀ m, m ≠ Method.top → ∀ x, value.via ext 0 a.vw a.tc d m ≠ ok x := by
      intro m hm x hxx
      rw [value.via, hb m 0 _ hm rfl] at hxx
      cases hxx
    obtain ⟨b0, b1, b2, b3, b4, hs⟩ := five h5
    have mem : Ansatz.topBot ∈ enabled (switches l) ∨ Ansatz.topBotTau ∈ enabled (switches l) := by
      rw [hs] at hon ⊢
      simp only [List.getElem?_cons_succ, List.getElem?_cons_zero, Option.some.injEq] at hon
      rcases hon with rfl | rfl
      · left; simp [enabled, Ansatz.all]
      · right; simp [enabled, Ansatz.all]
    have use : ∀ x ∈ enabled (switches l), ∃ y, value ext 0 a.vw a.tc d x = ok y := by
      exact fun x hx' => forall2_mem hv x hx'
    rcases mem with h | h
    · obtain ⟨y, hy⟩ := use _ h
      exact bad .bottom (by decide) y hy
    · obtain ⟨y, hy⟩ := use _ h
      exact bad .tau (by decide) y hy

/-- The property fails: after a model has been refused, the object holds the temperature and the velocity of
the refused point together with the wall of the point before.  A calculation without arguments then returns
a number that belongs to neither of them. -/
theorem C85_refused_point_fails : ∃ (ext : External Int Models.ModelID Int Int)
    (s : Interface Int Models.ModelID Int) (a b : Args Int Models.ModelID) (x y : Int),
    FluidIgnoresMethod ext ∧ s.methods.length = 5 ∧ (calcEtaAt ext s a).2 = ok [x] ∧
    (calcEtaAt ext (calcEtaAt ext s a).1 b).2 = err .runtime ∧
    (calcEta ext (calcEtaAt ext (calcEtaAt ext s a).1 b).1).2 = ok [y] ∧ y ≠ x ∧
    y = (100 * b.tc + a.tc) ∧ x = (100 * a.tc + a.tc) := by
  refine ⟨⟨id, fun a => ok a.tc, fun _ c => c, fun _ _ c => ok c.tc, fun g tc _ _ => ok (100 * tc + g),
    fun c => ok c.tc⟩, ⟨[true, false, false, false, false], 1, 0, 0, [], [], .notSet, ⟨false, .top, 0, 0, 0⟩⟩,
    ⟨1, [], [], 1, .c2hdm, 0⟩, ⟨1, [], [], 2, .sm, 0⟩, 101, 201, ?_, rfl, rfl, rfl, rfl, by decide, rfl, rfl⟩
  intro u m m' vw tc d
  rfl

/-- The configuration file of the distribution. -/
def exampleFile : Str :=
  ("### config file\n\nVIA Ansatz only including the top quark\nInclude:    yes\n\nInclude: yes\n" ++
    "Include:\tno\nVIA Ansatz treating the bottom quark massive\nMassive:    no\n" ++
    "INCLUDE: yes # comment\ninclude no").toList

/-- It is read as it says. -/
theorem exampleFile_read : readConfigFile (some exampleFile) = ok ⟨[true, true, false, true, false], 0⟩ := by
  decide +kernel

/-- A switch that is neither yes nor no is refused. -/
example : readConfigFile (some "Include: maybe\n".toList) = err .runtime := by decide +kernel

/-- The hypotheses of the theorem about massless quarks are met by this file. -/
example : ∃ l, List.Forall₂ Means (split exampleFile '\n') l ∧ .massive true ∉ l ∧
    (switches l).length = 5 ∧ (switches l)[1]? = some true := by
  obtain ⟨l, hl, hc⟩ := (C85_config _ _).1 exampleFile_read
  injection hc with h1 h2
  refine ⟨l, hl, ?_, by rw [← h1]; rfl, by rw [← h1]; rfl⟩
  intro hm
  rw [if_pos hm] at h2
  cases h2

/-- Numerical routines with the two assumed properties. -/
example : ∃ ext : External Int Models.ModelID Int Int, FluidIgnoresMethod ext ∧ NeedsBottomMass ext ∧
    ∃ c, ext.density .bottom 1 c = ok 1 := by
  refine ⟨⟨id, fun a => ok a.tc, fun _ c => c, fun m f _ => if m = .top then ok 1 else bottomMass f 1,
    fun g tc _ _ => ok (100 * tc + g), fun c => ok c.tc⟩, fun _ _ _ _ _ _ => rfl, ?_,
    ⟨false, .top, 0, 0, 0⟩, rfl⟩
  intro m flag c hm hf
  simp only [if_neg hm]
  exact hf

end Verif.Baryo
