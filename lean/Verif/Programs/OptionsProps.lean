import Verif.Programs.Options
import Mathlib.Tactic.Linarith

/-!
# C40: the options of `CalcTemps` and `CalcGW`
-/

namespace Verif.Programs

open Outcome Verif.Parser

/-! ## Specification: the documented values, from the help texts and the comments -/

/-- `--multistepmode` with the mode that is used for each documented value. -/
def multistepDoc : List (String × Int) :=
  [("default", -1), ("0", 0), ("1", 1), ("2", 2), ("auto", 3)]

/-- `--checknlo`. -/
def nloDoc : List (String × Int) := [("on", 1), ("off", 0)]

/-- `--checkewsr`. -/
def ewsrDoc : List (String × Int) := [("on", 1), ("keep_bfb", 2), ("keep_ewsr", 3), ("off", 0)]

/-- `--trans_temp`. -/
def transDoc : List (String × Int) := [("nucl_approx", 1), ("nucl", 2), ("perc", 3), ("compl", 4)]

/-- Settings that come from documented values. -/
structure Documented (o : Options) : Prop where
  model : o.modelSet = true
  lines : 1 ≤ o.firstline ∧ o.firstline ≤ o.lastline
  temps : o.templow < o.temphigh
  vwall : o.vwall = -1 ∨ o.vwall = -2 ∨ 0 < o.vwall ∧ o.vwall ≤ 1
  multistep : ∃ s, (s, o.multistep) ∈ multistepDoc
  pts : 0 ≤ o.numPts
  ewsr : ∃ s, (s, o.ewsr) ∈ ewsrDoc
  nlo : ∃ s, (s, o.nlo) ∈ nloDoc
  perc : 0 ≤ o.perc ∧ o.perc ≤ 1
  compl : 0 ≤ o.compl ∧ o.compl ≤ 1

/-- Every requested minimiser was compiled in, and at least one was requested. -/
def MinimizersAvailable (b : Built) (o : Options) : Prop :=
  (o.useGSL = true → b.gsl = true) ∧ (o.useCMAES = true → b.cmaes = true) ∧
  (o.useNLopt = true → b.nlopt = true) ∧ (o.useGSL = true ∨ o.useCMAES = true ∨ o.useNLopt = true)

/-! ## Reading the texts -/

theorem readDigits_eq (l : List Char) (hl : ∀ c ∈ l, c.isDigit = true) :
    ∀ (n : Nat) (b : Bool), readDigits l n b = (((Nat.ofDigitChars 10 l n : Nat) : Int), b || !l.isEmpty) := by
  induction l with
  | nil => intro n b; simp [readDigits]
  | cons c l ih =>
    intro n b
    have hc : c.isDigit = true := hl c (by simp)
    rw [readDigits, if_pos hc]
    have h1 : (n : Int) * 10 + ((c.toNat - 48 : Nat) : Int) = ((10 * n + (c.toNat - 48) : Nat) : Int) := by
      push_cast
      omega
    rw [h1, ih (fun x hx => hl x (List.mem_cons_of_mem _ hx)), Nat.ofDigitChars_cons]
    simp

theorem digits_start (n : Nat) : ∃ c l, Nat.toDigits 10 n = c :: l ∧ c.isDigit = true := by
  cases h : Nat.toDigits 10 n with
  | nil => exact absurd h (by simp)
  | cons c l =>
    exact ⟨c, l, rfl, Nat.isDigit_of_mem_toDigits (by decide) (by decide)
      (show c ∈ Nat.toDigits 10 n by rw [h]; simp)⟩

theorem readDigits_toDigits (n : Nat) : readDigits (Nat.toDigits 10 n) 0 false = ((n : Int), true) := by
  have hr := readDigits_eq (Nat.toDigits 10 n)
    (fun c hc => Nat.isDigit_of_mem_toDigits (by decide) (by decide) hc) 0 false
  rw [Nat.ofDigitChars_toDigits (by decide) (by decide)] at hr
  have hne : (Nat.toDigits 10 n).isEmpty = false := by simp
  rw [hne] at hr
  simpa using hr

/-- **C40.**  Line numbers and other integers are read as written: the decimal text of a number, with or
without a sign, gives that number if it fits into an `int` and an exception otherwise. -/
theorem C40_integers (n : Nat) :
    stoi (Nat.toDigits 10 n) = (if n ≤ 2147483647 then ok (n : Int) else err .outOfRange) ∧
    stoi ('-' :: Nat.toDigits 10 n) = (if n ≤ 2147483648 then ok (-(n : Int)) else err .outOfRange) := by
  obtain ⟨c, l, hcl, hc⟩ := digits_start n
  have hbad : ∀ x : Char, x.isDigit = false → c ≠ x := by
    intro x hx h
    rw [h, hx] at hc
    cases hc
  have hsp : isSpace c = false := by
    have h1 := hbad ' ' (by decide)
    have h2 := hbad '\t' (by decide)
    have h3 := hbad '\n' (by decide)
    have h4 := hbad '\x0b' (by decide)
    have h5 := hbad '\x0c' (by decide)
    have h6 := hbad '\r' (by decide)
    simp [isSpace, h1, h2, h3, h4, h5, h6]
  have hsign : readSign (c :: l) = (false, c :: l) := by
    rw [readSign, if_neg (hbad '-' (by decide)), if_neg (hbad '+' (by decide))]
  constructor
  · have hw : readSign ((Nat.toDigits 10 n).dropWhile isSpace) = (false, Nat.toDigits 10 n) := by
      rw [hcl, List.dropWhile_cons_of_neg (by simp [hsp]), hsign]
    rw [stoi, hw]
    simp only [readDigits_toDigits, Bool.false_eq_true, if_false]
    by_cases h : n ≤ 2147483647
    · rw [if_pos h, if_pos ⟨by omega, by omega⟩]
    · rw [if_neg h, if_neg (by omega)]
  · have hw : readSign (('-' :: Nat.toDigits 10 n).dropWhile isSpace) = (true, Nat.toDigits 10 n) := by
      rw [List.dropWhile_cons_of_neg (by decide)]
      rfl
    rw [stoi, hw]
    simp only [readDigits_toDigits, if_true]
    by_cases h : n ≤ 2147483648
    · rw [if_pos h, if_pos ⟨by omega, by omega⟩]
    · rw [if_neg h, if_neg (by omega)]

/-- Leading white space and any text after the digits are ignored; a text without digits is rejected. -/
example :
    stoi " 12abc".toList = ok 12 ∧ stoi "+7".toList = ok 7 ∧ stoi "auto1".toList = err .invalidArgument ∧
    stoi "".toList = err .invalidArgument ∧ stoi "--1".toList = err .invalidArgument := by
  decide +kernel

/-- **C40.**  White space in front of a number (blanks, tabulators, line ends, vertical tabulators and
form feeds) is skipped and makes no difference. -/
theorem C40_blanks (l s : List Char) (h : ∀ c ∈ l, c ∈ [' ', '\t', '\n', '\x0b', '\x0c', '\r']) :
    stoi (l ++ s) = stoi s := by
  have h2 : ∀ c ∈ l, isSpace c = true := by
    intro c hc
    have := h c hc
    simp only [List.mem_cons, List.not_mem_nil, or_false] at this
    rcases this with rfl | rfl | rfl | rfl | rfl | rfl <;> rfl
  have : (l ++ s).dropWhile isSpace = s.dropWhile isSpace := by
    clear h
    induction l with
    | nil => rfl
    | cons c l ih =>
      rw [List.cons_append, List.dropWhile_cons_of_pos (h2 c (by simp))]
      exact ih fun c hc => h2 c (by simp [hc])
  rw [stoi, stoi, this]

/-- **C40.**  A switch is on exactly if its value is the text `true`, every other value turns it off,
and without the option the default is kept. -/
theorem C40_switch (p : Parser) (name : String) (d : Bool) :
    (getValue p name.toList = ok "true".toList → flagOpt p name d = ok true) ∧
    (∀ s, s ≠ "true".toList → getValue p name.toList = ok s → flagOpt p name d = ok false) ∧
    (getValue p name.toList = err .parser → flagOpt p name d = ok d) := by
  refine ⟨?_, ?_, ?_⟩
  · intro h; rw [flagOpt, h]; rfl
  · intro s hs h
    rw [flagOpt, h, bind_ok]
    have : (s == "true".toList) = false := by simpa using hs
    rw [this]; rfl
  · intro h; rw [flagOpt, h]; rfl

/-- **C40.**  Each documented value selects the documented setting, and without the option the documented
default is used. -/
theorem C40_settings (p : Parser) :
    (∀ s n, (s, n) ∈ multistepDoc → getValue p "multistepmode".toList = ok s.toList → multistep p = ok n) ∧
    (∀ s n, (s, n) ∈ nloDoc → getValue p "checknlo".toList = ok s.toList → checkNLO p = ok n) ∧
    (∀ s n, (s, n) ∈ ewsrDoc → getValue p "checkewsr".toList = ok s.toList → checkEWSR p = ok n) ∧
    (∀ s n, (s, n) ∈ transDoc → getValue p "trans_temp".toList = ok s.toList → transTemp p = ok n) ∧
    (getValue p "multistepmode".toList = err .parser → multistep p = ok (-1)) ∧
    (getValue p "checknlo".toList = err .parser → checkNLO p = ok 1) ∧
    (getValue p "checkewsr".toList = err .parser → checkEWSR p = ok 1) ∧
    (getValue p "trans_temp".toList = err .parser → transTemp p = ok 3) := by
  refine ⟨?_, ?_, ?_, ?_, ?_, ?_, ?_, ?_⟩
  · intro s n h hg
    simp only [multistepDoc, List.mem_cons, Prod.mk.injEq, List.not_mem_nil, or_false] at h
    rcases h with ⟨rfl, rfl⟩ | ⟨rfl, rfl⟩ | ⟨rfl, rfl⟩ | ⟨rfl, rfl⟩ | ⟨rfl, rfl⟩ <;>
      (rw [multistep, hg, bind_ok]; decide +kernel)
  · intro s n h hg
    simp only [nloDoc, List.mem_cons, Prod.mk.injEq, List.not_mem_nil, or_false] at h
    rcases h with ⟨rfl, rfl⟩ | ⟨rfl, rfl⟩ <;> (rw [checkNLO, hg, bind_ok]; decide +kernel)
  · intro s n h hg
    simp only [ewsrDoc, List.mem_cons, Prod.mk.injEq, List.not_mem_nil, or_false] at h
    rcases h with ⟨rfl, rfl⟩ | ⟨rfl, rfl⟩ | ⟨rfl, rfl⟩ | ⟨rfl, rfl⟩ <;>
      (rw [checkEWSR, hg, bind_ok]; decide +kernel)
  · intro s n h hg
    simp only [transDoc, List.mem_cons, Prod.mk.injEq, List.not_mem_nil, or_false] at h
    rcases h with ⟨rfl, rfl⟩ | ⟨rfl, rfl⟩ | ⟨rfl, rfl⟩ | ⟨rfl, rfl⟩ <;>
      (rw [transTemp, hg, bind_ok]; decide +kernel)
  · intro h; rw [multistep, h]; rfl
  · intro h; rw [checkNLO, h]; rfl
  · intro h; rw [checkEWSR, h]; rfl
  · intro h; rw [transTemp, h]; rfl

theorem bind_eq_ok {α β : Type} {x : Outcome α} {f : α → Outcome β} {b : β} (h : x >>= f = ok b) :
    ∃ a, x = ok a ∧ f a = ok b := by
  cases x with
  | ok a => exact ⟨a, rfl, h⟩
  | err e => cases h
  | ub u => cases h

/-- **C40.**  Every setting is taken from its own option. -/
theorem C40_read (stod : List Char → Outcome ℚ) (gw : Bool) (b : Built) (known : List Char → Bool)
    (p : Parser) (o : Options) (h : readOptions stod gw b known p = ok o) :
    (∃ m, getValue p "model".toList = ok m ∧ o.modelSet = known m) ∧
    (getValue p "firstline".toList >>= stoi) = ok o.firstline ∧
    (getValue p "lastline".toList >>= stoi) = ok o.lastline ∧
    o.templow = 0 ∧ doubleOpt stod p "thigh" 300 = ok o.temphigh ∧
    doubleOpt stod p "vwall" (95 / 100) = ok o.vwall ∧
    doubleOpt stod p "perc_prbl" (71 / 100) = ok o.perc ∧
    doubleOpt stod p "compl_prbl" (1 / 100) = ok o.compl ∧
    multistep p = ok o.multistep ∧ checkNLO p = ok o.nlo ∧ checkEWSR p = ok o.ewsr ∧
    intOpt p "num_pts" 10 = ok o.numPts ∧ intOpt p "maxpathintegrations" 7 = ok o.maxPath ∧
    flagOpt p "usegsl" b.gsl = ok o.useGSL ∧ flagOpt p "usecmaes" b.cmaes = ok o.useCMAES ∧
    flagOpt p "usenlopt" b.nlopt = ok o.useNLopt ∧
    flagOpt p "usemultithreading" false = ok o.multithreading ∧
    (gw = true → transTemp p = ok o.trans ∧ doubleOpt stod p "epsturb" (1 / 10) = ok o.epsturb) ∧
    (gw = false → o.trans = 3 ∧ o.epsturb = 1 / 10) := by
  unfold readOptions at h
  obtain ⟨_, _, h⟩ := bind_eq_ok h
  obtain ⟨model, h1, h⟩ := bind_eq_ok h
  obtain ⟨_, _, h⟩ := bind_eq_ok h
  obtain ⟨_, _, h⟩ := bind_eq_ok h
  obtain ⟨first, h2, h⟩ := bind_eq_ok h
  obtain ⟨last, h3, h⟩ := bind_eq_ok h
  obtain ⟨thigh, h4, h⟩ := bind_eq_ok h
  obtain ⟨gsl, h5, h⟩ := bind_eq_ok h
  obtain ⟨cmaes, h6, h⟩ := bind_eq_ok h
  obtain ⟨nlopt, h7, h⟩ := bind_eq_ok h
  obtain ⟨mt, h8, h⟩ := bind_eq_ok h
  obtain ⟨ms, h9, h⟩ := bind_eq_ok h
  obtain ⟨pts, h10, h⟩ := bind_eq_ok h
  obtain ⟨vw, h11, h⟩ := bind_eq_ok h
  obtain ⟨perc, h12, h⟩ := bind_eq_ok h
  obtain ⟨comp, h13, h⟩ := bind_eq_ok h
  obtain ⟨nlo, h14, h⟩ := bind_eq_ok h
  obtain ⟨ewsr, h15, h⟩ := bind_eq_ok h
  obtain ⟨trans, h16, h⟩ := bind_eq_ok h
  obtain ⟨eps, h17, h⟩ := bind_eq_ok h
  obtain ⟨mpi, h18, h⟩ := bind_eq_ok h
  rw [Outcome.ok.injEq] at h
  subst h
  refine ⟨⟨model, h1, rfl⟩, h2, h3, rfl, h4, h11, h12, h13, h9, h14, h15, h10, h18, h5, h6, h7, h8, ?_, ?_⟩
  · intro hg
    rw [if_pos hg] at h16 h17
    exact ⟨h16, h17⟩
  · intro hg
    rw [if_neg (by simp [hg]), Outcome.ok.injEq] at h16 h17
    exact ⟨h16.symm, h17.symm⟩

/-! ## Validation -/

/-- **C40.**  The test of the minimisers passes exactly if those asked for are available and there is
one. -/
theorem C40_minimizers (b : Built) (o : Options) :
    minimizersOk b o = ok () ↔ MinimizersAvailable b o := by
  unfold minimizersOk MinimizersAvailable Minimizer.calcWhichMinimizer
  cases h1 : o.useGSL <;> cases h2 : o.useCMAES <;> cases h3 : o.useNLopt <;>
    cases h4 : b.gsl <;> cases h5 : b.cmaes <;> cases h6 : b.nlopt <;> simp

/-- **C40.**  Otherwise the program stops with an exception of the type `std::runtime_error`, never in
another way. -/
theorem C40_minimizers_missing (b : Built) (o : Options) (h : ¬ MinimizersAvailable b o) :
    minimizersOk b o = err .runtime := by
  revert h
  unfold minimizersOk MinimizersAvailable Minimizer.calcWhichMinimizer
  cases h1 : o.useGSL <;> cases h2 : o.useCMAES <;> cases h3 : o.useNLopt <;>
    cases h4 : b.gsl <;> cases h5 : b.cmaes <;> cases h6 : b.nlopt <;> simp

theorem ite_false_eq {c : Prop} [Decidable c] {b : Bool} : (if c then false else b) = true ↔ ¬ c ∧ b = true := by
  by_cases h : c <;> simp [h]

/-- **C40.**  What `CalcTemps` accepts: exactly the documented settings, without `keep_ewsr`. -/
theorem C40_temps_accepts_partial (b : Built) (o : Options) :
    goodTemps b o = ok true ↔ MinimizersAvailable b o ∧ Documented o ∧ o.ewsr ≠ 3 := by
  rw [← C40_minimizers]
  unfold goodTemps
  cases hm : minimizersOk b o with
  | err e => simp
  | ub u => simp
  | ok u =>
    simp only [bind_ok, Outcome.ok.injEq, ite_false_eq, true_and]
    constructor
    · rintro ⟨h1, h2, h3, h4, h5, h6, h7, h8, h9, h10, h11, h12, -⟩
      push Not at h2 h3 h4 h5 h6 h7 h8 h9 h10 h11 h12
      refine ⟨⟨by simpa using h1, ⟨by omega, by omega⟩, h5, ?_, ?_, h8, ?_, ?_, h11, h12⟩, by omega⟩
      · by_cases a : o.vwall = -1
        · exact Or.inl a
        · by_cases c : o.vwall = -2
          · exact Or.inr (Or.inl c)
          · exact Or.inr (Or.inr (h6 ⟨a, c⟩))
      · have : o.multistep = -1 ∨ o.multistep = 0 ∨ o.multistep = 1 ∨ o.multistep = 2 ∨ o.multistep = 3 := by
          omega
        rcases this with h | h | h | h | h <;> rw [h]
        · exact ⟨"default", by decide⟩
        · exact ⟨"0", by decide⟩
        · exact ⟨"1", by decide⟩
        · exact ⟨"2", by decide⟩
        · exact ⟨"auto", by decide⟩
      · have : o.ewsr = 0 ∨ o.ewsr = 1 ∨ o.ewsr = 2 := by omega
        rcases this with h | h | h <;> rw [h]
        · exact ⟨"off", by decide⟩
        · exact ⟨"on", by decide⟩
        · exact ⟨"keep_bfb", by decide⟩
      · have : o.nlo = 0 ∨ o.nlo = 1 := by omega
        rcases this with h | h <;> rw [h]
        · exact ⟨"off", by decide⟩
        · exact ⟨"on", by decide⟩
    · rintro ⟨⟨h1, h2, h3, h4, ⟨s, h5⟩, h6, ⟨s', h7⟩, ⟨s'', h8⟩, h9, h10⟩, h11⟩
      have e5 : -1 ≤ o.multistep ∧ o.multistep ≤ 3 := by
        simp only [multistepDoc, List.mem_cons, Prod.mk.injEq, List.not_mem_nil, or_false] at h5
        omega
      have e7 : 0 ≤ o.ewsr ∧ o.ewsr ≤ 3 := by
        simp only [ewsrDoc, List.mem_cons, Prod.mk.injEq, List.not_mem_nil, or_false] at h7
        omega
      have e8 : 0 ≤ o.nlo ∧ o.nlo ≤ 1 := by
        simp only [nloDoc, List.mem_cons, Prod.mk.injEq, List.not_mem_nil, or_false] at h8
        omega
      refine ⟨by simp [h1], by omega, by omega, by omega, not_le.2 h3, ?_, by omega, by omega, by omega,
        by omega, ?_, ?_, trivial⟩
      · rintro ⟨⟨a, c⟩, d⟩
        rcases h4 with h | h | h
        · exact a h
        · exact c h
        · rcases d with d | d
          · exact absurd h.1 (not_lt.2 d)
          · exact absurd h.2 (not_le.2 d)
      · rintro (d | d)
        · exact absurd h9.1 (not_le.2 d)
        · exact absurd h9.2 (not_le.2 d)
      · rintro (d | d)
        · exact absurd h10.1 (not_le.2 d)
        · exact absurd h10.2 (not_le.2 d)

/-- **C40, refuted.**  The documented value `keep_ewsr` of `--checkewsr` is never accepted by
`CalcTemps`, whatever the other options are. -/
theorem C40_temps_keep_ewsr (stod : List Char → Outcome ℚ) (b : Built) (known : List Char → Bool)
    (p : Parser) (o : Options) (h : readOptions stod false b known p = ok o)
    (hk : getValue p "checkewsr".toList = ok "keep_ewsr".toList) : goodTemps b o ≠ ok true := by
  intro hg
  have h1 := (C40_read stod false b known p o h).2.2.2.2.2.2.2.2.2.2.1
  rw [(C40_settings p).2.2.1 "keep_ewsr" 3 (by decide) hk, Outcome.ok.injEq] at h1
  exact ((C40_temps_accepts_partial b o).1 hg).2.2 h1.symm

/-- **C40.**  `CalcGW` accepts all documented settings. -/
theorem C40_gw_accepts (b : Built) (o : Options) (hm : MinimizersAvailable b o) (hd : Documented o)
    (he : o.epsturb = -1 ∨ 0 ≤ o.epsturb ∧ o.epsturb ≤ 1) : goodGW b o = ok true := by
  unfold goodGW
  rw [(C40_minimizers b o).2 hm]
  obtain ⟨h1, h2, h3, h4, ⟨s, h5⟩, h6, ⟨s', h7⟩, ⟨s'', h8⟩, h9, h10⟩ := hd
  have e5 : -1 ≤ o.multistep ∧ o.multistep ≤ 3 := by
    simp only [multistepDoc, List.mem_cons, Prod.mk.injEq, List.not_mem_nil, or_false] at h5
    omega
  have e7 : 0 ≤ o.ewsr ∧ o.ewsr ≤ 3 := by
    simp only [ewsrDoc, List.mem_cons, Prod.mk.injEq, List.not_mem_nil, or_false] at h7
    omega
  have e8 : 0 ≤ o.nlo ∧ o.nlo ≤ 1 := by
    simp only [nloDoc, List.mem_cons, Prod.mk.injEq, List.not_mem_nil, or_false] at h8
    omega
  simp only [bind_ok, Outcome.ok.injEq, ite_false_eq]
  refine ⟨by simp [h1], by omega, by omega, not_lt.2 (le_of_lt h3), ?_, ?_, by omega, by omega, by omega,
    by omega, ?_, ?_, trivial⟩
  · rintro ⟨⟨a, c⟩, d⟩
    rcases h4 with h | h | h
    · exact a h
    · exact c h
    · rcases d with d | d
      · exact absurd h.1 (not_lt.2 d)
      · exact absurd h.2 (not_le.2 d)
  · rintro ⟨a, d⟩
    rcases he with h | h
    · exact a h
    · rcases d with d | d
      · exact absurd h.1 (not_le.2 d)
      · exact absurd h.2 (not_le.2 d)
  · rintro (d | d)
    · exact absurd h9.1 (not_le.2 d)
    · exact absurd h9.2 (not_le.2 d)
  · rintro (d | d)
    · exact absurd h10.1 (not_le.2 d)
    · exact absurd h10.2 (not_le.2 d)

/-- **C40.**  Conversely `CalcGW` accepts nothing else, apart from negative line numbers and an empty
temperature range. -/
theorem C40_gw_only (b : Built) (o : Options) (h : goodGW b o = ok true) (hl : 0 < o.firstline)
    (ht : o.templow ≠ o.temphigh) :
    MinimizersAvailable b o ∧ Documented o ∧ (o.epsturb = -1 ∨ 0 ≤ o.epsturb ∧ o.epsturb ≤ 1) := by
  rw [← C40_minimizers]
  unfold goodGW at h
  cases hm : minimizersOk b o with
  | err e => rw [hm] at h; cases h
  | ub u => rw [hm] at h; cases h
  | ok u =>
    rw [hm] at h
    simp only [bind_ok, Outcome.ok.injEq, ite_false_eq] at h
    obtain ⟨h1, h2, h4, h5, h6, h6', h7, h8, h9, h10, h11, h12, -⟩ := h
    push Not at h2 h4 h5 h6 h6' h7 h8 h9 h10 h11 h12
    refine ⟨rfl, ⟨by simpa using h1, ⟨by omega, by omega⟩, lt_of_le_of_ne h5 ht, ?_, ?_, h8, ?_, ?_, h11,
      h12⟩, ?_⟩
    · by_cases a : o.vwall = -1
      · exact Or.inl a
      · by_cases c : o.vwall = -2
        · exact Or.inr (Or.inl c)
        · exact Or.inr (Or.inr (h6 ⟨a, c⟩))
    · have : o.multistep = -1 ∨ o.multistep = 0 ∨ o.multistep = 1 ∨ o.multistep = 2 ∨ o.multistep = 3 := by
        omega
      rcases this with h | h | h | h | h <;> rw [h]
      · exact ⟨"default", by decide⟩
      · exact ⟨"0", by decide⟩
      · exact ⟨"1", by decide⟩
      · exact ⟨"2", by decide⟩
      · exact ⟨"auto", by decide⟩
    · have : o.ewsr = 0 ∨ o.ewsr = 1 ∨ o.ewsr = 2 ∨ o.ewsr = 3 := by omega
      rcases this with h | h | h | h <;> rw [h]
      · exact ⟨"off", by decide⟩
      · exact ⟨"on", by decide⟩
      · exact ⟨"keep_bfb", by decide⟩
      · exact ⟨"keep_ewsr", by decide⟩
    · have : o.nlo = 0 ∨ o.nlo = 1 := by omega
      rcases this with h | h <;> rw [h]
      · exact ⟨"off", by decide⟩
      · exact ⟨"on", by decide⟩
    · by_cases a : o.epsturb = -1
      · exact Or.inl a
      · exact Or.inr (h6' a)

/-- Options for a run over two points with GSL only. -/
def exOptions : Options :=
  { modelSet := true, firstline := 2, lastline := 3, useGSL := true, useCMAES := false, useNLopt := false }

/-- **C40, refuted for `CalcGW`.**  Negative line numbers pass the validation that `CalcTemps` has. -/
theorem C40_gw_negative_lines :
    goodGW ⟨true, false, false⟩ { exOptions with firstline := -5, lastline := -2 } = ok true ∧
    goodTemps ⟨true, false, false⟩ { exOptions with firstline := -5, lastline := -2 } = ok false := by
  decide +kernel

/-- **C40.**  A text that is not documented is not rejected: for the two checks the default is used. -/
theorem C40_unknown_text (p : Parser) (s : List Char) :
    (getValue p "checknlo".toList = ok s → s ∉ nloDoc.map (·.1.toList) → checkNLO p = ok 1) ∧
    (getValue p "checkewsr".toList = ok s → s ∉ ewsrDoc.map (·.1.toList) → checkEWSR p = ok 1) := by
  constructor
  · intro h hn
    simp only [nloDoc, List.map_cons, List.map_nil, List.mem_cons, List.not_mem_nil, or_false, not_or] at hn
    rw [checkNLO, h, bind_ok, if_neg hn.1, if_neg hn.2]
    rfl
  · intro h hn
    simp only [ewsrDoc, List.map_cons, List.map_nil, List.mem_cons, List.not_mem_nil, or_false, not_or] at hn
    rw [checkEWSR, h, bind_ok, if_neg hn.1, if_neg hn.2.2.2, if_neg hn.2.1, if_neg hn.2.2.1]
    rfl

example : goodTemps ⟨true, false, false⟩ exOptions = ok true := by decide +kernel
example : Documented exOptions ∧ MinimizersAvailable ⟨true, false, false⟩ exOptions :=
  have h := (C40_temps_accepts_partial ⟨true, false, false⟩ exOptions).1 (by decide +kernel)
  ⟨h.2.1, h.1⟩

end Verif.Programs
