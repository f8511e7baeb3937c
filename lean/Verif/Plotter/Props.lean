import Verif.Plotter.Model
import Verif.Plotter.Spec
import Verif.Programs.OptionsProps
import Mathlib.Data.List.Nodup
import Mathlib.Data.Rat.Cast.Order
import Mathlib.Tactic.Linarith
import Mathlib.Tactic.FieldSimp
import Mathlib.Tactic.NormNum
import Mathlib.Algebra.BigOperators.Group.List.Basic

/-!
# C109: the tables of `PotPlotter`
-/

set_option linter.unusedSimpArgs false
set_option linter.unusedVariables false

namespace Verif.Plotter

open Outcome Verif.Parser Verif.Programs

theorem mapM_ok_mem {α β : Type} {f : α → Outcome β} {l : List α} {r : List β} (h : l.mapM f = ok r) :
    ∀ a ∈ l, ∃ b, f a = ok b := by
  induction l generalizing r with
  | nil => simp
  | cons a l ih =>
    rw [List.mapM_cons] at h
    obtain ⟨b, hb, h⟩ := bind_eq_ok h
    obtain ⟨bs, hbs, h⟩ := bind_eq_ok h
    intro c hc
    rcases List.mem_cons.1 hc with rfl | hc
    · exact ⟨b, hb⟩
    · exact ih hbs c hc

/-! ### The loops -/

/-- The values of a direction. -/
def values (d : Dir) (v : ℚ) : List ℚ := Spec.axis d.low d.high d.n.toNat v

theorem create_eq (pre rest : List ℚ) (v : ℚ) (d : Dir) (hn : 0 ≤ d.n) (k : Nat) (hk : k = pre.length) :
    Tracer.create1DimGrid (pre ++ v :: rest) (k : Int) d.low d.high d.n =
      ok ((values d v).map fun x => pre ++ x :: rest) := by
  subst hk
  obtain ⟨m, hm⟩ := Int.eq_ofNat_of_zero_le hn
  unfold Tracer.create1DimGrid values Spec.axis
  rw [hm]
  simp only [Int.toNat_natCast, Nat.cast_eq_zero]
  by_cases h : m = 0
  · simp [h]
  · rw [if_neg (by omega), if_neg h]
    have e : ((m : Int) + 1).toNat = m + 1 := by omega
    rw [e]
    refine (mapM_ok (g := fun i : Nat => pre ++ (d.low + (d.high - d.low) * (i : ℚ) / m) :: rest) fun i _ => ?_).trans ?_
    · rw [if_pos (by simp)]
      congr 1
      rw [List.set_append_right _ _ le_rfl]
      simp only [Nat.sub_self, List.set_cons_zero]
      congr 2
      push_cast
      ring
    · rw [List.map_map]; rfl

theorem flatten_map {α β : Type} (l : List α) (f : α → List β) : (l.map f).flatten = l.flatMap f := by
  rw [List.flatMap_def]

/-- The first pass of the outermost loop prints all combinations. -/
theorem level_zero (nVEV : Nat) (rest : List ℚ) : ∀ (v : ℚ) (pre : List ℚ) (ds : List Dir) (j : Nat), j = pre.length + 1 →
    nVEV = pre.length + 1 + rest.length → rest.length + 1 ≤ ds.length → (∀ d ∈ ds, 0 ≤ d.n) →
    level nVEV 0 j ds (pre ++ v :: rest) =
      ok ((Spec.grid (List.zipWith values ds (v :: rest))).map fun p => pre ++ p) := by
  induction rest with
  | nil =>
    intro v pre ds j hj hn hl hd
    obtain _ | ⟨d, ds⟩ := ds
    · simp at hl
    rw [level, create_eq pre [] v d (hd d (by simp)) _ (by omega), bind_ok, if_pos (by simp at hn; omega)]
    congr 1
    simp only [List.zipWith_cons_cons, List.zipWith_nil_right, Spec.grid, List.map_flatMap]
    rw [List.map_eq_flatMap]
    rfl
  | cons w rest ih =>
    intro v pre ds j hj hn hl hd
    obtain _ | ⟨d, _ | ⟨d', ds⟩⟩ := ds
    · simp at hl
    · simp at hl
    simp only [List.length_cons] at hn hl
    rw [level, create_eq pre (w :: rest) v d (hd d (by simp)) _ (by omega), bind_ok, if_neg (by omega), if_pos (by omega),
      if_neg (by simp), List.mapM_map]
    rw [mapM_ok (g := fun x => (Spec.grid (List.zipWith values (d' :: ds) (w :: rest))).map fun p => (pre ++ [x]) ++ p)]
    · rw [bind_ok]
      congr 1
      rw [flatten_map, List.zipWith_cons_cons (as := d' :: ds), Spec.grid, List.map_flatMap]
      congr 1
      funext x
      rw [List.map_map]
      congr 1
      funext p
      simp
    · intro x _
      have := ih w (pre ++ [x]) (d' :: ds) (j + 1) (by simp; omega) (by simp; omega) (by simp; omega)
        (fun e he => hd e (List.mem_cons_of_mem _ he))
      simpa using this

/-- All other passes print nothing. -/
theorem level_other (nVEV i : Nat) (hi : 0 < i) (ds : List Dir) : ∀ (j : Nat) (a : List ℚ), 0 < j → a.length = nVEV →
    i + j ≤ nVEV → nVEV + 1 ≤ ds.length + i + j → (∀ d ∈ ds, 0 ≤ d.n) → level nVEV i j ds a = ok [] := by
  induction ds with
  | nil => intro j a _ _ _ _ _; rfl
  | cons d ds ih =>
    intro j a hj ha hle hlen hd
    obtain ⟨pre, v, rest, rfl, hp⟩ : ∃ pre v rest, a = pre ++ v :: rest ∧ pre.length = i + j - 1 := by
      refine ⟨a.take (i + j - 1), a[i + j - 1]'(by omega), a.drop (i + j - 1 + 1), ?_, by simp; omega⟩
      rw [List.getElem_cons_drop, List.take_append_drop]
    rw [level, create_eq pre rest v d (hd d (by simp)) _ hp.symm, bind_ok, if_neg (by omega)]
    by_cases h : i + j < nVEV
    · rw [if_pos h, if_neg (by rintro rfl; simp at hlen; omega)]
      rw [List.mapM_map, mapM_ok (g := fun _ => []) fun x _ => ?_]
      · simp
      · refine ih (j + 1) _ (by omega) ?_ (by omega) (by simp at hlen; omega) (fun e he => hd e (List.mem_cons_of_mem _ he))
        simpa using ha
    · rw [if_neg h]

/-! ### Validation of the options -/

/-- The conditions of one direction. -/
def DirOk (d : Dir) : Prop := 0 ≤ d.n ∧ d.low ≤ d.high ∧ (0 < d.n → d.low ≠ -1 ∧ d.high ≠ -1)

/-- **Options**: they are accepted if model, temperature, numbers of points and bounds make sense, and no bound of a
direction with points is -1. -/
theorem C109_good (o : Options) : good o = true ↔ o.modelSet = true ∧ 0 ≤ o.temperature ∧
    (o.slice = true → o.minStart ≠ [] ∧ o.minEnd ≠ []) ∧ 0 ≤ o.npoints ∧ ∀ d ∈ dirs o, DirOk d := by
  unfold good dirs DirOk
  simp only [ite_false_eq, and_true, List.mem_cons, List.not_mem_nil, or_false, forall_eq_or_imp, forall_eq, not_or, not_lt,
    not_and, Bool.not_eq_false, List.length_eq_zero_iff, ne_eq, gt_iff_lt]
  constructor
  · rintro ⟨h1, h2, h3, ⟨a1, a2, a3, a4, a5, a6, a7⟩, ⟨b1, b2, b3, b4, b5, b6⟩, ⟨c1, c2, c3, c4, c5, c6⟩⟩
    exact ⟨h1, h2, h3, a7, ⟨a1, b1, c1⟩, ⟨a2, b2, c2⟩, ⟨a3, b3, c3⟩, ⟨a4, b4, c4⟩, ⟨a5, b5, c5⟩, ⟨a6, b6, c6⟩⟩
  · rintro ⟨h1, h2, h3, a7, ⟨a1, b1, c1⟩, ⟨a2, b2, c2⟩, ⟨a3, b3, c3⟩, ⟨a4, b4, c4⟩, ⟨a5, b5, c5⟩, ⟨a6, b6, c6⟩⟩
    exact ⟨h1, h2, h3, ⟨a1, a2, a3, a4, a5, a6, a7⟩, ⟨b1, b2, b3, b4, b5, b6⟩, ⟨c1, c2, c3, c4, c5, c6⟩⟩

/-- **A bound of -1** cannot be requested: the program says that no bounds are defined. -/
theorem C109_bound_fails (o : Options) (d : Dir) (hd : d ∈ dirs o) (hn : 0 < d.n) (h : d.low = -1 ∨ d.high = -1) :
    good o = false := by
  rw [← Bool.not_eq_true, C109_good]
  rintro ⟨-, -, -, -, h5⟩
  have := (h5 d hd).2.2 hn
  tauto

/-- **Bounds are integers**: what follows the point of a number is ignored, and so is the sign of `-0.5`. -/
theorem C109_fraction_fails (p : Parser) (low high n : String) (v : List Char) :
    (getValue p low.toList = ok "-0.5".toList → getValue p high.toList = ok "0.75".toList →
      getValue p n.toList = ok "3".toList → dirOpt p low high n = ok ⟨0, 0, 3⟩) ∧
    (getValue p low.toList = ok "246.22".toList → getValue p high.toList = ok "1e3".toList →
      getValue p n.toList = ok "3".toList → dirOpt p low high n = ok ⟨246, 1, 3⟩) := by
  constructor <;>
  · intro h1 h2 h3
    unfold dirOpt intOpt
    rw [h1, h2, h3]
    decide +kernel

/-- **Every option is read from its own argument.** -/
theorem C109_read (stod : List Char → Outcome ℚ) (known : List Char → Bool) (p : Parser) (o : Options)
    (h : readOptions stod known p = ok o) :
    (∃ m, getValue p "model".toList = ok m ∧ o.modelSet = known m) ∧
    (getValue p "line".toList >>= stoi) = ok o.line ∧
    (getValue p "temperature".toList >>= stod) = ok o.temperature ∧
    vectorOpt stod p "point" = ok o.point ∧ vectorOpt stod p "min_start" = ok o.minStart ∧
    vectorOpt stod p "min_end" = ok o.minEnd ∧ flagOpt p "slice" false = ok o.slice ∧
    intOpt p "npoints" 100 = ok o.npoints ∧
    ∀ i d, (i, d) ∈ [("1", o.d1), ("2", o.d2), ("3", o.d3), ("4", o.d4), ("5", o.d5), ("6", o.d6)] →
      ∃ low high, intOpt p ("low" ++ i) (-1) = ok low ∧ intOpt p ("high" ++ i) (-1) = ok high ∧
        intOpt p ("npoints" ++ i) 0 = ok d.n ∧ d.low = low ∧ d.high = high := by
  unfold readOptions at h
  obtain ⟨_, _, h⟩ := bind_eq_ok h
  obtain ⟨model, h1, h⟩ := bind_eq_ok h
  obtain ⟨_, _, h⟩ := bind_eq_ok h
  obtain ⟨_, _, h⟩ := bind_eq_ok h
  obtain ⟨line, h2, h⟩ := bind_eq_ok h
  obtain ⟨temp, h3, h⟩ := bind_eq_ok h
  obtain ⟨point, h4, h⟩ := bind_eq_ok h
  obtain ⟨d1, h5, h⟩ := bind_eq_ok h
  obtain ⟨d2, h6, h⟩ := bind_eq_ok h
  obtain ⟨d3, h7, h⟩ := bind_eq_ok h
  obtain ⟨d4, h8, h⟩ := bind_eq_ok h
  obtain ⟨d5, h9, h⟩ := bind_eq_ok h
  obtain ⟨d6, h10, h⟩ := bind_eq_ok h
  obtain ⟨slice, h11, h⟩ := bind_eq_ok h
  obtain ⟨ms, h12, h⟩ := bind_eq_ok h
  obtain ⟨me, h13, h⟩ := bind_eq_ok h
  obtain ⟨np, h14, h⟩ := bind_eq_ok h
  rw [Outcome.ok.injEq] at h
  subst h
  have key : ∀ (l hi n : String) (d : Dir), dirOpt p l hi n = ok d →
      ∃ low high, intOpt p l (-1) = ok low ∧ intOpt p hi (-1) = ok high ∧ intOpt p n 0 = ok d.n ∧ d.low = low ∧ d.high = high := by
    intro l hi n d hd
    unfold dirOpt at hd
    obtain ⟨n', e1, hd⟩ := bind_eq_ok hd
    obtain ⟨low, e2, hd⟩ := bind_eq_ok hd
    obtain ⟨high, e3, hd⟩ := bind_eq_ok hd
    rw [Outcome.ok.injEq] at hd
    subst hd
    exact ⟨low, high, e2, e3, e1, rfl, rfl⟩
  refine ⟨⟨model, h1, rfl⟩, h2, h3, h4, h12, h13, h11, h14, fun i d hid => ?_⟩
  simp only [List.mem_cons, List.not_mem_nil, or_false, Prod.mk.injEq] at hid
  rcases hid with ⟨rfl, rfl⟩ | ⟨rfl, rfl⟩ | ⟨rfl, rfl⟩ | ⟨rfl, rfl⟩ | ⟨rfl, rfl⟩ | ⟨rfl, rfl⟩
  · exact key _ _ _ _ h5
  · exact key _ _ _ _ h6
  · exact key _ _ _ _ h7
  · exact key _ _ _ _ h8
  · exact key _ _ _ _ h9
  · exact key _ _ _ _ h10

/-! ### Points of the grid -/

theorem startIni_ok (o : Options) (s : List ℚ) (hl : s.length ≤ 6) : startIni o s =
    ok ((List.range s.length).map fun i => if ((dirs o).getD i {}).n > 0 then 0 else s.getD i 0) := by
  refine mapM_ok fun i hi => ?_
  have h1 : i < s.length := List.mem_range.1 hi
  have h2 : i < (dirs o).length := by simp [dirs]; omega
  unfold at'
  rw [List.getElem?_eq_getElem h2, List.getElem?_eq_getElem h1]
  simp [List.getD_eq_getElem?_getD, h1, h2]

theorem values_ini (o : Options) (s : List ℚ) (hd : ∀ d ∈ dirs o, 0 ≤ d.n) (hl : s.length ≤ 6) :
    List.zipWith values (dirs o) ((List.range s.length).map fun i =>
      if ((dirs o).getD i {}).n > 0 then 0 else s.getD i 0) = List.zipWith values (dirs o) s := by
  apply List.ext_getElem
  · simp
  · intro i h1 h2
    simp only [List.length_zipWith, lt_min_iff] at h2
    simp only [List.getElem_zipWith, List.getElem_map, List.getElem_range, List.getD_eq_getElem?_getD,
      List.getElem?_eq_getElem h2.1, List.getElem?_eq_getElem h2.2, Option.getD_some]
    have hn := hd _ (List.getElem_mem h2.1)
    split
    · rename_i h
      unfold values Spec.axis
      rw [if_neg (by omega), if_neg (by omega)]
    · rfl

/-- The reference point: zero if none is given. -/
def reference (o : Options) (nVEV : Nat) : List ℚ := if o.point = [] then List.replicate nVEV 0 else o.point

theorem points_ok (o : Options) (s : List ℚ) (hd : ∀ d ∈ dirs o, 0 ≤ d.n) (h1 : 1 ≤ s.length) (h6 : s.length ≤ 6) :
    points o s.length s = ok (Spec.grid (List.zipWith values (dirs o) s)) := by
  unfold points
  rw [startIni_ok o s h6, bind_ok, ← values_ini o s hd h6]
  generalize hini : ((List.range s.length).map fun i => if ((dirs o).getD i {}).n > 0 then (0 : ℚ) else s.getD i 0) = ini
  have hlen : ini.length = s.length := by rw [← hini]; simp
  have hz : level s.length 0 1 (dirs o) ini = ok (Spec.grid (List.zipWith values (dirs o) ini)) := by
    obtain _ | ⟨v, rest⟩ := ini
    · simp at hlen; omega
    · have := level_zero s.length rest v [] (dirs o) 1 rfl (by simp at hlen ⊢; omega) (by simp [dirs] at hlen ⊢; omega) hd
      simpa using this
  obtain ⟨m, hm⟩ : ∃ m, s.length = m + 1 := ⟨s.length - 1, by omega⟩
  have hall : (List.range s.length).mapM (fun i => level s.length i 1 (dirs o) ini) =
      ok ((List.range s.length).map fun i => if i = 0 then Spec.grid (List.zipWith values (dirs o) ini) else []) := by
    refine mapM_ok fun i hi => ?_
    split
    · rename_i h; rw [h, hz]
    · exact level_other s.length i (by omega) (dirs o) 1 ini one_pos hlen (by have := List.mem_range.1 hi; omega)
        (by simp [dirs]; omega) hd
  rw [hall, bind_ok, hm, List.range_succ_eq_map]
  congr 1
  rw [List.map_cons, List.flatten_cons, if_pos rfl, List.map_map]
  have : ((List.range m).map ((fun i => if i = 0 then Spec.grid (List.zipWith values (dirs o) ini) else []) ∘ Nat.succ)).flatten = [] := by
    rw [List.flatten_eq_nil_iff]
    intro l hl
    obtain ⟨i, -, rfl⟩ := List.mem_map.1 hl
    simp
  rw [this, List.append_nil]

/-- **Grid**: for up to six fields the file contains one row for each combination of the values of the fields, each
with the reference point, both values of the effective potential and the temperature. -/
theorem C109_grid (o : Options) (e : Env) (hg : good o = true) (hi : e.inGood = true) (ho : e.outGood = true)
    (hf : Batch.found e.steps = true) (hs : o.slice = false) (h1 : 1 ≤ e.nVEV) (h6 : e.nVEV ≤ 6)
    (hp : o.point = [] ∨ o.point.length = e.nVEV) :
    main o e = ⟨true, some (e.labels ++ e.labels.map (· ++ "_point") ++ ["Veff(v,T)", "Veff(point,T)", "T"],
      (Spec.grid (List.zipWith values (dirs o) (reference o e.nVEV))).map fun a =>
        a ++ reference o e.nVEV ++ [e.veff a o.temperature, e.veff (reference o e.nVEV) o.temperature, o.temperature])⟩ := by
  have hd : ∀ d ∈ dirs o, 0 ≤ d.n := fun d hd => (((C109_good o).1 hg).2.2.2.2 d hd).1
  have hlen : (reference o e.nVEV).length = e.nVEV := by
    unfold reference
    rcases hp with h | h
    · simp [h]
    · split
      · simp
      · exact h
  have hpts := points_ok o (reference o e.nVEV) hd (by omega) (by omega)
  rw [hlen] at hpts
  unfold main
  rw [if_neg (by simp [hg]), if_neg (by simp [hi]), if_neg (by simp [ho]), if_neg (by simp [hf])]
  simp only [hs, Bool.false_eq_true, if_false]
  by_cases hnil : o.point = []
  · have hr : reference o e.nVEV = List.replicate e.nVEV 0 := by simp [reference, hnil]
    rw [if_pos (by simp [hnil]), ← hr, hpts]
  · have hr : reference o e.nVEV = o.point := by simp [reference, hnil]
    rw [if_neg (by simpa using hnil), if_pos (by tauto), ← hr, hpts]

theorem grid_length (ls : List (List ℚ)) : ∀ p ∈ Spec.grid ls, p.length = ls.length := by
  induction ls with
  | nil => simp [Spec.grid]
  | cons A ls ih =>
    intro p hp
    simp only [Spec.grid, List.mem_flatMap, List.mem_map] at hp
    obtain ⟨x, -, q, hq, rfl⟩ := hp
    simp [ih q hq]

/-- The number of rows. -/
theorem C109_count (o : Options) (s : List ℚ) : (Spec.grid (List.zipWith values (dirs o) s)).length =
    (List.zipWith (fun d _ => d.n.toNat + 1) (dirs o) s).prod := by
  generalize dirs o = ds
  induction s generalizing ds with
  | nil => simp [Spec.grid]
  | cons v s ih =>
    obtain _ | ⟨d, ds⟩ := ds
    · simp [Spec.grid]
    · simp only [List.zipWith_cons_cons, Spec.grid, List.length_flatMap, List.length_map, List.map_const',
        List.sum_replicate, List.prod_cons, ih ds, smul_eq_mul]
      congr 1
      unfold values Spec.axis
      split
      · rename_i h; simp [h]
      · simp

/-- **No point is printed twice** if the bounds of all directions with points differ. -/
theorem C109_distinct (o : Options) (s : List ℚ) (h : ∀ d ∈ dirs o, 0 < d.n → d.low < d.high) :
    (Spec.grid (List.zipWith values (dirs o) s)).Nodup := by
  generalize dirs o = ds at h
  induction s generalizing ds with
  | nil => simp [Spec.grid]
  | cons v s ih =>
    obtain _ | ⟨d, ds⟩ := ds
    · simp [Spec.grid]
    · have hv : (values d v).Nodup := by
        unfold values Spec.axis
        split
        · simp
        · rename_i hn
          have hlt := h d (by simp) (by omega)
          refine List.Nodup.map ?_ List.nodup_range
          intro i j hij
          have hn' : (0 : ℚ) < (d.n.toNat : ℚ) := by exact_mod_cast Nat.pos_of_ne_zero hn
          have : (d.high - d.low) * (i : ℚ) = (d.high - d.low) * j := by
            have := add_left_cancel hij
            field_simp at this
            linarith
          exact_mod_cast mul_left_cancel₀ (by linarith : d.high - d.low ≠ 0) this
      rw [List.zipWith_cons_cons, Spec.grid, List.nodup_flatMap]
      refine ⟨fun x _ => List.Nodup.map (fun a b hab => (List.cons.inj hab).2) (ih ds fun e he => h e (List.mem_cons_of_mem _ he)), ?_⟩
      refine hv.imp fun hxy p hp1 hp2 => ?_
      obtain ⟨a, -, rfl⟩ := List.mem_map.1 hp1
      obtain ⟨b, -, hb⟩ := List.mem_map.1 hp2
      exact hxy (List.cons.inj hb).1.symm

/-- **Slice**: the rows are the points of the line in equal steps, start and end included. -/
theorem C109_slice (o : Options) (e : Env) (hg : good o = true) (hi : e.inGood = true) (ho : e.outGood = true)
    (hf : Batch.found e.steps = true) (hs : o.slice = true) (h1 : o.minStart.length = e.nVEV)
    (h2 : o.minEnd.length = e.nVEV) (hn : 0 < o.npoints) :
    ∃ ps : List (List ℚ), ps.length = o.npoints.toNat + 1 ∧
      main o e = ⟨true, some (e.labels ++ ["Veff(v,T)", "T"], ps.map fun a => a ++ [e.veff a o.temperature, o.temperature])⟩ ∧
      (∀ (i : Nat) (a : List ℚ), ps[i]? = some a → a.length = e.nVEV ∧ ∀ (k : Nat) (x y : ℚ), o.minStart[k]? = some x → o.minEnd[k]? = some y →
        a[k]? = some (x + (y - x) * i / o.npoints)) ∧
      ps[0]? = some o.minStart ∧ ps[o.npoints.toNat]? = some o.minEnd := by
  have hn' : (o.npoints : ℚ) ≠ 0 := by exact_mod_cast hn.ne'
  have hget : ∀ (i : Nat) (a : List ℚ), (line o.minStart o.minEnd o.npoints)[i]? = some a → a.length = e.nVEV ∧
      ∀ (k : Nat) (x y : ℚ), o.minStart[k]? = some x → o.minEnd[k]? = some y → a[k]? = some (x + (y - x) * i / o.npoints) := by
    intro i a ha
    unfold line at ha
    simp only [gt_iff_lt, hn, if_true] at ha
    obtain _ | i := i
    · simp at ha
      subst ha
      exact ⟨h1, fun k x y hx _ => by rw [hx]; simp⟩
    · rw [List.getElem?_cons_succ, List.getElem?_map] at ha
      obtain ⟨j, hj, rfl⟩ := Option.map_eq_some_iff.1 ha
      obtain ⟨-, rfl⟩ := List.getElem?_eq_some_iff.1 hj
      refine ⟨by simp [h1, h2], fun k x y hx hy => ?_⟩
      rw [List.getElem?_zipWith, hx, List.getElem?_map, List.getElem?_zipWith, hy, hx]
      simp only [List.getElem_range, Option.map_some, Option.some.injEq]
      push_cast
      field_simp
  refine ⟨line o.minStart o.minEnd o.npoints, by simp [line, hn], ?_, hget, by simp [line, hn], ?_⟩
  · unfold main
    rw [if_neg (by simp [hg]), if_neg (by simp [hi]), if_neg (by simp [ho]), if_neg (by simp [hf])]
    simp only [hs, if_true]
    rw [if_pos ⟨by omega, h2⟩]
  · have hlen : o.npoints.toNat < (line o.minStart o.minEnd o.npoints).length := by simp [line, hn]
    obtain ⟨hl, hk⟩ := hget _ _ (List.getElem?_eq_getElem hlen)
    rw [List.getElem?_eq_getElem hlen]
    congr 1
    apply List.ext_getElem?
    intro k
    by_cases hk' : k < e.nVEV
    · have e1 := List.getElem?_eq_getElem (l := o.minStart) (i := k) (by omega)
      have e2 := List.getElem?_eq_getElem (l := o.minEnd) (i := k) (by omega)
      rw [hk k _ _ e1 e2, e2]
      have : ((o.npoints.toNat : ℕ) : ℚ) = o.npoints := by
        have : ((o.npoints.toNat : ℕ) : Int) = o.npoints := Int.toNat_of_nonneg hn.le
        exact_mod_cast congrArg (Int.cast (R := ℚ)) this
      rw [this]
      congr 1
      field_simp
      ring
    · rw [List.getElem?_eq_none (by omega), List.getElem?_eq_none (by omega)]

/-- **Failures**: the status is that of success exactly if the options are accepted, the files can be opened, the line
is found, and the points have the dimension of the model, which has at most six fields for grids. -/
theorem C109_status (o : Options) (e : Env) : (main o e).success = true ↔
    good o = true ∧ e.inGood = true ∧ e.outGood = true ∧ Batch.found e.steps = true ∧
    (o.slice = true → o.minStart.length = e.nVEV ∧ o.minEnd.length = e.nVEV) ∧
    (o.slice = false → (o.point = [] ∨ o.point.length = e.nVEV) ∧ e.nVEV ≤ 6) := by
  by_cases hg : good o = true
  swap
  · simp [main, hg]
  by_cases hi : e.inGood = true
  swap
  · simp [main, hg, hi]
  by_cases ho : e.outGood = true
  swap
  · simp [main, hg, hi, ho]
  by_cases hf : Batch.found e.steps = true
  swap
  · simp [main, hg, hi, ho, hf]
  have hd : ∀ d ∈ dirs o, 0 ≤ d.n := fun d hd => (((C109_good o).1 hg).2.2.2.2 d hd).1
  cases hs : o.slice with
  | true =>
    unfold main
    simp only [hg, hi, ho, hf, hs, Bool.true_eq_false, if_false, if_true, true_and, forall_true_left, Bool.false_eq_true,
      false_implies, and_true, reduceCtorEq]
    split
    · rename_i h; simp; omega
    · rename_i h; simp; omega
  | false =>
    by_cases h6 : e.nVEV ≤ 6
    · by_cases hp : o.point = [] ∨ o.point.length = e.nVEV
      · by_cases h1 : 1 ≤ e.nVEV
        · rw [C109_grid o e hg hi ho hf hs h1 h6 hp]
          simp [hg, hi, ho, hf, h6, hp]
        · have h0 : e.nVEV = 0 := by omega
          have : o.point = [] := by
            rcases hp with h | h
            · exact h
            · exact List.length_eq_zero_iff.1 (by omega)
          simp [main, hg, hi, ho, hf, hs, this, h0, points, startIni]
      · have : o.point.length ≠ 0 := fun h => hp (.inl (List.length_eq_zero_iff.1 h))
        have h2 : o.point.length ≠ e.nVEV := fun h => hp (.inr h)
        have h3 : o.point ≠ [] := fun h => hp (.inl h)
        simp only [main, hg, hi, ho, hf, hs, this, h2, hp]
        simp [h3]
    · have hini : ∀ s : List ℚ, s.length = e.nVEV → ∀ r, points o e.nVEV s ≠ ok r := by
        intro s hl r hr
        unfold points at hr
        obtain ⟨ini, hr1, -⟩ := bind_eq_ok hr
        obtain ⟨b, hb⟩ := mapM_ok_mem hr1 6 (List.mem_range.2 (by omega))
        simp [at', dirs] at hb
      have hrun : ∀ (s : List ℚ) (A B : Run), s.length = e.nVEV → B.success = false →
          (match points o e.nVEV s with | .ok ps => A | _ => B).success = false := by
        intro s A B hl hB
        cases hq : points o e.nVEV s with
        | ok r => exact absurd hq (hini s hl r)
        | err _ => exact hB
        | ub _ => exact hB
      simp only [hg, hi, ho, hf, hs, h6, and_false, true_and, imp_false, iff_false, Bool.not_eq_true, Bool.false_eq_true,
        false_implies, not_true_eq_false, not_false_eq_true]
      unfold main
      simp only [hg, hi, ho, hf, hs, Bool.true_eq_false, Bool.false_eq_true, if_false]
      by_cases hp0 : o.point.length = 0
      · rw [if_pos hp0]
        cases hq : points o e.nVEV (List.replicate e.nVEV 0) with
        | ok r => exact absurd hq (hini _ (by simp) r)
        | err _ => rfl
        | ub _ => rfl
      · rw [if_neg hp0]
        by_cases hp1 : o.point.length = e.nVEV
        · rw [if_pos hp1]
          cases hq : points o e.nVEV o.point with
          | ok r => exact absurd hq (hini _ hp1 r)
          | err _ => rfl
          | ub _ => rfl
        · rw [if_neg hp1]

/-- **More than six fields** cannot be plotted, and the reason given is an index out of range. -/
theorem C109_seven_fails (o : Options) (s : List ℚ) (hl : 6 < s.length) : points o s.length s = err .outOfRange := by
  unfold points startIni
  obtain ⟨m, hm⟩ : ∃ m, s.length = 6 + (m + 1) := ⟨s.length - 7, by omega⟩
  rw [hm, List.range_add, List.mapM_append, List.range_succ_eq_map (n := m)]
  have h1 : (List.range 6).mapM (fun i => (do
      let d ← at' (dirs o) i
      let v ← at' s i
      ok (if d.n > 0 then 0 else v) : Outcome ℚ)) =
      ok ((List.range 6).map fun i => if ((dirs o).getD i {}).n > 0 then 0 else s.getD i 0) := by
    refine mapM_ok fun i hi => ?_
    have hi' : i < 6 := List.mem_range.1 hi
    have e1 : i < s.length := by omega
    have e2 : i < (dirs o).length := by simpa [dirs] using hi'
    unfold at'
    rw [List.getElem?_eq_getElem e2, List.getElem?_eq_getElem e1]
    simp [List.getD_eq_getElem?_getD, e1, e2]
  rw [h1]
  simp [at', dirs]

/-- **Columns**: the rows of a file have as many cells as its header. -/
theorem C109_columns (o : Options) (e : Env) (header : List String) (rows : List (List ℚ))
    (h : (main o e).file = some (header, rows)) (hl : e.labels.length = e.nVEV) (h1 : 1 ≤ e.nVEV) :
    ∀ r ∈ rows, r.length = header.length := by
  by_cases hst : (main o e).success = true
  · obtain ⟨hg, hi, ho, hf, hs1, hs2⟩ := (C109_status o e).1 hst
    cases hs : o.slice with
    | true =>
      obtain ⟨e1, e2⟩ := hs1 hs
      unfold main at h
      rw [if_neg (by simp [hg]), if_neg (by simp [hi]), if_neg (by simp [ho]), if_neg (by simp [hf])] at h
      simp only [hs, if_true] at h
      rw [if_pos ⟨by omega, e2⟩] at h
      simp only [Option.some.injEq, Prod.mk.injEq] at h
      obtain ⟨rfl, rfl⟩ := h
      intro r hr
      obtain ⟨a, ha, rfl⟩ := List.mem_map.1 hr
      have : a.length = e.nVEV := by
        unfold line at ha
        simp only at ha
        split at ha
        · rcases List.mem_cons.1 ha with rfl | ha
          · exact e1
          · obtain ⟨i, -, rfl⟩ := List.mem_map.1 ha
            simp [e1, e2]
        · simp at ha; rw [ha, e1]
      simp [this, hl]
    | false =>
      obtain ⟨hp, h6⟩ := hs2 hs
      rw [C109_grid o e hg hi ho hf hs h1 h6 hp] at h
      simp only [Option.some.injEq, Prod.mk.injEq] at h
      obtain ⟨rfl, rfl⟩ := h
      have hlen : (reference o e.nVEV).length = e.nVEV := by
        unfold reference
        rcases hp with h | h
        · simp [h]
        · split
          · simp
          · exact h
      intro r hr
      obtain ⟨a, ha, rfl⟩ := List.mem_map.1 hr
      have := grid_length _ a ha
      rw [List.length_zipWith, hlen, show (dirs o).length = 6 from rfl] at this
      simp [this, hl, hlen]
      omega
  · have : rows = [] := by
      unfold main at h hst
      repeat' split at h
      all_goals simp_all
      all_goals
        (revert h; (try split) <;> simp_all <;>
          first | tauto | (rename_i hh; rw [if_pos (hh.1 ▸ hh.2)] at hst; simp at hst))
    simp [this]

/-! ### A concrete case -/

/-- A grid with three times one point of two fields. -/
def exOptions : Options := { modelSet := true, temperature := 100, d1 := ⟨0, 10, 2⟩, point := [7, 5] }

def exEnv : Env := ⟨true, true, [.legend [], .point []], ["w1", "w2"], 2, fun a t => a.sum + t⟩

example : good exOptions = true ∧ (main exOptions exEnv).file =
    some (["w1", "w2", "w1_point", "w2_point", "Veff(v,T)", "Veff(point,T)", "T"],
      [[0, 5, 7, 5, 105, 112, 100], [5, 5, 7, 5, 110, 112, 100], [10, 5, 7, 5, 115, 112, 100]]) := by decide +kernel

example : good { exOptions with slice := true, minStart := [0, 0], minEnd := [10, 20], npoints := 2 } = true ∧
    (main { exOptions with slice := true, minStart := [0, 0], minEnd := [10, 20], npoints := 2 } exEnv).file =
    some (["w1", "w2", "Veff(v,T)", "T"], [[0, 0, 100, 100], [5, 10, 115, 100], [10, 20, 130, 100]]) := by decide +kernel

end Verif.Plotter
