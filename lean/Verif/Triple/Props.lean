import Verif.Triple.Lemmas
import Verif.Batch.Legend

/-!
# The couplings belong to the particles of their names (C102)
-/

namespace Verif.Triple

open Spec Batch
open scoped BigOperators

section

variable {K : Type} [Field K] [LinearOrder K] [IsStrictOrderedRing K] {R : Nat → Nat → K} {m : Nat → K}

/-- **R2HDM.** -/
theorem C102_r2hdm {gp gm g0 hp hm a h H : Nat} (hG : [gp, gm, g0].Perm [0, 1, 2])
    (hP : [hp, hm, a, h, H].Perm [3, 4, 5, 6, 7]) (hlt : h < H)
    (sgp : IsState 8 R [0, 2] gp) (sgm : IsState 8 R [1, 3] gm) (sg0 : IsState 8 R [5, 7] g0)
    (shp : IsState 8 R [0, 2] hp) (shm : IsState 8 R [1, 3] hm) (sa : IsState 8 R [5, 7] a)
    (sh : IsState 8 R [4, 6] h) (sH : IsState 8 R [4, 6] H) :
    ∃ order, orderR2HDM R = .ok order ∧ (particles false .r2hdm).zip order =
      [("G^+", gp), ("G^-", gm), ("H^+", hp), ("H^-", hm), ("G^0", g0), ("A", a), ("h", h), ("H", H)] := by
  have hsG : ∀ r ∈ [(gp, [0, 2]), (gm, [1, 3]), (g0, [5, 7])], IsState 8 R r.2 r.1 := by simp [*]
  have hsP : ∀ r ∈ [(hp, [0, 2]), (hm, [1, 3]), (a, [5, 7]), (h, [4, 6]), (H, [4, 6])], IsState 8 R r.2 r.1 := by
    simp [*]
  have e1 := last_state hsG (first := 0) (count := 3) hG (x := gp) (cols := [0, 2]) (by simp) (by simp) (by simp)
    (by simp)
  have e2 := last_state hsG (first := 0) (count := 3) hG (x := gm) (cols := [1, 3]) (by simp) (by simp) (by simp)
    (by simp)
  have e3 := last_state hsG (first := 0) (count := 3) hG (x := g0) (cols := [5, 7]) (by simp) (by simp) (by simp)
    (by simp)
  have e4 := last_state hsP (first := 3) (count := 5) hP (x := hp) (cols := [0, 2]) (by simp) (by simp) (by simp)
    (by simp)
  have e5 := last_state hsP (first := 3) (count := 5) hP (x := hm) (cols := [1, 3]) (by simp) (by simp) (by simp)
    (by simp)
  have e6 := last_state hsP (first := 3) (count := 5) hP (x := a) (cols := [5, 7]) (by simp) (by simp) (by simp)
    (by simp)
  have e7 := hits_state hsP (first := 3) (count := 5) hP (l := [h, H]) (cols := [4, 6]) (by simpa using hlt) (by simp)
    (by simp) (by simp) (by simp)
  refine ⟨[gp, gm, hp, hm, g0, a, h, H], ?_, rfl⟩
  unfold orderR2HDM
  rw [e7]
  simp only [e1, e2, e3, e4, e5, e6]

/-- **C2HDM**, with the names `h_1`, `h_2` and `h_3` of the default. -/
theorem C102_c2hdm {gp gm g0 hp hm h1 h2 h3 : Nat} (hG : [gp, gm, g0].Perm [0, 1, 2])
    (hP : [hp, hm, h1, h2, h3].Perm [3, 4, 5, 6, 7]) (h12 : h1 < h2) (h23 : h2 < h3)
    (sgp : IsState 8 R [0, 2] gp) (sgm : IsState 8 R [1, 3] gm) (sg0 : IsState 8 R [5, 7] g0)
    (shp : IsState 8 R [0, 2] hp) (shm : IsState 8 R [1, 3] hm)
    (s1 : IsState 8 R [4, 5, 6, 7] h1) (s2 : IsState 8 R [4, 5, 6, 7] h2) (s3 : IsState 8 R [4, 5, 6, 7] h3) :
    (∃ order, orderC2HDM false R m = .ok order ∧ (particles false .c2hdm).zip order =
      [("G^+", gp), ("G^-", gm), ("H^+", hp), ("H^-", hm), ("G^0", g0), ("h_1", h1), ("h_2", h2), ("h_3", h3)]) ∧
    (m h1 ≤ m h2 → m h2 ≤ m h3 → (∃ p ∈ [h1, h2, h3], 124 < m p ∧ m p < 126) →
      ∃ order s l h, orderC2HDM true R m = .ok order ∧ SMFirst m h1 h2 h3 s l h ∧ (particles true .c2hdm).zip order =
        [("G^+", gp), ("G^-", gm), ("H^+", hp), ("H^-", hm), ("G^0", g0), ("h_SM", s), ("h_l", l), ("h_H", h)]) := by
  have hsG : ∀ r ∈ [(gp, [0, 2]), (gm, [1, 3]), (g0, [5, 7])], IsState 8 R r.2 r.1 := by simp [*]
  have hsP : ∀ r ∈ [(hp, [0, 2]), (hm, [1, 3]), (h1, [4, 5, 6, 7]), (h2, [4, 5, 6, 7]), (h3, [4, 5, 6, 7])],
      IsState 8 R r.2 r.1 := by
    simp [*]
  have e1 := last_state hsG (first := 0) (count := 3) hG (x := gp) (cols := [0, 2]) (by simp) (by simp) (by simp)
    (by simp)
  have e2 := last_state hsG (first := 0) (count := 3) hG (x := gm) (cols := [1, 3]) (by simp) (by simp) (by simp)
    (by simp)
  have e3 := last_state hsG (first := 0) (count := 3) hG (x := g0) (cols := [5, 7]) (by simp) (by simp) (by simp)
    (by simp)
  have e4 := last_state hsP (first := 3) (count := 5) hP (x := hp) (cols := [0, 2]) (by simp) (by simp) (by simp)
    (by simp)
  have e5 := last_state hsP (first := 3) (count := 5) hP (x := hm) (cols := [1, 3]) (by simp) (by simp) (by simp)
    (by simp)
  have e7 := hits_state hsP (first := 3) (count := 5) hP (l := [h1, h2, h3]) (cols := [4, 5, 6, 7])
    (by simp; omega) (by simp) (by simp) (by simp) (by simp)
  refine ⟨⟨[gp, gm, hp, hm, g0, h1, h2, h3], ?_, rfl⟩, fun m12 m23 hw => ?_⟩
  · unfold orderC2HDM
    rw [e7]
    simp [fill3, e1, e2, e3, e4, e5]
  · obtain ⟨s, l, h, he, hS, -⟩ := exchange_window m12 m23 0 hw
    refine ⟨[gp, gm, hp, hm, g0, s, l, h], s, l, h, ?_, hS, rfl⟩
    unfold orderC2HDM
    rw [e7]
    simp [fill3, e1, e2, e3, e4, e5, he]

/-- **N2HDM.**  If one of the neutral scalars has a mass between 124 and 126, then it gets the name `h_SM`, whatever
the points before. -/
theorem C102_n2hdm_partial {gp gm g0 hp hm a h1 h2 h3 : Nat} (hG : [gp, gm, g0].Perm [0, 1, 2])
    (hP : [hp, hm, a, h1, h2, h3].Perm [3, 4, 5, 6, 7, 8]) (h12 : h1 < h2) (h23 : h2 < h3)
    (sgp : IsState 9 R [0, 1] gp) (sgm : IsState 9 R [2, 3] gm) (sg0 : IsState 9 R [4, 5] g0)
    (shp : IsState 9 R [0, 1] hp) (shm : IsState 9 R [2, 3] hm) (sa : IsState 9 R [4, 5] a)
    (s1 : IsState 9 R [6, 7, 8] h1) (s2 : IsState 9 R [6, 7, 8] h2) (s3 : IsState 9 R [6, 7, 8] h3)
    (m12 : m h1 ≤ m h2) (m23 : m h2 ≤ m h3) (msm : K) (hw : ∃ p ∈ [h1, h2, h3], 124 < m p ∧ m p < 126) :
    ∃ order s l h, orderN2HDM R m msm = .ok (order, m s) ∧ SMFirst m h1 h2 h3 s l h ∧
      (particles false .n2hdm).zip order = [("G^+", gp), ("G^-", gm), ("H^+", hp), ("H^-", hm), ("G^0", g0), ("A", a),
        ("h_SM", s), ("h_l", l), ("h_H", h)] := by
  have hsG : ∀ r ∈ [(gp, [0, 1]), (gm, [2, 3]), (g0, [4, 5])], IsState 9 R r.2 r.1 := by simp [*]
  have hsP : ∀ r ∈ [(hp, [0, 1]), (hm, [2, 3]), (a, [4, 5]), (h1, [6, 7, 8]), (h2, [6, 7, 8]), (h3, [6, 7, 8])],
      IsState 9 R r.2 r.1 := by
    simp [*]
  have e1 := last_state hsG (first := 0) (count := 3) hG (x := gp) (cols := [0, 1]) (by simp) (by simp) (by simp)
    (by simp)
  have e2 := last_state hsG (first := 0) (count := 3) hG (x := gm) (cols := [2, 3]) (by simp) (by simp) (by simp)
    (by simp)
  have e3 := last_state hsG (first := 0) (count := 3) hG (x := g0) (cols := [4, 5]) (by simp) (by simp) (by simp)
    (by simp)
  have e4 := last_state hsP (first := 3) (count := 6) hP (x := hp) (cols := [0, 1]) (by simp) (by simp) (by simp)
    (by simp)
  have e5 := last_state hsP (first := 3) (count := 6) hP (x := hm) (cols := [2, 3]) (by simp) (by simp) (by simp)
    (by simp)
  have e6 := last_state hsP (first := 3) (count := 6) hP (x := a) (cols := [4, 5]) (by simp) (by simp) (by simp)
    (by simp)
  have e7 := hits_state hsP (first := 3) (count := 6) hP (l := [h1, h2, h3]) (cols := [6, 7, 8])
    (by simp; omega) (by simp) (by simp) (by simp) (by simp)
  obtain ⟨s, l, h, he, hS, hm'⟩ := exchange_window m12 m23 msm hw
  refine ⟨[gp, gm, hp, hm, g0, a, s, l, h], s, l, h, ?_, hS, rfl⟩
  unfold orderN2HDM
  rw [e7]
  simp [fill3, e1, e2, e3, e4, e5, e6, he]
  exact hm'

/-- **CP in the Dark**, if the lightest scalar is not a dark one. -/
theorem C102_cpinthedark_partial {gp gm g0 hp hm h h1 h2 h3 : Nat}
    (hP : [gp, gm, hp, hm, h, g0, h1, h2, h3].Perm [0, 1, 2, 3, 4, 5, 6, 7, 8]) (h0 : h1 ≠ 0) (h12 : h1 < h2)
    (h23 : h2 < h3) (sgp : IsState 9 R [0] gp) (sgm : IsState 9 R [1] gm) (shp : IsState 9 R [2] hp)
    (shm : IsState 9 R [3] hm) (sh : IsState 9 R [4] h) (sg0 : IsState 9 R [5] g0)
    (s1 : IsState 9 R [6, 7, 8] h1) (s2 : IsState 9 R [6, 7, 8] h2) (s3 : IsState 9 R [6, 7, 8] h3) :
    (particles false .cpinthedark).zip (orderCPintheDark R) = [("G^+", gp), ("G^-", gm), ("H^+", hp), ("H^-", hm),
      ("h", h), ("G^0", g0), ("h_1", h1), ("h_2", h2), ("h_3", h3)] := by
  have hs : ∀ r ∈ [(gp, [0]), (gm, [1]), (hp, [2]), (hm, [3]), (h, [4]), (g0, [5]), (h1, [6, 7, 8]), (h2, [6, 7, 8]),
      (h3, [6, 7, 8])], IsState 9 R r.2 r.1 := by
    simp [*]
  have e7 := hits_state hs (first := 0) (count := 9) hP (l := [h1, h2, h3]) (cols := [6, 7, 8])
    (by simp; omega) (by simp) (by simp) (by simp) (by simp)
  unfold orderCPintheDark
  rw [e7, setNext_three h0 (by omega),
    chain_state hs (count := 9) hP (x := gp) (col := 0) (before := []) (by simp) (by simp) (by simp) (by simp),
    chain_state hs (count := 9) hP (x := gm) (col := 1) (before := [0]) (by simp) (by simp) (by simp) (by simp),
    chain_state hs (count := 9) hP (x := hp) (col := 2) (before := [0, 1]) (by simp) (by simp) (by simp) (by simp),
    chain_state hs (count := 9) hP (x := hm) (col := 3) (before := [0, 1, 2]) (by simp) (by simp) (by simp) (by simp),
    chain_state hs (count := 9) hP (x := h) (col := 4) (before := [0, 1, 2, 3]) (by simp) (by simp) (by simp) (by simp),
    chain_state hs (count := 9) hP (x := g0) (col := 5) (before := [0, 1, 2, 3, 4]) (by simp) (by simp) (by simp)
      (by simp)]
  rfl

/-- **CxSM**, if the lightest scalar is a Goldstone boson. -/
theorem C102_cxsm_partial {gp gm g0 h1 h2 h3 : Nat} (hP : [gp, gm, g0, h1, h2, h3].Perm [0, 1, 2, 3, 4, 5])
    (h0 : h1 ≠ 0) (h12 : h1 < h2) (h23 : h2 < h3) (sgp : IsState 6 R [0] gp) (sgm : IsState 6 R [1] gm)
    (sg0 : IsState 6 R [2] g0) (s1 : IsState 6 R [3, 4, 5] h1) (s2 : IsState 6 R [3, 4, 5] h2)
    (s3 : IsState 6 R [3, 4, 5] h3) :
    (particles false .cxsm).zip (orderCxSM R) = [("G+", gp), ("G-", gm), ("G0", g0), ("H1", h1), ("H2", h2),
      ("H3", h3)] := by
  have hs : ∀ r ∈ [(gp, [0]), (gm, [1]), (g0, [2]), (h1, [3, 4, 5]), (h2, [3, 4, 5]),
      (h3, [3, 4, 5])], IsState 6 R r.2 r.1 := by
    simp [*]
  have e7 := hits_state hs (first := 0) (count := 6) hP (l := [h1, h2, h3]) (cols := [3, 4, 5])
    (by simp; omega) (by simp) (by simp) (by simp) (by simp)
  unfold orderCxSM
  rw [e7, setNext_three h0 (by omega),
    chain_state hs (count := 6) hP (x := gp) (col := 0) (before := []) (by simp) (by simp) (by simp) (by simp),
    chain_state hs (count := 6) hP (x := gm) (col := 1) (before := [0]) (by simp) (by simp) (by simp) (by simp),
    chain_state hs (count := 6) hP (x := g0) (col := 2) (before := [0, 1]) (by simp) (by simp) (by simp) (by simp)]
  rfl

/-- A massless singlet may come before the Goldstone bosons; then the lightest scalar gets the name `H3`. -/
theorem C102_cxsm_fails {gp gm g0 h2 h3 : Nat} (hP : [gp, gm, g0, 0, h2, h3].Perm [0, 1, 2, 3, 4, 5])
    (h02 : 0 < h2) (h23 : h2 < h3) (sgp : IsState 6 R [0] gp) (sgm : IsState 6 R [1] gm)
    (sg0 : IsState 6 R [2] g0) (s1 : IsState 6 R [3, 4, 5] 0) (s2 : IsState 6 R [3, 4, 5] h2)
    (s3 : IsState 6 R [3, 4, 5] h3) :
    (particles false .cxsm).zip (orderCxSM R) = [("G+", gp), ("G-", gm), ("G0", g0), ("H1", h2), ("H2", h3),
      ("H3", 0)] := by
  have hs : ∀ r ∈ [(gp, [0]), (gm, [1]), (g0, [2]), (0, [3, 4, 5]), (h2, [3, 4, 5]),
      (h3, [3, 4, 5])], IsState 6 R r.2 r.1 := by
    simp [*]
  have e7 := hits_state hs (first := 0) (count := 6) hP (l := [0, h2, h3]) (cols := [3, 4, 5])
    (by simp; omega) (by simp) (by simp) (by simp) (by simp)
  unfold orderCxSM
  rw [e7, setNext_zero (by omega),
    chain_state hs (count := 6) hP (x := gp) (col := 0) (before := []) (by simp) (by simp) (by simp) (by simp),
    chain_state hs (count := 6) hP (x := gm) (col := 1) (before := [0]) (by simp) (by simp) (by simp) (by simp),
    chain_state hs (count := 6) hP (x := g0) (col := 2) (before := [0, 1]) (by simp) (by simp) (by simp) (by simp)]
  rfl

/-- **CP in the Dark**: a dark scalar which is lighter than the Goldstone bosons gets the name `h_3`. -/
theorem C102_cpinthedark_fails {gp gm g0 hp hm h h2 h3 : Nat}
    (hP : [gp, gm, hp, hm, h, g0, 0, h2, h3].Perm [0, 1, 2, 3, 4, 5, 6, 7, 8]) (h02 : 0 < h2)
    (h23 : h2 < h3) (sgp : IsState 9 R [0] gp) (sgm : IsState 9 R [1] gm) (shp : IsState 9 R [2] hp)
    (shm : IsState 9 R [3] hm) (sh : IsState 9 R [4] h) (sg0 : IsState 9 R [5] g0)
    (s1 : IsState 9 R [6, 7, 8] 0) (s2 : IsState 9 R [6, 7, 8] h2) (s3 : IsState 9 R [6, 7, 8] h3) :
    (particles false .cpinthedark).zip (orderCPintheDark R) = [("G^+", gp), ("G^-", gm), ("H^+", hp), ("H^-", hm),
      ("h", h), ("G^0", g0), ("h_1", h2), ("h_2", h3), ("h_3", 0)] := by
  have hs : ∀ r ∈ [(gp, [0]), (gm, [1]), (hp, [2]), (hm, [3]), (h, [4]), (g0, [5]), (0, [6, 7, 8]), (h2, [6, 7, 8]),
      (h3, [6, 7, 8])], IsState 9 R r.2 r.1 := by
    simp [*]
  have e7 := hits_state hs (first := 0) (count := 9) hP (l := [0, h2, h3]) (cols := [6, 7, 8])
    (by simp; omega) (by simp) (by simp) (by simp) (by simp)
  unfold orderCPintheDark
  rw [e7, setNext_zero (by omega),
    chain_state hs (count := 9) hP (x := gp) (col := 0) (before := []) (by simp) (by simp) (by simp) (by simp),
    chain_state hs (count := 9) hP (x := gm) (col := 1) (before := [0]) (by simp) (by simp) (by simp) (by simp),
    chain_state hs (count := 9) hP (x := hp) (col := 2) (before := [0, 1]) (by simp) (by simp) (by simp) (by simp),
    chain_state hs (count := 9) hP (x := hm) (col := 3) (before := [0, 1, 2]) (by simp) (by simp) (by simp) (by simp),
    chain_state hs (count := 9) hP (x := h) (col := 4) (before := [0, 1, 2, 3]) (by simp) (by simp) (by simp) (by simp),
    chain_state hs (count := 9) hP (x := g0) (col := 5) (before := [0, 1, 2, 3, 4]) (by simp) (by simp) (by simp)
      (by simp)]
  rfl

/-- **SM**: the names are given in the order of the masses, so that `H` is the heaviest scalar. -/
theorem C102_sm_partial : (particles false .sm).zip (orderSM R) = [("G+", 0), ("G-", 1), ("G0", 2), ("H", 3)] := rfl

/-- **No scalar with 125 GeV.**  If no neutral scalar of the C2HDM has a mass between 124 and 126, then the lightest one
gets the name `h_SM` all the same. -/
theorem C102_window_fails {h1 h2 h3 : Nat} (hn : hits (above R [4, 5, 6, 7]) 3 5 = [h1, h2, h3]) (h0 : 0 < m h1)
    (m12 : m h1 ≤ m h2) (hw : ∀ p ∈ [h1, h2, h3], ¬ (124 < m p ∧ m p < 126)) :
    ∃ order, orderC2HDM true R m = .ok order ∧ ("h_SM", h1) ∈ (particles true .c2hdm).zip order ∧
      ¬ (124 < m h1 ∧ m h1 < 126) := by
  have he : exchange m (h1, h2, h3) 0 = (h1, h2, h3) := by
    unfold exchange
    have h0' : 0 < m h2 := lt_of_lt_of_le h0 m12
    simp [h0.ne', h0'.ne', not_lt.2 h0.le, not_lt.2 h0'.le]
  unfold orderC2HDM
  rw [hn]
  refine ⟨_, rfl, ?_, hw h1 (by simp)⟩
  simp [findSM_none 0 hw, he, particles]

end

/-- The unit vectors `e (c 0)`, `e (c 1)`, … as rows. -/
def unit (c : List Nat) (i j : Nat) : ℚ := if c[i]? = some j then 1 else 0

/-- **The points before.**  For the same parameter point of the N2HDM, which has no scalar between 124 and 126 GeV, the
names depend on the point that was computed before: at first `h_SM` is the scalar with 100 GeV, after a point with a
scalar of 125 GeV it is the one with 200 GeV. -/
theorem C102_history_fails : ∃ (R : Nat → Nat → ℚ) (m m' : Nat → ℚ),
    runN2HDM [(R, m)] = .ok [[0, 1, 3, 4, 2, 5, 6, 7, 8]] ∧
    runN2HDM [(R, m'), (R, m)] = .ok [[0, 1, 3, 4, 2, 5, 6, 7, 8], [0, 1, 3, 4, 2, 5, 7, 6, 8]] ∧
    m 6 = 100 ∧ m 7 = 200 ∧ m' 6 = 125 := by
  refine ⟨unit [0, 2, 4, 1, 3, 5, 6, 7, 8], fun i => [0, 0, 0, 400, 400, 400, 100, 200, 300].getD i 0,
    fun i => [0, 0, 0, 400, 400, 400, 125, 200, 300].getD i 0, ?_, ?_, ?_, ?_, ?_⟩ <;> decide +kernel

/-- **Degenerate states.**  The eigenvectors of equal masses are not unique.  Here the rows are orthonormal and the
Goldstone bosons `G^+` and `G^-` are rotated into each other; then both names get the same row, and the other row has
no name. -/
theorem C102_degenerate_fails : ∃ R : Nat → Nat → ℚ,
    (∀ i < 8, ∀ k < 8, ∑ j ∈ Finset.range 8, R i j * R k j = if i = k then 1 else 0) ∧
    (∀ i < 2, ∀ j < 8, j ∉ [0, 1] → R i j = 0) ∧
    orderR2HDM R = .ok [1, 1, 3, 4, 2, 5, 6, 7] := by
  refine ⟨fun i j => if i = 0 then (if j = 0 then 3 / 5 else if j = 1 then 4 / 5 else 0) else
    if i = 1 then (if j = 0 then -4 / 5 else if j = 1 then 3 / 5 else 0) else unit [0, 1, 5, 2, 3, 7, 4, 6] i j,
    ?_, ?_, ?_⟩
  · decide +kernel
  · decide +kernel
  · decide +kernel

/-- Degenerate neutral scalars of the R2HDM: if `A` and a CP-even scalar with the same mass mix, then the array with two
elements for the CP-even scalars is overrun. -/
theorem C102_overrun_fails : ∃ R : Nat → Nat → ℚ,
    (∀ i < 8, ∀ k < 8, ∑ j ∈ Finset.range 8, R i j * R k j = if i = k then 1 else 0) ∧
    (∀ i < 6, ∃ c, ∀ j < 8, j ≠ c → R i j = 0) ∧
    orderR2HDM R = .ub .outOfBounds := by
  refine ⟨fun i j => if i = 6 then (if j = 4 then 3 / 5 else if j = 7 then 4 / 5 else 0) else
    if i = 7 then (if j = 4 then -4 / 5 else if j = 7 then 3 / 5 else 0) else unit [0, 1, 5, 2, 3, 6] i j,
    ?_, ?_, ?_⟩
  · decide +kernel
  · intro i hi
    refine ⟨[0, 1, 5, 2, 3, 6].getD i 0, ?_⟩
    revert i
    decide +kernel
  · decide +kernel

/-- **SM**: the first row gets the name of the charged Goldstone boson also if it is the neutral one. -/
theorem C102_sm_fails : ∃ R : Nat → Nat → ℚ,
    (∀ i < 4, ∀ k < 4, ∑ j ∈ Finset.range 4, R i j * R k j = if i = k then 1 else 0) ∧
    IsState 4 R [3] 0 ∧ IsState 4 R [2] 3 ∧ ("G+", 0) ∈ (particles false .sm).zip (orderSM R) := by
  refine ⟨unit [3, 0, 1, 2], by decide +kernel, ⟨by decide +kernel, by decide +kernel⟩,
    ⟨by decide +kernel, by decide +kernel⟩, by simp [particles, orderSM]⟩

/-! ### The hypotheses can be met -/

/-- A rotation of the two CP-even scalars. -/
def exRot : Nat → Nat → ℚ := fun i j =>
  if i = 4 then (if j = 4 then 3 / 5 else if j = 6 then 4 / 5 else 0) else
  if i = 7 then (if j = 4 then -4 / 5 else if j = 6 then 3 / 5 else 0) else unit [1, 5, 0, 2, 9, 3, 7] i j

example : ∃ order, orderR2HDM exRot = .ok order ∧ (particles false .r2hdm).zip order =
      [("G^+", 2), ("G^-", 0), ("H^+", 3), ("H^-", 5), ("G^0", 1), ("A", 6), ("h", 4), ("H", 7)] :=
  C102_r2hdm (R := exRot) (by decide) (by decide) (by decide) ⟨by decide +kernel, by decide +kernel⟩
    ⟨by decide +kernel, by decide +kernel⟩ ⟨by decide +kernel, by decide +kernel⟩ ⟨by decide +kernel, by decide +kernel⟩
    ⟨by decide +kernel, by decide +kernel⟩ ⟨by decide +kernel, by decide +kernel⟩ ⟨by decide +kernel, by decide +kernel⟩
    ⟨by decide +kernel, by decide +kernel⟩

example : ∃ order s l h, orderN2HDM (unit [0, 2, 4, 1, 6, 3, 7, 5, 8])
      (fun i => [0, 0, 0, 100, 110, 120, 125, 150, 300].getD i (0 : ℚ)) 0 = .ok (order, 125) ∧ s = 6 ∧ l = 4 ∧ h = 8 ∧
      order.getD 6 0 = s ∧ order.getD 7 0 = l ∧ order.getD 8 0 = h := by
  refine ⟨[0, 1, 3, 5, 2, 7, 6, 4, 8], 6, 4, 8, ?_, rfl, rfl, rfl, rfl, rfl, rfl⟩
  decide +kernel

example : (particles false .cxsm).zip (orderCxSM (unit [0, 2, 1, 3, 5, 4])) = [("G+", 0), ("G-", 2), ("G0", 1), ("H1", 3),
    ("H2", 4), ("H3", 5)] :=
  C102_cxsm_partial (R := unit [0, 2, 1, 3, 5, 4]) (by decide) (by decide) (by decide) (by decide)
    ⟨by decide +kernel, by decide +kernel⟩ ⟨by decide +kernel, by decide +kernel⟩ ⟨by decide +kernel, by decide +kernel⟩
    ⟨by decide +kernel, by decide +kernel⟩ ⟨by decide +kernel, by decide +kernel⟩ ⟨by decide +kernel, by decide +kernel⟩

end Verif.Triple
