import Verif.Potential.LoopFun
import Mathlib.Tactic.Ring
import Mathlib.Tactic.FieldSimp
import Mathlib.Tactic.Linarith

/-!
# The branches of the loop function of four masses

One theorem for each of the 52 ways in which four non-negative numbers can vanish or coincide, and
the exchange of neighbouring arguments.
-/

set_option linter.unusedSimpArgs false

namespace Verif.Potential

open Outcome

/-- Equality of two formulas with non-zero denominators. -/
macro "swap_formula" : tactic => `(tactic| first | ring1 | (field_simp; ring1))

theorem four_0000 (s : ℝ) :
    fourBranch s 0 0 0 0 = .ok (0) := by
  simp [fourBranch, ck]

theorem four_000d (s d : ℝ) (hd : 0 < d) :
    fourBranch s 0 0 0 d = .ok ((lg s d) / (d * d)) := by
  simp [fourBranch, ck, hd.ne', hd.ne, hd.not_gt]

theorem four_00c0 (s c : ℝ) (hc : 0 < c) :
    fourBranch s 0 0 c 0 = .ok ((lg s c) / (c * c)) := by
  simp [fourBranch, ck, hc.ne', hc.ne, hc.not_gt]

theorem four_00cc (s c : ℝ) (hc : 0 < c) :
    fourBranch s 0 0 c c = .ok ((2 - (lg s c)) / (c * c)) := by
  simp [fourBranch, ck, hc.ne', hc.ne, hc.not_gt]

theorem four_00cd (s c d : ℝ) (hc : 0 < c) (hd : 0 < d) (hcd : c ≠ d) :
    fourBranch s 0 0 c d = .ok (1 / (c * d) + (d * (lg s c) - c * (lg s d)) / (c * d * (c
      - d))) := by
  simp [fourBranch, ck, hc.ne', hc.ne, hc.not_gt, hd.ne', hd.ne, hd.not_gt, hcd, hcd.symm]

theorem four_0b00 (s b : ℝ) (hb : 0 < b) :
    fourBranch s 0 b 0 0 = .ok ((lg s b) / (b * b)) := by
  simp [fourBranch, ck, hb.ne', hb.ne, hb.not_gt]

theorem four_0b0b (s b : ℝ) (hb : 0 < b) :
    fourBranch s 0 b 0 b = .ok ((2 - (lg s b)) / (b * b)) := by
  simp [fourBranch, ck, hb.ne', hb.ne, hb.not_gt]

theorem four_0b0d (s b d : ℝ) (hb : 0 < b) (hd : 0 < d) (hbd : b ≠ d) :
    fourBranch s 0 b 0 d = .ok (1 / (b * d) + (d * (lg s b) - b * (lg s d)) / (b * d * (b
      - d))) := by
  simp [fourBranch, ck, hb.ne', hb.ne, hb.not_gt, hd.ne', hd.ne, hd.not_gt, hbd, hbd.symm]

theorem four_0bb0 (s b : ℝ) (hb : 0 < b) :
    fourBranch s 0 b b 0 = .ok ((2 - (lg s b)) / (b * b)) := by
  simp [fourBranch, ck, hb.ne', hb.ne, hb.not_gt]

theorem four_0bbb (s b : ℝ) (hb : 0 < b) :
    fourBranch s 0 b b b = .ok (-1 / (2 * b * b)) := by
  simp [fourBranch, ck, hb.ne', hb.ne, hb.not_gt]

theorem four_0bbd (s b d : ℝ) (hb : 0 < b) (hd : 0 < d) (hbd : b ≠ d) :
    fourBranch s 0 b b d = .ok ((b - d + b * (lg s d) - b * (lg s b)) / (b * (b - d) * (b
      - d))) := by
  simp [fourBranch, ck, hb.ne', hb.ne, hb.not_gt, hd.ne', hd.ne, hd.not_gt, hbd, hbd.symm]

theorem four_0bc0 (s b c : ℝ) (hb : 0 < b) (hc : 0 < c) (hbc : b ≠ c) :
    fourBranch s 0 b c 0 = .ok (1 / (b * c) + (c * (lg s b) - b * (lg s c)) / (b * c * (b
      - c))) := by
  simp [fourBranch, ck, hb.ne', hb.ne, hb.not_gt, hc.ne', hc.ne, hc.not_gt, hbc, hbc.symm]

theorem four_0bcb (s b c : ℝ) (hb : 0 < b) (hc : 0 < c) (hbc : b ≠ c) :
    fourBranch s 0 b c b = .ok ((b - c + b * (lg s c) - b * (lg s b)) / (b * (b - c) * (b
      - c))) := by
  simp [fourBranch, ck, hb.ne', hb.ne, hb.not_gt, hc.ne', hc.ne, hc.not_gt, hbc, hbc.symm]

theorem four_0bcc (s b c : ℝ) (hb : 0 < b) (hc : 0 < c) (hbc : b ≠ c) :
    fourBranch s 0 b c c = .ok ((c - b + c * (lg s b) - c * (lg s c)) / (c * (b - c) * (b
      - c))) := by
  simp [fourBranch, ck, hb.ne', hb.ne, hb.not_gt, hc.ne', hc.ne, hc.not_gt, hbc, hbc.symm]

theorem four_0bcd (s b c d : ℝ) (hb : 0 < b) (hc : 0 < c) (hd : 0 < d) (hbc : b ≠ c) (hbd :
    b ≠ d) (hcd : c ≠ d) :
    fourBranch s 0 b c d = .ok (0) := by
  simp [fourBranch, ck, hb.ne', hb.ne, hb.not_gt, hc.ne', hc.ne, hc.not_gt, hd.ne', hd.ne,
    hd.not_gt, hbc, hbc.symm, hbd, hbd.symm, hcd, hcd.symm]

theorem four_a000 (s a : ℝ) (ha : 0 < a) :
    fourBranch s a 0 0 0 = .ok ((lg s a) / (a * a)) := by
  simp [fourBranch, ck, ha.ne', ha.ne, ha.not_gt]

theorem four_a00a (s a : ℝ) (ha : 0 < a) :
    fourBranch s a 0 0 a = .ok ((2 - (lg s a)) / (a * a)) := by
  simp [fourBranch, ck, ha.ne', ha.ne, ha.not_gt]

theorem four_a00d (s a d : ℝ) (ha : 0 < a) (hd : 0 < d) (had : a ≠ d) :
    fourBranch s a 0 0 d = .ok (1 / (a * d) + (d * (lg s a) - a * (lg s d)) / (a * d * (a
      - d))) := by
  simp [fourBranch, ck, ha.ne', ha.ne, ha.not_gt, hd.ne', hd.ne, hd.not_gt, had, had.symm]

theorem four_a0a0 (s a : ℝ) (ha : 0 < a) :
    fourBranch s a 0 a 0 = .ok ((2 - (lg s a)) / (a * a)) := by
  simp [fourBranch, ck, ha.ne', ha.ne, ha.not_gt]

theorem four_a0aa (s a : ℝ) (ha : 0 < a) :
    fourBranch s a 0 a a = .ok (-1 / (2 * a * a)) := by
  simp [fourBranch, ck, ha.ne', ha.ne, ha.not_gt]

theorem four_a0ad (s a d : ℝ) (ha : 0 < a) (hd : 0 < d) (had : a ≠ d) :
    fourBranch s a 0 a d = .ok ((a - d + a * (lg s d) - a * (lg s a)) / (a * (a - d) * (a
      - d))) := by
  simp [fourBranch, ck, ha.ne', ha.ne, ha.not_gt, hd.ne', hd.ne, hd.not_gt, had, had.symm]

theorem four_a0c0 (s a c : ℝ) (ha : 0 < a) (hc : 0 < c) (hac : a ≠ c) :
    fourBranch s a 0 c 0 = .ok (1 / (a * c) + (c * (lg s a) - a * (lg s c)) / (a * c * (a
      - c))) := by
  simp [fourBranch, ck, ha.ne', ha.ne, ha.not_gt, hc.ne', hc.ne, hc.not_gt, hac, hac.symm]

theorem four_a0ca (s a c : ℝ) (ha : 0 < a) (hc : 0 < c) (hac : a ≠ c) :
    fourBranch s a 0 c a = .ok ((a - c + a * (lg s c) - a * (lg s a)) / (a * (a - c) * (a
      - c))) := by
  simp [fourBranch, ck, ha.ne', ha.ne, ha.not_gt, hc.ne', hc.ne, hc.not_gt, hac, hac.symm]

theorem four_a0cc (s a c : ℝ) (ha : 0 < a) (hc : 0 < c) (hac : a ≠ c) :
    fourBranch s a 0 c c = .ok ((c - a + c * (lg s a) - c * (lg s c)) / (c * (c - a) * (c
      - a))) := by
  simp [fourBranch, ck, ha.ne', ha.ne, ha.not_gt, hc.ne', hc.ne, hc.not_gt, hac, hac.symm]

theorem four_a0cd (s a c d : ℝ) (ha : 0 < a) (hc : 0 < c) (hd : 0 < d) (hac : a ≠ c) (had :
    a ≠ d) (hcd : c ≠ d) :
    fourBranch s a 0 c d = .ok (0) := by
  simp [fourBranch, ck, ha.ne', ha.ne, ha.not_gt, hc.ne', hc.ne, hc.not_gt, hd.ne', hd.ne,
    hd.not_gt, hac, hac.symm, had, had.symm, hcd, hcd.symm]

theorem four_aa00 (s a : ℝ) (ha : 0 < a) :
    fourBranch s a a 0 0 = .ok ((2 - (lg s a)) / (a * a)) := by
  simp [fourBranch, ck, ha.ne', ha.ne, ha.not_gt]

theorem four_aa0a (s a : ℝ) (ha : 0 < a) :
    fourBranch s a a 0 a = .ok (-1 / (2 * a * a)) := by
  simp [fourBranch, ck, ha.ne', ha.ne, ha.not_gt]

theorem four_aa0d (s a d : ℝ) (ha : 0 < a) (hd : 0 < d) (had : a ≠ d) :
    fourBranch s a a 0 d = .ok ((a - d + a * (lg s d) - a * (lg s a)) / (a * (a - d) * (a
      - d))) := by
  simp [fourBranch, ck, ha.ne', ha.ne, ha.not_gt, hd.ne', hd.ne, hd.not_gt, had, had.symm]

theorem four_aaa0 (s a : ℝ) (ha : 0 < a) :
    fourBranch s a a a 0 = .ok (-1 / (2 * a * a)) := by
  simp [fourBranch, ck, ha.ne', ha.ne, ha.not_gt]

theorem four_aaaa (s a : ℝ) (ha : 0 < a) :
    fourBranch s a a a a = .ok (-1 / (6 * a * a)) := by
  simp [fourBranch, ck, ha.ne', ha.ne, ha.not_gt]

theorem four_aaad (s a d : ℝ) (ha : 0 < a) (hd : 0 < d) (had : a ≠ d) :
    fourBranch s a a a d = .ok ((-a * a + d * d + 2 * a * d * ((lg s a) - (lg s d))) / (2
      * a * (a - d) * (a - d) * (a - d))) := by
  simp [fourBranch, ck, ha.ne', ha.ne, ha.not_gt, hd.ne', hd.ne, hd.not_gt, had, had.symm]

theorem four_aac0 (s a c : ℝ) (ha : 0 < a) (hc : 0 < c) (hac : a ≠ c) :
    fourBranch s a a c 0 = .ok ((a - c + a * (lg s c) - a * (lg s a)) / (a * (a - c) * (a
      - c))) := by
  simp [fourBranch, ck, ha.ne', ha.ne, ha.not_gt, hc.ne', hc.ne, hc.not_gt, hac, hac.symm]

theorem four_aaca (s a c : ℝ) (ha : 0 < a) (hc : 0 < c) (hac : a ≠ c) :
    fourBranch s a a c a = .ok ((-a * a + c * c + 2 * a * c * ((lg s a) - (lg s c))) / (2
      * a * (a - c) * (a - c) * (a - c))) := by
  simp [fourBranch, ck, ha.ne', ha.ne, ha.not_gt, hc.ne', hc.ne, hc.not_gt, hac, hac.symm]

theorem four_aacc (s a c : ℝ) (ha : 0 < a) (hc : 0 < c) (hac : a ≠ c) :
    fourBranch s a a c c = .ok ((2 * (a - c) + (a + c) * ((lg s c) - (lg s a))) / ((a - c)
      * (a - c) * (a - c))) := by
  simp [fourBranch, ck, ha.ne', ha.ne, ha.not_gt, hc.ne', hc.ne, hc.not_gt, hac, hac.symm]

theorem four_aacd (s a c d : ℝ) (ha : 0 < a) (hc : 0 < c) (hd : 0 < d) (hac : a ≠ c) (had :
    a ≠ d) (hcd : c ≠ d) :
    fourBranch s a a c d = .ok ((c * (a - d) * (a - d) * (lg s c) - d * (a - c) * (a - c)
      * (lg s d) + (c - d) * ((a - c) * (a - d) + (-a * a + c * d) * (lg s a))) / ((a - c)
      * (a - c) * (a - d) * (a - d) * (c - d))) := by
  simp [fourBranch, ck, ha.ne', ha.ne, ha.not_gt, hc.ne', hc.ne, hc.not_gt, hd.ne', hd.ne,
    hd.not_gt, hac, hac.symm, had, had.symm, hcd, hcd.symm]

theorem four_ab00 (s a b : ℝ) (ha : 0 < a) (hb : 0 < b) (hab : a ≠ b) :
    fourBranch s a b 0 0 = .ok (1 / (a * b) + (b * (lg s a) - a * (lg s b)) / (a * b * (a
      - b))) := by
  simp [fourBranch, ck, ha.ne', ha.ne, ha.not_gt, hb.ne', hb.ne, hb.not_gt, hab, hab.symm]

theorem four_ab0a (s a b : ℝ) (ha : 0 < a) (hb : 0 < b) (hab : a ≠ b) :
    fourBranch s a b 0 a = .ok ((a - b + a * (lg s b) - a * (lg s a)) / (a * (a - b) * (a
      - b))) := by
  simp [fourBranch, ck, ha.ne', ha.ne, ha.not_gt, hb.ne', hb.ne, hb.not_gt, hab, hab.symm]

theorem four_ab0b (s a b : ℝ) (ha : 0 < a) (hb : 0 < b) (hab : a ≠ b) :
    fourBranch s a b 0 b = .ok ((b - a + b * (lg s a) - b * (lg s b)) / (b * (a - b) * (a
      - b))) := by
  simp [fourBranch, ck, ha.ne', ha.ne, ha.not_gt, hb.ne', hb.ne, hb.not_gt, hab, hab.symm]

theorem four_ab0d (s a b d : ℝ) (ha : 0 < a) (hb : 0 < b) (hd : 0 < d) (hab : a ≠ b) (had :
    a ≠ d) (hbd : b ≠ d) :
    fourBranch s a b 0 d = .ok (0) := by
  simp [fourBranch, ck, ha.ne', ha.ne, ha.not_gt, hb.ne', hb.ne, hb.not_gt, hd.ne', hd.ne,
    hd.not_gt, hab, hab.symm, had, had.symm, hbd, hbd.symm]

theorem four_aba0 (s a b : ℝ) (ha : 0 < a) (hb : 0 < b) (hab : a ≠ b) :
    fourBranch s a b a 0 = .ok ((a - b + a * (lg s b) - a * (lg s a)) / (a * (a - b) * (a
      - b))) := by
  simp [fourBranch, ck, ha.ne', ha.ne, ha.not_gt, hb.ne', hb.ne, hb.not_gt, hab, hab.symm]

theorem four_abaa (s a b : ℝ) (ha : 0 < a) (hb : 0 < b) (hab : a ≠ b) :
    fourBranch s a b a a = .ok ((-a * a + b * b + 2 * a * b * ((lg s a) - (lg s b))) / (2
      * a * (a - b) * (a - b) * (a - b))) := by
  simp [fourBranch, ck, ha.ne', ha.ne, ha.not_gt, hb.ne', hb.ne, hb.not_gt, hab, hab.symm]

theorem four_abab (s a b : ℝ) (ha : 0 < a) (hb : 0 < b) (hab : a ≠ b) :
    fourBranch s a b a b = .ok ((2 * (a - b) + (a + b) * ((lg s b) - (lg s a))) / ((a - b)
      * (a - b) * (a - b))) := by
  simp [fourBranch, ck, ha.ne', ha.ne, ha.not_gt, hb.ne', hb.ne, hb.not_gt, hab, hab.symm]

theorem four_abad (s a b d : ℝ) (ha : 0 < a) (hb : 0 < b) (hd : 0 < d) (hab : a ≠ b) (had :
    a ≠ d) (hbd : b ≠ d) :
    fourBranch s a b a d = .ok ((b * (a - d) * (a - d) * (lg s b) - d * (a - b) * (a - b)
      * (lg s d) + (b - d) * ((a - b) * (a - d) + (-a * a + b * d) * (lg s a))) / ((a - b)
      * (a - b) * (a - d) * (a - d) * (b - d))) := by
  simp [fourBranch, ck, ha.ne', ha.ne, ha.not_gt, hb.ne', hb.ne, hb.not_gt, hd.ne', hd.ne,
    hd.not_gt, hab, hab.symm, had, had.symm, hbd, hbd.symm]

theorem four_abb0 (s a b : ℝ) (ha : 0 < a) (hb : 0 < b) (hab : a ≠ b) :
    fourBranch s a b b 0 = .ok ((b - a + b * (lg s a) - b * (lg s b)) / (b * (a - b) * (a
      - b))) := by
  simp [fourBranch, ck, ha.ne', ha.ne, ha.not_gt, hb.ne', hb.ne, hb.not_gt, hab, hab.symm]

theorem four_abba (s a b : ℝ) (ha : 0 < a) (hb : 0 < b) (hab : a ≠ b) :
    fourBranch s a b b a = .ok ((2 * (a - b) + (a + b) * ((lg s b) - (lg s a))) / ((a - b)
      * (a - b) * (a - b))) := by
  simp [fourBranch, ck, ha.ne', ha.ne, ha.not_gt, hb.ne', hb.ne, hb.not_gt, hab, hab.symm]

theorem four_abbb (s a b : ℝ) (ha : 0 < a) (hb : 0 < b) (hab : a ≠ b) :
    fourBranch s a b b b = .ok ((-b * b + a * a + 2 * b * a * ((lg s b) - (lg s a))) / (2
      * b * (b - a) * (b - a) * (b - a))) := by
  simp [fourBranch, ck, ha.ne', ha.ne, ha.not_gt, hb.ne', hb.ne, hb.not_gt, hab, hab.symm]

theorem four_abbd (s a b d : ℝ) (ha : 0 < a) (hb : 0 < b) (hd : 0 < d) (hab : a ≠ b) (had :
    a ≠ d) (hbd : b ≠ d) :
    fourBranch s a b b d = .ok ((a * (b - d) * (b - d) * (lg s a) - d * (a - b) * (a - b)
      * (lg s d) + (a - d) * (-(a - b) * (b - d) + (-b * b + a * d) * (lg s b))) / ((a -
      b) * (a - b) * (b - d) * (b - d) * (a - d))) := by
  simp [fourBranch, ck, ha.ne', ha.ne, ha.not_gt, hb.ne', hb.ne, hb.not_gt, hd.ne', hd.ne,
    hd.not_gt, hab, hab.symm, had, had.symm, hbd, hbd.symm]

theorem four_abc0 (s a b c : ℝ) (ha : 0 < a) (hb : 0 < b) (hc : 0 < c) (hab : a ≠ b) (hac :
    a ≠ c) (hbc : b ≠ c) :
    fourBranch s a b c 0 = .ok (0) := by
  simp [fourBranch, ck, ha.ne', ha.ne, ha.not_gt, hb.ne', hb.ne, hb.not_gt, hc.ne', hc.ne,
    hc.not_gt, hab, hab.symm, hac, hac.symm, hbc, hbc.symm]

theorem four_abca (s a b c : ℝ) (ha : 0 < a) (hb : 0 < b) (hc : 0 < c) (hab : a ≠ b) (hac :
    a ≠ c) (hbc : b ≠ c) :
    fourBranch s a b c a = .ok ((b * (a - c) * (a - c) * (lg s b) - c * (a - b) * (a - b)
      * (lg s c) + (b - c) * ((a - b) * (a - c) + (-a * a + b * c) * (lg s a))) / ((a - b)
      * (a - b) * (a - c) * (a - c) * (b - c))) := by
  simp [fourBranch, ck, ha.ne', ha.ne, ha.not_gt, hb.ne', hb.ne, hb.not_gt, hc.ne', hc.ne,
    hc.not_gt, hab, hab.symm, hac, hac.symm, hbc, hbc.symm]

theorem four_abcb (s a b c : ℝ) (ha : 0 < a) (hb : 0 < b) (hc : 0 < c) (hab : a ≠ b) (hac :
    a ≠ c) (hbc : b ≠ c) :
    fourBranch s a b c b = .ok ((a * (b - c) * (b - c) * (lg s a) - c * (a - b) * (a - b)
      * (lg s c) + (a - c) * (-(a - b) * (b - c) + (-b * b + a * c) * (lg s b))) / ((a -
      b) * (a - b) * (b - c) * (b - c) * (a - c))) := by
  simp [fourBranch, ck, ha.ne', ha.ne, ha.not_gt, hb.ne', hb.ne, hb.not_gt, hc.ne', hc.ne,
    hc.not_gt, hab, hab.symm, hac, hac.symm, hbc, hbc.symm]

theorem four_abcc (s a b c : ℝ) (ha : 0 < a) (hb : 0 < b) (hc : 0 < c) (hab : a ≠ b) (hac :
    a ≠ c) (hbc : b ≠ c) :
    fourBranch s a b c c = .ok ((a * (b - c) * (b - c) * (lg s a) - b * (a - c) * (a - c)
      * (lg s b) + (a - b) * ((a - c) * (b - c) + (-c * c + a * b) * (lg s c))) / ((a - c)
      * (a - c) * (b - c) * (b - c) * (a - b))) := by
  simp [fourBranch, ck, ha.ne', ha.ne, ha.not_gt, hb.ne', hb.ne, hb.not_gt, hc.ne', hc.ne,
    hc.not_gt, hab, hab.symm, hac, hac.symm, hbc, hbc.symm]

theorem four_abcd (s a b c d : ℝ) (ha : 0 < a) (hb : 0 < b) (hc : 0 < c) (hd : 0 < d) (hab :
    a ≠ b) (hac : a ≠ c) (had : a ≠ d) (hbc : b ≠ c) (hbd : b ≠ d) (hcd : c ≠ d) :
    fourBranch s a b c d = .ok (a * (lg s a) / ((a - b) * (a - c) * (a - d)) + b * (lg s
      b) / ((b - a) * (b - c) * (b - d)) + c * (lg s c) / ((c - a) * (c - b) * (c - d)) +
      d * (lg s d) / ((d - a) * (d - b) * (d - c))) := by
  simp [fourBranch, ck, ha.ne', ha.ne, ha.not_gt, hb.ne', hb.ne, hb.not_gt, hc.ne', hc.ne,
    hc.not_gt, hd.ne', hd.ne, hd.not_gt, hab, hab.symm, hac, hac.symm, had, had.symm, hbc,
    hbc.symm, hbd, hbd.symm, hcd, hcd.symm]

theorem swap_ab_0b00 (s b : ℝ) (hb : 0 < b) :
    fourBranch s 0 b 0 0 = fourBranch s b 0 0 0 := by
  rw [four_0b00 s b hb, four_a000 s b hb]

theorem swap_ab_0b0b (s b : ℝ) (hb : 0 < b) :
    fourBranch s 0 b 0 b = fourBranch s b 0 0 b := by
  rw [four_0b0b s b hb, four_a00a s b hb]

theorem swap_ab_0b0d (s b d : ℝ) (hb : 0 < b) (hd : 0 < d) (hbd : b ≠ d) :
    fourBranch s 0 b 0 d = fourBranch s b 0 0 d := by
  rw [four_0b0d s b d hb hd hbd, four_a00d s b d hb hd hbd]

theorem swap_ab_0bb0 (s b : ℝ) (hb : 0 < b) :
    fourBranch s 0 b b 0 = fourBranch s b 0 b 0 := by
  rw [four_0bb0 s b hb, four_a0a0 s b hb]

theorem swap_ab_0bbb (s b : ℝ) (hb : 0 < b) :
    fourBranch s 0 b b b = fourBranch s b 0 b b := by
  rw [four_0bbb s b hb, four_a0aa s b hb]

theorem swap_ab_0bbd (s b d : ℝ) (hb : 0 < b) (hd : 0 < d) (hbd : b ≠ d) :
    fourBranch s 0 b b d = fourBranch s b 0 b d := by
  rw [four_0bbd s b d hb hd hbd, four_a0ad s b d hb hd hbd]

theorem swap_ab_0bc0 (s b c : ℝ) (hb : 0 < b) (hc : 0 < c) (hbc : b ≠ c) :
    fourBranch s 0 b c 0 = fourBranch s b 0 c 0 := by
  rw [four_0bc0 s b c hb hc hbc, four_a0c0 s b c hb hc hbc]

theorem swap_ab_0bcb (s b c : ℝ) (hb : 0 < b) (hc : 0 < c) (hbc : b ≠ c) :
    fourBranch s 0 b c b = fourBranch s b 0 c b := by
  rw [four_0bcb s b c hb hc hbc, four_a0ca s b c hb hc hbc]

theorem swap_ab_0bcc (s b c : ℝ) (hb : 0 < b) (hc : 0 < c) (hbc : b ≠ c) :
    fourBranch s 0 b c c = fourBranch s b 0 c c := by
  rw [four_0bcc s b c hb hc hbc, four_a0cc s b c hb hc hbc]
  congr 1
  have kbc := sub_ne_zero.2 hbc
  have kcb := sub_ne_zero.2 hbc.symm
  have kb := hb.ne'
  have kc := hc.ne'
  swap_formula

theorem swap_ab_0bcd (s b c d : ℝ) (hb : 0 < b) (hc : 0 < c) (hd : 0 < d) (hbc : b ≠ c) (hbd
    : b ≠ d) (hcd : c ≠ d) :
    fourBranch s 0 b c d = fourBranch s b 0 c d := by
  rw [four_0bcd s b c d hb hc hd hbc hbd hcd, four_a0cd s b c d hb hc hd hbc hbd hcd]

theorem swap_ab_a000 (s a : ℝ) (ha : 0 < a) :
    fourBranch s a 0 0 0 = fourBranch s 0 a 0 0 := by
  rw [four_a000 s a ha, four_0b00 s a ha]

theorem swap_ab_a00a (s a : ℝ) (ha : 0 < a) :
    fourBranch s a 0 0 a = fourBranch s 0 a 0 a := by
  rw [four_a00a s a ha, four_0b0b s a ha]

theorem swap_ab_a00d (s a d : ℝ) (ha : 0 < a) (hd : 0 < d) (had : a ≠ d) :
    fourBranch s a 0 0 d = fourBranch s 0 a 0 d := by
  rw [four_a00d s a d ha hd had, four_0b0d s a d ha hd had]

theorem swap_ab_a0a0 (s a : ℝ) (ha : 0 < a) :
    fourBranch s a 0 a 0 = fourBranch s 0 a a 0 := by
  rw [four_a0a0 s a ha, four_0bb0 s a ha]

theorem swap_ab_a0aa (s a : ℝ) (ha : 0 < a) :
    fourBranch s a 0 a a = fourBranch s 0 a a a := by
  rw [four_a0aa s a ha, four_0bbb s a ha]

theorem swap_ab_a0ad (s a d : ℝ) (ha : 0 < a) (hd : 0 < d) (had : a ≠ d) :
    fourBranch s a 0 a d = fourBranch s 0 a a d := by
  rw [four_a0ad s a d ha hd had, four_0bbd s a d ha hd had]

theorem swap_ab_a0c0 (s a c : ℝ) (ha : 0 < a) (hc : 0 < c) (hac : a ≠ c) :
    fourBranch s a 0 c 0 = fourBranch s 0 a c 0 := by
  rw [four_a0c0 s a c ha hc hac, four_0bc0 s a c ha hc hac]

theorem swap_ab_a0ca (s a c : ℝ) (ha : 0 < a) (hc : 0 < c) (hac : a ≠ c) :
    fourBranch s a 0 c a = fourBranch s 0 a c a := by
  rw [four_a0ca s a c ha hc hac, four_0bcb s a c ha hc hac]

theorem swap_ab_a0cc (s a c : ℝ) (ha : 0 < a) (hc : 0 < c) (hac : a ≠ c) :
    fourBranch s a 0 c c = fourBranch s 0 a c c := by
  rw [four_a0cc s a c ha hc hac, four_0bcc s a c ha hc hac]
  congr 1
  have kac := sub_ne_zero.2 hac
  have kca := sub_ne_zero.2 hac.symm
  have ka := ha.ne'
  have kc := hc.ne'
  swap_formula

theorem swap_ab_a0cd (s a c d : ℝ) (ha : 0 < a) (hc : 0 < c) (hd : 0 < d) (hac : a ≠ c) (had
    : a ≠ d) (hcd : c ≠ d) :
    fourBranch s a 0 c d = fourBranch s 0 a c d := by
  rw [four_a0cd s a c d ha hc hd hac had hcd, four_0bcd s a c d ha hc hd hac had hcd]

theorem swap_ab_ab00 (s a b : ℝ) (ha : 0 < a) (hb : 0 < b) (hab : a ≠ b) :
    fourBranch s a b 0 0 = fourBranch s b a 0 0 := by
  rw [four_ab00 s a b ha hb hab, four_ab00 s b a hb ha hab.symm]
  congr 1
  have kab := sub_ne_zero.2 hab
  have kba := sub_ne_zero.2 hab.symm
  have ka := ha.ne'
  have kb := hb.ne'
  swap_formula

theorem swap_ab_ab0a (s a b : ℝ) (ha : 0 < a) (hb : 0 < b) (hab : a ≠ b) :
    fourBranch s a b 0 a = fourBranch s b a 0 a := by
  rw [four_ab0a s a b ha hb hab, four_ab0b s b a hb ha hab.symm]
  congr 1
  have kab := sub_ne_zero.2 hab
  have kba := sub_ne_zero.2 hab.symm
  have ka := ha.ne'
  have kb := hb.ne'
  swap_formula

theorem swap_ab_ab0b (s a b : ℝ) (ha : 0 < a) (hb : 0 < b) (hab : a ≠ b) :
    fourBranch s a b 0 b = fourBranch s b a 0 b := by
  rw [four_ab0b s a b ha hb hab, four_ab0a s b a hb ha hab.symm]
  congr 1
  have kab := sub_ne_zero.2 hab
  have kba := sub_ne_zero.2 hab.symm
  have ka := ha.ne'
  have kb := hb.ne'
  swap_formula

theorem swap_ab_ab0d (s a b d : ℝ) (ha : 0 < a) (hb : 0 < b) (hd : 0 < d) (hab : a ≠ b) (had
    : a ≠ d) (hbd : b ≠ d) :
    fourBranch s a b 0 d = fourBranch s b a 0 d := by
  rw [four_ab0d s a b d ha hb hd hab had hbd, four_ab0d s b a d hb ha hd hab.symm hbd had]

theorem swap_ab_aba0 (s a b : ℝ) (ha : 0 < a) (hb : 0 < b) (hab : a ≠ b) :
    fourBranch s a b a 0 = fourBranch s b a a 0 := by
  rw [four_aba0 s a b ha hb hab, four_abb0 s b a hb ha hab.symm]
  congr 1
  have kab := sub_ne_zero.2 hab
  have kba := sub_ne_zero.2 hab.symm
  have ka := ha.ne'
  have kb := hb.ne'
  swap_formula

theorem swap_ab_abaa (s a b : ℝ) (ha : 0 < a) (hb : 0 < b) (hab : a ≠ b) :
    fourBranch s a b a a = fourBranch s b a a a := by
  rw [four_abaa s a b ha hb hab, four_abbb s b a hb ha hab.symm]

theorem swap_ab_abab (s a b : ℝ) (ha : 0 < a) (hb : 0 < b) (hab : a ≠ b) :
    fourBranch s a b a b = fourBranch s b a a b := by
  rw [four_abab s a b ha hb hab, four_abba s b a hb ha hab.symm]
  congr 1
  have kab := sub_ne_zero.2 hab
  have kba := sub_ne_zero.2 hab.symm
  have ka := ha.ne'
  have kb := hb.ne'
  swap_formula

theorem swap_ab_abad (s a b d : ℝ) (ha : 0 < a) (hb : 0 < b) (hd : 0 < d) (hab : a ≠ b) (had
    : a ≠ d) (hbd : b ≠ d) :
    fourBranch s a b a d = fourBranch s b a a d := by
  rw [four_abad s a b d ha hb hd hab had hbd, four_abbd s b a d hb ha hd hab.symm hbd had]
  congr 1
  have kab := sub_ne_zero.2 hab
  have kba := sub_ne_zero.2 hab.symm
  have kad := sub_ne_zero.2 had
  have kda := sub_ne_zero.2 had.symm
  have kbd := sub_ne_zero.2 hbd
  have kdb := sub_ne_zero.2 hbd.symm
  have ka := ha.ne'
  have kb := hb.ne'
  have kd := hd.ne'
  swap_formula

theorem swap_ab_abb0 (s a b : ℝ) (ha : 0 < a) (hb : 0 < b) (hab : a ≠ b) :
    fourBranch s a b b 0 = fourBranch s b a b 0 := by
  rw [four_abb0 s a b ha hb hab, four_aba0 s b a hb ha hab.symm]
  congr 1
  have kab := sub_ne_zero.2 hab
  have kba := sub_ne_zero.2 hab.symm
  have ka := ha.ne'
  have kb := hb.ne'
  swap_formula

theorem swap_ab_abba (s a b : ℝ) (ha : 0 < a) (hb : 0 < b) (hab : a ≠ b) :
    fourBranch s a b b a = fourBranch s b a b a := by
  rw [four_abba s a b ha hb hab, four_abab s b a hb ha hab.symm]
  congr 1
  have kab := sub_ne_zero.2 hab
  have kba := sub_ne_zero.2 hab.symm
  have ka := ha.ne'
  have kb := hb.ne'
  swap_formula

theorem swap_ab_abbb (s a b : ℝ) (ha : 0 < a) (hb : 0 < b) (hab : a ≠ b) :
    fourBranch s a b b b = fourBranch s b a b b := by
  rw [four_abbb s a b ha hb hab, four_abaa s b a hb ha hab.symm]

theorem swap_ab_abbd (s a b d : ℝ) (ha : 0 < a) (hb : 0 < b) (hd : 0 < d) (hab : a ≠ b) (had
    : a ≠ d) (hbd : b ≠ d) :
    fourBranch s a b b d = fourBranch s b a b d := by
  rw [four_abbd s a b d ha hb hd hab had hbd, four_abad s b a d hb ha hd hab.symm hbd had]
  congr 1
  have kab := sub_ne_zero.2 hab
  have kba := sub_ne_zero.2 hab.symm
  have kad := sub_ne_zero.2 had
  have kda := sub_ne_zero.2 had.symm
  have kbd := sub_ne_zero.2 hbd
  have kdb := sub_ne_zero.2 hbd.symm
  have ka := ha.ne'
  have kb := hb.ne'
  have kd := hd.ne'
  swap_formula

theorem swap_ab_abc0 (s a b c : ℝ) (ha : 0 < a) (hb : 0 < b) (hc : 0 < c) (hab : a ≠ b) (hac
    : a ≠ c) (hbc : b ≠ c) :
    fourBranch s a b c 0 = fourBranch s b a c 0 := by
  rw [four_abc0 s a b c ha hb hc hab hac hbc, four_abc0 s b a c hb ha hc hab.symm hbc hac]

theorem swap_ab_abca (s a b c : ℝ) (ha : 0 < a) (hb : 0 < b) (hc : 0 < c) (hab : a ≠ b) (hac
    : a ≠ c) (hbc : b ≠ c) :
    fourBranch s a b c a = fourBranch s b a c a := by
  rw [four_abca s a b c ha hb hc hab hac hbc, four_abcb s b a c hb ha hc hab.symm hbc hac]
  congr 1
  have kab := sub_ne_zero.2 hab
  have kba := sub_ne_zero.2 hab.symm
  have kac := sub_ne_zero.2 hac
  have kca := sub_ne_zero.2 hac.symm
  have kbc := sub_ne_zero.2 hbc
  have kcb := sub_ne_zero.2 hbc.symm
  have ka := ha.ne'
  have kb := hb.ne'
  have kc := hc.ne'
  swap_formula

theorem swap_ab_abcb (s a b c : ℝ) (ha : 0 < a) (hb : 0 < b) (hc : 0 < c) (hab : a ≠ b) (hac
    : a ≠ c) (hbc : b ≠ c) :
    fourBranch s a b c b = fourBranch s b a c b := by
  rw [four_abcb s a b c ha hb hc hab hac hbc, four_abca s b a c hb ha hc hab.symm hbc hac]
  congr 1
  have kab := sub_ne_zero.2 hab
  have kba := sub_ne_zero.2 hab.symm
  have kac := sub_ne_zero.2 hac
  have kca := sub_ne_zero.2 hac.symm
  have kbc := sub_ne_zero.2 hbc
  have kcb := sub_ne_zero.2 hbc.symm
  have ka := ha.ne'
  have kb := hb.ne'
  have kc := hc.ne'
  swap_formula

theorem swap_ab_abcc (s a b c : ℝ) (ha : 0 < a) (hb : 0 < b) (hc : 0 < c) (hab : a ≠ b) (hac
    : a ≠ c) (hbc : b ≠ c) :
    fourBranch s a b c c = fourBranch s b a c c := by
  rw [four_abcc s a b c ha hb hc hab hac hbc, four_abcc s b a c hb ha hc hab.symm hbc hac]
  congr 1
  have kab := sub_ne_zero.2 hab
  have kba := sub_ne_zero.2 hab.symm
  have kac := sub_ne_zero.2 hac
  have kca := sub_ne_zero.2 hac.symm
  have kbc := sub_ne_zero.2 hbc
  have kcb := sub_ne_zero.2 hbc.symm
  have ka := ha.ne'
  have kb := hb.ne'
  have kc := hc.ne'
  swap_formula

theorem swap_ab_abcd (s a b c d : ℝ) (ha : 0 < a) (hb : 0 < b) (hc : 0 < c) (hd : 0 < d)
    (hab : a ≠ b) (hac : a ≠ c) (had : a ≠ d) (hbc : b ≠ c) (hbd : b ≠ d) (hcd : c ≠ d) :
    fourBranch s a b c d = fourBranch s b a c d := by
  rw [four_abcd s a b c d ha hb hc hd hab hac had hbc hbd hcd, four_abcd s b a c d hb ha hc
    hd hab.symm hbc hbd hac had hcd]
  congr 1
  have kab := sub_ne_zero.2 hab
  have kba := sub_ne_zero.2 hab.symm
  have kac := sub_ne_zero.2 hac
  have kca := sub_ne_zero.2 hac.symm
  have kad := sub_ne_zero.2 had
  have kda := sub_ne_zero.2 had.symm
  have kbc := sub_ne_zero.2 hbc
  have kcb := sub_ne_zero.2 hbc.symm
  have kbd := sub_ne_zero.2 hbd
  have kdb := sub_ne_zero.2 hbd.symm
  have kcd := sub_ne_zero.2 hcd
  have kdc := sub_ne_zero.2 hcd.symm
  have ka := ha.ne'
  have kb := hb.ne'
  have kc := hc.ne'
  have kd := hd.ne'
  swap_formula

/-- Exchange of two arguments. -/
theorem swap_ab (s a b c d : ℝ) (za : 0 ≤ a) (zb : 0 ≤ b) (zc : 0 ≤ c) (zd : 0 ≤ d) :
    fourBranch s a b c d = fourBranch s b a c d := by
  · obtain rfl | ha := za.eq_or_lt
    · obtain rfl | hb := zb.eq_or_lt
      · obtain rfl | hc := zc.eq_or_lt
        · obtain rfl | hd := zd.eq_or_lt
          · rfl
          · rfl
        · obtain rfl | hd := zd.eq_or_lt
          · rfl
          · obtain rfl | hcd := eq_or_ne c d
            · rfl
            · rfl
      · obtain rfl | hc := zc.eq_or_lt
        · obtain rfl | hd := zd.eq_or_lt
          · exact swap_ab_0b00 s b hb
          · obtain rfl | hbd := eq_or_ne b d
            · exact swap_ab_0b0b s b hb
            · exact swap_ab_0b0d s b d hb hd hbd
        · obtain rfl | hbc := eq_or_ne b c
          · obtain rfl | hd := zd.eq_or_lt
            · exact swap_ab_0bb0 s b hb
            · obtain rfl | hbd := eq_or_ne b d
              · exact swap_ab_0bbb s b hb
              · exact swap_ab_0bbd s b d hb hd hbd
          · obtain rfl | hd := zd.eq_or_lt
            · exact swap_ab_0bc0 s b c hb hc hbc
            · obtain rfl | hbd := eq_or_ne b d
              · exact swap_ab_0bcb s b c hb hc hbc
              · obtain rfl | hcd := eq_or_ne c d
                · exact swap_ab_0bcc s b c hb hc hbc
                · exact swap_ab_0bcd s b c d hb hc hd hbc hbd hcd
    · obtain rfl | hb := zb.eq_or_lt
      · obtain rfl | hc := zc.eq_or_lt
        · obtain rfl | hd := zd.eq_or_lt
          · exact swap_ab_a000 s a ha
          · obtain rfl | had := eq_or_ne a d
            · exact swap_ab_a00a s a ha
            · exact swap_ab_a00d s a d ha hd had
        · obtain rfl | hac := eq_or_ne a c
          · obtain rfl | hd := zd.eq_or_lt
            · exact swap_ab_a0a0 s a ha
            · obtain rfl | had := eq_or_ne a d
              · exact swap_ab_a0aa s a ha
              · exact swap_ab_a0ad s a d ha hd had
          · obtain rfl | hd := zd.eq_or_lt
            · exact swap_ab_a0c0 s a c ha hc hac
            · obtain rfl | had := eq_or_ne a d
              · exact swap_ab_a0ca s a c ha hc hac
              · obtain rfl | hcd := eq_or_ne c d
                · exact swap_ab_a0cc s a c ha hc hac
                · exact swap_ab_a0cd s a c d ha hc hd hac had hcd
      · obtain rfl | hab := eq_or_ne a b
        · obtain rfl | hc := zc.eq_or_lt
          · obtain rfl | hd := zd.eq_or_lt
            · rfl
            · obtain rfl | had := eq_or_ne a d
              · rfl
              · rfl
          · obtain rfl | hac := eq_or_ne a c
            · obtain rfl | hd := zd.eq_or_lt
              · rfl
              · obtain rfl | had := eq_or_ne a d
                · rfl
                · rfl
            · obtain rfl | hd := zd.eq_or_lt
              · rfl
              · obtain rfl | had := eq_or_ne a d
                · rfl
                · obtain rfl | hcd := eq_or_ne c d
                  · rfl
                  · rfl
        · obtain rfl | hc := zc.eq_or_lt
          · obtain rfl | hd := zd.eq_or_lt
            · exact swap_ab_ab00 s a b ha hb hab
            · obtain rfl | had := eq_or_ne a d
              · exact swap_ab_ab0a s a b ha hb hab
              · obtain rfl | hbd := eq_or_ne b d
                · exact swap_ab_ab0b s a b ha hb hab
                · exact swap_ab_ab0d s a b d ha hb hd hab had hbd
          · obtain rfl | hac := eq_or_ne a c
            · obtain rfl | hd := zd.eq_or_lt
              · exact swap_ab_aba0 s a b ha hb hab
              · obtain rfl | had := eq_or_ne a d
                · exact swap_ab_abaa s a b ha hb hab
                · obtain rfl | hbd := eq_or_ne b d
                  · exact swap_ab_abab s a b ha hb hab
                  · exact swap_ab_abad s a b d ha hb hd hab had hbd
            · obtain rfl | hbc := eq_or_ne b c
              · obtain rfl | hd := zd.eq_or_lt
                · exact swap_ab_abb0 s a b ha hb hab
                · obtain rfl | had := eq_or_ne a d
                  · exact swap_ab_abba s a b ha hb hab
                  · obtain rfl | hbd := eq_or_ne b d
                    · exact swap_ab_abbb s a b ha hb hab
                    · exact swap_ab_abbd s a b d ha hb hd hab had hbd
              · obtain rfl | hd := zd.eq_or_lt
                · exact swap_ab_abc0 s a b c ha hb hc hab hac hbc
                · obtain rfl | had := eq_or_ne a d
                  · exact swap_ab_abca s a b c ha hb hc hab hac hbc
                  · obtain rfl | hbd := eq_or_ne b d
                    · exact swap_ab_abcb s a b c ha hb hc hab hac hbc
                    · obtain rfl | hcd := eq_or_ne c d
                      · exact swap_ab_abcc s a b c ha hb hc hab hac
                          hbc
                      · exact swap_ab_abcd s a b c d ha hb hc hd hab
                          hac had hbc hbd hcd

theorem swap_bc_00c0 (s c : ℝ) (hc : 0 < c) :
    fourBranch s 0 0 c 0 = fourBranch s 0 c 0 0 := by
  rw [four_00c0 s c hc, four_0b00 s c hc]

theorem swap_bc_00cc (s c : ℝ) (hc : 0 < c) :
    fourBranch s 0 0 c c = fourBranch s 0 c 0 c := by
  rw [four_00cc s c hc, four_0b0b s c hc]

theorem swap_bc_00cd (s c d : ℝ) (hc : 0 < c) (hd : 0 < d) (hcd : c ≠ d) :
    fourBranch s 0 0 c d = fourBranch s 0 c 0 d := by
  rw [four_00cd s c d hc hd hcd, four_0b0d s c d hc hd hcd]

theorem swap_bc_0b00 (s b : ℝ) (hb : 0 < b) :
    fourBranch s 0 b 0 0 = fourBranch s 0 0 b 0 := by
  rw [four_0b00 s b hb, four_00c0 s b hb]

theorem swap_bc_0b0b (s b : ℝ) (hb : 0 < b) :
    fourBranch s 0 b 0 b = fourBranch s 0 0 b b := by
  rw [four_0b0b s b hb, four_00cc s b hb]

theorem swap_bc_0b0d (s b d : ℝ) (hb : 0 < b) (hd : 0 < d) (hbd : b ≠ d) :
    fourBranch s 0 b 0 d = fourBranch s 0 0 b d := by
  rw [four_0b0d s b d hb hd hbd, four_00cd s b d hb hd hbd]

theorem swap_bc_0bc0 (s b c : ℝ) (hb : 0 < b) (hc : 0 < c) (hbc : b ≠ c) :
    fourBranch s 0 b c 0 = fourBranch s 0 c b 0 := by
  rw [four_0bc0 s b c hb hc hbc, four_0bc0 s c b hc hb hbc.symm]
  congr 1
  have kbc := sub_ne_zero.2 hbc
  have kcb := sub_ne_zero.2 hbc.symm
  have kb := hb.ne'
  have kc := hc.ne'
  swap_formula

theorem swap_bc_0bcb (s b c : ℝ) (hb : 0 < b) (hc : 0 < c) (hbc : b ≠ c) :
    fourBranch s 0 b c b = fourBranch s 0 c b b := by
  rw [four_0bcb s b c hb hc hbc, four_0bcc s c b hc hb hbc.symm]
  congr 1
  have kbc := sub_ne_zero.2 hbc
  have kcb := sub_ne_zero.2 hbc.symm
  have kb := hb.ne'
  have kc := hc.ne'
  swap_formula

theorem swap_bc_0bcc (s b c : ℝ) (hb : 0 < b) (hc : 0 < c) (hbc : b ≠ c) :
    fourBranch s 0 b c c = fourBranch s 0 c b c := by
  rw [four_0bcc s b c hb hc hbc, four_0bcb s c b hc hb hbc.symm]
  congr 1
  have kbc := sub_ne_zero.2 hbc
  have kcb := sub_ne_zero.2 hbc.symm
  have kb := hb.ne'
  have kc := hc.ne'
  swap_formula

theorem swap_bc_0bcd (s b c d : ℝ) (hb : 0 < b) (hc : 0 < c) (hd : 0 < d) (hbc : b ≠ c) (hbd
    : b ≠ d) (hcd : c ≠ d) :
    fourBranch s 0 b c d = fourBranch s 0 c b d := by
  rw [four_0bcd s b c d hb hc hd hbc hbd hcd, four_0bcd s c b d hc hb hd hbc.symm hcd hbd]

theorem swap_bc_a0a0 (s a : ℝ) (ha : 0 < a) :
    fourBranch s a 0 a 0 = fourBranch s a a 0 0 := by
  rw [four_a0a0 s a ha, four_aa00 s a ha]

theorem swap_bc_a0aa (s a : ℝ) (ha : 0 < a) :
    fourBranch s a 0 a a = fourBranch s a a 0 a := by
  rw [four_a0aa s a ha, four_aa0a s a ha]

theorem swap_bc_a0ad (s a d : ℝ) (ha : 0 < a) (hd : 0 < d) (had : a ≠ d) :
    fourBranch s a 0 a d = fourBranch s a a 0 d := by
  rw [four_a0ad s a d ha hd had, four_aa0d s a d ha hd had]

theorem swap_bc_a0c0 (s a c : ℝ) (ha : 0 < a) (hc : 0 < c) (hac : a ≠ c) :
    fourBranch s a 0 c 0 = fourBranch s a c 0 0 := by
  rw [four_a0c0 s a c ha hc hac, four_ab00 s a c ha hc hac]

theorem swap_bc_a0ca (s a c : ℝ) (ha : 0 < a) (hc : 0 < c) (hac : a ≠ c) :
    fourBranch s a 0 c a = fourBranch s a c 0 a := by
  rw [four_a0ca s a c ha hc hac, four_ab0a s a c ha hc hac]

theorem swap_bc_a0cc (s a c : ℝ) (ha : 0 < a) (hc : 0 < c) (hac : a ≠ c) :
    fourBranch s a 0 c c = fourBranch s a c 0 c := by
  rw [four_a0cc s a c ha hc hac, four_ab0b s a c ha hc hac]
  congr 1
  have kac := sub_ne_zero.2 hac
  have kca := sub_ne_zero.2 hac.symm
  have ka := ha.ne'
  have kc := hc.ne'
  swap_formula

theorem swap_bc_a0cd (s a c d : ℝ) (ha : 0 < a) (hc : 0 < c) (hd : 0 < d) (hac : a ≠ c) (had
    : a ≠ d) (hcd : c ≠ d) :
    fourBranch s a 0 c d = fourBranch s a c 0 d := by
  rw [four_a0cd s a c d ha hc hd hac had hcd, four_ab0d s a c d ha hc hd hac had hcd]

theorem swap_bc_aa00 (s a : ℝ) (ha : 0 < a) :
    fourBranch s a a 0 0 = fourBranch s a 0 a 0 := by
  rw [four_aa00 s a ha, four_a0a0 s a ha]

theorem swap_bc_aa0a (s a : ℝ) (ha : 0 < a) :
    fourBranch s a a 0 a = fourBranch s a 0 a a := by
  rw [four_aa0a s a ha, four_a0aa s a ha]

theorem swap_bc_aa0d (s a d : ℝ) (ha : 0 < a) (hd : 0 < d) (had : a ≠ d) :
    fourBranch s a a 0 d = fourBranch s a 0 a d := by
  rw [four_aa0d s a d ha hd had, four_a0ad s a d ha hd had]

theorem swap_bc_aac0 (s a c : ℝ) (ha : 0 < a) (hc : 0 < c) (hac : a ≠ c) :
    fourBranch s a a c 0 = fourBranch s a c a 0 := by
  rw [four_aac0 s a c ha hc hac, four_aba0 s a c ha hc hac]

theorem swap_bc_aaca (s a c : ℝ) (ha : 0 < a) (hc : 0 < c) (hac : a ≠ c) :
    fourBranch s a a c a = fourBranch s a c a a := by
  rw [four_aaca s a c ha hc hac, four_abaa s a c ha hc hac]

theorem swap_bc_aacc (s a c : ℝ) (ha : 0 < a) (hc : 0 < c) (hac : a ≠ c) :
    fourBranch s a a c c = fourBranch s a c a c := by
  rw [four_aacc s a c ha hc hac, four_abab s a c ha hc hac]

theorem swap_bc_aacd (s a c d : ℝ) (ha : 0 < a) (hc : 0 < c) (hd : 0 < d) (hac : a ≠ c) (had
    : a ≠ d) (hcd : c ≠ d) :
    fourBranch s a a c d = fourBranch s a c a d := by
  rw [four_aacd s a c d ha hc hd hac had hcd, four_abad s a c d ha hc hd hac had hcd]

theorem swap_bc_ab00 (s a b : ℝ) (ha : 0 < a) (hb : 0 < b) (hab : a ≠ b) :
    fourBranch s a b 0 0 = fourBranch s a 0 b 0 := by
  rw [four_ab00 s a b ha hb hab, four_a0c0 s a b ha hb hab]

theorem swap_bc_ab0a (s a b : ℝ) (ha : 0 < a) (hb : 0 < b) (hab : a ≠ b) :
    fourBranch s a b 0 a = fourBranch s a 0 b a := by
  rw [four_ab0a s a b ha hb hab, four_a0ca s a b ha hb hab]

theorem swap_bc_ab0b (s a b : ℝ) (ha : 0 < a) (hb : 0 < b) (hab : a ≠ b) :
    fourBranch s a b 0 b = fourBranch s a 0 b b := by
  rw [four_ab0b s a b ha hb hab, four_a0cc s a b ha hb hab]
  congr 1
  have kab := sub_ne_zero.2 hab
  have kba := sub_ne_zero.2 hab.symm
  have ka := ha.ne'
  have kb := hb.ne'
  swap_formula

theorem swap_bc_ab0d (s a b d : ℝ) (ha : 0 < a) (hb : 0 < b) (hd : 0 < d) (hab : a ≠ b) (had
    : a ≠ d) (hbd : b ≠ d) :
    fourBranch s a b 0 d = fourBranch s a 0 b d := by
  rw [four_ab0d s a b d ha hb hd hab had hbd, four_a0cd s a b d ha hb hd hab had hbd]

theorem swap_bc_aba0 (s a b : ℝ) (ha : 0 < a) (hb : 0 < b) (hab : a ≠ b) :
    fourBranch s a b a 0 = fourBranch s a a b 0 := by
  rw [four_aba0 s a b ha hb hab, four_aac0 s a b ha hb hab]

theorem swap_bc_abaa (s a b : ℝ) (ha : 0 < a) (hb : 0 < b) (hab : a ≠ b) :
    fourBranch s a b a a = fourBranch s a a b a := by
  rw [four_abaa s a b ha hb hab, four_aaca s a b ha hb hab]

theorem swap_bc_abab (s a b : ℝ) (ha : 0 < a) (hb : 0 < b) (hab : a ≠ b) :
    fourBranch s a b a b = fourBranch s a a b b := by
  rw [four_abab s a b ha hb hab, four_aacc s a b ha hb hab]

theorem swap_bc_abad (s a b d : ℝ) (ha : 0 < a) (hb : 0 < b) (hd : 0 < d) (hab : a ≠ b) (had
    : a ≠ d) (hbd : b ≠ d) :
    fourBranch s a b a d = fourBranch s a a b d := by
  rw [four_abad s a b d ha hb hd hab had hbd, four_aacd s a b d ha hb hd hab had hbd]

theorem swap_bc_abc0 (s a b c : ℝ) (ha : 0 < a) (hb : 0 < b) (hc : 0 < c) (hab : a ≠ b) (hac
    : a ≠ c) (hbc : b ≠ c) :
    fourBranch s a b c 0 = fourBranch s a c b 0 := by
  rw [four_abc0 s a b c ha hb hc hab hac hbc, four_abc0 s a c b ha hc hb hac hab hbc.symm]

theorem swap_bc_abca (s a b c : ℝ) (ha : 0 < a) (hb : 0 < b) (hc : 0 < c) (hab : a ≠ b) (hac
    : a ≠ c) (hbc : b ≠ c) :
    fourBranch s a b c a = fourBranch s a c b a := by
  rw [four_abca s a b c ha hb hc hab hac hbc, four_abca s a c b ha hc hb hac hab hbc.symm]
  congr 1
  have kab := sub_ne_zero.2 hab
  have kba := sub_ne_zero.2 hab.symm
  have kac := sub_ne_zero.2 hac
  have kca := sub_ne_zero.2 hac.symm
  have kbc := sub_ne_zero.2 hbc
  have kcb := sub_ne_zero.2 hbc.symm
  have ka := ha.ne'
  have kb := hb.ne'
  have kc := hc.ne'
  swap_formula

theorem swap_bc_abcb (s a b c : ℝ) (ha : 0 < a) (hb : 0 < b) (hc : 0 < c) (hab : a ≠ b) (hac
    : a ≠ c) (hbc : b ≠ c) :
    fourBranch s a b c b = fourBranch s a c b b := by
  rw [four_abcb s a b c ha hb hc hab hac hbc, four_abcc s a c b ha hc hb hac hab hbc.symm]
  congr 1
  have kab := sub_ne_zero.2 hab
  have kba := sub_ne_zero.2 hab.symm
  have kac := sub_ne_zero.2 hac
  have kca := sub_ne_zero.2 hac.symm
  have kbc := sub_ne_zero.2 hbc
  have kcb := sub_ne_zero.2 hbc.symm
  have ka := ha.ne'
  have kb := hb.ne'
  have kc := hc.ne'
  swap_formula

theorem swap_bc_abcc (s a b c : ℝ) (ha : 0 < a) (hb : 0 < b) (hc : 0 < c) (hab : a ≠ b) (hac
    : a ≠ c) (hbc : b ≠ c) :
    fourBranch s a b c c = fourBranch s a c b c := by
  rw [four_abcc s a b c ha hb hc hab hac hbc, four_abcb s a c b ha hc hb hac hab hbc.symm]
  congr 1
  have kab := sub_ne_zero.2 hab
  have kba := sub_ne_zero.2 hab.symm
  have kac := sub_ne_zero.2 hac
  have kca := sub_ne_zero.2 hac.symm
  have kbc := sub_ne_zero.2 hbc
  have kcb := sub_ne_zero.2 hbc.symm
  have ka := ha.ne'
  have kb := hb.ne'
  have kc := hc.ne'
  swap_formula

theorem swap_bc_abcd (s a b c d : ℝ) (ha : 0 < a) (hb : 0 < b) (hc : 0 < c) (hd : 0 < d)
    (hab : a ≠ b) (hac : a ≠ c) (had : a ≠ d) (hbc : b ≠ c) (hbd : b ≠ d) (hcd : c ≠ d) :
    fourBranch s a b c d = fourBranch s a c b d := by
  rw [four_abcd s a b c d ha hb hc hd hab hac had hbc hbd hcd, four_abcd s a c b d ha hc hb
    hd hac hab had hbc.symm hcd hbd]
  congr 1
  have kab := sub_ne_zero.2 hab
  have kba := sub_ne_zero.2 hab.symm
  have kac := sub_ne_zero.2 hac
  have kca := sub_ne_zero.2 hac.symm
  have kad := sub_ne_zero.2 had
  have kda := sub_ne_zero.2 had.symm
  have kbc := sub_ne_zero.2 hbc
  have kcb := sub_ne_zero.2 hbc.symm
  have kbd := sub_ne_zero.2 hbd
  have kdb := sub_ne_zero.2 hbd.symm
  have kcd := sub_ne_zero.2 hcd
  have kdc := sub_ne_zero.2 hcd.symm
  have ka := ha.ne'
  have kb := hb.ne'
  have kc := hc.ne'
  have kd := hd.ne'
  swap_formula

/-- Exchange of two arguments. -/
theorem swap_bc (s a b c d : ℝ) (za : 0 ≤ a) (zb : 0 ≤ b) (zc : 0 ≤ c) (zd : 0 ≤ d) :
    fourBranch s a b c d = fourBranch s a c b d := by
  · obtain rfl | ha := za.eq_or_lt
    · obtain rfl | hb := zb.eq_or_lt
      · obtain rfl | hc := zc.eq_or_lt
        · obtain rfl | hd := zd.eq_or_lt
          · rfl
          · rfl
        · obtain rfl | hd := zd.eq_or_lt
          · exact swap_bc_00c0 s c hc
          · obtain rfl | hcd := eq_or_ne c d
            · exact swap_bc_00cc s c hc
            · exact swap_bc_00cd s c d hc hd hcd
      · obtain rfl | hc := zc.eq_or_lt
        · obtain rfl | hd := zd.eq_or_lt
          · exact swap_bc_0b00 s b hb
          · obtain rfl | hbd := eq_or_ne b d
            · exact swap_bc_0b0b s b hb
            · exact swap_bc_0b0d s b d hb hd hbd
        · obtain rfl | hbc := eq_or_ne b c
          · obtain rfl | hd := zd.eq_or_lt
            · rfl
            · obtain rfl | hbd := eq_or_ne b d
              · rfl
              · rfl
          · obtain rfl | hd := zd.eq_or_lt
            · exact swap_bc_0bc0 s b c hb hc hbc
            · obtain rfl | hbd := eq_or_ne b d
              · exact swap_bc_0bcb s b c hb hc hbc
              · obtain rfl | hcd := eq_or_ne c d
                · exact swap_bc_0bcc s b c hb hc hbc
                · exact swap_bc_0bcd s b c d hb hc hd hbc hbd hcd
    · obtain rfl | hb := zb.eq_or_lt
      · obtain rfl | hc := zc.eq_or_lt
        · obtain rfl | hd := zd.eq_or_lt
          · rfl
          · obtain rfl | had := eq_or_ne a d
            · rfl
            · rfl
        · obtain rfl | hac := eq_or_ne a c
          · obtain rfl | hd := zd.eq_or_lt
            · exact swap_bc_a0a0 s a ha
            · obtain rfl | had := eq_or_ne a d
              · exact swap_bc_a0aa s a ha
              · exact swap_bc_a0ad s a d ha hd had
          · obtain rfl | hd := zd.eq_or_lt
            · exact swap_bc_a0c0 s a c ha hc hac
            · obtain rfl | had := eq_or_ne a d
              · exact swap_bc_a0ca s a c ha hc hac
              · obtain rfl | hcd := eq_or_ne c d
                · exact swap_bc_a0cc s a c ha hc hac
                · exact swap_bc_a0cd s a c d ha hc hd hac had hcd
      · obtain rfl | hab := eq_or_ne a b
        · obtain rfl | hc := zc.eq_or_lt
          · obtain rfl | hd := zd.eq_or_lt
            · exact swap_bc_aa00 s a ha
            · obtain rfl | had := eq_or_ne a d
              · exact swap_bc_aa0a s a ha
              · exact swap_bc_aa0d s a d ha hd had
          · obtain rfl | hac := eq_or_ne a c
            · obtain rfl | hd := zd.eq_or_lt
              · rfl
              · obtain rfl | had := eq_or_ne a d
                · rfl
                · rfl
            · obtain rfl | hd := zd.eq_or_lt
              · exact swap_bc_aac0 s a c ha hc hac
              · obtain rfl | had := eq_or_ne a d
                · exact swap_bc_aaca s a c ha hc hac
                · obtain rfl | hcd := eq_or_ne c d
                  · exact swap_bc_aacc s a c ha hc hac
                  · exact swap_bc_aacd s a c d ha hc hd hac had hcd
        · obtain rfl | hc := zc.eq_or_lt
          · obtain rfl | hd := zd.eq_or_lt
            · exact swap_bc_ab00 s a b ha hb hab
            · obtain rfl | had := eq_or_ne a d
              · exact swap_bc_ab0a s a b ha hb hab
              · obtain rfl | hbd := eq_or_ne b d
                · exact swap_bc_ab0b s a b ha hb hab
                · exact swap_bc_ab0d s a b d ha hb hd hab had hbd
          · obtain rfl | hac := eq_or_ne a c
            · obtain rfl | hd := zd.eq_or_lt
              · exact swap_bc_aba0 s a b ha hb hab
              · obtain rfl | had := eq_or_ne a d
                · exact swap_bc_abaa s a b ha hb hab
                · obtain rfl | hbd := eq_or_ne b d
                  · exact swap_bc_abab s a b ha hb hab
                  · exact swap_bc_abad s a b d ha hb hd hab had hbd
            · obtain rfl | hbc := eq_or_ne b c
              · obtain rfl | hd := zd.eq_or_lt
                · rfl
                · obtain rfl | had := eq_or_ne a d
                  · rfl
                  · obtain rfl | hbd := eq_or_ne b d
                    · rfl
                    · rfl
              · obtain rfl | hd := zd.eq_or_lt
                · exact swap_bc_abc0 s a b c ha hb hc hab hac hbc
                · obtain rfl | had := eq_or_ne a d
                  · exact swap_bc_abca s a b c ha hb hc hab hac hbc
                  · obtain rfl | hbd := eq_or_ne b d
                    · exact swap_bc_abcb s a b c ha hb hc hab hac hbc
                    · obtain rfl | hcd := eq_or_ne c d
                      · exact swap_bc_abcc s a b c ha hb hc hab hac
                          hbc
                      · exact swap_bc_abcd s a b c d ha hb hc hd hab
                          hac had hbc hbd hcd

theorem swap_cd_000d (s d : ℝ) (hd : 0 < d) :
    fourBranch s 0 0 0 d = fourBranch s 0 0 d 0 := by
  rw [four_000d s d hd, four_00c0 s d hd]

theorem swap_cd_00c0 (s c : ℝ) (hc : 0 < c) :
    fourBranch s 0 0 c 0 = fourBranch s 0 0 0 c := by
  rw [four_00c0 s c hc, four_000d s c hc]

theorem swap_cd_00cd (s c d : ℝ) (hc : 0 < c) (hd : 0 < d) (hcd : c ≠ d) :
    fourBranch s 0 0 c d = fourBranch s 0 0 d c := by
  rw [four_00cd s c d hc hd hcd, four_00cd s d c hd hc hcd.symm]
  congr 1
  have kcd := sub_ne_zero.2 hcd
  have kdc := sub_ne_zero.2 hcd.symm
  have kc := hc.ne'
  have kd := hd.ne'
  swap_formula

theorem swap_cd_0b0b (s b : ℝ) (hb : 0 < b) :
    fourBranch s 0 b 0 b = fourBranch s 0 b b 0 := by
  rw [four_0b0b s b hb, four_0bb0 s b hb]

theorem swap_cd_0b0d (s b d : ℝ) (hb : 0 < b) (hd : 0 < d) (hbd : b ≠ d) :
    fourBranch s 0 b 0 d = fourBranch s 0 b d 0 := by
  rw [four_0b0d s b d hb hd hbd, four_0bc0 s b d hb hd hbd]

theorem swap_cd_0bb0 (s b : ℝ) (hb : 0 < b) :
    fourBranch s 0 b b 0 = fourBranch s 0 b 0 b := by
  rw [four_0bb0 s b hb, four_0b0b s b hb]

theorem swap_cd_0bbd (s b d : ℝ) (hb : 0 < b) (hd : 0 < d) (hbd : b ≠ d) :
    fourBranch s 0 b b d = fourBranch s 0 b d b := by
  rw [four_0bbd s b d hb hd hbd, four_0bcb s b d hb hd hbd]

theorem swap_cd_0bc0 (s b c : ℝ) (hb : 0 < b) (hc : 0 < c) (hbc : b ≠ c) :
    fourBranch s 0 b c 0 = fourBranch s 0 b 0 c := by
  rw [four_0bc0 s b c hb hc hbc, four_0b0d s b c hb hc hbc]

theorem swap_cd_0bcb (s b c : ℝ) (hb : 0 < b) (hc : 0 < c) (hbc : b ≠ c) :
    fourBranch s 0 b c b = fourBranch s 0 b b c := by
  rw [four_0bcb s b c hb hc hbc, four_0bbd s b c hb hc hbc]

theorem swap_cd_0bcd (s b c d : ℝ) (hb : 0 < b) (hc : 0 < c) (hd : 0 < d) (hbc : b ≠ c) (hbd
    : b ≠ d) (hcd : c ≠ d) :
    fourBranch s 0 b c d = fourBranch s 0 b d c := by
  rw [four_0bcd s b c d hb hc hd hbc hbd hcd, four_0bcd s b d c hb hd hc hbd hbc hcd.symm]

theorem swap_cd_a00a (s a : ℝ) (ha : 0 < a) :
    fourBranch s a 0 0 a = fourBranch s a 0 a 0 := by
  rw [four_a00a s a ha, four_a0a0 s a ha]

theorem swap_cd_a00d (s a d : ℝ) (ha : 0 < a) (hd : 0 < d) (had : a ≠ d) :
    fourBranch s a 0 0 d = fourBranch s a 0 d 0 := by
  rw [four_a00d s a d ha hd had, four_a0c0 s a d ha hd had]

theorem swap_cd_a0a0 (s a : ℝ) (ha : 0 < a) :
    fourBranch s a 0 a 0 = fourBranch s a 0 0 a := by
  rw [four_a0a0 s a ha, four_a00a s a ha]

theorem swap_cd_a0ad (s a d : ℝ) (ha : 0 < a) (hd : 0 < d) (had : a ≠ d) :
    fourBranch s a 0 a d = fourBranch s a 0 d a := by
  rw [four_a0ad s a d ha hd had, four_a0ca s a d ha hd had]

theorem swap_cd_a0c0 (s a c : ℝ) (ha : 0 < a) (hc : 0 < c) (hac : a ≠ c) :
    fourBranch s a 0 c 0 = fourBranch s a 0 0 c := by
  rw [four_a0c0 s a c ha hc hac, four_a00d s a c ha hc hac]

theorem swap_cd_a0ca (s a c : ℝ) (ha : 0 < a) (hc : 0 < c) (hac : a ≠ c) :
    fourBranch s a 0 c a = fourBranch s a 0 a c := by
  rw [four_a0ca s a c ha hc hac, four_a0ad s a c ha hc hac]

theorem swap_cd_a0cd (s a c d : ℝ) (ha : 0 < a) (hc : 0 < c) (hd : 0 < d) (hac : a ≠ c) (had
    : a ≠ d) (hcd : c ≠ d) :
    fourBranch s a 0 c d = fourBranch s a 0 d c := by
  rw [four_a0cd s a c d ha hc hd hac had hcd, four_a0cd s a d c ha hd hc had hac hcd.symm]

theorem swap_cd_aa0a (s a : ℝ) (ha : 0 < a) :
    fourBranch s a a 0 a = fourBranch s a a a 0 := by
  rw [four_aa0a s a ha, four_aaa0 s a ha]

theorem swap_cd_aa0d (s a d : ℝ) (ha : 0 < a) (hd : 0 < d) (had : a ≠ d) :
    fourBranch s a a 0 d = fourBranch s a a d 0 := by
  rw [four_aa0d s a d ha hd had, four_aac0 s a d ha hd had]

theorem swap_cd_aaa0 (s a : ℝ) (ha : 0 < a) :
    fourBranch s a a a 0 = fourBranch s a a 0 a := by
  rw [four_aaa0 s a ha, four_aa0a s a ha]

theorem swap_cd_aaad (s a d : ℝ) (ha : 0 < a) (hd : 0 < d) (had : a ≠ d) :
    fourBranch s a a a d = fourBranch s a a d a := by
  rw [four_aaad s a d ha hd had, four_aaca s a d ha hd had]

theorem swap_cd_aac0 (s a c : ℝ) (ha : 0 < a) (hc : 0 < c) (hac : a ≠ c) :
    fourBranch s a a c 0 = fourBranch s a a 0 c := by
  rw [four_aac0 s a c ha hc hac, four_aa0d s a c ha hc hac]

theorem swap_cd_aaca (s a c : ℝ) (ha : 0 < a) (hc : 0 < c) (hac : a ≠ c) :
    fourBranch s a a c a = fourBranch s a a a c := by
  rw [four_aaca s a c ha hc hac, four_aaad s a c ha hc hac]

theorem swap_cd_aacd (s a c d : ℝ) (ha : 0 < a) (hc : 0 < c) (hd : 0 < d) (hac : a ≠ c) (had
    : a ≠ d) (hcd : c ≠ d) :
    fourBranch s a a c d = fourBranch s a a d c := by
  rw [four_aacd s a c d ha hc hd hac had hcd, four_aacd s a d c ha hd hc had hac hcd.symm]
  congr 1
  have kac := sub_ne_zero.2 hac
  have kca := sub_ne_zero.2 hac.symm
  have kad := sub_ne_zero.2 had
  have kda := sub_ne_zero.2 had.symm
  have kcd := sub_ne_zero.2 hcd
  have kdc := sub_ne_zero.2 hcd.symm
  have ka := ha.ne'
  have kc := hc.ne'
  have kd := hd.ne'
  swap_formula

theorem swap_cd_ab0a (s a b : ℝ) (ha : 0 < a) (hb : 0 < b) (hab : a ≠ b) :
    fourBranch s a b 0 a = fourBranch s a b a 0 := by
  rw [four_ab0a s a b ha hb hab, four_aba0 s a b ha hb hab]

theorem swap_cd_ab0b (s a b : ℝ) (ha : 0 < a) (hb : 0 < b) (hab : a ≠ b) :
    fourBranch s a b 0 b = fourBranch s a b b 0 := by
  rw [four_ab0b s a b ha hb hab, four_abb0 s a b ha hb hab]

theorem swap_cd_ab0d (s a b d : ℝ) (ha : 0 < a) (hb : 0 < b) (hd : 0 < d) (hab : a ≠ b) (had
    : a ≠ d) (hbd : b ≠ d) :
    fourBranch s a b 0 d = fourBranch s a b d 0 := by
  rw [four_ab0d s a b d ha hb hd hab had hbd, four_abc0 s a b d ha hb hd hab had hbd]

theorem swap_cd_aba0 (s a b : ℝ) (ha : 0 < a) (hb : 0 < b) (hab : a ≠ b) :
    fourBranch s a b a 0 = fourBranch s a b 0 a := by
  rw [four_aba0 s a b ha hb hab, four_ab0a s a b ha hb hab]

theorem swap_cd_abab (s a b : ℝ) (ha : 0 < a) (hb : 0 < b) (hab : a ≠ b) :
    fourBranch s a b a b = fourBranch s a b b a := by
  rw [four_abab s a b ha hb hab, four_abba s a b ha hb hab]

theorem swap_cd_abad (s a b d : ℝ) (ha : 0 < a) (hb : 0 < b) (hd : 0 < d) (hab : a ≠ b) (had
    : a ≠ d) (hbd : b ≠ d) :
    fourBranch s a b a d = fourBranch s a b d a := by
  rw [four_abad s a b d ha hb hd hab had hbd, four_abca s a b d ha hb hd hab had hbd]

theorem swap_cd_abb0 (s a b : ℝ) (ha : 0 < a) (hb : 0 < b) (hab : a ≠ b) :
    fourBranch s a b b 0 = fourBranch s a b 0 b := by
  rw [four_abb0 s a b ha hb hab, four_ab0b s a b ha hb hab]

theorem swap_cd_abba (s a b : ℝ) (ha : 0 < a) (hb : 0 < b) (hab : a ≠ b) :
    fourBranch s a b b a = fourBranch s a b a b := by
  rw [four_abba s a b ha hb hab, four_abab s a b ha hb hab]

theorem swap_cd_abbd (s a b d : ℝ) (ha : 0 < a) (hb : 0 < b) (hd : 0 < d) (hab : a ≠ b) (had
    : a ≠ d) (hbd : b ≠ d) :
    fourBranch s a b b d = fourBranch s a b d b := by
  rw [four_abbd s a b d ha hb hd hab had hbd, four_abcb s a b d ha hb hd hab had hbd]

theorem swap_cd_abc0 (s a b c : ℝ) (ha : 0 < a) (hb : 0 < b) (hc : 0 < c) (hab : a ≠ b) (hac
    : a ≠ c) (hbc : b ≠ c) :
    fourBranch s a b c 0 = fourBranch s a b 0 c := by
  rw [four_abc0 s a b c ha hb hc hab hac hbc, four_ab0d s a b c ha hb hc hab hac hbc]

theorem swap_cd_abca (s a b c : ℝ) (ha : 0 < a) (hb : 0 < b) (hc : 0 < c) (hab : a ≠ b) (hac
    : a ≠ c) (hbc : b ≠ c) :
    fourBranch s a b c a = fourBranch s a b a c := by
  rw [four_abca s a b c ha hb hc hab hac hbc, four_abad s a b c ha hb hc hab hac hbc]

theorem swap_cd_abcb (s a b c : ℝ) (ha : 0 < a) (hb : 0 < b) (hc : 0 < c) (hab : a ≠ b) (hac
    : a ≠ c) (hbc : b ≠ c) :
    fourBranch s a b c b = fourBranch s a b b c := by
  rw [four_abcb s a b c ha hb hc hab hac hbc, four_abbd s a b c ha hb hc hab hac hbc]

theorem swap_cd_abcd (s a b c d : ℝ) (ha : 0 < a) (hb : 0 < b) (hc : 0 < c) (hd : 0 < d)
    (hab : a ≠ b) (hac : a ≠ c) (had : a ≠ d) (hbc : b ≠ c) (hbd : b ≠ d) (hcd : c ≠ d) :
    fourBranch s a b c d = fourBranch s a b d c := by
  rw [four_abcd s a b c d ha hb hc hd hab hac had hbc hbd hcd, four_abcd s a b d c ha hb hd
    hc hab had hac hbd hbc hcd.symm]
  congr 1
  have kab := sub_ne_zero.2 hab
  have kba := sub_ne_zero.2 hab.symm
  have kac := sub_ne_zero.2 hac
  have kca := sub_ne_zero.2 hac.symm
  have kad := sub_ne_zero.2 had
  have kda := sub_ne_zero.2 had.symm
  have kbc := sub_ne_zero.2 hbc
  have kcb := sub_ne_zero.2 hbc.symm
  have kbd := sub_ne_zero.2 hbd
  have kdb := sub_ne_zero.2 hbd.symm
  have kcd := sub_ne_zero.2 hcd
  have kdc := sub_ne_zero.2 hcd.symm
  have ka := ha.ne'
  have kb := hb.ne'
  have kc := hc.ne'
  have kd := hd.ne'
  swap_formula

/-- Exchange of two arguments. -/
theorem swap_cd (s a b c d : ℝ) (za : 0 ≤ a) (zb : 0 ≤ b) (zc : 0 ≤ c) (zd : 0 ≤ d) :
    fourBranch s a b c d = fourBranch s a b d c := by
  · obtain rfl | ha := za.eq_or_lt
    · obtain rfl | hb := zb.eq_or_lt
      · obtain rfl | hc := zc.eq_or_lt
        · obtain rfl | hd := zd.eq_or_lt
          · rfl
          · exact swap_cd_000d s d hd
        · obtain rfl | hd := zd.eq_or_lt
          · exact swap_cd_00c0 s c hc
          · obtain rfl | hcd := eq_or_ne c d
            · rfl
            · exact swap_cd_00cd s c d hc hd hcd
      · obtain rfl | hc := zc.eq_or_lt
        · obtain rfl | hd := zd.eq_or_lt
          · rfl
          · obtain rfl | hbd := eq_or_ne b d
            · exact swap_cd_0b0b s b hb
            · exact swap_cd_0b0d s b d hb hd hbd
        · obtain rfl | hbc := eq_or_ne b c
          · obtain rfl | hd := zd.eq_or_lt
            · exact swap_cd_0bb0 s b hb
            · obtain rfl | hbd := eq_or_ne b d
              · rfl
              · exact swap_cd_0bbd s b d hb hd hbd
          · obtain rfl | hd := zd.eq_or_lt
            · exact swap_cd_0bc0 s b c hb hc hbc
            · obtain rfl | hbd := eq_or_ne b d
              · exact swap_cd_0bcb s b c hb hc hbc
              · obtain rfl | hcd := eq_or_ne c d
                · rfl
                · exact swap_cd_0bcd s b c d hb hc hd hbc hbd hcd
    · obtain rfl | hb := zb.eq_or_lt
      · obtain rfl | hc := zc.eq_or_lt
        · obtain rfl | hd := zd.eq_or_lt
          · rfl
          · obtain rfl | had := eq_or_ne a d
            · exact swap_cd_a00a s a ha
            · exact swap_cd_a00d s a d ha hd had
        · obtain rfl | hac := eq_or_ne a c
          · obtain rfl | hd := zd.eq_or_lt
            · exact swap_cd_a0a0 s a ha
            · obtain rfl | had := eq_or_ne a d
              · rfl
              · exact swap_cd_a0ad s a d ha hd had
          · obtain rfl | hd := zd.eq_or_lt
            · exact swap_cd_a0c0 s a c ha hc hac
            · obtain rfl | had := eq_or_ne a d
              · exact swap_cd_a0ca s a c ha hc hac
              · obtain rfl | hcd := eq_or_ne c d
                · rfl
                · exact swap_cd_a0cd s a c d ha hc hd hac had hcd
      · obtain rfl | hab := eq_or_ne a b
        · obtain rfl | hc := zc.eq_or_lt
          · obtain rfl | hd := zd.eq_or_lt
            · rfl
            · obtain rfl | had := eq_or_ne a d
              · exact swap_cd_aa0a s a ha
              · exact swap_cd_aa0d s a d ha hd had
          · obtain rfl | hac := eq_or_ne a c
            · obtain rfl | hd := zd.eq_or_lt
              · exact swap_cd_aaa0 s a ha
              · obtain rfl | had := eq_or_ne a d
                · rfl
                · exact swap_cd_aaad s a d ha hd had
            · obtain rfl | hd := zd.eq_or_lt
              · exact swap_cd_aac0 s a c ha hc hac
              · obtain rfl | had := eq_or_ne a d
                · exact swap_cd_aaca s a c ha hc hac
                · obtain rfl | hcd := eq_or_ne c d
                  · rfl
                  · exact swap_cd_aacd s a c d ha hc hd hac had hcd
        · obtain rfl | hc := zc.eq_or_lt
          · obtain rfl | hd := zd.eq_or_lt
            · rfl
            · obtain rfl | had := eq_or_ne a d
              · exact swap_cd_ab0a s a b ha hb hab
              · obtain rfl | hbd := eq_or_ne b d
                · exact swap_cd_ab0b s a b ha hb hab
                · exact swap_cd_ab0d s a b d ha hb hd hab had hbd
          · obtain rfl | hac := eq_or_ne a c
            · obtain rfl | hd := zd.eq_or_lt
              · exact swap_cd_aba0 s a b ha hb hab
              · obtain rfl | had := eq_or_ne a d
                · rfl
                · obtain rfl | hbd := eq_or_ne b d
                  · exact swap_cd_abab s a b ha hb hab
                  · exact swap_cd_abad s a b d ha hb hd hab had hbd
            · obtain rfl | hbc := eq_or_ne b c
              · obtain rfl | hd := zd.eq_or_lt
                · exact swap_cd_abb0 s a b ha hb hab
                · obtain rfl | had := eq_or_ne a d
                  · exact swap_cd_abba s a b ha hb hab
                  · obtain rfl | hbd := eq_or_ne b d
                    · rfl
                    · exact swap_cd_abbd s a b d ha hb hd hab had hbd
              · obtain rfl | hd := zd.eq_or_lt
                · exact swap_cd_abc0 s a b c ha hb hc hab hac hbc
                · obtain rfl | had := eq_or_ne a d
                  · exact swap_cd_abca s a b c ha hb hc hab hac hbc
                  · obtain rfl | hbd := eq_or_ne b d
                    · exact swap_cd_abcb s a b c ha hb hc hab hac hbc
                    · obtain rfl | hcd := eq_or_ne c d
                      · rfl
                      · exact swap_cd_abcd s a b c d ha hb hc hd hab
                          hac had hbc hbd hcd

end Verif.Potential
