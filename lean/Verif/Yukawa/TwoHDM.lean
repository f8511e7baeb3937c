import Verif.Yukawa.Form
import Verif.Yukawa.Constants
import Verif.Lagrangian.TwoDoublets

/-!
# The fermions of the models with two doublets

The Yukawa couplings of ClassPotentialR2HDM.cpp:1209-1377, ClassPotentialC2HDM.cpp:2904-3072 and
ClassPotentialN2HDM.cpp:2930-3102.  The three models contain the same statements up to the positions
of the scalar fields.  `v1 = C_vev0 * C_CosBeta` and `v2 = C_vev0 * C_SinBeta`.
-/

set_option linter.unusedSimpArgs false

namespace Verif.Yukawa.TwoHDM

open Verif.Potential Verif.Lagrangian Complex
open scoped ComplexConjugate

/-- `vD`, ClassPotentialR2HDM.cpp:1241-1250 (C2HDM 2936-2945, N2HDM 2962-2971). -/
noncomputable def vevDown (type : Int) (v1 v2 : ℝ) : ℝ :=
  if type = 2 then v1 else if type = 3 then v2 else if type = 4 then v1 else v2

/-- `vL`, ClassPotentialR2HDM.cpp:1240-1250 (C2HDM 2935-2945, N2HDM 2961-2971). -/
noncomputable def vevLepton (type : Int) (v1 v2 : ℝ) : ℝ :=
  if type = 2 then v1 else if type = 3 then v1 else v2

/-- `YIJR2`, ClassPotentialR2HDM.cpp:1252-1262 (C2HDM 2947-2957, N2HDM 2973-2983). -/
noncomputable def upR (c : Constants) (v2 : ℝ) : Assign ℂ :=
  [([0, 9], -conj c.V11 * (c.mUp : ℂ) / v2), ([0, 10], -conj c.V12 * (c.mUp : ℂ) / v2),
   ([0, 11], -conj c.V13 * (c.mUp : ℂ) / v2), ([1, 9], -conj c.V21 * (c.mCharm : ℂ) / v2),
   ([1, 10], -conj c.V22 * (c.mCharm : ℂ) / v2), ([1, 11], -conj c.V23 * (c.mCharm : ℂ) / v2),
   ([2, 9], -conj c.V31 * (c.mTop : ℂ) / v2), ([2, 10], -conj c.V32 * (c.mTop : ℂ) / v2),
   ([2, 11], -conj c.V33 * (c.mTop : ℂ) / v2)]

/-- `YIJS2`, ClassPotentialR2HDM.cpp:1264-1266 (C2HDM 2959-2961, N2HDM 2985-2987). -/
noncomputable def upS (c : Constants) (v2 : ℝ) : Assign ℂ :=
  [([0, 6], (c.mUp : ℂ) / v2), ([1, 7], (c.mCharm : ℂ) / v2), ([2, 8], (c.mTop : ℂ) / v2)]

/-- `YIJSD`, ClassPotentialR2HDM.cpp:1268-1270 (C2HDM 2963-2965, N2HDM 2989-2991). -/
noncomputable def downS (c : Constants) (vD : ℝ) : Assign ℂ :=
  [([3, 9], (c.mDown : ℂ) / vD), ([4, 10], (c.mStrange : ℂ) / vD),
   ([5, 11], (c.mBottom : ℂ) / vD)]

/-- `YIJRD`, ClassPotentialR2HDM.cpp:1272-1280 (C2HDM 2967-2975, N2HDM 2993-3003). -/
noncomputable def downR (c : Constants) (vD : ℝ) : Assign ℂ :=
  [([3, 6], c.V11 * (c.mDown : ℂ) / vD), ([3, 7], c.V21 * (c.mDown : ℂ) / vD),
   ([3, 8], c.V31 * (c.mDown : ℂ) / vD), ([4, 6], c.V12 * (c.mStrange : ℂ) / vD),
   ([4, 7], c.V22 * (c.mStrange : ℂ) / vD), ([4, 8], c.V32 * (c.mStrange : ℂ) / vD),
   ([5, 6], c.V13 * (c.mBottom : ℂ) / vD), ([5, 7], c.V23 * (c.mBottom : ℂ) / vD),
   ([5, 8], c.V33 * (c.mBottom : ℂ) / vD)]

/-- `YIJRL`, ClassPotentialR2HDM.cpp:1282-1284 (C2HDM 2977-2979, N2HDM 3005-3007). -/
noncomputable def leptonR (c : Constants) (vL : ℝ) : Assign ℂ :=
  [([1, 6], (c.mElectron : ℂ) / vL), ([3, 7], (c.mMu : ℂ) / vL), ([5, 8], (c.mTau : ℂ) / vL)]

/-- `YIJSL`, ClassPotentialR2HDM.cpp:1286-1288 (C2HDM 2981-2983, N2HDM 3009-3011). -/
noncomputable def leptonS (c : Constants) (vL : ℝ) : Assign ℂ :=
  [([0, 1], (c.mElectron : ℂ) / vL), ([2, 3], (c.mMu : ℂ) / vL), ([4, 5], (c.mTau : ℂ) / vL)]

/-- The loops `for i, for j < i: Y(i, j) = Y(j, i)`, ClassPotentialR2HDM.cpp:1290-1307 (C2HDM
2985-3002, N2HDM 3013-3030).  They read the entries above the diagonal, which they do not write. -/
noncomputable def mirrored (M : List Nat → ℂ) (i j : Nat) : ℂ := if j < i then M [j, i] else M [i, j]

/-- The matrix filled by the statements and mirrored. -/
noncomputable def matrix (w : Assign ℂ) : Nat → Nat → ℂ := mirrored (assign w zeroTensor)

/-- `Curvature_Quark_F2H1[i][j][k]` of the real and the complex model,
ClassPotentialR2HDM.cpp:1309-1346 (C2HDM 3004-3041), with `YIJP2 = -II * YIJS2`,
`YIJE2 = -II * YIJR2`, `YIJPD = II * YIJSD` and `YIJED = II * YIJRD`. -/
noncomputable def quarkTensor (c : Constants) (v1 v2 : ℝ) (type : Int) (q : List Nat) : ℂ :=
  let R2 := matrix (upR c v2)
  let S2 := matrix (upS c v2)
  let RD := matrix (downR c (vevDown type v1 v2))
  let SD := matrix (downS c (vevDown type v1 v2))
  match q with
  | [i, j, 0] => if type = 1 ∨ type = 3 then 0 else 0 + RD i j
  | [i, j, 1] => if type = 1 ∨ type = 3 then 0 else 0 + I * RD i j
  | [i, j, 2] => if type = 1 ∨ type = 3 then R2 i j + RD i j else R2 i j
  | [i, j, 3] => if type = 1 ∨ type = 3 then -1 * I * R2 i j + I * RD i j else -1 * I * R2 i j
  | [i, j, 4] => if type = 1 ∨ type = 3 then 0 else 0 + SD i j
  | [i, j, 5] => if type = 1 ∨ type = 3 then 0 else 0 + I * SD i j
  | [i, j, 6] => if type = 1 ∨ type = 3 then S2 i j + SD i j else S2 i j
  | [i, j, 7] => if type = 1 ∨ type = 3 then -1 * I * S2 i j + I * SD i j else -1 * I * S2 i j
  | _ => 0

/-- `Curvature_Lepton_F2H1[i][j][k]` of the real and the complex model,
ClassPotentialR2HDM.cpp:1348-1375 (C2HDM 3043-3070), with `YIJPL = II * YIJSL` and
`YIJEL = II * YIJRL`. -/
noncomputable def leptonTensor (c : Constants) (v1 v2 : ℝ) (type : Int) (q : List Nat) : ℂ :=
  let RL := matrix (leptonR c (vevLepton type v1 v2))
  let SL := matrix (leptonS c (vevLepton type v1 v2))
  match q with
  | [i, j, 0] => if type = 1 ∨ type = 4 then 0 else RL i j
  | [i, j, 1] => if type = 1 ∨ type = 4 then 0 else I * RL i j
  | [i, j, 2] => if type = 1 ∨ type = 4 then RL i j else 0
  | [i, j, 3] => if type = 1 ∨ type = 4 then I * RL i j else 0
  | [i, j, 4] => if type = 1 ∨ type = 4 then 0 else SL i j
  | [i, j, 5] => if type = 1 ∨ type = 4 then 0 else I * SL i j
  | [i, j, 6] => if type = 1 ∨ type = 4 then SL i j else 0
  | [i, j, 7] => if type = 1 ∨ type = 4 then I * SL i j else 0
  | _ => 0

/-- `Curvature_Quark_F2H1[i][j][k]` of the model with a singlet, ClassPotentialN2HDM.cpp:3032-3070. -/
noncomputable def quarkTensorN (c : Constants) (v1 v2 : ℝ) (type : Int) (q : List Nat) : ℂ :=
  let R2 := matrix (upR c v2)
  let S2 := matrix (upS c v2)
  let RD := matrix (downR c (vevDown type v1 v2))
  let SD := matrix (downS c (vevDown type v1 v2))
  match q with
  | [i, j, 0] => if type = 1 ∨ type = 3 then 0 else 0 + RD i j
  | [i, j, 1] => if type = 1 ∨ type = 3 then R2 i j + RD i j else R2 i j
  | [i, j, 2] => if type = 1 ∨ type = 3 then 0 else 0 + I * RD i j
  | [i, j, 3] => if type = 1 ∨ type = 3 then -1 * I * R2 i j + I * RD i j else -1 * I * R2 i j
  | [i, j, 4] => if type = 1 ∨ type = 3 then 0 else 0 + I * SD i j
  | [i, j, 5] => if type = 1 ∨ type = 3 then -1 * I * S2 i j + I * SD i j else -1 * I * S2 i j
  | [i, j, 6] => if type = 1 ∨ type = 3 then 0 else 0 + SD i j
  | [i, j, 7] => if type = 1 ∨ type = 3 then S2 i j + SD i j else S2 i j
  | _ => 0

/-- `Curvature_Lepton_F2H1[i][j][k]` of the model with a singlet,
ClassPotentialN2HDM.cpp:3038-3100. -/
noncomputable def leptonTensorN (c : Constants) (v1 v2 : ℝ) (type : Int) (q : List Nat) : ℂ :=
  let RL := matrix (leptonR c (vevLepton type v1 v2))
  let SL := matrix (leptonS c (vevLepton type v1 v2))
  match q with
  | [i, j, 0] => if type = 1 ∨ type = 4 then 0 else RL i j
  | [i, j, 1] => if type = 1 ∨ type = 4 then RL i j else 0
  | [i, j, 2] => if type = 1 ∨ type = 4 then 0 else I * RL i j
  | [i, j, 3] => if type = 1 ∨ type = 4 then I * RL i j else 0
  | [i, j, 4] => if type = 1 ∨ type = 4 then 0 else I * SL i j
  | [i, j, 5] => if type = 1 ∨ type = 4 then I * SL i j else 0
  | [i, j, 6] => if type = 1 ∨ type = 4 then 0 else SL i j
  | [i, j, 7] => if type = 1 ∨ type = 4 then SL i j else 0
  | _ => 0

end Verif.Yukawa.TwoHDM
