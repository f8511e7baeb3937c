import Verif.Outcome
import Mathlib.Algebra.Field.Defs
import Mathlib.Data.Fin.VecNotation

/-!
# The transport equations of the VEV insertion approximation

`top_source`, `bot_source` and `tau_source` in `src/baryo_calculation/Fluid_Type`.  The densities and their
derivatives form a vector; `operator()` gives its derivative.  Exact arithmetic in a field, no rounding.
-/

namespace Verif.Via

open Outcome

/-- The particles with masses and phases. -/
inductive Fermion
  | top
  | bottom
  | tau
  deriving DecidableEq

/-- Numbers that `gen_fluid::set_class` stores, gen_func_fluid.cpp:595-650. -/
structure Rates (K : Type) where
  vw : K
  dq : K
  dt : K
  dh : K
  dlep : K
  dtau : K
  gamSS : K
  gamY : K
  gamYt : K
  gamYb : K
  gamYtau : K

/-- Functions outside this model:
* `mass f z`: `top_func` and `tau_func`, gen_func_fluid.cpp:401-451 and 520-557,
* `kappa m`: `NIntegrate_kappa` for the mass `m` at the temperature of the point, 247-265,
* `gamM f m`: `Nintegrate_GamM` with the thermal masses and the width of `f`, 99-124,
* `scp f m θ'`: `Nintegrate_Scp` with the derivative `θ'` of the phase, 206-229,
* `thetaPrime sym brk z`: component 1 of `Calc_theta`, 472-518. -/
structure External (K : Type) where
  mass : Fermion → K → K
  kappa : K → K
  gamM : Fermion → K → K
  scp : Fermion → K → K → K
  thetaPrime : K → K → K → K

/-- The phases in the symmetric and the broken phase of the vacuum, gen_func_fluid.cpp:568-582. -/
structure Phases (K : Type) where
  sym : K
  brk : K
  sym' : Fermion → K
  brk' : Fermion → K

variable {K : Type}

/-- `kappa_QL_0`, gen_func_fluid.h:465. -/
def kappaQL [Field K] : K := 6
/-- `kappa_H_0`, gen_func_fluid.h:466. -/
def kappaH [Field K] : K := 4
/-- `kappa_QR_0`, gen_func_fluid.h:467. -/
def kappaQR [Field K] : K := 3
/-- `kappa_LL_0`, gen_func_fluid.h:469. -/
def kappaLL [Field K] : K := 2
/-- `kappa_RL_0`, gen_func_fluid.h:470. -/
def kappaRL [Field K] : K := 1

/-- The derivatives in `top_source::operator()` for given coefficients, top_source.cpp:83-119.  `num` is
`num_int`. -/
def topSystem [Field K] (r : Rates K) (num gamM scp : K) (w : Fin 8 → K) : Fin 8 → K :=
  let kq := kappaQL * num
  let ktR := kappaQR * num
  let muM := w 1 / ktR - w 0 / kq
  let bR := -(w 1 + w 0)
  let muSS := 2 * w 0 / kq - w 1 / ktR - bR / kappaQR
  let muY := w 1 / ktR - w 0 / kq - w 2 / kappaH - w 3 / kappaH
  ![w 4, w 5, w 6, w 7,
    (scp - gamM * muM + 2 * r.gamSS * muSS - r.gamY * muY + r.vw * w 4) / r.dq,
    (-scp + gamM * muM + r.gamY * muY + r.vw * w 5) / r.dt,
    (-r.gamY * muY + r.vw * w 6) / r.dh,
    (-r.gamY * muY + r.vw * w 7) / r.dh]

/-- `top_source::operator()`, top_source.cpp:63-120. -/
def top [Field K] (e : External K) (r : Rates K) (p : Phases K) (w : Fin 8 → K) (z : K) : Fin 8 → K :=
  let mt := e.mass .top z
  topSystem r (e.kappa mt) (e.gamM .top mt) (e.scp .top mt (e.thetaPrime p.sym p.brk z)) w

/-- `top_source::Calc_nL`, the returned value, top_source.cpp:59-60. -/
def topNL [Field K] (w : Fin 8 → K) : K := 3 * w 0 + 2 * w 1

/-- The derivatives in `bot_source::operator()` for given coefficients, bot_source.cpp:81-155. -/
def botSystem [Field K] (r : Rates K) (gamYb numT numB gamMt gamMb scpT scpB : K) (w : Fin 12 → K) :
    Fin 12 → K :=
  let ktL := kappaQL * numT
  let ktR := kappaQR * numT
  let kbL := kappaQL * numB
  let kbR := kappaQR * numB
  let kq := ktL * kbL / (ktL + kbL)
  let muMt := w 1 / ktR - w 0 / kq
  let muMb := w 2 / kbR - w 0 / kq
  let muYt := w 1 / ktR - w 0 / kq - w 3 / kappaH - w 4 / kappaH
  let muYb := w 2 / kbR - w 0 / kq - w 3 / kappaH - w 4 / kappaH
  let muSS := -4 * w 5 * (2 / kappaQL + 1 / kappaQR) + 2 * w 0 / kq - w 1 / ktR - w 2 / kbR
  ![w 6, w 7, w 8, w 9, w 10, w 11,
    (r.vw * w 6 - (gamMt * muMt + gamMb * muMb + r.gamYt * muYt + gamYb * muYb - 2 * r.gamSS * muSS -
      scpT - scpB)) / r.dq,
    (r.vw * w 7 - (-gamMt * muMt - r.gamYt * muYt + r.gamSS * muSS + scpT)) / r.dq,
    (r.vw * w 8 - (-gamMb * muMb - gamYb * muYb + r.gamSS * muSS + scpB)) / r.dq,
    (r.vw * w 9 - (r.gamYt * muYt - gamYb * muYb)) / r.dh,
    (r.vw * w 10 - (r.gamYt * muYt - gamYb * muYb)) / r.dh,
    (r.vw * w 11 - r.gamSS * muSS) / r.dq]

/-- `bot_source::operator()`, bot_source.cpp:30-156. -/
def bot [Field K] (e : External K) (r : Rates K) (p : Phases K) (flag : Int) (w : Fin 12 → K) (z : K) :
    Outcome (Fin 12 → K) :=
  let mt := e.mass .top z
  if flag ≠ 1 ∧ flag ≠ 2 then err .runtime
  else
    let mb := if flag = 1 then e.mass .bottom z else 0
    let gamYb := if flag = 2 then 0 else r.gamYb
    let scpT := e.scp .top mt (e.thetaPrime (p.sym' .top) (p.brk' .top) z)
    let scpB := if flag = 1 then e.scp .bottom mb (e.thetaPrime (p.sym' .bottom) (p.brk' .bottom) z) else 0
    ok (botSystem r gamYb (e.kappa mt) (e.kappa mb) (e.gamM .top mt) (e.gamM .bottom mb) scpT scpB w)

/-- `bot_source::Calc_nL`, the returned value, bot_source.cpp:190. -/
def botNL [Field K] (w : Fin 12 → K) : K := w 0 - 2 * w 5

/-- The derivatives in `tau_source::operator()` for given coefficients, tau_source.cpp:104-208. -/
def tauSystem [Field K] (r : Rates K) (gamYb numT numB numTau gamMt gamMb gamMtau scpT scpB scpTau : K)
    (w : Fin 18 → K) : Fin 18 → K :=
  let ktL := kappaQL * numT
  let ktR := kappaQR * numT
  let kbL := kappaQL * numB
  let kbR := kappaQR * numB
  let ktauL := kappaLL * numTau
  let ktauR := kappaRL * numTau
  let kq := ktL * kbL / (ktL + kbL)
  let muMt := w 1 / ktR - w 0 / kq
  let muMb := w 2 / kbR - w 0 / kq
  let muMtau := w 5 / ktauR - w 3 / ktauL
  let muYt := w 1 / ktR - w 0 / kq - w 6 / kappaH - w 7 / kappaH
  let muYb := w 2 / kbR - w 0 / kq - w 6 / kappaH - w 7 / kappaH
  let muYtau := w 5 / ktauR - w 3 / ktauL + w 6 / kappaH + w 7 / kappaH
  let muSS := -4 * w 8 * (2 / kappaQL + 1 / kappaQR) + 2 * w 0 / kq - w 1 / ktR - w 2 / kbR
  ![w 9, w 10, w 11, w 12, w 13, w 14, w 15, w 16, w 17,
    (r.vw * w 9 - (gamMt * muMt + gamMb * muMb + r.gamYt * muYt + gamYb * muYb - 2 * r.gamSS * muSS -
      scpT - scpB)) / r.dq,
    (r.vw * w 10 - (-gamMt * muMt - r.gamYt * muYt + r.gamSS * muSS + scpT)) / r.dq,
    (r.vw * w 11 - (-gamMb * muMb - gamYb * muYb + r.gamSS * muSS + scpB)) / r.dq,
    (r.vw * w 12 - (gamMtau * muMtau + r.gamYtau * muYtau - scpTau)) / r.dlep,
    (r.vw * w 13 - 0) / r.dtau,
    (r.vw * w 14 - (-gamMtau * muMtau - r.gamYtau * muYtau + scpTau)) / r.dtau,
    (r.vw * w 15 - (r.gamYt * muYt - gamYb * muYb - r.gamYtau * muYtau)) / r.dh,
    (r.vw * w 16 - (r.gamYt * muYt - gamYb * muYb - r.gamYtau * muYtau)) / r.dh,
    (r.vw * w 17 - r.gamSS * muSS) / r.dq]

/-- `tau_source::operator()`, tau_source.cpp:30-209. -/
def tau [Field K] (e : External K) (r : Rates K) (p : Phases K) (botFlag tauFlag : Int) (w : Fin 18 → K)
    (z : K) : Outcome (Fin 18 → K) :=
  let mt := e.mass .top z
  if botFlag ≠ 1 ∧ botFlag ≠ 2 then err .runtime
  else if tauFlag ≠ 1 ∧ tauFlag ≠ 2 then err .runtime
  else
    let mb := if botFlag = 1 then e.mass .bottom z else 0
    let mtau := if tauFlag = 1 then e.mass .tau z else 0
    let gamYb := if botFlag = 2 then 0 else r.gamYb
    let scpT := e.scp .top mt (e.thetaPrime (p.sym' .top) (p.brk' .top) z)
    let scpB := if botFlag = 1 ∧ tauFlag = 1 then
      e.scp .bottom mb (e.thetaPrime (p.sym' .bottom) (p.brk' .bottom) z) else 0
    let scpTau := if botFlag = 1 ∧ tauFlag = 1 then
      e.scp .tau mtau (e.thetaPrime (p.sym' .tau) (p.brk' .tau) z) else 0
    ok (tauSystem r gamYb (e.kappa mt) (e.kappa mb) (e.kappa mtau) (e.gamM .top mt) (e.gamM .bottom mb)
      (e.gamM .tau mtau) scpT scpB scpTau w)

/-- `tau_source::Calc_nL`, the returned value, tau_source.cpp:254. -/
def tauNL [Field K] (w : Fin 18 → K) : K := w 0 - 2 * w 8 + w 3

end Verif.Via
