import Mathlib.Algebra.Field.Defs
import Mathlib.Data.Fin.VecNotation

/-!
# The fluid equations of the semi-classical force approach

`transport_equations::operator()` in `src/baryo_calculation/transport_equations.cpp`: the derivatives of
chemical potentials and velocities (`UseVelocityTransportEquations`), or of chemical potentials and their
first derivatives.  Exact arithmetic in a field, no rounding.
-/

namespace Verif.Fh

variable {K : Type}

/-- The coefficients at one position: integrals `Kfactors::K*_normalized` for the top quark, massless fermions
and massless bosons (transport_equations.cpp:539-566), squared masses and their derivative (523-537), and the
temperature and wall velocity. -/
structure Coeffs (K : Type) where
  k1t : K
  k2t : K
  k4t : K
  k5t : K
  k6t : K
  k8t : K
  k9t : K
  k1b : K
  k4b : K
  k5b : K
  k1h : K
  k4h : K
  k5h : K
  mt2 : K
  dmt2 : K
  mw2 : K
  tc : K
  vw : K

/-- `GH`, transport_equations.cpp:571. -/
def gH [Field K] (c : Coeffs K) : K := c.mw2 / (50 * c.tc)
/-- `GY`, transport_equations.cpp:572; `4.2e-3`. -/
def gY [Field K] (c : Coeffs K) : K := 42 / 10000 * c.tc
/-- `GM`, transport_equations.cpp:573. -/
def gM [Field K] (c : Coeffs K) : K := c.mt2 / (63 * c.tc)
/-- `GSS`, transport_equations.cpp:574; `4.9e-4`. -/
def gSS [Field K] (c : Coeffs K) : K := 49 / 100000 * c.tc
/-- `GHTot`, transport_equations.cpp:568 and 576. -/
def gHTot [Field K] (c : Coeffs K) : K := c.k4h / (c.k1h * (20 / c.tc))
/-- `GTTot`, transport_equations.cpp:569 and 577. -/
def gTTot [Field K] (c : Coeffs K) : K := c.k4t / (c.k1t * (6 / c.tc))
/-- `GBTot`, transport_equations.cpp:569 and 578. -/
def gBTot [Field K] (c : Coeffs K) : K := c.k4b / (c.k1b * (6 / c.tc))
/-- `GW`, transport_equations.cpp:579. -/
def gW [Field K] (c : Coeffs K) : K := gHTot c

/-- `St`, transport_equations.cpp:584-585; `d` and `d2` are the derivatives of the phase. -/
def st [Field K] (c : Coeffs K) (d d2 : K) : K :=
  -c.vw * c.k8t * (c.mt2 * d2 + c.dmt2 * d) + c.vw * c.k9t * d * c.mt2 * c.dmt2

/-- `dSt`, transport_equations.cpp:687-689. -/
def dst [Field K] (c : Coeffs K) (d d2 : K) : K :=
  -c.vw * c.k8t * (2 * c.dmt2 * d2) + c.vw * c.k9t * (d2 * c.mt2 + d * c.dmt2) * c.dmt2

/-- The branch with velocities, transport_equations.cpp:587-669, for the source `St`. -/
def velocity [Field K] (c : Coeffs K) (s : K) (x : Fin 8 → K) : Fin 8 → K :=
  let gy := gY c
  let gm := gM c
  let gss := gSS c
  let gw := gW c
  let dm := c.dmt2
  let vw := c.vw
  let mut2 := x 0
  let mub2 := x 1
  let mutc2 := x 2
  let muh2 := x 3
  let ut2 := x 4
  let ub2 := x 5
  let utc2 := x 6
  let uh2 := x 7
  let detT := c.k1t * c.k5t * vw * vw + c.k4t
  let detB := c.k1b * c.k5b * vw * vw + c.k4b
  let detH := c.k1h * c.k5h * vw * vw + c.k4h
  ![(-3 * c.k2t * c.k5t * mut2 * vw * vw * dm + 27 * gss * c.k1b * c.k5t * mub2 * vw +
      27 * gss * c.k1t * c.k5t * mut2 * vw - 27 * gss * c.k1t * c.k5t * mutc2 * vw +
      6 * gm * c.k5t * mut2 * vw + 6 * gm * c.k5t * mutc2 * vw + 3 * gss * c.k5t * mub2 * vw +
      3 * gss * c.k5t * mut2 * vw + 3 * gss * c.k5t * mutc2 * vw - 3 * gw * c.k5t * mub2 * vw +
      3 * gw * c.k5t * mut2 * vw + 3 * gy * c.k5t * muh2 * vw + 3 * gy * c.k5t * mut2 * vw +
      3 * gy * c.k5t * mutc2 * vw + 3 * c.k6t * ut2 * vw * dm + 3 * gTTot c * ut2 - s) / detT / 3,
    (9 * gss * c.k1b * c.k5b * mub2 * vw + 9 * gss * c.k1t * c.k5b * mut2 * vw -
      9 * gss * c.k1t * c.k5b * mutc2 * vw + gss * c.k5b * mub2 * vw + gss * c.k5b * mut2 * vw +
      gss * c.k5b * mutc2 * vw + gw * c.k5b * mub2 * vw - gw * c.k5b * mut2 * vw + gy * c.k5b * mub2 * vw +
      gy * c.k5b * muh2 * vw + gy * c.k5b * mutc2 * vw + gBTot c * ub2) / detB,
    (-3 * c.k2t * c.k5t * mutc2 * vw * vw * dm + 27 * gss * c.k1b * c.k5t * mub2 * vw +
      27 * gss * c.k1t * c.k5t * mut2 * vw - 27 * gss * c.k1t * c.k5t * mutc2 * vw +
      6 * gm * c.k5t * mut2 * vw + 6 * gm * c.k5t * mutc2 * vw + 3 * gss * c.k5t * mub2 * vw +
      3 * gss * c.k5t * mut2 * vw + 3 * gss * c.k5t * mutc2 * vw + 3 * gy * c.k5t * mub2 * vw +
      6 * gy * c.k5t * muh2 * vw + 3 * gy * c.k5t * mut2 * vw + 6 * gy * c.k5t * mutc2 * vw +
      3 * c.k6t * utc2 * vw * dm + 3 * gTTot c * utc2 - s) / detT / 3,
    (4 * gH c * c.k5h * muh2 * vw + 3 * gy * c.k5h * mub2 * vw + 6 * gy * c.k5h * muh2 * vw +
      3 * gy * c.k5h * mut2 * vw + 6 * gy * c.k5h * mutc2 * vw + 4 * gHTot c * uh2) / detH / 4,
    (-3 * c.k1t * c.k6t * ut2 * vw * vw * dm - 3 * c.k2t * c.k4t * mut2 * vw * dm +
      27 * gss * c.k1b * c.k4t * mub2 + 27 * gss * c.k1t * c.k4t * mut2 - 27 * gss * c.k1t * c.k4t * mutc2 -
      3 * gTTot c * c.k1t * ut2 * vw + 6 * gm * c.k4t * mut2 + 6 * gm * c.k4t * mutc2 +
      3 * gss * c.k4t * mub2 + 3 * gss * c.k4t * mut2 + 3 * gss * c.k4t * mutc2 - 3 * gw * c.k4t * mub2 +
      3 * gw * c.k4t * mut2 + 3 * gy * c.k4t * muh2 + 3 * gy * c.k4t * mut2 + 3 * gy * c.k4t * mutc2 +
      c.k1t * s * vw) / detT / 3,
    -(gBTot c * c.k1b * ub2 * vw - 9 * gss * c.k1b * c.k4b * mub2 - 9 * gss * c.k1t * c.k4b * mut2 +
      9 * gss * c.k1t * c.k4b * mutc2 - gss * c.k4b * mub2 - gss * c.k4b * mut2 - gss * c.k4b * mutc2 -
      gw * c.k4b * mub2 + gw * c.k4b * mut2 - gy * c.k4b * mub2 - gy * c.k4b * muh2 -
      gy * c.k4b * mutc2) / detB,
    (-3 * c.k1t * c.k6t * utc2 * vw * vw * dm - 3 * c.k2t * c.k4t * mutc2 * vw * dm +
      27 * gss * c.k1b * c.k4t * mub2 + 27 * gss * c.k1t * c.k4t * mut2 - 27 * gss * c.k1t * c.k4t * mutc2 -
      3 * gTTot c * c.k1t * utc2 * vw + 6 * gm * c.k4t * mut2 + 6 * gm * c.k4t * mutc2 +
      3 * gss * c.k4t * mub2 + 3 * gss * c.k4t * mut2 + 3 * gss * c.k4t * mutc2 + 3 * gy * c.k4t * mub2 +
      6 * gy * c.k4t * muh2 + 3 * gy * c.k4t * mut2 + 6 * gy * c.k4t * mutc2 + c.k1t * s * vw) / detT / 3,
    (-4 * gHTot c * c.k1h * uh2 * vw + 4 * gH c * c.k4h * muh2 + 3 * gy * c.k4h * mub2 +
      6 * gy * c.k4h * muh2 + 3 * gy * c.k4h * mut2 + 6 * gy * c.k4h * mutc2) / detH / 4]

/-- The branch without velocities, transport_equations.cpp:671-759, for the source `dSt`. -/
def second [Field K] (c : Coeffs K) (s : K) (x : Fin 8 → K) : Fin 8 → K :=
  let gy := gY c
  let gm := gM c
  let gss := gSS c
  let gw := gW c
  let gt := gTTot c
  let dm := c.dmt2
  let vw := c.vw
  let mut2 := x 0
  let mub2 := x 1
  let mutc2 := x 2
  let muh2 := x 3
  let dmut2 := x 4
  let dmub2 := x 5
  let dmutc2 := x 6
  let dmuh2 := x 7
  ![dmut2, dmub2, dmutc2, dmuh2,
    (-3 * c.k2t * c.k6t * mut2 * vw * vw * dm * dm + 27 * gss * c.k1b * c.k6t * mub2 * vw * dm +
      27 * gss * c.k1t * c.k6t * mut2 * vw * dm - 27 * gss * c.k1t * c.k6t * mutc2 * vw * dm -
      3 * c.k1t * c.k6t * dmut2 * vw * vw * dm + 6 * gm * c.k6t * mut2 * vw * dm +
      6 * gm * c.k6t * mutc2 * vw * dm + 3 * gss * c.k6t * mub2 * vw * dm +
      3 * gss * c.k6t * mut2 * vw * dm + 3 * gss * c.k6t * mutc2 * vw * dm - 3 * gt * c.k2t * mut2 * vw * dm -
      3 * gw * c.k6t * mub2 * vw * dm + 3 * gw * c.k6t * mut2 * vw * dm + 3 * gy * c.k6t * muh2 * vw * dm +
      3 * gy * c.k6t * mut2 * vw * dm + 3 * gy * c.k6t * mutc2 * vw * dm + 27 * gss * gt * c.k1b * mub2 +
      27 * gss * gt * c.k1t * mut2 - 27 * gss * gt * c.k1t * mutc2 - 3 * gt * c.k1t * dmut2 * vw +
      6 * gm * gt * mut2 + 6 * gm * gt * mutc2 + 3 * gss * gt * mub2 + 3 * gss * gt * mut2 +
      3 * gss * gt * mutc2 - 3 * gt * gw * mub2 + 3 * gt * gw * mut2 + 3 * gt * gy * muh2 +
      3 * gt * gy * mut2 + 3 * gt * gy * mutc2 - s) / c.k4t / 3,
    gBTot c * (9 * gss * c.k1b * mub2 + 9 * gss * c.k1t * mut2 - 9 * gss * c.k1t * mutc2 -
      vw * c.k1b * dmub2 + gss * mub2 + gss * mut2 + gss * mutc2 + mub2 * gw - mut2 * gw + gy * mub2 +
      muh2 * gy + mutc2 * gy) / c.k4b,
    (-3 * c.k2t * c.k6t * mutc2 * vw * vw * dm * dm + 27 * gss * c.k1b * c.k6t * mub2 * vw * dm +
      27 * gss * c.k1t * c.k6t * mut2 * vw * dm - 27 * gss * c.k1t * c.k6t * mutc2 * vw * dm -
      3 * c.k1t * c.k6t * dmutc2 * vw * vw * dm + 6 * gm * c.k6t * mut2 * vw * dm +
      6 * gm * c.k6t * mutc2 * vw * dm + 3 * gss * c.k6t * mub2 * vw * dm +
      3 * gss * c.k6t * mut2 * vw * dm + 3 * gss * c.k6t * mutc2 * vw * dm -
      3 * gt * c.k2t * mutc2 * vw * dm + 3 * gy * c.k6t * mub2 * vw * dm + 6 * gy * c.k6t * muh2 * vw * dm +
      3 * gy * c.k6t * mut2 * vw * dm + 6 * gy * c.k6t * mutc2 * vw * dm + 27 * gss * gt * c.k1b * mub2 +
      27 * gss * gt * c.k1t * mut2 - 27 * gss * gt * c.k1t * mutc2 - 3 * gt * c.k1t * dmutc2 * vw +
      6 * gm * gt * mut2 + 6 * gm * gt * mutc2 + 3 * gss * gt * mub2 + 3 * gss * gt * mut2 +
      3 * gss * gt * mutc2 + 3 * gt * gy * mub2 + 6 * gt * gy * muh2 + 3 * gt * gy * mut2 +
      6 * gt * gy * mutc2 - s) / c.k4t / 3,
    gHTot c * (-4 * vw * c.k1h * dmuh2 + 4 * gH c * muh2 + 3 * mub2 * gy + 6 * gy * muh2 + 3 * mut2 * gy +
      6 * gy * mutc2) / c.k4h / 4]

/-- `transport_equations::operator()`, transport_equations.cpp:516-805. -/
def rhs [Field K] (useVelocity : Bool) (c : Coeffs K) (d d2 : K) (x : Fin 8 → K) : Fin 8 → K :=
  if useVelocity then velocity c (st c d d2) x else second c (dst c d d2) x

/-- The result of `mubl_func`, transport_equations.cpp:891-892. -/
def mubl [Field K] (k1t k1b : K) (x : Fin 8 → K) : K :=
  1 / 2 * (1 + 4 * k1t) * x 0 + 1 / 2 * (1 + 4 * k1b) * x 1 - 2 * k1t * x 2

end Verif.Fh
