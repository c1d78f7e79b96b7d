import Verif.Model.Num
import Mathlib.Algebra.Order.Floor.Defs
import Mathlib.Algebra.Order.Round
import Mathlib.Data.Rat.Floor

/-!
# Terrain radiation: `cosipy/modules/radCor.py`

The module Wohlfahrt2016 completely, and of Moelg2009 the solar parameters, the positions in the look-up table of
topographic shading, the hour angles and the sky-view factor. Here the shading is a parameter; `relshad`, the tables and
`calcRad` are in Model/Shading.
-/

set_option autoImplicit false

namespace Cosipy

/-- Inverse trigonometric functions and the tangent of Python's `math`. Operations only, no laws (as in
radCor.py:9-236). -/
class InvTrig (α : Type) where
  asin : α → α
  acos : α → α
  tan : α → α

namespace RadCor

section
variable {α : Type} [Add α] [Sub α] [Mul α] [Div α] [Neg α] [LT α] [DecidableLT α] [BEq α] [Zero α] [OfScientific α]
  [Transc α] [InvTrig α]

/-- `math.asin`: ValueError outside [-1, 1] (as in radCor.py:9-63). -/
def pyAsin (x : α) : M α := if x < -1.0 then .error .value else if 1.0 < x then .error .value else .ok (InvTrig.asin x)

/-- `math.acos`: ValueError outside [-1, 1] (as in radCor.py:9-63). -/
def pyAcos (x : α) : M α := if x < -1.0 then .error .value else if 1.0 < x then .error .value else .ok (InvTrig.acos x)

/-- The factor from degrees to radians, radCor.py:27. -/
def fac : α := Transc.pi / 180.0

/-- `math.radians` (as in radCor.py:9-236). -/
def radians (x : α) : α := x * Transc.pi / 180.0

/-- Sine of the solar declination, radCor.py:30-31. -/
def sinDeclination (day : α) : α :=
  0.39785 * Transc.sin ((278.97 + 0.9856 * day + 1.9165 * Transc.sin ((356.6 + 0.9856 * day) * fac)) * fac)

/-- The equation of time in hours, radCor.py:38-41. -/
def timeEq (day : α) : α :=
  let teta := (279.575 + 0.9856 * day) * fac
  (-104.7 * Transc.sin teta + 596.2 * Transc.sin (2.0 * teta) + 4.3 * Transc.sin (3.0 * teta)
    - 12.7 * Transc.sin (4.0 * teta) - 429.3 * Transc.cos teta - 2.0 * Transc.cos (2.0 * teta)
    + 19.3 * Transc.cos (3.0 * teta)) / 3600.0

/-- `solarFParallel`, radCor.py:9-63: elevation, zenith and azimuth of the sun. -/
def solarFParallel (lat lon timezoneLon day hour : α) : M (α × α × α) := do
  let dec ← pyAsin (sinDeclination day)
  let lc := (timezoneLon - lon) / 15.0
  let solarnoon := 12.0 - lc - timeEq day
  let solartime := hour - lc - timeEq day
  let beta ← pyAsin (Transc.sin (lat * fac) * Transc.sin dec
    + Transc.cos (lat * fac) * Transc.cos dec * Transc.cos (15.0 * fac * (solartime - solarnoon)))
  let zeni := Transc.pi / 2.0 - beta
  let a ← pyAcos (Transc.sin (lat * fac) * Transc.cos zeni - Transc.sin dec)
  let q ← fdiv a (Transc.cos (lat * fac))
  let azi := q * Transc.sin zeni
  return (beta, zeni, if solartime < solarnoon then azi * (-1.0) else azi)

/-- `Fdif_Neustift`, radCor.py:66-101. (With a numpy number as radiation the first division gives an infinity instead of
raising; `radCor2D` then raises at its own division.) -/
def fdifNeustift (doy zeni rg : α) : M α := do
  let so := 1367.0 * (1.0 + 0.033 * Transc.cos (2.0 * Transc.pi * doy / 366.0)) * Transc.cos zeni
  let ci ← fdiv rg so
  if 50.0 < ci then return 0.2465
  else return Transc.exp (-Transc.exp (0.1001 - (4.7930 - 9.4758 * ci))) * (1.0 - 0.2465) + 0.2465

/-- `radCor2D`, radCor.py:104-156. -/
def radCor2D (doy zeni azi angslo azislo rm zeniThld : α) : M α := do
  let f ← fdifNeustift doy zeni rm
  let f := if radians zeniThld < zeni then 1.0 else f
  let rb := rm * (1.0 - f)
  let rd := rm * f
  let cf ← fdiv (Transc.cos zeni * Transc.cos (angslo * fac)
    + Transc.sin zeni * Transc.sin (angslo * fac) * Transc.cos (azi - azislo * fac)) (Transc.cos zeni)
  return rb * cf + rd

/-- `correctRadiation`, radCor.py:159-164. -/
def correctRadiation (lat lon timezoneLon doy hour angslo azislo rm zeniThld : α) : M α := do
  let (_, zeni, azi) ← solarFParallel lat lon timezoneLon doy hour
  radCor2D doy zeni azi angslo azislo rm zeniThld

/-- The number under the root in `haversine`, radCor.py:228-234. -/
def havArg (lat1 lon1 lat2 lon2 : α) : α :=
  let dlat := radians lat2 - radians lat1
  let dlon := radians lon2 - radians lon1
  Transc.sin (dlat / 2.0) * Transc.sin (dlat / 2.0)
    + Transc.cos (radians lat1) * Transc.cos (radians lat2) * (Transc.sin (dlon / 2.0) * Transc.sin (dlon / 2.0))

/-- `haversine`, radCor.py:225-236: distance in metres. Squares are products. -/
def haversine (lat1 lon1 lat2 lon2 : α) : M α := do
  let s ← pyAsin (Transc.pow (havArg lat1 lon1 lat2 lon2) 0.5)
  return 2.0 * 6371000.0 * s

/-! ## Moelg2009 -/

/-- The entries of one row of `solpars` that are used later: eccentricity factor, declination, time correction
(degrees) (radCor.py:168-222). -/
structure SolRow (α : Type) where
  eccorr : α
  soldec : α
  tcorr : α

/-- Solar declination of row `j`, radCor.py:209 and 213. -/
def solDec [NatCast α] (j : Nat) : α :=
  let tau := 2.0 * Transc.pi * (j : α) / 365.0
  0.006918 - 0.399912 * Transc.cos tau + 0.070257 * Transc.sin tau - 0.006758 * Transc.cos (2.0 * tau)
    + 0.000907 * Transc.sin (2.0 * tau) - 0.002697 * Transc.cos (3.0 * tau) + 0.00148 * Transc.sin (3.0 * tau)

/-- One row, radCor.py:198-216: `j` counts from 0. The sunrise hour angle (columns 5 and 6) is computed and never used; its
`acos` can raise. -/
def solRow [NatCast α] (lat : α) (j : Nat) : M (SolRow α) := do
  let x := 0.9856 * ((j : α) + 1.0) - 2.72
  let t2 := -7.66 * Transc.sin (radians x)
    - 9.87 * Transc.sin (2.0 * radians x + radians 24.99 + radians 3.83 * Transc.sin (radians x))
  let tau := 2.0 * Transc.pi * (j : α) / 365.0
  let ecc := 1.00011 + 0.034221 * Transc.cos tau + 0.00128 * Transc.sin tau + 0.000719 * Transc.cos (2.0 * tau)
    + 0.000077 * Transc.sin (2.0 * tau)
  let _ ← pyAcos (-InvTrig.tan (radians lat) * InvTrig.tan (solDec j))
  return { eccorr := ecc, soldec := solDec j, tcorr := t2 * 15.0 / 60.0 }

/-- `solpars`, radCor.py:168-222: 365 rows, and the last one again for leap years. -/
def solpars [NatCast α] (lat : α) : M (List (SolRow α)) := do
  let rows ← (List.range 365).mapM (solRow lat)
  let last ← pyGet rows 364
  return rows ++ [last]

/-- Hour angle (degrees) used to fill the shading table, radCor.py:354. -/
def lutHourAngle (hod tcorr tcart : α) : α := 180.0 + 15.0 / 2.0 - hod * 15.0 - tcorr + tcart

/-- Hour angle (degrees) used for the radiation, radCor.py:468. -/
def radHourAngle (step hour tcorr tcart : α) : α := 180.0 + step / 3600.0 * 15.0 / 2.0 - hour * 15.0 - tcorr + tcart

/-- The self-shading entry of one direction, radCor.py:402-405: `shaded` is `illu == 0`. -/
def svfEntry (slo asp azi el : α) (shaded : Bool) : α :=
  let a := Transc.cos (radians el) * Transc.sin slo * Transc.cos (asp - radians azi) + Transc.sin (radians el) * Transc.cos slo
  let a := if a < 0.0 then 0.0 else a
  let a := if 0.0 < a then 1.0 else a
  if shaded then 0.0 else a

/-- The 36 azimuths and 44 elevations, radCor.py:397 and 400. -/
def azimuths : List Nat := (List.range 36).map fun i => 10 + 10 * i
/-- radCor.py:400. -/
def elevations : List Nat := (List.range 44).map fun i => 2 + 2 * i

/-- `LUTsvf` of one cell, radCor.py:379-412; slope and aspect in degrees, `shaded azi el` from `relshad`. -/
def skyViewFactor [NatCast α] (slope aspect : α) (shaded : Nat → Nat → Bool) : α :=
  let res := azimuths.foldl (fun r (azi : Nat) => elevations.foldl (fun r (el : Nat) =>
    r + svfEntry (radians slope) (radians aspect) (azi : α) (el : α) (shaded azi el)) r) 0.0
  res / (36.0 * 44.0)

end

/-! ## Positions in the shading table (exact arithmetic; the step is a whole number of seconds) -/

/-- Number of entries, `int(366 * (3600 / STEP) * 24)`, radCor.py:339. -/
def lutSize (step : Nat) : Int := ⌊(366 * (3600 / (step : ℚ)) * 24 : ℚ)⌋

/-- The hours of a day that are filled, `np.arange(0, 24, int(STEP / 3600))`, radCor.py:351: a step of 0 raises
ZeroDivisionError. -/
def lutHours (step : Nat) : M (List Nat) :=
  let k := step / 3600
  if k = 0 then .error .zeroDiv else .ok ((List.range 24).filter fun h => h % k == 0)

/-- Position written, `round(doy * (3600 / STEP) * 24 + hod * 3600 / STEP)`, radCor.py:372 and 374: `doy` from 0, halves to
even (`round` of Python). -/
def lutWrite (step doy hod : Nat) : Int :=
  let x : ℚ := doy * (3600 / (step : ℚ)) * 24 + hod * 3600 / step
  let f := ⌊x⌋
  if x - f < 1 / 2 then f else if 1 / 2 < x - f then f + 1 else if f % 2 = 0 then f else f + 1

/-- Position read, `int((doy - 1) * (86400 / STEP) + hour / (STEP / 3600))`, radCor.py:530: `doy` from 1. -/
def lutRead (step doy hour : Nat) : Int := ⌊(((doy : ℚ) - 1) * (86400 / step) + hour / (step / 3600) : ℚ)⌋

end RadCor

end Cosipy
