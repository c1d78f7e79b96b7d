import Verif.Model.RadCor

/-!
# Topographic shading and all-sky radiation: `relshad`, `LUTshad`, `LUTsvf`, `calcRad` of `cosipy/modules/radCor.py`

Two-dimensional arrays are functions of row and column together with the coordinate lists that give their size. NaN is
`none`. Simplifications: elevations, slopes, aspects, air temperature, pressure, humidity and cloud fraction are not NaN;
`int` of an infinite number (all latitudes equal) is a ZeroDivisionError here and an OverflowError in the source; a
distance of 0 is divided by as in the number type (numpy gives an infinity).
-/

set_option autoImplicit false

namespace Cosipy
namespace RadCor

/-- `np.flipud(g)` or `g[::-1, :]` of an array with `ny` rows, aws2cosipy.py:664-668, 727-734 and radCor.py:552. -/
def flipud {β : Type} (ny : Nat) (g : Nat → Nat → β) : Nat → Nat → β := fun i j => g (ny - 1 - i) j

section
variable {α : Type} [Add α] [Sub α] [Mul α] [Div α] [Neg α] [LT α] [DecidableLT α] [BEq α] [Zero α] [NatCast α]
  [OfScientific α] [Transc α] [InvTrig α] [HasTrunc α]

/-- `max(xs)`/`np.max(xs)`: ValueError for no values (radCor.py:259, 279-280, 311). -/
def listMax : List α → M α
  | [] => .error .value
  | x :: xs => .ok (xs.foldl pyMax x)

/-- `min(xs)`/`np.min(xs)` (radCor.py:259, 279-280). -/
def listMin : List α → M α
  | [] => .error .value
  | x :: xs => .ok (xs.foldl pyMin x)

/-- `np.linspace(a, b, n)` (radCor.py:275-276, 293-294): ValueError for a negative number of points, the last of several
points is `b` exactly. -/
def linspace (a b : α) (n : Int) : M (List α) :=
  if n < 0 then .error .value
  else if n = 1 then .ok [a]
  else .ok ((List.range n.toNat).map fun (i : Nat) => if i + 1 = n.toNat then b else (i : α) * ((b - a) / ((n.toNat - 1 : Nat) : α)) + a)

/-- `np.round(x).astype(int)` for `x ≥ 0`: halves to even (radCor.py:293-297). -/
def roundIdx (x : α) : Nat :=
  let k := (HasTrunc.trunc x).toNat
  let d := x - (k : α)
  if d < 0.5 then k else if 0.5 < d then k + 1 else if k % 2 = 0 then k else k + 1

/-- `(np.abs(xs - v)).argmin()`: the first position of the smallest distance; ValueError for no values
(radCor.py:289-290). -/
def nearestIdx (xs : List α) (v : α) : M Nat :=
  match xs with
  | [] => .error .value
  | x :: xs =>
    .ok ((xs.foldl (fun (s : Nat × Nat × α) y =>
      let d := pyAbs (y - v)
      if d < s.2.2 then (s.1 + 1, s.1 + 1, d) else (s.1 + 1, s.2.1, s.2.2)) (0, 0, pyAbs (x - v))).2.1)

/-- The radius of the area in degrees, radCor.py:259 (squares are products). -/
def radius (lats lons : List α) : M α := do
  let a ← listMax lats
  let b ← listMin lats
  let c ← listMax lons
  let d ← listMin lons
  return Transc.pow (pyAbs (a - b) * pyAbs (a - b) + pyAbs (c - d) * pyAbs (c - d)) 0.5

/-- The number of points of a profile, radCor.py:260. -/
def profileSize (lats : List α) (r : α) : M Int := do
  let l0 ← pyGet lats 0
  let l1 ← pyGet lats (-1)
  let q ← fdiv (r * (lats.length : α)) (l0 - l1)
  return HasTrunc.trunc q

/-- Points strictly inside the area, radCor.py:279-280. -/
def insideOf (xs pts : List α) : M (List α) := do
  let hi ← listMax xs
  let lo ← listMin xs
  return pts.filter fun x => decide (x < hi) && decide (lo < x)

/-- The profile of one cell towards the sun, radCor.py:263-306: rows and columns of the points and their distances in
metres. It depends on the coordinates only, not on elevations. -/
def profile (lats lons : List α) (r : α) (nums : Int) (sdirfn : α) (ilat ilon : Nat) :
    M (List (Nat × Nat) × List α) := do
  let beta := radians (90.0 - sdirfn)
  let dy := Transc.sin beta * r
  let dx := Transc.cos beta * r
  let lat ← pyGet lats ilat
  let lon ← pyGet lons ilon
  let latList ← linspace lat (lat + dy) nums
  let lonList ← linspace lon (lon + dx) nums
  let latIn ← insideOf lats latList
  let lonIn ← insideOf lons lonList
  let n := min latIn.length lonIn.length
  let latS := latIn.take n
  let lonS := lonIn.take n
  let latE ← pyGet latS (-1)
  let lonE ← pyGet lonS (-1)
  let iy ← nearestIdx lats latE
  let ix ← nearestIdx lons lonE
  let ys ← linspace (ilat : α) (iy : α) n
  let xs ← linspace (ilon : α) (ix : α) n
  let ds ← (latS.zip lonS).mapM fun p => haversine lat lon p.1 p.2
  return ((ys.map roundIdx).zip (xs.map roundIdx), ds)

/-- `z[i, j]` of an array of `ny` by `nx` cells: IndexError outside (radCor.py:297). -/
def cellAt (ny nx : Nat) (dem : Nat → Nat → α) (p : Nat × Nat) : M α :=
  if p.1 < ny ∧ p.2 < nx then .ok (dem p.1 p.2) else .error .index

/-- The angles of the terrain along a profile above its first point, in degrees, radCor.py:309. -/
def horizonAngles (zi ds : List α) : M (List α) :=
  match zi with
  | [] => .error .index
  | z0 :: zs => .ok (List.zipWith (fun z d => Transc.arctan ((z - z0) / d) * 180.0 / Transc.pi) zs ds.tail)

/-- One cell of `relshad`, radCor.py:271-314: is it lit? (`1` in the array is `true`, `0` is `false`.) -/
def litCell (dem : Nat → Nat → α) (lats lons : List α) (r : α) (nums : Int) (solh sdirfn : α) (ilat ilon : Nat) :
    M Bool := do
  let (cells, ds) ← profile lats lons r nums sdirfn ilat ilon
  let zi ← cells.mapM (cellAt lats.length lons.length dem)
  let hang ← horizonAngles zi ds
  let top ← listMax hang
  return !(decide (solh < top))

/-- The cells that are visited: glacier cells that are not on the border, in the order of the loops,
radCor.py:268-270. -/
def shadeCells (ny nx : Nat) (mask : Nat → Nat → Bool) : List (Nat × Nat) :=
  ((List.range ny).flatMap fun i => (List.range nx).map fun j => (i, j)).filter fun p =>
    decide (1 ≤ p.1) && decide (p.1 + 1 < ny) && decide (1 ≤ p.2) && decide (p.2 + 1 < nx) && mask p.1 p.2

/-- `relshad`, radCor.py:239-316. NaN for cells that are not visited. -/
def relshad (dem : Nat → Nat → α) (mask : Nat → Nat → Bool) (lats lons : List α) (solh sdirfn : α) :
    M (Nat → Nat → Option Bool) := do
  let r ← radius lats lons
  let nums ← profileSize lats r
  let cells := shadeCells lats.length lons.length mask
  let _ ← cells.mapM fun p => litCell dem lats lons r nums solh sdirfn p.1 p.2
  return fun i j =>
    if (i, j) ∈ cells then (litCell dem lats lons r nums solh sdirfn i j).toOption else none

/-! ## Position of the sun for the shading table -/

/-- Sine of the elevation of the sun, radCor.py:355-356 and 469-470. -/
def sinElev (soldec lat stime : α) : α :=
  Transc.sin soldec * Transc.sin (lat * Transc.pi / 180.0)
    + Transc.cos soldec * Transc.cos (lat * Transc.pi / 180.0) * Transc.cos (stime * Transc.pi / 180.0)

/-- Elevation and direction of the sun in degrees, radCor.py:357-367. -/
def sunPosition (soldec lat stime : α) : M (α × α) := do
  let s := sinElev soldec lat stime
  let a ← pyAsin s
  let q ← fdiv (s * Transc.sin (lat * Transc.pi / 180.0) - Transc.sin soldec) (Transc.cos a)
  let c ← fdiv q (Transc.cos (lat * Transc.pi / 180.0))
  let az ← pyAcos c
  let az := if 0.0 < stime then az * 180.0 / Transc.pi else az * 180.0 / Transc.pi * (-1.0)
  return (a * 180.0 / Transc.pi, 180.0 - az)

/-- One entry (hour `hod` of day `doy`, from 0) of the shading table, radCor.py:344-374: 1 lit, 0 shaded, -1 night, NaN
where not visited. -/
def shadeEntry (dem : Nat → Nat → α) (mask : Nat → Nat → Bool) (lats lons : List α) (row : SolRow α) (lat hod tcart : α) :
    M (Nat → Nat → Option α) := do
  let stime := lutHourAngle hod row.tcorr tcart
  let (h, dir) ← sunPosition row.soldec lat stime
  if 0.01 < sinElev row.soldec lat stime then do
    let illu ← relshad dem mask lats lons h dir
    return fun i j => if mask i j then (illu i j).map fun b => if b then 1.0 else 0.0 else none
  else return fun i j => if mask i j then some (-1.0) else none

/-- `LUTshad`, radCor.py:319-376: the shading table of a leap year, NaN where nothing is written. `rows` holds the columns of
`solpars` and `timecorr` that are used. An entry is NaN off the glacier, so writing a whole entry is writing its glacier
cells. -/
def lutShad (rows : List (SolRow α)) (lat : α) (dem : Nat → Nat → α) (mask : Nat → Nat → Bool) (lats lons : List α) (step : Nat)
    (tcart : α) : M (List (Nat → Nat → Option α)) := do
  let hours ← lutHours step
  ((List.range 366).flatMap fun doy => hours.map fun hod => (doy, hod)).foldlM
    (fun tbl (p : Nat × Nat) => do
      let row ← pyGet rows (p.1 : Int)
      let e ← shadeEntry dem mask lats lons row lat (p.2 : α) tcart
      pyModify tbl (lutWrite step p.1 p.2) fun _ => e)
    (List.replicate (lutSize step).toNat fun _ _ => none)

/-- `LUTsvf`, radCor.py:379-412: the sky-view factor of every glacier cell, NaN elsewhere. -/
def lutSvf (dem : Nat → Nat → α) (mask : Nat → Nat → Bool) (slope aspect : Nat → Nat → α) (lats lons : List α) :
    M (Nat → Nat → Option α) := do
  let _ ← (azimuths.flatMap fun a => elevations.map fun e => (a, e)).mapM fun p =>
    relshad dem mask lats lons (p.2 : α) (p.1 : α)
  let shaded := fun i j (azi el : Nat) => match relshad dem mask lats lons (el : α) (azi : α) with
    | .ok illu => illu i j == some false
    | .error _ => false
  return fun i j => if mask i j then some (skyViewFactor (slope i j) (aspect i j) (shaded i j)) else none

/-! ## `calcRad` -/

/-- Optical air mass, radCor.py:471-474 (the square is a product; NaN below the horizon is not needed). -/
def airMass (sinH : α) : α := 35.0 * Transc.pow (1224.0 * (sinH * sinH) + 1.0) (-0.5)

/-- The transmissivities for Rayleigh scattering, permanent gases, aerosols, aerosol absorption and water vapour,
radCor.py:480-490. -/
structure Taus (α : Type) where
  r : α
  g : α
  a : α
  aa : α
  w : α

/-- radCor.py:480-490: pressure, elevation, vapour pressure and temperature of a cell. -/
def taus (mopt p elev vp t : α) : Taus α :=
  let m := p / 1013.25 * mopt
  let k := 2.4845e-5 * elev + 0.87764
  let k := if 1.0 < k then 1.0 else k
  let ta := Transc.pow k mopt
  let w := 46.5 * vp / t
  { r := Transc.exp (-0.09030 * Transc.pow m 0.84 * (1.0 + m - Transc.pow m 1.01))
    g := Transc.exp (-0.0127 * Transc.pow mopt 0.26)
    a := ta
    aa := 1.0 - (1.0 - 0.9) * (1.0 - m + Transc.pow m 1.06) * (1.0 - ta)
    w := 1.0 - 2.4959 * mopt * w / (Transc.pow (1.0 + 79.034 * mopt * w) 0.6828 + 6.385 * mopt * w) }

/-- Direct clear-sky transmissivity, radCor.py:491. -/
def tauCs (x : Taus α) : α := x.r * x.g * x.a * x.w

/-- Clear-sky direct and diffuse radiation on a horizontal surface, radCor.py:493-496. -/
def clearSky (eccorr sinH mopt p : α) (x : Taus α) : α × α :=
  let m := p / 1013.25 * mopt
  (1367.0 * eccorr * sinH * tauCs x,
   0.66 * 1367.0 * eccorr * sinH * x.g * x.w * x.aa * (1.0 - x.r * x.a / x.aa) / (1.0 - m + Transc.pow m 1.02))

/-- Cosine of the angle between the sun and the normal of a slope, radCor.py:499-524. -/
def cosZetap (soldec lat stime slope aspect : α) : α :=
  let s := radians slope
  let rot := radians (180.0 - aspect)
  let phi := radians lat
  let om := stime * Transc.pi / 180.0
  (Transc.cos s * Transc.sin phi - Transc.cos phi * Transc.cos rot * Transc.sin s) * Transc.sin soldec
    + (Transc.sin phi * Transc.cos rot * Transc.sin s + Transc.cos s * Transc.cos phi) * Transc.cos soldec * Transc.cos om
    + Transc.sin rot * Transc.sin s * Transc.cos soldec * Transc.sin om

/-- What `calcRad` knows of a cell: air temperature, pressure, vapour pressure (from metpy), cloud fraction, elevation,
slope, aspect, glacier mask, sky-view factor and entry of the shading table (radCor.py:415-416, 463-465). -/
structure RadCell (α : Type) where
  t : α
  p : α
  vp : α
  cld : α
  elev : α
  slope : α
  aspect : α
  mask : Bool
  svf : Option α
  illu : Option α

/-- Direct radiation on the slope of a cell under a clear sky, radCor.py:527-531. -/
def directSlope (eccorr cosz tau : α) (illu : Option α) : α :=
  let s := if cosz < 0.0 then 0.0 else 1367.0 * eccorr * cosz * tau
  match illu with
  | some x => if x == 0.0 then 0.0 else s
  | none => s

/-- Diffuse radiation of a cell, radCor.py:535-543: NaN for a negative cloud fraction or without sky-view factor. -/
def diffuse (grcs dcs cld : α) (svf : Option α) : Option α :=
  if 0.0 < cld then svf.map fun v => grcs * ((100.0 - 0.65 * 100.0 - 4.6) / 100.0 * cld + 4.6 / 100.0) * v
  else if cld == 0.0 then svf.map fun v => dcs * v
  else none

/-- One cell of `calcRad` in daylight, radCor.py:476-545. -/
def dayCell (soldec eccorr lat stime : α) (x : RadCell α) : Option α :=
  let sinH := sinElev soldec lat stime
  let mopt := airMass sinH
  let tau := taus mopt x.p x.elev x.vp x.t
  let cs := clearSky eccorr sinH mopt x.p tau
  let dir := directSlope eccorr (cosZetap soldec lat stime x.slope x.aspect) (tauCs tau) x.illu
  (diffuse (cs.1 + cs.2) cs.2 x.cld x.svf).map fun d => dir * (1.0 - (1.0 - 0.0) * x.cld) + d

/-- One cell of `calcRad`, radCor.py:467-549: with the sun down 0 on the glacier and NaN elsewhere. -/
def radCell (soldec eccorr lat stime : α) (x : RadCell α) : Option α :=
  if 0.01 < sinElev soldec lat stime then dayCell soldec eccorr lat stime x
  else if x.mask then some (0.0 * x.elev) else none

/-- The arrays handed to `calcRad`, radCor.py:415-416; the vapour pressure is computed by metpy (radCor.py:463-465), here a
function of humidity, temperature and pressure. -/
structure RadGrids (α : Type) where
  t : Nat → Nat → α
  p : Nat → Nat → α
  rh : Nat → Nat → α
  cld : Nat → Nat → α
  elev : Nat → Nat → α
  mask : Nat → Nat → Bool
  slope : Nat → Nat → α
  aspect : Nat → Nat → α
  svf : Nat → Nat → Option α

/-- Every array turned upside down, aws2cosipy.py:721-739 (the sky-view factor is built upside down already,
aws2cosipy.py:662-670). -/
def RadGrids.flip (ny : Nat) (g : RadGrids α) : RadGrids α :=
  { g with
    t := flipud ny g.t, p := flipud ny g.p, rh := flipud ny g.rh, cld := flipud ny g.cld, elev := flipud ny g.elev,
    mask := flipud ny g.mask, slope := flipud ny g.slope, aspect := flipud ny g.aspect }

/-- The cell `(i, j)` of the arrays. -/
def RadGrids.cell (vapour : α → α → α → α) (g : RadGrids α) (illu : Nat → Nat → Option α) (i j : Nat) : RadCell α :=
  { t := g.t i j, p := g.p i j, vp := vapour (g.rh i j) (g.t i j) (g.p i j), cld := g.cld i j, elev := g.elev i j,
    slope := g.slope i j, aspect := g.aspect i j, mask := g.mask i j, svf := g.svf i j, illu := illu i j }

/-- `calcRad`, radCor.py:415-553: `doy` from 1; the shading table is only read in daylight (IndexError beyond its end);
the result is turned upside down. -/
def calcRad (vapour : α → α → α → α) (rows : List (SolRow α)) (doy hour : Nat) (lat : α) (ny : Nat) (g : RadGrids α)
    (shad : List (Nat → Nat → Option α)) (step : Nat) (tcart : α) : M (Nat → Nat → Option α) := do
  let row ← pyGet rows ((doy : Int) - 1)
  let stime := radHourAngle (step : α) (hour : α) row.tcorr tcart
  if 0.01 < sinElev row.soldec lat stime then do
    let illu ← pyGet shad (lutRead step doy hour)
    return flipud ny fun i j => radCell row.soldec row.eccorr lat stime (g.cell vapour illu i j)
  else
    return flipud ny fun i j => radCell row.soldec row.eccorr lat stime (g.cell vapour (fun _ _ => none) i j)

/-- The radiation of one time of the module Moelg2009 in `create_2D_input`, aws2cosipy.py:717-739: all arrays are turned
upside down first; the tables are built from (or were saved as) upside-down arrays. The measured radiation is not used. -/
def moelgRadiation (vapour : α → α → α → α) (rows : List (SolRow α)) (doy hour : Nat) (lat : α) (ny : Nat)
    (g : RadGrids α) (shad : List (Nat → Nat → Option α)) (step : Nat) (tcart : α) : M (Nat → Nat → Option α) :=
  calcRad vapour rows doy hour lat ny (g.flip ny) shad step tcart

end
end RadCor
end Cosipy
