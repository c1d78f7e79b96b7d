import Verif.Model.Input

/-!
# Preparing station and WRF data

Model of cosipy/utilities/aws2cosipy/aws2cosipy.py, cosipy/utilities/wrf2cosipy/wrf2cosipy.py and
cosipy/utilities/createStatic/create_static_file.py. Reading files, selecting the static subset, command lines, metadata,
messages and the external tools (gdal, richdem, xrspatial) are not modelled. A missing number (NaN) is `none`; the
columns hold numbers or NaN (text in a column is not modelled, so `convert_to_numeric` only requires the column).
Array divisions and powers are the plain operations (numpy does not raise).
-/

set_option autoImplicit false

namespace Cosipy.Aws

section
variable {α : Type} [Add α] [Sub α] [Mul α] [Div α] [LT α] [DecidableLT α] [Zero α] [OfScientific α]

/-- `set_bias` on one element, aws2cosipy.py:159-178; `rate` is `_cfg.lapse[lapse_type]`. `np.maximum` propagates NaN. -/
def setBias (rate altitude : α) (limit : Bool) (x : Option α) : Option α :=
  x.map fun x =>
    let b := x + altitude * rate
    if limit then (if b < 0.0 then 0.0 else b) else b

/-- `set_relative_humidity_bounds` on one element, aws2cosipy.py:885-890: two masked assignments one after the other,
comparisons with NaN are false. -/
def setRhBounds (x : Option α) : Option α :=
  x.map fun x =>
    let y := if 100.0 < x then 100.0 else x
    if y < 0.0 then 0.1 else y

/-- `check_temperature_bounds`, aws2cosipy.py:869-882. -/
def checkTemperatureBounds (ts : List (Option α)) : M Unit := do
  let hi ← nanMax ts
  let lo ← nanMin ts
  if optGt hi 373.16 then .error .value
  else if optLt lo 173.16 then .error .value
  else .ok ()

/-- `nansumwrapper`, aws2cosipy.py:906-911: NaN if all are NaN (or there are none), else the sum of the others. -/
def nansumwrapper (xs : List (Option α)) : Option α :=
  match xs.filterMap id with
  | [] => none
  | ys => some (ys.foldl (· + ·) 0)

/-- `"mean"` of `DataFrame.resample(..).agg`: NaNs are skipped (as in aws2cosipy.py:285-297). -/
def nanmean [NatCast α] (xs : List (Option α)) : Option α :=
  match xs.filterMap id with
  | [] => none
  | ys => some (ys.foldl (· + ·) 0 / (ys.length : α))

/-- `"sum"` of `DataFrame.resample(..).agg`: NaNs are skipped, an empty group gives 0 (as in aws2cosipy.py:471-489). -/
def dfSum (xs : List (Option α)) : Option α := some ((xs.filterMap id).foldl (· + ·) 0)

/-- `fillna(method="ffill")` on one column, aws2cosipy.py:262; `last` is the last number seen. -/
def ffillFrom (last : Option α) : List (Option α) → List (Option α)
  | [] => []
  | none :: xs => last :: ffillFrom last xs
  | some x :: xs => some x :: ffillFrom (some x) xs

/-- `df.fillna(method="ffill")`, aws2cosipy.py:262. -/
def ffill (xs : List (Option α)) : List (Option α) := ffillFrom none xs

variable [Transc α]

/-- `get_pressure_bias` on one element, aws2cosipy.py:232-238 (point input). -/
def getPressureBias (stationAlt height p : α) : α :=
  let slp := p / Transc.pow (1.0 - (0.0065 * stationAlt) / 288.15) 5.255
  slp * Transc.pow (1.0 - (0.0065 * height) / 288.15) 5.22

/-- The pressure of `create_2D_input` on one element, aws2cosipy.py:569-574. -/
def gridPressure (stationAlt height p : α) : α :=
  let slp := p / Transc.pow (1.0 - (0.0065 * stationAlt) / 288.15) 5.255
  slp * Transc.pow (1.0 - (0.0065 * height) / 288.15) 5.255

end

/-! ## Resampling -/

/-- Length of an hour in seconds (aws2cosipy.py:285). -/
def hour : Int := 3600

/-- Midnight before a time stamp; times are seconds since a midnight (aws2cosipy.py:285, 489). -/
def dayStart (t : Int) : Int := t / 86400 * 86400

/-- Where `resample` starts counting (`origin="start_day"`, the default of pandas): the midnight before the first record
(aws2cosipy.py:285, 489). -/
def originOf : List Int → Int
  | [] => 0
  | t :: ts => dayStart (ts.foldl min t)

/-- The bin of a time stamp (`resample(step)`): the beginning of its interval of `step` seconds (aws2cosipy.py:285-297, 489). -/
def binOf (step origin t : Int) : Int := origin + (t - origin) / step * step

/-- The bins of `resample(step)`: every interval from the first to the last one with a record; `times` may be in any order
(pandas uses the smallest and the largest) (aws2cosipy.py:285-297, 489). `step` is positive. -/
def bins (step : Int) (times : List Int) : List Int :=
  match times with
  | [] => []
  | t :: ts =>
    let lo := binOf step (originOf (t :: ts)) (ts.foldl min t)
    let hi := binOf step (originOf (t :: ts)) (ts.foldl max t)
    (List.range ((hi - lo) / step + 1).toNat).map fun (i : Nat) => lo + (i : Int) * step

/-- The values of a column in one bin (aws2cosipy.py:285-297, 489). -/
def inBin {β : Type} (step origin : Int) (times : List Int) (xs : List β) (b : Int) : List β :=
  ((times.zip xs).filter fun p => decide (binOf step origin p.1 = b)).map (·.2)

/-- `df.resample(step).agg(f)` for one column, aws2cosipy.py:285-297, 489. -/
def resample {α : Type} (step : Int) (agg : List (Option α) → Option α) (times : List Int) (xs : List (Option α)) :
    List (Option α) :=
  (bins step times).map fun b => agg (inBin step (originOf times) times xs b)

/-! ## Frames -/

/-- The names of the columns, `_cfg.names` (aws2cosipy.py:246-270). -/
structure Names where
  t2 : String
  rh2 : String
  u2 : String
  g : String
  pres : String
  rrr : String
  lwin : String
  n : String
  snowfall : String

/-- A data frame: time index and named columns (aws2cosipy.py:55-78). -/
structure Frame (α : Type) where
  index : List Int
  cols : Store (List (Option α))

/-- `df[name]`: KeyError if missing (as in aws2cosipy.py:86-132). -/
def getCol {β : Type} (cols : Store β) (name : String) : M β :=
  match cols name with
  | some b => .ok b
  | none => .error .key

section
variable {α : Type} [Add α] [Sub α] [Mul α] [Div α] [LT α] [DecidableLT α] [Zero α] [NatCast α] [OfScientific α]

/-- `for name in [...]: dataframe[name] = convert_to_numeric(dataframe[name])`: KeyError for a missing column
(aws2cosipy.py:99-130). -/
def requireAll (cols : Store (List (Option α))) : List String → M Unit
  | [] => .ok ()
  | n :: ns => do
    let _ ← getCol cols n
    requireAll cols ns

/-- `if (replace_pressure) and (PRES_var not in dataframe): dataframe[PRES_var] = 660.00`, aws2cosipy.py:109-110. -/
def replacePressure (nm : Names) (replace : Bool) (df : Frame α) : Frame α :=
  if replace && (df.cols nm.pres).isNone then
    { df with cols := df.cols.set nm.pres (df.index.map fun _ => some 660.0) } else df

/-- `set_order_and_type`, aws2cosipy.py:86-132. -/
def setOrderAndType (nm : Names) (replace : Bool) (df : Frame α) : M (Frame α) := do
  requireAll df.cols [nm.t2, nm.rh2, nm.u2, nm.g, nm.pres]
  let df := replacePressure nm replace df
  if (df.cols nm.lwin).isNone && (df.cols nm.n).isNone then .error .value else .ok df

/-- `if NAME not in df: df[NAME] = np.nan`, aws2cosipy.py:265-270. -/
def addMissing (df : Frame α) (name : String) : Frame α :=
  if (df.cols name).isNone then { df with cols := df.cols.set name (df.index.map fun _ => none) } else df

/-- `df[col_list]`, aws2cosipy.py:272-283: KeyError for a missing column, other columns are dropped. -/
def selectCols (df : Frame α) (names : List String) : M (Frame α) := do
  requireAll df.cols names
  return { df with cols := fun n => if n ∈ names then df.cols n else none }

/-- Aggregation per column in `create_1D_input`, aws2cosipy.py:285-297: sums for precipitation and snowfall, means for the
others. -/
def aggOf (nm : Names) (name : String) : List (Option α) → Option α :=
  if name = nm.rrr ∨ name = nm.snowfall then nansumwrapper else nanmean

/-- `df.resample("1H").agg(...)`, aws2cosipy.py:285-297. -/
def resampleFrame (nm : Names) (df : Frame α) : Frame α :=
  { index := bins hour df.index, cols := fun n => (df.cols n).map fun xs => resample hour (aggOf nm n) df.index xs }

/-- `dropna(axis=1, how="all")`, aws2cosipy.py:298: columns without a number are dropped. -/
def dropEmpty (df : Frame α) : Frame α :=
  { df with cols := fun n => (df.cols n).filter fun xs => xs.any Option.isSome }

/-- `get_time_slice`, aws2cosipy.py:153-156: both dates or nothing. -/
def timeSlice (df : Frame α) (range : Option (Int × Int)) : Frame α :=
  match range with
  | none => df
  | some (s, e) =>
    { index := df.index.filter fun t => decide (s ≤ t ∧ t ≤ e)
      cols := fun n => (df.cols n).map fun xs =>
        ((df.index.zip xs).filter fun p => decide (s ≤ p.1 ∧ p.1 ≤ e)).map (·.2) }

/-- Lines 259-302 and 340 of `create_1D_input`: from the .csv file to the frame used. -/
def pointFrame (nm : Names) (df : Frame α) (range : Option (Int × Int)) : M (Frame α) := do
  let df : Frame α := { df with cols := fun n => (df.cols n).map ffill }
  let df := addMissing (addMissing (addMissing df nm.lwin) nm.n) nm.snowfall
  let df ← selectCols df [nm.t2, nm.rh2, nm.u2, nm.g, nm.rrr, nm.pres, nm.lwin, nm.n, nm.snowfall]
  setOrderAndType nm true (timeSlice (dropEmpty (resampleFrame nm df)) range)

/-- The numbers of `utilities_config.toml` used: lapse rates, altitudes, units (aws2cosipy.py:159-178, 232-238,
512-598). -/
structure Cfg (α : Type) where
  inK : Bool
  lapseT : α
  lapseRH : α
  lapseRRR : α
  lapseSNOWFALL : α
  stationAlt : α
  hgt : α

variable [Transc α]

/-- The columns of the dataset computed from the frame in `create_1D_input`, aws2cosipy.py:342-394 and 412: `none` for a
column that is not written. -/
def pointVars (nm : Names) (c : Cfg α) (df : Frame α) : M (Store (List (Option α))) := do
  let dz := c.hgt - c.stationAlt
  let t2 ← getCol df.cols nm.t2
  let t2 := t2.map fun x => setBias c.lapseT dz false (if c.inK then x else x.map (· + 273.16))
  checkTemperatureBounds t2
  let rh2 ← getCol df.cols nm.rh2
  let u2 ← getCol df.cols nm.u2
  let g ← getCol df.cols nm.g
  let pres ← getCol df.cols nm.pres
  return fun v => match v with
    | "T2" => some t2
    | "RH2" => some (rh2.map fun x => setRhBounds (setBias c.lapseRH dz false x))
    | "U2" => some u2
    | "G" => some g
    | "PRES" => some (pres.map fun x => x.map (getPressureBias c.stationAlt c.hgt))
    | "RRR" => (df.cols nm.rrr).map fun xs => xs.map (setBias c.lapseRRR dz true)
    | "SNOWFALL" => (df.cols nm.snowfall).map fun xs => xs.map (setBias c.lapseSNOWFALL dz true)
    | "LWin" => df.cols nm.lwin
    | "N" => df.cols nm.n
    | _ => none

/-- The names of the variables along time, aws2cosipy.py:419-432. -/
def varNames : List String := ["T2", "RH2", "U2", "G", "PRES", "RRR", "SNOWFALL", "LWin", "N"]

/-- `check_for_nan_point` on the variables along time and the static ones, aws2cosipy.py:893-895. -/
def checkForNanPoint (static : List (Option α)) (ds : Store (List (Option α))) : M Unit :=
  if static.any Option.isNone || varNames.any fun v => match ds v with
    | some xs => xs.any Option.isNone
    | none => false
  then .error .value else .ok ()

/-- `create_1D_input`, aws2cosipy.py:246-439: the frame, the variables, the NaN check; the result is what is written.
`static` are slope, aspect and mask of the nearest static cell (or 0, 0 and 1 without a static file). -/
def createPoint (nm : Names) (c : Cfg α) (static : List (Option α)) (df : Frame α) (range : Option (Int × Int)) :
    M (List Int × Store (List (Option α))) := do
  let df ← pointFrame nm df range
  let ds ← pointVars nm c df
  checkForNanPoint static ds
  return (df.index, ds)

/-! ## Distributed input -/

/-- A cell of the static file (aws2cosipy.py:465-470, 613-645). -/
structure Static (α : Type) where
  hgt : Option α
  mask : Option α
  slope : Option α
  aspect : Option α

/-- Aggregation per column in `create_2D_input` when `aggregate` is set, aws2cosipy.py:471-489. -/
def aggOf2D (nm : Names) (name : String) : List (Option α) → Option α :=
  if name = nm.rrr ∨ name = nm.snowfall then dfSum else nanmean

/-- Lines 466-489 and 510 of `create_2D_input`: slice, aggregation, required columns. `aggregate` is the step in seconds (the
setting `aggregation_step`, a text in pandas' notation; steps of variable length such as months are not modelled) if the setting `aggregate` is true. -/
def gridFrame (nm : Names) (aggregate : Option Int) (df : Frame α) (range : Option (Int × Int)) : M (Frame α) := do
  let df := timeSlice df range
  match aggregate with
  | some step =>
    requireAll df.cols [nm.pres, nm.t2, nm.rh2, nm.g, nm.u2]
    setOrderAndType nm false
      { index := bins step df.index, cols := fun n => (df.cols n).map fun xs => resample step (aggOf2D nm n) df.index xs }
  | none => setOrderAndType nm false df

/-- Both arguments are numbers (NaN in arrays, aws2cosipy.py:555-596). -/
def map₂Opt (f : α → α → α) (a b : Option α) : Option α :=
  match a, b with
  | some a, some b => some (f a b)
  | _, _ => none

/-- The height difference of a cell, aws2cosipy.py:554. -/
def altitude (c : Cfg α) (s : Static α) : Option α := s.hgt.map (· - c.stationAlt)

/-- `set_bias` with an array of altitudes: NaN for a cell without height (aws2cosipy.py:159-178, 555-596). -/
def setBiasAt (rate : α) (alt : Option α) (limit : Bool) (x : Option α) : Option α :=
  alt.bind fun a => setBias rate a limit x

/-- The fields of one cell computed from the frame in `create_2D_input`, aws2cosipy.py:512-598 and 751: a series per
variable. The radiation of the cell is `sw`. -/
def cellVars (nm : Names) (c : Cfg α) (df : Frame α) (s : Static α) (sw : List (Option α)) :
    M (Store (List (Option α))) := do
  let t2 ← getCol df.cols nm.t2
  let t2 := t2.map fun x => if c.inK then x else x.map (· + 273.16)
  let rh2 ← getCol df.cols nm.rh2
  let u2 ← getCol df.cols nm.u2
  let pres ← getCol df.cols nm.pres
  let alt := altitude c s
  return fun v => match v with
    | "T2" => some (t2.map (setBiasAt c.lapseT alt false))
    | "RH2" => some (rh2.map fun x => setRhBounds (setBiasAt c.lapseRH alt false x))
    | "U2" => some u2
    | "G" => some sw
    | "PRES" => some (pres.map fun p => map₂Opt (fun h p => gridPressure c.stationAlt h p) s.hgt p)
    | "RRR" => (df.cols nm.rrr).map fun xs => xs.map (setBiasAt c.lapseRRR alt true)
    | "SNOWFALL" => (df.cols nm.snowfall).map fun xs => xs.map (setBiasAt c.lapseSNOWFALL alt true)
    | "LWin" => df.cols nm.lwin
    | "N" => df.cols nm.n
    | _ => none

/-- The radiation of one cell at one time with the module Wohlfahrt2016 or none, aws2cosipy.py:623-645: NaN outside the
mask; `correct` is `correctRadiation` for this cell (it can raise), `none` stands for no radiation module. -/
def cellRadiationAt [BEq α] [One α] (correct : Option (Int → α → M α)) (s : Static α) (t : Int) (x : Option α) :
    M (Option α) :=
  match s.mask with
  | some m =>
    if m == 1 then
      match correct, x with
      | some f, some x => do
        let r ← f t x
        return some (if r < 0.0 then 0.0 else r)
      | _, x => .ok x
    else .ok none
  | none => .ok none

/-- The loop over time, aws2cosipy.py:623. -/
def cellRadiation [BEq α] [One α] (correct : Option (Int → α → M α)) (s : Static α) (index : List Int)
    (sw : List (Option α)) : M (List (Option α)) :=
  (index.zip sw).mapM fun p => cellRadiationAt correct s p.1 p.2

/-- `check_for_nan` for one cell, aws2cosipy.py:841-857: only cells of the mask are checked. -/
def checkCell [BEq α] [One α] (s : Static α) (ds : Store (List (Option α))) : M Unit :=
  match s.mask with
  | some m => if m == 1 then checkForNanPoint [s.hgt, s.mask, s.slope, s.aspect] ds else .ok ()
  | none => .ok ()

/-- One cell of `create_2D_input`: radiation, other variables, check (aws2cosipy.py:442-789). -/
def createCell [BEq α] [One α] (nm : Names) (c : Cfg α) (df : Frame α) (correct : Static α → Option (Int → α → M α))
    (s : Static α) : M (Store (List (Option α))) := do
  let g ← getCol df.cols nm.g
  let sw ← cellRadiation (correct s) s df.index g
  let ds ← cellVars nm c df s sw
  checkCell s ds
  return ds

/-- `create_2D_input` with the module Wohlfahrt2016 or none, aws2cosipy.py:442-789: the index and the variables of every
cell of the domain (as a list). Simplification: the loops over cells are one loop (the cells do not influence each
other); the temperature check sees the station values, aws2cosipy.py:522. -/
def createDomain [BEq α] [One α] (nm : Names) (c : Cfg α) (aggregate : Option Int)
    (correct : Static α → Option (Int → α → M α)) (cells : List (Static α)) (df : Frame α) (range : Option (Int × Int)) :
    M (List Int × List (Store (List (Option α)))) := do
  let df ← gridFrame nm aggregate df range
  let t2 ← getCol df.cols nm.t2
  checkTemperatureBounds (t2.map fun x => if c.inK then x else x.map (· + 273.16))
  let out ← cells.mapM (createCell nm c df correct)
  return (df.index, out)

end

end Cosipy.Aws

namespace Cosipy.Wrf

section
variable {α : Type} [Add α] [Sub α] [Mul α] [Div α] [LT α] [DecidableLT α] [Zero α] [OfScientific α]

/-- The clamps of `wrf_rh` on one element, wrf2cosipy.py:171-172. -/
def clampRh (x : Option α) : Option α :=
  x.map fun x =>
    let y := if 100.0 < x then 100.0 else x
    if y < 0.0 then 0.0 else y

/-- `wrf_rh` on one element, wrf2cosipy.py:163-173. -/
def wrfRh [Transc α] (t2 q2 psfc : α) : Option α :=
  clampRh (some (q2 * 100.0 / ((379.90516 / psfc) * Transc.exp (17.2693882 * (t2 - 273.16) / (t2 - 35.86)))))

/-- Wind at 2 m, wrf2cosipy.py:84-85. -/
def wind2m [Transc α] (u10 v10 : α) : α :=
  let umag := Transc.sqrt (Transc.pow v10 2.0 + Transc.pow u10 2.0)
  umag * (Transc.log (2.0 / 0.0040) / Transc.log (10.0 / 0.0040))

/-- The mask of one cell, wrf2cosipy.py:89-91: two masked assignments on the same array. -/
def maskOf [BEq α] [One α] (luClass lu : α) : α :=
  let m := if lu == luClass then lu else 0
  if m == luClass then 1 else m

/-- `x[t] = acc[t] - acc[t-1]` for `t ≥ 1`, 0 at the first time, wrf2cosipy.py:95-97 and 107-109; `prev` is the
accumulated value before. -/
def diffFrom (prev : α) : List α → List α
  | [] => []
  | a :: as => (a - prev) :: diffFrom a as

/-- wrf2cosipy.py:95-97 and 107-109. -/
def deaccumulate : List α → List α
  | [] => []
  | a :: as => 0.0 :: diffFrom a as

/-- Hourly precipitation of one cell, wrf2cosipy.py:95-97. -/
def hourlyPrecip (rainnc rainc : List α) : List α := deaccumulate (List.zipWith (· + ·) rainnc rainc)

/-- Density of fresh snow of one element, wrf2cosipy.py:101-104. -/
def freshDensity [Transc α] (constant : Option α) (t2 u2 : α) : α :=
  match constant with
  | some d => d
  | none =>
    let d := 109.0 + 6.0 * (t2 - 273.16) + 26.0 * Transc.sqrt u2
    if d < 50.0 then 50.0 else d

/-- Snowfall height of one cell, wrf2cosipy.py:107-110. -/
def snowfall (waterDensity : α) (density snownc : List α) : List α :=
  List.zipWith (fun s d => s / 1000.0 * (waterDensity / d)) (deaccumulate snownc) density

end

end Cosipy.Wrf

namespace Cosipy.StaticFile

section
variable {α : Type} [LT α] [DecidableLT α] [Zero α] [One α] [Neg α] [OfScientific α] [BEq α]

/-- The mask of one cell, create_static_file.py:159-161: `x` is the elevation inside the outline, NaN (or 0) outside. -/
def maskOf (x : Option α) : α :=
  let m := match x with
    | some x => x
    | none => -9999.0
  if 0 < m then 1 else m

/-- `check_for_nan`, create_static_file.py:38-47, for the variables of all cells: a list of (mask, other variables). -/
def checkForNan : List (α × List (Option α)) → M Unit
  | [] => .ok ()
  | (m, vars) :: cells =>
    if m == 1 && vars.any Option.isNone then .error .value else checkForNan cells

end

end Cosipy.StaticFile
