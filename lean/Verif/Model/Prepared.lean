import Verif.Model.Preprocess
import Verif.Model.Result

/-!
# Coordinates, labels and range checks of prepared input files

Model of the parts of aws2cosipy.py (cosipy/utilities/aws2cosipy) and wrf2cosipy.py (cosipy/utilities/wrf2cosipy) that
describe the file: coordinates (aws2cosipy.py:305-336, 491-507; wrf2cosipy.py:64-66), labels (aws2cosipy.py:181-211,
414-432, 754-771; wrf2cosipy.py:69-121) and the final checks (aws2cosipy.py:135-150, 831-838; wrf2cosipy.py:128-160).
The attributes of the coordinates themselves are not modelled.
-/

set_option autoImplicit false

namespace Cosipy.Aws

/-! ## Coordinates -/

/-- Coordinates of a dataset: one value per row and column (dimensions `lat`, `lon`), or a field over `south_north`,
`west_east`, a list of rows (aws2cosipy.py:305-336, 491-507). -/
inductive Coords (α : Type) where
  | axes (lat lon : List α)
  | fields (lat lon : List (List α))
  deriving DecidableEq

section
variable {α : Type}

/-- `np.meshgrid(xs, ys)`: two fields with a row for every `y` and a column for every `x` (as in
aws2cosipy.py:307, 499). -/
def meshgrid (xs ys : List α) : List (List α) × List (List α) :=
  (ys.map fun _ => xs, ys.map fun y => xs.map fun _ => y)

/-- `sel(method="nearest")` along one axis, aws2cosipy.py:315-319: of two values equally near the larger is taken;
KeyError if there is none. Simplification: pandas requires the axis to be sorted; the order is irrelevant here. -/
def nearest [Sub α] [Neg α] [LT α] [DecidableLT α] [BEq α] [Zero α] (p : α) : List α → M α
  | [] => .error .key
  | x :: xs =>
    let dist (a : α) : α := if a - p < 0 then -(a - p) else a - p
    .ok (xs.foldl (fun b x => if dist x < dist b then x else if dist x == dist b then (if b < x then x else b) else b) x)

/-- Coordinates of `create_1D_input`, aws2cosipy.py:305-336; `static` are the axes of the static file, if one was
given. -/
def pointCoords [Sub α] [Neg α] [LT α] [DecidableLT α] [BEq α] [Zero α] (wrf : Bool) (static : Option (List α × List α))
    (plat plon : α) : M (Coords α) :=
  if wrf then
    let (lon, lat) := meshgrid [plon] [plat]
    .ok (.fields lon lat)
  else
    match static with
    | some (_, lons) => do
      let lon ← nearest plon lons
      return .axes [plat] [lon]
    | none => .ok (.axes [plat] [plon])

/-- Latitude of the cell of the static file whose mask, slope and aspect are used, aws2cosipy.py:315-323. -/
def staticLat [Sub α] [Neg α] [LT α] [DecidableLT α] [BEq α] [Zero α] (static : List α × List α) (plat : α) : M α :=
  nearest plat static.1

/-- Coordinates of `create_2D_input` for the selected axes of the static file, aws2cosipy.py:497-507. -/
def gridCoords (wrf : Bool) (lats lons : List α) : Coords α :=
  if wrf then
    let (x, y) := meshgrid lons lats
    .fields y x
  else .axes lats lons

/-- Coordinates of wrf2cosipy, wrf2cosipy.py:65-66: the first time of XLAT and XLONG; IndexError without a time. -/
def wrfCoords (xlat xlong : List (List (List α))) : M (Coords α) :=
  match xlat, xlong with
  | lat :: _, lon :: _ => .ok (.fields lat lon)
  | _, _ => .error .index

end

/-! ## Labels -/

/-- `set_variable_metadata`, aws2cosipy.py:181-197. -/
def awsLabels : Dict Label :=
  [("HGT", ⟨"m", "Elevation"⟩), ("ASPECT", ⟨"degrees", "Aspect of slope"⟩), ("SLOPE", ⟨"degrees", "Terrain slope"⟩),
   ("MASK", ⟨"boolean", "Glacier mask"⟩), ("T2", ⟨"K", "Temperature at 2 m"⟩),
   ("RH2", ⟨"%", "Relative humidity at 2 m"⟩), ("U2", ⟨"m s⁻¹", "Wind velocity at 2 m"⟩),
   ("G", ⟨"W m⁻²", "Incoming shortwave radiation"⟩), ("PRES", ⟨"hPa", "Atmospheric Pressure"⟩),
   ("RRR", ⟨"mm", "Total precipitation (liquid+solid)"⟩), ("SNOWFALL", ⟨"m", "Snowfall"⟩),
   ("LWin", ⟨"W m⁻²", "Incoming longwave radiation"⟩), ("N", ⟨"%", "Cloud cover fraction"⟩)]

/-- The variables added to the file with their labels, aws2cosipy.py:414-432 and 754-771 (the same in both modes); `has`
tells which of the optional columns the table has. -/
def awsVars (has : String → Bool) : M (List (String × Label)) :=
  (["HGT", "ASPECT", "SLOPE", "MASK", "T2", "RH2", "U2", "G", "PRES"] ++
    ["RRR", "SNOWFALL", "LWin", "N"].filter has).mapM fun n => do
      let l ← awsLabels.get n
      return (n, l)

/-- The variables wrf2cosipy adds with their labels, wrf2cosipy.py:69-121. -/
def wrfVars : List (String × Label) :=
  [("HGT", ⟨"m", "Elevation"⟩), ("T2", ⟨"m", "Temperature at 2 m"⟩), ("RH2", ⟨"%", "Relative humidity at 2 m"⟩),
   ("G", ⟨"W m^-2", "Incoming shortwave radiation"⟩), ("LWin", ⟨"W m^-2", "Incoming longwave radiation"⟩),
   ("PRES", ⟨"hPa", "Atmospheric Pressure"⟩), ("SNOWHEIGHT", ⟨"m", "Initial snowheight"⟩),
   ("SWE", ⟨"kg m^-2", "Snow Water Equivalent"⟩),
   ("SNOWC", ⟨"-", "Flag indicating snow coverage (1 for snow cover)"⟩), ("LU_INDEX", ⟨"-", "Land use category"⟩),
   ("TSK", ⟨"K", "Skin temperature"⟩), ("U2", ⟨"m s^-1", "Wind velocity at 2 m"⟩), ("MASK", ⟨"-", "Glacier mask"⟩),
   ("RRR", ⟨"mm", "Total precipitation"⟩), ("SNOWFALL", ⟨"m", "Snowfall"⟩), ("SLOPE", ⟨"degrees", "Slope"⟩),
   ("ASPECT", ⟨"degrees", "Aspect"⟩)]

/-! ## Range checks -/

section
variable {α : Type} [LT α] [DecidableLT α] [OfScientific α]

/-- `check`: is a warning printed? `or` does not evaluate `nanmin` after a hit (aws2cosipy.py:831-838,
wrf2cosipy.py:154-160). -/
def warns (field : List (Option α)) (max min : α) : M Bool := do
  let hi ← nanMax field
  if optGt hi max then return true
  else
    let lo ← nanMin field
    return optLt lo min

/-- Bounds (maximum, minimum) of `check_data`, aws2cosipy.py:135-150. -/
def awsBounds : List (String × α × α) :=
  [("T2", 316.16, 223.16), ("RH2", 100.0, 0.0), ("U2", 50.0, 0.0), ("G", 1600.0, 0.0), ("PRES", 1080.0, 200.0),
   ("RRR", 20.0, 0.0), ("SNOWFALL", 0.05, 0.0), ("LWin", 400.0, 0.0), ("N", 1.0, 0.0)]

/-- Bounds of wrf2cosipy, wrf2cosipy.py:128-134. -/
def wrfBounds : List (String × α × α) :=
  [("T2", 316.16, 223.16), ("RH2", 100.0, 0.0), ("SNOWFALL", 1.0, 0.0), ("U2", 50.0, 0.0), ("G", 1600.0, 0.0),
   ("PRES", 1080.0, 200.0), ("LWin", 500.0, 100.0)]

/-- The checks of the variables present, in order: name and whether it was warned about (aws2cosipy.py:135-150,
wrf2cosipy.py:128-134). -/
def warnings (bounds : List (String × α × α)) (data : Store (List (Option α))) : M (List (String × Bool)) :=
  (bounds.filterMap fun e => (data e.1).map fun f => (e.1, f, e.2)).mapM fun e => do
    let w ← warns e.2.1 e.2.2.1 e.2.2.2
    return (e.1, w)

end
end Cosipy.Aws
