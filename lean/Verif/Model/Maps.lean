import Verif.Model.Num

/-!
# Maps drawn from a result file

Model of the data that cosipy/postprocessing/field_plots/plot_cosipy_fields.py and
cosipy/postprocessing/vtk_plots/plot_cosipy_fields_vtk.py show, and of the time axis of
cosipy/postprocessing/profile_plots/plot_profiles.py. Drawing itself (matplotlib, the VTK pipeline, colours) is not
modelled. Times are seconds since some midnight; a missing number (NaN) is `none`.
-/

set_option autoImplicit false

namespace Cosipy.Maps

/-- `check_2d`, plot_cosipy_fields.py:17-26 and plot_cosipy_fields_vtk.py:26-35: every dimension except time and layer
has at least two entries, else ValueError. -/
def check2d (dims : List (String × Nat)) : M Unit :=
  if dims.any fun d => !["time", "layer"].contains d.1 && decide (d.2 ≤ 1) then .error .value else .ok ()

/-! ## The mesh -/

section
variable {α : Type} [Div α] [NatCast α]

/-- A point of the mesh: longitude, latitude, elevation (plot_cosipy_fields_vtk.py:85-106). -/
structure Pt (α : Type) where
  lon : α
  lat : α
  alt : α

/-- The point of a grid cell, plot_cosipy_fields_vtk.py:92-104, 316-320: the elevation in units of the earth's radius. -/
def cellPt (hgt : α → α → α) (lon lat : α) : Pt α := ⟨lon, lat, hgt lon lat / ((6370000 : Nat) : α)⟩

/-- `create_points`, plot_cosipy_fields_vtk.py:85-106: for every longitude all latitudes. `hgt lon lat` is
`HGT.sel(lon=…, lat=…)`; simplification: coordinates are labels without repetition. -/
def meshPoints (hgt : α → α → α) (lons lats : List α) : List (Pt α) :=
  lons.flatMap fun i => lats.map fun j => cellPt hgt i j

end

/-- The corners of the quads of `createDEM_v2`, plot_cosipy_fields_vtk.py:249-257, for `npts` points and `nlat`
latitudes. -/
def quads (nlat npts : Nat) : List (List Nat) :=
  ((List.range (npts - nlat)).filter fun idx => idx % nlat != 0).map fun idx =>
    [idx, idx + 1, idx + nlat + 1, idx + nlat]

section
variable {α β : Type} [Div α] [NatCast α]

/-- The loop of `add_scalar`, plot_cosipy_fields_vtk.py:314-326, over the cells with a value: the value is stored at the
point `locate` answers, `none` stands for a negative answer. `locate` is vtkPointLocator.FindClosestPoint. -/
def addScalar (locate : Pt α → Option Nat) (hgt : α → α → α) : List (α × α × Option β) → List (Option β) →
    List (Option β)
  | [], acc => acc
  | (_, _, none) :: cells, acc => addScalar locate hgt cells acc
  | (lat, lon, some v) :: cells, acc =>
    match locate (cellPt hgt lon lat) with
    | none => addScalar locate hgt cells acc
    | some k => addScalar locate hgt cells (acc.set k (some v))

/-- The scalars of the mesh, plot_cosipy_fields_vtk.py:294-326: NaN everywhere, then the cells in the order of
`stack(x=[lat, lon])`; `value lat lon` is the selected field. -/
def meshScalars (locate : Pt α → Option Nat) (hgt : α → α → α) (lons lats : List α) (value : α → α → Option β) :
    List (Option β) :=
  addScalar locate hgt (lats.flatMap fun j => lons.map fun i => (j, i, value j i))
    (List.replicate (meshPoints hgt lons lats).length none)

end

/-! ## Selection of a time -/

/-- `sel(time=t, method="nearest")` on increasing times: the nearest one, of two equally near ones the later (as in
plot_cosipy_fields.py:61, plot_cosipy_fields_vtk.py:54, 59). KeyError without times. -/
def nearest (t : Int) : List Int → M Int
  | [] => .error .key
  | a :: as => match nearest t as with
    | .error _ => .ok a
    | .ok b => if (b - t).natAbs ≤ (a - t).natAbs then .ok b else .ok a

/-- Start of the day of a time (`resample(time="1D")`, plot_cosipy_fields.py:59, plot_cosipy_fields_vtk.py:57). -/
def dayOf (t : Int) : Int := t / 86400 * 86400

/-- The days from the first to the last time, `n` times 24 h after the first day (as in plot_cosipy_fields.py:57-62). -/
def days (first : Int) (n : Nat) : List Int := (List.range (n + 1)).map fun (k : Nat) => dayOf first + 86400 * (k : Int)

section
variable {α : Type} [Add α] [Div α] [Zero α] [NatCast α]

/-- `mean()` over the numbers among the values, NaN without any (as in plot_cosipy_fields.py:60). -/
def meanSkipNan (xs : List (Option α)) : Option α :=
  match xs.filterMap id with
  | [] => none
  | ys => some (ys.foldl (· + ·) 0 / ((ys.length : Nat) : α))

/-- `get_selection` with `mean`, plot_cosipy_fields.py:57-62 and plot_cosipy_fields_vtk.py:55-60, for one cell: the mean of
the day whose midnight is nearest to `t`. The series is given with its times, which do not decrease. -/
def dailyMean (series : List (Int × Option α)) (t : Int) : M (Option α) :=
  match series.head?, series.getLast? with
  | some a, some b => do
    let d ← nearest t (days a.1 ((dayOf b.1 - dayOf a.1) / 86400).toNat)
    return meanSkipNan ((series.filter fun p => dayOf p.1 = d).map Prod.snd)
  | _, _ => .error .key

/-- `get_selection` without `mean` for a full timestamp, plot_cosipy_fields.py:49-57: the record of that time, KeyError
if there is none or more than one. -/
def atTime (series : List (Int × Option α)) (t : Int) : M (Option α) :=
  match (series.filter fun p => p.1 = t).map Prod.snd with
  | [x] => .ok x
  | _ => .error .key

/-- The same for a date, plot_cosipy_fields.py:49-57: all records of the day are selected, more than one is a KeyError. -/
def atDate (series : List (Int × Option α)) (day : Int) : M (Option α) :=
  match (series.filter fun p => dayOf p.1 = day).map Prod.snd with
  | [x] => .ok x
  | _ => .error .key

/-- `get_selection` of the 3D plot without `mean`, plot_cosipy_fields_vtk.py:53-54: the record nearest to the time. -/
def nearestRecord (series : List (Int × Option α)) (t : Int) : M (Option α) := do
  let s ← nearest t (series.map Prod.fst)
  atTime series s

end

/-! ## File names -/

/-- `\w` for ASCII characters (as in plot_cosipy_fields.py:122, plot_cosipy_fields_vtk.py:367). -/
def isWord (c : Char) : Bool := c.isAlphanum || c == '_'

/-- `re.sub(r"\W+", "", timestamp)`, plot_cosipy_fields.py:122, plot_cosipy_fields_vtk.py:367. -/
def stampId (timestamp : List Char) : List Char := timestamp.filter isWord

/-- File name of `save_image`, plot_cosipy_fields.py:100-132: no variable (a plot of several), or the name of one. -/
def imageName (timestamp : List Char) (name : Option (List Char)) (suffix : List Char) : List Char :=
  let id := match name with
    | none => stampId timestamp ++ "_stamp_plot".toList
    | some [] => stampId timestamp
    | some n => stampId timestamp ++ '_' :: n
  let suffix := if suffix = [] then [] else '_' :: suffix
  id ++ suffix ++ ".png".toList

/-- `set_filename`, plot_cosipy_fields_vtk.py:351-370. -/
def vtkName (name timestamp fmt : List Char) : List Char :=
  stampId timestamp ++ '_' :: name ++ "_vtk.".toList ++ fmt

/-! ## The time axis of profile plots -/

/-- `pd.date_range(t0, t1, freq="H")`, plot_profiles.py:156: every hour from the first to the last record. -/
def hours (t0 t1 : Int) : List Int := (List.range (((t1 - t0) / 3600).toNat + 1)).map fun (k : Nat) => t0 + 3600 * (k : Int)

/-- Position of the label of the time `q`, plot_profiles.py:167-172: its index among the hours; IndexError if it is none.
The picture has one column for every record (113, 126). -/
def tickIndex (t0 t1 q : Int) : M Nat :=
  match (hours t0 t1).findIdx? (· = q) with
  | some i => .ok i
  | none => .error .index

/-- Position at which a measurement is drawn, plot_profiles.py:162-165: `argmax` is 0 if the time is none of the hours,
and position 0 is not drawn. -/
def stakeIndex (t0 t1 q : Int) : Option Nat :=
  match (hours t0 t1).findIdx? (· = q) with
  | some 0 => none
  | r => r

/-- Layout of the map of several fields by rows, plot_cosipy_fields.py:315-320. -/
def meshRows : List (List String) :=
  [["H", "LE", "B"], ["SNOWHEIGHT", "surfM", "TS"], ["G", "Q", "LWout"], ["surfMB", "MB", "REFREEZE"]]
/-- The same for contours, plot_cosipy_fields.py:361-366. -/
def contourRows : List (List String) :=
  [["H", "LE", "B"], ["SNOWHEIGHT", "surfM", "TS"], ["G", "LWin", "LWout"], ["MB", "surfMB", "Q"]]
/-- Variables of the map of several fields, plot_cosipy_fields.py:315-320. -/
def stampMesh : List String := meshRows.flatten
/-- plot_cosipy_fields.py:361-366. -/
def stampContour : List String := contourRows.flatten

end Cosipy.Maps
