import Verif.Model.Input
import Verif.Model.IO

/-!
# The main program: time settings, files, tiles and stake cells

Model of COSIPY.py (`main`, `get_timestamp_label`, `set_output_netcdf_path`, `transform_coordinates`, the stake cells of
`run_cosipy`) and of `IOClass.create_data_file` with `restart` and `tile` (cosipy/cpkernel/io.py:125-185, 262-329).
-/

set_option autoImplicit false

namespace Cosipy.Program
open Cosipy

/-- A value of `time_start` or `time_end` in config.toml as `tomllib` returns it: a quoted text, a date-time, a date, a
time of day, a number or truth value, an array (cosipy/config.py:156-168, config.toml:6-7). -/
inductive TimeVal
  | str (s : List Char)
  | datetime (t : Int)
  | date (t : Int)
  | time (t : Int)
  | number
  | array
  deriving DecidableEq

/-- The moments a text stands for: its beginning and how many seconds it covers ("2009-01-01T06:00" is a minute,
"2009-01-01" a day). Parsing is a parameter; a malformed text raises ValueError (io.py:103-123, 309-326). -/
abbrev Parse := List Char → M (Int × Int)

/-- `strftime("%Y-%m-%dT%H-%M")` as a parameter: the label of a moment (seconds are dropped) (io.py:138-140). -/
abbrev Format := Int → List Char

/-- A point in time for comparisons with the data, io.py:103-123: `np.datetime64` of the text, otherwise the value itself.
Dates compare as their midnight; times of day, numbers and arrays cannot be compared with `datetime64` (TypeError). -/
def moment (parse : Parse) : TimeVal → M Int
  | .str s => do return (← parse s).1
  | .datetime t => .ok t
  | .date t => .ok t
  | _ => .error .type

/-- `get_datetime(time_start).strftime(...)`, io.py:138-140: `np.datetime64`, numbers and lists have no `strftime`
(AttributeError). -/
def restartLabel (parse : Parse) (fmt : Format) : TimeVal → M (List Char)
  | .str s => do
    let _ ← parse s
    .error .attribute
  | .datetime t => .ok (fmt t)
  | .date t => .ok (fmt t)
  | .time t => .ok (fmt t)
  | .number => .error .attribute
  | .array => .error .attribute

/-- First moment of `slice(v, …)`, io.py:315. -/
def sliceStart (parse : Parse) : TimeVal → M Int := moment parse

/-- End (exclusive, in seconds) of `slice(…, v)`, io.py:315 and 326: a text includes the whole period it stands for,
other values just the moment. -/
def sliceEnd (parse : Parse) : TimeVal → M Int
  | .str s => do
    let p ← parse s
    return p.1 + p.2
  | .datetime t => .ok (t + 1)
  | .date t => .ok (t + 1)
  | _ => .error .type

/-- `DATA.sel(time=slice(…))` on the sorted axis: the records with `s ≤ time < e` (as in io.py:309-326). -/
def select {β : Type} (d : Series β) (s e : Int) : Series β :=
  let kept := (d.time.zip d.records).filter fun p => decide (s ≤ p.1 ∧ p.1 < e)
  { time := kept.map (·.1), records := kept.map (·.2) }

/-- The choice of the records, io.py:309-326. `restartDate` is `restart_date`. -/
def choose {β : Type} (parse : Parse) (timeStart timeEnd : TimeVal) (endTime : Int) (restartDate : Option Int)
    (d : Series β) : M (Series β) :=
  match restartDate with
  | none => do
    let s ← sliceStart parse timeStart
    let e ← sliceEnd parse timeEnd
    return select d s e
  | some r =>
    if r = endTime then .error .exit else do
      let e ← sliceEnd parse timeEnd
      return select d r e

/-- `check_input_data` takes the maximum of every field: ValueError for no records (io.py:328, 238-260). Simplification:
otherwise it only warns. -/
def checkNonempty {β : Type} (d : Series β) : M (Series β) := if d.time = [] then .error .value else .ok d

/-- `init_data_dataset`, io.py:262-329. -/
def initData {β : Type} (parse : Parse) (input : Option (Series β)) (timeStart timeEnd : TimeVal)
    (restartDate : Option Int) : M (Series β) := do
  match input with
  | none => .error .exit
  | some d =>
    let d := d.sortTime
    match d.time.head?, d.time.getLast? with
    | some lo, some hi => do
      let s ← moment parse timeStart
      let e ← moment parse timeEnd
      if s > floorMinute hi ∨ e < floorMinute lo then .error .index
      else do
        let r ← choose parse timeStart timeEnd e restartDate d
        checkNonempty r
    | _, _ => .error .index

/-- Content of a restart file: the time of the last step and the stored columns (io.py:192-203, 710-733). -/
structure RestartFile (γ : Type) where
  time : Int
  state : γ

/-- The files of a data directory: results and restart files by name (COSIPY.py:49-149). -/
structure Disk (ρ γ : Type) where
  output : List Char → Option ρ
  restart : List Char → Option (RestartFile γ)

/-- The settings that matter here. `dt` is `Constants.dt` (config.toml:6-40). -/
structure Settings where
  restart : Bool
  timeStart : TimeVal
  timeEnd : TimeVal
  outputPrefix : List Char
  dt : Int

/-- `except IndexError: raise SystemExit`, io.py:160-163. -/
def exitOnIndex {β : Type} (r : M β) : M β :=
  match r with
  | .error .index => .error .exit
  | r => r

/-- `start_timestamp == end_timestamp`, io.py:147. Simplification: comparing values of different kinds is comparing the
moments; incomparable values are different. -/
def sameTime (parse : Parse) (a b : TimeVal) : Bool :=
  match moment parse a, moment parse b with
  | .ok x, .ok y => x == y
  | _, _ => false

/-- The body of the `try` statement, io.py:144-159. -/
def loadRestart {β ρ γ : Type} (parse : Parse) (cfg : Settings) (disk : Disk ρ γ) (label : List Char)
    (input : Option (Series β)) : M (Series β × Option (RestartFile γ)) :=
  match disk.restart label with
  | none => .error .exit
  | some f =>
    if sameTime parse cfg.timeStart cfg.timeEnd then .error .exit
    else do
      let d ← exitOnIndex (initData parse input cfg.timeStart cfg.timeEnd (some (f.time + cfg.dt)))
      return (d, some f)

/-- `create_data_file` without tiling, io.py:125-168. -/
def createData {β ρ γ : Type} (parse : Parse) (fmt : Format) (cfg : Settings) (disk : Disk ρ γ)
    (input : Option (Series β)) : M (Series β × Option (RestartFile γ)) :=
  if cfg.restart then do
    let _ ← (match cfg.timeEnd with
      | .str s => do let _ ← parse s; .ok ()
      | _ => (.ok () : M Unit))
    let label ← restartLabel parse fmt cfg.timeStart
    loadRestart parse cfg disk label input
  else do
    let d ← initData parse input cfg.timeStart cfg.timeEnd none
    return (d, none)

/-- `get_timestamp_label`, COSIPY.py:346-355: `timestamp[0:10].replace("-", "")`. Only texts can be sliced and replaced
(TypeError; a list has no `replace`: AttributeError). -/
def timestampLabel : TimeVal → M (List Char)
  | .str s => .ok ((s.take 10).filter (· ≠ '-'))
  | .array => .error .attribute
  | _ => .error .type

/-- `set_output_netcdf_path`, COSIPY.py:358-368. -/
def outputName (cfg : Settings) : M (List Char) := do
  let s ← timestampLabel cfg.timeStart
  let e ← timestampLabel cfg.timeEnd
  return cfg.outputPrefix ++ '_' :: s ++ '-' :: e ++ ".nc".toList

/-- `main`, COSIPY.py:49-149: read the data, simulate, write the results and the restart file. `simulate` stands for the
simulation of all cells (Model/IO.lean: `runCosipy`) started from the stored columns, if any. -/
def main {β ρ γ : Type} (parse : Parse) (fmt : Format) (cfg : Settings) (input : Option (Series β))
    (simulate : Option γ → Series β → M (ρ × γ)) (disk : Disk ρ γ) : M (Disk ρ γ) := do
  let (d, f) ← createData parse fmt cfg disk input
  match d.time.getLast? with
  | none => .error .index
  | some last => do
    let (res, st) ← simulate (f.map (·.state)) d
    let name ← outputName cfg
    return { output := fun n => if n = name then some res else disk.output n
             restart := fun n => if n = fmt last then some ⟨last, st⟩ else disk.restart n }

/-! ## Interruptions -/

/-- Content of a file that has been written completely, or of one whose writing has begun: `to_netcdf` opens the file
with `mode='w'` under its final name (COSIPY.py:119, 133), which destroys what it contained before. -/
inductive Content (ρ : Type)
  | whole (r : ρ)
  | cut

/-- What can be read from a file. -/
def Content.read {ρ : Type} : Content ρ → Option ρ
  | .whole r => some r
  | .cut => none

/-- The files of a data directory including unfinished ones (COSIPY.py:118-133). -/
structure Files (ρ γ : Type) where
  output : List Char → Option (Content ρ)
  restart : List Char → Option (Content (RestartFile γ))

/-- The readable files. Simplification: reading an unfinished restart file stops the program as if it were missing
(COSIPY.py:118-133). -/
def Files.view {ρ γ : Type} (d : Files ρ γ) : Disk ρ γ :=
  { output := fun n => (d.output n).bind Content.read, restart := fun n => (d.restart n).bind Content.read }

/-- Writing a result file, COSIPY.py:119: the states of the disk during the write. -/
def Files.putOutput {ρ γ : Type} (d : Files ρ γ) (name : List Char) (c : Content ρ) : Files ρ γ :=
  { d with output := fun n => if n = name then some c else d.output n }

/-- Writing a restart file, COSIPY.py:133. -/
def Files.putRestart {ρ γ : Type} (d : Files ρ γ) (name : List Char) (c : Content (RestartFile γ)) : Files ρ γ :=
  { d with restart := fun n => if n = name then some c else d.restart n }

/-- `main`, COSIPY.py:49-149, as the sequence of states of the disk: whatever interrupts the program leaves the disk in the
first state or in one of those listed. The second component is the exception that ends the program, if any. The files
`stakes_*.csv` (COSIPY.py:325-330) and log files are not included. -/
def mainStates {β ρ γ : Type} (parse : Parse) (fmt : Format) (cfg : Settings) (input : Option (Series β))
    (simulate : Option γ → Series β → M (ρ × γ)) (disk : Files ρ γ) : List (Files ρ γ) × Option Err :=
  match createData parse fmt cfg disk.view input with
  | .error e => ([], some e)
  | .ok (d, f) =>
    match d.time.getLast? with
    | none => ([], some .index)
    | some last =>
      match simulate (f.map (·.state)) d with
      | .error e => ([], some e)
      | .ok (res, st) =>
        match outputName cfg with
        | .error e => ([], some e)
        | .ok name =>
          let d1 := disk.putOutput name .cut
          let d2 := disk.putOutput name (.whole res)
          let d3 := d2.putRestart (fmt last) .cut
          let d4 := d2.putRestart (fmt last) (.whole ⟨last, st⟩)
          ([d1, d2, d3, d4], none)

/-! ## Tiles -/

/-- Python's `slice(start, stop).indices(n)` for integers and step 1 (as in io.py:168-179). -/
def sliceBound (n : Nat) (i : Int) : Nat :=
  if i < 0 then ((n : Int) + i).toNat else min i.toNat n

/-- The positions selected by `slice(start, stop)` on `n` items (as in io.py:168-179). -/
def slicePos (n : Nat) (start stop : Int) : List Nat :=
  (List.range (sliceBound n stop - sliceBound n start)).map (· + sliceBound n start)

/-- Settings of a tile, config.toml SUBSET (io.py:168-179). -/
structure Tile where
  ystart : Int
  yend : Int
  xstart : Int
  xend : Int

/-- A domain: names and sizes of the two spatial dimensions of the file and the data of a cell (io.py:125-185). -/
structure Domain (δ : Type) where
  yname : String
  xname : String
  ny : Nat
  nx : Nat
  cell : Nat → Nat → δ

/-- The dimension names used for tiles, io.py:169-179. -/
def tileNames (wrf : Bool) : String × String := if wrf then ("south_north", "west_east") else ("lat", "lon")

/-- Selecting a tile, io.py:168-179: the names of the dimensions are fixed by `WRF`, whatever `northing` and `easting`
say; `isel` raises ValueError for a dimension the file does not have. -/
def tileDomain {δ : Type} (wrf : Bool) (t : Tile) (d : Domain δ) : M (Domain δ) :=
  if (d.yname, d.xname) = tileNames wrf then
    .ok { d with
      ny := sliceBound d.ny t.yend - sliceBound d.ny t.ystart
      nx := sliceBound d.nx t.xend - sliceBound d.nx t.xstart
      cell := fun y x => d.cell (sliceBound d.ny t.ystart + y) (sliceBound d.nx t.xstart + x) }
  else .error .value

/-! ## Stake cells -/

section
variable {α : Type} [Add α] [Sub α] [Mul α] [Div α] [One α] [OfScientific α] [Transc α]

/-- `np.radians` (as in COSIPY.py:385-407). -/
def radians (d : α) : α := d * Transc.pi / 180.0

/-- `transform_coordinates`, COSIPY.py:385-407, for one pair (latitude, longitude) in degrees. -/
def transformCoordinates (lat lon : α) : α × α × α :=
  let latRad := radians lat
  let lonRad := radians lon
  let rn := 6378.137 / Transc.sqrt (1 - 6.69437999014e-3 * (Transc.sin latRad * Transc.sin latRad))
  (rn * Transc.cos latRad * Transc.cos lonRad, rn * Transc.cos latRad * Transc.sin lonRad,
   rn * (1 - 6.69437999014e-3) * Transc.sin latRad)

/-- Coordinates of the cells in row-major order, COSIPY.py:189-196 (both branches). `lat y x`, `lon y x` are the
coordinates of a cell. -/
def cellCoords (ny nx : Nat) (lat lon : Nat → Nat → α) : List (α × α) :=
  (List.range ny).flatMap fun y => (List.range nx).map fun x => (lat y x, lon y x)

/-- `np.unravel_index(i, (ny, nx))` (as in COSIPY.py:199-209). -/
def unravel (nx i : Nat) : Nat × Nat := (i / nx, i % nx)

/-- The cell of a stake, COSIPY.py:199-209. `query` is `cKDTree.query`: position of a nearest point. -/
def stakeCell (query : List (α × α × α) → α × α × α → Nat) (ny nx : Nat) (lat lon : Nat → Nat → α) (stake : α × α) :
    Nat × Nat :=
  unravel nx (query ((cellCoords ny nx lat lon).map fun c => transformCoordinates c.1 c.2)
    (transformCoordinates stake.1 stake.2))

/-- Names of the stakes of a cell, COSIPY.py:217-222. -/
def stakeNames (cells : List ((Nat × Nat) × String)) (y x : Nat) : List String :=
  (cells.filter fun c => c.1 = (y, x)).map (·.2)

end

end Cosipy.Program
