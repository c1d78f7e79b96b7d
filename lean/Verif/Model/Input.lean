import Verif.Model.IO
import Mathlib.Data.List.Sort

/-!
# Reading the input data

Model of cosipy/cpkernel/io.py:103-160 (`get_datetime`, `create_data_file`), 226-260 (`check_field`,
`check_input_data`) and 262-330 (`init_data_dataset`). Opening the netCDF file is not modelled: the dataset is given, or
the file is missing. Messages are not modelled.
-/

set_option autoImplicit false

namespace Cosipy

section
variable {α : Type} [LT α] [DecidableLT α]

/-- `np.fmax`: NaN is ignored unless both are NaN. NaN is `none` (as in cosipy/cpkernel/io.py:228). -/
def fmaxOpt : Option α → Option α → Option α
  | none, b => b
  | a, none => a
  | some a, some b => if a < b then some b else some a

/-- `np.fmin` (as in cosipy/cpkernel/io.py:228). -/
def fminOpt : Option α → Option α → Option α
  | none, b => b
  | a, none => a
  | some a, some b => if b < a then some b else some a

/-- `np.nanmax` of the flattened field: ValueError for an empty field, NaN if there are only NaNs (as in
cosipy/cpkernel/io.py:228). -/
def nanMax : List (Option α) → M (Option α)
  | [] => .error .value
  | a :: l => .ok (l.foldl fmaxOpt a)

/-- `np.nanmin` (as in cosipy/cpkernel/io.py:228). -/
def nanMin : List (Option α) → M (Option α)
  | [] => .error .value
  | a :: l => .ok (l.foldl fminOpt a)

/-- `a > b` with NaN on the left (as in cosipy/cpkernel/io.py:228). -/
def optGt (a : Option α) (b : α) : Bool :=
  match a with
  | some a => decide (b < a)
  | none => false

/-- `a < b` with NaN on the left (as in cosipy/cpkernel/io.py:228). -/
def optLt (a : Option α) (b : α) : Bool :=
  match a with
  | some a => decide (a < b)
  | none => false

/-- `check_field`, io.py:226-236. -/
def checkField (field : List (Option α)) (max min : α) : M Bool := do
  let hi ← nanMax field
  if optGt hi max then return false
  else
    let lo ← nanMin field
    if optLt lo min then return false else return true

/-- The bounds (maximum, minimum) of `check_input_data`, io.py:242-253. -/
def dataBounds [OfScientific α] : List (String × α × α) :=
  [("T2", 313.16, 243.16), ("RH2", 100.0, 0.0), ("G", 1600.0, 0.0), ("U2", 50.0, 0.0), ("RRR", 20.0, 0.0),
   ("N", 1.0, 0.0), ("PRES", 1080.0, 400.0), ("LWin", 400.0, 200.0), ("SNOWFALL", 0.1, 0.0), ("SLOPE", 0.0, 90.0)]

/-- The loop of `check_input_data`, io.py:255-258: for every field present, whether "ok" was printed. -/
def checkFields (data : Store (List (Option α))) : List (String × α × α) → M (List (String × Bool))
  | [] => .ok []
  | e :: es =>
    match data e.1 with
    | some field => do
      let b ← checkField field e.2.1 e.2.2
      let bs ← checkFields data es
      return (e.1, b) :: bs
    | none => checkFields data es

/-- `check_input_data`, io.py:238-260: the value returned, and the "ok"s printed. -/
def checkInputData [OfScientific α] (data : Store (List (Option α))) : M (Bool × List (String × Bool)) := do
  let flags ← checkFields data (dataBounds (α := α))
  return (true, flags)

end

/-! ## Time axis -/

/-- A dataset along time: the time coordinate and the records, by position. Times are seconds since some epoch
(cosipy/cpkernel/io.py:262-329). -/
structure Series (β : Type) where
  time : List Int
  records : List β
  deriving DecidableEq

/-- `self.DATA["time"] = np.sort(self.DATA["time"].values)`, io.py:284: assigns a new coordinate, the records stay where
they are. -/
def Series.sortTime {β : Type} (d : Series β) : Series β :=
  { d with time := d.time.insertionSort (· ≤ ·) }

/-- `str(timestamp)[0:16]` and back: cuts the seconds off, io.py:285-288. -/
def floorMinute (t : Int) : Int := t / 60 * 60

/-- `DATA.sel(time=slice(time_start, time_end))` with the strings of the configuration, io.py:315, on a sorted time
axis: a string of minute resolution stands for the whole minute, so both ends are inclusive and the end minute is
included up to its last second. `s`, `e` are the beginnings of the two minutes. -/
def Series.sel {β : Type} (d : Series β) (s e : Int) : Series β :=
  let kept := (d.time.zip d.records).filter fun p => decide (s ≤ p.1 ∧ p.1 < e + 60)
  { time := kept.map (·.1), records := kept.map (·.2) }

/-- `init_data_dataset` without restart, io.py:277-315: `file` is `none` when the input file is missing (SystemExit). An
empty time axis makes `time.values[0]` raise IndexError. The configured times `s`, `e` are given with minute resolution.
Simplification: warnings are not modelled. -/
def initDataDataset {β : Type} (file : Option (Series β)) (s e : Int) : M (Series β) := do
  match file with
  | none => .error .exit
  | some d =>
    let d := d.sortTime
    match d.time.head?, d.time.getLast? with
    | some lo, some hi =>
      if s > floorMinute hi ∨ e < floorMinute lo then .error .index else .ok (d.sel s e)
    | _, _ => .error .index

/-- A configured time: quoted in the .toml file (a string) or not (tomllib gives a `datetime`)
(cosipy/cpkernel/io.py:103-123). -/
inductive CfgTime
  | str (t : Int)
  | datetime (t : Int)

/-- The object `get_datetime` returns: `np.datetime64` for strings, io.py:103-123. -/
inductive TimeObj
  | np64 (t : Int)
  | datetime (t : Int)

/-- `get_datetime`, cosipy/cpkernel/io.py:103-123. -/
def getDatetime : CfgTime → TimeObj
  | .str t => .np64 t
  | .datetime t => .datetime t

/-- `.strftime(...)`: `np.datetime64` has no such method (AttributeError). The formatted text is represented by the
time itself. -/
def TimeObj.strftime : TimeObj → M Int
  | .np64 _ => .error .attribute
  | .datetime t => .ok t

/-- `create_data_file` up to the restart file, io.py:132-146: the time stamp that names the restart file. The `try` block
starts after it. -/
def restartTimestamp (timeStart : CfgTime) : M Int := (getDatetime timeStart).strftime

end Cosipy
