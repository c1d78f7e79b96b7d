import Verif.Model.Num

/-!
# Profiles read from a result file

Model of the numbers in cosipy/postprocessing/profile_plots/plot_profiles.py: the values printed for given depths
(187-213), the values drawn over time and height (107-149), and the search for a grid point (232-239). Reading the file,
drawing and the command line are not modelled. A missing number (NaN) is `none`.
-/

set_option autoImplicit false

namespace Cosipy.Profile

section
variable {α : Type} [Add α] [Sub α] [Neg α] [Mul α] [LT α] [DecidableLT α] [Zero α]

/-- `a - b` with NaN (as in plot_profiles.py:141-142, 229). -/
def subOpt (a : Option α) (b : α) : Option α := a.map fun a => a - b

/-- `np.abs` on one element (as in plot_profiles.py:141-142, 229). -/
def absOpt (a : Option α) : Option α := a.map fun a => if a < 0 then -a else a

/-- `np.cumsum` after the sum `acc`: NaN from the first NaN on (as in plot_profiles.py:107-110, 197). -/
def cumsumFrom (acc : Option α) : List (Option α) → List (Option α)
  | [] => []
  | x :: xs =>
    let s : Option α := match acc, x with
      | some a, some x => some (a + x)
      | _, _ => none
    s :: cumsumFrom s xs

/-- Position and value of the smallest number, the first of several (as in plot_profiles.py:141-142, 229). -/
def argmin : List (Option α) → Option (Nat × α)
  | [] => none
  | x :: xs =>
    match x, argmin xs with
    | none, none => none
    | none, some (i, a) => some (i + 1, a)
    | some x, none => some (0, x)
    | some x, some (i, a) => if a < x then some (i + 1, a) else some (0, x)

/-- `np.nanargmin`: ValueError if there are only NaNs (as in plot_profiles.py:141, 229). -/
def nanargmin (xs : List (Option α)) : M Nat :=
  match argmin xs with
  | some p => .ok p.1
  | none => .error .value

/-- `find_nearest`, plot_profiles.py:227-230: index and element of the array nearest to the value. -/
def findNearest (array : List (Option α)) (value : α) : M (Nat × Option α) := do
  let idx ← nanargmin (array.map fun a => absOpt (subOpt a value))
  let x ← pyGet array (idx : Int)
  return (idx, x)

/-- What `plot_profile_1D` prints for one depth, plot_profiles.py:197-212: the nearest depth and the value there, for the
layer heights and values (density or temperature) of one grid point. A file without layers is an IndexError. -/
def printedAt (heights values : List (Option α)) (d : α) : M (Option α × Option α) := do
  let depth := some 0 :: cumsumFrom (some 0) heights
  let first ← pyGet values 0
  let rho := first :: values
  let (idx, val) ← findNearest depth d
  let r ← pyGet rho (idx : Int)
  return (val, r)

/-- The value `plot_profile_1D_timeseries` draws at the height `y` (from the bottom of the snow) at one time,
plot_profiles.py:107-149: nothing (`none`) unless `y` is below the snow surface. `snow` is SNOWHEIGHT. -/
def drawnAt (heights values : List (Option α)) (snow y : α) : M (Option α) :=
  if y < snow then do
    let bottoms := (cumsumFrom (some 0) heights).map fun c => (subOpt c snow).map fun x => -x
    let idx ← nanargmin (bottoms.map fun a => absOpt (subOpt a y))
    pyGet values (idx : Int)
  else .ok none

/-- `naive_fast`, plot_profiles.py:232-239: row and column of the smallest squared difference of coordinates, for fields
given by rows of `nx` columns, flattened. -/
def nearestCell (nx : Nat) (lat lon : List α) (lat0 lon0 : α) : M (Nat × Nat) := do
  let idx ← nanargmin ((lat.zip lon).map fun p =>
    some ((p.1 - lat0) * (p.1 - lat0) + (p.2 - lon0) * (p.2 - lon0)))
  return (idx / nx, idx % nx)

end
end Cosipy.Profile
