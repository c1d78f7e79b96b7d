import Verif.Model.Prepared

/-!
# Sub-areas of the static file

Model of the selection of a part of the static file in `create_2D_input` (cosipy/utilities/aws2cosipy/aws2cosipy.py:496,
arguments `--xl`, `--xr`, `--yl`, `--yu` at 971-1001) by labels of its axes, and of the preparation of that part. The rules of
pandas for slices of labels are those of `Index.slice_locs`.
-/

set_option autoImplicit false

namespace Cosipy.Aws

section
variable {α : Type} [LT α] [LE α] [DecidableLT α] [DecidableLE α] [BEq α]

/-- Is every label smaller than (or equal to) the next one? `Index.is_monotonic_increasing` (used by
aws2cosipy.py:496). -/
def increasing : List α → Bool
  | a :: b :: rest => decide (a ≤ b) && increasing (b :: rest)
  | _ => true

/-- `Index.is_monotonic_decreasing` (used by aws2cosipy.py:496). -/
def decreasing : List α → Bool
  | a :: b :: rest => decide (b ≤ a) && decreasing (b :: rest)
  | _ => true

/-- First position of the slice (aws2cosipy.py:496): nothing before a missing bound; sorted axes are searched; on an
unsorted axis the bound must be one of the labels, and occur once. -/
def lowerPos (xs : List α) : Option α → M Nat
  | none => .ok 0
  | some a =>
    if increasing xs then .ok (xs.countP fun x => decide (x < a))
    else if decreasing xs then .ok (xs.countP fun x => decide (a < x))
    else match xs.findIdxs (· == a) with
      | [i] => .ok i
      | _ => .error .key

/-- End of the slice (aws2cosipy.py:496): the upper bound belongs to it. -/
def upperPos (xs : List α) : Option α → M Nat
  | none => .ok xs.length
  | some b =>
    if increasing xs then .ok (xs.countP fun x => decide (x ≤ b))
    else if decreasing xs then .ok (xs.countP fun x => decide (b ≤ x))
    else match xs.findIdxs (· == b) with
      | [i] => .ok (i + 1)
      | _ => .error .key

/-- The positions `lo, …, hi - 1` of a list (as in aws2cosipy.py:496). -/
def cut {β : Type} (lo hi : Nat) (xs : List β) : List β := (xs.take hi).drop lo

/-- The bounds given by the user, aws2cosipy.py:1044-1047: left, right, lower, upper. -/
structure Box (α : Type) where
  xl : Option α
  xr : Option α
  yl : Option α
  yu : Option α

/-- A field of cells with its axes (aws2cosipy.py:492-507). -/
structure Area (α β : Type) where
  lats : List α
  lons : List α
  cells : List (List β)

/-- `ds.sel(lat=slice(y0, y1), lon=slice(x0, x1))`, aws2cosipy.py:496. -/
def Area.sel {β : Type} (b : Box α) (s : Area α β) : M (Area α β) := do
  let y0 ← lowerPos s.lats b.yl
  let y1 ← upperPos s.lats b.yu
  let x0 ← lowerPos s.lons b.xl
  let x1 ← upperPos s.lons b.xr
  return ⟨cut y0 y1 s.lats, cut x0 x1 s.lons, (cut y0 y1 s.cells).map (cut x0 x1)⟩

end

section
variable {α : Type} [Add α] [Sub α] [Mul α] [Div α] [LT α] [LE α] [DecidableLT α] [DecidableLE α] [Zero α] [OfScientific α]
  [NatCast α] [Transc α] [BEq α] [One α]

/-- `create_2D_input` for a part of the static file, with the module Wohlfahrt2016 or none, aws2cosipy.py:442-789: the times and
the prepared field. Simplification: the columns are checked before the selection (only the order of failures differs). `correct` gets the coordinates of the cell (aws2cosipy.py:633-644). The final checks
(aws2cosipy.py:788) are `checkArea`. -/
def prepareArea (nm : Names) (c : Cfg α) (aggregate : Option Int) (correct : α → α → Static α → Option (Int → α → M α))
    (b : Box α) (s : Area α (Static α)) (df : Frame α) (range : Option (Int × Int)) :
    M (List Int × Area α (Store (List (Option α)))) := do
  let df ← gridFrame nm aggregate df range
  let s ← s.sel b
  let t2 ← getCol df.cols nm.t2
  checkTemperatureBounds (t2.map fun x => if c.inK then x else x.map (· + 273.16))
  let out ← (s.lats.zip s.cells).mapM fun r => (s.lons.zip r.2).mapM fun q => createCell nm c df (correct r.1 q.1) q.2
  return (df.index, ⟨s.lats, s.lons, out⟩)

/-- The first of the checks after the file has been written, aws2cosipy.py:135-137, 788, on the temperatures of all
cells. -/
def checkArea (a : Area α (Store (List (Option α)))) : M Bool :=
  warns (a.cells.flatMap fun row => row.flatMap fun ds => (ds "T2").getD []) 316.16 223.16

end
end Cosipy.Aws
