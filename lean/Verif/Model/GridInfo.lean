import Verif.Model.Accessors

/-!
# Printing the column: `cosipy/cpkernel/grid.py`, 969-1036

What the methods `info`, `grid_info` and `grid_info_screen` print: the names of the columns and the rows of values. Not modelled: how numbers are
turned into text, and the lines of asterisks.
-/

set_option autoImplicit false

namespace Cosipy
namespace Grid
section
variable {α : Type} [Add α] [Sub α] [Mul α] [Div α] [Neg α] [LT α] [LE α]
  [DecidableLT α] [DecidableLE α] [BEq α] [Zero α] [One α] [NatCast α] [OfScientific α]

/-- What `info` reports, cosipy/cpkernel/grid.py:969-981: the number of layers and the depth of the domain. -/
def info (g : Grid α) : M (Int × α) := do
  let total ← (List.range g.numberNodes.toNat).foldlM (fun (t : α) (i : Nat) => do let h ← g.getNodeHeight i; return t + h) 0
  return (g.numberNodes, total)

/-- Rows printed one after the other; a failing one ends it, those before stay printed (cosipy/cpkernel/grid.py:998-1009, 1026-1036). -/
def printRows (row : Nat → M (List α)) : List Nat → List (Nat × List α) × Option Err
  | [] => ([], none)
  | i :: is =>
    match row i with
    | .error e => ([], some e)
    | .ok r => ((i, r) :: (printRows row is).1, (printRows row is).2)

/-- The number of rows asked for, `range(n)` with the default -999 for all (cosipy/cpkernel/grid.py:989-990, 1017-1018). -/
def rowCount (g : Grid α) (n : Int) : Nat := (if n = -999 then g.numberNodes else n).toNat

/-- Names of the columns of `grid_info`, cosipy/cpkernel/grid.py:992-996. -/
def infoHeader : List String :=
  ["Node no.", "Layer height [m]", "Temperature [K]", "Density [kg m^-3]", "LWC [-]", "LW [m]", "CC [J m^-2]", "Porosity [-]",
   "Refreezing [m w.e.]", "Irreducible water content [-]"]

/-- A row of `grid_info` behind the number, cosipy/cpkernel/grid.py:999-1009. -/
def infoRow (c : Consts α) (g : Grid α) (i : Nat) : M (List α) := do
  let h ← g.getNodeHeight i
  let t ← g.getNodeTemperature i
  let d ← g.getNodeDensity c i
  let w ← g.getNodeLwc i
  let q ← g.getNodeColdContent c i
  let p ← g.getNodePorosity i
  let r ← g.getNodeRefreeze i
  let v ← g.getNodeIrreducibleWaterContent i
  return [h, t, d, w, q, p, r, v]

/-- `grid_info`, cosipy/cpkernel/grid.py:983-1009. -/
def gridInfo (c : Consts α) (g : Grid α) (n : Int) : List (Nat × List α) × Option Err := printRows (g.infoRow c) (List.range (g.rowCount n))

/-- Names of the columns of `grid_info_screen`, cosipy/cpkernel/grid.py:1020-1023. -/
def screenHeader : List String :=
  ["Node no.", "Layer height [m]", "Temperature [K]", "Density [kg m^-3]", "LWC [-]", "Retention [-]", "CC [J m^-2]", "Porosity [-]",
   "Refreezing [m w.e.]"]

/-- A row of `grid_info_screen` behind the number, cosipy/cpkernel/grid.py:1026-1036. -/
def screenRow (c : Consts α) (g : Grid α) (i : Nat) : M (List α) := do
  let h ← g.getNodeHeight i
  let t ← g.getNodeTemperature i
  let d ← g.getNodeDensity c i
  let w ← g.getNodeLwc i
  let v ← g.getNodeIrreducibleWaterContent i
  let q ← g.getNodeColdContent c i
  let p ← g.getNodePorosity i
  let r ← g.getNodeRefreeze i
  return [h, t, d, w, v, q, p, r]

/-- `grid_info_screen`, cosipy/cpkernel/grid.py:1011-1036. -/
def gridInfoScreen (c : Consts α) (g : Grid α) (n : Int) : List (Nat × List α) × Option Err :=
  printRows (g.screenRow c) (List.range (g.rowCount n))

end
end Grid
end Cosipy
