import Verif.Model.Core

/-!
# Every operation that changes a column, as data
Used to quantify over arbitrary histories of operations (C01).
-/

set_option autoImplicit false

namespace Cosipy

/-- A call that may change the column, with arbitrary arguments. -/
inductive Op (α : Type) where
  | addFreshSnow (height density temperature lwc dt : α)
  | removeNode (idx : List Int)
  | mergeNodes (idx : Int)
  | correctLayer (idx : Int) (minHeight : α)
  | logProfile
  | adaptiveProfile
  | updateGrid
  | splitNode (pos : Int)
  | updateNode (idx : Int) (height temperature iceFraction lwc : α)
  | mergeSnowWithGlacier (idx : Int)
  | removeMelt (melt : α) (idx : Int)
  | setNodeHeight (idx : Int) (x : α)
  | setNodeTemperature (idx : Int) (x : α)
  | setNodeLwc (idx : Int) (x : α)
  | setNodeIceFraction (idx : Int) (x : α)
  | setNodeRefreeze (idx : Int) (x : α)
  | setHeight (xs : List α)
  | setTemperature (xs : List α)
  | setLwc (xs : List α)
  | setIceFraction (xs : List α)
  | setRefreeze (xs : List α)
  | setFreshSnowProps (height : α)
  | setFreshSnowPropsToOldProps
  | setFreshSnowPropsUpdateTime (seconds : α)
  | setFreshSnowPropsHeight (height : α)
  | percolation (water : α)
  | refreezing
  | penetratingRadiation (swnet dt : α)
  | solveHeatEquation (dt : α)
  | densification (slope dt : α)
  | updateAlbedo (surfaceTemperature albedoSnow : α)
  | updateSurfaceTemperature (sv : Solvers α) (wrf : Bool) (mk : α → α → EbInput α) (swnet : α)

section
variable {α : Type} [Add α] [Sub α] [Mul α] [Div α] [Neg α] [LT α] [LE α]
  [DecidableLT α] [DecidableLE α] [BEq α] [Zero α] [One α] [NatCast α] [OfScientific α] [Transc α]

/-- Perform a call; only the resulting column is kept. -/
def Op.apply (fuel : Nat) (c : Consts α) (g : Grid α) : Op α → M (Grid α)
  | addFreshSnow h d t w dt => .ok (g.addFreshSnow c h d t w dt)
  | removeNode idx => g.removeNode idx
  | mergeNodes idx => g.mergeNodes idx
  | correctLayer idx h => g.correctLayer fuel c idx h
  | logProfile => g.logProfile fuel c
  | adaptiveProfile => g.adaptiveProfile fuel c
  | updateGrid => g.updateGrid fuel c
  | splitNode pos => g.splitNode c pos
  | updateNode idx h t i w => g.updateNode idx h t i w
  | mergeSnowWithGlacier idx => g.mergeSnowWithGlacier c idx
  | removeMelt m idx => do let (g, _) ← g.removeMeltWeq fuel c m idx; return g
  | setNodeHeight i x => g.setNodeHeight i x
  | setNodeTemperature i x => g.setNodeTemperature i x
  | setNodeLwc i x => g.setNodeLwc i x
  | setNodeIceFraction i x => g.setNodeIceFraction i x
  | setNodeRefreeze i x => g.setNodeRefreeze i x
  | setHeight xs => g.setAll Node.setHeight xs
  | setTemperature xs => g.setAll Node.setTemperature xs
  | setLwc xs => g.setAll Node.setLwc xs
  | setIceFraction xs => g.setAll Node.setIceFraction xs
  | setRefreeze xs => g.setAll Node.setRefreeze xs
  | setFreshSnowProps h => .ok (g.setFreshSnowProps h)
  | setFreshSnowPropsToOldProps => .ok g.setFreshSnowPropsToOldProps
  | setFreshSnowPropsUpdateTime s => .ok (g.setFreshSnowPropsUpdateTime s)
  | setFreshSnowPropsHeight h => .ok (g.setFreshSnowPropsHeight h)
  | percolation w => do let (g, _) ← Cosipy.percolation g w; return g
  | refreezing => do let (g, _) ← Cosipy.refreezing c g; return g
  | penetratingRadiation s dt => do let (g, _, _) ← Cosipy.penetratingRadiation c g s dt; return g
  | solveHeatEquation dt => Cosipy.solveHeatEquation fuel c g dt
  | densification s dt => Cosipy.densification c g s dt
  | updateAlbedo ts a => do let (g, _, _) ← Cosipy.updateAlbedo c g ts a; return g
  | updateSurfaceTemperature sv wrf mk sw => do
    let (g, _, _) ← Cosipy.updateSurfaceTemperature sv c wrf g mk sw; return g

/-- Perform a history of calls, stopping at the first exception. -/
def Op.applyAll (fuel : Nat) (c : Consts α) (g : Grid α) (ops : List (Op α)) : M (Grid α) :=
  ops.foldlM (fun g op => op.apply fuel c g) g

end
end Cosipy
