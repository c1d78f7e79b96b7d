import Verif.Model.Grid

/-!
# Heat equation: `cosipy/modules/heatEquation.py`
-/

set_option autoImplicit false

namespace Cosipy
section
variable {α : Type} [Add α] [Sub α] [Mul α] [Div α] [Neg α] [LT α] [LE α]
  [DecidableLT α] [DecidableLE α] [BEq α] [Zero α] [One α] [NatCast α] [OfScientific α]

/-- Height, thermal diffusivity and temperature of a layer as used by the solver
(arrays `hlayers`, `K`, `T`) (cosipy/modules/heatEquation.py:22-33). -/
structure HeatCell (α : Type) where
  h : α
  k : α
  t : α

/-- Distance between the mid points of neighbouring layers, `diff`, cosipy/modules/heatEquation.py:24. -/
def HeatCell.dist (a b : HeatCell α) : α := (a.h + b.h) / 2.0
/-- Mean diffusivity of neighbouring layers, `Kl`/`Ku`, cosipy/modules/heatEquation.py:30-31. -/
def HeatCell.diffusivity (a b : HeatCell α) : α := (a.k + b.k) / 2.0

/-- Update of an inner layer `b` with upper neighbour `a` and lower neighbour `d`,
cosipy/modules/heatEquation.py:44-47. Array division does not raise. -/
def heatNewT (dtUse : α) (a b d : HeatCell α) : α :=
  b.t + ((b.diffusivity d * dtUse * (d.t - b.t) / b.dist d)
      - (a.diffusivity b * dtUse * (b.t - a.t) / a.dist b)) / (0.5 * (a.dist b + b.dist d))

/-- All layers below the first: inner layers are updated from the *old* neighbours, the last one keeps its
temperature. The argument starts with the layer above (cosipy/modules/heatEquation.py:39-47). -/
def heatBelow (dtUse : α) : List (HeatCell α) → List (HeatCell α)
  | a :: b :: d :: rest => { b with t := heatNewT dtUse a b d } :: heatBelow dtUse (b :: d :: rest)
  | [_, b] => [b]
  | _ => []

/-- One sub-step, cosipy/modules/heatEquation.py:44-47: simultaneous update of the layers `1..nl-2`. -/
def heatPass (dtUse : α) : List (HeatCell α) → List (HeatCell α)
  | [] => []
  | a :: rest => a :: heatBelow dtUse (a :: rest)

/-- Values `hk**2 / Ku` at the interfaces between consecutive layers, cosipy/modules/heatEquation.py:37. -/
def heatIfaces : List (HeatCell α) → List α
  | a :: b :: rest => (a.dist b * a.dist b) / a.diffusivity b :: heatIfaces (b :: rest)
  | _ => []

/-- Python `min(iterable)`: ValueError on an empty iterable (as in cosipy/modules/heatEquation.py:37). -/
def pyMinList : List α → M α
  | [] => .error .value
  | x :: xs => .ok (xs.foldl pyMin x)

/-- `dt_stab`, cosipy/modules/heatEquation.py:36-37: `hk` are all interfaces but the last, `hk1` all but the
first. -/
def heatDtStab (cs : List (HeatCell α)) : M α := do
  let up ← pyMinList (heatIfaces cs).dropLast
  let lo ← pyMinList (heatIfaces cs).tail
  return 0.8 * (pyMin up lo / 2)

/-- One pass of the sub-stepping loop, cosipy/modules/heatEquation.py:39-47. State: `stab_t` and the cells. -/
def heatLoopPass (dt dtStab : α) (s : α × List (HeatCell α)) : M (Option (α × List (HeatCell α))) :=
  if s.1 < dt then
    let dtUse := pyMin dtStab (dt - s.1)
    .ok (some (s.1 + dtUse, heatPass dtUse s.2))
  else .ok none

/-- `solveHeatEquation`, cosipy/modules/heatEquation.py:5-49. -/
def solveHeatEquation (fuel : Nat) (c : Consts α) (g : Grid α) (dt : α) : M (Grid α) := do
  let cells ← g.mapNodes fun n => do
    let k ← n.thermalDiffusivity c
    return HeatCell.mk n.height k n.temperature
  let dtStab ← heatDtStab cells
  let (_, cells') ← whileM (heatLoopPass dt dtStab) fuel (0, cells)
  g.setAll Node.setTemperature (cells'.map HeatCell.t)

end
end Cosipy
