import Verif.Model.Grid

/-!
# Penetrating shortwave radiation: `cosipy/modules/penetratingRadiation.py`
-/

set_option autoImplicit false

namespace Cosipy
section
variable {α : Type} [Add α] [Sub α] [Mul α] [Div α] [Neg α] [LT α] [LE α]
  [DecidableLT α] [DecidableLE α] [BEq α] [Zero α] [One α] [NatCast α] [OfScientific α]
  [Transc α]

/-- Conversion factor `A`, cosipy/modules/penetratingRadiation.py:76. -/
def penA (c : Consts α) : α := (c.specHeatIce * c.iceDensity) / (c.waterDensity * c.latHeatMelting)

/-- `np.abs(np.diff(decay))`, cosipy/modules/penetratingRadiation.py:71. -/
def absDiff : List α → List α
  | a :: b :: rest => pyAbs (b - a) :: absDiff (b :: rest)
  | _ => []

/-- Body of the layer loop, cosipy/modules/penetratingRadiation.py:78-118. Returns the layer, whether it is
put on the removal list, and the contribution to `subsurface_melt`. A layer on the removal list is not changed. -/
def penLayer (c : Consts α) (dt e : α) (n : Node α) : M (Node α × Bool × α) := do
  let q ← fdiv e (n.density c * c.specHeatIce)
  let r ← fdiv dt n.height
  let tRad := n.temperature + q * r
  if c.zeroTemperature < tRad then
    let dT := tRad - c.zeroTemperature
    let dthetaW := penA c * dT * n.iceFraction
    let dthetaI := (c.waterDensity / c.iceDensity) * -dthetaW
    let dh ← fdiv (-dthetaI) n.iceFraction
    if 1 ≤ dh then
      return (n, true, dthetaW * n.height)
    else
      let lwcTemp := (n.lwc + dthetaW) * n.height
      let h' := (1 - dh) * n.height
      let w' ← fdiv lwcTemp h'
      return ({ n with temperature := c.zeroTemperature, height := h', lwc := w' }, false, dthetaW * h')
  else
    return (n.setTemperature tRad, false, 0)

/-- The loop `for idxNode in range(0, GRID.number_nodes - 1)`, cosipy/modules/penetratingRadiation.py:78-118: all
layers but the last, with their absorbed energy. State: index, removal list (reversed), melt. A layer that does
not melt adds nothing to `subsurface_melt`. -/
def penLayers (c : Consts α) (dt : α) : Int → List (Node α) → List α → List Int → α →
    M (List (Node α) × List Int × α)
  | _, [], _, rm, melt => .ok ([], rm, melt)
  | _, [a], _, rm, melt => .ok ([a], rm, melt)
  | _, _ :: _ :: _, [], _, _ => .error .index
  | i, a :: b :: rest, e :: es, rm, melt => do
    let (a', del, m) ← penLayer c dt e a
    let rm' := if del then rm ++ [i] else rm
    let (ns, rm'', melt') ← penLayers c dt (i + 1) (b :: rest) es rm' (melt + m)
    return (a' :: ns, rm'', melt')

/-- Penetrating share of the net shortwave radiation and extinction coefficient for a surface layer,
cosipy/modules/penetratingRadiation.py:65-70: snow (0.1, 17.1) or ice (0.2, 2.5). -/
def penCoeffs (c : Consts α) (top : Node α) : α × α :=
  if top.density c ≤ c.snowIceThreshold then (0.1, 17.1) else (0.2, 2.5)

/-- Energy `E` absorbed per layer, cosipy/modules/penetratingRadiation.py:62-71, for penetrating radiation `si`, extinction `k`
and layer depths. -/
def penEnergy (si k : α) (depths : List α) : List α :=
  (absDiff ((0 :: depths).map fun d => Transc.exp (k * -d))).map (si * ·)

/-- `method_Bintanja`, cosipy/modules/penetratingRadiation.py:41-126. Returns grid, subsurface melt, `Si`. -/
def methodBintanja (c : Consts α) (g : Grid α) (swnet dt : α) : M (Grid α × α × α) := do
  let depths ← g.getDepth
  let top ← g.node 0
  let si := swnet * (penCoeffs c top).1
  let (ns, rm, melt) ← penLayers c dt 0 g.nodes (penEnergy si (penCoeffs c top).2 depths) [] 0
  let g := { g with nodes := ns }
  if rm.isEmpty then return (g, melt, si)
  else
    let g ← g.removeNode rm
    return (g, melt, si)

/-- `penetrating_radiation`, cosipy/modules/penetratingRadiation.py:15-38. -/
def penetratingRadiation (c : Consts α) (g : Grid α) (swnet dt : α) : M (Grid α × α × α) :=
  match c.penetratingMethod with
  | .bintanja95 => methodBintanja c g swnet dt
  | .other => .error .value

end
end Cosipy
