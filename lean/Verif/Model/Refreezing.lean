import Verif.Model.Grid

/-!
# Refreezing: `cosipy/modules/refreezing.py`
-/

set_option autoImplicit false

namespace Cosipy
section
variable {α : Type} [Add α] [Sub α] [Mul α] [Div α] [Neg α] [LT α] [LE α]
  [DecidableLT α] [DecidableLE α] [BEq α] [Zero α] [One α] [NatCast α] [OfScientific α]

/-- `check_oob`, cosipy/modules/refreezing.py:15-31. -/
def checkOob (iceFraction lwc : α) : M Unit :=
  if ¬ (0 ≤ iceFraction ∧ iceFraction ≤ 1) then .error .value
  else if ¬ (0 ≤ lwc ∧ lwc ≤ 1) then .error .value
  else .ok ()

/-- `phi_ice_max`, cosipy/modules/refreezing.py:116-118. -/
def phiIceMax (c : Consts α) : α := (c.snowIceThreshold - c.airDensity) / (c.iceDensity - c.airDensity)

/-- `dtheta_w`: the water fraction that refreezes in a layer, cosipy/modules/refreezing.py:131-166.
Divisions by constants are plain, the state dependent one is checked. -/
def refreezeAmount (c : Consts α) (n : Node α) : M α := do
  let dTmax := n.temperature - c.zeroTemperature
  let density := pyMax ((phiIceMax c - n.iceFraction) * (c.iceDensity / c.waterDensity)) 0
  let cold ← fdiv
    (-(dTmax * ((n.iceFraction * (c.specHeatIce * c.iceDensity))
        + (n.lwc * c.waterDensity * c.specHeatWater))))
    (c.waterDensity * (c.latHeatMelting - dTmax * (c.specHeatIce - c.specHeatWater)))
  let bulk := -(c.specHeatIce * c.iceDensity * n.iceFraction * dTmax) / (c.waterDensity * c.latHeatMelting)
  return pyMin (pyMin (pyMin n.lwc density) cold) bulk

/-- Body of the layer loop, cosipy/modules/refreezing.py:124-194: returns the updated layer and its
contribution `delta_mwe`. -/
def refreezeLayer (c : Consts α) (n : Node α) : M (Node α × α) := do
  if n.temperature ≤ c.zeroTemperature ∧ 0 < n.lwc then
    let dthetaW ← refreezeAmount c n
    let dthetaI := (c.waterDensity / c.iceDensity) * dthetaW
    checkOob (n.iceFraction + dthetaI) (n.lwc - dthetaW)
    let n1 := (n.setLwc (n.lwc - dthetaW)).setIceFraction (n.iceFraction + dthetaI)
    let dT ← fdiv (dthetaW * (c.waterDensity * c.latHeatMelting))
      ((c.specHeatIce * c.iceDensity * n1.iceFraction) + (c.specHeatWater * c.waterDensity * n1.lwc))
    let n2 := n1.setTemperature (n.temperature + dT)
    if n.temperature + dT < 0 then .error .value
    else return (n2.setRefreeze (dthetaW * n.height), dthetaW * n.height)
  else
    return (n.setRefreeze (0 * n.height), 0 * n.height)

/-- The loop over all layers with the accumulator `refrozen_water`, cosipy/modules/refreezing.py:122-196. -/
def refreezeLayers (c : Consts α) : α → List (Node α) → M (List (Node α) × α)
  | acc, [] => .ok ([], acc)
  | acc, n :: ns => do
    let (n', d) ← refreezeLayer c n
    let (ns', total) ← refreezeLayers c (acc + d) ns
    return (n' :: ns', total)

/-- `refreezing`, cosipy/modules/refreezing.py:34-196. Returns the grid and the refrozen water. -/
def refreezing (c : Consts α) (g : Grid α) : M (Grid α × α) := do
  let (ns, total) ← refreezeLayers c 0 g.nodes
  return ({ g with nodes := ns }, total)

end
end Cosipy
