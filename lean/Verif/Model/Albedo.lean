import Verif.Model.Grid

/-!
# Albedo and roughness: `cosipy/modules/albedo.py`, `cosipy/modules/roughness.py`
Divisions by configured constants are plain `/`: Python raises ZeroDivisionError if such a constant is zero.
-/

set_option autoImplicit false

namespace Cosipy
section
variable {α : Type} [Add α] [Sub α] [Mul α] [Div α] [Neg α] [LT α] [LE α]
  [DecidableLT α] [DecidableLE α] [BEq α] [Zero α] [One α] [NatCast α] [OfScientific α]

/-- `get_surface_properties`, cosipy/modules/albedo.py:96-130 (defined twice with the same body, 59-93). May revert the
snow age to that of the underlying snow. Returns the grid and `hours_since_snowfall`. -/
def getSurfaceProperties (c : Consts α) (g : Grid α) : Grid α × α :=
  let hours := g.newSnowTimestamp / 3600.0
  if hours < c.albedoModSnowAging * 24 ∧ g.newSnowHeight ≤ 0 then
    let g := g.setFreshSnowPropsToOldProps
    (g, g.newSnowTimestamp / 3600.0)
  else (g, hours)

/-- `method_Moelg`, cosipy/modules/roughness.py:32-63. -/
def methodMoelg (c : Consts α) (g : Grid α) : M α := do
  let hours := g.newSnowTimestamp / 3600.0
  let top ← g.node 0
  let sigma :=
    if top.density c ≤ c.snowIceThreshold then
      pyMin (c.roughnessFreshSnow + c.agingFactorRoughness * hours) c.roughnessFirn
    else c.roughnessIce
  return sigma / 1000

/-- `updateRoughness`, cosipy/modules/roughness.py:4-29. -/
def updateRoughness (c : Consts α) (g : Grid α) : M α :=
  match c.roughnessMethod with
  | .moelg12 => methodMoelg c g
  | .other => .error .value

variable [Transc α]

/-- `get_simple_albedo`, cosipy/modules/albedo.py:133-149. -/
def getSimpleAlbedo (c : Consts α) (elapsed : α) : α :=
  c.albedoFirn + (c.albedoFreshSnow - c.albedoFirn) * Transc.exp ((-elapsed) / (c.albedoModSnowAging * 24.0))

/-- `get_albedo_with_decay`, cosipy/modules/albedo.py:152-168. -/
def getAlbedoWithDecay (c : Consts α) (snowAlbedo snowHeight : α) : α :=
  snowAlbedo + (c.albedoIce - snowAlbedo) * Transc.exp ((-1.0 * snowHeight) / (c.albedoModSnowDepth / 100.0))

/-- `method_Oerlemans`, cosipy/modules/albedo.py:171-195. -/
def methodOerlemans (c : Consts α) (g : Grid α) : M (Grid α × α) := do
  let (g, hours) := getSurfaceProperties c g
  let top ← g.node 0
  if top.density c ≤ c.snowIceThreshold then
    let h ← g.getTotalSnowheight c
    return (g, getAlbedoWithDecay c (getSimpleAlbedo c hours) h)
  else
    return (g, c.albedoIce)

/-- Decay time scale `t_star` of `method_Bougamont`, cosipy/modules/albedo.py:225-239. -/
def tStar (c : Consts α) (surfaceTemperature : α) : α :=
  if c.zeroTemperature ≤ surfaceTemperature then c.tStarWet
  else if surfaceTemperature < c.tStarCutoff then
    c.tStarDry + (c.zeroTemperature - c.tStarCutoff) * c.tStarK
  else c.tStarDry + (c.zeroTemperature - surfaceTemperature) * c.tStarK

/-- The snow-albedo update of `method_Bougamont`, cosipy/modules/albedo.py:217-218, 246-249:
`albedo_snow -= (albedo_snow - albedo_firn) / (t_star * dt_days)`. -/
def bougamontDecay (c : Consts α) (surfaceTemperature albedoSnow : α) : α :=
  let dtDays := c.dt / 86400.0
  let tStarDays := tStar c surfaceTemperature * dtDays
  albedoSnow - (albedoSnow - c.albedoFirn) / tStarDays

/-- `method_Bougamont`, cosipy/modules/albedo.py:198-263. Returns grid, surface albedo, snow albedo. -/
def methodBougamont (c : Consts α) (g : Grid α) (surfaceTemperature albedoSnow : α) :
    M (Grid α × α × α) := do
  let (g, hours) := getSurfaceProperties c g
  let top ← g.node 0
  if top.density c ≤ c.snowIceThreshold then
    let h ← g.getTotalSnowheight c
    let a := bougamontDecay c surfaceTemperature albedoSnow
    let a := if hours == 0 then c.albedoFreshSnow else a
    return (g, getAlbedoWithDecay c a h, a)
  else
    return (g, c.albedoIce, albedoSnow)

/-- `updateAlbedo`, cosipy/modules/albedo.py:21-56. -/
def updateAlbedo (c : Consts α) (g : Grid α) (surfaceTemperature albedoSnow : α) : M (Grid α × α × α) :=
  match c.albedoMethod with
  | .oerlemans98 => do
    let (g, a) ← methodOerlemans c g
    return (g, a, albedoSnow)
  | .bougamont05 => methodBougamont c g surfaceTemperature albedoSnow
  | .other => .error .value

end
end Cosipy
