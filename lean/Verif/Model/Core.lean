import Verif.Model.Percolation
import Verif.Model.Refreezing
import Verif.Model.Heat
import Verif.Model.Penetrating
import Verif.Model.Densification
import Verif.Model.Albedo
import Verif.Model.SurfaceTemp

/-!
# One time step and the time loop: `cosipy/cpkernel/cosipy_core.py`
`GRID.grid_check()` (232) has an empty body and is omitted.
-/

set_option autoImplicit false

namespace Cosipy

/-- Forcing of one time step after the optional inputs have been selected (cosipy/cpkernel/cosipy_core.py:170-207):
`none` stands for an absent input. `snowf` and `rrr` are already multiplied by `mult_factor_RRR`. -/
structure Forcing (α : Type) where
  t2 : α
  rh2 : α
  pres : α
  g : α
  u2 : α
  snowf : Option α
  rrr : Option α
  lwin : Option α
  n : Option α

/-- Settings of a run that are not constants: `dt` and `z` (cosipy/cpkernel/cosipy_core.py:72-97: from the constants, or from the
input when coupled), `SLOPE` (209-211), `max_layers`, `full_field`, `WRF_X_CSPY`. -/
structure RunCfg (α : Type) where
  dt : α
  z : α
  slope : α
  maxLayers : Nat
  fullField : Bool
  wrf : Bool

/-- State carried from one time step to the next: the column, `surface_temperature`, `albedo_snow`, `MB_cum`
(cosipy/cpkernel/cosipy_core.py:214-220). -/
structure SimState (α : Type) where
  grid : Grid α
  surfaceTemperature : α
  albedoSnow : α
  mbCum : α

/-- Quantities stored for a time step, cosipy/cpkernel/cosipy_core.py:404-433. -/
structure StepOut (α : Type) where
  rain : α
  snowfall : α          -- [m], `SNOWFALL` after thresholding
  densityFreshSnow : α
  swnet : α             -- net shortwave without the penetrating part
  albedo : α
  z0 : α
  fluxes : Fluxes α
  ts : α
  sublimation : α
  deposition : α
  evaporation : α
  condensation : α
  meltEnergy : α
  melt : α
  lwcFromLayers : α
  q : α
  refreeze : α
  subsurfaceMelt : α
  surfMB : α
  intMB : α
  mb : α

section
variable {α : Type} [Add α] [Sub α] [Mul α] [Div α] [Neg α] [LT α] [LE α]
  [DecidableLT α] [DecidableLE α] [BEq α] [Zero α] [One α] [NatCast α] [OfScientific α]
  [Transc α]

/-- Fresh snow density, cosipy/cpkernel/cosipy_core.py:240-243. -/
def freshSnowDensity (c : Consts α) (f : Forcing α) : α :=
  match c.densificationMethod with
  | .constant => c.constantDensity
  | _ => pyMax (109.0 + 6.0 * (f.t2 - 273.16) + 26.0 * Transc.sqrt f.u2) 50.0

/-- Solid fraction of the precipitation, cosipy/cpkernel/cosipy_core.py:253. -/
def snowFraction (c : Consts α) (t2 : α) : α :=
  0.5 * (-Transc.tanh (((t2 - c.zeroTemperature) - c.centerSnowTransferFunction)
    * c.spreadSnowTransferFunction) + 1.0)

/-- Snowfall [m] and rain [mm] before thresholding, cosipy/cpkernel/cosipy_core.py:246-257. With SNOWFALL but
without RRR the variable `RAIN` is `None` and the comparison at 264 raises TypeError. -/
def precipitation (c : Consts α) (f : Forcing α) (rho : α) : M (α × α) :=
  match f.snowf, f.rrr with
  | some s, some r => .ok (s, r - s * (rho / c.waterDensity) * 1000.0)
  | some _, none => .error .type
  | none, some r =>
    let s := (r / 1000.0) * (c.waterDensity / rho) * snowFraction c f.t2
    .ok (s, r - s * (rho / c.waterDensity) * 1000.0)
  | none, none => .error .value

/-- Detection thresholds, cosipy/cpkernel/cosipy_core.py:259-265. -/
def thresholdPrecip (c : Consts α) (rho : α) (sr : α × α) : α × α :=
  (if sr.1 < c.minimumSnowfall then 0 else sr.1,
   if sr.2 < c.minimumSnowfall * (rho / c.waterDensity) * 1000.0 then 0 else sr.2)

/-- Surface vapour fluxes [m w.e.], cosipy/cpkernel/cosipy_core.py:327-336. -/
structure Vapour (α : Type) where
  sublimation : α
  deposition : α
  evaporation : α
  condensation : α

/-- cosipy/cpkernel/cosipy_core.py:327-336. -/
def vapourFluxes (c : Consts α) (dt ts le : α) : Vapour α :=
  if ts < c.zeroTemperature then
    { sublimation := pyMin (le / (c.waterDensity * c.latHeatSublimation)) 0 * dt
      deposition := pyMax (le / (c.waterDensity * c.latHeatSublimation)) 0 * dt
      evaporation := 0
      condensation := 0 }
  else
    { sublimation := 0
      deposition := 0
      evaporation := pyMin (le / (c.waterDensity * c.latHeatVaporize)) 0 * dt
      condensation := pyMax (le / (c.waterDensity * c.latHeatVaporize)) 0 * dt }

/-- Melt energy, cosipy/cpkernel/cosipy_core.py:342-351. -/
def meltEnergy (swnet : α) (f : Fluxes α) : α :=
  pyMax 0 (swnet + f.li + f.lo + f.b + f.qrr + f.h + f.le)

/-- Snowfall part of a step, cosipy/cpkernel/cosipy_core.py:267-271. -/
def applySnowfall (c : Consts α) (dt : α) (g : Grid α) (snowfall rho t2 : α) : Grid α :=
  if 0 < snowfall then g.addFreshSnow c snowfall rho (pyMin t2 c.zeroTemperature) 0 dt
  else g.setFreshSnowPropsUpdateTime dt

/-- Penetrating radiation is only evaluated for positive net shortwave radiation,
cosipy/cpkernel/cosipy_core.py:296-301: column, subsurface melt, penetrated energy. -/
def radiationStep (c : Consts α) (g : Grid α) (swnet dt : α) : M (Grid α × α × α) :=
  if 0 < swnet then penetratingRadiation c g swnet dt else .ok (g, 0, 0)

/-- The body of the time loop, cosipy/cpkernel/cosipy_core.py:229-390 and the layer check at 435-437/470-471. -/
def step (sv : Solvers α) (fuel : Nat) (c : Consts α) (r : RunCfg α) (s : SimState α) (f : Forcing α) :
    M (SimState α × StepOut α) := do
  let rho := freshSnowDensity c f
  let sr ← precipitation c f rho
  let (snowfall, rain) := thresholdPrecip c rho sr
  let g := applySnowfall c r.dt s.grid snowfall rho f.t2
  let gIn := pyMax f.g 0
  let g ← g.updateGrid fuel c
  let (g, alpha, albedoSnow) ← updateAlbedo c g s.surfaceTemperature s.albedoSnow
  let z0 ← updateRoughness c g
  let swnet := gIn * (1 - alpha)
  let (g, subMelt, gPen) ← radiationStep c g swnet r.dt
  let swRes := swnet - gPen
  let (g, ts, fl) ← updateSurfaceTemperature sv c r.wrf g
    (fun tz1 tz2 => ⟨r.dt, r.z, z0, f.t2, f.rh2, f.pres, f.u2, rain, r.slope, tz1, tz2, f.lwin, f.n⟩) swRes
  let v := vapourFluxes c r.dt ts fl.le
  let me := meltEnergy swRes fl
  let melt := me * r.dt / (1000 * c.latHeatMelting)
  let (g, lwcOut) ← g.removeMeltWeq fuel c (melt - v.sublimation - v.deposition)
  let (g, q) ← percolation g (melt + v.condensation + rain / 1000.0 + lwcOut)
  let (g, refr) ← refreezing c g
  let g ← solveHeatEquation fuel c g r.dt
  let g ← densification c g r.slope r.dt
  let surfMB := snowfall * (rho / c.waterDensity) - melt + v.sublimation + v.deposition + v.evaporation
  let intMB := refr - subMelt
  let mb := surfMB + intMB
  if (r.fullField || r.wrf) && decide ((r.maxLayers : Int) < g.getNumberLayers) then .error .value
  else
    return (⟨g, ts, albedoSnow, s.mbCum + mb⟩,
      { rain := rain, snowfall := snowfall, densityFreshSnow := rho, swnet := swRes, albedo := alpha, z0 := z0,
        fluxes := fl, ts := ts, sublimation := v.sublimation, deposition := v.deposition,
        evaporation := v.evaporation, condensation := v.condensation, meltEnergy := me, melt := melt,
        lwcFromLayers := lwcOut, q := q, refreeze := refr, subsurfaceMelt := subMelt,
        surfMB := surfMB, intMB := intMB, mb := mb })

/-- The standalone time loop, cosipy/cpkernel/cosipy_core.py:229-456: final state and the outputs in order. -/
def run (sv : Solvers α) (fuel : Nat) (c : Consts α) (r : RunCfg α) :
    SimState α → List (Forcing α) → M (SimState α × List (StepOut α))
  | s, [] => .ok (s, [])
  | s, f :: fs => do
    let (s', o) ← step sv fuel c r s f
    let (s'', os) ← run sv fuel c r s' fs
    return (s'', o :: os)

/-- Start state of a run for a given column, cosipy/cpkernel/cosipy_core.py:213-220. -/
def initState (c : Consts α) (wrf : Bool) (g : Grid α) : SimState α :=
  { grid := g, surfaceTemperature := 270.0,
    albedoSnow := if wrf then c.albedoFirn else c.albedoFreshSnow, mbCum := 0 }

end
end Cosipy
