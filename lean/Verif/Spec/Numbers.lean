import Verif.Model.Nan
import Verif.Model.Core
import Verif.Spec.Phys

/-!
# Numbers as values of the arithmetic with NaN
`x.toNan` is the same object with every number `a` written as `.num a`: none of its numbers is NaN.
-/

set_option autoImplicit false

namespace Cosipy
section
variable {K : Type}

/-- A layer without NaN. -/
def Node.toNan (n : Node K) : Node (Nan K) :=
  ⟨.num n.height, .num n.temperature, .num n.lwc, .num n.iceFraction, .num n.refreeze⟩

/-- A column without NaN. -/
def Grid.toNan (g : Grid K) : Grid (Nan K) :=
  ⟨g.nodes.map Node.toNan, g.numberNodes, .num g.newSnowHeight, .num g.newSnowTimestamp, .num g.oldSnowTimestamp⟩

/-- Constants without NaN. -/
def Consts.toNan (c : Consts K) : Consts (Nan K) where
  dt := .num c.dt
  maxLayers := c.maxLayers
  z := .num c.z
  stabilityCorrection := c.stabilityCorrection
  albedoMethod := c.albedoMethod
  densificationMethod := c.densificationMethod
  penetratingMethod := c.penetratingMethod
  roughnessMethod := c.roughnessMethod
  thermalConductivityMethod := c.thermalConductivityMethod
  sfcTemperatureMethod := c.sfcTemperatureMethod
  initialSnowheightConstant := .num c.initialSnowheightConstant
  initialGlacierHeight := .num c.initialGlacierHeight
  initialGlacierLayerHeights := .num c.initialGlacierLayerHeights
  initialTopDensitySnowpack := .num c.initialTopDensitySnowpack
  initialBottomDensitySnowpack := .num c.initialBottomDensitySnowpack
  temperatureBottom := .num c.temperatureBottom
  zlt1 := .num c.zlt1
  zlt2 := .num c.zlt2
  centerSnowTransferFunction := .num c.centerSnowTransferFunction
  spreadSnowTransferFunction := .num c.spreadSnowTransferFunction
  multFactorRRR := .num c.multFactorRRR
  minimumSnowLayerHeight := .num c.minimumSnowLayerHeight
  minimumSnowfall := .num c.minimumSnowfall
  remeshMethod := c.remeshMethod
  firstLayerHeight := .num c.firstLayerHeight
  layerStretching := .num c.layerStretching
  mergeMax := c.mergeMax
  densityThresholdMerging := .num c.densityThresholdMerging
  temperatureThresholdMerging := .num c.temperatureThresholdMerging
  constantDensity := .num c.constantDensity
  albedoFreshSnow := .num c.albedoFreshSnow
  albedoFirn := .num c.albedoFirn
  albedoIce := .num c.albedoIce
  albedoModSnowAging := .num c.albedoModSnowAging
  albedoModSnowDepth := .num c.albedoModSnowDepth
  tStarWet := .num c.tStarWet
  tStarDry := .num c.tStarDry
  tStarK := .num c.tStarK
  tStarCutoff := .num c.tStarCutoff
  roughnessFreshSnow := .num c.roughnessFreshSnow
  roughnessIce := .num c.roughnessIce
  roughnessFirn := .num c.roughnessFirn
  agingFactorRoughness := .num c.agingFactorRoughness
  snowIceThreshold := .num c.snowIceThreshold
  latHeatMelting := .num c.latHeatMelting
  latHeatVaporize := .num c.latHeatVaporize
  latHeatSublimation := .num c.latHeatSublimation
  specHeatAir := .num c.specHeatAir
  specHeatIce := .num c.specHeatIce
  specHeatWater := .num c.specHeatWater
  kI := .num c.kI
  kW := .num c.kW
  kA := .num c.kA
  waterDensity := .num c.waterDensity
  iceDensity := .num c.iceDensity
  airDensity := .num c.airDensity
  sigma := .num c.sigma
  zeroTemperature := .num c.zeroTemperature
  surfaceEmissionCoeff := .num c.surfaceEmissionCoeff

/-- Settings without NaN. -/
def RunCfg.toNan (r : RunCfg K) : RunCfg (Nan K) :=
  ⟨.num r.dt, .num r.z, .num r.slope, r.maxLayers, r.fullField, r.wrf⟩

/-- Forcing without NaN. -/
def Forcing.toNan (f : Forcing K) : Forcing (Nan K) :=
  ⟨.num f.t2, .num f.rh2, .num f.pres, .num f.g, .num f.u2, f.snowf.map .num, f.rrr.map .num, f.lwin.map .num, f.n.map .num⟩

/-- A state without NaN. -/
def SimState.toNan (s : SimState K) : SimState (Nan K) :=
  ⟨s.grid.toNan, .num s.surfaceTemperature, .num s.albedoSnow, .num s.mbCum⟩

/-- Fluxes without NaN. -/
def Fluxes.toNan (f : Fluxes K) : Fluxes (Nan K) :=
  ⟨.num f.li, .num f.lo, .num f.h, .num f.le, .num f.b, .num f.qrr, .num f.rho, .num f.lv, f.mol.map .num, .num f.csT,
    .num f.csQ, .num f.q0, .num f.q2⟩

/-- Results of a step without NaN. -/
def StepOut.toNan (o : StepOut K) : StepOut (Nan K) where
  rain := .num o.rain
  snowfall := .num o.snowfall
  densityFreshSnow := .num o.densityFreshSnow
  swnet := .num o.swnet
  albedo := .num o.albedo
  z0 := .num o.z0
  fluxes := o.fluxes.toNan
  ts := .num o.ts
  sublimation := .num o.sublimation
  deposition := .num o.deposition
  evaporation := .num o.evaporation
  condensation := .num o.condensation
  meltEnergy := .num o.meltEnergy
  melt := .num o.melt
  lwcFromLayers := .num o.lwcFromLayers
  q := .num o.q
  refreeze := .num o.refreeze
  subsurfaceMelt := .num o.subsurfaceMelt
  surfMB := .num o.surfMB
  intMB := .num o.intMB
  mb := .num o.mb

end

section
variable {K : Type} [Field K] [LinearOrder K]

/-- The bounded minimiser does not return a number below the lower bound it was given (it may return NaN). -/
def Solvers.NotBelow (sv : Solvers (Nan K)) : Prop :=
  ∀ m f x lo hi r, sv.minimize m f x lo hi = .ok r → ¬ r < lo

/-- What is needed of the elementary functions: `exp` is positive and not too large below 3, the logarithm vanishes at 1 only, the
square of the wind speed at 0 only. -/
structure TranscLaws (K : Type) [Field K] [LinearOrder K] [Transc K] : Prop where
  exp_pos : ∀ x : K, 0 < Transc.exp x
  exp_lt : ∀ x : K, x ≤ 3 → Transc.exp x < 32
  log : ∀ x : K, 1 < x → Transc.log x ≠ 0
  square : ∀ x : K, x ≠ 0 → Transc.pow x 2 ≠ 0

/-- Constants and settings for which nothing is divided by zero in the albedo and in the surface fluxes (the shipped ones satisfy it):
decay times positive, roughness lengths positive and below the measurement height `r.z`. -/
structure DefinedConsts (c : Consts K) (r : RunCfg K) : Prop where
  scheme : c.stabilityCorrection = .ri
  aging : c.albedoModSnowAging ≠ 0
  depth : c.albedoModSnowDepth ≠ 0
  wet : 0 < c.tStarWet
  dry : 0 < c.tStarDry
  slopeT : 0 ≤ c.tStarK
  cutoff : c.tStarCutoff ≤ c.zeroTemperature
  step : 0 < c.dt
  rough : c.RoughnessOrder
  fresh : 0 < c.roughnessFreshSnow
  ice : 0 < c.roughnessIce
  firnZ : c.roughnessFirn / 1000 < r.z
  iceZ : c.roughnessIce / 1000 < r.z
  zero : c.zeroTemperature ≤ 313.65
  zlt1 : 0 < c.zlt1
  zlt2 : c.zlt1 < c.zlt2

/-- Forcing in the range the code accepts (pressure at least 200 hPa, air temperature at most 313.65 K, no negative humidity or
wind). -/
structure DefinedForcing (f : Forcing K) : Prop where
  cold : 1 ≤ f.t2
  warm : f.t2 ≤ 313.65
  humid : 0 ≤ f.rh2
  wind : 0 ≤ f.u2
  pressure : 200 ≤ f.pres

end
end Cosipy
