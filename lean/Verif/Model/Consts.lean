import Verif.Model.Num

/-!
# Constants

`constants.toml` / `cosipy/constants.py`. The constants are class attributes of `Constants`
copied into module globals at import; the model passes them as one record.
-/

set_option autoImplicit false

namespace Cosipy

/-- `remesh_method` (constants.toml REMESHING; used in cosipy/cpkernel/grid.py:583-586). Any other
string selects no remeshing at all, without an error. -/
inductive RemeshMethod where
  | logProfile | adaptiveProfile | other
  deriving DecidableEq, Repr

/-- `thermal_conductivity_method` (cosipy/cpkernel/node.py:184-194). -/
inductive ConductivityMethod where
  | bulk | empirical | other
  deriving DecidableEq, Repr

/-- `albedo_method` (cosipy/modules/albedo.py:44-55). -/
inductive AlbedoMethod where
  | oerlemans98 | bougamont05 | other
  deriving DecidableEq, Repr

/-- `densification_method` (cosipy/modules/densification.py:33-48). -/
inductive DensificationMethod where
  | boone | vionnet | empirical | constant | other
  deriving DecidableEq, Repr

/-- `penetrating_method` (cosipy/modules/penetratingRadiation.py:31-36): Bintanja95 or unknown. -/
inductive PenetratingMethod where
  | bintanja95 | other
  deriving DecidableEq, Repr

/-- `roughness_method` (cosipy/modules/roughness.py:19-27): Moelg12 or unknown. -/
inductive RoughnessMethod where
  | moelg12 | other
  deriving DecidableEq, Repr

/-- `stability_correction` (cosipy/modules/surfaceTemperature.py:318,352,379). -/
inductive StabilityMethod where
  | mo | ri | other
  deriving DecidableEq, Repr

/-- `sfc_temperature_method` (cosipy/modules/surfaceTemperature.py:78-110). -/
inductive SfcMethod where
  | lbfgsb | slsqp | newton | secant | other
  deriving DecidableEq, Repr

/-- All constants of `constants.toml` that the modelled code reads
(cosipy/constants.py:1-46, constants.toml). -/
structure Consts (α : Type) where
  dt : α
  maxLayers : Nat
  z : α
  stabilityCorrection : StabilityMethod
  albedoMethod : AlbedoMethod
  densificationMethod : DensificationMethod
  penetratingMethod : PenetratingMethod
  roughnessMethod : RoughnessMethod
  thermalConductivityMethod : ConductivityMethod
  sfcTemperatureMethod : SfcMethod
  initialSnowheightConstant : α
  initialGlacierHeight : α
  initialGlacierLayerHeights : α
  initialTopDensitySnowpack : α
  initialBottomDensitySnowpack : α
  temperatureBottom : α
  zlt1 : α
  zlt2 : α
  centerSnowTransferFunction : α
  spreadSnowTransferFunction : α
  multFactorRRR : α
  minimumSnowLayerHeight : α
  minimumSnowfall : α
  remeshMethod : RemeshMethod
  firstLayerHeight : α
  layerStretching : α
  mergeMax : Int
  densityThresholdMerging : α
  temperatureThresholdMerging : α
  constantDensity : α
  albedoFreshSnow : α
  albedoFirn : α
  albedoIce : α
  albedoModSnowAging : α
  albedoModSnowDepth : α
  tStarWet : α
  tStarDry : α
  tStarK : α
  tStarCutoff : α
  roughnessFreshSnow : α
  roughnessIce : α
  roughnessFirn : α
  agingFactorRoughness : α
  snowIceThreshold : α
  latHeatMelting : α
  latHeatVaporize : α
  latHeatSublimation : α
  specHeatAir : α
  specHeatIce : α
  specHeatWater : α
  kI : α
  kW : α
  kA : α
  waterDensity : α
  iceDensity : α
  airDensity : α
  sigma : α
  zeroTemperature : α
  surfaceEmissionCoeff : α

section
variable (α : Type) [Zero α] [One α] [NatCast α] [OfScientific α]

/-- The values shipped in constants.toml (constants.toml:1-96). -/
def Consts.default : Consts α where
  dt := 3600
  maxLayers := 200
  z := 2.0
  stabilityCorrection := .ri
  albedoMethod := .oerlemans98
  densificationMethod := .boone
  penetratingMethod := .bintanja95
  roughnessMethod := .moelg12
  thermalConductivityMethod := .bulk
  sfcTemperatureMethod := .secant
  initialSnowheightConstant := 0.2
  initialGlacierHeight := 40.0
  initialGlacierLayerHeights := 0.5
  initialTopDensitySnowpack := 300.0
  initialBottomDensitySnowpack := 600.0
  temperatureBottom := 270.16
  zlt1 := 0.06
  zlt2 := 0.1
  centerSnowTransferFunction := 1.0
  spreadSnowTransferFunction := 1
  multFactorRRR := 1.0
  minimumSnowLayerHeight := 0.001
  minimumSnowfall := 0.001
  remeshMethod := .logProfile
  firstLayerHeight := 0.01
  layerStretching := 1.20
  mergeMax := 1
  densityThresholdMerging := 5
  temperatureThresholdMerging := 0.01
  constantDensity := 300
  albedoFreshSnow := 0.85
  albedoFirn := 0.55
  albedoIce := 0.3
  albedoModSnowAging := 22
  albedoModSnowDepth := 3
  tStarWet := 10
  tStarDry := 30
  tStarK := 14
  tStarCutoff := 263.17
  roughnessFreshSnow := 0.24
  roughnessIce := 1.7
  roughnessFirn := 4.0
  agingFactorRoughness := 0.0026
  snowIceThreshold := 900.0
  latHeatMelting := 334000
  latHeatVaporize := 2500000
  latHeatSublimation := 2834000
  specHeatAir := 1004.67
  specHeatIce := 2050.00
  specHeatWater := 4217
  kI := 2.22
  kW := 0.55
  kA := 0.024
  waterDensity := 1000.0
  iceDensity := 917.0
  airDensity := 1.1
  sigma := 0.0000000567
  zeroTemperature := 273.16
  surfaceEmissionCoeff := 0.99
end

end Cosipy
