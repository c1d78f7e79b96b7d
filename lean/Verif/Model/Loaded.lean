import Verif.Model.Config
import Verif.Model.Kernel

/-!
# From the configuration files to the simulation

The class attributes loaded by Config.lean are read by the modules when they are imported and by `cosipy_core`. Here they become the records
`Consts`, `RunCfg`, `SelectCfg` and `StakeCfg` the other parts of the model work with, and the arguments of the cluster
a run on Slurm asks for.
-/

set_option autoImplicit false

namespace Cosipy

/-- The method a setting selects, cosipy/modules/surfaceTemperature.py:325, 364: compared with the names in the code, anything else is another method. -/
def stabilityOf : CfgVal → StabilityMethod
  | .str s =>
    if s = "MO" then .mo else if s = "Ri" then .ri else .other
  | _ => .other

/-- The method a setting selects, cosipy/modules/albedo.py:44-55: compared with the names in the code, anything else is another method. -/
def albedoOf : CfgVal → AlbedoMethod
  | .str s =>
    if s = "Oerlemans98" then .oerlemans98 else if s = "Bougamont05" then .bougamont05 else .other
  | _ => .other

/-- The method a setting selects, cosipy/modules/densification.py:33-48: compared with the names in the code, anything else is another method. -/
def densificationOf : CfgVal → DensificationMethod
  | .str s =>
    if s = "Boone" then .boone else if s = "Vionnet" then .vionnet else if s = "empirical" then .empirical else if s = "constant" then .constant else .other
  | _ => .other

/-- The method a setting selects, cosipy/modules/penetratingRadiation.py:31-36: compared with the names in the code, anything else is another method. -/
def penetratingOf : CfgVal → PenetratingMethod
  | .str s =>
    if s = "Bintanja95" then .bintanja95 else .other
  | _ => .other

/-- The method a setting selects, cosipy/modules/roughness.py:19-27: compared with the names in the code, anything else is another method. -/
def roughnessOf : CfgVal → RoughnessMethod
  | .str s =>
    if s = "Moelg12" then .moelg12 else .other
  | _ => .other

/-- The method a setting selects, cosipy/cpkernel/node.py:184-194: compared with the names in the code, anything else is another method. -/
def conductivityOf : CfgVal → ConductivityMethod
  | .str s =>
    if s = "bulk" then .bulk else if s = "empirical" then .empirical else .other
  | _ => .other

/-- The method a setting selects, cosipy/modules/surfaceTemperature.py:81-110: compared with the names in the code, anything else is another method. -/
def sfcOf : CfgVal → SfcMethod
  | .str s =>
    if s = "L-BFGS-B" then .lbfgsb else if s = "SLSQP" then .slsqp else if s = "Newton" then .newton else if s = "Secant" then .secant else .other
  | _ => .other

/-- The method a setting selects, cosipy/cpkernel/grid.py:583-586: compared with the names in the code, anything else is another method. -/
def remeshOf : CfgVal → RemeshMethod
  | .str s =>
    if s = "log_profile" then .logProfile else if s = "adaptive_profile" then .adaptiveProfile else .other
  | _ => .other

section
variable {α : Type}

/-- A number among the attributes, as in cosipy/cpkernel/init.py:19-25: AttributeError if it was not loaded. `num` is the number a
value stands for. Simplification: a value that is no number is refused here, Python refuses it where it is first computed
with. -/
def numOf (num : CfgVal → M α) (s : Store CfgVal) (k : String) : M α := do
  let v ← s.get k
  num v

/-- `max_layers` (cosipy/cpkernel/cosipy_core.py:74, 139-147: the length of arrays). Simplification: as for `numOf`. -/
def natOf (s : Store CfgVal) (k : String) : M Nat := do
  match ← s.get k with
  | .int i => if 0 ≤ i then .ok i.toNat else .error .value
  | _ => .error .type

/-- `merge_max` (cosipy/cpkernel/grid.py:31, 461). Simplification: as for `numOf`. -/
def intOf (s : Store CfgVal) (k : String) : M Int := do
  match ← s.get k with
  | .int i => .ok i
  | _ => .error .type

/-- A setting that names a method (cosipy/cpkernel/grid.py:583-586 and the places named above). -/
def methodOf {μ : Type} (f : CfgVal → μ) (s : Store CfgVal) (k : String) : M μ := do
  let v ← s.get k
  return f v

/-- The constants the modules read from the class `Constants`: cosipy/cpkernel/cosipy_core.py:72-89,
cosipy/cpkernel/init.py:19-25, cosipy/cpkernel/grid.py:26-37, cosipy/cpkernel/node.py:10-20, cosipy/modules/albedo.py:6-18,
cosipy/modules/surfaceTemperature.py:9-21 and the heads of the other modules. Simplification: all are read at once; Python reads
those of a module when the module is imported. `saturation_water_vapour_method` is read, but every value selects the same formula
(cosipy/modules/surfaceTemperature.py:230-240). -/
def readConsts (num : CfgVal → M α) (s : Store CfgVal) : M (Consts α) := do
  let dt ← numOf num s "dt"
  let maxLayers ← natOf s "max_layers"
  let z ← numOf num s "z"
  let stabilityCorrection ← methodOf stabilityOf s "stability_correction"
  let albedoMethod ← methodOf albedoOf s "albedo_method"
  let densificationMethod ← methodOf densificationOf s "densification_method"
  let penetratingMethod ← methodOf penetratingOf s "penetrating_method"
  let roughnessMethod ← methodOf roughnessOf s "roughness_method"
  let thermalConductivityMethod ← methodOf conductivityOf s "thermal_conductivity_method"
  let sfcTemperatureMethod ← methodOf sfcOf s "sfc_temperature_method"
  let initialSnowheightConstant ← numOf num s "initial_snowheight_constant"
  let initialGlacierHeight ← numOf num s "initial_glacier_height"
  let initialGlacierLayerHeights ← numOf num s "initial_glacier_layer_heights"
  let initialTopDensitySnowpack ← numOf num s "initial_top_density_snowpack"
  let initialBottomDensitySnowpack ← numOf num s "initial_bottom_density_snowpack"
  let temperatureBottom ← numOf num s "temperature_bottom"
  let zlt1 ← numOf num s "zlt1"
  let zlt2 ← numOf num s "zlt2"
  let centerSnowTransferFunction ← numOf num s "center_snow_transfer_function"
  let spreadSnowTransferFunction ← numOf num s "spread_snow_transfer_function"
  let multFactorRRR ← numOf num s "mult_factor_RRR"
  let minimumSnowLayerHeight ← numOf num s "minimum_snow_layer_height"
  let minimumSnowfall ← numOf num s "minimum_snowfall"
  let remeshMethod ← methodOf remeshOf s "remesh_method"
  let firstLayerHeight ← numOf num s "first_layer_height"
  let layerStretching ← numOf num s "layer_stretching"
  let mergeMax ← intOf s "merge_max"
  let densityThresholdMerging ← numOf num s "density_threshold_merging"
  let temperatureThresholdMerging ← numOf num s "temperature_threshold_merging"
  let constantDensity ← numOf num s "constant_density"
  let albedoFreshSnow ← numOf num s "albedo_fresh_snow"
  let albedoFirn ← numOf num s "albedo_firn"
  let albedoIce ← numOf num s "albedo_ice"
  let albedoModSnowAging ← numOf num s "albedo_mod_snow_aging"
  let albedoModSnowDepth ← numOf num s "albedo_mod_snow_depth"
  let tStarWet ← numOf num s "t_star_wet"
  let tStarDry ← numOf num s "t_star_dry"
  let tStarK ← numOf num s "t_star_K"
  let tStarCutoff ← numOf num s "t_star_cutoff"
  let roughnessFreshSnow ← numOf num s "roughness_fresh_snow"
  let roughnessIce ← numOf num s "roughness_ice"
  let roughnessFirn ← numOf num s "roughness_firn"
  let agingFactorRoughness ← numOf num s "aging_factor_roughness"
  let snowIceThreshold ← numOf num s "snow_ice_threshold"
  let latHeatMelting ← numOf num s "lat_heat_melting"
  let latHeatVaporize ← numOf num s "lat_heat_vaporize"
  let latHeatSublimation ← numOf num s "lat_heat_sublimation"
  let specHeatAir ← numOf num s "spec_heat_air"
  let specHeatIce ← numOf num s "spec_heat_ice"
  let specHeatWater ← numOf num s "spec_heat_water"
  let kI ← numOf num s "k_i"
  let kW ← numOf num s "k_w"
  let kA ← numOf num s "k_a"
  let waterDensity ← numOf num s "water_density"
  let iceDensity ← numOf num s "ice_density"
  let airDensity ← numOf num s "air_density"
  let sigma ← numOf num s "sigma"
  let zeroTemperature ← numOf num s "zero_temperature"
  let surfaceEmissionCoeff ← numOf num s "surface_emission_coeff"
  return { dt, maxLayers, z, stabilityCorrection, albedoMethod, densificationMethod, penetratingMethod,
           roughnessMethod, thermalConductivityMethod, sfcTemperatureMethod, initialSnowheightConstant,
           initialGlacierHeight, initialGlacierLayerHeights, initialTopDensitySnowpack, initialBottomDensitySnowpack,
           temperatureBottom, zlt1, zlt2, centerSnowTransferFunction, spreadSnowTransferFunction, multFactorRRR,
           minimumSnowLayerHeight, minimumSnowfall, remeshMethod, firstLayerHeight, layerStretching, mergeMax,
           densityThresholdMerging, temperatureThresholdMerging, constantDensity, albedoFreshSnow, albedoFirn,
           albedoIce, albedoModSnowAging, albedoModSnowDepth, tStarWet, tStarDry, tStarK, tStarCutoff,
           roughnessFreshSnow, roughnessIce, roughnessFirn, agingFactorRoughness, snowIceThreshold, latHeatMelting,
           latHeatVaporize, latHeatSublimation, specHeatAir, specHeatIce, specHeatWater, kI, kW, kA, waterDensity,
           iceDensity, airDensity, sigma, zeroTemperature, surfaceEmissionCoeff }

/-- `if Config.key:` (as in cosipy/cpkernel/cosipy_core.py:191, 206, 222, 435). -/
def flagOf (s : Store CfgVal) (k : String) : M Bool := do
  let v ← s.get k
  return v.truthy

/-- What a simulation uses of the two files, with `slope` still to be taken from the cell. -/
structure Loaded (α : Type) where
  consts : Consts α
  run : RunCfg α
  select : SelectCfg α
  stakes : StakeCfg

/-- `Config()`, `Constants()` (COSIPY.py:50-51, cosipy/config.py:193-197, cosipy/constants.py:22-26) and the settings `cosipy_core` and
COSIPY.py read (cosipy/cpkernel/cosipy_core.py:72-90, 191, 206, 222, 435; COSIPY.py:311-321). Simplification: a file for the coupled mode is
refused; there the driver, not COSIPY.py, calls `cosipy_core`. -/
def loadFiles [Zero α] (num : CfgVal → M α) (cfgCls constCls : Store CfgVal) (config constants : Toml) : M (Loaded α) := do
  let cfg ← configLoad cfgCls config
  let s ← constantsLoad cfg constCls constants
  let coupled ← flagOf cfg "WRF_X_CSPY"
  if coupled then .error .value
  else do
    let c ← readConsts num s
    let full ← flagOf cfg "full_field"
    let tp ← flagOf cfg "force_use_TP"
    let n ← flagOf cfg "force_use_N"
    let eval ← flagOf cfg "stake_evaluation"
    let obs ← cfg.get "obs_type"
    return { consts := c
             run := { dt := c.dt, z := c.z, slope := 0, maxLayers := c.maxLayers, fullField := full, wrf := false }
             select := { multFactor := c.multFactorRRR, forceTP := tp, forceN := n }
             stakes := { evaluation := eval, obsMb := obs == .str "mb", obsSnow := obs == .str "snowheight" } }

section
variable [Add α] [Sub α] [Mul α] [Div α] [Neg α] [LT α] [LE α]
  [DecidableLT α] [DecidableLE α] [BEq α] [Zero α] [One α] [NatCast α] [OfScientific α] [Transc α] [HasTrunc α]
variable {τ : Type} [DecidableEq τ]

/-- COSIPY.py:49-321 with its two files: load them, then simulate the domain. -/
def simulateFiles (num : CfgVal → M α) (cfgCls constCls : Store CfgVal) (config constants : Toml) (sv : Solvers α) (fuel : Nat)
    (fill : α) (times : List τ) (io : IOState α) (g nan : Nat → Nat → Bool) (input : Nat → Nat → CellInput α τ)
    (order : List (Nat × Nat) → List (Nat × Nat)) : M (IOState α × StakeState α) := do
  let l ← loadFiles num cfgCls constCls config constants
  simulateDomain sv fuel l.consts l.run l.select fill times l.stakes io g nan input order
end

end

/-! ## The cluster -/

/-- `SlurmConfig.load`, cosipy/config.py:247-251. -/
def slurmLoad (cls : Store CfgVal) (c : Toml) : M (Store CfgVal) := do
  let c ← slurmCorrect c
  setConfigValues cls c

/-- The arguments of `SLURMCluster` and of `cluster.scale`, COSIPY.py:80-89. -/
structure JobRequest where
  jobName : CfgVal
  cores : CfgVal
  processes : CfgVal
  memory : CfgVal
  account : CfgVal
  directives : CfgVal
  localDirectory : CfgVal
  workers : Int
  deriving DecidableEq

/-- The cluster a run on Slurm asks for, COSIPY.py:80-89. Simplification: amounts that are not integers are a TypeError. -/
def jobRequest (s : Store CfgVal) : M JobRequest := do
  let name ← s.get "name"
  let cores ← s.get "cores"
  let processes ← s.get "cores"
  let memory ← s.get "memory"
  let account ← s.get "account"
  let extra ← s.get "slurm_parameters"
  let dir ← s.get "local_directory"
  let nodes ← intOf s "nodes"
  let n ← intOf s "cores"
  return { jobName := name, cores := cores, processes := processes, memory := memory, account := account,
           directives := extra, localDirectory := dir, workers := nodes * n }

/-- The request of a run with a Slurm file, COSIPY.py:79-89 after `SlurmConfig()`. -/
def slurmRequest (cls : Store CfgVal) (c : Toml) : M JobRequest := do
  let s ← slurmLoad cls c
  jobRequest s

/-- The shipped slurm_config.toml:4-23. -/
def shippedSlurm : Toml :=
  [("LABELS", .table [("account", .str ""), ("name", .str "test_cosipy_slurm"), ("queue", .str "work")]),
   ("PARAMETERS", .table [("slurm_parameters", .list ["--nodes=1", "--error=slurm.err", "--output=slurm.out",
       "--time=00:10:00", "--mem='4G'"]),
     ("shebang", .str "#!/bin/bash -l"), ("local_directory", .str "./logs/dask-worker-space")]),
   ("MEMORY", .table [("port", .int 8786), ("cores", .int 1), ("nodes", .int 1), ("processes", .int 20), ("memory", .str "4G")]),
   ("OVERRIDES", .table [("memory_per_process", .int 0)])]

/-- The shipped constants.toml:1-96 with its values. -/
def constantsFile : Toml :=
  [("GENERAL", .table [("dt", .int 3600), ("max_layers", .int 200), ("z", .float 2 0)]),
   ("PARAMETERIZATIONS", .table [("stability_correction", .str "Ri"), ("albedo_method", .str "Oerlemans98"), ("densification_method", .str "Boone"),
     ("penetrating_method", .str "Bintanja95"), ("roughness_method", .str "Moelg12"),
     ("saturation_water_vapour_method", .str "Sonntag90"), ("thermal_conductivity_method", .str "bulk"),
     ("sfc_temperature_method", .str "Secant")]),
   ("INITIAL_CONDITIONS", .table [("initial_snowheight_constant", .float 2 (-1)), ("initial_snow_layer_heights", .float 1 (-1)),
     ("initial_glacier_height", .float 40 0), ("initial_glacier_layer_heights", .float 5 (-1)),
     ("initial_top_density_snowpack", .float 300 0), ("initial_bottom_density_snowpack", .float 600 0),
     ("temperature_bottom", .float 27016 (-2)), ("const_init_temp", .float 1 (-1)), ("zlt1", .float 6 (-2)),
     ("zlt2", .float 1 (-1))]),
   ("PRECIPITATION", .table [("center_snow_transfer_function", .float 1 0), ("spread_snow_transfer_function", .int 1), ("mult_factor_RRR", .float 1 0),
     ("minimum_snow_layer_height", .float 1 (-3)), ("minimum_snowfall", .float 1 (-3))]),
   ("REMESHING", .table [("remesh_method", .str "log_profile"), ("first_layer_height", .float 1 (-2)), ("layer_stretching", .float 12 (-1)),
     ("merge_max", .int 1), ("density_threshold_merging", .int 5), ("temperature_threshold_merging", .float 1 (-2))]),
   ("CONSTANTS", .table [("constant_density", .float 300 0), ("albedo_fresh_snow", .float 85 (-2)), ("albedo_firn", .float 55 (-2)),
     ("albedo_ice", .float 3 (-1)), ("albedo_mod_snow_aging", .int 22), ("albedo_mod_snow_depth", .int 3),
     ("t_star_wet", .int 10), ("t_star_dry", .int 30), ("t_star_K", .int 14), ("t_star_cutoff", .float 26317 (-2)),
     ("roughness_fresh_snow", .float 24 (-2)), ("roughness_ice", .float 17 (-1)), ("roughness_firn", .float 4 0),
     ("aging_factor_roughness", .float 26 (-4)), ("snow_ice_threshold", .float 900 0), ("lat_heat_melting", .float 334 3),
     ("lat_heat_vaporize", .float 25 5), ("lat_heat_sublimation", .float 2834 3), ("spec_heat_air", .float 100467 (-2)),
     ("spec_heat_ice", .float 2050 0), ("spec_heat_water", .float 4217 0), ("k_i", .float 222 (-2)), ("k_w", .float 55 (-2)),
     ("k_a", .float 24 (-3)), ("water_density", .float 1000 0), ("ice_density", .float 917 0), ("air_density", .float 11 (-1)),
     ("sigma", .float 567 (-10)), ("zero_temperature", .float 27316 (-2)), ("surface_emission_coeff", .float 99 (-2))])]

end Cosipy
