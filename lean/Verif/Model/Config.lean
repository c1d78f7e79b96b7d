import Verif.Model.IO

/-!
# Configuration files

Model of cosipy/config.py:152-270 (`TomlLoader`, `Config`, `SlurmConfig`) and cosipy/constants.py:11-46. Reading and
parsing the .toml text is not modelled: a file is the dictionary `tomllib.load` returns. The command line
(config.py:17-149) is modelled in CommandLine.lean.
-/

set_option autoImplicit false

namespace Cosipy

/-- A value of a configuration key. Simplification: floating point numbers are decimals `m · 10^e` (no nan, inf); lists
are lists of strings; dates and nested tables below the second level do not occur. `none` is Python's `None`, which the
program itself introduces (config.py:218). -/
inductive CfgVal
  | none
  | bool (b : Bool)
  | int (i : Int)
  | float (m e : Int)
  | str (s : String)
  | list (l : List String)
  deriving DecidableEq, BEq

/-- `if value:` (as in cosipy/config.py:200-219) -/
def CfgVal.truthy : CfgVal → Bool
  | .none => false
  | .bool b => b
  | .int i => i != 0
  | .float m _ => m != 0
  | .str s => s != ""
  | .list l => l != []

/-- `value == 0`; in Python also `False == 0` and `0.0 == 0` (as in cosipy/config.py:216-217). -/
def CfgVal.eqZero : CfgVal → Bool
  | .bool b => !b
  | .int i => i == 0
  | .float m _ => m == 0
  | _ => false

/-- A Python dictionary with string keys, in insertion order (the result of `tomllib.load`,
cosipy/config.py:156-168). -/
abbrev Dict (β : Type) := List (String × β)

/-- `d[k]`, KeyError (as in cosipy/config.py:171-186). -/
def Dict.get {β : Type} (d : Dict β) (k : String) : M β :=
  match List.lookup k d with
  | some v => .ok v
  | .none => .error .key

/-- `d[k] = v`: replaces the value in place or appends (as in cosipy/config.py:200-219). -/
def Dict.set {β : Type} : Dict β → String → β → Dict β
  | [], k, v => [(k, v)]
  | (k', v') :: d, k, v => if k' = k then (k', v) :: d else (k', v') :: Dict.set d k v

/-- A top-level entry: `[TABLE]` or a bare `key = value` (cosipy/config.py:156-168). -/
inductive TopVal
  | table (t : Dict CfgVal)
  | scalar (v : CfgVal)
  deriving DecidableEq

/-- What `tomllib.load` returns, config.py:156-168. -/
abbrev Toml := Dict TopVal

/-- `config_table[name]` used as a table; a scalar cannot be indexed by a string (TypeError) (as in
cosipy/config.py:200-219). -/
def Toml.table (c : Toml) (name : String) : M (Dict CfgVal) := do
  match ← Dict.get c name with
  | .table t => return t
  | .scalar _ => .error .type

/-- `config_table[name][key]` (as in cosipy/config.py:200-219). -/
def Toml.item (c : Toml) (name key : String) : M CfgVal := do
  let t ← c.table name
  t.get key

/-- `config_table[name][key] = v` (as in cosipy/config.py:210-218). -/
def Toml.setItem (c : Toml) (name key : String) (v : CfgVal) : M Toml := do
  let t ← c.table name
  return Dict.set c name (.table (t.set key v))

/-- `TomlLoader.set_config_values`, config.py:170-179: class attributes are overwritten in the order of the file; a
top-level scalar has no `.items()` (AttributeError). -/
def setConfigValues (cls : Store CfgVal) (c : Toml) : M (Store CfgVal) :=
  c.foldlM (fun cls entry =>
    match entry.2 with
    | .table t => .ok (t.foldl (fun cls kv => cls.set kv.1 kv.2) cls)
    | .scalar _ => .error .attribute) cls

/-- The names of the dimensions for WRF input, config.py:210-212. -/
def correctWrf (c : Toml) (wrf : CfgVal) : M Toml :=
  if wrf.truthy then do
    let c ← c.setItem "DIMENSIONS" "northing" (.str "south_north")
    c.setItem "DIMENSIONS" "easting" (.str "west_east")
  else .ok c

/-- Full fields for the coupled mode, config.py:213-214. -/
def correctCoupled (c : Toml) (coupled : CfgVal) : M Toml :=
  if coupled.truthy then c.setItem "FULL_FIELDS" "full_field" (.bool true) else .ok c

/-- Number of workers, config.py:216-217. -/
def correctWorkers (c : Toml) (workers : CfgVal) : M Toml :=
  if workers.eqZero then c.setItem "PARALLELIZATION" "workers" .none else .ok c

/-- `Config.set_correct_config`, config.py:199-219. -/
def configCorrect (c : Toml) : M Toml := do
  let wrf ← c.item "DIMENSIONS" "WRF"
  let c ← correctWrf c wrf
  let coupled ← c.item "DIMENSIONS" "WRF_X_CSPY"
  let c ← correctCoupled c coupled
  let workers ← c.item "PARALLELIZATION" "workers"
  correctWorkers c workers

/-- `Config.load`, config.py:193-197. -/
def configLoad (cls : Store CfgVal) (c : Toml) : M (Store CfgVal) := do
  let c ← configCorrect c
  setConfigValues cls c

/-- `Constants.set_correct_config`, constants.py:28-46; `coupled` is the attribute `Config.WRF_X_CSPY`. -/
def constantsCorrect (coupled : CfgVal) (c : Toml) : M Toml := do
  if coupled.truthy then do
    let c ← c.setItem "PARAMETERIZATIONS" "albedo_method" (.str "Oerlemans98")
    c.setItem "PARAMETERIZATIONS" "stability_correction" (.str "MO")
  else .ok c

/-- `Constants.load`, constants.py:22-26, with the attributes of the loaded `Config`. -/
def constantsLoad (cfg cls : Store CfgVal) (c : Toml) : M (Store CfgVal) := do
  let coupled ← cfg.get "WRF_X_CSPY"
  let c ← constantsCorrect coupled c
  setConfigValues cls c

/-- `SlurmConfig.set_correct_config`, config.py:253-270. Simplification: only integer amounts are multiplied; any other
type is answered by TypeError here (Python would also format floats and repeat strings). -/
def slurmCorrect (c : Toml) : M Toml := do
  let mpp ← c.item "OVERRIDES" "memory_per_process"
  if mpp.truthy then do
    let cores ← c.item "MEMORY" "cores"
    match mpp, cores with
    | .int m, .int n => c.setItem "MEMORY" "memory" (.str (toString (m * n) ++ "GB"))
    | _, _ => .error .type
  else .ok c

/-- The tables and keys of the shipped config.toml:4-63 (values as shipped). -/
def shippedConfig : Toml :=
  [("SIMULATION_PERIOD", .table [("time_start", .str "2009-01-01T06:00"), ("time_end", .str "2009-01-10T00:00")]),
   ("FILENAMES", .table [("data_path", .str "./data/"), ("input_netcdf", .str "Zhadang/Zhadang_ERA5_2009.nc"),
     ("output_prefix", .str "Zhadang_ERA5")]),
   ("RESTART", .table [("restart", .bool false)]),
   ("STAKE_DATA", .table [("stake_evaluation", .bool false),
     ("stakes_loc_file", .str "./data/input/HEF/loc_stakes.csv"),
     ("stakes_data_file", .str "./data/input/HEF/data_stakes_hef.csv"), ("eval_method", .str "rmse"),
     ("obs_type", .str "snowheight")]),
   ("DIMENSIONS", .table [("WRF", .bool false), ("WRF_X_CSPY", .bool false), ("northing", .str "lat"),
     ("easting", .str "lon")]),
   ("COMPRESSION", .table [("compression_level", .int 2)]),
   ("PARALLELIZATION", .table [("slurm_use", .bool false), ("workers", .int 0), ("local_port", .int 8786)]),
   ("FULL_FIELDS", .table [("full_field", .bool false)]),
   ("FORCINGS", .table [("force_use_TP", .bool false), ("force_use_N", .bool false)]),
   ("SUBSET", .table [("tile", .bool false), ("xstart", .int 20), ("xend", .int 40), ("ystart", .int 20),
     ("yend", .int 40)]),
   ("OUTPUT_VARIABLES", .table [
     ("output_atm", .str "T2,RH2,U2,RAIN,SNOWFALL,RRR,PRES,N,G,LWin,LWout,H,LE,B,QRR,Z0,ALBEDO,TS"),
     ("output_internal", .str ("ME,MB,surfMB,intMB,EVAPORATION,SUBLIMATION,CONDENSATION,DEPOSITION,surfM,subM,Q," ++
       "REFREEZE,SNOWHEIGHT,TOTALHEIGHT,LAYERS")),
     ("output_full", .str "HEIGHT,RHO,T,LWC,CC,POROSITY,LW,ICE_FRACTION,IRREDUCIBLE_WATER,REFREEZE")])]

/-- Tables and keys of the shipped constants.toml:1-94. Only the methods' values are given; numbers are abbreviated to 0
because no definition looks at them. -/
def shippedConstants : Toml :=
  let nums (ks : List String) : List (String × CfgVal) := ks.map fun k => (k, .int 0)
  [("GENERAL", .table (nums ["dt", "max_layers", "z"])),
   ("PARAMETERIZATIONS", .table [("stability_correction", .str "Ri"), ("albedo_method", .str "Oerlemans98"),
     ("densification_method", .str "Boone"), ("penetrating_method", .str "Bintanja95"),
     ("roughness_method", .str "Moelg12"), ("saturation_water_vapour_method", .str "Sonntag90"),
     ("thermal_conductivity_method", .str "bulk"), ("sfc_temperature_method", .str "Secant")]),
   ("INITIAL_CONDITIONS", .table (nums ["initial_snowheight_constant", "initial_snow_layer_heights",
     "initial_glacier_height", "initial_glacier_layer_heights", "initial_top_density_snowpack",
     "initial_bottom_density_snowpack", "temperature_bottom", "const_init_temp", "zlt1", "zlt2"])),
   ("PRECIPITATION", .table (nums ["center_snow_transfer_function", "spread_snow_transfer_function", "mult_factor_RRR",
     "minimum_snow_layer_height", "minimum_snowfall"])),
   ("REMESHING", .table (("remesh_method", .str "log_profile") :: nums ["first_layer_height", "layer_stretching",
     "merge_max", "density_threshold_merging", "temperature_threshold_merging"])),
   ("CONSTANTS", .table (nums ["constant_density", "albedo_fresh_snow", "albedo_firn", "albedo_ice",
     "albedo_mod_snow_aging", "albedo_mod_snow_depth", "t_star_wet", "t_star_dry", "t_star_K", "t_star_cutoff",
     "roughness_fresh_snow", "roughness_ice", "roughness_firn", "aging_factor_roughness", "snow_ice_threshold",
     "lat_heat_melting", "lat_heat_vaporize", "lat_heat_sublimation", "spec_heat_air", "spec_heat_ice",
     "spec_heat_water", "k_i", "k_w", "k_a", "water_density", "ice_density", "air_density", "sigma",
     "zero_temperature", "surface_emission_coeff"]))]

end Cosipy
