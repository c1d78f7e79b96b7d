import Verif.Model.Config

/-!
# Configuration of the utilities

Model of cosipy/utilities/config_utils.py:34-76 (`UtilitiesConfig`), of the order in which the utilities read their
settings (cosipy/utilities/aws2cosipy/aws2cosipy.py, createStatic/create_static_file.py:93-113,
wrf2cosipy/wrf2cosipy.py:82-91) and of the converter for old configuration files (convert_config.py). Only the accesses
to the settings are modelled here; what the utilities compute from the data is in Model/Preprocess.lean and
Model/RadCor.lean.
-/

set_option autoImplicit false

namespace Cosipy.Util
open Cosipy

/-- The parsed utilities_config.toml: `[tool.section]` tables. Simplification: no settings above the third level
(cosipy/utilities/config_utils.py:20-68). -/
abbrev UtilToml := Dict (Dict (Dict CfgVal))

/-- `UtilitiesConfig.load` and `set_config_values`, config_utils.py:49-71: one class attribute per tool, whose value is a
named tuple of the sections. Simplification: names that are no Python identifiers (ValueError of `namedtuple`) are
accepted. -/
def load (cls : Store (Dict (Dict CfgVal))) (c : UtilToml) : Store (Dict (Dict CfgVal)) :=
  c.foldl (fun cls e => cls.set e.1 e.2) cls

/-- `_cfg.section["key"]` with `_cfg = get_config_expansion(tool)`, config_utils.py:54-55: AttributeError for a missing
tool or section, KeyError for a missing key. -/
def read (cls : Store (Dict (Dict CfgVal))) (tool sec key : String) : M CfgVal := do
  let t ← cls.get tool
  match List.lookup sec t with
  | some s => Dict.get s key
  | none => .error .attribute

/-- A reader of settings of one tool (cosipy/utilities/config_utils.py:59-68). -/
abbrev Reader := String → String → M CfgVal

/-- Reads several keys of one section in order (as in aws2cosipy.py:86-132). -/
def readAll (rd : Reader) (sec : String) : List String → M Unit
  | [] => .ok ()
  | k :: ks => do
    let _ ← rd sec k
    readAll rd sec ks

/-- What the accesses to the settings depend on: the columns present in the table (by configured name), whether a
static file was given, the number of time steps and whether some cell is a glacier cell (aws2cosipy.py:246-789). -/
structure Data where
  has : CfgVal → Bool
  static : Bool
  steps : Nat
  glacier : Bool

/-- The check of `set_order_and_type`, aws2cosipy.py:112-117. -/
def requireLongwave (has : CfgVal → Bool) (lw n : CfgVal) : M Unit :=
  if !has lw && !has n then .error .value else .ok ()

/-- Accesses of `set_order_and_type`, aws2cosipy.py:99-130. -/
def orderReads (rd : Reader) (d : Data) : M Unit := do
  readAll rd "names" ["T2_var", "RH2_var", "U2_var", "G_var", "PRES_var", "RRR_var", "LWin_var"]
  let lw ← rd "names" "LWin_var"
  let n ← rd "names" "N_var"
  requireLongwave d.has lw n
  readAll rd "names" ["SNOWFALL_var"]

/-- `if _cfg.names[var] in df: set_bias(…, lapse_type=rate)`, aws2cosipy.py:374-388 and 576-590. -/
def lapseIf (rd : Reader) (d : Data) (var rate : String) : M Unit := do
  let v ← rd "names" var
  if d.has v then readAll rd "lapse" [rate] else .ok ()

/-- Accesses of `create_1D_input`, aws2cosipy.py:257-440. -/
def pointReads (rd : Reader) (d : Data) : M Unit := do
  readAll rd "coords" ["delimiter"]
  readAll rd "names" ["LWin_var", "N_var", "SNOWFALL_var", "T2_var", "RH2_var", "U2_var", "G_var", "RRR_var", "PRES_var"]
  readAll rd "coords" ["WRF"]
  readAll rd "points" ["plon", "plat"]
  orderReads rd d
  readAll rd "points" ["hgt"]
  readAll rd "station" ["stationAlt"]
  readAll rd "names" ["in_K"]
  readAll rd "lapse" ["lapse_T", "lapse_RH"]
  lapseIf rd d "RRR_var" "lapse_RRR"
  lapseIf rd d "SNOWFALL_var" "lapse_SNOWFALL"
  readAll rd "names" ["LWin_var", "N_var"]

/-- Accesses of the aggregation in `create_2D_input`, aws2cosipy.py:471-489. -/
def aggregateReads (rd : Reader) : M Unit := do
  let a ← rd "coords" "aggregate"
  if a.truthy then do
    readAll rd "names" ["N_var", "RRR_var", "LWin_var", "SNOWFALL_var", "PRES_var", "T2_var", "RH2_var", "G_var",
      "U2_var"]
    readAll rd "coords" ["aggregation_step"]
  else .ok ()

/-- Accesses of the interpolation loop, aws2cosipy.py:555-596 (none without time steps). -/
def interpReads (rd : Reader) (d : Data) : M Unit :=
  if d.steps = 0 then .ok () else do
    readAll rd "lapse" ["lapse_T", "lapse_RH"]
    readAll rd "station" ["stationAlt"]
    lapseIf rd d "RRR_var" "lapse_RRR"
    lapseIf rd d "SNOWFALL_var" "lapse_SNOWFALL"

/-- Radiation module Wohlfahrt2016 or none, aws2cosipy.py:613-645. -/
def wohlfahrtReads (rd : Reader) (d : Data) (m : CfgVal) : M Unit :=
  if d.steps ≠ 0 ∧ d.glacier = true ∧ m = .str "Wohlfahrt2016" then
    readAll rd "radiation" ["timezone_lon", "zeni_thld"]
  else .ok ()

/-- Look-up tables of Moelg2009, aws2cosipy.py:653-721. -/
def lutReads (rd : Reader) : M Unit := do
  let lut ← rd "radiation" "LUT"
  if lut.truthy then readAll rd "radiation" ["LUT_path"]
  else do
    readAll rd "station" ["stationLat"]
    readAll rd "radiation" ["dtstep", "tcart", "LUT_path"]

/-- The loop of Moelg2009, aws2cosipy.py:719-740: the cloud cover field is only defined when the table has that column
(lines 546-548), otherwise UnboundLocalError. -/
def moelgLoop (rd : Reader) (d : Data) : M Unit :=
  if d.steps = 0 then .ok () else do
    let n ← rd "names" "N_var"
    readAll rd "station" ["stationLat"]
    if d.has n then readAll rd "radiation" ["dtstep", "tcart"] else .error .unbound

/-- Radiation module Moelg2009, aws2cosipy.py:647-744. -/
def moelgReads (rd : Reader) (d : Data) : M Unit := do
  readAll rd "station" ["stationLat"]
  lutReads rd
  moelgLoop rd d

/-- The choice of the radiation module, aws2cosipy.py:613-748. -/
def radiationReads (rd : Reader) (d : Data) : M Unit := do
  let m ← rd "radiation" "radiationModule"
  if m = .str "Wohlfahrt2016" ∨ m = .str "none" ∨ m = .none then wohlfahrtReads rd d m
  else if m = .str "Moelg2009" then moelgReads rd d
  else .error .value

/-- Accesses of `create_2D_input`, aws2cosipy.py:465-790. -/
def gridReads (rd : Reader) (d : Data) : M Unit := do
  readAll rd "coords" ["delimiter"]
  aggregateReads rd
  readAll rd "coords" ["WRF"]
  orderReads rd d
  readAll rd "names" ["RH2_var", "U2_var", "G_var", "PRES_var", "in_K", "T2_var", "RRR_var", "SNOWFALL_var", "LWin_var",
    "N_var"]
  readAll rd "station" ["stationAlt"]
  interpReads rd d
  radiationReads rd d
  readAll rd "names" ["RRR_var", "SNOWFALL_var", "LWin_var", "N_var"]

/-- Accesses of aws2cosipy, aws2cosipy.py:1024-1048. -/
def awsReads (rd : Reader) (d : Data) : M Unit := do
  let p ← rd "points" "point_model"
  if p.truthy then pointReads rd d else gridReads rd d

/-- Accesses of create_static_file.py:93-113. -/
def staticReads (rd : Reader) : M Unit := do
  readAll rd "paths" ["static_folder"]
  readAll rd "coords" ["tile", "aggregate"]
  readAll rd "paths" ["dem_path", "shape_path", "output_file"]
  readAll rd "coords" ["longitude_upper_left", "latitude_upper_left", "longitude_lower_right", "latitude_lower_right",
    "aggregate_degree"]

/-- Accesses of wrf2cosipy.py:82-91. -/
def wrfReads (rd : Reader) : M Unit := readAll rd "constants" ["hu", "lu_class"]

/-- Tables and keys of the utilities_config.toml at the root of the repository, lines 12-75, as (tool, section, keys). -/
def rootKeys : List (String × String × List String) :=
  [("aws2cosipy", "names", ["PRES_var", "T2_var", "in_K", "RH2_var", "G_var", "RRR_var", "U2_var", "LWin_var",
     "SNOWFALL_var", "N_var"]),
   ("aws2cosipy", "coords", ["WRF", "aggregate", "aggregation_step", "delimiter"]),
   ("aws2cosipy", "radiation", ["radiationModule", "LUT", "LUT_path", "dtstep", "tcart", "timezone_lon", "zeni_thld"]),
   ("aws2cosipy", "points", ["point_model", "plon", "plat", "hgt"]),
   ("aws2cosipy", "station", ["stationName", "stationAlt", "stationLat"]),
   ("aws2cosipy", "lapse", ["lapse_T", "lapse_RH", "lapse_RRR", "lapse_SNOWFALL"]),
   ("create_static", "paths", ["static_folder", "dem_path", "shape_path", "output_file"]),
   ("create_static", "coords", ["tile", "aggregate", "aggregate_degree", "longitude_upper_left", "latitude_upper_left",
     "longitude_lower_right", "latitude_lower_right"]),
   ("wrf2cosipy", "constants", ["hu", "lu_class"])]

/-- Tables and keys of the sample file the command `cosipy-setup` copies,
cosipy/utilities/setup_cosipy/utilities_config.toml:12-74. convert_config.py:194-274 writes the same keys. -/
def sampleKeys : List (String × String × List String) :=
  [("aws2cosipy", "names", ["PRES_var", "T2_var", "in_K", "RH2_var", "G_var", "RRR_var", "U2_var", "LWin_var",
     "SNOWFALL_var", "N_var"]),
   ("aws2cosipy", "coords", ["WRF", "aggregate", "aggregation_step", "delimiter"]),
   ("aws2cosipy", "radiation", ["radiationModule", "LUT", "dtstep", "tcart", "timezone_lon", "zeni_thld"]),
   ("aws2cosipy", "points", ["point_model", "plon", "plat", "hgt"]),
   ("aws2cosipy", "station", ["stationName", "stationAlt", "stationLat"]),
   ("aws2cosipy", "lapse", ["lapse_T", "lapse_RH", "lapse_RRR", "lapse_SNOWFALL"]),
   ("create_static", "paths", ["static_folder", "dem_path", "shape_path", "output_file"]),
   ("create_static", "coords", ["tile", "aggregate", "aggregate_degree", "longitude_upper_left", "latitude_upper_left",
     "longitude_lower_right", "latitude_lower_right"]),
   ("wrf2cosipy", "constants", ["hu", "lu_class"])]

/-! ## Attributes the program reads -/

/-- The attributes of `Config` read anywhere in COSIPY.py and cosipy/ (COSIPY.py:34-400, cosipy/cpkernel/io.py,
cosipy/cpkernel/cosipy_core.py, cosipy/modules/evaluation.py). -/
def configAttributes : List String :=
  ["WRF", "WRF_X_CSPY", "compression_level", "data_path", "easting", "eval_method", "force_use_N", "force_use_TP",
   "full_field", "input_netcdf", "local_port", "northing", "obs_type", "output_atm", "output_full", "output_internal",
   "output_prefix", "restart", "slurm_use", "stake_evaluation", "stakes_data_file", "stakes_loc_file", "tile",
   "time_end", "time_start", "workers", "xend", "xstart", "yend", "ystart"]

/-! ## Conversion of old configuration files -/

/-- `ModuleWrapper.__getattr__` and `set_module_params`, convert_config.py:28-53: a missing or `None` setting is written
as 0. -/
def setModuleParams (mod : Store CfgVal) (pairs : List (String × List String)) : Toml :=
  pairs.map fun p => (p.1, .table (p.2.map fun a => (a,
    match mod a with
    | some .none => .int 0
    | some v => v
    | none => .int 0)))

/-- The table `table_keys` of `get_config_params`, convert_config.py:60-77. -/
def convertConfigKeys : List (String × List String) :=
  [("SIMULATION_PERIOD", ["time_start", "time_end"]),
   ("FILENAMES", ["data_path", "input_netcdf", "output_prefix"]),
   ("RESTART", ["restart"]),
   ("STAKE_DATA", ["stake_evaluation", "stakes_loc_file", "stakes_data_file", "eval_method", "obs_type"]),
   ("DIMENSIONS", ["WRF", "WRF_X_CSPY", "northing", "easting"]),
   ("COMPRESSION", ["compression_level"]),
   ("PARALLELIZATION", ["slurm_use", "workers", "local_port"]),
   ("FULL_FIELDS", ["full_field"]),
   ("FORCINGS", ["force_use_TP", "force_use_N"]),
   ("SUBSET", ["tile", "xstart", "xend", "ystart", "yend"])]

/-- Python's `"sep".join(parts)` (as in convert_config.py:56-93). -/
def joinWith (sep : Char) : List (List Char) → List Char
  | [] => []
  | [p] => p
  | p :: ps => p ++ sep :: joinWith sep ps

/-- Python's `s.split(sep)` for a single character: always at least one part (as in convert_config.py:56-93). -/
def splitOn (sep : Char) : List Char → List (List Char)
  | [] => [[]]
  | c :: cs =>
    if c = sep then [] :: splitOn sep cs
    else match splitOn sep cs with
      | [] => [[c]]
      | p :: ps => (c :: p) :: ps

/-- The output prefix from the old file name, convert_config.py:83-88, on character lists. -/
def outputPrefix (name : List Char) : List Char :=
  joinWith '_' (if '_' ∈ name then splitOn '_' name else splitOn '.' name).dropLast

/-- `get_config_params`, convert_config.py:56-93; `outVars` are the three values of `get_output_params` (96-108).
`output_netcdf` is the old file name. -/
def convertConfig (mod : Store CfgVal) (outputNetcdf : String) (outVars : CfgVal × CfgVal × CfgVal) : M Toml := do
  let c ← (setModuleParams mod convertConfigKeys).setItem "FILENAMES" "output_prefix"
    (.str (String.ofList (outputPrefix outputNetcdf.toList)))
  return Dict.set c "OUTPUT_VARIABLES" (.table [("output_atm", outVars.1), ("output_internal", outVars.2.1),
    ("output_full", outVars.2.2)])

/-- The table `table_keys` of `get_constants_params`, convert_config.py:115-186. -/
def convertConstantsKeys : List (String × List String) :=
  [("GENERAL", ["dt", "max_layers", "z"]),
   ("PARAMETERIZATIONS", ["stability_correction", "albedo_method", "densification_method", "penetrating_method",
     "roughness_method", "saturation_water_vapour_method", "thermal_conductivity_method", "sfc_temperature_method"]),
   ("INITIAL_CONDITIONS", ["initial_snowheight_constant", "initial_snow_layer_heights", "initial_glacier_height",
     "initial_glacier_layer_heights", "initial_top_density_snowpack", "initial_bottom_density_snowpack",
     "temperature_bottom", "const_init_temp", "zlt1", "zlt2"]),
   ("PRECIPITATION", ["center_snow_transfer_function", "spread_snow_transfer_function", "mult_factor_RRR",
     "minimum_snow_layer_height", "minimum_snowfall"]),
   ("REMESHING", ["remesh_method", "first_layer_height", "layer_stretching", "merge_max", "density_threshold_merging",
     "temperature_threshold_merging"]),
   ("CONSTANTS", ["constant_density", "albedo_fresh_snow", "albedo_firn", "albedo_ice", "albedo_mod_snow_aging",
     "albedo_mod_snow_depth", "t_star_wet", "t_star_dry", "t_star_K", "t_star_cutoff", "roughness_fresh_snow",
     "roughness_ice", "roughness_firn", "aging_factor_roughness", "snow_ice_threshold", "lat_heat_melting",
     "lat_heat_vaporize", "lat_heat_sublimation", "spec_heat_air", "spec_heat_ice", "spec_heat_water", "k_i", "k_w",
     "k_a", "water_density", "ice_density", "air_density", "sigma", "zero_temperature", "surface_emission_coeff"])]

/-- `get_constants_params`, convert_config.py:111-191. -/
def convertConstants (mod : Store CfgVal) : Toml := setModuleParams mod convertConstantsKeys

/-- The table `table_keys` of `get_aws2cosipy_params`, convert_config.py:194-229. -/
def convertAwsKeys : List (String × List String) :=
  [("names", ["PRES_var", "T2_var", "in_K", "RH2_var", "G_var", "RRR_var", "U2_var", "LWin_var", "SNOWFALL_var", "N_var"]),
   ("coords", ["WRF", "aggregate", "aggregation_step", "delimiter"]),
   ("radiation", ["radiationModule", "LUT", "dtstep", "tcart", "timezone_lon", "zeni_thld"]),
   ("points", ["point_model", "plon", "plat", "hgt"]),
   ("station", ["stationName", "stationAlt", "stationLat"]),
   ("lapse", ["lapse_T", "lapse_RH", "lapse_RRR", "lapse_SNOWFALL"])]

/-- `set_module_params` for the settings of a utility, convert_config.py:43-53. -/
def moduleSections (mod : Store CfgVal) (pairs : List (String × List String)) : Dict (Dict CfgVal) :=
  pairs.map fun p => (p.1, p.2.map fun a => (a,
    match mod a with
    | some .none => .int 0
    | some v => v
    | none => .int 0))

/-- The table `table_keys` of `get_create_static_params`, convert_config.py:251-262. -/
def convertStaticKeys : List (String × List String) :=
  [("paths", ["static_folder", "dem_path", "shape_path", "output_file"]),
   ("coords", ["tile", "aggregate", "aggregate_degree", "longitude_upper_left", "latitude_upper_left",
     "longitude_lower_right", "latitude_lower_right"])]

/-- The values of `get_create_static_params`, convert_config.py:263-272: placeholders, whatever the old settings were. -/
def staticPlaceholder (sec key : String) : CfgVal :=
  if sec = "paths" then .str ""
  else if sec = "coords" ∧ key ∈ ["tile", "aggregate"] then .bool true
  else .float 0 0

/-- `get_create_static_params`, convert_config.py:244-274. -/
def convertStatic : Dict (Dict CfgVal) :=
  convertStaticKeys.map fun p => (p.1, p.2.map fun a => (a, staticPlaceholder p.1 a))

/-- `get_utilities_params`, convert_config.py:277-284, with `get_wrf2cosipy_params` (232-241); `aws` and `wrf` are the old configuration modules. -/
def convertUtilities (aws wrf : Store CfgVal) : UtilToml :=
  [("aws2cosipy", moduleSections aws convertAwsKeys), ("create_static", convertStatic),
   ("wrf2cosipy", moduleSections wrf [("constants", ["hu", "lu_class"])])]

/-- `main`, convert_config.py:307-319: the contents of config.toml, constants.toml and utilities_config.toml. Simplification: what `toml.dump` and
the loader of a file make of the values is the identity; printing is left out. -/
def convertAll (config constants aws wrf : Store CfgVal) (outputNetcdf : String) (outVars : CfgVal × CfgVal × CfgVal) :
    M (Toml × Toml × UtilToml) := do
  let c ← convertConfig config outputNetcdf outVars
  return (c, convertConstants constants, convertUtilities aws wrf)

end Cosipy.Util
