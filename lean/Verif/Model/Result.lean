import Verif.Model.Config

/-!
# Description of the result file

Model of cosipy/cpkernel/io.py:331-439 (labels), 441-565 (`init_result_dataset`) and 675-708 (`write_results_to_file`)
with the labels `Model/IO.lean` leaves out. Encoding (`_FillValue`, compression) is not modelled.
-/

set_option autoImplicit false

namespace Cosipy

/-- Attributes `units` and `long_name` of a variable, io.py:918-936. -/
structure Label where
  units : String
  longName : String
  deriving DecidableEq

/-- `get_input_metadata`, spatial part, io.py:339-344. -/
def spatialLabels : Dict Label :=
  [("HGT", ⟨"m", "Elevation"⟩), ("MASK", ⟨"boolean", "Glacier mask"⟩), ("SLOPE", ⟨"degrees", "Terrain slope"⟩),
   ("ASPECT", ⟨"degrees", "Aspect of slope"⟩)]

/-- `get_input_metadata`, spatiotemporal part, io.py:345-355. -/
def seriesLabels : Dict Label :=
  [("T2", ⟨"K", "Air temperature at 2 m"⟩), ("RH2", ⟨"%", "Relative humidity at 2 m"⟩),
   ("U2", ⟨"m s⁻¹", "Wind velocity at 2 m"⟩), ("PRES", ⟨"hPa", "Atmospheric pressure"⟩),
   ("G", ⟨"W m⁻²", "Incoming shortwave radiation"⟩), ("RRR", ⟨"mm", "Total precipitation"⟩),
   ("SNOWFALL", ⟨"m", "Snowfall"⟩), ("N", ⟨"-", "Cloud fraction"⟩),
   ("LWin", ⟨"W m⁻²", "Incoming longwave radiation"⟩)]

/-- `get_full_field_metadata`, io.py:365-376. -/
def layerLabels : Dict Label :=
  [("LAYER_HEIGHT", ⟨"m", "Layer height"⟩), ("LAYER_RHO", ⟨"kg m^-3", "Layer density"⟩),
   ("LAYER_T", ⟨"K", "Layer temperature"⟩), ("LAYER_LWC", ⟨"kg m^-2", "layer liquid water content"⟩),
   ("LAYER_CC", ⟨"J m^-2", "Cold content"⟩), ("LAYER_POROSITY", ⟨"-", "Porosity"⟩),
   ("LAYER_ICE_FRACTION", ⟨"-", "Layer ice fraction"⟩), ("LAYER_IF", ⟨"-", "Layer ice fraction"⟩),
   ("LAYER_IRREDUCIBLE_WATER", ⟨"-", "Irreducible water"⟩), ("LAYER_REFREEZE", ⟨"m w.e.", "Refreezing"⟩)]

/-- `metadata_result`, io.py:405-433. -/
def ownLabels : Dict Label :=
  [("RAIN", ⟨"mm", "Liquid precipitation"⟩), ("SNOWFALL", ⟨"m w.e.", "Snowfall"⟩),
   ("LWin", ⟨"W m⁻²", "Incoming longwave radiation"⟩), ("LWout", ⟨"W m⁻²", "Outgoing longwave radiation"⟩),
   ("H", ⟨"W m⁻²", "Sensible heat flux"⟩), ("LE", ⟨"W m⁻²", "Latent heat flux"⟩),
   ("B", ⟨"W m⁻²", "Ground heat flux"⟩), ("QRR", ⟨"W m⁻²", "Rain heat flux"⟩),
   ("surfMB", ⟨"m w.e.", "Surface mass balance"⟩), ("MB", ⟨"m w.e.", "Mass balance"⟩), ("Q", ⟨"m w.e.", "Runoff"⟩),
   ("SNOWHEIGHT", ⟨"m", "Snowheight"⟩), ("TOTALHEIGHT", ⟨"m", "Total domain height"⟩),
   ("TS", ⟨"K", "Surface temperature"⟩), ("ALBEDO", ⟨"-", "Albedo"⟩), ("LAYERS", ⟨"-", "Number of layers"⟩),
   ("ME", ⟨"W m⁻²", "Available melt energy"⟩), ("intMB", ⟨"m w.e.", "Internal mass balance"⟩),
   ("EVAPORATION", ⟨"m w.e.", "Evaporation"⟩), ("SUBLIMATION", ⟨"m w.e.", "Sublimation"⟩),
   ("CONDENSATION", ⟨"m w.e.", "Condensation"⟩), ("DEPOSITION", ⟨"m w.e.", "Deposition"⟩),
   ("REFREEZE", ⟨"m w.e.", "Refreezing"⟩), ("subM", ⟨"m w.e.", "Subsurface melt"⟩),
   ("Z0", ⟨"m", "Roughness length"⟩), ("surfM", ⟨"m w.e.", "Surface melt"⟩), ("MOL", ⟨"m", "Monin Obukhov length"⟩)]

/-- `a | b` for dictionaries: entries of `b` win (io.py:435-437). -/
def Dict.union {β : Type} (a b : Dict β) : Dict β := b.foldl (fun d p => d.set p.1 p.2) a

/-- `get_result_metadata`, io.py:396-439. -/
def resultLabels : Dict Label := ((spatialLabels.union seriesLabels).union layerLabels).union ownLabels

/-- Where a global attribute comes from: `str(Config.key)`, `Config.key` or `Constants.key` (io.py:459-530). -/
inductive AttrSource
  | cfgText (key : String)
  | cfg (key : String)
  | const (key : String)
  deriving DecidableEq

/-- The global attributes in order, io.py:459-530. -/
def attrTable : List (String × AttrSource) :=
  [("Start_from_restart_file", .cfgText "restart"), ("Stake_evaluation", .cfgText "stake_evaluation"),
   ("WRF_simulation", .cfgText "WRF"), ("Compression_level", .cfg "compression_level"),
   ("Slurm_use", .cfgText "slurm_use"), ("Full_field", .cfgText "full_field"),
   ("Force_use_TP", .cfgText "force_use_TP"), ("Force_use_N", .cfgText "force_use_N"),
   ("Tile_of_glacier_of_interest", .cfgText "tile"), ("Time_step_input_file_seconds", .const "dt"),
   ("Max_layers", .const "max_layers"), ("Z_measurement_height", .const "z"),
   ("Stability_correction", .const "stability_correction"), ("Albedo_method", .const "albedo_method"),
   ("Densification_method", .const "densification_method"), ("Penetrating_method", .const "penetrating_method"),
   ("Roughness_method", .const "roughness_method"),
   ("Saturation_water_vapour_method", .const "saturation_water_vapour_method"),
   ("Initial_snowheight", .const "initial_snowheight_constant"),
   ("Initial_snow_layer_heights", .const "initial_snow_layer_heights"),
   ("Initial_glacier_height", .const "initial_glacier_height"),
   ("Initial_glacier_layer_heights", .const "initial_glacier_layer_heights"),
   ("Initial_top_density_snowpack", .const "initial_top_density_snowpack"),
   ("Initial_bottom_density_snowpack", .const "initial_bottom_density_snowpack"),
   ("Temperature_bottom", .const "temperature_bottom"), ("Const_init_temp", .const "const_init_temp"),
   ("Center_snow_transfer_function", .const "center_snow_transfer_function"),
   ("Spread_snow_transfer_function", .const "spread_snow_transfer_function"),
   ("Multiplication_factor_for_RRR_or_SNOWFALL", .const "mult_factor_RRR"),
   ("Minimum_snow_layer_height", .const "minimum_snow_layer_height"),
   ("Minimum_snowfall", .const "minimum_snowfall"), ("Remesh_method", .const "remesh_method"),
   ("First_layer_height_log_profile", .const "first_layer_height"),
   ("Layer_stretching_log_profile", .const "layer_stretching"), ("Merge_max", .const "merge_max"),
   ("Layer_stretching_log_profile", .const "layer_stretching"),
   ("Density_threshold_merging", .const "density_threshold_merging"),
   ("Temperature_threshold_merging", .const "temperature_threshold_merging"),
   ("Density_fresh_snow", .const "constant_density"), ("Albedo_fresh_snow", .const "albedo_fresh_snow"),
   ("Albedo_firn", .const "albedo_firn"), ("Albedo_ice", .const "albedo_ice"),
   ("Albedo_mod_snow_aging", .const "albedo_mod_snow_aging"),
   ("Albedo_mod_snow_depth", .const "albedo_mod_snow_depth"),
   ("Roughness_fresh_snow", .const "roughness_fresh_snow"), ("Roughness_ice", .const "roughness_ice"),
   ("Roughness_firn", .const "roughness_firn"), ("Aging_factor_roughness", .const "aging_factor_roughness"),
   ("Snow_ice_threshold", .const "snow_ice_threshold"), ("lat_heat_melting", .const "lat_heat_melting"),
   ("lat_heat_vaporize", .const "lat_heat_vaporize"), ("lat_heat_sublimation", .const "lat_heat_sublimation"),
   ("spec_heat_air", .const "spec_heat_air"), ("spec_heat_ice", .const "spec_heat_ice"),
   ("spec_heat_water", .const "spec_heat_water"), ("k_i", .const "k_i"), ("k_w", .const "k_w"),
   ("k_a", .const "k_a"), ("water_density", .const "water_density"), ("ice_density", .const "ice_density"),
   ("air_density", .const "air_density"), ("sigma", .const "sigma"), ("zero_temperature", .const "zero_temperature"),
   ("Surface_emission_coeff", .const "surface_emission_coeff")]

/-- The value of an attribute; a setting that was not loaded is an AttributeError. `text` is Python's `str`
(io.py:459-530). -/
def AttrSource.value (text : CfgVal → String) (cfg consts : Store CfgVal) : AttrSource → M CfgVal
  | .cfgText k => do
    let v ← cfg.get k
    return .str (text v)
  | .cfg k => cfg.get k
  | .const k => consts.get k

/-- The global attributes of the result, io.py:459-530. -/
def resultAttrs (text : CfgVal → String) (cfg consts : Store CfgVal) : M (Store CfgVal) :=
  attrTable.foldlM (fun a e => do
    let v ← e.2.value text cfg consts
    return a.set e.1 v) fun _ => none

/-- A variable of a dataset with its label (io.py:918-1088). -/
structure Var (α : Type) where
  data : Arr α
  label : Label

/-- A dataset; `γ` is the type of coordinate arrays (io.py:441-565). -/
structure ResultFile (α γ : Type) where
  coords : Store γ
  attrs : Store CfgVal
  vars : Store (Var α)

section
variable {α γ : Type}

/-- `add_variable_along_latlon`, `_latlontime`, `_latlonlayertime`: `ds[name] = (dims, var.data)` raises ValueError for
other axes, io.py:955-1088. Simplification: sizes always agree here, because every array has the sizes of the input. -/
def addVar (hasTime hasLayer : Bool) (a : Arr α) (name : String) (l : Label) (ds : Store (Var α)) : M (Store (Var α)) :=
  if a.time.isSome = hasTime ∧ a.layer.isSome = hasLayer then .ok (ds.set name ⟨a, l⟩) else .error .value

/-- `for name, metadata in table.items(): if name in self.DATA: …`, io.py:535-544. -/
def copyInput (hasTime : Bool) (data : Store (Arr α)) (table : Dict Label) (ds : Store (Var α)) : M (Store (Var α)) :=
  table.foldlM (fun ds p => match data p.1 with
    | some a => addVar hasTime false a p.1 p.2 ds
    | none => .ok ds) ds

/-- The field of missing values for an absent RRR or N, io.py:546-561: the two parts of the label are passed in the
other order. -/
def fillAbsent (nan : α) (data : Store (Arr α)) (name : String) (ds : Store (Var α)) : M (Store (Var α)) :=
  match data name with
  | some _ => .ok ds
  | none => do
    let t2 ← data.get "T2"
    let l ← seriesLabels.get name
    addVar true false { t2 with val := fun _ _ _ _ => nan } name ⟨l.longName, l.units⟩ ds

/-- `init_result_dataset`, io.py:441-565. A missing coordinate is a KeyError. -/
def initResult (text : CfgVal → String) (nan : α) (cfg consts : Store CfgVal) (coords : Store γ) (data : Store (Arr α)) :
    M (ResultFile α γ) := do
  let cs ← ["time", "lat", "lon"].foldlM (fun (cs : Store γ) k =>
    match coords k with
    | some v => .ok (cs.set k v)
    | none => .error .key) fun _ => none
  let attrs ← resultAttrs text cfg consts
  let ds ← copyInput false data spatialLabels fun _ => none
  let ds ← copyInput true data seriesLabels ds
  let ds ← fillAbsent nan data "RRR" ds
  let ds ← fillAbsent nan data "N" ds
  return ⟨cs, attrs, ds⟩

/-- One variable of `write_results_to_file`: AttributeError, then KeyError, then the assignment, io.py:675-708. -/
def writeLabelled (attrs : Store (Arr α)) (hasLayer : Bool) (name : String) (ds : Store (Var α)) : M (Store (Var α)) := do
  let a ← attrs.get name
  let l ← resultLabels.get name
  addVar true hasLayer a name l ds

/-- `write_results_to_file`, io.py:675-708, on labelled variables; `io` supplies the lists and arrays. -/
def writeResultsLabelled (io : IOState α) (ds : Store (Var α)) : M (Store (Var α)) := do
  let r ← io.atm.foldlM (fun r n => writeLabelled io.attrs false n r) ds
  let r ← io.internal.foldlM (fun r n => writeLabelled io.attrs false n r) r
  if io.fullField then io.full.foldlM (fun r n => writeLabelled io.attrs true ("LAYER_" ++ n) r) r else .ok r

end
end Cosipy
