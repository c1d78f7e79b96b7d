import Verif.Model.Loaded
import Verif.Lemmas.Config
import Verif.Lemmas.Example
import Verif.Props.C49
import Verif.Props.C69

/-!
# C131 Every setting in the configuration files has the effect it describes

`C131_constants`: each number in constants.toml reaches the simulation as it stands in the file. `C131_methods`: so do the methods.
`C131_simulated`: a run uses what was read. `C131_offered`: these are all settings of the file but three. `C131_ignored_refuted`: those three have no effect
whatever their values, among them `initial_snow_layer_heights`, "initial thickness of snow layers", and `const_init_temp`;
`C131_snow_layers_refuted`: the snow layers do not have the configured thickness. `C131_switches`: the switches of
config.toml. `C131_slurm_partial`: what a run on Slurm asks for. `C131_slurm_refuted`: queue, port, number of processes and
shebang have no effect.
-/

set_option autoImplicit false
set_option linter.unusedSectionVars false

namespace Cosipy

/-! ## Specification -/

/-- The numbers of constants.toml by name and where the simulation has them. -/
def numberTable (α : Type) : List (String × (Consts α → α)) :=
  [("dt", (·.dt)), ("z", (·.z)), ("initial_snowheight_constant", (·.initialSnowheightConstant)),
   ("initial_glacier_height", (·.initialGlacierHeight)),
   ("initial_glacier_layer_heights", (·.initialGlacierLayerHeights)),
   ("initial_top_density_snowpack", (·.initialTopDensitySnowpack)),
   ("initial_bottom_density_snowpack", (·.initialBottomDensitySnowpack)),
   ("temperature_bottom", (·.temperatureBottom)), ("zlt1", (·.zlt1)), ("zlt2", (·.zlt2)),
   ("center_snow_transfer_function", (·.centerSnowTransferFunction)),
   ("spread_snow_transfer_function", (·.spreadSnowTransferFunction)), ("mult_factor_RRR", (·.multFactorRRR)),
   ("minimum_snow_layer_height", (·.minimumSnowLayerHeight)), ("minimum_snowfall", (·.minimumSnowfall)),
   ("first_layer_height", (·.firstLayerHeight)), ("layer_stretching", (·.layerStretching)),
   ("density_threshold_merging", (·.densityThresholdMerging)),
   ("temperature_threshold_merging", (·.temperatureThresholdMerging)), ("constant_density", (·.constantDensity)),
   ("albedo_fresh_snow", (·.albedoFreshSnow)), ("albedo_firn", (·.albedoFirn)), ("albedo_ice", (·.albedoIce)),
   ("albedo_mod_snow_aging", (·.albedoModSnowAging)), ("albedo_mod_snow_depth", (·.albedoModSnowDepth)),
   ("t_star_wet", (·.tStarWet)), ("t_star_dry", (·.tStarDry)), ("t_star_K", (·.tStarK)),
   ("t_star_cutoff", (·.tStarCutoff)), ("roughness_fresh_snow", (·.roughnessFreshSnow)),
   ("roughness_ice", (·.roughnessIce)), ("roughness_firn", (·.roughnessFirn)),
   ("aging_factor_roughness", (·.agingFactorRoughness)), ("snow_ice_threshold", (·.snowIceThreshold)),
   ("lat_heat_melting", (·.latHeatMelting)), ("lat_heat_vaporize", (·.latHeatVaporize)),
   ("lat_heat_sublimation", (·.latHeatSublimation)), ("spec_heat_air", (·.specHeatAir)),
   ("spec_heat_ice", (·.specHeatIce)), ("spec_heat_water", (·.specHeatWater)), ("k_i", (·.kI)), ("k_w", (·.kW)),
   ("k_a", (·.kA)), ("water_density", (·.waterDensity)), ("ice_density", (·.iceDensity)),
   ("air_density", (·.airDensity)), ("sigma", (·.sigma)), ("zero_temperature", (·.zeroTemperature)),
   ("surface_emission_coeff", (·.surfaceEmissionCoeff))]

/-- The methods of constants.toml: the setting, a name of a method, and what the simulation then does. -/
def methodTable (α : Type) : List (String × String × (Consts α → Prop)) :=
  [("stability_correction", "MO", fun c => c.stabilityCorrection = .mo),
   ("stability_correction", "Ri", fun c => c.stabilityCorrection = .ri),
   ("albedo_method", "Oerlemans98", fun c => c.albedoMethod = .oerlemans98),
   ("albedo_method", "Bougamont05", fun c => c.albedoMethod = .bougamont05),
   ("densification_method", "Boone", fun c => c.densificationMethod = .boone),
   ("densification_method", "Vionnet", fun c => c.densificationMethod = .vionnet),
   ("densification_method", "empirical", fun c => c.densificationMethod = .empirical),
   ("densification_method", "constant", fun c => c.densificationMethod = .constant),
   ("penetrating_method", "Bintanja95", fun c => c.penetratingMethod = .bintanja95),
   ("roughness_method", "Moelg12", fun c => c.roughnessMethod = .moelg12),
   ("thermal_conductivity_method", "bulk", fun c => c.thermalConductivityMethod = .bulk),
   ("thermal_conductivity_method", "empirical", fun c => c.thermalConductivityMethod = .empirical),
   ("sfc_temperature_method", "L-BFGS-B", fun c => c.sfcTemperatureMethod = .lbfgsb),
   ("sfc_temperature_method", "SLSQP", fun c => c.sfcTemperatureMethod = .slsqp),
   ("sfc_temperature_method", "Newton", fun c => c.sfcTemperatureMethod = .newton),
   ("sfc_temperature_method", "Secant", fun c => c.sfcTemperatureMethod = .secant),
   ("remesh_method", "log_profile", fun c => c.remeshMethod = .logProfile),
   ("remesh_method", "adaptive_profile", fun c => c.remeshMethod = .adaptiveProfile)]

/-- The methods of constants.toml with all names that are known. -/
def unknownTable (α : Type) : List (String × List String × (Consts α → Prop)) :=
  [("stability_correction", ["MO", "Ri"], fun c => c.stabilityCorrection = .other),
   ("albedo_method", ["Oerlemans98", "Bougamont05"], fun c => c.albedoMethod = .other),
   ("densification_method", ["Boone", "Vionnet", "empirical", "constant"], fun c => c.densificationMethod = .other),
   ("penetrating_method", ["Bintanja95"], fun c => c.penetratingMethod = .other),
   ("roughness_method", ["Moelg12"], fun c => c.roughnessMethod = .other),
   ("thermal_conductivity_method", ["bulk", "empirical"], fun c => c.thermalConductivityMethod = .other),
   ("sfc_temperature_method", ["L-BFGS-B", "SLSQP", "Newton", "Secant"], fun c => c.sfcTemperatureMethod = .other),
   ("remesh_method", ["log_profile", "adaptive_profile"], fun c => c.remeshMethod = .other)]

/-- The settings of constants.toml nothing is computed with. -/
def deadConstants : List String := ["initial_snow_layer_heights", "const_init_temp", "saturation_water_vapour_method"]

/-- The settings of slurm_config.toml no job is asked for with. -/
def deadSlurm : List String := ["processes", "queue", "port", "shebang"]

/-- The file with other values: each value `v` of a key `k` becomes `f k v`. -/
def Toml.vary (f : String → CfgVal → CfgVal) (c : Toml) : Toml :=
  c.map fun e => (e.1, match e.2 with
    | .table t => .table (t.map fun p => (p.1, f p.1 p.2))
    | .scalar v => .scalar v)

/-- `f` changes values of keys in `L` only. -/
def OnlyChanges (f : String → CfgVal → CfgVal) (L : List String) : Prop := ∀ k v, k ∉ L → f k v = v

/-! ## Files with other values -/

/-- Same outcome, for attributes outside `L`. -/
def Alike (L : List String) : M (Store CfgVal) → M (Store CfgVal) → Prop
  | .ok a, .ok b => ∀ k, k ∉ L → a k = b k
  | .error e, .error e' => e = e'
  | _, _ => False

theorem lookup_vary_table {f : String → CfgVal → CfgVal} (t : Dict CfgVal) (k : String) :
    List.lookup k (t.map fun p => (p.1, f p.1 p.2)) = (List.lookup k t).map (f k) := by
  induction t with
  | nil => rfl
  | cons p t ih =>
    obtain ⟨a, b⟩ := p
    rw [List.map_cons, List.lookup_cons, List.lookup_cons, ih]
    by_cases e : k = a
    · subst e; simp
    · rw [beq_eq_false_iff_ne.2 e]

/-- One entry of a file with other values. -/
def varyTop (f : String → CfgVal → CfgVal) : TopVal → TopVal
  | .table t => .table (t.map fun p => (p.1, f p.1 p.2))
  | .scalar v => .scalar v

theorem vary_eq (f : String → CfgVal → CfgVal) (c : Toml) : c.vary f = c.map fun e => (e.1, varyTop f e.2) := by
  unfold Toml.vary
  apply List.map_congr_left
  rintro ⟨n, t | v⟩ _ <;> rfl

theorem lookup_vary {f : String → CfgVal → CfgVal} (c : Toml) (n : String) :
    List.lookup n (c.vary f) = (List.lookup n c).map (varyTop f) := by
  rw [vary_eq]
  induction c with
  | nil => rfl
  | cons e c ih =>
    obtain ⟨m, t⟩ := e
    rw [List.map_cons, List.lookup_cons, List.lookup_cons, ih]
    by_cases e : n = m
    · subst e; simp
    · rw [beq_eq_false_iff_ne.2 e]

theorem table_vary {f : String → CfgVal → CfgVal} (c : Toml) (n : String) :
    (c.vary f).table n = (c.table n).map fun t => t.map fun p => (p.1, f p.1 p.2) := by
  unfold Toml.table Dict.get
  rw [lookup_vary]
  cases List.lookup n c with
  | none => rfl
  | some t => cases t <;> rfl

theorem item_vary {f : String → CfgVal → CfgVal} (c : Toml) (n k : String) :
    (c.vary f).item n k = (c.item n k).map (f k) := by
  unfold Toml.item
  rw [table_vary]
  cases c.table n with
  | error e => rfl
  | ok t =>
    show Dict.get (t.map fun p => (p.1, f p.1 p.2)) k = (Dict.get t k).map (f k)
    unfold Dict.get
    rw [lookup_vary_table]
    cases List.lookup k t <;> rfl

theorem set_vary_table {f : String → CfgVal → CfgVal} {k : String} {v : CfgVal} (h : f k v = v) (t : Dict CfgVal) :
    Dict.set (t.map fun p => (p.1, f p.1 p.2)) k v = (Dict.set t k v).map fun p => (p.1, f p.1 p.2) := by
  induction t with
  | nil => simp [Dict.set, h]
  | cons p t ih =>
    obtain ⟨a, b⟩ := p
    rw [List.map_cons]
    unfold Dict.set
    by_cases e : a = k
    · subst e; simp [h]
    · simp only [if_neg e, List.map_cons, ih]

theorem set_vary {f : String → CfgVal → CfgVal} (c : Toml) (n : String) (t : TopVal) :
    Dict.set (c.vary f) n (varyTop f t) = Toml.vary f (Dict.set c n t) := by
  simp only [vary_eq]
  induction c with
  | nil => rfl
  | cons e c ih =>
    obtain ⟨a, b⟩ := e
    rw [List.map_cons]
    unfold Dict.set
    by_cases e : a = n
    · subst e; simp
    · simp only [if_neg e, List.map_cons, ih]

theorem setItem_vary {f : String → CfgVal → CfgVal} {k : String} {v : CfgVal} (h : f k v = v) (c : Toml) (n : String) :
    (c.vary f).setItem n k v = (c.setItem n k v).map (Toml.vary f) := by
  unfold Toml.setItem
  rw [table_vary]
  cases c.table n with
  | error e => rfl
  | ok t =>
    show Except.ok (Dict.set (c.vary f) n (.table (Dict.set (t.map fun p => (p.1, f p.1 p.2)) k v))) =
      Except.ok (Toml.vary f (Dict.set c n (.table (t.set k v))))
    rw [set_vary_table h, ← set_vary]
    rfl

theorem fold_vary {f : String → CfgVal → CfgVal} {L : List String} (hf : OnlyChanges f L) (t : Dict CfgVal) :
    ∀ {s s' : Store CfgVal}, (∀ k, k ∉ L → s k = s' k) → ∀ k, k ∉ L →
      (t.foldl (fun s p => s.set p.1 p.2) s) k = ((t.map fun p => (p.1, f p.1 p.2)).foldl (fun s p => s.set p.1 p.2) s') k := by
  induction t with
  | nil => exact fun h => h
  | cons p t ih =>
    intro s s' h
    rw [List.map_cons, List.foldl_cons, List.foldl_cons]
    apply ih
    intro k hk
    unfold Store.set
    by_cases e : k = p.1
    · rw [if_pos e, if_pos e, hf p.1 p.2 (e ▸ hk)]
    · rw [if_neg e, if_neg e]; exact h k hk

theorem load_vary {f : String → CfgVal → CfgVal} {L : List String} (hf : OnlyChanges f L) (c : Toml) :
    ∀ {s s' : Store CfgVal}, (∀ k, k ∉ L → s k = s' k) → Alike L (setConfigValues s c) (setConfigValues s' (c.vary f)) := by
  rw [vary_eq]
  unfold setConfigValues
  induction c with
  | nil => exact fun h => h
  | cons e c ih =>
    intro s s' h
    obtain ⟨n, t | v⟩ := e
    · rw [List.map_cons, List.foldlM_cons, List.foldlM_cons]
      exact ih (fold_vary hf t h)
    · rw [List.map_cons, List.foldlM_cons, List.foldlM_cons]
      exact rfl

/-! ## The constants -/

section
variable {α : Type} {num : CfgVal → M α} {s s' : Store CfgVal}

theorem get_congr (k : String) (h : s k = s' k) : s.get k = s'.get k := by unfold Store.get; rw [h]

theorem numOf_congr (k : String) (h : s k = s' k) : numOf num s k = numOf num s' k := by unfold numOf; rw [get_congr k h]
theorem natOf_congr (k : String) (h : s k = s' k) : natOf s k = natOf s' k := by unfold natOf; rw [get_congr k h]
theorem intOf_congr (k : String) (h : s k = s' k) : intOf s k = intOf s' k := by unfold intOf; rw [get_congr k h]
theorem methodOf_congr {μ : Type} (f : CfgVal → μ) (k : String) (h : s k = s' k) : methodOf f s k = methodOf f s' k := by
  unfold methodOf; rw [get_congr k h]

theorem readConsts_congr (h : ∀ k, k ∉ deadConstants → s k = s' k) : readConsts num s = readConsts num s' := by
  unfold readConsts
  rw [numOf_congr "dt" (h _ (by decide)), natOf_congr "max_layers" (h _ (by decide)),
    numOf_congr "z" (h _ (by decide)), methodOf_congr _ "stability_correction" (h _ (by decide)),
    methodOf_congr _ "albedo_method" (h _ (by decide)), methodOf_congr _ "densification_method" (h _ (by decide)),
    methodOf_congr _ "penetrating_method" (h _ (by decide)), methodOf_congr _ "roughness_method" (h _ (by decide)),
    methodOf_congr _ "thermal_conductivity_method" (h _ (by decide)), methodOf_congr _ "sfc_temperature_method" (h _ (by decide)),
    numOf_congr "initial_snowheight_constant" (h _ (by decide)), numOf_congr "initial_glacier_height" (h _ (by decide)),
    numOf_congr "initial_glacier_layer_heights" (h _ (by decide)), numOf_congr "initial_top_density_snowpack" (h _ (by decide)),
    numOf_congr "initial_bottom_density_snowpack" (h _ (by decide)), numOf_congr "temperature_bottom" (h _ (by decide)),
    numOf_congr "zlt1" (h _ (by decide)), numOf_congr "zlt2" (h _ (by decide)),
    numOf_congr "center_snow_transfer_function" (h _ (by decide)), numOf_congr "spread_snow_transfer_function" (h _ (by decide)),
    numOf_congr "mult_factor_RRR" (h _ (by decide)), numOf_congr "minimum_snow_layer_height" (h _ (by decide)),
    numOf_congr "minimum_snowfall" (h _ (by decide)), methodOf_congr _ "remesh_method" (h _ (by decide)),
    numOf_congr "first_layer_height" (h _ (by decide)), numOf_congr "layer_stretching" (h _ (by decide)),
    intOf_congr "merge_max" (h _ (by decide)), numOf_congr "density_threshold_merging" (h _ (by decide)),
    numOf_congr "temperature_threshold_merging" (h _ (by decide)), numOf_congr "constant_density" (h _ (by decide)),
    numOf_congr "albedo_fresh_snow" (h _ (by decide)), numOf_congr "albedo_firn" (h _ (by decide)),
    numOf_congr "albedo_ice" (h _ (by decide)), numOf_congr "albedo_mod_snow_aging" (h _ (by decide)),
    numOf_congr "albedo_mod_snow_depth" (h _ (by decide)), numOf_congr "t_star_wet" (h _ (by decide)),
    numOf_congr "t_star_dry" (h _ (by decide)), numOf_congr "t_star_K" (h _ (by decide)),
    numOf_congr "t_star_cutoff" (h _ (by decide)), numOf_congr "roughness_fresh_snow" (h _ (by decide)),
    numOf_congr "roughness_ice" (h _ (by decide)), numOf_congr "roughness_firn" (h _ (by decide)),
    numOf_congr "aging_factor_roughness" (h _ (by decide)), numOf_congr "snow_ice_threshold" (h _ (by decide)),
    numOf_congr "lat_heat_melting" (h _ (by decide)), numOf_congr "lat_heat_vaporize" (h _ (by decide)),
    numOf_congr "lat_heat_sublimation" (h _ (by decide)), numOf_congr "spec_heat_air" (h _ (by decide)),
    numOf_congr "spec_heat_ice" (h _ (by decide)), numOf_congr "spec_heat_water" (h _ (by decide)),
    numOf_congr "k_i" (h _ (by decide)), numOf_congr "k_w" (h _ (by decide)),
    numOf_congr "k_a" (h _ (by decide)), numOf_congr "water_density" (h _ (by decide)),
    numOf_congr "ice_density" (h _ (by decide)), numOf_congr "air_density" (h _ (by decide)),
    numOf_congr "sigma" (h _ (by decide)), numOf_congr "zero_temperature" (h _ (by decide)),
    numOf_congr "surface_emission_coeff" (h _ (by decide))]

theorem numOf_eq_ok {k : String} {x : α} (h : numOf num s k = .ok x) : ∃ v, s k = some v ∧ num v = .ok x := by
  unfold numOf Store.get at h
  cases hs : s k with
  | none => rw [hs] at h; cases h
  | some v => rw [hs] at h; exact ⟨v, rfl, h⟩

theorem methodOf_eq_ok {μ : Type} {f : CfgVal → μ} {k : String} {x : μ} (h : methodOf f s k = .ok x) : ∃ v, s k = some v ∧ f v = x := by
  unfold methodOf Store.get at h
  cases hs : s k with
  | none => rw [hs] at h; cases h
  | some v => rw [hs] at h; cases h; exact ⟨v, rfl, rfl⟩

theorem readConsts_numbers {c : Consts α} (h : readConsts num s = .ok c) :
    ∀ p ∈ numberTable α, ∃ v, s p.1 = some v ∧ num v = .ok (p.2 c) := by
  unfold readConsts at h
  obtain ⟨x0, h0, h⟩ := bind_eq_ok.1 h
  obtain ⟨x1, h1, h⟩ := bind_eq_ok.1 h
  obtain ⟨x2, h2, h⟩ := bind_eq_ok.1 h
  obtain ⟨x3, h3, h⟩ := bind_eq_ok.1 h
  obtain ⟨x4, h4, h⟩ := bind_eq_ok.1 h
  obtain ⟨x5, h5, h⟩ := bind_eq_ok.1 h
  obtain ⟨x6, h6, h⟩ := bind_eq_ok.1 h
  obtain ⟨x7, h7, h⟩ := bind_eq_ok.1 h
  obtain ⟨x8, h8, h⟩ := bind_eq_ok.1 h
  obtain ⟨x9, h9, h⟩ := bind_eq_ok.1 h
  obtain ⟨x10, h10, h⟩ := bind_eq_ok.1 h
  obtain ⟨x11, h11, h⟩ := bind_eq_ok.1 h
  obtain ⟨x12, h12, h⟩ := bind_eq_ok.1 h
  obtain ⟨x13, h13, h⟩ := bind_eq_ok.1 h
  obtain ⟨x14, h14, h⟩ := bind_eq_ok.1 h
  obtain ⟨x15, h15, h⟩ := bind_eq_ok.1 h
  obtain ⟨x16, h16, h⟩ := bind_eq_ok.1 h
  obtain ⟨x17, h17, h⟩ := bind_eq_ok.1 h
  obtain ⟨x18, h18, h⟩ := bind_eq_ok.1 h
  obtain ⟨x19, h19, h⟩ := bind_eq_ok.1 h
  obtain ⟨x20, h20, h⟩ := bind_eq_ok.1 h
  obtain ⟨x21, h21, h⟩ := bind_eq_ok.1 h
  obtain ⟨x22, h22, h⟩ := bind_eq_ok.1 h
  obtain ⟨x23, h23, h⟩ := bind_eq_ok.1 h
  obtain ⟨x24, h24, h⟩ := bind_eq_ok.1 h
  obtain ⟨x25, h25, h⟩ := bind_eq_ok.1 h
  obtain ⟨x26, h26, h⟩ := bind_eq_ok.1 h
  obtain ⟨x27, h27, h⟩ := bind_eq_ok.1 h
  obtain ⟨x28, h28, h⟩ := bind_eq_ok.1 h
  obtain ⟨x29, h29, h⟩ := bind_eq_ok.1 h
  obtain ⟨x30, h30, h⟩ := bind_eq_ok.1 h
  obtain ⟨x31, h31, h⟩ := bind_eq_ok.1 h
  obtain ⟨x32, h32, h⟩ := bind_eq_ok.1 h
  obtain ⟨x33, h33, h⟩ := bind_eq_ok.1 h
  obtain ⟨x34, h34, h⟩ := bind_eq_ok.1 h
  obtain ⟨x35, h35, h⟩ := bind_eq_ok.1 h
  obtain ⟨x36, h36, h⟩ := bind_eq_ok.1 h
  obtain ⟨x37, h37, h⟩ := bind_eq_ok.1 h
  obtain ⟨x38, h38, h⟩ := bind_eq_ok.1 h
  obtain ⟨x39, h39, h⟩ := bind_eq_ok.1 h
  obtain ⟨x40, h40, h⟩ := bind_eq_ok.1 h
  obtain ⟨x41, h41, h⟩ := bind_eq_ok.1 h
  obtain ⟨x42, h42, h⟩ := bind_eq_ok.1 h
  obtain ⟨x43, h43, h⟩ := bind_eq_ok.1 h
  obtain ⟨x44, h44, h⟩ := bind_eq_ok.1 h
  obtain ⟨x45, h45, h⟩ := bind_eq_ok.1 h
  obtain ⟨x46, h46, h⟩ := bind_eq_ok.1 h
  obtain ⟨x47, h47, h⟩ := bind_eq_ok.1 h
  obtain ⟨x48, h48, h⟩ := bind_eq_ok.1 h
  obtain ⟨x49, h49, h⟩ := bind_eq_ok.1 h
  obtain ⟨x50, h50, h⟩ := bind_eq_ok.1 h
  obtain ⟨x51, h51, h⟩ := bind_eq_ok.1 h
  obtain ⟨x52, h52, h⟩ := bind_eq_ok.1 h
  obtain ⟨x53, h53, h⟩ := bind_eq_ok.1 h
  obtain ⟨x54, h54, h⟩ := bind_eq_ok.1 h
  obtain ⟨x55, h55, h⟩ := bind_eq_ok.1 h
  obtain ⟨x56, h56, h⟩ := bind_eq_ok.1 h
  obtain ⟨x57, h57, h⟩ := bind_eq_ok.1 h
  obtain ⟨x58, h58, h⟩ := bind_eq_ok.1 h
  cases h
  unfold numberTable
  simp only [List.forall_mem_cons, List.not_mem_nil, false_implies, implies_true, and_true]
  exact ⟨numOf_eq_ok h0, numOf_eq_ok h2, numOf_eq_ok h10, numOf_eq_ok h11, numOf_eq_ok h12, numOf_eq_ok h13, numOf_eq_ok h14, numOf_eq_ok
    h15, numOf_eq_ok h16, numOf_eq_ok h17, numOf_eq_ok h18, numOf_eq_ok h19, numOf_eq_ok h20, numOf_eq_ok h21, numOf_eq_ok h22, numOf_eq_ok
    h24, numOf_eq_ok h25, numOf_eq_ok h27, numOf_eq_ok h28, numOf_eq_ok h29, numOf_eq_ok h30, numOf_eq_ok h31, numOf_eq_ok h32, numOf_eq_ok
    h33, numOf_eq_ok h34, numOf_eq_ok h35, numOf_eq_ok h36, numOf_eq_ok h37, numOf_eq_ok h38, numOf_eq_ok h39, numOf_eq_ok h40, numOf_eq_ok
    h41, numOf_eq_ok h42, numOf_eq_ok h43, numOf_eq_ok h44, numOf_eq_ok h45, numOf_eq_ok h46, numOf_eq_ok h47, numOf_eq_ok h48, numOf_eq_ok
    h49, numOf_eq_ok h50, numOf_eq_ok h51, numOf_eq_ok h52, numOf_eq_ok h53, numOf_eq_ok h54, numOf_eq_ok h55, numOf_eq_ok h56, numOf_eq_ok
    h57, numOf_eq_ok h58⟩

theorem method_ok {μ : Type} {f : CfgVal → μ} {k : String} {x : μ} {v : CfgVal} (h : methodOf f s k = .ok x) (e : s k = some v) :
    f v = x := by
  obtain ⟨w, hw, hx⟩ := methodOf_eq_ok h
  rw [e] at hw
  cases hw
  exact hx

theorem intOf_eq_ok {k : String} {i : Int} (h : intOf s k = .ok i) : s k = some (.int i) := by
  unfold intOf Store.get at h
  cases hs : s k with
  | none => rw [hs] at h; cases h
  | some v =>
    rw [hs] at h
    cases v <;> cases h
    rfl

theorem natOf_eq_ok {k : String} {n : Nat} (h : natOf s k = .ok n) : s k = some (.int (n : Int)) := by
  unfold natOf Store.get at h
  cases hs : s k with
  | none => rw [hs] at h; cases h
  | some v =>
    rw [hs, ok_bind] at h
    cases v with
    | int i =>
      dsimp only at h
      split_ifs at h with hi
      cases h
      rw [Int.toNat_of_nonneg hi]
    | _ => cases h

/-- A value that is none of the given names. -/
def NoneOf (names : List String) (v : CfgVal) : Prop := ∀ n ∈ names, v ≠ .str n

theorem stabilityOf_other {v : CfgVal} (h : NoneOf ["MO", "Ri"] v) : stabilityOf v = .other := by
  cases v <;> simp_all [NoneOf, stabilityOf]
theorem albedoOf_other {v : CfgVal} (h : NoneOf ["Oerlemans98", "Bougamont05"] v) : albedoOf v = .other := by
  cases v <;> simp_all [NoneOf, albedoOf]
theorem densificationOf_other {v : CfgVal} (h : NoneOf ["Boone", "Vionnet", "empirical", "constant"] v) : densificationOf v = .other := by
  cases v <;> simp_all [NoneOf, densificationOf]
theorem penetratingOf_other {v : CfgVal} (h : NoneOf ["Bintanja95"] v) : penetratingOf v = .other := by
  cases v <;> simp_all [NoneOf, penetratingOf]
theorem roughnessOf_other {v : CfgVal} (h : NoneOf ["Moelg12"] v) : roughnessOf v = .other := by
  cases v <;> simp_all [NoneOf, roughnessOf]
theorem conductivityOf_other {v : CfgVal} (h : NoneOf ["bulk", "empirical"] v) : conductivityOf v = .other := by
  cases v <;> simp_all [NoneOf, conductivityOf]
theorem sfcOf_other {v : CfgVal} (h : NoneOf ["L-BFGS-B", "SLSQP", "Newton", "Secant"] v) : sfcOf v = .other := by
  cases v <;> simp_all [NoneOf, sfcOf]
theorem remeshOf_other {v : CfgVal} (h : NoneOf ["log_profile", "adaptive_profile"] v) : remeshOf v = .other := by
  cases v <;> simp_all [NoneOf, remeshOf]

theorem readConsts_others {c : Consts α} (h : readConsts num s = .ok c) :
    s "max_layers" = some (.int (c.maxLayers : Int)) ∧ s "merge_max" = some (.int c.mergeMax) ∧
    (∀ p ∈ methodTable α, s p.1 = some (.str p.2.1) → p.2.2 c) ∧
    (∀ p ∈ unknownTable α, ∀ v, s p.1 = some v → NoneOf p.2.1 v → p.2.2 c) := by
  unfold readConsts at h
  obtain ⟨x0, h0, h⟩ := bind_eq_ok.1 h
  obtain ⟨x1, h1, h⟩ := bind_eq_ok.1 h
  obtain ⟨x2, h2, h⟩ := bind_eq_ok.1 h
  obtain ⟨x3, h3, h⟩ := bind_eq_ok.1 h
  obtain ⟨x4, h4, h⟩ := bind_eq_ok.1 h
  obtain ⟨x5, h5, h⟩ := bind_eq_ok.1 h
  obtain ⟨x6, h6, h⟩ := bind_eq_ok.1 h
  obtain ⟨x7, h7, h⟩ := bind_eq_ok.1 h
  obtain ⟨x8, h8, h⟩ := bind_eq_ok.1 h
  obtain ⟨x9, h9, h⟩ := bind_eq_ok.1 h
  obtain ⟨x10, h10, h⟩ := bind_eq_ok.1 h
  obtain ⟨x11, h11, h⟩ := bind_eq_ok.1 h
  obtain ⟨x12, h12, h⟩ := bind_eq_ok.1 h
  obtain ⟨x13, h13, h⟩ := bind_eq_ok.1 h
  obtain ⟨x14, h14, h⟩ := bind_eq_ok.1 h
  obtain ⟨x15, h15, h⟩ := bind_eq_ok.1 h
  obtain ⟨x16, h16, h⟩ := bind_eq_ok.1 h
  obtain ⟨x17, h17, h⟩ := bind_eq_ok.1 h
  obtain ⟨x18, h18, h⟩ := bind_eq_ok.1 h
  obtain ⟨x19, h19, h⟩ := bind_eq_ok.1 h
  obtain ⟨x20, h20, h⟩ := bind_eq_ok.1 h
  obtain ⟨x21, h21, h⟩ := bind_eq_ok.1 h
  obtain ⟨x22, h22, h⟩ := bind_eq_ok.1 h
  obtain ⟨x23, h23, h⟩ := bind_eq_ok.1 h
  obtain ⟨x24, h24, h⟩ := bind_eq_ok.1 h
  obtain ⟨x25, h25, h⟩ := bind_eq_ok.1 h
  obtain ⟨x26, h26, h⟩ := bind_eq_ok.1 h
  obtain ⟨x27, h27, h⟩ := bind_eq_ok.1 h
  obtain ⟨x28, h28, h⟩ := bind_eq_ok.1 h
  obtain ⟨x29, h29, h⟩ := bind_eq_ok.1 h
  obtain ⟨x30, h30, h⟩ := bind_eq_ok.1 h
  obtain ⟨x31, h31, h⟩ := bind_eq_ok.1 h
  obtain ⟨x32, h32, h⟩ := bind_eq_ok.1 h
  obtain ⟨x33, h33, h⟩ := bind_eq_ok.1 h
  obtain ⟨x34, h34, h⟩ := bind_eq_ok.1 h
  obtain ⟨x35, h35, h⟩ := bind_eq_ok.1 h
  obtain ⟨x36, h36, h⟩ := bind_eq_ok.1 h
  obtain ⟨x37, h37, h⟩ := bind_eq_ok.1 h
  obtain ⟨x38, h38, h⟩ := bind_eq_ok.1 h
  obtain ⟨x39, h39, h⟩ := bind_eq_ok.1 h
  obtain ⟨x40, h40, h⟩ := bind_eq_ok.1 h
  obtain ⟨x41, h41, h⟩ := bind_eq_ok.1 h
  obtain ⟨x42, h42, h⟩ := bind_eq_ok.1 h
  obtain ⟨x43, h43, h⟩ := bind_eq_ok.1 h
  obtain ⟨x44, h44, h⟩ := bind_eq_ok.1 h
  obtain ⟨x45, h45, h⟩ := bind_eq_ok.1 h
  obtain ⟨x46, h46, h⟩ := bind_eq_ok.1 h
  obtain ⟨x47, h47, h⟩ := bind_eq_ok.1 h
  obtain ⟨x48, h48, h⟩ := bind_eq_ok.1 h
  obtain ⟨x49, h49, h⟩ := bind_eq_ok.1 h
  obtain ⟨x50, h50, h⟩ := bind_eq_ok.1 h
  obtain ⟨x51, h51, h⟩ := bind_eq_ok.1 h
  obtain ⟨x52, h52, h⟩ := bind_eq_ok.1 h
  obtain ⟨x53, h53, h⟩ := bind_eq_ok.1 h
  obtain ⟨x54, h54, h⟩ := bind_eq_ok.1 h
  obtain ⟨x55, h55, h⟩ := bind_eq_ok.1 h
  obtain ⟨x56, h56, h⟩ := bind_eq_ok.1 h
  obtain ⟨x57, h57, h⟩ := bind_eq_ok.1 h
  obtain ⟨x58, h58, h⟩ := bind_eq_ok.1 h
  cases h
  refine ⟨natOf_eq_ok h1, intOf_eq_ok h26, ?_, ?_⟩
  · unfold methodTable
    simp only [List.forall_mem_cons, List.not_mem_nil, false_implies, implies_true, and_true]
    exact ⟨fun e => (method_ok h3 e).symm, fun e => (method_ok h3 e).symm, fun e => (method_ok h4 e).symm, fun e => (method_ok h4 e).symm,
      fun e => (method_ok h5 e).symm, fun e => (method_ok h5 e).symm, fun e => (method_ok h5 e).symm, fun e => (method_ok h5 e).symm, fun e
      => (method_ok h6 e).symm, fun e => (method_ok h7 e).symm, fun e => (method_ok h8 e).symm, fun e => (method_ok h8 e).symm, fun e =>
      (method_ok h9 e).symm, fun e => (method_ok h9 e).symm, fun e => (method_ok h9 e).symm, fun e => (method_ok h9 e).symm, fun e =>
      (method_ok h23 e).symm, fun e => (method_ok h23 e).symm⟩
  · unfold unknownTable
    simp only [List.forall_mem_cons, List.not_mem_nil, false_implies, implies_true, and_true]
    refine ⟨?_, ?_, ?_, ?_, ?_, ?_, ?_, ?_⟩
    · exact fun v e hn => (method_ok h3 e).symm.trans (stabilityOf_other hn)
    · exact fun v e hn => (method_ok h4 e).symm.trans (albedoOf_other hn)
    · exact fun v e hn => (method_ok h5 e).symm.trans (densificationOf_other hn)
    · exact fun v e hn => (method_ok h6 e).symm.trans (penetratingOf_other hn)
    · exact fun v e hn => (method_ok h7 e).symm.trans (roughnessOf_other hn)
    · exact fun v e hn => (method_ok h8 e).symm.trans (conductivityOf_other hn)
    · exact fun v e hn => (method_ok h9 e).symm.trans (sfcOf_other hn)
    · exact fun v e hn => (method_ok h23 e).symm.trans (remeshOf_other hn)

end

/-! ## The two files -/

section
variable {α : Type} [Zero α] {num : CfgVal → M α} {cfgCls constCls : Store CfgVal} {config constants : Toml} {l : Loaded α}

/-- The stages of loading. -/
theorem loadFiles_stages (h : loadFiles num cfgCls constCls config constants = .ok l) :
    ∃ cfg s, configLoad cfgCls config = .ok cfg ∧ setConfigValues constCls constants = .ok s ∧
      readConsts num s = .ok l.consts ∧ l.run.dt = l.consts.dt ∧ l.run.z = l.consts.z ∧ l.run.maxLayers = l.consts.maxLayers ∧
      l.select.multFactor = l.consts.multFactorRRR ∧ (∃ v, cfg "WRF_X_CSPY" = some v ∧ v.truthy = false) ∧
      (∃ v, cfg "full_field" = some v ∧ l.run.fullField = v.truthy) ∧
      (∃ v, cfg "force_use_TP" = some v ∧ l.select.forceTP = v.truthy) ∧
      (∃ v, cfg "force_use_N" = some v ∧ l.select.forceN = v.truthy) ∧
      (∃ v, cfg "stake_evaluation" = some v ∧ l.stakes.evaluation = v.truthy) ∧
      (∃ v, cfg "obs_type" = some v ∧ l.stakes.obsMb = (v == .str "mb") ∧ l.stakes.obsSnow = (v == .str "snowheight")) := by
  have flag : ∀ {cfg : Store CfgVal} {k : String} {b : Bool}, flagOf cfg k = .ok b → ∃ v, cfg k = some v ∧ b = v.truthy := by
    intro cfg k b h
    unfold flagOf Store.get at h
    cases hs : cfg k with
    | none => rw [hs] at h; cases h
    | some v => rw [hs] at h; cases h; exact ⟨v, rfl, rfl⟩
  unfold loadFiles at h
  obtain ⟨cfg, h1, h⟩ := bind_eq_ok.1 h
  obtain ⟨s, h2, h⟩ := bind_eq_ok.1 h
  obtain ⟨coupled, h3, h⟩ := bind_eq_ok.1 h
  split_ifs at h with hc
  obtain ⟨c, h4, h⟩ := bind_eq_ok.1 h
  obtain ⟨full, h5, h⟩ := bind_eq_ok.1 h
  obtain ⟨tp, h6, h⟩ := bind_eq_ok.1 h
  obtain ⟨n, h7, h⟩ := bind_eq_ok.1 h
  obtain ⟨ev, h8, h⟩ := bind_eq_ok.1 h
  obtain ⟨obs, h9, h⟩ := bind_eq_ok.1 h
  cases h
  obtain ⟨v, hv, hb⟩ := flag h3
  have ht : v.truthy = false := by rw [← hb]; exact Bool.eq_false_iff.2 hc
  have h2' : setConfigValues constCls constants = .ok s := by
    unfold constantsLoad Store.get constantsCorrect at h2
    rw [hv] at h2
    simpa [ht, ok_bind] using h2
  have hobs : cfg "obs_type" = some obs := by
    unfold Store.get at h9
    cases hs : cfg "obs_type" with
    | none => rw [hs] at h9; cases h9
    | some w => rw [hs] at h9; cases h9; rfl
  exact ⟨cfg, s, h1, h2', h4, rfl, rfl, rfl, rfl, ⟨v, hv, ht⟩, flag h5, flag h6, flag h7, flag h8, ⟨obs, hobs, rfl, rfl⟩⟩

/-- **C131, numbers.** For every pair of files that loads: each number of constants.toml is, in the simulation, the number that
stands in the file (the last one, if the key occurs more than once); so are `max_layers` and `merge_max`. Time step, height of
the wind and factor of the precipitation are those of the run. -/
theorem C131_constants (h : loadFiles num cfgCls constCls config constants = .ok l) :
    (∀ p ∈ numberTable α, ∀ v, LastValue constants.flat p.1 v → num v = .ok (p.2 l.consts)) ∧
    (∀ v, LastValue constants.flat "max_layers" v → v = .int (l.consts.maxLayers : Int)) ∧
    (∀ v, LastValue constants.flat "merge_max" v → v = .int l.consts.mergeMax) ∧
    (∀ v, LastValue constants.flat "dt" v → num v = .ok l.run.dt) ∧
    (∀ v, LastValue constants.flat "z" v → num v = .ok l.run.z) ∧
    (∀ v, LastValue constants.flat "max_layers" v → v = .int (l.run.maxLayers : Int)) ∧
    (∀ v, LastValue constants.flat "mult_factor_RRR" v → num v = .ok l.select.multFactor) := by
  obtain ⟨cfg, s, -, h2, h3, e1, e2, e3, e4, -⟩ := loadFiles_stages h
  have key : ∀ {k : String} {v w : CfgVal}, LastValue constants.flat k v → s k = some w → w = v := by
    intro k v w hv hw
    rw [setConfigValues_eq_ok h2, foldl_set_last hv] at hw
    cases hw
    rfl
  have hn : ∀ p ∈ numberTable α, ∀ v, LastValue constants.flat p.1 v → num v = .ok (p.2 l.consts) := by
    intro p hp v hv
    obtain ⟨w, hw, hx⟩ := readConsts_numbers h3 p hp
    rw [← key hv hw]
    exact hx
  obtain ⟨o1, o2, -⟩ := readConsts_others h3
  refine ⟨hn, fun v hv => (key hv o1).symm, fun v hv => (key hv o2).symm, ?_, ?_, ?_, ?_⟩
  · rw [e1]; exact hn ("dt", (·.dt)) (by simp [numberTable])
  · rw [e2]; exact hn ("z", (·.z)) (by simp [numberTable])
  · rw [e3]; exact fun v hv => (key hv o1).symm
  · rw [e4]; exact hn ("mult_factor_RRR", (·.multFactorRRR)) (by simp [numberTable])

/-- **C131, methods.** A method named in constants.toml is the one the simulation uses; a name that is not known is no known method
(and an error or no remeshing, where it is used). -/
theorem C131_methods (h : loadFiles num cfgCls constCls config constants = .ok l) :
    (∀ p ∈ methodTable α, LastValue constants.flat p.1 (.str p.2.1) → p.2.2 l.consts) ∧
    (∀ p ∈ unknownTable α, ∀ v, LastValue constants.flat p.1 v → NoneOf p.2.1 v → p.2.2 l.consts) := by
  obtain ⟨cfg, s, -, h2, h3, -⟩ := loadFiles_stages h
  have key : ∀ {k : String} {v : CfgVal}, LastValue constants.flat k v → s k = some v := by
    intro k v hv
    rw [setConfigValues_eq_ok h2, foldl_set_last hv]
  obtain ⟨-, -, o3, o4⟩ := readConsts_others h3
  exact ⟨fun p hp hv => o3 p hp (key hv), fun p hp v hv hn => o4 p hp v (key hv) hn⟩

/-- The switches of config.toml a simulation of a cell looks at: table, key, and where the simulation has them. -/
def switchTable (α : Type) : List (String × String × (Loaded α → Bool)) :=
  [("FULL_FIELDS", "full_field", (·.run.fullField)), ("FORCINGS", "force_use_TP", (·.select.forceTP)),
   ("FORCINGS", "force_use_N", (·.select.forceN)), ("STAKE_DATA", "stake_evaluation", (·.stakes.evaluation))]

/-- **C131, switches.** In a configuration whose keys are distinct and stand in their own table, for a run that is not coupled: full
fields, the forced use of precipitation and clouds and the stake evaluation are on exactly if the file says so. -/
theorem C131_switches (h : loadFiles num cfgCls constCls config constants = .ok l) (hv : config.Valid) {w : CfgVal}
    (hw : config.item "DIMENSIONS" "WRF_X_CSPY" = .ok w) (hf : w.truthy = false) :
    ∀ p ∈ switchTable α, config.OnlyIn p.2.1 p.1 → ∀ v, config.item p.1 p.2.1 = .ok v → p.2.2 l = v.truthy := by
  obtain ⟨cfg, s, h1, -, -, -, -, -, -, -, f1, f2, f3, f4, -⟩ := loadFiles_stages h
  unfold configLoad at h1
  obtain ⟨c', g1, g2⟩ := bind_eq_ok.1 h1
  obtain ⟨wrf, coupled, workers, i1, i2, i3, i4, i5, i6⟩ := configCorrect_item g1
  rw [hw] at i2
  cases i2
  have key : ∀ {n k : String} {b : Bool}, k ≠ "workers" → k ≠ "easting" → k ≠ "northing" → (k = "full_field" → n = "FULL_FIELDS") →
      (∃ v, cfg k = some v ∧ b = v.truthy) → config.OnlyIn k n → ∀ v, config.item n k = .ok v → b = v.truthy := by
    intro n k b k1 k2 k3 k4 hb ho v hi
    have hi' : c'.item n k = .ok v := by
      rw [i4]
      simp [k1, k2, k3, hf, hi]
    have hl := Toml.load_item (i5 hv) (i6 k n ho (fun e => absurd e k1) k4 (fun e => absurd e k2) (fun e => absurd e k3)) hi' g2
    obtain ⟨u, hu, rfl⟩ := hb
    rw [hl] at hu
    cases hu
    rfl
  unfold switchTable
  simp only [List.forall_mem_cons, List.not_mem_nil, false_implies, implies_true, and_true]
  exact ⟨key (by decide) (by decide) (by decide) (fun _ => rfl) f1,
    key (by decide) (by decide) (by decide) (fun e => absurd e (by decide)) f2,
    key (by decide) (by decide) (by decide) (fun e => absurd e (by decide)) f3,
    key (by decide) (by decide) (by decide) (fun e => absurd e (by decide)) f4⟩

end

/-- **C131, offered.** The settings offered in the shipped constants.toml are the numbers and methods of the tables above,
`max_layers`, `merge_max`, and three more. -/
theorem C131_offered (α : Type) : ∀ k, k ∈ constantsFile.flat.map Prod.fst ↔
    k ∈ (numberTable α).map Prod.fst ∨ k ∈ (unknownTable α).map Prod.fst ∨ k = "max_layers" ∨ k = "merge_max" ∨
      k ∈ deadConstants := by
  intro k
  have e1 : (numberTable α).map Prod.fst = (numberTable Unit).map Prod.fst := rfl
  have e2 : (unknownTable α).map Prod.fst = (unknownTable Unit).map Prod.fst := rfl
  rw [e1, e2]
  have h1 : ∀ k ∈ constantsFile.flat.map Prod.fst, k ∈ (numberTable Unit).map Prod.fst ∨ k ∈ (unknownTable Unit).map Prod.fst ∨
      k = "max_layers" ∨ k = "merge_max" ∨ k ∈ deadConstants := by decide +kernel
  have h2 : (∀ k ∈ (numberTable Unit).map Prod.fst, k ∈ constantsFile.flat.map Prod.fst) ∧
      (∀ k ∈ (unknownTable Unit).map Prod.fst, k ∈ constantsFile.flat.map Prod.fst) ∧
      "max_layers" ∈ constantsFile.flat.map Prod.fst ∧ "merge_max" ∈ constantsFile.flat.map Prod.fst ∧
      ∀ k ∈ deadConstants, k ∈ constantsFile.flat.map Prod.fst := by decide +kernel
  constructor
  · exact h1 k
  · rintro (h | h | rfl | rfl | h)
    · exact h2.1 k h
    · exact h2.2.1 k h
    · exact h2.2.2.1
    · exact h2.2.2.2.1
    · exact h2.2.2.2.2 k h

section
variable {α : Type} [Add α] [Sub α] [Mul α] [Div α] [Neg α] [LT α] [LE α]
  [DecidableLT α] [DecidableLE α] [BEq α] [Zero α] [One α] [NatCast α] [OfScientific α] [Transc α] [HasTrunc α]
variable {τ : Type} [DecidableEq τ] {f : String → CfgVal → CfgVal}

theorem loadFiles_vary (hf : OnlyChanges f deadConstants) (num : CfgVal → M α) (cfgCls constCls : Store CfgVal) (config constants : Toml) :
    loadFiles num cfgCls constCls config (constants.vary f) = loadFiles num cfgCls constCls config constants := by
  unfold loadFiles
  cases h1 : configLoad cfgCls config with
  | error e => rfl
  | ok cfg =>
    simp only [ok_bind]
    unfold constantsLoad Store.get
    cases hw : cfg "WRF_X_CSPY" with
    | none => rfl
    | some w =>
      simp only [ok_bind]
      have hc : constantsCorrect w (constants.vary f) = (constantsCorrect w constants).map (Toml.vary f) := by
        unfold constantsCorrect
        by_cases ht : w.truthy = true
        · rw [if_pos ht, if_pos ht, setItem_vary (hf _ _ (by decide))]
          cases constants.setItem "PARAMETERIZATIONS" "albedo_method" (.str "Oerlemans98") with
          | error e => rfl
          | ok d => exact setItem_vary (hf _ _ (by decide)) d _
        · rw [if_neg ht, if_neg ht]; rfl
      rw [hc]
      cases constantsCorrect w constants with
      | error e => rfl
      | ok d =>
        have ha := load_vary hf d (s := constCls) (s' := constCls) (fun _ _ => rfl)
        simp only [Except.map, ok_bind]
        cases h3 : setConfigValues constCls d with
        | error e =>
          cases h4 : setConfigValues constCls (d.vary f) with
          | error e' => rw [h3, h4] at ha; cases ha; rfl
          | ok _ => rw [h3, h4] at ha; cases ha
        | ok s =>
          cases h4 : setConfigValues constCls (d.vary f) with
          | error e' => rw [h3, h4] at ha; cases ha
          | ok s' =>
            rw [h3, h4] at ha
            simp only [ok_bind]
            rw [readConsts_congr (num := num) ha]

/-- **C131, refuted: settings without effect.** Whatever values `initial_snow_layer_heights`, `const_init_temp` and `saturation_water_vapour_method`
are given, in any files, every simulation of any domain with any input gives the same results, or fails in the same way. -/
theorem C131_ignored_refuted (hf : OnlyChanges f deadConstants) (num : CfgVal → M α) (cfgCls constCls : Store CfgVal)
    (config constants : Toml) (sv : Solvers α) (fuel : Nat) (fill : α) (times : List τ) (io : IOState α) (g nan : Nat → Nat → Bool)
    (input : Nat → Nat → CellInput α τ) (order : List (Nat × Nat) → List (Nat × Nat)) :
    simulateFiles num cfgCls constCls config (constants.vary f) sv fuel fill times io g nan input order =
      simulateFiles num cfgCls constCls config constants sv fuel fill times io g nan input order := by
  unfold simulateFiles
  rw [loadFiles_vary hf]

end

/-! ## A whole run with its two files -/

section
variable {K : Type} [Field K] [LinearOrder K] [IsStrictOrderedRing K] [Transc K] [HasTrunc K]
variable {τ : Type} [DecidableEq τ]

/-- **C131, the run.** If a run with its two files finishes, the files have been read, and every glacier cell has been
simulated with the constants and settings read from them, on its own data. Every requested variable over time and space holds at
a glacier cell the quantity its name says, and at any other cell the fill value. -/
theorem C131_simulated {num : CfgVal → M K} {cfgCls constCls : Store CfgVal} {config constants : Toml} {sv : Solvers K} {fuel : Nat}
    {fill : K} {times : List τ} {io : IOState K} {g nan : Nat → Nat → Bool} {input : Nat → Nat → CellInput K τ}
    {order : List (Nat × Nat) → List (Nat × Nat)} {s : IOState K × StakeState K} (hio : ∀ k, io.attrs k = none)
    (ho : ∀ l, (order l).Perm l) (ht : ∀ y x, times.length = (input y x).data.nt)
    (h : simulateFiles num cfgCls constCls config constants sv fuel fill times io g nan input order = .ok s) :
    ∃ l, loadFiles num cfgCls constCls config constants = .ok l ∧
      (∀ y x, y < io.ny → x < io.nx → g y x = true → nan y x = false ∧
        ∃ s0 sE fs os, CellRun sv fuel l.consts l.run l.select (input y x) s0 sE fs os ∧ os.length = times.length ∧
          ∀ kind name param, (kind, name, param) ∈ copyCalls → io.wants kind name = true → kind ≠ .full →
            ∀ t o, os[t]? = some o → ∃ a st, s.1.result (attrName kind name) = some a ∧
              run sv fuel l.consts ((input y x).cfg l.run) s0 (fs.take (t + 1)) = .ok (st, os.take (t + 1)) ∧
              ∀ k, SeriesMeans l.consts fill name st o (a.val t y x k)) ∧
      ∀ kind name param, (kind, name, param) ∈ copyCalls → io.wants kind name = true →
        ∃ a, s.1.attrs (attrName kind name) = some a ∧
          ∀ y x t k, ¬ (y < io.ny ∧ x < io.nx ∧ g y x = true) → a.val t y x k = fill := by
  unfold simulateFiles at h
  obtain ⟨l, hl, h⟩ := bind_eq_ok.1 h
  refine ⟨l, hl, fun y x hy hx hg => ⟨?_, ?_⟩, fun kind name param hm hw => ?_⟩
  · unfold simulateDomain runCosipy at h
    obtain ⟨ts, h1, -⟩ := bind_eq_ok.1 h
    exact (submitTasks_eq_ok.1 h1).2 y x hy hx hg
  · obtain ⟨s0, sE, fs, os, hc, hlen, -⟩ := C69_simulated hio ho ht h hy hx hg
    exact ⟨s0, sE, fs, os, hc, hlen, fun kind name param hm hw hk t o hto => C69_series hio ho ht h hy hx hg hc hm hw hk hto⟩
  · obtain ⟨a, ha, -, hf, -⟩ := C46_written hio (fun y x res hr => kernel_resultOf hr) ho h hm hw
    exact ⟨a, ha, hf⟩

end

/-! ## Slurm -/

/-- The settings of slurm_config.toml that are passed on: table, key and the argument. -/
def requestTable : List (String × String × (JobRequest → CfgVal)) :=
  [("LABELS", "name", (·.jobName)), ("LABELS", "account", (·.account)), ("PARAMETERS", "slurm_parameters", (·.directives)),
   ("PARAMETERS", "local_directory", (·.localDirectory)), ("MEMORY", "cores", (·.cores)), ("MEMORY", "cores", (·.processes))]

theorem slurmCorrect_item {c c' : Toml} (h : slurmCorrect c = .ok c') :
    (∀ n k, k ≠ "memory" → c'.item n k = c.item n k) ∧ (c.Valid → c'.Valid) ∧
    (∀ k n, c.OnlyIn k n → (k = "memory" → n = "MEMORY") → c'.OnlyIn k n) ∧
    ∃ m, c.item "OVERRIDES" "memory_per_process" = .ok m ∧
      ((m.truthy = false ∧ c' = c) ∨ ∃ a b : Int, m = .int a ∧ c.item "MEMORY" "cores" = .ok (.int b) ∧
        c'.item "MEMORY" "memory" = .ok (.str (toString (a * b) ++ "GB"))) := by
  unfold slurmCorrect at h
  obtain ⟨m, h1, h⟩ := bind_eq_ok.1 h
  split_ifs at h with ht
  · obtain ⟨cores, h2, h⟩ := bind_eq_ok.1 h
    have hab : ∃ a b : Int, m = .int a ∧ cores = .int b ∧ c.setItem "MEMORY" "memory" (.str (toString (a * b) ++ "GB")) = .ok c' := by
      cases m <;> first | cases h | skip
      cases cores <;> first | cases h | skip
      exact ⟨_, _, rfl, rfl, h⟩
    obtain ⟨a, b, rfl, rfl, h⟩ := hab
    refine ⟨fun n k hk => ?_, fun hv => Toml.setItem_valid hv h, fun k n ho hm => ?_, .int a, h1, Or.inr ⟨a, b, rfl, h2, ?_⟩⟩
    · rw [Toml.item_setItem h, if_neg fun e => hk e.2]
    · refine Toml.setItem_onlyIn ho h ?_
      by_cases e : k = "memory"
      · exact Or.inr (hm e).symm
      · exact Or.inl (Ne.symm e)
    · rw [Toml.item_setItem h, if_pos ⟨rfl, rfl⟩]
  · cases h
    exact ⟨fun _ _ _ => rfl, id, fun _ _ ho _ => ho, m, h1, Or.inl ⟨Bool.eq_false_iff.2 ht, rfl⟩⟩

theorem get_eq_ok {s : Store CfgVal} {k : String} {v : CfgVal} (h : s.get k = .ok v) : s k = some v := by
  unfold Store.get at h
  cases hs : s k with
  | none => rw [hs] at h; cases h
  | some w => rw [hs] at h; cases h; rfl

/-- The stages of a request. -/
theorem slurmRequest_stages {cls : Store CfgVal} {c : Toml} {r : JobRequest} (h : slurmRequest cls c = .ok r) :
    ∃ c' s, slurmCorrect c = .ok c' ∧ setConfigValues cls c' = .ok s ∧ s "name" = some r.jobName ∧ s "cores" = some r.cores ∧
      s "cores" = some r.processes ∧ s "memory" = some r.memory ∧ s "account" = some r.account ∧
      s "slurm_parameters" = some r.directives ∧ s "local_directory" = some r.localDirectory ∧
      ∃ a b : Int, s "nodes" = some (.int a) ∧ s "cores" = some (.int b) ∧ r.workers = a * b := by
  unfold slurmRequest slurmLoad at h
  obtain ⟨s, h1, h⟩ := bind_eq_ok.1 h
  obtain ⟨c', h2, h3⟩ := bind_eq_ok.1 h1
  unfold jobRequest at h
  obtain ⟨x1, g1, h⟩ := bind_eq_ok.1 h
  obtain ⟨x2, g2, h⟩ := bind_eq_ok.1 h
  obtain ⟨x3, g3, h⟩ := bind_eq_ok.1 h
  obtain ⟨x4, g4, h⟩ := bind_eq_ok.1 h
  obtain ⟨x5, g5, h⟩ := bind_eq_ok.1 h
  obtain ⟨x6, g6, h⟩ := bind_eq_ok.1 h
  obtain ⟨x7, g7, h⟩ := bind_eq_ok.1 h
  obtain ⟨x8, g8, h⟩ := bind_eq_ok.1 h
  obtain ⟨x9, g9, h⟩ := bind_eq_ok.1 h
  cases h
  exact ⟨c', s, h2, h3, get_eq_ok g1, get_eq_ok g2, get_eq_ok g3, get_eq_ok g4, get_eq_ok g5, get_eq_ok g6, get_eq_ok g7,
    x8, x9, intOf_eq_ok g8, intOf_eq_ok g9, rfl⟩

/-- **C131, Slurm.** For every Slurm file that loads, with distinct keys in their own tables: name, account, further parameters,
directory and cores of the jobs are those of the file. One process is started per core, and `nodes · cores` workers. The memory is that
of the file, or with `memory_per_process` that for each of these processes. The settings not mentioned are the subject of
`C131_slurm_refuted`. -/
theorem C131_slurm_partial {cls : Store CfgVal} {c : Toml} {r : JobRequest} (h : slurmRequest cls c = .ok r) (hv : c.Valid) :
    (∀ p ∈ requestTable, c.OnlyIn p.2.1 p.1 → ∀ v, c.item p.1 p.2.1 = .ok v → p.2.2 r = v) ∧
    (c.OnlyIn "nodes" "MEMORY" → c.OnlyIn "cores" "MEMORY" → ∀ a b : Int, c.item "MEMORY" "nodes" = .ok (.int a) →
      c.item "MEMORY" "cores" = .ok (.int b) → r.workers = a * b) ∧
    (c.OnlyIn "memory" "MEMORY" → ∀ m, c.item "OVERRIDES" "memory_per_process" = .ok m →
      (m.truthy = false → ∀ v, c.item "MEMORY" "memory" = .ok v → r.memory = v) ∧
      (∀ a b : Int, m = .int a → a ≠ 0 → c.item "MEMORY" "cores" = .ok (.int b) → r.memory = .str (toString (a * b) ++ "GB"))) := by
  obtain ⟨c', s, h1, h2, e1, e2, e3, e4, e5, e6, e7, a, b, e8, e9, e10⟩ := slurmRequest_stages h
  obtain ⟨i1, i2, i3, m, i4, i5⟩ := slurmCorrect_item h1
  have load : ∀ {n k : String} {v w : CfgVal}, c.OnlyIn k n → (k = "memory" → n = "MEMORY") → c'.item n k = .ok v → s k = some w → w = v := by
    intro n k v w ho hm hi hw
    have := Toml.load_item (i2 hv) (i3 k n ho hm) hi h2
    rw [this] at hw
    cases hw
    rfl
  have key : ∀ {n k : String} {w : CfgVal}, k ≠ "memory" → s k = some w → c.OnlyIn k n → ∀ v, c.item n k = .ok v → w = v := by
    intro n k w hk hw ho v hi
    exact load ho (fun e => absurd e hk) (by rw [i1 n k hk]; exact hi) hw
  refine ⟨?_, ?_, ?_⟩
  · unfold requestTable
    simp only [List.forall_mem_cons, List.not_mem_nil, false_implies, implies_true, and_true]
    exact ⟨key (by decide) e1, key (by decide) e5, key (by decide) e6, key (by decide) e7, key (by decide) e2, key (by decide) e3⟩
  · intro o1 o2 a' b' k1 k2
    have := key (by decide) e8 o1 _ k1
    have h' := key (by decide) e9 o2 _ k2
    cases this
    cases h'
    exact e10
  · intro o m' hm'
    rw [hm'] at i4
    cases i4
    refine ⟨fun hf v hi => ?_, fun a' b' ha ha0 hb => ?_⟩
    · rcases i5 with ⟨-, rfl⟩ | ⟨a', b', rfl, hb, -⟩
      · exact load o (fun _ => rfl) hi e4
      · by_cases h0 : a' = 0
        · subst h0
          unfold slurmCorrect at h1
          rw [hm', ok_bind, if_neg (by decide)] at h1
          cases h1
          exact load o (fun _ => rfl) hi e4
        · exact absurd hf (by simp [CfgVal.truthy, h0])
    · subst ha
      rcases i5 with ⟨hf, -⟩ | ⟨a'', b'', e, hb', hi⟩
      · exact absurd hf (by simp [CfgVal.truthy, ha0])
      · cases e
        rw [hb] at hb'
        cases hb'
        exact load o (fun _ => rfl) hi e4

/-- **C131, refuted for Slurm.** Whatever queue, port, number of processes and shebang the file asks for, the request is the same. -/
theorem C131_slurm_refuted {f : String → CfgVal → CfgVal} (hf : OnlyChanges f deadSlurm) (cls : Store CfgVal) (c : Toml) :
    slurmRequest cls (c.vary f) = slurmRequest cls c := by
  have hid : ∀ k, k ∉ deadSlurm → f k = id := fun k hk => funext fun v => hf k v hk
  have hc : slurmCorrect (c.vary f) = (slurmCorrect c).map (Toml.vary f) := by
    unfold slurmCorrect
    rw [item_vary, item_vary, hid "memory_per_process" (by decide), hid "cores" (by decide)]
    cases c.item "OVERRIDES" "memory_per_process" with
    | error e => rfl
    | ok m =>
      simp only [Except.map, ok_bind, id]
      by_cases ht : m.truthy = true
      · rw [if_pos ht, if_pos ht]
        cases c.item "MEMORY" "cores" with
        | error e => rfl
        | ok n =>
          cases m <;> cases n <;> first | rfl | exact setItem_vary (hf _ _ (by decide)) c _
      · rw [if_neg ht, if_neg ht]
  unfold slurmRequest slurmLoad
  rw [hc]
  cases slurmCorrect c with
  | error e => rfl
  | ok d =>
    have ha := load_vary hf d (s := cls) (s' := cls) (fun _ _ => rfl)
    simp only [Except.map, ok_bind]
    cases h3 : setConfigValues cls d with
    | error e =>
      cases h4 : setConfigValues cls (d.vary f) with
      | error e' => rw [h3, h4] at ha; cases ha; rfl
      | ok _ => rw [h3, h4] at ha; cases ha
    | ok s =>
      cases h4 : setConfigValues cls (d.vary f) with
      | error e' => rw [h3, h4] at ha; cases ha
      | ok s' =>
        rw [h3, h4] at ha
        simp only [ok_bind]
        unfold jobRequest
        rw [get_congr "name" (ha _ (by decide)), get_congr "cores" (ha _ (by decide)), get_congr "memory" (ha _ (by decide)),
          get_congr "account" (ha _ (by decide)), get_congr "slurm_parameters" (ha _ (by decide)),
          get_congr "local_directory" (ha _ (by decide)), intOf_congr "nodes" (ha _ (by decide)),
          intOf_congr "cores" (ha _ (by decide))]

/-! ## Examples -/

/-- Decimals as rational numbers. -/
def decimal : CfgVal → M ℚ
  | .int i => .ok i
  | .float m e => .ok (if 0 ≤ e then (m : ℚ) * ((10 ^ e.toNat : Nat) : ℚ) else (m : ℚ) / ((10 ^ (-e).toNat : Nat) : ℚ))
  | _ => .error .type

/-- No attributes before loading. -/
def noAttrs : Store CfgVal := fun _ => none

/-- The shipped files load. The numbers are those of `Consts.default`, which other theorems use. -/
example : (loadFiles decimal noAttrs noAttrs shippedConfig constantsFile).toOption.map
      (fun l => (numberTable ℚ).map fun p => p.2 l.consts) =
    some ((numberTable ℚ).map fun p => p.2 (Consts.default ℚ)) := by decide +kernel

/-- `C131_constants`, `C131_methods`: what the shipped files say last. -/
example : LastValue constantsFile.flat "albedo_ice" (.float 3 (-1)) ∧ LastValue constantsFile.flat "max_layers" (.int 200) ∧
    LastValue constantsFile.flat "stability_correction" (.str "Ri") :=
  have hv : constantsFile.Valid := valid_of_bool (by decide +kernel)
  ⟨Toml.last_of_item hv (n := "CONSTANTS") (onlyIn_of_bool (by decide +kernel)) (by decide +kernel),
    Toml.last_of_item hv (n := "GENERAL") (onlyIn_of_bool (by decide +kernel)) (by decide +kernel),
    Toml.last_of_item hv (n := "PARAMETERIZATIONS") (onlyIn_of_bool (by decide +kernel)) (by decide +kernel)⟩

/-- `C131_switches`: the shipped file meets the hypotheses. -/
example : shippedConfig.Valid ∧ shippedConfig.item "DIMENSIONS" "WRF_X_CSPY" = .ok (.bool false) ∧
    ∀ p ∈ switchTable ℚ, shippedConfig.OnlyIn p.2.1 p.1 ∧ shippedConfig.item p.1 p.2.1 = .ok (.bool false) := by
  refine ⟨valid_of_bool (by decide +kernel), by decide +kernel, ?_⟩
  unfold switchTable
  simp only [List.forall_mem_cons, List.not_mem_nil, false_implies, implies_true, and_true]
  exact ⟨⟨onlyIn_of_bool (by decide +kernel), by decide +kernel⟩, ⟨onlyIn_of_bool (by decide +kernel), by decide +kernel⟩,
    ⟨onlyIn_of_bool (by decide +kernel), by decide +kernel⟩, ⟨onlyIn_of_bool (by decide +kernel), by decide +kernel⟩⟩

/-- Constants for a quick example: 1 m of ice, layers of 10 cm that double downwards, constant densities. -/
def quickConstants (k : String) (v : CfgVal) : CfgVal :=
  if k = "initial_glacier_height" then .float 1 0 else if k = "first_layer_height" then .float 1 (-1)
  else if k = "layer_stretching" then .float 2 0 else if k = "densification_method" then .str "constant"
  else if k = "sfc_temperature_method" then .str "L-BFGS-B" else v

attribute [local instance] exTransc exTrunc in
/-- `C131_simulated`: the example domain with other constants in the file. -/
example : (simulateFiles decimal noAttrs noAttrs shippedConfig (constantsFile.vary quickConstants) exSolvers 40 (-9999) [0, 1]
    { exIOQ with fullField := false } exMask (fun _ _ => false) exInput List.reverse).toOption.isSome = true := by
  decide +kernel

/-- Other values for the settings without effect: snow layers of 2 cm. -/
def thinLayers (k : String) (v : CfgVal) : CfgVal :=
  if k = "initial_snow_layer_heights" then .float 2 (-2) else v

theorem thinLayers_only : OnlyChanges thinLayers deadConstants := by
  intro k v hk
  unfold thinLayers
  rw [if_neg]
  rintro rfl
  exact hk (by decide)

/-- `int()` for rational numbers. -/
@[reducible] def truncRat : HasTrunc ℚ := ⟨fun q => if 0 ≤ q then q.floor else -(-q).floor⟩

attribute [local instance] truncRat in
/-- The heights of the two topmost layers the simulation starts with. -/
def topLayers (constants : Toml) : M (List ℚ) := do
  let l ← loadFiles decimal noAttrs noAttrs shippedConfig constants
  let g ← initSnowpack l.consts none 265
  let hs ← g.getHeight
  return hs.take 2

/-- **C131, refuted: thickness of the snow layers.** With snow layers of 2 cm configured and 20 cm of snow the simulation
starts with two snow layers of 10 cm, as with the shipped value 10 cm. -/
theorem C131_snow_layers_refuted :
    (constantsFile.vary thinLayers).item "INITIAL_CONDITIONS" "initial_snow_layer_heights" = .ok (.float 2 (-2)) ∧
    topLayers (constantsFile.vary thinLayers) = .ok [1 / 10, 1 / 10] := by
  constructor
  · rw [item_vary]; decide +kernel
  · decide +kernel

/-- `C131_slurm_partial`: the shipped file has distinct keys in their own tables. -/
example : shippedSlurm.Valid ∧ shippedSlurm.OnlyIn "cores" "MEMORY" ∧ shippedSlurm.OnlyIn "nodes" "MEMORY" ∧
    shippedSlurm.OnlyIn "memory" "MEMORY" ∧ shippedSlurm.OnlyIn "account" "LABELS" :=
  ⟨valid_of_bool (by decide +kernel), onlyIn_of_bool (by decide +kernel), onlyIn_of_bool (by decide +kernel),
    onlyIn_of_bool (by decide +kernel), onlyIn_of_bool (by decide +kernel)⟩

/-- `C131_slurm_partial`, `C131_slurm_refuted`: the shipped file asks for one worker, although it says 20 processes. -/
example : slurmRequest noAttrs shippedSlurm =
    .ok ⟨.str "test_cosipy_slurm", .int 1, .int 1, .str "4G", .str "", .list ["--nodes=1", "--error=slurm.err", "--output=slurm.out",
      "--time=00:10:00", "--mem='4G'"], .str "./logs/dask-worker-space", 1⟩ ∧ shippedSlurm.item "MEMORY" "processes" = .ok (.int 20) := by
  decide +kernel

/-- Other values for the settings without effect. -/
example : OnlyChanges (fun k v => if k = "queue" then .str "long" else if k = "processes" then .int 4 else v) deadSlurm := by
  intro k v hk
  dsimp only
  rw [if_neg, if_neg] <;> (rintro rfl; exact hk (by decide))

/-- `memory_per_process` with four cores. -/
example : (slurmRequest noAttrs (shippedSlurm.vary fun k v => if k = "memory_per_process" then .int 2 else if k = "cores" then .int 4 else v)).toOption.map
    (fun r => (r.memory, r.workers)) = some (.str "8GB", 4) := by decide +kernel

end Cosipy
