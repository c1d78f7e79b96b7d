import Verif.Model.Init

/-!
# Distribution of grid points and aggregation of results: `COSIPY.py`, `cosipy/cpkernel/io.py`

Not modelled: dask itself (a worker is a function of its cell; `as_completed` yields the finished tasks in some order),
netCDF encoding, units and long names, progress messages.
-/

set_option autoImplicit false

namespace Cosipy

/-- A numpy array with the axes time (optional), y, x, layer (optional). Entries beyond the sizes are meaningless
(cosipy/cpkernel/io.py:205-224). -/
structure Arr (α : Type) where
  time : Option Nat
  ny : Nat
  nx : Nat
  layer : Option Nat
  val : Nat → Nat → Nat → Nat → α   -- time, y, x, layer

/-- A value for one grid point: the axes time (optional) and layer (optional)
(cosipy/cpkernel/cosipy_core.py:106-147). -/
structure Val (α : Type) where
  time : Option Nat
  layer : Option Nat
  val : Nat → Nat → α

/-- Named attributes or variables (cosipy/cpkernel/io.py:52-101). -/
abbrev Store (β : Type) := String → Option β

/-- `setattr(self, name, value)`, `ds[name] = value` (as in cosipy/cpkernel/io.py:52-65, 938-1088). -/
def Store.set {β : Type} (s : Store β) (name : String) (b : β) : Store β :=
  fun k => if k = name then some b else s k

/-- `getattr(self, name)`: AttributeError if missing (as in cosipy/cpkernel/io.py:67-101). -/
def Store.get {β : Type} (s : Store β) (name : String) : M β :=
  match s name with
  | some b => .ok b
  | none => .error .attribute

/-- Values a worker hands back (cosipy/cpkernel/cosipy_core.py:506-511). -/
inductive PyVal (α : Type) where
  | none
  | int (n : Nat)
  | arr (v : Val α)
  | dataset (d : Store (Val α))
  | names (xs : List String)
  | rows (xs : List (String × α))
  | frame (mb snowheight : Val α)

/-- Which of the three output lists a variable belongs to (cosipy/cpkernel/io.py:18-42). -/
inductive OutKind where
  | atm
  | internal
  | full
  deriving DecidableEq, Repr

/-- The tuple a standalone run returns, cosipy/cpkernel/cosipy_core.py:506-511 (names of the returned variables in
order). -/
def coreReturn : List String :=
  ["indY", "indX", "RESTART", "_RAIN", "_SNOWFALL", "_LWin", "_LWout", "_H", "_LE", "_B", "_QRR",
     "_MB", "_surfMB", "_Q", "_SNOWHEIGHT", "_TOTALHEIGHT", "_TS", "_ALBEDO", "_NLAYERS", "_ME",
     "_intMB", "_EVAPORATION", "_SUBLIMATION", "_CONDENSATION", "_DEPOSITION", "_REFREEZE", "_subM",
     "_Z0", "_surfM", "_new_snow_height", "_new_snow_timestamp", "_old_snow_timestamp", "_MOL",
     "_LAYER_HEIGHT", "_LAYER_RHO", "_LAYER_T", "_LAYER_LWC", "_LAYER_CC", "_LAYER_POROSITY",
     "_LAYER_ICE_FRACTION", "_LAYER_IRREDUCIBLE_WATER", "_LAYER_REFREEZE", "stake_names", "_stat",
     "_df"]

/-- The tuple a coupled step returns, cosipy/cpkernel/cosipy_core.py:478-484 (`none` is `None`). -/
def coreReturnCoupled : List (Option String) :=
  [none, none, none, none, none, none, some "lw_radiation_out", some "sensible_heat_flux",
     some "latent_heat_flux", some "ground_heat_flux", some "rain_heat_flux", some "mass_balance",
     some "surface_mass_balance", some "Q", some "_SNOWHEIGHT", some "_TOTALHEIGHT",
     some "surface_temperature", some "alpha", some "_NLAYERS", some "melt_energy",
     some "internal_mass_balance", some "evaporation", some "sublimation", some "condensation",
     some "deposition", some "water_refreezed", some "subsurface_melt", some "z0", some "melt",
     some "_new_snow_height", some "_new_snow_timestamp", some "_old_snow_timestamp", some "MOL",
     some "_LAYER_HEIGHT", some "_LAYER_RHO", some "_LAYER_T", some "_LAYER_LWC", none, none,
     some "_LAYER_ICE_FRACTION", none, none, none, none, none]

/-- What a standalone run stores in its arrays at each time step, cosipy/cpkernel/cosipy_core.py:404-446: array and
expression as written. -/
def coreStores : List (String × String) :=
  [("_RAIN", "RAIN"), ("_SNOWFALL", "SNOWFALL * (density_fresh_snow/water_density)"),
   ("_LWin", "lw_radiation_in"), ("_LWout", "lw_radiation_out"), ("_H", "sensible_heat_flux"),
   ("_LE", "latent_heat_flux"), ("_B", "ground_heat_flux"), ("_QRR", "rain_heat_flux"),
   ("_MB", "mass_balance"), ("_surfMB", "surface_mass_balance"), ("_Q", "Q"),
   ("_SNOWHEIGHT", "GRID.get_total_snowheight()"), ("_TOTALHEIGHT", "GRID.get_total_height()"),
   ("_TS", "surface_temperature"), ("_ALBEDO", "alpha"), ("_NLAYERS", "GRID.get_number_layers()"),
   ("_ME", "melt_energy"), ("_intMB", "internal_mass_balance"), ("_EVAPORATION", "evaporation"),
   ("_SUBLIMATION", "sublimation"), ("_CONDENSATION", "condensation"), ("_DEPOSITION", "deposition"),
   ("_REFREEZE", "water_refreezed"), ("_subM", "subsurface_melt"), ("_Z0", "z0"), ("_surfM", "melt"),
   ("_MOL", "MOL"), ("_new_snow_height", "GRID.get_fresh_snow_props()[0]"),
   ("_new_snow_timestamp", "GRID.get_fresh_snow_props()[1]"),
   ("_old_snow_timestamp", "GRID.get_fresh_snow_props()[2]"), ("_LAYER_HEIGHT", "GRID.get_height()"),
   ("_LAYER_RHO", "GRID.get_density()"), ("_LAYER_T", "GRID.get_temperature()"),
   ("_LAYER_LWC", "GRID.get_liquid_water_content()"), ("_LAYER_CC", "GRID.get_cold_content()"),
   ("_LAYER_POROSITY", "GRID.get_porosity()"), ("_LAYER_ICE_FRACTION", "GRID.get_ice_fraction()"),
   ("_LAYER_IRREDUCIBLE_WATER", "GRID.get_irreducible_water_content()"),
   ("_LAYER_REFREEZE", "GRID.get_refreeze()")]

/-- What a coupled step assigns before returning, cosipy/cpkernel/cosipy_core.py:460-479. -/
def coreStoresCoupled : List (String × String) :=
  [("_SNOWHEIGHT", "GRID.get_total_snowheight()"), ("_TOTALHEIGHT", "GRID.get_total_height()"),
   ("_NLAYERS", "GRID.get_number_layers()"), ("_new_snow_height", "GRID.get_fresh_snow_props()[0]"),
   ("_new_snow_timestamp", "GRID.get_fresh_snow_props()[1]"),
   ("_old_snow_timestamp", "GRID.get_fresh_snow_props()[2]"), ("_LAYER_HEIGHT", "GRID.get_height()"),
   ("_LAYER_RHO", "GRID.get_density()"), ("_LAYER_T", "GRID.get_temperature()"),
   ("_LAYER_LWC", "GRID.get_liquid_water_content()"), ("_LAYER_ICE_FRACTION", "GRID.get_ice_fraction()")]

/-- The variables the main program unpacks that tuple into, COSIPY.py:289-295. -/
def mainUnpack : List String :=
  ["indY", "indX", "local_restart", "RAIN", "SNOWFALL", "LWin", "LWout", "H", "LE", "B", "QRR", "MB",
     "surfMB", "Q", "SNOWHEIGHT", "TOTALHEIGHT", "TS", "ALBEDO", "NLAYERS", "ME", "intMB",
     "EVAPORATION", "SUBLIMATION", "CONDENSATION", "DEPOSITION", "REFREEZE", "subM", "Z0", "surfM",
     "new_snow_height", "new_snow_timestamp", "old_snow_timestamp", "MOL", "LAYER_HEIGHT", "LAYER_RHO",
     "LAYER_T", "LAYER_LWC", "LAYER_CC", "LAYER_POROSITY", "LAYER_ICE_FRACTION",
     "LAYER_IRREDUCIBLE_WATER", "LAYER_REFREEZE", "stake_names", "stat", "df_eval"]

/-- The positional arguments of the storing routine, COSIPY.py:297-303. -/
def mainCall : List String :=
  ["indY", "indX", "RAIN", "SNOWFALL", "LWin", "LWout", "H", "LE", "B", "QRR", "MB", "surfMB", "Q",
     "SNOWHEIGHT", "TOTALHEIGHT", "TS", "ALBEDO", "NLAYERS", "ME", "intMB", "EVAPORATION",
     "SUBLIMATION", "CONDENSATION", "DEPOSITION", "REFREEZE", "subM", "Z0", "surfM", "MOL",
     "LAYER_HEIGHT", "LAYER_RHO", "LAYER_T", "LAYER_LWC", "LAYER_CC", "LAYER_POROSITY",
     "LAYER_ICE_FRACTION", "LAYER_IRREDUCIBLE_WATER", "LAYER_REFREEZE"]

/-- Its parameters after `self`, cosipy/cpkernel/io.py:588-630. -/
def copyParams : List String :=
  ["y", "x", "local_RAIN", "local_SNOWFALL", "local_LWin", "local_LWout", "local_H", "local_LE",
     "local_B", "local_QRR", "local_MB", "local_surfMB", "local_Q", "local_SNOWHEIGHT",
     "local_TOTALHEIGHT", "local_TS", "local_ALBEDO", "local_LAYERS", "local_ME", "local_intMB",
     "local_EVAPORATION", "local_SUBLIMATION", "local_CONDENSATION", "local_DEPOSITION",
     "local_REFREEZE", "local_subM", "local_Z0", "local_surfM", "local_MOL", "local_LAYER_HEIGHT",
     "local_LAYER_RHO", "local_LAYER_T", "local_LAYER_LWC", "local_LAYER_CC", "local_LAYER_POROSITY",
     "local_LAYER_ICE_FRACTION", "local_LAYER_IRREDUCIBLE_WATER", "local_LAYER_REFREEZE"]

/-- Its body, cosipy/cpkernel/io.py:633-673: which attribute is set from which parameter. The entries of kind `full` are
only executed with `full_field`. -/
def copyCalls : List (OutKind × String × String) :=
  [(.atm, "RAIN", "local_RAIN"), (.atm, "SNOWFALL", "local_SNOWFALL"), (.atm, "LWin", "local_LWin"),
     (.atm, "LWout", "local_LWout"), (.atm, "H", "local_H"), (.atm, "LE", "local_LE"),
     (.atm, "B", "local_B"), (.atm, "QRR", "local_QRR"), (.atm, "TS", "local_TS"),
     (.atm, "ALBEDO", "local_ALBEDO"), (.atm, "Z0", "local_Z0"), (.internal, "surfMB", "local_surfMB"),
     (.internal, "MB", "local_MB"), (.internal, "Q", "local_Q"),
     (.internal, "SNOWHEIGHT", "local_SNOWHEIGHT"), (.internal, "TOTALHEIGHT", "local_TOTALHEIGHT"),
     (.internal, "LAYERS", "local_LAYERS"), (.internal, "ME", "local_ME"),
     (.internal, "intMB", "local_intMB"), (.internal, "EVAPORATION", "local_EVAPORATION"),
     (.internal, "SUBLIMATION", "local_SUBLIMATION"), (.internal, "CONDENSATION", "local_CONDENSATION"),
     (.internal, "DEPOSITION", "local_DEPOSITION"), (.internal, "REFREEZE", "local_REFREEZE"),
     (.internal, "subM", "local_subM"), (.internal, "surfM", "local_surfM"),
     (.internal, "MOL", "local_MOL"), (.full, "HEIGHT", "local_LAYER_HEIGHT"),
     (.full, "RHO", "local_LAYER_RHO"), (.full, "T", "local_LAYER_T"),
     (.full, "LWC", "local_LAYER_LWC"), (.full, "CC", "local_LAYER_CC"),
     (.full, "POROSITY", "local_LAYER_POROSITY"), (.full, "ICE_FRACTION", "local_LAYER_ICE_FRACTION"),
     (.full, "IRREDUCIBLE_WATER", "local_LAYER_IRREDUCIBLE_WATER"),
     (.full, "REFREEZE", "local_LAYER_REFREEZE")]

/-- Keys of the metadata, cosipy/cpkernel/io.py:339-355. -/
def metaSpatial : List String := ["HGT", "MASK", "SLOPE", "ASPECT"]

/-- cosipy/cpkernel/io.py:339-355. -/
def metaSpatiotemporal : List String := ["T2", "RH2", "U2", "PRES", "G", "RRR", "SNOWFALL", "N", "LWin"]

/-- cosipy/cpkernel/io.py:365-377. -/
def metaFull : List String :=
  ["LAYER_HEIGHT", "LAYER_RHO", "LAYER_T", "LAYER_LWC", "LAYER_CC", "LAYER_POROSITY",
     "LAYER_ICE_FRACTION", "LAYER_IF", "LAYER_IRREDUCIBLE_WATER", "LAYER_REFREEZE"]

/-- cosipy/cpkernel/io.py:403-432. -/
def metaResultOwn : List String :=
  ["RAIN", "SNOWFALL", "LWin", "LWout", "H", "LE", "B", "QRR", "surfMB", "MB", "Q", "SNOWHEIGHT",
     "TOTALHEIGHT", "TS", "ALBEDO", "LAYERS", "ME", "intMB", "EVAPORATION", "SUBLIMATION",
     "CONDENSATION", "DEPOSITION", "REFREEZE", "subM", "Z0", "surfM", "MOL"]

/-- `get_result_metadata`, cosipy/cpkernel/io.py:396-439 (keys of the union). -/
def resultMetadata : List String := metaSpatial ++ metaSpatiotemporal ++ metaFull ++ metaResultOwn

/-- `get_restart_metadata`, cosipy/cpkernel/io.py:380-394 (keys of the union). -/
def restartMetadata : List String :=
  ["new_snow_height", "new_snow_timestamp", "old_snow_timestamp", "NLAYERS", "NEWSNOWHEIGHT",
     "NEWSNOWTIMESTAMP", "OLDSNOWTIMESTAMP"] ++ metaFull

/-- Scalars and layer profiles of the restart data, cosipy/cpkernel/io.py:745-758. -/
def restartScalars : List String := ["NLAYERS", "NEWSNOWHEIGHT", "NEWSNOWTIMESTAMP", "OLDSNOWTIMESTAMP"]

/-- cosipy/cpkernel/io.py:753-758. -/
def restartLayers : List String := ["HEIGHT", "RHO", "T", "LWC", "IF"]

/-- `variables.split(",")` on the characters of a string (as in cosipy/cpkernel/io.py:50). -/
def splitComma : List Char → List (List Char)
  | [] => [[]]
  | c :: cs =>
    if c = ',' then [] :: splitComma cs
    else match splitComma cs with
      | [] => [[c]]
      | w :: ws => (c :: w) :: ws

/-- `get_output_variables`, cosipy/cpkernel/io.py:44-50. -/
def outputVariables (cfg : List Char) : List String :=
  if cfg = [] then [] else (splitComma cfg).map String.ofList

/-- Input names that are never output, cosipy/cpkernel/io.py:29. -/
def inputNames : List String := ["T2", "RH2", "U2", "RRR", "N", "G", "PRES"]

/-- The attributes of the global `IOClass` object that matter here: the three lists, the sizes and switches, its dynamic
attributes (`getattr`/`setattr`), and the variables of the datasets RESULT and RESTART (cosipy/cpkernel/io.py:18-42). -/
structure IOState (α : Type) where
  atm : List String
  internal : List String
  full : List String
  fullField : Bool
  maxLayers : Nat
  nt : Nat
  ny : Nat
  nx : Nat
  attrs : Store (Arr α)
  result : Store (Arr α)
  restart : Store (Arr α)

section
variable {α : Type}

/-- `np.full(shape, fill)` (as in cosipy/cpkernel/io.py:212, 224). -/
def Arr.full (time : Option Nat) (ny nx : Nat) (layer : Option Nat) (fill : α) : Arr α :=
  ⟨time, ny, nx, layer, fun _ _ _ _ => fill⟩

/-- The array after `a[..., y, x, ...] = v` (as in cosipy/cpkernel/io.py:67-101). -/
def Arr.put (a : Arr α) (y x : Nat) (v : Val α) : Arr α :=
  { a with val := fun t y' x' k => if y' = y ∧ x' = x then v.val t k else a.val t y' x' k }

/-- `a[:, y, x] = v` and its variants without time or with a layer axis, cosipy/cpkernel/io.py:76, 88, 100, 811-816: an
index out of range raises IndexError, different shapes ValueError. Simplification: numpy would also broadcast a value of
shape (1); the worker's arrays always have full length. -/
def Arr.assign (a : Arr α) (y x : Nat) (v : Val α) : M (Arr α) :=
  if a.ny ≤ y ∨ a.nx ≤ x then .error .index
  else if a.time = v.time ∧ a.layer = v.layer then .ok (a.put y x v)
  else .error .value

/-- The global object after `IOClass()` and `create_data_file`/`create_result_file`/`create_restart_file`
(cosipy/cpkernel/io.py:18-42, 125-195): the input variables are removed from the atmospheric list. The variables RESULT
and RESTART have by then are parameters. -/
def IOState.init (atmCfg internalCfg fullCfg : List Char) (fullField : Bool) (maxLayers nt ny nx : Nat)
    (result restart : Store (Arr α)) : IOState α :=
  { atm := (outputVariables atmCfg).filter fun n => !(inputNames.contains n)
    internal := outputVariables internalCfg
    full := outputVariables fullCfg
    fullField := fullField
    maxLayers := maxLayers
    nt := nt
    ny := ny
    nx := nx
    attrs := fun _ => none
    result := result
    restart := restart }

/-- `create_global_result_arrays`, cosipy/cpkernel/io.py:567-586. The guards `if name in self.atm` hold by
construction. -/
def IOState.createResultArrays (io : IOState α) (fill : α) : IOState α :=
  let plane := Arr.full (some io.nt) io.ny io.nx none fill
  let mesh := Arr.full (some io.nt) io.ny io.nx (some io.maxLayers) fill
  let s := io.atm.foldl (fun s n => s.set n plane) io.attrs
  let s := io.internal.foldl (fun s n => s.set n plane) s
  let s := if io.fullField then io.full.foldl (fun s n => s.set ("LAYER_" ++ n) mesh) s else s
  { io with attrs := s }

/-- `create_global_restart_arrays`, cosipy/cpkernel/io.py:735-758. -/
def IOState.createRestartArrays (io : IOState α) (fill : α) : IOState α :=
  let s := restartScalars.foldl (fun s n => s.set ("RES_" ++ n) (Arr.full none io.ny io.nx none fill)) io.attrs
  let s := restartLayers.foldl
    (fun s n => s.set ("RES_LAYER_" ++ n) (Arr.full none io.ny io.nx (some io.maxLayers) fill)) s
  { io with attrs := s }

/-- Is the variable wanted: `if name in self.atm` etc., cosipy/cpkernel/io.py:75, 87, 99, 656. -/
def IOState.wants (io : IOState α) : OutKind → String → Bool
  | .atm, n => io.atm.contains n
  | .internal, n => io.internal.contains n
  | .full, n => io.fullField && io.full.contains n

/-- The attribute a variable is stored in (cosipy/cpkernel/io.py:52-101). -/
def attrName : OutKind → String → String
  | .full, n => "LAYER_" ++ n
  | _, n => n

/-- `set_atm_attribute`, `set_internal_attribute`, `set_full_field_attribute`, cosipy/cpkernel/io.py:67-101: in-place
assignment to a slice of the attribute. Assigning `None` to a float slice raises TypeError. -/
def IOState.setAttribute (io : IOState α) (kind : OutKind) (name : String) (value : PyVal α) (x y : Nat) :
    M (IOState α) :=
  if io.wants kind name then do
    let a ← io.attrs.get (attrName kind name)
    match value with
    | .arr v =>
      let a' ← a.assign y x v
      return { io with attrs := io.attrs.set (attrName kind name) a' }
    | _ => .error .type
  else .ok io

/-- Value of a variable among names bound in order; NameError if there is none. With repeated names the last binding
counts (COSIPY.py:289-303). -/
def lookupLast {β : Type} (names : List String) (vals : List β) (n : String) : M β :=
  match ((names.zip vals).reverse.find? fun p => p.1 == n) with
  | some p => .ok p.2
  | none => .error .unbound

/-- Unpacking a tuple: ValueError unless the lengths agree (COSIPY.py:289-295). -/
def unpackTuple {β : Type} (names : List String) (vals : List β) : M Unit :=
  if vals.length = names.length then .ok () else .error .value

/-- `copy_local_to_global`, cosipy/cpkernel/io.py:588-673. `args` are the positional arguments. -/
def IOState.copyLocalToGlobal (io : IOState α) (args : List (PyVal α)) : M (IOState α) := do
  if args.length ≠ copyParams.length then .error .type
  else
    let y ← lookupLast copyParams args "y"
    let x ← lookupLast copyParams args "x"
    match y, x with
    | .int y, .int x =>
      copyCalls.foldlM (fun io c => do
        if c.1 = .full ∧ io.fullField = false then return io
        else
          let v ← lookupLast copyParams args c.2.2
          io.setAttribute c.1 c.2.1 v x y) io
    | _, _ => .error .index

/-- `copy_local_restart_to_global`, cosipy/cpkernel/io.py:796-816. -/
def IOState.copyRestartToGlobal (io : IOState α) (y x : Nat) (d : Store (Val α)) : M (IOState α) := do
  let put (local_ : String) (s : Store (Arr α)) : M (Store (Arr α)) := do
    let a ← s.get ("RES_" ++ local_)
    let v ← d.get local_
    let a' ← a.assign y x v
    return s.set ("RES_" ++ local_) a'
  let s ← restartScalars.foldlM (fun s n => put n s) io.attrs
  let s ← restartLayers.foldlM (fun s n => put ("LAYER_" ++ n) s) s
  return { io with attrs := s }

/-- `ds[name] = (dims, arr)` with the given axes: ValueError if the array has others
(cosipy/cpkernel/io.py:938-1088). -/
def addVariable (ds : Store (Arr α)) (hasTime hasLayer : Bool) (a : Arr α) (name : String) : M (Store (Arr α)) :=
  if a.time.isSome = hasTime ∧ a.layer.isSome = hasLayer then .ok (ds.set name a) else .error .value

/-- One entry of `write_results_to_file`/`write_restart_to_file`: the attribute (AttributeError), its metadata
(KeyError), the assignment (cosipy/cpkernel/io.py:675-708, 818-844). -/
def writeVariable (metadata : List String) (attrs : Store (Arr α)) (hasTime hasLayer : Bool) (attr name : String)
    (ds : Store (Arr α)) : M (Store (Arr α)) := do
  let a ← attrs.get attr
  if metadata.contains name then addVariable ds hasTime hasLayer a name else .error .key

/-- `write_results_to_file`, cosipy/cpkernel/io.py:675-708. -/
def IOState.writeResults (io : IOState α) : M (IOState α) := do
  let r ← io.atm.foldlM (fun r n => writeVariable resultMetadata io.attrs true false n n r) io.result
  let r ← io.internal.foldlM (fun r n => writeVariable resultMetadata io.attrs true false n n r) r
  let r ← if io.fullField then
      io.full.foldlM (fun r n => writeVariable resultMetadata io.attrs true true ("LAYER_" ++ n) ("LAYER_" ++ n) r) r
    else .ok r
  return { io with result := r }

/-- `write_restart_to_file`, cosipy/cpkernel/io.py:818-844. -/
def IOState.writeRestart (io : IOState α) : M (IOState α) := do
  let r ← restartScalars.foldlM
    (fun r n => writeVariable restartMetadata io.attrs false false ("RES_" ++ n) n r) io.restart
  let r ← restartLayers.foldlM
    (fun r n => writeVariable restartMetadata io.attrs false true ("RES_LAYER_" ++ n) ("LAYER_" ++ n) r) r
  return { io with restart := r }

/-- Stake evaluation settings: `stake_evaluation`, `obs_type == 'mb'`, `obs_type == 'snowheight'`
(COSIPY.py:311-321). -/
structure StakeCfg where
  evaluation : Bool
  obsMb : Bool
  obsSnow : Bool

/-- Rows of `df_stat` and columns of `df_val`, COSIPY.py:184-186. -/
structure StakeState (α : Type) where
  stat : List (String × α)
  vals : Store (Val α)

/-- Collection of the stake evaluation, COSIPY.py:311-321. `None.rename` raises AttributeError, iterating over `None`
TypeError. -/
def collectStakes (sc : StakeCfg) (st : StakeState α) (names stat frame : PyVal α) : M (StakeState α) :=
  if sc.evaluation then
    match stat with
    | .rows rs =>
      match names, frame with
      | .names ns, .frame mb sh =>
        .ok { stat := st.stat ++ rs
              vals := ns.foldl (fun s i =>
                let s := if sc.obsMb then s.set i mb else s
                if sc.obsSnow then s.set i sh else s) st.vals }
      | _, _ => .error .type
    | _ => .error .attribute
  else .ok st

/-- The part of the loop over finished tasks that fills the arrays and datasets, COSIPY.py:286-309, for the tuple a
worker returned. -/
def collectIO (io : IOState α) (res : List (PyVal α)) : M (IOState α) := do
  unpackTuple mainUnpack res
  let args ← mainCall.mapM (lookupLast mainUnpack res)
  let io ← io.copyLocalToGlobal args
  let y ← lookupLast mainUnpack res "indY"
  let x ← lookupLast mainUnpack res "indX"
  let d ← lookupLast mainUnpack res "local_restart"
  match y, x, d with
  | .int y, .int x, .dataset d =>
    let io ← io.copyRestartToGlobal y x d
    let io ← io.writeResults
    io.writeRestart
  | _, _, _ => .error .attribute

/-- The part that collects the stake evaluation, COSIPY.py:311-321. -/
def collectStakesOf (sc : StakeCfg) (st : StakeState α) (res : List (PyVal α)) : M (StakeState α) := do
  let names ← lookupLast mainUnpack res "stake_names"
  let stat ← lookupLast mainUnpack res "stat"
  let frame ← lookupLast mainUnpack res "df_eval"
  collectStakes sc st names stat frame

/-- The body of the loop over finished tasks, COSIPY.py:286-321. -/
def collectOne (sc : StakeCfg) (s : IOState α × StakeState α) (res : List (PyVal α)) : M (IOState α × StakeState α) := do
  let io ← collectIO s.1 res
  let st ← collectStakesOf sc s.2 res
  return (io, st)

/-- All finished tasks in the order `as_completed` yields them; `future.result()` re-raises a worker's exception
(COSIPY.py:286-321). -/
def collectAll (sc : StakeCfg) (s : IOState α × StakeState α) (done : List (M (List (PyVal α)))) :
    M (IOState α × StakeState α) :=
  done.foldlM (fun s r => do collectOne sc s (← r)) s

/-- Submission of tasks, COSIPY.py:215-268: one per cell with MASK == 1 in row-major order; a cell with NaN input stops
the program (`check_for_nan`, COSIPY.py:428-430). The four branches differ only in how the cell's data is selected and in
whether restart data is passed along. `isGlacier y x` is `mask == 1`. -/
def submitTasks (ny nx : Nat) (isGlacier hasNaN : Nat → Nat → Bool) : M (List (Nat × Nat)) :=
  ((List.range ny).flatMap fun y => (List.range nx).map fun x => (y, x)).foldlM (fun acc c =>
    if isGlacier c.1 c.2 then
      if hasNaN c.1 c.2 then .error .exit else .ok (acc ++ [c])
    else .ok acc) []

/-- `run_cosipy` from submission to the last collected result, COSIPY.py:150-321. `worker y x` is the call
`cosipy_core(DATA[y, x], y, x, …)`, `order` the schedule. -/
def runCosipy (sc : StakeCfg) (io : IOState α) (fill : α) (isGlacier hasNaN : Nat → Nat → Bool)
    (worker : Nat → Nat → M (List (PyVal α))) (order : List (Nat × Nat) → List (Nat × Nat)) :
    M (IOState α × StakeState α) := do
  let tasks ← submitTasks io.ny io.nx isGlacier hasNaN
  let io := (io.createResultArrays fill).createRestartArrays fill
  collectAll sc (io, ⟨[], fun _ => none⟩) ((order tasks).map fun c => worker c.1 c.2)

end
end Cosipy
