import Verif.Model.IO
import Verif.Model.Select
import Verif.Model.Stake

/-!
# The whole simulation of one grid cell: `cosipy_core` in `cosipy/cpkernel/cosipy_core.py`

The standalone case, from the initial column to the returned tuple. The pieces (initial column, selection of inputs, time
step, stakes, restart data) are modelled elsewhere; here they are put together, with the recording of the results.
`fill` is NaN. The arrays are written once per time step, in order, at position `t`, so an array is described by the list
of what the steps wrote; entries not written keep the fill value.
-/

set_option autoImplicit false

namespace Cosipy

/-- What one time step writes: one number for each of the arrays over time, and for the arrays over time and layers the
values of the layers (cosipy/cpkernel/cosipy_core.py:404-456). -/
structure Row (α : Type) where
  series : List (String × α)
  layers : List (String × List α)

/-- Stake inputs of a cell, cosipy/cpkernel/cosipy_core.py:54, 222-224, 486-488: `stake_names`, the index and the columns
of `stake_data`, `eval_method` and `obs_type`. -/
structure StakeInput (α τ : Type) where
  names : List String
  index : List τ
  data : List (String × List (Option α))
  evalMethod : String
  obsType : String

/-- Names of the arrays over time in the order of their creation, cosipy/cpkernel/cosipy_core.py:106-137 (`_RRR` is
created and never used, `_MB` is created twice). -/
def seriesNames : List String :=
  ["_RAIN", "_SNOWFALL", "_LWin", "_LWout", "_H", "_LE", "_B", "_QRR", "_MB", "_surfMB", "_Q", "_SNOWHEIGHT",
    "_TOTALHEIGHT", "_TS", "_ALBEDO", "_ME", "_intMB", "_EVAPORATION", "_SUBLIMATION", "_CONDENSATION", "_DEPOSITION",
    "_REFREEZE", "_NLAYERS", "_subM", "_Z0", "_surfM", "_MOL", "_new_snow_height", "_new_snow_timestamp",
    "_old_snow_timestamp"]

/-- Names of the arrays over time and layers, cosipy/cpkernel/cosipy_core.py:139-147. -/
def layerNames : List String :=
  ["_LAYER_HEIGHT", "_LAYER_RHO", "_LAYER_T", "_LAYER_LWC", "_LAYER_CC", "_LAYER_POROSITY", "_LAYER_ICE_FRACTION",
    "_LAYER_IRREDUCIBLE_WATER", "_LAYER_REFREEZE"]

section
variable {α : Type} [Add α] [Sub α] [Mul α] [Div α] [Neg α] [LT α] [LE α]
  [DecidableLT α] [DecidableLE α] [BEq α] [Zero α] [One α] [NatCast α] [OfScientific α]
  [Transc α]

/-- The numbers a step stores, cosipy/cpkernel/cosipy_core.py:406-433, for the state after the step. Storing `None` (the
Obukhov length of the Richardson scheme) in an array of floats gives NaN. -/
def stepSeries (c : Consts α) (fill : α) (s : SimState α) (o : StepOut α) : M (List (String × α)) := do
  let snowheight ← s.grid.getTotalSnowheight c
  let totalheight ← s.grid.getTotalHeight
  return [("_RAIN", o.rain), ("_SNOWFALL", o.snowfall * (o.densityFreshSnow / c.waterDensity)),
    ("_LWin", o.fluxes.li), ("_LWout", o.fluxes.lo), ("_H", o.fluxes.h), ("_LE", o.fluxes.le), ("_B", o.fluxes.b),
    ("_QRR", o.fluxes.qrr), ("_MB", o.mb), ("_surfMB", o.surfMB), ("_Q", o.q), ("_SNOWHEIGHT", snowheight),
    ("_TOTALHEIGHT", totalheight), ("_TS", o.ts), ("_ALBEDO", o.albedo),
    ("_NLAYERS", ((s.grid.getNumberLayers.toNat : Nat) : α)), ("_ME", o.meltEnergy), ("_intMB", o.intMB),
    ("_EVAPORATION", o.evaporation), ("_SUBLIMATION", o.sublimation), ("_CONDENSATION", o.condensation),
    ("_DEPOSITION", o.deposition), ("_REFREEZE", o.refreeze), ("_subM", o.subsurfaceMelt), ("_Z0", o.z0),
    ("_surfM", o.melt), ("_MOL", o.fluxes.mol.getD fill), ("_new_snow_height", s.grid.newSnowHeight),
    ("_new_snow_timestamp", s.grid.newSnowTimestamp), ("_old_snow_timestamp", s.grid.oldSnowTimestamp)]

/-- The profiles a step stores with `full_field`, cosipy/cpkernel/cosipy_core.py:438-446; nothing otherwise
(447-456). The check of the number of layers (436-437) is in `step`. -/
def stepLayers (c : Consts α) (fullField : Bool) (g : Grid α) : M (List (String × List α)) :=
  if fullField then do
    let h ← g.getHeight
    let rho ← g.getDensity c
    let t ← g.getTemperature
    let lwc ← g.getLwc
    let cc ← g.getColdContent c
    let por ← g.getPorosity
    let ice ← g.getIceFraction
    let irr ← g.getIrreducibleWaterContent
    let refr ← g.getRefreeze
    return [("_LAYER_HEIGHT", h), ("_LAYER_RHO", rho), ("_LAYER_T", t), ("_LAYER_LWC", lwc), ("_LAYER_CC", cc),
      ("_LAYER_POROSITY", por), ("_LAYER_ICE_FRACTION", ice), ("_LAYER_IRREDUCIBLE_WATER", irr),
      ("_LAYER_REFREEZE", refr)]
  else .ok []

/-- What one step records, cosipy/cpkernel/cosipy_core.py:404-456. -/
def stepRow (c : Consts α) (fill : α) (fullField : Bool) (s : SimState α) (o : StepOut α) : M (Row α) := do
  let a ← stepSeries c fill s o
  let b ← stepLayers c fullField s.grid
  return ⟨a, b⟩

variable {τ : Type} [DecidableEq τ]

/-- The time loop with everything it records, cosipy/cpkernel/cosipy_core.py:229-456: final state, what was stored at each
step, the stake table. Simplification: the check of the number of layers comes before the recording of stakes and
numbers here; an exception ends the run without a result either way. -/
def runRows (sv : Solvers α) (fuel : Nat) (c : Consts α) (r : RunCfg α) (fill : α) (names : List String)
    (index : List τ) : SimState α → SimTable α → List (τ × Forcing α) → M (SimState α × List (Row α) × SimTable α)
  | s, df, [] => .ok (s, [], df)
  | s, df, (t, f) :: rest => do
    let (s1, o) ← step sv fuel c r s f
    let df1 ← recordStakes c names index df t s1
    let row ← stepRow c fill r.fullField s1 o
    let (s2, rows, df2) ← runRows sv fuel c r fill names index s1 df1 rest
    return (s2, row :: rows, df2)

/-- An array over time after the loop, cosipy/cpkernel/cosipy_core.py:32-33, 406-433. -/
def seriesArray (fill : α) (nt : Nat) (rows : List (Row α)) (name : String) : Val α :=
  ⟨some nt, none, fun t _ => ((rows[t]?).bind fun r => r.series.lookup name).getD fill⟩

/-- An array over time and layers after the loop, cosipy/cpkernel/cosipy_core.py:49-50, 438-446: `a[t, 0:n] = values`. -/
def layerArray (fill : α) (nt maxLayers : Nat) (rows : List (Row α)) (name : String) : Val α :=
  ⟨some nt, some maxLayers,
    fun t k => ((rows[t]?).bind fun r => (r.layers.lookup name).bind fun xs => xs[k]?).getD fill⟩

/-- The arrays as returned: `None` for the layer arrays without `full_field`,
cosipy/cpkernel/cosipy_core.py:448-456. -/
def returnedArray (fill : α) (nt maxLayers : Nat) (fullField : Bool) (rows : List (Row α)) (name : String) : PyVal α :=
  if name ∈ layerNames then
    if fullField then .arr (layerArray fill nt maxLayers rows name) else .none
  else .arr (seriesArray fill nt rows name)

/-- The restart data of a cell as variables without a time axis, cosipy/cpkernel/io.py:760-782 and
cosipy/cpkernel/cosipy_core.py:496-504. -/
def restartStore (maxLayers : Nat) (fill : α) (d : Dataset α) : Store (Val α) := fun name =>
  (d.find? fun p => p.1 == name).map fun p =>
    ⟨none, if name ∈ restartScalars then none else some maxLayers, fun _ k => (p.2[k]?).getD fill⟩

/-- Stake results of a cell, cosipy/cpkernel/cosipy_core.py:486-493, 511: `stake_names`, `_stat`, `_df`. A missing value
is NaN. An unknown `eval_method` gives `None`. -/
def stakeResult (fill : α) (st : Option (StakeInput α τ)) (df : SimTable α) : M (List (PyVal α)) :=
  match st with
  | none => .ok [.none, .none, .none]
  | some st => do
    let stat ← evaluate st.evalMethod st.obsType st.names st.data df
    let rows : PyVal α := match stat with
      | none => .none
      | some rs => .rows (rs.map fun p => (p.1, p.2.getD fill))
    let col (xs : List (Option α)) : Val α := ⟨some xs.length, none, fun t _ => ((xs[t]?).bind id).getD fill⟩
    return [.names st.names, rows, .frame (col df.mb) (col df.snowheight)]

variable [HasTrunc α]

/-- The column a run starts from, cosipy/cpkernel/cosipy_core.py:153-156. `DATA.T2[0]` needs a first time step. -/
def startColumn (c : Consts α) (d : CellData α) (snowheight : Option α) (restart : Option (Dataset α)) : M (Grid α) :=
  match restart with
  | some ds => loadSnowpack c ds
  | none => do
    let t2 ← pyGet d.t2 0
    initSnowpack c snowheight t2

/-- Everything a standalone simulation of a cell returns except the indices of the cell,
cosipy/cpkernel/cosipy_core.py:54-511. `times` are the time stamps of the steps. Without time steps the variable `t` used
at 496-498 does not exist. -/
def kernelBody (sv : Solvers α) (fuel : Nat) (c : Consts α) (r : RunCfg α) (cfg : SelectCfg α) (fill : α)
    (times : List τ) (snowheight : Option α) (restart : Option (Dataset α)) (st : Option (StakeInput α τ))
    (d : CellData α) : M (List (PyVal α)) := do
  let g ← startColumn c d snowheight restart
  let fs ← prepare cfg d
  let names := (st.map (·.names)).getD []
  let index := (st.map (·.index)).getD []
  let (s, rows, df) ← runRows sv fuel c r fill names index (initState c r.wrf g) (SimTable.init index) (times.zip fs)
  if fs.isEmpty then .error .unbound
  else
    let stakes ← stakeResult fill st df
    let ds ← saveStandalone c fill r.maxLayers s.grid
    return .dataset (restartStore r.maxLayers fill ds) ::
      (((coreReturn.drop 3).take 39).map (returnedArray fill d.nt r.maxLayers r.fullField rows) ++ stakes)

/-- `cosipy_core`, cosipy/cpkernel/cosipy_core.py:54-511, standalone: the indices are passed through to the returned
tuple. -/
def kernel (sv : Solvers α) (fuel : Nat) (c : Consts α) (r : RunCfg α) (cfg : SelectCfg α) (fill : α)
    (times : List τ) (snowheight : Option α) (restart : Option (Dataset α)) (st : Option (StakeInput α τ))
    (d : CellData α) (y x : Nat) : M (List (PyVal α)) := do
  let res ← kernelBody sv fuel c r cfg fill times snowheight restart st d
  return .int y :: .int x :: res

omit [HasTrunc α] in
/-- A number or a profile in the tuple of a coupled call: no time axis (cosipy/cpkernel/cosipy_core.py:458-483). -/
def PyVal.scalar (v : α) : PyVal α := .arr ⟨Option.none, Option.none, fun _ _ => v⟩

omit [HasTrunc α] in
/-- `a = np.array(max_layers * [np.nan]); a[0:n] = values`, cosipy/cpkernel/cosipy_core.py:465-476. -/
def PyVal.profile (fill : α) (maxLayers : Nat) (xs : List α) : PyVal α :=
  .arr ⟨Option.none, some maxLayers, fun _ k => (padTo fill maxLayers xs).getD k fill⟩

omit [HasTrunc α] in
/-- `MOL` is `None` in the Richardson scheme, cosipy/modules/surfaceTemperature.py:318. -/
def PyVal.optional : Option α → PyVal α
  | some v => .scalar v
  | Option.none => .none

omit [HasTrunc α] in
/-- What a coupled step returns, cosipy/cpkernel/cosipy_core.py:459-483, for the state after the step. -/
def coupledReturn (c : Consts α) (fill : α) (maxLayers : Nat) (g : Grid α) (o : StepOut α) : M (List (PyVal α)) := do
  let snowheight ← g.getTotalSnowheight c
  let totalheight ← g.getTotalHeight
  if (maxLayers : Int) < g.getNumberLayers then .error .value
  else
    let hs ← g.getHeight
    let ds ← g.getDensity c
    let ts ← g.getTemperature
    let ws ← g.getLwc
    let fs ← g.getIceFraction
    return [.none, .none, .none, .none, .none, .none, .scalar o.fluxes.lo, .scalar o.fluxes.h, .scalar o.fluxes.le,
      .scalar o.fluxes.b, .scalar o.fluxes.qrr, .scalar o.mb, .scalar o.surfMB, .scalar o.q, .scalar snowheight,
      .scalar totalheight, .scalar o.ts, .scalar o.albedo, .scalar ((g.getNumberLayers.toNat : Nat) : α),
      .scalar o.meltEnergy, .scalar o.intMB, .scalar o.evaporation, .scalar o.sublimation, .scalar o.condensation,
      .scalar o.deposition, .scalar o.refreeze, .scalar o.subsurfaceMelt, .scalar o.z0, .scalar o.melt,
      .scalar g.newSnowHeight, .scalar g.newSnowTimestamp, .scalar g.oldSnowTimestamp, .optional o.fluxes.mol,
      .profile fill maxLayers hs, .profile fill maxLayers ds, .profile fill maxLayers ts, .profile fill maxLayers ws,
      .none, .none, .profile fill maxLayers fs, .none, .none, .none, .none, .none]

/-- `cosipy_core` in coupled mode (`WRF_X_CSPY`), cosipy/cpkernel/cosipy_core.py:54-483: the loop returns in its first
pass, so the later time steps of `DATA` are read but not simulated; without a time step the function ends without a value
(`None`, `Option.none` here). `r` holds `DATA.DT`, `DATA.max_layers`, `DATA.ZLVL` (lines 94-97) and `r.wrf` is true.
Simplification: no stakes (`stake_evaluation` without stake data raises at line 224). -/
def kernelCoupled (sv : Solvers α) (fuel : Nat) (c : Consts α) (r : RunCfg α) (cfg : SelectCfg α) (fill : α)
    (snowheight : Option α) (restart : Option (Dataset α)) (d : CellData α) : M (Option (List (PyVal α))) := do
  let g ← startColumn c d snowheight restart
  let fs ← prepare cfg d
  match fs with
  | [] => .ok none
  | f :: _ => do
    let (s, o) ← step sv fuel c r (initState c r.wrf g) f
    let res ← coupledReturn c fill r.maxLayers s.grid o
    return some res

/-- What the main loop passes to `cosipy_core` for a cell, COSIPY.py:215-268: the cell's data, its slope
(cosipy/cpkernel/cosipy_core.py:209-211, 0 if the input has none) and initial snow height, the restart data of the cell
and the stakes attached to it. -/
structure CellInput (α τ : Type) where
  data : CellData α
  slope : α
  snowheight : Option α
  restart : Option (Dataset α)
  stakes : Option (StakeInput α τ)

omit [Add α] [Sub α] [Mul α] [Div α] [Neg α] [LT α] [LE α]
  [DecidableLT α] [DecidableLE α] [BEq α] [Zero α] [One α] [NatCast α] [OfScientific α] [Transc α] [HasTrunc α] [DecidableEq τ] in
/-- The settings of a cell's run, cosipy/cpkernel/cosipy_core.py:209-211. -/
def CellInput.cfg (i : CellInput α τ) (r : RunCfg α) : RunCfg α := { r with slope := i.slope }

/-- The program on a domain, COSIPY.py:150-321: each worker runs `cosipy_core` on the data of its cell. -/
def simulateDomain (sv : Solvers α) (fuel : Nat) (c : Consts α) (r : RunCfg α) (cfg : SelectCfg α) (fill : α)
    (times : List τ) (sc : StakeCfg) (io : IOState α) (g nan : Nat → Nat → Bool) (input : Nat → Nat → CellInput α τ)
    (order : List (Nat × Nat) → List (Nat × Nat)) : M (IOState α × StakeState α) :=
  runCosipy sc io fill g nan (fun y x => kernel sv fuel c ((input y x).cfg r) cfg fill times (input y x).snowheight
    (input y x).restart (input y x).stakes (input y x).data y x) order

end
end Cosipy
