import Verif.Model.Core

/-!
# Initial column, saving and loading: `cosipy/cpkernel/init.py`, restart part of
`cosipy/cpkernel/cosipy_core.py` and `cosipy/cpkernel/io.py`
-/

set_option autoImplicit false

namespace Cosipy
section
variable {α : Type} [Add α] [Sub α] [Mul α] [Div α] [Neg α] [LT α] [LE α]
  [DecidableLT α] [DecidableLE α] [BEq α] [Zero α] [One α] [NatCast α] [OfScientific α]

/-- `create_grid_jitted`, cosipy/cpkernel/init.py:150-182: ValueError if a temperature is NaN (a value not equal to
itself). -/
def createGrid (c : Consts α) (heights densities temperatures lwcs : List α) (iceFractions : Option (List α))
    (a b o : Option α) : M (Grid α) := do
  let g ← Grid.new c heights densities temperatures lwcs iceFractions a b o
  if temperatures.any fun t => !(t == t) then .error .value else return g

/-- A dataset for a single grid point: named arrays. Attribute access to a missing name raises (as in
cosipy/cpkernel/init.py:28-34, 122-134). -/
abbrev Dataset (α : Type) := List (String × List α)

/-- `DATA.name.values`: AttributeError when the name is missing (as in cosipy/cpkernel/init.py:122-134). -/
def Dataset.attr (d : Dataset α) (name : String) : M (List α) :=
  match d.find? (fun p => p.1 == name) with
  | some p => .ok p.2
  | none => .error .attribute

/-- A scalar variable: `float(DATA.name.values)`; TypeError unless it has exactly one element (as in
cosipy/cpkernel/init.py:132-134). -/
def Dataset.scalar (d : Dataset α) (name : String) : M α := do
  match ← d.attr name with
  | [x] => .ok x
  | _ => .error .type

variable [HasTrunc α]

/-- Heights, densities, temperatures of a linear profile, cosipy/cpkernel/init.py:57-70, 75-87, 93-100: entries
`top - slope * h * i` for `i = 1..n`. -/
def linearProfile (top slope h : α) (n : Nat) : List α :=
  (List.range n).map fun i => top - slope * h * ((i + 1 : Nat) : α)

omit [HasTrunc α] in
/-- The initial snow height, cosipy/cpkernel/init.py:28-34: the input `SNOWHEIGHT` with NaN (a value not equal to
itself) replaced by 0, or the configured constant. -/
def initialSnowheight (c : Consts α) : Option α → α
  | some h => if h == h then h else 0
  | none => c.initialSnowheightConstant

/-- `init_snowpack`, cosipy/cpkernel/init.py:8-115. `snowheight` is the optional input `SNOWHEIGHT`, `t2` the first
air temperature. `np.ones(n)` with negative `n` raises ValueError. -/
def initSnowpack (c : Consts α) (snowheight : Option α) (t2 : α) : M (Grid α) := do
  let hs := initialSnowheight c snowheight
  let tTop := pyMin t2 c.zeroTemperature
  let nIce := HasTrunc.trunc (c.initialGlacierHeight / c.initialGlacierLayerHeights)
  if nIce < 0 then .error .value
  else
    let nI := nIce.toNat
    let hI := c.initialGlacierLayerHeights
    if 0 < hs then
      let n := HasTrunc.trunc (pyMin (hs / 0.1) 5)
      let dT := (tTop - c.temperatureBottom) / (hs + c.initialGlacierHeight)
      let (lh, ld, lt) :=
        if n = 0 then ([hs], [c.initialTopDensitySnowpack], [tTop])
        else
          let k := n.toNat
          let dh := hs / (k : α)
          let drho := (c.initialTopDensitySnowpack - c.initialBottomDensitySnowpack) / hs
          (List.replicate k dh, linearProfile c.initialTopDensitySnowpack drho dh k, linearProfile tTop dT dh k)
      let last ← pyGet lt (-1)
      createGrid c (lh ++ List.replicate nI hI) (ld ++ List.replicate nI c.iceDensity)
        (lt ++ linearProfile last dT hI nI) (List.replicate (lh.length + nI) 0) none none none none
    else
      let dT := (tTop - c.temperatureBottom) / c.initialGlacierHeight
      createGrid c (List.replicate nI hI) (List.replicate nI c.iceDensity) (linearProfile tTop dT hI nI)
        (List.replicate nI 0) none none none none

/-- `load_snowpack`, cosipy/cpkernel/init.py:118-147. `values[0:n]` is a prefix. -/
def loadSnowpack (c : Consts α) (d : Dataset α) : M (Grid α) := do
  let n ← d.scalar "NLAYERS"
  let k := (HasTrunc.trunc n).toNat
  let hs ← d.attr "LAYER_HEIGHT"
  let ds ← d.attr "LAYER_RHO"
  let ts ← d.attr "LAYER_T"
  let ws ← d.attr "LAYER_LWC"
  let fs ← d.attr "LAYER_IF"
  let a ← d.scalar "new_snow_height"
  let b ← d.scalar "new_snow_timestamp"
  let o ← d.scalar "old_snow_timestamp"
  createGrid c (hs.take k) (ds.take k) (ts.take k) (ws.take k) (some (fs.take k)) (some a) (some b) (some o)

omit [HasTrunc α] in
/-- Write the layer values in front of an array of `maxLayers` fill values, cosipy/cpkernel/cosipy_core.py:465-476 and 500-504. -/
def padTo (fill : α) (maxLayers : Nat) (xs : List α) : List α :=
  xs ++ List.replicate (maxLayers - xs.length) fill

omit [HasTrunc α] in
/-- What a coupled step hands back for the next call, cosipy/cpkernel/cosipy_core.py:460-483, under the names the coupled
driver passes to `load_snowpack` (`GRID_RESTART.NLAYERS`, …, cosipy/cpkernel/init.py:122-134). More than `max_layers` layers
raise. `fill` is NaN. -/
def saveCoupled (c : Consts α) (fill : α) (maxLayers : Nat) (g : Grid α) : M (Dataset α) := do
  if (maxLayers : Int) < g.getNumberLayers then .error .value
  else
    let hs ← g.getHeight
    let ds ← g.getDensity c
    let ts ← g.getTemperature
    let ws ← g.getLwc
    let fs ← g.getIceFraction
    return [("NLAYERS", [((g.getNumberLayers.toNat : Nat) : α)]),
      ("LAYER_HEIGHT", padTo fill maxLayers hs), ("LAYER_RHO", padTo fill maxLayers ds),
      ("LAYER_T", padTo fill maxLayers ts), ("LAYER_LWC", padTo fill maxLayers ws),
      ("LAYER_IF", padTo fill maxLayers fs), ("new_snow_height", [g.newSnowHeight]),
      ("new_snow_timestamp", [g.newSnowTimestamp]), ("old_snow_timestamp", [g.oldSnowTimestamp])]

omit [HasTrunc α] in
/-- The restart dataset of a standalone run, cosipy/cpkernel/cosipy_core.py:495-504 with the names created in
`create_local_restart_dataset` (cosipy/cpkernel/io.py:760-794). Assigning more than `max_layers` values to a slice of
the arrays is a shape mismatch (ValueError). -/
def saveStandalone (c : Consts α) (fill : α) (maxLayers : Nat) (g : Grid α) : M (Dataset α) := do
  let hs ← g.getHeight
  let ds ← g.getDensity c
  let ts ← g.getTemperature
  let ws ← g.getLwc
  let fs ← g.getIceFraction
  if (maxLayers : Int) < g.getNumberLayers then .error .value
  else return [("NLAYERS", [((g.getNumberLayers.toNat : Nat) : α)]),
    ("NEWSNOWHEIGHT", [g.newSnowHeight]), ("NEWSNOWTIMESTAMP", [g.newSnowTimestamp]),
    ("OLDSNOWTIMESTAMP", [g.oldSnowTimestamp]),
    ("LAYER_HEIGHT", padTo fill maxLayers hs), ("LAYER_RHO", padTo fill maxLayers ds),
    ("LAYER_T", padTo fill maxLayers ts), ("LAYER_LWC", padTo fill maxLayers ws),
    ("LAYER_IF", padTo fill maxLayers fs)]

end
end Cosipy
