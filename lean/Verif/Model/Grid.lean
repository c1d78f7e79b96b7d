import Verif.Model.Node

/-!
# The layer column: `cosipy/cpkernel/grid.py`
-/

set_option autoImplicit false

namespace Cosipy

/-- The mutable state of `Grid`, cosipy/cpkernel/grid.py:13-23. `numberNodes` is the hand-kept counter
`number_nodes`; `nodes` is the typed list `grid`, top layer first. The constructor inputs
`layer_heights, …` are kept by the class but never read again; they are not part of the state. -/
structure Grid (α : Type) where
  nodes : List (Node α)
  numberNodes : Int
  newSnowHeight : α
  newSnowTimestamp : α
  oldSnowTimestamp : α
  deriving Repr

section
variable {α : Type} [Add α] [Sub α] [Mul α] [Div α] [Neg α] [LT α] [LE α]
  [DecidableLT α] [DecidableLE α] [BEq α] [Zero α] [One α] [NatCast α] [OfScientific α]

namespace Grid

/-! ## Element access -/

/-- `self.grid[idx]`, e.g. cosipy/cpkernel/grid.py:793. -/
def node (g : Grid α) (idx : Int) : M (Node α) := pyGet g.nodes idx

/-- `self.grid[idx].set_…(…)`, e.g. cosipy/cpkernel/grid.py:733. -/
def modifyNode (g : Grid α) (idx : Int) (f : Node α → Node α) : M (Grid α) := do
  let ns ← pyModify g.nodes idx f
  return { g with nodes := ns }

/-- `set_node_height`, cosipy/cpkernel/grid.py:744-746. -/
def setNodeHeight (g : Grid α) (idx : Int) (h : α) : M (Grid α) := g.modifyNode idx (Node.setHeight h)
/-- `set_node_temperature`, cosipy/cpkernel/grid.py:726-733. -/
def setNodeTemperature (g : Grid α) (idx : Int) (t : α) : M (Grid α) :=
  g.modifyNode idx (Node.setTemperature t)
/-- `set_node_liquid_water_content`, cosipy/cpkernel/grid.py:753-757. -/
def setNodeLwc (g : Grid α) (idx : Int) (w : α) : M (Grid α) := g.modifyNode idx (Node.setLwc w)
/-- `set_node_ice_fraction`, cosipy/cpkernel/grid.py:766-768. -/
def setNodeIceFraction (g : Grid α) (idx : Int) (f : α) : M (Grid α) :=
  g.modifyNode idx (Node.setIceFraction f)
/-- `set_node_refreeze`, cosipy/cpkernel/grid.py:775-777. -/
def setNodeRefreeze (g : Grid α) (idx : Int) (r : α) : M (Grid α) :=
  g.modifyNode idx (Node.setRefreeze r)

/-- The list comprehensions `[self.grid[idx].get_…() for idx in range(self.number_nodes)]`,
e.g. cosipy/cpkernel/grid.py:784-789, 806-811, 836-841, 847-852, 858-863, 924-929. -/
def mapNodes {β : Type} (g : Grid α) (f : Node α → M β) : M (List β) :=
  (List.range g.numberNodes.toNat).mapM fun (i : Nat) => do
    let n ← g.node (i : Int)
    f n

/-- The array setters `for idx in range(self.number_nodes): self.grid[idx].set_…(xs[idx])`,
cosipy/cpkernel/grid.py:735-742, 748-751, 759-764, 770-773, 779-782. -/
def setAll (g : Grid α) (f : α → Node α → Node α) (xs : List α) : M (Grid α) :=
  (List.range g.numberNodes.toNat).foldlM (fun (g : Grid α) (i : Nat) => do
    let x ← pyGet xs (i : Int)
    g.modifyNode (i : Int) (f x)) g

/-- `get_height`, cosipy/cpkernel/grid.py:806-811. -/
def getHeight (g : Grid α) : M (List α) := g.mapNodes fun n => .ok n.height
/-- `get_temperature`, cosipy/cpkernel/grid.py:784-789. -/
def getTemperature (g : Grid α) : M (List α) := g.mapNodes fun n => .ok n.temperature
/-- `get_density`, cosipy/cpkernel/grid.py:836-841. -/
def getDensity (c : Consts α) (g : Grid α) : M (List α) := g.mapNodes fun n => .ok (n.density c)
/-- `get_liquid_water_content`, cosipy/cpkernel/grid.py:847-852. -/
def getLwc (g : Grid α) : M (List α) := g.mapNodes fun n => .ok n.lwc
/-- `get_ice_fraction`, cosipy/cpkernel/grid.py:858-863. -/
def getIceFraction (g : Grid α) : M (List α) := g.mapNodes fun n => .ok n.iceFraction
/-- `get_refreeze`, cosipy/cpkernel/grid.py:924-929. -/
def getRefreeze (g : Grid α) : M (List α) := g.mapNodes fun n => .ok n.refreeze
/-- `get_irreducible_water_content`, cosipy/cpkernel/grid.py:869-874. -/
def getIrreducibleWaterContent (g : Grid α) : M (List α) := g.mapNodes Node.irreducibleWaterContent
/-- `get_cold_content`, cosipy/cpkernel/grid.py:880-885. -/
def getColdContent (c : Consts α) (g : Grid α) : M (List α) :=
  g.mapNodes fun n => .ok (n.coldContent c)
/-- `get_porosity`, cosipy/cpkernel/grid.py:891-896. -/
def getPorosity (g : Grid α) : M (List α) := g.mapNodes fun n => .ok n.porosity
/-- `get_thermal_diffusivity`, cosipy/cpkernel/grid.py:913-918. -/
def getThermalDiffusivity (c : Consts α) (g : Grid α) : M (List α) :=
  g.mapNodes fun n => n.thermalDiffusivity c

/-- `get_number_layers`, cosipy/cpkernel/grid.py:965-967. -/
def getNumberLayers (g : Grid α) : Int := g.numberNodes

/-- `get_number_snow_layers`, cosipy/cpkernel/grid.py:956-963. -/
def getNumberSnowLayers (c : Consts α) (g : Grid α) : M Nat := do
  let ds ← g.getDensity c
  return (ds.filter fun d => decide (d < c.snowIceThreshold)).length

/-- `get_snow_heights`, cosipy/cpkernel/grid.py:813-818: heights of the *first* `n` layers, where `n` is
the number of snow layers. -/
def getSnowHeights (c : Consts α) (g : Grid α) : M (List α) := do
  let n ← g.getNumberSnowLayers c
  (List.range n).mapM fun (i : Nat) => do
    let nd ← g.node (i : Int)
    return nd.height

/-- `get_ice_heights`, cosipy/cpkernel/grid.py:820-826. -/
def getIceHeights (c : Consts α) (g : Grid α) : M (List α) := do
  let ns ← g.mapNodes fun n => .ok n
  return (ns.filter fun n => decide (c.snowIceThreshold ≤ n.density c)).map Node.height

/-- `get_total_snowheight`, cosipy/cpkernel/grid.py:948-950. -/
def getTotalSnowheight (c : Consts α) (g : Grid α) : M α := do
  let hs ← g.getSnowHeights c
  return pySum hs

/-- `get_total_height`, cosipy/cpkernel/grid.py:952-954. -/
def getTotalHeight (g : Grid α) : M α := do
  let hs ← g.getHeight
  return pySum hs

/-- `get_node_depth`, cosipy/cpkernel/grid.py:931-937. -/
def getNodeDepth (g : Grid α) (idx : Int) : M α := do
  let n ← g.node idx
  let d := n.height / 2.0
  (List.range idx.toNat).foldlM (fun (d : α) (i : Nat) => do
    let m ← g.node (i : Int)
    return d + m.height) d

/-- `np.cumsum(h[:-1]) + 0.5*h[1:]` written as one pass: running sum `s` of the heights above
(cosipy/cpkernel/grid.py:939-946). -/
def depthFrom : α → List α → List α
  | _, [] => []
  | s, h :: hs => (s + 0.5 * h) :: depthFrom (s + h) hs

/-- `get_depth`, cosipy/cpkernel/grid.py:939-946. `z[0]` on an empty column raises IndexError. The first
entry is `0.5*h[0]`; the others are the cumulative sum of the heights above plus half the height. -/
def getDepth (g : Grid α) : M (List α) := do
  let hs ← g.getHeight
  match hs with
  | [] => .error .index
  | h :: hs => return (0.5 * h) :: depthFrom h hs

/-! ## Construction and fresh snow -/

/-- `Grid.__init__` and `init_grid`, cosipy/cpkernel/grid.py:68-129. Arrays shorter than
`layer_heights` raise `index` (numba without bounds checks would read garbage). -/
def new (c : Consts α) (heights densities temperatures lwcs : List α) (iceFractions : Option (List α))
    (newSnowHeight newSnowTimestamp oldSnowTimestamp : Option α) : M (Grid α) := do
  let nodes ← (List.range heights.length).mapM fun (i : Nat) => do
    let h ← pyGet heights (i : Int)
    let d ← pyGet densities (i : Int)
    let t ← pyGet temperatures (i : Int)
    let w ← pyGet lwcs (i : Int)
    match iceFractions with
    | none => return Node.new c h d t w none
    | some fs => do
      let f ← pyGet fs (i : Int)
      return Node.new c h d t w (some f)
  match newSnowHeight, newSnowTimestamp, oldSnowTimestamp with
  | some a, some b, some o => return ⟨nodes, heights.length, a, b, o⟩
  | _, _, _ => return ⟨nodes, heights.length, 0, 0, 0⟩

/-- `set_fresh_snow_props`, cosipy/cpkernel/grid.py:670-680. -/
def setFreshSnowProps (g : Grid α) (height : α) : Grid α :=
  { g with newSnowHeight := height, oldSnowTimestamp := g.newSnowTimestamp, newSnowTimestamp := 0 }

/-- `set_fresh_snow_props_to_old_props`, cosipy/cpkernel/grid.py:682-689. -/
def setFreshSnowPropsToOldProps (g : Grid α) : Grid α :=
  { g with newSnowTimestamp := g.oldSnowTimestamp }

/-- `set_fresh_snow_props_update_time`, cosipy/cpkernel/grid.py:691-699. -/
def setFreshSnowPropsUpdateTime (g : Grid α) (seconds : α) : Grid α :=
  { g with oldSnowTimestamp := g.oldSnowTimestamp + seconds,
           newSnowTimestamp := g.newSnowTimestamp + seconds }

/-- `set_fresh_snow_props_height`, cosipy/cpkernel/grid.py:701-707. -/
def setFreshSnowPropsHeight (g : Grid α) (height : α) : Grid α := { g with newSnowHeight := height }

/-- `add_fresh_snow`, cosipy/cpkernel/grid.py:131-161. -/
def addFreshSnow (c : Consts α) (g : Grid α) (height density temperature lwc dt : α) : Grid α :=
  let g1 : Grid α :=
    { g with nodes := pyInsert g.nodes 0 (Node.new c height density temperature lwc none),
             numberNodes := g.numberNodes + 1 }
  if height < c.minimumSnowfall then g1.setFreshSnowPropsUpdateTime dt
  else g1.setFreshSnowProps height

/-! ## Structural operations -/

/-- `remove_node`, cosipy/cpkernel/grid.py:163-179. `idx = []` stands for `None` and for the empty list. -/
def removeNode (g : Grid α) (idx : List Int) : M (Grid α) :=
  if g.nodes.isEmpty then .ok g
  else if idx.isEmpty then
    .ok { g with nodes := g.nodes.tail, numberNodes := g.numberNodes - 1 }
  else do
    let ns ← (idx.mergeSort fun a b => decide (b ≤ a)).foldlM pyDel g.nodes
    return { g with nodes := ns, numberNodes := g.numberNodes - idx.length }

/-- `update_node`, cosipy/cpkernel/grid.py:519-540. -/
def updateNode (g : Grid α) (idx : Int) (height temperature iceFraction lwc : α) : M (Grid α) := do
  let g ← g.setNodeHeight idx height
  let g ← g.setNodeTemperature idx temperature
  let g ← g.setNodeIceFraction idx iceFraction
  g.setNodeLwc idx lwc

/-- `merge_nodes`, cosipy/cpkernel/grid.py:181-256. The two nodes are read once instead of at every getter
call (nothing is written in between). The consistency check at 219-235 only prints; when it
prints is modelled in Model/Checks. -/
def mergeNodes (g : Grid α) (idx : Int) : M (Grid α) := do
  let a ← g.node idx
  let b ← g.node (idx + 1)
  let newHeight := a.height + b.height
  let newLwc ← fdiv (a.lwc * a.height + b.lwc * b.height) newHeight
  let newIce ← fdiv (a.iceFraction * a.height + b.iceFraction * b.height) newHeight
  let wa ← fdiv a.height newHeight
  let wb ← fdiv b.height newHeight
  let newTemperature := wa * a.temperature + wb * b.temperature
  let g ← g.updateNode idx newHeight newTemperature newIce newLwc
  g.removeNode [idx + 1]

/-- The `while` loop of `correct_layer`, cosipy/cpkernel/grid.py:272-291: one pass. `total_height` always
equals the current height of layer `idx`. -/
def correctLayerPass (c : Consts α) (idx : Int) (minHeight : α) (g : Grid α) : M (Option (Grid α)) := do
  let a ← g.node idx
  if a.height < minHeight ∧ idx + 1 < g.numberNodes then
    let b ← g.node (idx + 1)
    if a.density c < c.snowIceThreshold ∧ b.density c < c.snowIceThreshold then
      let g' ← g.mergeNodes idx
      return some g'
    else if c.snowIceThreshold ≤ a.density c ∧ c.snowIceThreshold ≤ b.density c then
      let g' ← g.mergeNodes idx
      return some g'
    else
      return none
  else
    return none

/-- The split at the end of `correct_layer`, cosipy/cpkernel/grid.py:293-362. The consistency check at
345-355 only prints; when it prints is modelled in Model/Checks. -/
def correctLayerSplit (c : Consts α) (idx : Int) (minHeight : α) (g : Grid α) : M (Grid α) := do
  let a ← g.node idx
  if minHeight < a.height then
    let h0 := minHeight
    let h1 := a.height - minHeight
    let thetaE ← a.irreducibleWaterContent
    let lw0 := if 0 < a.lwc - thetaE then thetaE * a.height else a.lwc * a.height
    let lw1 := if 0 < a.lwc - thetaE then a.lwc * a.height - thetaE * a.height else 0
    let lwc0 ← fdiv lw0 h0
    let lwc1 ← fdiv lw1 h1
    let g ← g.updateNode idx h0 a.temperature a.iceFraction lwc0
    let a' ← g.node idx
    let fresh := Node.new c h1 (a'.density c) a.temperature lwc1 (some a.iceFraction)
    return { g with nodes := pyInsert g.nodes (idx + 1) fresh, numberNodes := g.numberNodes + 1 }
  else
    return g

/-- `correct_layer`, cosipy/cpkernel/grid.py:258-362. -/
def correctLayer (fuel : Nat) (c : Consts α) (g : Grid α) (idx : Int) (minHeight : α) : M (Grid α) := do
  let g ← whileM (correctLayerPass c idx minHeight) fuel g
  correctLayerSplit c idx minHeight g

/-- Loop state of `log_profile`: grid, `hrest`, `last_layer_height`, `idx` (cosipy/cpkernel/grid.py:381-401). -/
structure LogState (α : Type) where
  g : Grid α
  hrest : α
  last : α
  idx : Int

/-- One pass of the snow loop of `log_profile`, cosipy/cpkernel/grid.py:386-401. -/
def logSnowPass (fuel : Nat) (c : Consts α) (s : LogState α) : M (Option (LogState α)) := do
  let n ← s.g.getNumberSnowLayers c
  if s.idx < (n : Int) then
    if s.last ≤ s.hrest then
      let g ← s.g.correctLayer fuel c s.idx s.last
      return some ⟨g, s.hrest - s.last, c.layerStretching * s.last, s.idx + 1⟩
    else if s.hrest < s.last ∧ 0 < s.idx then
      let g ← s.g.mergeNodes (s.idx - 1)
      return some ⟨g, s.hrest, s.last, s.idx + 1⟩
    else
      return some ⟨s.g, s.hrest, s.last, s.idx + 1⟩
  else
    return none

/-- One pass of the glacier loop of `log_profile`, cosipy/cpkernel/grid.py:410-425. With `idx = 0` the merge
index is `-1` and wraps to the last layer. -/
def logIcePass (fuel : Nat) (c : Consts α) (s : LogState α) : M (Option (LogState α)) := do
  if s.idx < s.g.numberNodes then
    if s.last ≤ s.hrest then
      let g ← s.g.correctLayer fuel c s.idx s.last
      return some ⟨g, s.hrest - s.last, c.layerStretching * s.last, s.idx + 1⟩
    else if s.hrest < s.last then
      let g ← s.g.mergeNodes (s.idx - 1)
      return some ⟨g, s.hrest, s.last, s.idx + 1⟩
    else
      return some ⟨s.g, s.hrest, s.last, s.idx + 1⟩
  else
    return none

/-- `log_profile`, cosipy/cpkernel/grid.py:364-425. -/
def logProfile (fuel : Nat) (c : Consts α) (g : Grid α) : M (Grid α) := do
  let hsnow ← g.getTotalSnowheight c
  let s ← whileM (logSnowPass fuel c) fuel ⟨g, hsnow, c.firstLayerHeight, 0⟩
  let total ← s.g.getTotalHeight
  let snow ← s.g.getTotalSnowheight c
  let n ← s.g.getNumberSnowLayers c
  let s ← whileM (logIcePass fuel c) fuel ⟨s.g, total - snow, s.last, (n : Int)⟩
  return s.g

/-- Loop state of the first loop of `adaptive_profile`: grid, `idx`, `merge_counter`
(cosipy/cpkernel/grid.py:443-469). -/
structure AdaptState (α : Type) where
  g : Grid α
  idx : Int
  mergeCounter : Int

/-- One pass of the snow loop of `adaptive_profile`, cosipy/cpkernel/grid.py:448-469. -/
def adaptSnowPass (c : Consts α) (s : AdaptState α) : M (Option (AdaptState α)) := do
  let n ← s.g.getNumberSnowLayers c
  if s.idx < (n : Int) - 1 then
    let a ← s.g.node s.idx
    let b ← s.g.node (s.idx + 1)
    let dT := pyAbs (a.temperature - b.temperature)
    let dRho := pyAbs (a.density c - b.density c)
    if dT ≤ c.temperatureThresholdMerging ∧ dRho ≤ c.densityThresholdMerging ∧ a.height ≤ 0.1 ∧
        s.mergeCounter ≤ c.mergeMax then
      let g ← s.g.mergeNodes s.idx
      return some ⟨g, s.idx, s.mergeCounter + 1⟩
    else if a.height ≤ c.minimumSnowLayerHeight then
      let g ← s.g.removeNode [s.idx]
      return some ⟨g, s.idx, s.mergeCounter⟩
    else
      return some ⟨s.g, s.idx + 1, s.mergeCounter⟩
  else
    return none

/-- One pass of the ice loop of `adaptive_profile`, cosipy/cpkernel/grid.py:480-485. -/
def adaptIcePass (c : Consts α) (s : Grid α × Int) : M (Option (Grid α × Int)) := do
  if s.2 < s.1.numberNodes - 1 then
    let a ← s.1.node s.2
    if a.height < c.minimumSnowLayerHeight then
      let g ← s.1.mergeNodes s.2
      return some (g, s.2)
    else
      return some (s.1, s.2 + 1)
  else
    return none

/-- `adaptive_profile`, cosipy/cpkernel/grid.py:427-486. -/
def adaptiveProfile (fuel : Nat) (c : Consts α) (g : Grid α) : M (Grid α) := do
  let s ← whileM (adaptSnowPass c) fuel ⟨g, 0, 0⟩
  let n ← s.g.getNumberSnowLayers c
  let minIceIdx : Int := max 1 (n : Int)
  let (g, idx) ← (do
    if minIceIdx = 1 then
      let a ← s.g.node 0
      if a.height < c.firstLayerHeight then
        let g ← s.g.correctLayer fuel c minIceIdx c.firstLayerHeight
        return (g, minIceIdx + 1)
      else
        return (s.g, minIceIdx)
    else
      -- the comparison reads layer 0 in any case (`&` does not short-circuit)
      let _ ← s.g.node 0
      return (s.g, minIceIdx) : M (Grid α × Int))
  let (g, _) ← whileM (adaptIcePass c) fuel (g, idx)
  g.correctLayer fuel c 0 c.firstLayerHeight

/-- `split_node`, cosipy/cpkernel/grid.py:488-517. -/
def splitNode (c : Consts α) (g : Grid α) (pos : Int) : M (Grid α) := do
  let a ← g.node pos
  let fresh := Node.new c (a.height / 2.0) (a.density c) a.temperature (a.lwc / 2.0) (some a.iceFraction)
  let g := { g with nodes := pyInsert g.nodes (pos + 1) fresh }
  let b ← g.node pos
  let g ← g.updateNode pos (b.height / 2.0) b.temperature b.iceFraction (b.lwc / 2.0)
  return { g with numberNodes := g.numberNodes + 1 }

/-- The dispatch on `remesh_method`, cosipy/cpkernel/grid.py:583-586. -/
def remesh (fuel : Nat) (c : Consts α) (g : Grid α) : M (Grid α) :=
  match c.remeshMethod with
  | .logProfile => g.logProfile fuel c
  | .adaptiveProfile => g.adaptiveProfile fuel c
  | .other => .ok g

/-- `update_grid`, cosipy/cpkernel/grid.py:562-590. -/
def updateGrid (fuel : Nat) (c : Consts α) (g : Grid α) : M (Grid α) := do
  let g ← g.remesh fuel c
  let a ← g.node 0
  if a.height < c.minimumSnowLayerHeight then g.removeNode [0] else return g

/-- `merge_snow_with_glacier`, cosipy/cpkernel/grid.py:592-617. -/
def mergeSnowWithGlacier (c : Consts α) (g : Grid α) (idx : Int) : M (Grid α) := do
  let a ← g.node idx
  let b ← g.node (idx + 1)
  if a.density c < c.snowIceThreshold ∧ c.snowIceThreshold ≤ b.density c then
    let surfaceLayerHeight := a.height * (a.density c / c.iceDensity)
    let g ← g.updateNode (idx + 1) (b.height + surfaceLayerHeight) b.temperature b.iceFraction 0
    g.removeNode [idx]
  else
    return g

/-- Loop state of `remove_melt_weq`: grid, `melt`, `lwc_from_layers` (cosipy/cpkernel/grid.py:633-658). -/
structure MeltState (α : Type) where
  g : Grid α
  melt : α
  lwcFromLayers : α

/-- One pass of the loop of `remove_melt_weq`, cosipy/cpkernel/grid.py:637-658. If neither comparison holds
(NaN), the state does not change. -/
def removeMeltPass (c : Consts α) (idx : Int) (s : MeltState α) : M (Option (MeltState α)) := do
  if 0 < s.melt ∧ idx < s.g.numberNodes then
    let a ← s.g.node idx
    let swe := a.height * (a.density c / c.waterDensity)
    if s.melt < swe then
      let h ← fdiv (swe - s.melt) (a.density c / c.waterDensity)
      let g ← s.g.setNodeHeight idx h
      return some ⟨g, 0, s.lwcFromLayers⟩
    else if swe ≤ s.melt then
      let g ← s.g.removeNode [idx]
      return some ⟨g, s.melt - swe, s.lwcFromLayers + a.lwc * a.height⟩
    else
      return some s
  else
    return none

/-- `remove_melt_weq`, cosipy/cpkernel/grid.py:621-664. Returns the new grid and `lwc_from_layers`. -/
def removeMeltWeq (fuel : Nat) (c : Consts α) (g : Grid α) (melt : α) (idx : Int := 0) :
    M (Grid α × α) := do
  let s ← whileM (removeMeltPass c idx) fuel ⟨g, melt, 0⟩
  let g := if idx = 0 then s.g.setFreshSnowPropsHeight (s.g.newSnowHeight - s.melt) else s.g
  return (g, s.lwcFromLayers)

end Grid
end
end Cosipy
