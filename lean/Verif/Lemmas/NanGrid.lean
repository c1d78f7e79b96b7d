import Verif.Lemmas.NanHom

/-! Layer and column operations commute with `toNan`. -/

set_option autoImplicit false
set_option linter.unusedSectionVars false

namespace Cosipy
section
variable {K : Type} [Field K] [LinearOrder K] [IsStrictOrderedRing K]

local notation "N" => (Nan.num : K → Nan K)

namespace Consts
@[nanpush] theorem toNan_dt (c : Consts K) : c.toNan.dt = N c.dt := rfl
@[nanpush] theorem toNan_maxLayers (c : Consts K) : c.toNan.maxLayers = c.maxLayers := rfl
@[nanpush] theorem toNan_z (c : Consts K) : c.toNan.z = N c.z := rfl
@[nanpush] theorem toNan_stabilityCorrection (c : Consts K) : c.toNan.stabilityCorrection = c.stabilityCorrection := rfl
@[nanpush] theorem toNan_albedoMethod (c : Consts K) : c.toNan.albedoMethod = c.albedoMethod := rfl
@[nanpush] theorem toNan_densificationMethod (c : Consts K) : c.toNan.densificationMethod = c.densificationMethod := rfl
@[nanpush] theorem toNan_penetratingMethod (c : Consts K) : c.toNan.penetratingMethod = c.penetratingMethod := rfl
@[nanpush] theorem toNan_roughnessMethod (c : Consts K) : c.toNan.roughnessMethod = c.roughnessMethod := rfl
@[nanpush] theorem toNan_thermalConductivityMethod (c : Consts K) : c.toNan.thermalConductivityMethod = c.thermalConductivityMethod := rfl
@[nanpush] theorem toNan_sfcTemperatureMethod (c : Consts K) : c.toNan.sfcTemperatureMethod = c.sfcTemperatureMethod := rfl
@[nanpush] theorem toNan_initialSnowheightConstant (c : Consts K) : c.toNan.initialSnowheightConstant = N c.initialSnowheightConstant := rfl
@[nanpush] theorem toNan_initialGlacierHeight (c : Consts K) : c.toNan.initialGlacierHeight = N c.initialGlacierHeight := rfl
@[nanpush] theorem toNan_initialGlacierLayerHeights (c : Consts K) : c.toNan.initialGlacierLayerHeights = N c.initialGlacierLayerHeights := rfl
@[nanpush] theorem toNan_initialTopDensitySnowpack (c : Consts K) : c.toNan.initialTopDensitySnowpack = N c.initialTopDensitySnowpack := rfl
@[nanpush] theorem toNan_initialBottomDensitySnowpack (c : Consts K) : c.toNan.initialBottomDensitySnowpack = N c.initialBottomDensitySnowpack := rfl
@[nanpush] theorem toNan_temperatureBottom (c : Consts K) : c.toNan.temperatureBottom = N c.temperatureBottom := rfl
@[nanpush] theorem toNan_zlt1 (c : Consts K) : c.toNan.zlt1 = N c.zlt1 := rfl
@[nanpush] theorem toNan_zlt2 (c : Consts K) : c.toNan.zlt2 = N c.zlt2 := rfl
@[nanpush] theorem toNan_centerSnowTransferFunction (c : Consts K) : c.toNan.centerSnowTransferFunction = N c.centerSnowTransferFunction := rfl
@[nanpush] theorem toNan_spreadSnowTransferFunction (c : Consts K) : c.toNan.spreadSnowTransferFunction = N c.spreadSnowTransferFunction := rfl
@[nanpush] theorem toNan_multFactorRRR (c : Consts K) : c.toNan.multFactorRRR = N c.multFactorRRR := rfl
@[nanpush] theorem toNan_minimumSnowLayerHeight (c : Consts K) : c.toNan.minimumSnowLayerHeight = N c.minimumSnowLayerHeight := rfl
@[nanpush] theorem toNan_minimumSnowfall (c : Consts K) : c.toNan.minimumSnowfall = N c.minimumSnowfall := rfl
@[nanpush] theorem toNan_remeshMethod (c : Consts K) : c.toNan.remeshMethod = c.remeshMethod := rfl
@[nanpush] theorem toNan_firstLayerHeight (c : Consts K) : c.toNan.firstLayerHeight = N c.firstLayerHeight := rfl
@[nanpush] theorem toNan_layerStretching (c : Consts K) : c.toNan.layerStretching = N c.layerStretching := rfl
@[nanpush] theorem toNan_mergeMax (c : Consts K) : c.toNan.mergeMax = c.mergeMax := rfl
@[nanpush] theorem toNan_densityThresholdMerging (c : Consts K) : c.toNan.densityThresholdMerging = N c.densityThresholdMerging := rfl
@[nanpush] theorem toNan_temperatureThresholdMerging (c : Consts K) : c.toNan.temperatureThresholdMerging = N c.temperatureThresholdMerging := rfl
@[nanpush] theorem toNan_constantDensity (c : Consts K) : c.toNan.constantDensity = N c.constantDensity := rfl
@[nanpush] theorem toNan_albedoFreshSnow (c : Consts K) : c.toNan.albedoFreshSnow = N c.albedoFreshSnow := rfl
@[nanpush] theorem toNan_albedoFirn (c : Consts K) : c.toNan.albedoFirn = N c.albedoFirn := rfl
@[nanpush] theorem toNan_albedoIce (c : Consts K) : c.toNan.albedoIce = N c.albedoIce := rfl
@[nanpush] theorem toNan_albedoModSnowAging (c : Consts K) : c.toNan.albedoModSnowAging = N c.albedoModSnowAging := rfl
@[nanpush] theorem toNan_albedoModSnowDepth (c : Consts K) : c.toNan.albedoModSnowDepth = N c.albedoModSnowDepth := rfl
@[nanpush] theorem toNan_tStarWet (c : Consts K) : c.toNan.tStarWet = N c.tStarWet := rfl
@[nanpush] theorem toNan_tStarDry (c : Consts K) : c.toNan.tStarDry = N c.tStarDry := rfl
@[nanpush] theorem toNan_tStarK (c : Consts K) : c.toNan.tStarK = N c.tStarK := rfl
@[nanpush] theorem toNan_tStarCutoff (c : Consts K) : c.toNan.tStarCutoff = N c.tStarCutoff := rfl
@[nanpush] theorem toNan_roughnessFreshSnow (c : Consts K) : c.toNan.roughnessFreshSnow = N c.roughnessFreshSnow := rfl
@[nanpush] theorem toNan_roughnessIce (c : Consts K) : c.toNan.roughnessIce = N c.roughnessIce := rfl
@[nanpush] theorem toNan_roughnessFirn (c : Consts K) : c.toNan.roughnessFirn = N c.roughnessFirn := rfl
@[nanpush] theorem toNan_agingFactorRoughness (c : Consts K) : c.toNan.agingFactorRoughness = N c.agingFactorRoughness := rfl
@[nanpush] theorem toNan_snowIceThreshold (c : Consts K) : c.toNan.snowIceThreshold = N c.snowIceThreshold := rfl
@[nanpush] theorem toNan_latHeatMelting (c : Consts K) : c.toNan.latHeatMelting = N c.latHeatMelting := rfl
@[nanpush] theorem toNan_latHeatVaporize (c : Consts K) : c.toNan.latHeatVaporize = N c.latHeatVaporize := rfl
@[nanpush] theorem toNan_latHeatSublimation (c : Consts K) : c.toNan.latHeatSublimation = N c.latHeatSublimation := rfl
@[nanpush] theorem toNan_specHeatAir (c : Consts K) : c.toNan.specHeatAir = N c.specHeatAir := rfl
@[nanpush] theorem toNan_specHeatIce (c : Consts K) : c.toNan.specHeatIce = N c.specHeatIce := rfl
@[nanpush] theorem toNan_specHeatWater (c : Consts K) : c.toNan.specHeatWater = N c.specHeatWater := rfl
@[nanpush] theorem toNan_kI (c : Consts K) : c.toNan.kI = N c.kI := rfl
@[nanpush] theorem toNan_kW (c : Consts K) : c.toNan.kW = N c.kW := rfl
@[nanpush] theorem toNan_kA (c : Consts K) : c.toNan.kA = N c.kA := rfl
@[nanpush] theorem toNan_waterDensity (c : Consts K) : c.toNan.waterDensity = N c.waterDensity := rfl
@[nanpush] theorem toNan_iceDensity (c : Consts K) : c.toNan.iceDensity = N c.iceDensity := rfl
@[nanpush] theorem toNan_airDensity (c : Consts K) : c.toNan.airDensity = N c.airDensity := rfl
@[nanpush] theorem toNan_sigma (c : Consts K) : c.toNan.sigma = N c.sigma := rfl
@[nanpush] theorem toNan_zeroTemperature (c : Consts K) : c.toNan.zeroTemperature = N c.zeroTemperature := rfl
@[nanpush] theorem toNan_surfaceEmissionCoeff (c : Consts K) : c.toNan.surfaceEmissionCoeff = N c.surfaceEmissionCoeff := rfl
end Consts

/-- What the constants must not be for the divisions by constants to be defined. -/
theorem Consts.Phys.nonzero {c : Consts K} (hc : c.Phys) : c.iceDensity ≠ 0 ∧ c.waterDensity ≠ 0 ∧
    c.iceDensity - c.airDensity ≠ 0 ∧ c.waterDensity * c.latHeatMelting ≠ 0 ∧
    c.waterDensity * c.latHeatSublimation ≠ 0 ∧ c.waterDensity * c.latHeatVaporize ≠ 0 ∧ 1000 * c.latHeatMelting ≠ 0 :=
  ⟨hc.ice.ne', hc.water.ne', (sub_pos.2 (hc.air_lt.trans_le hc.thr_le)).ne', (mul_pos hc.water hc.melt).ne',
    (mul_pos hc.water hc.subl).ne', (mul_pos hc.water hc.vap).ne', (mul_pos (by norm_num) hc.melt).ne'⟩

namespace Node

@[nanpush] theorem toNan_new {c : Consts K} (hc : c.Phys) (h d t w : K) (f : Option K) :
    Node.new c.toNan (N h) (N d) (N t) (N w) (f.map N) = (Node.new c h d t w f).toNan := by
  obtain ⟨h1, -⟩ := hc.nonzero
  cases f <;> simp only [Node.new, Node.toNan, nanpush, Option.map, h1]

@[nanpush] theorem toNan_new_none {c : Consts K} (hc : c.Phys) (h d t w : K) :
    Node.new c.toNan (N h) (N d) (N t) (N w) none = (Node.new c h d t w none).toNan := toNan_new hc h d t w none
@[nanpush] theorem toNan_new_some {c : Consts K} (hc : c.Phys) (h d t w f : K) :
    Node.new c.toNan (N h) (N d) (N t) (N w) (some (N f)) = (Node.new c h d t w (some f)).toNan :=
  toNan_new hc h d t w (some f)

@[nanpush] theorem toNan_height (n : Node K) : n.toNan.height = N n.height := rfl
@[nanpush] theorem toNan_temperature (n : Node K) : n.toNan.temperature = N n.temperature := rfl
@[nanpush] theorem toNan_lwc (n : Node K) : n.toNan.lwc = N n.lwc := rfl
@[nanpush] theorem toNan_iceFraction (n : Node K) : n.toNan.iceFraction = N n.iceFraction := rfl
@[nanpush] theorem toNan_refreeze (n : Node K) : n.toNan.refreeze = N n.refreeze := rfl

@[nanpush] theorem toNan_airPorosity (n : Node K) : n.toNan.airPorosity = N n.airPorosity := by
  simp only [Node.airPorosity, nanpush]
@[nanpush] theorem toNan_density (c : Consts K) (n : Node K) : n.toNan.density c.toNan = N (n.density c) := by
  simp only [Node.density, nanpush]
@[nanpush] theorem toNan_specificHeat (c : Consts K) (n : Node K) : n.toNan.specificHeat c.toNan = N (n.specificHeat c) := by
  simp only [Node.specificHeat, nanpush]
@[nanpush] theorem toNan_irreducible (n : Node K) :
    n.toNan.irreducibleWaterContent = n.irreducibleWaterContent.map N := by
  simp only [Node.irreducibleWaterContent, nanpush]
@[nanpush] theorem toNan_conductivity (c : Consts K) (n : Node K) :
    n.toNan.thermalConductivity c.toNan = (n.thermalConductivity c).map N := by
  have e : c.toNan.thermalConductivityMethod = c.thermalConductivityMethod := rfl
  unfold Node.thermalConductivity
  rw [e]
  cases c.thermalConductivityMethod <;> simp only [nanpush]
@[nanpush] theorem toNan_diffusivity (c : Consts K) (n : Node K) :
    n.toNan.thermalDiffusivity c.toNan = (n.thermalDiffusivity c).map N := by
  simp only [Node.thermalDiffusivity, nanpush]

@[nanpush] theorem toNan_setHeight (x : K) (n : Node K) : Node.setHeight (N x) n.toNan = (Node.setHeight x n).toNan := rfl
@[nanpush] theorem toNan_setTemperature (x : K) (n : Node K) :
    Node.setTemperature (N x) n.toNan = (Node.setTemperature x n).toNan := rfl
@[nanpush] theorem toNan_setLwc (x : K) (n : Node K) : Node.setLwc (N x) n.toNan = (Node.setLwc x n).toNan := rfl
@[nanpush] theorem toNan_setIceFraction (x : K) (n : Node K) :
    Node.setIceFraction (N x) n.toNan = (Node.setIceFraction x n).toNan := rfl
@[nanpush] theorem toNan_setRefreeze (x : K) (n : Node K) : Node.setRefreeze (N x) n.toNan = (Node.setRefreeze x n).toNan := rfl

end Node

namespace Grid

theorem toNan_nodes (g : Grid K) : g.toNan.nodes = g.nodes.map Node.toNan := rfl
@[nanpush] theorem toNan_numberNodes (g : Grid K) : g.toNan.numberNodes = g.numberNodes := rfl
@[nanpush] theorem toNan_newSnowHeight (g : Grid K) : g.toNan.newSnowHeight = N g.newSnowHeight := rfl
@[nanpush] theorem toNan_newSnowTimestamp (g : Grid K) : g.toNan.newSnowTimestamp = N g.newSnowTimestamp := rfl
@[nanpush] theorem toNan_oldSnowTimestamp (g : Grid K) : g.toNan.oldSnowTimestamp = N g.oldSnowTimestamp := rfl

@[nanpush] theorem toNan_node (g : Grid K) (i : Int) : g.toNan.node i = (g.node i).map Node.toNan :=
  pyGet_map Node.toNan g.nodes i

theorem toNan_modifyNode (g : Grid K) (i : Int) {f : Node K → Node K} {f' : Node (Nan K) → Node (Nan K)}
    (h : ∀ n, f' n.toNan = (f n).toNan) : g.toNan.modifyNode i f' = (g.modifyNode i f).map Grid.toNan := by
  unfold Grid.modifyNode
  rw [toNan_nodes, pyModify_hom h]
  simp only [nanpush]
  rfl

@[nanpush] theorem toNan_setNodeHeight (g : Grid K) (i : Int) (x : K) :
    g.toNan.setNodeHeight i (N x) = (g.setNodeHeight i x).map Grid.toNan := toNan_modifyNode g i fun _ => rfl
@[nanpush] theorem toNan_setNodeTemperature (g : Grid K) (i : Int) (x : K) :
    g.toNan.setNodeTemperature i (N x) = (g.setNodeTemperature i x).map Grid.toNan := toNan_modifyNode g i fun _ => rfl
@[nanpush] theorem toNan_setNodeLwc (g : Grid K) (i : Int) (x : K) :
    g.toNan.setNodeLwc i (N x) = (g.setNodeLwc i x).map Grid.toNan := toNan_modifyNode g i fun _ => rfl
@[nanpush] theorem toNan_setNodeIceFraction (g : Grid K) (i : Int) (x : K) :
    g.toNan.setNodeIceFraction i (N x) = (g.setNodeIceFraction i x).map Grid.toNan := toNan_modifyNode g i fun _ => rfl

theorem toNan_mapNodes {β γ : Type} (g : Grid K) {φ : β → γ} {f : Node K → M β} {f' : Node (Nan K) → M γ}
    (h : ∀ n, f' n.toNan = (f n).map φ) : g.toNan.mapNodes f' = (g.mapNodes f).map (List.map φ) := by
  unfold Grid.mapNodes
  rw [← mapM_hom]
  simp only [nanpush, h]

theorem toNan_setAll (g : Grid K) {f : K → Node K → Node K} {f' : Nan K → Node (Nan K) → Node (Nan K)}
    (h : ∀ x n, f' (N x) n.toNan = (f x n).toNan) (xs : List K) :
    g.toNan.setAll f' (xs.map N) = (g.setAll f xs).map Grid.toNan := by
  unfold Grid.setAll
  refine foldlM_hom (fun s i => ?_) _ _
  rw [pyGet_map]
  simp only [nanpush, toNan_modifyNode _ _ (h _)]

@[nanpush] theorem toNan_getHeight (g : Grid K) : g.toNan.getHeight = g.getHeight.map (List.map N) :=
  toNan_mapNodes g fun _ => rfl
@[nanpush] theorem toNan_getDensity (c : Consts K) (g : Grid K) :
    g.toNan.getDensity c.toNan = (g.getDensity c).map (List.map N) :=
  toNan_mapNodes g fun n => by simp only [nanpush]

@[nanpush] theorem toNan_numberLayers (g : Grid K) : g.toNan.getNumberLayers = g.getNumberLayers := rfl

@[nanpush] theorem toNan_numberSnowLayers (c : Consts K) (g : Grid K) :
    g.toNan.getNumberSnowLayers c.toNan = g.getNumberSnowLayers c := by
  unfold Grid.getNumberSnowLayers
  simp only [nanpush]
  congr 1
  funext ds
  rw [List.filter_map, List.length_map]
  congr 2

@[nanpush] theorem toNan_snowHeights (c : Consts K) (g : Grid K) :
    g.toNan.getSnowHeights c.toNan = (g.getSnowHeights c).map (List.map N) := by
  unfold Grid.getSnowHeights
  simp only [nanpush, ← mapM_hom]

@[nanpush] theorem toNan_totalSnowheight (c : Consts K) (g : Grid K) :
    g.toNan.getTotalSnowheight c.toNan = (g.getTotalSnowheight c).map N := by
  unfold Grid.getTotalSnowheight
  simp only [nanpush]

@[nanpush] theorem toNan_totalHeight (g : Grid K) : g.toNan.getTotalHeight = g.getTotalHeight.map N := by
  unfold Grid.getTotalHeight
  simp only [nanpush]

theorem toNan_depthFrom : ∀ (hs : List K) (s : K), depthFrom (N s) (hs.map N) = (depthFrom s hs).map N := by
  intro hs
  induction hs with
  | nil => intro s; rfl
  | cons h hs ih => intro s; simp only [List.map_cons, depthFrom, nanpush, ih]

@[nanpush] theorem toNan_getDepth (g : Grid K) : g.toNan.getDepth = g.getDepth.map (List.map N) := by
  unfold Grid.getDepth
  simp only [nanpush]
  congr 1
  funext hs
  cases hs with
  | nil => rfl
  | cons h hs => simp only [List.map_cons, nanpush, toNan_depthFrom]

@[nanpush] theorem toNan_setFreshSnowProps (g : Grid K) (x : K) :
    g.toNan.setFreshSnowProps (N x) = (g.setFreshSnowProps x).toNan := rfl
@[nanpush] theorem toNan_setToOld (g : Grid K) :
    g.toNan.setFreshSnowPropsToOldProps = g.setFreshSnowPropsToOldProps.toNan := rfl
@[nanpush] theorem toNan_updateTime (g : Grid K) (x : K) :
    g.toNan.setFreshSnowPropsUpdateTime (N x) = (g.setFreshSnowPropsUpdateTime x).toNan := rfl
@[nanpush] theorem toNan_propsHeight (g : Grid K) (x : K) :
    g.toNan.setFreshSnowPropsHeight (N x) = (g.setFreshSnowPropsHeight x).toNan := rfl

theorem toNan_ite (p : Prop) [Decidable p] (a b : Grid K) : (if p then a.toNan else b.toNan) = (if p then a else b).toNan := by
  split <;> rfl

/-- A column with one more layer. -/
theorem toNan_insert (g : Grid K) (i : Int) (n : Node K) (k : Int) :
    ({ g.toNan with nodes := pyInsert g.toNan.nodes i n.toNan, numberNodes := k } : Grid (Nan K)) =
      ({ g with nodes := pyInsert g.nodes i n, numberNodes := k } : Grid K).toNan := by
  rw [toNan_nodes, pyInsert_map]; rfl

@[nanpush] theorem toNan_addFreshSnow {c : Consts K} (hc : c.Phys) (g : Grid K) (h d t w dt : K) :
    g.toNan.addFreshSnow c.toNan (N h) (N d) (N t) (N w) (N dt) = (g.addFreshSnow c h d t w dt).toNan := by
  unfold Grid.addFreshSnow
  simp only [Node.toNan_new_none hc, toNan_insert, toNan_numberNodes, Nan.lt_num, Consts.toNan_minimumSnowfall,
    toNan_updateTime, toNan_setFreshSnowProps, toNan_ite]

@[nanpush] theorem toNan_removeNode (g : Grid K) (is : List Int) :
    g.toNan.removeNode is = (g.removeNode is).map Grid.toNan := by
  unfold Grid.removeNode
  rw [toNan_nodes, List.isEmpty_map, foldlM_hom (fun s i => pyDel_map Node.toNan s i)]
  simp only [nanpush]
  split_ifs
  · rfl
  · rw [← List.map_tail]; rfl
  · rfl

@[nanpush] theorem toNan_updateNode (g : Grid K) (i : Int) (h t f w : K) :
    g.toNan.updateNode i (N h) (N t) (N f) (N w) = (g.updateNode i h t f w).map Grid.toNan := by
  unfold Grid.updateNode
  simp only [nanpush]

@[nanpush] theorem toNan_mergeNodes (g : Grid K) (i : Int) : g.toNan.mergeNodes i = (g.mergeNodes i).map Grid.toNan := by
  unfold Grid.mergeNodes
  simp only [nanpush]

theorem toNan_correctLayerPass (c : Consts K) (i : Int) (m : K) (g : Grid K) :
    correctLayerPass c.toNan i (N m) g.toNan = (correctLayerPass c i m g).map (Option.map Grid.toNan) := by
  unfold correctLayerPass
  simp only [nanpush, Option.map]

@[nanpush] theorem toNan_correctLayerSplit {c : Consts K} (hc : c.Phys) (i : Int) (m : K) (g : Grid K) :
    correctLayerSplit c.toNan i (N m) g.toNan = (correctLayerSplit c i m g).map Grid.toNan := by
  unfold correctLayerSplit
  have e : ∀ (g : Grid K) (i : Int) (n : Node K) (k : Int), (⟨pyInsert g.toNan.nodes i n.toNan, k, N g.newSnowHeight,
      N g.newSnowTimestamp, N g.oldSnowTimestamp⟩ : Grid (Nan K)) =
      (⟨pyInsert g.nodes i n, k, g.newSnowHeight, g.newSnowTimestamp, g.oldSnowTimestamp⟩ : Grid K).toNan :=
    fun g i n k => toNan_insert g i n k
  simp only [nanpush, Node.toNan_new_some hc, e]

@[nanpush] theorem toNan_correctLayer {c : Consts K} (hc : c.Phys) (fuel : Nat) (g : Grid K) (i : Int) (m : K) :
    g.toNan.correctLayer fuel c.toNan i (N m) = (g.correctLayer fuel c i m).map Grid.toNan := by
  unfold Grid.correctLayer
  rw [whileM_hom' (toNan_correctLayerPass c i m)]
  simp only [nanpush, hc]

/-- Loop states without NaN. -/
def LogState.toNan (s : LogState K) : LogState (Nan K) := ⟨s.g.toNan, N s.hrest, N s.last, s.idx⟩

theorem toNan_logSnowPass {c : Consts K} (hc : c.Phys) (fuel : Nat) (s : LogState K) :
    logSnowPass fuel c.toNan s.toNan = (logSnowPass fuel c s).map (Option.map LogState.toNan) := by
  unfold logSnowPass
  simp only [nanpush, Option.map, LogState.toNan, hc]

theorem toNan_logIcePass {c : Consts K} (hc : c.Phys) (fuel : Nat) (s : LogState K) :
    logIcePass fuel c.toNan s.toNan = (logIcePass fuel c s).map (Option.map LogState.toNan) := by
  unfold logIcePass
  simp only [nanpush, Option.map, LogState.toNan, hc]

@[nanpush] theorem toNan_logProfile {c : Consts K} (hc : c.Phys) (fuel : Nat) (g : Grid K) :
    g.toNan.logProfile fuel c.toNan = (g.logProfile fuel c).map Grid.toNan := by
  unfold Grid.logProfile
  have e1 : ∀ h : K, whileM (logSnowPass fuel c.toNan) fuel ⟨g.toNan, N h, c.toNan.firstLayerHeight, 0⟩ =
      (whileM (logSnowPass fuel c) fuel ⟨g, h, c.firstLayerHeight, 0⟩).map LogState.toNan :=
    fun h => whileM_hom' (toNan_logSnowPass hc fuel) fuel ⟨g, h, c.firstLayerHeight, 0⟩
  have e2 : ∀ (g : Grid K) (h l : K) (n : Int), whileM (logIcePass fuel c.toNan) fuel ⟨g.toNan, N h, N l, n⟩ =
      (whileM (logIcePass fuel c) fuel ⟨g, h, l, n⟩).map LogState.toNan :=
    fun g h l n => whileM_hom' (toNan_logIcePass hc fuel) fuel ⟨g, h, l, n⟩
  have e3 : ∀ s : LogState K, s.toNan.g = s.g.toNan := fun _ => rfl
  have e4 : ∀ s : LogState K, s.toNan.last = N s.last := fun _ => rfl
  simp only [nanpush] at e1
  simp only [nanpush, e1, e3, e4, e2]

/-- Loop states without NaN. -/
def AdaptState.toNan (s : AdaptState K) : AdaptState (Nan K) := ⟨s.g.toNan, s.idx, s.mergeCounter⟩

theorem toNan_adaptSnowPass (c : Consts K) (s : AdaptState K) :
    adaptSnowPass c.toNan s.toNan = (adaptSnowPass c s).map (Option.map AdaptState.toNan) := by
  unfold adaptSnowPass
  simp only [nanpush, Option.map, AdaptState.toNan]

theorem toNan_adaptIcePass (c : Consts K) (s : Grid K × Int) :
    adaptIcePass c.toNan (s.1.toNan, s.2) = (adaptIcePass c s).map (Option.map fun s => (s.1.toNan, s.2)) := by
  unfold adaptIcePass
  simp only [nanpush, Option.map]

@[nanpush] theorem toNan_adaptiveProfile {c : Consts K} (hc : c.Phys) (fuel : Nat) (g : Grid K) :
    g.toNan.adaptiveProfile fuel c.toNan = (g.adaptiveProfile fuel c).map Grid.toNan := by
  unfold Grid.adaptiveProfile
  have e1 : whileM (adaptSnowPass c.toNan) fuel ⟨g.toNan, 0, 0⟩ =
      (whileM (adaptSnowPass c) fuel ⟨g, 0, 0⟩).map AdaptState.toNan :=
    whileM_hom' (toNan_adaptSnowPass c) fuel ⟨g, 0, 0⟩
  have e2 : ∀ s : Grid K × Int, whileM (adaptIcePass c.toNan) fuel (s.1.toNan, s.2) =
      (whileM (adaptIcePass c) fuel s).map fun s => (s.1.toNan, s.2) :=
    fun s => whileM_hom' (φ := fun s : Grid K × Int => (s.1.toNan, s.2)) (toNan_adaptIcePass c) fuel s
  have e2' : ∀ (g : Grid K) (i : Int), whileM (adaptIcePass c.toNan) fuel (g.toNan, i) =
      (whileM (adaptIcePass c) fuel (g, i)).map fun s => (s.1.toNan, s.2) := fun g i => e2 (g, i)
  have e3 : ∀ s : AdaptState K, s.toNan.g = s.g.toNan := fun _ => rfl
  simp only [nanpush, e1, e3, hc]
  congr 1
  funext s
  congr 1
  funext n
  split_ifs with h
  · cases s.g.node 0 with
    | error _ => rfl
    | ok a =>
      simp only [nanpush]
      split_ifs
      · cases s.g.correctLayer fuel c (max 1 n) c.firstLayerHeight with
        | error _ => rfl
        | ok g => simp only [nanpush, e2', hc]
      · simp only [nanpush, e2', hc]
  · cases s.g.node 0 with
    | error _ => rfl
    | ok a => simp only [nanpush, e2', hc]

@[nanpush] theorem toNan_updateGrid {c : Consts K} (hc : c.Phys) (fuel : Nat) (g : Grid K) :
    g.toNan.updateGrid fuel c.toNan = (g.updateGrid fuel c).map Grid.toNan := by
  have e : g.toNan.remesh fuel c.toNan = (g.remesh fuel c).map Grid.toNan := by
    have e : c.toNan.remeshMethod = c.remeshMethod := rfl
    unfold Grid.remesh
    rw [e]
    cases c.remeshMethod <;> simp only [nanpush, hc]
  unfold Grid.updateGrid
  simp only [nanpush, e]

/-- Loop states without NaN. -/
def MeltState.toNan (s : MeltState K) : MeltState (Nan K) := ⟨s.g.toNan, N s.melt, N s.lwcFromLayers⟩

theorem toNan_removeMeltPass {c : Consts K} (hc : c.Phys) (i : Int) (s : MeltState K) :
    removeMeltPass c.toNan i s.toNan = (removeMeltPass c i s).map (Option.map MeltState.toNan) := by
  obtain ⟨-, h2, -⟩ := hc.nonzero
  unfold removeMeltPass
  simp only [nanpush, Option.map, MeltState.toNan, h2]

@[nanpush] theorem toNan_removeMeltWeq {c : Consts K} (hc : c.Phys) (fuel : Nat) (g : Grid K) (melt : K) :
    g.toNan.removeMeltWeq fuel c.toNan (N melt) = (g.removeMeltWeq fuel c melt).map fun r => (r.1.toNan, N r.2) := by
  unfold Grid.removeMeltWeq
  have e1 : whileM (removeMeltPass c.toNan 0) fuel ⟨g.toNan, N melt, 0⟩ =
      (whileM (removeMeltPass c 0) fuel ⟨g, melt, 0⟩).map MeltState.toNan :=
    whileM_hom' (toNan_removeMeltPass hc 0) fuel ⟨g, melt, 0⟩
  simp only [nanpush] at e1 
  simp only [nanpush, e1, if_true, MeltState.toNan]

end Grid
end
end Cosipy
