import Verif.Model.Kernel
import Verif.Lemmas.NanModules
import Verif.Lemmas.Example

/-!
# C112: settings of methods that are not selected have no effect

`constants.toml` holds the parameters of all methods, and settings that only describe the start of a simulation. The
parameters of a method that is not selected, the description of the initial column when a simulation is continued
from a restart file, and the split of precipitation when the snowfall is given, have no effect on any result.

One exception is refuted (`C112_refuted`): `albedo_mod_snow_aging`, the time scale of the Oerlemans albedo, is also
read when the Bougamont albedo is selected. The theorems with suffix `_partial` therefore ask for the same value of it in all cases.
-/

set_option autoImplicit false
set_option linter.unusedSectionVars false

namespace Cosipy
section
variable {α : Type}

/-! ## Specification -/

/-- Two sets of constants that select the same methods and agree in everything these methods use. Nothing is said about the
parameters of other methods and about the initial column. -/
structure SameSelected (c c' : Consts α) : Prop where
  /-- The same time step, size of the restart file and height of measurement. -/
  general : c.dt = c'.dt ∧ c.maxLayers = c'.maxLayers ∧ c.z = c'.z
  /-- The same methods. -/
  methods : c.stabilityCorrection = c'.stabilityCorrection ∧ c.albedoMethod = c'.albedoMethod ∧
    c.densificationMethod = c'.densificationMethod ∧ c.penetratingMethod = c'.penetratingMethod ∧
    c.roughnessMethod = c'.roughnessMethod ∧ c.thermalConductivityMethod = c'.thermalConductivityMethod ∧
    c.sfcTemperatureMethod = c'.sfcTemperatureMethod ∧ c.remeshMethod = c'.remeshMethod
  /-- The same depths, thresholds and top layer height. -/
  thresholds : c.zlt1 = c'.zlt1 ∧ c.zlt2 = c'.zlt2 ∧ c.minimumSnowLayerHeight = c'.minimumSnowLayerHeight ∧
    c.minimumSnowfall = c'.minimumSnowfall ∧ c.firstLayerHeight = c'.firstLayerHeight ∧
    c.snowIceThreshold = c'.snowIceThreshold
  /-- The same albedo values, depth scale and time scale. -/
  albedo : c.albedoFreshSnow = c'.albedoFreshSnow ∧ c.albedoFirn = c'.albedoFirn ∧ c.albedoIce = c'.albedoIce ∧
    c.albedoModSnowAging = c'.albedoModSnowAging ∧ c.albedoModSnowDepth = c'.albedoModSnowDepth
  roughness : c.roughnessFreshSnow = c'.roughnessFreshSnow ∧ c.roughnessIce = c'.roughnessIce ∧
    c.roughnessFirn = c'.roughnessFirn ∧ c.agingFactorRoughness = c'.agingFactorRoughness
  /-- The same constants of nature. -/
  nature : c.latHeatMelting = c'.latHeatMelting ∧ c.latHeatVaporize = c'.latHeatVaporize ∧
    c.latHeatSublimation = c'.latHeatSublimation ∧ c.specHeatAir = c'.specHeatAir ∧ c.specHeatIce = c'.specHeatIce ∧
    c.specHeatWater = c'.specHeatWater ∧ c.waterDensity = c'.waterDensity ∧ c.iceDensity = c'.iceDensity ∧
    c.airDensity = c'.airDensity ∧ c.sigma = c'.sigma ∧ c.zeroTemperature = c'.zeroTemperature ∧
    c.surfaceEmissionCoeff = c'.surfaceEmissionCoeff
  /-- The decay times of Bougamont, if this albedo is selected. -/
  bougamont : c.albedoMethod = .bougamont05 →
    c.tStarWet = c'.tStarWet ∧ c.tStarDry = c'.tStarDry ∧ c.tStarK = c'.tStarK ∧ c.tStarCutoff = c'.tStarCutoff
  /-- The density of new snow, if the density is constant. -/
  constant : c.densificationMethod = .constant → c.constantDensity = c'.constantDensity
  /-- The stretching factor, if the mesh is logarithmic. -/
  log : c.remeshMethod = .logProfile → c.layerStretching = c'.layerStretching
  /-- The merging thresholds, if the mesh is adaptive. -/
  adaptive : c.remeshMethod = .adaptiveProfile → c.mergeMax = c'.mergeMax ∧
    c.densityThresholdMerging = c'.densityThresholdMerging ∧
    c.temperatureThresholdMerging = c'.temperatureThresholdMerging
  /-- The conductivities of ice, water and air, if the bulk formula is selected. -/
  bulk : c.thermalConductivityMethod = .bulk → c.kI = c'.kI ∧ c.kW = c'.kW ∧ c.kA = c'.kA

/-- The same split of precipitation into rain and snow. -/
def SameTransfer (c c' : Consts α) : Prop :=
  c.centerSnowTransferFunction = c'.centerSnowTransferFunction ∧
    c.spreadSnowTransferFunction = c'.spreadSnowTransferFunction

/-- The same initial column for an input with or without a snow height. -/
def SameStart (c c' : Consts α) (snowheight : Option α) : Prop :=
  (snowheight = none → c.initialSnowheightConstant = c'.initialSnowheightConstant) ∧
  c.initialGlacierHeight = c'.initialGlacierHeight ∧ c.initialGlacierLayerHeights = c'.initialGlacierLayerHeights ∧
  c.initialTopDensitySnowpack = c'.initialTopDensitySnowpack ∧
  c.initialBottomDensitySnowpack = c'.initialBottomDensitySnowpack ∧ c.temperatureBottom = c'.temperatureBottom

/-! ## Lemmas -/

/-- `c` with everything that may be unused taken from `c'`. -/
def takeStart (c' c : Consts α) : Consts α :=
  { c with
    initialSnowheightConstant := c'.initialSnowheightConstant
    initialGlacierHeight := c'.initialGlacierHeight
    initialGlacierLayerHeights := c'.initialGlacierLayerHeights
    initialTopDensitySnowpack := c'.initialTopDensitySnowpack
    initialBottomDensitySnowpack := c'.initialBottomDensitySnowpack
    temperatureBottom := c'.temperatureBottom
    multFactorRRR := c'.multFactorRRR }

def takeBougamont (c' c : Consts α) : Consts α :=
  { c with tStarWet := c'.tStarWet, tStarDry := c'.tStarDry, tStarK := c'.tStarK, tStarCutoff := c'.tStarCutoff }

def takeConstant (c' c : Consts α) : Consts α := { c with constantDensity := c'.constantDensity }

def takeLog (c' c : Consts α) : Consts α := { c with layerStretching := c'.layerStretching }

def takeAdaptive (c' c : Consts α) : Consts α :=
  { c with
    mergeMax := c'.mergeMax
    densityThresholdMerging := c'.densityThresholdMerging
    temperatureThresholdMerging := c'.temperatureThresholdMerging }

def takeBulk (c' c : Consts α) : Consts α := { c with kI := c'.kI, kW := c'.kW, kA := c'.kA }

def takeTransfer (c' c : Consts α) : Consts α :=
  { c with
    centerSnowTransferFunction := c'.centerSnowTransferFunction
    spreadSnowTransferFunction := c'.spreadSnowTransferFunction }

/-- Two sets of constants that agree in what is used differ by the unused groups only. -/
theorem take_all {c c' : Consts α} (h : SameSelected c c') :
    takeTransfer c' (takeBulk c' (takeAdaptive c' (takeLog c' (takeConstant c' (takeBougamont c'
      (takeStart c' c)))))) = c' := by
  obtain ⟨g, m, t, a, r, n, -, -, -, -, -⟩ := h
  cases c; cases c'
  simp only at g m t a r n
  simp only [takeTransfer, takeBulk, takeAdaptive, takeLog, takeConstant, takeBougamont, takeStart]
  obtain ⟨rfl, rfl, rfl⟩ := g
  obtain ⟨rfl, rfl, rfl, rfl, rfl, rfl, rfl, rfl⟩ := m
  obtain ⟨rfl, rfl, rfl, rfl, rfl, rfl⟩ := t
  obtain ⟨rfl, rfl, rfl, rfl, rfl⟩ := a
  obtain ⟨rfl, rfl, rfl, rfl⟩ := r
  obtain ⟨rfl, rfl, rfl, rfl, rfl, rfl, rfl, rfl, rfl, rfl, rfl, rfl⟩ := n
  rfl

variable [Add α] [Sub α] [Mul α] [Div α] [Neg α] [LT α] [LE α]
  [DecidableLT α] [DecidableLE α] [BEq α] [Zero α] [One α] [NatCast α] [OfScientific α]

theorem refreezeLayers_congr {c c' : Consts α} (h : refreezeLayer c = refreezeLayer c') :
    refreezeLayers c = refreezeLayers c' := by
  funext acc ns
  induction ns generalizing acc with
  | nil => rfl
  | cons n ns ih => simp only [refreezeLayers, h, ih]

variable [Transc α]

theorem penLayers_congr {c c' : Consts α} (h : penLayer c = penLayer c') (dt : α) (i : Int) (ns : List (Node α))
    (es : List α) (rm : List Int) (m : α) : penLayers c dt i ns es rm m = penLayers c' dt i ns es rm m := by
  induction ns generalizing i es rm m with
  | nil => rfl
  | cons a ns ih =>
    cases ns with
    | nil => rfl
    | cons b rest =>
      cases es with
      | nil => rfl
      | cons e es => simp only [penLayers, h, ih]

theorem booneLayers_congr {c c' : Consts α} (h1 : Node.density c = Node.density c') (h2 : booneLoad c = booneLoad c')
    (h3 : booneRate c = booneRate c') (h4 : c.snowIceThreshold = c'.snowIceThreshold)
    (h5 : c.minimumSnowLayerHeight = c'.minimumSnowLayerHeight) (dt : α) (k : Nat) (ms : α) (p : Option (Node α))
    (ns : List (Node α)) : booneLayers c dt k ms p ns = booneLayers c' dt k ms p ns := by
  induction k generalizing ms p ns with
  | zero => cases ns <;> rfl
  | succ k ih =>
    cases ns with
    | nil => rfl
    | cons n ns => simp only [booneLayers, h1, h2, h3, h4, h5, ih]

theorem vionnetLayers_congr {c c' : Consts α} (h1 : Node.density c = Node.density c')
    (h2 : vionnetLoad c = vionnetLoad c') (h3 : ∀ a b, vionnetRate a b c = vionnetRate a b c')
    (h4 : c.snowIceThreshold = c'.snowIceThreshold)
    (h5 : c.minimumSnowLayerHeight = c'.minimumSnowLayerHeight) (sl dt : α) (k : Nat) (ms : α) (p : Option (Node α))
    (ns : List (Node α)) : vionnetLayers c sl dt k ms p ns = vionnetLayers c' sl dt k ms p ns := by
  induction k generalizing ms p ns with
  | zero => cases ns <;> rfl
  | succ k ih =>
    cases ns with
    | nil => rfl
    | cons n ns => simp only [vionnetLayers, h1, h2, h3, h4, h5, ih]

theorem empiricalLayers_congr {c c' : Consts α} (h : empiricalLayer c = empiricalLayer c') (dt : α) (k : Nat)
    (ns : List (Node α)) : empiricalLayers c dt k ns = empiricalLayers c' dt k ns := by
  induction k generalizing ns with
  | zero => cases ns <;> rfl
  | succ k ih =>
    cases ns with
    | nil => rfl
    | cons n ns => simp only [empiricalLayers, h, ih]

/-- What the layer by layer loops read. -/
structure SameLayers (c c' : Consts α) : Prop where
  density : Node.density c = Node.density c'
  refr : refreezeLayer c = refreezeLayer c'
  pen : penLayer c = penLayer c'
  penC : penCoeffs c = penCoeffs c'
  penM : c.penetratingMethod = c'.penetratingMethod
  bl : booneLoad c = booneLoad c'
  br : booneRate c = booneRate c'
  vl : vionnetLoad c = vionnetLoad c'
  vr : ∀ a b, vionnetRate a b c = vionnetRate a b c'
  em : empiricalLayer c = empiricalLayer c'
  thr : c.snowIceThreshold = c'.snowIceThreshold
  mini : c.minimumSnowLayerHeight = c'.minimumSnowLayerHeight
  dm : c.densificationMethod = c'.densificationMethod
  cnt : ∀ g : Grid α, g.getNumberSnowLayers c = g.getNumberSnowLayers c'

theorem SameLayers.refreezing {c c' : Consts α} (h : SameLayers c c') : refreezing c = refreezing c' := by
  funext g
  simp only [Cosipy.refreezing, refreezeLayers_congr h.refr]

theorem SameLayers.densification {c c' : Consts α} (h : SameLayers c c') : densification c = densification c' := by
  funext g sl dt
  simp only [Cosipy.densification, h.dm, methodBoone, methodVionnet, methodEmpirical, h.cnt,
    booneLayers_congr h.density h.bl h.br h.thr h.mini,
    vionnetLayers_congr h.density h.vl h.vr h.thr h.mini, empiricalLayers_congr h.em]

theorem SameLayers.penetrating {c c' : Consts α} (h : SameLayers c c') :
    penetratingRadiation c = penetratingRadiation c' := by
  funext g sw dt
  simp only [penetratingRadiation, h.penM, methodBintanja, h.penC, penLayers_congr h.pen]

/-- What the other parts of a step read. -/
structure SameParts (sv : Solvers α) (fuel : Nat) (c c' : Consts α) : Prop where
  layers : SameLayers c c'
  rho : freshSnowDensity c = freshSnowDensity c'
  thr : thresholdPrecip c = thresholdPrecip c'
  snow : applySnowfall c = applySnowfall c'
  grid : Grid.updateGrid fuel c = Grid.updateGrid fuel c'
  alb : updateAlbedo c = updateAlbedo c'
  rough : updateRoughness c = updateRoughness c'
  sfc : updateSurfaceTemperature sv c = updateSurfaceTemperature sv c'
  vap : vapourFluxes c = vapourFluxes c'
  mlt : ∀ (g : Grid α) m, g.removeMeltWeq fuel c m = g.removeMeltWeq fuel c' m
  heat : solveHeatEquation fuel c = solveHeatEquation fuel c'
  lat : c.latHeatMelting = c'.latHeatMelting
  water : c.waterDensity = c'.waterDensity

theorem SameParts.step {sv : Solvers α} {fuel : Nat} {c c' : Consts α} (h : SameParts sv fuel c c') (r : RunCfg α)
    (s : SimState α) (f : Forcing α) (hp : precipitation c f = precipitation c' f) :
    step sv fuel c r s f = step sv fuel c' r s f := by
  have hr : radiationStep c = radiationStep c' := by
    funext g sw dt
    simp only [radiationStep, h.layers.penetrating]
  unfold Cosipy.step
  rw [h.rho, hp, h.thr, h.snow, h.grid, h.alb, h.rough, hr, h.sfc, h.vap, h.layers.refreezing, h.heat,
    h.layers.densification, h.lat, h.water]
  simp only [h.mlt]

/-- What a simulation of a cell reads besides the steps. -/
structure SameAll (sv : Solvers α) (fuel : Nat) (c c' : Consts α) : Prop where
  parts : SameParts sv fuel c c'
  series : stepSeries c = stepSeries c'
  prof : stepLayers c = stepLayers c'
  snow : ∀ g : Grid α, g.getTotalSnowheight c = g.getTotalSnowheight c'
  save : saveStandalone c = saveStandalone c'
  init : initState c = initState c'

variable (sv : Solvers α) (fuel : Nat)

theorem same_start (c' c : Consts α) : SameAll sv fuel c (takeStart c' c) :=
  ⟨⟨⟨rfl, rfl, rfl, rfl, rfl, rfl, rfl, rfl, fun _ _ => rfl, rfl, rfl, rfl, rfl, fun _ => rfl⟩,
    rfl, rfl, rfl, rfl, rfl, rfl, rfl, rfl, fun _ _ => rfl, rfl, rfl, rfl⟩, rfl, rfl, fun _ => rfl, rfl, rfl⟩

theorem same_transfer (c' c : Consts α) : SameAll sv fuel c (takeTransfer c' c) :=
  ⟨⟨⟨rfl, rfl, rfl, rfl, rfl, rfl, rfl, rfl, fun _ _ => rfl, rfl, rfl, rfl, rfl, fun _ => rfl⟩,
    rfl, rfl, rfl, rfl, rfl, rfl, rfl, rfl, fun _ _ => rfl, rfl, rfl, rfl⟩, rfl, rfl, fun _ => rfl, rfl, rfl⟩

theorem same_refl (c : Consts α) : SameAll sv fuel c c :=
  ⟨⟨⟨rfl, rfl, rfl, rfl, rfl, rfl, rfl, rfl, fun _ _ => rfl, rfl, rfl, rfl, rfl, fun _ => rfl⟩,
    rfl, rfl, rfl, rfl, rfl, rfl, rfl, rfl, fun _ _ => rfl, rfl, rfl, rfl⟩, rfl, rfl, fun _ => rfl, rfl, rfl⟩

theorem same_bougamont (c' c : Consts α) (h : c.albedoMethod = .bougamont05 →
    c.tStarWet = c'.tStarWet ∧ c.tStarDry = c'.tStarDry ∧ c.tStarK = c'.tStarK ∧ c.tStarCutoff = c'.tStarCutoff) :
    SameAll sv fuel c (takeBougamont c' c) := by
  by_cases hm : c.albedoMethod = .bougamont05
  · obtain ⟨a, b, d, e⟩ := h hm
    have : takeBougamont c' c = c := by unfold takeBougamont; rw [← a, ← b, ← d, ← e]
    rw [this]; exact same_refl sv fuel c
  · cases c with | mk _ _ _ _ m => cases m with
    | bougamont05 => exact absurd rfl hm
    | oerlemans98 =>
      exact ⟨⟨⟨rfl, rfl, rfl, rfl, rfl, rfl, rfl, rfl, fun _ _ => rfl, rfl, rfl, rfl, rfl, fun _ => rfl⟩,
        rfl, rfl, rfl, rfl, rfl, rfl, rfl, rfl, fun _ _ => rfl, rfl, rfl, rfl⟩, rfl, rfl, fun _ => rfl, rfl, rfl⟩
    | other =>
      exact ⟨⟨⟨rfl, rfl, rfl, rfl, rfl, rfl, rfl, rfl, fun _ _ => rfl, rfl, rfl, rfl, rfl, fun _ => rfl⟩,
        rfl, rfl, rfl, rfl, rfl, rfl, rfl, rfl, fun _ _ => rfl, rfl, rfl, rfl⟩, rfl, rfl, fun _ => rfl, rfl, rfl⟩

theorem same_constant (c' c : Consts α) (h : c.densificationMethod = .constant → c.constantDensity = c'.constantDensity) :
    SameAll sv fuel c (takeConstant c' c) := by
  by_cases hm : c.densificationMethod = .constant
  · have : takeConstant c' c = c := by unfold takeConstant; rw [← h hm]
    rw [this]; exact same_refl sv fuel c
  · have hr : freshSnowDensity c = freshSnowDensity (takeConstant c' c) := by
      cases c with | mk _ _ _ _ _ m => cases m with
      | constant => exact absurd rfl hm
      | _ => rfl
    exact ⟨⟨⟨rfl, rfl, rfl, rfl, rfl, rfl, rfl, rfl, fun _ _ => rfl, rfl, rfl, rfl, rfl, fun _ => rfl⟩,
      hr, rfl, rfl, rfl, rfl, rfl, rfl, rfl, fun _ _ => rfl, rfl, rfl, rfl⟩, rfl, rfl, fun _ => rfl, rfl, rfl⟩

theorem same_log (c' c : Consts α) (h : c.remeshMethod = .logProfile → c.layerStretching = c'.layerStretching) :
    SameAll sv fuel c (takeLog c' c) := by
  by_cases hm : c.remeshMethod = .logProfile
  · have : takeLog c' c = c := by unfold takeLog; rw [← h hm]
    rw [this]; exact same_refl sv fuel c
  · have hr : Grid.updateGrid fuel c = Grid.updateGrid fuel (takeLog c' c) := by
      have : Grid.remesh fuel c = Grid.remesh fuel (takeLog c' c) := by
        funext g
        unfold Grid.remesh
        show (match c.remeshMethod with | .logProfile => _ | .adaptiveProfile => _ | .other => _) =
          (match c.remeshMethod with | .logProfile => _ | .adaptiveProfile => _ | .other => _)
        cases hc : c.remeshMethod with
        | logProfile => exact absurd hc hm
        | _ => rfl
      funext g
      unfold Grid.updateGrid
      rw [this]; rfl
    exact ⟨⟨⟨rfl, rfl, rfl, rfl, rfl, rfl, rfl, rfl, fun _ _ => rfl, rfl, rfl, rfl, rfl, fun _ => rfl⟩,
      rfl, rfl, rfl, hr, rfl, rfl, rfl, rfl, fun _ _ => rfl, rfl, rfl, rfl⟩, rfl, rfl, fun _ => rfl, rfl, rfl⟩

theorem same_adaptive (c' c : Consts α) (h : c.remeshMethod = .adaptiveProfile → c.mergeMax = c'.mergeMax ∧
    c.densityThresholdMerging = c'.densityThresholdMerging ∧
    c.temperatureThresholdMerging = c'.temperatureThresholdMerging) : SameAll sv fuel c (takeAdaptive c' c) := by
  by_cases hm : c.remeshMethod = .adaptiveProfile
  · obtain ⟨a, b, d⟩ := h hm
    have : takeAdaptive c' c = c := by unfold takeAdaptive; rw [← a, ← b, ← d]
    rw [this]; exact same_refl sv fuel c
  · have hr : Grid.updateGrid fuel c = Grid.updateGrid fuel (takeAdaptive c' c) := by
      have : Grid.remesh fuel c = Grid.remesh fuel (takeAdaptive c' c) := by
        funext g
        unfold Grid.remesh
        show (match c.remeshMethod with | .logProfile => _ | .adaptiveProfile => _ | .other => _) =
          (match c.remeshMethod with | .logProfile => _ | .adaptiveProfile => _ | .other => _)
        cases hc : c.remeshMethod with
        | adaptiveProfile => exact absurd hc hm
        | _ => rfl
      funext g
      unfold Grid.updateGrid
      rw [this]; rfl
    exact ⟨⟨⟨rfl, rfl, rfl, rfl, rfl, rfl, rfl, rfl, fun _ _ => rfl, rfl, rfl, rfl, rfl, fun _ => rfl⟩,
      rfl, rfl, rfl, hr, rfl, rfl, rfl, rfl, fun _ _ => rfl, rfl, rfl, rfl⟩, rfl, rfl, fun _ => rfl, rfl, rfl⟩

theorem same_bulk (c' c : Consts α) (h : c.thermalConductivityMethod = .bulk → c.kI = c'.kI ∧ c.kW = c'.kW ∧
    c.kA = c'.kA) : SameAll sv fuel c (takeBulk c' c) := by
  by_cases hm : c.thermalConductivityMethod = .bulk
  · obtain ⟨a, b, d⟩ := h hm
    have : takeBulk c' c = c := by unfold takeBulk; rw [← a, ← b, ← d]
    rw [this]; exact same_refl sv fuel c
  · cases c with | mk _ _ _ _ _ _ _ _ m => cases m with
    | bulk => exact absurd rfl hm
    | empirical =>
      exact ⟨⟨⟨rfl, rfl, rfl, rfl, rfl, rfl, rfl, rfl, fun _ _ => rfl, rfl, rfl, rfl, rfl, fun _ => rfl⟩,
        rfl, rfl, rfl, rfl, rfl, rfl, rfl, rfl, fun _ _ => rfl, rfl, rfl, rfl⟩, rfl, rfl, fun _ => rfl, rfl, rfl⟩
    | other =>
      exact ⟨⟨⟨rfl, rfl, rfl, rfl, rfl, rfl, rfl, rfl, fun _ _ => rfl, rfl, rfl, rfl, rfl, fun _ => rfl⟩,
        rfl, rfl, rfl, rfl, rfl, rfl, rfl, rfl, fun _ _ => rfl, rfl, rfl, rfl⟩, rfl, rfl, fun _ => rfl, rfl, rfl⟩

theorem run_same {sv : Solvers α} {fuel : Nat} {c c' : Consts α} (h : SameAll sv fuel c c') (r : RunCfg α)
    (fs : List (Forcing α)) (hp : ∀ f ∈ fs, precipitation c f = precipitation c' f) (s : SimState α) :
    run sv fuel c r s fs = run sv fuel c' r s fs := by
  induction fs generalizing s with
  | nil => rfl
  | cons f fs ih =>
    unfold run
    rw [h.parts.step r s f (hp f (by simp))]
    simp only [ih (fun f hf => hp f (by simp [hf]))]

theorem runRows_same {τ : Type} [DecidableEq τ] {sv : Solvers α} {fuel : Nat} {c c' : Consts α}
    (h : SameAll sv fuel c c') (r : RunCfg α) (fill : α) (names : List String) (index : List τ)
    (fs : List (τ × Forcing α)) (hp : ∀ f ∈ fs, precipitation c f.2 = precipitation c' f.2) (s : SimState α)
    (df : SimTable α) :
    runRows sv fuel c r fill names index s df fs = runRows sv fuel c' r fill names index s df fs := by
  induction fs generalizing s df with
  | nil => rfl
  | cons f fs ih =>
    obtain ⟨t, f⟩ := f
    have hrec : recordStakes c names index = recordStakes c' names index := by
      funext df t s
      simp only [recordStakes, h.snow]
    have hrow : stepRow c fill r.fullField = stepRow c' fill r.fullField := by
      funext s o
      unfold stepRow
      rw [h.series, h.prof]
    unfold runRows
    rw [h.parts.step r s f (hp (t, f) (by simp)), hrec, hrow]
    simp only [ih (fun f hf => hp f (by simp [hf]))]

theorem kernel_same {τ : Type} [DecidableEq τ] [HasTrunc α] {sv : Solvers α} {fuel : Nat} {c c' : Consts α}
    (h : SameAll sv fuel c c') (r : RunCfg α) (cfg : SelectCfg α) (fill : α) (times : List τ) (snowheight : Option α)
    (restart : Option (Dataset α)) (st : Option (StakeInput α τ)) (d : CellData α)
    (hp : ∀ fs, prepare cfg d = .ok fs → ∀ f ∈ fs, precipitation c f = precipitation c' f)
    (hs : startColumn c d snowheight restart = startColumn c' d snowheight restart) :
    kernelBody sv fuel c r cfg fill times snowheight restart st d =
      kernelBody sv fuel c' r cfg fill times snowheight restart st d := by
  unfold kernelBody
  rw [hs]
  congr 1
  funext g
  cases hf : prepare cfg d with
  | error e => rfl
  | ok fs =>
    simp only [ok_bind]
    rw [h.init, runRows_same h r fill _ _ _ (fun f hf' => hp fs hf f.2 (List.of_mem_zip hf').2), h.save]

theorem SameAll.trans {sv : Solvers α} {fuel : Nat} {a b c : Consts α} (h : SameAll sv fuel a b)
    (k : SameAll sv fuel b c) : SameAll sv fuel a c :=
  ⟨⟨⟨h.parts.layers.density.trans k.parts.layers.density, h.parts.layers.refr.trans k.parts.layers.refr,
    h.parts.layers.pen.trans k.parts.layers.pen, h.parts.layers.penC.trans k.parts.layers.penC,
    h.parts.layers.penM.trans k.parts.layers.penM, h.parts.layers.bl.trans k.parts.layers.bl,
    h.parts.layers.br.trans k.parts.layers.br, h.parts.layers.vl.trans k.parts.layers.vl,
    fun x y => (h.parts.layers.vr x y).trans (k.parts.layers.vr x y), h.parts.layers.em.trans k.parts.layers.em,
    h.parts.layers.thr.trans k.parts.layers.thr, h.parts.layers.mini.trans k.parts.layers.mini,
    h.parts.layers.dm.trans k.parts.layers.dm, fun g => (h.parts.layers.cnt g).trans (k.parts.layers.cnt g)⟩,
    h.parts.rho.trans k.parts.rho, h.parts.thr.trans k.parts.thr, h.parts.snow.trans k.parts.snow,
    h.parts.grid.trans k.parts.grid, h.parts.alb.trans k.parts.alb, h.parts.rough.trans k.parts.rough,
    h.parts.sfc.trans k.parts.sfc, h.parts.vap.trans k.parts.vap,
    fun g m => (h.parts.mlt g m).trans (k.parts.mlt g m), h.parts.heat.trans k.parts.heat,
    h.parts.lat.trans k.parts.lat, h.parts.water.trans k.parts.water⟩, h.series.trans k.series, h.prof.trans k.prof,
    fun g => (h.snow g).trans (k.snow g), h.save.trans k.save, h.init.trans k.init⟩

theorem same_all {c c' : Consts α} (h : SameSelected c c') : SameAll sv fuel c c' := by
  have e1 := same_start sv fuel c' c
  have e2 := same_bougamont sv fuel c' (takeStart c' c) h.bougamont
  have e3 := same_constant sv fuel c' (takeBougamont c' (takeStart c' c)) h.constant
  have e4 := same_log sv fuel c' (takeConstant c' (takeBougamont c' (takeStart c' c))) h.log
  have e5 := same_adaptive sv fuel c' (takeLog c' (takeConstant c' (takeBougamont c' (takeStart c' c)))) h.adaptive
  have e6 := same_bulk sv fuel c' (takeAdaptive c' (takeLog c' (takeConstant c' (takeBougamont c'
    (takeStart c' c))))) h.bulk
  have e7 := same_transfer sv fuel c' (takeBulk c' (takeAdaptive c' (takeLog c' (takeConstant c' (takeBougamont c'
    (takeStart c' c))))))
  rw [take_all h] at e7
  exact e1.trans (e2.trans (e3.trans (e4.trans (e5.trans (e6.trans e7)))))

theorem split_same {c c' : Consts α} (h : SameSelected c c') {f : Forcing α} (hf : f.snowf.isSome ∨ SameTransfer c c') :
    precipitation c f = precipitation c' f := by
  obtain ⟨-, -, -, -, -, -, hw, -, -, -, hz, -⟩ := h.nature
  funext rho
  unfold precipitation
  rcases hf with hf | ⟨a, b⟩
  · obtain ⟨x, hx⟩ := Option.isSome_iff_exists.1 hf
    rw [hx, hw]
    cases f.rrr <;> rfl
  · simp only [hw, snowFraction, hz, a, b]

theorem prepare_snowf {cfg : SelectCfg α} {d : CellData α} (hs : d.snowfall.isSome) (hf : cfg.forceTP = false)
    {fs : List (Forcing α)} (h : prepare cfg d = .ok fs) : ∀ f ∈ fs, f.snowf.isSome := by
  unfold prepare at h
  simp only [bind_eq_ok] at h
  obtain ⟨s, es, h⟩ := h
  have hsn : s.snowf.isSome := by
    obtain ⟨x, hx⟩ := Option.isSome_iff_exists.1 hs
    unfold selectInputs selectPrecip at es
    simp only [hx, hf, bind_eq_ok, pure_eq_ok] at es
    obtain ⟨sr, ⟨y, hy, rfl⟩, ln, -, rfl⟩ := es
    cases hr : d.rrr <;> simp only [hr, Except.ok.injEq] at hy <;> subst hy <;> rfl
  intro f hf'
  obtain ⟨t, -, ht⟩ := forall₂_mem_source (mapM_eq_ok_iff.1 h) hf'
  unfold forcingAt at ht
  simp only [bind_eq_ok, pure_eq_ok] at ht
  obtain ⟨_, -, _, -, _, -, _, -, _, -, sn, hsn', _, -, _, -, _, -, rfl⟩ := ht
  obtain ⟨l, hl⟩ := Option.isSome_iff_exists.1 hsn
  simp only [optAt, hl] at hsn'
  cases hv : pyGet l (t : Int) with
  | error e => rw [hv] at hsn'; exact absurd hsn' (by simp [Except.map])
  | ok v => rw [hv] at hsn'; simp only [Except.map, Except.ok.injEq] at hsn'; subst hsn'; rfl

/-! ## Theorems -/

/-- One time step: only the settings of the selected methods matter. -/
theorem C112_step_partial {c c' : Consts α} (h : SameSelected c c') (r : RunCfg α) (s : SimState α) (f : Forcing α)
    (hf : f.snowf.isSome ∨ SameTransfer c c') : step sv fuel c r s f = step sv fuel c' r s f :=
  (same_all sv fuel h).parts.step r s f (split_same h hf)

/-- A run of any length. -/
theorem C112_run_partial {c c' : Consts α} (h : SameSelected c c') (r : RunCfg α) (s : SimState α) (fs : List (Forcing α))
    (hf : (∀ f ∈ fs, f.snowf.isSome) ∨ SameTransfer c c') : run sv fuel c r s fs = run sv fuel c' r s fs := by
  induction fs generalizing s with
  | nil => rfl
  | cons f fs ih =>
    have ih := fun s => ih s (hf.imp_left fun h f hf => h f (by simp [hf]))
    unfold run
    rw [C112_step_partial sv fuel h r s f (hf.imp_left fun h => h f (by simp))]
    simp only [ih]

variable {τ : Type} [DecidableEq τ] [HasTrunc α]

/-- A whole simulation of a cell, with everything it returns for the result, restart and stake files. The initial column is
described by the settings only without a restart file, and the initial snow height only if the input has none. The
split of precipitation matters only if the snowfall is not given or not used. -/
theorem C112_cell_partial {c c' : Consts α} (h : SameSelected c c') (r : RunCfg α) (cfg : SelectCfg α) (fill : α)
    (times : List τ) (snowheight : Option α) (restart : Option (Dataset α)) (st : Option (StakeInput α τ))
    (d : CellData α) (hs : restart.isSome ∨ SameStart c c' snowheight)
    (hf : (d.snowfall.isSome ∧ cfg.forceTP = false) ∨ SameTransfer c c') (y x : Nat) :
    kernel sv fuel c r cfg fill times snowheight restart st d y x =
      kernel sv fuel c' r cfg fill times snowheight restart st d y x := by
  have hn : (Node.new c : α → α → α → α → Option α → Node α) = Node.new c' := by
    unfold Node.new
    simp only [h.nature.2.2.2.2.2.2.2.1, h.nature.2.2.2.2.2.2.2.2.1]
  have hg : (createGrid c : List α → _) = createGrid c' := by
    funext a b e f g i j k
    simp only [createGrid, Grid.new, hn]
  have hi : c.iceDensity = c'.iceDensity := h.nature.2.2.2.2.2.2.2.1
  have hz : c.zeroTemperature = c'.zeroTemperature := h.nature.2.2.2.2.2.2.2.2.2.2.1
  have e0 : startColumn c d snowheight restart = startColumn c' d snowheight restart := by
    unfold startColumn
    cases restart with
    | some ds => simp only [loadSnowpack, hg]
    | none =>
      rcases hs with hs | ⟨a, b, e, f, g, i⟩
      · exact absurd hs (by simp)
      · have hh : initialSnowheight c snowheight = initialSnowheight c' snowheight := by
          cases snowheight with
          | some x => rfl
          | none => exact a rfl
        simp only [initSnowpack, hh, hg, hi, hz, b, e, f, g, i]
  unfold kernel
  rw [kernel_same (same_all sv fuel h) r cfg fill times snowheight restart st d
    (fun fs hfs f hm => split_same h (hf.imp_left fun hh => prepare_snowf hh.1 hh.2 hfs f hm)) e0]

/-- The simulation of a domain: the same files. -/
theorem C112_domain_partial {c c' : Consts α} (h : SameSelected c c') (r : RunCfg α) (cfg : SelectCfg α) (fill : α)
    (times : List τ) (sc : StakeCfg) (io : IOState α) (g nan : Nat → Nat → Bool) (input : Nat → Nat → CellInput α τ)
    (order : List (Nat × Nat) → List (Nat × Nat))
    (hs : (∀ y x, (input y x).restart.isSome) ∨ ∀ y x, SameStart c c' (input y x).snowheight)
    (hf : ((∀ y x, (input y x).data.snowfall.isSome) ∧ cfg.forceTP = false) ∨ SameTransfer c c') :
    simulateDomain sv fuel c r cfg fill times sc io g nan input order =
      simulateDomain sv fuel c' r cfg fill times sc io g nan input order := by
  unfold simulateDomain
  congr 1
  funext y x
  exact C112_cell_partial sv fuel h _ cfg fill times _ _ _ _ (hs.imp (fun h => h y x) (fun h => h y x))
    (hf.imp_left fun h => ⟨h.1 y x, h.2⟩) y x

end

/-! ## The exception, and examples -/

section
attribute [local instance] exTransc

/-- The example constants with the Bougamont albedo and an age scale for the Oerlemans albedo. -/
def bougConsts (aging : ℚ) : Consts ℚ := { exConsts with albedoMethod := .bougamont05, albedoModSnowAging := aging }

/-- A column whose last snowfall, 50 h ago, has melted; the snow below is 1000 h old. -/
def bougState : SimState ℚ :=
  ⟨{ exGrid with newSnowHeight := 0, newSnowTimestamp := 180000, oldSnowTimestamp := 3600000 }, 270, 85/100, 0⟩

/-- Age of the snow and roughness after a dry hour. -/
private def bougOut (aging : ℚ) : Option (ℚ × ℚ) :=
  (step exSolvers 40 (bougConsts aging) exCfg bougState exDry).toOption.map fun x => (x.1.grid.newSnowTimestamp, x.2.z0)

private theorem boug_differ : (bougOut 22).isSome = true ∧ (bougOut 1).isSome = true ∧
    (bougOut 22).map Prod.fst ≠ (bougOut 1).map Prod.fst ∧ (bougOut 22).map Prod.snd ≠ (bougOut 1).map Prod.snd := by
  decide +kernel

/-- With the Bougamont albedo selected, the time scale of the Oerlemans albedo changes the result: it decides whether the
age of the melted snowfall or that of the older snow counts, here for the roughness. -/
theorem C112_refuted :
    ∃ x y : SimState ℚ × StepOut ℚ, step exSolvers 40 (bougConsts 22) exCfg bougState exDry = .ok x ∧
      step exSolvers 40 (bougConsts 1) exCfg bougState exDry = .ok y ∧
      x.1.grid.newSnowTimestamp ≠ y.1.grid.newSnowTimestamp ∧ x.2.z0 ≠ y.2.z0 := by
  have h := boug_differ
  unfold bougOut at h
  cases hx : step exSolvers 40 (bougConsts 22) exCfg bougState exDry with
  | error e => rw [hx] at h; exact absurd h.1 (by simp [Except.toOption])
  | ok x =>
    cases hy : step exSolvers 40 (bougConsts 1) exCfg bougState exDry with
    | error e => rw [hy] at h; exact absurd h.2.1 (by simp [Except.toOption])
    | ok y =>
      rw [hx, hy] at h
      obtain ⟨-, -, h1, h2⟩ := h
      exact ⟨x, y, rfl, rfl, fun e => h1 (by simp [Except.toOption, e]), fun e => h2 (by simp [Except.toOption, e])⟩

/-- The example constants with the parameters of all methods that are not selected, and the initial column, changed. -/
def otherConsts : Consts ℚ :=
  { exConsts with
    initialSnowheightConstant := 7, initialGlacierHeight := 8, initialGlacierLayerHeights := 9
    initialTopDensitySnowpack := 10, initialBottomDensitySnowpack := 11, temperatureBottom := 12
    tStarWet := 13, tStarDry := 14, tStarK := 15, tStarCutoff := 16
    mergeMax := 17, densityThresholdMerging := 18, temperatureThresholdMerging := 19
    centerSnowTransferFunction := 20, spreadSnowTransferFunction := 21 }

theorem other_same : SameSelected exConsts otherConsts where
  general := ⟨rfl, rfl, rfl⟩
  methods := ⟨rfl, rfl, rfl, rfl, rfl, rfl, rfl, rfl⟩
  thresholds := ⟨rfl, rfl, rfl, rfl, rfl, rfl⟩
  albedo := ⟨rfl, rfl, rfl, rfl, rfl⟩
  roughness := ⟨rfl, rfl, rfl, rfl⟩
  nature := ⟨rfl, rfl, rfl, rfl, rfl, rfl, rfl, rfl, rfl, rfl, rfl, rfl⟩
  bougamont := fun h => by cases h
  constant := fun _ => rfl
  log := fun _ => rfl
  adaptive := fun h => by cases h
  bulk := fun _ => ⟨rfl, rfl, rfl⟩

/-- A run with given snowfall does not notice the changes, and it completes. -/
example : run exSolvers 40 exConsts exCfg (initState exConsts false exGrid)
        [{ exSnow with snowf := some (1/20) }, { exDry with snowf := some 0 }] =
      run exSolvers 40 otherConsts exCfg (initState exConsts false exGrid)
        [{ exSnow with snowf := some (1/20) }, { exDry with snowf := some 0 }] ∧
    raised (run exSolvers 40 exConsts exCfg (initState exConsts false exGrid)
      [{ exSnow with snowf := some (1/20) }, { exDry with snowf := some 0 }]) = none :=
  ⟨C112_run_partial _ _ other_same _ _ _ (.inl (by simp)), by decide +kernel⟩

/-- Without given snowfall the split matters: the second case of the hypothesis is needed. -/
example : ¬ SameTransfer exConsts otherConsts := by unfold SameTransfer; decide +kernel

/-- A restarted simulation of a cell, and one started anew from settings that describe the same column. -/
example (d : CellData ℚ) (cfg : SelectCfg ℚ) (ds : Dataset ℚ) [HasTrunc ℚ] (hd : d.snowfall = some [0])
    (hc : cfg.forceTP = false) (times : List Nat) :
    kernel exSolvers 40 exConsts exCfg cfg 0 times none (some ds) none d 0 0 =
      kernel exSolvers 40 otherConsts exCfg cfg 0 times none (some ds) none d 0 0 :=
  C112_cell_partial _ _ other_same _ _ _ _ _ _ _ _ (.inl rfl) (.inl ⟨by rw [hd]; rfl, hc⟩) 0 0

end
end Cosipy
