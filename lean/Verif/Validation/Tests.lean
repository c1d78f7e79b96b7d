import Verif.Validation.Numeric
import Verif.Model.Core

/-!
# The project's unit tests, replayed on the model

Tests, not proofs: the kernel evaluates the model in double precision (`Fl (binary64 ℚ)`, elementary functions from
`Verif/Validation/Numeric.lean`) on the inputs of cosipy/tests and checks the assertions made there. They are evidence that the model
behaves like the program on these inputs, and no claim rests on them. Each block names the test it replays.
-/

set_option autoImplicit false
set_option linter.unusedSectionVars false
set_option maxRecDepth 100000

namespace Cosipy.Validation

attribute [local instance] numTransc

/-- Double precision. -/
abbrev F := Fl (binary64 ℚ)

/-- The constants of constants.toml. -/
def c : Consts F := Consts.default F

/-- `np.isclose(a, b, atol=atol)`. -/
def near (atol : ℚ) (a b : F) : Bool := decide (|a.1 - b.1| ≤ atol + 1e-5 * |b.1|)

/-- `np.isclose(a, b)`, also the comparison of `check_output` for floats, cosipy/tests/conftest.py. -/
def close (a b : F) : Bool := near 1e-8 a b

/-- `np.allclose` of arrays of the same length. -/
def allClose (a b : List F) : Bool := a.length == b.length && (a.zip b).all fun p => close p.1 p.2

/-- The call returns and the result passes. -/
def returns {β : Type} (x : M β) (p : β → Bool) : Bool :=
  match x with
  | .ok b => p b
  | .error _ => false

/-- The call raises `e`. -/
def raises {β : Type} (x : M β) (e : Err) : Bool :=
  match x with
  | .ok _ => false
  | .error e' => decide (e' = e)

/-- `a <= b` on floats. -/
def le (a b : F) : Bool := decide (a ≤ b)

/-- A grid without snow history. -/
def mk (hs ds ts ws : List F) : M (Grid F) := Grid.new c hs ds ts ws none none none none

/-- `conftest_mock_grid`, cosipy/tests/conftest.py. -/
def heights : List F := [0.05, 0.1, 0.3, 0.5, 0.5]
def densities : List F := [250, 250, 250, 917, 917]
def temperatures : List F := [260, 270, 271, 271.5, 272]
def mockGrid : M (Grid F) := mk heights densities temperatures [0, 0, 0, 0, 0]

/-- `conftest_mock_grid_ice`, cosipy/tests/conftest.py. -/
def iceGrid : M (Grid F) := mk [0.5] [917] [271.5] [0]

/-- The grid of `TestGridGetter`, cosipy/tests/test_GRID_getter_functions.py. -/
def getterHeights : List F := [0.1, 0.2, 0.3, 0.5, 0.5]
def getterGrid : M (Grid F) := mk getterHeights densities temperatures [0, 0, 0, 0, 0]

def lsum (l : List F) : F := l.foldl (· + ·) 0

/-- `np.nansum(height / density)`, the "SWE" of the tests. -/
def swe (g : Grid F) : M F := do
  let hs ← g.getHeight
  let ds ← g.getDensity c
  return lsum (List.zipWith (· / ·) hs ds)

/-! ## cosipy/tests/test_NODE_getter_functions.py and test_NODE_setter_functions.py -/

def node (ice : Option F) : Node F := Node.new c 0.1 200.0 270.0 0.2 ice
def node4 : Node F := node (some 0.4)

-- test_node_init, test_node_get_layer_height, … _temperature, … _liquid_water_content, … _refreeze
example : (close node4.height 0.1 && close node4.temperature 270.0 && close node4.lwc 0.2 && close node4.refreeze 0) = true := by
  decide +kernel

-- test_node_get_layer_ice_fraction
example : ([0.0, 0.1, 0.9].all fun f : F => close (node (some f)).iceFraction f) = true := by decide +kernel
example : close (node none).iceFraction ((200.0 - (1 - 200.0 / c.iceDensity) * c.airDensity) / c.iceDensity) = true := by decide +kernel

-- test_node_get_layer_air_porosity, … _density, … _porosity, … _specific_heat, … _cold_content
example : (close node4.airPorosity (1 - 0.2 - 0.4) && close node4.porosity (1 - 0.2 - 0.4)) = true := by decide +kernel
example : close (node4.density c) (0.4 * c.iceDensity + 0.2 * c.waterDensity + node4.airPorosity * c.airDensity) = true := by
  decide +kernel
example : close (node4.specificHeat c) ((1 - 0.2 - 0.4) * c.specHeatAir + 0.4 * c.specHeatIce + 0.2 * c.specHeatWater) = true := by
  decide +kernel
example : close (node4.coldContent c) (-(node4.specificHeat c) * node4.density c * 0.1 * (270.0 - c.zeroTemperature)) = true := by
  decide +kernel

-- test_node_get_layer_thermal_conductivity, … _diffusivity
example : returns (node4.thermalConductivity c) (close · (0.4 * c.kI + node4.porosity * c.kA + 0.2 * c.kW)) = true := by decide +kernel
example : returns (node4.thermalConductivity c) (fun k =>
    returns (node4.thermalDiffusivity c) (close · (k / (node4.density c * node4.specificHeat c)))) = true := by decide +kernel

-- test_node_get_layer_irreducible_water_content
example : (returns (node (some 0.1)).irreducibleWaterContent (close · (0.0264 + 0.0099 * ((1 - 0.1) / 0.1))) &&
    returns (node (some 0.7)).irreducibleWaterContent (close · (0.08 - 0.1023 * (0.7 - 0.03))) &&
    returns (node (some 0.9)).irreducibleWaterContent (close · 0)) = true := by decide +kernel

-- test_node_set_layer_*
example : (close (node4.setHeight 1.0).height 1.0 && close (node4.setTemperature 260.0).temperature 260.0 &&
    close (node4.setLwc 0.5).lwc 0.5 && close (node4.setIceFraction 0.9).iceFraction 0.9 &&
    close (node4.setRefreeze 0.01).refreeze 0.01) = true := by decide +kernel

/-! ## cosipy/tests/test_GRID_getter_functions.py -/

-- test_grid_init, test_create_grid
example : returns (mk [0.1, 0.2, 0.3] [200.0, 210.0, 220.0] [270.0, 260.0, 250.0] [0.0, 0.0, 0.0]) (·.numberNodes == 3) = true := by
  decide +kernel

-- test_grid_get_height, … _temperature, … _liquid_water_content, … _density, … _refreeze
example : returns (do let g ← getterGrid; g.getHeight) (allClose · getterHeights) = true := by decide +kernel
example : returns (do let g ← getterGrid; g.getTemperature) (allClose · temperatures) = true := by decide +kernel
example : returns (do let g ← getterGrid; g.getLwc) (allClose · [0, 0, 0, 0, 0]) = true := by decide +kernel
example : returns (do let g ← getterGrid; g.getDensity c) (allClose · densities) = true := by decide +kernel
example : returns (do let g ← getterGrid; g.getRefreeze) (allClose · [0, 0, 0, 0, 0]) = true := by decide +kernel

-- test_grid_get_ice_fraction
example : returns (do let g ← getterGrid; g.getIceFraction) (allClose ·
    (densities.map fun d => (d - (1 - d / c.iceDensity) * c.airDensity) / c.iceDensity)) = true := by decide +kernel

-- test_grid_get_snow_ice_heights
example : returns (do let g ← mockGrid; g.getSnowHeights c) (allClose · [0.05, 0.1, 0.3]) = true := by decide +kernel
example : returns (do let g ← mockGrid; g.getIceHeights c) (allClose · [0.5, 0.5]) = true := by decide +kernel

-- test_grid_get_number_snow_layers, test_grid_get_number_layers
example : returns (do let g ← getterGrid; g.getNumberSnowLayers c) (· == 3) = true := by decide +kernel
example : returns getterGrid (·.getNumberLayers == 5) = true := by decide +kernel

-- test_grid_get_total_snowheight, test_grid_get_total_height
example : returns (do let g ← getterGrid; g.getTotalSnowheight c) (close · (0.1 + 0.2 + 0.3)) = true := by decide +kernel
example : returns (do let g ← getterGrid; g.getTotalHeight) (close · (0.1 + 0.2 + 0.3 + 0.5 + 0.5)) = true := by decide +kernel

/-- `test_depths` of the tests: half a layer at a time. -/
def testDepths (hs : List F) : List F :=
  (hs.foldl (fun (p : List F × F × Option F) h =>
    let d := match p.2.2 with | none => p.2.1 + h / 2.0 | some h' => p.2.1 + h' / 2.0 + h / 2.0
    (p.1 ++ [d], d, some h)) ([], 0, none)).1

/-- `true_depth` of the tests: half of the layer and all layers above. -/
def trueDepths (hs : List F) : List F :=
  (List.range hs.length).map fun i => if i = 0 then hs.getD 0 0 / 2 else hs.getD i 0 / 2 + lsum (hs.take i)

-- test_grid_get_node_depth
example : returns (do let g ← mockGrid; [0, 1, 2, 3, 4].mapM g.getNodeDepth)
    (fun ds => allClose ds (testDepths heights) && ds.all (fun d => decide (0 < d)) && decide (ds.getD 0 0 < ds.getD 1 0)) = true := by
  decide +kernel

-- test_grid_get_depth: the sums are equal, not only close
example : returns (do let g ← mockGrid; let ds ← g.getDepth; let xs ← [0, 1, 2, 3, 4].mapM g.getNodeDepth; return (ds, xs))
    (fun p => decide (lsum (trueDepths heights) = lsum (testDepths heights)) && decide (lsum p.1 = lsum (testDepths heights)) &&
      decide (lsum p.1 = lsum p.2) && allClose p.1 (testDepths heights) && allClose (trueDepths heights) (testDepths heights) &&
      allClose p.1 (trueDepths heights)) = true := by decide +kernel

/-! ## cosipy/tests/test_GRID_update_functions.py -/

-- test_grid_set_node_*
example : returns (do
    let g ← mockGrid
    let n ← g.node 0
    let g1 ← g.setNodeHeight 0 (n.height + 0.5)
    let g2 ← g1.setNodeTemperature 0 (n.temperature + 0.5)
    let g3 ← g2.setNodeIceFraction 0 (n.iceFraction + 0.5)
    let g4 ← g3.setNodeLwc 0 (n.lwc + 0.5)
    let m ← g4.node 0
    return (n, m))
    (fun p => close p.2.height (p.1.height + 0.5) && close p.2.temperature (p.1.temperature + 0.5) &&
      close p.2.iceFraction (p.1.iceFraction + 0.5) && close p.2.lwc (p.1.lwc + 0.5)) = true := by decide +kernel

-- test_grid_update_functions
example : returns (do
    let g ← mockGrid
    let g ← g.setAll Node.setLwc [0.04, 0.03, 0.03, 0.02, 0.01]
    let before ← swe g
    let g ← g.updateGrid 1000 c
    let after ← swe g
    let g ← g.adaptiveProfile 1000 c
    let adaptive ← swe g
    return (before, after, adaptive))
    (fun p => near 1e-3 p.1 p.2.1 && near 1e-3 p.2.1 p.2.2) = true := by decide +kernel

-- test_add_fresh_snow
example : returns mockGrid (fun g => decide (g.newSnowHeight = 0) &&
    [0.05, 0.1, 0.5].all fun h => [273.16, 270.16, 280.0].all fun t => [0.0, 0.5].all fun w =>
      let g' := g.addFreshSnow c h 250.0 t w 3600
      g'.numberNodes == g.numberNodes + 1 && close g'.newSnowHeight h && !close g'.newSnowHeight g.newSnowHeight &&
      returns (g'.node 0) fun n => close n.height h && close n.temperature t && close n.lwc w) = true := by decide +kernel

-- test_grid_remove_node; the empty list stands for `None`, which removes the first node
/-- Layers before and after, and densities after the removal of `idx`. -/
def removal (idx : List Int) : M (Int × Int × List F) := do
  let g ← mockGrid
  let (g, _) ← g.removeMeltWeq 1000 c 0.01
  let g' ← g.removeNode idx
  let ds ← g'.getDensity c
  return (g.numberNodes, g'.numberNodes, ds)

def mean (l : List F) : F := lsum l / (l.length : F)

-- sorting does not reduce in the kernel
theorem sort_last : [-1].mergeSort (fun a b : Int => decide (b ≤ a)) = [-1] := by simp
theorem sort_top : [0, 1, 2].mergeSort (fun a b : Int => decide (b ≤ a)) = [2, 1, 0] := by
  simp [List.mergeSort, List.MergeSort.Internal.splitInTwo]

example : returns (removal []) (fun r => r.2.1 == r.1 - 1 && close (mean r.2.2) (mean [250, 250, 917, 917])) = true := by decide +kernel
example : returns (removal [-1]) (fun r => r.2.1 == r.1 - 1 && close (mean r.2.2) (mean [250, 250, 250, 917])) = true := by
  simp only [removal, Grid.removeNode, sort_last]
  decide +kernel
example : returns (removal [0, 1, 2]) (fun r => r.2.1 == r.1 - 3 && close (mean r.2.2) (mean [917, 917])) = true := by
  simp only [removal, Grid.removeNode, sort_top]
  decide +kernel

/-! ## cosipy/tests/test_parameterisation_albedo.py -/

-- test_updateAlbedo
example : returns (do let g ← mockGrid; updateAlbedo c g 270.0 c.albedoFreshSnow)
    (fun r => le c.albedoFirn r.2.1 && le r.2.1 c.albedoFreshSnow) = true := by decide +kernel

-- test_updateAlbedo_ice
example : returns (do let g ← iceGrid; updateAlbedo c g 270.0 c.albedoFreshSnow)
    (fun r => close r.2.1 c.albedoIce && close r.2.2 c.albedoFreshSnow) = true := by decide +kernel

-- test_get_surface_properties
example : returns mockGrid (fun g => close g.newSnowHeight 0 && close (getSurfaceProperties c g).1.newSnowHeight 0 &&
    [0.0, 0.05, 0.1, 0.5].all fun h => [c.temperatureBottom, c.zeroTemperature, 280.0].all fun t =>
      [0, c.albedoModSnowAging * 24].all fun hours =>
        let g' := ((g.addFreshSnow c h c.constantDensity t 0.0 0).setFreshSnowPropsUpdateTime (3600 * hours))
        let r := getSurfaceProperties c g'
        close r.1.newSnowHeight h && close r.1.newSnowTimestamp (hours * 3600)) = true := by decide +kernel

-- test_updateAlbedo_method, test_updateAlbedo_method_error
example : ([AlbedoMethod.oerlemans98, .bougamont05].all fun m =>
    returns (do let g ← mockGrid; updateAlbedo { c with albedoMethod := m } g 270.0 c.albedoFreshSnow) fun _ => true) = true := by
  decide +kernel
example : raises (do let g ← mockGrid; updateAlbedo { c with albedoMethod := .other } g 270.0 c.albedoFreshSnow) .value = true := by
  decide +kernel

/-- The limit of the tests: albedo of fresh snow of age zero. -/
def albedoLimit : F :=
  c.albedoFirn + (c.albedoFreshSnow - c.albedoFirn) * Transc.exp ((0 : F) / (c.albedoModSnowAging * 24.0))

-- test_method_Oerlemans
example : returns (do let g ← mockGrid; methodOerlemans c g) (fun r => le 0 r.2 && le r.2 1 && le r.2 albedoLimit) = true := by
  decide +kernel

-- test_get_simple_albedo
example : ([0.0, 12.0, 25.0].all fun h : F =>
    let a := getSimpleAlbedo c h
    le 0 a && le a 1 && le a albedoLimit) = true := by decide +kernel

-- test_get_albedo_with_decay
example : ([0.0, 0.1, 1.5].all fun d : F =>
    let a := getAlbedoWithDecay c c.albedoFirn d
    le 0 a && le a 1 && le a (c.albedoFirn + (c.albedoIce - c.albedoFirn) *
      Transc.exp ((-1.0 * d) / (c.albedoModSnowDepth / 100.0)))) = true := by decide +kernel

/-! ## cosipy/tests/test_parameterisation_densification.py -/

-- test_densification
example : returns (do
    let g ← mk [10.0, 10.0, 10.0, 0.2, 0.2] [450, 450, 450, 100, 100] temperatures [0, 0, 0, 0, 0]
    let before ← swe g
    let g ← densification c g 0.0 3600
    let after ← swe g
    return (before, after)) (fun p => !near 1e-3 p.1 p.2) = true := by decide +kernel

-- test_densification_method_error
example : raises (do let g ← mockGrid; densification { c with densificationMethod := .other } g 0.0 3600) .value = true := by
  decide +kernel

/-! ## cosipy/tests/test_parameterisation_penetratingRadiation.py -/

-- test_penetrating_radiation_error
example : raises (do let g ← mockGrid; penetratingRadiation { c with penetratingMethod := .other } g 800.0 3600) .value = true := by
  decide +kernel

-- test_method_Bintanja
example : ([(250.0, 0.1), (c.snowIceThreshold + 1, 0.2)].all fun p : F × F =>
    returns (do let g ← mockGrid; methodBintanja c (g.addFreshSnow c 0.1 p.1 270.15 0.0 0.0) 800.0 3600)
      fun r => close r.2.2 (800.0 * p.2) && le 0 r.2.2) = true := by decide +kernel

/-! ## cosipy/tests/test_parameterisation_percolation.py -/

-- test_percolation
example : ([0.0, 0.5, 1.0].all fun melt : F => [0.0, 0.1, 0.5].all fun w : F =>
    returns (do
      let g ← mockGrid
      let g ← g.setAll Node.setLwc [w, w, w, w, w]
      let ws ← g.getLwc
      let (g', q) ← percolation g melt
      let ws' ← g'.getLwc
      let last ← g'.node (-1)
      return (lsum (List.zipWith (· * ·) ws heights) + melt, lsum (List.zipWith (· * ·) ws' heights) + q, ws', last.lwc, q))
    fun r => r.2.2.1.all (le 0 ·) && decide (r.2.2.2.1 = 0) && le r.2.2.2.2 r.1 && close r.1 r.2.1) = true := by decide +kernel

/-! ## cosipy/tests/test_parameterisation_refreezing.py -/

-- test_refreezing
example : returns (do
    let g ← mk getterHeights densities temperatures [0.01, 0.01, 0.01, 0.01, 0.01]
    let i ← g.getIceFraction
    let w ← g.getLwc
    let (g', q) ← refreezing c g
    let i' ← g'.getIceFraction
    let w' ← g'.getLwc
    return (i, w, i', w', q))
    (fun r => match r with
    | (i, w, i', w', q) =>
      let mass := fun (i w : List F) => lsum (List.zipWith (fun h x => x * h * c.waterDensity) getterHeights w) +
        lsum (List.zipWith (fun h x => x * h * c.iceDensity) getterHeights i)
      let dw := List.zipWith (fun a b : F => -(a - b) * c.waterDensity) w' w
      let di := List.zipWith (fun a b : F => (a - b) * c.iceDensity) i' i
      le 0 q && le (lsum i) (lsum i') && le (lsum w') (lsum w) && allClose dw di &&
      allClose (List.zipWith (· / ·) dw getterHeights) (List.zipWith (· / ·) di getterHeights) &&
      close (mass i w) (mass i' w')) = true := by decide +kernel

/-! ## cosipy/tests/test_parameterisation_roughness.py -/

-- test_updateRoughness_method_error
example : raises (do let g ← mockGrid; updateRoughness { c with roughnessMethod := .other } g) .value = true := by decide +kernel

-- test_method_moelg
example : returns (do let g ← mockGrid; methodMoelg c g)
    (fun z => le (c.roughnessFreshSnow / 1000) z && le z (c.roughnessFirn / 1000)) = true := by decide +kernel
example : returns (do let g ← iceGrid; methodMoelg c g) (close · (c.roughnessIce / 1000)) = true := by decide +kernel

/-! ## cosipy/tests/test_parameterisation_surfaceTemperature.py -/

/-- The solvers of scipy are not modelled. The residual decreases from 690 W/m² at the melting point to 0 near 298.6 K, so that they
return a temperature above the melting point, or the upper bound if that is lower: here always the upper bound. -/
def upper : Solvers F := ⟨fun _ _ => .ok 330, fun _ _ _ _ u => .ok u⟩

/-- `assert_minimisation_ranges`. -/
def inRange (r : Grid F × F × Fluxes F) : Bool :=
  le 220 r.2.1 && le r.2.1 c.zeroTemperature && le 0 r.2.2.li && le r.2.2.li 400 && le (-400) r.2.2.lo && le r.2.2.lo 0 &&
    le (-250) r.2.2.h && le r.2.2.h 250 && le (-200) r.2.2.le && le r.2.2.le 200 && le (-100) r.2.2.b && le r.2.2.b 100

-- test_minimize_surface_energy_balance, test_minimize_newton, test_surface_Temperature_parameterisation. With "Secant" (computed in
-- the model) the iteration leaves the range where the saturation pressure formula makes sense and ends below 220 K, so that the
-- call falls back on SLSQP.
example : ([SfcMethod.lbfgsb, .slsqp, .newton, .secant].all fun m =>
    returns (do
      let g ← mockGrid
      updateSurfaceTemperature upper { c with sfcTemperatureMethod := m } false g
        (fun a b => ⟨3600, 2, 0.24 / 1000, 275, 50, 1000, 3.5, 0.1, 0.0, a, b, none, some 0.5⟩) 789)
      inRange) = true := by decide +kernel

end Cosipy.Validation
