import Verif.Lemmas.Stretch
import Verif.Lemmas.Example

/-!
# C124 The column has no built-in thickness

Multiplying all thicknesses (of the layers, of the water added and removed, and the configured ones) by the same factor
multiplies the thicknesses in the result and changes nothing else. All statements are equations between results of the code,
so they cover failures too. `Grid.stretch` and `Consts.stretch` (Spec/Stretch) are the change of unit.
-/

set_option autoImplicit false
set_option linter.unusedSectionVars false

namespace Cosipy
section
variable {K : Type} [Field K] [LinearOrder K] [IsStrictOrderedRing K] {l : K}

/-- Merging two layers. -/
theorem C124_merge (hl : 0 < l) (g : Grid K) (i : Int) :
    (g.stretch l).mergeNodes i = (g.mergeNodes i).map (Grid.stretch l) := Stretch.mergeNodes hl g i

/-- Halving a layer. -/
theorem C124_split (c : Consts K) (g : Grid K) (i : Int) :
    (g.stretch l).splitNode (c.stretch l) i = (g.splitNode c i).map (Grid.stretch l) := Stretch.splitNode c g i

/-- Merging snow into the glacier below it. -/
theorem C124_glacier (c : Consts K) (g : Grid K) (i : Int) :
    (g.stretch l).mergeSnowWithGlacier (c.stretch l) i = (g.mergeSnowWithGlacier c i).map (Grid.stretch l) :=
  Stretch.mergeSnowWithGlacier c g i

/-- Bringing a layer to a thickness. -/
theorem C124_adjust (hl : 0 < l) (fuel : Nat) (c : Consts K) (g : Grid K) (i : Int) (m : K) :
    (g.stretch l).correctLayer fuel (c.stretch l) i (l * m) = (g.correctLayer fuel c i m).map (Grid.stretch l) :=
  Stretch.correctLayer hl fuel c g i m

/-- Full claim for remeshing: it does not depend on the unit of length, with any method. Refuted for the adaptive method by
`C124_adaptive_refuted`. -/
def RemeshScales (fuel : Nat) (c : Consts K) (g : Grid K) (l : K) : Prop :=
  (g.stretch l).updateGrid fuel (c.stretch l) = (g.updateGrid fuel c).map (Grid.stretch l)

/-- Remeshing with the logarithmic profile (or none). Missing: the adaptive method, see `RemeshScales`. -/
theorem C124_remesh_partial (hl : 0 < l) (fuel : Nat) (c : Consts K) (hm : c.remeshMethod ≠ .adaptiveProfile) (g : Grid K) :
    RemeshScales fuel c g l := Stretch.updateGrid hl fuel c hm g

/-- Removing melt: the melt is a thickness too. -/
theorem C124_melt (hl : 0 < l) (fuel : Nat) (c : Consts K) (g : Grid K) (m : K) :
    (g.stretch l).removeMeltWeq fuel (c.stretch l) (l * m) =
      (g.removeMeltWeq fuel c m).map fun r => (r.1.stretch l, l * r.2) := Stretch.removeMeltWeq hl fuel c g m 0

/-- Percolation: `l` times the water on a column of `l` times the thickness gives `l` times the runoff. -/
theorem C124_percolation (hl : 0 < l) (g : Grid K) (w : K) :
    percolation (g.stretch l) (l * w) = (percolation g w).map fun r => (r.1.stretch l, l * r.2) :=
  Stretch.percolation hl g w

/-- Refreezing. -/
theorem C124_refreezing (c : Consts K) (g : Grid K) :
    refreezing (c.stretch l) (g.stretch l) = (refreezing c g).map fun r => (r.1.stretch l, l * r.2) :=
  Stretch.refreezing c g

/-- Conduction is diffusive: a column of `l` times the thickness reaches the same temperatures after `l * l` times the time,
by the same sub-steps. -/
theorem C124_conduction (hl : 0 < l) (fuel : Nat) (c : Consts K) (g : Grid K) (dt : K) :
    solveHeatEquation fuel (c.stretch l) (g.stretch l) (l * l * dt) =
      (solveHeatEquation fuel c g dt).map (Grid.stretch l) := Stretch.solveHeatEquation hl fuel c g dt

/-- Only the ratio of two thicknesses matters: a stretched column stretched back is the column. -/
theorem C124_back (hl : 0 < l) (g : Grid K) : (g.stretch l).stretch l⁻¹ = g := by
  have h : ∀ x : K, l⁻¹ * (l * x) = x := fun x => by rw [← mul_assoc, inv_mul_cancel₀ hl.ne', one_mul]
  cases g with
  | mk ns k a b d =>
    unfold Grid.stretch
    simp only [List.map_map, h]
    congr 1
    conv_rhs => rw [← List.map_id ns]
    apply List.map_congr_left
    intro n _
    simp [Function.comp, Node.stretch, h]

end

/-! Non-vacuity, and the built-in thickness of the adaptive method: layers up to 10 cm are merged whatever is configured. -/

/-- Two snow layers of 8 cm on ice. -/
private def exTwin : Grid ℚ :=
  ⟨[⟨2/25, 268, 0, 3/10, 0⟩, ⟨2/25, 268, 0, 3/10, 0⟩, ⟨1/2, 270, 0, 1, 0⟩], 3, 0, 0, 0⟩
private def exMesh : Consts ℚ := { exConsts with remeshMethod := .adaptiveProfile, firstLayerHeight := 1/25 }

/-- The number of layers after remeshing. -/
private def layersOf (x : M (Grid ℚ)) : Option Int := x.toOption.map Grid.numberNodes

/-- **C124** (violation): doubling all thicknesses, including the configured ones, changes how many layers the adaptive method
makes of a column (3 and 4): the limit of 10 cm for merging is written in the code. -/
theorem C124_adaptive_refuted : ¬ RemeshScales 40 exMesh exTwin 2 := by
  intro h
  have h1 : layersOf ((exTwin.stretch 2).updateGrid 40 (exMesh.stretch 2)) = some 4 := by decide +kernel
  have h2 : layersOf ((exTwin.updateGrid 40 exMesh).map (Grid.stretch 2)) = some 3 := by decide +kernel
  rw [RemeshScales] at h
  rw [h, h2] at h1
  cases h1

/-! The logarithmic profile, melt, percolation, refreezing and conduction on an example column: results, not failures. -/
example : layersOf (exGrid.updateGrid 40 exConsts) = some 3 ∧ exConsts.remeshMethod ≠ .adaptiveProfile := by decide +kernel
example : ((exGrid.removeMeltWeq 40 exConsts (1/20)).toOption.map fun r => r.1.numberNodes) = some 3 := by decide +kernel
example : ((percolation exGrid (1/50)).toOption.map Prod.snd) = some (57851 / 5000000 : ℚ) := by decide +kernel
example : (percolation (exGrid.stretch 3) (3/50)).toOption.map Prod.snd = some (3 * (57851 / 5000000) : ℚ) := by decide +kernel
example : ((refreezing exConsts ⟨[⟨1/10, 268, 1/100, 3/10, 0⟩], 1, 0, 0, 0⟩).toOption.map fun r => decide (0 < r.2)) =
    some true := by decide +kernel
example : (solveHeatEquation 40 exConsts exGrid 3600).toOption.isSome = true ∧
    (solveHeatEquation 40 exConsts (exGrid.stretch 2) 14400).toOption.map Grid.getTemperature =
      (solveHeatEquation 40 exConsts exGrid 3600).toOption.map Grid.getTemperature := by decide +kernel
example : (exGrid.mergeNodes 0).toOption.isSome = true ∧ (exGrid.splitNode exConsts 1).toOption.isSome = true ∧
    (exGrid.mergeSnowWithGlacier exConsts 1).toOption.map Grid.numberNodes = some 3 ∧
    layersOf (exGrid.correctLayer 40 exConsts 0 (1/20)) = some 5 := by decide +kernel

end Cosipy
