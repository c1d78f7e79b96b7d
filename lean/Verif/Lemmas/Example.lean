import Verif.Model.Core
import Mathlib.Algebra.Field.Rat
import Mathlib.Algebra.Order.Ring.Unbundled.Rat

/-! A small executable simulation on rational numbers, used only to show that hypotheses of the form "the run returned
normally" are met by concrete, non-trivial runs. The elementary functions are placeholders (theorems that use these
runs hold for arbitrary ones). -/

set_option autoImplicit false

namespace Cosipy

/-- Placeholder elementary functions on ℚ. -/
@[reducible] def exTransc : Transc ℚ :=
  ⟨fun _ => 1 / 2, fun _ => 5, fun x => x, fun _ => 0, fun _ => 1, fun _ => 0, fun _ => 1, fun x _ => x * x / 1000, 3⟩

/-- Placeholder solver: always answers 270. -/
def exSolvers : Solvers ℚ := ⟨fun _ _ => .ok 270, fun _ _ _ _ _ => .ok 270⟩

/-- Shipped constants with a solver that is an oracle, constant-density densification and a coarse mesh. -/
def exConsts : Consts ℚ :=
  { Consts.default ℚ with
    sfcTemperatureMethod := .lbfgsb
    densificationMethod := .constant
    firstLayerHeight := 1/10
    layerStretching := 2 }

def exCfg : RunCfg ℚ := ⟨3600, 2, 0, 200, true, false⟩

def exGrid : Grid ℚ :=
  ⟨[⟨1/10, 268, 0, 3/10, 0⟩, ⟨1/10, 269, 0, 1/2, 0⟩, ⟨1/2, 270, 0, 1, 0⟩, ⟨1/2, 270, 0, 1, 0⟩], 4, 0, 0, 0⟩

/-- A dry hour. -/
def exDry : Forcing ℚ := ⟨272, 60, 700, 100, 2, none, some 0, some 250, none⟩
/-- An hour with 10 mm precipitation. -/
def exSnow : Forcing ℚ := ⟨268, 90, 700, 0, 2, none, some 10, some 250, none⟩

attribute [local instance] exTransc in
/-- The example simulation. -/
def exRun (fs : List (Forcing ℚ)) : M (SimState ℚ × List (StepOut ℚ)) :=
  run exSolvers 40 exConsts exCfg (initState exConsts false exGrid) fs

end Cosipy
