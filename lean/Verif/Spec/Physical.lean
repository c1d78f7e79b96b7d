import Verif.Model.Core
import Verif.Spec.Phys

/-! # Physical columns and sane settings -/

set_option autoImplicit false
set_option linter.unusedSectionVars false

namespace Cosipy
section
variable {K : Type} [Field K] [LinearOrder K] [IsStrictOrderedRing K]

/-- Positive height and ice fraction, no negative liquid water, temperature between `tlo` and the melting point. -/
structure PhysLayer (c : Consts K) (tlo : K) (n : Node K) : Prop where
  height : 0 < n.height
  ice : 0 < n.iceFraction
  water : 0 ≤ n.lwc
  cold : tlo ≤ n.temperature
  warm : n.temperature ≤ c.zeroTemperature

end

section
variable {K : Type} [Field K] [LinearOrder K] [IsStrictOrderedRing K] [Transc K]

/-- Constants and settings under which a run is physical; the shipped ones satisfy it.
`tlo` is a lower bound for temperatures: the cold content of ice at `tlo` is less than the heat of melting. -/
structure Sane (c : Consts K) (r : RunCfg K) (tlo : K) : Prop where
  phys : c.Phys
  first : 0 < c.firstLayerHeight
  stretch : 0 < c.layerStretching
  snowMin : 0 ≤ c.minimumSnowfall
  air : c.airDensity ≤ 50
  airConst : c.airDensity ≤ c.constantDensity
  low : tlo ≤ 220
  zero : 220 ≤ c.zeroTemperature
  cold : (c.specHeatWater - c.specHeatIce) * (c.zeroTemperature - tlo) < c.latHeatMelting
  dt : 0 < r.dt

/-- `s'` is the state before the first or after some step of a simulation of the forcings `fs` from `s`. -/
def Visited (sv : Solvers K) (fuel : Nat) (c : Consts K) (r : RunCfg K) (s : SimState K) (fs : List (Forcing K))
    (s' : SimState K) : Prop :=
  ∃ pre suf os, fs = pre ++ suf ∧ run sv fuel c r s pre = .ok (s', os)

end
end Cosipy
