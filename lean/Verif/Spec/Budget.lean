import Verif.Model.Core
import Verif.Spec.Column
import Mathlib.Algebra.Order.Field.Basic

/-! # Column mass and the budget of a time step -/

set_option autoImplicit false
set_option linter.unusedSectionVars false

namespace Cosipy
section
variable {K : Type} [Field K] [LinearOrder K] [IsStrictOrderedRing K]

/-- Mass of ice and liquid water of a column, kg m⁻². -/
def columnMass (c : Consts K) (ns : List (Node K)) : K := columnSum (Node.mass c) ns

/-- Mass of the air in the pores of a column, kg m⁻². The code counts it as water equivalent. -/
def airMass (c : Consts K) (ns : List (Node K)) : K :=
  columnSum (fun n => n.height * (max 0 (1 - n.lwc - n.iceFraction)) * c.airDensity) ns

/-- Everything the recorded fluxes of a step account for, kg m⁻²: snowfall (as much of it as the code stores), sublimation
and melt that were taken from the column, and water that percolated minus runoff. `deposition` only counts as far as it
cancels melt, `evaporation` not at all, and the liquid water of removed layers (`lwcFromLayers`) counts although their
removal was already paid for by melt. -/
def accounted (c : Consts K) (o : StepOut K) : K :=
  o.snowfall * (o.densityFreshSnow - (1 - o.densityFreshSnow / c.iceDensity) * c.airDensity)
    - c.waterDensity * max 0 (o.melt - o.sublimation - o.deposition)
    + c.waterDensity * (o.melt + o.condensation + o.rain / 1000 + o.lwcFromLayers - o.q)

end
end Cosipy
