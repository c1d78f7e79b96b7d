import Verif.Spec.Budget
import Verif.Spec.Physical

/-! # The reported mass balance and the ice of the column -/

set_option autoImplicit false
set_option linter.unusedSectionVars false

namespace Cosipy
section
variable {K : Type} [Field K] [LinearOrder K] [IsStrictOrderedRing K]

/-- Mass of the ice of a column, kg m⁻². -/
def iceMass (c : Consts K) (ns : List (Node K)) : K := columnSum (fun n => n.height * n.iceFraction * c.iceDensity) ns

/-- The named differences between the reported balance of a step and the change of the ice, kg m⁻²:
* frost that is reported and never laid down (what vapour brought beyond the melt),
* evaporation, reported (as a loss) and never taken from the column,
* the share of the snowfall that is stored as air,
* ice of dropped thin layers,
* `pen`: ice taken by penetrating radiation beyond the reported subsurface melt,
* `comp`: ice destroyed by densification,
* minus `carried`: liquid water and air that were counted as melted ice when layers were removed. -/
structure BalanceGap (c : Consts K) (tlo : K) (f : Forcing K) (o : StepOut K) (thin : List (Node K)) (pen comp carried gap : K) :
    Prop where
  sum : gap = c.waterDensity * max 0 (o.sublimation + o.deposition - o.melt) + c.waterDensity * o.evaporation +
    o.snowfall * ((1 - o.densityFreshSnow / c.iceDensity) * c.airDensity) + iceMass c thin + pen + comp - carried
  dropped : ∀ n ∈ thin, n.height ≤ c.minimumSnowLayerHeight ∧ PhysLayer c tlo n
  dark : pen ≠ 0 → 0 < f.g ∧ o.albedo < 1
  constant : c.densificationMethod = .constant → comp = 0
  notCreated : 0 ≤ carried
  noRemoval : o.melt ≤ o.sublimation + o.deposition → carried = 0

end
end Cosipy
