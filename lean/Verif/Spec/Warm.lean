import Verif.Model.Core
import Mathlib.Algebra.Order.Field.Basic

/-!
# The same column with all temperatures shifted
-/

set_option autoImplicit false
set_option linter.unusedSectionVars false

namespace Cosipy
section
variable {K : Type} [Field K] [LinearOrder K] [IsStrictOrderedRing K]

/-- The layer with its temperature raised by `d`. -/
def Node.warm (d : K) (n : Node K) : Node K := { n with temperature := n.temperature + d }

/-- The column with all temperatures raised by `d`. -/
def Grid.warm (d : K) (g : Grid K) : Grid K := { g with nodes := g.nodes.map (Node.warm d) }

/-- The melting point and the other configured temperatures (bottom of the glacier, lower limit of the temperature dependence of
snow ageing) raised by `d`. -/
def Consts.warm (d : K) (c : Consts K) : Consts K :=
  { c with
    zeroTemperature := c.zeroTemperature + d, temperatureBottom := c.temperatureBottom + d, tStarCutoff := c.tStarCutoff + d }

end
end Cosipy
