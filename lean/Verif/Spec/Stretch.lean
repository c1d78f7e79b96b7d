import Verif.Model.Grid
import Mathlib.Algebra.Order.Field.Basic

/-!
# The same column seen with another unit of length
-/

set_option autoImplicit false
set_option linter.unusedSectionVars false

namespace Cosipy
section
variable {K : Type} [Field K] [LinearOrder K] [IsStrictOrderedRing K]

/-- The layer with its thickness (and the thickness of water refrozen in it) multiplied by `l`. -/
def Node.stretch (l : K) (n : Node K) : Node K := { n with height := l * n.height, refreeze := l * n.refreeze }

/-- The column with all thicknesses multiplied by `l`: the same layers seen with another unit of length. -/
def Grid.stretch (l : K) (g : Grid K) : Grid K :=
  { g with nodes := g.nodes.map (Node.stretch l), newSnowHeight := l * g.newSnowHeight }

/-- The configured thicknesses multiplied by `l`. -/
def Consts.stretch (l : K) (c : Consts K) : Consts K :=
  { c with firstLayerHeight := l * c.firstLayerHeight, minimumSnowLayerHeight := l * c.minimumSnowLayerHeight }

end
end Cosipy
