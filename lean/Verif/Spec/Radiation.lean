import Verif.Model.Node

/-!
# Vocabulary for penetrating radiation
-/

set_option autoImplicit false

namespace Cosipy
section
variable {K : Type} [Add K] [Sub K] [Mul K] [Div K] [LT K] [DecidableLT K] [Zero K] [One K]

/-- Energy per area a layer `n` took up if it became `m` (`none`: it melted completely): warming of its whole mass with
the heat capacity of ice, plus melting of the ice it lost. -/
def uptake (c : Consts K) (n : Node K) : Option (Node K) → K
  | some m => n.density c * c.specHeatIce * n.height * (m.temperature - n.temperature) +
      c.latHeatMelting * (c.iceDensity * (n.iceFraction * (n.height - m.height)))
  | none => n.density c * c.specHeatIce * n.height * (c.zeroTemperature - n.temperature) +
      c.latHeatMelting * (c.iceDensity * (n.iceFraction * n.height))

/-- Water equivalent of the ice a layer lost. -/
def iceLost (c : Consts K) (n : Node K) : Option (Node K) → K
  | some m => c.iceDensity / c.waterDensity * (n.iceFraction * n.height - m.iceFraction * m.height)
  | none => c.iceDensity / c.waterDensity * (n.iceFraction * n.height)

end
end Cosipy
