import Verif.Model.Grid

/-!
# Accessors of the column: `cosipy/cpkernel/grid.py`, 726-929

The accessors of `Grid` that the modules do not use in the form given here: the query for a single layer, the profiles of heat capacity and
conductivity, and the setters of a whole profile. (The modules of the model read the fields of the layers directly.)
-/

set_option autoImplicit false

namespace Cosipy
namespace Grid
section
variable {α : Type} [Add α] [Sub α] [Mul α] [Div α] [Neg α] [LT α] [LE α]
  [DecidableLT α] [DecidableLE α] [BEq α] [Zero α] [One α] [NatCast α] [OfScientific α]

/-- `get_node_temperature`, cosipy/cpkernel/grid.py:791-793. -/
def getNodeTemperature (g : Grid α) (idx : Int) : M α := do let n ← g.node idx; return n.temperature
/-- `get_node_height`, cosipy/cpkernel/grid.py:828-830. -/
def getNodeHeight (g : Grid α) (idx : Int) : M α := do let n ← g.node idx; return n.height
/-- `get_node_liquid_water_content`, cosipy/cpkernel/grid.py:843-845. -/
def getNodeLwc (g : Grid α) (idx : Int) : M α := do let n ← g.node idx; return n.lwc
/-- `get_node_ice_fraction`, cosipy/cpkernel/grid.py:854-856. -/
def getNodeIceFraction (g : Grid α) (idx : Int) : M α := do let n ← g.node idx; return n.iceFraction
/-- `get_node_refreeze`, cosipy/cpkernel/grid.py:920-922. -/
def getNodeRefreeze (g : Grid α) (idx : Int) : M α := do let n ← g.node idx; return n.refreeze
/-- `get_node_density`, cosipy/cpkernel/grid.py:832-834. -/
def getNodeDensity (c : Consts α) (g : Grid α) (idx : Int) : M α := do let n ← g.node idx; return n.density c
/-- `get_node_specific_heat`, cosipy/cpkernel/grid.py:802-804. -/
def getNodeSpecificHeat (c : Consts α) (g : Grid α) (idx : Int) : M α := do let n ← g.node idx; return n.specificHeat c
/-- `get_node_irreducible_water_content`, cosipy/cpkernel/grid.py:865-867. -/
def getNodeIrreducibleWaterContent (g : Grid α) (idx : Int) : M α := do let n ← g.node idx; n.irreducibleWaterContent
/-- `get_node_cold_content`, cosipy/cpkernel/grid.py:876-878. -/
def getNodeColdContent (c : Consts α) (g : Grid α) (idx : Int) : M α := do let n ← g.node idx; return n.coldContent c
/-- `get_node_porosity`, cosipy/cpkernel/grid.py:887-889. -/
def getNodePorosity (g : Grid α) (idx : Int) : M α := do let n ← g.node idx; return n.porosity
/-- `get_node_thermal_conductivity`, cosipy/cpkernel/grid.py:898-900. -/
def getNodeThermalConductivity (c : Consts α) (g : Grid α) (idx : Int) : M α := do let n ← g.node idx; n.thermalConductivity c
/-- `get_node_thermal_diffusivity`, cosipy/cpkernel/grid.py:909-911. -/
def getNodeThermalDiffusivity (c : Consts α) (g : Grid α) (idx : Int) : M α := do let n ← g.node idx; n.thermalDiffusivity c

/-- `get_specific_heat`, cosipy/cpkernel/grid.py:795-800. -/
def getSpecificHeat (c : Consts α) (g : Grid α) : M (List α) := g.mapNodes fun n => .ok (n.specificHeat c)
/-- `get_thermal_conductivity`, cosipy/cpkernel/grid.py:902-907. -/
def getThermalConductivity (c : Consts α) (g : Grid α) : M (List α) := g.mapNodes fun n => n.thermalConductivity c

/-- `set_temperature`, cosipy/cpkernel/grid.py:735-742. -/
def setTemperature (g : Grid α) (xs : List α) : M (Grid α) := g.setAll Node.setTemperature xs
/-- `set_height`, cosipy/cpkernel/grid.py:748-751. -/
def setHeight (g : Grid α) (xs : List α) : M (Grid α) := g.setAll Node.setHeight xs
/-- `set_liquid_water_content`, cosipy/cpkernel/grid.py:759-764. -/
def setLwc (g : Grid α) (xs : List α) : M (Grid α) := g.setAll Node.setLwc xs
/-- `set_ice_fraction`, cosipy/cpkernel/grid.py:770-773. -/
def setIceFraction (g : Grid α) (xs : List α) : M (Grid α) := g.setAll Node.setIceFraction xs
/-- `set_refreeze`, cosipy/cpkernel/grid.py:779-782. -/
def setRefreeze (g : Grid α) (xs : List α) : M (Grid α) := g.setAll Node.setRefreeze xs

end
end Grid
end Cosipy
