import Verif.Model.Consts

/-!
# One layer: `cosipy/cpkernel/node.py`
-/

set_option autoImplicit false

namespace Cosipy

/-- State of a layer, cosipy/cpkernel/node.py:22-27. -/
structure Node (α : Type) where
  height : α
  temperature : α
  lwc : α            -- liquid_water_content, a volume fraction in all numerical code
  iceFraction : α
  refreeze : α
  deriving DecidableEq, Repr

section
variable {α : Type} [Add α] [Sub α] [Mul α] [Div α] [Neg α] [LT α] [LE α]
  [DecidableLT α] [DecidableLE α] [BEq α] [Zero α] [One α] [NatCast α] [OfScientific α]

/-- `Node.__init__`, cosipy/cpkernel/node.py:47-67. Division by the constant `ice_density` is plain
division (a zero constant is not modelled as an exception). -/
def Node.new (c : Consts α) (height snowDensity temperature lwc : α) (iceFraction : Option α) :
    Node α :=
  { height := height
    temperature := temperature
    lwc := lwc
    iceFraction :=
      match iceFraction with
      | none =>
        let a := snowDensity - (1 - (snowDensity / c.iceDensity)) * c.airDensity
        a / c.iceDensity
      | some f => f
    refreeze := 0 }

/-- `get_layer_air_porosity`, cosipy/cpkernel/node.py:122-128. -/
def Node.airPorosity (n : Node α) : α := pyMax 0 (1 - n.lwc - n.iceFraction)

/-- `get_layer_density`, cosipy/cpkernel/node.py:110-120. -/
def Node.density (c : Consts α) (n : Node α) : α :=
  n.iceFraction * c.iceDensity + n.lwc * c.waterDensity + n.airPorosity * c.airDensity

/-- `get_layer_specific_heat`, cosipy/cpkernel/node.py:130-136. -/
def Node.specificHeat (c : Consts α) (n : Node α) : α :=
  n.iceFraction * c.specHeatIce + n.airPorosity * c.specHeatAir + n.lwc * c.specHeatWater

/-- `get_layer_irreducible_water_content`, cosipy/cpkernel/node.py:146-160. -/
def Node.irreducibleWaterContent (n : Node α) : M α :=
  if n.iceFraction ≤ 0.23 then do
    let q ← fdiv (1 - n.iceFraction) n.iceFraction
    return 0.0264 + 0.0099 * q
  else if 0.23 < n.iceFraction ∧ n.iceFraction ≤ 0.812 then
    .ok (0.08 - 0.1023 * (n.iceFraction - 0.03))
  else
    .ok 0

/-- `get_layer_cold_content`, cosipy/cpkernel/node.py:162-168. -/
def Node.coldContent (c : Consts α) (n : Node α) : α :=
  -n.specificHeat c * n.density c * n.height * (n.temperature - c.zeroTemperature)

/-- `get_layer_porosity`, cosipy/cpkernel/node.py:170-176. -/
def Node.porosity (n : Node α) : α := 1 - n.iceFraction - n.lwc

/-- `get_layer_thermal_conductivity`, cosipy/cpkernel/node.py:178-195. `np.power(x, 2)` is `x * x`. -/
def Node.thermalConductivity (c : Consts α) (n : Node α) : M α :=
  match c.thermalConductivityMethod with
  | .bulk => .ok (n.iceFraction * c.kI + n.airPorosity * c.kA + n.lwc * c.kW)
  | .empirical =>
    let r := n.density c / 1000
    .ok (0.021 + 2.5 * (r * r))
  | .other => .error .value

/-- `get_layer_thermal_diffusivity`, cosipy/cpkernel/node.py:197-204. -/
def Node.thermalDiffusivity (c : Consts α) (n : Node α) : M α := do
  let k ← n.thermalConductivity c
  fdiv k (n.density c * n.specificHeat c)

/-- `set_layer_height`, cosipy/cpkernel/node.py:211-217. -/
def Node.setHeight (h : α) (n : Node α) : Node α := { n with height := h }
/-- `set_layer_temperature`, cosipy/cpkernel/node.py:219-225. -/
def Node.setTemperature (t : α) (n : Node α) : Node α := { n with temperature := t }
/-- `set_layer_liquid_water_content`, cosipy/cpkernel/node.py:227-233. -/
def Node.setLwc (w : α) (n : Node α) : Node α := { n with lwc := w }
/-- `set_layer_ice_fraction`, cosipy/cpkernel/node.py:235-241. -/
def Node.setIceFraction (f : α) (n : Node α) : Node α := { n with iceFraction := f }
/-- `set_layer_refreeze`, cosipy/cpkernel/node.py:243-249. -/
def Node.setRefreeze (r : α) (n : Node α) : Node α := { n with refreeze := r }

end
end Cosipy
