import Verif.Model.Grid

/-!
# Densification: `cosipy/modules/densification.py`
`log_fraction_warning` (51-80) only prints; when it prints is modelled in Model/Checks.
-/

set_option autoImplicit false

namespace Cosipy
section
variable {α : Type} [Add α] [Sub α] [Mul α] [Div α] [Neg α] [LT α] [LE α]
  [DecidableLT α] [DecidableLE α] [BEq α] [Zero α] [One α] [NatCast α] [OfScientific α]
  [Transc α]

/-- Relative density change `dRho` of `method_Boone`, cosipy/modules/densification.py:144-148, for overburden
mass `ms`. -/
def booneRate (c : Consts α) (dt ms t rho : α) : M α := do
  let eta := 37000000 * Transc.exp (0.081 * (c.zeroTemperature - t) + 0.018 * rho)
  let a ← fdiv (ms * 9.81) eta
  return (a + 0.0000028 * Transc.exp (-0.042 * (c.zeroTemperature - t) - 0.046 * pyMax 0 (rho - 150))) * dt

/-- New state of a compacted layer, cosipy/modules/densification.py:150-164: fractions grow, height shrinks. -/
def booneUpdate (d : α) (n : Node α) : Node α :=
  let di := if n.lwc == 0 then d else d / 2.0
  let dw := if n.lwc == 0 then 0 else d / 2.0
  { n with iceFraction := (1 + di) * n.iceFraction, lwc := (1 + dw) * n.lwc, height := (1 - d) * n.height }

/-- Mass added to the overburden at a layer, cosipy/modules/densification.py:138-142: the layer above, or half of the
first layer. -/
def booneLoad (c : Consts α) : Option (Node α) → Node α → α
  | some p, _ => p.density c * p.height
  | none, n => n.density c * (n.height / 2.0)

/-- The loop of `method_Boone` over the first `k` layers, cosipy/modules/densification.py:133-166. The profiles are
copies taken before the loop; `prev` is the original layer above (none for the first). `ms` is the overburden
mass, only increased at layers that are compacted. -/
def booneLayers (c : Consts α) (dt : α) : Nat → α → Option (Node α) → List (Node α) → M (List (Node α))
  | 0, _, _, ns => .ok ns
  | _ + 1, _, _, [] => .error .index
  | k + 1, ms, prev, n :: ns => do
    if n.density c < c.snowIceThreshold ∧ c.minimumSnowLayerHeight < n.height then
      let ms' := ms + booneLoad c prev n
      let d ← booneRate c dt ms' n.temperature (n.density c)
      let tl ← booneLayers c dt k ms' (some n) ns
      return booneUpdate d n :: tl
    else
      let tl ← booneLayers c dt k ms (some n) ns
      return n :: tl

/-- `method_Boone`, cosipy/modules/densification.py:106-166. -/
def methodBoone (c : Consts α) (g : Grid α) (dt : α) : M (Grid α) := do
  let k ← g.getNumberSnowLayers c
  let ns ← booneLayers c dt k 0 none g.nodes
  return { g with nodes := ns }

/-- `dD` of `method_Vionnet`, cosipy/modules/densification.py:199-214, for stress `sig`. Array scalars: division
does not raise. -/
def vionnetRate (dt sig : α) (c : Consts α) (n : Node α) : α :=
  let f1 := 1 / (1 + 60.0 * (n.lwc / n.height))
  let eta := f1 * 1 * 7622370 * (n.density c / 250) *
    Transc.exp (0.1 * (273.14 - n.temperature) + 0.023 * n.density c)
  (-sig / eta) * dt

/-- New state of a layer in `method_Vionnet`, cosipy/modules/densification.py:219-233. -/
def vionnetUpdate (dD : α) (n : Node α) : Node α :=
  let di := if n.lwc == 0 then -dD else -dD / 2.0
  let dw := if n.lwc == 0 then 0 else -dD / 2.0
  { n with iceFraction := (1 + di) * n.iceFraction, lwc := (1 + dw) * n.lwc, height := (1 + dD) * n.height }

/-- Stress added at a layer, cosipy/modules/densification.py:205-210; `np.cos(SLOPE)` takes the slope in degrees as radians. -/
def vionnetLoad (c : Consts α) (slope : α) : Option (Node α) → Node α → α
  | some p, _ => 9.81 * Transc.cos slope * p.density c * p.height
  | none, n => 9.81 * Transc.cos slope * n.density c * (n.height / 2.0)

/-- The loop of `method_Vionnet`, cosipy/modules/densification.py:194-235. -/
def vionnetLayers (c : Consts α) (slope dt : α) : Nat → α → Option (Node α) → List (Node α) → M (List (Node α))
  | 0, _, _, ns => .ok ns
  | _ + 1, _, _, [] => .error .index
  | k + 1, sig, prev, n :: ns => do
    if n.density c < c.snowIceThreshold ∧ c.minimumSnowLayerHeight < n.height then
      let sig' := sig + vionnetLoad c slope prev n
      let tl ← vionnetLayers c slope dt k sig' (some n) ns
      return vionnetUpdate (vionnetRate dt sig' c n) n :: tl
    else
      let tl ← vionnetLayers c slope dt k sig (some n) ns
      return n :: tl

/-- `method_Vionnet`, cosipy/modules/densification.py:170-235. -/
def methodVionnet (c : Consts α) (g : Grid α) (slope dt : α) : M (Grid α) := do
  let k ← g.getNumberSnowLayers c
  let ns ← vionnetLayers c slope dt k 0 none g.nodes
  return { g with nodes := ns }

/-- One layer of `method_empirical`, cosipy/modules/densification.py:256-265. The height change divides by the density
*after* the ice fraction was replaced. -/
def empiricalLayer (c : Consts α) (dt : α) (n : Node α) : M (Node α) := do
  let dRho := (1 / 800000) * (600.0 - n.density c) * dt
  let q ← fdiv dRho (n.density c)
  if 1 - q < 1 then
    let n1 := n.setIceFraction
      ((600.0 + (n.density c - 600.0) * Transc.exp (-dt / 800000)) / c.iceDensity)
    let q' ← fdiv dRho (n1.density c)
    return n1.setHeight ((1 - q') * n1.height)
  else
    return n

/-- The loop of `method_empirical` over the first `k` layers, cosipy/modules/densification.py:253-265. -/
def empiricalLayers (c : Consts α) (dt : α) : Nat → List (Node α) → M (List (Node α))
  | 0, ns => .ok ns
  | _ + 1, [] => .error .index
  | k + 1, n :: ns => do
    let n' ← empiricalLayer c dt n
    let tl ← empiricalLayers c dt k ns
    return n' :: tl

/-- `method_empirical`, cosipy/modules/densification.py:238-265. -/
def methodEmpirical (c : Consts α) (g : Grid α) (dt : α) : M (Grid α) := do
  let k ← g.getNumberSnowLayers c
  let ns ← empiricalLayers c dt k g.nodes
  return { g with nodes := ns }

/-- `densification`, cosipy/modules/densification.py:13-48. -/
def densification (c : Consts α) (g : Grid α) (slope dt : α) : M (Grid α) :=
  match c.densificationMethod with
  | .boone => methodBoone c g dt
  | .vionnet => methodVionnet c g slope dt
  | .empirical => methodEmpirical c g dt
  | .constant => .ok g
  | .other => .error .value

end
end Cosipy
