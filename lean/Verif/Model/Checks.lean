import Verif.Model.Heat

/-!
# The self-checks of the model
The program prints a message where its own consistency checks find something wrong. The rest of the model leaves these messages out,
as they change nothing; here is when they appear. Uncalled: `Grid.check` (its only call, grid.py:619, is commented out) and
`check_layer_property` (grid.py:1053-1068).
-/

set_option autoImplicit false

namespace Cosipy
section
variable {α : Type} [Add α] [Sub α] [Mul α] [Div α] [Neg α] [LT α] [LE α]
  [DecidableLT α] [DecidableLE α] [BEq α] [Zero α] [One α] [NatCast α] [OfScientific α]

/-- The condition of both mass consistency messages: the fractions of ice, air and water do not add up to 1, up to 1e-8,
cosipy/cpkernel/grid.py:219-227 and 339-341. -/
def inconsistent (ice air lwc : α) : Bool := decide (1e-8 < pyAbs (1 - ice - air - lwc))

/-- Does `merge_nodes` print "Merging is not mass consistent", cosipy/cpkernel/grid.py:199-234? -/
def Grid.mergeWarns (g : Grid α) (idx : Int) : M Bool := do
  let a ← g.node idx
  let b ← g.node (idx + 1)
  let newHeight := a.height + b.height
  let newLwc ← fdiv (a.lwc * a.height + b.lwc * b.height) newHeight
  let newIce ← fdiv (a.iceFraction * a.height + b.iceFraction * b.height) newHeight
  let newAir := 1 - newLwc - newIce
  return inconsistent newIce newAir newLwc

/-- Does the split of `correct_layer` print "Correct layer is not mass consistent", cosipy/cpkernel/grid.py:293-352? -/
def Grid.splitWarns (g : Grid α) (idx : Int) (minHeight : α) : M Bool := do
  let a ← g.node idx
  if minHeight < a.height then
    let h0 := minHeight
    let h1 := a.height - minHeight
    let thetaE ← a.irreducibleWaterContent
    let lw0 := if 0 < a.lwc - thetaE then thetaE * a.height else a.lwc * a.height
    let lw1 := if 0 < a.lwc - thetaE then a.lwc * a.height - thetaE * a.height else 0
    let lwc0 ← fdiv lw0 h0
    let lwc1 ← fdiv lw1 h1
    let por0 := 1 - lwc0 - a.iceFraction
    let por1 := 1 - lwc1 - a.iceFraction
    return inconsistent a.iceFraction por0 lwc0 || inconsistent a.iceFraction por1 lwc1
  else
    return false

/-- Does `log_fraction_warning` print "Fraction > 1" for a layer, cosipy/modules/densification.py:52-79 (called after the update of
each compacted layer, 166 and 235)? -/
def Node.fractionWarns (n : Node α) : Bool := decide (1 < n.iceFraction + n.lwc + n.porosity)

/-- Does `update_surface_temperature` print "Surface temperature is outside bounds", cosipy/modules/surfaceTemperature.py:123-125
(`lower_bnd_ts` is 220, line 76)? -/
def surfaceWarns (c : Consts α) (ts : α) : Bool := decide (c.zeroTemperature < ts) || decide (ts < 220)

/-- `grid_check`, called before every time step (cosipy/cpkernel/cosipy_core.py:232): all its checks are commented out,
cosipy/cpkernel/grid.py:1038-1051. -/
def Grid.gridCheck (_g : Grid α) : Bool := false

/-- Python/numpy `max` of an array: ValueError on an empty one (as in cosipy/cpkernel/grid.py:550). -/
def pyMaxList : List α → M α
  | [] => .error .value
  | x :: xs => .ok (xs.foldl pyMax x)

/-- The three messages of `check`, cosipy/cpkernel/grid.py:541-560: is the lowest layer height below 0.01, the highest temperature
above 273.2, the largest height above 1? -/
def Grid.check (g : Grid α) : M (Bool × Bool × Bool) := do
  let hs ← g.getHeight
  let lo ← pyMinList hs
  let ts ← g.getTemperature
  let tm ← pyMaxList ts
  let hi ← pyMaxList hs
  return (decide (lo < 0.01), decide (273.2 < tm), decide (1 < hi))

end
end Cosipy
