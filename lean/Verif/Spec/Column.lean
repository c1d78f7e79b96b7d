import Verif.Model.Grid
import Mathlib.Algebra.BigOperators.Group.List.Basic

/-!
# Vocabulary of the specification: what a column stores
Written directly on the list of layers, without any function of the model except the layer record itself.
-/

set_option autoImplicit false

namespace Cosipy

/-- The exception a call raises, if any. -/
def raised {β : Type} : M β → Option Err
  | .error e => some e
  | .ok _ => none

/-- The counter equals the number of stored layers. -/
def Grid.WF {α : Type} (g : Grid α) : Prop := g.numberNodes = (g.nodes.length : Int)

section
variable {K : Type} [Add K] [Mul K] [Zero K]

/-- Column total of a per-layer quantity. -/
def columnSum (f : Node K → K) (ns : List (Node K)) : K := (ns.map f).sum

/-- Total thickness. -/
def sumHeight (ns : List (Node K)) : K := columnSum (fun n => n.height) ns
/-- Total ice volume per area. -/
def sumIce (ns : List (Node K)) : K := columnSum (fun n => n.height * n.iceFraction) ns
/-- Total liquid water volume per area. -/
def sumWater (ns : List (Node K)) : K := columnSum (fun n => n.height * n.lwc) ns
/-- Height-weighted temperature. -/
def sumHeat (ns : List (Node K)) : K := columnSum (fun n => n.height * n.temperature) ns

/-- Two layer lists with the same totals of height, ice, liquid water and height-weighted temperature. -/
structure SameTotals (ns ms : List (Node K)) : Prop where
  height : sumHeight ns = sumHeight ms
  ice : sumIce ns = sumIce ms
  water : sumWater ns = sumWater ms
  heat : sumHeat ns = sumHeat ms

end

/-- Mass of ice and liquid water of a layer per area, in kg m⁻². -/
def Node.mass {K : Type} [Add K] [Mul K] (c : Consts K) (n : Node K) : K :=
  n.height * (n.iceFraction * c.iceDensity + n.lwc * c.waterDensity)

/-- Everything a layer stores but its liquid water. -/
def Node.dryPart {K : Type} (n : Node K) : K × K × K × K := (n.height, n.temperature, n.iceFraction, n.refreeze)

section
variable {K : Type} [Add K] [Sub K] [Mul K] [Div K] [LT K] [DecidableLT K] [Zero K] [One K]

/-- Water equivalent of a layer: height times reported density relative to water. -/
def Node.weq (c : Consts K) (n : Node K) : K := n.height * (n.density c / c.waterDensity)

/-- Water equivalent of a column. -/
def sumWeq (c : Consts K) (ns : List (Node K)) : K := columnSum (Node.weq c) ns

end
end Cosipy
