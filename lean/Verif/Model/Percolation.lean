import Verif.Model.Grid

/-!
# Percolation: `cosipy/modules/percolation.py`
-/

set_option autoImplicit false

namespace Cosipy
section
variable {α : Type} [Add α] [Sub α] [Mul α] [Div α] [Neg α] [LT α] [LE α]
  [DecidableLT α] [DecidableLE α] [BEq α] [Zero α] [One α] [NatCast α] [OfScientific α]

/-- The loop `for idxNode in range(0, GRID.number_nodes - 1)`, cosipy/modules/percolation.py:34-60, as a
traversal: the pass for the current layer (first argument) reads and writes that layer and pushes its overflow into
the next one.
(`number_nodes` is the list length, property C01.) -/
def percolateFrom : Node α → List (Node α) → M (List (Node α))
  | a, [] => .ok [a]
  | a, b :: rest => do
    let thetaE ← a.irreducibleWaterContent
    let residual := pyMax (a.lwc - thetaE) 0
    if 0 < residual then
      let r := residual * a.height
      let q ← fdiv r b.height
      let tl ← percolateFrom (b.setLwc (b.lwc + q)) rest
      return a.setLwc thetaE :: tl
    else
      let tl ← percolateFrom b rest
      return a :: tl

/-- The same loop on a possibly empty column (cosipy/modules/percolation.py:34-60). -/
def percolateLayers : List (Node α) → M (List (Node α))
  | [] => .ok []
  | a :: rest => percolateFrom a rest

/-- `get_runoff`, cosipy/modules/percolation.py:67-88. -/
def getRunoff (g : Grid α) : M (Grid α × α) := do
  let maxIndex := g.numberNodes - 1
  let n ← g.node maxIndex
  let runoff := n.lwc * n.height
  let g ← g.setNodeLwc maxIndex 0
  return (g, runoff)

/-- `percolation`, cosipy/modules/percolation.py:5-64 (`dt` is not used by the code). Returns the grid and
the runoff `Q`. -/
def percolation (g : Grid α) (water : α) : M (Grid α × α) := do
  let top ← g.node 0
  let w ← fdiv water top.height
  let g ← g.setNodeLwc 0 (top.lwc + w)
  let ns ← percolateLayers g.nodes
  getRunoff { g with nodes := ns }

end
end Cosipy
