import Verif.Lemmas.Percolation
import Mathlib.Algebra.Field.Rat
import Mathlib.Algebra.Order.Ring.Unbundled.Rat

/-!
# C16 Percolation conserves water
-/

set_option autoImplicit false
set_option linter.unusedSectionVars false

namespace Cosipy
section
variable {K : Type} [Field K] [LinearOrder K] [IsStrictOrderedRing K]

/-- **C16** Runoff plus the liquid water stored afterwards equals the liquid water stored before plus the supplied
water; number of layers, heights, temperatures, ice fractions and the snow-age records do not change. No assumption
on the layers (signs, saturation, …). -/
theorem C16_conserves {g g' : Grid K} {w q : K} (hw : g.WF) (h : percolation g w = .ok (g', q)) :
    q + sumWater g'.nodes = sumWater g.nodes + w ∧
    g'.nodes.map Node.dryPart = g.nodes.map Node.dryPart ∧
    g'.newSnowHeight = g.newSnowHeight ∧ g'.newSnowTimestamp = g.newSnowTimestamp ∧
    g'.oldSnowTimestamp = g.oldSnowTimestamp ∧ g'.numberNodes = g.numberNodes := by
  obtain ⟨top, rest, init, last, hn, hne, hp, rfl, rfl⟩ := percolation_pieces hw h
  obtain ⟨c1, c2⟩ := percolateFrom_conserves rest hp
  refine ⟨?_, ?_, rfl, rfl, rfl, rfl⟩
  · rw [hn]
    simp only [sumWater, columnSum_append, columnSum_cons, columnSum_nil, Node.setLwc] at c1 ⊢
    rw [mul_add, mul_div_cancel₀ _ hne] at c1
    linear_combination c1
  · rw [hn]
    rw [List.map_append] at c2 ⊢
    exact c2

/-- **C16** It returns on every non-empty column whose layers have non-zero height and ice fraction. -/
theorem C16_returns {g : Grid K} (w : K) (hw : g.WF) (hne : g.nodes ≠ [])
    (hp : ∀ n ∈ g.nodes, n.height ≠ 0 ∧ n.iceFraction ≠ 0) : ∃ r, percolation g w = .ok r := by
  obtain ⟨top, rest, hn⟩ := List.exists_cons_of_ne_nil hne
  have ht := hp top (by simp [hn])
  have hnode : g.node 0 = .ok top := by unfold Grid.node; rw [hn]; exact pyGet_zero
  obtain ⟨ms, hms⟩ := percolateFrom_returns rest (top.setLwc (top.lwc + w / top.height)) (fun n hm => by
    rcases List.mem_cons.1 hm with rfl | hm
    · exact ht
    · exact hp n (by simp [hn, hm]))
  have hset : g.setNodeLwc 0 (top.lwc + w / top.height) =
      .ok { g with nodes := top.setLwc (top.lwc + w / top.height) :: rest } := by
    unfold Grid.setNodeLwc
    refine Grid.modifyNode_eq_ok.2 ⟨0, ?_, ?_⟩
    · rw [hn]; simp [normIdx]
    · rw [hn]; rfl
  have hlen := percolateFrom_length hms
  unfold percolation
  rw [hnode, ok_bind, fdiv_of_ne ht.1, ok_bind, hset, ok_bind]
  simp only
  show ∃ r, (percolateFrom (top.setLwc (top.lwc + w / top.height)) rest >>= _) = .ok r
  rw [hms, ok_bind]
  unfold getRunoff
  have hnum : g.numberNodes - 1 = ((ms.length - 1 : Nat) : Int) := by rw [hw, hn, hlen]; simp
  have hlt : ms.length - 1 < ms.length := by omega
  simp only [hnum]
  have hg : Grid.node { g with nodes := ms } ((ms.length - 1 : Nat) : Int) = .ok ms[ms.length - 1] :=
    pyGet_nat (List.getElem?_eq_getElem hlt)
  rw [hg, ok_bind]
  have hm : Grid.setNodeLwc { g with nodes := ms } ((ms.length - 1 : Nat) : Int) 0 =
      .ok { g with nodes := ms.modify (ms.length - 1) (Node.setLwc 0) } :=
    Grid.modifyNode_eq_ok.2 ⟨ms.length - 1, normIdx_of_nat hlt, rfl⟩
  rw [hm]
  exact ⟨_, rfl⟩

end

private def exCol : Grid ℚ :=
  ⟨[⟨1/10, 273, 1/100, 3/10, 0⟩, ⟨1/10, 273, 1/10, 1/2, 0⟩, ⟨1, 270, 0, 1, 0⟩], 3, 1/10, 0, 0⟩

/-! Non-vacuity: 10 mm of water on a three-layer column; 0.011 m leave at the bottom. -/
example : exCol.WF ∧ exCol.nodes ≠ [] ∧ (∀ n ∈ exCol.nodes, n.height ≠ 0 ∧ n.iceFraction ≠ 0) ∧
    (percolation exCol (1/100)).toOption.map (fun r => (decide (0 < r.2), r.1.nodes.length)) = some (true, 3) := by
  unfold Grid.WF; decide +kernel

end Cosipy
