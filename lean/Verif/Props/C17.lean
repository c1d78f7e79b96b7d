import Verif.Lemmas.Percolation
import Mathlib.Algebra.Field.Rat
import Mathlib.Algebra.Order.Ring.Unbundled.Rat

/-!
# C17 After percolation no layer holds more than its irreducible water
-/

set_option autoImplicit false
set_option linter.unusedSectionVars false

namespace Cosipy
section
variable {K : Type} [Field K] [LinearOrder K] [IsStrictOrderedRing K]

/-- **C17** Afterwards every layer but the last holds at most its irreducible water content and the last holds none. -/
theorem C17_saturation {g g' : Grid K} {w q : K} (hw : g.WF) (h : percolation g w = .ok (g', q)) :
    ∃ init last, g'.nodes = init ++ [last] ∧ last.lwc = 0 ∧
      ∀ n ∈ init, ∃ θ, n.irreducibleWaterContent = .ok θ ∧ n.lwc ≤ θ := by
  obtain ⟨top, rest, init, last, hn, hne, hp, rfl, rfl⟩ := percolation_pieces hw h
  refine ⟨init, _, rfl, rfl, ?_⟩
  have := percolateFrom_saturated rest hp
  rwa [List.dropLast_concat] at this

/-- **C17** Where water passes: cut the column below any layer `x` but the last (`y` is that layer afterwards). Counting the
supplied water, the part above the cut never gains water beyond it, so the flux across the cut is downward; and if it
is not zero, the layer just above the cut ends with exactly its irreducible water content. -/
theorem C17_flux {g g' : Grid K} {w q : K} (hw : g.WF) (hpos : ∀ n ∈ g.nodes, 0 < n.height)
    (h : percolation g w = .ok (g', q)) {up : List (Node K)} {x : Node K} {down up' : List (Node K)} {y : Node K}
    {down' : List (Node K)} (e1 : g.nodes = up ++ x :: down) (e2 : g'.nodes = up' ++ y :: down')
    (hlen : up.length = up'.length) (hd : down ≠ []) :
    sumWater (up' ++ [y]) ≤ sumWater (up ++ [x]) + w ∧
    (sumWater (up' ++ [y]) < sumWater (up ++ [x]) + w → y.irreducibleWaterContent = .ok y.lwc) := by
  obtain ⟨top, rest, init, last, hn, hne, hp, rfl, rfl⟩ := percolation_pieces hw h
  have hlen2 := percolateFrom_length hp
  -- the layers above the cut are not the last one
  have hdl : ∃ dl, down' = dl ++ [last.setLwc 0] ∧ init = up' ++ y :: dl := by
    have hd' : down' ≠ [] := by
      intro h0
      have l1 := congrArg List.length e1
      have l2 := congrArg List.length e2
      have hdp := List.length_pos_iff.2 hd
      rw [hn] at l1
      simp [h0] at l1 l2 hlen2
      omega
    refine ⟨down'.dropLast, ?_, ?_⟩
    · have := congrArg List.getLast? e2
      simp only [List.getLast?_append, List.getLast?_singleton, Option.some_or, List.getLast?_cons] at this
      conv_lhs => rw [← List.dropLast_append_getLast hd']
      rw [List.getLast?_eq_some_getLast hd'] at this
      simp at this
      rw [this]
    · have := congrArg List.dropLast e2
      rw [List.dropLast_concat, List.dropLast_append_of_ne_nil (by simp), List.dropLast_cons_of_ne_nil hd'] at this
      exact this
  obtain ⟨dl, rfl, rfl⟩ := hdl
  rw [hn] at e1
  have htop := hpos top (by simp [hn])
  have hpos' : ∀ n ∈ top.setLwc (top.lwc + w / top.height) :: rest, 0 < n.height := by
    intro n hm
    rcases List.mem_cons.1 hm with rfl | hm
    · exact htop
    · exact hpos n (by simp [hn, hm])
  cases up with
  | nil =>
    simp only [List.nil_append, List.cons.injEq] at e1
    obtain ⟨rfl, rfl⟩ := e1
    have := percolateFrom_flux rest hp hpos' (up := []) (up' := up') (y := y) (down' := dl ++ [last]) rfl
      (by simp) hlen hd
    simp only [sumWater, List.nil_append, columnSum_cons, columnSum_nil, add_zero, Node.setLwc] at this ⊢
    rw [mul_add, mul_div_cancel₀ _ hne] at this
    exact this
  | cons u up =>
    simp only [List.cons_append, List.cons.injEq] at e1
    obtain ⟨rfl, rfl⟩ := e1
    have := percolateFrom_flux _ hp hpos' (up := top.setLwc (top.lwc + w / top.height) :: up) (up' := up') (y := y)
      (down' := dl ++ [last]) rfl (by simp) (by simpa using hlen) hd
    simp only [sumWater, List.cons_append, columnSum_cons, Node.setLwc] at this ⊢
    rw [mul_add, mul_div_cancel₀ _ hne] at this
    exact ⟨by linarith [this.1], fun h => this.2 (by linarith)⟩

/-- **C17** With non-negative supply and physical layers, all water contents and the runoff are non-negative. -/
theorem C17_nonneg {g g' : Grid K} {w q : K} (hw : g.WF) (hwat : 0 ≤ w)
    (hpos : ∀ n ∈ g.nodes, 0 < n.height ∧ 0 < n.iceFraction ∧ 0 ≤ n.lwc)
    (h : percolation g w = .ok (g', q)) : 0 ≤ q ∧ ∀ n ∈ g'.nodes, 0 ≤ n.lwc := by
  obtain ⟨top, rest, init, last, hn, hne, hp, rfl, rfl⟩ := percolation_pieces hw h
  have ht := hpos top (by simp [hn])
  have := percolateFrom_nonneg rest hp (fun n hm => by
    rcases List.mem_cons.1 hm with rfl | hm
    · exact ⟨ht.1, ht.2.1, add_nonneg ht.2.2 (div_nonneg hwat ht.1.le)⟩
    · exact hpos n (by simp [hn, hm]))
  refine ⟨?_, ?_⟩
  · obtain ⟨a, _, b⟩ := this last (by simp)
    exact mul_nonneg b a.le
  · intro n hm
    rcases List.mem_append.1 hm with hm | hm
    · exact (this n (by simp [hm])).2.2
    · simp at hm; subst hm; exact le_rfl

end

private def exCol : Grid ℚ :=
  ⟨[⟨1/10, 273, 1/100, 3/10, 0⟩, ⟨1/10, 273, 1/10, 1/2, 0⟩, ⟨1, 270, 0, 1, 0⟩], 3, 1/10, 0, 0⟩

/-! Non-vacuity: the first layer ends exactly at its irreducible content, less than the water supplied. -/
example : exCol.WF ∧ (∀ n ∈ exCol.nodes, 0 < n.height ∧ 0 < n.iceFraction ∧ 0 ≤ n.lwc) ∧
    (percolation exCol (1/100)).toOption.map (fun r => r.1.nodes.map fun n => (n.lwc, n.irreducibleWaterContent.toOption)) =
    some [(52379/1000000, some (52379/1000000)), (31919/1000000, some (31919/1000000)), (0, some 0)] := by
  unfold Grid.WF; decide +kernel

end Cosipy
