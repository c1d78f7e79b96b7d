import Verif.Lemmas.Sum
import Mathlib.Algebra.Field.Rat
import Mathlib.Algebra.Order.Ring.Unbundled.Rat

/-!
# C02 Merging two layers conserves column height, ice, liquid water and heat
-/

set_option autoImplicit false

namespace Cosipy
section
variable {K : Type} [Field K] [LinearOrder K] [IsStrictOrderedRing K]

/-- **C02** (conservation): whenever `merge_nodes(i)` returns on a column of at least two layers — so that the
two merged layers are distinct, for negative (wrapping) indices as well — all four column totals are kept and
one layer fewer is stored. -/
theorem C02_merge_conserves {g g' : Grid K} {i : Int} (h2 : 2 ≤ g.nodes.length) (h : g.mergeNodes i = .ok g') :
    SameTotals g'.nodes g.nodes ∧ g'.nodes.length + 1 = g.nodes.length := by
  obtain ⟨p, q, a, b, hp, hq, ha, hb, hne, rfl⟩ := Grid.mergeNodes_ok h
  have hpq : p ≠ q := by
    rintro rfl
    have h1 := normIdx_lt hp
    unfold normIdx at hp hq
    split_ifs at hp hq <;> simp at hp hq <;> omega
  have hq1 := normIdx_lt hq
  refine ⟨merge_totals hpq ha hb (by simpa using hne), ?_⟩
  simp only
  rw [List.length_eraseIdx_of_lt (by simpa using hq1), List.length_set]
  omega

/-- **C02** (locality): at a non-negative index the column is `pre ++ a :: b :: post` with `a` at position `i`; it
becomes `pre ++ m :: post`, with `m` holding exactly the content of `a` and `b`; nothing else in the grid's
snow-age bookkeeping changes. -/
theorem C02_merge_local {g g' : Grid K} {i : Int} (hi : 0 ≤ i) (h : g.mergeNodes i = .ok g') :
    ∃ pre a b post m, g.nodes = pre ++ a :: b :: post ∧ (pre.length : Int) = i ∧
      g'.nodes = pre ++ m :: post ∧ SameTotals [m] [a, b] ∧
      g'.newSnowHeight = g.newSnowHeight ∧ g'.newSnowTimestamp = g.newSnowTimestamp ∧
      g'.oldSnowTimestamp = g.oldSnowTimestamp := by
  obtain ⟨pre, a, b, post, hd, hl, hne, rfl⟩ := mergeNodes_decomp hi h
  exact ⟨pre, a, b, post, Grid.merged a b, hd, hl, rfl, merged_totals hne, rfl, rfl, rfl⟩

/-- **C02** (progress): with positive heights `merge_nodes(i)` does return for every `i` that has a layer below it. -/
theorem C02_merge_returns {g : Grid K} {i : Int} (hi : 0 ≤ i) (hb : i + 1 < g.nodes.length)
    (hpos : ∀ n ∈ g.nodes, 0 < n.height) : ∃ g', g.mergeNodes i = .ok g' := by
  obtain ⟨k, rfl⟩ := Int.eq_ofNat_of_zero_le hi
  have hk1 : k < g.nodes.length := by omega
  have hk2 : k + 1 < g.nodes.length := by omega
  have ha := hpos _ (List.getElem_mem hk1)
  have hb := hpos _ (List.getElem_mem hk2)
  have hne : (g.nodes[k]).height + (g.nodes[k + 1]).height ≠ 0 := by positivity
  unfold Grid.mergeNodes Grid.node
  rw [pyGet_nat (List.getElem?_eq_getElem hk1), ok_bind]
  rw [show ((k : Int) + 1) = ((k + 1 : Nat) : Int) by omega, pyGet_nat (List.getElem?_eq_getElem hk2), ok_bind]
  simp only [fdiv_of_ne hne, ok_bind]
  have hu := fun H T F W => Grid.updateNode_eq_ok (g := g) (i := (k : Int)) (h := H) (t := T) (f := F) (w := W)
    (g' := { g with nodes := g.nodes.modify k (Grid.upd H T F W) })
  rw [(hu _ _ _ _).2 ⟨k, normIdx_of_nat hk1, rfl⟩, ok_bind]
  refine ⟨_, (Grid.removeNode_single ?_).2 ⟨k + 1, ?_, rfl⟩⟩
  · intro h0
    have := congrArg List.length h0
    simp at this; rw [this] at hk1; simp at hk1
  · rw [normIdx_of_nat]; simpa using hk2

end

/-! Non-vacuity: two different layers are merged in the middle of a four-layer column. -/
private def exCol : Grid ℚ :=
  ⟨[⟨1/10, 265, 1/50, 3/10, 0⟩, ⟨1/5, 268, 1/20, 2/5, 0⟩, ⟨3/10, 270, 0, 9/10, 0⟩, ⟨1/2, 270, 0, 1, 0⟩], 4, 0, 0, 0⟩

example : 2 ≤ exCol.nodes.length ∧ (exCol.mergeNodes 1).toOption.map (fun g => g.nodes) =
    some [⟨1/10, 265, 1/50, 3/10, 0⟩, ⟨1/2, 1346/5, 1/50, 7/10, 0⟩, ⟨1/2, 270, 0, 1, 0⟩] := by decide +kernel

/-- The wrapping index `-1` merges the bottom layer with the top one and still conserves the totals. -/
example : (exCol.mergeNodes (-1)).toOption.map (fun g => g.nodes.map Node.height) =
    some [1/5, 3/10, 3/5] := by decide +kernel

end Cosipy
