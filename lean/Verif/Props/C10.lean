import Verif.Lemmas.Correct
import Mathlib.Algebra.Field.Rat
import Mathlib.Algebra.Order.Ring.Unbundled.Rat
import Mathlib.Tactic.NormNum

/-!
# C10 Splitting a layer conserves its content
-/

set_option autoImplicit false
set_option linter.unusedSectionVars false

namespace Cosipy
section
variable {K : Type} [Field K] [LinearOrder K] [IsStrictOrderedRing K]

/-- **C10** (effect): `split_node(i)` on an existing layer returns; the layer is replaced by two layers of half the
height with the same temperature and ice fraction, and *half the liquid water content*; nothing else changes. -/
theorem C10_split_effect {g : Grid K} {c : Consts K} {pre post : List (Node K)} {a : Node K}
    (hd : g.nodes = pre ++ a :: post) :
    ∃ x y, g.splitNode c pre.length = .ok { g with nodes := pre ++ x :: y :: post, numberNodes := g.numberNodes + 1 } ∧
      x.height = a.height / 2 ∧ y.height = a.height / 2 ∧ x.temperature = a.temperature ∧
      y.temperature = a.temperature ∧ x.iceFraction = a.iceFraction ∧ y.iceFraction = a.iceFraction ∧
      x.lwc = a.lwc / 2 ∧ y.lwc = a.lwc / 2 := by
  have e2 : (2.0 : K) = 2 := by norm_num
  refine ⟨Grid.upd (a.height / 2.0) a.temperature a.iceFraction (a.lwc / 2.0) a,
    Node.new c (a.height / 2.0) (a.density c) a.temperature (a.lwc / 2.0) (some a.iceFraction), ?_, ?_, ?_, ?_, ?_,
    ?_, ?_, ?_, ?_⟩
  · unfold Grid.splitNode
    rw [node_of_decomp hd rfl, ok_bind]
    have hins : pyInsert g.nodes ((pre.length : Int) + 1)
        (Node.new c (a.height / 2.0) (a.density c) a.temperature (a.lwc / 2.0) (some a.iceFraction)) =
        pre ++ a :: Node.new c (a.height / 2.0) (a.density c) a.temperature (a.lwc / 2.0) (some a.iceFraction) :: post := by
      have h1 := pyInsert_nat (xs := g.nodes) (k := pre.length + 1)
        (x := Node.new c (a.height / 2.0) (a.density c) a.temperature (a.lwc / 2.0) (some a.iceFraction))
        (by rw [hd]; simp)
      rw [show ((pre.length : Int) + 1) = ((pre.length + 1 : Nat) : Int) by push_cast; rfl, h1, hd]
      have h2 := insertIdx_pre (pre ++ [a])
        (Node.new c (a.height / 2.0) (a.density c) a.temperature (a.lwc / 2.0) (some a.iceFraction)) post
      simpa using h2
    dsimp only
    rw [hins]
    rw [node_of_decomp (i := (pre.length : Int)) (a := a) (pre := pre) rfl rfl, ok_bind]
    have hu := (Grid.updateNode_eq_ok (i := (pre.length : Int)) (h := a.height / 2.0) (t := a.temperature)
      (f := a.iceFraction) (w := a.lwc / 2.0)
      (g := { g with nodes := pre ++ a :: Node.new c (a.height / 2.0) (a.density c) a.temperature (a.lwc / 2.0) (some a.iceFraction) :: post })).2
      ⟨pre.length, normIdx_of_nat (by simp), rfl⟩
    rw [hu, ok_bind]
    simp only [modify_pre]
    rfl
  all_goals first | rfl | (simp only [Grid.upd, Node.new, e2])

/-- **C10** (what is true): height, ice and height-weighted temperature are conserved; of the layer's liquid water
exactly half is left. Full statement: the liquid water is conserved too; that is false, see `C10_split_loses_water`. -/
theorem C10_split_conserves_partial {g : Grid K} {c : Consts K} {pre post : List (Node K)} {a : Node K}
    (hd : g.nodes = pre ++ a :: post) :
    ∃ g', g.splitNode c pre.length = .ok g' ∧ sumHeight g'.nodes = sumHeight g.nodes ∧
      sumIce g'.nodes = sumIce g.nodes ∧ sumHeat g'.nodes = sumHeat g.nodes ∧
      sumWater g'.nodes = sumWater g.nodes - a.height * a.lwc / 2 := by
  obtain ⟨x, y, h, h1, h2, h3, h4, h5, h6, h7, h8⟩ := C10_split_effect (c := c) hd
  refine ⟨_, h, ?_, ?_, ?_, ?_⟩ <;> rw [hd] <;>
    simp only [sumHeight, sumIce, sumHeat, sumWater, columnSum_append, columnSum_cons, h1, h2, h3, h4, h5, h6, h7, h8] <;>
    ring

/-- **C10** (violation): whenever the layer holds liquid water, `split_node` does not conserve it. -/
theorem C10_split_loses_water {g : Grid K} {c : Consts K} {pre post : List (Node K)} {a : Node K}
    (hd : g.nodes = pre ++ a :: post) (hh : 0 < a.height) (hw : 0 < a.lwc) :
    ∃ g', g.splitNode c pre.length = .ok g' ∧ sumWater g'.nodes < sumWater g.nodes := by
  obtain ⟨g', h, _, _, _, hx⟩ := C10_split_conserves_partial (c := c) hd
  refine ⟨g', h, ?_⟩
  rw [hx]
  have := mul_pos hh hw
  linarith

/-- **C10** (violation): counted from the bottom, every layer but the lowest is left as it is. The new layer is a copy with half the height, and
it is this copy that is halved, so that the column gains a quarter of the height of the layer. -/
theorem C10_negative_adds {g : Grid K} {c : Consts K} {pre post : List (Node K)} {a b : Node K} (hd : g.nodes = pre ++ a :: b :: post) :
    ∃ y, g.splitNode c (-(post.length : Int) - 2) =
        .ok { g with nodes := pre ++ a :: y :: b :: post, numberNodes := g.numberNodes + 1 } ∧
      y.height = a.height / 4 ∧ y.lwc = a.lwc / 4 ∧ y.temperature = a.temperature ∧ y.iceFraction = a.iceFraction := by
  have e2 : (2.0 : K) = 2 := by norm_num
  set fresh : Node K := Node.new c (a.height / 2.0) (a.density c) a.temperature (a.lwc / 2.0) (some a.iceFraction) with hf
  refine ⟨Grid.upd (fresh.height / 2.0) fresh.temperature fresh.iceFraction (fresh.lwc / 2.0) fresh, ?_, ?_, ?_, ?_, ?_⟩
  · unfold Grid.splitNode
    have hn : g.node (-(post.length : Int) - 2) = .ok a := by
      unfold Grid.node
      refine pyGet_eq_ok.2 ⟨pre.length, ?_, by rw [hd]; simp⟩
      rw [hd]
      unfold normIdx
      simp only [List.length_append, List.length_cons]
      rw [if_neg (by omega), if_pos (by omega)]
      congr 1
      omega
    rw [hn, ok_bind]
    simp only [← hf]
    have hins : pyInsert g.nodes (-(post.length : Int) - 2 + 1) fresh = pre ++ a :: fresh :: b :: post := by
      unfold pyInsert
      rw [if_pos (by omega), hd]
      have h2 := insertIdx_pre (pre ++ [a]) fresh (b :: post)
      have h3 : min (max 0 (-(post.length : Int) - 2 + 1 + ((pre ++ a :: b :: post).length : Nat))).toNat (pre ++ a :: b :: post).length =
          (pre ++ [a]).length := by
        simp only [List.length_append, List.length_cons, List.length_nil]
        omega
      simp only [h3]
      simpa using h2
    rw [hins]
    have hk : normIdx (pre ++ a :: fresh :: b :: post).length (-(post.length : Int) - 2) = some (pre.length + 1) := by
      unfold normIdx
      simp only [List.length_append, List.length_cons]
      rw [if_neg (by omega), if_pos (by omega)]
      congr 1
      omega
    have hn2 : ({ g with nodes := pre ++ a :: fresh :: b :: post } : Grid K).node (-(post.length : Int) - 2) = .ok fresh := by
      unfold Grid.node
      exact pyGet_eq_ok.2 ⟨pre.length + 1, hk, by simp⟩
    rw [hn2, ok_bind]
    have hu := (Grid.updateNode_eq_ok (i := -(post.length : Int) - 2) (h := fresh.height / 2.0) (t := fresh.temperature)
      (f := fresh.iceFraction) (w := fresh.lwc / 2.0) (g := { g with nodes := pre ++ a :: fresh :: b :: post })).2
      ⟨pre.length + 1, hk, rfl⟩
    rw [hu, ok_bind]
    have h4 := modify_pre (pre ++ [a]) fresh (b :: post) (Grid.upd (fresh.height / 2.0) fresh.temperature fresh.iceFraction (fresh.lwc / 2.0))
    simp only [List.length_append, List.length_cons, List.length_nil, List.append_assoc, List.cons_append, List.nil_append, Nat.zero_add] at h4
    simp only [h4]
    rfl
  · simp only [Grid.upd, hf, Node.new, e2]; ring
  · simp only [Grid.upd, hf, Node.new, e2]; ring
  · rfl
  · rfl

/-- The column grows by a quarter of the layer. -/
theorem C10_negative_grows {g : Grid K} {c : Consts K} {pre post : List (Node K)} {a b : Node K} (hd : g.nodes = pre ++ a :: b :: post) :
    ∃ g', g.splitNode c (-(post.length : Int) - 2) = .ok g' ∧ sumHeight g'.nodes = sumHeight g.nodes + a.height / 4 := by
  obtain ⟨y, h, hy, _⟩ := C10_negative_adds (c := c) hd
  refine ⟨_, h, ?_⟩
  rw [hd]
  simp only [sumHeight, columnSum_append, columnSum_cons, hy]
  ring

end

/-! Non-vacuity, and a concrete loss. -/
private def exCol : Grid ℚ := ⟨[⟨1, 270, 1/10, 1/2, 0⟩, ⟨2, 270, 0, 1, 0⟩], 2, 0, 0, 0⟩

example : exCol.nodes = [] ++ (⟨1, 270, 1/10, 1/2, 0⟩ : Node ℚ) :: [⟨2, 270, 0, 1, 0⟩] ∧
    (exCol.splitNode (Consts.default ℚ) 0).toOption.map (fun g => (sumWater exCol.nodes, sumWater g.nodes)) =
      some (1/10, 1/20) := by
  unfold sumWater columnSum; decide +kernel

/-- The layer above the lowest one, counted from the bottom. -/
example : (exCol.splitNode (Consts.default ℚ) (-2)).toOption.map (fun g => g.nodes.map fun n => (n.height, n.iceFraction)) =
    some [(1, 1/2), (1/4, 1/2), (2, 1)] := by decide +kernel

/-- Negative positions are not supported by `split_node`: `split_node(-1)` inserts the new half at the *top* of the
column. -/
theorem C10_negative_position :
    (exCol.splitNode (Consts.default ℚ) (-1)).toOption.map (fun g => g.nodes.map fun n => (n.height, n.iceFraction)) =
      some [(1, 1), (1, 1/2), (1, 1)] := by decide +kernel

end Cosipy
