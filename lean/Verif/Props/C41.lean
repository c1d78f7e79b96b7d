import Verif.Lemmas.Grid
import Verif.Lemmas.Arith
import Verif.Spec.Column
import Mathlib.Algebra.Field.Rat
import Mathlib.Algebra.Order.Ring.Unbundled.Rat
import Mathlib.Tactic.Ring

/-!
# C41 Column getters agree with each other

The statement about snow height is refuted for columns with an ice layer above snow (`C41_snowheight_refuted`): the
snow height is then the sum over the *first* layers, as many as there are snow layers. It holds when no ice layer lies
above a snow layer (`C41_heights_partial`).
-/

set_option autoImplicit false
set_option linter.unusedSectionVars false

namespace Cosipy
section
variable {K : Type} [Field K] [LinearOrder K] [IsStrictOrderedRing K]

theorem depthFrom_length : ∀ (hs : List K) (s : K), (Grid.depthFrom s hs).length = hs.length
  | [], _ => rfl
  | h :: hs, s => by rw [Grid.depthFrom, List.length_cons, depthFrom_length hs, List.length_cons]

theorem depthFrom_get : ∀ (hs : List K) (s : K) (k : Nat) (h : K), hs[k]? = some h →
    (Grid.depthFrom s hs)[k]? = some (s + (hs.take k).sum + h / 2) := by
  intro hs
  induction hs with
  | nil => intro s k h hk; simp at hk
  | cons a hs ih =>
    intro s k h hk
    rw [Grid.depthFrom]
    have e : (0.5 : K) = 1 / 2 := by norm_num
    cases k with
    | zero =>
      simp only [List.getElem?_cons_zero, Option.some.injEq] at hk ⊢
      rw [hk, e]; simp; ring
    | succ k =>
      rw [List.getElem?_cons_succ] at hk ⊢
      rw [ih _ _ _ hk]
      simp only [List.take_succ_cons, List.sum_cons]
      congr 2; ring

/-- **C41, depths.** On a non-empty column the depth array has one entry per layer, its entry `i` is what the depth of a
single layer returns, and both are the mid-layer depth: all heights above plus half the layer. -/
theorem C41_depth {g : Grid K} (hw : g.WF) (hne : g.nodes ≠ []) :
    ∃ ds, g.getDepth = .ok ds ∧ ds.length = g.nodes.length ∧ ∀ (i : Nat) (n : Node K), g.nodes[i]? = some n →
      ds[i]? = some (((g.nodes.take i).map Node.height).sum + n.height / 2) ∧
      g.getNodeDepth (i : Int) = .ok (((g.nodes.take i).map Node.height).sum + n.height / 2) := by
  have hnode : ∀ (i : Nat) (n : Node K), g.nodes[i]? = some n →
      g.getNodeDepth (i : Int) = .ok (((g.nodes.take i).map Node.height).sum + n.height / 2) := by
    intro i n hn
    have hil : i < g.nodes.length := by
      by_contra h
      rw [List.getElem?_eq_none (by omega)] at hn; cases hn
    unfold Grid.getNodeDepth
    have h1 : g.node (i : Int) = .ok n := pyGet_nat hn
    rw [h1, ok_bind]
    have e2 : (2.0 : K) = 2 := by norm_num
    simp only [Int.toNat_natCast, e2]
    have key : ∀ m, m ≤ i → (List.range m).foldlM (fun (d : K) (j : Nat) => do
        let nd ← g.node (j : Int)
        return d + nd.height) (n.height / 2) = (.ok (((g.nodes.take m).map Node.height).sum + n.height / 2) : M K) := by
      intro m
      induction m with
      | zero => intro _; simp [pure, Except.pure]
      | succ m ih =>
        intro hm
        have hml : m < g.nodes.length := by omega
        have hget : g.nodes[m]? = some g.nodes[m] := List.getElem?_eq_getElem hml
        have h2 : g.node (m : Int) = .ok g.nodes[m] := pyGet_nat hget
        rw [List.range_succ, List.foldlM_append, ih (by omega), ok_bind]
        simp only [List.foldlM_cons, h2, ok_bind, List.foldlM_nil, pure_bind]
        rw [List.take_add_one, hget]
        simp only [Option.toList_some, List.map_append, List.map_cons, List.map_nil, List.sum_append, List.sum_cons,
          List.sum_nil, add_zero]
        show Except.ok _ = Except.ok _
        congr 1
        ring
    exact key i le_rfl
  unfold Grid.getDepth
  rw [Grid.getHeight_eq hw, ok_bind]
  cases hg : g.nodes with
  | nil => exact absurd hg hne
  | cons a l =>
    simp only [List.map_cons]
    refine ⟨_, rfl, ?_, ?_⟩
    · rw [List.length_cons, depthFrom_length, List.length_map, List.length_cons]
    · intro i n hn
      have hn' : g.nodes[i]? = some n := by rw [hg]; exact hn
      have h3 := hnode i n hn'
      rw [hg] at h3
      refine ⟨?_, h3⟩
      have h4 := depthFrom_get (List.map Node.height (a :: l)) 0 i n.height (by rw [List.getElem?_map, hn]; rfl)
      simp only [List.map_cons, Grid.depthFrom, zero_add] at h4
      rw [h4, List.map_take]
      simp only [List.map_cons]

/-- **C41, depths increase** by half the heights of the two layers. -/
theorem C41_depth_step {g : Grid K} {i : Nat} {n m : Node K} {d d' : K}
    (hw : g.WF) (hn : g.nodes[i]? = some n) (hm : g.nodes[i + 1]? = some m) (h : g.getNodeDepth (i : Int) = .ok d)
    (h' : g.getNodeDepth ((i + 1 : Nat) : Int) = .ok d') : d' = d + (n.height + m.height) / 2 := by
  have hne : g.nodes ≠ [] := by intro h; rw [h] at hn; simp at hn
  obtain ⟨_, _, _, key⟩ := C41_depth hw hne
  rw [(key i n hn).2] at h
  rw [(key (i + 1) m hm).2] at h'
  cases h
  cases h'
  rw [List.take_add_one, hn]
  simp only [Option.toList_some, List.map_append, List.map_cons, List.map_nil, List.sum_append, List.sum_cons,
    List.sum_nil, add_zero]
  ring

/-- **C41, heights.** When no ice layer lies above a snow layer, the snow height is the total height of the snow layers,
the ice heights are those of the ice layers, and both add up to the total height. Missing: columns with ice above snow,
for which the snow height is wrong. -/
theorem C41_heights_partial {c : Consts K} {g : Grid K} (hw : g.WF) {snow ice : List (Node K)} (hg : g.nodes = snow ++ ice)
    (hs : ∀ n ∈ snow, n.density c < c.snowIceThreshold) (hi : ∀ n ∈ ice, c.snowIceThreshold ≤ n.density c) :
    g.getNumberSnowLayers c = .ok snow.length ∧
    g.getTotalSnowheight c = .ok (snow.map Node.height).sum ∧
    g.getIceHeights c = .ok (ice.map Node.height) ∧
    g.getTotalHeight = .ok ((snow.map Node.height).sum + (ice.map Node.height).sum) := by
  have hf : g.nodes.filter (fun n => decide (n.density c < c.snowIceThreshold)) = snow := by
    rw [hg, List.filter_append, List.filter_eq_self.2 (fun n hn => by simpa using hs n hn),
      List.filter_eq_nil_iff.2 (fun n hn => by simpa using hi n hn), List.append_nil]
  have hf' : g.nodes.filter (fun n => decide (c.snowIceThreshold ≤ n.density c)) = ice := by
    have e1 : snow.filter (fun n => decide (c.snowIceThreshold ≤ n.density c)) = [] :=
      List.filter_eq_nil_iff.2 fun n hn => by simpa using hs n hn
    have e2 : ice.filter (fun n => decide (c.snowIceThreshold ≤ n.density c)) = ice :=
      List.filter_eq_self.2 fun n hn => by simpa using hi n hn
    rw [hg, List.filter_append, e1, e2, List.nil_append]
  have hn : Grid.nSnow c g.nodes = snow.length := by unfold Grid.nSnow; rw [hf]
  refine ⟨?_, ?_, ?_, ?_⟩
  · rw [Grid.getNumberSnowLayers_eq hw, hn]
  · rw [Grid.getTotalSnowheight_eq hw, hn, pySum_eq, hg, List.take_left]
  · unfold Grid.getIceHeights
    rw [Grid.mapNodes_eq hw, Grid.mapM_ok_map (f := fun n => n), List.map_id', ok_bind, hf']
    rfl
  · rw [Grid.getTotalHeight_eq hw, pySum_eq, hg, List.map_append, List.sum_append]

/-- **C41, in general.** Whatever the order of layers: the number of snow layers plus the number of ice heights is the
number of layers, the ice heights are exactly those of the ice layers, and the snow height is the height of the first
so many layers. -/
theorem C41_counts {c : Consts K} {g : Grid K} (hw : g.WF) :
    ∃ k is, g.getNumberSnowLayers c = .ok k ∧ g.getIceHeights c = .ok is ∧ k + is.length = g.nodes.length ∧
      is = (g.nodes.filter fun n => decide (c.snowIceThreshold ≤ n.density c)).map Node.height ∧
      g.getTotalSnowheight c = .ok ((g.nodes.take k).map Node.height).sum := by
  refine ⟨_, _, Grid.getNumberSnowLayers_eq hw c, ?_, ?_, rfl, ?_⟩
  · unfold Grid.getIceHeights
    rw [Grid.mapNodes_eq hw, Grid.mapM_ok_map (f := fun n => n), List.map_id', ok_bind]
    rfl
  · unfold Grid.nSnow
    rw [List.length_map]
    generalize g.nodes = ns
    induction ns with
    | nil => rfl
    | cons n ns ih =>
      rcases lt_or_ge (n.density c) c.snowIceThreshold with h | h
      · rw [List.filter_cons_of_pos (by simpa using h), List.filter_cons_of_neg (by simpa using h)]
        simp only [List.length_cons]; omega
      · rw [List.filter_cons_of_neg (by simpa using h), List.filter_cons_of_pos (by simpa using h)]
        simp only [List.length_cons]; omega
  · rw [Grid.getTotalSnowheight_eq hw, pySum_eq]

end

/-- A column with 10 cm of ice above 50 cm of snow. -/
private def lens : Grid ℚ := ⟨[⟨1/10, 270, 0, 1, 0⟩, ⟨1/2, 270, 0, 3/10, 0⟩, ⟨2, 270, 0, 1, 0⟩], 3, 0, 0, 0⟩

/-- **C41 refuted.** With an ice layer on top of half a metre of snow the reported snow height is 10 cm. -/
theorem C41_snowheight_refuted : ∃ g : Grid ℚ, g.WF ∧ g.getTotalSnowheight (Consts.default ℚ) = .ok (1/10) ∧
    ((g.nodes.filter fun n => decide (n.density (Consts.default ℚ) < (Consts.default ℚ).snowIceThreshold)).map
      Node.height).sum = 1/2 :=
  ⟨lens, rfl, by decide +kernel, by decide +kernel⟩

/-- Non-vacuity of the partial statement: two snow layers above one ice layer. -/
example : let g : Grid ℚ := ⟨[⟨1/10, 270, 0, 1/4, 0⟩, ⟨1/2, 270, 0, 3/10, 0⟩, ⟨2, 270, 0, 1, 0⟩], 3, 0, 0, 0⟩
    g.WF ∧ ∃ snow ice, g.nodes = snow ++ ice ∧ snow ≠ [] ∧ ice ≠ [] ∧
      (∀ n ∈ snow, n.density (Consts.default ℚ) < (Consts.default ℚ).snowIceThreshold) ∧
      ∀ n ∈ ice, (Consts.default ℚ).snowIceThreshold ≤ n.density (Consts.default ℚ) :=
  ⟨rfl, [⟨1/10, 270, 0, 1/4, 0⟩, ⟨1/2, 270, 0, 3/10, 0⟩], [⟨2, 270, 0, 1, 0⟩], rfl, by simp, by simp,
    by decide +kernel, by decide +kernel⟩

end Cosipy
