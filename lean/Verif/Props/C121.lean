import Verif.Lemmas.Remesh
import Verif.Lemmas.RemeshAll
import Verif.Lemmas.GridFuel
import Verif.Lemmas.StepInv
import Verif.Spec.Rounded
import Verif.Lemmas.Example
import Mathlib.Algebra.BigOperators.Intervals
import Mathlib.Algebra.Order.BigOperators.Ring.Finset
import Mathlib.Tactic.Linarith
import Mathlib.Tactic.NormNum

/-!
# C121: the number of layers stays bounded

Every snowfall adds a layer and remeshing splits layers, so that nothing in a single step shows that a long run does not end up with ever more
layers. Results and restart files have room for `max_layers` layers, and the run stops if there are more. Here the number of layers is
bounded by the depth of the column and the mesh constants, for runs of any length.
-/

set_option autoImplicit false
set_option linter.unusedSectionVars false

namespace Cosipy
section
variable {K : Type} [Field K] [LinearOrder K] [IsStrictOrderedRing K]

/-! ### Spec -/

/-- The thickness of the first `n` levels of the mesh: each level is `layer_stretching` times as thick as the one above. -/
def meshDepth (c : Consts K) (n : Nat) : K := c.firstLayerHeight * ∑ i ∈ Finset.range n, c.layerStretching ^ i

/-- Layers thinner than `m`. -/
def thinner (m : K) (ns : List (Node K)) : Nat := ns.countP fun n => decide (n.height < m)

/-! ### Lemmas -/

theorem merged_height (a b : Node K) : (Grid.merged a b).height = a.height + b.height := rfl

theorem mergeNodes_nonneg {g g' : Grid K} {i : Int} (hi : 0 ≤ i) (hp : ∀ n ∈ g.nodes, 0 ≤ n.height) (h : g.mergeNodes i = .ok g') :
    ∀ n ∈ g'.nodes, 0 ≤ n.height := by
  obtain ⟨pre, a, b, post, hd, _, _, rfl⟩ := mergeNodes_decomp hi h
  intro n hn
  simp only [List.mem_append, List.mem_cons] at hn
  rcases hn with hn | rfl | hn
  · exact hp n (by rw [hd]; simp [hn])
  · rw [merged_height]; exact add_nonneg (hp a (by rw [hd]; simp)) (hp b (by rw [hd]; simp))
  · exact hp n (by rw [hd]; simp [hn])

theorem correctLayer_nonneg {g g' : Grid K} {fuel : Nat} {c : Consts K} {i : Int} {h : K} (hi : 0 ≤ i) (hw : g.WF) (h0 : 0 ≤ h)
    (hp : ∀ n ∈ g.nodes, 0 ≤ n.height) (he : g.correctLayer fuel c i h = .ok g') : ∀ n ∈ g'.nodes, 0 ≤ n.height := by
  obtain ⟨pre, run, post, m, new, hd, _, hm, hg', _, _, hnew⟩ := correctLayer_ok hi hw he
  have hm0 : 0 ≤ m.height := hm.all (fun n => 0 ≤ n.height) (fun a b ha hb => by rw [merged_height]; exact add_nonneg ha hb)
    (fun n hn => hp n (by rw [hd]; simp [hn]))
  rw [hg']
  intro n hn
  simp only [List.mem_append] at hn
  rcases hn with (hn | hn) | hn
  · exact hp n (by rw [hd]; simp [hn])
  · rcases hnew with ⟨_, rfl⟩ | ⟨x, y, hs, rfl⟩
    · rw [List.mem_singleton] at hn; rw [hn]; exact hm0
    · obtain ⟨θ, _, _, _, hlt, rfl, rfl⟩ := hs.ex
      simp only [List.mem_cons, List.not_mem_nil, or_false] at hn
      rcases hn with rfl | rfl
      · exact h0
      · exact sub_nonneg.2 hlt.le
  · exact hp n (by rw [hd]; simp [hn])

theorem pySum_heights (ns : List (Node K)) : pySum (ns.map Node.height) = sumHeight ns := by
  rw [pySum_eq]; rfl

theorem sumHeight_take {ns : List (Node K)} (hp : ∀ n ∈ ns, 0 ≤ n.height) (k : Nat) :
    0 ≤ sumHeight (ns.take k) ∧ sumHeight (ns.take k) ≤ sumHeight ns := by
  have nn : ∀ l : List (Node K), (∀ n ∈ l, 0 ≤ n.height) → 0 ≤ sumHeight l := by
    intro l hl
    unfold sumHeight columnSum
    exact List.sum_nonneg (by simpa using hl)
  have e : sumHeight ns = sumHeight (ns.take k) + sumHeight (ns.drop k) := by
    conv_lhs => rw [← List.take_append_drop k ns]
    simp [sumHeight, columnSum]
  have h1 := nn (ns.take k) fun n hn => hp n (List.mem_of_mem_take hn)
  have h2 := nn (ns.drop k) fun n hn => hp n (List.mem_of_mem_drop hn)
  exact ⟨h1, by linarith⟩

/-! ### The logarithmic mesh -/

/-- **C121, one remeshing on the logarithmic mesh.** Layers below the mesh are merged in pairs: at most half of the layers and those of the
mesh, whose levels fit into twice the depth of the column, are left. -/
theorem C121_log {g g' : Grid K} {fuel : Nat} {c : Consts K} (hw : g.WF) (hp : ∀ n ∈ g.nodes, 0 ≤ n.height) (h0 : 0 ≤ c.firstLayerHeight)
    (hs : 0 ≤ c.layerStretching) (he : g.logProfile fuel c = .ok g') :
    ∃ L : Nat, meshDepth c L ≤ 2 * sumHeight g.nodes ∧ 2 * g'.nodes.length ≤ g.nodes.length + 2 * L + 1 := by
  unfold Grid.logProfile at he
  simp only [bind_eq_ok] at he
  obtain ⟨hsnow, e0, s1, h1, total, e1, snow, e2, n, e3, s2, h2, he⟩ := he
  rw [pure_eq_ok] at he; subst he
  rw [Grid.getTotalSnowheight_eq hw, pySum_heights] at e0
  cases e0
  obtain ⟨k1, x1⟩ := whileM_ind h1
    (fun s : Grid.LogState K => s.g.WF ∧ (∀ n ∈ s.g.nodes, 0 ≤ n.height) ∧ SameTotals s.g.nodes g.nodes ∧ ∃ a b e : Nat,
      s.idx = (a + b + e : Nat) ∧ e ≤ 1 ∧ s.g.nodes.length + b ≤ g.nodes.length + a ∧ s.last = c.firstLayerHeight * c.layerStretching ^ a ∧
      s.hrest = sumHeight (g.nodes.take (Grid.nSnow c g.nodes)) - meshDepth c a ∧ 0 ≤ s.hrest)
    ⟨hw, hp, SameTotals.refl _, 0, 0, 0, rfl, by omega, by simp, by simp, by simp [meshDepth], (sumHeight_take hp _).1⟩ (by
      rintro s s' ⟨hws, hps, hts, a, b, e, i1, i2, i3, i4, i5, i6⟩ hb
      have hws' := hws.logSnowPass hb
      obtain ⟨ei, hcase⟩ := logSnowPass_ok hb
      have hl0 : 0 ≤ s.last := by rw [i4]; positivity
      rcases hcase with ⟨q1, q2, q3, q4⟩ | ⟨q1, q2, q3, q4, q5⟩ | ⟨q1, q2, q3, q4, q5⟩
      · have := correctLayer_length q2
        refine ⟨hws', correctLayer_nonneg (by omega) hws hl0 hps q2, (correctLayer_totals (by omega) hws q2).trans hts, a + 1, b, e,
          by rw [ei, i1]; push_cast; ring, i2, by omega, by rw [q4, i4, pow_succ]; ring, ?_, by rw [q3]; linarith⟩
        rw [q3, i5, i4]; unfold meshDepth; rw [Finset.sum_range_succ]; ring
      · have := mergeNodes_length q3
        exact ⟨hws', mergeNodes_nonneg (by omega) hps q3, (mergeNodes_totals (by omega) q3).trans hts, a, b + 1, e,
          by rw [ei, i1]; push_cast; ring, i2, by omega, by rw [q5, i4], by rw [q4, i5], by rw [q4]; exact i6⟩
      · rw [q3] at *
        have : a = 0 ∧ b = 0 ∧ e = 0 := by omega
        exact ⟨hws, hps, hts, a, b, e + 1, by rw [ei, i1]; push_cast; ring, by omega, i3, by rw [q5, i4], by rw [q4, i5], by rw [q4]; exact i6⟩)
  obtain ⟨hws1, hps1, hts1, a, b, e, i1, i2, i3, i4, i5, i6⟩ := k1
  rw [Grid.getTotalHeight_eq hws1, pySum_heights] at e1
  rw [Grid.getTotalSnowheight_eq hws1, pySum_heights] at e2
  rw [Grid.getNumberSnowLayers_eq hws1] at e3
  cases e1; cases e2; cases e3
  have x1' : (Grid.nSnow c s1.g.nodes : Int) ≤ s1.idx := by
    unfold Grid.logSnowPass at x1
    rw [Grid.getNumberSnowLayers_eq hws1, ok_bind] at x1
    split_ifs at x1 with c1 c2 c3
    · rw [bind_eq_ok] at x1; obtain ⟨_, _, x1⟩ := x1; cases x1
    · rw [bind_eq_ok] at x1; obtain ⟨_, _, x1⟩ := x1; cases x1
    · cases x1
    · exact not_lt.1 c1
  have hl1 : 0 ≤ s1.last := by rw [i4]; positivity
  obtain ⟨k2, x2⟩ := whileM_ind h2
    (fun s : Grid.LogState K => s.g.WF ∧ 0 ≤ s.last ∧ ∃ a' b' : Nat,
      s.idx = (Grid.nSnow c s1.g.nodes + a' + b' : Nat) ∧ s.g.nodes.length + b' ≤ s1.g.nodes.length + a' ∧
      s.last = s1.last * c.layerStretching ^ a' ∧
      s.hrest = (sumHeight s1.g.nodes - sumHeight (s1.g.nodes.take (Grid.nSnow c s1.g.nodes))) -
        s1.last * ∑ i ∈ Finset.range a', c.layerStretching ^ i ∧ 0 ≤ s.hrest)
    ⟨hws1, hl1, 0, 0, by simp, by simp, by simp, by simp, sub_nonneg.2 (sumHeight_take hps1 _).2⟩ (by
      rintro s s' ⟨hws, hls, a', b', j1, j2, j3, j4, j5⟩ hb
      have hws' := hws.logIcePass hb
      obtain ⟨_, ei, hcase⟩ := logIcePass_ok hb
      rcases hcase with ⟨q1, q2, q3, q4⟩ | ⟨q1, q3, q4, q5⟩
      · have := correctLayer_length q2
        refine ⟨hws', by rw [q4]; positivity, a' + 1, b', by rw [ei, j1]; push_cast; ring, by omega, by rw [q4, j3, pow_succ]; ring, ?_,
          by rw [q3]; linarith⟩
        rw [q3, j4, j3, Finset.sum_range_succ]; ring
      · have := mergeNodes_length q3
        exact ⟨hws', by rw [q5]; exact hls, a', b' + 1, by rw [ei, j1]; push_cast; ring, by omega, by rw [q5, j3], by rw [q4, j4],
          by rw [q4]; exact j5⟩)
  obtain ⟨hws2, _, a', b', j1, j2, j3, j4, j5⟩ := k2
  have x2' : s2.g.numberNodes ≤ s2.idx := by
    unfold Grid.logIcePass at x2
    split_ifs at x2 with c1 c2 c3
    · rw [bind_eq_ok] at x2; obtain ⟨_, _, x2⟩ := x2; cases x2
    · rw [bind_eq_ok] at x2; obtain ⟨_, _, x2⟩ := x2; cases x2
    · cases x2
    · exact not_lt.1 c1
  rw [hws2] at x2'
  refine ⟨a + a', ?_, by omega⟩
  have t1 := (sumHeight_take hp (Grid.nSnow c g.nodes)).2
  have t2 := (sumHeight_take hps1 (Grid.nSnow c s1.g.nodes)).1
  have t3 := hts1.height
  have t4 : meshDepth c (a + a') = meshDepth c a + s1.last * ∑ i ∈ Finset.range a', c.layerStretching ^ i := by
    unfold meshDepth
    rw [Finset.sum_range_add, mul_add, i4]
    congr 1
    simp only [pow_add, ← Finset.mul_sum, mul_assoc]
  rw [t4]
  linarith

/-! ### The adaptive mesh -/

theorem thinner_le_length (m : K) (ns : List (Node K)) : thinner m ns ≤ ns.length := List.countP_le_length

theorem thinner_append (m : K) (a b : List (Node K)) : thinner m (a ++ b) = thinner m a + thinner m b := List.countP_append

theorem thinner_take (m : K) (ns : List (Node K)) (k : Nat) : thinner m ns ≤ thinner m (ns.take k) + (ns.length - k) := by
  conv_lhs => rw [← List.take_append_drop k ns, thinner_append]
  have := thinner_le_length m (ns.drop k)
  rw [List.length_drop] at this
  omega

/-- Layers that are not thin take up room. -/
theorem thick_room {m : K} : ∀ {ns : List (Node K)}, (∀ n ∈ ns, 0 ≤ n.height) →
    (ns.length : K) * m ≤ sumHeight ns + (thinner m ns : K) * m := by
  intro ns
  induction ns with
  | nil => intro _; simp [sumHeight, columnSum, thinner]
  | cons n ns ih =>
    intro hp
    have h1 := ih fun x hx => hp x (by simp [hx])
    have h2 : sumHeight (n :: ns) = n.height + sumHeight ns := by simp [sumHeight, columnSum]
    have h3 := hp n (by simp)
    have h4 : thinner m (n :: ns) = thinner m ns + if n.height < m then 1 else 0 := by
      unfold thinner; rw [List.countP_cons]; simp
    rw [h2, h4]
    push_cast [List.length_cons]
    split_ifs with hc
    · nlinarith
    · nlinarith [not_lt.1 hc]

theorem take_pre {β : Type} {ns pre post : List β} {i : Int} (hd : ns = pre ++ post) (hl : (pre.length : Int) = i) : ns.take i.toNat = pre := by
  have : i.toNat = pre.length := by omega
  rw [hd, this]; simp

/-- A pass of the snow loop leaves the layers above the current one alone and passes over a layer only if it is thick. -/
theorem adaptSnow_pass {s s' : Grid.AdaptState K} {c : Consts K} (hi : 0 ≤ s.idx) (hp : ∀ n ∈ s.g.nodes, 0 ≤ n.height)
    (hb : Grid.adaptSnowPass c s = .ok (some s')) :
    0 ≤ s'.idx ∧ (∀ n ∈ s'.g.nodes, 0 ≤ n.height) ∧ sumHeight s'.g.nodes ≤ sumHeight s.g.nodes ∧
    thinner c.minimumSnowLayerHeight (s'.g.nodes.take s'.idx.toNat) ≤ thinner c.minimumSnowLayerHeight (s.g.nodes.take s.idx.toNat) := by
  unfold Grid.adaptSnowPass at hb
  rw [bind_eq_ok] at hb; obtain ⟨n, _, hb⟩ := hb
  split_ifs at hb with h1
  · simp only [bind_eq_ok] at hb; obtain ⟨a, ha, b, _, hb⟩ := hb
    split_ifs at hb with h2 h3
    · rw [bind_eq_ok] at hb; obtain ⟨g1, hg1, hb⟩ := hb
      rw [pure_eq_ok] at hb; cases hb
      refine ⟨hi, mergeNodes_nonneg hi hp hg1, (mergeNodes_totals hi hg1).height.le, ?_⟩
      obtain ⟨pre, a, b, post, hd, hl, _, rfl⟩ := mergeNodes_decomp hi hg1
      rw [take_pre hd hl]
      rw [take_pre rfl hl]
    · rw [bind_eq_ok] at hb; obtain ⟨g1, hg1, hb⟩ := hb
      rw [pure_eq_ok] at hb; cases hb
      obtain ⟨pre, post, hd, hl, rfl⟩ := removeNode_decomp hi ha hg1
      refine ⟨hi, fun n hn => hp n ?_, ?_, ?_⟩
      · rw [hd]
        simp only [List.mem_append] at hn
        rcases hn with hn | hn <;> simp [hn]
      · have := hp a (by rw [hd]; simp)
        rw [hd]
        simp only [sumHeight, columnSum, List.map_append, List.sum_append, List.map_cons, List.sum_cons]
        linarith
      · rw [take_pre hd hl]
        rw [take_pre rfl hl]
    · rw [pure_eq_ok] at hb; cases hb
      refine ⟨by simp only; omega, hp, le_rfl, ?_⟩
      obtain ⟨pre, post, hd, hl⟩ := node_decomp hi ha
      rw [take_pre hd hl]
      simp only
      rw [take_pre (pre := pre ++ [a]) (post := post) (by rw [hd]; simp) (by simp; omega), thinner_append]
      have : thinner c.minimumSnowLayerHeight [a] = 0 := by
        unfold thinner
        rw [List.countP_eq_zero]
        intro x hx
        rw [List.mem_singleton] at hx; subst hx
        simpa using (not_le.1 h3).le
      omega
  · cases hb

/-- The same for the ice loop. -/
theorem adaptIce_pass {s s' : Grid K × Int} {c : Consts K} (hi : 0 ≤ s.2) (hp : ∀ n ∈ s.1.nodes, 0 ≤ n.height)
    (hb : Grid.adaptIcePass c s = .ok (some s')) :
    0 ≤ s'.2 ∧ (∀ n ∈ s'.1.nodes, 0 ≤ n.height) ∧ sumHeight s'.1.nodes = sumHeight s.1.nodes ∧
    thinner c.minimumSnowLayerHeight (s'.1.nodes.take s'.2.toNat) ≤ thinner c.minimumSnowLayerHeight (s.1.nodes.take s.2.toNat) := by
  unfold Grid.adaptIcePass at hb
  split_ifs at hb with h1
  · rw [bind_eq_ok] at hb; obtain ⟨a, ha, hb⟩ := hb
    split_ifs at hb with h2
    · rw [bind_eq_ok] at hb; obtain ⟨g1, hg1, hb⟩ := hb
      rw [pure_eq_ok] at hb; cases hb
      refine ⟨hi, mergeNodes_nonneg hi hp hg1, (mergeNodes_totals hi hg1).height, ?_⟩
      obtain ⟨pre, a, b, post, hd, hl, _, rfl⟩ := mergeNodes_decomp hi hg1
      rw [take_pre hd hl]
      rw [take_pre rfl hl]
    · rw [pure_eq_ok] at hb; cases hb
      refine ⟨by simp only; omega, hp, rfl, ?_⟩
      obtain ⟨pre, post, hd, hl⟩ := node_decomp hi ha
      rw [take_pre hd hl]
      simp only
      rw [take_pre (pre := pre ++ [a]) (post := post) (by rw [hd]; simp) (by simp; omega), thinner_append]
      have : thinner c.minimumSnowLayerHeight [a] = 0 := by
        unfold thinner
        rw [List.countP_eq_zero]
        intro x hx
        rw [List.mem_singleton] at hx; subst hx
        simpa using not_lt.1 h2
      omega
  · cases hb

/-- **C121, one remeshing on the adaptive mesh.** The number of layers is bounded by the depth of the column alone: all but four layers take up
at least `minimum_snow_layer_height` each. -/
theorem C121_adaptive {g g' : Grid K} {fuel : Nat} {c : Consts K} (hw : g.WF) (hp : ∀ n ∈ g.nodes, 0 ≤ n.height) (h0 : 0 ≤ c.firstLayerHeight)
    (hm : 0 ≤ c.minimumSnowLayerHeight) (he : g.adaptiveProfile fuel c = .ok g') :
    (g'.nodes.length : K) * c.minimumSnowLayerHeight ≤ sumHeight g.nodes + 4 * c.minimumSnowLayerHeight := by
  obtain ⟨s, n, g2, g3, i2, i3, h1, hn, h2, h3, h4⟩ := adaptiveProfile_cases he
  obtain ⟨⟨hw1, hi1, hp1, ht1, hc1⟩, x1⟩ := whileM_ind h1
    (fun s : Grid.AdaptState K => s.g.WF ∧ 0 ≤ s.idx ∧ (∀ n ∈ s.g.nodes, 0 ≤ n.height) ∧ sumHeight s.g.nodes ≤ sumHeight g.nodes ∧
      thinner c.minimumSnowLayerHeight (s.g.nodes.take s.idx.toNat) = 0)
    ⟨hw, le_rfl, hp, le_rfl, rfl⟩ (by
      rintro s s' ⟨hws, hi, hps, hts, hcs⟩ hb
      obtain ⟨q1, q2, q3, q4⟩ := adaptSnow_pass hi hps hb
      exact ⟨hws.adaptSnowPass hb, q1, q2, q3.trans hts, by omega⟩)
  rw [Grid.getNumberSnowLayers_eq hw1] at hn
  cases hn
  have x1' : (Grid.nSnow c s.g.nodes : Int) - 1 ≤ s.idx := by
    by_contra hlt
    unfold Grid.adaptSnowPass at x1
    rw [Grid.getNumberSnowLayers_eq hw1, ok_bind, if_pos (not_le.1 hlt)] at x1
    simp only [bind_eq_ok] at x1
    obtain ⟨a, _, b, _, x1⟩ := x1
    split_ifs at x1
    · rw [bind_eq_ok] at x1; obtain ⟨_, _, x1⟩ := x1; cases x1
    · rw [bind_eq_ok] at x1; obtain ⟨_, _, x1⟩ := x1; cases x1
    · cases x1
  set m := c.minimumSnowLayerHeight with hmdef
  have y2 : g2.WF ∧ 0 ≤ i2 ∧ (∀ n ∈ g2.nodes, 0 ≤ n.height) ∧ sumHeight g2.nodes ≤ sumHeight g.nodes ∧
      thinner m (g2.nodes.take i2.toNat) ≤ 2 := by
    rcases h2 with ⟨rfl, rfl⟩ | ⟨hc, rfl⟩
    · refine ⟨hw1, by omega, hp1, ht1, ?_⟩
      have q := thinner_take m (s.g.nodes.take (max 1 (Grid.nSnow c s.g.nodes : Int)).toNat) s.idx.toNat
      rw [List.take_take, List.length_take] at q
      have : thinner m (s.g.nodes.take (min s.idx.toNat (max 1 (Grid.nSnow c s.g.nodes : Int)).toNat)) ≤ 0 := by
        rw [← hc1]
        exact List.Sublist.countP_le (List.take_sublist_take_left (min_le_left _ _))
      omega
    · refine ⟨hw1.correctLayer hc, by omega, correctLayer_nonneg (by omega) hw1 h0 hp1 hc,
        (correctLayer_totals (by omega) hw1 hc).height.le.trans ht1, ?_⟩
      exact (thinner_le_length _ _).trans (by rw [List.length_take]; omega)
  obtain ⟨hw2, hi2, hp2, ht2, hc2⟩ := y2
  obtain ⟨⟨hw3, hi3, hp3, ht3, hc3⟩, x3⟩ := whileM_ind h3
    (fun s : Grid K × Int => s.1.WF ∧ 0 ≤ s.2 ∧ (∀ n ∈ s.1.nodes, 0 ≤ n.height) ∧ sumHeight s.1.nodes ≤ sumHeight g.nodes ∧
      thinner m (s.1.nodes.take s.2.toNat) ≤ 2)
    ⟨hw2, hi2, hp2, ht2, hc2⟩ (by
      rintro s s' ⟨hws, hi, hps, hts, hcs⟩ hb
      obtain ⟨q1, q2, q3, q4⟩ := adaptIce_pass hi hps hb
      exact ⟨hws.adaptIcePass hb, q1, q2, q3.le.trans hts, q4.trans hcs⟩)
  have x3' : g3.numberNodes - 1 ≤ i3 := by
    by_contra hlt
    unfold Grid.adaptIcePass at x3
    rw [if_pos (not_le.1 hlt), bind_eq_ok] at x3
    obtain ⟨a, _, x3⟩ := x3
    split_ifs at x3
    · rw [bind_eq_ok] at x3; obtain ⟨_, _, x3⟩ := x3; cases x3
    · cases x3
  have hl := correctLayer_length h4
  simp only at hw3 hi3 hp3 ht3 hc3
  have hth := thinner_take m g3.nodes i3.toNat
  have : g3.numberNodes = g3.nodes.length := hw3
  have h5 : thinner m g3.nodes ≤ 3 := by omega
  have h6 := thick_room (m := m) hp3
  have h5' : (thinner m g3.nodes : K) ≤ 3 := by exact_mod_cast h5
  have hl' : (g'.nodes.length : K) ≤ g3.nodes.length + 1 := by exact_mod_cast hl
  nlinarith

/-! ### A step -/

theorem applySnowfall_length (c : Consts K) (dt : K) (g : Grid K) (sf rho t : K) :
    (applySnowfall c dt g sf rho t).nodes.length ≤ g.nodes.length + 1 := by
  unfold applySnowfall Grid.addFreshSnow
  split_ifs <;> simp [pyInsert_length, Grid.setFreshSnowProps, Grid.setFreshSnowPropsUpdateTime]

theorem applySnowfall_nodes (c : Consts K) (dt : K) (g : Grid K) (sf rho t : K) :
    (applySnowfall c dt g sf rho t).nodes = if 0 < sf then Node.new c sf rho (pyMin t c.zeroTemperature) 0 none :: g.nodes else g.nodes := by
  unfold applySnowfall Grid.addFreshSnow
  split_ifs <;> simp [pyInsert, Grid.setFreshSnowProps, Grid.setFreshSnowPropsUpdateTime]

theorem applySnowfall_height (c : Consts K) (dt : K) (g : Grid K) (sf rho t : K) :
    sumHeight (applySnowfall c dt g sf rho t).nodes ≤ sumHeight g.nodes + max 0 sf := by
  rw [applySnowfall_nodes]
  split_ifs with h
  · have : sumHeight (Node.new c sf rho (pyMin t c.zeroTemperature) 0 none :: g.nodes) = sf + sumHeight g.nodes := by
      simp [sumHeight, columnSum, Node.new]
    rw [this, max_eq_right h.le, add_comm]
  · exact le_add_of_nonneg_right (le_max_left _ _)

theorem applySnowfall_nonneg (c : Consts K) (dt : K) {g : Grid K} (sf rho t : K) (hp : ∀ n ∈ g.nodes, 0 ≤ n.height) :
    ∀ n ∈ (applySnowfall c dt g sf rho t).nodes, 0 ≤ n.height := by
  rw [applySnowfall_nodes]
  split_ifs with h
  · intro n hn
    rw [List.mem_cons] at hn
    rcases hn with rfl | hn
    · exact h.le
    · exact hp n hn
  · exact hp

theorem setAll_length {g g' : Grid K} {f : K → Node K → Node K} {xs : List K} (he : g.setAll f xs = .ok g') :
    g'.nodes.length = g.nodes.length := by
  unfold Grid.setAll at he
  revert he
  generalize List.range g.numberNodes.toNat = l
  intro he
  induction l generalizing g with
  | nil => rw [List.foldlM_nil, pure_eq_ok] at he; subst he; rfl
  | cons i l ih =>
    rw [List.foldlM_cons, bind_eq_ok] at he
    obtain ⟨g1, h1, he⟩ := he
    rw [bind_eq_ok] at h1; obtain ⟨x, _, h1⟩ := h1
    obtain ⟨k, _, rfl⟩ := Grid.modifyNode_eq_ok.1 h1
    rw [ih he]; simp

theorem removeNode_le {g g' : Grid K} {is : List Int} (h : g.removeNode is = .ok g') : g'.nodes.length ≤ g.nodes.length := by
  unfold Grid.removeNode at h
  split_ifs at h
  · cases h; exact le_rfl
  · cases h; simp
  · rw [bind_eq_ok] at h; obtain ⟨ns, h1, h⟩ := h
    rw [pure_eq_ok] at h; subst h
    have := Grid.foldlM_pyDel_length h1
    simp only [List.length_mergeSort] at *
    omega

theorem modifyNode_length {g g' : Grid K} {i : Int} {f : Node K → Node K} (h : g.modifyNode i f = .ok g') :
    g'.nodes.length = g.nodes.length := by
  obtain ⟨k, _, rfl⟩ := Grid.modifyNode_eq_ok.1 h
  simp

theorem removeMelt_le {g : Grid K} {fuel : Nat} {c : Consts K} {m : K} {r : Grid K × K} (h : g.removeMeltWeq fuel c m = .ok r) :
    r.1.nodes.length ≤ g.nodes.length := by
  unfold Grid.removeMeltWeq at h
  rw [bind_eq_ok] at h; obtain ⟨s1, hl, h⟩ := h
  rw [pure_eq_ok] at h; subst h
  have := (whileM_ind hl (fun s : Grid.MeltState K => s.g.nodes.length ≤ g.nodes.length) le_rfl (fun s s' hs hb => by
    unfold Grid.removeMeltPass at hb
    split_ifs at hb
    · rw [bind_eq_ok] at hb; obtain ⟨a, _, hb⟩ := hb
      simp only at hb
      split_ifs at hb
      · simp only [bind_eq_ok] at hb
        obtain ⟨_, _, g1, h1, hb⟩ := hb
        rw [pure_eq_ok] at hb; cases hb
        rw [modifyNode_length h1]; exact hs
      · simp only [bind_eq_ok] at hb
        obtain ⟨g1, h1, hb⟩ := hb
        rw [pure_eq_ok] at hb; cases hb
        exact (removeNode_le h1).trans hs
      · rw [pure_eq_ok] at hb; cases hb; exact hs
    · rw [pure_eq_ok] at hb; cases hb)).1
  exact this

section
variable [Transc K]

theorem radiation_le {g : Grid K} {c : Consts K} {sw dt : K} {r : Grid K × K × K} (h : radiationStep c g sw dt = .ok r) :
    r.1.nodes.length ≤ g.nodes.length := by
  unfold radiationStep at h
  split_ifs at h
  · unfold penetratingRadiation at h
    split at h
    · unfold methodBintanja at h
      simp only [bind_eq_ok] at h
      obtain ⟨ds, _, top, _, ⟨ns, rm, m⟩, h1, h⟩ := h
      have hl := penLayers_length h1
      simp only at h hl
      split_ifs at h
      · rw [pure_eq_ok] at h; subst h; exact hl.le
      · rw [bind_eq_ok] at h; obtain ⟨g1, h2, h⟩ := h
        rw [pure_eq_ok] at h; subst h
        exact (removeNode_le h2).trans hl.le
    · cases h
  · cases h; exact le_rfl

/-- After remeshing, nothing in a step adds a layer. -/
theorem step_le {sv : Solvers K} {fuel : Nat} {c : Consts K} {r : RunCfg K} {s s' : SimState K} {f : Forcing K} {o : StepOut K}
    (st : StepStages sv fuel c r s f s' o) : s'.grid.nodes.length ≤ st.g1.nodes.length := by
  have e8 := (densification_length st.dens).1
  have e7 : st.g8.nodes.length = st.g7.nodes.length := by
    have h := st.heat
    unfold solveHeatEquation at h
    simp only [bind_eq_ok] at h
    obtain ⟨_, _, _, _, ⟨_, cs⟩, _, h⟩ := h
    exact setAll_length h
  have e6 : st.g7.nodes.length = st.g6.nodes.length := by
    have h := st.refr
    unfold refreezing at h
    rw [bind_eq_ok] at h; obtain ⟨⟨ns, t⟩, h1, h⟩ := h
    rw [pure_eq_ok] at h
    have h2 := refreezeLayers_length h1
    have h3 := congrArg Prod.fst h
    simp only at h3 h2
    rw [← h3]; exact h2
  have e5 : st.g6.nodes.length = st.g5.nodes.length := by
    obtain ⟨top, ns, q, _, _, _, hns, h⟩ := percolation_ok st.perc
    obtain ⟨k, n, _, _, h⟩ := getRunoff_ok h
    have h2 := percolateLayers_length hns
    have h3 := congrArg Prod.fst h
    simp only at h3
    rw [h3]; simpa using h2
  have e4 := removeMelt_le st.removal
  have e3 := modifyNode_length (updateSurfaceTemperature_grid st.surface)
  have e2 := radiation_le st.radiation
  have e1 : st.g2.nodes = st.g1.nodes := by
    have := updateAlbedo_grid st.albedo
    simp only at this
    rw [this]; exact (getSurfaceProperties_nodes c st.g1).1
  simp only at e4 e3 e2
  rw [e1] at e2
  omega

theorem updateGrid_le {g g' g1 : Grid K} {fuel : Nat} {c : Consts K} (h : g.updateGrid fuel c = .ok g') (hr : g.remesh fuel c = .ok g1) :
    g'.nodes.length ≤ g1.nodes.length := by
  obtain ⟨g2, top, rest, hr', hd, hcase⟩ := updateGrid_cases h
  rw [hr] at hr'; cases hr'
  rcases hcase with ⟨_, rfl⟩ | ⟨_, rfl⟩
  · exact le_rfl
  · simp [hd]

theorem meshDepth_mono {c : Consts K} (h0 : 0 ≤ c.firstLayerHeight) (hs : 0 ≤ c.layerStretching) {a b : Nat} (h : a ≤ b) :
    meshDepth c a ≤ meshDepth c b := by
  refine mul_le_mul_of_nonneg_left ?_ h0
  exact Finset.sum_le_sum_of_subset_of_nonneg (Finset.range_mono h) fun i _ _ => pow_nonneg hs i

/-- **C121, one step on the logarithmic mesh.** Let the column with the new snow be at most `H` deep, and let the first `L + 1` levels of the
mesh be more than `2 * H` thick. Then after the step there are at most `2 * L + 2` layers, or no more than before. -/
theorem C121_step_log {sv : Solvers K} {fuel : Nat} {c : Consts K} {r : RunCfg K} {s s' : SimState K} {f : Forcing K} {o : StepOut K} {H : K}
    {L : Nat} (hmethod : c.remeshMethod = .logProfile) (h0 : 0 ≤ c.firstLayerHeight) (hs : 0 ≤ c.layerStretching) (hw : s.grid.WF)
    (hp : ∀ n ∈ s.grid.nodes, 0 ≤ n.height) (hH : sumHeight s.grid.nodes + max 0 o.snowfall ≤ H) (hL : 2 * H < meshDepth c (L + 1))
    (h : step sv fuel c r s f = .ok (s', o)) : s'.grid.nodes.length ≤ max s.grid.nodes.length (2 * L + 2) := by
  obtain ⟨st⟩ := step_stages h
  have h1 := step_le st
  have h2 := applySnowfall_length c r.dt s.grid o.snowfall o.densityFreshSnow f.t2
  have h3 := applySnowfall_height c r.dt s.grid o.snowfall o.densityFreshSnow f.t2
  have h4 := applySnowfall_nonneg c r.dt o.snowfall o.densityFreshSnow f.t2 hp
  have h5 : (applySnowfall c r.dt s.grid o.snowfall o.densityFreshSnow f.t2).WF := by
    unfold applySnowfall
    split_ifs
    · exact hw.addFreshSnow _ _ _ _ _ _
    · exact hw
  have hu := st.remesh
  generalize applySnowfall c r.dt s.grid o.snowfall o.densityFreshSnow f.t2 = g at *
  obtain ⟨g1, top, rest, hr, _⟩ := updateGrid_cases hu
  have h6 := updateGrid_le hu hr
  unfold Grid.remesh at hr
  rw [hmethod] at hr
  obtain ⟨l, hl1, hl2⟩ := C121_log h5 h4 h0 hs hr
  have h7 : l ≤ L := by
    by_contra hlt
    have := meshDepth_mono h0 hs (a := L + 1) (b := l) (by omega)
    linarith
  omega

/-- **C121, one step on the adaptive mesh.** The number of layers after the step is bounded by the depth of the column with the new snow,
whatever it was before. -/
theorem C121_step_adaptive {sv : Solvers K} {fuel : Nat} {c : Consts K} {r : RunCfg K} {s s' : SimState K} {f : Forcing K} {o : StepOut K}
    (hmethod : c.remeshMethod = .adaptiveProfile) (h0 : 0 ≤ c.firstLayerHeight) (hm : 0 ≤ c.minimumSnowLayerHeight) (hw : s.grid.WF)
    (hp : ∀ n ∈ s.grid.nodes, 0 ≤ n.height) (h : step sv fuel c r s f = .ok (s', o)) :
    (s'.grid.nodes.length : K) * c.minimumSnowLayerHeight ≤
      sumHeight s.grid.nodes + max 0 o.snowfall + 4 * c.minimumSnowLayerHeight := by
  obtain ⟨st⟩ := step_stages h
  have h1 := step_le st
  have h3 := applySnowfall_height c r.dt s.grid o.snowfall o.densityFreshSnow f.t2
  have h4 := applySnowfall_nonneg c r.dt o.snowfall o.densityFreshSnow f.t2 hp
  have h5 : (applySnowfall c r.dt s.grid o.snowfall o.densityFreshSnow f.t2).WF := by
    unfold applySnowfall
    split_ifs
    · exact hw.addFreshSnow _ _ _ _ _ _
    · exact hw
  have hu := st.remesh
  generalize applySnowfall c r.dt s.grid o.snowfall o.densityFreshSnow f.t2 = g at *
  obtain ⟨g1, top, rest, hr, _⟩ := updateGrid_cases hu
  have h6 := updateGrid_le hu hr
  unfold Grid.remesh at hr
  rw [hmethod] at hr
  have h7 := C121_adaptive h5 h4 h0 hm hr
  have h8 : (s'.grid.nodes.length : K) ≤ g1.nodes.length := by exact_mod_cast h1.trans h6
  nlinarith [mul_le_mul_of_nonneg_right h8 hm]

/-! ### A run -/

/-- **C121, runs on the logarithmic mesh.** If the columns of a run with the new snow stay at most `H` deep, the number of layers never
exceeds the larger of what it was at the start and `2 * L + 2`, however long the run is. -/
theorem C121_run_log {sv : Solvers K} {fuel : Nat} {c : Consts K} {r : RunCfg K} {H S : K} {L : Nat} (hmethod : c.remeshMethod = .logProfile)
    (h0 : 0 ≤ c.firstLayerHeight) (hs : 0 ≤ c.layerStretching) (hL : 2 * (H + S) < meshDepth c (L + 1)) (hS0 : 0 ≤ S) :
    ∀ {fs : List (Forcing K)} {s s' : SimState K} {os : List (StepOut K)}, s.grid.WF →
      (∀ t, Reached sv fuel c r s fs t → (∀ n ∈ t.grid.nodes, 0 ≤ n.height) ∧ sumHeight t.grid.nodes ≤ H) → (∀ o ∈ os, o.snowfall ≤ S) →
      run sv fuel c r s fs = .ok (s', os) → s'.grid.nodes.length ≤ max s.grid.nodes.length (2 * L + 2) := by
  intro fs
  induction fs with
  | nil => intro s s' os _ _ _ h; rw [run] at h; cases h; exact le_max_left _ _
  | cons f fs ih =>
    intro s s' os hw hR hS h
    rw [run, bind_eq_ok] at h
    obtain ⟨⟨s1, o1⟩, h1, h⟩ := h
    simp only [bind_eq_ok] at h
    obtain ⟨⟨s2, os2⟩, h2, h⟩ := h
    rw [pure_eq_ok] at h; cases h
    have hw1 : s1.grid.WF := by
      obtain ⟨st⟩ := step_stages h1
      exact (st.wfs hw).w9
    have hmore : ∀ t, Reached sv fuel c r s1 fs t → Reached sv fuel c r s (f :: fs) t := by
      rintro t ⟨pre, suf, os', rfl, ht⟩
      exact ⟨f :: pre, suf, o1 :: os', rfl, by rw [run, h1]; simp only [ok_bind]; rw [ht]; rfl⟩
    obtain ⟨hp, hH⟩ := hR s ⟨[], f :: fs, [], rfl, rfl⟩
    have q1 := C121_step_log hmethod h0 hs hw hp (H := H + S) (L := L)
      (add_le_add hH (max_le hS0 (hS o1 (by simp)))) hL h1
    have q2 := ih hw1 (fun t ht => hR t (hmore t ht)) (fun o ho => hS o (by simp [ho])) h2
    simp only
    omega

/-- `max_layers` is used for the layer check of the output only. -/
theorem step_maxLayers {sv : Solvers K} {fuel : Nat} {c : Consts K} {r : RunCfg K} {s s' : SimState K} {f : Forcing K} {o : StepOut K} {m : Nat}
    (hw : s.grid.WF) (h : step sv fuel c { r with maxLayers := m } s f = .ok (s', o)) (hl : s'.grid.nodes.length ≤ r.maxLayers) :
    step sv fuel c r s f = .ok (s', o) := by
  obtain ⟨st⟩ := step_stages h
  have hw' : s'.grid.numberNodes = s'.grid.nodes.length := (st.wfs hw).w9
  unfold step at h ⊢
  simp only [bind_eq_ok] at h ⊢
  obtain ⟨sr, h0, g1, h1, x2, h2, z0, hz, x3, h3, x4, h4, x5, h5, x6, h6, x7, h7, g8, h8, g9, h9, h⟩ := h
  refine ⟨sr, h0, g1, h1, x2, h2, z0, hz, x3, h3, x4, h4, x5, h5, x6, h6, x7, h7, g8, h8, g9, h9, ?_⟩
  split_ifs at h
  rw [if_neg]
  · exact h
  · rw [pure_eq_ok] at h
    have : s'.grid = g9 := by rw [← (congrArg (fun y => y.1.grid) h)]
    rw [← this]
    have hn : ¬ (r.maxLayers : Int) < s'.grid.getNumberLayers := by
      unfold Grid.getNumberLayers
      omega
    simp [hn]

/-- **C121, no run stops for too many layers.** On the logarithmic mesh, with `max_layers` at least the bound and at least the number of
layers at the start, the run with its layer check is the run without it. -/
theorem C121_never_stops {sv : Solvers K} {fuel : Nat} {c : Consts K} {r : RunCfg K} {H S : K} {L m : Nat}
    (hmethod : c.remeshMethod = .logProfile) (h0 : 0 ≤ c.firstLayerHeight) (hs : 0 ≤ c.layerStretching)
    (hL : 2 * (H + S) < meshDepth c (L + 1)) (hS0 : 0 ≤ S) (hmax : 2 * L + 2 ≤ r.maxLayers) :
    ∀ {fs : List (Forcing K)} {s s' : SimState K} {os : List (StepOut K)}, s.grid.WF → s.grid.nodes.length ≤ r.maxLayers →
      (∀ t, Reached sv fuel c { r with maxLayers := m } s fs t → (∀ n ∈ t.grid.nodes, 0 ≤ n.height) ∧ sumHeight t.grid.nodes ≤ H) →
      (∀ o ∈ os, o.snowfall ≤ S) → run sv fuel c { r with maxLayers := m } s fs = .ok (s', os) → run sv fuel c r s fs = .ok (s', os) := by
  intro fs
  induction fs with
  | nil => intro s s' os _ _ _ _ h; exact h
  | cons f fs ih =>
    intro s s' os hw hn hR hS h
    rw [run, bind_eq_ok] at h
    obtain ⟨⟨s1, o1⟩, h1, h⟩ := h
    simp only [bind_eq_ok] at h
    obtain ⟨⟨s2, os2⟩, h2, h⟩ := h
    rw [pure_eq_ok] at h; cases h
    have hw1 : s1.grid.WF := by
      obtain ⟨st⟩ := step_stages h1
      exact (st.wfs hw).w9
    have hmore : ∀ t, Reached sv fuel c { r with maxLayers := m } s1 fs t → Reached sv fuel c { r with maxLayers := m } s (f :: fs) t := by
      rintro t ⟨pre, suf, os', rfl, ht⟩
      exact ⟨f :: pre, suf, o1 :: os', rfl, by rw [run, h1]; simp only [ok_bind]; rw [ht]; rfl⟩
    obtain ⟨hp, hH⟩ := hR s ⟨[], f :: fs, [], rfl, rfl⟩
    have q1 := C121_step_log hmethod h0 hs hw hp (H := H + S) (L := L)
      (add_le_add hH (max_le hS0 (hS o1 (by simp)))) hL h1
    have q2 := ih hw1 (by omega) (fun t ht => hR t (hmore t ht)) (fun o ho => hS o (by simp [ho])) h2
    rw [run, step_maxLayers hw h1 (by omega), ok_bind]
    simp only
    rw [q2]; rfl

/-- **C121, the shipped constants.** With columns up to 990 m deep and up to 10 m of snow in an hour there are never more than 118 layers if
there were no more at the start; the shipped limit is 200. -/
theorem C121_default {sv : Solvers K} {fuel : Nat} {r : RunCfg K} {fs : List (Forcing K)} {s s' : SimState K} {os : List (StepOut K)}
    (hw : s.grid.WF) (hR : ∀ t, Reached sv fuel (Consts.default K) r s fs t → (∀ n ∈ t.grid.nodes, 0 ≤ n.height) ∧ sumHeight t.grid.nodes ≤ 990)
    (hS : ∀ o ∈ os, o.snowfall ≤ 10) (h : run sv fuel (Consts.default K) r s fs = .ok (s', os)) :
    s'.grid.nodes.length ≤ max s.grid.nodes.length 118 := by
  refine C121_run_log (L := 58) (H := 990) (S := 10) rfl ?_ ?_ ?_ ?_ hw hR hS h
  · norm_num [Consts.default]
  · norm_num [Consts.default]
  · norm_num [meshDepth, Consts.default, Finset.sum_range_succ]
  · norm_num

/-! ### Examples -/

end
end

section
attribute [local instance] exTransc

/-- The example column on the meshes: no negative height, depth at most 2 m, at most 12 layers. -/
def shallowEnd (x : M (SimState ℚ × List (StepOut ℚ))) : Bool :=
  match x with
  | .ok (s, os) => s.grid.nodes.all (fun n => decide (0 ≤ n.height)) && decide (sumHeight s.grid.nodes ≤ 2) &&
      os.all (fun o => decide (o.snowfall ≤ 1))
  | .error _ => false

theorem exRun_shallow : shallowEnd (exRun [exSnow]) = true := by decide +kernel

/-- What the run of an hour with snowfall reaches. -/
theorem exRun_reached {s' : SimState ℚ} {os : List (StepOut ℚ)} (hr : exRun [exSnow] = .ok (s', os)) :
    (∀ t, Reached exSolvers 40 exConsts exCfg (initState exConsts false exGrid) [exSnow] t →
      (∀ n ∈ t.grid.nodes, 0 ≤ n.height) ∧ sumHeight t.grid.nodes ≤ 2) ∧ ∀ o ∈ os, o.snowfall ≤ 1 := by
  have hh := exRun_shallow
  rw [hr] at hh
  simp only [shallowEnd, Bool.and_eq_true, List.all_eq_true, decide_eq_true_eq] at hh
  refine ⟨?_, hh.2⟩
  rintro t ⟨pre, suf, os', e, h'⟩
  cases pre with
  | nil =>
    rw [run] at h'; cases h'
    exact ⟨by decide +kernel, by decide +kernel⟩
  | cons a pre =>
    simp only [List.cons_append, List.cons.injEq, List.nil_eq, List.append_eq_nil_iff] at e
    obtain ⟨rfl, rfl, rfl⟩ := e
    have : exRun [exSnow] = .ok (t, os') := h'
    rw [hr] at this
    cases this
    exact hh.1

theorem exRun_some : ∃ s' os, exRun [exSnow] = .ok (s', os) := by
  have hh := exRun_shallow
  rcases hr : exRun [exSnow] with e | ⟨s', os⟩
  · rw [hr] at hh; cases hh
  · exact ⟨s', os, rfl⟩

/-- An hour with snowfall on the coarse example mesh: the hypotheses of `C121_run_log` hold with `H = 2`, `S = 1` and `L = 5`. -/
example : ∃ s' os, exRun [exSnow] = .ok (s', os) ∧ s'.grid.nodes.length ≤ max exGrid.nodes.length 12 := by
  obtain ⟨s', os, hr⟩ := exRun_some
  refine ⟨s', os, hr, C121_run_log (H := 2) (S := 1) (L := 5) rfl ?_ ?_ ?_ ?_ (s := initState exConsts false exGrid) rfl
    (exRun_reached hr).1 (exRun_reached hr).2 hr⟩ <;> norm_num [exConsts, meshDepth, Finset.sum_range_succ]

/-- The same hour: the hypotheses of `C121_never_stops` hold with `max_layers` 12 instead of 200. -/
example : ∃ s' os, run exSolvers 40 exConsts { exCfg with maxLayers := 12 } (initState exConsts false exGrid) [exSnow] = .ok (s', os) := by
  obtain ⟨s', os, hr⟩ := exRun_some
  refine ⟨s', os, C121_never_stops (H := 2) (S := 1) (L := 5) (m := 200) (r := { exCfg with maxLayers := 12 }) rfl ?_ ?_ ?_ ?_ ?_
    (s := initState exConsts false exGrid) rfl ?_ (exRun_reached hr).1 (exRun_reached hr).2 hr⟩ <;>
      norm_num [exConsts, meshDepth, Finset.sum_range_succ, initState, exGrid]

/-- The example constants with the adaptive mesh. -/
def exAdaptive : Consts ℚ := { exConsts with remeshMethod := .adaptiveProfile }

def layersAfter (x : M (SimState ℚ × StepOut ℚ)) : Option Nat :=
  match x with
  | .ok (s, _) => some s.grid.nodes.length
  | .error _ => none

/-- The hypotheses of `C121_step_adaptive` hold for an hour with snowfall. -/
example : (layersAfter (step exSolvers 40 exAdaptive exCfg (initState exAdaptive false exGrid) exSnow)).isSome = true ∧
    (∀ n ∈ exGrid.nodes, 0 ≤ n.height) ∧ exGrid.WF ∧ 0 ≤ exAdaptive.firstLayerHeight ∧ 0 ≤ exAdaptive.minimumSnowLayerHeight :=
  ⟨by decide +kernel, by decide +kernel, rfl, by decide +kernel, by decide +kernel⟩

/-- **C121, the limit is not enforced.** Remeshing bounds the number of layers by the depth of the column, not by `max_layers`: on the adaptive
mesh a column with `max_layers` layers gets one more from an hour with snowfall, and the run stops. -/
theorem C121_adaptive_stops :
    layersAfter (step exSolvers 40 exAdaptive { exCfg with maxLayers := 5 } (initState exAdaptive false exGrid) exSnow) = some 5 ∧
    exGrid.nodes.length = 4 ∧
    (step exSolvers 40 exAdaptive { exCfg with maxLayers := 4 } (initState exAdaptive false exGrid) exSnow).toOption.isSome = false := by
  decide +kernel

end

end Cosipy
