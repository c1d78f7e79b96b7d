import Verif.Lemmas.Closed
import Verif.Props.C04

/-!
# C08 Remeshing keeps volume fractions physical
-/

set_option autoImplicit false

namespace Cosipy
section
variable {K : Type} [Field K] [LinearOrder K] [IsStrictOrderedRing K]

/-- **C08** (merging): merging keeps every layer's ice plus water fraction at most one (and heights positive). -/
theorem C08_merge_physical {g g' : Grid K} {i : Int} (hall : ∀ n ∈ g.nodes, 0 < n.height ∧ n.iceFraction + n.lwc ≤ 1)
    (h : g.mergeNodes i = .ok g') : ∀ n ∈ g'.nodes, 0 < n.height ∧ n.iceFraction + n.lwc ≤ 1 := by
  obtain ⟨p, q, a, b, _, _, h1, h2, _, rfl⟩ := Grid.mergeNodes_ok h
  intro n hn
  rcases List.mem_or_eq_of_mem_set (List.mem_of_mem_eraseIdx hn) with hn' | rfl
  · exact hall n hn'
  · exact merged_sound (hall a (List.mem_of_getElem? h1)) (hall b (List.mem_of_getElem? h2))

/-- **C08** (what is true of the whole of `update_grid()`): with positive heights, ice fractions in `[lo, hi]`, `lo > 0`,
temperatures in `[tlo, thi]` and non-negative water before, the same holds afterwards. Full statement of C08: also
`ice_fraction + liquid_water_content ≤ 1` is kept; that is false, see `C08_correct_layer_oversaturates`. -/
theorem C08_update_grid_ranges_partial {g g' : Grid K} {fuel : Nat} {c : Consts K} {lo hi tlo thi : K} (hw : g.WF)
    (hf : 0 < c.firstLayerHeight) (hs : 0 < c.layerStretching) (hlo : 0 < lo)
    (hall : ∀ n ∈ g.nodes, 0 < n.height ∧ lo ≤ n.iceFraction ∧ n.iceFraction ≤ hi ∧ tlo ≤ n.temperature ∧
      n.temperature ≤ thi ∧ 0 ≤ n.lwc) (h : g.updateGrid fuel c = .ok g') :
    ∀ n ∈ g'.nodes, 0 < n.height ∧ lo ≤ n.iceFraction ∧ n.iceFraction ≤ hi ∧ tlo ≤ n.temperature ∧
      n.temperature ≤ thi ∧ 0 ≤ n.lwc := by
  have h1 := (closed_ranges lo hi tlo thi).updateGrid hw hf hs
    (fun n hn => ⟨(hall n hn).1, ⟨(hall n hn).2.1, (hall n hn).2.2.1⟩, (hall n hn).2.2.2.1, (hall n hn).2.2.2.2.1⟩) h
  have h2 := closed_water.updateGrid hw hf hs
    (fun n hn => ⟨(hall n hn).1, hlo.trans_le (hall n hn).2.1, (hall n hn).2.2.2.2.2⟩) h
  intro n hn
  obtain ⟨a, ⟨b1, b2⟩, b3, b4⟩ := h1 n hn
  exact ⟨a, b1, b2, b3, b4, (h2 n hn).2.2⟩

/-- **C08** (dry columns): without liquid water `update_grid()` does keep all fractions physical. -/
theorem C08_update_grid_dry_partial {g g' : Grid K} {fuel : Nat} {c : Consts K} (hw : g.WF)
    (hf : 0 < c.firstLayerHeight) (hs : 0 < c.layerStretching)
    (hall : ∀ n ∈ g.nodes, 0 < n.height ∧ 0 < n.iceFraction ∧ n.iceFraction ≤ 1 ∧ n.lwc = 0)
    (h : g.updateGrid fuel c = .ok g') :
    ∀ n ∈ g'.nodes, 0 < n.height ∧ n.lwc = 0 ∧ 0 < n.iceFraction ∧ n.iceFraction + n.lwc ≤ 1 := by
  have h1 := closed_dry.updateGrid hw hf hs (fun n hn => ⟨(hall n hn).2.1, (hall n hn).1, (hall n hn).2.2.2⟩) h
  have hcl : Closed fun n : Node K => 0 < n.height ∧ n.iceFraction ≤ 1 :=
    { merge := fun a b _ ha hb => by
        obtain ⟨u, v, hu, hv, huv, _, hi, _⟩ := merged_weights ha.1 hb.1
        refine ⟨add_pos ha.1 hb.1, ?_⟩
        rw [hi]
        exact (between_convex hu hv huv).2.trans (max_le ha.2 hb.2)
      split := fun h m x y hh hm hs => by
        obtain ⟨θ, _, _, _, hlt, rfl, rfl⟩ := hs.ex
        exact ⟨⟨hh, hm.2⟩, ⟨sub_pos.2 hlt, hm.2⟩⟩ }
  have h2 := hcl.updateGrid hw hf hs (fun n hn => ⟨(hall n hn).1, (hall n hn).2.2.1⟩) h
  intro n hn
  refine ⟨(h2 n hn).1, (h1 n hn).2.2, (h1 n hn).1, ?_⟩
  rw [(h1 n hn).2.2, add_zero]; exact (h2 n hn).2

end

private def exWet : Grid ℚ := ⟨[⟨1, 273, 3/100, 3/10, 0⟩, ⟨2, 270, 0, 1, 0⟩], 2, 0, 0, 0⟩

/-- **C08** (violation): one metre of snow with 3 % liquid water is physical; after `correct_layer(0, 0.01)`, and also
after `update_grid()` with the shipped constants, the new 1 cm top layer has a water fraction of 3. -/
theorem C08_correct_layer_oversaturates :
    (∀ n ∈ exWet.nodes, 0 < n.height ∧ n.iceFraction + n.lwc ≤ 1) ∧
    (exWet.correctLayer 5 (Consts.default ℚ) 0 (1/100)).toOption.map
      (fun g => g.nodes.map fun n => (n.height, n.iceFraction, n.lwc)) =
      some [(1/100, 3/10, 3), (99/100, 3/10, 0), (2, 1, 0)] ∧
    (exWet.updateGrid 60 (Consts.default ℚ)).toOption.map
      (fun g => g.nodes.head?.map fun n => (n.height, n.iceFraction, n.lwc)) =
      some (some (1/100, 3/10, 3)) := by decide +kernel

/-! Non-vacuity: a merge of two sound layers; a wet and a dry column that `update_grid()` remeshes. -/
example : (∀ n ∈ exWet.nodes, 0 < n.height ∧ n.iceFraction + n.lwc ≤ 1) ∧ (exWet.mergeNodes 0).isOk := by decide +kernel
example : (∀ n ∈ exWet.nodes, 0 < n.height ∧ (3/10 : ℚ) ≤ n.iceFraction ∧ n.iceFraction ≤ 1 ∧ 270 ≤ n.temperature ∧
      n.temperature ≤ 273 ∧ 0 ≤ n.lwc) ∧ (exWet.updateGrid 60 (Consts.default ℚ)).isOk ∧
    0 < (Consts.default ℚ).firstLayerHeight ∧ 0 < (Consts.default ℚ).layerStretching := by decide +kernel

private def exDry : Grid ℚ := ⟨[⟨1/10, 265, 0, 3/10, 0⟩, ⟨2, 270, 0, 1, 0⟩], 2, 0, 0, 0⟩
example : (∀ n ∈ exDry.nodes, 0 < n.height ∧ 0 < n.iceFraction ∧ n.iceFraction ≤ 1 ∧ n.lwc = 0) ∧
    (exDry.updateGrid 60 (Consts.default ℚ)).isOk := by decide +kernel

end Cosipy
