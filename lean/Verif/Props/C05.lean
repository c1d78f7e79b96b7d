import Verif.Lemmas.RemeshAll
import Mathlib.Algebra.Field.Rat
import Mathlib.Algebra.Order.Ring.Unbundled.Rat

/-!
# C05 Logarithmic remeshing conserves the column
-/

set_option autoImplicit false

namespace Cosipy
section
variable {K : Type} [Field K] [LinearOrder K] [IsStrictOrderedRing K]

/-- **C05**: if `update_grid()` with logarithmic remeshing returns, either all column totals are unchanged and the
top layer is at least `minimum_snow_layer_height` thick, or exactly one layer, thinner than
`minimum_snow_layer_height`, was dropped from the top and its content is all that is missing. No assumption on
the column, on `first_layer_height` or on `layer_stretching`. -/
theorem C05_log_profile_conserves {g g' : Grid K} {fuel : Nat} {c : Consts K} (hw : g.WF)
    (hm : c.remeshMethod = .logProfile) (h : g.updateGrid fuel c = .ok g') :
    (SameTotals g'.nodes g.nodes ∧ ∃ top rest, g'.nodes = top :: rest ∧ c.minimumSnowLayerHeight ≤ top.height) ∨
    (∃ top, top.height < c.minimumSnowLayerHeight ∧ SameTotals (top :: g'.nodes) g.nodes) := by
  obtain ⟨g1, top, rest, h1, hd, hcase⟩ := updateGrid_cases h
  unfold Grid.remesh at h1
  rw [hm] at h1
  have ht : SameTotals g1.nodes g.nodes := by
    rcases logProfile_totals hw h1 with ht | ht
    · exact ht
    · rw [ht] at hd; cases hd
  rcases hcase with ⟨hc, rfl⟩ | ⟨hc, rfl⟩
  · exact .inl ⟨ht, top, rest, hd, hc⟩
  · exact .inr ⟨top, hc, by rw [← hd]; exact ht⟩

/-- `log_profile()` on its own: the totals are kept or the column became empty (see C05_single_layer_lost). -/
theorem C05_log_profile_alone {g g' : Grid K} {fuel : Nat} {c : Consts K} (hw : g.WF)
    (h : g.logProfile fuel c = .ok g') : SameTotals g'.nodes g.nodes ∨ g'.nodes = [] :=
  logProfile_totals hw h

end

/-- The second alternative really occurs in `log_profile()` itself: a single ice layer thinner than
`first_layer_height` is merged with itself through index `-1` and disappears (in `update_grid()` the following
access to layer 0 then raises IndexError). -/
theorem C05_single_layer_lost :
    ((⟨[⟨1/200, 270, 0, 1, 0⟩], 1, 0, 0, 0⟩ : Grid ℚ).logProfile 10 (Consts.default ℚ)).toOption.map
      (fun g => g.nodes) = some [] ∧
    raised ((⟨[⟨1/200, 270, 0, 1, 0⟩], 1, 0, 0, 0⟩ : Grid ℚ).updateGrid 10 (Consts.default ℚ)) = some .index := by decide +kernel

/-! Non-vacuity: both alternatives occur. -/
private def exCol : Grid ℚ :=
  ⟨[⟨1/50, 265, 0, 3/10, 0⟩, ⟨1/50, 268, 1/100, 2/5, 0⟩, ⟨3/100, 270, 0, 1, 0⟩], 3, 0, 0, 0⟩

example : exCol.WF ∧ (exCol.updateGrid 20 (Consts.default ℚ)).toOption.map
    (fun g => g.nodes.map fun n => n.height) = some [1/100, 3/250, 9/500, 3/100] := by
  unfold Grid.WF; decide +kernel

example : ((⟨[⟨1/2000, 265, 0, 3/10, 0⟩, ⟨3/100, 270, 0, 1, 0⟩], 2, 0, 0, 0⟩ : Grid ℚ).updateGrid 20
    (Consts.default ℚ)).toOption.map (fun g => g.nodes.map fun n => n.height) =
    some [1/100, 1/50] := by decide +kernel

end Cosipy
