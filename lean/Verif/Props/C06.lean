import Verif.Lemmas.Remesh
import Verif.Props.C05

/-!
# C06 Adaptive remeshing only discards thin layers and limits merges
-/

set_option autoImplicit false

namespace Cosipy
section
variable {K : Type} [Field K] [LinearOrder K] [IsStrictOrderedRing K]

/-- **C06** (conservation): `adaptive_profile()` conserves height, ice, water and heat of the column up to the
layers it deletes, and every deleted layer is at most `minimum_snow_layer_height` thick. -/
theorem C06_adaptive_conserves {g g' : Grid K} {fuel : Nat} {c : Consts K} (hw : g.WF)
    (h : g.adaptiveProfile fuel c = .ok g') :
    ∃ removed : List (Node K), (∀ n ∈ removed, n.height ≤ c.minimumSnowLayerHeight) ∧
      SameTotals (g'.nodes ++ removed) g.nodes := adaptiveProfile_totals hw h

/-- **C06** for the whole `update_grid()` with adaptive remeshing. -/
theorem C06_update_grid_conserves {g g' : Grid K} {fuel : Nat} {c : Consts K} (hw : g.WF)
    (hm : c.remeshMethod = .adaptiveProfile) (h : g.updateGrid fuel c = .ok g') :
    ∃ removed : List (Node K), (∀ n ∈ removed, n.height ≤ c.minimumSnowLayerHeight) ∧
      SameTotals (g'.nodes ++ removed) g.nodes := by
  obtain ⟨g1, top, rest, h1, hd, hcase⟩ := updateGrid_cases h
  unfold Grid.remesh at h1
  rw [hm] at h1
  obtain ⟨rm, hrm, ht⟩ := adaptiveProfile_totals hw h1
  rcases hcase with ⟨_, rfl⟩ | ⟨hc, rfl⟩
  · exact ⟨rm, hrm, ht⟩
  · refine ⟨top :: rm, ?_, SameTotals.trans ?_ ht⟩
    · intro n hn
      rcases List.mem_cons.1 hn with rfl | hn
      · exact hc.le
      · exact hrm n hn
    · rw [hd]
      constructor <;> simp [sumHeight, sumIce, sumWater, sumHeat] <;> ring

/-- **C06** (merge limit, weakened): the similarity loop performs at most `merge_max + 1` merges. Every layer that
left the column in that loop was deleted as thin (`removed`) or merged (`merges`). The documented limit is
`merge_max`; see `C06_merge_limit_exceeded`. -/
theorem C06_merge_limit_partial {g : Grid K} {fuel : Nat} {c : Consts K} {s : Grid.AdaptState K}
    (hmax : 0 ≤ c.mergeMax) (h : whileM (Grid.adaptSnowPass c) fuel ⟨g, 0, 0⟩ = .ok s) :
    ∃ removed merges : Nat, s.g.nodes.length + removed + merges = g.nodes.length ∧ (merges : Int) ≤ c.mergeMax + 1 ∧
      (merges : Int) = s.mergeCounter := by
  have k := (whileM_ind h (fun s : Grid.AdaptState K => 0 ≤ s.idx ∧ ∃ removed merges : Nat,
    s.g.nodes.length + removed + merges = g.nodes.length ∧ (merges : Int) ≤ c.mergeMax + 1 ∧
      (merges : Int) = s.mergeCounter) ⟨le_rfl, 0, 0, by simp, by simp; omega, rfl⟩ (by
      rintro s s' ⟨hi, r, m, h1, h2, h3⟩ hb
      rcases adaptSnowPass_ok hi hb with ⟨e, hle, hmc, hm⟩ | ⟨e, hmc, pre, a, post, hd, _, _, hg⟩ | ⟨e, hmc, hg⟩
      · refine ⟨by omega, r, m + 1, ?_, by push_cast; omega, by push_cast; omega⟩
        obtain ⟨pre, a, b, post, hd, _, _, hg⟩ := mergeNodes_decomp hi hm
        rw [hg]; rw [hd] at h1; simp at h1 ⊢; omega
      · refine ⟨by omega, r + 1, m, ?_, h2, by omega⟩
        rw [hg]; rw [hd] at h1; simp at h1 ⊢; omega
      · exact ⟨by omega, r, m, by rw [hg]; exact h1, h2, by omega⟩)).1
  exact k.2

end

private def cA : Consts ℚ := { Consts.default ℚ with remeshMethod := .adaptiveProfile }
private def exCol : Grid ℚ :=
  ⟨[⟨1/50, 265, 0, 3/10, 0⟩, ⟨1/50, 265, 0, 3/10, 0⟩, ⟨1/50, 265, 0, 3/10, 0⟩, ⟨1/50, 265, 0, 3/10, 0⟩,
    ⟨1/2, 270, 0, 1, 0⟩], 5, 0, 0, 0⟩

/-- **C06** (violation): with `merge_max = 1` one call merges two pairs: four equal snow layers become two before
the top layer is cut. -/
theorem C06_merge_limit_exceeded : cA.mergeMax = 1 ∧
    (whileM (Grid.adaptSnowPass cA) 20 ⟨exCol, 0, 0⟩).toOption.map
      (fun s => (s.g.nodes.map fun n => n.height, s.mergeCounter)) = some ([3/50, 1/50, 1/2], 2) ∧
    (exCol.adaptiveProfile 20 cA).toOption.map (fun g => g.nodes.map fun n => n.height) =
      some [1/100, 1/20, 1/50, 1/2] := by decide +kernel

/-! Non-vacuity: `exCol` is well formed and remeshed with two merges and one cut; a column with a thin layer loses
exactly that layer. -/
example : exCol.WF ∧ 0 ≤ cA.mergeMax ∧ cA.remeshMethod = .adaptiveProfile := by unfold Grid.WF; decide +kernel
example : ((⟨[⟨1/50, 265, 0, 3/10, 0⟩, ⟨1/2000, 260, 0, 1/10, 0⟩, ⟨1/50, 265, 0, 1/2, 0⟩, ⟨1/2, 270, 0, 1, 0⟩], 4, 0, 0,
    0⟩ : Grid ℚ).adaptiveProfile 20 cA).toOption.map (fun g => g.nodes.map fun n => n.height) =
    some [1/100, 1/100, 1/50, 1/2] := by decide +kernel

end Cosipy
