import Verif.Lemmas.Heat
import Mathlib.Algebra.Field.Rat
import Mathlib.Algebra.Order.Ring.Unbundled.Rat

/-!
# C21 Heat conduction obeys the maximum principle
-/

set_option autoImplicit false
set_option linter.unusedSectionVars false

namespace Cosipy
section
variable {K : Type} [Field K] [LinearOrder K] [IsStrictOrderedRing K]

/-- **C21.** If all temperatures lie between `lo` and `hi`, they do after conduction over any time `dt`. -/
theorem C21_max_principle {fuel : Nat} {c : Consts K} (hc : c.Phys) {g g' : Grid K} {dt : K} (hw : g.WF)
    (hn : ∀ n ∈ g.nodes, Conducting n) (h : solveHeatEquation fuel c g dt = .ok g') {lo hi : K}
    (ht : ∀ n ∈ g.nodes, lo ≤ n.temperature ∧ n.temperature ≤ hi) :
    ∀ n ∈ g'.nodes, lo ≤ n.temperature ∧ n.temperature ≤ hi := by
  obtain ⟨cells, st, r, h1, h2, h3, h4⟩ := solveHeat_ok hw h
  obtain ⟨_, hs, hp⟩ := heatDtStab_ok h2
  have hpos := cells_pos hc h1 hn
  have hst := hp hpos
  have hlen := h1.length_eq
  have inv := (whileM_ind h3 (fun s => s.2.map HeatCell.geo = cells.map HeatCell.geo ∧
      ∀ x ∈ s.2, lo ≤ x.t ∧ x.t ≤ hi) ⟨rfl, fun x hx => by
        have : x.t ∈ g.nodes.map (fun n => n.temperature) := cells_t h1 ▸ List.mem_map_of_mem hx
        obtain ⟨n, hn, e⟩ := List.mem_map.1 this
        rw [← e]; exact ht n hn⟩ (by
      rintro s s' ⟨i1, i2⟩ hb
      unfold heatLoopPass at hb
      split_ifs at hb with hlt
      · simp only [ok_inj, Option.some.injEq] at hb
        subst hb
        refine ⟨(heatPass_geo _ _).trans i1, ?_⟩
        have hst' : StableFor st s.2 := by unfold StableFor; rw [heatIfaces_congr i1]; exact hs
        rw [pyMin_eq]
        exact heatPass_between (le_min hst.le (by linarith)) (pos_of_geo i1 hpos) (hst'.mono (min_le_left _ _)) i2
      · simp at hb)).1
  have hl : (r.2.map HeatCell.t).length = g.nodes.length := by
    have := congrArg List.length inv.1
    simp at this ⊢
    rw [this, hlen]
  rw [Grid.setAll_eq hw _ hl, ok_inj] at h4
  subst h4
  intro n hnm
  have : n.temperature ∈ r.2.map HeatCell.t := by
    rw [← setTemperature_zip _ _ hl]
    exact List.mem_map_of_mem hnm
  obtain ⟨x, hx, e⟩ := List.mem_map.1 this
  rw [← e]
  exact inv.2 x hx

end

private def exCol : Grid ℚ :=
  ⟨[⟨1/10, 260, 0, 3/10, 0⟩, ⟨1/10, 270, 1/100, 1/2, 0⟩, ⟨1/5, 265, 0, 1, 0⟩, ⟨1/2, 272, 0, 1, 0⟩], 4, 0, 0, 0⟩

/-! Non-vacuity: a valid column in which three sub-steps change both inner temperatures. -/
example : (Consts.default ℚ).Phys ∧ exCol.WF ∧ (∀ n ∈ exCol.nodes, Conducting n) ∧
    (∀ n ∈ exCol.nodes, 260 ≤ n.temperature ∧ n.temperature ≤ 272) := by
  refine ⟨Consts.default_phys, rfl, ?_⟩
  constructor <;> · simp only [exCol, Conducting]; decide +kernel
example : (solveHeatEquation 9 (Consts.default ℚ) exCol 7200).toOption.map
    (fun g => g.nodes.map fun n => decide (n.temperature = 260 ∨ n.temperature = 270 ∨ n.temperature = 265 ∨ n.temperature = 272)) =
      some [true, false, false, true] := by decide +kernel

end Cosipy
