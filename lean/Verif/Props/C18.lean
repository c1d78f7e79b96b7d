import Verif.Lemmas.Refreeze
import Mathlib.Algebra.Field.Rat
import Mathlib.Algebra.Order.Ring.Unbundled.Rat

/-!
# C18 Refreezing conserves mass and reports what it froze
-/

set_option autoImplicit false
set_option linter.unusedSectionVars false

namespace Cosipy
section
variable {K : Type} [Field K] [LinearOrder K] [IsStrictOrderedRing K]

/-- **C18** Layer by layer: height and mass of ice plus water are kept, and the layer's refreeze record is the liquid
water it lost times its height. Only a non-zero ice density is assumed. -/
theorem C18_layers {c : Consts K} {g g' : Grid K} {t : K} (hi : c.iceDensity ≠ 0) (h : refreezing c g = .ok (g', t)) :
    List.Forall₂ (fun n m => m.height = n.height ∧
      m.iceFraction * c.iceDensity + m.lwc * c.waterDensity = n.iceFraction * c.iceDensity + n.lwc * c.waterDensity ∧
      m.refreeze = (n.lwc - m.lwc) * n.height) g.nodes g'.nodes := by
  obtain ⟨h1, _, _⟩ := refreezing_ok h
  refine h1.imp fun n m ⟨d, hd⟩ => ?_
  by_cases hs : n.temperature ≤ c.zeroTemperature ∧ 0 < n.lwc
  · obtain ⟨θ, _, _, e2, e3, e4, e5, _⟩ := refreezeLayer_freeze hs hd
    refine ⟨e2, ?_, ?_⟩
    · rw [e3, e4]; field_simp; ring
    · rw [e5, e3]; ring
  · obtain ⟨e1, _⟩ := refreezeLayer_skip hs hd
    rw [e1]; exact ⟨rfl, rfl, by ring⟩

/-- **C18** The returned amount is the sum of the per-layer records, which is the column's loss of liquid water; the
mass of the column and all heights are unchanged. -/
theorem C18_total {c : Consts K} {g g' : Grid K} {t : K} (hi : c.iceDensity ≠ 0) (h : refreezing c g = .ok (g', t)) :
    t = columnSum (fun n => n.refreeze) g'.nodes ∧ t = sumWater g.nodes - sumWater g'.nodes ∧
    columnSum (Node.mass c) g'.nodes = columnSum (Node.mass c) g.nodes ∧
    g'.nodes.map (fun n => n.height) = g.nodes.map (fun n => n.height) := by
  have hl := C18_layers hi h
  have h2 := (refreezing_ok h).2.1
  refine ⟨h2, ?_⟩
  rw [h2]
  clear h h2
  generalize g.nodes = ns at *
  generalize g'.nodes = ms at *
  induction hl with
  | nil => simp [sumWater]
  | cons hnm _ ih =>
    obtain ⟨e1, e2, e3⟩ := hnm
    obtain ⟨i1, i2, i3⟩ := ih
    refine ⟨?_, ?_, ?_⟩
    · simp only [sumWater, columnSum_cons] at i1 ⊢
      rw [i1, e3, e1]; ring
    · simp only [columnSum_cons, Node.mass] at i2 ⊢
      rw [i2, e2, e1]
    · rw [List.map_cons, List.map_cons, i3, e1]

end

private def exCol : Grid ℚ :=
  ⟨[⟨1/10, 270, 1/100, 3/10, 0⟩, ⟨1/10, 265, 1/10, 1/2, 0⟩, ⟨1, 270, 0, 1, 0⟩], 3, 1/10, 0, 0⟩

/-! Non-vacuity: a column where two layers refreeze. -/
example : (Consts.default ℚ).iceDensity ≠ 0 ∧ (refreezing (Consts.default ℚ) exCol).toOption.map (fun r =>
    (decide (0 < r.2), r.1.nodes.map fun n => decide (0 < n.refreeze))) = some (true, [true, true, false]) := by
  decide +kernel

end Cosipy
