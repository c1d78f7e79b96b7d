import Verif.Lemmas.Penetrate
import Verif.Spec.Column
import Verif.Spec.Radiation
import Verif.Model.Real

/-!
# C26 Penetrating radiation leaves layers at or below melting and conserves mass of thinned layers
-/

set_option autoImplicit false
set_option linter.unusedSectionVars false

namespace Cosipy
section
variable {K : Type} [Field K] [LinearOrder K] [IsStrictOrderedRing K] [Transc K]

/-- What may happen to a layer that absorbs the energy `e * dt`. -/
structure LayerOutcome (c : Consts K) (dt e : K) (n : Node K) (o : Option (Node K)) : Prop where
  /-- A layer is removed exactly if the energy warms its whole mass to melting point and melts it. -/
  removed : o = none ↔
    n.density c * n.height * (c.specHeatIce * (c.zeroTemperature - n.temperature) + c.latHeatMelting) ≤ e * dt
  /-- A kept layer is at or below melting point, no warmer layer is heated further. -/
  melting : ∀ m, o = some m → m.temperature ≤ c.zeroTemperature
  /-- A layer at or below melting point is not cooled. -/
  warms : ∀ m, o = some m → n.temperature ≤ c.zeroTemperature → n.temperature ≤ m.temperature
  /-- Heights stay positive and do not grow; the ice fraction does not change. -/
  height : ∀ m, o = some m → 0 < m.height ∧ m.height ≤ n.height ∧ m.iceFraction = n.iceFraction
  /-- Ice and water mass are kept. -/
  mass : ∀ m, o = some m → m.mass c = n.mass c
  /-- A layer that keeps its height keeps its water; a thinned one is at melting point and has gained water. -/
  cases : ∀ m, o = some m → (m = { n with temperature := m.temperature }) ∨
    (m.height < n.height ∧ m.temperature = c.zeroTemperature ∧ n.lwc ≤ m.lwc)

theorem penLayer_outcome {c : Consts K} (hc : c.Phys) {dt e : K} (he : 0 ≤ e * dt) {n : Node K} {o : Node K × Bool × K}
    (hn : 0 < n.height ∧ 0 < n.iceFraction ∧ 0 ≤ n.lwc) (h : penLayer c dt e n = .ok o) :
    LayerOutcome c dt e n (fateOf o) := by
  obtain ⟨hr, hri⟩ := density_pos hc hn.2.1.le hn.2.2
  have hci := hc.cIce
  have hL := hc.melt
  have hwd := hc.water
  have hid := hc.ice
  have hh := hn.1
  have hi := hn.2.1
  have hiff := radFrac_ge_one hc (dt := dt) (e := e) hr hn.1
  have hwarm : n.temperature ≤ radTemp c dt e n := by
    have h1 := radTemp_energy hc (dt := dt) (e := e) hr hn.1
    by_contra hlt
    rw [not_le] at hlt
    have : n.density c * c.specHeatIce * n.height * (radTemp c dt e n - n.temperature) < 0 :=
      mul_neg_of_pos_of_neg (by positivity) (by linarith)
    linarith
  rcases penLayer_cases hc hi.ne' h with ⟨h1, rfl⟩ | ⟨h1, h2, rfl⟩ | ⟨h1, h2, rfl⟩
  · have hlt : radFrac c dt e n < 1 := by
      unfold radFrac
      rw [div_lt_one hL]
      have : c.specHeatIce * (radTemp c dt e n - c.zeroTemperature) ≤ 0 :=
        mul_nonpos_of_nonneg_of_nonpos hci.le (by linarith)
      linarith
    have e0 : fateOf (({ n with temperature := radTemp c dt e n }, false, 0) : Node K × Bool × K) =
        some { n with temperature := radTemp c dt e n } := rfl
    rw [e0]
    refine ⟨?_, ?_, ?_, ?_, ?_, ?_⟩
    · rw [← hiff]; constructor
      · intro h; cases h
      · intro h; exact absurd hlt (not_lt.2 h)
    all_goals rintro m hm; simp only [Option.some.injEq] at hm; subst hm
    · exact h1
    · intro _; exact hwarm
    · exact ⟨hh, le_rfl, rfl⟩
    · rfl
    · exact Or.inl rfl
  · have hpos : 0 < radFrac c dt e n := by
      unfold radFrac; have : 0 < radTemp c dt e n - c.zeroTemperature := by linarith
      positivity
    have h1f : 0 < 1 - radFrac c dt e n := by linarith
    set φ := radFrac c dt e n with hφ
    refine ⟨?_, ?_, ?_, ?_, ?_, ?_⟩
    · rw [← hiff]; constructor
      · intro h; simp [fateOf] at h
      · intro h; exact absurd h2 (not_lt.2 h)
    all_goals rintro m hm; simp only [fateOf, Bool.false_eq_true, if_false, Option.some.injEq] at hm; subst hm
    · exact le_rfl
    · intro h; exact h
    · refine ⟨by positivity, ?_, rfl⟩
      nlinarith
    · simp only [Node.mass]
      field_simp
      ring
    · refine Or.inr ⟨?_, rfl, ?_⟩
      · simp only; nlinarith
      · simp only
        rw [le_div_iff₀ h1f]
        have : 0 ≤ φ * n.iceFraction * (c.iceDensity / c.waterDensity) := by positivity
        have := mul_nonneg hn.2.2 hpos.le
        nlinarith
  · refine ⟨?_, ?_, ?_, ?_, ?_, ?_⟩
    · rw [← hiff]; simp [fateOf, h2]
    all_goals rintro m hm; simp [fateOf] at hm

/-- **C26.** Every layer but the last has one of the outcomes above with some absorbed energy `e ≥ 0`; the kept ones
stay in order, the last layer is untouched, and nothing else of the column changes but the layer counter. -/
theorem C26_outcome {c : Consts K} (hc : c.Phys) {g g' : Grid K} {swnet dt melt si : K} (hs : 0 ≤ swnet) (hdt : 0 ≤ dt)
    (hn : ∀ n ∈ g.nodes, 0 < n.height ∧ 0 < n.iceFraction ∧ 0 ≤ n.lwc)
    (h : methodBintanja c g swnet dt = .ok (g', melt, si)) :
    ∃ (init : List (Node K)) (last : Node K) (es : List K) (fates : List (Option (Node K))),
      g.nodes = init ++ [last] ∧ es.length = init.length ∧ (∀ e ∈ es, 0 ≤ e) ∧
      List.Forall₂ (fun p o => LayerOutcome c dt p.2 p.1 o) (init.zip es) fates ∧
      g' = { g with nodes := fates.reduceOption ++ [last], numberNodes := g'.numberNodes } := by
  obtain ⟨top, rest, depths, init, last, es, outs, h1, h2, h3, h4, h5, h6, h7, h8, h9⟩ := bintanja_ok h
  simp only at h9 h7
  have hsi : 0 ≤ swnet * (penCoeffs c top).1 := by
    apply mul_nonneg hs
    unfold penCoeffs; split_ifs <;> norm_num
  have hinit : ∀ n ∈ init, 0 < n.height ∧ 0 < n.iceFraction ∧ 0 ≤ n.lwc := fun n hm => hn n (by rw [h3]; simp [hm])
  have hes : ∀ e ∈ es, 0 ≤ e := by
    intro e he
    rw [h4] at he
    have he := List.mem_of_mem_take he
    unfold penEnergy at he
    obtain ⟨x, hx, rfl⟩ := List.mem_map.1 he
    exact mul_nonneg hsi (absDiff_nonneg _ x hx)
  refine ⟨init, last, es, outs.map fateOf, h3, h5, hes, ?_, ?_⟩
  · rw [List.forall₂_map_right_iff]
    have hmem : ∀ p ∈ init.zip es, (0 < p.1.height ∧ 0 < p.1.iceFraction ∧ 0 ≤ p.1.lwc) ∧ 0 ≤ p.2 * dt := fun p hp =>
      ⟨hinit p.1 (List.of_mem_zip hp).1, mul_nonneg (hes p.2 (List.of_mem_zip hp).2) hdt⟩
    clear h4 h5 h7 h8 hes
    generalize init.zip es = ps at *
    induction h6 with
    | nil => exact List.Forall₂.nil
    | @cons p o ps outs hpo _ ih =>
      exact List.Forall₂.cons (penLayer_outcome hc (hmem p (by simp)).2 (hmem p (by simp)).1 hpo)
        (ih fun q hq => hmem q (by simp [hq]))
  · rw [fates_kept]; exact h7

/-- **C26, no failure.** On every non-empty valid column the method returns. -/
theorem C26_returns {c : Consts K} (hc : c.Phys) {g : Grid K} (hw : g.WF) (hne : g.nodes ≠ [])
    (hn : ∀ n ∈ g.nodes, 0 < n.height ∧ 0 < n.iceFraction ∧ 0 ≤ n.lwc) (swnet dt : K) :
    ∃ r, methodBintanja c g swnet dt = .ok r := bintanja_returns hc hw hne hn swnet dt

end

private noncomputable def exCol : Grid ℝ :=
  ⟨[⟨1/10, 273, 0, 1/2, 0⟩, ⟨1/10, 270, 1/100, 1/2, 0⟩, ⟨1, 265, 0, 1, 0⟩], 3, 0, 0, 0⟩

/-! Non-vacuity: a valid three-layer column; a layer that is thinned and one that is removed. -/
example : (Consts.default ℝ).Phys ∧ exCol.WF ∧ ∀ n ∈ exCol.nodes, 0 < n.height ∧ 0 < n.iceFraction ∧ 0 ≤ n.lwc := by
  refine ⟨Consts.default_phys, rfl, ?_⟩
  intro n hn
  simp only [exCol, List.mem_cons, List.not_mem_nil, or_false] at hn
  rcases hn with rfl | rfl | rfl <;> norm_num
example : (penLayer (Consts.default ℚ) 3600 100 ⟨1/10, 273, 0, 1/2, 0⟩).toOption.map (fun o => o.2.1) = some false ∧
    (penLayer (Consts.default ℚ) 3600 100 ⟨1/10, 273, 0, 1/2, 0⟩).toOption.map (fun o => decide (o.1.height < 1/10)) = some true ∧
    (penLayer (Consts.default ℚ) 3600 100 ⟨1/1000, 273, 0, 1/2, 0⟩).toOption.map (fun o => o.2.1) = some true := by
  decide +kernel

end Cosipy
