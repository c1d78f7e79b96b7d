import Verif.Lemmas.WF
import Verif.Spec.Ops
import Mathlib.Data.Rat.Defs
import Mathlib.Algebra.Field.Rat
import Mathlib.Algebra.Order.Ring.Unbundled.Rat

/-!
# C01 The layer counter always equals the number of stored layers
For every number type with arbitrary operations (no arithmetic laws are used), so for IEEE doubles including
NaN and infinities.
-/

set_option linter.unusedSectionVars false

set_option autoImplicit false

namespace Cosipy
section
variable {α : Type} [Add α] [Sub α] [Mul α] [Div α] [Neg α] [LT α] [LE α]
  [DecidableLT α] [DecidableLE α] [BEq α] [Zero α] [One α] [NatCast α] [OfScientific α] [Transc α]

/-- One operation keeps the counter in step with the stored layers. -/
theorem C01_op {fuel : Nat} {c : Consts α} {g g' : Grid α} (op : Op α) (hw : g.WF)
    (h : op.apply fuel c g = .ok g') : g'.WF := by
  cases op with
  | addFreshSnow a b d e f => cases h; exact hw.addFreshSnow c a b d e f
  | removeNode idx => exact hw.removeNode h
  | mergeNodes i => exact hw.mergeNodes h
  | correctLayer i m => exact hw.correctLayer h
  | logProfile => exact hw.logProfile h
  | adaptiveProfile => exact hw.adaptiveProfile h
  | updateGrid => exact hw.updateGrid h
  | splitNode i => exact hw.splitNode h
  | updateNode i a b d e => exact hw.updateNode h
  | mergeSnowWithGlacier i => exact hw.mergeSnowWithGlacier h
  | removeMelt m i =>
    obtain ⟨r, h1, h2⟩ := bind_eq_ok.1 h
    cases h2; exact hw.removeMeltWeq h1
  | setNodeHeight i x => exact hw.modifyNode h
  | setNodeTemperature i x => exact hw.modifyNode h
  | setNodeLwc i x => exact hw.modifyNode h
  | setNodeIceFraction i x => exact hw.modifyNode h
  | setNodeRefreeze i x => exact hw.modifyNode h
  | setHeight xs => exact hw.setAll h
  | setTemperature xs => exact hw.setAll h
  | setLwc xs => exact hw.setAll h
  | setIceFraction xs => exact hw.setAll h
  | setRefreeze xs => exact hw.setAll h
  | setFreshSnowProps x => cases h; exact hw
  | setFreshSnowPropsToOldProps => cases h; exact hw
  | setFreshSnowPropsUpdateTime x => cases h; exact hw
  | setFreshSnowPropsHeight x => cases h; exact hw
  | percolation w =>
    obtain ⟨r, h1, h2⟩ := bind_eq_ok.1 h
    cases h2; exact hw.percolation h1
  | refreezing =>
    obtain ⟨r, h1, h2⟩ := bind_eq_ok.1 h
    cases h2; exact hw.refreezing h1
  | penetratingRadiation s dt =>
    obtain ⟨r, h1, h2⟩ := bind_eq_ok.1 h
    cases h2; exact hw.penetratingRadiation h1
  | solveHeatEquation dt => exact hw.solveHeatEquation h
  | densification s dt => exact hw.densification h
  | updateAlbedo ts a =>
    obtain ⟨r, h1, h2⟩ := bind_eq_ok.1 h
    cases h2; exact hw.updateAlbedo h1
  | updateSurfaceTemperature sv wrf mk sw =>
    obtain ⟨r, h1, h2⟩ := bind_eq_ok.1 h
    cases h2; exact hw.updateSurfaceTemperature h1

/-- Every freshly constructed column satisfies the invariant. -/
theorem C01_new {c : Consts α} {hs ds ts ws : List α} {fs : Option (List α)} {a b o : Option α} {g : Grid α}
    (h : Grid.new c hs ds ts ws fs a b o = .ok g) : g.numberNodes = (g.nodes.length : Int) := Grid.WF.new h

/-- Every history of operations keeps it. -/
theorem C01_history {fuel : Nat} {c : Consts α} (ops : List (Op α)) {g g' : Grid α} (hw : g.WF)
    (h : Op.applyAll fuel c g ops = .ok g') : g'.WF := by
  unfold Op.applyAll at h
  induction ops generalizing g with
  | nil => rw [List.foldlM_nil, pure_eq_ok] at h; subst h; exact hw
  | cons op ops ih =>
    rw [List.foldlM_cons, bind_eq_ok] at h
    obtain ⟨g1, h1, h⟩ := h
    exact ih (C01_op op hw h1) h

/-- **C01**: a column that was constructed and then went through any history of operations reports exactly the
number of its layers; every layer index below that number can be read, no other non-negative index can; and
each whole-column getter returns one value per layer. -/
theorem C01_counter {fuel : Nat} {c : Consts α} {hs ds ts ws : List α} {fs : Option (List α)} {a b o : Option α}
    {g0 g : Grid α} (ops : List (Op α)) (h0 : Grid.new c hs ds ts ws fs a b o = .ok g0)
    (h : Op.applyAll fuel c g0 ops = .ok g) :
    g.getNumberLayers = (g.nodes.length : Int) ∧
    (∀ i : Int, 0 ≤ i → i < g.getNumberLayers → ∃ n, g.node i = .ok n) ∧
    (∀ i : Int, g.getNumberLayers ≤ i → g.node i = .error .index) ∧
    (∃ xs, g.getHeight = .ok xs ∧ (xs.length : Int) = g.getNumberLayers) ∧
    (∃ xs, g.getTemperature = .ok xs ∧ (xs.length : Int) = g.getNumberLayers) ∧
    (∃ xs, g.getDensity c = .ok xs ∧ (xs.length : Int) = g.getNumberLayers) ∧
    (∃ xs, g.getLwc = .ok xs ∧ (xs.length : Int) = g.getNumberLayers) ∧
    (∃ xs, g.getIceFraction = .ok xs ∧ (xs.length : Int) = g.getNumberLayers) ∧
    (∃ xs, g.getRefreeze = .ok xs ∧ (xs.length : Int) = g.getNumberLayers) := by
  have hw : g.WF := C01_history ops (C01_new h0) h
  have hn : g.getNumberLayers = (g.nodes.length : Int) := hw
  refine ⟨hn, ?_, ?_, ⟨_, Grid.getHeight_eq hw, by simp [hn]⟩, ⟨_, Grid.getTemperature_eq hw, by simp [hn]⟩,
    ⟨_, Grid.getDensity_eq hw c, by simp [hn]⟩, ⟨_, Grid.getLwc_eq hw, by simp [hn]⟩,
    ⟨_, Grid.getIceFraction_eq hw, by simp [hn]⟩, ⟨_, Grid.getRefreeze_eq hw, by simp [hn]⟩⟩
  · intro i h0 h1
    exact pyGet_ok_iff.2 ⟨by omega, by omega⟩
  · intro i h1
    rcases hg : g.node i with e | n
    · rw [pyGet_error hg]
    · have := pyGet_ok_iff.1 ⟨n, hg⟩
      omega

/-- The time step keeps the invariant as well, so it holds at every point of every simulation. -/
theorem C01_step {sv : Solvers α} {fuel : Nat} {c : Consts α} {r : RunCfg α} {s : SimState α} {f : Forcing α}
    {s' : SimState α} {o : StepOut α} (hw : s.grid.WF) (h : step sv fuel c r s f = .ok (s', o)) : s'.grid.WF := by
  unfold step at h
  simp only [bind_eq_ok] at h
  obtain ⟨sr, _, g1, h1, ⟨g2, a2, b2⟩, h2, z0, _, ⟨g3, m3, p3⟩, h3, h⟩ := h
  have hg0 : (applySnowfall c r.dt s.grid (thresholdPrecip c (freshSnowDensity c f) sr).1
      (freshSnowDensity c f) f.t2).WF := by
    unfold applySnowfall; split_ifs
    · exact hw.addFreshSnow _ _ _ _ _ _
    · exact hw
  have hg1 := hg0.updateGrid h1
  have hg2 := hg1.updateAlbedo h2
  have hg3 : g3.WF := by
    unfold radiationStep at h3
    split_ifs at h3
    · exact hg2.penetratingRadiation h3
    · cases h3; exact hg2
  obtain ⟨⟨g4, ts, fl⟩, h4, ⟨g5, lw⟩, h5, ⟨g6, q⟩, h6, ⟨g7, rf⟩, h7, g8, h8, g9, h9, h⟩ := h
  have hg9 := (((((hg3.updateSurfaceTemperature h4).removeMeltWeq h5).percolation h6).refreezing h7).solveHeatEquation
    h8).densification h9
  split_ifs at h
  rw [pure_eq_ok] at h
  cases h; exact hg9

theorem C01_run {sv : Solvers α} {fuel : Nat} {c : Consts α} {r : RunCfg α} (fs : List (Forcing α))
    {s s' : SimState α} {os : List (StepOut α)} (hw : s.grid.WF) (h : run sv fuel c r s fs = .ok (s', os)) :
    s'.grid.WF := by
  induction fs generalizing s os with
  | nil => rw [run] at h; cases h; exact hw
  | cons f fs ih =>
    rw [run, bind_eq_ok] at h
    obtain ⟨⟨s1, o1⟩, h1, h⟩ := h
    simp only [bind_eq_ok] at h
    obtain ⟨⟨s2, os2⟩, h2, h⟩ := h
    rw [pure_eq_ok] at h; cases h
    exact ih (C01_step hw h1) h2

end

/-! Non-vacuity: a history with construction, snowfall, a merge, a split and a removal runs on rational numbers and
ends with three layers. -/
section NonVacuity

/-- Placeholder elementary functions, only used so that histories can be executed on rational numbers; the
history below calls none of them. -/
local instance : Transc ℚ := ⟨id, id, id, id, id, id, id, fun x _ => x, 3⟩

example : (Grid.new (Consts.default ℚ) [1/10, 1/2, 1/2] [300, 917, 917] [265, 268, 270] [0, 0, 0] none none none none >>=
    fun g => Op.applyAll 10 (Consts.default ℚ) g
      [.addFreshSnow (1/20) 200 270 0 3600, .mergeNodes 0, .splitNode 0, .removeNode [2]]).toOption.map
        (fun g => (g.numberNodes, g.nodes.length)) = some (3, 3) := by decide +kernel

end NonVacuity
end Cosipy
