import Verif.Lemmas.Frame
import Verif.Lemmas.Melt

/-! Counter invariant of the stages of a step and elimination rules for runs. -/

set_option autoImplicit false
set_option linter.unusedSectionVars false

namespace Cosipy
section
variable {α : Type} [Add α] [Sub α] [Mul α] [Div α] [Neg α] [LT α] [LE α]
  [DecidableLT α] [DecidableLE α] [BEq α] [Zero α] [One α] [NatCast α] [OfScientific α] [Transc α]

theorem Grid.WF.radiationStep {g : Grid α} {c : Consts α} {sw dt : α} {x : Grid α × α × α} (hw : g.WF)
    (h : radiationStep c g sw dt = .ok x) : x.1.WF := by
  unfold Cosipy.radiationStep at h
  split_ifs at h
  · exact hw.penetratingRadiation h
  · cases h; exact hw

theorem radiationStep_props {g : Grid α} {c : Consts α} {sw dt : α} {x : Grid α × α × α}
    (h : radiationStep c g sw dt = .ok x) : x.1.snowProps = g.snowProps := by
  unfold Cosipy.radiationStep at h
  split_ifs at h
  · exact penetratingRadiation_props h
  · cases h; rfl

/-- The counter is right after every stage. -/
structure StepStages.WFs {sv : Solvers α} {fuel : Nat} {c : Consts α} {r : RunCfg α} {s : SimState α} {f : Forcing α}
    {s' : SimState α} {o : StepOut α} (st : StepStages sv fuel c r s f s' o) : Prop where
  w0 : (applySnowfall c r.dt s.grid o.snowfall o.densityFreshSnow f.t2).WF
  w1 : st.g1.WF
  w2 : st.g2.WF
  w3 : st.g3.WF
  w4 : st.g4.WF
  w5 : st.g5.WF
  w6 : st.g6.WF
  w7 : st.g7.WF
  w8 : st.g8.WF
  w9 : s'.grid.WF

theorem StepStages.wfs {sv : Solvers α} {fuel : Nat} {c : Consts α} {r : RunCfg α} {s : SimState α} {f : Forcing α}
    {s' : SimState α} {o : StepOut α} (st : StepStages sv fuel c r s f s' o) (hw : s.grid.WF) : st.WFs := by
  have w0 : (applySnowfall c r.dt s.grid o.snowfall o.densityFreshSnow f.t2).WF := by
    unfold applySnowfall; split_ifs
    · exact hw.addFreshSnow _ _ _ _ _ _
    · exact hw
  have w1 := w0.updateGrid st.remesh
  have w2 := w1.updateAlbedo st.albedo
  have w3 : st.g3.WF := w2.radiationStep st.radiation
  have w4 := w3.updateSurfaceTemperature st.surface
  have w5 := w4.removeMeltWeq st.removal
  have w6 := w5.percolation st.perc
  have w7 := w6.refreezing st.refr
  have w8 := w7.solveHeatEquation st.heat
  exact ⟨w0, w1, w2, w3, w4, w5, w6, w7, w8, w8.densification st.dens⟩

/-- Induction over the steps of a run that returned. -/
theorem run_ind {sv : Solvers α} {fuel : Nat} {c : Consts α} {r : RunCfg α} (P : SimState α → Prop)
    (hstep : ∀ {s f s' o}, P s → step sv fuel c r s f = .ok (s', o) → P s') :
    ∀ (fs : List (Forcing α)) {s s' : SimState α} {os : List (StepOut α)}, P s → run sv fuel c r s fs = .ok (s', os) →
      P s' := by
  intro fs
  induction fs with
  | nil => intro s s' os hs h; rw [run] at h; cases h; exact hs
  | cons f fs ih =>
    intro s s' os hs h
    rw [run, bind_eq_ok] at h
    obtain ⟨⟨s1, o1⟩, h1, h⟩ := h
    simp only [bind_eq_ok] at h
    obtain ⟨⟨s2, os2⟩, h2, h⟩ := h
    rw [pure_eq_ok] at h; cases h
    exact ih (hstep hs h1) h2

theorem run_cons {sv : Solvers α} {fuel : Nat} {c : Consts α} {r : RunCfg α} {f : Forcing α} {fs : List (Forcing α)}
    {s s' : SimState α} {os : List (StepOut α)} (h : run sv fuel c r s (f :: fs) = .ok (s', os)) :
    ∃ s1 o1 os1, step sv fuel c r s f = .ok (s1, o1) ∧ run sv fuel c r s1 fs = .ok (s', os1) ∧ os = o1 :: os1 := by
  rw [run, bind_eq_ok] at h
  obtain ⟨⟨s1, o1⟩, h1, h⟩ := h
  simp only [bind_eq_ok] at h
  obtain ⟨⟨s2, os2⟩, h2, h⟩ := h
  rw [pure_eq_ok] at h; cases h
  exact ⟨s1, o1, os2, h1, h2, rfl⟩

end

section
variable {K : Type} [Field K] [LinearOrder K] [IsStrictOrderedRing K] [Transc K]

/-- What a step does to the fresh-snow bookkeeping: after the snowfall part and the albedo query, only the height can
still change, and it can only grow (because a step on a column that melts away completely raises). -/
theorem step_snowProps {sv : Solvers K} {fuel : Nat} {c : Consts K} {r : RunCfg K} {s : SimState K} {f : Forcing K}
    {s' : SimState K} {o : StepOut K} (hw : s.grid.WF) (h : step sv fuel c r s f = .ok (s', o)) :
    ∃ g0 g1 : Grid K, g0 = applySnowfall c r.dt s.grid o.snowfall o.densityFreshSnow f.t2 ∧ g1.snowProps = g0.snowProps ∧
      s'.grid.newSnowTimestamp = (getSurfaceProperties c g1).1.newSnowTimestamp ∧
      s'.grid.oldSnowTimestamp = g1.oldSnowTimestamp ∧ g1.newSnowHeight ≤ s'.grid.newSnowHeight := by
  obtain ⟨st⟩ := step_stages h
  have ws := st.wfs hw
  have p1 : st.g1.snowProps = _ := Grid.HP.updateGrid rfl st.remesh
  have e2 := updateAlbedo_grid st.albedo
  have s2 := getSurfaceProperties_nodes c st.g1
  have p3 : st.g3.snowProps = st.g2.snowProps := radiationStep_props st.radiation
  have p4 := updateSurfaceTemperature_props st.surface
  have p6 := percolation_props st.perc
  have hne := percolation_ne_nil st.perc
  have p7 := refreezing_props st.refr
  have p8 := solveHeatEquation_props st.heat
  have p9 := densification_props st.dens
  obtain ⟨left, ⟨removed, rest, e1, _, e3⟩, _, hg⟩ := removeMelt_ok ws.w4 st.removal
  have hl : left ≤ 0 := by
    rcases e3 with ⟨_, f2, f3, _, _⟩ | ⟨f1, _⟩
    · rcases f3 with f3 | f3
      · exact f3
      · rw [f3] at f2; exact absurd (by simpa using f2) hne
    · exact f1.le
  refine ⟨_, st.g1, rfl, p1, ?_⟩
  simp only at e2
  rw [← e2] at s2 ⊢
  have a9 : s'.grid.snowProps = st.g5.snowProps := by rw [p9, p8, p7, p6]
  have a4 : st.g4.snowProps = st.g2.snowProps := by rw [p4, p3]
  simp only [Grid.snowProps, Prod.mk.injEq] at a9 a4
  have h5 : st.g5.newSnowHeight = st.g4.newSnowHeight - left := by rw [hg]
  have h5n : st.g5.newSnowTimestamp = st.g4.newSnowTimestamp := by rw [hg]
  have h5o : st.g5.oldSnowTimestamp = st.g4.oldSnowTimestamp := by rw [hg]
  refine ⟨?_, ?_, ?_⟩
  · rw [a9.2.1, h5n, a4.2.1]
  · rw [a9.2.2, h5o, a4.2.2, s2.2.2.2]
  · rw [a9.1, h5, a4.1, s2.2.2.1]; linarith

end
end Cosipy
