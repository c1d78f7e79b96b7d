import Verif.Lemmas.StepInv
import Verif.Lemmas.Heat
import Verif.Lemmas.Example
import Verif.Props.C23
import Mathlib.Algebra.Field.Rat
import Mathlib.Algebra.Order.Ring.Unbundled.Rat

/-!
# C24 Columns of fewer than three layers cannot be advanced
-/

set_option autoImplicit false
set_option linter.unusedSectionVars false

namespace Cosipy
section
variable {K : Type} [Field K] [LinearOrder K] [IsStrictOrderedRing K]

/-- **C24, conduction.** On a column of fewer than three layers `solveHeatEquation` raises, whatever the layers. -/
theorem C24_heat_raises (fuel : Nat) (c : Consts K) {g : Grid K} (dt : K) (hw : g.WF) (h3 : g.nodes.length < 3) :
    ∃ e, e ≠ .diverge ∧ solveHeatEquation fuel c g dt = .error e := by
  unfold solveHeatEquation
  rw [Grid.mapNodes_eq hw]
  rcases hm : (g.nodes.mapM fun n => do
      let k ← n.thermalDiffusivity c
      return HeatCell.mk n.height k n.temperature) with e | cells
  · refine ⟨e, ?_, by rw [hm, error_bind]⟩
    rintro rfl
    clear hw h3
    revert hm
    generalize g.nodes = ns
    induction ns with
    | nil => intro h; simp [pure, Except.pure] at h
    | cons n ns ih =>
      intro h
      rw [List.mapM_cons, bind_eq_error] at h
      rcases h with h | ⟨b, _, h⟩
      · rw [bind_eq_error] at h
        rcases h with h | ⟨_, _, h⟩
        · unfold Node.thermalDiffusivity at h
          rw [bind_eq_error] at h
          rcases h with h | ⟨_, _, h⟩
          · unfold Node.thermalConductivity at h
            split at h <;> cases h
          · exact fdiv_ne_diverge _ _ h
        · simp [pure, Except.pure] at h
      · rw [bind_eq_error] at h
        rcases h with h | ⟨_, _, h⟩
        · exact ih h
        · simp [pure, Except.pure] at h
  · rw [hm, ok_bind]
    have hlen := (mapM_eq_ok_iff.1 hm).length_eq
    rcases hd : heatDtStab cells with e | st
    · refine ⟨e, ?_, by rw [error_bind]⟩
      rintro rfl
      unfold heatDtStab at hd
      have hmin : ∀ xs : List K, pyMinList xs ≠ .error .diverge := by
        intro xs; cases xs <;> simp [pyMinList]
      rw [bind_eq_error] at hd
      rcases hd with hd | ⟨_, _, hd⟩
      · exact hmin _ hd
      rw [bind_eq_error] at hd
      rcases hd with hd | ⟨_, _, hd⟩
      · exact hmin _ hd
      · simp [pure, Except.pure] at hd
    · have := (heatDtStab_ok hd).1
      omega

/-- **C24, conduction, ValueError.** If the layers are conducting, what is raised is a `ValueError`. -/
theorem C24_heat_value_error (fuel : Nat) {c : Consts K} (hc : c.Phys) (hm : c.thermalConductivityMethod ≠ .other)
    {g : Grid K} (dt : K) (hw : g.WF) (hn : ∀ n ∈ g.nodes, Conducting n) (h3 : g.nodes.length < 3) :
    solveHeatEquation fuel c g dt = .error .value := by
  obtain ⟨cells, hc1, hc2⟩ := mapM_cells fun n hnm => diffusivity_returns hc hm (hn n hnm)
  have hlen := hc1.length_eq
  unfold solveHeatEquation
  rw [Grid.mapNodes_eq hw, hc2, ok_bind]
  have : heatDtStab cells = .error .value := by
    match cells, hlen with
    | [], _ => rfl
    | [_], _ => rfl
    | [_, _], _ => rfl
    | _ :: _ :: _ :: _, h => simp at h; omega
  rw [this, error_bind]

end

section
variable {α : Type} [Add α] [Sub α] [Mul α] [Div α] [Neg α] [LT α] [LE α]
  [DecidableLT α] [DecidableLE α] [BEq α] [Zero α] [One α] [NatCast α] [OfScientific α]

/-- **C24, percolation.** Percolation raises an IndexError on an empty column. -/
theorem C24_percolation_empty {g : Grid α} (w : α) (hn : g.nodes = []) : percolation g w = .error .index := by
  unfold percolation Grid.node
  rw [hn]
  rfl

end

section
variable {K : Type} [Field K] [LinearOrder K] [IsStrictOrderedRing K] [Transc K]

/-- **C24, time step.** A time step that returns leaves at least three layers. -/
theorem C24_step {sv : Solvers K} {fuel : Nat} {c : Consts K} {r : RunCfg K} {s s' : SimState K} {f : Forcing K}
    {o : StepOut K} (hw : s.grid.WF) (h : step sv fuel c r s f = .ok (s', o)) : 3 ≤ s'.grid.nodes.length := by
  obtain ⟨st⟩ := step_stages h
  have hws := st.wfs hw
  by_contra hlt
  have e1 := (densification_length st.dens).1
  have e2 : st.g8.nodes.length = st.g7.nodes.length := by
    have h7 := hws.w7
    obtain ⟨cells, b, r', h1, _, h3, h4⟩ := solveHeat_ok h7 st.heat
    have : r'.2.length = cells.length := (whileM_ind h3 (fun s => s.2.length = cells.length) rfl (by
      rintro s s' i hb
      unfold heatLoopPass at hb
      split_ifs at hb
      · simp only [ok_inj, Option.some.injEq] at hb
        subst hb; exact (heatPass_length _ _).trans i
      · simp at hb)).1
    have hl : (r'.2.map HeatCell.t).length = st.g7.nodes.length := by rw [List.length_map, this, h1.length_eq]
    rw [Grid.setAll_eq h7 _ hl, ok_inj] at h4
    rw [← h4]
    simp [List.length_zipWith, this, h1.length_eq]
  obtain ⟨e, _, he⟩ := C24_heat_raises fuel c (g := st.g7) r.dt hws.w7 (by omega)
  have := st.heat
  rw [he] at this
  cases this

/-- **C24, run.** Along a run every recorded state has at least three layers. -/
theorem C24_run {sv : Solvers K} {fuel : Nat} {c : Consts K} {r : RunCfg K} : ∀ {fs : List (Forcing K)} {s s' : SimState K}
    {os : List (StepOut K)}, s.grid.WF → run sv fuel c r s fs = .ok (s', os) → fs ≠ [] → 3 ≤ s'.grid.nodes.length := by
  intro fs s s' os hw h hne
  obtain ⟨f, fs, rfl⟩ := List.exists_cons_of_ne_nil hne
  obtain ⟨s1, o, os', hst, hr, _⟩ := run_cons h
  obtain ⟨st⟩ := step_stages hst
  exact (run_ind (fun s => s.grid.WF ∧ 3 ≤ s.grid.nodes.length) (fun {s f s' o} hs hst => by
    obtain ⟨st⟩ := step_stages hst
    exact ⟨(st.wfs hs.1).w9, C24_step hs.1 hst⟩) fs ⟨(st.wfs hw).w9, C24_step hw hst⟩ hr).2

end

/-! Non-vacuity: a two-layer column raises ValueError; a run of two steps returns; the same run from a column of two
layers does not. -/
example : raised (solveHeatEquation 9 (Consts.default ℚ) ⟨[⟨1/10, 260, 0, 3/10, 0⟩, ⟨1/10, 270, 0, 1, 0⟩], 2, 0, 0, 0⟩ 3600) =
    some .value := by decide +kernel
example : raised (exRun [exSnow, exDry]) = none := by decide +kernel

end Cosipy
