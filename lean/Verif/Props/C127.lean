import Verif.Lemmas.Frame
import Verif.Lemmas.Example
import Verif.Props.C11
import Verif.Props.C33

/-!
# C127 The energy spent on melting is the latent heat of what melts
-/

set_option autoImplicit false
set_option linter.unusedSectionVars false

namespace Cosipy
section
variable {K : Type} [Field K] [LinearOrder K] [IsStrictOrderedRing K] [Transc K]

/-- **C127** (what the code does): the mass of the melt water, times the latent heat of fusion, is the melt energy of the step times the
configured density of water divided by 1000. -/
theorem C127_melt {sv : Solvers K} {fuel : Nat} {c : Consts K} {r : RunCfg K} {s s' : SimState K} {f : Forcing K} {o : StepOut K}
    (hL : c.latHeatMelting ≠ 0) (h : step sv fuel c r s f = .ok (s', o)) :
    c.latHeatMelting * (c.waterDensity * o.melt) = c.waterDensity / 1000 * (o.meltEnergy * r.dt) := by
  obtain ⟨st⟩ := step_stages h
  rw [st.melt]
  field_simp

/-- **C127.** The mass of the melt water is the one whose latent heat is the melt energy if and only if nothing melts or the density of water
is configured as 1000 kg m-3. -/
theorem C127_partial {sv : Solvers K} {fuel : Nat} {c : Consts K} {r : RunCfg K} {s s' : SimState K} {f : Forcing K} {o : StepOut K}
    (hL : c.latHeatMelting ≠ 0) (hdt : r.dt ≠ 0) (h : step sv fuel c r s f = .ok (s', o)) :
    c.latHeatMelting * (c.waterDensity * o.melt) = o.meltEnergy * r.dt ↔ c.waterDensity = 1000 ∨ o.meltEnergy = 0 := by
  rw [C127_melt hL h]
  constructor
  · intro e
    by_cases hm : o.meltEnergy = 0
    · exact .inr hm
    · left
      have h1 : o.meltEnergy * r.dt ≠ 0 := mul_ne_zero hm hdt
      have h2 : c.waterDensity / 1000 = 1 := mul_right_cancel₀ h1 (by rw [e, one_mul])
      rwa [div_eq_one_iff_eq (by norm_num)] at h2
  · rintro (e | e)
    · rw [e]; simp
    · rw [e]; simp

/-- **C127, what the column loses.** In a step without vapour exchange with the ice that melts less than the column holds, the column
loses (as ice, water and air together) the mass the reported energy melts, if the density of water is configured as 1000; in general
that mass times the configured density of water divided by 1000. -/
theorem C127_column {sv : Solvers K} {fuel : Nat} {c : Consts K} {r : RunCfg K} {s s' : SimState K} {f : Forcing K} {o : StepOut K}
    (hL : 0 < c.latHeatMelting) (hw0 : c.waterDensity ≠ 0) (hdt : 0 ≤ r.dt) (hw : s.grid.WF) (h : step sv fuel c r s f = .ok (s', o))
    (hv : o.sublimation = 0 ∧ o.deposition = 0) :
    ∃ g g' : Grid K, g.removeMeltWeq fuel c o.melt = .ok (g', o.lwcFromLayers) ∧
      (o.melt < sumWeq c g.nodes → c.latHeatMelting * (columnSum (fun n => n.height * n.density c) g.nodes -
        columnSum (fun n => n.height * n.density c) g'.nodes) = c.waterDensity / 1000 * (o.meltEnergy * r.dt)) := by
  obtain ⟨st⟩ := step_stages h
  have ws := st.wfs hw
  have hr := st.removal
  rw [hv.1, hv.2, sub_zero, sub_zero] at hr
  refine ⟨st.g4, st.g5, hr, fun hlt => ?_⟩
  have hme : 0 ≤ o.meltEnergy := by
    rw [st.meltEnergy]; unfold Cosipy.meltEnergy pyMax; split_ifs with h0
    · exact h0.le
    · exact le_rfl
  have hm : 0 ≤ o.melt := by rw [st.melt]; positivity
  have e := C11_exact ws.w4 hm hlt hr
  have es : ∀ ns : List (Node K), columnSum (fun n => n.height * n.density c) ns = c.waterDensity * sumWeq c ns := by
    intro ns
    unfold sumWeq columnSum
    induction ns with
    | nil => simp
    | cons n ns ih =>
      simp only [List.map_cons, List.sum_cons, ih, mul_add]
      congr 1
      unfold Node.weq
      field_simp
  rw [es, es, e, ← C127_melt hL.ne' h]
  ring

end

/-! ## The violation, and non-vacuity -/

attribute [local instance] exTransc in
/-- **C127** (violation): a sunny hour of the example run with the density of water configured as 999 kg m-3 (its value at 16 °C): energy is
spent on melting and what melts takes a thousandth less; there is no vapour exchange, so the column loses a thousandth less too. -/
theorem C127_refuted : ∃ s' o, step exSolvers 40 { exConsts with waterDensity := 999 } exCfg (initState exConsts false exGrid)
      { exDry with g := 800 } = .ok (s', o) ∧ 0 < o.meltEnergy ∧ o.sublimation = 0 ∧ o.deposition = 0 ∧
    exConsts.latHeatMelting * (999 * o.melt) < o.meltEnergy * exCfg.dt := by
  have key : (match step exSolvers 40 { exConsts with waterDensity := 999 } exCfg (initState exConsts false exGrid)
      { exDry with g := 800 } with
    | .ok (_, o) => decide (0 < o.meltEnergy ∧ o.sublimation = 0 ∧ o.deposition = 0 ∧
        exConsts.latHeatMelting * (999 * o.melt) < o.meltEnergy * exCfg.dt)
    | .error _ => false) = true := by decide +kernel
  split at key
  · next s' o e => exact ⟨s', o, e, by simpa using key⟩
  · simp at key

attribute [local instance] exTransc in
/-- A sunny hour with the density of water as in `constants.py`: energy is spent on melting, the column is larger than the melt and the two
masses agree. -/
example : (match step exSolvers 40 exConsts exCfg (initState exConsts false exGrid) { exDry with g := 800 } with
    | .ok (_, o) => decide (0 < o.meltEnergy ∧ o.sublimation = 0 ∧ o.deposition = 0 ∧ exConsts.waterDensity = 1000 ∧
        exConsts.latHeatMelting * (1000 * o.melt) = o.meltEnergy * exCfg.dt ∧ o.melt < sumWeq exConsts exGrid.nodes)
    | .error _ => false) = true := by decide +kernel

end Cosipy
