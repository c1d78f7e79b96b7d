import Verif.Lemmas.Frame
import Verif.Lemmas.StepInv
import Verif.Lemmas.Arith
import Verif.Lemmas.Example
import Verif.Spec.Phys

/-!
# C33 Surface vapour fluxes have the right sign, exclude each other and match the latent heat flux

Stated about the recorded outputs of a time step, for any solver, forcing and column.
-/

set_option autoImplicit false
set_option linter.unusedSectionVars false

namespace Cosipy
section
variable {K : Type} [Field K] [LinearOrder K] [IsStrictOrderedRing K] [Transc K]
  {sv : Solvers K} {fuel : Nat} {c : Consts K} {r : RunCfg K} {s s' : SimState K} {f : Forcing K} {o : StepOut K}

/-- **C33, sign and exclusion.** Losses are not positive, gains not negative, below melting only sublimation and
deposition occur, at the melting point only evaporation and condensation, and of the two possible ones at least one is
zero. -/
theorem C33_signs (hdt : 0 ≤ r.dt) (h : step sv fuel c r s f = .ok (s', o)) :
    o.sublimation ≤ 0 ∧ o.evaporation ≤ 0 ∧ 0 ≤ o.deposition ∧ 0 ≤ o.condensation ∧
    (o.ts < c.zeroTemperature → o.evaporation = 0 ∧ o.condensation = 0) ∧
    (c.zeroTemperature ≤ o.ts → o.sublimation = 0 ∧ o.deposition = 0) ∧
    (o.sublimation = 0 ∨ o.deposition = 0) ∧ (o.evaporation = 0 ∨ o.condensation = 0) := by
  obtain ⟨st⟩ := step_stages h
  have hv := st.vapour
  have key : ∀ x : K, min x 0 * r.dt ≤ 0 ∧ 0 ≤ max x 0 * r.dt ∧ (min x 0 * r.dt = 0 ∨ max x 0 * r.dt = 0) := by
    intro x
    refine ⟨mul_nonpos_of_nonpos_of_nonneg (min_le_right _ _) hdt, mul_nonneg (le_max_right _ _) hdt, ?_⟩
    rcases le_total x 0 with hx | hx
    · exact Or.inr (by rw [max_eq_right hx, zero_mul])
    · exact Or.inl (by rw [min_eq_right hx, zero_mul])
  unfold vapourFluxes at hv
  simp only [pyMin_eq, pyMax_eq] at hv
  split_ifs at hv with hts
  · injection hv with h1 h2 h3 h4
    rw [← h1, ← h2, ← h3, ← h4]
    obtain ⟨k1, k2, k3⟩ := key (o.fluxes.le / (c.waterDensity * c.latHeatSublimation))
    exact ⟨k1, le_rfl, k2, le_rfl, fun _ => ⟨rfl, rfl⟩, fun h => absurd h (not_le.2 hts), k3, Or.inl rfl⟩
  · injection hv with h1 h2 h3 h4
    rw [← h1, ← h2, ← h3, ← h4]
    obtain ⟨k1, k2, k3⟩ := key (o.fluxes.le / (c.waterDensity * c.latHeatVaporize))
    exact ⟨le_rfl, k1, le_rfl, k2, fun h => absurd h hts, fun _ => ⟨rfl, rfl⟩, Or.inl rfl, k3⟩

/-- **C33, energy.** The mass exchanged times its latent heat is the latent heat flux over the step: of sublimation below
the melting point, of vaporisation at it. -/
theorem C33_energy (hc : c.Phys) (h : step sv fuel c r s f = .ok (s', o)) :
    c.waterDensity * (c.latHeatSublimation * (o.sublimation + o.deposition) +
      c.latHeatVaporize * (o.evaporation + o.condensation)) = o.fluxes.le * r.dt := by
  obtain ⟨st⟩ := step_stages h
  have hv := st.vapour
  have hw := hc.water.ne'
  have h1 := hc.subl.ne'
  have h2 := hc.vap.ne'
  have key : ∀ x : K, min x 0 * r.dt + max x 0 * r.dt = x * r.dt := by
    intro x; rw [← add_mul, min_add_max, add_zero]
  unfold vapourFluxes at hv
  simp only [pyMin_eq, pyMax_eq] at hv
  split_ifs at hv with hts
  · injection hv with h1 h2 h3 h4
    rw [← h1, ← h2, ← h3, ← h4, key]
    field_simp; ring
  · injection hv with h1 h2 h3 h4
    rw [← h1, ← h2, ← h3, ← h4, key]
    field_simp; ring

/-- **C33, melt.** Melt energy is the positive part of the surface energy balance, melt is it divided by the latent heat
of melting (and 1000 kg m⁻³), and neither is ever negative. -/
theorem C33_melt (hc : c.Phys) (hdt : 0 ≤ r.dt) (h : step sv fuel c r s f = .ok (s', o)) :
    0 ≤ o.meltEnergy ∧ 0 ≤ o.melt ∧
    o.meltEnergy = max 0 (o.swnet + o.fluxes.li + o.fluxes.lo + o.fluxes.b + o.fluxes.qrr + o.fluxes.h + o.fluxes.le) ∧
    o.melt * (1000 * c.latHeatMelting) = o.meltEnergy * r.dt := by
  obtain ⟨st⟩ := step_stages h
  have hL := hc.melt
  have he := st.meltEnergy
  unfold meltEnergy at he
  rw [pyMax_eq] at he
  have h0 : 0 ≤ o.meltEnergy := by rw [he]; exact le_max_left _ _
  refine ⟨h0, ?_, he, ?_⟩
  · rw [st.melt]; positivity
  · rw [st.melt]; field_simp

/-- **C33, balance.** Surface balance is snowfall (water equivalent) minus melt plus the vapour fluxes except
condensation; internal balance is refreezing minus subsurface melt; the balance is their sum. -/
theorem C33_balance (h : step sv fuel c r s f = .ok (s', o)) :
    o.surfMB = o.snowfall * (o.densityFreshSnow / c.waterDensity) - o.melt + o.sublimation + o.deposition + o.evaporation ∧
    o.intMB = o.refreeze - o.subsurfaceMelt ∧ o.mb = o.surfMB + o.intMB := by
  obtain ⟨st⟩ := step_stages h
  exact ⟨st.surfMB, st.intMB, st.mb⟩

/-- **C33, cumulative balance.** Over a whole run, the accumulated balance grows by exactly the sum of the recorded
balances. -/
theorem C33_cumulative : ∀ {fs : List (Forcing K)} {s s' : SimState K} {os : List (StepOut K)},
    run sv fuel c r s fs = .ok (s', os) → s'.mbCum = s.mbCum + (os.map StepOut.mb).sum := by
  intro fs
  induction fs with
  | nil => intro s s' os h; rw [run] at h; cases h; simp
  | cons f fs ih =>
    intro s s' os h
    obtain ⟨s1, o, os', hst, hr, rfl⟩ := run_cons h
    obtain ⟨st⟩ := step_stages hst
    rw [ih hr, st.mbCum]
    simp only [List.map_cons, List.sum_cons]
    ring

end

attribute [local instance] exTransc in
/-- Non-vacuity: a run of three steps returns, with physical constants. -/
example : exConsts.Phys ∧ 0 ≤ exCfg.dt ∧ raised (exRun [exSnow, exDry, exDry]) = none := by
  refine ⟨by constructor <;> decide +kernel, by decide +kernel, by decide +kernel⟩

end Cosipy
