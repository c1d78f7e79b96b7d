import Verif.Lemmas.HeatUnit
import Verif.Lemmas.Example
import Verif.Model.Kernel

/-!
# C126 The unit of heat does not matter
-/

set_option autoImplicit false
set_option linter.unusedSectionVars false

namespace Cosipy
section
variable {K : Type} [Field K] [LinearOrder K] [IsStrictOrderedRing K] [Transc K] {l : K} (hl : 0 < l)

omit [Field K] [LinearOrder K] [IsStrictOrderedRing K] [Transc K] in
theorem map_bind_comm' {β β' γ δ : Type} {x : M β} {φ : β → β'} {f : γ → δ} {k : β' → M δ} {k' : β → M γ}
    (h : ∀ a, k (φ a) = (k' a).map f) : (x.map φ >>= k) = (x >>= k').map f := by
  cases x with
  | error _ => rfl
  | ok a => exact h a

include hl in
/-- **C126, one step.** With all heats counted in another unit (radiation, latent and specific heats, conductivities, the radiation
constant) a step leads to the same column and the same masses, temperatures and albedo, and to the same heat fluxes in the new unit.
It fails if and only if it failed before, in the same way. Not covered: Monin-Obukhov stability (see `C126_mo_refuted`); the empirical
conductivity, which is a formula in watts by design. -/
theorem C126_step_partial {sv : Solvers K} (hv : sv.ScaleFree) (fuel : Nat) (c : Consts K)
    (hc : c.thermalConductivityMethod ≠ .empirical) (hs : c.stabilityCorrection ≠ .mo) (r : RunCfg K) (s : SimState K) (f : Forcing K) :
    step sv fuel (c.heatUnit l) r s (f.heatUnit l) = (step sv fuel c r s f).map fun q => (q.1, q.2.heatUnit l) := by
  unfold step
  show (precipitation c f (freshSnowDensity c f) >>= _) = _
  refine bind_comm fun sr => ?_
  show ((applySnowfall c r.dt s.grid (thresholdPrecip c (freshSnowDensity c f) sr).1 (freshSnowDensity c f) f.t2).updateGrid fuel c >>= _) = _
  refine bind_comm fun g1 => ?_
  show (updateAlbedo c g1 s.surfaceTemperature s.albedoSnow >>= _) = _
  refine bind_comm fun al => ?_
  show (updateRoughness c al.1 >>= _) = _
  refine bind_comm fun z0 => ?_
  have e1 : pyMax (f.heatUnit l).g 0 * (1 - al.2.1) = l * (pyMax f.g 0 * (1 - al.2.1)) := by
    have : pyMax (f.heatUnit l).g 0 = l * pyMax f.g 0 := by
      conv_lhs => rw [← mul_zero l]
      exact HeatUnit.pyMax_mul hl ..
    rw [this, mul_assoc]
  dsimp only
  rw [e1, HeatUnit.radiationStep hl]
  refine map_bind_comm' fun pen => ?_
  dsimp only
  have e2 : l * (pyMax f.g 0 * (1 - al.2.1)) - l * pen.2.2 = l * (pyMax f.g 0 * (1 - al.2.1) - pen.2.2) := by ring
  rw [e2]
  have e3 := HeatUnit.updateSurfaceTemperature hl hv c hc hs r.wrf pen.1 (fun tz1 tz2 => ⟨r.dt, r.z, z0, f.t2, f.rh2, f.pres, f.u2,
    (thresholdPrecip c (freshSnowDensity c f) sr).2, r.slope, tz1, tz2, f.lwin, f.n⟩) (pyMax f.g 0 * (1 - al.2.1) - pen.2.2)
  refine (congrArg (· >>= _) e3).trans ?_
  refine map_bind_comm' fun st => ?_
  dsimp only
  rw [show (st.2.2.heatUnit l).le = l * st.2.2.le from rfl, HeatUnit.vapour hl, HeatUnit.meltEnergy hl]
  have e4 : l * meltEnergy (pyMax f.g 0 * (1 - al.2.1) - pen.2.2) st.2.2 * r.dt / (1000 * (c.heatUnit l).latHeatMelting) =
      meltEnergy (pyMax f.g 0 * (1 - al.2.1) - pen.2.2) st.2.2 * r.dt / (1000 * c.latHeatMelting) := by
    show l * _ * r.dt / (1000 * (l * c.latHeatMelting)) = _
    rw [mul_assoc, mul_left_comm 1000, mul_div_mul_left _ _ hl.ne']
  rw [e4]
  refine bind_comm fun rm => ?_
  refine bind_comm fun pc => ?_
  rw [HeatUnit.refreezing hl]
  refine bind_comm fun rf => ?_
  rw [HeatUnit.solveHeatEquation hl fuel c hc]
  refine bind_comm fun g2 => ?_
  rw [HeatUnit.densification]
  refine bind_comm fun g3 => ?_
  refine ite_comm (fun _ => rfl) fun _ => rfl

include hl in
/-- **C126, runs.** The same for simulations of any length. -/
theorem C126_run_partial {sv : Solvers K} (hv : sv.ScaleFree) (fuel : Nat) (c : Consts K)
    (hc : c.thermalConductivityMethod ≠ .empirical) (hs : c.stabilityCorrection ≠ .mo) (r : RunCfg K) (fs : List (Forcing K)) :
    ∀ s : SimState K, run sv fuel (c.heatUnit l) r s (fs.map (Forcing.heatUnit l)) =
      (run sv fuel c r s fs).map fun q => (q.1, q.2.map (StepOut.heatUnit l)) := by
  induction fs with
  | nil => intro s; rfl
  | cons f fs ih =>
    intro s
    rw [List.map_cons, run, run, C126_step_partial hl hv fuel c hc hs]
    refine map_bind_comm' fun q => ?_
    dsimp only
    rw [ih]
    refine map_bind_comm' fun q => rfl

/-- What is written to the result file for a step: heat fluxes and the cold content of the layers in the new unit, everything else
the same. -/
theorem C126_record (c : Consts K) (fill : K) (full : Bool) (s : SimState K) (o : StepOut K) :
    stepRow (c.heatUnit l) fill full s (o.heatUnit l) = (stepRow c fill full s o).map fun row =>
      ⟨row.series.map fun p => (p.1, if p.1 ∈ ["_LWin", "_LWout", "_H", "_LE", "_B", "_QRR", "_ME"] then l * p.2 else p.2),
        row.layers.map fun p => (p.1, if p.1 = "_LAYER_CC" then p.2.map (l * ·) else p.2)⟩ := by
  have e1 : stepSeries (c.heatUnit l) fill s (o.heatUnit l) = (stepSeries c fill s o).map fun row =>
      row.map fun p => (p.1, if p.1 ∈ ["_LWin", "_LWout", "_H", "_LE", "_B", "_QRR", "_ME"] then l * p.2 else p.2) := by
    unfold stepSeries
    show (s.grid.getTotalSnowheight c >>= _) = _
    refine bind_comm fun a => bind_comm fun b => ?_
    show Except.ok _ = Except.ok _
    simp [StepOut.heatUnit, Fluxes.heatUnit, Consts.heatUnit]
  have e2 : stepLayers (c.heatUnit l) full s.grid = (stepLayers c full s.grid).map fun row =>
      row.map fun p => (p.1, if p.1 = "_LAYER_CC" then p.2.map (l * ·) else p.2) := by
    unfold stepLayers
    refine ite_comm (fun _ => ?_) fun _ => rfl
    refine bind_comm fun h => ?_
    show (s.grid.getDensity c >>= _) = _
    refine bind_comm fun rho => bind_comm fun t => bind_comm fun w => ?_
    have : s.grid.getColdContent (c.heatUnit l) = (s.grid.getColdContent c).map (List.map (l * ·)) := by
      unfold Grid.getColdContent Grid.mapNodes
      refine Stretch.mapM_map (fun i => ?_) _
      cases s.grid.node (i : Int) with
      | error _ => rfl
      | ok n =>
        show Except.ok _ = Except.ok _
        rw [HeatUnit.coldContent]
    rw [this]
    refine map_bind_comm fun cc => bind_comm fun por => bind_comm fun ice => bind_comm fun irr => bind_comm fun rf => ?_
    show Except.ok _ = Except.ok _
    simp
  unfold stepRow
  rw [e1, e2]
  refine map_bind_comm' fun a => map_bind_comm' fun b => rfl

/-- **C126** (violation): the Monin-Obukhov iteration stops when the sensible heat flux changes by less than 0.1 W m-2, a number in
the code (surfaceTemperature.py:356). For any state of the iteration in which the flux changes, there is a unit of heat in which this
pass is the last one and a unit in which it is not. -/
theorem C126_mo_refuted (c : Consts K) (wrf : Bool) (i : EbInput K) (t0 rho lv q0 q2 co : K) (s : MoState K) {h0 : K}
    (_hh : s.h0 = some h0) (ho : s.optim = true) (hn : s.niter ≤ 5) {s' : MoState K}
    (hp : moPass c wrf i t0 rho lv q0 q2 co s = .ok (some s')) (hd : s'.h ≠ h0) :
    ∃ l₁ l₂ : K, 0 < l₁ ∧ 0 < l₂ ∧
      (moPass (c.heatUnit l₁) wrf (HeatUnit.E l₁ i) t0 rho (l₁ * lv) q0 q2 co { s with h0 := some (l₁ * h0) }).map (Option.map (·.optim)) = .ok (some false) ∧
      (moPass (c.heatUnit l₂) wrf (HeatUnit.E l₂ i) t0 rho (l₂ * lv) q0 q2 co { s with h0 := some (l₂ * h0) }).map (Option.map (·.optim)) = .ok (some true) := by
  have key : ∀ l : K, 0 < l → (moPass (c.heatUnit l) wrf (HeatUnit.E l i) t0 rho (l * lv) q0 q2 co { s with h0 := some (l * h0) }).map
      (Option.map (·.optim)) = .ok (some (!(decide (l * pyAbs (h0 - s'.h) < 0.1)))) := by
    intro l hl
    unfold moPass at hp ⊢
    rw [if_pos ho] at hp
    rw [if_pos ho]
    simp only [Except.ok.injEq, Option.some.injEq] at hp
    have e : ∀ cs : K, sensibleHeatFlux (c.heatUnit l) rho cs i.u2 (i.t2 - t0) co = l * sensibleHeatFlux c rho cs i.u2 (i.t2 - t0) co := by
      intro cs
      show rho * (l * c.specHeatAir) * cs * i.u2 * (i.t2 - t0) * co = _
      unfold sensibleHeatFlux; ring
    have e5 : decide (5 < s.niter) = false := by simp [hn]
    show Except.ok (some (!(decide (pyAbs (l * h0 - sensibleHeatFlux (c.heatUnit l) rho _ i.u2 (i.t2 - t0) co) < 0.1) || decide (5 < s.niter)))) = _
    rw [e, e5, Bool.or_false, ← mul_sub, HeatUnit.pyAbs_mul hl, ← hp]
    rfl
  have hd' : 0 < pyAbs (h0 - s'.h) := by
    rw [pyAbs_eq]
    exact abs_pos.2 (sub_ne_zero.2 hd.symm)
  refine ⟨(1 / 100) / pyAbs (h0 - s'.h), 1 / pyAbs (h0 - s'.h), by positivity, by positivity, ?_, ?_⟩
  · rw [key _ (by positivity), div_mul_cancel₀ _ hd'.ne']
    have : (1 / 100 : K) < 0.1 := by norm_num
    rw [decide_eq_true this]; rfl
  · rw [key _ (by positivity), div_mul_cancel₀ _ hd'.ne']
    have : ¬ (1 : K) < 0.1 := by norm_num
    rw [decide_eq_false this]; rfl

end

/-! ## Non-vacuity -/

section
attribute [local instance] exTransc

example : exSolvers.ScaleFree := ⟨fun _ _ _ _ => rfl, fun _ _ _ _ _ _ _ => rfl⟩
/-- Two hours, in joules and in calories: the same surface temperature and melt (more than none), the sensible heat flux (not zero)
divided by 4.184. -/
private def exHeat (l : ℚ) : List (ℚ × ℚ × ℚ) :=
  (((run exSolvers 40 (Consts.heatUnit l { exConsts with sfcTemperatureMethod := .secant }) exCfg (initState exConsts false exGrid)
    ([exSnow, exDry].map (Forcing.heatUnit l))).map fun q => q.2.map fun o => (o.ts, o.melt, o.fluxes.h)).toOption).getD []
example : exHeat (1000 / 4184) = (exHeat 1).map (fun p => (p.1, p.2.1, 1000 / 4184 * p.2.2)) ∧ (exHeat 1).length = 2 ∧
    (∀ p ∈ exHeat 1, 0 < p.2.1 ∧ p.2.2 < 0) := by decide +kernel
example : exConsts.thermalConductivityMethod ≠ .empirical ∧ exConsts.stabilityCorrection ≠ .mo := by decide
/-- A second pass of the Monin-Obukhov iteration in which the flux still changes. -/
private def exMo : MoState ℚ := ⟨10, some 50, true, 1, 1 / 100, 1 / 100, 50, 20⟩
example : ∃ s', moPass exConsts false ⟨3600, 2, 1 / 1000, 272, 60, 700, 4, 0, 0, 270, 270, some 250, none⟩ 270 (9 / 10) 2500000
    (4 / 1000) (3 / 1000) 1 exMo = .ok (some s') ∧ s'.h ≠ 50 := ⟨_, rfl, by decide +kernel⟩
end
end Cosipy
