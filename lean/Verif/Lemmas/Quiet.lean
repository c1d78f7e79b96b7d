import Verif.Lemmas.ProgressStep

/-! A concrete step over the reals that completes: night, no precipitation, a uniform column in saturated air of the
same temperature. -/

set_option autoImplicit false
set_option linter.unusedSectionVars false

namespace Cosipy
section
variable {K : Type} [Field K] [LinearOrder K] [IsStrictOrderedRing K]

/-- In a column of one temperature the interpolated temperatures are that temperature. -/
theorem interpSubT_uniform {c : Consts K} {g : Grid K} {T : K} (hw : g.WF) (hne : g.nodes ≠ [])
    (hpos : ∀ n ∈ g.nodes, 0 < n.height ∧ n.temperature = T) (h1 : bottomDepth g.nodes 0 ≤ c.zlt1) (h2 : c.zlt1 ≤ c.zlt2)
    (h3 : c.zlt2 < sumHeight g.nodes) : interpSubT c g = .ok (T, T) := by
  have one : ∀ z, bottomDepth g.nodes 0 ≤ z → z < sumHeight g.nodes →
      getSubsurfaceTemperature g (cumsumFrom 0 (g.nodes.map Node.height)) z = .ok T := by
    intro z a b
    obtain ⟨k, n, m, t, hn, hm, _, _, ht, _, l, u⟩ := C38_between (fun n hn => (hpos n hn).1) hne a
      (by rw [sumHeight_bottom]; exact b)
    rw [(hpos n (List.mem_of_getElem? hn)).2, (hpos m (List.mem_of_getElem? hm)).2] at l u
    rw [min_self] at l; rw [max_self] at u
    rw [ht, le_antisymm u l]
  unfold interpSubT
  rw [Grid.getHeight_eq hw, ok_bind]
  simp only [one _ h1 (h2.trans_lt h3), ok_bind, one _ (h1.trans h2) h3]
  rfl
end

/-- Shipped settings without remeshing, with constant density and a bounded minimiser as solver. -/
def quietConsts : Consts ℝ :=
  { Consts.default ℝ with remeshMethod := .other, densificationMethod := .constant, sfcTemperatureMethod := .lbfgsb }

/-- A solver that always answers 270 K. -/
def quietSolvers : Solvers ℝ := ⟨fun _ _ => .ok 270, fun _ _ _ lo _ => .ok (max lo 270)⟩

/-- Hourly steps, flat ground. -/
def quietCfg : RunCfg ℝ := ⟨3600, 2, 0, 200, false, false⟩

/-- Four layers of firn at 270 K. -/
noncomputable def quietGrid : Grid ℝ :=
  ⟨[⟨1/20, 270, 0, 1/2, 0⟩, ⟨1/20, 270, 0, 1/2, 0⟩, ⟨1/20, 270, 0, 1/2, 0⟩, ⟨1/20, 270, 0, 1/2, 0⟩], 4, 0, 0, 0⟩

/-- The start state. -/
noncomputable def quietState : SimState ℝ := ⟨quietGrid, 270, 85/100, 0⟩

/-- A dark hour with air at 270 K, saturated, without precipitation: wind speed `u`, incoming longwave radiation `l`. -/
def quietWeather (u l : ℝ) : Forcing ℝ := ⟨270, 100, 700, 0, u, none, some 0, some l, none⟩

/-- The quiet hour with a wind of 5 m/s and 200 W m⁻². -/
abbrev quietForcing : Forcing ℝ := quietWeather 5 200

section
variable {u l : ℝ}

theorem quiet_phys : quietConsts.Phys := by
  constructor <;> norm_num [quietConsts, Consts.default]

theorem quiet_ready : Ready quietSolvers quietConsts quietCfg 200 := by
  refine ⟨⟨quiet_phys, ?_, ?_, ?_, ?_, ?_, ?_, ?_, ?_, ?_⟩, ?_, ?_, ⟨?_, ?_⟩, ?_, ?_, ?_⟩
  all_goals try norm_num [quietConsts, Consts.default, quietCfg]
  · constructor <;> exact fun h => nomatch h
  · intro m f x lo hi t h
    simp only [quietSolvers, ok_inj] at h
    rw [← h]; exact le_max_left _ _
  · intro R x; simp [quietSolvers]
  · intro m R x lo hi; simp [quietSolvers]

theorem quiet_supplied : Supplied quietConsts 200 (quietWeather u l) := by
  refine ⟨by simp [quietWeather], by simp [quietWeather], by norm_num [quietWeather], ?_, ?_⟩ <;>
    norm_num [freshSnowDensity, quietConsts, Consts.default]

theorem quiet_good : quietState.grid.WF ∧ ∀ n ∈ quietState.grid.nodes, GoodLayer quietConsts 200 n := by
  refine ⟨rfl, fun n hn => ?_⟩
  have : n = ⟨1/20, 270, 0, 1/2, 0⟩ := by
    simp only [quietState, quietGrid, List.mem_cons, List.not_mem_nil, or_false] at hn
    rcases hn with h | h | h | h <;> exact h
  subst this
  refine ⟨⟨?_, ?_, ?_, ?_, ?_⟩, ?_, ?_⟩ <;> norm_num [quietConsts, Consts.default]

/-- The column that undergoes the stages of the quiet step. -/
theorem quiet_snowed {g : Grid ℝ} (h : snowedColumn quietConsts quietCfg quietState (quietWeather u l) = .ok g) :
    g.nodes = quietGrid.nodes ∧ g.WF := by
  unfold snowedColumn precipitation at h
  simp only [quietWeather, ok_bind] at h
  rw [pure_eq_ok] at h
  subst h
  have : ¬ (0 : ℝ) < (thresholdPrecip quietConsts (freshSnowDensity quietConsts ⟨270, 100, 700, 0, u, none, some 0, some l, none⟩)
      (0 / 1000.0 * (quietConsts.waterDensity / freshSnowDensity quietConsts ⟨270, 100, 700, 0, u, none, some 0, some l, none⟩) *
        snowFraction quietConsts 270, 0 - 0 / 1000.0 * (quietConsts.waterDensity / freshSnowDensity quietConsts
          ⟨270, 100, 700, 0, u, none, some 0, some l, none⟩) * snowFraction quietConsts 270 *
        (freshSnowDensity quietConsts ⟨270, 100, 700, 0, u, none, some 0, some l, none⟩ / quietConsts.waterDensity) * 1000.0)).1 := by
    unfold thresholdPrecip
    simp only [zero_div, zero_mul]
    split_ifs <;> simp
  unfold applySnowfall
  rw [if_neg this]
  exact ⟨rfl, rfl⟩

theorem quiet_updateGrid {g : Grid ℝ} {n : Nat} (h : g.nodes = quietGrid.nodes) : g.updateGrid n quietConsts = .ok g := by
  have hnode : g.node 0 = .ok ⟨1/20, 270, 0, 1/2, 0⟩ := by unfold Grid.node; rw [h]; exact pyGet_zero
  have hre : g.remesh n quietConsts = .ok g := rfl
  unfold Grid.updateGrid
  rw [hre, ok_bind, hnode, ok_bind, if_neg (by norm_num [quietConsts, Consts.default])]
  rfl

theorem quiet_night {g g' : Grid ℝ} {al a b : ℝ} (h : radiationStep quietConsts g (pyMax (quietWeather u l).g 0 * (1 - al)) quietCfg.dt =
    .ok (g', a, b)) : g' = g ∧ b = 0 := by
  have e : pyMax (quietWeather u l).g 0 = (0 : ℝ) := by rw [pyMax_eq]; simp [quietWeather]
  rw [e, zero_mul] at h
  unfold radiationStep at h
  rw [if_neg (lt_irrefl _)] at h
  cases h; exact ⟨rfl, rfl⟩

theorem quiet_surface {n : Nat} {g : Grid ℝ} (h : surfaceColumn n quietConsts quietCfg quietState (quietWeather u l) = .ok g) :
    g.nodes = quietGrid.nodes := by
  unfold surfaceColumn at h
  simp only [bind_eq_ok] at h
  obtain ⟨g0, h0, g1, h1, ⟨g2, al, x⟩, h2, ⟨g3, a, b⟩, h3, h⟩ := h
  rw [pure_eq_ok] at h; subst h
  obtain ⟨e0, _⟩ := quiet_snowed h0
  rw [quiet_updateGrid e0, ok_inj] at h1
  subst h1
  have e2 := updateAlbedo_grid h2
  have s2 := getSurfaceProperties_nodes quietConsts g0
  simp only at e2
  rw [← e2] at s2
  rw [(quiet_night h3).1, s2.1, e0]

/-- The energy balance of the quiet step: no turbulent fluxes, no melt. -/
theorem quiet_balance (hl : l ≤ 250) {g g' : Grid ℝ} {z0 rain sw ts : ℝ} {fl : Fluxes ℝ} (hg : g.nodes = quietGrid.nodes) (hw : g.WF)
    (hsw : sw = 0) (h : updateSurfaceTemperature quietSolvers quietConsts quietCfg.wrf g
      (fun tz1 tz2 => ⟨quietCfg.dt, quietCfg.z, z0, (quietWeather u l).t2, (quietWeather u l).rh2, (quietWeather u l).pres, (quietWeather u l).u2,
        rain, quietCfg.slope, tz1, tz2, (quietWeather u l).lwin, (quietWeather u l).n⟩) sw = .ok (g', ts, fl)) :
    ts = 270 ∧ fl.h = 0 ∧ fl.le = 0 ∧ meltEnergy sw fl = 0 ∧ g'.nodes.length = 4 := by
  obtain ⟨b1, b2, ⟨top', rest', q1, q2⟩, _⟩ := C34_bounds (fun m f x lo hi t h => by
    simp only [quietSolvers, ok_inj] at h
    rw [← h]; exact le_max_left _ _) (by norm_num [quietConsts, Consts.default]) h
  have hlen : g'.nodes.length = 4 := by
    have := congrArg List.length q1
    rw [q2, List.length_cons, ← List.length_cons (a := top'), ← this, hg]; rfl
  obtain ⟨tz1, tz2, top, x, h1, h2, h3, h4, h5⟩ := update_decomp h
  have hu : interpSubT quietConsts g = .ok (270, 270) := by
    refine interpSubT_uniform hw (by rw [hg]; simp [quietGrid]) (fun n hn => ?_) ?_ ?_ ?_
    · rw [hg] at hn
      have := (quiet_good.2 n hn).phys.height
      refine ⟨this, ?_⟩
      simp only [quietGrid, List.mem_cons, List.not_mem_nil, or_false] at hn
      rcases hn with rfl | rfl | rfl | rfl <;> rfl
    · rw [hg]; norm_num [bottomDepth, quietGrid, quietConsts, Consts.default]
    · norm_num [quietConsts, Consts.default]
    · rw [hg]; norm_num [sumHeight, columnSum, quietGrid, quietConsts, Consts.default]
  rw [hu, ok_inj] at h1
  cases h1
  have hx : x = 270 := by
    unfold solveSurfaceTemperature at h3
    simp only [quietConsts, quietSolvers, ok_inj] at h3
    rw [← h3]; norm_num
  have hts : ts = 270 := by rw [h4, hx]; norm_num [quietConsts, Consts.default]
  subst hts
  obtain ⟨t0, lam, _, _, p1, p2, p3, p4, p5⟩ := ebFluxes_parts h5
  have hHL : fl.h = 0 ∧ fl.le = 0 := by
    unfold ebFluxes at h5
    simp only [bind_eq_ok] at h5
    obtain ⟨li, _, y, hy, tp, _, lm, _, h5⟩ := h5
    rw [pure_eq_ok] at h5
    subst h5
    have hst : quietConsts.stabilityCorrection = .ri := rfl
    rw [hst] at hy
    simp only [ok_inj] at hy
    rw [← hy]
    simp only [sensibleHeatFlux, latentHeatFlux, quietWeather]
    constructor
    · rw [sub_self]; ring
    · rw [sub_self]; ring
  refine ⟨rfl, hHL.1, hHL.2, ?_, hlen⟩
  have hli : fl.li = l := by
    unfold incomingLongwave at p1
    simp only [quietWeather, ok_inj] at p1
    exact p1.symm
  have hb : fl.b = 0 := by rw [p3]; simp
  have hq : fl.qrr = 0 := by rw [p4]; simp [quietWeather]
  unfold meltEnergy
  rw [pyMax_eq, hsw, hli, hb, hq, hHL.1, hHL.2, p2]
  refine max_eq_left ?_
  norm_num [quietConsts, Consts.default]
  linarith

/-- Nothing melts in the quiet step. -/
theorem quiet_melted (hl : l ≤ 250) {n : Nat} {g : Grid ℝ} (h : meltedColumn quietSolvers n quietConsts quietCfg quietState (quietWeather u l) = .ok g) :
    g.nodes.length = 4 := by
  unfold meltedColumn at h
  simp only [bind_eq_ok] at h
  obtain ⟨sr, h0, g1, h1, ⟨g2, al, x⟩, h2, z0, _, ⟨g3, a, b⟩, h3, ⟨g4, ts, fl⟩, h4, ⟨g5, w⟩, h5, h⟩ := h
  rw [pure_eq_ok] at h; subst h
  have hs : snowedColumn quietConsts quietCfg quietState (quietWeather u l) = .ok (applySnowfall quietConsts quietCfg.dt
      quietState.grid (thresholdPrecip quietConsts (freshSnowDensity quietConsts (quietWeather u l)) sr).1
      (freshSnowDensity quietConsts (quietWeather u l)) (quietWeather u l).t2) := by
    unfold snowedColumn; rw [h0]; rfl
  obtain ⟨e0, w0⟩ := quiet_snowed hs
  rw [quiet_updateGrid e0, ok_inj] at h1
  subst h1
  have w2 := w0.updateAlbedo h2
  have e2 := updateAlbedo_grid h2
  have s2 := getSurfaceProperties_nodes quietConsts (applySnowfall quietConsts quietCfg.dt
      quietState.grid (thresholdPrecip quietConsts (freshSnowDensity quietConsts (quietWeather u l)) sr).1
      (freshSnowDensity quietConsts (quietWeather u l)) (quietWeather u l).t2)
  simp only at e2
  rw [← e2] at s2
  obtain ⟨e3, e3b⟩ := quiet_night h3
  subst e3 e3b
  have hsw : pyMax (quietWeather u l).g 0 * (1 - al) - 0 = 0 := by
    rw [pyMax_eq]; simp [quietWeather]
  obtain ⟨t1, _, t3, t4, t5⟩ := quiet_balance hl (s2.1.trans e0) w2 hsw h4
  have hv : (vapourFluxes quietConsts quietCfg.dt ts fl.le).sublimation = 0 ∧
      (vapourFluxes quietConsts quietCfg.dt ts fl.le).deposition = 0 := by
    unfold vapourFluxes
    rw [t3, zero_div]
    split_ifs <;> simp [pyMin_eq, pyMax_eq]
  rw [t4, hv.1, hv.2] at h5
  simp only [zero_mul, zero_div, sub_zero] at h5
  unfold Grid.removeMeltWeq at h5
  rw [bind_eq_ok] at h5
  obtain ⟨st, hst, h5⟩ := h5
  rw [pure_eq_ok] at h5
  cases h5
  have hz : st = ⟨g4, 0, 0⟩ := by
    cases n with
    | zero => rw [whileM] at hst; cases hst
    | succ n =>
      rw [whileM] at hst
      have : Grid.removeMeltPass quietConsts 0 (⟨g4, 0, 0⟩ : Grid.MeltState ℝ) = .ok none := by
        unfold Grid.removeMeltPass
        rw [if_neg (fun h => lt_irrefl _ h.1)]; rfl
      rw [this] at hst
      cases hst; rfl
  rw [hz]
  exact t5

/-- None of the reasons for failure holds for the quiet step. -/
theorem quiet_not_fails (hl : l ≤ 250) (n : Nat) : ¬ StepFails quietSolvers n quietConsts quietCfg quietState (quietWeather u l) := by
  rintro (⟨g, h, hx⟩ | ⟨g, h, hx⟩ | h | ⟨g, h, hx⟩ | ⟨m, s', o, h, hx, hf⟩)
  · obtain ⟨e0, _⟩ := quiet_snowed h
    rcases hx with ⟨ha, _⟩ | ⟨g1, h1, h2⟩ | ⟨g1, h1, h2⟩
    · simp [quietConsts] at ha
    · unfold Grid.remesh at h1
      simp only [quietConsts, ok_inj] at h1
      rw [← h1, e0] at h2
      simp [quietGrid] at h2
    · rw [quiet_updateGrid e0, ok_inj] at h1
      rw [← h1, e0] at h2
      simp [quietGrid] at h2
  · have e := quiet_surface h
    rcases hx with hx | hx
    · rw [e] at hx; simp [quietGrid] at hx
    · rw [e] at hx; norm_num [sumHeight, columnSum, quietGrid, quietConsts, Consts.default] at hx
  · rcases h with ⟨m, R, x, lo, hi, e, h⟩ | ⟨R, x, e, _, _, h⟩ <;> simp [quietSolvers] at h
  · have := quiet_melted hl h; omega
  · simp [quietCfg] at hf

end
end Cosipy
