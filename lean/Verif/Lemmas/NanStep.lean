import Verif.Lemmas.NanFlux
import Verif.Lemmas.WithSolver
import Verif.Lemmas.Physical
import Verif.Props.C15
import Verif.Props.C31

/-! A time step in the arithmetic with NaN, started on numbers, is a time step on numbers. -/

set_option autoImplicit false
set_option linter.unusedSectionVars false

namespace Cosipy
section
variable {K : Type} [Field K] [LinearOrder K] [IsStrictOrderedRing K] [Transc K]

local notation "N" => (Nan.num : K → Nan K)

theorem map_eq_ok {β γ : Type} {f : β → γ} {x : M β} {y : γ} : Except.map f x = .ok y ↔ ∃ a, x = .ok a ∧ f a = y := by
  cases x with
  | error e =>
    constructor
    · intro h; cases h
    · rintro ⟨_, h, _⟩; cases h
  | ok a => exact ⟨fun h => ⟨a, rfl, ok_inj.1 h⟩, fun ⟨_, h, e⟩ => by cases h; rw [← e]; rfl⟩

theorem ew_bounds (hl : TranscLaws K) {t : K} (h1 : 1 ≤ t) (h2 : t ≤ 313.65) :
    0 < methodEWSonntag t ∧ methodEWSonntag t < 200 := by
  have key : ∀ x : K, x ≤ 3 → 0 < 6.112 * Transc.exp x ∧ 6.112 * Transc.exp x < 200 := fun x hx => by
    have a := hl.exp_pos x
    have b := hl.exp_lt x hx
    constructor
    · exact mul_pos (by norm_num) a
    · calc 6.112 * Transc.exp x ≤ 6.112 * 32 := mul_le_mul_of_nonneg_left b.le (by norm_num)
        _ < 200 := by norm_num
  unfold methodEWSonntag
  split_ifs with h
  · apply key
    have : (0 : K) < t - 29.66 := by
      have : (29.66 : K) < 273.16 := by norm_num
      linarith
    rw [div_le_iff₀ this]
    norm_num at h2 ⊢
    linarith
  · apply key
    have h : t < 273.16 := not_le.1 h
    have hp : (0 : K) < t - 0.55 := by
      have : (0.55 : K) < 1 := by norm_num
      linarith
    have : 22.46 * (t - 273.16) / (t - 0.55) ≤ 0 :=
      div_nonpos_of_nonpos_of_nonneg (mul_nonpos_of_nonneg_of_nonpos (by norm_num) (by linarith)) hp.le
    linarith [show (0 : K) < 3 by norm_num]

theorem fluxDefined (hl : TranscLaws K) {c : Consts K} {r : RunCfg K} (hd : DefinedConsts c r) (hdt : 0 < r.dt) {f : Forcing K}
    (hf : DefinedForcing f) {z0 rain tz1 tz2 t : K} (hz : 0 < z0) (hzz : z0 < r.z) (h1 : 220 ≤ t) (h2 : t ≤ c.zeroTemperature) :
    FluxDefined c ⟨r.dt, r.z, z0, f.t2, f.rh2, f.pres, f.u2, rain, r.slope, tz1, tz2, f.lwin, f.n⟩ t := by
  have hz' : 0 < r.z := hz.trans hzz
  obtain ⟨e1, e2⟩ := ew_bounds hl hf.cold hf.warm
  have ht : 1 ≤ t := le_trans (by norm_num) h1
  obtain ⟨e3, e4⟩ := ew_bounds hl ht (h2.trans hd.zero)
  have hp := hf.pressure
  have hh := hf.humid
  have d1 : 0 < f.pres - methodEWSonntag f.t2 := by linarith
  have d2 : 0 < f.pres - methodEWSonntag t := by linarith
  have big : ∀ k : K, 1 ≤ k → 1 < r.z / (z0 / k) := fun k hk => by
    have hk0 : 0 < k := zero_lt_one.trans_le hk
    rw [lt_div_iff₀ (div_pos hz hk0), one_mul]
    exact (div_le_self hz.le hk).trans_lt hzz
  constructor
  · exact hf.cold
  · exact ht
  · exact d1.ne'
  · exact d2.ne'
  · show 1 + 0.608 * ((f.rh2 * 0.622 * (methodEWSonntag f.t2 / (f.pres - methodEWSonntag f.t2))) / 100) ≠ 0
    have : 0 ≤ 0.608 * ((f.rh2 * 0.622 * (methodEWSonntag f.t2 / (f.pres - methodEWSonntag f.t2))) / 100) :=
      mul_nonneg (by norm_num) (div_nonneg (mul_nonneg (mul_nonneg hh (by norm_num)) (div_nonneg e1.le d1.le)) (by norm_num))
    exact (by linarith : (0 : K) < _).ne'
  · exact div_nonneg (mul_nonneg hh e1.le) (by norm_num)
  · exact hl.square f.u2
  · exact hz
  · exact hz'
  · exact hl.log _ (by simpa using big 1 le_rfl)
  · exact hl.log _ (big 100 (by norm_num))
  · exact hl.log _ (big 10 (by norm_num))
  · exact hd.zlt1.ne'
  · exact (hd.zlt1.trans hd.zlt2).ne'
  · exact (sub_pos.2 hd.zlt2).ne'
  · exact hdt.ne'

/-- A solver that answers `t` (unless `t` is below the lower bound it is given). -/
def constSolver (t : K) : Solvers K :=
  ⟨fun _ _ => .error .runtime, fun _ _ _ lo _ => if lo ≤ t then .ok t else .error .value⟩

theorem constSolver_lower (t : K) : (constSolver t).RespectsLower := by
  intro m f x lo hi r h
  unfold constSolver at h
  simp only at h
  split_ifs at h with hl
  cases h
  exact hl

theorem tryExceptN_ok {β : Type} {a b : M β} {r : β} (h : tryExcept a b = .ok r) : a = .ok r ∨ b = .ok r := by
  unfold tryExcept at h
  split at h
  · exact Or.inr h
  · exact Or.inr h
  · exact Or.inl h

theorem solveNan_notBelow {sv : Solvers (Nan K)} (hb : sv.NotBelow) {c : Consts (Nan K)} {f : Nan K → M (Nan K)} {x r : Nan K}
    (h : solveSurfaceTemperature sv c f x = .ok r) : ¬ r < 220 := by
  unfold solveSurfaceTemperature at h
  split at h
  · exact hb _ _ _ _ _ _ h
  · exact hb _ _ _ _ _ _ h
  · rcases tryExceptN_ok h with h | h
    · simp only [bind_eq_ok] at h
      obtain ⟨r', _, u, hu, h⟩ := h
      rw [pure_eq_ok] at h
      subst h
      unfold checkResidualClip at hu
      split_ifs at hu with hlt
      exact hlt
    · exact hb _ _ _ _ _ _ h
  · rcases tryExceptN_ok h with h | h
    · simp only [bind_eq_ok] at h
      obtain ⟨⟨r', k⟩, _, h⟩ := h
      split_ifs at h with hlt
      simp only [bind_eq_ok] at h
      obtain ⟨u, hu, h⟩ := h
      rw [pure_eq_ok] at h
      subst h
      exact hlt
    · exact hb _ _ _ _ _ _ h
  · cases h

/-- Whatever the solver answers, also NaN, the surface temperature is a number. -/
theorem surface_number {z : K} (hz : 220 ≤ z) {r : Nan K} (hr : ¬ r < 220) :
    ∃ t : K, pyMin (N z) r = N t ∧ 220 ≤ t ∧ t ≤ z := by
  unfold pyMin
  cases r with
  | nan => exact ⟨z, by rw [if_neg (show ¬ (Nan.nan : Nan K) < N z from fun h => h)], hz, le_rfl⟩
  | num a =>
    have h1 : 220 ≤ a := not_lt.1 hr
    by_cases h : a < z
    · exact ⟨a, by rw [if_pos (show (N a : Nan K) < N z from h)], h1, h.le⟩
    · exact ⟨z, by rw [if_neg (show ¬ (N a : Nan K) < N z from h)], hz, le_rfl⟩

/-- The surface temperature module on numbers. -/
theorem toNan_surface {svN : Solvers (Nan K)} (hb : svN.NotBelow) {c : Consts K} (hm : c.stabilityCorrection = .ri)
    (hz : 220 ≤ c.zeroTemperature) {wrf : Bool} {g : Grid K} {mk : K → K → EbInput K} {mkN : Nan K → Nan K → EbInput (Nan K)}
    (hmk : ∀ a b, mkN (N a) (N b) = (mk a b).toNan)
    (hflux : ∀ a b t, 220 ≤ t → t ≤ c.zeroTemperature → FluxDefined c (mk a b) t) {sw : Nan K} {sw' : K}
    {g' : Grid (Nan K)} {ts : Nan K} {fl : Fluxes (Nan K)}
    (h : updateSurfaceTemperature svN c.toNan wrf g.toNan mkN sw = .ok (g', ts, fl)) :
    ∃ t g1 fl1, updateSurfaceTemperature (constSolver t) (c.withSolver .lbfgsb) wrf g mk sw' = .ok (g1, t, fl1) ∧
      g' = g1.toNan ∧ ts = N t ∧ fl = fl1.toNan := by
  unfold updateSurfaceTemperature at h
  rw [toNan_interpSubT] at h
  simp only [bind_eq_ok] at h
  obtain ⟨⟨a', b'⟩, h1, top, h2, r, h3, g2, h4, fl2, h5, h⟩ := h
  rw [pure_eq_ok] at h
  rw [map_eq_ok] at h1
  obtain ⟨⟨a, b⟩, h1, e⟩ := h1
  cases e
  rw [Grid.toNan_node, map_eq_ok] at h2
  obtain ⟨top1, h2, rfl⟩ := h2
  obtain ⟨t, et, ht1, ht2⟩ := surface_number hz (solveNan_notBelow hb h3)
  have ez : c.toNan.zeroTemperature = N c.zeroTemperature := rfl
  rw [ez, et] at h4 h5 h
  rw [Grid.toNan_setNodeTemperature, map_eq_ok] at h4
  obtain ⟨g1, h4, rfl⟩ := h4
  simp only at h5
  rw [hmk, toNan_ebFluxes hm (hflux a b t ht1 ht2), map_eq_ok] at h5
  obtain ⟨fl1, h5, rfl⟩ := h5
  cases h
  refine ⟨t, g1, fl1, ?_, rfl, rfl, rfl⟩
  have i1 : interpSubT (c.withSolver .lbfgsb) g = .ok (a, b) := h1
  have i5 : ebFluxes (c.withSolver .lbfgsb) wrf g1 (mk a b) t = .ok fl1 := h5
  have e3 : ∀ F : K → M K, ∀ x, solveSurfaceTemperature (constSolver t) (c.withSolver .lbfgsb) F x = .ok t := fun F x => by
    show (if (220 : K) ≤ t then (.ok t : M K) else .error .value) = _
    rw [if_pos ht1]
  have e4 : pyMin (c.withSolver .lbfgsb).zeroTemperature t = t := by rw [pyMin_eq]; exact min_eq_right ht2
  unfold updateSurfaceTemperature
  simp only [i1, h2, e3, e4, h4, i5, ok_bind]
  rfl


theorem Sane.withSolver {c : Consts K} {r : RunCfg K} {tlo : K} (h : Sane c r tlo) (m : SfcMethod) :
    Sane (c.withSolver m) r tlo := by
  obtain ⟨⟨h1, h2, h3, h4, h5, h6, h7, h8, h9, h10, h11, h12, h13, h14, h15⟩, i1, i2, i3, i4, i5, i6, i7, i8, i9⟩ := h
  exact ⟨⟨h1, h2, h3, h4, h5, h6, h7, h8, h9, h10, h11, h12, h13, h14, h15⟩, i1, i2, i3, i4, i5, i6, i7, i8, i9⟩

theorem physLayer_withSolver {c : Consts K} {tlo : K} {n : Node K} {m : SfcMethod} :
    PhysLayer (c.withSolver m) tlo n ↔ PhysLayer c tlo n :=
  ⟨fun h => ⟨h.height, h.ice, h.water, h.cold, h.warm⟩, fun h => ⟨h.height, h.ice, h.water, h.cold, h.warm⟩⟩

/-- Ages when the roughness is computed. -/
theorem front_ages {fuel : Nat} {c : Consts K} {dt : K} {g g1 g2 : Grid K} {sn rho t2 ts as al as' : K} (hdt : 0 ≤ dt)
    (ha : AgesOrdered g) (h1 : (applySnowfall c dt g sn rho t2).updateGrid fuel c = .ok g1)
    (h2 : updateAlbedo c g1 ts as = .ok (g2, al, as')) : 0 ≤ g2.newSnowTimestamp := by
  have p1 : g1.snowProps = _ := Grid.HP.updateGrid rfl h1
  have h0 : 0 ≤ (applySnowfall c dt g sn rho t2).newSnowTimestamp ∧ 0 ≤ (applySnowfall c dt g sn rho t2).oldSnowTimestamp := by
    obtain ⟨a, b⟩ := ha
    unfold applySnowfall
    split_ifs
    · unfold Grid.addFreshSnow
      simp only
      split_ifs
      · exact ⟨add_nonneg a hdt, add_nonneg (a.trans b) hdt⟩
      · exact ⟨le_rfl, a⟩
    · exact ⟨add_nonneg a hdt, add_nonneg (a.trans b) hdt⟩
  simp only [Grid.snowProps, Prod.mk.injEq] at p1
  rw [← p1.2.1, ← p1.2.2] at h0
  have e2 := updateAlbedo_grid h2
  simp only at e2
  rw [e2]
  unfold getSurfaceProperties
  simp only
  split_ifs
  · exact h0.2
  · exact h0.1

/-- The roughness length is positive and below the measurement height. -/
theorem roughness_between {c : Consts K} {r : RunCfg K} (hd : DefinedConsts c r) {g : Grid K} (ha : 0 ≤ g.newSnowTimestamp)
    {z : K} (h : updateRoughness c g = .ok z) : 0 < z ∧ z < r.z := by
  obtain ⟨top, rest, hn, -⟩ := roughness_ok h
  obtain ⟨a, b⟩ := C31_range hd.rough hn ha h
  rcases le_or_gt (top.density c) c.snowIceThreshold with hlt | hlt
  · exact ⟨(div_pos hd.fresh (by norm_num)).trans_le (a hlt).1, (a hlt).2.trans_lt hd.firnZ⟩
  · rw [b hlt]
    exact ⟨div_pos hd.ice (by norm_num), hd.iceZ⟩

theorem tStar_ne {c : Consts K} {r : RunCfg K} (hd : DefinedConsts c r) (ts : K) : tStar c ts * c.dt ≠ 0 := by
  have hk := hd.slopeT
  refine mul_ne_zero ?_ hd.step.ne'
  unfold tStar
  split_ifs with h1 h2
  · exact hd.wet.ne'
  · have := mul_nonneg (sub_nonneg.2 hd.cutoff) hk
    exact (add_pos_of_pos_of_nonneg hd.dry this).ne'
  · have := mul_nonneg (sub_nonneg.2 (not_le.1 h1).le) hk
    exact (add_pos_of_pos_of_nonneg hd.dry this).ne'

/-- A time step in the arithmetic with NaN that starts on numbers is a time step on numbers. -/
theorem toNan_step (hl : TranscLaws K) {svN : Solvers (Nan K)} (hb : svN.NotBelow) {fuel : Nat} {c : Consts K} {r : RunCfg K}
    {tlo : K} (hs : Sane c r tlo) (hd : DefinedConsts c r) {s : SimState K} {f : Forcing K} (hf : DefinedForcing f)
    (ht2 : tlo ≤ f.t2) (hw : s.grid.WF) (hg : ∀ n ∈ s.grid.nodes, PhysLayer c tlo n) (ha : AgesOrdered s.grid)
    {s' : SimState (Nan K)} {o : StepOut (Nan K)}
    (h : step svN fuel c.toNan r.toNan s.toNan f.toNan = .ok (s', o)) :
    ∃ t s1 o1, step (constSolver t) fuel (c.withSolver .lbfgsb) r s f = .ok (s1, o1) ∧ s' = s1.toNan ∧ o = o1.toNan := by
  have hc := hs.phys
  have hrho : freshSnowDensity c f ≠ 0 := (hc.air.trans_le (freshSnowDensity_ge hs f)).ne'
  obtain ⟨st⟩ := step_stages h
  -- what was recorded
  have e1 := st.rho
  rw [toNan_freshSnowDensity c hf.wind] at e1
  have e2 := st.precip
  rw [e1, toNan_precipitation hc f hrho, map_eq_ok] at e2
  obtain ⟨sr, e2, e2'⟩ := e2
  have e3 := st.snowfall
  have e4 := st.rain
  rw [← e2', e1, toNan_threshold hc] at e3 e4
  simp only at e3 e4
  have k : r.toNan.dt = N r.dt ∧ f.toNan.t2 = N f.t2 ∧ s.toNan.grid = s.grid.toNan ∧ f.toNan.g = N f.g ∧
    s.toNan.surfaceTemperature = N s.surfaceTemperature ∧ s.toNan.albedoSnow = N s.albedoSnow ∧ r.toNan.slope = N r.slope ∧
    s.toNan.mbCum = N s.mbCum ∧ c.toNan.latHeatMelting = N c.latHeatMelting ∧ c.toNan.waterDensity = N c.waterDensity :=
    ⟨rfl, rfl, rfl, rfl, rfl, rfl, rfl, rfl, rfl, rfl⟩
  obtain ⟨k1, k2, k3, k4, k5, k6, k7, k8, k9, k10⟩ := k
  have e5 := st.remesh
  rw [e1, e3, k1, k2, k3, toNan_applySnowfall hc, Grid.toNan_updateGrid hc, map_eq_ok] at e5
  obtain ⟨g1, e5, i1⟩ := e5
  have e6 := st.albedo
  rw [← i1, k5, k6, toNan_updateAlbedo hd.aging hd.depth (fun _ => tStar_ne hd _), map_eq_ok] at e6
  obtain ⟨⟨g2, al, as⟩, e6, e6'⟩ := e6
  obtain ⟨i2, j1, j2⟩ : g2.toNan = st.g2 ∧ N al = o.albedo ∧ N as = s'.albedoSnow := by
    simpa only [Prod.mk.injEq] using e6'
  have e7 := st.roughness
  rw [← i2, toNan_updateRoughness, map_eq_ok] at e7
  obtain ⟨z0, e7, j3⟩ := e7
  have e8 := st.radiation
  have q1 : pyMax (N f.g) 0 * (1 - N al) = N (pyMax f.g 0 * (1 - al)) := by simp only [nanpush]
  rw [← i2, k1, k4, ← j1, q1, toNan_radiationStep hc, map_eq_ok] at e8
  obtain ⟨⟨g3, sm, pen⟩, e8, e8'⟩ := e8
  obtain ⟨i3, j4, j5⟩ : g3.toNan = st.g3 ∧ N sm = o.subsurfaceMelt ∧ N pen = st.penetrated := by
    simpa only [Prod.mk.injEq] using e8'
  have e9 := st.swnet
  rw [k4, ← j1, q1, ← j5, Nan.sub_num] at e9
  have hage := front_ages hs.dt.le ha e5 e6
  obtain ⟨z1, z2⟩ := roughness_between hd hage e7
  have e10 := st.surface
  rw [← i3] at e10
  obtain ⟨t, g4, fl, e10, i4, j6, j7⟩ := toNan_surface (sw' := pyMax f.g 0 * (1 - al) - pen)
    (mk := fun a b => ⟨r.dt, r.z, z0, f.t2, f.rh2, f.pres, f.u2, (thresholdPrecip c (freshSnowDensity c f) sr).2, r.slope, a, b,
      f.lwin, f.n⟩) hb hd.scheme hs.zero (fun a b => by rw [← j3, e4]; rfl)
    (fun a b t h1 h2 => fluxDefined hl hd hs.dt hf z1 z2 h1 h2) e10
  have e11 := st.vapour
  rw [k1, j6, j7, show fl.toNan.le = N fl.le from rfl, toNan_vapour hc] at e11
  set v := vapourFluxes c r.dt t fl.le with hv
  obtain ⟨j8, j9, j10, j11⟩ : N v.sublimation = o.sublimation ∧ N v.deposition = o.deposition ∧
      N v.evaporation = o.evaporation ∧ N v.condensation = o.condensation := by
    simpa only [Vapour.toNan, Vapour.mk.injEq] using e11
  have e12 := st.meltEnergy
  rw [e9, j7, toNan_meltEnergy] at e12
  set sw := pyMax f.g 0 * (1 - al) - pen with hsw
  have e13 := st.melt
  have q2 : N (meltEnergy sw fl) * N r.dt / (1000 * N c.latHeatMelting) = N (meltEnergy sw fl * r.dt / (1000 * c.latHeatMelting)) := by
    have : (1000 : K) * c.latHeatMelting ≠ 0 := mul_ne_zero (by norm_num) hc.melt.ne'
    simp only [nanpush, this]
  rw [e12, k1, k9, q2] at e13
  set melt := meltEnergy sw fl * r.dt / (1000 * c.latHeatMelting) with hmelt
  set rho := freshSnowDensity c f with hrho'
  set snow := (thresholdPrecip c rho sr).1 with hsnow
  set rain := (thresholdPrecip c rho sr).2 with hrain
  have e14 := st.removal
  rw [i4, e13, ← j8, ← j9, Nan.sub_num, Nan.sub_num, Grid.toNan_removeMeltWeq hc, map_eq_ok] at e14
  obtain ⟨⟨g5, lw⟩, e14, e14'⟩ := e14
  obtain ⟨i5, j12⟩ : g5.toNan = st.g5 ∧ N lw = o.lwcFromLayers := by simpa only [Prod.mk.injEq] using e14'
  have e15 := st.perc
  have q3 : N melt + N v.condensation + N rain / 1000.0 + N lw = N (melt + v.condensation + rain / 1000.0 + lw) := by
    simp only [nanpush]
  rw [← i5, e13, ← j11, e4, ← j12, q3, toNan_percolation, map_eq_ok] at e15
  obtain ⟨⟨g6, q⟩, e15, e15'⟩ := e15
  obtain ⟨i6, j13⟩ : g6.toNan = st.g6 ∧ N q = o.q := by simpa only [Prod.mk.injEq] using e15'
  have e16 := st.refr
  rw [← i6, toNan_refreezing hc, map_eq_ok] at e16
  obtain ⟨⟨g7, rf⟩, e16, e16'⟩ := e16
  obtain ⟨i7, j14⟩ : g7.toNan = st.g7 ∧ N rf = o.refreeze := by simpa only [Prod.mk.injEq] using e16'
  -- the same on numbers
  set surf := snow * (rho / c.waterDensity) - melt + v.sublimation + v.deposition + v.evaporation with hsurf
  let o1 : StepOut K :=
    { rain := rain, snowfall := snow, densityFreshSnow := rho, swnet := sw, albedo := al, z0 := z0,
      fluxes := fl, ts := t, sublimation := v.sublimation, deposition := v.deposition,
      evaporation := v.evaporation, condensation := v.condensation, meltEnergy := meltEnergy sw fl, melt := melt,
      lwcFromLayers := lw, q := q, refreeze := rf, subsurfaceMelt := sm,
      surfMB := surf, intMB := rf - sm, mb := surf + (rf - sm) }
  have fr : FrontStages (constSolver t) fuel (c.withSolver .lbfgsb) r s f o1 as pen g1 g2 g3 g4 g5 g6 g7 :=
    { rho := rfl, rain := ⟨sr, rfl⟩, remesh := e5, albedo := e6, radiation := (radiationStep_withSolver _ _ _ _ _).trans e8,
      surface := e10, vapour := rfl, meltEnergy := rfl, melt := rfl, removal := e14, perc := e15,
      refr := (refreezing_withSolver _ _ _).trans e16 }
  have hs' := hs.withSolver .lbfgsb
  have hp := fr.phys (constSolver_lower t) hs' hw (fun n hn => physLayer_withSolver.2 (hg n hn)) ht2
  obtain ⟨-, -, -, -, -, -, -, w7⟩ := fr.wfs hw
  have hp7 : ∀ n ∈ g7.nodes, PhysLayer c tlo n := fun n hn => physLayer_withSolver.1 (hp.p7 n hn)
  have e17 := st.heat
  rw [← i7, k1, toNan_solveHeat fuel w7 (fun n hn => ⟨(hp7 n hn).height, fun kk hk =>
    thermalDiffusivity_pos hc (hp7 n hn).ice.le (hp7 n hn).water hk⟩), map_eq_ok] at e17
  obtain ⟨g8, e17, i8⟩ := e17
  have hp8 := solveHeat_phys hc w7 hp7 e17
  have e18 := st.dens
  rw [← i8, k1, k7, toNan_densification hl.exp_pos hc (fun n hn => ⟨(hp8 n hn).height, (hp8 n hn).water,
    (density_pos hc (hp8 n hn).ice.le (hp8 n hn).water).1⟩), map_eq_ok] at e18
  obtain ⟨g9, e18, i9⟩ := e18
  let s1 : SimState K := ⟨g9, t, as, s.mbCum + (surf + (rf - sm))⟩
  have st1 : StepStages (constSolver t) fuel (c.withSolver .lbfgsb) r s f s1 o1 :=
    { sr := sr, g1 := g1, g2 := g2, g3 := g3, g4 := g4, g5 := g5, g6 := g6, g7 := g7, g8 := g8, penetrated := pen,
      precip := e2, rho := rfl, snowfall := rfl, rain := rfl, remesh := e5, albedo := e6, roughness := e7,
      radiation := (radiationStep_withSolver _ _ _ _ _).trans e8, swnet := rfl, surface := e10, ts := rfl, vapour := rfl,
      meltEnergy := rfl, melt := rfl, removal := e14, perc := e15, refr := (refreezing_withSolver _ _ _).trans e16,
      heat := e17, dens := (densification_withSolver _ _ _ _ _).trans e18, surfMB := rfl, intMB := rfl, mb := rfl,
      mbCum := rfl, layers := fun h1 h2 => st.layers h1 (by
        rw [← i9]; exact h2) }
  have q4 : N snow * (N rho / N c.waterDensity) - N melt + N v.sublimation + N v.deposition + N v.evaporation = N surf := by
    have := hc.water.ne'
    simp only [nanpush, this, hsurf]
  have e19 := st.surfMB
  rw [e3, e1, k10, e13, ← j8, ← j9, ← j10, q4] at e19
  have e20 := st.intMB
  rw [← j14, ← j4, Nan.sub_num] at e20
  have e21 := st.mb
  rw [e19, e20, Nan.add_num] at e21
  have e22 := st.mbCum
  rw [e21, k8, Nan.add_num] at e22
  have e23 := st.ts
  rw [j6] at e23
  refine ⟨t, s1, o1, st1.step, ?_, ?_⟩
  · cases s'
    simp only at i9 e23 j2 e22
    subst i9 e23 j2 e22
    rfl
  · cases o
    simp only at *
    subst e1 e3 e4 j1 j3 j4 e9 j6 j7 j8 j9 j10 j11 e12 e13 j12 j13 j14 e19 e20 e21
    rfl

end
end Cosipy
