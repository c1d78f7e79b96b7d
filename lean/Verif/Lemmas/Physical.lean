import Verif.Props.C16
import Verif.Props.C17
import Verif.Props.C19
import Verif.Props.C21
import Verif.Props.C22
import Verif.Props.C26
import Verif.Props.C12
import Verif.Props.C33
import Verif.Props.C34
import Verif.Lemmas.Closed
import Verif.Spec.Physical

/-! Physical columns: what every stage of a time step up to densification keeps. -/

set_option autoImplicit false
set_option linter.unusedSectionVars false

namespace Cosipy
section
variable {K : Type} [Field K] [LinearOrder K] [IsStrictOrderedRing K]

theorem closed_phys (c : Consts K) (tlo : K) : Closed (PhysLayer c tlo) where
  merge a b x ha hb := by
    have h1 := (closed_water (K := K)).merge a b x ⟨ha.height, ha.ice, ha.water⟩ ⟨hb.height, hb.ice, hb.water⟩
    obtain ⟨u, v, hu, hv, huv, ht, hi, hw⟩ := merged_weights ha.height hb.height
    have := between_mono (between_convex hu hv huv) ⟨ha.cold, ha.warm⟩ ⟨hb.cold, hb.warm⟩
    exact ⟨h1.1, h1.2.1, h1.2.2, by rw [ht]; exact this.1, by rw [ht]; exact this.2⟩
  split h m x y hh hm hs := by
    have h1 := (closed_water (K := K)).split h m x y hh ⟨hm.height, hm.ice, hm.water⟩ hs
    obtain ⟨θ, _, _, _, hlt, rfl, rfl⟩ := hs.ex
    exact ⟨⟨h1.1.1, h1.1.2.1, h1.1.2.2, hm.cold, hm.warm⟩, ⟨h1.2.1, h1.2.2.1, h1.2.2.2, hm.cold, hm.warm⟩⟩

/-- Freezing keeps a layer physical. -/
theorem refreezeLayer_phys {c : Consts K} (hc : c.Phys) {tlo : K}
    (hcold : (c.specHeatWater - c.specHeatIce) * (c.zeroTemperature - tlo) < c.latHeatMelting) {n m : Node K} {d : K}
    (hv : PhysLayer c tlo n) (h : refreezeLayer c n = .ok (m, d)) : PhysLayer c tlo m := by
  by_cases hs : n.temperature ≤ c.zeroTemperature ∧ 0 < n.lwc
  swap
  · obtain ⟨rfl, _⟩ := refreezeLayer_skip hs h
    exact ⟨hv.1, hv.2, hv.3, hv.4, hv.5⟩
  have hcold' : (c.specHeatWater - c.specHeatIce) * (c.zeroTemperature - n.temperature) < c.latHeatMelting := by
    refine lt_of_le_of_lt (mul_le_mul_of_nonneg_left ?_ (by linarith [hc.cWater])) hcold
    linarith [hv.cold]
  obtain ⟨θ, hθ, e1, e2, e3, e4, e5, e6, e7, o1, o2, o3, o4, o5⟩ := refreezeLayer_freeze hs h
  obtain ⟨b0, b1, b2, b3⟩ := refreezeAmount_bounds hc hv.ice.le hs.2 hs.1 hcold' hθ
  have hwd := hc.water
  have hid := hc.ice
  have hL := hc.melt
  have hci := hc.cIce
  have hcw := hc.cW
  have hr : 0 ≤ c.waterDensity / c.iceDensity := by positivity
  have hice : n.iceFraction ≤ m.iceFraction := by rw [e4]; linarith [mul_nonneg hr b0]
  have hmi : 0 < m.iceFraction := hv.ice.trans_le hice
  have hcap : 0 < m.heatCap c := by
    unfold Node.heatCap
    have h1 : 0 < c.specHeatIce * c.iceDensity * m.iceFraction := by positivity
    have h2 : 0 ≤ c.specHeatWater * c.waterDensity * m.lwc := by positivity
    linarith
  have hq : 0 ≤ θ * (c.waterDensity * c.latHeatMelting) / m.heatCap c := by positivity
  refine ⟨by rw [e2]; exact hv.height, hmi, o4, by rw [e7]; linarith [hv.cold], ?_⟩
  have hle : θ * (c.waterDensity * c.latHeatMelting) ≤ m.heatCap c * (c.zeroTemperature - n.temperature) := by
    refine b3.trans (mul_le_mul_of_nonneg_right ?_ (by linarith [hs.1]))
    unfold Node.heatCap
    have h1 : c.specHeatIce * c.iceDensity * n.iceFraction ≤ c.specHeatIce * c.iceDensity * m.iceFraction :=
      mul_le_mul_of_nonneg_left hice (by positivity)
    have h2 : 0 ≤ c.specHeatWater * c.waterDensity * m.lwc := by positivity
    linarith
  have : θ * (c.waterDensity * c.latHeatMelting) / m.heatCap c ≤ c.zeroTemperature - n.temperature := by
    rw [div_le_iff₀ hcap]; linarith
  rw [e7]; linarith

/-- Transfer of a layer-wise property along a layer-wise relation. -/
theorem forall₂_transfer {P Q : Node K → Prop} {R : Node K → Node K → Prop} {ns ms : List (Node K)}
    (h : List.Forall₂ R ns ms) (hP : ∀ n ∈ ns, P n) (hR : ∀ n m, P n → R n m → Q m) : ∀ m ∈ ms, Q m := by
  induction h with
  | nil => simp
  | cons h0 _ ih =>
    intro m hm
    rcases List.mem_cons.1 hm with rfl | hm
    · exact hR _ _ (hP _ (by simp)) h0
    · exact ih (fun n hn => hP n (by simp [hn])) m hm

end

section
variable {K : Type} [Field K] [LinearOrder K] [IsStrictOrderedRing K] [Transc K]

theorem freshSnowDensity_ge {c : Consts K} {r : RunCfg K} {tlo : K} (hs : Sane c r tlo) (f : Forcing K) :
    c.airDensity ≤ freshSnowDensity c f := by
  unfold freshSnowDensity
  split
  · exact hs.airConst
  · rw [pyMax_eq]
    refine le_max_of_le_right ?_
    have : (50.0 : K) = 50 := by norm_num
    rw [this]; exact hs.air

theorem applySnowfall_phys {c : Consts K} {r : RunCfg K} {tlo : K} (hs : Sane c r tlo) {g : Grid K} {s rho t2 : K}
    (hr : c.airDensity ≤ rho) (ht : tlo ≤ t2) (hg : ∀ n ∈ g.nodes, PhysLayer c tlo n) :
    ∀ n ∈ (applySnowfall c r.dt g s rho t2).nodes, PhysLayer c tlo n := by
  unfold applySnowfall
  split_ifs with h0
  · have : (g.addFreshSnow c s rho (pyMin t2 c.zeroTemperature) 0 r.dt).nodes =
        Node.new c s rho (pyMin t2 c.zeroTemperature) 0 none :: g.nodes := by
      have e : pyInsert g.nodes 0 (Node.new c s rho (pyMin t2 c.zeroTemperature) 0 none) =
          Node.new c s rho (pyMin t2 c.zeroTemperature) 0 none :: g.nodes := by simp [pyInsert]
      unfold Grid.addFreshSnow
      split_ifs <;> exact e
    rw [this]
    intro n hn
    rcases List.mem_cons.1 hn with rfl | hn
    · refine ⟨h0, ?_, le_rfl, ?_, ?_⟩
      · simp only [Node.new]
        have hi := hs.phys.ice
        have ha := hs.phys.air
        refine div_pos ?_ hi
        have : 0 < rho := ha.trans_le hr
        have h2 : 0 < rho / c.iceDensity * c.airDensity := by positivity
        nlinarith
      · simp only [Node.new, pyMin_eq]
        exact le_min ht (hs.low.trans hs.zero)
      · simp only [Node.new, pyMin_eq]
        exact min_le_right _ _
    · exact hg n hn
  · exact hg

/-- The stages of a step before heat conduction. -/
structure FrontStages (sv : Solvers K) (fuel : Nat) (c : Consts K) (r : RunCfg K) (s : SimState K) (f : Forcing K)
    (o : StepOut K) (as pen : K) (g1 g2 g3 g4 g5 g6 g7 : Grid K) : Prop where
  rho : o.densityFreshSnow = freshSnowDensity c f
  rain : ∃ sr, o.rain = (thresholdPrecip c o.densityFreshSnow sr).2
  remesh : (applySnowfall c r.dt s.grid o.snowfall o.densityFreshSnow f.t2).updateGrid fuel c = .ok g1
  albedo : updateAlbedo c g1 s.surfaceTemperature s.albedoSnow = .ok (g2, o.albedo, as)
  radiation : radiationStep c g2 (pyMax f.g 0 * (1 - o.albedo)) r.dt = .ok (g3, o.subsurfaceMelt, pen)
  surface : updateSurfaceTemperature sv c r.wrf g3
    (fun tz1 tz2 => ⟨r.dt, r.z, o.z0, f.t2, f.rh2, f.pres, f.u2, o.rain, r.slope, tz1, tz2, f.lwin, f.n⟩) o.swnet =
      .ok (g4, o.ts, o.fluxes)
  vapour : vapourFluxes c r.dt o.ts o.fluxes.le = ⟨o.sublimation, o.deposition, o.evaporation, o.condensation⟩
  meltEnergy : o.meltEnergy = Cosipy.meltEnergy o.swnet o.fluxes
  melt : o.melt = o.meltEnergy * r.dt / (1000 * c.latHeatMelting)
  removal : g4.removeMeltWeq fuel c (o.melt - o.sublimation - o.deposition) = .ok (g5, o.lwcFromLayers)
  perc : percolation g5 (o.melt + o.condensation + o.rain / 1000.0 + o.lwcFromLayers) = .ok (g6, o.q)
  refr : refreezing c g6 = .ok (g7, o.refreeze)

section Front
variable {sv : Solvers K} {fuel : Nat} {c : Consts K} {r : RunCfg K} {s : SimState K} {f : Forcing K} {o : StepOut K} {as pen : K}
  {g1 g2 g3 g4 g5 g6 g7 : Grid K}

theorem FrontStages.melt_nonneg (st : FrontStages sv fuel c r s f o as pen g1 g2 g3 g4 g5 g6 g7) (hc : c.Phys)
    (hdt : 0 ≤ r.dt) : 0 ≤ o.melt := by
  have hL := hc.melt
  have he := st.meltEnergy
  unfold Cosipy.meltEnergy at he
  rw [pyMax_eq] at he
  have h0 : 0 ≤ o.meltEnergy := by rw [he]; exact le_max_left _ _
  rw [st.melt]; positivity

theorem FrontStages.condensation_nonneg (st : FrontStages sv fuel c r s f o as pen g1 g2 g3 g4 g5 g6 g7) (hdt : 0 ≤ r.dt) :
    0 ≤ o.condensation := by
  have hv := st.vapour
  unfold vapourFluxes at hv
  simp only [pyMin_eq, pyMax_eq] at hv
  split_ifs at hv
  · injection hv with h1 h2 h3 h4
    rw [← h4]
  · injection hv with h1 h2 h3 h4
    rw [← h4]
    exact mul_nonneg (le_max_right _ _) hdt

/-- The counter is right after every stage before heat conduction. -/
theorem FrontStages.wfs (st : FrontStages sv fuel c r s f o as pen g1 g2 g3 g4 g5 g6 g7) (hw : s.grid.WF) :
    (applySnowfall c r.dt s.grid o.snowfall o.densityFreshSnow f.t2).WF ∧ g1.WF ∧ g2.WF ∧ g3.WF ∧ g4.WF ∧ g5.WF ∧ g6.WF ∧
      g7.WF := by
  have w0 : (applySnowfall c r.dt s.grid o.snowfall o.densityFreshSnow f.t2).WF := by
    unfold applySnowfall; split_ifs
    · exact hw.addFreshSnow _ _ _ _ _ _
    · exact hw
  have w1 := w0.updateGrid st.remesh
  have w2 := w1.updateAlbedo st.albedo
  have w3 : g3.WF := w2.radiationStep st.radiation
  have w4 := w3.updateSurfaceTemperature st.surface
  have w5 := w4.removeMeltWeq st.removal
  have w6 := w5.percolation st.perc
  exact ⟨w0, w1, w2, w3, w4, w5, w6, w6.refreezing st.refr⟩

/-- The physical columns and the water input of the stages of a step before heat conduction. -/
structure FrontPhys (c : Consts K) (r : RunCfg K) (s : SimState K) (f : Forcing K) (o : StepOut K) (tlo : K)
    (g1 g2 g3 g4 g5 g6 g7 : Grid K) : Prop where
  p0 : ∀ n ∈ (applySnowfall c r.dt s.grid o.snowfall o.densityFreshSnow f.t2).nodes, PhysLayer c tlo n
  p1 : ∀ n ∈ g1.nodes, PhysLayer c tlo n
  p2 : ∀ n ∈ g2.nodes, PhysLayer c tlo n
  p3 : ∀ n ∈ g3.nodes, PhysLayer c tlo n
  p4 : ∀ n ∈ g4.nodes, PhysLayer c tlo n
  p5 : ∀ n ∈ g5.nodes, PhysLayer c tlo n
  p6 : ∀ n ∈ g6.nodes, PhysLayer c tlo n
  p7 : ∀ n ∈ g7.nodes, PhysLayer c tlo n
  lwcOut : 0 ≤ o.lwcFromLayers
  rain : 0 ≤ o.rain

/-- Everything of a step before heat conduction keeps a column physical. -/
theorem FrontStages.phys (hb : sv.RespectsLower) {tlo : K} (hs : Sane c r tlo)
    (st : FrontStages sv fuel c r s f o as pen g1 g2 g3 g4 g5 g6 g7) (hw : s.grid.WF)
    (hg : ∀ n ∈ s.grid.nodes, PhysLayer c tlo n) (ht2 : tlo ≤ f.t2) : FrontPhys c r s f o tlo g1 g2 g3 g4 g5 g6 g7 := by
  obtain ⟨w0, w1, w2, w3, w4, w5, w6, w7⟩ := st.wfs hw
  have hc := hs.phys
  have hrho : c.airDensity ≤ o.densityFreshSnow := by rw [st.rho]; exact freshSnowDensity_ge hs f
  have hrho0 : 0 < o.densityFreshSnow := hc.air.trans_le hrho
  have p0 := applySnowfall_phys hs (s := o.snowfall) hrho ht2 hg
  have p1 := (closed_phys c tlo).updateGrid w0 hs.first hs.stretch p0 st.remesh
  have p2 : ∀ n ∈ g2.nodes, PhysLayer c tlo n := by
    have e2 := updateAlbedo_grid st.albedo
    have s2 := getSurfaceProperties_nodes c g1
    simp only at e2
    rw [← e2] at s2
    rw [s2.1]; exact p1
  have p3 : ∀ n ∈ g3.nodes, PhysLayer c tlo n := by
    have hrad := st.radiation
    unfold radiationStep at hrad
    split_ifs at hrad with hsw
    · unfold penetratingRadiation at hrad
      split at hrad
      · obtain ⟨init, last, es, fates, a1, a2, a3, a4, a5⟩ := C26_outcome hc hsw.le hs.dt.le
          (fun n hn => ⟨(p2 n hn).height, (p2 n hn).ice, (p2 n hn).water⟩) hrad
        rw [a5]
        intro n hn
        simp only [List.mem_append, List.mem_singleton] at hn
        rcases hn with hn | rfl
        · rw [List.reduceOption_mem_iff] at hn
          have : ∀ (ps : List (Node K × K)) (fs : List (Option (Node K))),
              List.Forall₂ (fun p o => LayerOutcome c r.dt p.2 p.1 o) ps fs →
              (∀ p ∈ ps, PhysLayer c tlo p.1) → some n ∈ fs → PhysLayer c tlo n := by
            intro ps fs hf
            induction hf with
            | nil => intro _ hm; cases hm
            | @cons p o ps fs h0 _ ih =>
              intro hp hm
              rcases List.mem_cons.1 hm with rfl | hm
              · have hpl := hp p (by simp)
                obtain ⟨b1, b2, b3⟩ := h0.height n rfl
                refine ⟨b1, by rw [b3]; exact hpl.ice, ?_, hpl.cold.trans (h0.warms n rfl hpl.warm), h0.melting n rfl⟩
                rcases h0.cases n rfl with hc1 | hc1
                · rw [hc1]; exact hpl.water
                · exact hpl.water.trans hc1.2.2
              · exact ih (fun q hq => hp q (by simp [hq])) hm
          exact this _ _ a4 (fun p hp => p2 p.1 (by rw [a1]; simp [(List.of_mem_zip hp).1])) hn
        · exact p2 n (by rw [a1]; simp)
      · cases hrad
    · have e := (Prod.mk.inj (ok_inj.1 hrad)).1
      rw [← e]; exact p2
  have p4 : ∀ n ∈ g4.nodes, PhysLayer c tlo n := by
    obtain ⟨b1, b2, ⟨top, rest, e1, e2⟩, _⟩ := C34_bounds hb hs.zero st.surface
    rw [e2]
    intro n hn
    rcases List.mem_cons.1 hn with rfl | hn
    · have := p3 top (by simp [e1])
      exact ⟨this.height, this.ice, this.water, hs.low.trans b1, b2⟩
    · exact p3 n (by simp [e1, hn])
  obtain ⟨removed, rest, e1, e2, e3⟩ := C12_prefix w4 st.removal
  have hrem : ∀ n ∈ removed, PhysLayer c tlo n := fun n hn => p4 n (by rw [e1]; simp [hn])
  have hrest : ∀ n ∈ rest, PhysLayer c tlo n := fun n hn => p4 n (by rw [e1]; simp [hn])
  have p5 : ∀ n ∈ g5.nodes, PhysLayer c tlo n := by
    rcases e3 with e3 | ⟨a, below, x, q1, q2, q3⟩
    · rw [e3]; exact hrest
    · rw [q2]
      have ha := hrest a (by simp [q1])
      intro n hn
      rcases List.mem_cons.1 hn with rfl | hn
      · have := (q3 (div_pos (density_pos hc ha.ice.le ha.water).1 hc.water)).1
        exact ⟨this, ha.ice, ha.water, ha.cold, ha.warm⟩
      · exact hrest n (by simp [q1, hn])
  have hlw : 0 ≤ o.lwcFromLayers := by
    rw [e2]
    have : ∀ ns : List (Node K), (∀ n ∈ ns, PhysLayer c tlo n) → 0 ≤ sumWater ns := by
      intro ns
      induction ns with
      | nil => intro _; simp [sumWater, columnSum]
      | cons n ns ih =>
        intro hn
        have h1 := hn n (by simp)
        have h2 := ih (fun m hm => hn m (by simp [hm]))
        have : sumWater (n :: ns) = n.lwc * n.height + sumWater ns := by
          simp [sumWater, columnSum, mul_comm]
        rw [this]
        have := mul_nonneg h1.water h1.height.le
        linarith
    exact this _ hrem
  have h3 : 0 ≤ o.rain := by
    obtain ⟨sr, hsr⟩ := st.rain
    rw [hsr]
    unfold thresholdPrecip
    simp only
    split_ifs with hlt
    · exact le_rfl
    · refine le_trans ?_ (not_lt.1 hlt)
      have := hs.snowMin
      have := hc.water
      have e : (0 : K) ≤ 1000.0 := by norm_num
      positivity
  have hin : 0 ≤ o.melt + o.condensation + o.rain / 1000.0 + o.lwcFromLayers := by
    have h1 := st.melt_nonneg hc hs.dt.le
    have h2 := st.condensation_nonneg hs.dt.le
    have h4 : 0 ≤ o.rain / 1000.0 := div_nonneg h3 (by norm_num)
    linarith
  have p6 : ∀ n ∈ g6.nodes, PhysLayer c tlo n := by
    have hn5 : ∀ n ∈ g5.nodes, 0 < n.height ∧ 0 < n.iceFraction ∧ 0 ≤ n.lwc :=
      fun n hn => ⟨(p5 n hn).height, (p5 n hn).ice, (p5 n hn).water⟩
    have hd := (C16_conserves w5 st.perc).2.1
    have hnn := (C17_nonneg w5 hin hn5 st.perc).2
    intro n hn
    have : n.dryPart ∈ g5.nodes.map Node.dryPart := hd ▸ List.mem_map_of_mem hn
    obtain ⟨m, hm, e⟩ := List.mem_map.1 this
    simp only [Node.dryPart, Prod.mk.injEq] at e
    have pm := p5 m hm
    exact ⟨e.1 ▸ pm.height, e.2.2.1 ▸ pm.ice, hnn n hn, e.2.1 ▸ pm.cold, e.2.1 ▸ pm.warm⟩
  have p7 : ∀ n ∈ g7.nodes, PhysLayer c tlo n :=
    forall₂_transfer (refreezing_ok st.refr).1 p6 fun n m hn ⟨d, hd⟩ => refreezeLayer_phys hc hs.cold hn hd
  exact ⟨p0, p1, p2, p3, p4, p5, p6, p7, hlw, h3⟩

end Front

/-- The physical columns and the water input of the stages of a step. -/
structure StepStages.PhysStages {sv : Solvers K} {fuel : Nat} {c : Consts K} {r : RunCfg K} {s : SimState K} {f : Forcing K}
    {s' : SimState K} {o : StepOut K} (st : StepStages sv fuel c r s f s' o) (tlo : K) : Prop where
  p0 : ∀ n ∈ (applySnowfall c r.dt s.grid o.snowfall o.densityFreshSnow f.t2).nodes, PhysLayer c tlo n
  p1 : ∀ n ∈ st.g1.nodes, PhysLayer c tlo n
  p2 : ∀ n ∈ st.g2.nodes, PhysLayer c tlo n
  p3 : ∀ n ∈ st.g3.nodes, PhysLayer c tlo n
  p4 : ∀ n ∈ st.g4.nodes, PhysLayer c tlo n
  p5 : ∀ n ∈ st.g5.nodes, PhysLayer c tlo n
  p6 : ∀ n ∈ st.g6.nodes, PhysLayer c tlo n
  p7 : ∀ n ∈ st.g7.nodes, PhysLayer c tlo n
  p8 : ∀ n ∈ st.g8.nodes, PhysLayer c tlo n
  lwcOut : 0 ≤ o.lwcFromLayers
  rain : 0 ≤ o.rain

/-- Heat conduction keeps a column physical. -/
theorem solveHeat_phys {fuel : Nat} {c : Consts K} {tlo dt : K} (hc : c.Phys) {g g' : Grid K} (hw : g.WF)
    (hg : ∀ n ∈ g.nodes, PhysLayer c tlo n) (h : solveHeatEquation fuel c g dt = .ok g') : ∀ n ∈ g'.nodes, PhysLayer c tlo n := by
  have ht := C21_max_principle hc hw (fun n hn => ⟨(hg n hn).height, (hg n hn).ice.le, (hg n hn).water⟩) h
    (fun n hn => ⟨(hg n hn).cold, (hg n hn).warm⟩)
  have hf := (C22_only_temperature hw h).1
  have : ∀ m ∈ g'.nodes, 0 < m.height ∧ 0 < m.iceFraction ∧ 0 ≤ m.lwc :=
    forall₂_transfer hf hg fun n m hn e => by
      rw [e]; exact ⟨hn.height, hn.ice, hn.water⟩
  intro n hn
  exact ⟨(this n hn).1, (this n hn).2.1, (this n hn).2.2, (ht n hn).1, (ht n hn).2⟩

/-- The stages of a step before heat conduction. -/
theorem StepStages.front {sv : Solvers K} {fuel : Nat} {c : Consts K} {r : RunCfg K} {s : SimState K} {f : Forcing K}
    {s' : SimState K} {o : StepOut K} (st : StepStages sv fuel c r s f s' o) :
    FrontStages sv fuel c r s f o s'.albedoSnow st.penetrated st.g1 st.g2 st.g3 st.g4 st.g5 st.g6 st.g7 :=
  ⟨st.rho, ⟨st.sr, st.rain⟩, st.remesh, st.albedo, st.radiation, st.surface, st.vapour, st.meltEnergy, st.melt, st.removal,
    st.perc, st.refr⟩

/-- Everything of a step before densification keeps a column physical. -/
theorem StepStages.phys {sv : Solvers K} (hb : sv.RespectsLower) {fuel : Nat} {c : Consts K} {r : RunCfg K} {tlo : K}
    (hs : Sane c r tlo) {s s' : SimState K} {f : Forcing K} {o : StepOut K} (st : StepStages sv fuel c r s f s' o)
    (hw : s.grid.WF) (hg : ∀ n ∈ s.grid.nodes, PhysLayer c tlo n) (ht2 : tlo ≤ f.t2)
    (_h : step sv fuel c r s f = .ok (s', o)) : st.PhysStages tlo := by
  have ws := st.wfs hw
  have hc := hs.phys
  obtain ⟨p0, p1, p2, p3, p4, p5, p6, p7, hlw, h3⟩ := st.front.phys hb hs hw hg ht2
  have p8 : ∀ n ∈ st.g8.nodes, PhysLayer c tlo n := solveHeat_phys hc ws.w7 p7 st.heat
  exact ⟨p0, p1, p2, p3, p4, p5, p6, p7, p8, hlw, h3⟩

/-- Densification is applied to a physical column. -/
theorem step_phys {sv : Solvers K} (hb : sv.RespectsLower) {fuel : Nat} {c : Consts K} {r : RunCfg K} {tlo : K}
    (hs : Sane c r tlo) {s s' : SimState K} {f : Forcing K} {o : StepOut K} (hw : s.grid.WF)
    (hg : ∀ n ∈ s.grid.nodes, PhysLayer c tlo n) (ht2 : tlo ≤ f.t2)
    (h : step sv fuel c r s f = .ok (s', o)) :
    ∃ g8 : Grid K, g8.WF ∧ densification c g8 r.slope r.dt = .ok s'.grid ∧ ∀ n ∈ g8.nodes, PhysLayer c tlo n := by
  obtain ⟨st⟩ := step_stages h
  exact ⟨st.g8, (st.wfs hw).w8, st.dens, (st.phys hb hs hw hg ht2 h).p8⟩

end
end Cosipy
