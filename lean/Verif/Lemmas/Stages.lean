import Verif.Lemmas.Physical
import Verif.Lemmas.Progress
import Verif.Props.C38
import Verif.Props.C73
import Verif.Props.C11
import Verif.Props.C23
import Verif.Props.C24

/-! What the stages of a time step make of good columns, and that they return. -/

set_option autoImplicit false
set_option linter.unusedSectionVars false

namespace Cosipy
section
variable {K : Type} [Field K] [LinearOrder K] [IsStrictOrderedRing K]

theorem GoodLayer.mesh {c : Consts K} {tlo : K} {n : Node K} (h : GoodLayer c tlo n) : Meshable n :=
  ⟨h.phys.height, h.phys.ice, h.phys.water⟩

theorem good_updateGrid {c : Consts K} {tlo : K} {fuel : Nat} {g g' : Grid K} (hw : g.WF) (h1 : 0 < c.firstLayerHeight)
    (h2 : 0 < c.layerStretching) (hg : ∀ n ∈ g.nodes, GoodLayer c tlo n) (h : g.updateGrid fuel c = .ok g') :
    ∀ n ∈ g'.nodes, GoodLayer c tlo n := by
  intro n hn
  have p := (closed_phys c tlo).updateGrid hw h1 h2 (fun n hn => (hg n hn).phys) h n hn
  have q := (closed_ranges (1 / 50 : K) 1 tlo c.zeroTemperature).updateGrid hw h1 h2
    (fun n hn => ⟨(hg n hn).phys.height, ⟨(hg n hn).iceLo, (hg n hn).iceHi⟩, (hg n hn).phys.cold, (hg n hn).phys.warm⟩) h n hn
  exact ⟨p, q.2.1.1, q.2.1.2⟩

theorem irr_le_one {n : Node K} {θ : K} (h1 : 1 / 50 ≤ n.iceFraction) (h2 : n.irreducibleWaterContent = .ok θ) : θ ≤ 1 := by
  unfold Node.irreducibleWaterContent at h2
  have e1 : (0.0264 : K) = 264 / 10000 := by norm_num
  have e2 : (0.0099 : K) = 99 / 10000 := by norm_num
  have e3 : (0.08 : K) = 8 / 100 := by norm_num
  have e4 : (0.1023 : K) = 1023 / 10000 := by norm_num
  have e5 : (0.03 : K) = 3 / 100 := by norm_num
  split_ifs at h2
  · rw [bind_eq_ok] at h2; obtain ⟨q, hq, h2⟩ := h2
    rw [fdiv_eq_ok] at hq
    rw [pure_eq_ok] at h2
    have h0 : 0 < n.iceFraction := lt_of_lt_of_le (by norm_num) h1
    have hq' : q ≤ 49 := by
      rw [hq.2, div_le_iff₀ h0]; linarith
    rw [← h2, e1, e2]; linarith
  · cases h2; rw [e3, e4, e5]; linarith
  · cases h2; exact zero_le_one

theorem good_percolation {c : Consts K} {tlo : K} {g g' : Grid K} {w q : K} (hw : g.WF)
    (hin : 0 ≤ w) (hg : ∀ n ∈ g.nodes, GoodLayer c tlo n) (h : percolation g w = .ok (g', q)) :
    (∀ n ∈ g'.nodes, GoodLayer c tlo n ∧ n.lwc ≤ 1) ∧ g'.nodes.length = g.nodes.length := by
  have hd := (C16_conserves hw h).2.1
  have hnn := (C17_nonneg hw hin (fun n hn => (hg n hn).mesh) h).2
  obtain ⟨init, last, e1, e2, e3⟩ := C17_saturation hw h
  have good : ∀ n ∈ g'.nodes, GoodLayer c tlo n := by
    intro n hn
    have : n.dryPart ∈ g.nodes.map Node.dryPart := hd ▸ List.mem_map_of_mem hn
    obtain ⟨m, hm, e⟩ := List.mem_map.1 this
    simp only [Node.dryPart, Prod.mk.injEq] at e
    have pm := hg m hm
    exact ⟨⟨e.1 ▸ pm.phys.height, e.2.2.1 ▸ pm.phys.ice, hnn n hn, e.2.1 ▸ pm.phys.cold, e.2.1 ▸ pm.phys.warm⟩,
      e.2.2.1 ▸ pm.iceLo, e.2.2.1 ▸ pm.iceHi⟩
  refine ⟨fun n hn => ⟨good n hn, ?_⟩, ?_⟩
  · rw [e1] at hn
    rcases List.mem_append.1 hn with hi | hl
    · obtain ⟨θ, t1, t2⟩ := e3 n hi
      exact t2.trans (irr_le_one (good n (by rw [e1]; simp [hi])).iceLo t1)
    · rw [List.mem_singleton.1 hl, e2]; exact zero_le_one
  · simpa using congrArg List.length hd

theorem good_refreezing {c : Consts K} (hc : c.Phys) {tlo : K}
    (hcold : (c.specHeatWater - c.specHeatIce) * (c.zeroTemperature - tlo) < c.latHeatMelting) {g g' : Grid K} {t : K}
    (hg : ∀ n ∈ g.nodes, GoodLayer c tlo n) (h : refreezing c g = .ok (g', t)) :
    (∀ n ∈ g'.nodes, GoodLayer c tlo n) ∧ g'.nodes.length = g.nodes.length := by
  have hf := (refreezing_ok h).1
  refine ⟨forall₂_transfer hf hg fun n m hn ⟨d, hd⟩ => ?_, hf.length_eq.symm⟩
  have hp := refreezeLayer_phys hc hcold hn.phys hd
  by_cases hs : n.temperature ≤ c.zeroTemperature ∧ 0 < n.lwc
  swap
  · obtain ⟨rfl, _⟩ := refreezeLayer_skip hs hd
    exact ⟨hp, hn.iceLo, hn.iceHi⟩
  have hcold' : (c.specHeatWater - c.specHeatIce) * (c.zeroTemperature - n.temperature) < c.latHeatMelting := by
    refine lt_of_le_of_lt (mul_le_mul_of_nonneg_left ?_ (by linarith [hc.cWater])) hcold
    linarith [hn.phys.cold]
  obtain ⟨θ, hθ, e1, e2, e3, e4, e5, e6, e7, o1, o2, o3, o4, o5⟩ := refreezeLayer_freeze hs hd
  obtain ⟨b0, b1, b2, b3⟩ := refreezeAmount_bounds hc hn.phys.ice.le hs.2 hs.1 hcold' hθ
  have hr : 0 ≤ c.waterDensity / c.iceDensity := div_nonneg hc.water.le hc.ice.le
  have : n.iceFraction ≤ m.iceFraction := by rw [e4]; linarith [mul_nonneg hr b0]
  refine ⟨hp, hn.iceLo.trans this, ?_⟩
  first | exact o2 | exact o3 | exact o1

theorem good_heat {c : Consts K} (hc : c.Phys) {tlo : K} {fuel : Nat} {g g' : Grid K} {dt : K} (hw : g.WF)
    (hg : ∀ n ∈ g.nodes, GoodLayer c tlo n) (h : solveHeatEquation fuel c g dt = .ok g') :
    (∀ n ∈ g'.nodes, GoodLayer c tlo n) ∧ g'.nodes.length = g.nodes.length := by
  have ht := C21_max_principle hc hw (fun n hn => ⟨(hg n hn).phys.height, (hg n hn).phys.ice.le, (hg n hn).phys.water⟩) h
    (fun n hn => ⟨(hg n hn).phys.cold, (hg n hn).phys.warm⟩)
  have hf := (C22_only_temperature hw h).1
  refine ⟨?_, hf.length_eq.symm⟩
  have : ∀ m ∈ g'.nodes, Meshable m ∧ 1 / 50 ≤ m.iceFraction ∧ m.iceFraction ≤ 1 :=
    forall₂_transfer hf hg fun n m hn e => by
      rw [e]; exact ⟨hn.mesh, hn.iceLo, hn.iceHi⟩
  intro n hn
  obtain ⟨⟨a, b, d⟩, e, f⟩ := this n hn
  exact ⟨⟨a, b, d, (ht n hn).1, (ht n hn).2⟩, e, f⟩

theorem good_removal {c : Consts K} (hc : c.Phys) {tlo : K} {fuel : Nat} {g g' : Grid K} {m w : K} (hw : g.WF)
    (hg : ∀ n ∈ g.nodes, GoodLayer c tlo n) (h : g.removeMeltWeq fuel c m = .ok (g', w)) :
    (∀ n ∈ g'.nodes, GoodLayer c tlo n) ∧ 0 ≤ w := by
  obtain ⟨removed, rest, e1, e2, e3⟩ := C12_prefix hw h
  have hrem : ∀ n ∈ removed, GoodLayer c tlo n := fun n hn => hg n (by rw [e1]; simp [hn])
  have hrest : ∀ n ∈ rest, GoodLayer c tlo n := fun n hn => hg n (by rw [e1]; simp [hn])
  constructor
  · rcases e3 with e3 | ⟨a, below, x, q1, q2, q3⟩
    · rw [e3]; exact hrest
    · rw [q2]
      have ha := hrest a (by simp [q1])
      intro n hn
      rcases List.mem_cons.1 hn with rfl | hn
      · have := (q3 (div_pos (density_pos hc ha.phys.ice.le ha.phys.water).1 hc.water)).1
        exact ⟨⟨this, ha.phys.ice, ha.phys.water, ha.phys.cold, ha.phys.warm⟩, ha.iceLo, ha.iceHi⟩
      · exact hrest n (by simp [q1, hn])
  · rw [e2]
    unfold sumWater columnSum
    refine List.sum_nonneg fun x hx => ?_
    obtain ⟨n, hn, rfl⟩ := List.mem_map.1 hx
    exact mul_nonneg (hrem n hn).phys.height.le (hrem n hn).phys.water

theorem sumHeight_bottom {ns : List (Node K)} : bottomDepth ns (ns.length - 1) = sumHeight ns := by
  unfold bottomDepth sumHeight columnSum
  rw [List.take_of_length_le (by omega)]

theorem subsurface_returns {g : Grid K} (hpos : ∀ n ∈ g.nodes, 0 < n.height) (h2 : 2 ≤ g.nodes.length) {z : K}
    (hz : z < sumHeight g.nodes) :
    ∃ t, getSubsurfaceTemperature g (cumsumFrom 0 (g.nodes.map Node.height)) z = .ok t := by
  by_cases h : bottomDepth g.nodes 0 ≤ z
  · have hne : g.nodes ≠ [] := by intro h; rw [h] at h2; simp at h2
    obtain ⟨k, n, m, t, _, _, _, _, ht, _⟩ := C38_between hpos hne h (by rw [sumHeight_bottom]; exact hz)
    exact ⟨t, ht⟩
  · rcases hn : g.nodes with _ | ⟨top, rest⟩
    · rw [hn] at h2; simp at h2
    · rcases List.eq_nil_or_concat rest with rfl | ⟨mid, bot, rfl⟩
      · rw [hn] at h2; simp at h2
      · have := C38_shallow hpos (top := top) (bot := bot) (mid := mid) (by rw [hn]; simp) (not_le.1 h)
        rw [hn] at this
        exact ⟨_, this⟩

theorem interpSubT_returns {c : Consts K} {g : Grid K} (hw : g.WF) (hpos : ∀ n ∈ g.nodes, 0 < n.height)
    (h2 : 2 ≤ g.nodes.length) (hz : c.zlt1 ≤ c.zlt2) (hh : c.zlt2 < sumHeight g.nodes) : ∃ t, interpSubT c g = .ok t := by
  obtain ⟨a, ha⟩ := subsurface_returns hpos h2 (hz.trans_lt hh)
  obtain ⟨b, hb⟩ := subsurface_returns hpos h2 hh
  unfold interpSubT
  rw [Grid.getHeight_eq hw, ok_bind]
  simp only [ha, ok_bind, hb]
  exact ⟨_, rfl⟩

theorem interpSubT_nd {c : Consts K} {g : Grid K} (hw : g.WF) : interpSubT c g ≠ .error .diverge := by
  have sub : ∀ cum z, getSubsurfaceTemperature g cum z ≠ .error .diverge := by
    intro cum z
    unfold getSubsurfaceTemperature
    refine bind_nd ?_ fun i1 _ => bind_nd (pyGet_nd _ _) fun d1 _ => bind_nd (pyGet_nd _ _) fun n1 _ =>
      bind_nd (pyGet_nd _ _) fun n2 _ => bind_nd (pyGet_nd _ _) fun d2 _ => bind_nd (fdiv_ne_diverge _ _) fun s _ h => by cases h
    unfold argmin; split <;> simp
  unfold interpSubT
  rw [Grid.getHeight_eq hw, ok_bind]
  exact bind_nd (sub _ _) fun _ _ => bind_nd (sub _ _) fun _ _ h => by cases h

theorem removeMelt_mono (c : Consts K) (g : Grid K) (m : K) : FuelMono fun n => g.removeMeltWeq n c m := by
  unfold Grid.removeMeltWeq
  exact FuelMono.bind (FuelMono.while (body := fun _ => Grid.removeMeltPass c 0) (fun s => FuelMono.const _) _)
    fun _ => FuelMono.const _

theorem removeMelt_terminates (c : Consts K) {g : Grid K} (hw : g.WF) (m : K) : Terminates fun n => g.removeMeltWeq n c m := by
  refine Terminates.of_lt (removeMelt_mono c g m) ⟨g.nodes.length + 2, ?_⟩
  obtain ⟨g', w, h⟩ := C11_returns c g hw m (fuel := g.nodes.length + 2) le_rfl
  rw [h]; simp

theorem removeMelt_safe (c : Consts K) {g : Grid K} (hw : g.WF) (m : K) (n : Nat) {E : Prop} :
    Safe (g.removeMeltWeq n c m) E :=
  Safe.of_mono (removeMelt_mono c g m) ⟨g.nodes.length + 2, fun k hk => by
    obtain ⟨g', w, h⟩ := C11_returns c g hw m hk
    exact ⟨_, h⟩⟩ n

theorem heat_mono (c : Consts K) (g : Grid K) (dt : K) : FuelMono fun n => solveHeatEquation n c g dt := by
  unfold solveHeatEquation
  refine FuelMono.bind (FuelMono.const _) fun _ => FuelMono.bind (FuelMono.const _) fun st => ?_
  exact FuelMono.bind (FuelMono.while (body := fun _ => heatLoopPass dt st) (fun s => FuelMono.const _) _)
    fun _ => FuelMono.const _

theorem heat_terminates [Archimedean K] {c : Consts K} (hc : c.Phys) (hm : c.thermalConductivityMethod ≠ .other) {g : Grid K}
    (dt : K) (hw : g.WF) (hn : ∀ n ∈ g.nodes, Conducting n) : Terminates fun n => solveHeatEquation n c g dt := by
  by_cases h3 : 3 ≤ g.nodes.length
  · obtain ⟨g', h⟩ := C23_terminates hc hm dt hw hn h3
    exact ⟨_, h⟩
  · refine Terminates.of_lt (heat_mono c g dt) ⟨0, ?_⟩
    obtain ⟨e, he, h⟩ := C24_heat_raises 0 c dt hw (by omega)
    rw [h]; intro h; cases h; exact he rfl

theorem heat_safe [Archimedean K] {c : Consts K} (hc : c.Phys) (hm : c.thermalConductivityMethod ≠ .other) {g : Grid K}
    (dt : K) (hw : g.WF) (hn : ∀ n ∈ g.nodes, Conducting n) (h3 : 3 ≤ g.nodes.length) (n : Nat) {E : Prop} :
    Safe (solveHeatEquation n c g dt) E := by
  obtain ⟨g', _, N, h⟩ := C23_terminates hc hm dt hw hn h3
  exact Safe.of_mono (heat_mono c g dt) ⟨N, fun k hk => ⟨g', h k hk⟩⟩ n

variable [Transc K]

theorem good_snowfall {c : Consts K} {r : RunCfg K} {tlo : K} (hs : Sane c r tlo) {g : Grid K} {s rho t2 : K}
    (h1 : c.iceDensity / 50 + c.airDensity ≤ rho) (h2 : rho ≤ c.iceDensity) (ht : tlo ≤ t2)
    (hg : ∀ n ∈ g.nodes, GoodLayer c tlo n) : ∀ n ∈ (applySnowfall c r.dt g s rho t2).nodes, GoodLayer c tlo n := by
  have hi := hs.phys.ice
  have ha := hs.phys.air
  have hp := applySnowfall_phys hs (s := s) (t2 := t2) (rho := rho) (g := g)
    (le_trans (by linarith [div_nonneg hi.le (by norm_num : (0 : K) ≤ 50)]) h1) ht (fun n hn => (hg n hn).phys)
  intro n hn
  have hph := hp n hn
  unfold applySnowfall at hn
  split_ifs at hn with h0
  · have : (g.addFreshSnow c s rho (pyMin t2 c.zeroTemperature) 0 r.dt).nodes =
        Node.new c s rho (pyMin t2 c.zeroTemperature) 0 none :: g.nodes := by
      have e : pyInsert g.nodes 0 (Node.new c s rho (pyMin t2 c.zeroTemperature) 0 none) =
          Node.new c s rho (pyMin t2 c.zeroTemperature) 0 none :: g.nodes := by simp [pyInsert]
      unfold Grid.addFreshSnow
      split_ifs <;> exact e
    rw [this] at hn
    rcases List.mem_cons.1 hn with rfl | hn
    · have hq : 0 ≤ 1 - rho / c.iceDensity ∧ 1 - rho / c.iceDensity ≤ 1 := by
        constructor
        · have := (div_le_one hi).2 h2; linarith
        · have : 0 ≤ rho / c.iceDensity := div_nonneg (by linarith [div_nonneg hi.le (by norm_num : (0 : K) ≤ 50)]) hi.le
          linarith
      refine ⟨hph, ?_, ?_⟩
      · simp only [Node.new]
        rw [le_div_iff₀ hi]
        nlinarith [hq.1, hq.2]
      · simp only [Node.new]
        rw [div_le_one hi]
        nlinarith [hq.1, hq.2]
    · exact hg n hn
  · exact hg n hn

theorem albedo_returns {c : Consts K} (hm : c.albedoMethod ≠ .other) {g : Grid K} (hw : g.WF) (hne : g.nodes ≠ [])
    (ts a : K) : ∃ x, updateAlbedo c g ts a = .ok x := by
  obtain ⟨top, rest, hn⟩ := List.exists_cons_of_ne_nil hne
  have hs := getSurfaceProperties_nodes c g
  have hw' : (getSurfaceProperties c g).1.WF := by unfold Grid.WF; rw [hs.1, hs.2.1]; exact hw
  have ht : (getSurfaceProperties c g).1.node 0 = .ok top := by
    unfold Grid.node; rw [hs.1, hn]; exact pyGet_zero
  unfold updateAlbedo
  split
  · unfold methodOerlemans
    simp only [ht, ok_bind, Grid.getTotalSnowheight_eq hw']
    split_ifs <;> exact ⟨_, rfl⟩
  · unfold methodBougamont
    simp only [ht, ok_bind, Grid.getTotalSnowheight_eq hw']
    split_ifs <;> exact ⟨_, rfl⟩
  · next h => exact absurd h hm

theorem roughness_returns {c : Consts K} (hm : c.roughnessMethod ≠ .other) {g : Grid K} (hne : g.nodes ≠ []) :
    ∃ x, updateRoughness c g = .ok x := by
  obtain ⟨top, rest, hn⟩ := List.exists_cons_of_ne_nil hne
  have ht : g.node 0 = .ok top := by unfold Grid.node; rw [hn]; exact pyGet_zero
  unfold updateRoughness
  split
  · unfold methodMoelg
    rw [ht, ok_bind]; exact ⟨_, rfl⟩
  · next h => exact absurd h hm

theorem radiation_returns {c : Consts K} (hc : c.Phys) (hm : c.penetratingMethod ≠ .other) {g : Grid K} (hw : g.WF)
    (hne : g.nodes ≠ []) (hg : ∀ n ∈ g.nodes, Meshable n) (sw dt : K) : ∃ x, radiationStep c g sw dt = .ok x := by
  unfold radiationStep
  split_ifs
  · unfold penetratingRadiation
    split
    · exact bintanja_returns hc hw hne hg sw dt
    · next h => exact absurd h hm
  · exact ⟨_, rfl⟩

theorem good_radiation {c : Consts K} (hc : c.Phys) {tlo : K} {g g' : Grid K} {sw dt a b : K} (hdt : 0 < dt)
    (hne : g.nodes ≠ []) (hg : ∀ n ∈ g.nodes, GoodLayer c tlo n) (h : radiationStep c g sw dt = .ok (g', a, b)) :
    (∀ n ∈ g'.nodes, GoodLayer c tlo n) ∧ g'.nodes ≠ [] := by
  unfold radiationStep at h
  split_ifs at h with hsw
  · unfold penetratingRadiation at h
    split at h
    · obtain ⟨init, last, es, fates, a1, a2, a3, a4, a5⟩ := C26_outcome hc hsw.le hdt.le (fun n hn => (hg n hn).mesh) h
      rw [a5]
      refine ⟨?_, by simp⟩
      intro n hn
      simp only [List.mem_append, List.mem_singleton] at hn
      rcases hn with hn | rfl
      · rw [List.reduceOption_mem_iff] at hn
        have : ∀ (ps : List (Node K × K)) (fs : List (Option (Node K))),
            List.Forall₂ (fun p o => LayerOutcome c dt p.2 p.1 o) ps fs →
            (∀ p ∈ ps, GoodLayer c tlo p.1) → some n ∈ fs → GoodLayer c tlo n := by
          intro ps fs hf
          induction hf with
          | nil => intro _ hm; cases hm
          | @cons p o ps fs h0 _ ih =>
            intro hp hm
            rcases List.mem_cons.1 hm with rfl | hm
            · have hpl := hp p (by simp)
              obtain ⟨b1, b2, b3⟩ := h0.height n rfl
              refine ⟨⟨b1, by rw [b3]; exact hpl.phys.ice, ?_, hpl.phys.cold.trans (h0.warms n rfl hpl.phys.warm),
                h0.melting n rfl⟩, b3 ▸ hpl.iceLo, b3 ▸ hpl.iceHi⟩
              rcases h0.cases n rfl with hc1 | hc1
              · rw [hc1]; exact hpl.phys.water
              · exact hpl.phys.water.trans hc1.2.2
            · exact ih (fun q hq => hp q (by simp [hq])) hm
        exact this _ _ a4 (fun p hp => hg p.1 (by rw [a1]; simp [(List.of_mem_zip hp).1])) hn
      · exact hg n (by rw [a1]; simp)
    · cases h
  · have e := (Prod.mk.inj (ok_inj.1 h)).1
    rw [← e]; exact ⟨hg, hne⟩

theorem good_surface {sv : Solvers K} (hb : sv.RespectsLower) {c : Consts K} {tlo : K} (hlow : tlo ≤ 220)
    (hz : 220 ≤ c.zeroTemperature) {wrf : Bool} {g g' : Grid K} {mk : K → K → EbInput K} {sw ts : K} {fl : Fluxes K}
    (hg : ∀ n ∈ g.nodes, GoodLayer c tlo n) (h : updateSurfaceTemperature sv c wrf g mk sw = .ok (g', ts, fl)) :
    (∀ n ∈ g'.nodes, GoodLayer c tlo n) ∧ g'.nodes.length = g.nodes.length := by
  obtain ⟨b1, b2, ⟨top, rest, e1, e2⟩, _⟩ := C34_bounds hb hz h
  rw [e2, e1]
  refine ⟨fun n hn => ?_, rfl⟩
  rcases List.mem_cons.1 hn with rfl | hn
  · have := hg top (by simp [e1])
    exact ⟨⟨this.phys.height, this.phys.ice, this.phys.water, hlow.trans b1, b2⟩, this.iceLo, this.iceHi⟩
  · exact hg n (by simp [e1, hn])

theorem fluxes_return {c : Consts K} (h1 : c.stabilityCorrection ≠ .other) (h2 : c.thermalConductivityMethod ≠ .other)
    {wrf : Bool} {g : Grid K} (hne : g.nodes ≠ []) {i : EbInput K} (hi : i.lwin ≠ none ∨ i.n ≠ none) (t : K) :
    ∃ fl, ebFluxes c wrf g i t = .ok fl := by
  obtain ⟨top, rest, hn⟩ := List.exists_cons_of_ne_nil hne
  have ht : g.node 0 = .ok top := by unfold Grid.node; rw [hn]; exact pyGet_zero
  have hl : ∀ ea, ∃ x, incomingLongwave c i ea = .ok x := by
    intro ea
    unfold incomingLongwave
    split
    · exact ⟨_, rfl⟩
    · exact ⟨_, rfl⟩
    · next h3 h4 => rcases hi with h | h
                    · exact absurd h3 h
                    · exact absurd h4 h
  have hk : ∃ q, top.thermalConductivity c = .ok q := by
    unfold Node.thermalConductivity
    split
    · exact ⟨_, rfl⟩
    · exact ⟨_, rfl⟩
    · next h => exact absurd h h2
  obtain ⟨q, hq⟩ := hk
  unfold ebFluxes
  obtain ⟨x, hx⟩ := hl ((i.rh2 * methodEWSonntag i.t2) / 100)
  simp only [hx, ok_bind]
  cases hm : c.stabilityCorrection with
  | mo =>
    obtain ⟨s, _, _, _, h8, _⟩ := C37_terminates c wrf i t
      ((i.p * 100) / (287.058 * (i.t2 * (1 + 0.608 * ((i.rh2 * 0.622 * (methodEWSonntag i.t2 / (i.p - methodEWSonntag i.t2))) / 100)))))
      (if c.zeroTemperature ≤ t then c.latHeatVaporize else c.latHeatSublimation)
      ((100 * 0.622 * (methodEWSonntag t / (i.p - methodEWSonntag t))) / 100)
      ((i.rh2 * 0.622 * (methodEWSonntag i.t2 / (i.p - methodEWSonntag i.t2))) / 100)
      (Transc.cos (i.slope * Transc.pi / 180))
    have h8' := h8 8 le_rfl
    unfold moIterate at h8'
    simp only [h8', ok_bind, ht, hq]
    exact ⟨_, rfl⟩
  | ri => simp only [ok_bind, ht, hq]; exact ⟨_, rfl⟩
  | other => exact absurd hm h1

end
end Cosipy
