import Verif.Lemmas.File
import Verif.Props.C15
import Verif.Props.C29
import Verif.Props.C31
import Verif.Props.C33
import Verif.Props.C34
import Verif.Props.C39
import Verif.Props.C59

/-!
# C70 — the numbers in a result file are physically consistent

Relations between the values of different variables at the same cell and time, for every finished program run:
`C70_balance`, `C70_signs`, `C70_energy`, `C70_temperature`, `C70_heights`, `C70_layers` with its instances
`C70_layers_constant`, `C70_layers_empirical`, `C70_layers_general`, `C70_mixture`, `C70_albedo`, `C70_roughness`.
`C70_start`: the column built from scratch is physical.
-/

set_option autoImplicit false
set_option linter.unusedSectionVars false

namespace Cosipy
section
variable {K : Type} [Field K] [LinearOrder K] [IsStrictOrderedRing K] [Transc K] [HasTrunc K] {τ : Type} [DecidableEq τ]
  {sv : Solvers K} {fuel : Nat} {c : Consts K} {r : RunCfg K} {cfg : SelectCfg K} {fill : K} {times : List τ}
  {io out : IOState K} {input : Nat → Nat → CellInput K τ} {y x t : Nat}

/-- **C70, mass balance.** Total is surface plus internal; internal is refreezing minus subsurface melt; surface is
snowfall minus melt plus the vapour terms. -/
theorem C70_balance (F : Finished sv fuel c r cfg fill times io input out y x t) {mb smb imb rf sub sn me su de ev : K}
    (h1 : FileValue io out .internal "MB" t y x 0 mb) (h2 : FileValue io out .internal "surfMB" t y x 0 smb)
    (h3 : FileValue io out .internal "intMB" t y x 0 imb) (h4 : FileValue io out .internal "REFREEZE" t y x 0 rf)
    (h5 : FileValue io out .internal "subM" t y x 0 sub) (h6 : FileValue io out .atm "SNOWFALL" t y x 0 sn)
    (h7 : FileValue io out .internal "surfM" t y x 0 me) (h8 : FileValue io out .internal "SUBLIMATION" t y x 0 su)
    (h9 : FileValue io out .internal "DEPOSITION" t y x 0 de)
    (h10 : FileValue io out .internal "EVAPORATION" t y x 0 ev) :
    mb = smb + imb ∧ imb = rf - sub ∧ smb = sn - me + su + de + ev := by
  obtain ⟨s0, sE, fs, os, sp, st, f, o, -, -, -, -, -, -, -, hst, -, hs, -⟩ := F.step
  have e1 : mb = o.mb := hs _ _ _ _ (by decide) (by decide +kernel) h1
  have e2 : smb = o.surfMB := hs _ _ _ _ (by decide) (by decide +kernel) h2
  have e3 : imb = o.intMB := hs _ _ _ _ (by decide) (by decide +kernel) h3
  have e4 : rf = o.refreeze := hs _ _ _ _ (by decide) (by decide +kernel) h4
  have e5 : sub = o.subsurfaceMelt := hs _ _ _ _ (by decide) (by decide +kernel) h5
  have e6 : sn = o.snowfall * o.densityFreshSnow / c.waterDensity := hs _ _ _ _ (by decide) (by decide +kernel) h6
  have e7 : me = o.melt := hs _ _ _ _ (by decide) (by decide +kernel) h7
  have e8 : su = o.sublimation := hs _ _ _ _ (by decide) (by decide +kernel) h8
  have e9 : de = o.deposition := hs _ _ _ _ (by decide) (by decide +kernel) h9
  have e10 : ev = o.evaporation := hs _ _ _ _ (by decide) (by decide +kernel) h10
  obtain ⟨b1, b2, b3⟩ := C33_balance hst
  subst e1 e2 e3 e4 e5 e6 e7 e8 e9 e10
  exact ⟨b3, b2, by rw [b1, mul_div_assoc]⟩

/-- **C70, signs.** Sublimation and evaporation remove mass, deposition and condensation add it; below the melting point
there is no evaporation or condensation, at the melting point no sublimation or deposition. -/
theorem C70_signs (F : Finished sv fuel c r cfg fill times io input out y x t) (hdt : 0 ≤ r.dt) {su de ev co ts : K}
    (h1 : FileValue io out .internal "SUBLIMATION" t y x 0 su) (h2 : FileValue io out .internal "DEPOSITION" t y x 0 de)
    (h3 : FileValue io out .internal "EVAPORATION" t y x 0 ev) (h4 : FileValue io out .internal "CONDENSATION" t y x 0 co)
    (h5 : FileValue io out .atm "TS" t y x 0 ts) :
    su ≤ 0 ∧ ev ≤ 0 ∧ 0 ≤ de ∧ 0 ≤ co ∧ (ts < c.zeroTemperature → ev = 0 ∧ co = 0) ∧
    (c.zeroTemperature ≤ ts → su = 0 ∧ de = 0) ∧ (su = 0 ∨ de = 0) ∧ (ev = 0 ∨ co = 0) := by
  obtain ⟨s0, sE, fs, os, sp, st, f, o, -, -, -, -, -, -, -, hst, -, hs, -⟩ := F.step
  have e1 : su = o.sublimation := hs _ _ _ _ (by decide) (by decide +kernel) h1
  have e2 : de = o.deposition := hs _ _ _ _ (by decide) (by decide +kernel) h2
  have e3 : ev = o.evaporation := hs _ _ _ _ (by decide) (by decide +kernel) h3
  have e4 : co = o.condensation := hs _ _ _ _ (by decide) (by decide +kernel) h4
  have e5 : ts = o.ts := hs _ _ _ _ (by decide) (by decide +kernel) h5
  subst e1 e2 e3 e4 e5
  exact C33_signs (r := (input y x).cfg r) hdt hst

/-- **C70, energy.** The vapour terms carry the latent heat flux; the melt is paid for by the melt energy, which is never
negative. -/
theorem C70_energy (F : Finished sv fuel c r cfg fill times io input out y x t) (hc : c.Phys) (hdt : 0 ≤ r.dt)
    {su de ev co le me sm : K} (h1 : FileValue io out .internal "SUBLIMATION" t y x 0 su)
    (h2 : FileValue io out .internal "DEPOSITION" t y x 0 de) (h3 : FileValue io out .internal "EVAPORATION" t y x 0 ev)
    (h4 : FileValue io out .internal "CONDENSATION" t y x 0 co) (h5 : FileValue io out .atm "LE" t y x 0 le)
    (h6 : FileValue io out .internal "ME" t y x 0 me) (h7 : FileValue io out .internal "surfM" t y x 0 sm) :
    c.waterDensity * (c.latHeatSublimation * (su + de) + c.latHeatVaporize * (ev + co)) = le * r.dt ∧
    sm * (1000 * c.latHeatMelting) = me * r.dt ∧ 0 ≤ me ∧ 0 ≤ sm := by
  obtain ⟨s0, sE, fs, os, sp, st, f, o, -, -, -, -, -, -, -, hst, -, hs, -⟩ := F.step
  have e1 : su = o.sublimation := hs _ _ _ _ (by decide) (by decide +kernel) h1
  have e2 : de = o.deposition := hs _ _ _ _ (by decide) (by decide +kernel) h2
  have e3 : ev = o.evaporation := hs _ _ _ _ (by decide) (by decide +kernel) h3
  have e4 : co = o.condensation := hs _ _ _ _ (by decide) (by decide +kernel) h4
  have e5 : le = o.fluxes.le := hs _ _ _ _ (by decide) (by decide +kernel) h5
  have e6 : me = o.meltEnergy := hs _ _ _ _ (by decide) (by decide +kernel) h6
  have e7 : sm = o.melt := hs _ _ _ _ (by decide) (by decide +kernel) h7
  subst e1 e2 e3 e4 e5 e6 e7
  obtain ⟨m1, m2, -, m4⟩ := C33_melt (r := (input y x).cfg r) hc hdt hst
  exact ⟨C33_energy (r := (input y x).cfg r) hc hst, m4, m1, m2⟩

/-- **C70, surface temperature.** -/
theorem C70_temperature (F : Finished sv fuel c r cfg fill times io input out y x t) (hb : sv.RespectsLower)
    (hz : 220 ≤ c.zeroTemperature) {ts : K} (h : FileValue io out .atm "TS" t y x 0 ts) :
    220 ≤ ts ∧ ts ≤ c.zeroTemperature := by
  obtain ⟨s0, sE, fs, os, sp, st, f, o, -, -, -, -, -, -, -, hst, -, hs, -⟩ := F.step
  have e : ts = o.ts := hs _ _ _ _ (by decide) (by decide +kernel) h
  subst e
  obtain ⟨a, b, -⟩ := C34_step hb hz hst
  exact ⟨a, b⟩

/-- **C70, layers and heights.** `LAYERS` is a whole number `m`; the first `m` entries of `LAYER_HEIGHT` add up to
`TOTALHEIGHT`, all further entries are missing values; some first entries add up to `SNOWHEIGHT`. -/
theorem C70_heights (F : Finished sv fuel c r cfg fill times io input out y x t) {m th sh : K}
    (h1 : FileValue io out .internal "LAYERS" t y x 0 m) (h2 : FileValue io out .internal "TOTALHEIGHT" t y x 0 th)
    (h3 : FileValue io out .internal "SNOWHEIGHT" t y x 0 sh) {h : Nat → K}
    (h4 : ∀ k, FileValue io out .full "HEIGHT" t y x k (h k)) :
    ∃ n ns : Nat, m = n ∧ ns ≤ n ∧ th = ((List.range n).map h).sum ∧ sh = ((List.range ns).map h).sum ∧
      ∀ k, n ≤ k → h k = fill := by
  obtain ⟨s0, sE, fs, os, sp, st, f, o, -, -, -, -, -, -, -, hst, -, hs, hl⟩ := F.step
  have e1 : m = st.grid.nodes.length := hs _ _ _ _ (by decide) (by decide +kernel) h1
  have e2 : th = (st.grid.nodes.map Node.height).sum := hs _ _ _ _ (by decide) (by decide +kernel) h2
  have e3 : sh = ((st.grid.nodes.take (st.grid.nodes.countP fun n => decide (n.density c < c.snowIceThreshold))).map
    Node.height).sum := hs _ _ _ _ (by decide) (by decide +kernel) h3
  have e4 : ∀ k n, st.grid.nodes[k]? = some n → h k = n.height := fun k n hn =>
    (hl "HEIGHT" k (h k) (by decide +kernel) (h4 k)).1 n hn
  have key : ∀ j, j ≤ st.grid.nodes.length → (st.grid.nodes.take j).map Node.height = (List.range j).map h := by
    intro j hj
    apply List.ext_getElem
    · simp [hj]
    · intro i a b
      simp only [List.length_map, List.length_take, List.length_range] at a b
      have : i < st.grid.nodes.length := by omega
      simp only [List.getElem_map, List.getElem_take, List.getElem_range]
      exact (e4 i _ (List.getElem?_eq_getElem this)).symm
  have hcp := List.countP_le_length (p := fun n => decide (n.density c < c.snowIceThreshold)) (l := st.grid.nodes)
  refine ⟨st.grid.nodes.length, _, e1, hcp, ?_, ?_, fun k hk => (hl "HEIGHT" k (h k) (by decide +kernel) (h4 k)).2 hk⟩
  · rw [e2, ← key _ le_rfl, List.take_length]
  · rw [e3, key _ hcp]

/-- The air temperatures a simulation reads are those of the input. -/
theorem prepare_t2 {d : CellData K} {fs : List (Forcing K)} (h : prepare cfg d = .ok fs) : ∀ f ∈ fs, f.t2 ∈ d.t2 := by
  unfold prepare at h
  rw [bind_eq_ok] at h
  obtain ⟨sel, -, h⟩ := h
  rw [mapM_eq_ok_iff] at h
  intro f hf
  obtain ⟨i, -, hi⟩ : ∃ i ∈ List.range d.nt, forcingAt d sel i = .ok f := by
    generalize List.range d.nt = is at h ⊢
    induction h with
    | nil => cases hf
    | cons h0 _ ih =>
      rcases List.mem_cons.1 hf with rfl | hf
      · exact ⟨_, by simp, h0⟩
      · obtain ⟨i, h1, h2⟩ := ih hf
        exact ⟨i, by simp [h1], h2⟩
  unfold forcingAt at hi
  simp only [bind_eq_ok] at hi
  obtain ⟨t2, h2, _, _, _, _, _, _, _, _, _, _, _, _, _, _, _, _, hi⟩ := hi
  rw [pure_eq_ok] at hi
  subst hi
  obtain ⟨_, _, h2⟩ := pyGet_eq_ok.1 h2
  exact List.mem_of_getElem? h2

/-- **C70, layers.** As long as the columns of the cell's simulation are physical (see C59 and the two theorems below):
heights are positive, temperatures between `tlo` and the melting point, liquid water is not negative, ice fractions
positive, densities at least that of air, the cold content is not negative and vanishes exactly at the melting point. -/
theorem C70_layers (F : Finished sv fuel c r cfg fill times io input out y x t) (hc : c.Phys) {tlo : K}
    (hphys : ∀ s0 sE fs os, CellRun sv fuel c r cfg (input y x) s0 sE fs os → ∀ s',
      Visited sv fuel c ((input y x).cfg r) s0 fs s' → ∀ n ∈ s'.grid.nodes, PhysLayer c tlo n) :
    ∃ m : Nat, (∀ k, m ≤ k → ∀ name v, (OutKind.full, name) ∈ computed →
        FileValue io out .full name t y x k v → v = fill) ∧
      (∀ v, FileValue io out .internal "LAYERS" t y x 0 v → v = m) ∧
      ∀ k, k < m →
        (∀ v, FileValue io out .full "HEIGHT" t y x k v → 0 < v) ∧
        (∀ v, FileValue io out .full "T" t y x k v → tlo ≤ v ∧ v ≤ c.zeroTemperature) ∧
        (∀ v, FileValue io out .full "LWC" t y x k v → 0 ≤ v) ∧
        (∀ v, FileValue io out .full "ICE_FRACTION" t y x k v → 0 < v) ∧
        (∀ v, FileValue io out .full "RHO" t y x k v → c.airDensity ≤ v) ∧
        (∀ v, FileValue io out .full "CC" t y x k v → 0 ≤ v ∧
          ∀ T, FileValue io out .full "T" t y x k T → (v = 0 ↔ T = c.zeroTemperature)) ∧
        (∀ v, FileValue io out .full "IRREDUCIBLE_WATER" t y x k v → 0 ≤ v) := by
  obtain ⟨s0, sE, fs, os, sp, st, f, o, hcr, -, -, -, -, -, -, hst, hrun, hs, hl⟩ := F.step
  have hv : Visited sv fuel c ((input y x).cfg r) s0 fs st :=
    ⟨fs.take (t + 1), fs.drop (t + 1), _, (List.take_append_drop _ _).symm, hrun⟩
  have hp := hphys s0 sE fs os hcr st hv
  refine ⟨st.grid.nodes.length, fun k hk name v hm h => (hl name k v hm h).2 hk,
    fun v h => hs _ _ _ _ (by decide) (by decide +kernel) h, fun k hk => ?_⟩
  have hn := List.getElem?_eq_getElem hk
  generalize st.grid.nodes[k] = n at hn
  have P := hp n (List.mem_of_getElem? hn)
  have hpor : 0 ≤ n.airPorosity := by unfold Node.airPorosity; rw [pyMax_eq]; exact le_max_left _ _
  have hsum : 1 ≤ n.iceFraction + n.lwc + n.airPorosity := by
    unfold Node.airPorosity; rw [pyMax_eq]
    have := le_max_right 0 (1 - n.lwc - n.iceFraction)
    linarith
  have hrho : c.airDensity ≤ n.density c := by
    unfold Node.density
    have a1 := mul_le_mul_of_nonneg_left (hc.air_lt.le.trans hc.thr_le) P.ice.le
    have a2 := mul_le_mul_of_nonneg_left (hc.air_lt.le.trans (hc.thr_le.trans hc.ice_le)) P.water
    have a3 := mul_le_mul_of_nonneg_right hsum hc.air.le
    linarith
  have hcap : 0 < n.specificHeat c * n.density c * n.height := by
    have b1 : 0 < n.specificHeat c := by
      unfold Node.specificHeat
      have := mul_pos P.ice hc.cIce
      have := mul_nonneg hpor hc.cAir.le
      have := mul_nonneg P.water hc.cW.le
      linarith
    have := hc.air.trans_le hrho
    have := P.height
    positivity
  have get : ∀ name v, (OutKind.full, name) ∈ computed → FileValue io out .full name t y x k v →
      LayerMeans c name n v := fun name v hm h => (hl name k v hm h).1 n hn
  refine ⟨fun v h => ?_, fun v h => ?_, fun v h => ?_, fun v h => ?_, fun v h => ?_, fun v h => ?_, fun v h => ?_⟩
  · have e : v = n.height := get _ _ (by decide +kernel) h
    rw [e]; exact P.height
  · have e : v = n.temperature := get _ _ (by decide +kernel) h
    rw [e]; exact ⟨P.cold, P.warm⟩
  · have e : v = n.lwc := get _ _ (by decide +kernel) h
    rw [e]; exact P.water
  · have e : v = n.iceFraction := get _ _ (by decide +kernel) h
    rw [e]; exact P.ice
  · have e : v = n.density c := get _ _ (by decide +kernel) h
    rw [e]; exact hrho
  · have e : v = n.specificHeat c * n.density c * n.height * (c.zeroTemperature - n.temperature) :=
      get _ _ (by decide +kernel) h
    rw [e]
    refine ⟨mul_nonneg hcap.le (by linarith [P.warm]), fun T hT => ?_⟩
    have eT : T = n.temperature := get _ _ (by decide +kernel) hT
    rw [mul_eq_zero, or_iff_right hcap.ne', eT, sub_eq_zero, eq_comm]
  · have e : n.irreducibleWaterContent = .ok v := get _ _ (by decide +kernel) h
    have q1 : (0.23 : K) = 23 / 100 := by norm_num
    have q2 : (0.812 : K) = 812 / 1000 := by norm_num
    have q3 : (0.0264 : K) = 264 / 10000 := by norm_num
    have q4 : (0.0099 : K) = 99 / 10000 := by norm_num
    have q5 : (0.08 : K) = 8 / 100 := by norm_num
    have q6 : (0.1023 : K) = 1023 / 10000 := by norm_num
    have q7 : (0.03 : K) = 3 / 100 := by norm_num
    unfold Node.irreducibleWaterContent at e
    rw [q1, q2, q3, q4, q5, q6, q7] at e
    split_ifs at e with c1 c2
    · rw [bind_eq_ok] at e
      obtain ⟨q, hq, e⟩ := e
      rw [fdiv_of_ne P.ice.ne'] at hq
      cases hq
      rw [pure_eq_ok] at e
      subst e
      have : 0 ≤ (1 - n.iceFraction) / n.iceFraction := div_nonneg (by linarith) P.ice.le
      positivity
    · cases e
      linarith [c2.2]
    · cases e
      exact le_rfl

/-- **C70, porosity and density.** In every layer, ice fraction, water content and porosity add up to one; the density
is that of the mixture of ice, water and the air in the pores. -/
theorem C70_mixture (F : Finished sv fuel c r cfg fill times io input out y x t) {m : Nat}
    (hm : FileValue io out .internal "LAYERS" t y x 0 (m : K)) {k : Nat} (hk : k < m) {por ice lwc rho : K}
    (h1 : FileValue io out .full "POROSITY" t y x k por) (h2 : FileValue io out .full "ICE_FRACTION" t y x k ice)
    (h3 : FileValue io out .full "LWC" t y x k lwc) (h4 : FileValue io out .full "RHO" t y x k rho) :
    ice + lwc + por = 1 ∧ rho = ice * c.iceDensity + lwc * c.waterDensity + max 0 por * c.airDensity := by
  obtain ⟨s0, sE, fs, os, sp, st, f, o, -, -, -, -, -, -, -, -, -, hs, hl⟩ := F.step
  have e : (m : K) = st.grid.nodes.length := hs _ _ _ _ (by decide) (by decide +kernel) hm
  have e' : m = st.grid.nodes.length := by exact_mod_cast e
  have hn := List.getElem?_eq_getElem (e' ▸ hk)
  generalize st.grid.nodes[k]'(e' ▸ hk) = n at hn
  have e1 : por = 1 - n.iceFraction - n.lwc := (hl _ k _ (by decide +kernel) h1).1 n hn
  have e2 : ice = n.iceFraction := (hl _ k _ (by decide +kernel) h2).1 n hn
  have e3 : lwc = n.lwc := (hl _ k _ (by decide +kernel) h3).1 n hn
  have e4 : rho = n.density c := (hl _ k _ (by decide +kernel) h4).1 n hn
  subst e1 e2 e3 e4
  refine ⟨by ring, ?_⟩
  unfold Node.density Node.airPorosity
  rw [pyMax_eq]
  congr 3
  ring

/-- A layer created from a density that is at least the density of air. -/
theorem new_phys {tlo h rho T : K} (hc : c.Phys) (hh : 0 < h) (hr : c.airDensity ≤ rho) (h1 : tlo ≤ T)
    (h2 : T ≤ c.zeroTemperature) : PhysLayer c tlo (Node.new c h rho T 0 none) := by
  refine ⟨hh, ?_, le_rfl, h1, h2⟩
  show 0 < (rho - (1 - rho / c.iceDensity) * c.airDensity) / c.iceDensity
  have hi := hc.ice
  have ha := hc.air
  have : 0 < rho / c.iceDensity * c.airDensity := by have := ha.trans_le hr; positivity
  apply div_pos _ hi
  linarith

/-- **C70, start.** A column built from scratch is physical if the configured initial densities are at least that of air
and the configured bottom temperature and the first air temperature are at least `tlo`. -/
theorem C70_start (ht : TruncSpec K) (hc : c.Phys) {tlo : K} (hI : 0 < c.initialGlacierLayerHeights)
    (hG : 0 < c.initialGlacierHeight) (hd1 : c.airDensity ≤ c.initialTopDensitySnowpack)
    (hd2 : c.airDensity ≤ c.initialBottomDensitySnowpack) (hd3 : c.initialTopDensitySnowpack ≤ c.iceDensity)
    (hd4 : c.initialBottomDensitySnowpack ≤ c.iceDensity) (hb1 : tlo ≤ c.temperatureBottom)
    (hb2 : c.temperatureBottom ≤ c.zeroTemperature) {d : CellData K} (hT : ∀ v ∈ d.t2, tlo ≤ v) {sh : Option K}
    {g : Grid K} (h : startColumn c d sh none = .ok g) : ∀ n ∈ g.nodes, PhysLayer c tlo n := by
  unfold startColumn at h
  simp only [bind_eq_ok] at h
  obtain ⟨t2, h2, h⟩ := h
  have ht2 : tlo ≤ t2 := by
    obtain ⟨_, _, h2⟩ := pyGet_eq_ok.1 h2
    exact hT _ (List.mem_of_getElem? h2)
  have hz : tlo ≤ c.zeroTemperature := hb1.trans hb2
  have hbt : ∀ T, BetweenEnds c.temperatureBottom (min t2 c.zeroTemperature) T → tlo ≤ T ∧ T ≤ c.zeroTemperature := by
    rintro T ⟨a, b⟩
    exact ⟨(le_min hb1 (le_min ht2 hz)).trans a, b.trans (max_le hb2 (min_le_right _ _))⟩
  have hia : c.airDensity ≤ c.iceDensity := hc.air_lt.le.trans hc.thr_le
  rcases lt_or_ge 0 (initialSnow c sh) with hs | hs
  · obtain ⟨k, kI, tl, hk, hkI, htl, he⟩ := initSnowpack_snow ht (t2 := t2) hI hG.le hs
    have hg := ok_inj.1 (he.symm.trans h)
    have htemp : ∀ n ∈ g.nodes, tlo ≤ n.temperature ∧ n.temperature ≤ c.zeroTemperature := by
      obtain ⟨g', _, _, hg', -, -, -, -, -, -, -, ht', -⟩ := C39_snowpack_partial ht hc (t2 := t2) hI hG.le hs hd3 hd4
      have : g' = g := ok_inj.1 (hg'.symm.trans h)
      subst this
      exact fun n hn => hbt _ (ht' n hn).2.2
    intro n hn
    obtain ⟨t1, t2'⟩ := htemp n hn
    rw [← hg] at hn
    change n ∈ mkLayers c _ at hn
    rw [mkLayers, List.mem_map] at hn
    obtain ⟨v, hv, rfl⟩ := hn
    have hpos : 0 < v.1 ∧ c.airDensity ≤ v.2.1 := by
      rcases List.mem_append.1 hv with hv | hv
      · unfold snowLayers at hv
        split_ifs at hv with h0
        · rw [List.mem_singleton] at hv
          subst hv
          exact ⟨hs, hd1⟩
        · rw [List.mem_map] at hv
          obtain ⟨i, hi, rfl⟩ := hv
          have hkpos : (0 : K) < k := by exact_mod_cast (Nat.pos_of_ne_zero h0)
          have hik : ((i + 1 : Nat) : K) ≤ (k : K) := by exact_mod_cast List.mem_range.1 hi
          have e1 : (initialSnow c sh / (k : K)) * ((i + 1 : Nat) : K) ≤ initialSnow c sh := by
            rw [div_mul_eq_mul_div, div_le_iff₀ hkpos]
            exact mul_le_mul_of_nonneg_left hik hs.le
          refine ⟨div_pos hs hkpos, ?_⟩
          have := (between_linear (a := c.initialTopDensitySnowpack) (b := c.initialBottomDensitySnowpack) hs
            (by positivity) e1).1
          rw [← mul_assoc] at this
          exact (le_min hd2 hd1).trans this
      · unfold iceLayers at hv
        rw [List.mem_map] at hv
        obtain ⟨i, hi, rfl⟩ := hv
        exact ⟨hI, hia⟩
    exact new_phys hc hpos.1 hpos.2 t1 t2'
  · obtain ⟨g', hg', -, hice, htemp, -, -, -⟩ := C39_ice_only ht hc (t2 := t2) hI hG hs
    have : g' = g := ok_inj.1 (hg'.symm.trans h)
    subst this
    intro n hn
    obtain ⟨e1, e2⟩ := hice.pure n hn
    obtain ⟨e3, -, e4⟩ := htemp n hn
    exact ⟨e1 ▸ hI, e2 ▸ one_pos, e3.ge, (hbt _ e4).1, (hbt _ e4).2⟩

/-- **C70, layers with constant-density snow.** With the `constant` densification the premise of `C70_layers` holds for
physical start columns and air temperatures of at least `tlo`. -/
theorem C70_layers_constant (hb : sv.RespectsLower) {tlo : K} (hs : Sane c r tlo)
    (hm : c.densificationMethod = .constant)
    (hstart : ∀ g, startColumn c (input y x).data (input y x).snowheight (input y x).restart = .ok g →
      ∀ n ∈ g.nodes, PhysLayer c tlo n) (hT : ∀ v ∈ (input y x).data.t2, tlo ≤ v) :
    ∀ s0 sE fs os, CellRun sv fuel c r cfg (input y x) s0 sE fs os → ∀ s',
      Visited sv fuel c ((input y x).cfg r) s0 fs s' → ∀ n ∈ s'.grid.nodes, PhysLayer c tlo n := by
  rintro s0 sE fs os hc s' ⟨pre, suf, os', rfl, hr⟩
  have hs' : Sane c ((input y x).cfg r) tlo :=
    ⟨hs.phys, hs.first, hs.stretch, hs.snowMin, hs.air, hs.airConst, hs.low, hs.zero, hs.cold, hs.dt⟩
  exact C59_run_constant hb hs' hm (startColumn_wf hc.column) (hstart _ hc.column)
    (fun f hf => hT _ (prepare_t2 hc.forcing f (List.mem_append_left _ hf))) hr

/-- A column built from scratch has no snow age yet. -/
theorem startColumn_ages {d : CellData K} {sh : Option K} {g : Grid K} (h : startColumn c d sh none = .ok g) :
    AgesOrdered g := by
  have cg : ∀ {hs ds ts ws : List K} {fs : Option (List K)} {g : Grid K},
      createGrid c hs ds ts ws fs none none none = .ok g → AgesOrdered g := by
    intro hs ds ts ws fs g h
    rw [createGrid_eq] at h
    unfold Grid.new at h
    rw [bind_eq_ok] at h
    obtain ⟨ns, _, h⟩ := h
    rw [pure_eq_ok] at h
    subst h
    exact ⟨le_rfl, le_rfl⟩
  unfold startColumn at h
  rw [bind_eq_ok] at h
  obtain ⟨t2, _, h⟩ := h
  unfold initSnowpack at h
  simp only at h
  split_ifs at h
  · rw [bind_eq_ok] at h
    obtain ⟨_, _, h⟩ := h
    exact cg h
  · rw [bind_eq_ok] at h
    obtain ⟨_, _, h⟩ := h
    exact cg h
  · exact cg h

/-- Ages when albedo and roughness are computed. -/
theorem StepStages.ages {rc : RunCfg K} {s s' : SimState K} {f : Forcing K} {o : StepOut K}
    (st : StepStages sv fuel c rc s f s' o) (hdt : 0 ≤ rc.dt) (ha : AgesOrdered s.grid) :
    0 ≤ st.g1.newSnowTimestamp ∧ 0 ≤ st.g1.oldSnowTimestamp ∧ 0 ≤ st.g2.newSnowTimestamp := by
  have p1 : st.g1.snowProps = _ := Grid.HP.updateGrid rfl st.remesh
  have h0 : 0 ≤ (applySnowfall c rc.dt s.grid o.snowfall o.densityFreshSnow f.t2).newSnowTimestamp ∧
      0 ≤ (applySnowfall c rc.dt s.grid o.snowfall o.densityFreshSnow f.t2).oldSnowTimestamp := by
    obtain ⟨a, b⟩ := ha
    unfold applySnowfall
    split_ifs
    · unfold Grid.addFreshSnow
      simp only
      split_ifs
      · exact ⟨add_nonneg a hdt, add_nonneg (a.trans b) hdt⟩
      · exact ⟨le_rfl, a⟩
    · exact ⟨add_nonneg a hdt, add_nonneg (a.trans b) hdt⟩
  simp only [Grid.snowProps, Prod.mk.injEq] at p1
  rw [← p1.2.1, ← p1.2.2] at h0
  refine ⟨h0.1, h0.2, ?_⟩
  have e2 := updateAlbedo_grid st.albedo
  simp only at e2
  rw [e2]
  unfold getSurfaceProperties
  simp only
  split_ifs
  · exact h0.2
  · exact h0.1

/-- **C70, roughness.** The recorded roughness length is that of ice or lies between those of fresh snow and firn. -/
theorem C70_roughness (F : Finished sv fuel c r cfg fill times io input out y x t) (ho : c.RoughnessOrder)
    (hdt : 0 ≤ r.dt) (hrs : (input y x).restart = none) {z : K} (h : FileValue io out .atm "Z0" t y x 0 z) :
    z = c.roughnessIce / 1000 ∨ (c.roughnessFreshSnow / 1000 ≤ z ∧ z ≤ c.roughnessFirn / 1000) := by
  obtain ⟨s0, sE, fs, os, sp, st, f, o, hcr, hw0, -, -, hpre, hwp, -, hst, -, hs, -⟩ := F.step
  have e : z = o.z0 := hs _ _ _ _ (by decide) (by decide +kernel) h
  subst e
  have hcol := hcr.column
  rw [hrs] at hcol
  have hap : AgesOrdered sp.grid := C15_ordered (r := (input y x).cfg r) hdt _ hw0 (startColumn_ages hcol) hpre
  obtain ⟨S⟩ := step_stages hst
  obtain ⟨-, -, hage⟩ := S.ages hdt hap
  obtain ⟨top, rest, hn, -⟩ := roughness_ok S.roughness
  obtain ⟨a, b⟩ := C31_range ho hn hage S.roughness
  rcases le_or_gt (top.density c) c.snowIceThreshold with hd | hd
  · exact .inr (a hd)
  · exact .inl (b hd)

end

section
variable {τ : Type} [DecidableEq τ]
  {sv : Solvers ℝ} {fuel : Nat} {c : Consts ℝ} {r : RunCfg ℝ} {cfg : SelectCfg ℝ} {fill : ℝ} {times : List τ}
  {io out : IOState ℝ} {input : Nat → Nat → CellInput ℝ τ} {y x t : Nat}

/-- **C70, layers with empirical densification**, for time steps below about nine hours. -/
theorem C70_layers_empirical (hb : sv.RespectsLower) {tlo : ℝ} (hs : Sane c r tlo)
    (hm : c.densificationMethod = .empirical) (hx : (600 - c.airDensity) * (1 + (r.dt / 800000) ^ 2) < 600)
    (hstart : ∀ g, startColumn c (input y x).data (input y x).snowheight (input y x).restart = .ok g →
      ∀ n ∈ g.nodes, PhysLayer c tlo n) (hT : ∀ v ∈ (input y x).data.t2, tlo ≤ v) :
    ∀ s0 sE fs os, CellRun sv fuel c r cfg (input y x) s0 sE fs os → ∀ s',
      Visited sv fuel c ((input y x).cfg r) s0 fs s' → ∀ n ∈ s'.grid.nodes, PhysLayer c tlo n := by
  rintro s0 sE fs os hc s' ⟨pre, suf, os', rfl, hr⟩
  have hs' : Sane c ((input y x).cfg r) tlo :=
    ⟨hs.phys, hs.first, hs.stretch, hs.snowMin, hs.air, hs.airConst, hs.low, hs.zero, hs.cold, hs.dt⟩
  exact C59_run_empirical hb hs' hm hx (startColumn_wf hc.column) (hstart _ hc.column)
    (fun f hf => hT _ (prepare_t2 hc.forcing f (List.mem_append_left _ hf))) hr

/-- **C70, layers in general.** For every densification method the premise of `C70_layers` can be read off the file: it
holds if all recorded layer heights of the cell are positive (compaction can make them negative, C59). -/
theorem C70_layers_general (F : Finished sv fuel c r cfg fill times io input out y x t) (hb : sv.RespectsLower) {tlo : ℝ}
    (hs : Sane c r tlo) (hcos : c.densificationMethod = .vionnet → 0 ≤ Real.cos (input y x).slope)
    (hstart : ∀ g, startColumn c (input y x).data (input y x).snowheight (input y x).restart = .ok g →
      ∀ n ∈ g.nodes, PhysLayer c tlo n) (hT : ∀ v ∈ (input y x).data.t2, tlo ≤ v)
    (hw1 : io.wants .internal "LAYERS" = true) (hw2 : io.wants .full "HEIGHT" = true)
    (hpos : ∀ t' < times.length, ∀ m : Nat, FileValue io out .internal "LAYERS" t' y x 0 (m : ℝ) → ∀ k < m, ∀ v,
      FileValue io out .full "HEIGHT" t' y x k v → 0 < v) :
    ∀ s0 sE fs os, CellRun sv fuel c r cfg (input y x) s0 sE fs os → ∀ s',
      Visited sv fuel c ((input y x).cfg r) s0 fs s' → ∀ n ∈ s'.grid.nodes, PhysLayer c tlo n := by
  intro s0 sE fs os hc
  have hs' : Sane c ((input y x).cfg r) tlo :=
    ⟨hs.phys, hs.first, hs.stretch, hs.snowMin, hs.air, hs.airConst, hs.low, hs.zero, hs.cold, hs.dt⟩
  refine C59_run hb hs' hcos (startColumn_wf hc.column) (hstart _ hc.column)
    (fun f hf => hT _ (prepare_t2 hc.forcing f hf)) ?_
  rintro s' ⟨pre, suf, os', hfs, hr⟩ n hn
  cases hp : pre.length with
  | zero =>
    have : pre = [] := List.length_eq_zero_iff.1 hp
    subst this
    rw [run] at hr
    cases hr
    exact (hstart _ hc.column n hn).height
  | succ t' =>
    have hlen : fs.length = times.length := by rw [hc.count, F.sizes y x]
    have ht' : t' < times.length := by rw [← hlen, hfs, List.length_append]; omega
    obtain ⟨s0', sE', fs', os'', sp, st, f, o, hcr, -, -, -, -, -, -, -, hrun, hse, hl⟩ := (F.at ht').step
    obtain ⟨rfl, rfl, rfl, rfl⟩ := hcr.unique hc
    have hpre : fs'.take (t' + 1) = pre := by rw [hfs, ← hp, List.take_left]
    rw [hpre] at hrun
    have : st = s' := (Prod.mk.inj (ok_inj.1 (hrun.symm.trans hr))).1
    subst this
    obtain ⟨m, hm⟩ := (F.at ht').value (kind := .internal) (name := "LAYERS") (by decide +kernel) hw1 0
    have em : m = st.grid.nodes.length := hse _ _ _ _ (by decide) (by decide +kernel) hm
    subst em
    obtain ⟨k, hk, rfl⟩ := List.getElem_of_mem hn
    obtain ⟨v, hv⟩ := (F.at ht').value (kind := .full) (name := "HEIGHT") (by decide +kernel) hw2 k
    have ev : v = st.grid.nodes[k].height := (hl _ k _ (by decide +kernel) hv).1 _ (List.getElem?_eq_getElem hk)
    rw [← ev]
    exact hpos t' ht' _ hm k hk v hv

/-- **C70, albedo.** With the Oerlemans parameterisation the recorded albedo lies between those of ice and fresh snow, as
long as the columns of the cell's simulation are physical. -/
theorem C70_albedo (F : Finished sv fuel c r cfg fill times io input out y x t) (hb : sv.RespectsLower) {tlo : ℝ}
    (hs : Sane c r tlo) (ho : c.AlbedoOrder) (hm : c.albedoMethod = .oerlemans98) (hrs : (input y x).restart = none)
    (hT : ∀ v ∈ (input y x).data.t2, tlo ≤ v)
    (hphys : ∀ s0 sE fs os, CellRun sv fuel c r cfg (input y x) s0 sE fs os → ∀ s',
      Visited sv fuel c ((input y x).cfg r) s0 fs s' → ∀ n ∈ s'.grid.nodes, PhysLayer c tlo n)
    {a : ℝ} (h : FileValue io out .atm "ALBEDO" t y x 0 a) : c.albedoIce ≤ a ∧ a ≤ c.albedoFreshSnow := by
  obtain ⟨s0, sE, fs, os, sp, st, f, o, hcr, hw0, -, hf, hpre, hwp, -, hst, -, hse, -⟩ := F.step
  have e : a = o.albedo := hse _ _ _ _ (by decide) (by decide +kernel) h
  subst e
  have hs' : Sane c ((input y x).cfg r) tlo :=
    ⟨hs.phys, hs.first, hs.stretch, hs.snowMin, hs.air, hs.airConst, hs.low, hs.zero, hs.cold, hs.dt⟩
  have hcol := hcr.column
  rw [hrs] at hcol
  have hap : AgesOrdered sp.grid :=
    C15_ordered (r := (input y x).cfg r) hs.dt.le _ hw0 (startColumn_ages hcol) hpre
  have hp : ∀ n ∈ sp.grid.nodes, PhysLayer c tlo n :=
    hphys s0 sE fs os hcr sp ⟨fs.take t, fs.drop t, _, (List.take_append_drop _ _).symm, hpre⟩
  obtain ⟨S⟩ := step_stages hst
  obtain ⟨h1, h2, -⟩ := S.ages hs.dt.le hap
  have hph := S.phys hb hs' hwp hp (hT _ (prepare_t2 hcr.forcing f (List.mem_of_getElem? hf))) hst
  have hal := S.albedo
  unfold updateAlbedo at hal
  rw [hm] at hal
  simp only [bind_eq_ok] at hal
  obtain ⟨⟨g, a⟩, ha, hal⟩ := hal
  rw [pure_eq_ok] at hal
  obtain ⟨rfl, rfl, -⟩ := by simpa using hal
  obtain ⟨q1, q2, -⟩ := C29_range ho (S.wfs hwp).w1 (fun n hn => (hph.p1 n hn).height.le) h1 h2 ha
  exact ⟨q1, q2⟩

end
/-! ## The hypotheses are met -/

theorem finished_of_raised {K τ : Type} [Field K] [LinearOrder K] [IsStrictOrderedRing K] [Transc K] [HasTrunc K]
    [DecidableEq τ] {sv : Solvers K} {fuel : Nat} {c : Consts K} {r : RunCfg K} {cfg : SelectCfg K} {fill : K}
    {times : List τ} {io : IOState K} {input : Nat → Nat → CellInput K τ} {y x t : Nat} {sc : StakeCfg}
    {g nan : Nat → Nat → Bool} (hg : g y x = true)
    (h : raised (simulateDomain sv fuel c r cfg fill times sc io g nan input List.reverse) = none)
    (hio : ∀ k, io.attrs k = none) (ht : ∀ y x, times.length = (input y x).data.nt) (hy : y < io.ny) (hx : x < io.nx)
    (htt : t < times.length) : ∃ out, Finished sv fuel c r cfg fill times io input out y x t := by
  cases hr : simulateDomain sv fuel c r cfg fill times sc io g nan input List.reverse with
  | error e => rw [hr] at h; cases h
  | ok v =>
    exact ⟨v.1, ⟨sc, g, nan, List.reverse, v.2, fun l => List.reverse_perm l, hg, hr⟩, hio, ht, hy, hx, htt⟩

/-- A placeholder solver that respects its lower bound. -/
def exSolversB : Solvers ℚ := ⟨fun _ _ => .ok 270, fun _ _ _ lo _ => .ok (max lo 270)⟩

attribute [local instance] exTransc exTrunc in
/-- A program run on three cells of a 2×2 domain that finished; second time step of the cell in row 1, column 0. -/
example : (∃ out, Finished exSolversB 40 exConstsQ exCfg exSel (-9999) [0, 1] exIOQ exInput out 1 0 1) ∧
    exConstsQ.Phys ∧ 0 ≤ exCfg.dt ∧ exSolversB.RespectsLower ∧ Sane exConstsQ exCfg 200 ∧
    exConstsQ.densificationMethod = .constant ∧ exConstsQ.RoughnessOrder ∧ (∀ v ∈ (exInput 1 0).data.t2, 200 ≤ v) ∧
    (exInput 1 0).restart = none ∧ exIOQ.wants .internal "MB" = true :=
  ⟨finished_of_raised (sc := ⟨false, false, false⟩) (g := exMask) (nan := fun _ _ => false) (by decide +kernel)
      (by decide +kernel) (fun _ => rfl) (fun _ _ => rfl) (by decide +kernel) (by decide +kernel) (by decide +kernel),
    by constructor <;> decide +kernel, by decide +kernel,
    fun m f x lo hi r h => by cases h; exact le_max_left _ _,
    by constructor <;> first | (constructor <;> decide +kernel) | decide +kernel,
    rfl, by constructor <;> decide +kernel, by decide +kernel, rfl, by decide +kernel⟩

/-- The shipped constants meet the conditions of `C70_start`, `C70_layers_general` and `C70_albedo`, and with the
empirical densification those of `C70_layers_empirical`. -/
example : TruncSpec ℝ ∧ (Consts.default ℝ).Phys ∧ Sane (Consts.default ℝ) ⟨3600, 2, 10, 200, true, false⟩ 150 ∧
    (Consts.default ℝ).AlbedoOrder ∧ (Consts.default ℝ).albedoMethod = .oerlemans98 ∧
    (Consts.default ℝ).airDensity ≤ (Consts.default ℝ).initialTopDensitySnowpack ∧
    (Consts.default ℝ).airDensity ≤ (Consts.default ℝ).initialBottomDensitySnowpack ∧
    (Consts.default ℝ).initialTopDensitySnowpack ≤ (Consts.default ℝ).iceDensity ∧
    (Consts.default ℝ).initialBottomDensitySnowpack ≤ (Consts.default ℝ).iceDensity ∧
    150 ≤ (Consts.default ℝ).temperatureBottom ∧
    (Consts.default ℝ).temperatureBottom ≤ (Consts.default ℝ).zeroTemperature ∧
    (600 - (Consts.default ℝ).airDensity) * (1 + ((3600 : ℝ) / 800000) ^ 2) < 600 := by
  refine ⟨truncSpec_real, Consts.default_phys, ⟨Consts.default_phys, ?_, ?_, ?_, ?_, ?_, ?_, ?_, ?_, ?_⟩,
    Consts.default_albedo, rfl, ?_, ?_, ?_, ?_, ?_, ?_, ?_⟩ <;> norm_num [Consts.default]

end Cosipy
