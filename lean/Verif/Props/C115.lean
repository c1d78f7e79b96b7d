import Verif.Lemmas.Capped
import Verif.Props.C81
import Verif.Props.C59

/-!
# C115 Upper limits survive floating-point rounding

C81 is about signs. Here are the upper limits, in the same rounded arithmetic: no layer ever holds more ice than its volume
(`iceFraction ≤ 1`), in any stage of a time step (`C115_step`), as long as the fresh snow is not denser than ice. Merging divides a
sum of products by the sum of their second factors, and a monotone rounding cannot lift this above one; freezing is guarded by the code's
own range check. Empirical and constant densification keep the limit too, so that it holds for whole runs (`C115_run_constant`,
`C115_run_partial`). Boone and Vionnet compaction multiply the ice fraction without a limit: `C115_boone_refuted` is a column
that ends with more ice than volume.

The albedo of the Oerlemans scheme lies between 0 and 1 in rounded arithmetic, and the net shortwave radiation between 0 and the
incoming one (`C115_albedo`, `C115_shortwave`).
-/

set_option autoImplicit false
set_option linter.unusedSectionVars false

namespace Cosipy
section
variable {α : Type} [LinearOrder α] [Zero α] [One α] [Add α] [Sub α] [Mul α] [Div α] [Neg α] [NatCast α] [OfScientific α]
  [Rounded α] [RoundedDiv α] [Transc α]
open Rounded

/-- Empirical densification approaches 600 kg m⁻³ from below. -/
theorem empiricalLayer_full (hx : ExpSigns α) {c : Consts α} (h1 : 0 ≤ c.iceDensity) (h2 : 0 ≤ c.waterDensity)
    (h3 : 0 ≤ c.airDensity) (h6 : (600.0 : α) ≤ c.iceDensity) {dt : α} (hdt : 0 ≤ dt) {n n' : Node α} (hn : CappedLayer n)
    (h : empiricalLayer c dt n = .ok n') : n'.iceFraction ≤ 1 := by
  unfold empiricalLayer at h
  simp only [bind_eq_ok] at h
  obtain ⟨q, hq, h⟩ := h
  have hq := fdiv_ok hq
  split_ifs at h with hlt
  · simp only [bind_eq_ok] at h
    obtain ⟨q', _, h⟩ := h
    rw [pure_eq_ok] at h; subst h
    have hρ := density_nn h1 h2 h3 hn.ice hn.water
    have hlow : n.density c - 600.0 ≤ 0 := by
      refine Rounded.sub_nonpos ?_
      by_contra hc
      have h5 : (600.0 : α) - n.density c ≤ 0 := Rounded.sub_nonpos (not_le.1 hc).le
      have h7 : q ≤ 0 := by
        rw [hq]
        refine Rounded.div_nonpos (Rounded.mul_nonpos (Rounded.mul_nonpos' ?_ h5) hdt) hρ
        exact Rounded.div_nonneg zero_le_one (nat_nonneg _)
      have h8 : (1 : α) - 0 ≤ 1 - q := sub_mono le_rfl h7
      rw [Rounded.sub_zero] at h8
      exact absurd hlt (not_lt.2 h8)
    refine div_le_one_of_le' h1 (le_trans ?_ h6)
    have h9 : (600.0 : α) + (n.density c - 600.0) * Transc.exp (-dt / 800000) ≤ 600.0 + 0 :=
      add_mono le_rfl (Rounded.mul_nonpos hlow (hx.nonneg _))
    rwa [Rounded.add_zero] at h9
  · rw [pure_eq_ok] at h; subst h; exact hn.full

theorem empiricalLayers_full (hx : ExpSigns α) {c : Consts α} (h1 : 0 ≤ c.iceDensity) (h2 : 0 ≤ c.waterDensity)
    (h3 : 0 ≤ c.airDensity) (h6 : (600.0 : α) ≤ c.iceDensity) {dt : α} (hdt : 0 ≤ dt) : ∀ (k : Nat) (ns : List (Node α))
    {ns' : List (Node α)}, (∀ n ∈ ns, CappedLayer n) → empiricalLayers c dt k ns = .ok ns' → ∀ n ∈ ns', n.iceFraction ≤ 1
  | 0, ns, ns', hn, h => by rw [empiricalLayers] at h; cases h; exact fun n hm => (hn n hm).full
  | k + 1, [], ns', hn, h => by rw [empiricalLayers] at h; cases h
  | k + 1, a :: ns, ns', hn, h => by
    rw [empiricalLayers] at h
    simp only [bind_eq_ok] at h
    obtain ⟨a', ha, tl, ht, h⟩ := h
    rw [pure_eq_ok] at h; subst h
    have := empiricalLayers_full hx h1 h2 h3 h6 hdt k ns (fun n hm => hn n (by simp [hm])) ht
    intro n hm
    rcases List.mem_cons.1 hm with rfl | hm
    · exact empiricalLayer_full hx h1 h2 h3 h6 hdt (hn a (by simp)) ha
    · exact this n hm

/-- Melting does not touch the ages of the snow. -/
theorem removeMelt_ages {g : Grid α} {fuel : Nat} {c : Consts α} {m : α} {r : Grid α × α} (h : g.removeMeltWeq fuel c m = .ok r) :
    r.1.newSnowTimestamp = g.newSnowTimestamp ∧ r.1.oldSnowTimestamp = g.oldSnowTimestamp := by
  unfold Grid.removeMeltWeq at h
  rw [bind_eq_ok] at h; obtain ⟨s1, hl, h⟩ := h
  have h1 := (whileM_inv (fun s : Grid.MeltState α => s.g.HP g.snowProps) (fun s s' hs hb => by
    unfold Grid.removeMeltPass at hb
    split_ifs at hb
    · rw [bind_eq_ok] at hb; obtain ⟨a, ha, hb⟩ := hb
      simp only at hb
      split_ifs at hb with hlt
      · simp only [bind_eq_ok] at hb
        obtain ⟨x, hx, g1, hg1, hb⟩ := hb
        rw [pure_eq_ok] at hb; cases hb
        exact hs.modifyNode hg1
      · simp only [bind_eq_ok] at hb
        obtain ⟨g1, hg1, hb⟩ := hb
        rw [pure_eq_ok] at hb; cases hb
        exact hs.removeNode hg1
      · rw [pure_eq_ok] at hb; cases hb; exact hs
    · rw [pure_eq_ok] at hb; cases hb) fuel ⟨g, m, 0⟩ s1 (show g.snowProps = g.snowProps from rfl) hl).1
  rw [pure_eq_ok] at h; subst h
  simp only [Grid.HP, Grid.snowProps, Prod.mk.injEq] at h1
  simp only
  split_ifs
  · exact ⟨h1.2.1, h1.2.2⟩
  · exact ⟨h1.2.1, h1.2.2⟩

/-- The height of the snow is not negative. -/
theorem snowheight_nonneg {c : Consts α} {g : Grid α} {h : α} (hg : ∀ n ∈ g.nodes, 0 ≤ n.height)
    (he : g.getTotalSnowheight c = .ok h) : 0 ≤ h := by
  unfold Grid.getTotalSnowheight Grid.getSnowHeights at he
  simp only [bind_eq_ok] at he
  obtain ⟨hs, ⟨k, _, he⟩, h1⟩ := he
  rw [pure_eq_ok] at h1; subst h1
  have hall : ∀ x ∈ hs, 0 ≤ x := by
    revert he
    generalize List.range k = l
    intro he
    induction l generalizing hs with
    | nil => rw [List.mapM_nil, pure_eq_ok] at he; subst he; simp
    | cons i l ih =>
      rw [List.mapM_cons, bind_eq_ok] at he
      obtain ⟨a, ha, he⟩ := he
      rw [bind_eq_ok] at he
      obtain ⟨tl, ht, he⟩ := he
      rw [pure_eq_ok] at he; subst he
      rw [bind_eq_ok] at ha
      obtain ⟨nd, hnd, ha⟩ := ha
      rw [pure_eq_ok] at ha; subst ha
      intro x hx
      rcases List.mem_cons.1 hx with rfl | hx
      · unfold Grid.node at hnd
        obtain ⟨j, _, hj⟩ := pyGet_eq_ok.1 hnd
        exact hg nd (List.mem_of_getElem? hj)
      · exact ih _ ht x hx
  have : ∀ (l : List α) (a : α), 0 ≤ a → (∀ x ∈ l, 0 ≤ x) → 0 ≤ l.foldl (· + ·) a := by
    intro l
    induction l with
    | nil => intro a ha _; exact ha
    | cons x l ih =>
      intro a ha hl
      exact ih _ (Rounded.add_nonneg ha (hl x (by simp))) fun y hy => hl y (by simp [hy])
  exact this hs 0 le_rfl hall

/-- **C115, albedo.** In rounded arithmetic the albedo of the Oerlemans scheme lies between 0 and 1. -/
theorem C115_albedo (hx : ExpSigns α) {c : Consts α} (hb : BrightSane c) {g g' : Grid α} {a : α}
    (hh : ∀ n ∈ g.nodes, 0 ≤ n.height) (ht : 0 ≤ g.newSnowTimestamp) (ht' : 0 ≤ g.oldSnowTimestamp)
    (h : methodOerlemans c g = .ok (g', a)) : 0 ≤ a ∧ a ≤ 1 := by
  have hfirn1 : c.albedoFirn ≤ 1 := by
    refine le_trans ?_ hb.top
    have := add_mono (le_refl c.albedoFirn) (Rounded.sub_nonneg hb.fresh)
    rwa [Rounded.add_zero] at this
  unfold methodOerlemans at h
  have hage : 0 ≤ (getSurfaceProperties c g).2 := by
    unfold getSurfaceProperties
    simp only
    split_ifs
    · exact Rounded.div_nonneg ht' (lit_nonneg _ _ _)
    · exact Rounded.div_nonneg ht (lit_nonneg _ _ _)
  have hn := (getSurfaceProperties_nodes c g).1
  rcases hp : getSurfaceProperties c g with ⟨g1, hours⟩
  rw [hp] at h hage hn
  simp only [bind_eq_ok] at h hage hn
  obtain ⟨top, _, h⟩ := h
  split_ifs at h
  · simp only [bind_eq_ok] at h
    obtain ⟨hs, h1, h⟩ := h
    rw [pure_eq_ok, Prod.mk.injEq] at h
    obtain ⟨-, rfl⟩ := h
    have hs0 := snowheight_nonneg (by rw [hn]; exact hh) h1
    have e1 := hx.le_one (-hours / (c.albedoModSnowAging * 24.0))
      (Rounded.div_nonpos (Rounded.neg_nonpos hage) (Rounded.mul_nonneg hb.aging (lit_nonneg _ _ _)))
    have e1' := hx.nonneg (-hours / (c.albedoModSnowAging * 24.0))
    have hd := Rounded.sub_nonneg hb.fresh
    have s0 : c.albedoFirn ≤ getSimpleAlbedo c hours := by
      have := add_mono (le_refl c.albedoFirn) (Rounded.mul_nonneg hd e1')
      rwa [Rounded.add_zero] at this
    have s1 : getSimpleAlbedo c hours ≤ 1 := by
      refine le_trans (add_mono (le_refl c.albedoFirn) ?_) hb.top
      have := mul_mono_left hd e1
      rwa [Rounded.mul_one] at this
    generalize getSimpleAlbedo c hours = s at *
    have e2 := hx.le_one (-1.0 * hs / (c.albedoModSnowDepth / 100.0))
      (Rounded.div_nonpos (Rounded.mul_nonpos (Rounded.neg_nonpos (lit_nonneg _ _ _)) hs0)
        (Rounded.div_nonneg hb.depth (lit_nonneg _ _ _)))
    have e2' := hx.nonneg (-1.0 * hs / (c.albedoModSnowDepth / 100.0))
    unfold getAlbedoWithDecay
    generalize Transc.exp (-1.0 * hs / (c.albedoModSnowDepth / 100.0)) = e at *
    have hdn : c.albedoIce - s ≤ 0 := Rounded.sub_nonpos (hb.firn.trans s0)
    constructor
    · refine Rounded.add_nonneg_of_neg_le ?_
      have h4 : (0 : α) - s ≤ c.albedoIce - s := sub_mono hb.ice le_rfl
      rw [Rounded.zero_sub] at h4
      have h5 := mul_anti_left hdn e2
      rw [Rounded.mul_one] at h5
      exact h4.trans h5
    · have := add_mono (le_refl s) (Rounded.mul_nonpos hdn e2')
      rw [Rounded.add_zero] at this
      exact this.trans s1
  · rw [pure_eq_ok, Prod.mk.injEq] at h
    obtain ⟨-, rfl⟩ := h
    exact ⟨hb.ice, hb.firn.trans hfirn1⟩

/-- **C115, one step.** In rounded arithmetic, from a column in which no layer holds more ice than its volume, with fresh snow not
denser than ice: no layer does in any column between the stages of the step; with constant or empirical
densification none does after the step either. -/
theorem C115_step (hx : ExpSigns α) {sv : Solvers α} {fuel : Nat} {c : Consts α} {r : RunCfg α} (hs : SignSane c r)
    {s s' : SimState α} {f : Forcing α} {o : StepOut α} (hg : CappedColumn s.grid)
    (hρ : o.densityFreshSnow ≤ c.iceDensity) (h : step sv fuel c r s f = .ok (s', o)) :
    (∃ st : StepStages sv fuel c r s f s' o, ∀ g ∈ [st.g1, st.g2, st.g3, st.g4, st.g5, st.g6, st.g7, st.g8], CappedColumn g) ∧
    (c.densificationMethod = .constant → CappedColumn s'.grid) ∧
    (c.densificationMethod = .empirical → (600.0 : α) ≤ c.iceDensity → ∀ n ∈ s'.grid.nodes, n.iceFraction ≤ 1) ∧
    0 ≤ s'.grid.newSnowTimestamp ∧ 0 ≤ s'.grid.oldSnowTimestamp := by
  obtain ⟨st⟩ := step_stages h
  have hnn : ∀ n ∈ s.grid.nodes, NonNegLayer n := fun n hn => ⟨(hg.layers n hn).height, (hg.layers n hn).ice, (hg.layers n hn).water⟩
  have hrho : c.airDensity ≤ o.densityFreshSnow := by
    rw [st.rho]; unfold freshSnowDensity
    split
    · exact hs.airConst
    · exact hs.airLow.trans Rounded.le_max_right
  have hrho0 := hs.air.trans hrho
  have hrain : 0 ≤ o.rain := by
    rw [st.rain]; unfold thresholdPrecip
    dsimp only
    split_ifs with h1
    · exact le_rfl
    · exact (Rounded.mul_nonneg (Rounded.mul_nonneg hs.snowMin (Rounded.div_nonneg hrho0 hs.water))
        (lit_nonneg _ _ _)).trans (not_lt.1 h1)
  have n1 : st.g1.Capped := (applySnowfall_capped hs.ice hs.air hrho hρ hg.layers).updateGrid hs.stretch hs.first st.remesh
  have e2 := updateAlbedo_grid st.albedo
  dsimp only at e2
  have n2 : st.g2.Capped := by
    rw [e2]
    unfold Grid.Capped
    rw [(getSurfaceProperties_nodes c st.g1).1]; exact n1
  obtain ⟨n3, hsub⟩ := radiationStep_capped hs.ice hs.water hs.cIce hs.melt n2 st.radiation
  have n4 : st.g4.Capped :=
    n3.modifyNode (f := Node.setTemperature o.ts) (fun n hn => ⟨hn.height, hn.ice, hn.water, hn.full⟩)
      (updateSurfaceTemperature_grid st.surface)
  have hv := vapour_signs (c := c) (dt := r.dt) (ts := o.ts) (le := o.fluxes.le) hs.dt
  rw [st.vapour] at hv
  have hme : 0 ≤ o.meltEnergy := by rw [st.meltEnergy]; exact max_nonneg_left
  have hm : 0 ≤ o.melt := by
    rw [st.melt]
    exact Rounded.div_nonneg (Rounded.mul_nonneg hme hs.dt) (Rounded.mul_nonneg (nat_nonneg _) hs.melt)
  obtain ⟨n5, hf⟩ := n4.removeMeltWeq hs.ice hs.water hs.air st.removal
  obtain ⟨n6, hq⟩ := percolation_capped n5 (Rounded.add_nonneg (Rounded.add_nonneg (Rounded.add_nonneg hm hv.2.2.2)
    (Rounded.div_nonneg hrain (lit_nonneg _ _ _))) hf) st.perc
  have n7 : st.g7.Capped := refreezing_capped n6 st.refr
  have n8 := n7.solveHeatEquation st.heat
  -- the ages
  have a0 : 0 ≤ (applySnowfall c r.dt s.grid o.snowfall o.densityFreshSnow f.t2).newSnowTimestamp ∧
      0 ≤ (applySnowfall c r.dt s.grid o.snowfall o.densityFreshSnow f.t2).oldSnowTimestamp := by
    unfold applySnowfall
    split_ifs
    · unfold Grid.addFreshSnow
      simp only
      split_ifs
      · exact ⟨Rounded.add_nonneg hg.newAge hs.dt, Rounded.add_nonneg hg.oldAge hs.dt⟩
      · exact ⟨le_rfl, hg.newAge⟩
    · exact ⟨Rounded.add_nonneg hg.newAge hs.dt, Rounded.add_nonneg hg.oldAge hs.dt⟩
  have p1 : st.g1.snowProps = _ := Grid.HP.updateGrid rfl st.remesh
  have p3 : st.g3.snowProps = st.g2.snowProps := radiationStep_props st.radiation
  have p4 := updateSurfaceTemperature_props st.surface
  have p5 := removeMelt_ages st.removal
  have p6 := percolation_props st.perc
  have p7 := refreezing_props st.refr
  have p8 := solveHeatEquation_props st.heat
  have p9 := densification_props st.dens
  simp only [Grid.snowProps, Prod.mk.injEq] at p1 p3 p4 p5 p6 p7 p8 p9
  have a1 : 0 ≤ st.g1.newSnowTimestamp ∧ 0 ≤ st.g1.oldSnowTimestamp := by rw [p1.2.1, p1.2.2]; exact a0
  have a2 : 0 ≤ st.g2.newSnowTimestamp ∧ 0 ≤ st.g2.oldSnowTimestamp := by
    rw [e2]
    unfold getSurfaceProperties
    simp only
    split_ifs
    · exact ⟨a1.2, a1.2⟩
    · exact a1
  have a3 : 0 ≤ st.g3.newSnowTimestamp ∧ 0 ≤ st.g3.oldSnowTimestamp := by rw [p3.2.1, p3.2.2]; exact a2
  have a4 : 0 ≤ st.g4.newSnowTimestamp ∧ 0 ≤ st.g4.oldSnowTimestamp := by rw [p4.2.1, p4.2.2]; exact a3
  have a5 : 0 ≤ st.g5.newSnowTimestamp ∧ 0 ≤ st.g5.oldSnowTimestamp := by rw [p5.1, p5.2]; exact a4
  have a6 : 0 ≤ st.g6.newSnowTimestamp ∧ 0 ≤ st.g6.oldSnowTimestamp := by rw [p6.2.1, p6.2.2]; exact a5
  have a7 : 0 ≤ st.g7.newSnowTimestamp ∧ 0 ≤ st.g7.oldSnowTimestamp := by rw [p7.2.1, p7.2.2]; exact a6
  have a8 : 0 ≤ st.g8.newSnowTimestamp ∧ 0 ≤ st.g8.oldSnowTimestamp := by rw [p8.2.1, p8.2.2]; exact a7
  have a9 : 0 ≤ s'.grid.newSnowTimestamp ∧ 0 ≤ s'.grid.oldSnowTimestamp := by rw [p9.2.1, p9.2.2]; exact a8
  refine ⟨⟨st, ?_⟩, ?_, ?_, a9⟩
  · intro g hmem
    simp only [List.mem_cons, List.not_mem_nil, or_false] at hmem
    rcases hmem with rfl | rfl | rfl | rfl | rfl | rfl | rfl | rfl
    exacts [⟨n1, a1.1, a1.2⟩, ⟨n2, a2.1, a2.2⟩, ⟨n3, a3.1, a3.2⟩, ⟨n4, a4.1, a4.2⟩, ⟨n5, a5.1, a5.2⟩, ⟨n6, a6.1, a6.2⟩,
      ⟨n7, a7.1, a7.2⟩, ⟨n8, a8.1, a8.2⟩]
  · intro hc
    have h9 := st.dens
    unfold densification at h9
    rw [hc] at h9
    rw [← ok_inj.1 h9]
    exact ⟨n8, a8.1, a8.2⟩
  · intro hc h6
    have h9 := st.dens
    unfold densification at h9
    rw [hc] at h9
    simp only [methodEmpirical, bind_eq_ok] at h9
    obtain ⟨k, _, ns, hk, h9⟩ := h9
    rw [pure_eq_ok] at h9
    rw [← h9]
    exact empiricalLayers_full hx hs.ice hs.water hs.air h6 hs.dt _ _ n8 hk

/-- **C115, shortwave radiation.** In rounded arithmetic, with the Oerlemans albedo: the recorded albedo lies between 0 and 1, and the
recorded net shortwave radiation between 0 and the incoming radiation. -/
theorem C115_shortwave (hx : ExpSigns α) {sv : Solvers α} {fuel : Nat} {c : Consts α} {r : RunCfg α} (hs : SignSane c r)
    (hb : BrightSane c) (hm : c.albedoMethod = .oerlemans98) {s s' : SimState α} {f : Forcing α} {o : StepOut α}
    (hg : CappedColumn s.grid) (hρ : o.densityFreshSnow ≤ c.iceDensity) (h : step sv fuel c r s f = .ok (s', o)) :
    0 ≤ o.albedo ∧ o.albedo ≤ 1 ∧ 0 ≤ o.swnet ∧ o.swnet ≤ max f.g 0 := by
  obtain ⟨⟨st, hst⟩, -⟩ := C115_step hx hs hg hρ h
  have h1 := hst st.g1 (by simp)
  have hal := st.albedo
  unfold updateAlbedo at hal
  rw [hm] at hal
  simp only [bind_eq_ok] at hal
  obtain ⟨⟨g', a⟩, ha, hal⟩ := hal
  rw [pure_eq_ok, Prod.mk.injEq, Prod.mk.injEq] at hal
  obtain ⟨-, e, -⟩ := hal
  simp only at e
  subst e
  obtain ⟨b0, b1⟩ := C115_albedo hx hb (fun n hn => (h1.layers n hn).height) h1.newAge h1.oldAge ha
  have hmax : pyMax f.g 0 = max f.g 0 := by
    unfold pyMax; split_ifs with hlt
    · exact (max_eq_right hlt.le).symm
    · exact (max_eq_left (not_lt.1 hlt)).symm
  have hg0 : 0 ≤ pyMax f.g 0 := max_nonneg_right
  have w0 : 0 ≤ 1 - o.albedo := Rounded.sub_nonneg b1
  have w1 : 1 - o.albedo ≤ 1 := Rounded.sub_le b0
  have t0 := Rounded.mul_nonneg hg0 w0
  have t1 := mul_mono_left hg0 w1
  rw [Rounded.mul_one] at t1
  have hsw := st.swnet
  have hrad := st.radiation
  refine ⟨b0, b1, ?_⟩
  rw [hsw, ← hmax]
  generalize pyMax f.g 0 * (1 - o.albedo) = w at *
  have hpen : 0 ≤ st.penetrated ∧ st.penetrated ≤ w := by
    unfold radiationStep at hrad
    split_ifs at hrad
    · unfold penetratingRadiation at hrad
      split at hrad
      · unfold methodBintanja at hrad
        simp only [bind_eq_ok] at hrad
        obtain ⟨ds, _, top, _, ⟨ns, rm, m⟩, _, hrad⟩ := hrad
        have key : 0 ≤ w * (penCoeffs c top).1 ∧ w * (penCoeffs c top).1 ≤ w := by
          have hc1 : 0 ≤ (penCoeffs c top).1 ∧ (penCoeffs c top).1 ≤ 1 := by
            unfold penCoeffs
            split_ifs
            · exact ⟨lit_nonneg _ _ _, RoundedDiv.tenth⟩
            · exact ⟨lit_nonneg _ _ _, RoundedDiv.fifth⟩
          have := mul_mono_left t0 hc1.2
          rw [Rounded.mul_one] at this
          exact ⟨Rounded.mul_nonneg t0 hc1.1, this⟩
        split_ifs at hrad
        · rw [pure_eq_ok, Prod.mk.injEq, Prod.mk.injEq] at hrad
          rw [← hrad.2.2]; exact key
        · simp only [bind_eq_ok] at hrad
          obtain ⟨g1, _, hrad⟩ := hrad
          rw [pure_eq_ok, Prod.mk.injEq, Prod.mk.injEq] at hrad
          rw [← hrad.2.2]; exact key
      · cases hrad
    · rw [ok_inj, Prod.mk.injEq, Prod.mk.injEq] at hrad
      rw [← hrad.2.2]; exact ⟨le_rfl, t0⟩
  exact ⟨Rounded.sub_nonneg hpen.2, (Rounded.sub_le hpen.1).trans t1⟩

/-- **C115, whole runs at constant density.** In rounded arithmetic no layer of any column of a run ever holds more ice than its
volume, whatever the forcing, as long as the fresh snow is not denser than ice. -/
theorem C115_run_constant (hx : ExpSigns α) {sv : Solvers α} {fuel : Nat} {c : Consts α} {r : RunCfg α} (hs : SignSane c r)
    (hm : c.densificationMethod = .constant) : ∀ (fs : List (Forcing α)) {s s' : SimState α} {os : List (StepOut α)},
    CappedColumn s.grid → (∀ f ∈ fs, freshSnowDensity c f ≤ c.iceDensity) → run sv fuel c r s fs = .ok (s', os) →
    CappedColumn s'.grid := by
  intro fs
  induction fs with
  | nil => intro s s' os hg _ h; rw [run] at h; cases h; exact hg
  | cons f fs ih =>
    intro s s' os hg hf h
    obtain ⟨s1, o1, os1, h1, h2, rfl⟩ := run_cons h
    have hρ : o1.densityFreshSnow ≤ c.iceDensity := by
      obtain ⟨st⟩ := step_stages h1
      rw [st.rho]; exact hf f (by simp)
    exact ih ((C115_step hx hs hg hρ h1).2.1 hm) (fun f' hf' => hf f' (by simp [hf'])) h2

/-- **C115, whole runs.** The full statement has neither of the last two hypotheses: it is refuted for Boone compaction
(`C115_boone_refuted`). In rounded arithmetic, if compaction never turns a height negative in the run, and if Boone or Vionnet
compaction, when selected, leaves no layer with more ice than volume, then no layer of any column of the run holds more ice
than its volume, in any stage of any step. -/
theorem C115_run_partial (hx : ExpSigns α) {sv : Solvers α} {fuel : Nat} {c : Consts α} {r : RunCfg α} (hs : SignSane c r)
    (hcos : c.densificationMethod = .vionnet → 0 ≤ Transc.cos r.slope)
    (h6 : c.densificationMethod = .empirical → (600.0 : α) ≤ c.iceDensity) : ∀ (fs : List (Forcing α)) {s : SimState α},
    CappedColumn s.grid → (∀ f ∈ fs, freshSnowDensity c f ≤ c.iceDensity) →
    (∀ t, Reached sv fuel c r s fs t → ∀ n ∈ t.grid.nodes, 0 ≤ n.height) →
    (c.densificationMethod = .boone ∨ c.densificationMethod = .vionnet →
      ∀ t, Reached sv fuel c r s fs t → ∀ n ∈ t.grid.nodes, n.iceFraction ≤ 1) →
    ∀ t, Reached sv fuel c r s fs t → CappedColumn t.grid := by
  intro fs
  induction fs with
  | nil =>
    intro s hg _ _ _ t ⟨pre, suf, os, e, h⟩
    have : pre = [] := by
      cases pre with
      | nil => rfl
      | cons a b => simp at e
    subst this
    rw [run] at h; cases h; exact hg
  | cons f fs ih =>
    intro s hg hf hH hB t ⟨pre, suf, os, e, h⟩
    cases pre with
    | nil => rw [run] at h; cases h; exact hg
    | cons a pre =>
      simp only [List.cons_append, List.cons.injEq] at e
      obtain ⟨rfl, rfl⟩ := e
      obtain ⟨s1, o1, os1, h1, h2, rfl⟩ := run_cons h
      have hρ : o1.densityFreshSnow ≤ c.iceDensity := by
        obtain ⟨st⟩ := step_stages h1
        rw [st.rho]; exact hf f (by simp)
      have hnn : ∀ n ∈ s.grid.nodes, NonNegLayer n := fun n hn =>
        ⟨(hg.layers n hn).height, (hg.layers n hn).ice, (hg.layers n hn).water⟩
      obtain ⟨_, _, hc, _⟩ := C81_step hx hs hcos hnn h1
      obtain ⟨_, k1, k2, k3, k4⟩ := C115_step hx hs hg hρ h1
      have v1 : Reached sv fuel c r s (f :: (pre ++ suf)) s1 := ⟨[f], pre ++ suf, [o1], by simp, by simp [run, h1]; rfl⟩
      have hmore : ∀ t, Reached sv fuel c r s1 (pre ++ suf) t → Reached sv fuel c r s (f :: (pre ++ suf)) t := by
        rintro t ⟨pre', suf', os', e, h'⟩
        refine ⟨f :: pre', suf', o1 :: os', by simp [e], ?_⟩
        rw [run, h1, ok_bind]
        simp only [h', ok_bind]
        rfl
      have hfull : ∀ n ∈ s1.grid.nodes, n.iceFraction ≤ 1 := by
        rcases hm : c.densificationMethod with _ | _ | _ | _ | _
        · exact hB (Or.inl hm) s1 v1
        · exact hB (Or.inr hm) s1 v1
        · exact k2 hm (h6 hm)
        · exact fun n hn => ((k1 hm).layers n hn).full
        · obtain ⟨st⟩ := step_stages h1
          have h9 := st.dens
          unfold densification at h9
          rw [hm] at h9
          cases h9
      have hg1 : CappedColumn s1.grid := ⟨fun n hn => ⟨hH s1 v1 n hn, (hc n hn).1, (hc n hn).2, hfull n hn⟩, k3, k4⟩
      exact ih hg1 (fun f' hf' => hf f' (by simp [hf'])) (fun t ht => hH t (hmore t ht))
        (fun hbv t ht => hB hbv t (hmore t ht)) t ⟨pre, suf, os1, rfl, h2⟩

end

section
variable {K : Type} [Field K] [LinearOrder K] [IsStrictOrderedRing K]

/-- Every rounding satisfies the additional laws. -/
instance (rd : Rounding K) : RoundedDiv (Fl rd) where
  div_self_le := fun {a} _ => by
    show Fl.mk rd (a.1 / a.1) ≤ 1
    rw [← Fl.mk_one]
    exact Fl.mk_mono (div_self_le_one a.1)
  tenth := by
    show Fl.mk rd 0.1 ≤ 1
    rw [← Fl.mk_one]
    exact Fl.mk_mono (by norm_num)
  fifth := by
    show Fl.mk rd 0.2 ≤ 1
    rw [← Fl.mk_one]
    exact Fl.mk_mono (by norm_num)

end

section
variable {K : Type} [Field K] [LinearOrder K] [IsStrictOrderedRing K] [FloorRing K] [Transc K]

/-- **C115 in double precision.** With the shipped constants but constant density, in IEEE 754 binary64 arithmetic without
overflow: no layer of any column of a run holds more ice than its volume. -/
theorem C115_binary64 (hx : ExpSigns (Fl (binary64 K))) {sv : Solvers (Fl (binary64 K))} {fuel : Nat}
    {r : RunCfg (Fl (binary64 K))} (hdt : 0 ≤ r.dt) {c : Consts (Fl (binary64 K))}
    (hc : c = { Consts.default _ with densificationMethod := .constant })
    {fs : List (Forcing (Fl (binary64 K)))} {s s' : SimState (Fl (binary64 K))}
    {os : List (StepOut (Fl (binary64 K)))} (hg : CappedColumn s.grid) (hf : ∀ f ∈ fs, freshSnowDensity c f ≤ c.iceDensity)
    (h : run sv fuel c r s fs = .ok (s', os)) : CappedColumn s'.grid := by
  have hd := signSane_default (binary64 K) (r := r) hdt
  have hs : SignSane c r := by
    rw [hc]
    exact ⟨hd.water, hd.ice, hd.air, hd.airLow, hd.airConst, hd.melt, hd.vap, hd.subl, hd.cIce, hd.first, hd.stretch, hd.snowMin, hd.dt⟩
  exact C115_run_constant hx hs (by rw [hc]) fs hg hf h

end

section
open Classical

/-- 30 m and 1 m of snow of 93 kg m⁻³ on ice, at the melting point. -/
noncomputable def exHeavy : Grid ℝ :=
  ⟨[⟨30, 273.16, 0, 1 / 10, 0⟩, ⟨1, 273.16, 0, 1 / 10, 0⟩, ⟨1, 273.16, 0, 1, 0⟩], 3, 0, 0, 0⟩

/-- **C115, refuted for Boone compaction.** In exact arithmetic, with the shipped constants and a daily time step: a column
without negative contents in which no layer holds more ice than its volume is compacted to one in which a layer does. -/
theorem C115_boone_refuted :
    CappedColumn exHeavy ∧
    ∃ g', densification (Consts.default ℝ) exHeavy 0 86400 = .ok g' ∧ ∃ n ∈ g'.nodes, 1 < n.iceFraction := by
  refine ⟨⟨?_, le_rfl, le_rfl⟩, ?_⟩
  · intro n hn
    simp only [exHeavy, List.mem_cons, List.not_mem_nil, or_false] at hn
    rcases hn with rfl | rfl | rfl <;> constructor <;> norm_num
  · have hw : exHeavy.WF := rfl
    have hk := Grid.getNumberSnowLayers_eq hw (Consts.default ℝ)
    obtain ⟨rs, hrs⟩ := booneLayers_returns (c := Consts.default ℝ) (dt := 86400) (ms := 0) (p := none)
      (Grid.nSnow_le (Consts.default ℝ) exHeavy.nodes)
    have hret : densification (Consts.default ℝ) exHeavy 0 86400 = .ok { exHeavy with nodes := rs } := by
      show methodBoone _ _ _ = _
      unfold methodBoone
      rw [hk, ok_bind, hrs, ok_bind]; rfl
    refine ⟨_, hret, ?_⟩
    have hn : Grid.nSnow (Consts.default ℝ) exHeavy.nodes = 2 := by
      simp only [exHeavy, Grid.nSnow]
      norm_num [Node.density, Node.airPorosity, pyMax, Consts.default]
    rw [hn] at hrs
    simp only [exHeavy] at hrs
    have hd1 : ∀ h : ℝ, Node.density (Consts.default ℝ) ⟨h, 273.16, 0, 1 / 10, 0⟩ = 92.69 := by
      intro h; norm_num [Node.density, Node.airPorosity, pyMax, Consts.default]
    rw [booneLayers, if_pos (by rw [hd1]; norm_num [Consts.default])] at hrs
    simp only [bind_eq_ok] at hrs
    obtain ⟨d, hd, tl, htl, h⟩ := hrs
    rw [pure_eq_ok] at h; subst h
    rw [booneLayers, if_pos (by rw [hd1]; norm_num [Consts.default])] at htl
    simp only [bind_eq_ok] at htl
    obtain ⟨d2, hd2, tl2, htl2, h⟩ := htl
    rw [pure_eq_ok] at h; subst h
    refine ⟨booneUpdate d2 ⟨1, 273.16, 0, 1 / 10, 0⟩, by simp, ?_⟩
    have hu : (booneUpdate d2 ⟨1, 273.16, 0, 1 / 10, 0⟩ : Node ℝ).iceFraction = (1 + d2) * (1 / 10) := by
      unfold booneUpdate
      simp
    rw [hu]
    have e := booneRate_ok hd2
    simp only [booneLoad, hd1] at e
    have hz : (Consts.default ℝ).zeroTemperature = 273.16 := rfl
    rw [hz] at e
    have e1 : (0.081 * (273.16 - 273.16) + 0.018 * 92.69 : ℝ) = 1.66842 := by norm_num
    have hexp : Real.exp (0.081 * (273.16 - 273.16) + 0.018 * 92.69) < 9 := by
      rw [e1]
      have h2 : Real.exp 1.66842 ≤ Real.exp (1 + 1) := Real.exp_le_exp.2 (by norm_num)
      rw [Real.exp_add] at h2
      have h3 := Real.exp_one_lt_d9
      have h4 := Real.exp_pos 1
      nlinarith
    have hp := Real.exp_pos (0.081 * (273.16 - 273.16) + 0.018 * 92.69)
    have hp2 := Real.exp_pos (-0.042 * (273.16 - 273.16) - 0.046 * max 0 (92.69 - 150))
    generalize Real.exp (0.081 * (273.16 - 273.16) + 0.018 * 92.69) = x at *
    generalize Real.exp (-0.042 * (273.16 - 273.16) - 0.046 * max 0 (92.69 - 150)) = y at *
    have hq : (0 + 92.69 * (30 / 2.0) + 92.69 * 30) * 9.81 / (37000000 * 9) ≤
        (0 + 92.69 * (30 / 2.0) + 92.69 * 30) * 9.81 / (37000000 * x) := by
      apply div_le_div_of_nonneg_left (by norm_num) (by positivity) (by linarith)
    have : 10 < d2 := by
      rw [e]
      have : (10 : ℝ) < (0 + 92.69 * (30 / 2.0) + 92.69 * 30) * 9.81 / (37000000 * 9) * 86400 := by norm_num
      nlinarith
    linarith

end

/-! ## Non-vacuity -/

section
attribute [local instance] exTransc

/-- The shipped albedo parameters meet the conditions, in double precision. -/
theorem brightSaneD : BrightSane (Consts.default D) := by
  constructor <;> decide +kernel

theorem exGridD_capped : CappedColumn exGridD := by
  have : ∀ n ∈ exGridD.nodes, 0 ≤ n.height ∧ 0 ≤ n.iceFraction ∧ 0 ≤ n.lwc ∧ n.iceFraction ≤ 1 := by decide +kernel
  exact ⟨fun n hn => ⟨(this n hn).1, (this n hn).2.1, (this n hn).2.2.1, (this n hn).2.2.2⟩, le_rfl, le_rfl⟩

/-- The shipped constants at constant density. -/
def exConstD : Consts D := { Consts.default D with densificationMethod := .constant }

set_option maxRecDepth 100000 in
theorem exRunConstD : ((run exSolversD 4000 exConstD exCfgD (initState exConstD false exGridD) [exSnowD]).toOption.map
    fun x => (x.2.map fun o => (decide (o.densityFreshSnow ≤ exConstD.iceDensity), decide (0 < o.snowfall)),
      decide (∃ n ∈ x.1.grid.nodes, 0.9 < n.iceFraction))) = some ([(true, true)], true) := by decide +kernel

/-- An hour with snowfall in double precision: the hypotheses of `C115_binary64` and `C115_shortwave` hold. -/
example : ∃ s' os, run exSolversD 4000 exConstD exCfgD (initState exConstD false exGridD) [exSnowD] = .ok (s', os) ∧
    CappedColumn s'.grid := by
  rcases hr : run exSolversD 4000 exConstD exCfgD (initState exConstD false exGridD) [exSnowD] with e | ⟨s', os⟩
  · have := exRunConstD; rw [hr] at this; cases this
  · refine ⟨s', os, rfl, C115_binary64 expSignsD (by decide +kernel) rfl (s := initState exConstD false exGridD) exGridD_capped ?_ hr⟩
    have : ∀ f ∈ [exSnowD], freshSnowDensity exConstD f ≤ exConstD.iceDensity := by decide +kernel
    exact this

/-- Firn plus the rest up to fresh snow, in double precision. -/
example : (Consts.default D).albedoFirn + ((Consts.default D).albedoFreshSnow - (Consts.default D).albedoFirn) ≤ 1 := brightSaneD.top

end
end Cosipy
