import Verif.Lemmas.WF
import Verif.Model.Core

/-! The fresh-snow bookkeeping is not touched by remeshing and the layer processes (any arithmetic). -/

set_option autoImplicit false
set_option linter.unusedSectionVars false

namespace Cosipy
section
variable {α : Type} [Add α] [Sub α] [Mul α] [Div α] [Neg α] [LT α] [LE α]
  [DecidableLT α] [DecidableLE α] [BEq α] [Zero α] [One α] [NatCast α] [OfScientific α]

namespace Grid

/-- Fresh snow height, fresh snow age, age of the underlying snow. -/
def snowProps (g : Grid α) : α × α × α := (g.newSnowHeight, g.newSnowTimestamp, g.oldSnowTimestamp)

/-- The bookkeeping equals `p`. -/
def HP (p : α × α × α) (g : Grid α) : Prop := g.snowProps = p

theorem HP.modifyNode {p : α × α × α} {g g' : Grid α} {i : Int} {f : Node α → Node α} (hw : g.HP p)
    (h : g.modifyNode i f = .ok g') : g'.HP p := by
  obtain ⟨k, _, rfl⟩ := modifyNode_eq_ok.1 h
  exact hw

theorem HP.updateNode {p : α × α × α} {g g' : Grid α} {i : Int} {h t f w : α} (hw : g.HP p)
    (he : g.updateNode i h t f w = .ok g') : g'.HP p := by
  obtain ⟨k, _, rfl⟩ := updateNode_eq_ok.1 he
  exact hw

theorem HP.removeNode {p : α × α × α} {g g' : Grid α} {is : List Int} (hw : g.HP p) (h : g.removeNode is = .ok g') :
    g'.HP p := by
  unfold Grid.removeNode at h
  split_ifs at h
  · cases h; exact hw
  · cases h; exact hw
  · rw [bind_eq_ok] at h; obtain ⟨ns, _, h⟩ := h
    rw [pure_eq_ok] at h; subst h; exact hw

theorem HP.mergeNodes {p : α × α × α} {g g' : Grid α} {i : Int} (hw : g.HP p) (h : g.mergeNodes i = .ok g') : g'.HP p := by
  obtain ⟨_, _, _, _, _, _, _, _, _, rfl⟩ := mergeNodes_ok h
  exact hw

theorem HP.insert {p : α × α × α} {g : Grid α} (hw : g.HP p) (i : Int) (n : Node α) :
    ({ g with nodes := pyInsert g.nodes i n, numberNodes := g.numberNodes + 1 } : Grid α).HP p := hw

theorem HP.correctLayerPass {g g' : Grid α} {c : Consts α} {i : Int} {h : α} {p : α × α × α} (hw : g.HP p)
    (he : Grid.correctLayerPass c i h g = .ok (some g')) : g'.HP p := by
  unfold Grid.correctLayerPass at he
  rw [bind_eq_ok] at he; obtain ⟨a, _, he⟩ := he
  split_ifs at he
  · rw [bind_eq_ok] at he; obtain ⟨b, _, he⟩ := he
    split_ifs at he
    · rw [bind_eq_ok] at he; obtain ⟨g1, h1, he⟩ := he
      rw [pure_eq_ok] at he; cases he; exact hw.mergeNodes h1
    · rw [bind_eq_ok] at he; obtain ⟨g1, h1, he⟩ := he
      rw [pure_eq_ok] at he; cases he; exact hw.mergeNodes h1
    · rw [pure_eq_ok] at he; cases he
  · rw [pure_eq_ok] at he; cases he

theorem HP.correctLayerSplit {g g' : Grid α} {c : Consts α} {i : Int} {h : α} {p : α × α × α} (hw : g.HP p)
    (he : Grid.correctLayerSplit c i h g = .ok g') : g'.HP p := by
  unfold Grid.correctLayerSplit at he
  rw [bind_eq_ok] at he; obtain ⟨a, _, he⟩ := he
  split_ifs at he
  · simp only [bind_eq_ok] at he
    obtain ⟨_, _, _, _, _, _, g1, h1, n1, _, he⟩ := he
    rw [pure_eq_ok] at he; subst he
    exact (hw.updateNode h1).insert _ _
  · rw [pure_eq_ok] at he; subst he; exact hw

theorem HP.correctLayer {g g' : Grid α} {fuel : Nat} {c : Consts α} {i : Int} {h : α} {p : α × α × α} (hw : g.HP p)
    (he : g.correctLayer fuel c i h = .ok g') : g'.HP p := by
  unfold Grid.correctLayer at he
  rw [bind_eq_ok] at he; obtain ⟨g1, h1, he⟩ := he
  exact HP.correctLayerSplit
    (whileM_inv (fun g : Grid α => g.HP p) (fun s s' hs hb => HP.correctLayerPass hs hb) fuel g g1 hw h1).1 he

theorem HP.logSnowPass {s s' : LogState α} {fuel : Nat} {c : Consts α} {p : α × α × α} (hw : s.g.HP p)
    (he : Grid.logSnowPass fuel c s = .ok (some s')) : s'.g.HP p := by
  unfold Grid.logSnowPass at he
  rw [bind_eq_ok] at he; obtain ⟨n, _, he⟩ := he
  split_ifs at he
  · rw [bind_eq_ok] at he; obtain ⟨g1, h1, he⟩ := he
    rw [pure_eq_ok] at he; cases he; exact hw.correctLayer h1
  · rw [bind_eq_ok] at he; obtain ⟨g1, h1, he⟩ := he
    rw [pure_eq_ok] at he; cases he; exact hw.mergeNodes h1
  · rw [pure_eq_ok] at he; cases he; exact hw
  · rw [pure_eq_ok] at he; cases he

theorem HP.logIcePass {s s' : LogState α} {fuel : Nat} {c : Consts α} {p : α × α × α} (hw : s.g.HP p)
    (he : Grid.logIcePass fuel c s = .ok (some s')) : s'.g.HP p := by
  unfold Grid.logIcePass at he
  split_ifs at he
  · rw [bind_eq_ok] at he; obtain ⟨g1, h1, he⟩ := he
    rw [pure_eq_ok] at he; cases he; exact hw.correctLayer h1
  · rw [bind_eq_ok] at he; obtain ⟨g1, h1, he⟩ := he
    rw [pure_eq_ok] at he; cases he; exact hw.mergeNodes h1
  · rw [pure_eq_ok] at he; cases he; exact hw
  · rw [pure_eq_ok] at he; cases he

theorem HP.logProfile {g g' : Grid α} {fuel : Nat} {c : Consts α} {p : α × α × α} (hw : g.HP p)
    (he : g.logProfile fuel c = .ok g') : g'.HP p := by
  unfold Grid.logProfile at he
  simp only [bind_eq_ok] at he
  obtain ⟨_, _, s1, h1, _, _, _, _, _, _, s2, h2, he⟩ := he
  rw [pure_eq_ok] at he; subst he
  have hs1 := (whileM_inv (fun s : LogState α => s.g.HP p) (fun s s' hs hb => HP.logSnowPass hs hb) _ _ _ hw h1).1
  refine (whileM_inv (fun s : LogState α => s.g.HP p) (fun s s' hs hb => HP.logIcePass hs hb) _ _ _ ?_ h2).1
  exact hs1

theorem HP.adaptSnowPass {s s' : AdaptState α} {c : Consts α} {p : α × α × α} (hw : s.g.HP p)
    (he : Grid.adaptSnowPass c s = .ok (some s')) : s'.g.HP p := by
  unfold Grid.adaptSnowPass at he
  rw [bind_eq_ok] at he; obtain ⟨n, _, he⟩ := he
  split_ifs at he
  · simp only [bind_eq_ok] at he
    obtain ⟨a, _, b, _, he⟩ := he
    split_ifs at he
    · rw [bind_eq_ok] at he; obtain ⟨g1, h1, he⟩ := he
      rw [pure_eq_ok] at he; cases he; exact hw.mergeNodes h1
    · rw [bind_eq_ok] at he; obtain ⟨g1, h1, he⟩ := he
      rw [pure_eq_ok] at he; cases he; exact hw.removeNode h1
    · rw [pure_eq_ok] at he; cases he; exact hw
  · rw [pure_eq_ok] at he; cases he

theorem HP.adaptIcePass {s s' : Grid α × Int} {c : Consts α} {p : α × α × α} (hw : s.1.HP p)
    (he : Grid.adaptIcePass c s = .ok (some s')) : s'.1.HP p := by
  unfold Grid.adaptIcePass at he
  split_ifs at he
  · rw [bind_eq_ok] at he; obtain ⟨a, _, he⟩ := he
    split_ifs at he
    · rw [bind_eq_ok] at he; obtain ⟨g1, h1, he⟩ := he
      rw [pure_eq_ok] at he; cases he; exact hw.mergeNodes h1
    · rw [pure_eq_ok] at he; cases he; exact hw
  · rw [pure_eq_ok] at he; cases he

theorem HP.adaptiveProfile {g g' : Grid α} {fuel : Nat} {c : Consts α} {p : α × α × α} (hw : g.HP p)
    (he : g.adaptiveProfile fuel c = .ok g') : g'.HP p := by
  unfold Grid.adaptiveProfile at he
  simp only [bind_eq_ok] at he
  obtain ⟨s1, h1, n, _, ⟨g2, i2⟩, h2, ⟨g3, i3⟩, h3, he⟩ := he
  have hs1 := (whileM_inv (fun s : AdaptState α => s.g.HP p) (fun s s' hs hb => HP.adaptSnowPass hs hb) _ _ _ hw h1).1
  have hg2 : g2.HP p := by
    split_ifs at h2
    · simp only [bind_eq_ok] at h2
      obtain ⟨a, _, h2⟩ := h2
      split_ifs at h2
      · rw [bind_eq_ok] at h2; obtain ⟨g4, h4, h2⟩ := h2
        rw [pure_eq_ok] at h2; cases h2; exact hs1.correctLayer h4
      · rw [pure_eq_ok] at h2; cases h2; exact hs1
    · simp only [bind_eq_ok] at h2
      obtain ⟨a, _, h2⟩ := h2
      rw [pure_eq_ok] at h2; cases h2; exact hs1
  have hg3 := (whileM_inv (fun s : Grid α × Int => s.1.HP p) (fun s s' hs hb => HP.adaptIcePass hs hb) _ _ _ hg2 h3).1
  exact hg3.correctLayer he

theorem HP.updateGrid {g g' : Grid α} {fuel : Nat} {c : Consts α} {p : α × α × α} (hw : g.HP p)
    (he : g.updateGrid fuel c = .ok g') : g'.HP p := by
  unfold Grid.updateGrid at he
  rw [bind_eq_ok] at he; obtain ⟨g1, h1, he⟩ := he
  have hg1 : g1.HP p := by
    unfold Grid.remesh at h1
    split at h1
    · exact hw.logProfile h1
    · exact hw.adaptiveProfile h1
    · cases h1; exact hw
  rw [bind_eq_ok] at he; obtain ⟨a, _, he⟩ := he
  split_ifs at he
  · exact hg1.removeNode he
  · rw [pure_eq_ok] at he; subst he; exact hg1

theorem HP.setAll {g g' : Grid α} {f : α → Node α → Node α} {xs : List α} {p : α × α × α} (hw : g.HP p)
    (he : g.setAll f xs = .ok g') : g'.HP p := by
  unfold Grid.setAll at he
  revert he hw
  generalize List.range g.numberNodes.toNat = l
  intro hw he
  induction l generalizing g with
  | nil => rw [List.foldlM_nil, pure_eq_ok] at he; subst he; exact hw
  | cons i l ih =>
    rw [List.foldlM_cons, bind_eq_ok] at he
    obtain ⟨g1, h1, he⟩ := he
    rw [bind_eq_ok] at h1; obtain ⟨x, _, h1⟩ := h1
    exact ih (hw.modifyNode h1) he


end Grid

open Grid

theorem percolation_props {g : Grid α} {w : α} {r : Grid α × α} (h : percolation g w = .ok r) :
    r.1.snowProps = g.snowProps := by
  obtain ⟨top, ns, q, _, _, _, _, h⟩ := percolation_ok h
  obtain ⟨k, n, _, _, rfl⟩ := getRunoff_ok h
  rfl

theorem percolation_ne_nil {g : Grid α} {w : α} {r : Grid α × α} (h : percolation g w = .ok r) : g.nodes ≠ [] := by
  obtain ⟨top, ns, q, _, h1, _⟩ := percolation_ok h
  rintro hn; rw [hn] at h1; simp at h1

theorem refreezing_props {g : Grid α} {c : Consts α} {r : Grid α × α} (h : refreezing c g = .ok r) :
    r.1.snowProps = g.snowProps := by
  unfold Cosipy.refreezing at h
  rw [bind_eq_ok] at h; obtain ⟨⟨ns, t⟩, h1, h⟩ := h
  rw [pure_eq_ok] at h; subst h; rfl

theorem solveHeatEquation_props {g g' : Grid α} {fuel : Nat} {c : Consts α} {dt : α}
    (h : solveHeatEquation fuel c g dt = .ok g') : g'.snowProps = g.snowProps := by
  unfold Cosipy.solveHeatEquation at h
  simp only [bind_eq_ok] at h
  obtain ⟨_, _, _, _, ⟨_, cs⟩, _, h⟩ := h
  exact HP.setAll (p := g.snowProps) rfl h

variable [Transc α]

theorem penetratingRadiation_props {g : Grid α} {c : Consts α} {sw dt : α} {r : Grid α × α × α}
    (h : penetratingRadiation c g sw dt = .ok r) : r.1.snowProps = g.snowProps := by
  unfold Cosipy.penetratingRadiation at h
  split at h
  · unfold methodBintanja at h
    simp only [bind_eq_ok] at h
    obtain ⟨ds, _, top, _, ⟨ns, rm, m⟩, h1, h⟩ := h
    simp only at h
    split_ifs at h
    · rw [pure_eq_ok] at h; subst h; rfl
    · rw [bind_eq_ok] at h; obtain ⟨g1, h2, h⟩ := h
      rw [pure_eq_ok] at h; subst h
      exact HP.removeNode (p := g.snowProps) (g := { g with nodes := ns }) rfl h2
  · cases h

theorem densification_props {g g' : Grid α} {c : Consts α} {sl dt : α}
    (h : densification c g sl dt = .ok g') : g'.snowProps = g.snowProps := by
  unfold Cosipy.densification at h
  split at h
  · unfold methodBoone at h
    simp only [bind_eq_ok] at h
    obtain ⟨k, _, ns, h1, h⟩ := h
    rw [pure_eq_ok] at h; subst h; rfl
  · unfold methodVionnet at h
    simp only [bind_eq_ok] at h
    obtain ⟨k, _, ns, h1, h⟩ := h
    rw [pure_eq_ok] at h; subst h; rfl
  · unfold methodEmpirical at h
    simp only [bind_eq_ok] at h
    obtain ⟨k, _, ns, h1, h⟩ := h
    rw [pure_eq_ok] at h; subst h; rfl
  · cases h; rfl
  · cases h

theorem updateSurfaceTemperature_props {sv : Solvers α} {c : Consts α} {wrf : Bool} {g : Grid α}
    {mk : α → α → EbInput α} {sw : α} {r : Grid α × α × Fluxes α}
    (h : updateSurfaceTemperature sv c wrf g mk sw = .ok r) : r.1.snowProps = g.snowProps :=
  HP.modifyNode (p := g.snowProps) rfl (updateSurfaceTemperature_grid h)

/-- The stages of a time step. -/
structure StepStages (sv : Solvers α) (fuel : Nat) (c : Consts α) (r : RunCfg α) (s : SimState α) (f : Forcing α)
    (s' : SimState α) (o : StepOut α) where
  sr : α × α
  g1 : Grid α
  g2 : Grid α
  g3 : Grid α
  g4 : Grid α
  g5 : Grid α
  g6 : Grid α
  g7 : Grid α
  g8 : Grid α
  penetrated : α
  precip : precipitation c f o.densityFreshSnow = .ok sr
  rho : o.densityFreshSnow = freshSnowDensity c f
  snowfall : o.snowfall = (thresholdPrecip c o.densityFreshSnow sr).1
  rain : o.rain = (thresholdPrecip c o.densityFreshSnow sr).2
  remesh : (applySnowfall c r.dt s.grid o.snowfall o.densityFreshSnow f.t2).updateGrid fuel c = .ok g1
  albedo : updateAlbedo c g1 s.surfaceTemperature s.albedoSnow = .ok (g2, o.albedo, s'.albedoSnow)
  roughness : updateRoughness c g2 = .ok o.z0
  radiation : radiationStep c g2 (pyMax f.g 0 * (1 - o.albedo)) r.dt = .ok (g3, o.subsurfaceMelt, penetrated)
  swnet : o.swnet = pyMax f.g 0 * (1 - o.albedo) - penetrated
  surface : updateSurfaceTemperature sv c r.wrf g3
    (fun tz1 tz2 => ⟨r.dt, r.z, o.z0, f.t2, f.rh2, f.pres, f.u2, o.rain, r.slope, tz1, tz2, f.lwin, f.n⟩) o.swnet =
      .ok (g4, o.ts, o.fluxes)
  ts : s'.surfaceTemperature = o.ts
  vapour : vapourFluxes c r.dt o.ts o.fluxes.le = ⟨o.sublimation, o.deposition, o.evaporation, o.condensation⟩
  meltEnergy : o.meltEnergy = Cosipy.meltEnergy o.swnet o.fluxes
  melt : o.melt = o.meltEnergy * r.dt / (1000 * c.latHeatMelting)
  removal : g4.removeMeltWeq fuel c (o.melt - o.sublimation - o.deposition) = .ok (g5, o.lwcFromLayers)
  perc : percolation g5 (o.melt + o.condensation + o.rain / 1000.0 + o.lwcFromLayers) = .ok (g6, o.q)
  refr : refreezing c g6 = .ok (g7, o.refreeze)
  heat : solveHeatEquation fuel c g7 r.dt = .ok g8
  dens : densification c g8 r.slope r.dt = .ok s'.grid
  surfMB : o.surfMB = o.snowfall * (o.densityFreshSnow / c.waterDensity) - o.melt + o.sublimation + o.deposition +
    o.evaporation
  intMB : o.intMB = o.refreeze - o.subsurfaceMelt
  mb : o.mb = o.surfMB + o.intMB
  mbCum : s'.mbCum = s.mbCum + o.mb
  layers : (r.fullField || r.wrf) = true → ¬ (r.maxLayers : Int) < s'.grid.getNumberLayers

theorem step_stages {sv : Solvers α} {fuel : Nat} {c : Consts α} {r : RunCfg α} {s : SimState α} {f : Forcing α}
    {s' : SimState α} {o : StepOut α} (h : step sv fuel c r s f = .ok (s', o)) :
    Nonempty (StepStages sv fuel c r s f s' o) := by
  unfold step at h
  simp only [bind_eq_ok] at h
  obtain ⟨sr, h0, g1, h1, ⟨g2, a2, b2⟩, h2, z0, hz, ⟨g3, m3, p3⟩, h3, h⟩ := h
  obtain ⟨⟨g4, ts, fl⟩, h4, ⟨g5, lw⟩, h5, ⟨g6, q⟩, h6, ⟨g7, rf⟩, h7, g8, h8, g9, h9, h⟩ := h
  split_ifs at h with hmax
  rw [pure_eq_ok] at h
  cases h
  exact ⟨{ sr := sr, g1 := g1, g2 := g2, g3 := g3, g4 := g4, g5 := g5, g6 := g6, g7 := g7, g8 := g8, penetrated := p3,
           precip := h0, rho := rfl, snowfall := rfl, rain := rfl, remesh := h1, albedo := h2, roughness := hz,
           radiation := h3, swnet := rfl, surface := h4, ts := rfl, vapour := rfl, meltEnergy := rfl, melt := rfl,
           removal := h5, perc := h6, refr := h7, heat := h8, dens := h9, surfMB := rfl, intMB := rfl, mb := rfl,
           mbCum := rfl, layers := by intro hf hlt; simp [hf, hlt] at hmax }⟩

end
end Cosipy
