import Verif.Props.C89
import Verif.Props.C100
import Verif.Lemmas.Example
import Mathlib.Tactic.FieldSimp

/-!
# C107 The heat the ground flux takes from the column is the heat the column loses

The reported ground heat flux is the heat per time and area that the column gives to its surface; times the time step it should be
what the column loses, if nothing else happens. It is not: the surface temperature is imposed on the whole top layer, whatever
heat that takes. Proved: the exact change of the heat of the column in a step without exchange of matter (`C107_step_partial`), and
for uniform columns (`C107_uniform_partial`). Refuted: a calm, dry night with an exactly closed surface balance in which the column gains more
than four times the heat the ground flux accounts for (`C107_refuted`).
-/

set_option autoImplicit false
set_option linter.unusedSectionVars false

namespace Cosipy

section
variable {K : Type} [Field K] [LinearOrder K] [IsStrictOrderedRing K] [Transc K]

theorem sumEnergy_cons (c : Consts K) (n : Node K) (ns : List (Node K)) :
    sumEnergy c (n :: ns) = n.height * n.capacity c * n.temperature + sumEnergy c ns := by
  unfold sumEnergy; rw [columnSum_cons]

theorem sumEnergy_refreeze (c : Consts K) (x : K) (ns : List (Node K)) : sumEnergy c (ns.map (Node.setRefreeze x)) = sumEnergy c ns := by
  induction ns with
  | nil => rfl
  | cons n ns ih => rw [List.map_cons, sumEnergy_cons, sumEnergy_cons, ih]; rfl

/-- What happens in a quiet step with fixed layers: the surface temperature is imposed on the top layer, then heat is conducted. -/
theorem quiet_heat {sv : Solvers K} {fuel : Nat} {c : Consts K} {r : RunCfg K} {s : SimState K} {f : Forcing K}
    {s' : SimState K} {o : StepOut K} (hc : FixedLayers c s.grid.nodes) (hw : s.grid.WF) (hd : DryColumn s.grid.nodes)
    (hq : QuietOut o) (hg : f.g ≤ 0) (h : step sv fuel c r s f = .ok (s', o)) {top : Node K} {rest : List (Node K)}
    (hn : s.grid.nodes = top :: rest) :
    ∃ g7, g7.WF ∧ g7.nodes = (top.setTemperature o.ts :: rest).map (Node.setRefreeze 0) ∧
      solveHeatEquation fuel c g7 r.dt = .ok s'.grid := by
  obtain ⟨S⟩ := quiet_stages hc.stretch hc.first hd hq hg h
  have e1 := updateGrid_inactive (g := s.grid.setFreshSnowPropsUpdateTime r.dt) hc.remesh hc.top S.remesh
  have n1 : S.g1.nodes = s.grid.nodes := by rw [e1]; rfl
  have h3 := S.dens
  unfold densification at h3
  rw [hc.density] at h3
  have h3 : S.g8 = s'.grid := Except.ok.inj h3
  refine ⟨S.g7, S.wf7 hw, ?_, h3 ▸ S.heat⟩
  rw [S.nodes7, n1, hn]; rfl

/-- **C107, the exact change (partial).** Full statement: in a step without exchange of matter the column loses the reported ground
heat flux times the time step. That is false (`C107_refuted`). What it gains instead: the heat it takes to bring the top layer to the
surface temperature, and what the conduction afterwards adds. -/
theorem C107_step_partial {sv : Solvers K} {fuel : Nat} {c : Consts K} (hp : c.Phys) {r : RunCfg K} {s : SimState K} {f : Forcing K}
    {s' : SimState K} {o : StepOut K} (hc : FixedLayers c s.grid.nodes) (hw : s.grid.WF) (hd : DryColumn s.grid.nodes)
    (hpos : ∀ n ∈ s.grid.nodes, 0 < n.height) (hdt : 0 ≤ r.dt)
    (hq : QuietOut o) (hg : f.g ≤ 0) (h : step sv fuel c r s f = .ok (s', o)) {top : Node K} {rest : List (Node K)}
    (hn : s.grid.nodes = top :: rest) :
    ∃ (cells : List (HeatCell K)) (τs : List K),
      List.Forall₂ (fun n x => x.h = n.height ∧ x.t = n.temperature ∧ n.thermalDiffusivity c = .ok x.k)
        (top.setTemperature o.ts :: rest) cells ∧
      (∀ τ ∈ τs, 0 < τ) ∧ τs.sum = r.dt ∧
      sumEnergy c s'.grid.nodes = sumEnergy c s.grid.nodes + top.height * top.capacity c * (o.ts - top.temperature) +
        gainedOver τs (cells.zip (s.grid.nodes.map fun n => n.capacity c)) := by
  obtain ⟨g7, hw7, hn7, hh⟩ := quiet_heat hc hw hd hq hg h hn
  have hcond : ∀ n ∈ g7.nodes, Conducting n := by
    intro n hm
    rw [hn7] at hm
    obtain ⟨m, hm', rfl⟩ := List.mem_map.1 hm
    rcases List.mem_cons.1 hm' with rfl | hm
    · have ht : top ∈ s.grid.nodes := by rw [hn]; simp
      exact ⟨hpos top ht, (hd top ht).2.1, (hd top ht).2.2.ge⟩
    · have ht : m ∈ s.grid.nodes := by rw [hn]; simp [hm]
      exact ⟨hpos m ht, (hd m ht).2.1, (hd m ht).2.2.ge⟩
  obtain ⟨cells, τs, h1, h2, h3, h4⟩ := C89_call hp hw7 hdt hcond hh
  refine ⟨cells, τs, ?_, h2, h3, ?_⟩
  · rw [hn7, List.forall₂_map_left_iff] at h1
    exact h1
  · have hcap : g7.nodes.map (fun n => n.capacity c) = s.grid.nodes.map fun n => n.capacity c := by
      rw [hn7, hn, List.map_map]; rfl
    rw [h4, hcap, hn7, sumEnergy_refreeze, sumEnergy_cons, hn, sumEnergy_cons]
    have e1 : (top.setTemperature o.ts).capacity c = top.capacity c := rfl
    have e2 : (top.setTemperature o.ts).height = top.height := rfl
    have e3 : (top.setTemperature o.ts).temperature = o.ts := rfl
    rw [e1, e2, e3]
    ring

/-- **C107, uniform columns (partial).** With equal heights and capacities: the heat to bring the top layer to the surface temperature,
and what is conducted through the outermost interfaces. -/
theorem C107_uniform_partial {sv : Solvers K} {fuel : Nat} {c : Consts K} (hp : c.Phys) {r : RunCfg K} {s : SimState K} {f : Forcing K}
    {s' : SimState K} {o : StepOut K} (hc : FixedLayers c s.grid.nodes) (hw : s.grid.WF) (hd : DryColumn s.grid.nodes)
    (hpos : ∀ n ∈ s.grid.nodes, 0 < n.height) (hdt : 0 ≤ r.dt) (h3 : 3 ≤ s.grid.nodes.length) {H C : K}
    (hu : ∀ n ∈ s.grid.nodes, n.height = H ∧ n.capacity c = C)
    (hq : QuietOut o) (hg : f.g ≤ 0) (h : step sv fuel c r s f = .ok (s', o)) {top : Node K} {rest : List (Node K)}
    (hn : s.grid.nodes = top :: rest) :
    ∃ (cells : List (HeatCell K)) (τs : List K),
      List.Forall₂ (fun n x => x.h = n.height ∧ x.t = n.temperature ∧ n.thermalDiffusivity c = .ok x.k)
        (top.setTemperature o.ts :: rest) cells ∧
      (∀ τ ∈ τs, 0 < τ) ∧ τs.sum = r.dt ∧
      sumEnergy c s'.grid.nodes = sumEnergy c s.grid.nodes + C * (H * (o.ts - top.temperature) + entered τs cells) := by
  obtain ⟨g7, hw7, hn7, hh⟩ := quiet_heat hc hw hd hq hg h hn
  have hm7 : ∀ n ∈ g7.nodes, ∃ m ∈ s.grid.nodes, n.height = m.height ∧ n.capacity c = m.capacity c ∧
      n.iceFraction = m.iceFraction ∧ n.lwc = m.lwc := by
    intro n hm
    rw [hn7] at hm
    obtain ⟨m, hm', rfl⟩ := List.mem_map.1 hm
    rcases List.mem_cons.1 hm' with rfl | hm
    · exact ⟨top, by rw [hn]; simp, rfl, rfl, rfl, rfl⟩
    · exact ⟨m, by rw [hn]; simp [hm], rfl, rfl, rfl, rfl⟩
  obtain ⟨cells, τs, h1, h2, h5, h4⟩ := C89_uniform_partial hp hw7 hdt (H := H) (C := C) (fun n hm => by
      obtain ⟨m, hm, e1, e2, e3, e4⟩ := hm7 n hm
      exact ⟨by rw [e1]; exact hpos m hm, by rw [e3]; exact (hd m hm).2.1, by rw [e4, (hd m hm).2.2]⟩) (fun n hm => by
      obtain ⟨m, hm, e1, e2, _, _⟩ := hm7 n hm
      rw [e1, e2]; exact hu m hm) (by rw [hn7]; rw [hn] at h3; simpa using h3) hh
  refine ⟨cells, τs, ?_, h2, h5, ?_⟩
  · rw [hn7, List.forall₂_map_left_iff] at h1
    exact h1
  · rw [h4, hn7, sumEnergy_refreeze, sumEnergy_cons, hn, sumEnergy_cons]
    have ht := hu top (by rw [hn]; simp)
    have e1 : (top.setTemperature o.ts).capacity c = C := ht.2
    have e2 : (top.setTemperature o.ts).height = H := ht.1
    have e3 : (top.setTemperature o.ts).temperature = o.ts := rfl
    rw [e1, e2, e3, ht.1, ht.2]
    ring

end

/-! ## A calm night -/

section

/-- Functions on the rational numbers; the fourth and the second power are right, which is all that matters without wind. -/
@[reducible] def calmTransc : Transc ℚ :=
  ⟨fun _ => 1, fun _ => 1, fun x => x, fun _ => 0, fun _ => 1, fun _ => 0, fun _ => 1,
    fun x y => if y = 4 then x * x * x * x else if y = 2 then x * x else 1, 3⟩

attribute [local instance] calmTransc

/-- Shipped constants; layers neither remeshed nor settling, so that nothing but heat moves. -/
def calmConsts : Consts ℚ :=
  { Consts.default ℚ with
    sfcTemperatureMethod := .lbfgsb
    densificationMethod := .constant
    remeshMethod := .other
    stabilityCorrection := .ri }

/-- Half a metre of ice at 268 K. -/
def calmGrid : Grid ℚ :=
  ⟨[⟨1/10, 268, 0, 1, 0⟩, ⟨1/10, 268, 0, 1, 0⟩, ⟨1/10, 268, 0, 1, 0⟩, ⟨1/10, 268, 0, 1, 0⟩, ⟨1/10, 268, 0, 1, 0⟩], 5, 0, 0, 0⟩

/-- No sun, wind or precipitation; just the longwave radiation that keeps a surface of 270 K in balance. -/
def calmNight : Forcing ℚ := ⟨268, 60, 700, 0, 0, none, some 0, some 327.91377653, none⟩

/-- One hour of that night. -/
def calmStep : M (SimState ℚ × StepOut ℚ) :=
  step exSolvers 4000 calmConsts exCfg (initState calmConsts false calmGrid) calmNight

/-- The checks on the result: nothing was exchanged, the surface balance is exactly zero, and the gain of the column. -/
def calmOk (x : M (SimState ℚ × StepOut ℚ)) : Bool :=
  match x with
  | .ok (s', o) => decide (o.snowfall = 0 ∧ o.rain = 0 ∧ o.melt = 0 ∧ o.sublimation = 0 ∧ o.deposition = 0 ∧ o.evaporation = 0 ∧
      o.condensation = 0 ∧ o.ts = 270 ∧
      o.swnet + o.fluxes.li + o.fluxes.lo + o.fluxes.h + o.fluxes.le + o.fluxes.b + o.fluxes.qrr = 0 ∧
      0 < -o.fluxes.b * 3600 ∧ 4 * (-o.fluxes.b * 3600) < sumEnergy calmConsts s'.grid.nodes - sumEnergy calmConsts calmGrid.nodes)
  | .error _ => false

theorem calmStep_ok : calmOk calmStep = true := by decide +kernel

/-- **C107, refuted.** A step in which matter is not exchanged and the surface energy balance is exactly closed, and yet the column
gains more than four times the heat that goes into it with the ground heat flux. -/
theorem C107_refuted : ∃ (s s' : SimState ℚ) (f : Forcing ℚ) (o : StepOut ℚ),
    step exSolvers 4000 calmConsts exCfg s f = .ok (s', o) ∧ QuietOut o ∧ f.g = 0 ∧
    o.swnet + o.fluxes.li + o.fluxes.lo + o.fluxes.h + o.fluxes.le + o.fluxes.b + o.fluxes.qrr = 0 ∧
    0 < -o.fluxes.b * exCfg.dt ∧
    4 * (-o.fluxes.b * exCfg.dt) < sumEnergy calmConsts s'.grid.nodes - sumEnergy calmConsts s.grid.nodes := by
  have h0 := calmStep_ok
  rcases h : calmStep with e | ⟨s', o⟩
  · rw [h] at h0; cases h0
  · rw [h] at h0
    obtain ⟨a1, a2, a3, a4, a5, a6, a7, _, a9, a10, a11⟩ := of_decide_eq_true h0
    exact ⟨_, s', calmNight, o, h, ⟨a1, a2, a3, a4, a5, a6, a7⟩, rfl, a9, a10, a11⟩

theorem calm_fixed : FixedLayers calmConsts calmGrid.nodes where
  remesh := rfl
  density := rfl
  stretch := by decide +kernel
  first := by decide +kernel
  top := by
    intro n rest h
    cases h
    decide +kernel

-- The hypotheses of both theorems hold in that night.
example : ∃ s' o, calmStep = .ok (s', o) ∧ ∃ (cells : List (HeatCell ℚ)) (τs : List ℚ),
    (∀ τ ∈ τs, 0 < τ) ∧ τs.sum = 3600 ∧ sumEnergy calmConsts s'.grid.nodes = sumEnergy calmConsts calmGrid.nodes +
      (calmConsts.iceDensity * calmConsts.specHeatIce) * (1/10 * (270 - 268) + entered τs cells) := by
  have h0 := calmStep_ok
  rcases h : calmStep with e | ⟨s', o⟩
  · rw [h] at h0; cases h0
  · rw [h] at h0
    obtain ⟨a1, a2, a3, a4, a5, a6, a7, a8, _⟩ := of_decide_eq_true h0
    have hd : DryColumn calmGrid.nodes := by unfold DryColumn; decide +kernel
    obtain ⟨cells, τs, _, h2, h3, h4⟩ := C107_uniform_partial (c := calmConsts) (r := exCfg) (s := initState calmConsts false calmGrid)
      (H := 1/10) (C := calmConsts.iceDensity * calmConsts.specHeatIce)
      (by constructor <;> decide +kernel) calm_fixed rfl hd (by decide +kernel) (by decide +kernel) (by decide +kernel)
      (by decide +kernel) ⟨a1, a2, a3, a4, a5, a6, a7⟩ le_rfl h rfl
    refine ⟨s', o, rfl, cells, τs, h2, h3, ?_⟩
    rw [a8] at h4
    exact h4

end
end Cosipy
