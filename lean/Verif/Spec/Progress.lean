import Verif.Spec.Physical
import Verif.Spec.Column
import Verif.Spec.Termination

/-! # When a time step completes -/

set_option autoImplicit false
set_option linter.unusedSectionVars false

namespace Cosipy
section
variable {K : Type} [Field K] [LinearOrder K] [IsStrictOrderedRing K]

/-- A physical layer of realistic ice content: between 2 % and 100 %. -/
structure GoodLayer (c : Consts K) (tlo : K) (n : Node K) : Prop where
  phys : PhysLayer c tlo n
  iceLo : 1 / 50 ≤ n.iceFraction
  iceHi : n.iceFraction ≤ 1

variable [Transc K]

/-- Every method named in the configuration exists. -/
structure MethodsKnown (c : Consts K) : Prop where
  albedo : c.albedoMethod ≠ .other
  roughness : c.roughnessMethod ≠ .other
  penetrating : c.penetratingMethod ≠ .other
  stability : c.stabilityCorrection ≠ .other
  surface : c.sfcTemperatureMethod ≠ .other
  conductivity : c.thermalConductivityMethod ≠ .other
  densification : c.densificationMethod ≠ .other

/-- The forcing of a step gives what the step needs: precipitation, incoming longwave radiation or cloud cover, an air
temperature not below `tlo`, and fresh snow no denser than ice and not absurdly light. -/
structure Supplied (c : Consts K) (tlo : K) (f : Forcing K) : Prop where
  rrr : f.rrr ≠ none
  longwave : f.lwin ≠ none ∨ f.n ≠ none
  air : tlo ≤ f.t2
  freshLo : c.iceDensity / 50 + c.airDensity ≤ freshSnowDensity c f
  freshHi : freshSnowDensity c f ≤ c.iceDensity

/-- The numerical solvers end on every objective that can be evaluated. -/
structure Solvers.End (sv : Solvers K) : Prop where
  newton : ∀ (R : K → K) (x : K), sv.newton (fun t => .ok (R t)) x ≠ .error .diverge
  minimize : ∀ (m : SfcMethod) (R : K → K) (x lo hi : K), sv.minimize m (fun t => .ok (R t)) x lo hi ≠ .error .diverge

/-- A numerical solver raises on some objective that can be evaluated everywhere (Newton's method: an exception other
than the two that are caught). -/
def Solvers.Raises (sv : Solvers K) : Prop :=
  (∃ (m : SfcMethod) (R : K → K) (x lo hi : K) (e : Err), sv.minimize m (fun t => .ok (R t)) x lo hi = .error e) ∨
    ∃ (R : K → K) (x : K) (e : Err), e ≠ .runtime ∧ e ≠ .value ∧ sv.newton (fun t => .ok (R t)) x = .error e

/-- The column after snowfall, before remeshing. -/
def snowedColumn (c : Consts K) (r : RunCfg K) (s : SimState K) (f : Forcing K) : M (Grid K) := do
  let sr ← precipitation c f (freshSnowDensity c f)
  let p := thresholdPrecip c (freshSnowDensity c f) sr
  return applySnowfall c r.dt s.grid p.1 (freshSnowDensity c f) f.t2

/-- The column for which the surface energy balance is solved: after snowfall, remeshing and penetrating radiation. -/
def surfaceColumn (fuel : Nat) (c : Consts K) (r : RunCfg K) (s : SimState K) (f : Forcing K) : M (Grid K) := do
  let g0 ← snowedColumn c r s f
  let g1 ← g0.updateGrid fuel c
  let (g2, alpha, _) ← updateAlbedo c g1 s.surfaceTemperature s.albedoSnow
  let (g3, _, _) ← radiationStep c g2 (pyMax f.g 0 * (1 - alpha)) r.dt
  return g3

/-- The column after the energy balance, with the melted, sublimated and deposited mass removed or added. -/
def meltedColumn (sv : Solvers K) (fuel : Nat) (c : Consts K) (r : RunCfg K) (s : SimState K) (f : Forcing K) :
    M (Grid K) := do
  let rho := freshSnowDensity c f
  let sr ← precipitation c f rho
  let (snowfall, rain) := thresholdPrecip c rho sr
  let g := applySnowfall c r.dt s.grid snowfall rho f.t2
  let g ← g.updateGrid fuel c
  let (g, alpha, _) ← updateAlbedo c g s.surfaceTemperature s.albedoSnow
  let z0 ← updateRoughness c g
  let swnet := pyMax f.g 0 * (1 - alpha)
  let (g, _, gPen) ← radiationStep c g swnet r.dt
  let swRes := swnet - gPen
  let (g, ts, fl) ← updateSurfaceTemperature sv c r.wrf g
    (fun tz1 tz2 => ⟨r.dt, r.z, z0, f.t2, f.rh2, f.pres, f.u2, rain, r.slope, tz1, tz2, f.lwin, f.n⟩) swRes
  let v := vapourFluxes c r.dt ts fl.le
  let melt := meltEnergy swRes fl * r.dt / (1000 * c.latHeatMelting)
  let (g, _) ← g.removeMeltWeq fuel c (melt - v.sublimation - v.deposition)
  return g

/-- Remeshing uses the column up: the snow loop of adaptive remeshing leaves at most one layer, or nothing is left by
remeshing, or nothing is left after the removal of a thin top layer. -/
def RemeshExhausts (fuel : Nat) (c : Consts K) (g : Grid K) : Prop :=
  (c.remeshMethod = .adaptiveProfile ∧
      ∃ s, whileM (Grid.adaptSnowPass c) fuel ⟨g, 0, 0⟩ = .ok s ∧ s.g.nodes.length ≤ 1) ∨
    (∃ g1, g.remesh fuel c = .ok g1 ∧ g1.nodes = []) ∨ ∃ g1, g.updateGrid fuel c = .ok g1 ∧ g1.nodes = []

/-- The states and inputs for which a step is shown to end in a result or for a stated reason. -/
structure Ready (sv : Solvers K) (c : Consts K) (r : RunCfg K) (tlo : K) : Prop where
  sane : Sane c r tlo
  methods : MethodsKnown c
  bounded : ∀ m f x lo hi t, sv.minimize m f x lo hi = .ok t → lo ≤ t
  ends : sv.End
  tlo : 0 ≤ tlo
  depths : c.zlt1 ≤ c.zlt2
  stretch : 1 ≤ c.layerStretching

/-- Why a step may fail. -/
inductive StepFails (sv : Solvers K) (fuel : Nat) (c : Consts K) (r : RunCfg K) (s : SimState K) (f : Forcing K) : Prop
  /-- Remeshing uses up the column. -/
  | remesh (g : Grid K) (h : snowedColumn c r s f = .ok g) (hx : RemeshExhausts fuel c g)
  /-- The column under the energy balance has a single layer, or does not reach the deeper interpolation depth. -/
  | shallow (g : Grid K) (h : surfaceColumn fuel c r s f = .ok g) (hx : g.nodes.length < 2 ∨ sumHeight g.nodes ≤ c.zlt2)
  /-- A numerical solver raises. -/
  | solver (h : sv.Raises)
  /-- Melt and sublimation leave fewer than three layers. -/
  | melted (g : Grid K) (h : meltedColumn sv fuel c r s f = .ok g) (hx : g.nodes.length < 3)
  /-- The new column has more layers than the output can hold. -/
  | layers (m : Nat) (s' : SimState K) (o : StepOut K) (h : step sv fuel c { r with maxLayers := m } s f = .ok (s', o))
      (hx : r.maxLayers < s'.grid.nodes.length) (hf : r.fullField = true ∨ r.wrf = true)

end
end Cosipy
