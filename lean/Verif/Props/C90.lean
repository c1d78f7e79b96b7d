import Verif.Lemmas.StepFuel
import Verif.Lemmas.Example
import Verif.Model.Nan
import Verif.Props.C82
import Verif.Props.C84

/-!
# C90: where a time step can fail to end

In any arithmetic in which zero is not positive and any two numbers compare (in particular with rounding), a time step ends if
remeshing and heat conduction do. If a layer is not a number, the removal of melt does not end either.
-/

set_option autoImplicit false
set_option linter.unusedSectionVars false

namespace Cosipy
section
variable {α : Type} [Add α] [Sub α] [Mul α] [Div α] [Neg α] [LT α] [LE α]
  [DecidableLT α] [DecidableLE α] [BEq α] [Zero α] [One α] [NatCast α] [OfScientific α]
  [Transc α]

/-- The column remeshing is given: that of the state, with the snow of the step. -/
def afterSnowfall (c : Consts α) (r : RunCfg α) (s : SimState α) (f : Forcing α) : M (Grid α) := do
  let rho := freshSnowDensity c f
  let sr ← precipitation c f rho
  return applySnowfall c r.dt s.grid (thresholdPrecip c rho sr).1 rho f.t2

/-- A time step up to heat conduction: the column conduction is given, and what the step does with the result. -/
def untilHeat (sv : Solvers α) (fuel : Nat) (c : Consts α) (r : RunCfg α) (s : SimState α) (f : Forcing α) :
    M (Grid α × (Grid α → M (SimState α × StepOut α))) := do
  let rho := freshSnowDensity c f
  let sr ← precipitation c f rho
  let (snowfall, rain) := thresholdPrecip c rho sr
  let g := applySnowfall c r.dt s.grid snowfall rho f.t2
  let gIn := pyMax f.g 0
  let g ← g.updateGrid fuel c
  let (g, alpha, albedoSnow) ← updateAlbedo c g s.surfaceTemperature s.albedoSnow
  let z0 ← updateRoughness c g
  let swnet := gIn * (1 - alpha)
  let (g, subMelt, gPen) ← radiationStep c g swnet r.dt
  let swRes := swnet - gPen
  let (g, ts, fl) ← updateSurfaceTemperature sv c r.wrf g
    (fun tz1 tz2 => ⟨r.dt, r.z, z0, f.t2, f.rh2, f.pres, f.u2, rain, r.slope, tz1, tz2, f.lwin, f.n⟩) swRes
  let v := vapourFluxes c r.dt ts fl.le
  let me := meltEnergy swRes fl
  let melt := me * r.dt / (1000 * c.latHeatMelting)
  let (g, lwcOut) ← g.removeMeltWeq fuel c (melt - v.sublimation - v.deposition)
  let (g, q) ← percolation g (melt + v.condensation + rain / 1000.0 + lwcOut)
  let (g, refr) ← refreezing c g
  return (g, fun g => do
    let g ← densification c g r.slope r.dt
    let surfMB := snowfall * (rho / c.waterDensity) - melt + v.sublimation + v.deposition + v.evaporation
    let intMB := refr - subMelt
    let mb := surfMB + intMB
    if (r.fullField || r.wrf) && decide ((r.maxLayers : Int) < g.getNumberLayers) then .error .value
    else
      return (⟨g, ts, albedoSnow, s.mbCum + mb⟩,
        { rain := rain, snowfall := snowfall, densityFreshSnow := rho, swnet := swRes, albedo := alpha, z0 := z0,
          fluxes := fl, ts := ts, sublimation := v.sublimation, deposition := v.deposition,
          evaporation := v.evaporation, condensation := v.condensation, meltEnergy := me, melt := melt,
          lwcFromLayers := lwcOut, q := q, refreeze := refr, subsurfaceMelt := subMelt,
          surfMB := surfMB, intMB := intMB, mb := mb }))

/-- **C90, the parts.** A time step is the part up to heat conduction, heat conduction, and the rest. -/
theorem C90_parts (sv : Solvers α) (fuel : Nat) (c : Consts α) (r : RunCfg α) (s : SimState α) (f : Forcing α) :
    step sv fuel c r s f = (do
      let x ← untilHeat sv fuel c r s f
      let g ← solveHeatEquation fuel c x.1 r.dt
      x.2 g) := by
  unfold step untilHeat
  simp only [bind_assoc, pure_bind]

/-- What comes after heat conduction ends. -/
theorem rest_nd {sv : Solvers α} {fuel : Nat} {c : Consts α} {r : RunCfg α} {s : SimState α} {f : Forcing α}
    {x : Grid α × (Grid α → M (SimState α × StepOut α))} (h : untilHeat sv fuel c r s f = .ok x) (g : Grid α) :
    x.2 g ≠ .error .diverge := by
  unfold untilHeat at h
  simp only [bind_eq_ok, pure_eq_ok] at h
  obtain ⟨_, _, _, _, _, _, _, _, _, _, _, _, _, _, _, _, _, _, rfl⟩ := h
  refine bind_nd (densification_nd _ _ _ _) fun _ _ => ?_
  split_ifs
  · intro h; cases h
  · exact pure_nd _

theorem untilHeat_mono (sv : Solvers α) (c : Consts α) (r : RunCfg α) (s : SimState α) (f : Forcing α) :
    FuelMono fun n => untilHeat sv n c r s f := by
  unfold untilHeat
  refine FuelMono.bind (.const _) fun _ => FuelMono.bind (updateGrid_mono c _) fun _ => ?_
  refine FuelMono.bind (.const _) fun _ => FuelMono.bind (.const _) fun _ => FuelMono.bind (.const _) fun _ => ?_
  refine FuelMono.bind (.const _) fun _ => FuelMono.bind (meltRemoval_mono c _ _) fun _ => .const _

/-- The column heat conduction is given does not depend on how long one was ready to wait. -/
theorem untilHeat_unique {sv : Solvers α} {c : Consts α} {r : RunCfg α} {s : SimState α} {f : Forcing α} {n k : Nat}
    {x y : Grid α × (Grid α → M (SimState α × StepOut α))} (hx : untilHeat sv n c r s f = .ok x)
    (hy : untilHeat sv k c r s f = .ok y) : x = y := by
  have h1 := untilHeat_mono sv c r s f n (max n k) (le_max_left _ _) (by simp only [hx]; nofun)
  have h2 := untilHeat_mono sv c r s f k (max n k) (le_max_right _ _) (by simp only [hy]; nofun)
  simp only [hx, hy] at h1 h2
  rw [h1] at h2
  cases h2; rfl

theorem untilHeat_wf {sv : Solvers α} {c : Consts α} {r : RunCfg α} {s : SimState α} {f : Forcing α} {n : Nat}
    {x : Grid α × (Grid α → M (SimState α × StepOut α))} (hw : s.grid.WF) (h : untilHeat sv n c r s f = .ok x) : x.1.WF := by
  unfold untilHeat at h
  simp only [bind_eq_ok, pure_eq_ok] at h
  obtain ⟨sr, _, g1, h1, a, h2, _, _, b, h3, d, h4, e, h5, q, h6, u, h7, rfl⟩ := h
  have w0 : (applySnowfall c r.dt s.grid (thresholdPrecip c (freshSnowDensity c f) sr).1 (freshSnowDensity c f) f.t2).WF := by
    unfold applySnowfall; split_ifs
    · exact hw.addFreshSnow _ _ _ _ _ _
    · exact hw
  exact (((((((w0.updateGrid h1).updateAlbedo h2).radiationStep h3).updateSurfaceTemperature h4).removeMeltWeq
    h5).percolation h6).refreezing h7)

theorem untilHeat_terminates {sv : Solvers α} (hs : sv.Halt) (hz : ¬ (0 : α) < 0) (hcmp : ∀ a b : α, a < b ∨ b ≤ a)
    {c : Consts α} {r : RunCfg α} {s : SimState α} {f : Forcing α}
    (hmesh : ∀ g, afterSnowfall c r s f = .ok g → Terminates fun n => g.updateGrid n c) :
    Terminates fun n => untilHeat sv n c r s f := by
  unfold untilHeat
  refine Terminates.bind (.const (precipitation_nd _ _ _)) fun sr _ hsr => ?_
  refine Terminates.bind (hmesh _ (by unfold afterSnowfall; simp only [hsr]; rfl)) fun g _ _ => ?_
  refine Terminates.bind (.const (albedo_nd _ _ _ _)) fun x _ _ => ?_
  refine Terminates.bind (.const (roughness_nd _ _)) fun z0 _ _ => ?_
  refine Terminates.bind (.const (radiation_nd _ _ _ _)) fun y _ _ => ?_
  refine Terminates.bind (.const (surfaceTemperature_nd hs _ _ _ _ _)) fun w _ _ => ?_
  refine Terminates.bind (meltRemoval_terminates hz hcmp c _ _) fun u _ _ => ?_
  refine Terminates.bind (.const (percolation_nd _ _)) fun v _ _ => ?_
  exact Terminates.bind (.const (refreezing_nd _ _)) fun q _ _ => .const (pure_nd _)

/-- **C90, one step.** A time step ends if remeshing the column after snowfall ends, and heat conduction in the column it reaches
ends. -/
theorem C90_step {sv : Solvers α} (hs : sv.Halt) (hz : ¬ (0 : α) < 0) (hcmp : ∀ a b : α, a < b ∨ b ≤ a)
    {c : Consts α} {r : RunCfg α} {s : SimState α} {f : Forcing α}
    (hmesh : ∀ g, afterSnowfall c r s f = .ok g → Terminates fun n => g.updateGrid n c)
    (hheat : ∀ n x, untilHeat sv n c r s f = .ok x → Terminates fun n => solveHeatEquation n c x.1 r.dt) :
    Terminates fun n => step sv n c r s f := by
  simp only [C90_parts]
  refine Terminates.bind (untilHeat_terminates hs hz hcmp hmesh) fun x n hx => ?_
  exact Terminates.bind (hheat n x hx) fun g _ _ => .const (rest_nd hx g)

/-- **C90, adaptive remeshing.** With adaptive remeshing only heat conduction can fail to end. -/
theorem C90_adaptive {sv : Solvers α} (hs : sv.Halt) (hz : ¬ (0 : α) < 0) (hcmp : ∀ a b : α, a < b ∨ b ≤ a)
    {c : Consts α} (hm : c.remeshMethod ≠ .logProfile) {r : RunCfg α} {s : SimState α} {f : Forcing α} (hw : s.grid.WF)
    (hheat : ∀ n x, untilHeat sv n c r s f = .ok x → Terminates fun n => solveHeatEquation n c x.1 r.dt) :
    Terminates fun n => step sv n c r s f := by
  refine C90_step hs hz hcmp (fun g hg => ?_) hheat
  have hg' : g.WF := by
    unfold afterSnowfall at hg
    rw [bind_eq_ok] at hg
    obtain ⟨sr, _, hg⟩ := hg
    rw [pure_eq_ok] at hg
    subst hg
    unfold applySnowfall
    split_ifs
    · exact hw.addFreshSnow _ _ _ _ _ _
    · exact hw
  exact C07_adaptive c g hg' hm

/-- **C90, the condition is necessary.** If the part of the step before heat conduction returns, the step ends exactly if heat conduction
in the column it reaches does. -/
theorem C90_iff {sv : Solvers α} {c : Consts α} {r : RunCfg α} {s : SimState α} {f : Forcing α}
    {x : Grid α × (Grid α → M (SimState α × StepOut α))} {k : Nat} (h : untilHeat sv k c r s f = .ok x) :
    (Terminates fun n => step sv n c r s f) ↔ Terminates fun n => solveHeatEquation n c x.1 r.dt := by
  obtain ⟨_, N, hN⟩ := TerminatesWith.of_mono (untilHeat_mono sv c r s f) (n := k) (by rw [h]; nofun)
  simp only [h] at hN
  constructor
  · rintro ⟨res, hd, N', hN'⟩
    refine Terminates.of_lt (conduction_mono c x.1 r.dt) ⟨max N N', fun he => hd ?_⟩
    have := hN' (max N N') (le_max_right _ _)
    simp only [C90_parts] at this
    have h1 : untilHeat sv (max N N') c r s f = .ok x := hN _ (le_max_left _ _)
    rw [h1, ok_bind, he, error_bind] at this
    exact this.symm
  · rintro ⟨res, hd, N', hN'⟩
    rcases res with e | g
    · refine ⟨.error e, fun h => hd (by cases h; rfl), max N N', fun n hn => ?_⟩
      have h1 : untilHeat sv n c r s f = .ok x := hN n ((le_max_left _ _).trans hn)
      have h2 : solveHeatEquation n c x.1 r.dt = .error e := hN' n ((le_max_right _ _).trans hn)
      simp only [C90_parts, h1, ok_bind, h2, error_bind]
    · refine ⟨x.2 g, rest_nd (hN N le_rfl) g, max N N', fun n hn => ?_⟩
      have h1 : untilHeat sv n c r s f = .ok x := hN n ((le_max_left _ _).trans hn)
      have h2 : solveHeatEquation n c x.1 r.dt = .ok g := hN' n ((le_max_right _ _).trans hn)
      simp only [C90_parts, h1, ok_bind, h2]

/-- **C90, simulation.** A simulation of any length ends if remeshing and heat conduction end in every step it reaches. -/
theorem C90_run {sv : Solvers α} (hs : sv.Halt) (hz : ¬ (0 : α) < 0) (hcmp : ∀ a b : α, a < b ∨ b ≤ a)
    {c : Consts α} {r : RunCfg α} : ∀ (fs : List (Forcing α)) (s : SimState α),
    (∀ n past f future s' os, fs = past ++ f :: future → run sv n c r s past = .ok (s', os) →
      (∀ g, afterSnowfall c r s' f = .ok g → Terminates fun n => g.updateGrid n c) ∧
      ∀ k x, untilHeat sv k c r s' f = .ok x → Terminates fun n => solveHeatEquation n c x.1 r.dt) →
    Terminates fun n => run sv n c r s fs
  | [], s, _ => .const (ok_nd _)
  | f :: fs, s, h => by
    obtain ⟨h1, h2⟩ := h 0 [] f fs s [] rfl rfl
    simp only [run]
    refine Terminates.bind (C90_step hs hz hcmp h1 h2) fun x n hx => ?_
    refine Terminates.bind (C90_run hs hz hcmp fs x.1 ?_) fun y _ _ => .const (pure_nd _)
    intro m past f' future s' os hfs hrun
    refine h (max n m) (f :: past) f' future s' (x.2 :: os) (by rw [hfs]; rfl) ?_
    have e1 := step_mono sv c r s f n (max n m) (le_max_left _ _) (by simp only [hx]; nofun)
    have e2 := run_mono sv c r past x.1 m (max n m) (le_max_right _ _) (by simp only [hrun]; nofun)
    simp only [hx, hrun] at e1 e2
    rw [run, e1, ok_bind]
    simp only [e2, ok_bind]
    rfl

/-- **C90, patience.** A simulation that returned or raised within some number of loop passes does the same with any larger
number. -/
theorem C90_patience {sv : Solvers α} {c : Consts α} {r : RunCfg α} {s : SimState α} {fs : List (Forcing α)} {n m : Nat} (h : n ≤ m)
    (hr : run sv n c r s fs ≠ .error .diverge) : run sv m c r s fs = run sv n c r s fs :=
  run_mono sv c r fs s n m h hr

/-! ## Values that are not numbers -/

omit [Transc α] in
/-- **C90, NaN.** If the water equivalent of the uppermost layer compares with nothing (it is NaN), removing any positive amount of melt
never ends. -/
theorem C90_nan {c : Consts α} {g : Grid α} {m : α} {a : Node α} (hm : 0 < m) (hn : 0 < g.numberNodes)
    (ha : g.nodes.head? = some a) (h1 : ¬ m < a.height * (a.density c / c.waterDensity))
    (h2 : ¬ a.height * (a.density c / c.waterDensity) ≤ m) : Diverges fun n => g.removeMeltWeq n c m := by
  have hpass : Grid.removeMeltPass c 0 ⟨g, m, 0⟩ = .ok (some ⟨g, m, 0⟩) := by
    have hnode : g.node 0 = .ok a := by
      obtain ⟨rest, hr⟩ : ∃ rest, g.nodes = a :: rest := by
        cases hg : g.nodes with
        | nil => rw [hg] at ha; cases ha
        | cons b rest => rw [hg] at ha; cases ha; exact ⟨rest, rfl⟩
      unfold Grid.node; rw [hr]; exact pyGet_nat (by simp)
    unfold Grid.removeMeltPass
    rw [if_pos ⟨hm, hn⟩]
    simp only [hnode, ok_bind]
    rw [if_neg h1, if_neg h2]
    rfl
  have hloop : ∀ n, whileM (Grid.removeMeltPass c 0) n ⟨g, m, 0⟩ = .error .diverge := by
    intro n
    induction n with
    | zero => rfl
    | succ n ih => rw [whileM, hpass]; exact ih
  intro n
  show g.removeMeltWeq n c m = _
  unfold Grid.removeMeltWeq
  rw [hloop, error_bind]

end

/-! ## Floating point -/

section
variable {K : Type} [Field K] [LinearOrder K] [IsStrictOrderedRing K] [FloorRing K] [Archimedean K] [Transc K]
  {p : ℕ} {emin : ℤ} {hp : 23 ≤ p} {he : emin ≤ -30}

local notation "F" => Fl (binary K p emin hp he)

/-- Heat conduction ends if the stability bound, where there is one, is positive and at least `2^(1-p)` of the time step. -/
theorem conduction_float {c : Consts F} {g : Grid F} {dt : F} (hw : g.WF) (hdt : 0 ≤ dt)
    (hb : ∀ (cells : List (HeatCell F)) (bound : F),
      List.Forall₂ (fun n x => x.h = n.height ∧ x.t = n.temperature ∧ n.thermalDiffusivity c = .ok x.k) g.nodes cells →
      heatDtStab cells = .ok bound → 0 < bound ∧ (2 : K) ^ (1 - (p : ℤ)) * dt.1 ≤ bound.1) :
    Terminates fun n => solveHeatEquation n c g dt := by
  unfold solveHeatEquation
  refine Terminates.bind (.const (mapNodes_nd _ fun n => bind_nd ?_ fun _ _ => pure_nd _)) fun cells _ hc => ?_
  · unfold Node.thermalDiffusivity; exact bind_nd (by unfold Node.thermalConductivity; split <;> simp) fun _ _ => fdiv_ne_diverge _ _
  refine Terminates.bind (.const ?_) fun bound _ hbd => ?_
  · have hmin : ∀ xs : List F, pyMinList xs ≠ .error .diverge := by
      intro xs; cases xs with
      | nil => intro h; cases h
      | cons a as => intro h; cases h
    unfold heatDtStab
    exact bind_nd (hmin _) fun _ _ => bind_nd (hmin _) fun _ _ => pure_nd _
  · have hcells : List.Forall₂ (fun n x => x.h = n.height ∧ x.t = n.temperature ∧ n.thermalDiffusivity c = .ok x.k)
        g.nodes cells := by
      rw [Grid.mapNodes_eq hw, mapM_eq_ok_iff] at hc
      refine hc.imp fun n x hx => ?_
      rw [bind_eq_ok] at hx
      obtain ⟨k, hk, hx⟩ := hx
      rw [pure_eq_ok] at hx
      subst hx
      exact ⟨rfl, rfl, hk⟩
    obtain ⟨b1, b2⟩ := hb cells bound hcells hbd
    obtain ⟨r, N, hr⟩ := heatLoop_float_terminates b1 hdt b2 cells
    exact Terminates.bind ⟨.ok r, nofun, N, hr⟩ fun _ _ _ => .const (setAll_nd _ _ _)

/-- **C90, floating point.** In binary floating point (no overflow, no NaN) with adaptive remeshing a time step ends, with a result or an
exception, if in the column heat conduction is given the stability bound is positive and not below `2^(1-p)` of the time step
(`2^-51` in double precision). -/
theorem C90_float {sv : Solvers F} (hs : sv.Halt) {c : Consts F} (hm : c.remeshMethod ≠ .logProfile) {r : RunCfg F} (hdt : 0 ≤ r.dt)
    {s : SimState F} {f : Forcing F} (hw : s.grid.WF)
    (hb : ∀ n x (cells : List (HeatCell F)) (bound : F), untilHeat sv n c r s f = .ok x →
      List.Forall₂ (fun n x => x.h = n.height ∧ x.t = n.temperature ∧ n.thermalDiffusivity c = .ok x.k) x.1.nodes cells →
      heatDtStab cells = .ok bound → 0 < bound ∧ (2 : K) ^ (1 - (p : ℤ)) * r.dt.1 ≤ bound.1) :
    Terminates fun n => step sv n c r s f :=
  C90_adaptive hs (lt_irrefl _) (fun a b => lt_or_ge a b) hm hw fun n x hx =>
    conduction_float (untilHeat_wf hw hx) hdt fun cells bound h1 h2 => hb n x cells bound hx h1 h2

end

/-! ## Concrete cases -/

section
attribute [local instance] exTransc

private theorem exSolvers_halt : exSolvers.Halt := ⟨fun _ _ _ => nofun, fun _ _ _ _ _ _ => nofun⟩

private def s₀ : SimState ℚ := initState exConsts false exGrid

/-- A returned value, as a computation. -/
private def returns {β : Type} (x : M β) (q : β → Bool) : Bool :=
  match x with
  | .ok b => q b
  | .error _ => false

private theorem returns_ok {β : Type} {x : M β} {q : β → Bool} (h : returns x q = true) : ∃ b, x = .ok b ∧ q b = true := by
  unfold returns at h
  split at h
  · exact ⟨_, rfl, h⟩
  · cases h

/-- Heat conduction returns in the column a step reaches. -/
private def heatReturns (s : SimState ℚ) (f : Forcing ℚ) : Bool :=
  returns (untilHeat exSolvers 40 exConsts exCfg s f) fun x => returns (solveHeatEquation 40 exConsts x.1 exCfg.dt) fun _ => true

private theorem heatReturns_ok {s : SimState ℚ} {f : Forcing ℚ} (h : heatReturns s f = true) :
    ∃ x, untilHeat exSolvers 40 exConsts exCfg s f = .ok x ∧ Terminates fun n => solveHeatEquation n exConsts x.1 exCfg.dt := by
  obtain ⟨x, hx, h⟩ := returns_ok h
  obtain ⟨g, hg, _⟩ := returns_ok h
  exact ⟨x, hx, Terminates.of_lt (conduction_mono _ _ _) ⟨40, by rw [hg]; nofun⟩⟩

private theorem ex_mesh {s : SimState ℚ} {f : Forcing ℚ} (hw : s.grid.WF) (g : Grid ℚ) (hg : afterSnowfall exConsts exCfg s f = .ok g) :
    Terminates fun n => g.updateGrid n exConsts := by
  refine C07_log exConsts g ?_ (by decide +kernel) (by decide +kernel)
  unfold afterSnowfall at hg
  rw [bind_eq_ok] at hg
  obtain ⟨sr, _, hg⟩ := hg
  rw [pure_eq_ok] at hg
  subst hg
  unfold applySnowfall
  split_ifs
  · exact hw.addFreshSnow _ _ _ _ _ _
  · exact hw

/-- An hour of snowfall: the hypotheses of `C90_step` and `C90_iff` hold. -/
example : Terminates fun n => step exSolvers n exConsts exCfg s₀ exSnow := by
  obtain ⟨x, hx, ht⟩ := heatReturns_ok (s := s₀) (f := exSnow) (by decide +kernel)
  exact C90_step exSolvers_halt (lt_irrefl _) (fun a b => lt_or_ge a b) (ex_mesh rfl)
    fun n y hy => by rw [untilHeat_unique hy hx]; exact ht

example : Terminates fun n => step exSolvers n exConsts exCfg s₀ exDry := by
  obtain ⟨x, hx, ht⟩ := heatReturns_ok (s := s₀) (f := exDry) (by decide +kernel)
  exact (C90_iff hx).2 ht

/-- Two hours: the hypotheses of `C90_run` hold. -/
example : Terminates fun n => run exSolvers n exConsts exCfg s₀ [exSnow, exDry] := by
  have hall : returns (run exSolvers 40 exConsts exCfg s₀ [exSnow])
      (fun y => decide (y.1.grid.numberNodes = y.1.grid.nodes.length) && heatReturns y.1 exDry) = true := by decide +kernel
  obtain ⟨y, hy, hq⟩ := returns_ok hall
  rw [Bool.and_eq_true, decide_eq_true_eq] at hq
  refine C90_run exSolvers_halt (lt_irrefl _) (fun a b => lt_or_ge a b) _ _ ?_
  intro n past f future s' os hfs hrun
  match past, hfs with
  | [], hfs =>
    simp only [List.nil_append, List.cons.injEq] at hfs
    obtain ⟨rfl, rfl⟩ := hfs
    cases hrun
    obtain ⟨x, hx, ht⟩ := heatReturns_ok (s := s₀) (f := exSnow) (by decide +kernel)
    exact ⟨ex_mesh rfl, fun k z hz => by rw [untilHeat_unique hz hx]; exact ht⟩
  | [_], hfs =>
    simp only [List.cons_append, List.nil_append, List.cons.injEq] at hfs
    obtain ⟨rfl, rfl, rfl⟩ := hfs
    have e1 := run_mono exSolvers exConsts exCfg [exSnow] s₀ n (max n 40) (le_max_left _ _) (by simp only [hrun]; nofun)
    have e2 := run_mono exSolvers exConsts exCfg [exSnow] s₀ 40 (max n 40) (le_max_right _ _) (by simp only [hy]; nofun)
    simp only [hrun, hy] at e1 e2
    rw [e1] at e2
    cases e2
    obtain ⟨x, hx, ht⟩ := heatReturns_ok hq.2
    exact ⟨ex_mesh hq.1, fun k z hz => by rw [untilHeat_unique hz hx]; exact ht⟩
  | _ :: _ :: past, hfs => simp at hfs

/-- The run above with more patience. -/
example : run exSolvers 1000000 exConsts exCfg s₀ [exSnow, exDry] = run exSolvers 40 exConsts exCfg s₀ [exSnow, exDry] := by
  have h : returns (run exSolvers 40 exConsts exCfg s₀ [exSnow, exDry]) (fun _ => true) = true := by decide +kernel
  obtain ⟨y, hy, _⟩ := returns_ok h
  exact C90_patience (by norm_num) (by rw [hy]; nofun)

end

section
attribute [local instance] exTransc
private abbrev D64 := Fl (binary ℚ 52 (-1022) (by norm_num) (by norm_num))

private def dSolvers : Solvers D64 := ⟨fun _ _ => .ok 270, fun _ _ _ _ _ => .ok 270⟩
private theorem dSolvers_halt : dSolvers.Halt := ⟨fun _ _ _ => nofun, fun _ _ _ _ _ _ => nofun⟩
private def dConsts : Consts D64 :=
  { Consts.default D64 with
    sfcTemperatureMethod := .lbfgsb
    densificationMethod := .constant
    remeshMethod := .adaptiveProfile }
private def dCfg : RunCfg D64 := ⟨3600, 2, 0, 200, true, false⟩
private def dState : SimState D64 := initState dConsts false
  ⟨[⟨0.1, 268, 0, 0.3, 0⟩, ⟨0.1, 269, 0, 0.5, 0⟩, ⟨0.5, 270, 0, 0.99, 0⟩, ⟨0.5, 270, 0, 0.99, 0⟩], 4, 0, 0, 0⟩
private def dSnow : Forcing D64 := ⟨268, 90, 700, 0, 2, none, some 10, some 250, none⟩

private def dCells (g : Grid D64) : M (List (HeatCell D64)) :=
  g.nodes.mapM fun n => do
    let k ← n.thermalDiffusivity dConsts
    return HeatCell.mk n.height k n.temperature

/-- An hour of snowfall in double precision: the hypotheses of `C90_float` hold. -/
example : Terminates fun n => step dSolvers n dConsts dCfg dState dSnow := by
  have h : returns (untilHeat dSolvers 40 dConsts dCfg dState dSnow) (fun x => returns (dCells x.1) fun cells =>
      returns (heatDtStab cells) fun b => decide (0 < b.1 ∧ (2 : ℚ) ^ (1 - ((52 : ℕ) : ℤ)) * dCfg.dt.1 ≤ b.1)) = true := by decide +kernel
  obtain ⟨x, hx, h⟩ := returns_ok h
  obtain ⟨cells, hc, h⟩ := returns_ok h
  obtain ⟨b, hb, h⟩ := returns_ok h
  refine C90_float (p := 52) dSolvers_halt (by decide) (by show (0 : D64) ≤ 3600; decide +kernel) rfl ?_
  intro n y cells' b' hy hcells hb'
  rw [untilHeat_unique hy hx] at hcells
  have hc' : dCells x.1 = .ok cells' := by
    unfold dCells
    rw [mapM_eq_ok_iff]
    refine hcells.imp fun n x hx => ?_
    obtain ⟨h1, h2, h3⟩ := hx
    rw [h3, ok_bind, ← h1, ← h2]; rfl
  rw [hc] at hc'; cases hc'
  rw [hb] at hb'; cases hb'
  exact of_decide_eq_true h

end

section
/-- A column whose uppermost layer has lost its ice fraction. -/
private def nanColumn : Grid (Nan ℚ) :=
  ⟨[⟨.num (1/10), .num 270, .num 0, .nan, .num 0⟩, ⟨.num 1, .num 270, .num 0, .num 1, .num 0⟩], 2, .num 0, .num 0, .num 0⟩

/-- A millimetre of melt is never removed from it. -/
example : Diverges fun n => nanColumn.removeMeltWeq n (Consts.default (Nan ℚ)) (.num (1/1000)) := by
  refine C90_nan (a := ⟨.num (1/10), .num 270, .num 0, .nan, .num 0⟩) ?_ (by decide) rfl ?_ ?_ <;> decide +kernel

end
end Cosipy
