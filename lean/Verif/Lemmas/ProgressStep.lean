import Verif.Lemmas.Stages
import Verif.Lemmas.Densify
import Mathlib.Algebra.Order.Archimedean.Real.Basic

/-! A time step on a good column ends, in a result or for a stated reason. -/

set_option autoImplicit false
set_option linter.unusedSectionVars false

namespace Cosipy
section
variable {K : Type} [Field K] [LinearOrder K] [IsStrictOrderedRing K] [Transc K]

theorem secantLoop_total {R : K → K} {tol rtol : K} : ∀ {n : Nat} {p0 p1 q0 q1 : K} {k : Nat} {e : Err},
    secantLoop (fun t => .ok (R t)) tol rtol n p0 p1 q0 q1 k = .error e → e = .runtime := by
  intro n
  induction n with
  | zero => intro p0 p1 q0 q1 k e h; rw [secantLoop] at h; cases h
  | succ n ih =>
    intro p0 p1 q0 q1 k e h
    rw [secantLoop] at h
    simp only [ok_bind] at h
    split_ifs at h
    · cases h; rfl
    · exact ih h

theorem secant_total {R : K → K} {x : K} {e : Err} (h : secant (fun t => .ok (R t)) x 0.01 50 none 0 = .error e) :
    e = .runtime := by
  unfold secant at h
  rw [if_neg (by norm_num), if_neg (by norm_num)] at h
  simp only [ok_bind] at h
  split_ifs at h
  · exact secantLoop_total h
  · exact secantLoop_total h

theorem solve_safe {sv : Solvers K} {c : Consts K} (hm : c.sfcTemperatureMethod ≠ .other) (R : K → K) (x : K) :
    Safe (solveSurfaceTemperature sv c (fun t => .ok (R t)) x) sv.Raises := by
  intro e he
  right
  unfold solveSurfaceTemperature at he
  split at he
  · exact .inl ⟨_, _, _, _, _, _, he⟩
  · exact .inl ⟨_, _, _, _, _, _, he⟩
  · unfold tryExcept at he
    split at he
    · exact .inl ⟨_, _, _, _, _, _, he⟩
    · exact .inl ⟨_, _, _, _, _, _, he⟩
    · next h1 h2 =>
      rcases bind_eq_error.1 he with h | ⟨r, _, h⟩
      · refine .inr ⟨R, x, e, ?_, ?_, h⟩
        · rintro rfl; exact h1 he
        · rintro rfl; exact h2 he
      · rcases bind_eq_error.1 h with h | ⟨_, _, h⟩
        · unfold checkResidualClip at h
          split_ifs at h
          cases h
          exact absurd he h2
        · cases h
  · unfold tryExcept at he
    split at he
    · exact .inl ⟨_, _, _, _, _, _, he⟩
    · exact .inl ⟨_, _, _, _, _, _, he⟩
    · next h1 h2 =>
      rcases bind_eq_error.1 he with h | ⟨⟨r, k⟩, _, h⟩
      · have := secant_total h
        subst this; exact absurd he h1
      · simp only at h
        split_ifs at h
        · cases h; exact absurd he h2
        · rcases bind_eq_error.1 h with h | ⟨_, _, h⟩
          · unfold checkResidualClip at h
            split_ifs at h
          · cases h
  · next h => exact absurd h hm

theorem solve_nd {sv : Solvers K} (hs : sv.End) {c : Consts K} (R : K → K) (x : K) :
    solveSurfaceTemperature sv c (fun t => .ok (R t)) x ≠ .error .diverge := by
  intro he
  unfold solveSurfaceTemperature at he
  split at he
  · exact hs.minimize _ _ _ _ _ he
  · exact hs.minimize _ _ _ _ _ he
  · unfold tryExcept at he
    split at he
    · exact hs.minimize _ _ _ _ _ he
    · exact hs.minimize _ _ _ _ _ he
    · rcases bind_eq_error.1 he with h | ⟨r, _, h⟩
      · exact hs.newton _ _ h
      · rcases bind_eq_error.1 h with h | ⟨_, _, h⟩
        · unfold checkResidualClip at h
          split_ifs at h
          cases h
        · cases h
  · unfold tryExcept at he
    split at he
    · exact hs.minimize _ _ _ _ _ he
    · exact hs.minimize _ _ _ _ _ he
    · rcases bind_eq_error.1 he with h | ⟨⟨r, k⟩, _, h⟩
      · cases secant_total h
      · simp only at h
        split_ifs at h
        · cases h
        · rcases bind_eq_error.1 h with h | ⟨_, _, h⟩
          · unfold checkResidualClip at h
            split_ifs at h
          · cases h
  · cases he

/-- The objective can be evaluated everywhere. -/
theorem ebOptim_total {c : Consts K} {wrf : Bool} {g : Grid K} {i : EbInput K} {sw : K}
    (h : ∀ t, ∃ fl, ebFluxes c wrf g i t = .ok fl) : ∃ R : K → K, ebOptim c wrf g i sw = fun t => .ok (R t) := by
  have : ∀ t, ∃ y, ebOptim c wrf g i sw t = .ok y := by
    intro t
    obtain ⟨fl, hfl⟩ := h t
    unfold ebOptim
    rw [hfl, ok_bind]
    split <;> exact ⟨_, rfl⟩
  choose R hR using this
  exact ⟨R, funext hR⟩

theorem surface_safe {sv : Solvers K} {c : Consts K} (hm : MethodsKnown c) (hz : c.zlt1 ≤ c.zlt2) {wrf : Bool} {g : Grid K}
    (hw : g.WF) (hpos : ∀ n ∈ g.nodes, 0 < n.height) (hne : g.nodes ≠ []) {mk : K → K → EbInput K}
    (hi : ∀ a b, (mk a b).lwin ≠ none ∨ (mk a b).n ≠ none) {sw : K} {E : Prop} (hE : sv.Raises → E)
    (hshort : g.nodes.length < 2 ∨ sumHeight g.nodes ≤ c.zlt2 → E) :
    Safe (updateSurfaceTemperature sv c wrf g mk sw) E := by
  by_cases hs : g.nodes.length < 2 ∨ sumHeight g.nodes ≤ c.zlt2
  · exact Safe.because (hshort hs)
  push Not at hs
  obtain ⟨top, rest, hn⟩ := List.exists_cons_of_ne_nil hne
  have ht : g.node 0 = .ok top := by unfold Grid.node; rw [hn]; exact pyGet_zero
  unfold updateSurfaceTemperature
  refine Safe.bind (Safe.of_returns (interpSubT_returns hw hpos hs.1 hz hs.2)) fun tz _ => ?_
  obtain ⟨R, hR⟩ := ebOptim_total (sw := sw) (fun t => fluxes_return hm.stability hm.conductivity (wrf := wrf) hne (hi tz.1 tz.2) t)
  simp only [ht, ok_bind]
  rw [hR]
  refine Safe.bind ((solve_safe hm.surface R _).imp hE) fun ts _ => ?_
  refine Safe.bind ?_ fun g' hg' => ?_
  · unfold Grid.setNodeTemperature
    exact Safe.of_ok (Grid.modifyNode_eq_ok.2 ⟨0, by rw [hn]; exact normIdx_of_nat (by simp), rfl⟩)
  · have hne' : g'.nodes ≠ [] := by
      unfold Grid.setNodeTemperature at hg'
      obtain ⟨k, _, rfl⟩ := Grid.modifyNode_eq_ok.1 hg'
      intro h
      have := congrArg List.length h
      rw [List.length_modify, hn] at this
      simp at this
    obtain ⟨fl, hfl⟩ := fluxes_return hm.stability hm.conductivity (wrf := wrf) hne' (hi tz.1 tz.2) (pyMin c.zeroTemperature ts)
    rw [hfl, ok_bind]
    exact Safe.pure

theorem surface_nd {sv : Solvers K} (hs : sv.End) {c : Consts K} (hm : MethodsKnown c) {wrf : Bool} {g : Grid K}
    (hw : g.WF) (hne : g.nodes ≠ []) {mk : K → K → EbInput K} (hi : ∀ a b, (mk a b).lwin ≠ none ∨ (mk a b).n ≠ none) {sw : K} :
    updateSurfaceTemperature sv c wrf g mk sw ≠ .error .diverge := by
  unfold updateSurfaceTemperature
  refine bind_nd (interpSubT_nd hw) fun tz _ => ?_
  obtain ⟨R, hR⟩ := ebOptim_total (sw := sw) (fun t => fluxes_return hm.stability hm.conductivity (wrf := wrf) hne (hi tz.1 tz.2) t)
  refine bind_nd (pyGet_nd _ _) fun top _ => ?_
  simp only
  rw [hR]
  refine bind_nd (solve_nd hs R _) fun ts _ => bind_nd ?_ fun g' _ => bind_nd ?_ fun _ _ h => by cases h
  · unfold Grid.setNodeTemperature Grid.modifyNode
    intro h
    rcases bind_eq_error.1 h with h | ⟨_, _, h⟩
    · cases pyModify_error h
    · cases h
  · intro h
    have := C37_fluxes c wrf g' (mk tz.1 tz.2) (pyMin c.zeroTemperature ts)
    rw [h] at this
    exact this rfl

theorem thresholdPrecip_nonneg {c : Consts K} (hc : c.Phys) (hm : 0 ≤ c.minimumSnowfall) {rho : K} (hr : 0 ≤ rho)
    (sr : K × K) : 0 ≤ (thresholdPrecip c rho sr).2 := by
  unfold thresholdPrecip
  simp only
  split_ifs with hlt
  · exact le_rfl
  · refine le_trans ?_ (not_lt.1 hlt)
    have := hc.water
    have e : (0 : K) ≤ 1000.0 := by norm_num
    positivity

theorem condensation_nonneg {c : Consts K} {dt ts le : K} (hdt : 0 ≤ dt) : 0 ≤ (vapourFluxes c dt ts le).condensation := by
  unfold vapourFluxes
  split_ifs
  · exact le_rfl
  · simp only [pyMax_eq]; exact mul_nonneg (le_max_right _ _) hdt

theorem precipitation_returns {c : Consts K} {f : Forcing K} (h : f.rrr ≠ none) (rho : K) :
    ∃ x, precipitation c f rho = .ok x := by
  obtain ⟨r, hr⟩ := Option.ne_none_iff_exists'.1 h
  unfold precipitation
  rw [hr]
  cases f.snowf <;> exact ⟨_, rfl⟩

end

section Reals

theorem empirical_returns {c : Consts ℝ} (hc : c.Phys) {dt : ℝ} (hdt : 0 < dt) {n : Node ℝ} (hn : SnowLike n) :
    ∃ m, empiricalLayer c dt n = .ok m := by
  obtain ⟨hr, _⟩ := density_pos hc hn.2.1.le hn.2.2
  unfold empiricalLayer
  simp only [fdiv_of_ne hr.ne', ok_bind]
  split_ifs with h
  · have e : (600.0 : ℝ) = 600 := by norm_num
    have hx : 0 < Transc.exp (-dt / 800000 : ℝ) := Real.exp_pos _
    have hx1 : Transc.exp (-dt / 800000 : ℝ) ≤ 1 := by
      show Real.exp _ ≤ 1
      exact Real.exp_le_one_iff.2 (by have : 0 ≤ dt / 800000 := by positivity
                                      rw [neg_div]; linarith)
    have hpos : 0 < (600.0 + (n.density c - 600.0) * Transc.exp (-dt / 800000 : ℝ)) / c.iceDensity := by
      refine div_pos ?_ hc.ice
      rw [e]
      nlinarith [mul_pos hr hx]
    obtain ⟨hr2, _⟩ := density_pos hc (n := n.setIceFraction
      ((600.0 + (n.density c - 600.0) * Transc.exp (-dt / 800000)) / c.iceDensity)) hpos.le hn.2.2
    rw [fdiv_of_ne hr2.ne', ok_bind]
    exact ⟨_, rfl⟩
  · exact ⟨_, rfl⟩

theorem empiricalLayers_return {c : Consts ℝ} (hc : c.Phys) {dt : ℝ} (hdt : 0 < dt) : ∀ {k : Nat} {ns : List (Node ℝ)},
    k ≤ ns.length → (∀ n ∈ ns, SnowLike n) → ∃ rs, empiricalLayers c dt k ns = .ok rs := by
  intro k
  induction k with
  | zero => intro ns _ _; rw [empiricalLayers]; exact ⟨_, rfl⟩
  | succ k ih =>
    intro ns hk hn
    cases ns with
    | nil => simp at hk
    | cons n ns =>
      obtain ⟨m, hm⟩ := empirical_returns hc hdt (hn n (by simp))
      obtain ⟨rs, hr⟩ := ih (ns := ns) (by simpa using hk) (fun x hx => hn x (by simp [hx]))
      rw [empiricalLayers, hm, ok_bind, hr]
      exact ⟨_, rfl⟩

theorem densification_returns {c : Consts ℝ} (hc : c.Phys) (hm : c.densificationMethod ≠ .other) {g : Grid ℝ} (hw : g.WF)
    (hn : ∀ n ∈ g.nodes, SnowLike n) (slope : ℝ) {dt : ℝ} (hdt : 0 < dt) : ∃ g', densification c g slope dt = .ok g' := by
  have hle := Grid.nSnow_le c g.nodes
  unfold densification
  split
  · unfold methodBoone
    rw [Grid.getNumberSnowLayers_eq hw, ok_bind]
    obtain ⟨rs, hr⟩ := booneLayers_returns (c := c) (dt := dt) (ms := 0) (p := none) hle
    rw [hr]; exact ⟨_, rfl⟩
  · unfold methodVionnet
    rw [Grid.getNumberSnowLayers_eq hw, ok_bind]
    obtain ⟨rs, hr⟩ := vionnetLayers_returns (c := c) (dt := dt) (slope := slope) (sig := 0) (p := none) hle
    rw [hr]; exact ⟨_, rfl⟩
  · unfold methodEmpirical
    rw [Grid.getNumberSnowLayers_eq hw, ok_bind]
    obtain ⟨rs, hr⟩ := empiricalLayers_return hc hdt hle hn
    rw [hr]; exact ⟨_, rfl⟩
  · exact ⟨_, rfl⟩
  · next h => exact absurd h hm

/-- At a given fuel a step raises only out of fuel or for a stated reason. -/
theorem step_safe {sv : Solvers ℝ} {c : Consts ℝ} {r : RunCfg ℝ} {tlo : ℝ} (hr : Ready sv c r tlo) {s : SimState ℝ}
    {f : Forcing ℝ} (hf : Supplied c tlo f) (hw : s.grid.WF) (hg : ∀ n ∈ s.grid.nodes, GoodLayer c tlo n) (fuel : Nat) :
    Safe (step sv fuel c r s f) (StepFails sv fuel c r s f) := by
  have hs := hr.sane
  have hc := hs.phys
  have hm := hr.methods
  have hrho : 0 ≤ freshSnowDensity c f := (add_nonneg (div_nonneg hc.ice.le (by norm_num)) hc.air.le).trans hf.freshLo
  unfold step
  obtain ⟨sr, hsr⟩ := precipitation_returns (c := c) hf.rrr (freshSnowDensity c f)
  have hsnow : snowedColumn c r s f = .ok (applySnowfall c r.dt s.grid
      (thresholdPrecip c (freshSnowDensity c f) sr).1 (freshSnowDensity c f) f.t2) := by
    unfold snowedColumn; rw [hsr]; rfl
  simp only [hsr, ok_bind]
  set rain := (thresholdPrecip c (freshSnowDensity c f) sr).2 with hrain
  set snow := (thresholdPrecip c (freshSnowDensity c f) sr).1 with hsnowd
  have w0 : (applySnowfall c r.dt s.grid snow (freshSnowDensity c f) f.t2).WF := by
    unfold applySnowfall; split_ifs
    · exact hw.addFreshSnow _ _ _ _ _ _
    · exact hw
  have p0 := good_snowfall hs (s := snow) hf.freshLo hf.freshHi hf.air hg
  refine Safe.bind ((updateGrid_safe w0 (fun n hn => (p0 n hn).mesh) hs.first hs.stretch).imp
    fun h => .remesh _ hsnow h) fun g1 h1 => ?_
  have w1 := w0.updateGrid h1
  have p1 := good_updateGrid w0 hs.first hs.stretch p0 h1
  by_cases hne1 : g1.nodes = []
  · exact Safe.because (.remesh _ hsnow (.inr (.inr ⟨g1, h1, hne1⟩)))
  obtain ⟨⟨g2, alpha, asnow⟩, h2⟩ := albedo_returns hm.albedo w1 hne1 s.surfaceTemperature s.albedoSnow
  have e2 := updateAlbedo_grid h2
  have s2 := getSurfaceProperties_nodes c g1
  simp only at e2
  rw [← e2] at s2
  have w2 := w1.updateAlbedo h2
  have p2 : ∀ n ∈ g2.nodes, GoodLayer c tlo n := by rw [s2.1]; exact p1
  have hne2 : g2.nodes ≠ [] := by rw [s2.1]; exact hne1
  obtain ⟨z0, h3⟩ := roughness_returns hm.roughness hne2
  obtain ⟨⟨g3, sub, pen⟩, h4⟩ := radiation_returns hc hm.penetrating w2 hne2 (fun n hn => (p2 n hn).mesh)
    (pyMax f.g 0 * (1 - alpha)) r.dt
  simp only [h2, ok_bind, h3, h4]
  have w3 : g3.WF := w2.radiationStep h4
  obtain ⟨p3, hne3⟩ := good_radiation hc hs.dt hne2 p2 h4
  have hsurf : surfaceColumn fuel c r s f = .ok g3 := by
    unfold surfaceColumn
    rw [hsnow, ok_bind, h1, ok_bind, h2, ok_bind]
    simp only [h4, ok_bind]
    rfl
  refine Safe.bind (surface_safe hm hr.depths w3 (fun n hn => (p3 n hn).phys.height) hne3 (fun a b => hf.longwave)
    (fun h => .solver h) fun h => .shallow g3 hsurf h) fun x h5 => ?_
  obtain ⟨g4, ts, fl⟩ := x
  have w4 : g4.WF := w3.updateSurfaceTemperature h5
  obtain ⟨p4, l4⟩ := good_surface hr.bounded hs.low hs.zero p3 h5
  simp only
  refine Safe.bind (removeMelt_safe c w4 _ fuel) fun x h6 => ?_
  obtain ⟨g5, lw⟩ := x
  have w5 := w4.removeMeltWeq h6
  obtain ⟨p5, hlw⟩ := good_removal hc w4 p4 h6
  simp only at w5
  by_cases h3l : g5.nodes.length < 3
  · refine Safe.because (.melted g5 ?_ h3l)
    unfold meltedColumn
    simp only [hsr, ok_bind]
    rw [← hsnowd, h1, ok_bind]
    simp only [h2, ok_bind, h3, h4]
    rw [← hrain, h5, ok_bind]
    simp only [h6, ok_bind]
    rfl
  have hne5 : g5.nodes ≠ [] := by intro h; rw [h] at h3l; simp at h3l
  have hin : 0 ≤ meltEnergy (pyMax f.g 0 * (1 - alpha) - pen) fl * r.dt / (1000 * c.latHeatMelting) +
      (vapourFluxes c r.dt ts fl.le).condensation + rain / 1000.0 + lw := by
    have a1 : 0 ≤ meltEnergy (pyMax f.g 0 * (1 - alpha) - pen) fl * r.dt / (1000 * c.latHeatMelting) := by
      have h1 : 0 ≤ meltEnergy (pyMax f.g 0 * (1 - alpha) - pen) fl := by
        unfold meltEnergy; rw [pyMax_eq]; exact le_max_left _ _
      have := hs.dt; have := hc.melt
      positivity
    have a2 := condensation_nonneg (c := c) (ts := ts) (le := fl.le) hs.dt.le
    have a3 : 0 ≤ rain / 1000.0 := div_nonneg (thresholdPrecip_nonneg hc hs.snowMin hrho sr) (by norm_num)
    linarith
  obtain ⟨⟨g6, q⟩, h7⟩ := C16_returns (meltEnergy (pyMax f.g 0 * (1 - alpha) - pen) fl * r.dt / (1000 * c.latHeatMelting) +
      (vapourFluxes c r.dt ts fl.le).condensation + rain / 1000.0 + lw) w5 hne5
      (fun n hn => ⟨(p5 n hn).phys.height.ne', (p5 n hn).phys.ice.ne'⟩)
  rw [h7, ok_bind]
  have w6 : g6.WF := w5.percolation h7
  obtain ⟨p6, l6⟩ := good_percolation w5 hin p5 h7
  obtain ⟨⟨g7, rf⟩, h8⟩ := C19_returns hc (g := g6) fun n hn => by
    obtain ⟨a, b⟩ := p6 n hn
    refine ⟨a.phys.ice.le, a.iceHi, a.phys.water, b, hr.tlo.trans a.phys.cold, ?_⟩
    refine lt_of_le_of_lt (mul_le_mul_of_nonneg_left ?_ (by linarith [hc.cWater])) hs.cold
    linarith [a.phys.cold]
  simp only [h8, ok_bind]
  have w7 : g7.WF := w6.refreezing h8
  obtain ⟨p7, l7⟩ := good_refreezing hc hs.cold (fun n hn => (p6 n hn).1) h8
  refine Safe.bind (heat_safe hc hm.conductivity r.dt w7
    (fun n hn => ⟨(p7 n hn).phys.height, (p7 n hn).phys.ice.le, (p7 n hn).phys.water⟩) (by omega) fuel) fun g8 h9 => ?_
  have w8 := w7.solveHeatEquation h9
  obtain ⟨p8, l8⟩ := good_heat hc w7 p7 h9
  obtain ⟨g9, h10⟩ := densification_returns hc hm.densification w8
    (fun n hn => ⟨(p8 n hn).phys.height, (p8 n hn).phys.ice, (p8 n hn).phys.water⟩) r.slope hs.dt
  have w9 := w8.densification h10
  rw [h10, ok_bind]
  split_ifs with hl
  · refine Safe.because ?_
    rw [Bool.and_eq_true, Bool.or_eq_true, decide_eq_true_eq] at hl
    have hnum : g9.getNumberLayers = (g9.nodes.length : Int) := w9
    rw [hnum] at hl
    have hstep : ∃ s' o, step sv fuel c { r with maxLayers := g9.nodes.length } s f = .ok (s', o) ∧ s'.grid = g9 := by
      unfold step
      simp only [hsr, ok_bind]
      rw [← hsnowd, h1, ok_bind]
      simp only [h2, ok_bind, h3, h4]
      rw [← hrain, h5, ok_bind]
      simp only [h6, ok_bind]
      rw [h7, ok_bind]
      simp only [h8, ok_bind, h9, h10]
      rw [if_neg]
      · exact ⟨_, _, rfl, rfl⟩
      · rw [hnum]; simp
    obtain ⟨s', o, ho, hgr⟩ := hstep
    exact .layers _ _ _ ho (by rw [hgr]; simpa using hl.2) hl.1
  · exact Safe.pure

/-- A step terminates. -/
theorem step_terminates {sv : Solvers ℝ} {c : Consts ℝ} {r : RunCfg ℝ} {tlo : ℝ} (hr : Ready sv c r tlo) {s : SimState ℝ}
    {f : Forcing ℝ} (hf : Supplied c tlo f) (hw : s.grid.WF) (hg : ∀ n ∈ s.grid.nodes, GoodLayer c tlo n) :
    Terminates fun n => step sv n c r s f := by
  have hs := hr.sane
  have hc := hs.phys
  have hm := hr.methods
  have hrho : 0 ≤ freshSnowDensity c f := (add_nonneg (div_nonneg hc.ice.le (by norm_num)) hc.air.le).trans hf.freshLo
  unfold step
  obtain ⟨sr, hsr⟩ := precipitation_returns (c := c) hf.rrr (freshSnowDensity c f)
  simp only [hsr, ok_bind]
  set rain := (thresholdPrecip c (freshSnowDensity c f) sr).2 with hrain
  set snow := (thresholdPrecip c (freshSnowDensity c f) sr).1 with hsnowd
  have w0 : (applySnowfall c r.dt s.grid snow (freshSnowDensity c f) f.t2).WF := by
    unfold applySnowfall; split_ifs
    · exact hw.addFreshSnow _ _ _ _ _ _
    · exact hw
  have p0 := good_snowfall hs (s := snow) hf.freshLo hf.freshHi hf.air hg
  have t1 : Terminates fun n => (applySnowfall c r.dt s.grid snow (freshSnowDensity c f) f.t2).updateGrid n c := by
    by_cases hlog : c.remeshMethod = .logProfile
    · exact C07_log c _ w0 hs.first hr.stretch
    · exact C07_adaptive c _ w0 hlog
  refine Terminates.bind t1 fun g1 N h1 => ?_
  have w1 := w0.updateGrid h1
  have p1 := good_updateGrid w0 hs.first hs.stretch p0 h1
  by_cases hne1 : g1.nodes = []
  · have : ∃ e, e ≠ .diverge ∧ updateAlbedo c g1 s.surfaceTemperature s.albedoSnow = .error e := by
      have s2 := getSurfaceProperties_nodes c g1
      have hnode : (getSurfaceProperties c g1).1.node 0 = .error .index := by
        unfold Grid.node; rw [s2.1, hne1]; rfl
      unfold updateAlbedo
      split
      · unfold methodOerlemans; simp only [hnode, error_bind]; exact ⟨_, by simp, rfl⟩
      · unfold methodBougamont; simp only [hnode, error_bind]; exact ⟨_, by simp, rfl⟩
      · exact ⟨_, by simp, rfl⟩
    obtain ⟨e, he, h2⟩ := this
    simp only [h2, error_bind]
    exact .const fun h => he (by cases h; rfl)
  obtain ⟨⟨g2, alpha, asnow⟩, h2⟩ := albedo_returns hm.albedo w1 hne1 s.surfaceTemperature s.albedoSnow
  have e2 := updateAlbedo_grid h2
  have s2 := getSurfaceProperties_nodes c g1
  simp only at e2
  rw [← e2] at s2
  have w2 := w1.updateAlbedo h2
  have p2 : ∀ n ∈ g2.nodes, GoodLayer c tlo n := by rw [s2.1]; exact p1
  have hne2 : g2.nodes ≠ [] := by rw [s2.1]; exact hne1
  obtain ⟨z0, h3⟩ := roughness_returns hm.roughness hne2
  obtain ⟨⟨g3, sub, pen⟩, h4⟩ := radiation_returns hc hm.penetrating w2 hne2 (fun n hn => (p2 n hn).mesh)
    (pyMax f.g 0 * (1 - alpha)) r.dt
  simp only [h2, ok_bind, h3, h4]
  have w3 : g3.WF := w2.radiationStep h4
  obtain ⟨p3, hne3⟩ := good_radiation hc hs.dt hne2 p2 h4
  refine Terminates.bind (.const (surface_nd hr.ends hm w3 hne3 fun a b => hf.longwave)) fun x _ h5 => ?_
  obtain ⟨g4, ts, fl⟩ := x
  have w4 : g4.WF := w3.updateSurfaceTemperature h5
  obtain ⟨p4, l4⟩ := good_surface hr.bounded hs.low hs.zero p3 h5
  simp only
  refine Terminates.bind (removeMelt_terminates c w4 _) fun x N6 h6 => ?_
  obtain ⟨g5, lw⟩ := x
  have w5 := w4.removeMeltWeq h6
  obtain ⟨p5, hlw⟩ := good_removal hc w4 p4 h6
  simp only at w5
  by_cases hne5 : g5.nodes = []
  · have : ∀ w, percolation g5 w = .error .index := by
      intro w; unfold percolation Grid.node; rw [hne5]; rfl
    simp only [this, error_bind]
    exact .const (by simp)
  have hin : 0 ≤ meltEnergy (pyMax f.g 0 * (1 - alpha) - pen) fl * r.dt / (1000 * c.latHeatMelting) +
      (vapourFluxes c r.dt ts fl.le).condensation + rain / 1000.0 + lw := by
    have a1 : 0 ≤ meltEnergy (pyMax f.g 0 * (1 - alpha) - pen) fl * r.dt / (1000 * c.latHeatMelting) := by
      have h1 : 0 ≤ meltEnergy (pyMax f.g 0 * (1 - alpha) - pen) fl := by
        unfold meltEnergy; rw [pyMax_eq]; exact le_max_left _ _
      have := hs.dt; have := hc.melt
      positivity
    have a2 := condensation_nonneg (c := c) (ts := ts) (le := fl.le) hs.dt.le
    have a3 : 0 ≤ rain / 1000.0 := div_nonneg (thresholdPrecip_nonneg hc hs.snowMin hrho sr) (by norm_num)
    linarith
  obtain ⟨⟨g6, q⟩, h7⟩ := C16_returns (meltEnergy (pyMax f.g 0 * (1 - alpha) - pen) fl * r.dt / (1000 * c.latHeatMelting) +
      (vapourFluxes c r.dt ts fl.le).condensation + rain / 1000.0 + lw) w5 hne5
      (fun n hn => ⟨(p5 n hn).phys.height.ne', (p5 n hn).phys.ice.ne'⟩)
  simp only [h7, ok_bind]
  have w6 : g6.WF := w5.percolation h7
  obtain ⟨p6, l6⟩ := good_percolation w5 hin p5 h7
  obtain ⟨⟨g7, rf⟩, h8⟩ := C19_returns hc (g := g6) fun n hn => by
    obtain ⟨a, b⟩ := p6 n hn
    refine ⟨a.phys.ice.le, a.iceHi, a.phys.water, b, hr.tlo.trans a.phys.cold, ?_⟩
    refine lt_of_le_of_lt (mul_le_mul_of_nonneg_left ?_ (by linarith [hc.cWater])) hs.cold
    linarith [a.phys.cold]
  simp only [h8, ok_bind]
  have w7 : g7.WF := w6.refreezing h8
  obtain ⟨p7, l7⟩ := good_refreezing hc hs.cold (fun n hn => (p6 n hn).1) h8
  refine Terminates.bind (heat_terminates hc hm.conductivity r.dt w7
    (fun n hn => ⟨(p7 n hn).phys.height, (p7 n hn).phys.ice.le, (p7 n hn).phys.water⟩)) fun g8 N9 h9 => ?_
  have w8 := w7.solveHeatEquation h9
  obtain ⟨p8, l8⟩ := good_heat hc w7 p7 h9
  obtain ⟨g9, h10⟩ := densification_returns hc hm.densification w8
    (fun n hn => ⟨(p8 n hn).phys.height, (p8 n hn).phys.ice, (p8 n hn).phys.water⟩) r.slope hs.dt
  simp only [h10, ok_bind]
  exact Terminates.ite (fun _ => .const (by simp)) fun _ => .const fun h => by cases h

end Reals
end Cosipy
