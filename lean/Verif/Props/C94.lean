import Verif.Spec.IceBalance
import Verif.Props.C58
import Verif.Props.C27
import Verif.Props.C33

/-!
# C94 — the reported mass balance and the ice of the column

Full statement: the mass balance a step reports, times the density of water, is the change of the mass of ice in the
column. Refuted (`C94_refuted`: an hour with frost reports a gain and leaves every layer as it was). What holds is the
exact difference (`C94_step_partial`, over a run of any length `C94_run_partial`), and in which direction it goes
(`C94_overstates`, `C94_understates`, `C94_exact`).
-/

set_option autoImplicit false
set_option linter.unusedSectionVars false

namespace Cosipy
section
variable {K : Type} [Field K] [LinearOrder K] [IsStrictOrderedRing K] [Transc K]

omit [Transc K] in
theorem iceMass_eq (c : Consts K) (ns : List (Node K)) : iceMass c ns = c.iceDensity * sumIce ns := by
  induction ns with
  | nil => simp [iceMass, sumIce, columnSum]
  | cons n ns ih =>
    have e1 : iceMass c (n :: ns) = n.height * n.iceFraction * c.iceDensity + iceMass c ns := by simp [iceMass, columnSum]
    have e2 : sumIce (n :: ns) = n.height * n.iceFraction + sumIce ns := by simp [sumIce, columnSum]
    rw [e1, e2, ih]; ring

omit [Transc K] in
theorem iceMass_water (c : Consts K) (ns : List (Node K)) :
    columnMass c ns = iceMass c ns + c.waterDensity * sumWater ns := by rw [columnMass_eq, iceMass_eq]

omit [Transc K] in
theorem iceMass_nonneg {c : Consts K} (hc : c.Phys) {tlo : K} {ns : List (Node K)} (h : ∀ n ∈ ns, PhysLayer c tlo n) :
    0 ≤ iceMass c ns := by
  induction ns with
  | nil => simp [iceMass, columnSum]
  | cons n ns ih =>
    have e1 : iceMass c (n :: ns) = n.height * n.iceFraction * c.iceDensity + iceMass c ns := by simp [iceMass, columnSum]
    rw [e1]
    have h1 := h n (by simp)
    exact add_nonneg (mul_nonneg (mul_nonneg h1.height.le h1.ice.le) hc.ice.le) (ih fun m hm => h m (by simp [hm]))

theorem applySnowfall_ice {c : Consts K} (hi : c.iceDensity ≠ 0) {dt s rho t2 : K} {g : Grid K} (hs : 0 ≤ s) :
    iceMass c (applySnowfall c dt g s rho t2).nodes =
      iceMass c g.nodes + s * (rho - (1 - rho / c.iceDensity) * c.airDensity) := by
  have e := applySnowfall_mass hi (dt := dt) (rho := rho) (t2 := t2) (g := g) hs
  have w : sumWater (applySnowfall c dt g s rho t2).nodes = sumWater g.nodes := by
    unfold applySnowfall
    split_ifs with h0
    · have : (g.addFreshSnow c s rho (pyMin t2 c.zeroTemperature) 0 dt).nodes =
          Node.new c s rho (pyMin t2 c.zeroTemperature) 0 none :: g.nodes := by
        have e : pyInsert g.nodes 0 (Node.new c s rho (pyMin t2 c.zeroTemperature) 0 none) =
            Node.new c s rho (pyMin t2 c.zeroTemperature) 0 none :: g.nodes := by simp [pyInsert]
        unfold Grid.addFreshSnow
        split_ifs <;> exact e
      rw [this]
      simp [sumWater, columnSum, Node.new]
    · unfold Grid.setFreshSnowPropsUpdateTime; rfl
  rw [iceMass_water, iceMass_water, w] at e
  linarith

/-- Removing melt takes liquid water and air along. -/
theorem removal_ice {c : Consts K} (hc : c.Phys) {tlo : K} {g g' : Grid K} {fuel : Nat} {m w : K} (hw : g.WF)
    (hp : ∀ n ∈ g.nodes, PhysLayer c tlo n) (hne : g'.nodes ≠ []) (h : g.removeMeltWeq fuel c m = .ok (g', w)) :
    ∃ carried, 0 ≤ carried ∧ (m ≤ 0 → carried = 0) ∧
      iceMass c g'.nodes = iceMass c g.nodes - c.waterDensity * max 0 m + carried := by
  obtain ⟨air, h1, h2, h3⟩ := removal_mass hc hw hp hne h
  rw [iceMass_water, iceMass_water] at h3
  have hpos : ∀ ns : List (Node K), (∀ n ∈ ns, PhysLayer c tlo n) → 0 ≤ sumWater ns := by
    intro ns
    induction ns with
    | nil => intro _; simp [sumWater, columnSum]
    | cons n ns ih =>
      intro hn
      have e : sumWater (n :: ns) = n.height * n.lwc + sumWater ns := by simp [sumWater, columnSum]
      rw [e]
      exact add_nonneg (mul_nonneg (hn n (by simp)).height.le (hn n (by simp)).water) (ih fun m hm => hn m (by simp [hm]))
  have hle : sumWater g'.nodes ≤ sumWater g.nodes := by
    obtain ⟨removed, rest, a1, _, a3⟩ := C12_prefix hw h
    have hr := hpos removed fun n hn => hp n (by rw [a1]; simp [hn])
    have ea : ∀ a b : List (Node K), sumWater (a ++ b) = sumWater a + sumWater b := by intro a b; simp [sumWater, columnSum]
    have ec : ∀ (a : Node K) (b : List (Node K)), sumWater (a :: b) = a.height * a.lwc + sumWater b := by
      intro a b; simp [sumWater, columnSum]
    rw [a1, ea]
    rcases a3 with a3 | ⟨a, below, x, q1, q2, q3⟩
    · rw [a3]; linarith
    · rw [q2, q1, ec, ec]
      have ha := hp a (by rw [a1, q1]; simp)
      have hx := (q3 (div_pos (density_pos hc ha.ice.le ha.water).1 hc.water)).2
      have := mul_le_mul_of_nonneg_right hx.le ha.water
      simp only
      linarith
  refine ⟨air + c.waterDensity * (sumWater g.nodes - sumWater g'.nodes), ?_, ?_, by linarith⟩
  · exact add_nonneg h1 (mul_nonneg hc.water.le (by linarith))
  · intro hm
    have hw' : sumWater g'.nodes = sumWater g.nodes := by
      have hfuel : 0 < fuel := by
        rcases Nat.eq_zero_or_pos fuel with rfl | h0
        · exfalso
          unfold Grid.removeMeltWeq at h
          simp only [whileM, bind_eq_ok] at h
          obtain ⟨_, hx, _⟩ := h
          cases hx
        · exact h0
      obtain ⟨g2, e1, e2⟩ := C12_no_melt (c := c) (g := g) hm hfuel
      rw [e1] at h
      have : g2 = g' := (Prod.mk.inj (ok_inj.1 h)).1
      subst this
      rw [e2]
    rw [h2 hm, hw']; ring

/-- **C94, a step.** The reported balance is the change of the ice plus the named differences; `g2`, `g3` are the column
before and after penetrating radiation, `g8` the column before densification. -/
theorem C94_step_partial {sv : Solvers K} (hb : sv.RespectsLower) {fuel : Nat} {c : Consts K} {r : RunCfg K} {tlo : K}
    (hs : Sane c r tlo) {s s' : SimState K} {f : Forcing K} {o : StepOut K} (hw : s.grid.WF)
    (hg : ∀ n ∈ s.grid.nodes, PhysLayer c tlo n) (hT : tlo ≤ f.t2) (h : step sv fuel c r s f = .ok (s', o)) :
    ∃ (thin : List (Node K)) (pen comp carried gap : K), BalanceGap c tlo f o thin pen comp carried gap ∧
      c.waterDensity * o.mb = iceMass c s'.grid.nodes - iceMass c s.grid.nodes + gap ∧
      (∃ g2 g3 p, radiationStep c g2 (pyMax f.g 0 * (1 - o.albedo)) r.dt = .ok (g3, o.subsurfaceMelt, p) ∧
        pen = iceMass c g2.nodes - iceMass c g3.nodes - c.waterDensity * o.subsurfaceMelt ∧
        (g3.nodes.length = g2.nodes.length → 0 ≤ pen)) ∧
      ∃ g8, densification c g8 r.slope r.dt = .ok s'.grid ∧ (∀ n ∈ g8.nodes, PhysLayer c tlo n) ∧
        comp = iceMass c g8.nodes - iceMass c s'.grid.nodes := by
  obtain ⟨st⟩ := step_stages h
  have ws := st.wfs hw
  have ps := st.phys hb hs hw hg hT h
  have hc := hs.phys
  have hsf : 0 ≤ o.snowfall := by
    rw [st.snowfall]
    unfold thresholdPrecip
    simp only
    split_ifs with hlt
    · exact le_rfl
    · exact hs.snowMin.trans (not_lt.1 hlt)
  have m0 := applySnowfall_ice hc.ice.ne' (c := c) (dt := r.dt) (g := s.grid) (rho := o.densityFreshSnow) (t2 := f.t2) hsf
  obtain ⟨thin, ht, hthin⟩ := updateGrid_thin (closed_phys c tlo) ws.w0 hs.first hs.stretch ps.p0 st.remesh
  have m1 : iceMass c st.g1.nodes + iceMass c thin =
      iceMass c (applySnowfall c r.dt s.grid o.snowfall o.densityFreshSnow f.t2).nodes := by
    have := hthin.ice
    rw [iceMass_eq, iceMass_eq, iceMass_eq, ← this]
    simp only [sumIce, columnSum_append]; ring
  have e2 := updateAlbedo_grid st.albedo
  have s2 := getSurfaceProperties_nodes c st.g1
  simp only at e2
  rw [← e2] at s2
  -- radiation
  have hdark : iceMass c st.g2.nodes - iceMass c st.g3.nodes - c.waterDensity * o.subsurfaceMelt ≠ 0 → 0 < f.g ∧ o.albedo < 1 := by
    intro hne
    have hrad := st.radiation
    unfold radiationStep at hrad
    split_ifs at hrad with hsw
    · rw [pyMax_eq] at hsw
      have h1 : 0 ≤ max f.g 0 := le_max_right _ _
      have h2 : 0 < max f.g 0 := lt_of_le_of_ne h1 fun e => by rw [← e, zero_mul] at hsw; exact lt_irrefl _ hsw
      have h3 := (pos_iff_pos_of_mul_pos hsw).1 h2
      refine ⟨?_, by linarith⟩
      rcases lt_max_iff.1 h2 with h | h
      · exact h
      · exact absurd h (lt_irrefl _)
    · exfalso
      have e := ok_inj.1 hrad
      have e1 := (Prod.mk.inj e).1
      have e2 := (Prod.mk.inj (Prod.mk.inj e).2).1
      apply hne
      rw [← e1, ← e2]; ring
  have hkeep : st.g3.nodes.length = st.g2.nodes.length →
      0 ≤ iceMass c st.g2.nodes - iceMass c st.g3.nodes - c.waterDensity * o.subsurfaceMelt := by
    intro hlen
    have hrad := st.radiation
    unfold radiationStep at hrad
    split_ifs at hrad with hsw
    · unfold penetratingRadiation at hrad
      split at hrad
      · have hpl : ∀ n ∈ st.g2.nodes, 0 < n.height ∧ 0 < n.iceFraction ∧ 0 ≤ n.lwc :=
          fun n hn => ⟨(ps.p2 n hn).height, (ps.p2 n hn).ice, (ps.p2 n hn).water⟩
        have hu := (bintanja_underreports hc hpl hrad hlen).1
        have ei : ∀ ns : List (Node K), iceMass c ns = c.iceDensity * (ns.map fun n => n.iceFraction * n.height).sum := by
          intro ns
          rw [iceMass_eq]; congr 1; unfold sumIce columnSum; congr 1
          exact List.map_congr_left fun n _ => mul_comm _ _
        rw [ei, ei]
        have := mul_le_mul_of_nonneg_left hu hc.water.le
        rw [← mul_assoc, mul_div_cancel₀ _ hc.water.ne'] at this
        linarith
      · cases hrad
    · have e := ok_inj.1 hrad
      have e1 := (Prod.mk.inj e).1
      have e2 := (Prod.mk.inj (Prod.mk.inj e).2).1
      rw [← e1, ← e2]; simp
  -- surface temperature
  obtain ⟨_, _, ⟨top, rest, e1, e4⟩, _⟩ := C34_bounds hb hs.zero st.surface
  have m4 : iceMass c st.g4.nodes = iceMass c st.g3.nodes := by
    rw [e4, e1]; simp only [iceMass, columnSum_cons]
  -- removal
  have hne : st.g5.nodes ≠ [] := by
    intro he
    have hp := st.perc
    unfold percolation Grid.node pyGet at hp
    rw [he] at hp
    simp only [bind_eq_ok] at hp
    obtain ⟨_, hx, _⟩ := hp
    simp [normIdx] at hx
  obtain ⟨carried, ha, hcar, m5⟩ := removal_ice hc ws.w4 ps.p4 hne st.removal
  -- percolation
  obtain ⟨_, q2, _⟩ := C16_conserves ws.w5 st.perc
  have m6 : iceMass c st.g6.nodes = iceMass c st.g5.nodes := by
    have e : ∀ ns : List (Node K), sumIce ns = ((ns.map Node.dryPart).map fun p => p.1 * p.2.2.1).sum := by
      intro ns; simp [sumIce, columnSum, Node.dryPart, Function.comp_def]
    rw [iceMass_eq, iceMass_eq, e, e, q2]
  -- refreezing, conduction
  obtain ⟨_, t2, t3, _⟩ := C18_total hc.ice.ne' st.refr
  have m7 : iceMass c st.g7.nodes = iceMass c st.g6.nodes + c.waterDensity * o.refreeze := by
    have e7 := iceMass_water c st.g7.nodes
    have e6 := iceMass_water c st.g6.nodes
    unfold columnMass at e7 e6
    rw [t3] at e7
    rw [t2]; linarith
  have m8 : iceMass c st.g8.nodes = iceMass c st.g7.nodes := by
    have hf := (C22_only_temperature ws.w7 st.heat).1
    generalize st.g7.nodes = a at hf
    generalize st.g8.nodes = b at hf
    induction hf with
    | nil => rfl
    | cons h0 _ ih =>
      unfold iceMass at ih ⊢
      rw [columnSum_cons, columnSum_cons, ih, h0]
  refine ⟨thin, _, iceMass c st.g8.nodes - iceMass c s'.grid.nodes, carried, _,
    ⟨rfl, ht, hdark, ?_, ha, fun hle => hcar (by linarith)⟩, ?_, ⟨st.g2, st.g3, st.penetrated, st.radiation, rfl, hkeep⟩,
    st.g8, st.dens, ps.p8, rfl⟩
  · intro hm
    have hd := st.dens
    unfold densification at hd
    rw [hm] at hd
    rw [ok_inj.1 hd]; ring
  · rw [st.mb, st.surfMB, st.intMB]
    have hmm : max 0 (o.melt - o.sublimation - o.deposition) - max 0 (o.sublimation + o.deposition - o.melt) =
        o.melt - o.sublimation - o.deposition := by
      rcases le_total o.melt (o.sublimation + o.deposition) with hle | hle
      · rw [max_eq_left (by linarith), max_eq_right (by linarith)]; ring
      · rw [max_eq_right (by linarith), max_eq_left (by linarith)]; ring
    have hsn : c.waterDensity * (o.snowfall * (o.densityFreshSnow / c.waterDensity)) = o.snowfall * o.densityFreshSnow := by
      have := hc.water.ne'
      field_simp
    rw [s2.1]
    rw [m8, m7, m6, m5, m4]
    rw [m0] at m1
    linear_combination hsn + c.waterDensity * hmm - m1

/-- **C94, a run.** Over a run of any length through physical columns, the change of the cumulative balance is the change of
the ice plus the differences of the steps. -/
theorem C94_run_partial {sv : Solvers K} (hb : sv.RespectsLower) {fuel : Nat} {c : Consts K} {r : RunCfg K} {tlo : K}
    (hs : Sane c r tlo) : ∀ {fs : List (Forcing K)} {s s' : SimState K} {os : List (StepOut K)}, s.grid.WF →
    (∀ s', Visited sv fuel c r s fs s' → ∀ n ∈ s'.grid.nodes, PhysLayer c tlo n) → (∀ f ∈ fs, tlo ≤ f.t2) →
    run sv fuel c r s fs = .ok (s', os) →
    ∃ gaps : List K, List.Forall₂ (fun p gap => ∃ thin pen comp carried, BalanceGap c tlo p.1 p.2 thin pen comp carried gap)
        (fs.zip os) gaps ∧
      c.waterDensity * (s'.mbCum - s.mbCum) = iceMass c s'.grid.nodes - iceMass c s.grid.nodes + gaps.sum := by
  intro fs
  induction fs with
  | nil =>
    intro s s' os _ _ _ h
    rw [run] at h; cases h
    exact ⟨[], by simp, by simp⟩
  | cons f fs ih =>
    intro s s' os hw hp hT h
    obtain ⟨s1, o1, os1, h1, h2, rfl⟩ := run_cons h
    obtain ⟨thin, pen, comp, carried, gap, hgap, e, _⟩ :=
      C94_step_partial hb hs hw (hp s ⟨[], f :: fs, [], by simp, by rw [run]⟩) (hT f (by simp)) h1
    obtain ⟨gaps, hf, e2⟩ := ih (C01_step hw h1) (by
      rintro s'' ⟨pre', suf', os', e', h'⟩
      refine hp s'' ⟨f :: pre', suf', o1 :: os', by simp [e'], ?_⟩
      rw [run, h1, ok_bind]
      simp only [h', ok_bind]
      rfl) (fun g hg => hT g (by simp [hg])) h2
    refine ⟨gap :: gaps, .cons ⟨thin, pen, comp, carried, hgap⟩ hf, ?_⟩
    obtain ⟨st⟩ := step_stages h1
    have hm := st.mbCum
    rw [List.sum_cons]
    linear_combination e + e2 + c.waterDensity * hm

omit [Transc K] in
/-- **C94, frosty hours.** Without sun, evaporation and densification, an hour in which vapour brings at least what melts
never reports less than the ice that was gained. -/
theorem C94_overstates {c : Consts K} (hc : c.Phys) {tlo : K} {f : Forcing K} {o : StepOut K} {thin : List (Node K)}
    {pen comp carried gap : K} (h : BalanceGap c tlo f o thin pen comp carried gap) (hd : f.g ≤ 0)
    (hm : c.densificationMethod = .constant) (he : o.evaporation = 0) (hsn : 0 ≤ o.snowfall)
    (hrho : o.densityFreshSnow ≤ c.iceDensity) (hle : o.melt ≤ o.sublimation + o.deposition) :
    c.waterDensity * (o.sublimation + o.deposition - o.melt) ≤ gap ∧ 0 ≤ gap := by
  have hp : pen = 0 := by by_contra hne; exact absurd (h.dark hne).1 (not_lt.2 hd)
  have h1 := iceMass_nonneg hc fun n hn => (h.dropped n hn).2
  have h2 : 0 ≤ o.snowfall * ((1 - o.densityFreshSnow / c.iceDensity) * c.airDensity) := by
    refine mul_nonneg hsn (mul_nonneg ?_ hc.air.le)
    rw [sub_nonneg, div_le_one hc.ice]; exact hrho
  have h3 := h.sum
  rw [max_eq_right (by linarith), hp, h.constant hm, h.noRemoval hle, he] at h3
  have h4 : 0 ≤ c.waterDensity * (o.sublimation + o.deposition - o.melt) := mul_nonneg hc.water.le (by linarith)
  constructor <;> linarith

omit [Transc K] in
/-- **C94, melt hours.** Without sun, snowfall and densification, if no layer was dropped, an hour with more melt than
vapour never reports more than the change of the ice. -/
theorem C94_understates {c : Consts K} (hc : c.Phys) {tlo : K} {f : Forcing K} {o : StepOut K} {pen comp carried gap : K}
    (h : BalanceGap c tlo f o [] pen comp carried gap) (hd : f.g ≤ 0) (hm : c.densificationMethod = .constant)
    (he : o.evaporation ≤ 0) (hsn : o.snowfall = 0) (hle : o.sublimation + o.deposition ≤ o.melt) :
    gap = c.waterDensity * o.evaporation - carried ∧ gap ≤ 0 := by
  have hp : pen = 0 := by by_contra hne; exact absurd (h.dark hne).1 (not_lt.2 hd)
  have h3 := h.sum
  have h1 : iceMass c ([] : List (Node K)) = 0 := by simp [iceMass, columnSum]
  rw [max_eq_left (by linarith), hp, h.constant hm, hsn, h1] at h3
  have h4 : c.waterDensity * o.evaporation ≤ 0 := mul_nonpos_of_nonneg_of_nonpos hc.water.le he
  have := h.notCreated
  constructor <;> linarith

omit [Transc K] in
/-- **C94, when it is exact.** In an hour without sun, snowfall, evaporation, densification and dropped layers, in which
vapour and melt cancel, the balance is the change of the ice. -/
theorem C94_exact {c : Consts K} {tlo : K} {f : Forcing K} {o : StepOut K} {pen comp carried gap : K}
    (h : BalanceGap c tlo f o [] pen comp carried gap) (hd : f.g ≤ 0) (hm : c.densificationMethod = .constant)
    (he : o.evaporation = 0) (hsn : o.snowfall = 0) (hle : o.melt = o.sublimation + o.deposition) : gap = 0 := by
  have hp : pen = 0 := by by_contra hne; exact absurd (h.dark hne).1 (not_lt.2 hd)
  have h3 := h.sum
  have h1 : iceMass c ([] : List (Node K)) = 0 := by simp [iceMass, columnSum]
  rw [max_eq_left (by linarith), hp, h.constant hm, hsn, h1, he, h.noRemoval hle.le] at h3
  linarith

end

/-- A cold dry night in moist air. -/
def exFrost : Forcing ℚ := { exDry with lwin := some 0, rh2 := 150, g := 0, t2 := 265 }

attribute [local instance] exTransc in
/-- **C94 refuted.** The step returns, reports a gain, and the column has exactly the ice it had before; it holds no
liquid water before or after. -/
theorem C94_refuted : ∃ s' o, step ⟨fun _ _ => .ok 270, fun _ _ _ lo _ => .ok (max lo 270)⟩ 40 exConsts exCfg
      (initState exConsts false exGrid) exFrost = .ok (s', o) ∧ 0 < o.mb ∧
    iceMass exConsts s'.grid.nodes = iceMass exConsts exGrid.nodes ∧ sumWater s'.grid.nodes = 0 ∧
    sumWater exGrid.nodes = 0 := by
  have h : ((step ⟨fun _ _ => .ok 270, fun _ _ _ lo _ => .ok (max lo 270)⟩ 40 exConsts exCfg
      (initState exConsts false exGrid) exFrost).map fun p => (decide (0 < p.2.mb),
        decide (iceMass exConsts p.1.grid.nodes = iceMass exConsts exGrid.nodes), decide (sumWater p.1.grid.nodes = 0),
        decide (sumWater exGrid.nodes = 0))) = .ok (true, true, true, true) := by decide +kernel
  revert h
  generalize step _ 40 exConsts exCfg _ exFrost = x
  intro h
  match x, h with
  | .ok (s', o), h =>
    have := ok_inj.1 h
    simp only [Prod.mk.injEq, decide_eq_true_eq] at this
    exact ⟨s', o, rfl, this.1, this.2.1, this.2.2.1, this.2.2.2⟩

attribute [local instance] exTransc in
/-- Non-vacuity: three steps from a physical column with sane constants (`C59`) return: frost (`C94_overstates`), melt in
the sun, snowfall. -/
example : (run ⟨fun _ _ => .ok 270, fun _ _ _ lo _ => .ok (max lo 270)⟩ 40 exConsts exCfg (initState exConsts false exGrid)
      [exFrost, exDry, exSnow]).map (fun r => r.2.map fun o =>
        (decide (0 < o.snowfall), decide (o.melt ≤ o.sublimation + o.deposition), decide (o.evaporation = 0))) =
    .ok [(false, true, true), (false, false, true), (true, false, true)] ∧ exFrost.g ≤ 0 ∧
    exConsts.densificationMethod = .constant := by
  decide +kernel

/-- Non-vacuity: a melt hour in the dark (`C94_understates`: 2 kg of the 10 counted were water) and one without any
exchange (`C94_exact`). -/
example (o : StepOut ℚ) (f : Forcing ℚ) : ∃ o1 o2 : StepOut ℚ,
    BalanceGap exConsts 150 { f with g := 0 } o1 [] 0 0 2 (-2) ∧ o1.sublimation + o1.deposition ≤ o1.melt ∧
    BalanceGap exConsts 150 { f with g := 0 } o2 [] 0 0 0 0 ∧ o2.melt = o2.sublimation + o2.deposition := by
  have h0 : iceMass exConsts ([] : List (Node ℚ)) = 0 := by simp [iceMass, columnSum]
  refine ⟨{ o with melt := 1/100, sublimation := 0, deposition := 0, evaporation := 0, snowfall := 0 },
    { o with melt := 0, sublimation := 0, deposition := 0, evaporation := 0, snowfall := 0 }, ⟨?_, by simp, by simp, by simp,
    by norm_num, ?_⟩, by norm_num, ⟨?_, by simp, by simp, by simp, by norm_num, by simp⟩, by norm_num⟩
  · simp only [h0]; norm_num
  · intro h; norm_num at h
  · simp only [h0]; norm_num

end Cosipy
