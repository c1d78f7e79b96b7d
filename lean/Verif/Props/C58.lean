import Verif.Lemmas.Budget
import Verif.Lemmas.Example
import Verif.Props.C59

/-!
# C58 Column mass budget of a time step

`C58_step`: from a physical column, a step that returns changes the mass of ice and liquid water in the column by exactly
what the recorded fluxes account for (`accounted`), minus layers dropped because they are not thicker than the minimum
height, minus layers removed by penetrating radiation, plus the air that was counted as melt water equivalent, minus
what densification destroys. Densification destroys nothing with the method `constant`; with Boone and Vionnet (cosine
not negative) the term is never negative (`C58_compaction_sign`). `C58_no_creation`: over a whole run the column never
holds more than the initial mass plus the accounted fluxes plus the air. `C58_closed`: with constant density, no
layer dropped or burnt up, and nothing melted from the column, the budget closes exactly.
-/

set_option autoImplicit false
set_option linter.unusedSectionVars false

namespace Cosipy
section
variable {K : Type} [Field K] [LinearOrder K] [IsStrictOrderedRing K] [Transc K]

theorem applySnowfall_mass {c : Consts K} (hi : c.iceDensity ≠ 0) {dt s rho t2 : K} {g : Grid K} (hs : 0 ≤ s) :
    columnMass c (applySnowfall c dt g s rho t2).nodes =
      columnMass c g.nodes + s * (rho - (1 - rho / c.iceDensity) * c.airDensity) := by
  unfold applySnowfall
  split_ifs with h0
  · have : (g.addFreshSnow c s rho (pyMin t2 c.zeroTemperature) 0 dt).nodes =
        Node.new c s rho (pyMin t2 c.zeroTemperature) 0 none :: g.nodes := by
      have e : pyInsert g.nodes 0 (Node.new c s rho (pyMin t2 c.zeroTemperature) 0 none) =
          Node.new c s rho (pyMin t2 c.zeroTemperature) 0 none :: g.nodes := by simp [pyInsert]
      unfold Grid.addFreshSnow
      split_ifs <;> exact e
    rw [this, columnMass_cons]
    simp only [Node.mass, Node.new]
    field_simp
    ring
  · have : s = 0 := le_antisymm (not_lt.1 h0) hs
    subst this
    have e : (g.setFreshSnowPropsUpdateTime dt).nodes = g.nodes := by
      unfold Grid.setFreshSnowPropsUpdateTime; rfl
    rw [e]; ring

theorem columnMass_fates {c : Consts K} {dt : K} : ∀ {ps : List (Node K × K)} {fs : List (Option (Node K))},
    List.Forall₂ (fun p o => LayerOutcome c dt p.2 p.1 o) ps fs →
    ∃ burnt : List (Node K), (∀ n ∈ burnt, n ∈ ps.map Prod.fst) ∧
      columnMass c fs.reduceOption + columnMass c burnt = columnMass c (ps.map Prod.fst) := by
  intro ps fs h
  induction h with
  | nil => exact ⟨[], by simp, by simp [columnMass, columnSum]⟩
  | @cons p o ps fs h0 _ ih =>
    obtain ⟨b, hb, e⟩ := ih
    cases o with
    | none =>
      refine ⟨p.1 :: b, ?_, ?_⟩
      · intro n hn
        rcases List.mem_cons.1 hn with rfl | hn
        · simp
        · have := hb n hn; simp only [List.map_cons, List.mem_cons]; exact Or.inr this
      · rw [List.reduceOption_cons_of_none, List.map_cons, columnMass_cons, columnMass_cons, ← e]; ring
    | some m =>
      refine ⟨b, fun n hn => by simp only [List.map_cons, List.mem_cons]; exact Or.inr (hb n hn), ?_⟩
      rw [List.reduceOption_cons_of_some, List.map_cons, columnMass_cons, columnMass_cons, ← e, h0.mass m rfl]; ring

theorem airMass_cons (c : Consts K) (n : Node K) (ns : List (Node K)) :
    airMass c (n :: ns) = n.height * (max 0 (1 - n.lwc - n.iceFraction)) * c.airDensity + airMass c ns := by
  simp [airMass, columnSum]

theorem airMass_nonneg {c : Consts K} (hc : c.Phys) {ns : List (Node K)} (h : ∀ n ∈ ns, 0 < n.height) : 0 ≤ airMass c ns := by
  induction ns with
  | nil => simp [airMass, columnSum]
  | cons n ns ih =>
    rw [airMass_cons]
    have h1 := (h n (by simp)).le
    have h2 := hc.air.le
    have h3 := le_max_left 0 (1 - n.lwc - n.iceFraction)
    exact add_nonneg (mul_nonneg (mul_nonneg h1 h3) h2) (ih fun m hm => h m (by simp [hm]))

theorem airMass_append (c : Consts K) (a b : List (Node K)) : airMass c (a ++ b) = airMass c a + airMass c b := by
  simp [airMass, columnSum]

/-- Removing melt takes air along. -/
theorem removal_mass {c : Consts K} (hc : c.Phys) {tlo : K} {g g' : Grid K} {fuel : Nat} {m w : K} (hw : g.WF)
    (hp : ∀ n ∈ g.nodes, PhysLayer c tlo n) (hne : g'.nodes ≠ []) (h : g.removeMeltWeq fuel c m = .ok (g', w)) :
    ∃ air, 0 ≤ air ∧ (m ≤ 0 → air = 0) ∧
      columnMass c g'.nodes = columnMass c g.nodes - c.waterDensity * max 0 m + air := by
  have hpos : ∀ n ∈ g.nodes, 0 < n.weq c := by
    intro n hn
    have := hp n hn
    unfold Node.weq
    exact mul_pos this.height (div_pos (density_pos hc this.ice.le this.water).1 hc.water)
  by_cases hm : m ≤ 0
  · have hfuel : 0 < fuel := by
      rcases Nat.eq_zero_or_pos fuel with rfl | h0
      · exfalso
        unfold Grid.removeMeltWeq at h
        simp only [whileM, bind_eq_ok] at h
        obtain ⟨_, hx, _⟩ := h
        cases hx
      · exact h0
    obtain ⟨g2, e1, e2⟩ := C12_no_melt (c := c) (g := g) hm hfuel
    rw [e1] at h
    have e := ok_inj.1 h
    have : g2 = g' := (Prod.mk.inj e).1
    subst this
    exact ⟨0, le_rfl, fun _ => rfl, by rw [e2, max_eq_left hm]; ring⟩
  · have hm0 := not_le.1 hm
    have hlt : m < sumWeq c g.nodes := by
      by_contra hge
      exact hne (C11_all hw hpos (not_lt.1 hge) h)
    have he := C11_exact hw hm0.le hlt h
    have e1 := sumWeq_mass hc.water.ne' g.nodes
    have e2 := sumWeq_mass hc.water.ne' g'.nodes
    refine ⟨airMass c g.nodes - airMass c g'.nodes, ?_, fun h => absurd h hm, ?_⟩
    · obtain ⟨removed, rest, a1, a2, a3⟩ := C12_prefix hw h
      rw [a1, airMass_append]
      have hr := airMass_nonneg hc (ns := removed) fun n hn => (hp n (by rw [a1]; simp [hn])).height
      rcases a3 with a3 | ⟨a, below, x, q1, q2, q3⟩
      · rw [a3]; linarith
      · rw [q2, q1, airMass_cons, airMass_cons]
        have ha := hp a (by rw [a1, q1]; simp)
        have hx := (q3 (div_pos (density_pos hc ha.ice.le ha.water).1 hc.water)).2
        have h3 := le_max_left 0 (1 - a.lwc - a.iceFraction)
        have : x * max 0 (1 - a.lwc - a.iceFraction) * c.airDensity ≤
            a.height * max 0 (1 - a.lwc - a.iceFraction) * c.airDensity :=
          mul_le_mul_of_nonneg_right (mul_le_mul_of_nonneg_right hx.le h3) hc.air.le
        simp only
        linarith
    · rw [max_eq_right hm0.le]
      have : c.waterDensity * (sumWeq c g.nodes - m) = columnMass c g'.nodes + airMass c g'.nodes := by rw [← he]; exact e2
      linarith

/-- **C58.** The exact mass budget of a step. `thin` are the layers dropped by remeshing, `burnt` those removed by
penetrating radiation, `air` the pore air counted as water equivalent in removed ice, `comp` what densification
destroys. -/
theorem C58_step {sv : Solvers K} (hb : sv.RespectsLower) {fuel : Nat} {c : Consts K} {r : RunCfg K} {tlo : K}
    (hs : Sane c r tlo) {s s' : SimState K} {f : Forcing K} {o : StepOut K} (hw : s.grid.WF)
    (hg : ∀ n ∈ s.grid.nodes, PhysLayer c tlo n) (hT : tlo ≤ f.t2) (h : step sv fuel c r s f = .ok (s', o)) :
    ∃ (thin burnt : List (Node K)) (air comp : K) (g8 : Grid K),
      columnMass c s'.grid.nodes = columnMass c s.grid.nodes + accounted c o
        - columnMass c thin - columnMass c burnt + air - comp ∧
      (∀ n ∈ thin, n.height ≤ c.minimumSnowLayerHeight ∧ PhysLayer c tlo n) ∧
      (∀ n ∈ burnt, PhysLayer c tlo n) ∧ (burnt ≠ [] → 0 < f.g ∧ o.albedo < 1) ∧
      0 ≤ air ∧ (o.melt ≤ o.sublimation + o.deposition → air = 0) ∧
      (c.densificationMethod = .constant → comp = 0) ∧
      (densification c g8 r.slope r.dt = .ok s'.grid ∧ (∀ n ∈ g8.nodes, PhysLayer c tlo n) ∧
        comp = columnMass c g8.nodes - columnMass c s'.grid.nodes) := by
  obtain ⟨st⟩ := step_stages h
  have ws := st.wfs hw
  have ps := st.phys hb hs hw hg hT h
  have hc := hs.phys
  -- snowfall
  have hsf : 0 ≤ o.snowfall := by
    rw [st.snowfall]
    unfold thresholdPrecip
    simp only
    split_ifs with hlt
    · exact le_rfl
    · exact hs.snowMin.trans (not_lt.1 hlt)
  have m0 := applySnowfall_mass hc.ice.ne' (c := c) (dt := r.dt) (g := s.grid) (rho := o.densityFreshSnow) (t2 := f.t2) hsf
  -- remeshing
  obtain ⟨thin, ht, hthin⟩ := updateGrid_thin (closed_phys c tlo) ws.w0 hs.first hs.stretch ps.p0 st.remesh
  have m1 := hthin.mass (c := c)
  rw [columnMass_append] at m1
  -- albedo
  have e2 := updateAlbedo_grid st.albedo
  have s2 := getSurfaceProperties_nodes c st.g1
  simp only at e2
  rw [← e2] at s2
  -- radiation
  obtain ⟨burnt, hburnt, hsun, m3⟩ : ∃ burnt : List (Node K), (∀ n ∈ burnt, n ∈ st.g2.nodes) ∧
      (burnt ≠ [] → 0 < f.g ∧ o.albedo < 1) ∧ columnMass c st.g3.nodes + columnMass c burnt = columnMass c st.g2.nodes := by
    have hrad := st.radiation
    unfold radiationStep at hrad
    split_ifs at hrad with hsw
    · have hsun : 0 < f.g ∧ o.albedo < 1 := by
        rw [pyMax_eq] at hsw
        have h1 : 0 ≤ max f.g 0 := le_max_right _ _
        have h2 : 0 < max f.g 0 := lt_of_le_of_ne h1 fun e => by rw [← e, zero_mul] at hsw; exact lt_irrefl _ hsw
        have h3 := (pos_iff_pos_of_mul_pos hsw).1 h2
        refine ⟨?_, by linarith⟩
        rcases lt_max_iff.1 h2 with h | h
        · exact h
        · exact absurd h (lt_irrefl _)
      unfold penetratingRadiation at hrad
      split at hrad
      · obtain ⟨init, last, es, fates, a1, a2, a3, a4, a5⟩ := C26_outcome hc hsw.le hs.dt.le
          (fun n hn => ⟨(ps.p2 n hn).height, (ps.p2 n hn).ice, (ps.p2 n hn).water⟩) hrad
        obtain ⟨burnt, b1, b2⟩ := columnMass_fates (c := c) a4
        have hz : (init.zip es).map Prod.fst = init := List.map_fst_zip (by omega)
        rw [hz] at b1 b2
        refine ⟨burnt, fun n hn => by rw [a1]; simp [b1 n hn], fun _ => hsun, ?_⟩
        have hn3 : st.g3.nodes = fates.reduceOption ++ [last] := by rw [a5]
        rw [hn3, a1, columnMass_append, columnMass_append, ← b2]; ring
      · cases hrad
    · have e := (Prod.mk.inj (ok_inj.1 hrad)).1
      exact ⟨[], by simp, by simp, by rw [← e]; simp [columnMass, columnSum]⟩
  -- surface temperature
  obtain ⟨_, _, ⟨top, rest, e1, e4⟩, _⟩ := C34_bounds hb hs.zero st.surface
  have m4 : columnMass c st.g4.nodes = columnMass c st.g3.nodes := by
    rw [e4, e1]; simp only [columnMass_cons, Node.mass]
  -- removal
  have hne : st.g5.nodes ≠ [] := by
    intro he
    have hp := st.perc
    unfold percolation Grid.node pyGet at hp
    rw [he] at hp
    simp only [bind_eq_ok] at hp
    obtain ⟨_, hx, _⟩ := hp
    simp [normIdx] at hx
  obtain ⟨air, ha, hair, m5⟩ := removal_mass hc ws.w4 ps.p4 hne st.removal
  -- percolation
  obtain ⟨q1, q2, _⟩ := C16_conserves ws.w5 st.perc
  have e1000 : (1000.0 : K) = 1000 := by norm_num
  rw [e1000] at q1
  have m6 : columnMass c st.g6.nodes = columnMass c st.g5.nodes + c.waterDensity *
      (o.melt + o.condensation + o.rain / 1000 + o.lwcFromLayers - o.q) := by
    rw [columnMass_eq, columnMass_eq]
    have hice : sumIce st.g6.nodes = sumIce st.g5.nodes := by
      have : ∀ a b : List (Node K), a.map Node.dryPart = b.map Node.dryPart → sumIce a = sumIce b := by
        intro a b hab
        have e : ∀ ns : List (Node K), sumIce ns = ((ns.map Node.dryPart).map fun p => p.1 * p.2.2.1).sum := by
          intro ns; simp [sumIce, columnSum, Node.dryPart, Function.comp_def]
        rw [e, e, hab]
      exact this _ _ q2
    rw [hice]
    have : sumWater st.g6.nodes = sumWater st.g5.nodes +
      (o.melt + o.condensation + o.rain / 1000 + o.lwcFromLayers) - o.q := by linarith
    rw [this]; ring
  -- refreezing, conduction
  have m7 : columnMass c st.g7.nodes = columnMass c st.g6.nodes := (C18_total hc.ice.ne' st.refr).2.2.1
  have m8 : columnMass c st.g8.nodes = columnMass c st.g7.nodes := by
    have hf := (C22_only_temperature ws.w7 st.heat).1
    generalize st.g7.nodes = a at hf
    generalize st.g8.nodes = b at hf
    induction hf with
    | nil => rfl
    | cons h0 _ ih => rw [columnMass_cons, columnMass_cons, ih, h0]; rfl
  refine ⟨thin, burnt, air, columnMass c st.g8.nodes - columnMass c s'.grid.nodes, st.g8, ?_, ht,
    fun n hn => ps.p2 n (hburnt n hn), hsun, ha, fun hle => hair (by linarith), ?_, st.dens, ps.p8, rfl⟩
  · unfold accounted
    rw [m8, m7, m6, m5, m4]
    rw [s2.1] at m3
    linear_combination m0 + m1 + m3
  · intro hm
    have hd := st.dens
    unfold densification at hd
    rw [hm] at hd
    rw [ok_inj.1 hd]; ring

/-- **C58, closed budget.** With constant density, if nothing had to be melted from the column (deposition at least
melt), the sun is down, and no layer is as thin as the minimum height, the mass changes by exactly the accounted fluxes:
snowfall plus condensation, rain and melt water minus runoff. -/
theorem C58_closed {sv : Solvers K} (hb : sv.RespectsLower) {fuel : Nat} {c : Consts K} {r : RunCfg K} {tlo : K}
    (hs : Sane c r tlo) {s s' : SimState K} {f : Forcing K} {o : StepOut K} (hw : s.grid.WF)
    (hg : ∀ n ∈ s.grid.nodes, PhysLayer c tlo n) (hT : tlo ≤ f.t2) (hm : c.densificationMethod = .constant)
    (hdark : f.g ≤ 0) (hnm : o.melt ≤ o.sublimation + o.deposition) (h : step sv fuel c r s f = .ok (s', o)) :
    ∃ thin : List (Node K), (∀ n ∈ thin, n.height ≤ c.minimumSnowLayerHeight ∧ PhysLayer c tlo n) ∧
      columnMass c s'.grid.nodes + columnMass c thin = columnMass c s.grid.nodes +
        o.snowfall * (o.densityFreshSnow - (1 - o.densityFreshSnow / c.iceDensity) * c.airDensity) +
        c.waterDensity * (o.melt + o.condensation + o.rain / 1000 + o.lwcFromLayers - o.q) := by
  obtain ⟨thin, burnt, air, comp, g8, e, ht, _, hsun, _, hair, hcomp, _⟩ := C58_step hb hs hw hg hT h
  have hb0 : burnt = [] := by
    by_contra hne
    exact absurd (hsun hne).1 (not_lt.2 hdark)
  refine ⟨thin, ht, ?_⟩
  rw [hair hnm, hcomp hm, hb0] at e
  unfold accounted at e
  rw [max_eq_left (by linarith)] at e
  simp only [columnMass, columnSum, List.map_nil, List.sum_nil] at e ⊢
  linarith

end

section Reals

/-- **C58, sign of the compaction term.** Boone compaction, Vionnet compaction with a cosine (as computed) that is not
negative and constant density never create mass. -/
theorem C58_compaction_sign {c : Consts ℝ} (hc : c.Phys) {tlo : ℝ} {g g' : Grid ℝ} {slope dt : ℝ} (hdt : 0 < dt)
    (hm : c.densificationMethod ≠ .empirical) (hcos : c.densificationMethod = .vionnet → 0 ≤ Real.cos slope)
    (hg : ∀ n ∈ g.nodes, PhysLayer c tlo n) (h : densification c g slope dt = .ok g') :
    columnMass c g'.nodes ≤ columnMass c g.nodes := by
  have hs : ∀ n ∈ g.nodes, SnowLike n := fun n hn => ⟨(hg n hn).height, (hg n hn).ice, (hg n hn).water⟩
  have key : ∀ {ns rs : List (Node ℝ)}, (∀ n ∈ ns, SnowLike n) →
      List.Forall₂ (fun n m => m = n ∨ ∃ d, 0 ≤ d ∧ Compacted c d n m) ns rs → columnMass c rs ≤ columnMass c ns := by
    intro ns rs hns hr
    induction hr with
    | nil => exact le_rfl
    | @cons n m ns rs h0 _ ih =>
      rw [columnMass_cons, columnMass_cons]
      refine add_le_add ?_ (ih fun k hk => hns k (by simp [hk]))
      rcases h0 with rfl | ⟨d, hd, hcm⟩
      · exact le_rfl
      · rcases hd.eq_or_lt with rfl | hd
        · rcases eq_or_ne n.lwc 0 with h0 | h0
          · rw [hcm.mass.1 h0]; linarith
          · rw [hcm.mass.2 h0]; linarith
        · exact (hcm.loses hc hd (hns n (by simp))).le
  unfold densification at h
  split at h
  · unfold methodBoone at h
    simp only [bind_eq_ok] at h
    obtain ⟨k, _, rs, hr, h⟩ := h
    rw [pure_eq_ok] at h; subst h
    refine key hs (List.Forall₂.imp (fun n m hnm => ?_) (booneLayers_ok hc (dt := dt) le_rfl (by simp) hs hr))
    rcases hnm with rfl | ⟨d, hd, _, hcm⟩
    · exact Or.inl rfl
    · exact Or.inr ⟨d, hd hdt.le, hcm⟩
  · next hv =>
    unfold methodVionnet at h
    simp only [bind_eq_ok] at h
    obtain ⟨k, _, rs, hr, h⟩ := h
    rw [pure_eq_ok] at h; subst h
    rw [← mul_zero (Real.cos slope)] at hr
    refine key hs (List.Forall₂.imp (fun n m hnm => ?_) (vionnetLayers_ok hc hdt le_rfl (by simp) hs hr))
    rcases hnm with rfl | ⟨d, hd, _, _, hcm⟩
    · exact Or.inl rfl
    · exact Or.inr ⟨d, hd (hcos hv), hcm⟩
  · next hv => exact absurd hv hm
  · cases h; exact le_rfl
  · cases h

/-- **C58, over a run.** With any densification but `empirical` (Vionnet with a cosine that is not negative), as long as
compaction never uses up a layer, the mass of the column after a run of any length is at most the initial mass plus
everything the recorded fluxes account for plus the air counted as melt water equivalent, which is zero in every step
without removal: nothing else creates mass. -/
theorem C58_no_creation {sv : Solvers ℝ} (hb : sv.RespectsLower) {fuel : Nat} {c : Consts ℝ} {r : RunCfg ℝ} {tlo : ℝ}
    (hs : Sane c r tlo) (hm : c.densificationMethod ≠ .empirical)
    (hcos : c.densificationMethod = .vionnet → 0 ≤ Real.cos r.slope) :
    ∀ {fs : List (Forcing ℝ)} {s s' : SimState ℝ} {os : List (StepOut ℝ)}, s.grid.WF →
    (∀ n ∈ s.grid.nodes, PhysLayer c tlo n) → (∀ f ∈ fs, tlo ≤ f.t2) →
    (∀ s', Visited sv fuel c r s fs s' → ∀ n ∈ s'.grid.nodes, 0 < n.height) → run sv fuel c r s fs = .ok (s', os) →
    ∃ airs : List ℝ, List.Forall₂ (fun o a => 0 ≤ a ∧ (o.melt ≤ o.sublimation + o.deposition → a = 0)) os airs ∧
      columnMass c s'.grid.nodes ≤ columnMass c s.grid.nodes + (os.map (accounted c)).sum + airs.sum := by
  intro fs
  induction fs with
  | nil =>
    intro s s' os _ _ _ _ h
    rw [run] at h; cases h
    exact ⟨[], .nil, by simp⟩
  | cons f fs ih =>
    intro s s' os hw hg hT hH h
    obtain ⟨s1, o1, os1, h1, h2, rfl⟩ := run_cons h
    obtain ⟨thin, burnt, air, comp, g8, e, ht, hbu, _, ha, hair, _, hd, hp8, hcomp⟩ :=
      C58_step hb hs hw hg (hT f (by simp)) h1
    have v1 : Visited sv fuel c r s (f :: fs) s1 := ⟨[f], fs, [o1], by simp, by simp [run, h1]; rfl⟩
    have p1 : ∀ n ∈ s1.grid.nodes, PhysLayer c tlo n :=
      fun n hn => C59_step hb hs hcos hw hg (hT f (by simp)) h1 n hn (hH s1 v1 n hn)
    obtain ⟨airs, hf, hle⟩ := ih (C01_step hw h1) p1 (fun g hg => hT g (by simp [hg])) (by
      rintro s'' ⟨pre', suf', os', e', h'⟩
      refine hH s'' ⟨f :: pre', suf', o1 :: os', by simp [e'], ?_⟩
      rw [run, h1, ok_bind]
      simp only [h', ok_bind]
      rfl) h2
    refine ⟨air :: airs, .cons ⟨ha, hair⟩ hf, ?_⟩
    have c1 := columnMass_nonneg hs.phys (ns := thin) fun n hn => ⟨(ht n hn).2.height, (ht n hn).2.ice.le, (ht n hn).2.water⟩
    have c2 := columnMass_nonneg hs.phys (ns := burnt) fun n hn => ⟨(hbu n hn).height, (hbu n hn).ice.le, (hbu n hn).water⟩
    have c3 := C58_compaction_sign hs.phys hs.dt hm hcos hp8 hd
    simp only [List.map_cons, List.sum_cons]
    linarith

end Reals

/-- Snowfall at night in moist air. -/
def exNight : Forcing ℚ := { exSnow with lwin := some 0, rh2 := 150 }

attribute [local instance] exTransc in
/-- Non-vacuity: two steps from a physical column with sane constants (`C59`) return; the first brings snow in the dark
without removal (the hypotheses of `C58_closed`), the second melts. -/
example : (run ⟨fun _ _ => .ok 270, fun _ _ _ lo _ => .ok (max lo 270)⟩ 40 exConsts exCfg (initState exConsts false exGrid)
      [exNight, exDry]).map (fun r => r.2.map fun o =>
        (decide (0 < o.snowfall), decide (o.melt ≤ o.sublimation + o.deposition), decide (0 < o.melt))) =
    .ok [(true, true, false), (false, false, true)] ∧ exNight.g ≤ 0 ∧ exConsts.densificationMethod = .constant := by
  decide +kernel

end Cosipy
