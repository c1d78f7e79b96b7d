import Verif.Props.C59

/-!
# C135 Cold comes only from outside

`C135_step`: every layer after a step is at least as warm as some layer before the step, as the simulated surface
temperature of the step or, if snow fell, as the air of the record. `C135_run`: over any number of steps every layer of
the column is at least as warm as some layer of the initial column, some simulated surface temperature or the air of some
record with snowfall. So re-meshing, penetrating radiation, melt, percolation, refreezing, heat conduction (whatever the
sub-steps) and densification never produce a temperature below all those that entered the column. C59 gives only the
bound of the solver (220 K) and of the coldest air. `C135_run_constant` is the same for every exact arithmetic, for the
densification method `constant`, and there nothing has to be assumed about compaction. `C135_surface` shows that the
surface has to be among the sources: over a column of at least 268 K and with warmer air, a surface at 250 K leaves a layer
below 260 K.
-/

set_option autoImplicit false
set_option linter.unusedSectionVars false

namespace Cosipy
section
variable {K : Type} [Field K] [LinearOrder K] [IsStrictOrderedRing K] [Transc K]

/-- The temperature `t` is not below all temperatures that entered the column: those of the layers `ns`, the surface
temperatures of the steps and the air temperatures of the records with snowfall. -/
def FromOutside (ns : List (Node K)) (fs : List (Forcing K)) (os : List (StepOut K)) (t : K) : Prop :=
  (∃ m ∈ ns, m.temperature ≤ t) ∨ (∃ o ∈ os, o.ts ≤ t) ∨ ∃ p ∈ fs.zip os, 0 < p.2.snowfall ∧ p.1.t2 ≤ t

theorem exists_least : ∀ {l : List K}, l ≠ [] → ∃ a ∈ l, ∀ b ∈ l, a ≤ b
  | [], h => absurd rfl h
  | [a], _ => ⟨a, by simp, by simp⟩
  | a :: b :: l, _ => by
    obtain ⟨x, hx, h⟩ := exists_least (l := b :: l) (by simp)
    rcases le_total a x with hax | hax
    · exact ⟨a, by simp, fun y hy => (List.mem_cons.1 hy).elim (fun e => e ▸ le_rfl) fun hy => hax.trans (h y hy)⟩
    · exact ⟨x, by simp [hx], fun y hy => (List.mem_cons.1 hy).elim (fun e => e ▸ hax) fun hy => h y hy⟩

/-- Fresh snow is as warm as the air or at the melting point. -/
theorem applySnowfall_coldest {c : Consts K} {dt : K} {g : Grid K} {s rho t2 lo : K} (hz : lo ≤ c.zeroTemperature)
    (ht : 0 < s → lo ≤ t2) (hg : ∀ n ∈ g.nodes, lo ≤ n.temperature) :
    ∀ n ∈ (applySnowfall c dt g s rho t2).nodes, lo ≤ n.temperature := by
  unfold applySnowfall
  split_ifs with h0
  · have : (g.addFreshSnow c s rho (pyMin t2 c.zeroTemperature) 0 dt).nodes =
        Node.new c s rho (pyMin t2 c.zeroTemperature) 0 none :: g.nodes := by
      have e : pyInsert g.nodes 0 (Node.new c s rho (pyMin t2 c.zeroTemperature) 0 none) =
          Node.new c s rho (pyMin t2 c.zeroTemperature) 0 none :: g.nodes := by simp [pyInsert]
      unfold Grid.addFreshSnow
      split_ifs <;> exact e
    rw [this]
    intro n hn
    rcases List.mem_cons.1 hn with rfl | hn
    · simp only [Node.new, pyMin_eq]
      exact le_min (ht h0) hz
    · exact hg n hn
  · exact hg

/-- Before densification no layer is colder than `lo`, if no layer at the start, neither the surface nor, with snowfall,
the air is. -/
theorem StepStages.coldest {sv : Solvers K} (hb : sv.RespectsLower) {fuel : Nat} {c : Consts K} {r : RunCfg K} {tlo lo : K}
    (hs : Sane c r tlo) {s s' : SimState K} {f : Forcing K} {o : StepOut K} (st : StepStages sv fuel c r s f s' o)
    (hw : s.grid.WF) (ph : st.PhysStages tlo) (hlo : tlo ≤ lo)
    (hg : ∀ n ∈ s.grid.nodes, lo ≤ n.temperature) (ht2 : 0 < o.snowfall → lo ≤ f.t2) (hts : lo ≤ o.ts) :
    ∀ n ∈ st.g8.nodes, lo ≤ n.temperature := by
  have ws := st.wfs hw
  have hc := hs.phys
  obtain ⟨_, b2, ⟨top, rest, e1, e2⟩, _⟩ := C34_bounds hb hs.zero st.surface
  have hz : lo ≤ c.zeroTemperature := hts.trans b2
  have up : ∀ {n : Node K}, PhysLayer c tlo n → lo ≤ n.temperature → PhysLayer c lo n :=
    fun h h' => ⟨h.height, h.ice, h.water, h', h.warm⟩
  have p0 : ∀ n ∈ (applySnowfall c r.dt s.grid o.snowfall o.densityFreshSnow f.t2).nodes, PhysLayer c lo n :=
    fun n hn => up (ph.p0 n hn) (applySnowfall_coldest hz ht2 hg n hn)
  have p1 := (closed_phys c lo).updateGrid ws.w0 hs.first hs.stretch p0 st.remesh
  have p2 : ∀ n ∈ st.g2.nodes, PhysLayer c lo n := by
    have e2 := updateAlbedo_grid st.albedo
    have s2 := getSurfaceProperties_nodes c st.g1
    simp only at e2
    rw [← e2] at s2
    rw [s2.1]; exact p1
  have p3 : ∀ n ∈ st.g3.nodes, lo ≤ n.temperature := by
    have hrad := st.radiation
    unfold radiationStep at hrad
    split_ifs at hrad with hsw
    · unfold penetratingRadiation at hrad
      split at hrad
      · obtain ⟨init, last, es, fates, a1, a2, a3, a4, a5⟩ := C26_outcome hc hsw.le hs.dt.le
          (fun n hn => ⟨(p2 n hn).height, (p2 n hn).ice, (p2 n hn).water⟩) hrad
        rw [a5]
        intro n hn
        simp only [List.mem_append, List.mem_singleton] at hn
        rcases hn with hn | rfl
        · rw [List.reduceOption_mem_iff] at hn
          have : ∀ (ps : List (Node K × K)) (fs : List (Option (Node K))),
              List.Forall₂ (fun p o => LayerOutcome c r.dt p.2 p.1 o) ps fs →
              (∀ p ∈ ps, PhysLayer c lo p.1) → some n ∈ fs → lo ≤ n.temperature := by
            intro ps fs hf
            induction hf with
            | nil => intro _ hm; cases hm
            | @cons p o ps fs h0 _ ih =>
              intro hp hm
              rcases List.mem_cons.1 hm with rfl | hm
              · have hpl := hp p (by simp)
                exact hpl.cold.trans (h0.warms n rfl hpl.warm)
              · exact ih (fun q hq => hp q (by simp [hq])) hm
          exact this _ _ a4 (fun p hp => p2 p.1 (by rw [a1]; simp [(List.of_mem_zip hp).1])) hn
        · exact (p2 n (by rw [a1]; simp)).cold
      · cases hrad
    · have e := (Prod.mk.inj (ok_inj.1 hrad)).1
      rw [← e]; exact fun n hn => (p2 n hn).cold
  have p4 : ∀ n ∈ st.g4.nodes, lo ≤ n.temperature := by
    rw [e2]
    intro n hn
    rcases List.mem_cons.1 hn with rfl | hn
    · exact hts
    · exact p3 n (by simp [e1, hn])
  have p5 : ∀ n ∈ st.g5.nodes, lo ≤ n.temperature := by
    obtain ⟨removed, rest, e1, e2, e3⟩ := C12_prefix ws.w4 st.removal
    have hrest : ∀ n ∈ rest, lo ≤ n.temperature := fun n hn => p4 n (by rw [e1]; simp [hn])
    rcases e3 with e3 | ⟨a, below, x, q1, q2, q3⟩
    · rw [e3]; exact hrest
    · rw [q2]
      intro n hn
      rcases List.mem_cons.1 hn with rfl | hn
      · exact hrest a (by simp [q1])
      · exact hrest n (by simp [q1, hn])
  have p6 : ∀ n ∈ st.g6.nodes, PhysLayer c lo n := by
    have hd := (C16_conserves ws.w5 st.perc).2.1
    intro n hn
    have : n.dryPart ∈ st.g5.nodes.map Node.dryPart := hd ▸ List.mem_map_of_mem hn
    obtain ⟨m, hm, e⟩ := List.mem_map.1 this
    simp only [Node.dryPart, Prod.mk.injEq] at e
    exact up (ph.p6 n hn) (e.2.1 ▸ p5 m hm)
  have hcold : (c.specHeatWater - c.specHeatIce) * (c.zeroTemperature - lo) < c.latHeatMelting := by
    rcases le_total 0 (c.specHeatWater - c.specHeatIce) with h | h
    · exact lt_of_le_of_lt (mul_le_mul_of_nonneg_left (by linarith) h) hs.cold
    · exact lt_of_le_of_lt (mul_nonpos_of_nonpos_of_nonneg h (by linarith)) hc.melt
  have p7 : ∀ n ∈ st.g7.nodes, PhysLayer c lo n :=
    forall₂_transfer (refreezing_ok st.refr).1 p6 fun n m hn ⟨d, hd⟩ => refreezeLayer_phys hc hcold hn hd
  exact fun n hn => (solveHeat_phys hc ws.w7 p7 st.heat n hn).cold

/-- The column that is handed to densification. -/
theorem step_fromOutside {sv : Solvers K} (hb : sv.RespectsLower) {fuel : Nat} {c : Consts K} {r : RunCfg K} {tlo : K}
    (hs : Sane c r tlo) {s s' : SimState K} {f : Forcing K} {o : StepOut K} (hw : s.grid.WF)
    (hg : ∀ n ∈ s.grid.nodes, PhysLayer c tlo n) (ht2 : tlo ≤ f.t2) (h : step sv fuel c r s f = .ok (s', o)) :
    ∃ g8 : Grid K, g8.WF ∧ densification c g8 r.slope r.dt = .ok s'.grid ∧ (∀ n ∈ g8.nodes, PhysLayer c tlo n) ∧
      ∀ n ∈ g8.nodes, FromOutside s.grid.nodes [f] [o] n.temperature := by
  obtain ⟨st⟩ := step_stages h
  have ph := st.phys hb hs hw hg ht2 h
  refine ⟨st.g8, (st.wfs hw).w8, st.dens, ph.p8, fun n hn => ?_⟩
  obtain ⟨a, ha, hmin⟩ := exists_least (l := o.ts :: ((if 0 < o.snowfall then [f.t2] else []) ++
    s.grid.nodes.map Node.temperature)) (by simp)
  have hts : a ≤ o.ts := hmin _ (by simp)
  have hair : 0 < o.snowfall → a ≤ f.t2 := fun h0 => hmin _ (by simp [h0])
  have hnodes : ∀ m ∈ s.grid.nodes, a ≤ m.temperature := fun m hm => hmin _ (by
    simp only [List.mem_cons, List.mem_append, List.mem_map]
    exact Or.inr (Or.inr ⟨m, hm, rfl⟩))
  have hlo : tlo ≤ a := by
    rcases List.mem_cons.1 ha with rfl | ha
    · exact hs.low.trans (C34_bounds hb hs.zero st.surface).1
    · rcases List.mem_append.1 ha with ha | ha
      · split_ifs at ha
        · rw [List.mem_singleton] at ha; exact ha ▸ ht2
        · cases ha
      · obtain ⟨m, hm, rfl⟩ := List.mem_map.1 ha
        exact (hg m hm).cold
  have hle := st.coldest hb hs hw ph hlo hnodes hair hts n hn
  rcases List.mem_cons.1 ha with rfl | ha
  · exact Or.inr (Or.inl ⟨o, by simp, hle⟩)
  · rcases List.mem_append.1 ha with ha | ha
    · split_ifs at ha with h0
      · rw [List.mem_singleton] at ha
        exact Or.inr (Or.inr ⟨(f, o), by simp, h0, ha ▸ hle⟩)
      · cases ha
    · obtain ⟨m, hm, rfl⟩ := List.mem_map.1 ha
      exact Or.inl ⟨m, hm, hle⟩

theorem FromOutside.chain {ns ns1 : List (Node K)} {f : Forcing K} {fs : List (Forcing K)} {o : StepOut K}
    {os : List (StepOut K)} {t : K} (h : FromOutside ns1 fs os t)
    (h1 : ∀ m ∈ ns1, FromOutside ns [f] [o] m.temperature) : FromOutside ns (f :: fs) (o :: os) t := by
  rcases h with ⟨m, hm, h⟩ | ⟨o', ho, h⟩ | ⟨p, hp, h⟩
  · rcases h1 m hm with ⟨m', hm', h'⟩ | ⟨o', ho, h'⟩ | ⟨p, hp, h0, h'⟩
    · exact Or.inl ⟨m', hm', h'.trans h⟩
    · rw [List.mem_singleton] at ho; subst ho
      exact Or.inr (Or.inl ⟨o', by simp, h'.trans h⟩)
    · simp only [List.zip_cons_cons, List.zip_nil_left, List.mem_singleton] at hp; subst hp
      exact Or.inr (Or.inr ⟨(f, o), by simp, h0, h'.trans h⟩)
  · exact Or.inr (Or.inl ⟨o', by simp [ho], h⟩)
  · exact Or.inr (Or.inr ⟨p, by simp [hp], h⟩)

/-- **C135, constant density.** With the densification method `constant`, in every exact arithmetic and over any forcing
sequence, every layer is at least as warm as some layer of the initial column, some simulated surface temperature or the
air of some record with snowfall. -/
theorem C135_run_constant {sv : Solvers K} (hb : sv.RespectsLower) {fuel : Nat} {c : Consts K} {r : RunCfg K} {tlo : K}
    (hs : Sane c r tlo) (hm : c.densificationMethod = .constant) : ∀ {fs : List (Forcing K)} {s s' : SimState K}
    {os : List (StepOut K)}, s.grid.WF → (∀ n ∈ s.grid.nodes, PhysLayer c tlo n) → (∀ f ∈ fs, tlo ≤ f.t2) →
    run sv fuel c r s fs = .ok (s', os) → ∀ n ∈ s'.grid.nodes, FromOutside s.grid.nodes fs os n.temperature := by
  intro fs
  induction fs with
  | nil => intro s s' os _ _ _ h n hn; rw [run] at h; cases h; exact Or.inl ⟨n, hn, le_rfl⟩
  | cons f fs ih =>
    intro s s' os hw hg hT h n hn
    obtain ⟨s1, o1, os1, h1, h2, rfl⟩ := run_cons h
    obtain ⟨g8, w8, e8, p8, q8⟩ := step_fromOutside hb hs hw hg (hT f (by simp)) h1
    have : s1.grid = g8 := by
      unfold densification at e8
      rw [hm] at e8
      exact (ok_inj.1 e8).symm
    exact (ih (C01_step hw h1) (this ▸ p8) (fun g hg => hT g (by simp [hg])) h2 n hn).chain (this ▸ q8)

end

section Reals

/-- **C135, one step.** For every densification method, every layer after a step is at least as warm as some layer before
it, as the simulated surface temperature or, if snow fell, as the air. -/
theorem C135_step {sv : Solvers ℝ} (hb : sv.RespectsLower) {fuel : Nat} {c : Consts ℝ} {r : RunCfg ℝ} {tlo : ℝ}
    (hs : Sane c r tlo) (hcos : c.densificationMethod = .vionnet → 0 ≤ Real.cos r.slope) {s s' : SimState ℝ}
    {f : Forcing ℝ} {o : StepOut ℝ} (hw : s.grid.WF) (hg : ∀ n ∈ s.grid.nodes, PhysLayer c tlo n) (hT : tlo ≤ f.t2)
    (h : step sv fuel c r s f = .ok (s', o)) :
    ∀ n ∈ s'.grid.nodes, FromOutside s.grid.nodes [f] [o] n.temperature := by
  obtain ⟨g8, w8, e8, p8, q8⟩ := step_fromOutside hb hs hw hg hT h
  refine forall₂_transfer (densification_phys hs.phys hs.dt hcos p8 e8)
    (P := fun n => PhysLayer c tlo n ∧ FromOutside s.grid.nodes [f] [o] n.temperature) (fun n hn => ⟨p8 n hn, q8 n hn⟩)
    fun n m hn hr => ?_
  rw [(hr hn.1.height hn.1).2.2.2]
  exact hn.2

/-- **C135.** For every forcing sequence of any length in which compaction never uses up a whole layer: every layer is at
least as warm as some layer of the initial column, some simulated surface temperature or the air of some record with
snowfall. -/
theorem C135_run {sv : Solvers ℝ} (hb : sv.RespectsLower) {fuel : Nat} {c : Consts ℝ} {r : RunCfg ℝ} {tlo : ℝ}
    (hs : Sane c r tlo) (hcos : c.densificationMethod = .vionnet → 0 ≤ Real.cos r.slope) : ∀ {fs : List (Forcing ℝ)}
    {s s' : SimState ℝ} {os : List (StepOut ℝ)}, s.grid.WF → (∀ n ∈ s.grid.nodes, PhysLayer c tlo n) →
    (∀ f ∈ fs, tlo ≤ f.t2) → (∀ s', Visited sv fuel c r s fs s' → ∀ n ∈ s'.grid.nodes, 0 < n.height) →
    run sv fuel c r s fs = .ok (s', os) → ∀ n ∈ s'.grid.nodes, FromOutside s.grid.nodes fs os n.temperature := by
  intro fs
  induction fs with
  | nil => intro s s' os _ _ _ _ h n hn; rw [run] at h; cases h; exact Or.inl ⟨n, hn, le_rfl⟩
  | cons f fs ih =>
    intro s s' os hw hg hT hH h n hn
    obtain ⟨s1, o1, os1, h1, h2, rfl⟩ := run_cons h
    have v1 : Visited sv fuel c r s (f :: fs) s1 := ⟨[f], fs, [o1], by simp, by simp [run, h1]; rfl⟩
    have p1 : ∀ n ∈ s1.grid.nodes, PhysLayer c tlo n :=
      fun n hn => C59_step hb hs hcos hw hg (hT f (by simp)) h1 n hn (hH s1 v1 n hn)
    refine (ih (C01_step hw h1) p1 (fun g hg => hT g (by simp [hg])) ?_ h2 n hn).chain
      (C135_step hb hs hcos hw hg (hT f (by simp)) h1)
    rintro s'' ⟨pre', suf', os', e', h'⟩
    refine hH s'' ⟨f :: pre', suf', o1 :: os', by simp [e'], ?_⟩
    rw [run, h1, ok_bind]
    simp only [h', ok_bind]
    rfl

end Reals

section Examples
attribute [local instance] exTransc

/-- A solver that always answers 250 K. -/
def coldSolver : Solvers ℚ := ⟨fun _ _ => .ok 250, fun _ _ _ lo _ => .ok (max lo 250)⟩

theorem coldSolver_lower : coldSolver.RespectsLower := by
  intro m f x lo hi r h
  cases h
  exact le_max_left _ _

theorem exGrid_phys : ∀ n ∈ exGrid.nodes, PhysLayer exConsts 150 n := by
  intro n hn
  have : 0 < n.height ∧ 0 < n.iceFraction ∧ 0 ≤ n.lwc ∧ 150 ≤ n.temperature ∧ n.temperature ≤ exConsts.zeroTemperature :=
    (by decide +kernel : ∀ n ∈ exGrid.nodes, 0 < n.height ∧ 0 < n.iceFraction ∧ 0 ≤ n.lwc ∧ 150 ≤ n.temperature ∧
      n.temperature ≤ exConsts.zeroTemperature) n hn
  exact ⟨this.1, this.2.1, this.2.2.1, this.2.2.2.1, this.2.2.2.2⟩

/-- Non-vacuity: the hypotheses of `C135_run_constant` hold for a run of three steps that returns. -/
example : coldSolver.RespectsLower ∧ Sane exConsts exCfg 150 ∧ exConsts.densificationMethod = .constant ∧
    (∀ n ∈ exGrid.nodes, PhysLayer exConsts 150 n) ∧ (∀ f ∈ [exSnow, exDry, exDry], 150 ≤ f.t2) ∧
    raised (run coldSolver 40 exConsts exCfg (initState exConsts false exGrid) [exSnow, exDry, exDry]) = none :=
  ⟨coldSolver_lower,
    ⟨by constructor <;> decide +kernel, by decide +kernel, by decide +kernel, by decide +kernel, by decide +kernel,
      by decide +kernel, by decide +kernel, by decide +kernel, by decide +kernel, by decide +kernel⟩,
    rfl, exGrid_phys, by decide +kernel, by decide +kernel⟩

/-- Non-vacuity of `C135_run`: the shipped constants with hourly steps are sane. -/
example : Sane (Consts.default ℝ) ⟨3600, 2, 10, 200, true, false⟩ 150 := by
  refine ⟨Consts.default_phys, ?_, ?_, ?_, ?_, ?_, ?_, ?_, ?_, ?_⟩ <;> norm_num [Consts.default]

/-- **C135, the surface is needed.** Without snowfall and with air at 272 K over a column of at least 268 K, one step with
a surface temperature of 250 K leaves a layer below 260 K. -/
theorem C135_surface : ∃ s' o, step coldSolver 40 exConsts exCfg (initState exConsts false exGrid) exDry = .ok (s', o) ∧
    (∀ n ∈ exGrid.nodes, 268 ≤ n.temperature) ∧ exDry.t2 = 272 ∧ o.snowfall = 0 ∧ o.ts = 250 ∧
    ∃ n ∈ s'.grid.nodes, n.temperature < 260 := by
  have key : (match step coldSolver 40 exConsts exCfg (initState exConsts false exGrid) exDry with
    | .ok (s', o) => decide (o.snowfall = 0 ∧ o.ts = 250 ∧ ∃ n ∈ s'.grid.nodes, n.temperature < 260)
    | .error _ => false) = true := by decide +kernel
  split at key
  · next s' o h =>
    obtain ⟨h1, h2, h3⟩ := of_decide_eq_true key
    exact ⟨s', o, h, by decide +kernel, by decide +kernel, h1, h2, h3⟩
  · cases key

end Examples
end Cosipy
