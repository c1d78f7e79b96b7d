import Verif.Lemmas.Idle
import Verif.Lemmas.HeatFloat
import Verif.Props.C01
import Verif.Props.C81

/-! C100: nothing happens without a cause. A step that reports no snowfall, no rain, no melt and no exchange of vapour, in
the dark, over a column without liquid water, reports no runoff, no refreezing and no mass balance either, and changes
nothing in the layers but their temperatures (beyond remeshing and settling). A column of the temperature of its surface
that is neither remeshed nor settles stays exactly as it is, for any number of such steps. All of it in rounded
arithmetic: there is no drift. -/

set_option autoImplicit false
set_option linter.unusedSectionVars false

namespace Cosipy

/-! ## Specification -/

section
variable {α : Type} [Zero α]

/-- A step in which, according to its results, the atmosphere neither brought nor took anything. -/
structure QuietOut (o : StepOut α) : Prop where
  snowfall : o.snowfall = 0
  rain : o.rain = 0
  melt : o.melt = 0
  sublimation : o.sublimation = 0
  deposition : o.deposition = 0
  evaporation : o.evaporation = 0
  condensation : o.condensation = 0

/-- Layers with the same height, ice and water. -/
def SameMatter (ns ms : List (Node α)) : Prop :=
  List.Forall₂ (fun a b => b.height = a.height ∧ b.iceFraction = a.iceFraction ∧ b.lwc = a.lwc) ns ms

end

section
variable {α : Type} [LinearOrder α] [Zero α] [One α] [Add α] [Sub α] [Mul α] [Div α] [Neg α] [NatCast α] [OfScientific α]
  [Rounded α] [Transc α]

/-- No liquid water, and neither negative heights nor negative ice. -/
def DryColumn (ns : List (Node α)) : Prop := ∀ n ∈ ns, 0 ≤ n.height ∧ 0 ≤ n.iceFraction ∧ n.lwc = 0

/-! ## One step -/

private theorem radiation_dark {c : Consts α} {g : Grid α} {a x dt : α} {r : Grid α × α × α} (h : x ≤ 0)
    (hr : radiationStep c g (pyMax x 0 * a) dt = .ok r) : r = (g, 0, 0) := by
  have e : pyMax x 0 = 0 := by
    unfold pyMax
    split_ifs with h1
    · rfl
    · exact le_antisymm h (not_lt.1 h1)
  unfold radiationStep at hr
  rw [e, Rounded.zero_mul, if_neg (lt_irrefl _)] at hr
  cases hr; rfl

private theorem sameMatter_map {f : Node α → Node α} (hf : ∀ n, (f n).height = n.height ∧ (f n).iceFraction = n.iceFraction ∧
    (f n).lwc = n.lwc) (ns : List (Node α)) : SameMatter ns (ns.map f) := by
  induction ns with
  | nil => exact .nil
  | cons a ns ih => exact .cons (hf a) ih

private theorem sameMatter_modify {f : Node α → Node α} (hf : ∀ n, (f n).height = n.height ∧ (f n).iceFraction = n.iceFraction ∧
    (f n).lwc = n.lwc) : ∀ (ns : List (Node α)) (k : Nat), SameMatter ns (ns.modify k f) := by
  intro ns
  induction ns with
  | nil => intro k; cases k <;> exact .nil
  | cons a ns ih =>
    intro k
    cases k with
    | zero => exact .cons (hf a) (by
        have : ∀ l : List (Node α), SameMatter l l := fun l => by
          induction l with
          | nil => exact .nil
          | cons a l ih => exact .cons ⟨rfl, rfl, rfl⟩ ih
        exact this ns)
    | succ k => exact .cons ⟨rfl, rfl, rfl⟩ (ih k)

theorem SameMatter.trans {xs ys zs : List (Node α)} (h : SameMatter xs ys) (h' : SameMatter ys zs) : SameMatter xs zs := by
  unfold SameMatter at *
  induction h generalizing zs with
  | nil => cases h'; exact .nil
  | cons h1 _ ih =>
    cases h' with
    | cons h2 h3 => exact .cons ⟨h2.1.trans h1.1, h2.2.1.trans h1.2.1, h2.2.2.trans h1.2.2⟩ (ih h3)

private theorem sameMatter_zip : ∀ (xs : List α) (ns : List (Node α)), xs.length = ns.length →
    SameMatter ns (List.zipWith Node.setTemperature xs ns) := by
  intro xs
  induction xs with
  | nil => intro ns h; cases ns with
    | nil => exact .nil
    | cons => cases h
  | cons x xs ih =>
    intro ns h
    cases ns with
    | nil => cases h
    | cons n ns => exact .cons ⟨rfl, rfl, rfl⟩ (ih ns (by simpa using h))

private theorem heat_sameMatter {fuel : Nat} {c : Consts α} {g g' : Grid α} {dt : α} (hw : g.WF)
    (h : solveHeatEquation fuel c g dt = .ok g') : SameMatter g.nodes g'.nodes := by
  unfold Cosipy.solveHeatEquation at h
  simp only [bind_eq_ok] at h
  obtain ⟨cells, h1, b, h2, ⟨u, cs⟩, h3, h⟩ := h
  rw [Grid.mapNodes_eq hw, mapM_eq_ok_iff] at h1
  have hl := h1.length_eq
  have hcs : cs.length = cells.length :=
    (whileM_inv (body := heatLoopPass dt b) (fun s : α × List (HeatCell α) => s.2.length = cells.length) (by
      rintro s s' hs hb
      unfold heatLoopPass at hb
      split_ifs at hb
      · cases hb
        simpa [heatPass_len] using hs
      · cases hb) fuel (0, cells) (u, cs) rfl h3).1
  have hl' : (cs.map HeatCell.t).length = g.nodes.length := by rw [List.length_map, hcs, hl]
  rw [Grid.setAll_eq hw _ hl'] at h
  cases h
  exact sameMatter_zip _ _ hl'

/-- The stages of a step in which nothing but temperatures change. -/
structure QuietStages (fuel : Nat) (c : Consts α) (r : RunCfg α) (s : SimState α) (s' : SimState α)
    (o : StepOut α) where
  g1 : Grid α
  g7 : Grid α
  g8 : Grid α
  wf1 : s.grid.WF → g1.WF
  wf7 : s.grid.WF → g7.WF
  dry1 : g1.Idle
  remesh : (s.grid.setFreshSnowPropsUpdateTime r.dt).updateGrid fuel c = .ok g1
  nodes7 : g7.nodes = (g1.nodes.modify 0 (Node.setTemperature o.ts)).map (Node.setRefreeze 0)
  heat : solveHeatEquation fuel c g7 r.dt = .ok g8
  dens : densification c g8 r.slope r.dt = .ok s'.grid
  results : o.lwcFromLayers = 0 ∧ o.q = 0 ∧ o.refreeze = 0 ∧ o.subsurfaceMelt = 0 ∧ o.mb = 0 ∧ s'.mbCum = s.mbCum

theorem quiet_stages {sv : Solvers α} {fuel : Nat} {c : Consts α} {r : RunCfg α} {s : SimState α} {f : Forcing α}
    {s' : SimState α} {o : StepOut α} (hs : 0 ≤ c.layerStretching) (hf : 0 ≤ c.firstLayerHeight)
    (hd : DryColumn s.grid.nodes) (hq : QuietOut o) (hg : f.g ≤ 0) (h : step sv fuel c r s f = .ok (s', o)) :
    Nonempty (QuietStages fuel c r s s' o) := by
  obtain ⟨S⟩ := step_stages h
  have hm := S.remesh
  unfold applySnowfall at hm
  rw [hq.snowfall, if_neg (lt_irrefl _)] at hm
  have i0 : (s.grid.setFreshSnowPropsUpdateTime r.dt).Idle := fun n hn =>
    ⟨⟨(hd n hn).1, (hd n hn).2.1, (hd n hn).2.2.ge⟩, (hd n hn).2.2⟩
  have i1 := i0.updateGrid hs hf hm
  have e2 : S.g2.nodes = S.g1.nodes := by
    have := updateAlbedo_grid S.albedo
    simp only at this
    rw [this]; exact (getSurfaceProperties_nodes c S.g1).1
  have e3 := radiation_dark hg S.radiation
  simp only [Prod.mk.injEq] at e3
  have e4 := updateSurfaceTemperature_grid S.surface
  obtain ⟨k, hk, e4⟩ := Grid.modifyNode_eq_ok.1 e4
  have hk0 : k = 0 := by have := (normIdx_eq_some_nonneg le_rfl hk).1; omega
  subst hk0
  have hrem := S.removal
  rw [hq.melt, hq.sublimation, hq.deposition, Rounded.sub_zero, Rounded.sub_zero] at hrem
  have e5 := removeMeltWeq_zero hrem
  simp only [Prod.mk.injEq] at e5
  have n4 : S.g4.nodes = S.g1.nodes.modify 0 (Node.setTemperature o.ts) := by
    rw [show S.g4 = _ from e4]; show S.g3.nodes.modify 0 _ = _; rw [e3.1, e2]
  have i4 : S.g4.Idle := by
    intro n hn
    rw [n4] at hn
    exact all_modify (P := IdleLayer) (f := Node.setTemperature o.ts) i1 0 (fun n hn => ⟨⟨hn.1.height, hn.1.ice, hn.2.ge⟩, hn.2⟩) n hn
  have hp := S.perc
  rw [hq.melt, hq.condensation, hq.rain, e5.2, Rounded.add_zero, Rounded.zero_div, Rounded.add_zero, Rounded.add_zero,
    e5.1] at hp
  have e6 := percolation_idle i4 hp
  simp only [Prod.mk.injEq] at e6
  have hr := S.refr
  rw [e6.1] at hr
  have e7 := refreezing_idle i4 hr
  simp only [Prod.mk.injEq] at e7
  refine ⟨{ g1 := S.g1, g7 := S.g7, g8 := S.g8, wf1 := fun hw => ?_, wf7 := fun hw => ?_, dry1 := i1, remesh := hm,
            nodes7 := ?_, heat := S.heat, dens := S.dens, results := ⟨e5.2, e6.2, e7.2, e3.2.1, ?_⟩ }⟩
  · exact Grid.WF.updateGrid (g := s.grid.setFreshSnowPropsUpdateTime r.dt) hw hm
  · have w1 : S.g1.WF := Grid.WF.updateGrid (g := s.grid.setFreshSnowPropsUpdateTime r.dt) hw hm
    have w2 := w1.updateAlbedo S.albedo
    have w3 : S.g3.WF := by rw [e3.1]; exact w2
    have w4 := w3.updateSurfaceTemperature S.surface
    have w6 : S.g6.WF := by rw [e6.1]; exact w4
    exact w6.refreezing S.refr
  · rw [e7.1, ← n4]
  · have hmb : o.mb = 0 := by
      rw [S.mb, S.surfMB, S.intMB, hq.snowfall, hq.melt, hq.sublimation, hq.deposition, hq.evaporation, e7.2, e3.2.1,
        Rounded.zero_mul, Rounded.sub_zero, Rounded.add_zero, Rounded.add_zero, Rounded.add_zero, Rounded.add_zero]
    exact ⟨hmb, by rw [S.mbCum, hmb, Rounded.add_zero]⟩

/-- Nothing happens without a cause: a step without snowfall, rain, melt and vapour exchange, in the dark, over a dry
column reports no runoff, no refreezing, no subsurface melt and no mass balance; it remeshes the column, changes nothing
but temperatures in it, and lets it settle. -/
theorem C100_step {sv : Solvers α} {fuel : Nat} {c : Consts α} {r : RunCfg α} {s : SimState α} {f : Forcing α}
    {s' : SimState α} {o : StepOut α} (hs : 0 ≤ c.layerStretching) (hf : 0 ≤ c.firstLayerHeight) (hw : s.grid.WF)
    (hd : DryColumn s.grid.nodes) (hq : QuietOut o) (hg : f.g ≤ 0) (h : step sv fuel c r s f = .ok (s', o)) :
    o.lwcFromLayers = 0 ∧ o.q = 0 ∧ o.refreeze = 0 ∧ o.subsurfaceMelt = 0 ∧ o.mb = 0 ∧ s'.mbCum = s.mbCum ∧
    ∃ g1 g2, (s.grid.setFreshSnowPropsUpdateTime r.dt).updateGrid fuel c = .ok g1 ∧ DryColumn g1.nodes ∧
      SameMatter g1.nodes g2.nodes ∧ densification c g2 r.slope r.dt = .ok s'.grid := by
  obtain ⟨S⟩ := quiet_stages hs hf hd hq hg h
  obtain ⟨r1, r2, r3, r4, r5, r6⟩ := S.results
  refine ⟨r1, r2, r3, r4, r5, r6, S.g1, S.g8, S.remesh, fun n hn => ?_, ?_, S.dens⟩
  · exact ⟨(S.dry1 n hn).1.height, (S.dry1 n hn).1.ice, (S.dry1 n hn).2⟩
  · refine SameMatter.trans ?_ (heat_sameMatter (S.wf7 hw) S.heat)
    rw [S.nodes7]
    exact (sameMatter_modify (f := Node.setTemperature o.ts) (fun n => ⟨rfl, rfl, rfl⟩) _ 0).trans
      (sameMatter_map (f := Node.setRefreeze 0) (fun n => ⟨rfl, rfl, rfl⟩) _)

theorem updateGrid_inactive {fuel : Nat} {c : Consts α} {g g1 : Grid α} (hm : c.remeshMethod = .other)
    (ht : ∀ n ns, g.nodes = n :: ns → c.minimumSnowLayerHeight ≤ n.height) (h1 : g.updateGrid fuel c = .ok g1) :
    g1 = g := by
  unfold Grid.updateGrid Grid.remesh at h1
  rw [hm, ok_bind, bind_eq_ok] at h1
  obtain ⟨a, ha, h1⟩ := h1
  have : ∃ ns, g.nodes = a :: ns := by
    unfold Grid.node at ha
    obtain ⟨k, hk, hk'⟩ := pyGet_eq_ok.1 ha
    have hk0 : k = 0 := by have := (normIdx_eq_some_nonneg le_rfl hk).1; omega
    subst hk0
    cases hn : g.nodes with
    | nil => rw [hn] at hk'; cases hk'
    | cons b ns => rw [hn] at hk'; cases hk'; exact ⟨ns, rfl⟩
  obtain ⟨ns, hns⟩ := this
  rw [if_neg (not_lt.2 (ht a ns hns)), pure_eq_ok] at h1
  exact h1.symm

/-- Settings under which layers are neither merged, split, removed nor densified: no remeshing, constant density, and a
surface layer of at least the minimum height. -/
structure FixedLayers (c : Consts α) (ns : List (Node α)) : Prop where
  remesh : c.remeshMethod = .other
  density : c.densificationMethod = .constant
  stretch : 0 ≤ c.layerStretching
  first : 0 ≤ c.firstLayerHeight
  top : ∀ n rest, ns = n :: rest → c.minimumSnowLayerHeight ≤ n.height

/-- With fixed layers the column keeps its layers, their heights, ice and water. -/
theorem C100_matter {sv : Solvers α} {fuel : Nat} {c : Consts α} {r : RunCfg α} {s : SimState α} {f : Forcing α}
    {s' : SimState α} {o : StepOut α} (hc : FixedLayers c s.grid.nodes) (hw : s.grid.WF)
    (hd : DryColumn s.grid.nodes) (hq : QuietOut o) (hg : f.g ≤ 0) (h : step sv fuel c r s f = .ok (s', o)) :
    SameMatter s.grid.nodes s'.grid.nodes := by
  obtain ⟨-, -, -, -, -, -, g1, g2, h1, -, h2, h3⟩ := C100_step hc.stretch hc.first hw hd hq hg h
  have e1 := updateGrid_inactive (g := s.grid.setFreshSnowPropsUpdateTime r.dt) hc.remesh hc.top h1
  unfold densification at h3
  rw [hc.density] at h3
  cases h3
  rw [e1] at h2; exact h2

/-- If the column also has the temperature the surface keeps, nothing changes at all. -/
theorem C100_rest {sv : Solvers α} {fuel : Nat} {c : Consts α} {r : RunCfg α} {s : SimState α} {f : Forcing α}
    {s' : SimState α} {o : StepOut α} (hc : FixedLayers c s.grid.nodes) (hw : s.grid.WF)
    (hd : DryColumn s.grid.nodes) (hT : ∀ n ∈ s.grid.nodes, n.temperature = o.ts ∧ n.refreeze = 0) (hq : QuietOut o)
    (hg : f.g ≤ 0) (h : step sv fuel c r s f = .ok (s', o)) : s'.grid.nodes = s.grid.nodes := by
  obtain ⟨S⟩ := quiet_stages hc.stretch hc.first hd hq hg h
  have e1 := updateGrid_inactive (g := s.grid.setFreshSnowPropsUpdateTime r.dt) hc.remesh hc.top S.remesh
  have n1 : S.g1.nodes = s.grid.nodes := by rw [e1]; rfl
  have n7 : S.g7.nodes = s.grid.nodes := by
    rw [S.nodes7, n1, modify_same (f := Node.setTemperature o.ts)]
    · refine (List.map_congr_left (g := id) fun n hn => ?_).trans (List.map_id _)
      show Node.setRefreeze 0 n = n
      rw [← (hT n hn).2]; rfl
    · intro n hn
      rw [← (hT n hn).1]; rfl
  have e8 := solveHeatEquation_idle (S.wf7 hw) (T := o.ts) (fun n hn => by rw [n7] at hn; exact (hT n hn).1) S.heat
  have h3 := S.dens
  unfold densification at h3
  rw [hc.density] at h3
  have h3 : S.g8 = s'.grid := Except.ok.inj h3
  rw [← h3, e8, n7]

/-! ## Whole runs -/

theorem SameMatter.dry {ns ms : List (Node α)} (h : SameMatter ns ms) (hd : DryColumn ns) : DryColumn ms := by
  unfold SameMatter DryColumn at *
  induction h with
  | nil => exact hd
  | cons h1 _ ih =>
    intro n hn
    rcases List.mem_cons.1 hn with rfl | hn
    · rw [h1.1, h1.2.1, h1.2.2]; exact hd _ (by simp)
    · exact ih (fun m hm => hd m (by simp [hm])) n hn

theorem SameMatter.fixed {c : Consts α} {ns ms : List (Node α)} (h : SameMatter ns ms) (hc : FixedLayers c ns) :
    FixedLayers c ms := by
  refine ⟨hc.remesh, hc.density, hc.stretch, hc.first, fun n rest hn => ?_⟩
  subst hn
  unfold SameMatter at h
  cases h with
  | cons h1 _ => rw [h1.1]; exact hc.top _ _ rfl

/-- However long it goes on: heights, ice and water of the layers stay what they were, and the cumulated mass balance
does not drift. -/
theorem C100_run {sv : Solvers α} {fuel : Nat} {c : Consts α} {r : RunCfg α} :
    ∀ (fs : List (Forcing α)) {s s' : SimState α} {os : List (StepOut α)}, FixedLayers c s.grid.nodes → s.grid.WF →
      DryColumn s.grid.nodes → (∀ o ∈ os, QuietOut o) → (∀ f ∈ fs, f.g ≤ 0) → run sv fuel c r s fs = .ok (s', os) →
      SameMatter s.grid.nodes s'.grid.nodes ∧ s'.mbCum = s.mbCum ∧
      ∀ o ∈ os, o.q = 0 ∧ o.refreeze = 0 ∧ o.subsurfaceMelt = 0 ∧ o.mb = 0 := by
  intro fs
  induction fs with
  | nil =>
    intro s s' os _ _ _ _ _ h
    rw [run] at h; cases h
    have : ∀ l : List (Node α), SameMatter l l := fun l => by
      induction l with
      | nil => exact .nil
      | cons a l ih => exact .cons ⟨rfl, rfl, rfl⟩ ih
    exact ⟨this _, rfl, fun o ho => by cases ho⟩
  | cons f fs ih =>
    intro s s' os hc hw hd hq hg h
    obtain ⟨s1, o1, os1, h1, h2, rfl⟩ := run_cons h
    have m1 := C100_matter hc hw hd (hq o1 (by simp)) (hg f (by simp)) h1
    obtain ⟨-, r2, r3, r4, r5, r6, -⟩ := C100_step hc.stretch hc.first hw hd (hq o1 (by simp)) (hg f (by simp)) h1
    obtain ⟨m2, e2, r⟩ := ih (m1.fixed hc) (C01_step hw h1) (m1.dry hd) (fun o ho => hq o (by simp [ho]))
      (fun f hf => hg f (by simp [hf])) h2
    refine ⟨m1.trans m2, e2.trans r6, fun o ho => ?_⟩
    rcases List.mem_cons.1 ho with rfl | ho
    · exact ⟨r2, r3, r4, r5⟩
    · exact r o ho

/-- A column of the temperature the surface keeps is, after any number of such steps, exactly the column it was. -/
theorem C100_run_rest {sv : Solvers α} {fuel : Nat} {c : Consts α} {r : RunCfg α} {T : α} :
    ∀ (fs : List (Forcing α)) {s s' : SimState α} {os : List (StepOut α)}, FixedLayers c s.grid.nodes → s.grid.WF →
      DryColumn s.grid.nodes → (∀ n ∈ s.grid.nodes, n.temperature = T ∧ n.refreeze = 0) →
      (∀ o ∈ os, QuietOut o ∧ o.ts = T) → (∀ f ∈ fs, f.g ≤ 0) → run sv fuel c r s fs = .ok (s', os) →
      s'.grid.nodes = s.grid.nodes := by
  intro fs
  induction fs with
  | nil => intro s s' os _ _ _ _ _ _ h; rw [run] at h; cases h; rfl
  | cons f fs ih =>
    intro s s' os hc hw hd hT hq hg h
    obtain ⟨s1, o1, os1, h1, h2, rfl⟩ := run_cons h
    have hT1 : ∀ n ∈ s.grid.nodes, n.temperature = o1.ts ∧ n.refreeze = 0 := fun n hn => by
      rw [(hq o1 (by simp)).2]; exact hT n hn
    have e1 := C100_rest hc hw hd hT1 (hq o1 (by simp)).1 (hg f (by simp)) h1
    have := ih (s := s1) (by rw [e1]; exact hc) (C01_step hw h1) (by rw [e1]; exact hd) (by rw [e1]; exact hT)
      (fun o ho => hq o (by simp [ho])) (fun f hf => hg f (by simp [hf])) h2
    rw [this, e1]

end

/-! ## Non-vacuity: double precision, two hours of a calm, cold night -/

section
attribute [local instance] exTransc

private def qc : Consts D :=
  { Consts.default D with sfcTemperatureMethod := .lbfgsb, densificationMethod := .constant, remeshMethod := .other }

private def qNight : Forcing D := ⟨270, 60, 700, 0, 0, none, some 0, some 0, none⟩

private def qGrid : Grid D :=
  ⟨[⟨0.1, 270, 0, 0.3, 0⟩, ⟨0.3, 270, 0, 0.5, 0⟩, ⟨0.7, 270, 0, 1, 0⟩], 3, 0, 0, 0⟩

private def qRun : M (SimState D × List (StepOut D)) :=
  run exSolversD 4000 qc exCfgD (initState qc false qGrid) [qNight, qNight]

private def qOk (x : M (SimState D × List (StepOut D))) : Bool :=
  match x with
  | .ok (_, os) => os.all fun o => decide (o.snowfall = 0 ∧ o.rain = 0 ∧ o.melt = 0 ∧ o.sublimation = 0 ∧
      o.deposition = 0 ∧ o.evaporation = 0 ∧ o.condensation = 0 ∧ o.ts = 270)
  | .error _ => false

set_option maxRecDepth 100000 in
private theorem qRun_ok : qOk qRun = true := by decide +kernel

private theorem qFixed : FixedLayers qc qGrid.nodes where
  remesh := rfl
  density := rfl
  stretch := by decide +kernel
  first := by decide +kernel
  top := by
    intro n rest h
    cases h
    decide +kernel

example : ∃ s' os, qRun = .ok (s', os) ∧ s'.grid.nodes = qGrid.nodes ∧ s'.mbCum = 0 := by
  have h0 := qRun_ok
  rcases h : qRun with e | ⟨s', os⟩
  · rw [h] at h0; cases h0
  · rw [h] at h0
    have h0 : ∀ o ∈ os, o.snowfall = 0 ∧ o.rain = 0 ∧ o.melt = 0 ∧ o.sublimation = 0 ∧
      o.deposition = 0 ∧ o.evaporation = 0 ∧ o.condensation = 0 ∧ o.ts = 270 := by simpa [qOk] using h0
    have hq : ∀ o ∈ os, QuietOut o ∧ o.ts = 270 := fun o ho => by
      obtain ⟨a, b, c, d, e, f, g, i⟩ := h0 o ho
      exact ⟨⟨a, b, c, d, e, f, g⟩, i⟩
    have hd : DryColumn qGrid.nodes := by unfold DryColumn; decide +kernel
    have hf : ∀ f ∈ [qNight, qNight], f.g ≤ 0 := by decide +kernel
    refine ⟨s', os, rfl, ?_, ?_⟩
    · exact C100_run_rest (s := initState qc false qGrid) _ qFixed rfl hd (by decide +kernel) hq hf h
    · exact (C100_run (s := initState qc false qGrid) _ qFixed rfl hd (fun o ho => (hq o ho).1) hf h).2.1

end
end Cosipy
