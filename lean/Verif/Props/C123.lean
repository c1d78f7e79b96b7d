import Verif.Props.C122
import Verif.Lemmas.StepInv
import Verif.Lemmas.Example

/-!
# C123 Every process changes only what it is about

For every arithmetic: conduction changes temperatures only, percolation liquid water only, the surface energy balance the temperature of the
first layer only, albedo and roughness no layer at all; refreezing leaves the thickness of the layers, densification their temperature and
the record of refrozen water, and the layers below the counted snow layers completely. Hence the record of refrozen water at the end of a
step is that of its refreezing, and it adds up to the reported amount exactly, without a rounding of difference (`C123_step`).
-/

set_option autoImplicit false
set_option linter.unusedSectionVars false

namespace Cosipy
section
variable {α : Type} [Add α] [Sub α] [Mul α] [Div α] [Neg α] [LT α] [LE α]
  [DecidableLT α] [DecidableLE α] [BEq α] [Zero α] [One α] [NatCast α] [OfScientific α]

/-- All stored quantities but some are the same in two columns, layer by layer. -/
def SameBut (qs : List Stored) (g g' : Grid α) : Prop :=
  g'.numberNodes = g.numberNodes ∧ g'.nodes.length = g.nodes.length ∧ ∀ p : Stored, p ∉ qs → p.profile g' = p.profile g

private theorem sameBut_of {qs : List Stored} {g g' : Grid α} (hw : g.WF) (hw' : g'.WF)
    (h : ∀ p : Stored, p ∉ qs → g'.nodes.map p.of = g.nodes.map p.of) (hl : g'.nodes.length = g.nodes.length) : SameBut qs g g' := by
  refine ⟨?_, hl, fun p hp => ?_⟩
  · unfold Grid.WF at *; rw [hw, hw', hl]
  · rw [C122_profile hw', C122_profile hw, h p hp]

/-- **C123, conduction** changes temperatures only. -/
theorem C123_conduction {fuel : Nat} {c : Consts α} {g g' : Grid α} {dt : α} (hw : g.WF) (h : solveHeatEquation fuel c g dt = .ok g') :
    SameBut [.temperature] g g' := by
  have hw' := hw.solveHeatEquation h
  unfold solveHeatEquation at h
  simp only [bind_eq_ok] at h
  obtain ⟨_, _, _, _, ⟨_, cs⟩, _, h⟩ := h
  revert h
  generalize cs.map HeatCell.t = xs
  intro h
  unfold Grid.setAll at h
  have key : ∀ (is : List Nat) (a b : Grid α), is.foldlM (fun (g : Grid α) (i : Nat) => do
        let x ← pyGet xs (i : Int)
        g.modifyNode (i : Int) (Node.setTemperature x)) a = (.ok b : M (Grid α)) →
      (∀ p : Stored, p ∉ [Stored.temperature] → b.nodes.map p.of = a.nodes.map p.of) ∧ b.nodes.length = a.nodes.length := by
    intro is
    induction is with
    | nil => intro a b e; rw [List.foldlM_nil, pure_eq_ok] at e; subst e; exact ⟨fun _ _ => rfl, rfl⟩
    | cons i is ih =>
      intro a b e
      rw [List.foldlM_cons, bind_eq_ok] at e
      obtain ⟨a', e1, e2⟩ := e
      rw [bind_eq_ok] at e1
      obtain ⟨x, _, e1⟩ := e1
      obtain ⟨k, hk, rfl⟩ := Grid.modifyNode_eq_ok.1 e1
      obtain ⟨i1, i2⟩ := ih _ _ e2
      refine ⟨fun p hp => (i1 p hp).trans ?_, i2.trans (by simp)⟩
      apply List.ext_getElem?
      intro j
      simp only [List.getElem?_map, List.getElem?_modify]
      by_cases hj : k = j
      · subst hj
        cases hn : a.nodes[k]? with
        | none => rfl
        | some n => cases p <;> first | exact absurd (List.mem_singleton.2 rfl) hp | simp [Stored.of, Node.setTemperature]
      · simp [hj]
  exact sameBut_of hw hw' (key _ _ _ h).1 (key _ _ _ h).2

private theorem percolateFrom_same : ∀ (rest : List (Node α)) {a : Node α} {ms : List (Node α)}, percolateFrom a rest = .ok ms →
    ∀ p : Stored, p ≠ .water → ms.map p.of = (a :: rest).map p.of := by
  intro rest
  induction rest with
  | nil => intro a ms h p _; rw [percolateFrom] at h; cases h; rfl
  | cons b rest ih =>
    intro a ms h p hp
    rw [percolateFrom, bind_eq_ok] at h
    obtain ⟨t, _, h⟩ := h
    have e : ∀ (x : α) (n : Node α), p.of (n.setLwc x) = p.of n := by
      intro x n; cases p <;> first | exact absurd rfl hp | rfl
    simp only at h
    split_ifs at h
    · rw [bind_eq_ok] at h; obtain ⟨q, _, h⟩ := h
      rw [bind_eq_ok] at h; obtain ⟨tl, h1, h⟩ := h
      rw [pure_eq_ok] at h; subst h
      have := ih h1 p hp
      simp only [List.map_cons, e] at this ⊢
      rw [this]
    · rw [bind_eq_ok] at h; obtain ⟨tl, h1, h⟩ := h
      rw [pure_eq_ok] at h; subst h
      have := ih h1 p hp
      simp only [List.map_cons] at this ⊢
      rw [this]

/-- **C123, percolation** changes the liquid water only. -/
theorem C123_percolation {g : Grid α} {w : α} {r : Grid α × α} (hw : g.WF) (h : percolation g w = .ok r) : SameBut [.water] g r.1 := by
  have hw' := hw.percolation h
  obtain ⟨top, ns, q, _, _, _, h1, h2⟩ := percolation_ok h
  obtain ⟨k, n, _, _, rfl⟩ := getRunoff_ok h2
  have e0 : ∀ p : Stored, p ≠ .water → ∀ (x : α) (n : Node α), p.of (n.setLwc x) = p.of n := by
    intro p hp x n; cases p <;> first | exact absurd rfl hp | rfl
  have em : ∀ p : Stored, p ≠ .water → ∀ (k : Nat) (x : α) (ns : List (Node α)),
      (ns.modify k (Node.setLwc x)).map p.of = ns.map p.of := by
    intro p hp k x ns
    apply List.ext_getElem?
    intro j
    simp only [List.getElem?_map, List.getElem?_modify]
    by_cases hj : k = j
    · subst hj
      cases hn : ns[k]? with
      | none => rfl
      | some n => simp [e0 p hp]
    · simp [hj]
  have es : ∀ p : Stored, p ≠ .water → ns.map p.of = (g.nodes.modify 0 (Node.setLwc (top.lwc + q))).map p.of := by
    intro p hp
    revert h1
    generalize g.nodes.modify 0 (Node.setLwc (top.lwc + q)) = ms
    intro h1
    cases ms with
    | nil => rw [percolateLayers] at h1; cases h1; rfl
    | cons a rest => exact percolateFrom_same rest h1 p hp
  have key : ∀ p : Stored, p ∉ [Stored.water] → (ns.modify k (Node.setLwc 0)).map p.of = g.nodes.map p.of := by
    intro p hp
    have hp' : p ≠ .water := by simpa using hp
    rw [em p hp', es p hp', em p hp']
  refine sameBut_of hw hw' key ?_
  have := congrArg List.length (key .height (by simp))
  simpa using this

/-- A layer after refreezing. -/
private theorem refreezeLayer_same {c : Consts α} {n m : Node α} {d : α} (h : refreezeLayer c n = .ok (m, d)) :
    m.height = n.height ∧ d = m.refreeze := by
  unfold refreezeLayer at h
  split_ifs at h with h0
  · simp only [bind_eq_ok] at h
    obtain ⟨x, _, _, _, dT, _, h⟩ := h
    split_ifs at h with h1
    rw [pure_eq_ok] at h
    cases h
    exact ⟨rfl, rfl⟩
  · rw [pure_eq_ok] at h
    cases h
    exact ⟨rfl, rfl⟩

private theorem refreezeLayers_same {c : Consts α} : ∀ (ns : List (Node α)) {acc : α} {r : List (Node α) × α},
    refreezeLayers c acc ns = .ok r → r.1.map Node.height = ns.map Node.height ∧ r.2 = (r.1.map Node.refreeze).foldl (· + ·) acc := by
  intro ns
  induction ns with
  | nil => intro acc r h; rw [refreezeLayers] at h; cases h; exact ⟨rfl, rfl⟩
  | cons n ns ih =>
    intro acc r h
    rw [refreezeLayers, bind_eq_ok] at h
    obtain ⟨⟨m, d⟩, h1, h⟩ := h
    simp only [bind_eq_ok] at h
    obtain ⟨⟨ms, t⟩, h2, h⟩ := h
    rw [pure_eq_ok] at h; subst h
    obtain ⟨i1, i2⟩ := ih h2
    obtain ⟨j1, j2⟩ := refreezeLayer_same h1
    refine ⟨by simp only [List.map_cons, j1, i1], ?_⟩
    simp only [List.map_cons, List.foldl_cons] at i2 ⊢
    rw [← j2]; exact i2

/-- **C123, refreezing** leaves the thickness of every layer, and records in every layer what froze in it: the records add up to the
reported amount. -/
theorem C123_refreezing {c : Consts α} {g : Grid α} {r : Grid α × α} (hw : g.WF) (h : refreezing c g = .ok r) :
    SameBut [.temperature, .water, .ice, .refrozen] g r.1 ∧
      ∃ xs, Stored.refrozen.profile r.1 = .ok xs ∧ xs.length = g.nodes.length ∧ r.2 = xs.foldl (· + ·) 0 := by
  have hw' := hw.refreezing h
  unfold refreezing at h
  rw [bind_eq_ok] at h; obtain ⟨⟨ns, t⟩, h1, h⟩ := h
  rw [pure_eq_ok] at h; subst h
  obtain ⟨i1, i2⟩ := refreezeLayers_same _ h1
  have hl : ns.length = g.nodes.length := by simpa using congrArg List.length i1
  refine ⟨sameBut_of hw hw' (fun p hp => ?_) hl, _, C122_profile hw' .refrozen, by simpa using hl, i2⟩
  cases p <;> first | exact i1 | simp at hp

variable [Transc α]

/-- Quantities compaction does not touch. -/
private def Cold (n m : Node α) : Prop := m.temperature = n.temperature ∧ m.refreeze = n.refreeze

private theorem booneLayers_same {c : Consts α} {dt : α} : ∀ (k : Nat) {ms : α} {prev : Option (Node α)} {ns rs : List (Node α)},
    booneLayers c dt k ms prev ns = .ok rs → List.Forall₂ Cold ns rs ∧ rs.drop k = ns.drop k := by
  intro k
  induction k with
  | zero => intro ms prev ns rs h; rw [booneLayers] at h; cases h; exact ⟨List.forall₂_same.2 fun _ _ => ⟨rfl, rfl⟩, rfl⟩
  | succ k ih =>
    intro ms prev ns rs h
    cases ns with
    | nil => rw [booneLayers] at h; cases h
    | cons n ns =>
      rw [booneLayers] at h
      split_ifs at h
      · simp only [bind_eq_ok] at h
        obtain ⟨d, _, tl, htl, h⟩ := h
        rw [pure_eq_ok] at h; subst h
        obtain ⟨i1, i2⟩ := ih htl
        exact ⟨.cons ⟨rfl, rfl⟩ i1, by simpa using i2⟩
      · simp only [bind_eq_ok] at h
        obtain ⟨tl, htl, h⟩ := h
        rw [pure_eq_ok] at h; subst h
        obtain ⟨i1, i2⟩ := ih htl
        exact ⟨.cons ⟨rfl, rfl⟩ i1, by simpa using i2⟩

private theorem vionnetLayers_same {c : Consts α} {sl dt : α} : ∀ (k : Nat) {ms : α} {prev : Option (Node α)} {ns rs : List (Node α)},
    vionnetLayers c sl dt k ms prev ns = .ok rs → List.Forall₂ Cold ns rs ∧ rs.drop k = ns.drop k := by
  intro k
  induction k with
  | zero => intro ms prev ns rs h; rw [vionnetLayers] at h; cases h; exact ⟨List.forall₂_same.2 fun _ _ => ⟨rfl, rfl⟩, rfl⟩
  | succ k ih =>
    intro ms prev ns rs h
    cases ns with
    | nil => rw [vionnetLayers] at h; cases h
    | cons n ns =>
      rw [vionnetLayers] at h
      split_ifs at h
      · simp only [bind_eq_ok] at h
        obtain ⟨tl, htl, h⟩ := h
        rw [pure_eq_ok] at h; subst h
        obtain ⟨i1, i2⟩ := ih htl
        exact ⟨.cons ⟨rfl, rfl⟩ i1, by simpa using i2⟩
      · simp only [bind_eq_ok] at h
        obtain ⟨tl, htl, h⟩ := h
        rw [pure_eq_ok] at h; subst h
        obtain ⟨i1, i2⟩ := ih htl
        exact ⟨.cons ⟨rfl, rfl⟩ i1, by simpa using i2⟩

private theorem empiricalLayers_same {c : Consts α} {dt : α} : ∀ (k : Nat) {ns rs : List (Node α)},
    empiricalLayers c dt k ns = .ok rs → List.Forall₂ Cold ns rs ∧ rs.drop k = ns.drop k := by
  intro k
  induction k with
  | zero => intro ns rs h; rw [empiricalLayers] at h; cases h; exact ⟨List.forall₂_same.2 fun _ _ => ⟨rfl, rfl⟩, rfl⟩
  | succ k ih =>
    intro ns rs h
    cases ns with
    | nil => rw [empiricalLayers] at h; cases h
    | cons n ns =>
      rw [empiricalLayers] at h
      simp only [bind_eq_ok] at h
      obtain ⟨n', hn, tl, htl, h⟩ := h
      rw [pure_eq_ok] at h; subst h
      obtain ⟨i1, i2⟩ := ih htl
      refine ⟨.cons ?_ i1, by simpa using i2⟩
      unfold empiricalLayer at hn
      simp only [bind_eq_ok] at hn
      obtain ⟨q, _, hn⟩ := hn
      split_ifs at hn
      · simp only [bind_eq_ok] at hn
        obtain ⟨q', _, hn⟩ := hn
        rw [pure_eq_ok] at hn; subst hn
        exact ⟨rfl, rfl⟩
      · rw [pure_eq_ok] at hn; subst hn
        exact ⟨rfl, rfl⟩

/-- **C123, densification** leaves temperatures and the record of refrozen water, and everything of the layers below the first so many as
there are snow layers. -/
theorem C123_densification {c : Consts α} {g g' : Grid α} {sl dt : α} (hw : g.WF) (h : densification c g sl dt = .ok g') :
    SameBut [.height, .water, .ice] g g' ∧ ∃ k, g.getNumberSnowLayers c = .ok k ∧ g'.nodes.drop k = g.nodes.drop k := by
  have hw' := hw.densification h
  have hl := (densification_length h).1
  have key : List.Forall₂ Cold g.nodes g'.nodes ∧ ∃ k, g.getNumberSnowLayers c = .ok k ∧ g'.nodes.drop k = g.nodes.drop k := by
    unfold densification at h
    split at h
    · unfold methodBoone at h
      simp only [bind_eq_ok] at h
      obtain ⟨k, hk, ns, h1, h⟩ := h
      rw [pure_eq_ok] at h; subst h
      exact ⟨(booneLayers_same k h1).1, k, hk, (booneLayers_same k h1).2⟩
    · unfold methodVionnet at h
      simp only [bind_eq_ok] at h
      obtain ⟨k, hk, ns, h1, h⟩ := h
      rw [pure_eq_ok] at h; subst h
      exact ⟨(vionnetLayers_same k h1).1, k, hk, (vionnetLayers_same k h1).2⟩
    · unfold methodEmpirical at h
      simp only [bind_eq_ok] at h
      obtain ⟨k, hk, ns, h1, h⟩ := h
      rw [pure_eq_ok] at h; subst h
      exact ⟨(empiricalLayers_same k h1).1, k, hk, (empiricalLayers_same k h1).2⟩
    · cases h
      exact ⟨List.forall₂_same.2 fun _ _ => ⟨rfl, rfl⟩, _, Grid.getNumberSnowLayers_eq hw c, rfl⟩
    · cases h
  refine ⟨sameBut_of hw hw' (fun p hp => ?_) hl, key.2⟩
  have hf := key.1
  have t1 : g'.nodes.map Node.temperature = g.nodes.map Node.temperature := by
    clear h hw hw' hl key
    revert hf
    generalize g.nodes = ns
    generalize g'.nodes = ms
    intro hf
    induction hf with
    | nil => rfl
    | cons h1 _ ih => simp only [List.map_cons, ih, h1.1]
  have t2 : g'.nodes.map Node.refreeze = g.nodes.map Node.refreeze := by
    clear h hw hw' hl key
    revert hf
    generalize g.nodes = ns
    generalize g'.nodes = ms
    intro hf
    induction hf with
    | nil => rfl
    | cons h1 _ ih => simp only [List.map_cons, ih, h1.2]
  cases p <;> first | exact t1 | exact t2 | simp at hp

/-- **C123, surface.** The surface energy balance sets the temperature of the first layer to the surface temperature, and nothing else. -/
theorem C123_surface {sv : Solvers α} {c : Consts α} {wrf : Bool} {g : Grid α} {mk : α → α → EbInput α} {sw : α}
    {r : Grid α × α × Fluxes α} (hw : g.WF) (h : updateSurfaceTemperature sv c wrf g mk sw = .ok r) :
    SameBut [.temperature] g r.1 ∧ ∃ ts, Stored.temperature.profile g = .ok ts ∧ Stored.temperature.profile r.1 = .ok (ts.set 0 r.2.1) := by
  have hw' := hw.updateSurfaceTemperature h
  have e := updateSurfaceTemperature_grid h
  have hne : 0 < g.nodes.length := by
    by_contra h0
    have := (C122_outside g .temperature (i := 0) (Or.inr (by omega)) r.2.1).2
    change g.setNodeTemperature 0 r.2.1 = _ at this
    rw [this] at e; cases e
  obtain ⟨g', xs, e1, e2, e3, e4, e5, -⟩ := C122_set_layer hw .temperature (i := 0) (by omega) (by omega) r.2.1
  change g.setNodeTemperature 0 r.2.1 = _ at e2
  rw [e2] at e
  obtain rfl := ok_inj.1 e
  refine ⟨⟨e5, ?_, fun p hp => e4 p (by simpa using hp)⟩, xs, e1, by simpa using e3⟩
  unfold Grid.WF at hw hw'
  omega

/-- **C123, albedo** and roughness look at the layers and change none. -/
theorem C123_albedo {c : Consts α} {g : Grid α} {ts a : α} {r : Grid α × α × α} (h : updateAlbedo c g ts a = .ok r) :
    r.1.nodes = g.nodes ∧ r.1.numberNodes = g.numberNodes := by
  rw [updateAlbedo_grid h]
  have := getSurfaceProperties_nodes c g
  exact ⟨this.1, this.2.1⟩

/-- **C123, the step.** The record of refrozen water at the end of a step has an entry for each layer and adds up to the reported
refreezing, in the arithmetic of the program. -/
theorem C123_step {sv : Solvers α} {fuel : Nat} {c : Consts α} {r : RunCfg α} {s s' : SimState α} {f : Forcing α} {o : StepOut α}
    (hw : s.grid.WF) (h : step sv fuel c r s f = .ok (s', o)) :
    ∃ xs, Stored.refrozen.profile s'.grid = .ok xs ∧ xs.length = s'.grid.nodes.length ∧ o.refreeze = xs.foldl (· + ·) 0 := by
  obtain ⟨st⟩ := step_stages h
  have ws := st.wfs hw
  obtain ⟨-, xs, e1, e2, e3⟩ := C123_refreezing ws.w6 st.refr
  have a := (C123_refreezing ws.w6 st.refr).1
  have b := C123_conduction ws.w7 st.heat
  have d := (C123_densification ws.w8 st.dens).1
  refine ⟨xs, ?_, ?_, e3⟩
  · rw [d.2.2 .refrozen (by simp), b.2.2 .refrozen (by simp)]; exact e1
  · rw [d.2.1, b.2.1, a.2.1]; exact e2

/-- And at the end of every step of a run that has at least one. -/
theorem C123_run {sv : Solvers α} {fuel : Nat} {c : Consts α} {r : RunCfg α} (fs : List (Forcing α)) {s s' : SimState α}
    {os : List (StepOut α)} {o : StepOut α} (hw : s.grid.WF) (h : run sv fuel c r s fs = .ok (s', os ++ [o])) :
    ∃ xs, Stored.refrozen.profile s'.grid = .ok xs ∧ o.refreeze = xs.foldl (· + ·) 0 := by
  induction fs generalizing s os with
  | nil => rw [run] at h; have := congrArg Prod.snd (ok_inj.1 h); simp at this
  | cons f fs ih =>
    obtain ⟨s1, o1, os1, h1, h2, h3⟩ := run_cons h
    have w1 : s1.grid.WF := by obtain ⟨st⟩ := step_stages h1; exact (st.wfs hw).w9
    cases os1 with
    | nil =>
      have e : os = [] ∧ o = o1 := by
        cases os with
        | nil => simpa using h3
        | cons a l => simp at h3
      obtain ⟨rfl, rfl⟩ := e
      have : fs = [] := by
        cases fs with
        | nil => rfl
        | cons f' fs' => obtain ⟨_, _, _, _, _, h4⟩ := run_cons h2; cases h4
      subst this
      rw [run] at h2
      obtain rfl : s1 = s' := congrArg Prod.fst (ok_inj.1 h2)
      obtain ⟨xs, a1, _, a3⟩ := C123_step hw h1
      exact ⟨xs, a1, a3⟩
    | cons a l =>
      have : ∃ os', a :: l = os' ++ [o] := by
        cases os with
        | nil => simp at h3
        | cons b os' => exact ⟨os', by simpa using (List.cons.inj h3).2.symm⟩
      obtain ⟨os', e⟩ := this
      rw [e] at h2
      exact ih w1 h2

end

attribute [local instance] exTransc

/-- Two hours of the example run return, and water refreezes in the column of the second example. -/
example : ((exRun [exSnow, exDry]).toOption.isSome) = true ∧ exGrid.WF := ⟨by decide +kernel, rfl⟩

example : (refreezing exConsts ⟨[⟨1/10, 268, 1/50, 1/4, 0⟩, ⟨1/2, 270, 1/100, 3/10, 0⟩], 2, 0, 0, 0⟩).toOption.map
    (fun r => decide (0 < r.2 ∧ r.2 = (r.1.nodes.map Node.refreeze).sum)) = some true := by decide +kernel

end Cosipy
