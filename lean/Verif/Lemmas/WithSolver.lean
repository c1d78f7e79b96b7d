import Verif.Lemmas.Frame

/-! The physics modules do not look at the choice of the surface temperature solver. -/

set_option autoImplicit false
set_option linter.unusedSectionVars false

namespace Cosipy
section
variable {α : Type} [Add α] [Sub α] [Mul α] [Div α] [Neg α] [LT α] [LE α]
  [DecidableLT α] [DecidableLE α] [BEq α] [Zero α] [One α] [NatCast α] [OfScientific α] [Transc α]

/-- The same constants with another surface temperature solver. -/
abbrev Consts.withSolver (c : Consts α) (m : SfcMethod) : Consts α := { c with sfcTemperatureMethod := m }

variable (c : Consts α) (m : SfcMethod) (fuel : Nat) (g : Grid α)

theorem refreezeLayers_withSolver : ∀ (ns : List (Node α)) (a : α),
    refreezeLayers (c.withSolver m) a ns = refreezeLayers c a ns := by
  intro ns
  induction ns with
  | nil => intro a; rfl
  | cons n ns ih =>
    intro a
    have e : refreezeLayer (c.withSolver m) n = refreezeLayer c n := rfl
    simp only [refreezeLayers, e, ih]

theorem refreezing_withSolver : refreezing (c.withSolver m) g = refreezing c g := by
  unfold refreezing; rw [refreezeLayers_withSolver]

theorem penLayers_withSolver (dt : α) : ∀ (ns : List (Node α)) (i : Int) (es : List α) (rm : List Int) (x : α),
    penLayers (c.withSolver m) dt i ns es rm x = penLayers c dt i ns es rm x := by
  intro ns
  induction ns with
  | nil => intros; rfl
  | cons n ns ih =>
    intro i es rm x
    cases ns with
    | nil => rfl
    | cons b rest =>
      cases es with
      | nil => rfl
      | cons e es =>
        have h : penLayer (c.withSolver m) dt e n = penLayer c dt e n := rfl
        simp only [penLayers, h, ih]

theorem radiationStep_withSolver (a b : α) : radiationStep (c.withSolver m) g a b = radiationStep c g a b := by
  have e : methodBintanja (c.withSolver m) g a b = methodBintanja c g a b := by
    unfold methodBintanja
    simp only [penLayers_withSolver]
    rfl
  unfold radiationStep penetratingRadiation
  rw [e]

theorem booneLayers_withSolver (dt : α) : ∀ (ns : List (Node α)) (k : Nat) (a : α) (p : Option (Node α)),
    booneLayers (c.withSolver m) dt k a p ns = booneLayers c dt k a p ns := by
  intro ns
  induction ns with
  | nil => intro k a p; cases k <;> rfl
  | cons n ns ih =>
    intro k a p
    cases k with
    | zero => rfl
    | succ k =>
      have e1 : ∀ a b d, booneRate (c.withSolver m) dt a b d = booneRate c dt a b d := fun _ _ _ => rfl
      have e2 : booneLoad (c.withSolver m) p n = booneLoad c p n := rfl
      have e3 : n.density (c.withSolver m) = n.density c := rfl
      simp only [booneLayers, e1, e2, e3, ih]

theorem vionnetLayers_withSolver (sl dt : α) : ∀ (ns : List (Node α)) (k : Nat) (a : α) (p : Option (Node α)),
    vionnetLayers (c.withSolver m) sl dt k a p ns = vionnetLayers c sl dt k a p ns := by
  intro ns
  induction ns with
  | nil => intro k a p; cases k <;> rfl
  | cons n ns ih =>
    intro k a p
    cases k with
    | zero => rfl
    | succ k =>
      have e1 : ∀ a, vionnetRate dt a (c.withSolver m) n = vionnetRate dt a c n := fun _ => rfl
      have e2 : vionnetLoad (c.withSolver m) sl p n = vionnetLoad c sl p n := rfl
      have e3 : n.density (c.withSolver m) = n.density c := rfl
      simp only [vionnetLayers, e1, e2, e3, ih]

theorem empiricalLayers_withSolver (dt : α) : ∀ (ns : List (Node α)) (k : Nat),
    empiricalLayers (c.withSolver m) dt k ns = empiricalLayers c dt k ns := by
  intro ns
  induction ns with
  | nil => intro k; cases k <;> rfl
  | cons n ns ih =>
    intro k
    cases k with
    | zero => rfl
    | succ k =>
      have e1 : empiricalLayer (c.withSolver m) dt n = empiricalLayer c dt n := rfl
      simp only [empiricalLayers, e1, ih]

theorem densification_withSolver (a b : α) : densification (c.withSolver m) g a b = densification c g a b := by
  have e : g.getNumberSnowLayers (c.withSolver m) = g.getNumberSnowLayers c := rfl
  unfold densification methodBoone methodVionnet methodEmpirical
  simp only [booneLayers_withSolver, vionnetLayers_withSolver, empiricalLayers_withSolver, e]

/-- A step with the given stages returns. -/
theorem StepStages.step {c : Consts α} {fuel : Nat} {sv : Solvers α} {r : RunCfg α} {s : SimState α} {f : Forcing α}
    {s' : SimState α} {o : StepOut α} (st : StepStages sv fuel c r s f s' o) : step sv fuel c r s f = .ok (s', o) := by
  unfold Cosipy.step
  rw [← st.rho]
  simp only [st.precip, ok_bind, ← st.snowfall, ← st.rain, st.remesh, st.albedo, st.roughness, st.radiation, ← st.swnet,
    st.surface, st.vapour, ← st.meltEnergy, ← st.melt, st.removal, st.perc, st.refr, st.heat, st.dens, ← st.surfMB,
    ← st.intMB, ← st.mb, ← st.mbCum]
  rw [if_neg]
  · have e : (⟨s'.grid, o.ts, s'.albedoSnow, s'.mbCum⟩ : SimState α) = s' := by rw [← st.ts]
    show Except.ok ((⟨s'.grid, o.ts, s'.albedoSnow, s'.mbCum⟩ : SimState α), o) = _
    rw [e]
  · intro h
    rw [Bool.and_eq_true, decide_eq_true_eq] at h
    exact st.layers h.1 h.2

end
end Cosipy
