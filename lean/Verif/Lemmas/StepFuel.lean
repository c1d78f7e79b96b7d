import Verif.Lemmas.GridFuel
import Verif.Lemmas.StepInv
import Verif.Props.C37
import Verif.Model.Core

/-! Which stages of a time step can fail to end, in any arithmetic. -/

set_option autoImplicit false
set_option linter.unusedSectionVars false

namespace Cosipy
section
variable {β γ : Type}

theorem pure_nd (b : β) : (pure b : M β) ≠ .error .diverge := fun h => by cases h

theorem ok_nd (b : β) : (.ok b : M β) ≠ .error .diverge := fun h => by cases h

theorem mapM_nd {f : β → M γ} (hf : ∀ b, f b ≠ .error .diverge) : ∀ xs : List β, xs.mapM f ≠ .error .diverge
  | [] => by rw [List.mapM_nil]; exact pure_nd _
  | x :: xs => by
    rw [List.mapM_cons]
    exact bind_nd (hf x) fun _ _ => bind_nd (mapM_nd hf xs) fun _ _ => pure_nd _

theorem foldlM_nd {f : β → γ → M β} (hf : ∀ b c, f b c ≠ .error .diverge) : ∀ (xs : List γ) (b : β),
    xs.foldlM f b ≠ .error .diverge
  | [], b => by rw [List.foldlM_nil]; exact pure_nd _
  | x :: xs, b => by
    rw [List.foldlM_cons]
    exact bind_nd (hf b x) fun b' _ => foldlM_nd hf xs b'

end

section
variable {α : Type} [Add α] [Sub α] [Mul α] [Div α] [Neg α] [LT α] [LE α]
  [DecidableLT α] [DecidableLE α] [BEq α] [Zero α] [One α] [NatCast α] [OfScientific α]

theorem node_nd (g : Grid α) (i : Int) : g.node i ≠ .error .diverge := pyGet_nd _ _

theorem modifyNode_nd (g : Grid α) (i : Int) (f : Node α → Node α) : g.modifyNode i f ≠ .error .diverge :=
  fun h => by cases Grid.modifyNode_error h

theorem mapNodes_nd {β : Type} (g : Grid α) {f : Node α → M β} (hf : ∀ n, f n ≠ .error .diverge) :
    g.mapNodes f ≠ .error .diverge := by
  unfold Grid.mapNodes
  exact mapM_nd (fun i => bind_nd (node_nd _ _) fun n _ => hf n) _

theorem setAll_nd (g : Grid α) (f : α → Node α → Node α) (xs : List α) : g.setAll f xs ≠ .error .diverge := by
  unfold Grid.setAll
  exact foldlM_nd (fun g i => bind_nd (pyGet_nd _ _) fun x _ => modifyNode_nd _ _ _) _ _

theorem roughness_nd (c : Consts α) (g : Grid α) : updateRoughness c g ≠ .error .diverge := by
  unfold updateRoughness methodMoelg
  split
  · exact bind_nd (node_nd _ _) fun _ _ => pure_nd _
  · intro h; cases h

theorem percolateFrom_nd : ∀ (ns : List (Node α)) (a : Node α), percolateFrom a ns ≠ .error .diverge
  | [], a => ok_nd _
  | b :: rest, a => by
    rw [percolateFrom]
    refine bind_nd (irr_nd _) fun _ _ => ?_
    dsimp only
    split_ifs
    · exact bind_nd (fdiv_ne_diverge _ _) fun _ _ => bind_nd (percolateFrom_nd rest _) fun _ _ => pure_nd _
    · exact bind_nd (percolateFrom_nd rest _) fun _ _ => pure_nd _

theorem percolation_nd (g : Grid α) (w : α) : percolation g w ≠ .error .diverge := by
  unfold percolation getRunoff
  refine bind_nd (node_nd _ _) fun _ _ => bind_nd (fdiv_ne_diverge _ _) fun _ _ => bind_nd (modifyNode_nd _ _ _) fun g1 _ =>
    bind_nd ?_ fun _ _ => bind_nd (node_nd _ _) fun _ _ => bind_nd (modifyNode_nd _ _ _) fun _ _ => pure_nd _
  unfold percolateLayers
  split
  · exact ok_nd _
  · exact percolateFrom_nd _ _

theorem refreezeLayer_nd (c : Consts α) (n : Node α) : refreezeLayer c n ≠ .error .diverge := by
  unfold refreezeLayer
  split_ifs
  · refine bind_nd ?_ fun _ _ => bind_nd ?_ fun _ _ => bind_nd (fdiv_ne_diverge _ _) fun _ _ => ?_
    · unfold refreezeAmount
      exact bind_nd (fdiv_ne_diverge _ _) fun _ _ => pure_nd _
    · unfold checkOob
      split_ifs <;> intro h <;> cases h
    · dsimp only
      split_ifs
      · intro h; cases h
      · exact pure_nd _
  · exact pure_nd _

theorem refreezeLayers_nd (c : Consts α) : ∀ (ns : List (Node α)) (acc : α), refreezeLayers c acc ns ≠ .error .diverge
  | [], acc => ok_nd _
  | n :: ns, acc => by
    rw [refreezeLayers]
    exact bind_nd (refreezeLayer_nd c n) fun _ _ => bind_nd (refreezeLayers_nd c ns _) fun _ _ => pure_nd _

theorem refreezing_nd (c : Consts α) (g : Grid α) : refreezing c g ≠ .error .diverge := by
  unfold refreezing
  exact bind_nd (refreezeLayers_nd c _ _) fun _ _ => pure_nd _

theorem snowLayers_nd (c : Consts α) (g : Grid α) : g.getNumberSnowLayers c ≠ .error .diverge := by
  unfold Grid.getNumberSnowLayers
  exact bind_nd (mapNodes_nd _ fun _ => ok_nd _) fun _ _ => pure_nd _

theorem subsurface_nd (g : Grid α) (cum : List α) (z : α) : getSubsurfaceTemperature g cum z ≠ .error .diverge := by
  unfold getSubsurfaceTemperature
  refine bind_nd ?_ fun i1 _ => bind_nd (pyGet_nd _ _) fun d1 _ => bind_nd (pyGet_nd _ _) fun n1 _ =>
    bind_nd (pyGet_nd _ _) fun n2 _ => bind_nd (pyGet_nd _ _) fun d2 _ => bind_nd (fdiv_ne_diverge _ _) fun s _ => pure_nd _
  unfold argmin; split <;> simp

theorem interp_nd (c : Consts α) (g : Grid α) : interpSubT c g ≠ .error .diverge := by
  unfold interpSubT
  exact bind_nd (mapNodes_nd _ fun _ => ok_nd _) fun _ _ => bind_nd (subsurface_nd _ _ _) fun _ _ =>
    bind_nd (subsurface_nd _ _ _) fun _ _ => pure_nd _

theorem secantLoop_nd {f : α → M α} (hf : ∀ t, f t ≠ .error .diverge) (tol rtol : α) : ∀ (n : Nat) (p0 p1 q0 q1 : α) (k : Nat),
    secantLoop f tol rtol n p0 p1 q0 q1 k ≠ .error .diverge
  | 0, _, _, _, _, _ => ok_nd _
  | n + 1, p0, p1, q0, q1, k => by
    rw [secantLoop]
    dsimp only
    split_ifs
    · exact ok_nd _
    · intro h; cases h
    · exact ok_nd _
    · exact bind_nd (hf _) fun _ _ => secantLoop_nd hf tol rtol n _ _ _ _ _

theorem secant_nd {f : α → M α} (hf : ∀ t, f t ≠ .error .diverge) (x tol rtol : α) (n : Nat) :
    secant f x tol n none rtol ≠ .error .diverge := by
  unfold secant
  by_cases h1 : n = 0
  · rw [if_pos h1]; intro h; cases h
  rw [if_neg h1]
  by_cases h2 : ¬ 0 < tol
  · rw [if_pos h2]; intro h; cases h
  rw [if_neg h2]
  refine bind_nd (ok_nd _) fun _ _ => bind_nd (hf _) fun q0 _ => bind_nd (hf _) fun q1 _ => ?_
  by_cases h3 : pyAbs q1 < pyAbs q0
  · rw [if_pos h3]; exact secantLoop_nd hf _ _ _ _ _ _ _ _
  · rw [if_neg h3]; exact secantLoop_nd hf _ _ _ _ _ _ _ _

/-- External solvers that end on every objective that ends. -/
structure Solvers.Halt (sv : Solvers α) : Prop where
  newton : ∀ (f : α → M α) (x : α), (∀ t, f t ≠ .error .diverge) → sv.newton f x ≠ .error .diverge
  minimize : ∀ (m : SfcMethod) (f : α → M α) (x lo hi : α), (∀ t, f t ≠ .error .diverge) →
    sv.minimize m f x lo hi ≠ .error .diverge

theorem tryExcept_nd {β : Type} {a b : M β} (ha : a ≠ .error .diverge) (hb : b ≠ .error .diverge) :
    tryExcept a b ≠ .error .diverge := by
  unfold tryExcept
  split
  · exact hb
  · exact hb
  · exact ha

theorem clip_nd (x y : α) : checkResidualClip x y ≠ .error .diverge := by
  unfold checkResidualClip
  split_ifs <;> intro h <;> cases h

theorem solveSurface_nd {sv : Solvers α} (hs : sv.Halt) (c : Consts α) {f : α → M α} (hf : ∀ t, f t ≠ .error .diverge) (x : α) :
    solveSurfaceTemperature sv c f x ≠ .error .diverge := by
  unfold solveSurfaceTemperature
  split
  · exact hs.minimize _ _ _ _ _ hf
  · exact hs.minimize _ _ _ _ _ hf
  · exact tryExcept_nd (bind_nd (hs.newton _ _ hf) fun _ _ => bind_nd (clip_nd _ _) fun _ _ => pure_nd _)
      (hs.minimize _ _ _ _ _ hf)
  · refine tryExcept_nd (bind_nd (secant_nd hf _ _ _ _) fun r _ => ?_) (hs.minimize _ _ _ _ _ hf)
    dsimp only
    split_ifs
    · intro h; cases h
    · exact bind_nd (clip_nd _ _) fun _ _ => pure_nd _
  · intro h; cases h

/-- Melt removal ends, if zero is not positive and any two numbers compare. -/
theorem meltRemoval_terminates (hz : ¬ (0 : α) < 0) (hcmp : ∀ a b : α, a < b ∨ b ≤ a) (c : Consts α) (g : Grid α) (m : α) :
    Terminates fun n => g.removeMeltWeq n c m := by
  unfold Grid.removeMeltWeq
  refine Terminates.bind (Terminates.while (body := fun _ => Grid.removeMeltPass c 0) (fun _ => .const _) (fun _ => True)
    (fun s => 2 * s.g.nodes.length + if 0 < s.melt then 1 else 0) (fun s _ => .const ?_) ?_ _ trivial)
    fun b _ _ => .const (pure_nd _)
  · unfold Grid.removeMeltPass
    split_ifs
    · refine bind_nd (node_nd _ _) fun a _ => ?_
      dsimp only
      split_ifs
      · exact bind_nd (fdiv_ne_diverge _ _) fun _ _ => bind_nd (modifyNode_nd _ _ _) fun _ _ => pure_nd _
      · exact bind_nd (removeNode_nd _ _) fun _ _ => pure_nd _
      · exact pure_nd _
    · exact pure_nd _
  · intro _ s s' _ hb
    refine ⟨trivial, ?_⟩
    unfold Grid.removeMeltPass at hb
    split_ifs at hb with h1
    · rw [bind_eq_ok] at hb; obtain ⟨a, ha, hb⟩ := hb
      dsimp only at hb
      split_ifs at hb with h2 h3
      · simp only [bind_eq_ok] at hb
        obtain ⟨x, _, g1, hg1, hb⟩ := hb
        rw [pure_eq_ok] at hb; cases hb
        unfold Grid.setNodeHeight at hg1
        obtain ⟨k, _, rfl⟩ := Grid.modifyNode_eq_ok.1 hg1
        simp only [List.length_modify, if_neg hz, if_pos h1.1]
        omega
      · rw [bind_eq_ok] at hb; obtain ⟨g1, hg1, hb⟩ := hb
        rw [pure_eq_ok] at hb; cases hb
        have hne : s.g.nodes ≠ [] := by
          intro h0; unfold Grid.node at ha; rw [h0] at ha; cases ha
        have := removeNode_length hne hg1
        simp only [if_pos h1.1]
        split_ifs <;> omega
      · exact absurd (hcmp _ _) (by rintro (h | h); exacts [h2 h, h3 h])
    · cases hb

variable [Transc α]

theorem precipitation_nd (c : Consts α) (f : Forcing α) (rho : α) : precipitation c f rho ≠ .error .diverge := by
  unfold precipitation
  split <;> intro h <;> cases h

theorem snowheight_nd (c : Consts α) (g : Grid α) : g.getTotalSnowheight c ≠ .error .diverge := by
  unfold Grid.getTotalSnowheight Grid.getSnowHeights
  exact bind_nd (bind_nd (snowLayers_nd _ _) fun _ _ => mapM_nd (fun _ => bind_nd (node_nd _ _) fun _ _ => pure_nd _) _)
    fun _ _ => pure_nd _

theorem depth_nd (g : Grid α) : g.getDepth ≠ .error .diverge := by
  unfold Grid.getDepth
  refine bind_nd (mapNodes_nd _ fun _ => ok_nd _) fun _ _ => ?_
  split
  · intro h; cases h
  · exact pure_nd _

theorem albedo_nd (c : Consts α) (g : Grid α) (t a : α) : updateAlbedo c g t a ≠ .error .diverge := by
  unfold updateAlbedo
  split
  · refine bind_nd ?_ fun _ _ => pure_nd _
    unfold methodOerlemans
    generalize getSurfaceProperties c g = x
    refine bind_nd (node_nd _ _) fun top _ => ?_
    by_cases h : top.density c ≤ c.snowIceThreshold
    · rw [if_pos h]; exact bind_nd (snowheight_nd _ _) fun _ _ => pure_nd _
    · rw [if_neg h]; exact pure_nd _
  · unfold methodBougamont
    generalize getSurfaceProperties c g = x
    refine bind_nd (node_nd _ _) fun top _ => ?_
    by_cases h : top.density c ≤ c.snowIceThreshold
    · rw [if_pos h]; exact bind_nd (snowheight_nd _ _) fun _ _ => pure_nd _
    · rw [if_neg h]; exact pure_nd _
  · intro h; cases h

theorem penLayer_nd (c : Consts α) (dt e : α) (n : Node α) : penLayer c dt e n ≠ .error .diverge := by
  unfold penLayer
  refine bind_nd (fdiv_ne_diverge _ _) fun _ _ => bind_nd (fdiv_ne_diverge _ _) fun _ _ => ?_
  dsimp only
  split_ifs
  · refine bind_nd (fdiv_ne_diverge _ _) fun _ _ => ?_
    split_ifs
    · exact pure_nd _
    · exact bind_nd (fdiv_ne_diverge _ _) fun _ _ => pure_nd _
  · exact pure_nd _

theorem penLayers_nd (c : Consts α) (dt : α) : ∀ (ns : List (Node α)) (i : Int) (es : List α) (rm : List Int) (m : α),
    penLayers c dt i ns es rm m ≠ .error .diverge
  | [], _, _, _, _ => by rw [penLayers]; exact ok_nd _
  | [_], _, _, _, _ => by rw [penLayers]; exact ok_nd _
  | _ :: _ :: _, _, [], _, _ => by rw [penLayers]; intro h; cases h
  | a :: b :: rest, i, e :: es, rm, m => by
    rw [penLayers]
    exact bind_nd (penLayer_nd _ _ _ _) fun _ _ => bind_nd (penLayers_nd c dt (b :: rest) _ _ _ _) fun _ _ => pure_nd _

theorem radiation_nd (c : Consts α) (g : Grid α) (sw dt : α) : radiationStep c g sw dt ≠ .error .diverge := by
  unfold radiationStep penetratingRadiation
  split_ifs
  · split
    · unfold methodBintanja
      refine bind_nd ?_ fun _ _ => bind_nd (node_nd _ _) fun _ _ => bind_nd (penLayers_nd _ _ _ _ _ _ _) fun _ _ => ?_
      · exact depth_nd _
      · dsimp only
        split_ifs
        · exact pure_nd _
        · exact bind_nd (removeNode_nd _ _) fun _ _ => pure_nd _
    · intro h; cases h
  · exact ok_nd _

theorem fluxes_nd (c : Consts α) (wrf : Bool) (g : Grid α) (i : EbInput α) (t : α) : ebFluxes c wrf g i t ≠ .error .diverge := by
  intro h
  have := C37_fluxes c wrf g i t
  rw [h] at this
  exact this rfl

theorem surfaceTemperature_nd {sv : Solvers α} (hs : sv.Halt) (c : Consts α) (wrf : Bool) (g : Grid α) (mk : α → α → EbInput α) (sw : α) :
    updateSurfaceTemperature sv c wrf g mk sw ≠ .error .diverge := by
  unfold updateSurfaceTemperature
  refine bind_nd (interp_nd _ _) fun _ _ => bind_nd (node_nd _ _) fun _ _ => bind_nd (solveSurface_nd hs c (fun t => ?_) _)
    fun _ _ => bind_nd (modifyNode_nd _ _ _) fun _ _ => bind_nd (fluxes_nd _ _ _ _ _) fun _ _ => pure_nd _
  unfold ebOptim
  refine bind_nd (fluxes_nd _ _ _ _ _) fun _ _ => ?_
  dsimp only
  split <;> exact pure_nd _

theorem booneLayers_nd (c : Consts α) (dt : α) : ∀ (k : Nat) (ms : α) (p : Option (Node α)) (ns : List (Node α)),
    booneLayers c dt k ms p ns ≠ .error .diverge
  | 0, _, _, _ => by rw [booneLayers]; exact ok_nd _
  | _ + 1, _, _, [] => by rw [booneLayers]; intro h; cases h
  | k + 1, ms, p, n :: ns => by
    rw [booneLayers]
    split_ifs
    · refine bind_nd ?_ fun _ _ => bind_nd (booneLayers_nd c dt k _ _ ns) fun _ _ => pure_nd _
      unfold booneRate
      exact bind_nd (fdiv_ne_diverge _ _) fun _ _ => pure_nd _
    · exact bind_nd (booneLayers_nd c dt k _ _ ns) fun _ _ => pure_nd _

theorem vionnetLayers_nd (c : Consts α) (sl dt : α) : ∀ (k : Nat) (ms : α) (p : Option (Node α)) (ns : List (Node α)),
    vionnetLayers c sl dt k ms p ns ≠ .error .diverge
  | 0, _, _, _ => by rw [vionnetLayers]; exact ok_nd _
  | _ + 1, _, _, [] => by rw [vionnetLayers]; intro h; cases h
  | k + 1, ms, p, n :: ns => by
    rw [vionnetLayers]
    split_ifs
    · exact bind_nd (vionnetLayers_nd c sl dt k _ _ ns) fun _ _ => pure_nd _
    · exact bind_nd (vionnetLayers_nd c sl dt k _ _ ns) fun _ _ => pure_nd _

theorem empiricalLayers_nd (c : Consts α) (dt : α) : ∀ (k : Nat) (ns : List (Node α)),
    empiricalLayers c dt k ns ≠ .error .diverge
  | 0, _ => by rw [empiricalLayers]; exact ok_nd _
  | _ + 1, [] => by rw [empiricalLayers]; intro h; cases h
  | k + 1, n :: ns => by
    rw [empiricalLayers]
    refine bind_nd ?_ fun _ _ => bind_nd (empiricalLayers_nd c dt k ns) fun _ _ => pure_nd _
    unfold empiricalLayer
    refine bind_nd (fdiv_ne_diverge _ _) fun _ _ => ?_
    dsimp only
    split_ifs
    · exact bind_nd (fdiv_ne_diverge _ _) fun _ _ => pure_nd _
    · exact pure_nd _

theorem densification_nd (c : Consts α) (g : Grid α) (sl dt : α) : densification c g sl dt ≠ .error .diverge := by
  unfold densification
  split
  · exact bind_nd (snowLayers_nd _ _) fun _ _ => bind_nd (booneLayers_nd _ _ _ _ _ _) fun _ _ => pure_nd _
  · exact bind_nd (snowLayers_nd _ _) fun _ _ => bind_nd (vionnetLayers_nd _ _ _ _ _ _ _) fun _ _ => pure_nd _
  · exact bind_nd (snowLayers_nd _ _) fun _ _ => bind_nd (empiricalLayers_nd _ _ _ _) fun _ _ => pure_nd _
  · exact ok_nd _
  · intro h; cases h

/-! ## More fuel never changes an outcome -/

theorem logProfile_mono (c : Consts α) (g : Grid α) : FuelMono fun n => g.logProfile n c := by
  unfold Grid.logProfile
  refine FuelMono.bind (.const _) fun _ => FuelMono.bind (FuelMono.while (fun s => logSnowPass_mono c s) _) fun s => ?_
  refine FuelMono.bind (.const _) fun _ => FuelMono.bind (.const _) fun _ => FuelMono.bind (.const _) fun _ => ?_
  exact FuelMono.bind (FuelMono.while (fun s => logIcePass_mono c s) _) fun s => .const _

theorem adaptiveProfile_mono (c : Consts α) (g : Grid α) : FuelMono fun n => g.adaptiveProfile n c := by
  unfold Grid.adaptiveProfile
  refine FuelMono.bind (FuelMono.while (body := fun _ => Grid.adaptSnowPass c) (fun _ => .const _) _) fun s => ?_
  refine FuelMono.bind (.const _) fun k => FuelMono.bind ?_ fun x => ?_
  · refine .ite (FuelMono.bind (.const _) fun a => .ite ?_ (.const _)) (.const _)
    exact FuelMono.bind (correctLayer_mono c _ _ _) fun _ => .const _
  · refine FuelMono.bind (FuelMono.while (body := fun _ => Grid.adaptIcePass c) (fun _ => .const _) _) fun y => ?_
    exact correctLayer_mono c _ _ _

theorem updateGrid_mono (c : Consts α) (g : Grid α) : FuelMono fun n => g.updateGrid n c := by
  unfold Grid.updateGrid Grid.remesh
  refine FuelMono.bind ?_ fun _ => .const _
  cases c.remeshMethod
  · exact logProfile_mono c g
  · exact adaptiveProfile_mono c g
  · exact .const _

theorem meltRemoval_mono (c : Consts α) (g : Grid α) (m : α) : FuelMono fun n => g.removeMeltWeq n c m := by
  unfold Grid.removeMeltWeq
  exact FuelMono.bind (FuelMono.while (body := fun _ => Grid.removeMeltPass c 0) (fun s => FuelMono.const _) _)
    fun _ => FuelMono.const _

theorem conduction_mono (c : Consts α) (g : Grid α) (dt : α) : FuelMono fun n => solveHeatEquation n c g dt := by
  unfold solveHeatEquation
  refine FuelMono.bind (FuelMono.const _) fun _ => FuelMono.bind (FuelMono.const _) fun st => ?_
  exact FuelMono.bind (FuelMono.while (body := fun _ => heatLoopPass dt st) (fun s => FuelMono.const _) _)
    fun _ => FuelMono.const _

theorem step_mono (sv : Solvers α) (c : Consts α) (r : RunCfg α) (s : SimState α) (f : Forcing α) :
    FuelMono fun n => step sv n c r s f := by
  unfold step
  refine FuelMono.bind (.const _) fun _ => FuelMono.bind (updateGrid_mono c _) fun _ => ?_
  refine FuelMono.bind (.const _) fun _ => FuelMono.bind (.const _) fun _ => FuelMono.bind (.const _) fun _ => ?_
  refine FuelMono.bind (.const _) fun _ => FuelMono.bind (meltRemoval_mono c _ _) fun _ => ?_
  refine FuelMono.bind (.const _) fun _ => FuelMono.bind (.const _) fun _ => ?_
  exact FuelMono.bind (conduction_mono c _ _) fun _ => .const _

theorem run_mono (sv : Solvers α) (c : Consts α) (r : RunCfg α) : ∀ (fs : List (Forcing α)) (s : SimState α),
    FuelMono fun n => run sv n c r s fs
  | [], _ => .const _
  | f :: fs, s => by
    simp only [run]
    exact FuelMono.bind (step_mono sv c r s f) fun x => FuelMono.bind (run_mono sv c r fs x.1) fun _ => .const _

end
end Cosipy
