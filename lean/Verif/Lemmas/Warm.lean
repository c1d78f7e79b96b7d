import Verif.Lemmas.Stretch
import Verif.Model.Init
import Verif.Spec.Warm
import Mathlib.Tactic.FieldSimp

/-!
# Operations on a column whose temperatures are all raised by the same amount
-/

set_option autoImplicit false
set_option linter.unusedSectionVars false

namespace Cosipy
section
variable {K : Type} [Field K] [LinearOrder K] [IsStrictOrderedRing K]

namespace Warm
open Stretch (mapM_map)
variable {d : K}

theorem s_density (c : Consts K) (n : Node K) : (n.warm d).density (c.warm d) = n.density c := rfl
theorem s_irr (n : Node K) : (n.warm d).irreducibleWaterContent = n.irreducibleWaterContent := rfl
theorem s_height (n : Node K) : (n.warm d).height = n.height := rfl
theorem s_temperature (n : Node K) : (n.warm d).temperature = n.temperature + d := rfl
theorem s_lwc (n : Node K) : (n.warm d).lwc = n.lwc := rfl
theorem s_ice (n : Node K) : (n.warm d).iceFraction = n.iceFraction := rfl
theorem s_number (g : Grid K) : (g.warm d).numberNodes = g.numberNodes := rfl
theorem s_threshold (c : Consts K) : (c.warm d).snowIceThreshold = c.snowIceThreshold := rfl
theorem s_water (c : Consts K) : (c.warm d).waterDensity = c.waterDensity := rfl
theorem s_first (c : Consts K) : (c.warm d).firstLayerHeight = c.firstLayerHeight := rfl

theorem node (g : Grid K) (i : Int) : (g.warm d).node i = (g.node i).map (Node.warm d) :=
  pyGet_map _ g.nodes i

theorem modifyNode (g : Grid K) (i : Int) {f f' : Node K → Node K} (h : ∀ n, f' (n.warm d) = (f n).warm d) :
    (g.warm d).modifyNode i f' = (g.modifyNode i f).map (Grid.warm d) := by
  unfold Grid.modifyNode
  have : pyModify (g.warm d).nodes i f' = (pyModify g.nodes i f).map (List.map (Node.warm d)) :=
    pyModify_map' h g.nodes i
  rw [this]
  exact map_bind_comm (φ := List.map (Node.warm d)) fun _ => rfl

theorem setNodeHeight (g : Grid K) (i : Int) (x : K) :
    (g.warm d).setNodeHeight i x = (g.setNodeHeight i x).map (Grid.warm d) :=
  modifyNode g i (f := Node.setHeight x) fun _ => rfl
theorem setNodeTemperature (g : Grid K) (i : Int) (x : K) :
    (g.warm d).setNodeTemperature i (x + d) = (g.setNodeTemperature i x).map (Grid.warm d) :=
  modifyNode g i (f := Node.setTemperature x) fun _ => rfl
theorem setNodeLwc (g : Grid K) (i : Int) (x : K) :
    (g.warm d).setNodeLwc i x = (g.setNodeLwc i x).map (Grid.warm d) :=
  modifyNode g i (f := Node.setLwc x) fun _ => rfl
theorem setNodeIceFraction (g : Grid K) (i : Int) (x : K) :
    (g.warm d).setNodeIceFraction i x = (g.setNodeIceFraction i x).map (Grid.warm d) :=
  modifyNode g i (f := Node.setIceFraction x) fun _ => rfl

theorem removeNode (g : Grid K) (idx : List Int) :
    (g.warm d).removeNode idx = (g.removeNode idx).map (Grid.warm d) := by
  unfold Grid.removeNode
  have e1 : (g.warm d).nodes.isEmpty = g.nodes.isEmpty := by
    show (g.nodes.map (Node.warm d)).isEmpty = _
    cases g.nodes <;> rfl
  rw [e1]
  refine ite_comm (fun _ => rfl) fun _ => ite_comm (fun _ => ?_) fun _ => ?_
  · show Except.ok _ = Except.ok _
    congr 1
    show (⟨(g.nodes.map (Node.warm d)).tail, _, _, _, _⟩ : Grid K) = ⟨g.nodes.tail.map (Node.warm d), _, _, _, _⟩
    rw [List.map_tail]
    rfl
  · have : ∀ is : List Int, is.foldlM pyDel (g.warm d).nodes =
        (is.foldlM pyDel g.nodes).map (List.map (Node.warm d)) := fun is =>
      foldlM_comm (φ := List.map (Node.warm d)) (fun s i => pyDel_map _ s i) is g.nodes
    rw [this]
    exact map_bind_comm fun _ => rfl

theorem updateNode (g : Grid K) (idx : Int) (h t f w : K) :
    (g.warm d).updateNode idx h (t + d) f w = (g.updateNode idx h t f w).map (Grid.warm d) := by
  unfold Grid.updateNode
  rw [setNodeHeight]
  refine map_bind_comm fun g => ?_
  rw [setNodeTemperature]
  refine map_bind_comm fun g => ?_
  rw [setNodeIceFraction]
  exact map_bind_comm fun g => setNodeLwc ..

theorem mergeNodes (g : Grid K) (idx : Int) :
    (g.warm d).mergeNodes idx = (g.mergeNodes idx).map (Grid.warm d) := by
  unfold Grid.mergeNodes
  rw [node]
  refine map_bind_comm fun a => ?_
  rw [node]
  refine map_bind_comm fun b => ?_
  simp only [s_height, s_temperature, s_lwc, s_ice]
  by_cases h0 : a.height + b.height = 0
  · simp [fdiv, h0]; rfl
  · have hd : ∀ x : K, fdiv x (a.height + b.height) = .ok (x / (a.height + b.height)) := fun x => by
      simp [fdiv, h0]
    simp only [hd, ok_bind]
    have e : a.height / (a.height + b.height) * (a.temperature + d) + b.height / (a.height + b.height) * (b.temperature + d) =
        (a.height / (a.height + b.height) * a.temperature + b.height / (a.height + b.height) * b.temperature) + d := by
      field_simp; ring
    rw [e, updateNode]
    exact map_bind_comm fun g => removeNode g _

theorem correctLayerPass (c : Consts K) (idx : Int) (m : K) (g : Grid K) :
    Grid.correctLayerPass (c.warm d) idx m (g.warm d) =
      (Grid.correctLayerPass c idx m g).map (Option.map (Grid.warm d)) := by
  unfold Grid.correctLayerPass
  rw [node]
  refine map_bind_comm fun a => ?_
  simp only [s_height, s_density, s_number, s_threshold]
  refine ite_comm (fun _ => ?_) fun _ => rfl
  rw [node]
  refine map_bind_comm fun b => ?_
  simp only [s_density, mergeNodes]
  exact ite_comm (fun _ => map_bind_comm fun _ => rfl) fun _ =>
    ite_comm (fun _ => map_bind_comm fun _ => rfl) fun _ => rfl

theorem new (c c' : Consts K) (h r r' t w f : K) :
    Node.new c' h r' (t + d) w (some f) = (Node.new c h r t w (some f)).warm d := by
  simp [Node.new, Node.warm]

theorem new_none (c : Consts K) (h r t w : K) :
    Node.new (c.warm d) h r (t + d) w none = (Node.new c h r t w none).warm d := rfl

theorem insertNode (g : Grid K) (i : Int) (n : Node K) (k : Int) :
    ({ g.warm d with nodes := pyInsert (g.warm d).nodes i (n.warm d), numberNodes := k } : Grid K) =
      ({ g with nodes := pyInsert g.nodes i n, numberNodes := k } : Grid K).warm d := by
  have := pyInsert_map (Node.warm d) g.nodes i n
  show (⟨pyInsert (g.nodes.map (Node.warm d)) i (n.warm d), _, _, _, _⟩ : Grid K) =
    ⟨(pyInsert g.nodes i n).map (Node.warm d), _, _, _, _⟩
  rw [this]
  rfl

theorem correctLayerSplit (c : Consts K) (idx : Int) (m : K) (g : Grid K) :
    Grid.correctLayerSplit (c.warm d) idx m (g.warm d) =
      (Grid.correctLayerSplit c idx m g).map (Grid.warm d) := by
  unfold Grid.correctLayerSplit
  rw [node]
  refine map_bind_comm fun a => ?_
  simp only [s_height, s_irr]
  refine ite_comm (fun _ => ?_) fun _ => rfl
  refine bind_comm fun th => ?_
  simp only [s_lwc, s_temperature, s_ice]
  refine bind_comm fun l0 => bind_comm fun l1 => ?_
  rw [updateNode]
  refine map_bind_comm fun g => ?_
  rw [node]
  refine map_bind_comm fun b => ?_
  show Except.ok _ = Except.ok _
  congr 1
  rw [new c (c.warm d) (a.height - m) (b.density c)]
  exact insertNode g _ _ _

theorem correctLayer (fuel : Nat) (c : Consts K) (g : Grid K) (idx : Int) (m : K) :
    (g.warm d).correctLayer fuel (c.warm d) idx m = (g.correctLayer fuel c idx m).map (Grid.warm d) := by
  unfold Grid.correctLayer
  rw [whileM_comm' (φ := Grid.warm d) (correctLayerPass c idx m)]
  exact map_bind_comm (correctLayerSplit c idx m)

theorem mapNodes {β : Type} (g : Grid K) {f f' : Node K → M β} (h : ∀ n, f' (n.warm d) = f n) :
    (g.warm d).mapNodes f' = g.mapNodes f := by
  unfold Grid.mapNodes
  rw [s_number]
  congr 1
  funext i
  rw [node]
  cases g.node (i : Int) with
  | error _ => rfl
  | ok n => exact h n

theorem mapNodes_map {β γ : Type} {φ : β → γ} (g : Grid K) {f : Node K → M β} {f' : Node K → M γ}
    (h : ∀ n, f' (n.warm d) = (f n).map φ) : (g.warm d).mapNodes f' = (g.mapNodes f).map (List.map φ) := by
  unfold Grid.mapNodes
  rw [s_number]
  refine mapM_map (fun i => ?_) _
  rw [node]
  cases g.node (i : Int) with
  | error _ => rfl
  | ok n => exact h n

theorem getDensity (c : Consts K) (g : Grid K) : (g.warm d).getDensity (c.warm d) = g.getDensity c :=
  mapNodes g fun _ => rfl

theorem getHeight (g : Grid K) : (g.warm d).getHeight = g.getHeight := mapNodes g fun _ => rfl

theorem getNumberSnowLayers (c : Consts K) (g : Grid K) :
    (g.warm d).getNumberSnowLayers (c.warm d) = g.getNumberSnowLayers c := by
  unfold Grid.getNumberSnowLayers
  rw [getDensity]
  rfl

theorem getTotalHeight (g : Grid K) : (g.warm d).getTotalHeight = g.getTotalHeight := by
  unfold Grid.getTotalHeight
  rw [getHeight]

theorem getTotalSnowheight (c : Consts K) (g : Grid K) :
    (g.warm d).getTotalSnowheight (c.warm d) = g.getTotalSnowheight c := by
  unfold Grid.getTotalSnowheight Grid.getSnowHeights
  rw [getNumberSnowLayers]
  have e : ∀ n : Nat, ((List.range n).mapM fun (i : Nat) => do
      let nd ← (g.warm d).node (i : Int); return nd.height : M (List K)) =
      ((List.range n).mapM fun (i : Nat) => do let nd ← g.node (i : Int); return nd.height : M (List K)) := fun n => by
    congr 1
    funext i
    rw [node]; cases g.node (i : Int) <;> rfl
  simp only [e]

theorem getDepth (g : Grid K) : (g.warm d).getDepth = g.getDepth := by
  unfold Grid.getDepth
  rw [getHeight]

/-- The state of `log_profile` for the warmer column. -/
def L (d : K) (s : Grid.LogState K) : Grid.LogState K := ⟨s.g.warm d, s.hrest, s.last, s.idx⟩

theorem logSnowPass (fuel : Nat) (c : Consts K) (s : Grid.LogState K) :
    Grid.logSnowPass fuel (c.warm d) (L d s) = (Grid.logSnowPass fuel c s).map (Option.map (L d)) := by
  unfold Grid.logSnowPass
  simp only [L, getNumberSnowLayers, correctLayer, mergeNodes]
  refine bind_comm fun n => ?_
  refine ite_comm (fun _ => ?_) fun _ => rfl
  exact ite_comm (fun _ => map_bind_comm fun _ => rfl) fun _ =>
    ite_comm (fun _ => map_bind_comm fun _ => rfl) fun _ => rfl

theorem logIcePass (fuel : Nat) (c : Consts K) (s : Grid.LogState K) :
    Grid.logIcePass fuel (c.warm d) (L d s) = (Grid.logIcePass fuel c s).map (Option.map (L d)) := by
  unfold Grid.logIcePass
  simp only [L, s_number, correctLayer, mergeNodes]
  refine ite_comm (fun _ => ?_) fun _ => rfl
  exact ite_comm (fun _ => map_bind_comm fun _ => rfl) fun _ =>
    ite_comm (fun _ => map_bind_comm fun _ => rfl) fun _ => rfl

theorem logProfile (fuel : Nat) (c : Consts K) (g : Grid K) :
    (g.warm d).logProfile fuel (c.warm d) = (g.logProfile fuel c).map (Grid.warm d) := by
  unfold Grid.logProfile
  rw [getTotalSnowheight]
  refine bind_comm fun h => ?_
  have e1 := whileM_comm' (φ := L d) (logSnowPass fuel c) fuel ⟨g, h, c.firstLayerHeight, 0⟩
  change whileM _ fuel (⟨g.warm d, h, c.firstLayerHeight, 0⟩ : Grid.LogState K) = _ at e1
  show (whileM _ fuel (⟨g.warm d, h, c.firstLayerHeight, 0⟩ : Grid.LogState K) >>= _) = _
  rw [e1]
  refine map_bind_comm fun s => ?_
  simp only [L, getTotalHeight, getTotalSnowheight, getNumberSnowLayers]
  refine bind_comm fun t => bind_comm fun sn => bind_comm fun n => ?_
  have e2 := whileM_comm' (φ := L d) (logIcePass fuel c) fuel ⟨s.g, t - sn, s.last, (n : Int)⟩
  change whileM _ fuel (⟨s.g.warm d, t - sn, s.last, (n : Int)⟩ : Grid.LogState K) = _ at e2
  rw [e2]
  exact map_bind_comm fun _ => rfl

/-- The state of `adaptive_profile` for the warmer column. -/
def A (d : K) (s : Grid.AdaptState K) : Grid.AdaptState K := ⟨s.g.warm d, s.idx, s.mergeCounter⟩

theorem adaptSnowPass (c : Consts K) (s : Grid.AdaptState K) :
    Grid.adaptSnowPass (c.warm d) (A d s) = (Grid.adaptSnowPass c s).map (Option.map (A d)) := by
  unfold Grid.adaptSnowPass
  simp only [A, getNumberSnowLayers, mergeNodes, node, removeNode]
  refine bind_comm fun n => ?_
  refine ite_comm (fun _ => ?_) fun _ => rfl
  refine map_bind_comm fun a => map_bind_comm fun b => ?_
  have e : (a.warm d).temperature - (b.warm d).temperature = a.temperature - b.temperature := by
    simp only [s_temperature]; ring
  simp only [e, s_density, s_height]
  exact ite_comm (fun _ => map_bind_comm fun _ => rfl) fun _ =>
    ite_comm (fun _ => map_bind_comm fun _ => rfl) fun _ => rfl

/-- The state of the ice loop of `adaptive_profile` for the warmer column. -/
def B (d : K) (s : Grid K × Int) : Grid K × Int := (s.1.warm d, s.2)

theorem adaptIcePass (c : Consts K) (s : Grid K × Int) :
    Grid.adaptIcePass (c.warm d) (B d s) = (Grid.adaptIcePass c s).map (Option.map (B d)) := by
  unfold Grid.adaptIcePass
  simp only [B, s_number, mergeNodes, node]
  refine ite_comm (fun _ => ?_) fun _ => rfl
  refine map_bind_comm fun a => ?_
  exact ite_comm (fun _ => map_bind_comm fun _ => rfl) fun _ => rfl

theorem adaptiveProfile (fuel : Nat) (c : Consts K) (g : Grid K) :
    (g.warm d).adaptiveProfile fuel (c.warm d) = (g.adaptiveProfile fuel c).map (Grid.warm d) := by
  unfold Grid.adaptiveProfile
  have e1 := whileM_comm' (φ := A d) (adaptSnowPass c) fuel ⟨g, 0, 0⟩
  change whileM _ fuel (⟨g.warm d, 0, 0⟩ : Grid.AdaptState K) = _ at e1
  rw [e1]
  refine map_bind_comm fun s => ?_
  simp only [A, getNumberSnowLayers, node, correctLayer]
  refine bind_comm fun n => ?_
  have e2 : ∀ m : Int, (if m = 1 then do
        let a ← (s.g.node 0).map (Node.warm d)
        if a.height < (c.warm d).firstLayerHeight then do
          let g ← (s.g.correctLayer fuel c m (c.warm d).firstLayerHeight).map (Grid.warm d)
          pure (g, m + 1)
        else pure (s.g.warm d, m)
      else do
        let _ ← (s.g.node 0).map (Node.warm d)
        pure (s.g.warm d, m) : M (Grid K × Int)) =
      (if m = 1 then do
        let a ← s.g.node 0
        if a.height < c.firstLayerHeight then do
          let g ← s.g.correctLayer fuel c m c.firstLayerHeight
          pure (g, m + 1)
        else pure (s.g, m)
      else do
        let _ ← s.g.node 0
        pure (s.g, m) : M (Grid K × Int)).map (B d) := by
    intro m
    refine ite_comm (fun _ => map_bind_comm fun a => ?_) fun _ => map_bind_comm fun _ => rfl
    exact ite_comm (fun _ => map_bind_comm fun _ => rfl) fun _ => rfl
  rw [e2]
  refine map_bind_comm fun r => ?_
  have e3 := whileM_comm' (φ := B d) (adaptIcePass c) fuel r
  show (whileM _ fuel (B d r) >>= _) = _
  rw [e3]
  refine map_bind_comm fun r => ?_
  exact correctLayer fuel c r.1 0 c.firstLayerHeight

theorem updateGrid (fuel : Nat) (c : Consts K) (g : Grid K) :
    (g.warm d).updateGrid fuel (c.warm d) = (g.updateGrid fuel c).map (Grid.warm d) := by
  unfold Grid.updateGrid
  have e : (g.warm d).remesh fuel (c.warm d) = (g.remesh fuel c).map (Grid.warm d) := by
    unfold Grid.remesh
    show (match c.remeshMethod with
      | .logProfile => _
      | .adaptiveProfile => _
      | .other => _) = _
    cases h : c.remeshMethod with
    | logProfile => exact logProfile fuel c g
    | adaptiveProfile => exact adaptiveProfile fuel c g
    | other => rfl
  rw [e]
  refine map_bind_comm fun g => ?_
  rw [node]
  refine map_bind_comm fun a => ?_
  exact ite_comm (fun _ => removeNode g _) fun _ => rfl

theorem splitNode (c : Consts K) (g : Grid K) (pos : Int) :
    (g.warm d).splitNode (c.warm d) pos = (g.splitNode c pos).map (Grid.warm d) := by
  unfold Grid.splitNode
  rw [node]
  refine map_bind_comm fun a => ?_
  simp only [s_height, s_temperature, s_lwc, s_ice, s_density]
  rw [new c (c.warm d) (a.height / 2.0) (a.density c) (a.density c)]
  let F : Grid K → M (Grid K) := fun g => do
    let b ← g.node pos
    let g ← g.updateNode pos (b.height / 2.0) b.temperature b.iceFraction (b.lwc / 2.0)
    return { g with numberNodes := g.numberNodes + 1 }
  have key : ∀ g : Grid K, F (g.warm d) = (F g).map (Grid.warm d) := by
    intro g
    show ((g.warm d).node pos >>= _) = _
    rw [node]
    refine map_bind_comm fun b => ?_
    simp only [s_height, s_temperature, s_lwc, s_ice]
    rw [updateNode]
    exact map_bind_comm fun _ => rfl
  exact (congrArg F (insertNode g (pos + 1) _ g.numberNodes)).trans (key _)

theorem mergeSnowWithGlacier (c : Consts K) (g : Grid K) (idx : Int) :
    (g.warm d).mergeSnowWithGlacier (c.warm d) idx = (g.mergeSnowWithGlacier c idx).map (Grid.warm d) := by
  unfold Grid.mergeSnowWithGlacier
  rw [node]
  refine map_bind_comm fun a => ?_
  rw [node]
  refine map_bind_comm fun b => ?_
  refine ite_comm (fun _ => ?_) fun _ => rfl
  rw [s_temperature]
  show (Grid.updateNode (g.warm d) (idx + 1) (b.height + a.height * (a.density c / c.iceDensity)) (b.temperature + d)
    b.iceFraction 0 >>= _) = _
  rw [updateNode]
  exact map_bind_comm fun g => removeNode g _

theorem addFreshSnow (c : Consts K) (g : Grid K) (h r t w dt : K) :
    Grid.addFreshSnow (c.warm d) (g.warm d) h r (t + d) w dt = (Grid.addFreshSnow c g h r t w dt).warm d := by
  have e := insertNode (d := d) g 0 (Node.new c h r t w none) (g.numberNodes + 1)
  unfold Grid.addFreshSnow
  by_cases hh : h < c.minimumSnowfall
  · have hh' : h < (c.warm d).minimumSnowfall := hh
    simp only [if_pos hh, if_pos hh', new_none]
    exact congrArg (fun g : Grid K => g.setFreshSnowPropsUpdateTime dt) e
  · have hh' : ¬ h < (c.warm d).minimumSnowfall := hh
    simp only [if_neg hh, if_neg hh', new_none]
    exact congrArg (fun g : Grid K => g.setFreshSnowProps h) e

/-- The state of the melt removal loop for the warmer column. -/
def Mt (d : K) (s : Grid.MeltState K) : Grid.MeltState K := ⟨s.g.warm d, s.melt, s.lwcFromLayers⟩

theorem removeMeltPass (c : Consts K) (idx : Int) (s : Grid.MeltState K) :
    Grid.removeMeltPass (c.warm d) idx (Mt d s) = (Grid.removeMeltPass c idx s).map (Option.map (Mt d)) := by
  unfold Grid.removeMeltPass
  simp only [Mt, s_number]
  refine ite_comm (fun _ => ?_) fun _ => rfl
  rw [node]
  refine map_bind_comm fun a => ?_
  simp only [s_height, s_density, s_lwc, s_water]
  refine ite_comm (fun _ => ?_) fun _ => ite_comm (fun _ => ?_) fun _ => rfl
  · refine bind_comm fun h => ?_
    rw [setNodeHeight]
    exact map_bind_comm fun g => rfl
  · rw [removeNode]
    exact map_bind_comm fun g => rfl

theorem removeMeltWeq (fuel : Nat) (c : Consts K) (g : Grid K) (m : K) (idx : Int) :
    (g.warm d).removeMeltWeq fuel (c.warm d) m idx =
      (g.removeMeltWeq fuel c m idx).map fun r => (r.1.warm d, r.2) := by
  unfold Grid.removeMeltWeq
  have e1 := whileM_comm' (φ := Mt d) (removeMeltPass c idx) fuel ⟨g, m, 0⟩
  change whileM _ fuel (⟨g.warm d, m, 0⟩ : Grid.MeltState K) = _ at e1
  rw [e1]
  refine map_bind_comm fun s => ?_
  show Except.ok _ = Except.ok _
  congr 1
  simp only [Mt]
  split_ifs <;> rfl

theorem percolateFrom (a : Node K) (ns : List (Node K)) :
    Cosipy.percolateFrom (a.warm d) (ns.map (Node.warm d)) =
      (Cosipy.percolateFrom a ns).map (List.map (Node.warm d)) := by
  induction ns generalizing a with
  | nil => rfl
  | cons b rest ih =>
    rw [List.map_cons, Cosipy.percolateFrom, Cosipy.percolateFrom]
    simp only [s_irr, s_lwc, s_height]
    refine bind_comm fun th => ?_
    refine ite_comm (fun _ => ?_) fun _ => ?_
    · refine bind_comm fun q => ?_
      have e2 : (b.warm d).setLwc (b.lwc + q) = (b.setLwc (b.lwc + q)).warm d := rfl
      rw [e2, ih]
      exact map_bind_comm fun _ => rfl
    · rw [ih]
      exact map_bind_comm fun _ => rfl

theorem getRunoff (g : Grid K) :
    Cosipy.getRunoff (g.warm d) = (Cosipy.getRunoff g).map fun r => (r.1.warm d, r.2) := by
  unfold Cosipy.getRunoff
  simp only [node, s_number]
  refine map_bind_comm fun n => ?_
  rw [setNodeLwc]
  exact map_bind_comm fun g => rfl

theorem percolation (g : Grid K) (w : K) :
    Cosipy.percolation (g.warm d) w = (Cosipy.percolation g w).map fun r => (r.1.warm d, r.2) := by
  unfold Cosipy.percolation
  rw [node]
  refine map_bind_comm fun top => ?_
  simp only [s_height, s_lwc]
  refine bind_comm fun q => ?_
  rw [setNodeLwc]
  refine map_bind_comm fun g => ?_
  have e : percolateLayers (g.warm d).nodes = (percolateLayers g.nodes).map (List.map (Node.warm d)) := by
    show percolateLayers (g.nodes.map _) = _
    cases g.nodes with
    | nil => rfl
    | cons a rest => exact percolateFrom a rest
  rw [e]
  refine map_bind_comm fun ns => ?_
  exact getRunoff ({ g with nodes := ns } : Grid K)

/-- Refreezing raises an error for temperatures below zero Kelvin; a warmer column does not have them if the colder one has not. -/
theorem refreezeLayer (hd : 0 ≤ d) (c : Consts K) (n : Node K) {r : Node K × K} (h : Cosipy.refreezeLayer c n = .ok r) :
    Cosipy.refreezeLayer (c.warm d) (n.warm d) = .ok (r.1.warm d, r.2) := by
  have ea : refreezeAmount (c.warm d) (n.warm d) = refreezeAmount c n := by
    unfold refreezeAmount
    have : (n.warm d).temperature - (c.warm d).zeroTemperature = n.temperature - c.zeroTemperature := by
      show (n.temperature + d) - (c.zeroTemperature + d) = _; ring
    simp only [this]
    rfl
  unfold Cosipy.refreezeLayer at h ⊢
  rw [ea]
  by_cases hc : n.temperature ≤ c.zeroTemperature ∧ 0 < n.lwc
  · have hc' : (n.warm d).temperature ≤ (c.warm d).zeroTemperature ∧ 0 < (n.warm d).lwc :=
      ⟨by show n.temperature + d ≤ c.zeroTemperature + d; linarith [hc.1], hc.2⟩
    rw [if_pos hc] at h
    rw [if_pos hc']
    obtain ⟨q, hq, h⟩ := bind_eq_ok.1 h
    obtain ⟨u, hu, h⟩ := bind_eq_ok.1 h
    obtain ⟨dT, hT, h⟩ := bind_eq_ok.1 h
    rw [hq, ok_bind]
    show (checkOob (n.iceFraction + c.waterDensity / c.iceDensity * q) (n.lwc - q) >>= _) = _
    rw [hu, ok_bind]
    show (fdiv (q * (c.waterDensity * c.latHeatMelting)) (c.specHeatIce * c.iceDensity * _ + c.specHeatWater * c.waterDensity * _) >>= _) = _
    have hT' := hT
    change fdiv (q * (c.waterDensity * c.latHeatMelting)) (c.specHeatIce * c.iceDensity *
      (n.iceFraction + c.waterDensity / c.iceDensity * q) + c.specHeatWater * c.waterDensity * (n.lwc - q)) = .ok dT at hT'
    erw [hT']
    rw [ok_bind]
    by_cases hneg : n.temperature + dT < 0
    · rw [if_pos hneg] at h; cases h
    · rw [if_neg hneg] at h
      have : ¬ ((n.warm d).temperature + dT < 0) := by
        show ¬ (n.temperature + d + dT < 0)
        linarith [not_lt.1 hneg]
      rw [if_neg this]
      have hr := pure_eq_ok.1 h
      rw [← hr]
      show Except.ok _ = Except.ok _
      simp only [Node.warm, Node.setRefreeze, Node.setTemperature, Node.setIceFraction, Node.setLwc]
      congr 3
      ring
  · have hc' : ¬ ((n.warm d).temperature ≤ (c.warm d).zeroTemperature ∧ 0 < (n.warm d).lwc) := by
      rintro ⟨h1, h2⟩
      refine hc ⟨?_, h2⟩
      have : n.temperature + d ≤ c.zeroTemperature + d := h1
      linarith
    rw [if_neg hc] at h
    rw [if_neg hc', ← pure_eq_ok.1 h]
    rfl

theorem refreezeLayers (hd : 0 ≤ d) (c : Consts K) (ns : List (Node K)) (acc : K) {r : List (Node K) × K}
    (h : Cosipy.refreezeLayers c acc ns = .ok r) :
    Cosipy.refreezeLayers (c.warm d) acc (ns.map (Node.warm d)) = .ok (r.1.map (Node.warm d), r.2) := by
  induction ns generalizing acc r with
  | nil => rw [Cosipy.refreezeLayers] at h; cases h; rfl
  | cons n ns ih =>
    rw [Cosipy.refreezeLayers] at h
    obtain ⟨a, ha, h⟩ := bind_eq_ok.1 h
    obtain ⟨b, hb, h⟩ := bind_eq_ok.1 h
    rw [List.map_cons, Cosipy.refreezeLayers, refreezeLayer hd c n ha, ok_bind]
    show (Cosipy.refreezeLayers (c.warm d) (acc + a.2) _ >>= _) = _
    rw [ih _ hb, ok_bind, ← pure_eq_ok.1 h]
    rfl

theorem refreezing (hd : 0 ≤ d) (c : Consts K) (g : Grid K) {r : Grid K × K} (h : Cosipy.refreezing c g = .ok r) :
    Cosipy.refreezing (c.warm d) (g.warm d) = .ok (r.1.warm d, r.2) := by
  unfold Cosipy.refreezing at h ⊢
  obtain ⟨a, ha, h⟩ := bind_eq_ok.1 h
  show (Cosipy.refreezeLayers (c.warm d) 0 (g.nodes.map (Node.warm d)) >>= _) = _
  rw [refreezeLayers hd c _ _ ha, ← pure_eq_ok.1 h]
  rfl

/-- A heat cell of the warmer column. -/
def H (d : K) (a : HeatCell K) : HeatCell K := ⟨a.h, a.k, a.t + d⟩

theorem heatNewT (dt : K) (a b e : HeatCell K) :
    Cosipy.heatNewT dt (H d a) (H d b) (H d e) = Cosipy.heatNewT dt a b e + d := by
  unfold Cosipy.heatNewT
  have e1 : (H d e).t - (H d b).t = e.t - b.t := by show e.t + d - (b.t + d) = _; ring
  have e2 : (H d b).t - (H d a).t = b.t - a.t := by show b.t + d - (a.t + d) = _; ring
  rw [e1, e2]
  show b.t + d + _ = b.t + _ + d
  exact add_right_comm _ _ _

theorem heatBelow (dt : K) : ∀ cs : List (HeatCell K),
    Cosipy.heatBelow dt (cs.map (H d)) = (Cosipy.heatBelow dt cs).map (H d)
  | [] => rfl
  | [_] => rfl
  | [_, _] => rfl
  | a :: b :: e :: rest => by
    have ih := heatBelow dt (b :: e :: rest)
    simp only [List.map_cons] at ih ⊢
    rw [Cosipy.heatBelow, Cosipy.heatBelow, ih, heatNewT]
    rfl

theorem heatPass (dt : K) (cs : List (HeatCell K)) :
    Cosipy.heatPass dt (cs.map (H d)) = (Cosipy.heatPass dt cs).map (H d) := by
  cases cs with
  | nil => rfl
  | cons a rest =>
    have := heatBelow (d := d) dt (a :: rest)
    simp only [List.map_cons] at this ⊢
    rw [Cosipy.heatPass, Cosipy.heatPass, this, List.map_cons]

theorem heatIfaces : ∀ cs : List (HeatCell K), Cosipy.heatIfaces (cs.map (H d)) = Cosipy.heatIfaces cs
  | [] => rfl
  | [_] => rfl
  | a :: b :: rest => by
    have ih := heatIfaces (b :: rest)
    simp only [List.map_cons] at ih ⊢
    rw [Cosipy.heatIfaces, Cosipy.heatIfaces, ih]
    rfl

theorem heatDtStab (cs : List (HeatCell K)) : Cosipy.heatDtStab (cs.map (H d)) = Cosipy.heatDtStab cs := by
  unfold Cosipy.heatDtStab
  rw [heatIfaces]

/-- The state of the sub-stepping loop for the warmer column. -/
def S (d : K) (s : K × List (HeatCell K)) : K × List (HeatCell K) := (s.1, s.2.map (H d))

theorem heatLoopPass (dt stab : K) (s : K × List (HeatCell K)) :
    Cosipy.heatLoopPass dt stab (S d s) = (Cosipy.heatLoopPass dt stab s).map (Option.map (S d)) := by
  unfold Cosipy.heatLoopPass
  simp only [S]
  refine ite_comm (fun _ => ?_) fun _ => rfl
  rw [heatPass]
  rfl

theorem foldlM_comm' {σ ι : Type} {φ : σ → σ} {f f' : σ → ι → M σ} (h : ∀ s i, f' (φ s) i = (f s i).map φ) :
    ∀ (is : List ι) (s : σ), is.foldlM f' (φ s) = (is.foldlM f s).map φ := by
  intro is
  induction is with
  | nil => intro s; rfl
  | cons i is ih =>
    intro s
    rw [List.foldlM_cons, List.foldlM_cons, h]
    exact map_bind_comm ih

theorem setTemperatures (g : Grid K) (ts : List K) :
    (g.warm d).setAll Node.setTemperature (ts.map (· + d)) = (g.setAll Node.setTemperature ts).map (Grid.warm d) := by
  unfold Grid.setAll
  rw [s_number]
  refine foldlM_comm' (φ := Grid.warm d) (fun g i => ?_) _ g
  rw [pyGet_map]
  exact map_bind_comm (φ := (· + d)) fun t => modifyNode g _ fun _ => rfl

theorem solveHeatEquation (fuel : Nat) (c : Consts K) (g : Grid K) (dt : K) :
    Cosipy.solveHeatEquation fuel (c.warm d) (g.warm d) dt =
      (Cosipy.solveHeatEquation fuel c g dt).map (Grid.warm d) := by
  unfold Cosipy.solveHeatEquation
  rw [mapNodes_map (φ := H d) (f := fun n => do
    let k ← n.thermalDiffusivity c
    return HeatCell.mk n.height k n.temperature) g (fun n => by
      show (n.thermalDiffusivity c >>= _) = _
      exact bind_comm fun _ => rfl)]
  refine map_bind_comm fun cells => ?_
  rw [heatDtStab]
  refine bind_comm fun stab => ?_
  have e := whileM_comm' (φ := S d) (heatLoopPass dt stab) fuel (0, cells)
  change whileM _ fuel (0, cells.map (H d)) = _ at e
  rw [e]
  refine map_bind_comm fun s => ?_
  show (g.warm d).setAll _ (((S d s).2).map HeatCell.t) = _
  have : ((S d s).2).map HeatCell.t = (s.2.map HeatCell.t).map (· + d) := by simp [S, H, Function.comp_def]
  rw [this, setTemperatures]

variable [Transc K]

theorem booneRate (c : Consts K) (dt ms t rho : K) :
    Cosipy.booneRate (c.warm d) dt ms (t + d) rho = Cosipy.booneRate c dt ms t rho := by
  unfold Cosipy.booneRate
  have : (c.warm d).zeroTemperature - (t + d) = c.zeroTemperature - t := by
    show c.zeroTemperature + d - (t + d) = _; ring
  simp only [this]

theorem booneLayers (c : Consts K) (dt : K) (k : Nat) (ms : K) (p : Option (Node K)) (ns : List (Node K)) :
    Cosipy.booneLayers (c.warm d) dt k ms (p.map (Node.warm d)) (ns.map (Node.warm d)) =
      (Cosipy.booneLayers c dt k ms p ns).map (List.map (Node.warm d)) := by
  induction ns generalizing k ms p with
  | nil => cases k <;> rfl
  | cons n ns ih =>
    cases k with
    | zero => rfl
    | succ k =>
      rw [List.map_cons, Cosipy.booneLayers, Cosipy.booneLayers]
      have hl : booneLoad (c.warm d) (p.map (Node.warm d)) (n.warm d) = booneLoad c p n := by cases p <;> rfl
      simp only [hl, s_temperature, booneRate, s_density, s_height]
      refine ite_comm (fun _ => bind_comm fun q => ?_) fun _ => ?_
      · rw [show (some (n.warm d)) = (some n).map (Node.warm d) from rfl, ih]
        exact map_bind_comm fun _ => rfl
      · rw [show (some (n.warm d)) = (some n).map (Node.warm d) from rfl, ih]
        exact map_bind_comm fun _ => rfl

theorem empiricalLayer (c : Consts K) (dt : K) (n : Node K) :
    Cosipy.empiricalLayer (c.warm d) dt (n.warm d) = (Cosipy.empiricalLayer c dt n).map (Node.warm d) := by
  unfold Cosipy.empiricalLayer
  simp only [s_density]
  refine bind_comm fun q => ?_
  refine ite_comm (fun _ => ?_) fun _ => rfl
  refine bind_comm fun q => ?_
  rfl

theorem empiricalLayers (c : Consts K) (dt : K) (k : Nat) (ns : List (Node K)) :
    Cosipy.empiricalLayers (c.warm d) dt k (ns.map (Node.warm d)) =
      (Cosipy.empiricalLayers c dt k ns).map (List.map (Node.warm d)) := by
  induction ns generalizing k with
  | nil => cases k <;> rfl
  | cons n ns ih =>
    cases k with
    | zero => rfl
    | succ k =>
      rw [List.map_cons, Cosipy.empiricalLayers, Cosipy.empiricalLayers, empiricalLayer]
      refine map_bind_comm fun a => ?_
      rw [ih]
      exact map_bind_comm fun _ => rfl

theorem densification (c : Consts K) (hm : c.densificationMethod ≠ .vionnet) (g : Grid K) (slope dt : K) :
    Cosipy.densification (c.warm d) (g.warm d) slope dt = (Cosipy.densification c g slope dt).map (Grid.warm d) := by
  unfold Cosipy.densification
  show (match c.densificationMethod with
    | .boone => _
    | .vionnet => _
    | .empirical => _
    | .constant => _
    | .other => _) = _
  cases h : c.densificationMethod with
  | boone =>
    show methodBoone (c.warm d) (g.warm d) dt = (methodBoone c g dt).map _
    unfold methodBoone
    rw [getNumberSnowLayers]
    refine bind_comm fun k => ?_
    have := booneLayers (d := d) c dt k 0 none g.nodes
    show (Cosipy.booneLayers (c.warm d) dt k 0 none (g.nodes.map (Node.warm d)) >>= _) = _
    rw [show (none : Option (Node K)) = Option.map (Node.warm d) none from rfl, this]
    exact map_bind_comm fun _ => rfl
  | vionnet => exact absurd h hm
  | empirical =>
    show methodEmpirical (c.warm d) (g.warm d) dt = (methodEmpirical c g dt).map _
    unfold methodEmpirical
    rw [getNumberSnowLayers]
    refine bind_comm fun k => ?_
    show (Cosipy.empiricalLayers (c.warm d) dt k (g.nodes.map (Node.warm d)) >>= _) = _
    rw [empiricalLayers]
    exact map_bind_comm fun _ => rfl
  | constant => rfl
  | other => rfl

theorem penLayer (c : Consts K) (dt e : K) (n : Node K) :
    Cosipy.penLayer (c.warm d) dt e (n.warm d) = (Cosipy.penLayer c dt e n).map fun r => (r.1.warm d, r.2) := by
  unfold Cosipy.penLayer
  rw [s_density, s_height, s_temperature]
  show (fdiv e (n.density c * c.specHeatIce) >>= _) = _
  refine bind_comm fun q => bind_comm fun r => ?_
  have e1 : n.temperature + d + q * r = (n.temperature + q * r) + d := add_right_comm _ _ _
  have e2 : (n.temperature + q * r) + d - (c.warm d).zeroTemperature = n.temperature + q * r - c.zeroTemperature := by
    show (n.temperature + q * r) + d - (c.zeroTemperature + d) = _; ring
  simp only [e1, e2]
  refine ite_comm' ?_ (fun _ => ?_) fun _ => rfl
  · show c.zeroTemperature + d < _ ↔ _
    exact add_lt_add_iff_right d
  · show (fdiv (-(c.waterDensity / c.iceDensity * -(penA c * (n.temperature + q * r - c.zeroTemperature) * n.iceFraction))) n.iceFraction >>= _) = _
    refine bind_comm fun dh => ?_
    refine ite_comm (fun _ => rfl) fun _ => ?_
    show (fdiv ((n.lwc + penA c * (n.temperature + q * r - c.zeroTemperature) * n.iceFraction) * n.height) ((1 - dh) * n.height) >>= _) = _
    exact bind_comm fun w => rfl

theorem penLayers (c : Consts K) (dt : K) (i : Int) (ns : List (Node K)) (es : List K) (rm : List Int) (m : K) :
    Cosipy.penLayers (c.warm d) dt i (ns.map (Node.warm d)) es rm m =
      (Cosipy.penLayers c dt i ns es rm m).map fun r => (r.1.map (Node.warm d), r.2) := by
  induction ns generalizing i es rm m with
  | nil => rfl
  | cons a rest ih =>
    cases rest with
    | nil => rfl
    | cons b rest =>
      cases es with
      | nil => rfl
      | cons e es =>
        simp only [List.map_cons] at ih ⊢
        rw [Cosipy.penLayers, Cosipy.penLayers, penLayer]
        cases Cosipy.penLayer c dt e a with
        | error _ => rfl
        | ok r =>
          show (Cosipy.penLayers (c.warm d) dt (i + 1) _ es _ _ >>= _) = Except.map _ (Cosipy.penLayers c dt (i + 1) (b :: rest) es _ _ >>= _)
          rw [ih]
          exact Except.casesOn (motive := fun x => (Except.map _ x >>= _) = Except.map _ (x >>= _)) _ (fun _ => rfl) fun _ => rfl

theorem methodBintanja (c : Consts K) (g : Grid K) (sw dt : K) :
    Cosipy.methodBintanja (c.warm d) (g.warm d) sw dt =
      (Cosipy.methodBintanja c g sw dt).map fun r => (r.1.warm d, r.2) := by
  unfold Cosipy.methodBintanja
  rw [getDepth, node]
  refine bind_comm fun ds => map_bind_comm fun top => ?_
  have e : penCoeffs (c.warm d) (top.warm d) = penCoeffs c top := rfl
  rw [e]
  dsimp only
  have e1 := penLayers (d := d) c dt 0 g.nodes (penEnergy (sw * (penCoeffs c top).1) (penCoeffs c top).2 ds) [] 0
  show (Cosipy.penLayers (c.warm d) dt 0 (g.nodes.map (Node.warm d)) _ [] 0 >>= _) = _
  rw [e1]
  generalize Cosipy.penLayers c dt 0 g.nodes (penEnergy (sw * (penCoeffs c top).1) (penCoeffs c top).2 ds) [] 0 = x
  cases x with
  | error _ => rfl
  | ok r =>
    obtain ⟨ns, rm, melt⟩ := r
    show (if rm.isEmpty then _ else _) = Except.map _ (if rm.isEmpty then _ else _)
    refine ite_comm (fun _ => rfl) fun _ => ?_
    have := removeNode (d := d) ({ g with nodes := ns } : Grid K) rm
    show (Grid.removeNode (({ g with nodes := ns } : Grid K).warm d) rm >>= _) = _
    rw [this]
    exact map_bind_comm fun _ => rfl

theorem penetratingRadiation (c : Consts K) (g : Grid K) (sw dt : K) :
    Cosipy.penetratingRadiation (c.warm d) (g.warm d) sw dt =
      (Cosipy.penetratingRadiation c g sw dt).map fun r => (r.1.warm d, r.2) := by
  unfold Cosipy.penetratingRadiation
  show (match c.penetratingMethod with
    | .bintanja95 => _
    | .other => _) = _
  cases c.penetratingMethod with
  | bintanja95 => exact methodBintanja c g sw dt
  | other => rfl

theorem getSubsurfaceTemperature (g : Grid K) (cum : List K) (z : K) :
    Cosipy.getSubsurfaceTemperature (g.warm d) cum z = (Cosipy.getSubsurfaceTemperature g cum z).map (· + d) := by
  unfold Cosipy.getSubsurfaceTemperature
  simp only [node]
  refine bind_comm fun i => bind_comm fun d1 => map_bind_comm fun a => map_bind_comm fun b => bind_comm fun d2 => ?_
  simp only [s_temperature, add_sub_add_right_eq_sub]
  refine bind_comm fun sl => ?_
  show Except.ok _ = Except.ok _
  congr 1
  exact add_right_comm _ _ _

theorem interpSubT (c : Consts K) (g : Grid K) :
    Cosipy.interpSubT (c.warm d) (g.warm d) = (Cosipy.interpSubT c g).map fun r => (r.1 + d, r.2 + d) := by
  unfold Cosipy.interpSubT
  rw [getHeight]
  refine bind_comm fun hs => ?_
  simp only [getSubsurfaceTemperature]
  refine map_bind_comm (φ := (· + d)) fun a => ?_
  exact map_bind_comm (φ := (· + d)) fun b => rfl

theorem tStar (c : Consts K) (t : K) : Cosipy.tStar (c.warm d) (t + d) = Cosipy.tStar c t := by
  unfold Cosipy.tStar
  show (if c.zeroTemperature + d ≤ t + d then c.tStarWet else if t + d < c.tStarCutoff + d then
    c.tStarDry + (c.zeroTemperature + d - (c.tStarCutoff + d)) * c.tStarK
    else c.tStarDry + (c.zeroTemperature + d - (t + d)) * c.tStarK) = _
  simp only [add_le_add_iff_right, add_lt_add_iff_right, add_sub_add_right_eq_sub]

theorem getSurfaceProperties (c : Consts K) (g : Grid K) :
    Cosipy.getSurfaceProperties (c.warm d) (g.warm d) =
      ((Cosipy.getSurfaceProperties c g).1.warm d, (Cosipy.getSurfaceProperties c g).2) := by
  unfold Cosipy.getSurfaceProperties
  show (if g.newSnowTimestamp / 3600.0 < c.albedoModSnowAging * 24 ∧ g.newSnowHeight ≤ 0 then _ else _) = _
  by_cases h : g.newSnowTimestamp / 3600.0 < c.albedoModSnowAging * 24 ∧ g.newSnowHeight ≤ 0
  · simp only [if_pos h]; rfl
  · simp only [if_neg h]; rfl

theorem methodOerlemans (c : Consts K) (g : Grid K) :
    Cosipy.methodOerlemans (c.warm d) (g.warm d) = (Cosipy.methodOerlemans c g).map fun r => (r.1.warm d, r.2) := by
  unfold Cosipy.methodOerlemans
  simp only [getSurfaceProperties, node, getTotalSnowheight]
  refine map_bind_comm fun top => ?_
  exact ite_comm (fun _ => bind_comm fun _ => rfl) fun _ => rfl

theorem updateAlbedo (c : Consts K) (g : Grid K) (t a : K) :
    Cosipy.updateAlbedo (c.warm d) (g.warm d) (t + d) a =
      (Cosipy.updateAlbedo c g t a).map fun r => (r.1.warm d, r.2) := by
  unfold Cosipy.updateAlbedo
  show (match c.albedoMethod with
    | .oerlemans98 => _
    | .bougamont05 => _
    | .other => _) = _
  cases c.albedoMethod with
  | oerlemans98 =>
    show (Cosipy.methodOerlemans (c.warm d) (g.warm d) >>= _) = Except.map _ (Cosipy.methodOerlemans c g >>= _)
    rw [methodOerlemans]
    cases Cosipy.methodOerlemans c g <;> rfl
  | bougamont05 =>
    show Cosipy.methodBougamont (c.warm d) (g.warm d) (t + d) a = (Cosipy.methodBougamont c g t a).map _
    unfold Cosipy.methodBougamont
    have e : Cosipy.bougamontDecay (c.warm d) (t + d) a = Cosipy.bougamontDecay c t a := by
      unfold Cosipy.bougamontDecay
      rw [tStar]; rfl
    simp only [getSurfaceProperties, node, getTotalSnowheight, e]
    refine map_bind_comm fun top => ?_
    exact ite_comm (fun _ => bind_comm fun _ => rfl) fun _ => rfl
  | other => rfl

omit [Transc K] in
theorem gridNew (c : Consts K) (hs ds ts ws : List K) :
    Grid.new (c.warm d) hs ds (ts.map (· + d)) ws none none none none =
      (Grid.new c hs ds ts ws none none none none).map (Grid.warm d) := by
  unfold Grid.new
  simp only [pyGet_map]
  have e : ∀ is : List Nat, (is.mapM fun (i : Nat) => do
      let h ← pyGet hs (i : Int)
      let r ← pyGet ds (i : Int)
      let t ← (pyGet ts (i : Int)).map (· + d)
      let w ← pyGet ws (i : Int)
      return Node.new (c.warm d) h r t w none : M (List (Node K))) =
      (is.mapM fun (i : Nat) => do
      let h ← pyGet hs (i : Int)
      let r ← pyGet ds (i : Int)
      let t ← pyGet ts (i : Int)
      let w ← pyGet ws (i : Int)
      return Node.new c h r t w none : M (List (Node K))).map (List.map (Node.warm d)) := by
    refine fun is => mapM_map (fun i => ?_) is
    exact bind_comm fun h => bind_comm fun r => map_bind_comm (φ := (· + d)) fun t => bind_comm fun w => rfl
  rw [e]
  exact map_bind_comm fun ns => rfl

omit [Transc K] in
theorem createGrid (c : Consts K) (hs ds ts ws : List K) :
    Cosipy.createGrid (c.warm d) hs ds (ts.map (· + d)) ws none none none none =
      (Cosipy.createGrid c hs ds ts ws none none none none).map (Grid.warm d) := by
  unfold Cosipy.createGrid
  rw [gridNew]
  refine map_bind_comm fun g => ?_
  have h : ∀ l : List K, (l.any fun t => !(t == t)) = false := fun l => by simp
  rw [h, h]
  rfl

omit [Transc K] in
theorem linearProfile (t s h : K) (n : Nat) : Cosipy.linearProfile (t + d) s h n = (Cosipy.linearProfile t s h n).map (· + d) := by
  unfold Cosipy.linearProfile
  rw [List.map_map]
  congr 1
  funext i
  show t + d - _ = t - _ + d
  ring

omit [Transc K] in
theorem pyMin_add (a b : K) : pyMin (a + d) (b + d) = pyMin a b + d := by
  unfold pyMin
  by_cases h : b < a
  · rw [if_pos h, if_pos (add_lt_add_left h d)]
  · rw [if_neg h, if_neg (mt (add_lt_add_iff_right d).1 h)]

omit [Transc K] in
theorem initSnowpack [HasTrunc K] (c : Consts K) (sh : Option K) (t2 : K) :
    Cosipy.initSnowpack (c.warm d) sh (t2 + d) = (Cosipy.initSnowpack c sh t2).map (Grid.warm d) := by
  unfold Cosipy.initSnowpack
  have e1 : pyMin (t2 + d) (c.warm d).zeroTemperature = pyMin t2 c.zeroTemperature + d := pyMin_add _ _
  have e2 : pyMin t2 c.zeroTemperature + d - (c.warm d).temperatureBottom = pyMin t2 c.zeroTemperature - c.temperatureBottom :=
    add_sub_add_right_eq_sub _ _ _
  have e3 : initialSnowheight (c.warm d) sh = initialSnowheight c sh := rfl
  dsimp only
  rw [e1, e2, e3]
  generalize pyMin t2 c.zeroTemperature = tt
  generalize initialSnowheight c sh = hs
  refine ite_comm (fun _ => rfl) fun _ => ite_comm (fun _ => ?_) fun _ => ?_
  · by_cases h0 : HasTrunc.trunc (pyMin (hs / 0.1) 5) = 0
    · simp only [if_pos h0]
      show (pyGet [tt + d] (-1) >>= _) = _
      have e : pyGet [tt + d] (-1) = (pyGet [tt] (-1)).map (· + d) := pyGet_map (· + d) [tt] (-1)
      rw [e]
      refine map_bind_comm (φ := (· + d)) fun last => ?_
      rw [linearProfile, show [tt + d] = [tt].map (· + d) from rfl, ← List.map_append]
      exact createGrid c _ _ _ _
    · simp only [if_neg h0]
      rw [linearProfile, pyGet_map]
      refine map_bind_comm (φ := (· + d)) fun last => ?_
      rw [linearProfile, ← List.map_append]
      exact createGrid c _ _ _ _
  · rw [linearProfile]
    exact createGrid c _ _ _ _

end Warm
end
end Cosipy
