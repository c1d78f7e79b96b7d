import Verif.Model.Core
import Verif.Lemmas.Grid

/-!
# No computation reads the refreezing amounts of layers

`Grid.clearRefreeze` clears them. Every operation before refreezing commutes with it, and refreezing overwrites them,
so a time step does not depend on them.
-/

set_option autoImplicit false
set_option linter.unusedSectionVars false

namespace Cosipy

/-! ## Operations that commute with a map of states -/

theorem map_bind_comm {β γ δ : Type} {x : M β} {φ : β → β} {f : γ → δ} {k : β → M δ} {k' : β → M γ}
    (h : ∀ a, k (φ a) = (k' a).map f) : (x.map φ >>= k) = (x >>= k').map f := by
  cases x with
  | error _ => rfl
  | ok a => exact h a

theorem bind_comm {β γ δ : Type} {x : M β} {f : γ → δ} {k : β → M δ} {k' : β → M γ}
    (h : ∀ a, k a = (k' a).map f) : (x >>= k) = (x >>= k').map f := by
  cases x with
  | error _ => rfl
  | ok a => exact h a

theorem ite_comm {γ δ : Type} {f : γ → δ} {p : Prop} [Decidable p] {a b : M δ} {a' b' : M γ} (h1 : p → a = a'.map f)
    (h2 : ¬ p → b = b'.map f) : (if p then a else b) = (if p then a' else b').map f := by
  split_ifs with h
  · exact h1 h
  · exact h2 h

theorem whileM_comm {σ : Type} {φ : σ → σ} {body : σ → M (Option σ)}
    (h : ∀ s, body (φ s) = (body s).map (Option.map φ)) :
    ∀ fuel s, whileM body fuel (φ s) = (whileM body fuel s).map φ := by
  intro fuel
  induction fuel with
  | zero => intro s; rfl
  | succ n ih =>
    intro s
    unfold whileM
    rw [h]
    rcases body s with err | (_ | s')
    · rfl
    · rfl
    · exact ih s'

theorem foldlM_comm {σ ι : Type} {φ : σ → σ} {f : σ → ι → M σ} (h : ∀ s i, f (φ s) i = (f s i).map φ) :
    ∀ (is : List ι) (s : σ), is.foldlM f (φ s) = (is.foldlM f s).map φ := by
  intro is
  induction is with
  | nil => intro s; rfl
  | cons i is ih =>
    intro s
    rw [List.foldlM_cons, List.foldlM_cons, h]
    exact map_bind_comm ih

theorem pyGet_map {β γ : Type} (f : β → γ) (xs : List β) (i : Int) : pyGet (xs.map f) i = (pyGet xs i).map f := by
  unfold pyGet
  rw [List.length_map]
  cases normIdx xs.length i with
  | none => rfl
  | some k =>
    simp only [List.getElem?_map]
    cases xs[k]? <;> rfl

theorem pyDel_map {β γ : Type} (f : β → γ) (xs : List β) (i : Int) : pyDel (xs.map f) i = (pyDel xs i).map (List.map f) := by
  unfold pyDel
  rw [List.length_map]
  cases normIdx xs.length i with
  | none => rfl
  | some k => simp [Except.map, List.eraseIdx_map]

theorem pyInsert_map {β γ : Type} (f : β → γ) (xs : List β) (i : Int) (x : β) :
    pyInsert (xs.map f) i (f x) = (pyInsert xs i x).map f := by
  unfold pyInsert
  rw [List.length_map]
  exact (List.map_insertIdx ..).symm

theorem pyModify_map {β : Type} {e f : β → β} (h : ∀ n, f (e n) = e (f n)) (xs : List β) (i : Int) :
    pyModify (xs.map e) i f = (pyModify xs i f).map (List.map e) := by
  unfold pyModify
  rw [List.length_map]
  cases normIdx xs.length i with
  | none => rfl
  | some k =>
    show Except.ok _ = Except.ok _
    congr 1
    apply List.ext_getElem? 
    intro j
    simp only [List.getElem?_modify, List.getElem?_map]
    cases xs[j]? with
    | none => simp
    | some x => by_cases hj : k = j <;> simp [hj, h]

section
variable {α : Type} [Add α] [Sub α] [Mul α] [Div α] [Neg α] [LT α] [LE α]
  [DecidableLT α] [DecidableLE α] [BEq α] [Zero α] [One α] [NatCast α] [OfScientific α]

/-- The layer with its refreezing amount cleared. -/
def Node.clearRefreeze (n : Node α) : Node α := n.setRefreeze 0

/-- The column with the refreezing amounts of its layers cleared; everything else as before. -/
def Grid.clearRefreeze (g : Grid α) : Grid α := { g with nodes := g.nodes.map Node.clearRefreeze }

namespace Erase

local notation "eN" => (Node.clearRefreeze : Node α → Node α)
local notation "eG" => (Grid.clearRefreeze : Grid α → Grid α)

theorem e_height (n : Node α) : (eN n).height = n.height := rfl
theorem e_temperature (n : Node α) : (eN n).temperature = n.temperature := rfl
theorem e_lwc (n : Node α) : (eN n).lwc = n.lwc := rfl
theorem e_ice (n : Node α) : (eN n).iceFraction = n.iceFraction := rfl
theorem e_density (c : Consts α) (n : Node α) : (eN n).density c = n.density c := rfl
theorem e_irr (n : Node α) : (eN n).irreducibleWaterContent = n.irreducibleWaterContent := rfl
theorem e_cond (c : Consts α) (n : Node α) : (eN n).thermalConductivity c = n.thermalConductivity c := rfl
theorem E_number (g : Grid α) : (eG g).numberNodes = g.numberNodes := rfl
theorem E_nsh (g : Grid α) : (eG g).newSnowHeight = g.newSnowHeight := rfl
theorem E_nst (g : Grid α) : (eG g).newSnowTimestamp = g.newSnowTimestamp := rfl
theorem E_ost (g : Grid α) : (eG g).oldSnowTimestamp = g.oldSnowTimestamp := rfl
theorem e_new (c : Consts α) (h d t w : α) (f : Option α) : eN (Node.new c h d t w f) = Node.new c h d t w f := rfl

theorem node (g : Grid α) (i : Int) : (eG g).node i = (g.node i).map eN := pyGet_map eN g.nodes i

theorem modifyNode (g : Grid α) (i : Int) {f : Node α → Node α} (h : ∀ n, f (eN n) = eN (f n)) :
    (eG g).modifyNode i f = (g.modifyNode i f).map eG := by
  unfold Grid.modifyNode
  have : pyModify (eG g).nodes i f = (pyModify g.nodes i f).map (List.map eN) := pyModify_map h g.nodes i
  rw [this]
  exact map_bind_comm (φ := List.map eN) fun _ => rfl

theorem setNodeHeight (g : Grid α) (i : Int) (x : α) : (eG g).setNodeHeight i x = (g.setNodeHeight i x).map eG :=
  modifyNode g i (f := Node.setHeight x) fun _ => rfl
theorem setNodeTemperature (g : Grid α) (i : Int) (x : α) :
    (eG g).setNodeTemperature i x = (g.setNodeTemperature i x).map eG :=
  modifyNode g i (f := Node.setTemperature x) fun _ => rfl
theorem setNodeLwc (g : Grid α) (i : Int) (x : α) : (eG g).setNodeLwc i x = (g.setNodeLwc i x).map eG :=
  modifyNode g i (f := Node.setLwc x) fun _ => rfl
theorem setNodeIceFraction (g : Grid α) (i : Int) (x : α) :
    (eG g).setNodeIceFraction i x = (g.setNodeIceFraction i x).map eG :=
  modifyNode g i (f := Node.setIceFraction x) fun _ => rfl

theorem mapNodes {β : Type} (g : Grid α) {f : Node α → M β} (h : ∀ n, f (eN n) = f n) :
    (eG g).mapNodes f = g.mapNodes f := by
  unfold Grid.mapNodes
  rw [E_number]
  congr 1
  funext i
  rw [node]
  cases g.node (i : Int) with
  | error _ => rfl
  | ok n => exact h n

theorem getHeight (g : Grid α) : (eG g).getHeight = g.getHeight := mapNodes g fun _ => rfl
theorem getDensity (c : Consts α) (g : Grid α) : (eG g).getDensity c = g.getDensity c := mapNodes g fun _ => rfl

theorem getNumberSnowLayers (c : Consts α) (g : Grid α) : (eG g).getNumberSnowLayers c = g.getNumberSnowLayers c := by
  unfold Grid.getNumberSnowLayers
  rw [getDensity]

theorem getTotalHeight (g : Grid α) : (eG g).getTotalHeight = g.getTotalHeight := by
  unfold Grid.getTotalHeight
  rw [getHeight]

theorem getDepth (g : Grid α) : (eG g).getDepth = g.getDepth := by
  unfold Grid.getDepth
  rw [getHeight]

theorem getTotalSnowheight (c : Consts α) (g : Grid α) : (eG g).getTotalSnowheight c = g.getTotalSnowheight c := by
  unfold Grid.getTotalSnowheight Grid.getSnowHeights
  rw [getNumberSnowLayers]
  congr 2
  funext n
  congr 1
  funext i
  rw [node]
  cases g.node (i : Int) <;> rfl

theorem removeNode (g : Grid α) (idx : List Int) : (eG g).removeNode idx = (g.removeNode idx).map eG := by
  unfold Grid.removeNode
  have e1 : (eG g).nodes.isEmpty = g.nodes.isEmpty := by
    show (g.nodes.map eN).isEmpty = _
    cases g.nodes <;> rfl
  rw [e1]
  refine ite_comm (fun _ => rfl) fun _ => ite_comm (fun _ => ?_) fun _ => ?_
  · show Except.ok _ = Except.ok _
    congr 1
    show (⟨(g.nodes.map eN).tail, _, _, _, _⟩ : Grid α) = ⟨g.nodes.tail.map eN, _, _, _, _⟩
    rw [List.map_tail]
    rfl
  · have : ∀ is : List Int, is.foldlM pyDel (eG g).nodes = (is.foldlM pyDel g.nodes).map (List.map eN) := fun is =>
      foldlM_comm (φ := List.map eN) (fun s i => pyDel_map eN s i) is g.nodes
    rw [this]
    exact map_bind_comm fun _ => rfl

theorem updateNode (g : Grid α) (idx : Int) (h t f w : α) :
    (eG g).updateNode idx h t f w = (g.updateNode idx h t f w).map eG := by
  unfold Grid.updateNode
  rw [setNodeHeight]
  refine map_bind_comm fun g => ?_
  rw [setNodeTemperature]
  refine map_bind_comm fun g => ?_
  rw [setNodeIceFraction]
  exact map_bind_comm fun g => setNodeLwc ..

theorem mergeNodes (g : Grid α) (idx : Int) : (eG g).mergeNodes idx = (g.mergeNodes idx).map eG := by
  unfold Grid.mergeNodes
  rw [node]
  refine map_bind_comm fun a => ?_
  rw [node]
  refine map_bind_comm fun b => ?_
  refine bind_comm fun w => bind_comm fun i => bind_comm fun wa => bind_comm fun wb => ?_
  simp only [e_height, e_temperature]
  rw [updateNode]
  exact map_bind_comm fun g => removeNode g _

theorem correctLayerPass (c : Consts α) (idx : Int) (m : α) (g : Grid α) :
    Grid.correctLayerPass c idx m (eG g) = (Grid.correctLayerPass c idx m g).map (Option.map eG) := by
  unfold Grid.correctLayerPass
  rw [node]
  refine map_bind_comm fun a => ?_
  simp only [e_height, e_density, E_number]
  refine ite_comm (fun _ => ?_) fun _ => rfl
  rw [node]
  refine map_bind_comm fun b => ?_
  simp only [e_density, mergeNodes]
  exact ite_comm (fun _ => map_bind_comm fun _ => rfl) fun _ =>
    ite_comm (fun _ => map_bind_comm fun _ => rfl) fun _ => rfl

theorem insertNode (g : Grid α) (i : Int) (n : Node α) (k : Int) (hn : eN n = n) :
    ({ eG g with nodes := pyInsert (eG g).nodes i n, numberNodes := k } : Grid α) =
      eG { g with nodes := pyInsert g.nodes i n, numberNodes := k } := by
  have := pyInsert_map eN g.nodes i n
  rw [hn] at this
  show (⟨pyInsert (g.nodes.map eN) i n, _, _, _, _⟩ : Grid α) = ⟨(pyInsert g.nodes i n).map eN, _, _, _, _⟩
  rw [this]
  rfl

theorem correctLayerSplit (c : Consts α) (idx : Int) (m : α) (g : Grid α) :
    Grid.correctLayerSplit c idx m (eG g) = (Grid.correctLayerSplit c idx m g).map eG := by
  unfold Grid.correctLayerSplit
  rw [node]
  refine map_bind_comm fun a => ?_
  simp only [e_height, e_irr, e_lwc, e_temperature, e_ice]
  refine ite_comm (fun _ => ?_) fun _ => rfl
  refine bind_comm fun th => bind_comm fun l0 => bind_comm fun l1 => ?_
  rw [updateNode]
  refine map_bind_comm fun g => ?_
  rw [node]
  refine map_bind_comm fun b => ?_
  show Except.ok _ = Except.ok _
  congr 1
  exact insertNode g _ _ _ rfl

theorem correctLayer (fuel : Nat) (c : Consts α) (g : Grid α) (idx : Int) (m : α) :
    (eG g).correctLayer fuel c idx m = (g.correctLayer fuel c idx m).map eG := by
  unfold Grid.correctLayer
  rw [whileM_comm (φ := eG) (correctLayerPass c idx m)]
  exact map_bind_comm (correctLayerSplit c idx m)

/-- The state of `log_profile` with cleared refreezing amounts. -/
def L (s : Grid.LogState α) : Grid.LogState α := { s with g := eG s.g }

theorem logSnowPass (fuel : Nat) (c : Consts α) (s : Grid.LogState α) :
    Grid.logSnowPass fuel c (L s) = (Grid.logSnowPass fuel c s).map (Option.map L) := by
  unfold Grid.logSnowPass
  simp only [L, getNumberSnowLayers, correctLayer, mergeNodes]
  refine bind_comm fun n => ?_
  refine ite_comm (fun _ => ?_) fun _ => rfl
  exact ite_comm (fun _ => map_bind_comm fun _ => rfl) fun _ =>
    ite_comm (fun _ => map_bind_comm fun _ => rfl) fun _ => rfl

theorem logIcePass (fuel : Nat) (c : Consts α) (s : Grid.LogState α) :
    Grid.logIcePass fuel c (L s) = (Grid.logIcePass fuel c s).map (Option.map L) := by
  unfold Grid.logIcePass
  simp only [L, E_number, correctLayer, mergeNodes]
  refine ite_comm (fun _ => ?_) fun _ => rfl
  exact ite_comm (fun _ => map_bind_comm fun _ => rfl) fun _ =>
    ite_comm (fun _ => map_bind_comm fun _ => rfl) fun _ => rfl

theorem logProfile (fuel : Nat) (c : Consts α) (g : Grid α) : (eG g).logProfile fuel c = (g.logProfile fuel c).map eG := by
  unfold Grid.logProfile
  rw [getTotalSnowheight]
  refine bind_comm fun h => ?_
  have e1 := whileM_comm (φ := L) (logSnowPass fuel c) fuel ⟨g, h, c.firstLayerHeight, 0⟩
  change whileM _ fuel (⟨eG g, h, c.firstLayerHeight, 0⟩ : Grid.LogState α) = _ at e1
  rw [e1]
  refine map_bind_comm fun s => ?_
  simp only [L, getTotalHeight, getTotalSnowheight, getNumberSnowLayers]
  refine bind_comm fun t => bind_comm fun sn => bind_comm fun n => ?_
  have e2 := whileM_comm (φ := L) (logIcePass fuel c) fuel ⟨s.g, t - sn, s.last, (n : Int)⟩
  change whileM _ fuel (⟨eG s.g, t - sn, s.last, (n : Int)⟩ : Grid.LogState α) = _ at e2
  rw [e2]
  exact map_bind_comm fun _ => rfl

/-- The state of the snow loop of `adaptive_profile` with cleared refreezing amounts. -/
def A (s : Grid.AdaptState α) : Grid.AdaptState α := { s with g := eG s.g }

theorem adaptSnowPass (c : Consts α) (s : Grid.AdaptState α) :
    Grid.adaptSnowPass c (A s) = (Grid.adaptSnowPass c s).map (Option.map A) := by
  unfold Grid.adaptSnowPass
  simp only [A, getNumberSnowLayers, mergeNodes, removeNode]
  refine bind_comm fun n => ?_
  refine ite_comm (fun _ => ?_) fun _ => rfl
  rw [node]
  refine map_bind_comm fun a => ?_
  rw [node]
  refine map_bind_comm fun b => ?_
  simp only [e_temperature, e_density, e_height]
  exact ite_comm (fun _ => map_bind_comm fun _ => rfl) fun _ =>
    ite_comm (fun _ => map_bind_comm fun _ => rfl) fun _ => rfl

/-- A column and an index, with cleared refreezing amounts. -/
def P {β : Type} (s : Grid α × β) : Grid α × β := (eG s.1, s.2)

theorem adaptIcePass (c : Consts α) (s : Grid α × Int) :
    Grid.adaptIcePass c (P s) = (Grid.adaptIcePass c s).map (Option.map P) := by
  unfold Grid.adaptIcePass
  simp only [P, E_number, mergeNodes]
  refine ite_comm (fun _ => ?_) fun _ => rfl
  rw [node]
  refine map_bind_comm fun a => ?_
  simp only [e_height]
  exact ite_comm (fun _ => map_bind_comm fun _ => rfl) fun _ => rfl

theorem adaptiveProfile (fuel : Nat) (c : Consts α) (g : Grid α) :
    (eG g).adaptiveProfile fuel c = (g.adaptiveProfile fuel c).map eG := by
  unfold Grid.adaptiveProfile
  have e1 := whileM_comm (φ := A) (adaptSnowPass c) fuel ⟨g, 0, 0⟩
  change whileM _ fuel (⟨eG g, 0, 0⟩ : Grid.AdaptState α) = _ at e1
  rw [e1]
  refine map_bind_comm fun s => ?_
  simp only [A, getNumberSnowLayers]
  refine bind_comm fun n => ?_
  simp only [node, correctLayer]
  have e3 : ∀ p : Grid α × Int, (do
      let (g, _) ← whileM (Grid.adaptIcePass c) fuel (P p)
      g.correctLayer fuel c 0 c.firstLayerHeight : M (Grid α)) = (do
      let (g, _) ← whileM (Grid.adaptIcePass c) fuel p
      g.correctLayer fuel c 0 c.firstLayerHeight : M (Grid α)).map eG := by
    intro p
    rw [whileM_comm (φ := P) (adaptIcePass c)]
    exact map_bind_comm fun q => correctLayer ..
  rcases Classical.em (max 1 (n : Int) = 1) with h | h
  · simp only [if_pos h]
    rcases s.g.node 0 with err | a
    · rfl
    · simp only [Except.map, ok_bind]
      by_cases h2 : a.height < c.firstLayerHeight
      · have h3 : (eN a).height < c.firstLayerHeight := h2
        simp only [if_pos h2, if_pos h3]
        rcases s.g.correctLayer fuel c (max 1 (n : Int)) c.firstLayerHeight with err | g'
        · rfl
        · exact e3 (g', _)
      · have h3 : ¬ (eN a).height < c.firstLayerHeight := h2
        simp only [if_neg h2, if_neg h3]
        exact e3 (s.g, _)
  · simp only [if_neg h]
    rcases s.g.node 0 with err | a
    · rfl
    · exact e3 (s.g, _)

theorem updateGrid (fuel : Nat) (c : Consts α) (g : Grid α) : (eG g).updateGrid fuel c = (g.updateGrid fuel c).map eG := by
  have hr : (eG g).remesh fuel c = (g.remesh fuel c).map eG := by
    unfold Grid.remesh
    cases c.remeshMethod with
    | logProfile => exact logProfile ..
    | adaptiveProfile => exact adaptiveProfile ..
    | other => rfl
  unfold Grid.updateGrid
  rw [hr]
  refine map_bind_comm fun g => ?_
  rw [node]
  refine map_bind_comm fun a => ?_
  simp only [e_height]
  exact ite_comm (fun _ => removeNode ..) fun _ => rfl

/-- The state of `remove_melt_weq` with cleared refreezing amounts. -/
def W (s : Grid.MeltState α) : Grid.MeltState α := { s with g := eG s.g }

theorem removeMeltPass (c : Consts α) (idx : Int) (s : Grid.MeltState α) :
    Grid.removeMeltPass c idx (W s) = (Grid.removeMeltPass c idx s).map (Option.map W) := by
  unfold Grid.removeMeltPass
  simp only [W, E_number, removeNode]
  refine ite_comm (fun _ => ?_) fun _ => rfl
  rw [node]
  refine map_bind_comm fun a => ?_
  simp only [e_height, e_density, e_lwc]
  refine ite_comm (fun _ => bind_comm fun h => ?_) fun _ => ite_comm (fun _ => map_bind_comm fun _ => rfl) fun _ => rfl
  rw [setNodeHeight]
  exact map_bind_comm fun _ => rfl

theorem removeMeltWeq (fuel : Nat) (c : Consts α) (g : Grid α) (melt : α) :
    (eG g).removeMeltWeq fuel c melt = (g.removeMeltWeq fuel c melt).map P := by
  unfold Grid.removeMeltWeq
  have e1 := whileM_comm (φ := W) (removeMeltPass c 0) fuel ⟨g, melt, 0⟩
  change whileM _ fuel (⟨eG g, melt, 0⟩ : Grid.MeltState α) = _ at e1
  rw [e1]
  exact map_bind_comm fun s => rfl

/-! ## Modules -/

theorem applySnowfall (c : Consts α) (dt : α) (g : Grid α) (s rho t : α) :
    Cosipy.applySnowfall c dt (eG g) s rho t = eG (Cosipy.applySnowfall c dt g s rho t) := by
  unfold Cosipy.applySnowfall
  split_ifs
  · unfold Grid.addFreshSnow
    have := insertNode g 0 (Node.new c s rho (pyMin t c.zeroTemperature) 0 none) (g.numberNodes + 1) rfl
    simp only [E_number]
    rw [this]
    split_ifs <;> rfl
  · rfl

theorem percolateFrom : ∀ (ns : List (Node α)) (a : Node α),
    Cosipy.percolateFrom (eN a) (ns.map eN) = (Cosipy.percolateFrom a ns).map (List.map eN) := by
  intro ns
  induction ns with
  | nil => intro a; rfl
  | cons b ns ih =>
    intro a
    rw [List.map_cons]
    unfold Cosipy.percolateFrom
    simp only [e_irr, e_lwc, e_height]
    refine bind_comm fun th => ite_comm (fun _ => bind_comm fun q => ?_) fun _ => ?_
    · have : (eN b).setLwc (b.lwc + q) = eN (b.setLwc (b.lwc + q)) := rfl
      rw [this, ih]
      exact map_bind_comm fun _ => rfl
    · rw [ih]
      exact map_bind_comm fun _ => rfl

theorem percolation (g : Grid α) (w : α) : Cosipy.percolation (eG g) w = (Cosipy.percolation g w).map P := by
  unfold Cosipy.percolation
  rw [node]
  refine map_bind_comm fun top => ?_
  simp only [e_height, e_lwc]
  refine bind_comm fun q => ?_
  rw [setNodeLwc]
  refine map_bind_comm fun g => ?_
  have : percolateLayers (eG g).nodes = (percolateLayers g.nodes).map (List.map eN) := by
    show percolateLayers (g.nodes.map eN) = _
    cases g.nodes with
    | nil => rfl
    | cons a ns => exact percolateFrom ns a
  rw [this]
  refine map_bind_comm fun ns => ?_
  unfold getRunoff
  have h2 : ({ eG g with nodes := ns.map eN } : Grid α) = eG { g with nodes := ns } := rfl
  rw [h2]
  simp only [E_number]
  rw [node]
  refine map_bind_comm fun n => ?_
  rw [setNodeLwc]
  exact map_bind_comm fun _ => rfl

/-- Refreezing overwrites the amounts of all layers. -/
theorem refreezing (c : Consts α) (g : Grid α) : Cosipy.refreezing c (eG g) = Cosipy.refreezing c g := by
  have : ∀ (ns : List (Node α)) (acc : α), refreezeLayers c acc (ns.map eN) = refreezeLayers c acc ns := by
    intro ns
    induction ns with
    | nil => intro acc; rfl
    | cons n ns ih =>
      intro acc
      rw [List.map_cons]
      unfold refreezeLayers
      have h1 : refreezeLayer c (eN n) = refreezeLayer c n := rfl
      rw [h1]
      simp only [ih]
  unfold Cosipy.refreezing
  show (refreezeLayers c 0 (g.nodes.map eN) >>= _) = _
  rw [this]
  rfl

theorem updateRoughness (c : Consts α) (g : Grid α) : Cosipy.updateRoughness c (eG g) = Cosipy.updateRoughness c g := by
  unfold Cosipy.updateRoughness methodMoelg
  rw [node]
  cases c.roughnessMethod with
  | moelg12 => cases g.node 0 <;> rfl
  | other => rfl

theorem getSurfaceProperties (c : Consts α) (g : Grid α) :
    Cosipy.getSurfaceProperties c (eG g) = P (Cosipy.getSurfaceProperties c g) := by
  unfold Cosipy.getSurfaceProperties
  by_cases h : g.newSnowTimestamp / 3600.0 < c.albedoModSnowAging * 24 ∧ g.newSnowHeight ≤ 0
  · have h' : (eG g).newSnowTimestamp / 3600.0 < c.albedoModSnowAging * 24 ∧ (eG g).newSnowHeight ≤ 0 := h
    simp only [if_pos h, if_pos h']; rfl
  · have h' : ¬ ((eG g).newSnowTimestamp / 3600.0 < c.albedoModSnowAging * 24 ∧ (eG g).newSnowHeight ≤ 0) := h
    simp only [if_neg h, if_neg h']; rfl

theorem interpSubT (c : Consts α) (g : Grid α) : Cosipy.interpSubT c (eG g) = Cosipy.interpSubT c g := by
  have h : ∀ (cum : List α) (z : α), getSubsurfaceTemperature (eG g) cum z = getSubsurfaceTemperature g cum z := by
    intro cum z
    unfold getSubsurfaceTemperature
    congr 1
    funext i
    congr 1
    funext d
    simp only [node]
    cases g.node (i : Int) with
    | error _ => rfl
    | ok a =>
      simp only [Except.map, ok_bind]
      cases g.node (if z < d then (i : Int) - 1 else (i : Int) + 1) <;> rfl
  unfold Cosipy.interpSubT
  rw [getHeight]
  simp only [h]

variable [Transc α]

theorem updateAlbedo (c : Consts α) (g : Grid α) (t a : α) :
    Cosipy.updateAlbedo c (eG g) t a = (Cosipy.updateAlbedo c g t a).map P := by
  unfold Cosipy.updateAlbedo
  cases c.albedoMethod with
  | oerlemans98 =>
    have : methodOerlemans c (eG g) = (methodOerlemans c g).map P := by
      unfold methodOerlemans
      rw [getSurfaceProperties]
      simp only [P]
      rw [node]
      refine map_bind_comm fun top => ?_
      simp only [e_density, getTotalSnowheight]
      exact ite_comm (fun _ => bind_comm fun _ => rfl) fun _ => rfl
    simp only [this]
    exact map_bind_comm fun _ => rfl
  | bougamont05 =>
    show methodBougamont c (eG g) t a = (methodBougamont c g t a).map P
    unfold methodBougamont
    rw [getSurfaceProperties]
    simp only [P]
    rw [node]
    refine map_bind_comm fun top => ?_
    simp only [e_density, getTotalSnowheight]
    exact ite_comm (fun _ => bind_comm fun _ => rfl) fun _ => rfl
  | other => rfl

theorem penLayers (c : Consts α) (dt : α) : ∀ (ns : List (Node α)) (i : Int) (es : List α) (rm : List Int) (m : α),
    Cosipy.penLayers c dt i (ns.map eN) es rm m =
      (Cosipy.penLayers c dt i ns es rm m).map fun p => (p.1.map eN, p.2) := by
  intro ns
  induction ns with
  | nil => intros; rfl
  | cons a ns ih =>
    intro i es rm m
    cases ns with
    | nil => rfl
    | cons b ns =>
      cases es with
      | nil => rfl
      | cons x es =>
        have hp : penLayer c dt x (eN a) = (penLayer c dt x a).map fun p => (eN p.1, p.2) := by
          unfold penLayer
          simp only [e_density, e_height, e_temperature, e_ice, e_lwc]
          refine bind_comm fun q => bind_comm fun r => ite_comm (fun _ => bind_comm fun dh => ?_) fun _ => rfl
          exact ite_comm (fun _ => rfl) fun _ => bind_comm fun _ => rfl
        simp only [List.map_cons] at ih ⊢
        unfold Cosipy.penLayers
        rw [hp]
        rcases penLayer c dt x a with err | ⟨a', del, m'⟩
        · rfl
        · simp only [Except.map, ok_bind]
          rw [ih]
          rcases Cosipy.penLayers c dt (i + 1) (b :: ns) es (if del then rm ++ [i] else rm) (m + m') with err | ⟨_, _, _⟩ <;> rfl

theorem radiationStep (c : Consts α) (g : Grid α) (sw dt : α) :
    Cosipy.radiationStep c (eG g) sw dt = (Cosipy.radiationStep c g sw dt).map P := by
  unfold Cosipy.radiationStep
  refine ite_comm (fun _ => ?_) fun _ => rfl
  unfold penetratingRadiation
  cases c.penetratingMethod with
  | other => rfl
  | bintanja95 =>
    show methodBintanja c (eG g) sw dt = (methodBintanja c g sw dt).map P
    unfold methodBintanja
    rw [getDepth]
    refine bind_comm fun ds => ?_
    rw [node]
    refine map_bind_comm fun top => ?_
    have h1 : penCoeffs c (eN top) = penCoeffs c top := rfl
    have h2 : (eG g).nodes = g.nodes.map eN := rfl
    simp only [h1, h2, penLayers]
    rcases Cosipy.penLayers c dt 0 g.nodes (penEnergy (sw * (penCoeffs c top).1) (penCoeffs c top).2 ds) [] 0 with
      err | ⟨ns, rm, m⟩
    · rfl
    · simp only [Except.map, ok_bind]
      have h3 : ({ eG g with nodes := ns.map eN } : Grid α) = eG { g with nodes := ns } := rfl
      rw [h3, removeNode]
      refine ite_comm (fun _ => rfl) fun _ => ?_
      exact map_bind_comm fun _ => rfl

theorem ebFluxes (c : Consts α) (wrf : Bool) (g : Grid α) (i : EbInput α) (t0 : α) :
    Cosipy.ebFluxes c wrf (eG g) i t0 = Cosipy.ebFluxes c wrf g i t0 := by
  unfold Cosipy.ebFluxes
  simp only [node]
  refine bind_congr fun li => bind_congr fun p => ?_
  cases g.node 0 <;> rfl

theorem updateSurfaceTemperature (sv : Solvers α) (c : Consts α) (wrf : Bool) (g : Grid α) (mk : α → α → EbInput α)
    (sw : α) : Cosipy.updateSurfaceTemperature sv c wrf (eG g) mk sw =
      (Cosipy.updateSurfaceTemperature sv c wrf g mk sw).map P := by
  unfold Cosipy.updateSurfaceTemperature
  rw [interpSubT]
  refine bind_comm fun tz => ?_
  rw [node]
  refine map_bind_comm fun top => ?_
  simp only [e_temperature]
  have h : ∀ i, ebOptim c wrf (eG g) i sw = ebOptim c wrf g i sw := by
    intro i
    funext t0
    unfold ebOptim
    rw [ebFluxes]
  rw [h]
  refine bind_comm fun r => ?_
  rw [setNodeTemperature]
  refine map_bind_comm fun g => ?_
  rw [ebFluxes]
  exact bind_comm fun _ => rfl

/-- **A time step does not depend on the refreezing amounts of the layers.** -/
theorem step (sv : Solvers α) (fuel : Nat) (c : Consts α) (r : RunCfg α) (s : SimState α) (f : Forcing α) :
    Cosipy.step sv fuel c r { s with grid := eG s.grid } f = Cosipy.step sv fuel c r s f := by
  unfold Cosipy.step
  refine bind_congr fun sr => ?_
  simp only [applySnowfall]
  rw [updateGrid]
  rcases (Cosipy.applySnowfall c r.dt s.grid (thresholdPrecip c (freshSnowDensity c f) sr).1 (freshSnowDensity c f)
    f.t2).updateGrid fuel c with err | g
  · rfl
  simp only [Except.map, ok_bind, updateAlbedo]
  rcases Cosipy.updateAlbedo c g s.surfaceTemperature s.albedoSnow with err | ⟨g, al, asn⟩
  · rfl
  simp only [ok_bind, P, updateRoughness]
  rcases Cosipy.updateRoughness c g with err | z0
  · rfl
  simp only [ok_bind, radiationStep]
  rcases Cosipy.radiationStep c g (pyMax f.g 0 * (1 - al)) r.dt with err | ⟨g, sm, gp⟩
  · rfl
  simp only [Except.map, ok_bind, P, updateSurfaceTemperature]
  rcases Cosipy.updateSurfaceTemperature sv c r.wrf g _ _ with err | ⟨g, ts, fl⟩
  · rfl
  simp only [Except.map, ok_bind, P, removeMeltWeq]
  rcases g.removeMeltWeq fuel c _ with err | ⟨g, lo⟩
  · rfl
  simp only [Except.map, ok_bind, P, percolation]
  rcases Cosipy.percolation g _ with err | ⟨g, q⟩
  · rfl
  simp only [ok_bind, refreezing]

end Erase
end
end Cosipy
