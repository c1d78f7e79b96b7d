import Verif.Lemmas.Erase
import Verif.Lemmas.Arith
import Verif.Spec.Stretch

/-!
# Operations on a column whose layer thicknesses are all multiplied by the same factor
-/

set_option autoImplicit false
set_option linter.unusedSectionVars false

namespace Cosipy

theorem ite_comm' {γ δ : Type} {f : γ → δ} {p q : Prop} [Decidable p] [Decidable q] (hpq : p ↔ q) {a b : M δ} {a' b' : M γ}
    (h1 : q → a = a'.map f) (h2 : ¬ q → b = b'.map f) : (if p then a else b) = (if q then a' else b').map f := by
  by_cases h : q
  · rw [if_pos (hpq.2 h), if_pos h]; exact h1 h
  · rw [if_neg (mt hpq.1 h), if_neg h]; exact h2 h

theorem whileM_comm' {σ : Type} {φ : σ → σ} {body body' : σ → M (Option σ)}
    (h : ∀ s, body' (φ s) = (body s).map (Option.map φ)) :
    ∀ fuel s, whileM body' fuel (φ s) = (whileM body fuel s).map φ := by
  intro fuel
  induction fuel with
  | zero => intro s; rfl
  | succ n ih =>
    intro s
    unfold whileM
    rw [h]
    rcases body s with err | (_ | s')
    · rfl
    · rfl
    · exact ih s'

theorem pyModify_map' {β : Type} {e f f' : β → β} (h : ∀ n, f' (e n) = e (f n)) (xs : List β) (i : Int) :
    pyModify (xs.map e) i f' = (pyModify xs i f).map (List.map e) := by
  unfold pyModify
  rw [List.length_map]
  cases normIdx xs.length i with
  | none => rfl
  | some k =>
    show Except.ok _ = Except.ok _
    congr 1
    apply List.ext_getElem?
    intro j
    simp only [List.getElem?_modify, List.getElem?_map]
    cases xs[j]? with
    | none => simp
    | some x => by_cases hj : k = j <;> simp [hj, h]

section
variable {K : Type} [Field K] [LinearOrder K] [IsStrictOrderedRing K]

namespace Stretch

theorem fdiv_mul_left {l : K} (hl : l ≠ 0) (x y : K) : fdiv (l * x) (l * y) = fdiv x y := by
  unfold fdiv
  by_cases h : y = 0
  · simp [h]
  · have : l * y ≠ 0 := mul_ne_zero hl h
    simp [h, hl, mul_div_mul_left]

theorem fdiv_num (l x y : K) : fdiv (l * x) y = (fdiv x y).map (l * ·) := by
  unfold fdiv
  by_cases h : y = 0
  · simp [h, Except.map]
  · simp [h, Except.map, mul_div_assoc]

variable {l : K} (hl : 0 < l)

theorem s_density (c : Consts K) (n : Node K) : (n.stretch l).density (c.stretch l) = n.density c := rfl
theorem s_irr (n : Node K) : (n.stretch l).irreducibleWaterContent = n.irreducibleWaterContent := rfl
theorem s_height (n : Node K) : (n.stretch l).height = l * n.height := rfl
theorem s_temperature (n : Node K) : (n.stretch l).temperature = n.temperature := rfl
theorem s_lwc (n : Node K) : (n.stretch l).lwc = n.lwc := rfl
theorem s_ice (n : Node K) : (n.stretch l).iceFraction = n.iceFraction := rfl
theorem s_number (g : Grid K) : (g.stretch l).numberNodes = g.numberNodes := rfl
theorem s_threshold (c : Consts K) : (c.stretch l).snowIceThreshold = c.snowIceThreshold := rfl
theorem s_water (c : Consts K) : (c.stretch l).waterDensity = c.waterDensity := rfl

theorem node (g : Grid K) (i : Int) : (g.stretch l).node i = (g.node i).map (Node.stretch l) :=
  pyGet_map _ g.nodes i

theorem modifyNode (g : Grid K) (i : Int) {f f' : Node K → Node K} (h : ∀ n, f' (n.stretch l) = (f n).stretch l) :
    (g.stretch l).modifyNode i f' = (g.modifyNode i f).map (Grid.stretch l) := by
  unfold Grid.modifyNode
  have : pyModify (g.stretch l).nodes i f' = (pyModify g.nodes i f).map (List.map (Node.stretch l)) :=
    pyModify_map' h g.nodes i
  rw [this]
  exact map_bind_comm (φ := List.map (Node.stretch l)) fun _ => rfl

theorem setNodeHeight (g : Grid K) (i : Int) (x : K) :
    (g.stretch l).setNodeHeight i (l * x) = (g.setNodeHeight i x).map (Grid.stretch l) :=
  modifyNode g i (f := Node.setHeight x) fun _ => rfl
theorem setNodeTemperature (g : Grid K) (i : Int) (x : K) :
    (g.stretch l).setNodeTemperature i x = (g.setNodeTemperature i x).map (Grid.stretch l) :=
  modifyNode g i (f := Node.setTemperature x) fun _ => rfl
theorem setNodeLwc (g : Grid K) (i : Int) (x : K) :
    (g.stretch l).setNodeLwc i x = (g.setNodeLwc i x).map (Grid.stretch l) :=
  modifyNode g i (f := Node.setLwc x) fun _ => rfl
theorem setNodeIceFraction (g : Grid K) (i : Int) (x : K) :
    (g.stretch l).setNodeIceFraction i x = (g.setNodeIceFraction i x).map (Grid.stretch l) :=
  modifyNode g i (f := Node.setIceFraction x) fun _ => rfl

theorem removeNode (g : Grid K) (idx : List Int) :
    (g.stretch l).removeNode idx = (g.removeNode idx).map (Grid.stretch l) := by
  unfold Grid.removeNode
  have e1 : (g.stretch l).nodes.isEmpty = g.nodes.isEmpty := by
    show (g.nodes.map (Node.stretch l)).isEmpty = _
    cases g.nodes <;> rfl
  rw [e1]
  refine ite_comm (fun _ => rfl) fun _ => ite_comm (fun _ => ?_) fun _ => ?_
  · show Except.ok _ = Except.ok _
    congr 1
    show (⟨(g.nodes.map (Node.stretch l)).tail, _, _, _, _⟩ : Grid K) = ⟨g.nodes.tail.map (Node.stretch l), _, _, _, _⟩
    rw [List.map_tail]
    rfl
  · have : ∀ is : List Int, is.foldlM pyDel (g.stretch l).nodes =
        (is.foldlM pyDel g.nodes).map (List.map (Node.stretch l)) := fun is =>
      foldlM_comm (φ := List.map (Node.stretch l)) (fun s i => pyDel_map _ s i) is g.nodes
    rw [this]
    exact map_bind_comm fun _ => rfl

theorem updateNode (g : Grid K) (idx : Int) (h t f w : K) :
    (g.stretch l).updateNode idx (l * h) t f w = (g.updateNode idx h t f w).map (Grid.stretch l) := by
  unfold Grid.updateNode
  rw [setNodeHeight]
  refine map_bind_comm fun g => ?_
  rw [setNodeTemperature]
  refine map_bind_comm fun g => ?_
  rw [setNodeIceFraction]
  exact map_bind_comm fun g => setNodeLwc ..

include hl in
theorem mergeNodes (g : Grid K) (idx : Int) :
    (g.stretch l).mergeNodes idx = (g.mergeNodes idx).map (Grid.stretch l) := by
  unfold Grid.mergeNodes
  rw [node]
  refine map_bind_comm fun a => ?_
  rw [node]
  refine map_bind_comm fun b => ?_
  simp only [s_height, s_temperature, s_lwc, s_ice]
  have e1 : a.lwc * (l * a.height) + b.lwc * (l * b.height) = l * (a.lwc * a.height + b.lwc * b.height) := by ring
  have e2 : a.iceFraction * (l * a.height) + b.iceFraction * (l * b.height) =
      l * (a.iceFraction * a.height + b.iceFraction * b.height) := by ring
  rw [← mul_add, e1, e2, fdiv_mul_left hl.ne', fdiv_mul_left hl.ne', fdiv_mul_left hl.ne', fdiv_mul_left hl.ne']
  refine bind_comm fun w => bind_comm fun i => bind_comm fun wa => bind_comm fun wb => ?_
  rw [updateNode]
  exact map_bind_comm fun g => removeNode g _

include hl in
theorem correctLayerPass (c : Consts K) (idx : Int) (m : K) (g : Grid K) :
    Grid.correctLayerPass (c.stretch l) idx (l * m) (g.stretch l) =
      (Grid.correctLayerPass c idx m g).map (Option.map (Grid.stretch l)) := by
  unfold Grid.correctLayerPass
  rw [node]
  refine map_bind_comm fun a => ?_
  simp only [s_height, s_density, s_number, s_threshold]
  refine ite_comm' (by rw [mul_lt_mul_iff_right₀ hl]) (fun _ => ?_) fun _ => rfl
  rw [node]
  refine map_bind_comm fun b => ?_
  simp only [s_density, mergeNodes hl]
  exact ite_comm (fun _ => map_bind_comm fun _ => rfl) fun _ =>
    ite_comm (fun _ => map_bind_comm fun _ => rfl) fun _ => rfl

theorem new (c c' : Consts K) (h d d' t w f : K) :
    Node.new c' (l * h) d' t w (some f) = (Node.new c h d t w (some f)).stretch l := by
  simp [Node.new, Node.stretch]

theorem insertNode (g : Grid K) (i : Int) (n : Node K) (k : Int) :
    ({ g.stretch l with nodes := pyInsert (g.stretch l).nodes i (n.stretch l), numberNodes := k } : Grid K) =
      ({ g with nodes := pyInsert g.nodes i n, numberNodes := k } : Grid K).stretch l := by
  have := pyInsert_map (Node.stretch l) g.nodes i n
  show (⟨pyInsert (g.nodes.map (Node.stretch l)) i (n.stretch l), _, _, _, _⟩ : Grid K) =
    ⟨(pyInsert g.nodes i n).map (Node.stretch l), _, _, _, _⟩
  rw [this]
  rfl

include hl in
theorem correctLayerSplit (c : Consts K) (idx : Int) (m : K) (g : Grid K) :
    Grid.correctLayerSplit (c.stretch l) idx (l * m) (g.stretch l) =
      (Grid.correctLayerSplit c idx m g).map (Grid.stretch l) := by
  unfold Grid.correctLayerSplit
  rw [node]
  refine map_bind_comm fun a => ?_
  simp only [s_height, s_irr]
  refine ite_comm' (by rw [mul_lt_mul_iff_right₀ hl]) (fun _ => ?_) fun _ => rfl
  refine bind_comm fun th => ?_
  have e0 : (if 0 < (a.stretch l).lwc - th then th * (l * a.height) else (a.stretch l).lwc * (l * a.height)) =
      l * (if 0 < a.lwc - th then th * a.height else a.lwc * a.height) := by
    rw [show (a.stretch l).lwc = a.lwc from rfl]; split_ifs <;> ring
  have e1 : (if 0 < (a.stretch l).lwc - th then (a.stretch l).lwc * (l * a.height) - th * (l * a.height) else 0) =
      l * (if 0 < a.lwc - th then a.lwc * a.height - th * a.height else 0) := by
    rw [show (a.stretch l).lwc = a.lwc from rfl]; split_ifs <;> ring
  rw [e0, e1, ← mul_sub, fdiv_mul_left hl.ne', fdiv_mul_left hl.ne']
  refine bind_comm fun l0 => bind_comm fun l1 => ?_
  rw [updateNode]
  refine map_bind_comm fun g => ?_
  rw [node]
  refine map_bind_comm fun b => ?_
  show Except.ok _ = Except.ok _
  congr 1
  rw [new c (c.stretch l) (a.height - m) (b.density c)]
  exact insertNode g _ _ _

include hl in
theorem correctLayer (fuel : Nat) (c : Consts K) (g : Grid K) (idx : Int) (m : K) :
    (g.stretch l).correctLayer fuel (c.stretch l) idx (l * m) = (g.correctLayer fuel c idx m).map (Grid.stretch l) := by
  unfold Grid.correctLayer
  rw [whileM_comm' (φ := Grid.stretch l) (correctLayerPass hl c idx m)]
  exact map_bind_comm (correctLayerSplit hl c idx m)

theorem mapNodes {β : Type} (g : Grid K) {f f' : Node K → M β} (h : ∀ n, f' (n.stretch l) = f n) :
    (g.stretch l).mapNodes f' = g.mapNodes f := by
  unfold Grid.mapNodes
  rw [s_number]
  congr 1
  funext i
  rw [node]
  cases g.node (i : Int) with
  | error _ => rfl
  | ok n => exact h n

theorem mapM_map {ι β γ : Type} {φ : β → γ} {f : ι → M β} {f' : ι → M γ} (h : ∀ i, f' i = (f i).map φ) :
    ∀ is : List ι, is.mapM f' = (is.mapM f).map (List.map φ) := by
  intro is
  induction is with
  | nil => rfl
  | cons i is ih =>
    rw [List.mapM_cons, List.mapM_cons, ih, h]
    cases f i with
    | error _ => rfl
    | ok b => cases is.mapM f <;> rfl

theorem mapNodes_map {β γ : Type} {φ : β → γ} (g : Grid K) {f : Node K → M β} {f' : Node K → M γ}
    (h : ∀ n, f' (n.stretch l) = (f n).map φ) : (g.stretch l).mapNodes f' = (g.mapNodes f).map (List.map φ) := by
  unfold Grid.mapNodes
  rw [s_number]
  refine mapM_map (fun i => ?_) _
  rw [node]
  cases g.node (i : Int) with
  | error _ => rfl
  | ok n => exact h n

theorem getDensity (c : Consts K) (g : Grid K) : (g.stretch l).getDensity (c.stretch l) = g.getDensity c :=
  mapNodes g fun _ => rfl

theorem getNumberSnowLayers (c : Consts K) (g : Grid K) :
    (g.stretch l).getNumberSnowLayers (c.stretch l) = g.getNumberSnowLayers c := by
  unfold Grid.getNumberSnowLayers
  rw [getDensity]
  rfl

theorem pySum_map (l : K) (xs : List K) : pySum (xs.map (l * ·)) = l * pySum xs := by
  have : ∀ (xs : List K) (s : K), (xs.map (l * ·)).foldl (· + ·) (l * s) = l * xs.foldl (· + ·) s := by
    intro xs
    induction xs with
    | nil => intro s; rfl
    | cons x xs ih => intro s; simp only [List.map_cons, List.foldl_cons]; rw [← mul_add]; exact ih _
  simpa [pySum] using this xs 0

theorem getTotalHeight (g : Grid K) : (g.stretch l).getTotalHeight = (g.getTotalHeight).map (l * ·) := by
  unfold Grid.getTotalHeight Grid.getHeight
  rw [mapNodes_map (φ := (l * ·)) (f := fun n => .ok n.height) g fun _ => rfl]
  refine map_bind_comm fun hs => ?_
  show Except.ok _ = Except.ok _
  rw [pySum_map]

theorem getTotalSnowheight (c : Consts K) (g : Grid K) :
    (g.stretch l).getTotalSnowheight (c.stretch l) = (g.getTotalSnowheight c).map (l * ·) := by
  unfold Grid.getTotalSnowheight Grid.getSnowHeights
  rw [getNumberSnowLayers]
  have e : ∀ n : Nat, ((List.range n).mapM fun (i : Nat) => do
      let nd ← (g.stretch l).node (i : Int); return nd.height : M (List K)) =
      ((List.range n).mapM fun (i : Nat) => do let nd ← g.node (i : Int); return nd.height : M (List K)).map
        (List.map (l * ·)) := fun n => mapM_map (fun i => by rw [node]; cases g.node (i : Int) <;> rfl) _
  simp only [e]
  cases g.getNumberSnowLayers c with
  | error _ => rfl
  | ok n =>
    simp only [ok_bind]
    refine map_bind_comm fun hs => ?_
    show Except.ok _ = Except.ok _
    rw [pySum_map]

/-- The state of `log_profile` for the stretched column. -/
def L (l : K) (s : Grid.LogState K) : Grid.LogState K := ⟨s.g.stretch l, l * s.hrest, l * s.last, s.idx⟩

include hl in
theorem logSnowPass (fuel : Nat) (c : Consts K) (s : Grid.LogState K) :
    Grid.logSnowPass fuel (c.stretch l) (L l s) = (Grid.logSnowPass fuel c s).map (Option.map (L l)) := by
  unfold Grid.logSnowPass
  simp only [L, getNumberSnowLayers, correctLayer hl, mergeNodes hl]
  refine bind_comm fun n => ?_
  refine ite_comm (fun _ => ?_) fun _ => rfl
  refine ite_comm' (by rw [mul_le_mul_iff_right₀ hl]) (fun _ => map_bind_comm fun _ => ?_) fun _ =>
    ite_comm' (by rw [mul_lt_mul_iff_right₀ hl]) (fun _ => map_bind_comm fun _ => rfl) fun _ => rfl
  show Except.ok _ = Except.ok _
  simp only [Option.map, L]
  congr 3
  · ring
  · show c.layerStretching * (l * s.last) = _; ring

include hl in
theorem logIcePass (fuel : Nat) (c : Consts K) (s : Grid.LogState K) :
    Grid.logIcePass fuel (c.stretch l) (L l s) = (Grid.logIcePass fuel c s).map (Option.map (L l)) := by
  unfold Grid.logIcePass
  simp only [L, s_number, correctLayer hl, mergeNodes hl]
  refine ite_comm (fun _ => ?_) fun _ => rfl
  refine ite_comm' (by rw [mul_le_mul_iff_right₀ hl]) (fun _ => map_bind_comm fun _ => ?_) fun _ =>
    ite_comm' (by rw [mul_lt_mul_iff_right₀ hl]) (fun _ => map_bind_comm fun _ => rfl) fun _ => rfl
  show Except.ok _ = Except.ok _
  simp only [Option.map, L]
  congr 3
  · ring
  · show c.layerStretching * (l * s.last) = _; ring

include hl in
theorem logProfile (fuel : Nat) (c : Consts K) (g : Grid K) :
    (g.stretch l).logProfile fuel (c.stretch l) = (g.logProfile fuel c).map (Grid.stretch l) := by
  unfold Grid.logProfile
  rw [getTotalSnowheight]
  refine map_bind_comm fun h => ?_
  have e1 := whileM_comm' (φ := L l) (logSnowPass hl fuel c) fuel ⟨g, h, c.firstLayerHeight, 0⟩
  change whileM _ fuel (⟨g.stretch l, l * h, l * c.firstLayerHeight, 0⟩ : Grid.LogState K) = _ at e1
  show (whileM _ fuel (⟨g.stretch l, l * h, l * c.firstLayerHeight, 0⟩ : Grid.LogState K) >>= _) = _
  rw [e1]
  refine map_bind_comm fun s => ?_
  simp only [L, getTotalHeight, getTotalSnowheight, getNumberSnowLayers]
  refine map_bind_comm fun t => map_bind_comm fun sn => bind_comm fun n => ?_
  have e2 := whileM_comm' (φ := L l) (logIcePass hl fuel c) fuel ⟨s.g, t - sn, s.last, (n : Int)⟩
  change whileM _ fuel (⟨s.g.stretch l, l * (t - sn), l * s.last, (n : Int)⟩ : Grid.LogState K) = _ at e2
  rw [← mul_sub, e2]
  exact map_bind_comm fun _ => rfl

/-- The state of the melt removal loop for the stretched column. -/
def Mt (l : K) (s : Grid.MeltState K) : Grid.MeltState K := ⟨s.g.stretch l, l * s.melt, l * s.lwcFromLayers⟩

include hl in
theorem removeMeltPass (c : Consts K) (idx : Int) (s : Grid.MeltState K) :
    Grid.removeMeltPass (c.stretch l) idx (Mt l s) = (Grid.removeMeltPass c idx s).map (Option.map (Mt l)) := by
  unfold Grid.removeMeltPass
  simp only [Mt, s_number]
  refine ite_comm' (by rw [mul_pos_iff_of_pos_left hl]) (fun _ => ?_) fun _ => rfl
  rw [node]
  refine map_bind_comm fun a => ?_
  simp only [s_height, s_density, s_lwc, s_water]
  have e : l * a.height * (a.density c / c.waterDensity) = l * (a.height * (a.density c / c.waterDensity)) := by ring
  simp only [e]
  refine ite_comm' (by rw [mul_lt_mul_iff_right₀ hl]) (fun _ => ?_) fun _ =>
    ite_comm' (by rw [mul_le_mul_iff_right₀ hl]) (fun _ => ?_) fun _ => rfl
  · rw [← mul_sub, fdiv_num]
    refine map_bind_comm fun h => ?_
    rw [setNodeHeight]
    refine map_bind_comm fun g => ?_
    show Except.ok _ = Except.ok _
    simp [Mt]
  · rw [removeNode]
    refine map_bind_comm fun g => ?_
    show Except.ok _ = Except.ok _
    simp only [Option.map, Mt]
    congr 3 <;> ring

include hl in
theorem removeMeltWeq (fuel : Nat) (c : Consts K) (g : Grid K) (m : K) (idx : Int) :
    (g.stretch l).removeMeltWeq fuel (c.stretch l) (l * m) idx =
      (g.removeMeltWeq fuel c m idx).map fun r => (r.1.stretch l, l * r.2) := by
  unfold Grid.removeMeltWeq
  have e1 := whileM_comm' (φ := Mt l) (removeMeltPass hl c idx) fuel ⟨g, m, 0⟩
  have e0 : Mt l (⟨g, m, 0⟩ : Grid.MeltState K) = ⟨g.stretch l, l * m, 0⟩ := by simp [Mt]
  rw [e0] at e1
  rw [e1]
  refine map_bind_comm fun s => ?_
  show Except.ok _ = Except.ok _
  congr 1
  simp only [Mt]
  split_ifs
  · have : (s.g.stretch l).setFreshSnowPropsHeight ((s.g.stretch l).newSnowHeight - l * s.melt) =
        (s.g.setFreshSnowPropsHeight (s.g.newSnowHeight - s.melt)).stretch l := by
      simp only [Grid.setFreshSnowPropsHeight, Grid.stretch]
      congr 1; ring
    rw [this]
  · rfl

include hl in
theorem percolateFrom (a : Node K) (ns : List (Node K)) :
    Cosipy.percolateFrom (a.stretch l) (ns.map (Node.stretch l)) =
      (Cosipy.percolateFrom a ns).map (List.map (Node.stretch l)) := by
  induction ns generalizing a with
  | nil => rfl
  | cons b rest ih =>
    rw [List.map_cons, Cosipy.percolateFrom, Cosipy.percolateFrom]
    simp only [s_irr, s_lwc, s_height]
    refine bind_comm fun th => ?_
    refine ite_comm (fun _ => ?_) fun _ => ?_
    · have e : pyMax (a.lwc - th) 0 * (l * a.height) = l * (pyMax (a.lwc - th) 0 * a.height) := by ring
      rw [e, fdiv_mul_left hl.ne']
      refine bind_comm fun q => ?_
      have e2 : (b.stretch l).setLwc (b.lwc + q) = (b.setLwc (b.lwc + q)).stretch l := rfl
      rw [e2, ih]
      exact map_bind_comm fun _ => rfl
    · rw [ih]
      exact map_bind_comm fun _ => rfl

theorem getRunoff (g : Grid K) :
    Cosipy.getRunoff (g.stretch l) = (Cosipy.getRunoff g).map fun r => (r.1.stretch l, l * r.2) := by
  unfold Cosipy.getRunoff
  simp only [node, s_number]
  refine map_bind_comm fun n => ?_
  rw [setNodeLwc]
  refine map_bind_comm fun g => ?_
  show Except.ok _ = Except.ok _
  simp only [s_lwc, s_height]
  congr 2; ring

include hl in
theorem percolation (g : Grid K) (w : K) :
    Cosipy.percolation (g.stretch l) (l * w) = (Cosipy.percolation g w).map fun r => (r.1.stretch l, l * r.2) := by
  unfold Cosipy.percolation
  rw [node]
  refine map_bind_comm fun top => ?_
  simp only [s_height, s_lwc]
  rw [fdiv_mul_left hl.ne']
  refine bind_comm fun q => ?_
  rw [setNodeLwc]
  refine map_bind_comm fun g => ?_
  have e : percolateLayers (g.stretch l).nodes = (percolateLayers g.nodes).map (List.map (Node.stretch l)) := by
    show percolateLayers (g.nodes.map _) = _
    cases g.nodes with
    | nil => rfl
    | cons a rest => exact percolateFrom hl a rest
  rw [e]
  refine map_bind_comm fun ns => ?_
  exact getRunoff ({ g with nodes := ns } : Grid K)

theorem refreezeLayer (c : Consts K) (n : Node K) :
    Cosipy.refreezeLayer (c.stretch l) (n.stretch l) =
      (Cosipy.refreezeLayer c n).map fun r => (r.1.stretch l, l * r.2) := by
  unfold Cosipy.refreezeLayer
  refine ite_comm (fun _ => ?_) fun _ => ?_
  · show (refreezeAmount c n >>= _) = _
    refine bind_comm fun d => ?_
    show (checkOob _ _ >>= _) = _
    refine bind_comm fun _ => ?_
    show (fdiv (d * (c.waterDensity * c.latHeatMelting)) ((c.specHeatIce * c.iceDensity * _) + (c.specHeatWater * c.waterDensity * _)) >>= _) = _
    refine bind_comm fun dT => ?_
    refine ite_comm (fun _ => rfl) fun _ => ?_
    show Except.ok _ = Except.ok _
    simp only [Node.stretch, Node.setRefreeze, Node.setTemperature, Node.setIceFraction, Node.setLwc]
    congr 2
    · congr 1; ring
    · ring
  · show Except.ok _ = Except.ok _
    simp [Node.stretch, Node.setRefreeze]

theorem refreezeLayers (c : Consts K) (ns : List (Node K)) (acc : K) :
    Cosipy.refreezeLayers (c.stretch l) (l * acc) (ns.map (Node.stretch l)) =
      (Cosipy.refreezeLayers c acc ns).map fun r => (r.1.map (Node.stretch l), l * r.2) := by
  induction ns generalizing acc with
  | nil => rfl
  | cons n ns ih =>
    rw [List.map_cons, Cosipy.refreezeLayers, Cosipy.refreezeLayers, refreezeLayer]
    cases Cosipy.refreezeLayer c n with
    | error _ => rfl
    | ok r =>
      show ((Cosipy.refreezeLayers (c.stretch l) (l * acc + l * r.2) (ns.map (Node.stretch l))) >>= _) = _
      rw [← mul_add, ih]
      show _ = Except.map _ (Cosipy.refreezeLayers c (acc + r.2) ns >>= _)
      cases Cosipy.refreezeLayers c (acc + r.2) ns <;> rfl

theorem refreezing (c : Consts K) (g : Grid K) :
    Cosipy.refreezing (c.stretch l) (g.stretch l) =
      (Cosipy.refreezing c g).map fun r => (r.1.stretch l, l * r.2) := by
  unfold Cosipy.refreezing
  have := refreezeLayers (l := l) c g.nodes 0
  rw [mul_zero] at this
  show (Cosipy.refreezeLayers (c.stretch l) 0 (g.nodes.map (Node.stretch l)) >>= _) = _
  rw [this]
  cases Cosipy.refreezeLayers c 0 g.nodes <;> rfl

/-- A heat cell of the stretched column. -/
def H (l : K) (a : HeatCell K) : HeatCell K := ⟨l * a.h, a.k, a.t⟩

theorem dist (a b : HeatCell K) : (H l a).dist (H l b) = l * a.dist b := by
  unfold HeatCell.dist H; simp only; rw [← mul_add, mul_div_assoc]

include hl in
theorem heatNewT (dt : K) (a b d : HeatCell K) :
    Cosipy.heatNewT (l * l * dt) (H l a) (H l b) (H l d) = Cosipy.heatNewT dt a b d := by
  unfold Cosipy.heatNewT
  simp only [dist]
  have hd1 : (H l b).diffusivity (H l d) = b.diffusivity d := rfl
  have hd2 : (H l a).diffusivity (H l b) = a.diffusivity b := rfl
  have ht : ∀ x : HeatCell K, (H l x).t = x.t := fun _ => rfl
  rw [hd1, hd2, ht, ht, ht]
  have e : ∀ x y z : K, x * (l * l * dt) * y / (l * z) = l * (x * dt * y / z) := by
    intro x y z
    have : x * (l * l * dt) * y = l * (l * (x * dt * y)) := by ring
    rw [this, mul_div_mul_left _ _ hl.ne', mul_div_assoc]
  have e2 : (0.5 : K) * (l * a.dist b + l * b.dist d) = l * (0.5 * (a.dist b + b.dist d)) := by
    rw [← mul_add]; exact mul_left_comm _ _ _
  rw [e, e, ← mul_sub, e2, mul_div_mul_left _ _ hl.ne']

include hl in
theorem heatBelow (dt : K) : ∀ cs : List (HeatCell K),
    Cosipy.heatBelow (l * l * dt) (cs.map (H l)) = (Cosipy.heatBelow dt cs).map (H l)
  | [] => rfl
  | [_] => rfl
  | [_, _] => rfl
  | a :: b :: d :: rest => by
    have ih := heatBelow dt (b :: d :: rest)
    simp only [List.map_cons] at ih ⊢
    rw [Cosipy.heatBelow, Cosipy.heatBelow, ih, heatNewT hl]
    rfl

include hl in
theorem heatPass (dt : K) (cs : List (HeatCell K)) :
    Cosipy.heatPass (l * l * dt) (cs.map (H l)) = (Cosipy.heatPass dt cs).map (H l) := by
  cases cs with
  | nil => rfl
  | cons a rest =>
    have := heatBelow hl dt (a :: rest)
    simp only [List.map_cons] at this ⊢
    rw [Cosipy.heatPass, Cosipy.heatPass, this, List.map_cons]

theorem heatIfaces : ∀ cs : List (HeatCell K),
    Cosipy.heatIfaces (cs.map (H l)) = (Cosipy.heatIfaces cs).map (l * l * ·)
  | [] => rfl
  | [_] => rfl
  | a :: b :: rest => by
    have ih := heatIfaces (b :: rest)
    simp only [List.map_cons] at ih ⊢
    rw [Cosipy.heatIfaces, Cosipy.heatIfaces, ih, List.map_cons, dist]
    congr 1
    show l * a.dist b * (l * a.dist b) / a.diffusivity b = _
    ring

theorem pyMin_mul {m : K} (hm : 0 < m) (a b : K) : pyMin (m * a) (m * b) = m * pyMin a b := by
  unfold pyMin
  by_cases h : b < a
  · rw [if_pos h, if_pos ((mul_lt_mul_iff_right₀ hm).2 h)]
  · rw [if_neg h, if_neg (mt (mul_lt_mul_iff_right₀ hm).1 h)]

theorem pyMinList_map {m : K} (hm : 0 < m) (xs : List K) :
    pyMinList (xs.map (m * ·)) = (pyMinList xs).map (m * ·) := by
  cases xs with
  | nil => rfl
  | cons x xs =>
    show Except.ok _ = Except.ok _
    congr 1
    induction xs generalizing x with
    | nil => rfl
    | cons y ys ih =>
      simp only [List.map_cons, List.foldl_cons]
      rw [pyMin_mul hm]
      exact ih _

include hl in
theorem heatDtStab (cs : List (HeatCell K)) :
    Cosipy.heatDtStab (cs.map (H l)) = (Cosipy.heatDtStab cs).map (l * l * ·) := by
  unfold Cosipy.heatDtStab
  have hm : 0 < l * l := mul_pos hl hl
  rw [heatIfaces, ← List.map_dropLast, ← List.map_tail, pyMinList_map hm, pyMinList_map hm]
  refine map_bind_comm fun up => map_bind_comm fun lo => ?_
  show Except.ok _ = Except.ok _
  rw [pyMin_mul hm]
  congr 1
  rw [mul_div_assoc]; exact mul_left_comm _ _ _

/-- The state of the sub-stepping loop for the stretched column. -/
def S (l : K) (s : K × List (HeatCell K)) : K × List (HeatCell K) := (l * l * s.1, s.2.map (H l))

include hl in
theorem heatLoopPass (dt stab : K) (s : K × List (HeatCell K)) :
    Cosipy.heatLoopPass (l * l * dt) (l * l * stab) (S l s) = (Cosipy.heatLoopPass dt stab s).map (Option.map (S l)) := by
  unfold Cosipy.heatLoopPass
  have hm : 0 < l * l := mul_pos hl hl
  simp only [S]
  refine ite_comm' (by rw [mul_lt_mul_iff_right₀ hm]) (fun _ => ?_) fun _ => rfl
  rw [← mul_sub, pyMin_mul hm, heatPass hl, ← mul_add]
  rfl

theorem setTemperatures (g : Grid K) (ts : List K) :
    (g.stretch l).setAll Node.setTemperature ts = (g.setAll Node.setTemperature ts).map (Grid.stretch l) := by
  unfold Grid.setAll
  rw [s_number]
  refine foldlM_comm (φ := Grid.stretch l) (fun g i => ?_) _ g
  exact bind_comm fun t => modifyNode g _ fun _ => rfl

include hl in
theorem solveHeatEquation (fuel : Nat) (c : Consts K) (g : Grid K) (dt : K) :
    Cosipy.solveHeatEquation fuel (c.stretch l) (g.stretch l) (l * l * dt) =
      (Cosipy.solveHeatEquation fuel c g dt).map (Grid.stretch l) := by
  unfold Cosipy.solveHeatEquation
  rw [mapNodes_map (φ := H l) (f := fun n => do
    let k ← n.thermalDiffusivity c
    return HeatCell.mk n.height k n.temperature) g (fun n => by
      show (n.thermalDiffusivity c >>= _) = _
      exact bind_comm fun _ => rfl)]
  refine map_bind_comm fun cells => ?_
  rw [heatDtStab hl]
  refine map_bind_comm fun stab => ?_
  have e := whileM_comm' (φ := S l) (heatLoopPass hl dt stab) fuel (0, cells)
  have e0 : S l (0, cells) = (0, cells.map (H l)) := by simp [S]
  rw [e0] at e
  rw [e]
  refine map_bind_comm fun s => ?_
  show (g.stretch l).setAll _ (((S l s).2).map HeatCell.t) = _
  have : ((S l s).2).map HeatCell.t = s.2.map HeatCell.t := by simp [S, H, Function.comp_def]
  rw [this, setTemperatures]

include hl in
theorem updateGrid (fuel : Nat) (c : Consts K) (hm : c.remeshMethod ≠ .adaptiveProfile) (g : Grid K) :
    (g.stretch l).updateGrid fuel (c.stretch l) = (g.updateGrid fuel c).map (Grid.stretch l) := by
  unfold Grid.updateGrid
  have e : (g.stretch l).remesh fuel (c.stretch l) = (g.remesh fuel c).map (Grid.stretch l) := by
    unfold Grid.remesh
    show (match c.remeshMethod with
      | .logProfile => _
      | .adaptiveProfile => _
      | .other => _) = _
    cases h : c.remeshMethod with
    | logProfile => exact logProfile hl fuel c g
    | adaptiveProfile => exact absurd h hm
    | other => rfl
  rw [e]
  refine map_bind_comm fun g => ?_
  rw [node]
  refine map_bind_comm fun a => ?_
  refine ite_comm' ?_ (fun _ => removeNode g _) fun _ => rfl
  show l * a.height < l * c.minimumSnowLayerHeight ↔ _
  rw [mul_lt_mul_iff_right₀ hl]

theorem splitNode (c : Consts K) (g : Grid K) (pos : Int) :
    (g.stretch l).splitNode (c.stretch l) pos = (g.splitNode c pos).map (Grid.stretch l) := by
  unfold Grid.splitNode
  rw [node]
  refine map_bind_comm fun a => ?_
  simp only [s_height, s_temperature, s_lwc, s_ice, s_density, mul_div_assoc]
  rw [new c (c.stretch l) (a.height / 2.0) (a.density c) (a.density c)]
  let F : Grid K → M (Grid K) := fun g => do
    let b ← g.node pos
    let g ← g.updateNode pos (b.height / 2.0) b.temperature b.iceFraction (b.lwc / 2.0)
    return { g with numberNodes := g.numberNodes + 1 }
  have key : ∀ g : Grid K, F (g.stretch l) = (F g).map (Grid.stretch l) := by
    intro g
    show ((g.stretch l).node pos >>= _) = _
    rw [node]
    refine map_bind_comm fun b => ?_
    simp only [s_height, s_temperature, s_lwc, s_ice, mul_div_assoc]
    rw [updateNode]
    exact map_bind_comm fun _ => rfl
  exact (congrArg F (insertNode g (pos + 1) _ g.numberNodes)).trans (key _)

theorem mergeSnowWithGlacier (c : Consts K) (g : Grid K) (idx : Int) :
    (g.stretch l).mergeSnowWithGlacier (c.stretch l) idx = (g.mergeSnowWithGlacier c idx).map (Grid.stretch l) := by
  unfold Grid.mergeSnowWithGlacier
  rw [node]
  refine map_bind_comm fun a => ?_
  rw [node]
  refine map_bind_comm fun b => ?_
  refine ite_comm (fun _ => ?_) fun _ => rfl
  have e : (b.stretch l).height + (a.stretch l).height * ((a.stretch l).density (c.stretch l) / (c.stretch l).iceDensity) =
      l * (b.height + a.height * (a.density c / c.iceDensity)) := by
    show l * b.height + l * a.height * (a.density c / c.iceDensity) = _
    ring
  simp only [e]
  rw [updateNode]
  exact map_bind_comm fun g => removeNode g _

end Stretch
end
end Cosipy
