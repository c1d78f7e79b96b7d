import Verif.Lemmas.Arith
import Verif.Spec.Column

/-! Structural facts about the column operations, for every arithmetic. -/

set_option linter.unusedSectionVars false

set_option autoImplicit false

namespace Cosipy

section
variable {α : Type} [Add α] [Sub α] [Mul α] [Div α] [Neg α] [LT α] [LE α]
  [DecidableLT α] [DecidableLE α] [BEq α] [Zero α] [One α] [NatCast α] [OfScientific α]

namespace Grid

theorem modifyNode_eq_ok {g g' : Grid α} {i : Int} {f : Node α → Node α} :
    g.modifyNode i f = .ok g' ↔
      ∃ k, normIdx g.nodes.length i = some k ∧ g' = { g with nodes := g.nodes.modify k f } := by
  unfold modifyNode
  rw [bind_eq_ok]
  constructor
  · rintro ⟨ns, h1, h2⟩
    obtain ⟨k, hk, rfl⟩ := pyModify_eq_ok.1 h1
    rw [pure_eq_ok] at h2
    exact ⟨k, hk, h2.symm⟩
  · rintro ⟨k, hk, rfl⟩
    exact ⟨_, pyModify_eq_ok.2 ⟨k, hk, rfl⟩, rfl⟩

theorem modifyNode_error {g : Grid α} {i : Int} {f : Node α → Node α} {e : Err}
    (h : g.modifyNode i f = .error e) : e = .index := by
  unfold modifyNode at h
  rcases bind_eq_error.1 h with h | ⟨_, _, h⟩
  · exact pyModify_error h
  · cases h

theorem WF.modifyNode {g g' : Grid α} {i : Int} {f : Node α → Node α} (hw : g.WF)
    (h : g.modifyNode i f = .ok g') : g'.WF := by
  obtain ⟨k, _, rfl⟩ := modifyNode_eq_ok.1 h
  simpa [WF] using hw

/-- The effect of `update_node` on a layer. -/
def upd (h t i w : α) (n : Node α) : Node α :=
  { n with height := h, temperature := t, iceFraction := i, lwc := w }

theorem updateNode_eq_ok {g g' : Grid α} {i : Int} {h t f w : α} :
    g.updateNode i h t f w = .ok g' ↔
      ∃ k, normIdx g.nodes.length i = some k ∧ g' = { g with nodes := g.nodes.modify k (upd h t f w) } := by
  unfold updateNode setNodeHeight setNodeTemperature setNodeIceFraction setNodeLwc
  simp only [bind_eq_ok, modifyNode_eq_ok]
  constructor
  · rintro ⟨g1, ⟨k, hk, rfl⟩, g2, ⟨k2, hk2, rfl⟩, g3, ⟨k3, hk3, rfl⟩, k4, hk4, rfl⟩
    simp only [List.length_modify] at hk2 hk3 hk4
    rw [hk] at hk2 hk3 hk4
    cases hk2; cases hk3; cases hk4
    refine ⟨k, hk, ?_⟩
    simp only [List.modify_modify_eq]
    rfl
  · rintro ⟨k, hk, rfl⟩
    refine ⟨_, ⟨k, hk, rfl⟩, _, ⟨k, by simpa using hk, rfl⟩, _, ⟨k, by simpa using hk, rfl⟩, k, by simpa using hk, ?_⟩
    simp only [List.modify_modify_eq]
    rfl

theorem updateNode_error {g : Grid α} {i : Int} {h t f w : α} {e : Err}
    (he : g.updateNode i h t f w = .error e) : e = .index := by
  unfold updateNode setNodeHeight setNodeTemperature setNodeIceFraction setNodeLwc at he
  rcases bind_eq_error.1 he with he | ⟨_, _, he⟩
  · exact modifyNode_error he
  rcases bind_eq_error.1 he with he | ⟨_, _, he⟩
  · exact modifyNode_error he
  rcases bind_eq_error.1 he with he | ⟨_, _, he⟩
  · exact modifyNode_error he
  · exact modifyNode_error he

theorem WF.updateNode {g g' : Grid α} {i : Int} {h t f w : α} (hw : g.WF)
    (he : g.updateNode i h t f w = .ok g') : g'.WF := by
  obtain ⟨k, _, rfl⟩ := updateNode_eq_ok.1 he
  simpa [WF] using hw

theorem foldlM_pyDel_length {β : Type} : ∀ {is : List Int} {xs ys : List β},
    is.foldlM pyDel xs = .ok ys → ys.length + is.length = xs.length := by
  intro is
  induction is with
  | nil => intro xs ys h; rw [List.foldlM_nil, pure_eq_ok] at h; subst h; simp
  | cons i is ih =>
    intro xs ys h
    rw [List.foldlM_cons, bind_eq_ok] at h
    obtain ⟨zs, h1, h2⟩ := h
    have := pyDel_length h1
    have := ih h2
    simp only [List.length_cons]; omega

theorem foldlM_pyDel_error {β : Type} : ∀ {is : List Int} {xs : List β} {e : Err},
    is.foldlM pyDel xs = .error e → e = .index := by
  intro is
  induction is with
  | nil => intro xs e h; rw [List.foldlM_nil] at h; cases h
  | cons i is ih =>
    intro xs e h
    rw [List.foldlM_cons] at h
    rcases bind_eq_error.1 h with h | ⟨_, _, h⟩
    · exact pyDel_error h
    · exact ih h

theorem removeNode_error {g : Grid α} {is : List Int} {e : Err} (h : g.removeNode is = .error e) :
    e = .index := by
  unfold removeNode at h
  split_ifs at h
  rcases bind_eq_error.1 h with h | ⟨_, _, h⟩
  · exact foldlM_pyDel_error h
  · cases h

theorem WF.removeNode {g g' : Grid α} {is : List Int} (hw : g.WF) (h : g.removeNode is = .ok g') :
    g'.WF := by
  unfold Grid.removeNode at h
  split_ifs at h with h1 h2
  · cases h; exact hw
  · cases h
    cases hn : g.nodes with
    | nil => simp [hn] at h1
    | cons a l => simp only [WF, hn, List.length_cons] at hw ⊢; rw [hw]; simp
  · rw [bind_eq_ok] at h
    obtain ⟨ns, h3, h4⟩ := h
    rw [pure_eq_ok] at h4
    subst h4
    have := foldlM_pyDel_length h3
    simp only [WF, List.length_mergeSort] at *
    omega

/-- Removing a single layer. -/
theorem removeNode_single {g g' : Grid α} {i : Int} (hne : g.nodes ≠ []) :
    g.removeNode [i] = .ok g' ↔
      ∃ k, normIdx g.nodes.length i = some k ∧
        g' = { g with nodes := g.nodes.eraseIdx k, numberNodes := g.numberNodes - 1 } := by
  unfold removeNode
  have h1 : g.nodes.isEmpty = false := by simp [hne]
  simp only [h1, Bool.false_eq_true, if_false, List.isEmpty_cons, List.mergeSort_singleton,
    List.foldlM_cons, List.foldlM_nil]
  simp only [bind_eq_ok, pure_eq_ok]
  constructor
  · rintro ⟨ns, ⟨ns', h2, rfl⟩, rfl⟩
    obtain ⟨k, hk, rfl⟩ := pyDel_eq_ok.1 h2
    exact ⟨k, hk, rfl⟩
  · rintro ⟨k, hk, rfl⟩
    exact ⟨_, ⟨_, pyDel_eq_ok.2 ⟨k, hk, rfl⟩, rfl⟩, rfl⟩

/-- The layer that results from merging `a` and `b` (kept in the place of `a`). -/
def merged (a b : Node α) : Node α :=
  upd (a.height + b.height)
    (a.height / (a.height + b.height) * a.temperature + b.height / (a.height + b.height) * b.temperature)
    ((a.iceFraction * a.height + b.iceFraction * b.height) / (a.height + b.height))
    ((a.lwc * a.height + b.lwc * b.height) / (a.height + b.height)) a

theorem modify_eq_set {β : Type} {xs : List β} {k : Nat} {f : β → β} {a : β} (h : xs[k]? = some a) :
    xs.modify k f = xs.set k (f a) := by
  apply List.ext_getElem?
  intro j
  rw [List.getElem?_modify, List.getElem?_set]
  by_cases hj : k = j
  · subst hj
    have : k < xs.length := by
      by_contra hk
      rw [List.getElem?_eq_none (by omega)] at h; simp at h
    rw [h]; simp [this]
  · simp [hj]

theorem mergeNodes_ok {g g' : Grid α} {i : Int} (h : g.mergeNodes i = .ok g') :
    ∃ p q a b, normIdx g.nodes.length i = some p ∧ normIdx g.nodes.length (i + 1) = some q ∧
      g.nodes[p]? = some a ∧ g.nodes[q]? = some b ∧ (a.height + b.height == 0) = false ∧
      g' = { g with nodes := (g.nodes.set p (merged a b)).eraseIdx q, numberNodes := g.numberNodes - 1 } := by
  unfold mergeNodes node at h
  rw [bind_eq_ok] at h; obtain ⟨a, ha, h⟩ := h
  rw [bind_eq_ok] at h; obtain ⟨b, hb, h⟩ := h
  simp only [bind_eq_ok] at h
  obtain ⟨x1, h1, x2, h2, x3, h3, x4, h4, g1, h5, h6⟩ := h
  obtain ⟨p, hp, hpa⟩ := pyGet_eq_ok.1 ha
  obtain ⟨q, hq, hqb⟩ := pyGet_eq_ok.1 hb
  obtain ⟨k, hk, rfl⟩ := updateNode_eq_ok.1 h5
  rw [hp] at hk; cases hk
  have hlt := normIdx_lt hp
  have hne : g.nodes.modify p (upd (a.height + b.height) (x3 * a.temperature + x4 * b.temperature) x2 x1) ≠ [] := by
    intro h0
    have := congrArg List.length h0
    simp at this; rw [this] at hlt; simp at hlt
  rw [removeNode_single hne] at h6
  obtain ⟨k, hk, rfl⟩ := h6
  simp only [List.length_modify] at hk
  rw [hq] at hk; cases hk
  refine ⟨p, q, a, b, hp, hq, hpa, hqb, ?_, ?_⟩
  · unfold fdiv at h1
    split_ifs at h1 with hz
    simpa using hz
  · rw [fdiv_ok h1, fdiv_ok h2, fdiv_ok h3, fdiv_ok h4, modify_eq_set hpa]
    rfl

theorem WF.mergeNodes {g g' : Grid α} {i : Int} (hw : g.WF) (h : g.mergeNodes i = .ok g') : g'.WF := by
  obtain ⟨p, q, a, b, hp, hq, _, _, _, rfl⟩ := mergeNodes_ok h
  have := normIdx_lt hq
  simp only [WF] at hw ⊢
  rw [List.length_eraseIdx_of_lt (by simpa using this), hw]
  simp; omega

theorem mergeNodes_error {g : Grid α} {i : Int} {e : Err} (h : g.mergeNodes i = .error e) :
    e = .index ∨ e = .zeroDiv := by
  unfold Grid.mergeNodes node at h
  rcases bind_eq_error.1 h with h | ⟨a, _, h⟩
  · exact .inl (pyGet_error h)
  rcases bind_eq_error.1 h with h | ⟨b, _, h⟩
  · exact .inl (pyGet_error h)
  rcases bind_eq_error.1 h with h | ⟨_, _, h⟩
  · exact .inr (fdiv_error h)
  rcases bind_eq_error.1 h with h | ⟨_, _, h⟩
  · exact .inr (fdiv_error h)
  rcases bind_eq_error.1 h with h | ⟨_, _, h⟩
  · exact .inr (fdiv_error h)
  rcases bind_eq_error.1 h with h | ⟨_, _, h⟩
  · exact .inr (fdiv_error h)
  rcases bind_eq_error.1 h with h | ⟨_, _, h⟩
  · exact .inl (updateNode_error h)
  · exact .inl (removeNode_error h)

/-! ### Getters under the counter invariant -/

theorem range_mapM_pyGet {β γ : Type} (xs : List β) (f : β → M γ) :
    ∀ n, n ≤ xs.length →
      (List.range n).mapM (fun (i : Nat) => do let x ← pyGet xs (i : Int); f x) = (xs.take n).mapM f := by
  intro n
  induction n with
  | zero => intro _; rfl
  | succ n ih =>
    intro hn
    have hx : xs[n]? = some xs[n] := by simp
    have ht : xs.take (n + 1) = xs.take n ++ [xs[n]] := by
      rw [List.take_add_one, hx]; rfl
    rw [List.range_succ, List.mapM_append, ih (by omega), ht, List.mapM_append]
    simp only [List.mapM_cons, List.mapM_nil, pyGet_nat hx, ok_bind]

theorem mapNodes_eq {γ : Type} {g : Grid α} (hw : g.WF) (f : Node α → M γ) :
    g.mapNodes f = g.nodes.mapM f := by
  unfold mapNodes node
  have : g.numberNodes.toNat = g.nodes.length := by unfold WF at hw; omega
  rw [this, range_mapM_pyGet _ _ _ le_rfl, List.take_length]

theorem mapM_ok_map {β γ : Type} (xs : List β) (f : β → γ) :
    xs.mapM (fun x => (Except.ok (f x) : M γ)) = .ok (xs.map f) := by
  induction xs with
  | nil => rfl
  | cons x xs ih => rw [List.mapM_cons, ok_bind, ih]; rfl

theorem getHeight_eq {g : Grid α} (hw : g.WF) : g.getHeight = .ok (g.nodes.map Node.height) := by
  unfold getHeight; rw [mapNodes_eq hw]; exact mapM_ok_map _ _
theorem getTemperature_eq {g : Grid α} (hw : g.WF) : g.getTemperature = .ok (g.nodes.map Node.temperature) := by
  unfold getTemperature; rw [mapNodes_eq hw]; exact mapM_ok_map _ _
theorem getLwc_eq {g : Grid α} (hw : g.WF) : g.getLwc = .ok (g.nodes.map Node.lwc) := by
  unfold getLwc; rw [mapNodes_eq hw]; exact mapM_ok_map _ _
theorem getIceFraction_eq {g : Grid α} (hw : g.WF) : g.getIceFraction = .ok (g.nodes.map Node.iceFraction) := by
  unfold getIceFraction; rw [mapNodes_eq hw]; exact mapM_ok_map _ _
theorem getRefreeze_eq {g : Grid α} (hw : g.WF) : g.getRefreeze = .ok (g.nodes.map Node.refreeze) := by
  unfold getRefreeze; rw [mapNodes_eq hw]; exact mapM_ok_map _ _
theorem getDensity_eq {g : Grid α} (hw : g.WF) (c : Consts α) :
    g.getDensity c = .ok (g.nodes.map (Node.density c)) := by
  unfold getDensity; rw [mapNodes_eq hw]; exact mapM_ok_map _ _

/-- Number of layers below the snow/ice threshold. -/
def nSnow (c : Consts α) (ns : List (Node α)) : Nat :=
  (ns.filter fun n => decide (n.density c < c.snowIceThreshold)).length

theorem nSnow_le (c : Consts α) (ns : List (Node α)) : nSnow c ns ≤ ns.length := List.length_filter_le _ _

theorem getNumberSnowLayers_eq {g : Grid α} (hw : g.WF) (c : Consts α) :
    g.getNumberSnowLayers c = .ok (nSnow c g.nodes) := by
  unfold getNumberSnowLayers
  rw [getDensity_eq hw]
  simp only [ok_bind]
  simp [pure, Except.pure, nSnow, List.filter_map, Function.comp_def]

theorem getSnowHeights_eq {g : Grid α} (hw : g.WF) (c : Consts α) :
    g.getSnowHeights c = .ok ((g.nodes.take (nSnow c g.nodes)).map Node.height) := by
  unfold getSnowHeights
  rw [getNumberSnowLayers_eq hw]
  simp only [ok_bind]
  have := range_mapM_pyGet g.nodes (fun nd => (pure nd.height : M α)) (nSnow c g.nodes) (nSnow_le _ _)
  unfold node
  rw [this]
  exact mapM_ok_map _ _

theorem getTotalSnowheight_eq {g : Grid α} (hw : g.WF) (c : Consts α) :
    g.getTotalSnowheight c = .ok (pySum ((g.nodes.take (nSnow c g.nodes)).map Node.height)) := by
  unfold getTotalSnowheight; rw [getSnowHeights_eq hw]; rfl

theorem getTotalHeight_eq {g : Grid α} (hw : g.WF) :
    g.getTotalHeight = .ok (pySum (g.nodes.map Node.height)) := by
  unfold getTotalHeight; rw [getHeight_eq hw]; rfl

/-- The array setters. -/
theorem range_foldlM_set {β : Type} (f : β → Node α → Node α) (g : Grid α) (xs : List β) :
    ∀ n, n ≤ g.nodes.length → n ≤ xs.length →
      (List.range n).foldlM (fun (g : Grid α) (i : Nat) => do
        let x ← pyGet xs (i : Int)
        g.modifyNode (i : Int) (f x)) g =
      (.ok { g with nodes := List.zipWith f (xs.take n) (g.nodes.take n) ++ g.nodes.drop n } : M (Grid α)) := by
  intro n
  induction n with
  | zero => intro _ _; simp [List.range_zero, pure, Except.pure]
  | succ n ih =>
    intro hn hx
    rw [List.range_succ, List.foldlM_append, ih (by omega) (by omega)]
    simp only [ok_bind, List.foldlM_cons, List.foldlM_nil]
    have hx1 : xs[n]? = some xs[n] := by simp
    rw [pyGet_nat hx1, ok_bind]
    have hlen : (List.zipWith f (xs.take n) (g.nodes.take n)).length = n := by
      simp [List.length_zipWith]; omega
    have hm : ({ g with nodes := List.zipWith f (xs.take n) (g.nodes.take n) ++ g.nodes.drop n } : Grid α).modifyNode
        (n : Int) (f xs[n]) = .ok
        { g with nodes := List.zipWith f (xs.take (n + 1)) (g.nodes.take (n + 1)) ++ g.nodes.drop (n + 1) } := by
      rw [modifyNode_eq_ok]
      refine ⟨n, normIdx_of_nat ?_, ?_⟩
      · simp [List.length_zipWith]; omega
      · congr 1
        have h1 : xs.take (n + 1) = xs.take n ++ [xs[n]] := by rw [List.take_add_one, hx1]; rfl
        have h2 : g.nodes.take (n + 1) = g.nodes.take n ++ [g.nodes[n]] := by
          rw [List.take_add_one, List.getElem?_eq_getElem (by omega)]; rfl
        have h3 : g.nodes.drop n = g.nodes[n] :: g.nodes.drop (n + 1) := by
          rw [List.drop_eq_getElem_cons]
        rw [h1, h2, h3, List.zipWith_append (by simp; omega)]
        have hA : ∀ (A : List (Node α)) (b : Node α) (B : List (Node α)) (φ : Node α → Node α), A.length = n →
            (A ++ b :: B).modify n φ = A ++ [φ b] ++ B := by
          intro A b B φ hA
          subst hA
          rw [modify_eq_set (a := b) (by simp)]
          simp
        rw [hA _ _ _ _ hlen]
        rfl
    rw [hm]; rfl

theorem setAll_eq {g : Grid α} (hw : g.WF) (f : α → Node α → Node α) {xs : List α}
    (hx : xs.length = g.nodes.length) :
    g.setAll f xs = .ok { g with nodes := List.zipWith f xs g.nodes } := by
  unfold setAll
  have : g.numberNodes.toNat = g.nodes.length := by unfold WF at hw; omega
  rw [this, range_foldlM_set f g xs _ le_rfl (by omega), ← hx, List.take_length]
  simp [hx]

end Grid
end
end Cosipy
