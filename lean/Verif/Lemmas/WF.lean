import Verif.Lemmas.Grid
import Verif.Model.Init

/-! The counter invariant under every operation, for every arithmetic. -/

set_option linter.unusedSectionVars false

set_option autoImplicit false

namespace Cosipy
section
variable {α : Type} [Add α] [Sub α] [Mul α] [Div α] [Neg α] [LT α] [LE α]
  [DecidableLT α] [DecidableLE α] [BEq α] [Zero α] [One α] [NatCast α] [OfScientific α]

namespace Grid

theorem WF.insert {g : Grid α} (hw : g.WF) (i : Int) (n : Node α) :
    ({ g with nodes := pyInsert g.nodes i n, numberNodes := g.numberNodes + 1 } : Grid α).WF := by
  simp only [WF, pyInsert_length] at *
  omega

theorem WF.addFreshSnow {g : Grid α} (hw : g.WF) (c : Consts α) (h d t w dt : α) :
    (g.addFreshSnow c h d t w dt).WF := by
  have := hw.insert 0 (Node.new c h d t w none)
  unfold Grid.addFreshSnow
  simp only
  split_ifs <;> exact this

theorem WF.correctLayerPass {g g' : Grid α} {c : Consts α} {i : Int} {h : α} (hw : g.WF)
    (he : Grid.correctLayerPass c i h g = .ok (some g')) : g'.WF := by
  unfold Grid.correctLayerPass at he
  rw [bind_eq_ok] at he; obtain ⟨a, _, he⟩ := he
  split_ifs at he
  · rw [bind_eq_ok] at he; obtain ⟨b, _, he⟩ := he
    split_ifs at he
    · rw [bind_eq_ok] at he; obtain ⟨g1, h1, he⟩ := he
      rw [pure_eq_ok] at he; cases he; exact hw.mergeNodes h1
    · rw [bind_eq_ok] at he; obtain ⟨g1, h1, he⟩ := he
      rw [pure_eq_ok] at he; cases he; exact hw.mergeNodes h1
    · rw [pure_eq_ok] at he; cases he
  · rw [pure_eq_ok] at he; cases he

theorem WF.correctLayerSplit {g g' : Grid α} {c : Consts α} {i : Int} {h : α} (hw : g.WF)
    (he : Grid.correctLayerSplit c i h g = .ok g') : g'.WF := by
  unfold Grid.correctLayerSplit at he
  rw [bind_eq_ok] at he; obtain ⟨a, _, he⟩ := he
  split_ifs at he
  · simp only [bind_eq_ok] at he
    obtain ⟨_, _, _, _, _, _, g1, h1, n1, _, he⟩ := he
    rw [pure_eq_ok] at he; subst he
    exact (hw.updateNode h1).insert _ _
  · rw [pure_eq_ok] at he; subst he; exact hw

theorem WF.correctLayer {g g' : Grid α} {fuel : Nat} {c : Consts α} {i : Int} {h : α} (hw : g.WF)
    (he : g.correctLayer fuel c i h = .ok g') : g'.WF := by
  unfold Grid.correctLayer at he
  rw [bind_eq_ok] at he; obtain ⟨g1, h1, he⟩ := he
  exact WF.correctLayerSplit
    (whileM_inv (fun g : Grid α => g.WF) (fun s s' hs hb => WF.correctLayerPass hs hb) fuel g g1 hw h1).1 he

theorem WF.logSnowPass {s s' : LogState α} {fuel : Nat} {c : Consts α} (hw : s.g.WF)
    (he : Grid.logSnowPass fuel c s = .ok (some s')) : s'.g.WF := by
  unfold Grid.logSnowPass at he
  rw [bind_eq_ok] at he; obtain ⟨n, _, he⟩ := he
  split_ifs at he
  · rw [bind_eq_ok] at he; obtain ⟨g1, h1, he⟩ := he
    rw [pure_eq_ok] at he; cases he; exact hw.correctLayer h1
  · rw [bind_eq_ok] at he; obtain ⟨g1, h1, he⟩ := he
    rw [pure_eq_ok] at he; cases he; exact hw.mergeNodes h1
  · rw [pure_eq_ok] at he; cases he; exact hw
  · rw [pure_eq_ok] at he; cases he

theorem WF.logIcePass {s s' : LogState α} {fuel : Nat} {c : Consts α} (hw : s.g.WF)
    (he : Grid.logIcePass fuel c s = .ok (some s')) : s'.g.WF := by
  unfold Grid.logIcePass at he
  split_ifs at he
  · rw [bind_eq_ok] at he; obtain ⟨g1, h1, he⟩ := he
    rw [pure_eq_ok] at he; cases he; exact hw.correctLayer h1
  · rw [bind_eq_ok] at he; obtain ⟨g1, h1, he⟩ := he
    rw [pure_eq_ok] at he; cases he; exact hw.mergeNodes h1
  · rw [pure_eq_ok] at he; cases he; exact hw
  · rw [pure_eq_ok] at he; cases he

theorem WF.logProfile {g g' : Grid α} {fuel : Nat} {c : Consts α} (hw : g.WF)
    (he : g.logProfile fuel c = .ok g') : g'.WF := by
  unfold Grid.logProfile at he
  simp only [bind_eq_ok] at he
  obtain ⟨_, _, s1, h1, _, _, _, _, _, _, s2, h2, he⟩ := he
  rw [pure_eq_ok] at he; subst he
  have hs1 := (whileM_inv (fun s : LogState α => s.g.WF) (fun s s' hs hb => WF.logSnowPass hs hb) _ _ _ hw h1).1
  refine (whileM_inv (fun s : LogState α => s.g.WF) (fun s s' hs hb => WF.logIcePass hs hb) _ _ _ ?_ h2).1
  exact hs1

theorem WF.adaptSnowPass {s s' : AdaptState α} {c : Consts α} (hw : s.g.WF)
    (he : Grid.adaptSnowPass c s = .ok (some s')) : s'.g.WF := by
  unfold Grid.adaptSnowPass at he
  rw [bind_eq_ok] at he; obtain ⟨n, _, he⟩ := he
  split_ifs at he
  · simp only [bind_eq_ok] at he
    obtain ⟨a, _, b, _, he⟩ := he
    split_ifs at he
    · rw [bind_eq_ok] at he; obtain ⟨g1, h1, he⟩ := he
      rw [pure_eq_ok] at he; cases he; exact hw.mergeNodes h1
    · rw [bind_eq_ok] at he; obtain ⟨g1, h1, he⟩ := he
      rw [pure_eq_ok] at he; cases he; exact hw.removeNode h1
    · rw [pure_eq_ok] at he; cases he; exact hw
  · rw [pure_eq_ok] at he; cases he

theorem WF.adaptIcePass {s s' : Grid α × Int} {c : Consts α} (hw : s.1.WF)
    (he : Grid.adaptIcePass c s = .ok (some s')) : s'.1.WF := by
  unfold Grid.adaptIcePass at he
  split_ifs at he
  · rw [bind_eq_ok] at he; obtain ⟨a, _, he⟩ := he
    split_ifs at he
    · rw [bind_eq_ok] at he; obtain ⟨g1, h1, he⟩ := he
      rw [pure_eq_ok] at he; cases he; exact hw.mergeNodes h1
    · rw [pure_eq_ok] at he; cases he; exact hw
  · rw [pure_eq_ok] at he; cases he

theorem WF.adaptiveProfile {g g' : Grid α} {fuel : Nat} {c : Consts α} (hw : g.WF)
    (he : g.adaptiveProfile fuel c = .ok g') : g'.WF := by
  unfold Grid.adaptiveProfile at he
  simp only [bind_eq_ok] at he
  obtain ⟨s1, h1, n, _, ⟨g2, i2⟩, h2, ⟨g3, i3⟩, h3, he⟩ := he
  have hs1 := (whileM_inv (fun s : AdaptState α => s.g.WF) (fun s s' hs hb => WF.adaptSnowPass hs hb) _ _ _ hw h1).1
  have hg2 : g2.WF := by
    split_ifs at h2
    · simp only [bind_eq_ok] at h2
      obtain ⟨a, _, h2⟩ := h2
      split_ifs at h2
      · rw [bind_eq_ok] at h2; obtain ⟨g4, h4, h2⟩ := h2
        rw [pure_eq_ok] at h2; cases h2; exact hs1.correctLayer h4
      · rw [pure_eq_ok] at h2; cases h2; exact hs1
    · simp only [bind_eq_ok] at h2
      obtain ⟨a, _, h2⟩ := h2
      rw [pure_eq_ok] at h2; cases h2; exact hs1
  have hg3 := (whileM_inv (fun s : Grid α × Int => s.1.WF) (fun s s' hs hb => WF.adaptIcePass hs hb) _ _ _ hg2 h3).1
  exact hg3.correctLayer he

theorem WF.updateGrid {g g' : Grid α} {fuel : Nat} {c : Consts α} (hw : g.WF)
    (he : g.updateGrid fuel c = .ok g') : g'.WF := by
  unfold Grid.updateGrid at he
  rw [bind_eq_ok] at he; obtain ⟨g1, h1, he⟩ := he
  have hg1 : g1.WF := by
    unfold Grid.remesh at h1
    split at h1
    · exact hw.logProfile h1
    · exact hw.adaptiveProfile h1
    · cases h1; exact hw
  rw [bind_eq_ok] at he; obtain ⟨a, _, he⟩ := he
  split_ifs at he
  · exact hg1.removeNode he
  · rw [pure_eq_ok] at he; subst he; exact hg1

theorem WF.splitNode {g g' : Grid α} {c : Consts α} {i : Int} (hw : g.WF)
    (he : g.splitNode c i = .ok g') : g'.WF := by
  unfold Grid.splitNode at he
  simp only [bind_eq_ok] at he
  obtain ⟨a, _, b, _, g1, h1, he⟩ := he
  rw [pure_eq_ok] at he; subst he
  obtain ⟨k, _, rfl⟩ := updateNode_eq_ok.1 h1
  simp only [WF, List.length_modify, pyInsert_length] at *
  omega

theorem WF.mergeSnowWithGlacier {g g' : Grid α} {c : Consts α} {i : Int} (hw : g.WF)
    (he : g.mergeSnowWithGlacier c i = .ok g') : g'.WF := by
  unfold Grid.mergeSnowWithGlacier at he
  simp only [bind_eq_ok] at he
  obtain ⟨a, _, b, _, he⟩ := he
  split_ifs at he
  · rw [bind_eq_ok] at he; obtain ⟨g1, h1, he⟩ := he
    exact (hw.updateNode h1).removeNode he
  · rw [pure_eq_ok] at he; subst he; exact hw

theorem WF.removeMeltPass {s s' : MeltState α} {c : Consts α} {i : Int} (hw : s.g.WF)
    (he : Grid.removeMeltPass c i s = .ok (some s')) : s'.g.WF := by
  unfold Grid.removeMeltPass at he
  split_ifs at he
  · rw [bind_eq_ok] at he; obtain ⟨a, _, he⟩ := he
    simp only at he
    split_ifs at he
    · simp only [bind_eq_ok] at he
      obtain ⟨_, _, g1, h1, he⟩ := he
      rw [pure_eq_ok] at he; cases he; exact hw.modifyNode h1
    · simp only [bind_eq_ok] at he
      obtain ⟨g1, h1, he⟩ := he
      rw [pure_eq_ok] at he; cases he; exact hw.removeNode h1
    · rw [pure_eq_ok] at he; cases he; exact hw
  · rw [pure_eq_ok] at he; cases he

theorem WF.removeMeltWeq {g : Grid α} {fuel : Nat} {c : Consts α} {m : α} {i : Int} {r : Grid α × α}
    (hw : g.WF) (he : g.removeMeltWeq fuel c m i = .ok r) : r.1.WF := by
  unfold Grid.removeMeltWeq at he
  rw [bind_eq_ok] at he; obtain ⟨s1, h1, he⟩ := he
  have hs1 := (whileM_inv (fun s : MeltState α => s.g.WF) (fun s s' hs hb => WF.removeMeltPass hs hb) _ _ _ hw h1).1
  rw [pure_eq_ok] at he; subst he
  simp only
  split_ifs <;> exact hs1

theorem WF.setAll {g g' : Grid α} {f : α → Node α → Node α} {xs : List α} (hw : g.WF)
    (he : g.setAll f xs = .ok g') : g'.WF := by
  unfold Grid.setAll at he
  revert he hw
  generalize List.range g.numberNodes.toNat = l
  intro hw he
  induction l generalizing g with
  | nil => rw [List.foldlM_nil, pure_eq_ok] at he; subst he; exact hw
  | cons i l ih =>
    rw [List.foldlM_cons, bind_eq_ok] at he
    obtain ⟨g1, h1, he⟩ := he
    rw [bind_eq_ok] at h1; obtain ⟨x, _, h1⟩ := h1
    exact ih (hw.modifyNode h1) he

theorem WF.new {c : Consts α} {hs ds ts ws : List α} {fs : Option (List α)} {a b o : Option α} {g : Grid α}
    (he : Grid.new c hs ds ts ws fs a b o = .ok g) : g.WF := by
  unfold Grid.new at he
  rw [bind_eq_ok] at he; obtain ⟨ns, h1, he⟩ := he
  have hlen := (mapM_eq_ok_iff.1 h1).length_eq
  simp only [List.length_range] at hlen
  split at he <;> (rw [pure_eq_ok] at he; subst he; simp [WF, hlen])

end Grid

theorem percolateFrom_length : ∀ {a : Node α} {rest ms : List (Node α)}, percolateFrom a rest = .ok ms →
    ms.length = rest.length + 1 := by
  intro a rest
  induction rest generalizing a with
  | nil => intro ms h; rw [percolateFrom] at h; cases h; rfl
  | cons b rest ih =>
    intro ms h
    rw [percolateFrom, bind_eq_ok] at h
    obtain ⟨e, _, h⟩ := h
    simp only at h
    split_ifs at h
    · simp only [bind_eq_ok] at h
      obtain ⟨q, _, tl, htl, h⟩ := h
      rw [pure_eq_ok] at h; subst h
      simp [ih htl]
    · simp only [bind_eq_ok] at h
      obtain ⟨tl, htl, h⟩ := h
      rw [pure_eq_ok] at h; subst h
      simp [ih htl]

theorem percolateLayers_length {ns ms : List (Node α)} (h : percolateLayers ns = .ok ms) : ms.length = ns.length := by
  cases ns with
  | nil => cases h; rfl
  | cons a rest => exact percolateFrom_length h

theorem getRunoff_ok {g : Grid α} {r : Grid α × α} (h : getRunoff g = .ok r) :
    ∃ k n, normIdx g.nodes.length (g.numberNodes - 1) = some k ∧ g.nodes[k]? = some n ∧
      r = ({ g with nodes := g.nodes.modify k (Node.setLwc 0) }, n.lwc * n.height) := by
  unfold getRunoff Grid.node Grid.setNodeLwc at h
  rw [bind_eq_ok] at h; obtain ⟨n, hn, h⟩ := h
  rw [bind_eq_ok] at h; obtain ⟨g1, h1, h⟩ := h
  rw [pure_eq_ok] at h
  obtain ⟨k, hk, hkn⟩ := pyGet_eq_ok.1 hn
  obtain ⟨k', hk', rfl⟩ := Grid.modifyNode_eq_ok.1 h1
  rw [hk] at hk'; cases hk'
  exact ⟨k, n, hk, hkn, h.symm⟩

theorem percolation_ok {g : Grid α} {w : α} {r : Grid α × α} (h : percolation g w = .ok r) :
    ∃ top ns q, normIdx g.nodes.length 0 = some 0 ∧ g.nodes[0]? = some top ∧ fdiv w top.height = .ok q ∧
      percolateLayers (g.nodes.modify 0 (Node.setLwc (top.lwc + q))) = .ok ns ∧
      getRunoff { g with nodes := ns } = .ok r := by
  unfold percolation Grid.node Grid.setNodeLwc at h
  rw [bind_eq_ok] at h; obtain ⟨top, ht, h⟩ := h
  simp only [bind_eq_ok] at h
  obtain ⟨q, hq, g1, h1, ns, hns, h⟩ := h
  obtain ⟨k, hk, hkt⟩ := pyGet_eq_ok.1 ht
  obtain ⟨k', hk', rfl⟩ := Grid.modifyNode_eq_ok.1 h1
  have : (k : Int) = 0 ∧ k < g.nodes.length := normIdx_eq_some_nonneg le_rfl hk
  have hk0 : k = 0 := by omega
  subst hk0
  rw [hk] at hk'; cases hk'
  exact ⟨top, ns, q, hk, hkt, hq, hns, h⟩

theorem Grid.WF.percolation {g : Grid α} {w : α} {r : Grid α × α} (hw : g.WF) (h : percolation g w = .ok r) :
    r.1.WF := by
  obtain ⟨top, ns, q, _, _, _, hns, h⟩ := percolation_ok h
  obtain ⟨k, n, _, _, rfl⟩ := getRunoff_ok h
  have := percolateLayers_length hns
  simp only [Grid.WF, List.length_modify] at *
  omega

theorem refreezeLayers_length {c : Consts α} : ∀ {ns : List (Node α)} {acc : α} {r : List (Node α) × α},
    refreezeLayers c acc ns = .ok r → r.1.length = ns.length := by
  intro ns
  induction ns with
  | nil => intro acc r h; rw [refreezeLayers] at h; cases h; rfl
  | cons n ns ih =>
    intro acc r h
    rw [refreezeLayers, bind_eq_ok] at h
    obtain ⟨⟨n', d⟩, _, h⟩ := h
    simp only [bind_eq_ok] at h
    obtain ⟨⟨ns', t⟩, h2, h⟩ := h
    rw [pure_eq_ok] at h; subst h
    have := ih h2
    simpa using this

theorem Grid.WF.refreezing {g : Grid α} {c : Consts α} {r : Grid α × α} (hw : g.WF)
    (h : refreezing c g = .ok r) : r.1.WF := by
  unfold Cosipy.refreezing at h
  rw [bind_eq_ok] at h; obtain ⟨⟨ns, t⟩, h1, h⟩ := h
  rw [pure_eq_ok] at h; subst h
  have := refreezeLayers_length h1
  simp only [Grid.WF] at *
  omega

theorem Grid.WF.solveHeatEquation {g g' : Grid α} {fuel : Nat} {c : Consts α} {dt : α} (hw : g.WF)
    (h : solveHeatEquation fuel c g dt = .ok g') : g'.WF := by
  unfold Cosipy.solveHeatEquation at h
  simp only [bind_eq_ok] at h
  obtain ⟨_, _, _, _, ⟨_, cs⟩, _, h⟩ := h
  exact hw.setAll h

variable [Transc α]

theorem penLayers_length {c : Consts α} {dt : α} : ∀ {ns : List (Node α)} {i : Int} {es : List α} {rm : List Int}
    {m : α} {r : List (Node α) × List Int × α}, penLayers c dt i ns es rm m = .ok r → r.1.length = ns.length := by
  intro ns
  induction ns with
  | nil => intro i es rm m r h; rw [penLayers] at h; cases h; rfl
  | cons a ns ih =>
    intro i es rm m r h
    match ns, es, h with
    | [], es, h => rw [penLayers] at h; cases h; rfl
    | b :: rest, [], h => rw [penLayers] at h; cases h
    | b :: rest, e :: es, h =>
      rw [penLayers, bind_eq_ok] at h
      obtain ⟨⟨a', del, m'⟩, _, h⟩ := h
      simp only [bind_eq_ok] at h
      obtain ⟨⟨ns', rm', t⟩, h2, h⟩ := h
      rw [pure_eq_ok] at h; subst h
      have := ih h2
      simpa using this

theorem Grid.WF.penetratingRadiation {g : Grid α} {c : Consts α} {sw dt : α} {r : Grid α × α × α} (hw : g.WF)
    (h : penetratingRadiation c g sw dt = .ok r) : r.1.WF := by
  unfold Cosipy.penetratingRadiation at h
  split at h
  · unfold methodBintanja at h
    simp only [bind_eq_ok] at h
    obtain ⟨ds, _, top, _, ⟨ns, rm, m⟩, h1, h⟩ := h
    have := penLayers_length h1
    have hw' : ({ g with nodes := ns } : Grid α).WF := by simp only [Grid.WF] at *; omega
    simp only at h
    split_ifs at h
    · rw [pure_eq_ok] at h; subst h; exact hw'
    · rw [bind_eq_ok] at h; obtain ⟨g1, h2, h⟩ := h
      rw [pure_eq_ok] at h; subst h
      exact hw'.removeNode h2
  · cases h

theorem booneLayers_length {c : Consts α} {dt : α} : ∀ {k : Nat} {ms : α} {p : Option (Node α)} {ns rs : List (Node α)},
    booneLayers c dt k ms p ns = .ok rs → rs.length = ns.length := by
  intro k
  induction k with
  | zero => intro ms p ns rs h; rw [booneLayers] at h; cases h; rfl
  | succ k ih =>
    intro ms p ns rs h
    cases ns with
    | nil => rw [booneLayers] at h; cases h
    | cons n ns =>
      rw [booneLayers] at h
      simp only at h
      split_ifs at h
      · simp only [bind_eq_ok] at h
        obtain ⟨d, _, tl, htl, h⟩ := h
        rw [pure_eq_ok] at h; subst h
        simpa using ih htl
      · simp only [bind_eq_ok] at h
        obtain ⟨tl, htl, h⟩ := h
        rw [pure_eq_ok] at h; subst h
        simpa using ih htl

theorem vionnetLayers_length {c : Consts α} {sl dt : α} : ∀ {k : Nat} {ms : α} {p : Option (Node α)}
    {ns rs : List (Node α)}, vionnetLayers c sl dt k ms p ns = .ok rs → rs.length = ns.length := by
  intro k
  induction k with
  | zero => intro ms p ns rs h; rw [vionnetLayers] at h; cases h; rfl
  | succ k ih =>
    intro ms p ns rs h
    cases ns with
    | nil => rw [vionnetLayers] at h; cases h
    | cons n ns =>
      rw [vionnetLayers] at h
      simp only at h
      split_ifs at h
      · simp only [bind_eq_ok] at h
        obtain ⟨tl, htl, h⟩ := h
        rw [pure_eq_ok] at h; subst h
        simpa using ih htl
      · simp only [bind_eq_ok] at h
        obtain ⟨tl, htl, h⟩ := h
        rw [pure_eq_ok] at h; subst h
        simpa using ih htl

theorem empiricalLayers_length {c : Consts α} {dt : α} : ∀ {k : Nat} {ns rs : List (Node α)},
    empiricalLayers c dt k ns = .ok rs → rs.length = ns.length := by
  intro k
  induction k with
  | zero => intro ns rs h; rw [empiricalLayers] at h; cases h; rfl
  | succ k ih =>
    intro ns rs h
    cases ns with
    | nil => rw [empiricalLayers] at h; cases h
    | cons n ns =>
      rw [empiricalLayers] at h
      simp only [bind_eq_ok] at h
      obtain ⟨n', _, tl, htl, h⟩ := h
      rw [pure_eq_ok] at h; subst h
      simpa using ih htl

theorem densification_length {g g' : Grid α} {c : Consts α} {sl dt : α}
    (h : densification c g sl dt = .ok g') : g'.nodes.length = g.nodes.length ∧ g'.numberNodes = g.numberNodes := by
  unfold Cosipy.densification at h
  split at h
  · unfold methodBoone at h
    simp only [bind_eq_ok] at h
    obtain ⟨k, _, ns, h1, h⟩ := h
    rw [pure_eq_ok] at h; subst h
    exact ⟨booneLayers_length h1, rfl⟩
  · unfold methodVionnet at h
    simp only [bind_eq_ok] at h
    obtain ⟨k, _, ns, h1, h⟩ := h
    rw [pure_eq_ok] at h; subst h
    exact ⟨vionnetLayers_length h1, rfl⟩
  · unfold methodEmpirical at h
    simp only [bind_eq_ok] at h
    obtain ⟨k, _, ns, h1, h⟩ := h
    rw [pure_eq_ok] at h; subst h
    exact ⟨empiricalLayers_length h1, rfl⟩
  · cases h; exact ⟨rfl, rfl⟩
  · cases h

theorem Grid.WF.densification {g g' : Grid α} {c : Consts α} {sl dt : α} (hw : g.WF)
    (h : densification c g sl dt = .ok g') : g'.WF := by
  obtain ⟨h1, h2⟩ := densification_length h
  simp only [Grid.WF] at *; omega

theorem getSurfaceProperties_nodes (c : Consts α) (g : Grid α) :
    (getSurfaceProperties c g).1.nodes = g.nodes ∧ (getSurfaceProperties c g).1.numberNodes = g.numberNodes ∧
    (getSurfaceProperties c g).1.newSnowHeight = g.newSnowHeight ∧
    (getSurfaceProperties c g).1.oldSnowTimestamp = g.oldSnowTimestamp := by
  unfold getSurfaceProperties
  simp only
  split_ifs <;> simp [Grid.setFreshSnowPropsToOldProps]

/-- The albedo scheme only touches the age bookkeeping. -/
theorem updateAlbedo_grid {c : Consts α} {g : Grid α} {ts a : α} {r : Grid α × α × α}
    (h : updateAlbedo c g ts a = .ok r) : r.1 = (getSurfaceProperties c g).1 := by
  unfold updateAlbedo at h
  split at h
  · rw [bind_eq_ok] at h; obtain ⟨⟨g1, a1⟩, h1, h⟩ := h
    rw [pure_eq_ok] at h; subst h
    unfold methodOerlemans at h1
    simp only [bind_eq_ok] at h1
    obtain ⟨top, _, h1⟩ := h1
    split_ifs at h1
    · rw [bind_eq_ok] at h1; obtain ⟨_, _, h1⟩ := h1
      rw [pure_eq_ok] at h1; cases h1; rfl
    · rw [pure_eq_ok] at h1; cases h1; rfl
  · unfold methodBougamont at h
    simp only [bind_eq_ok] at h
    obtain ⟨top, _, h1⟩ := h
    split_ifs at h1
    · rw [bind_eq_ok] at h1; obtain ⟨_, _, h1⟩ := h1
      rw [pure_eq_ok] at h1; cases h1; rfl
    · rw [bind_eq_ok] at h1; obtain ⟨_, _, h1⟩ := h1
      rw [pure_eq_ok] at h1; cases h1; rfl
    · rw [pure_eq_ok] at h1; cases h1; rfl
  · cases h

theorem Grid.WF.updateAlbedo {g : Grid α} {c : Consts α} {ts a : α} {r : Grid α × α × α} (hw : g.WF)
    (h : updateAlbedo c g ts a = .ok r) : r.1.WF := by
  have hs := getSurfaceProperties_nodes c g
  rw [updateAlbedo_grid h]
  simp only [Grid.WF] at *
  rw [hs.1, hs.2.1]; exact hw

theorem updateSurfaceTemperature_grid {sv : Solvers α} {c : Consts α} {wrf : Bool} {g : Grid α}
    {mk : α → α → EbInput α} {sw : α} {r : Grid α × α × Fluxes α}
    (h : updateSurfaceTemperature sv c wrf g mk sw = .ok r) : g.setNodeTemperature 0 r.2.1 = .ok r.1 := by
  unfold updateSurfaceTemperature at h
  simp only [bind_eq_ok] at h
  obtain ⟨⟨_, _⟩, _, h⟩ := h
  obtain ⟨top, _, x, _, g1, h1, f, _, h⟩ := h
  rw [pure_eq_ok] at h; subst h
  exact h1

theorem Grid.WF.updateSurfaceTemperature {sv : Solvers α} {c : Consts α} {wrf : Bool} {g : Grid α}
    {mk : α → α → EbInput α} {sw : α} {r : Grid α × α × Fluxes α} (hw : g.WF)
    (h : updateSurfaceTemperature sv c wrf g mk sw = .ok r) : r.1.WF :=
  hw.modifyNode (updateSurfaceTemperature_grid h)

end
end Cosipy
