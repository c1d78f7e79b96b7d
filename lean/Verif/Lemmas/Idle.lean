import Verif.Lemmas.Rounded

/-! Columns without liquid water, in rounded arithmetic: remeshing keeps them dry, and percolation, refreezing and conduction
at one temperature leave them alone. -/

set_option autoImplicit false
set_option linter.unusedSectionVars false

namespace Cosipy
section
variable {α : Type} [LinearOrder α] [Zero α] [One α] [Add α] [Sub α] [Mul α] [Div α] [Neg α] [NatCast α] [OfScientific α]
  [Rounded α]
open Rounded

/-- A layer without liquid water and without negative height or ice. -/
def IdleLayer (n : Node α) : Prop := NonNegLayer n ∧ n.lwc = 0

/-- All layers are dry. -/
def Grid.Idle (g : Grid α) : Prop := ∀ n ∈ g.nodes, IdleLayer n

theorem merged_idle {a b : Node α} (ha : IdleLayer a) (hb : IdleLayer b) : IdleLayer (Grid.merged a b) := by
  refine ⟨merged_nn ha.1 hb.1, ?_⟩
  show (a.lwc * a.height + b.lwc * b.height) / (a.height + b.height) = 0
  rw [ha.2, hb.2, Rounded.zero_mul, Rounded.zero_mul, Rounded.add_zero, Rounded.zero_div]

namespace Grid


theorem Idle.node {g : Grid α} (hw : g.Idle) {i : Int} {a : Node α} (h : g.node i = .ok a) : IdleLayer a := by
  unfold Grid.node at h
  obtain ⟨k, _, hk⟩ := pyGet_eq_ok.1 h
  exact hw a (List.mem_of_getElem? hk)

theorem Idle.modifyNode {g g' : Grid α} {i : Int} {f : Node α → Node α} (hw : g.Idle) (hf : ∀ n, IdleLayer n → IdleLayer (f n))
    (h : g.modifyNode i f = .ok g') : g'.Idle := by
  obtain ⟨k, _, rfl⟩ := modifyNode_eq_ok.1 h
  exact all_modify hw k hf

theorem Idle.updateNode {g g' : Grid α} {i : Int} {h t f w : α} (hw : g.Idle) (h1 : 0 ≤ h) (h2 : 0 ≤ f) (h3 : w = 0)
    (he : g.updateNode i h t f w = .ok g') : g'.Idle := by
  obtain ⟨k, _, rfl⟩ := updateNode_eq_ok.1 he
  exact all_modify hw k fun n _ => ⟨⟨h1, h2, h3.ge⟩, h3⟩

theorem Idle.removeNode {g g' : Grid α} {is : List Int} (hw : g.Idle) (h : g.removeNode is = .ok g') : g'.Idle := by
  unfold Grid.removeNode at h
  split_ifs at h
  · cases h; exact hw
  · cases h; exact fun n hn => hw n (List.mem_of_mem_tail hn)
  · rw [bind_eq_ok] at h
    obtain ⟨ns, h3, h4⟩ := h
    rw [pure_eq_ok] at h4; subst h4
    exact all_foldlM_pyDel hw h3

theorem Idle.mergeNodes {g g' : Grid α} {i : Int} (hw : g.Idle) (h : g.mergeNodes i = .ok g') : g'.Idle := by
  obtain ⟨p, q, a, b, _, _, h1, h2, _, rfl⟩ := mergeNodes_ok h
  intro n hn
  have hn' := List.mem_of_mem_eraseIdx hn
  rcases List.mem_or_eq_of_mem_set hn' with hn' | rfl
  · exact hw n hn'
  · exact merged_idle (hw a (List.mem_of_getElem? h1)) (hw b (List.mem_of_getElem? h2))

theorem Idle.correctLayerPass {g g' : Grid α} {c : Consts α} {i : Int} {h : α} (hw : g.Idle)
    (he : Grid.correctLayerPass c i h g = .ok (some g')) : g'.Idle := by
  unfold Grid.correctLayerPass at he
  rw [bind_eq_ok] at he; obtain ⟨a, _, he⟩ := he
  split_ifs at he
  · rw [bind_eq_ok] at he; obtain ⟨b, _, he⟩ := he
    split_ifs at he
    · rw [bind_eq_ok] at he; obtain ⟨g1, h1, he⟩ := he
      rw [pure_eq_ok] at he; cases he; exact hw.mergeNodes h1
    · rw [bind_eq_ok] at he; obtain ⟨g1, h1, he⟩ := he
      rw [pure_eq_ok] at he; cases he; exact hw.mergeNodes h1
    · rw [pure_eq_ok] at he; cases he
  · rw [pure_eq_ok] at he; cases he

theorem Idle.correctLayerSplit {g g' : Grid α} {c : Consts α} {i : Int} {h : α} (hh : 0 ≤ h) (hw : g.Idle)
    (he : Grid.correctLayerSplit c i h g = .ok g') : g'.Idle := by
  unfold Grid.correctLayerSplit at he
  rw [bind_eq_ok] at he; obtain ⟨a, ha, he⟩ := he
  have na := hw.node ha
  split_ifs at he with hlt
  · simp only [bind_eq_ok] at he
    obtain ⟨θ, hθ, x0, e0, x1, e1, g1, h1, n1, _, he⟩ := he
    rw [pure_eq_ok] at he; subst he
    have hθ0 := irr_nn na.1.ice hθ
    have hno : ¬ 0 < a.lwc - θ := by rw [na.2]; exact not_lt.2 (Rounded.sub_nonpos hθ0)
    have e0 := fdiv_ok e0
    have e1 := fdiv_ok e1
    rw [if_neg hno] at e0 e1
    have hd : 0 ≤ a.height - h := Rounded.sub_nonneg hlt.le
    have n0 : x0 = 0 := by rw [e0, na.2, Rounded.zero_mul, Rounded.zero_div]
    have n1 : x1 = 0 := by rw [e1, Rounded.zero_div]
    exact all_pyInsert (hw.updateNode hh na.1.ice n0 h1) _ ⟨⟨hd, na.1.ice, n1.ge⟩, n1⟩
  · rw [pure_eq_ok] at he; subst he; exact hw

theorem Idle.correctLayer {g g' : Grid α} {fuel : Nat} {c : Consts α} {i : Int} {h : α} (hh : 0 ≤ h) (hw : g.Idle)
    (he : g.correctLayer fuel c i h = .ok g') : g'.Idle := by
  unfold Grid.correctLayer at he
  rw [bind_eq_ok] at he; obtain ⟨g1, h1, he⟩ := he
  exact Idle.correctLayerSplit hh
    (whileM_inv (fun g : Grid α => g.Idle) (fun s s' hs hb => Idle.correctLayerPass hs hb) fuel g g1 hw h1).1 he

theorem Idle.logSnowPass {s s' : LogState α} {fuel : Nat} {c : Consts α} (hs : 0 ≤ c.layerStretching) (hw : s.g.Idle ∧ 0 ≤ s.last)
    (he : Grid.logSnowPass fuel c s = .ok (some s')) : s'.g.Idle ∧ 0 ≤ s'.last := by
  unfold Grid.logSnowPass at he
  rw [bind_eq_ok] at he; obtain ⟨n, _, he⟩ := he
  split_ifs at he
  · rw [bind_eq_ok] at he; obtain ⟨g1, h1, he⟩ := he
    rw [pure_eq_ok] at he; cases he; exact ⟨hw.1.correctLayer hw.2 h1, Rounded.mul_nonneg hs hw.2⟩
  · rw [bind_eq_ok] at he; obtain ⟨g1, h1, he⟩ := he
    rw [pure_eq_ok] at he; cases he; exact ⟨hw.1.mergeNodes h1, hw.2⟩
  · rw [pure_eq_ok] at he; cases he; exact hw
  · rw [pure_eq_ok] at he; cases he

theorem Idle.logIcePass {s s' : LogState α} {fuel : Nat} {c : Consts α} (hs : 0 ≤ c.layerStretching) (hw : s.g.Idle ∧ 0 ≤ s.last)
    (he : Grid.logIcePass fuel c s = .ok (some s')) : s'.g.Idle ∧ 0 ≤ s'.last := by
  unfold Grid.logIcePass at he
  split_ifs at he
  · rw [bind_eq_ok] at he; obtain ⟨g1, h1, he⟩ := he
    rw [pure_eq_ok] at he; cases he; exact ⟨hw.1.correctLayer hw.2 h1, Rounded.mul_nonneg hs hw.2⟩
  · rw [bind_eq_ok] at he; obtain ⟨g1, h1, he⟩ := he
    rw [pure_eq_ok] at he; cases he; exact ⟨hw.1.mergeNodes h1, hw.2⟩
  · rw [pure_eq_ok] at he; cases he; exact hw
  · rw [pure_eq_ok] at he; cases he

theorem Idle.logProfile {g g' : Grid α} {fuel : Nat} {c : Consts α} (hs : 0 ≤ c.layerStretching) (hf : 0 ≤ c.firstLayerHeight)
    (hw : g.Idle) (he : g.logProfile fuel c = .ok g') : g'.Idle := by
  unfold Grid.logProfile at he
  simp only [bind_eq_ok] at he
  obtain ⟨_, _, s1, h1, _, _, _, _, _, _, s2, h2, he⟩ := he
  rw [pure_eq_ok] at he; subst he
  have hs1 := (whileM_inv (fun s : LogState α => s.g.Idle ∧ 0 ≤ s.last) (fun s s' hp hb => Idle.logSnowPass hs hp hb) _ _ _
    ⟨hw, hf⟩ h1).1
  refine (whileM_inv (fun s : LogState α => s.g.Idle ∧ 0 ≤ s.last) (fun s s' hp hb => Idle.logIcePass hs hp hb) _ _ _ ?_ h2).1.1
  exact hs1

theorem Idle.adaptSnowPass {s s' : AdaptState α} {c : Consts α} (hw : s.g.Idle)
    (he : Grid.adaptSnowPass c s = .ok (some s')) : s'.g.Idle := by
  unfold Grid.adaptSnowPass at he
  rw [bind_eq_ok] at he; obtain ⟨n, _, he⟩ := he
  split_ifs at he
  · simp only [bind_eq_ok] at he
    obtain ⟨a, _, b, _, he⟩ := he
    split_ifs at he
    · rw [bind_eq_ok] at he; obtain ⟨g1, h1, he⟩ := he
      rw [pure_eq_ok] at he; cases he; exact hw.mergeNodes h1
    · rw [bind_eq_ok] at he; obtain ⟨g1, h1, he⟩ := he
      rw [pure_eq_ok] at he; cases he; exact hw.removeNode h1
    · rw [pure_eq_ok] at he; cases he; exact hw
  · rw [pure_eq_ok] at he; cases he

theorem Idle.adaptIcePass {s s' : Grid α × Int} {c : Consts α} (hw : s.1.Idle)
    (he : Grid.adaptIcePass c s = .ok (some s')) : s'.1.Idle := by
  unfold Grid.adaptIcePass at he
  split_ifs at he
  · rw [bind_eq_ok] at he; obtain ⟨a, _, he⟩ := he
    split_ifs at he
    · rw [bind_eq_ok] at he; obtain ⟨g1, h1, he⟩ := he
      rw [pure_eq_ok] at he; cases he; exact hw.mergeNodes h1
    · rw [pure_eq_ok] at he; cases he; exact hw
  · rw [pure_eq_ok] at he; cases he

theorem Idle.adaptiveProfile {g g' : Grid α} {fuel : Nat} {c : Consts α} (hf : 0 ≤ c.firstLayerHeight) (hw : g.Idle)
    (he : g.adaptiveProfile fuel c = .ok g') : g'.Idle := by
  unfold Grid.adaptiveProfile at he
  simp only [bind_eq_ok] at he
  obtain ⟨s1, h1, n, _, ⟨g2, i2⟩, h2, ⟨g3, i3⟩, h3, he⟩ := he
  have hs1 := (whileM_inv (fun s : AdaptState α => s.g.Idle) (fun s s' hs hb => Idle.adaptSnowPass hs hb) _ _ _ hw h1).1
  have hg2 : g2.Idle := by
    split_ifs at h2
    · simp only [bind_eq_ok] at h2
      obtain ⟨a, _, h2⟩ := h2
      split_ifs at h2
      · rw [bind_eq_ok] at h2; obtain ⟨g4, h4, h2⟩ := h2
        rw [pure_eq_ok] at h2; cases h2; exact hs1.correctLayer hf h4
      · rw [pure_eq_ok] at h2; cases h2; exact hs1
    · simp only [bind_eq_ok] at h2
      obtain ⟨a, _, h2⟩ := h2
      rw [pure_eq_ok] at h2; cases h2; exact hs1
  have hg3 := (whileM_inv (fun s : Grid α × Int => s.1.Idle) (fun s s' hs hb => Idle.adaptIcePass hs hb) _ _ _ hg2 h3).1
  exact hg3.correctLayer hf he

theorem Idle.updateGrid {g g' : Grid α} {fuel : Nat} {c : Consts α} (hs : 0 ≤ c.layerStretching) (hf : 0 ≤ c.firstLayerHeight)
    (hw : g.Idle) (he : g.updateGrid fuel c = .ok g') : g'.Idle := by
  unfold Grid.updateGrid at he
  rw [bind_eq_ok] at he; obtain ⟨g1, h1, he⟩ := he
  have hg1 : g1.Idle := by
    unfold Grid.remesh at h1
    split at h1
    · exact hw.logProfile hs hf h1
    · exact hw.adaptiveProfile hf h1
    · cases h1; exact hw
  rw [bind_eq_ok] at he; obtain ⟨a, _, he⟩ := he
  split_ifs at he
  · exact hg1.removeNode he
  · rw [pure_eq_ok] at he; subst he; exact hg1

end Grid

/-- A dry column stays as it is in the percolation loop. -/
theorem percolateFrom_idle : ∀ (rest : List (Node α)) {a : Node α} {ms : List (Node α)}, IdleLayer a →
    (∀ n ∈ rest, IdleLayer n) → percolateFrom a rest = .ok ms → ms = a :: rest := by
  intro rest
  induction rest with
  | nil => intro a ms _ _ h; rw [percolateFrom] at h; cases h; rfl
  | cons b rest ih =>
    intro a ms ha hr h
    rw [percolateFrom, bind_eq_ok] at h
    obtain ⟨e, he, h⟩ := h
    have he0 := irr_nn ha.1.ice he
    have hno : ¬ 0 < pyMax (a.lwc - e) 0 := by
      rw [ha.2]
      have := Rounded.sub_nonpos (a := (0 : α)) he0
      unfold pyMax
      split_ifs
      · exact lt_irrefl _
      · exact not_lt.2 this
    simp only [if_neg hno, bind_eq_ok] at h
    obtain ⟨tl, htl, h⟩ := h
    rw [pure_eq_ok] at h; subst h
    rw [ih (hr b (by simp)) (fun n hn => hr n (by simp [hn])) htl]

theorem modify_same {β : Type} {f : β → β} : ∀ {xs : List β} {k : Nat}, (∀ x ∈ xs, f x = x) → xs.modify k f = xs := by
  intro xs k h
  apply List.ext_getElem?
  intro i
  rw [List.getElem?_modify]
  cases hx : xs[i]? with
  | none => simp
  | some x =>
    have := h x (List.mem_of_getElem? hx)
    by_cases hk : k = i <;> simp [hk, this]

/-- Percolation without water leaves a dry column alone and there is no runoff. -/
theorem percolation_idle {g : Grid α} {r : Grid α × α} (hw : g.Idle) (h : percolation g 0 = .ok r) : r = (g, 0) := by
  obtain ⟨top, ns, q, _, ht, hq, hns, h⟩ := percolation_ok h
  have nt := hw top (List.mem_of_getElem? ht)
  have hq := fdiv_ok hq
  rw [Rounded.zero_div] at hq
  have h0 : g.nodes.modify 0 (Node.setLwc (top.lwc + q)) = g.nodes := by
    refine modify_same fun n hn => ?_
    rw [hq, nt.2, Rounded.add_zero]
    have := (hw n hn).2
    cases n; simp only at this; subst this; rfl
  rw [h0] at hns
  have h2 : ns = g.nodes := by
    have hw' : ∀ n ∈ g.nodes, IdleLayer n := hw
    revert hns hw'
    generalize g.nodes = l
    intro hns hw'
    cases l with
    | nil => cases hns; rfl
    | cons a rest => exact percolateFrom_idle rest (hw' a (by simp)) (fun n hn => hw' n (by simp [hn])) hns
  subst h2
  obtain ⟨k, n, _, hk, rfl⟩ := getRunoff_ok h
  have nn := hw n (List.mem_of_getElem? hk)
  have h1 : g.nodes.modify k (Node.setLwc 0) = g.nodes := by
    refine modify_same fun n hn => ?_
    have := (hw n hn).2
    cases n; simp only at this; subst this; rfl
  rw [nn.2, Rounded.zero_mul]
  simp only [h1]

/-- Refreezing only clears the amounts refrozen before. -/
theorem refreezing_idle {g : Grid α} {c : Consts α} {r : Grid α × α} (hw : g.Idle) (h : refreezing c g = .ok r) :
    r = ({ g with nodes := g.nodes.map (Node.setRefreeze 0) }, 0) := by
  have key : ∀ (ns : List (Node α)) {r : List (Node α) × α}, (∀ n ∈ ns, IdleLayer n) → refreezeLayers c 0 ns = .ok r →
      r = (ns.map (Node.setRefreeze 0), 0) := by
    intro ns
    induction ns with
    | nil => intro r _ h; rw [refreezeLayers] at h; cases h; rfl
    | cons n ns ih =>
      intro r hn h
      rw [refreezeLayers, bind_eq_ok] at h
      obtain ⟨⟨n', d⟩, h1, h⟩ := h
      have hno : ¬ (n.temperature ≤ c.zeroTemperature ∧ 0 < n.lwc) := by
        rw [(hn n (by simp)).2]; exact fun hh => lt_irrefl _ hh.2
      unfold refreezeLayer at h1
      rw [if_neg hno, pure_eq_ok, Rounded.zero_mul] at h1
      cases h1
      simp only [Rounded.add_zero, bind_eq_ok] at h
      obtain ⟨⟨ns', t⟩, h2, h⟩ := h
      rw [pure_eq_ok] at h; subst h
      have := ih (fun m hm => hn m (by simp [hm])) h2
      cases this
      rfl
  unfold Cosipy.refreezing at h
  rw [bind_eq_ok] at h; obtain ⟨⟨ns, t⟩, h1, h⟩ := h
  rw [pure_eq_ok] at h; subst h
  have := key _ hw h1
  cases this
  rfl

/-- Removing no melt changes nothing. -/
theorem removeMeltWeq_zero {g : Grid α} {fuel : Nat} {c : Consts α} {r : Grid α × α}
    (h : g.removeMeltWeq fuel c 0 = .ok r) : r = (g, 0) := by
  unfold Grid.removeMeltWeq at h
  rw [bind_eq_ok] at h; obtain ⟨s, h1, h⟩ := h
  have hs : s = ⟨g, 0, 0⟩ := by
    cases fuel with
    | zero => rw [whileM] at h1; cases h1
    | succ k =>
      have : Grid.removeMeltPass c 0 ⟨g, 0, 0⟩ = .ok none := by
        unfold Grid.removeMeltPass
        rw [if_neg (fun hh => lt_irrefl _ hh.1)]; rfl
      rw [whileM, this] at h1
      cases h1; rfl
  subst hs
  rw [pure_eq_ok] at h
  rw [← h]
  simp only [if_true, Rounded.sub_zero]
  rfl

/-- One sub-step of conduction at one temperature. -/
theorem heatPass_idle {T dt : α} {cs : List (HeatCell α)} (h : ∀ x ∈ cs, x.t = T) : heatPass dt cs = cs := by
  have below : ∀ (cs : List (HeatCell α)), (∀ x ∈ cs, x.t = T) → heatBelow dt cs = cs.tail := by
    intro cs
    induction cs with
    | nil => intro _; rfl
    | cons a rest ih =>
      intro h
      match rest with
      | [] => rfl
      | [b] => rfl
      | b :: d :: rest =>
        have e : heatNewT dt a b d = b.t := by
          unfold heatNewT
          rw [h a (by simp), h b (by simp), h d (by simp), Rounded.sub_self, Rounded.mul_zero, Rounded.mul_zero,
            Rounded.zero_div, Rounded.zero_div, Rounded.sub_self, Rounded.zero_div, Rounded.add_zero]
        rw [heatBelow, e, ih fun x hx => h x (by simp [hx])]
        rfl
  cases cs with
  | nil => rfl
  | cons a rest => rw [heatPass, below _ h]; rfl

/-- Conduction leaves a column of one temperature alone. -/
theorem solveHeatEquation_idle {fuel : Nat} {c : Consts α} {g g' : Grid α} {dt T : α} (hw : g.WF)
    (hT : ∀ n ∈ g.nodes, n.temperature = T) (h : solveHeatEquation fuel c g dt = .ok g') : g' = g := by
  unfold Cosipy.solveHeatEquation at h
  simp only [bind_eq_ok] at h
  obtain ⟨cells, h1, b, h2, ⟨u, cs⟩, h3, h⟩ := h
  rw [Grid.mapNodes_eq hw, mapM_eq_ok_iff] at h1
  have hl := h1.length_eq
  have ht : ∀ x ∈ cells, x.t = T := by
    intro x hx
    obtain ⟨i, hi⟩ := List.mem_iff_getElem?.1 hx
    have hlt : i < cells.length := (List.getElem?_eq_some_iff.1 hi).1
    have hi' : g.nodes[i]? = some (g.nodes[i]'(by omega)) := List.getElem?_eq_getElem _
    have := List.forall₂_iff_get.1 h1
    have h4 := this.2 i (by omega) hlt
    simp only [List.get_eq_getElem, bind_eq_ok] at h4
    obtain ⟨k, _, h4⟩ := h4
    rw [pure_eq_ok] at h4
    have hx' : cells[i] = x := (List.getElem?_eq_some_iff.1 hi).2
    rw [← hx', ← h4]
    exact hT _ (List.getElem_mem _)
  have hcs : cs = cells := (whileM_inv (body := heatLoopPass dt b) (fun s : α × List (HeatCell α) => s.2 = cells) (by
    rintro s s' hs hb
    unfold heatLoopPass at hb
    split_ifs at hb
    · cases hb
      simp only [hs, heatPass_idle ht]
    · cases hb) fuel (0, cells) (u, cs) rfl h3).1
  subst hcs
  rw [Grid.setAll_eq hw _ (by simpa using hl.symm)] at h
  cases h
  have : List.zipWith Node.setTemperature (cs.map HeatCell.t) g.nodes = g.nodes := by
    apply List.ext_getElem (by simp [hl])
    intro i h4 h5
    simp only [List.getElem_zipWith, List.getElem_map]
    have e1 := ht cs[i] (List.getElem_mem _)
    have e2 := hT g.nodes[i] (List.getElem_mem _)
    rw [e1, ← e2]
    rfl
  rw [this]

end
end Cosipy
