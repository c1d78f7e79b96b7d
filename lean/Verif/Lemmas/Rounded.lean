import Verif.Lemmas.StepInv
import Verif.Spec.Rounded

/-! Signs in rounded arithmetic: what every stage of a time step keeps. -/

set_option autoImplicit false
set_option linter.unusedSectionVars false

namespace Cosipy

section Lists
variable {β : Type} {P : β → Prop}

theorem all_modify {xs : List β} (h : ∀ x ∈ xs, P x) (k : Nat) {f : β → β} (hf : ∀ x, P x → P (f x)) : ∀ x ∈ xs.modify k f, P x := by
  induction xs generalizing k with
  | nil => simp
  | cons a l ih =>
    have ha := h a (by simp)
    have hl : ∀ x ∈ l, P x := fun x hx => h x (by simp [hx])
    cases k with
    | zero =>
      intro x hx
      rw [List.modify_zero_cons] at hx
      rcases List.mem_cons.1 hx with rfl | hx
      · exact hf a ha
      · exact hl x hx
    | succ k =>
      intro x hx
      rw [List.modify_succ_cons] at hx
      rcases List.mem_cons.1 hx with rfl | hx
      · exact ha
      · exact ih hl k x hx

theorem all_pyInsert {xs : List β} (h : ∀ x ∈ xs, P x) (i : Int) {y : β} (hy : P y) : ∀ x ∈ pyInsert xs i y, P x := by
  intro x hx
  unfold pyInsert at hx
  rcases List.eq_or_mem_of_mem_insertIdx hx with rfl | hx
  · exact hy
  · exact h x hx

theorem all_foldlM_pyDel {is : List Int} {xs ys : List β} (h : ∀ x ∈ xs, P x) (he : is.foldlM pyDel xs = .ok ys) :
    ∀ x ∈ ys, P x := by
  induction is generalizing xs with
  | nil => rw [List.foldlM_nil, pure_eq_ok] at he; subst he; exact h
  | cons i is ih =>
    rw [List.foldlM_cons, bind_eq_ok] at he
    obtain ⟨zs, h1, he⟩ := he
    obtain ⟨k, _, rfl⟩ := pyDel_eq_ok.1 h1
    exact ih (fun x hx => h x (List.mem_of_mem_eraseIdx hx)) he

end Lists

section
variable {α : Type} [LinearOrder α] [Zero α] [One α] [Add α] [Sub α] [Mul α] [Div α] [Neg α] [NatCast α] [OfScientific α] [Rounded α]

namespace Rounded

theorem add_nonneg {a b : α} (ha : 0 ≤ a) (hb : 0 ≤ b) : 0 ≤ a + b := by
  have := add_mono ha hb; rwa [add_zero] at this

theorem sub_nonneg {a b : α} (h : b ≤ a) : 0 ≤ a - b := by
  have := sub_mono (a := b) (b := a) (c := b) (d := b) h le_rfl
  rwa [sub_self] at this

theorem sub_nonpos {a b : α} (h : a ≤ b) : a - b ≤ 0 := by
  have := sub_mono (a := a) (b := b) (c := b) (d := b) h le_rfl
  rwa [sub_self] at this

theorem sub_le {a b : α} (hb : 0 ≤ b) : a - b ≤ a := by
  have := sub_mono (a := a) (b := a) (c := b) (d := 0) le_rfl hb
  rwa [sub_zero] at this

theorem mul_nonneg {a b : α} (ha : 0 ≤ a) (hb : 0 ≤ b) : 0 ≤ a * b := by
  have := mul_mono_left (a := 0) (b := b) (c := a) ha hb
  rwa [mul_zero] at this

theorem mul_nonpos {a b : α} (ha : a ≤ 0) (hb : 0 ≤ b) : a * b ≤ 0 := by
  have := mul_mono_right (a := a) (b := 0) (c := b) hb ha
  rwa [zero_mul] at this

theorem mul_nonpos' {a b : α} (ha : 0 ≤ a) (hb : b ≤ 0) : a * b ≤ 0 := by
  have := mul_mono_left (a := b) (b := 0) (c := a) ha hb
  rwa [mul_zero] at this

theorem mul_le {a b : α} (ha : 0 ≤ a) (hb : b ≤ 1) : b * a ≤ a := by
  have := mul_mono_right (a := b) (b := 1) (c := a) ha hb
  rwa [one_mul] at this

theorem div_nonneg {a b : α} (ha : 0 ≤ a) (hb : 0 ≤ b) : 0 ≤ a / b := by
  have := div_mono (a := 0) (b := a) (c := b) hb ha
  rwa [zero_div] at this

theorem div_nonpos {a b : α} (ha : a ≤ 0) (hb : 0 ≤ b) : a / b ≤ 0 := by
  have := div_mono (a := a) (b := 0) (c := b) hb ha
  rwa [zero_div] at this

theorem neg_nonneg {a : α} (ha : a ≤ 0) : 0 ≤ -a := by
  have := neg_anti ha; rwa [neg_zero] at this

theorem neg_nonpos {a : α} (ha : 0 ≤ a) : -a ≤ 0 := by
  have := neg_anti ha; rwa [neg_zero] at this

theorem add_nonneg_of_neg_le {a b : α} (h : -a ≤ b) : 0 ≤ a + b := by
  have := add_mono (a := a) (b := a) le_rfl h
  rwa [add_neg] at this

theorem max_nonneg_left {a : α} : 0 ≤ pyMax 0 a := by
  unfold pyMax; split_ifs with h
  · exact h.le
  · exact le_rfl

theorem max_nonneg_right {a : α} : 0 ≤ pyMax a 0 := by
  unfold pyMax; split_ifs with h
  · exact le_rfl
  · exact not_lt.1 h

theorem min_nonpos_right {a : α} : pyMin a 0 ≤ 0 := by
  unfold pyMin; split_ifs with h
  · exact le_rfl
  · exact not_lt.1 h

theorem le_max_right {a b : α} : b ≤ pyMax a b := by
  unfold pyMax; split_ifs with h
  · exact le_rfl
  · exact not_lt.1 h

theorem min_le_right {a b : α} : pyMin a b ≤ b := by
  unfold pyMin; split_ifs with h
  · exact le_rfl
  · exact not_lt.1 h

theorem min_le_left {a b : α} : pyMin a b ≤ a := by
  unfold pyMin; split_ifs with h
  · exact h.le
  · exact le_rfl

end Rounded

open Rounded

/-- All layers of a column are without negative content. -/
def Grid.NN (g : Grid α) : Prop := ∀ n ∈ g.nodes, NonNegLayer n

theorem density_nn {c : Consts α} (h1 : 0 ≤ c.iceDensity) (h2 : 0 ≤ c.waterDensity) (h3 : 0 ≤ c.airDensity) {n : Node α}
    (hi : 0 ≤ n.iceFraction) (hw : 0 ≤ n.lwc) : 0 ≤ n.density c := by
  unfold Node.density Node.airPorosity
  exact Rounded.add_nonneg (Rounded.add_nonneg (Rounded.mul_nonneg hi h1) (Rounded.mul_nonneg hw h2))
    (Rounded.mul_nonneg max_nonneg_left h3)

/-- The irreducible water content is not negative. -/
theorem irr_nn {n : Node α} {θ : α} (hi : 0 ≤ n.iceFraction) (h : n.irreducibleWaterContent = .ok θ) : 0 ≤ θ := by
  unfold Node.irreducibleWaterContent at h
  split_ifs at h with h1 h2
  · rw [bind_eq_ok] at h
    obtain ⟨q, hq, h⟩ := h
    rw [pure_eq_ok] at h; subst h
    have hq := fdiv_ok hq
    subst hq
    refine Rounded.add_nonneg (lit_nonneg _ _ _) (Rounded.mul_nonneg (lit_nonneg _ _ _) ?_)
    exact Rounded.div_nonneg (Rounded.sub_nonneg (h1.trans small)) hi
  · rw [ok_inj] at h
    rw [← h]
    refine Rounded.sub_nonneg (le_trans ?_ irreducible)
    exact mul_mono_left (lit_nonneg _ _ _) (sub_mono h2.2 le_rfl)
  · rw [ok_inj] at h; exact h ▸ le_rfl

theorem merged_nn {a b : Node α} (ha : NonNegLayer a) (hb : NonNegLayer b) : NonNegLayer (Grid.merged a b) := by
  have hh := Rounded.add_nonneg ha.height hb.height
  exact ⟨hh,
    Rounded.div_nonneg (Rounded.add_nonneg (Rounded.mul_nonneg ha.ice ha.height) (Rounded.mul_nonneg hb.ice hb.height)) hh,
    Rounded.div_nonneg (Rounded.add_nonneg (Rounded.mul_nonneg ha.water ha.height) (Rounded.mul_nonneg hb.water hb.height)) hh⟩

namespace Grid

theorem NN.node {g : Grid α} (hw : g.NN) {i : Int} {a : Node α} (h : g.node i = .ok a) : NonNegLayer a := by
  unfold Grid.node at h
  obtain ⟨k, _, hk⟩ := pyGet_eq_ok.1 h
  exact hw a (List.mem_of_getElem? hk)

theorem NN.modifyNode {g g' : Grid α} {i : Int} {f : Node α → Node α} (hw : g.NN) (hf : ∀ n, NonNegLayer n → NonNegLayer (f n))
    (h : g.modifyNode i f = .ok g') : g'.NN := by
  obtain ⟨k, _, rfl⟩ := modifyNode_eq_ok.1 h
  exact all_modify hw k hf

theorem NN.updateNode {g g' : Grid α} {i : Int} {h t f w : α} (hw : g.NN) (h1 : 0 ≤ h) (h2 : 0 ≤ f) (h3 : 0 ≤ w)
    (he : g.updateNode i h t f w = .ok g') : g'.NN := by
  obtain ⟨k, _, rfl⟩ := updateNode_eq_ok.1 he
  exact all_modify hw k fun n _ => ⟨h1, h2, h3⟩

theorem NN.removeNode {g g' : Grid α} {is : List Int} (hw : g.NN) (h : g.removeNode is = .ok g') : g'.NN := by
  unfold Grid.removeNode at h
  split_ifs at h
  · cases h; exact hw
  · cases h; exact fun n hn => hw n (List.mem_of_mem_tail hn)
  · rw [bind_eq_ok] at h
    obtain ⟨ns, h3, h4⟩ := h
    rw [pure_eq_ok] at h4; subst h4
    exact all_foldlM_pyDel hw h3

theorem NN.mergeNodes {g g' : Grid α} {i : Int} (hw : g.NN) (h : g.mergeNodes i = .ok g') : g'.NN := by
  obtain ⟨p, q, a, b, _, _, h1, h2, _, rfl⟩ := mergeNodes_ok h
  intro n hn
  have hn' := List.mem_of_mem_eraseIdx hn
  rcases List.mem_or_eq_of_mem_set hn' with hn' | rfl
  · exact hw n hn'
  · exact merged_nn (hw a (List.mem_of_getElem? h1)) (hw b (List.mem_of_getElem? h2))

theorem NN.correctLayerPass {g g' : Grid α} {c : Consts α} {i : Int} {h : α} (hw : g.NN)
    (he : Grid.correctLayerPass c i h g = .ok (some g')) : g'.NN := by
  unfold Grid.correctLayerPass at he
  rw [bind_eq_ok] at he; obtain ⟨a, _, he⟩ := he
  split_ifs at he
  · rw [bind_eq_ok] at he; obtain ⟨b, _, he⟩ := he
    split_ifs at he
    · rw [bind_eq_ok] at he; obtain ⟨g1, h1, he⟩ := he
      rw [pure_eq_ok] at he; cases he; exact hw.mergeNodes h1
    · rw [bind_eq_ok] at he; obtain ⟨g1, h1, he⟩ := he
      rw [pure_eq_ok] at he; cases he; exact hw.mergeNodes h1
    · rw [pure_eq_ok] at he; cases he
  · rw [pure_eq_ok] at he; cases he

theorem NN.correctLayerSplit {g g' : Grid α} {c : Consts α} {i : Int} {h : α} (hh : 0 ≤ h) (hw : g.NN)
    (he : Grid.correctLayerSplit c i h g = .ok g') : g'.NN := by
  unfold Grid.correctLayerSplit at he
  rw [bind_eq_ok] at he; obtain ⟨a, ha, he⟩ := he
  have na := hw.node ha
  split_ifs at he with hlt
  · simp only [bind_eq_ok] at he
    obtain ⟨θ, hθ, x0, e0, x1, e1, g1, h1, n1, _, he⟩ := he
    rw [pure_eq_ok] at he; subst he
    have hθ0 := irr_nn na.ice hθ
    have e0 := fdiv_ok e0
    have e1 := fdiv_ok e1
    have hd : 0 ≤ a.height - h := Rounded.sub_nonneg hlt.le
    have n0 : 0 ≤ x0 := by
      rw [e0]
      refine Rounded.div_nonneg ?_ hh
      split_ifs
      · exact Rounded.mul_nonneg hθ0 na.height
      · exact Rounded.mul_nonneg na.water na.height
    have n1 : 0 ≤ x1 := by
      rw [e1]
      refine Rounded.div_nonneg ?_ hd
      split_ifs with h2
      · refine Rounded.sub_nonneg (mul_mono_right na.height ?_)
        by_contra h3
        exact absurd h2 (not_lt.2 (Rounded.sub_nonpos (not_le.1 h3).le))
      · exact le_rfl
    exact all_pyInsert (hw.updateNode hh na.ice n0 h1) _ ⟨hd, na.ice, n1⟩
  · rw [pure_eq_ok] at he; subst he; exact hw

theorem NN.correctLayer {g g' : Grid α} {fuel : Nat} {c : Consts α} {i : Int} {h : α} (hh : 0 ≤ h) (hw : g.NN)
    (he : g.correctLayer fuel c i h = .ok g') : g'.NN := by
  unfold Grid.correctLayer at he
  rw [bind_eq_ok] at he; obtain ⟨g1, h1, he⟩ := he
  exact NN.correctLayerSplit hh
    (whileM_inv (fun g : Grid α => g.NN) (fun s s' hs hb => NN.correctLayerPass hs hb) fuel g g1 hw h1).1 he

theorem NN.logSnowPass {s s' : LogState α} {fuel : Nat} {c : Consts α} (hs : 0 ≤ c.layerStretching) (hw : s.g.NN ∧ 0 ≤ s.last)
    (he : Grid.logSnowPass fuel c s = .ok (some s')) : s'.g.NN ∧ 0 ≤ s'.last := by
  unfold Grid.logSnowPass at he
  rw [bind_eq_ok] at he; obtain ⟨n, _, he⟩ := he
  split_ifs at he
  · rw [bind_eq_ok] at he; obtain ⟨g1, h1, he⟩ := he
    rw [pure_eq_ok] at he; cases he; exact ⟨hw.1.correctLayer hw.2 h1, Rounded.mul_nonneg hs hw.2⟩
  · rw [bind_eq_ok] at he; obtain ⟨g1, h1, he⟩ := he
    rw [pure_eq_ok] at he; cases he; exact ⟨hw.1.mergeNodes h1, hw.2⟩
  · rw [pure_eq_ok] at he; cases he; exact hw
  · rw [pure_eq_ok] at he; cases he

theorem NN.logIcePass {s s' : LogState α} {fuel : Nat} {c : Consts α} (hs : 0 ≤ c.layerStretching) (hw : s.g.NN ∧ 0 ≤ s.last)
    (he : Grid.logIcePass fuel c s = .ok (some s')) : s'.g.NN ∧ 0 ≤ s'.last := by
  unfold Grid.logIcePass at he
  split_ifs at he
  · rw [bind_eq_ok] at he; obtain ⟨g1, h1, he⟩ := he
    rw [pure_eq_ok] at he; cases he; exact ⟨hw.1.correctLayer hw.2 h1, Rounded.mul_nonneg hs hw.2⟩
  · rw [bind_eq_ok] at he; obtain ⟨g1, h1, he⟩ := he
    rw [pure_eq_ok] at he; cases he; exact ⟨hw.1.mergeNodes h1, hw.2⟩
  · rw [pure_eq_ok] at he; cases he; exact hw
  · rw [pure_eq_ok] at he; cases he

theorem NN.logProfile {g g' : Grid α} {fuel : Nat} {c : Consts α} (hs : 0 ≤ c.layerStretching) (hf : 0 ≤ c.firstLayerHeight)
    (hw : g.NN) (he : g.logProfile fuel c = .ok g') : g'.NN := by
  unfold Grid.logProfile at he
  simp only [bind_eq_ok] at he
  obtain ⟨_, _, s1, h1, _, _, _, _, _, _, s2, h2, he⟩ := he
  rw [pure_eq_ok] at he; subst he
  have hs1 := (whileM_inv (fun s : LogState α => s.g.NN ∧ 0 ≤ s.last) (fun s s' hp hb => NN.logSnowPass hs hp hb) _ _ _
    ⟨hw, hf⟩ h1).1
  refine (whileM_inv (fun s : LogState α => s.g.NN ∧ 0 ≤ s.last) (fun s s' hp hb => NN.logIcePass hs hp hb) _ _ _ ?_ h2).1.1
  exact hs1

theorem NN.adaptSnowPass {s s' : AdaptState α} {c : Consts α} (hw : s.g.NN)
    (he : Grid.adaptSnowPass c s = .ok (some s')) : s'.g.NN := by
  unfold Grid.adaptSnowPass at he
  rw [bind_eq_ok] at he; obtain ⟨n, _, he⟩ := he
  split_ifs at he
  · simp only [bind_eq_ok] at he
    obtain ⟨a, _, b, _, he⟩ := he
    split_ifs at he
    · rw [bind_eq_ok] at he; obtain ⟨g1, h1, he⟩ := he
      rw [pure_eq_ok] at he; cases he; exact hw.mergeNodes h1
    · rw [bind_eq_ok] at he; obtain ⟨g1, h1, he⟩ := he
      rw [pure_eq_ok] at he; cases he; exact hw.removeNode h1
    · rw [pure_eq_ok] at he; cases he; exact hw
  · rw [pure_eq_ok] at he; cases he

theorem NN.adaptIcePass {s s' : Grid α × Int} {c : Consts α} (hw : s.1.NN)
    (he : Grid.adaptIcePass c s = .ok (some s')) : s'.1.NN := by
  unfold Grid.adaptIcePass at he
  split_ifs at he
  · rw [bind_eq_ok] at he; obtain ⟨a, _, he⟩ := he
    split_ifs at he
    · rw [bind_eq_ok] at he; obtain ⟨g1, h1, he⟩ := he
      rw [pure_eq_ok] at he; cases he; exact hw.mergeNodes h1
    · rw [pure_eq_ok] at he; cases he; exact hw
  · rw [pure_eq_ok] at he; cases he

theorem NN.adaptiveProfile {g g' : Grid α} {fuel : Nat} {c : Consts α} (hf : 0 ≤ c.firstLayerHeight) (hw : g.NN)
    (he : g.adaptiveProfile fuel c = .ok g') : g'.NN := by
  unfold Grid.adaptiveProfile at he
  simp only [bind_eq_ok] at he
  obtain ⟨s1, h1, n, _, ⟨g2, i2⟩, h2, ⟨g3, i3⟩, h3, he⟩ := he
  have hs1 := (whileM_inv (fun s : AdaptState α => s.g.NN) (fun s s' hs hb => NN.adaptSnowPass hs hb) _ _ _ hw h1).1
  have hg2 : g2.NN := by
    split_ifs at h2
    · simp only [bind_eq_ok] at h2
      obtain ⟨a, _, h2⟩ := h2
      split_ifs at h2
      · rw [bind_eq_ok] at h2; obtain ⟨g4, h4, h2⟩ := h2
        rw [pure_eq_ok] at h2; cases h2; exact hs1.correctLayer hf h4
      · rw [pure_eq_ok] at h2; cases h2; exact hs1
    · simp only [bind_eq_ok] at h2
      obtain ⟨a, _, h2⟩ := h2
      rw [pure_eq_ok] at h2; cases h2; exact hs1
  have hg3 := (whileM_inv (fun s : Grid α × Int => s.1.NN) (fun s s' hs hb => NN.adaptIcePass hs hb) _ _ _ hg2 h3).1
  exact hg3.correctLayer hf he

theorem NN.updateGrid {g g' : Grid α} {fuel : Nat} {c : Consts α} (hs : 0 ≤ c.layerStretching) (hf : 0 ≤ c.firstLayerHeight)
    (hw : g.NN) (he : g.updateGrid fuel c = .ok g') : g'.NN := by
  unfold Grid.updateGrid at he
  rw [bind_eq_ok] at he; obtain ⟨g1, h1, he⟩ := he
  have hg1 : g1.NN := by
    unfold Grid.remesh at h1
    split at h1
    · exact hw.logProfile hs hf h1
    · exact hw.adaptiveProfile hf h1
    · cases h1; exact hw
  rw [bind_eq_ok] at he; obtain ⟨a, _, he⟩ := he
  split_ifs at he
  · exact hg1.removeNode he
  · rw [pure_eq_ok] at he; subst he; exact hg1

theorem NN.setAll {g g' : Grid α} {f : α → Node α → Node α} {xs : List α} (hf : ∀ x n, NonNegLayer n → NonNegLayer (f x n))
    (hw : g.NN) (he : g.setAll f xs = .ok g') : g'.NN := by
  unfold Grid.setAll at he
  revert he hw
  generalize List.range g.numberNodes.toNat = l
  intro hw he
  induction l generalizing g with
  | nil => rw [List.foldlM_nil, pure_eq_ok] at he; subst he; exact hw
  | cons i l ih =>
    rw [List.foldlM_cons, bind_eq_ok] at he
    obtain ⟨g1, h1, he⟩ := he
    rw [bind_eq_ok] at h1; obtain ⟨x, _, h1⟩ := h1
    exact ih (hw.modifyNode (hf x) h1) he

theorem NN.solveHeatEquation {g g' : Grid α} {fuel : Nat} {c : Consts α} {dt : α} (hw : g.NN)
    (h : solveHeatEquation fuel c g dt = .ok g') : g'.NN := by
  unfold Cosipy.solveHeatEquation at h
  simp only [bind_eq_ok] at h
  obtain ⟨_, _, _, _, ⟨_, cs⟩, _, h⟩ := h
  exact NN.setAll (f := Node.setTemperature) (fun x n hn => ⟨hn.height, hn.ice, hn.water⟩) hw h

theorem NN.removeMeltWeq {g : Grid α} {fuel : Nat} {c : Consts α} {m : α} {r : Grid α × α} (h1 : 0 ≤ c.iceDensity)
    (h2 : 0 ≤ c.waterDensity) (h3 : 0 ≤ c.airDensity) (hw : g.NN) (he : g.removeMeltWeq fuel c m = .ok r) : r.1.NN ∧ 0 ≤ r.2 := by
  unfold Grid.removeMeltWeq at he
  rw [bind_eq_ok] at he; obtain ⟨s1, hl, he⟩ := he
  have hs1 := (whileM_inv (fun s : MeltState α => s.g.NN ∧ 0 ≤ s.lwcFromLayers) (fun s s' hs hb => by
    unfold Grid.removeMeltPass at hb
    split_ifs at hb
    · rw [bind_eq_ok] at hb; obtain ⟨a, ha, hb⟩ := hb
      have na := hs.1.node ha
      simp only at hb
      split_ifs at hb with hlt
      · simp only [bind_eq_ok] at hb
        obtain ⟨x, hx, g1, hg1, hb⟩ := hb
        rw [pure_eq_ok] at hb; cases hb
        have hx := fdiv_ok hx
        have hx0 : 0 ≤ x := by
          rw [hx]
          exact Rounded.div_nonneg (Rounded.sub_nonneg hlt.le) (Rounded.div_nonneg (density_nn h1 h2 h3 na.ice na.water) h2)
        exact ⟨hs.1.modifyNode (f := Node.setHeight x) (fun n hn => ⟨hx0, hn.ice, hn.water⟩) hg1, hs.2⟩
      · simp only [bind_eq_ok] at hb
        obtain ⟨g1, hg1, hb⟩ := hb
        rw [pure_eq_ok] at hb; cases hb
        exact ⟨hs.1.removeNode hg1, Rounded.add_nonneg hs.2 (Rounded.mul_nonneg na.water na.height)⟩
      · rw [pure_eq_ok] at hb; cases hb; exact hs
    · rw [pure_eq_ok] at hb; cases hb) _ _ _ ⟨hw, le_rfl⟩ hl).1
  rw [pure_eq_ok] at he; subst he
  simp only
  split_ifs <;> exact hs1

end Grid

theorem percolateFrom_nn : ∀ (rest : List (Node α)) {a : Node α} {ms : List (Node α)}, NonNegLayer a →
    (∀ n ∈ rest, NonNegLayer n) → percolateFrom a rest = .ok ms → ∀ n ∈ ms, NonNegLayer n := by
  intro rest
  induction rest with
  | nil => intro a ms ha _ h; rw [percolateFrom] at h; cases h; simpa using ha
  | cons b rest ih =>
    intro a ms ha hr h
    have hb := hr b (by simp)
    have hr' : ∀ n ∈ rest, NonNegLayer n := fun n hn => hr n (by simp [hn])
    rw [percolateFrom, bind_eq_ok] at h
    obtain ⟨e, he, h⟩ := h
    have he0 := irr_nn ha.ice he
    simp only at h
    split_ifs at h with hp
    · simp only [bind_eq_ok] at h
      obtain ⟨q, hq, tl, htl, h⟩ := h
      rw [pure_eq_ok] at h; subst h
      have hq := fdiv_ok hq
      have hq0 : 0 ≤ q := by rw [hq]; exact Rounded.div_nonneg (Rounded.mul_nonneg hp.le ha.height) hb.height
      have := ih (a := b.setLwc (b.lwc + q)) ⟨hb.height, hb.ice, Rounded.add_nonneg hb.water hq0⟩ hr' htl
      intro n hn
      rcases List.mem_cons.1 hn with rfl | hn
      · exact ⟨ha.height, ha.ice, he0⟩
      · exact this n hn
    · simp only [bind_eq_ok] at h
      obtain ⟨tl, htl, h⟩ := h
      rw [pure_eq_ok] at h; subst h
      have := ih hb hr' htl
      intro n hn
      rcases List.mem_cons.1 hn with rfl | hn
      · exact ha
      · exact this n hn

theorem percolation_nn {g : Grid α} {w : α} {r : Grid α × α} (hw : g.NN) (h0 : 0 ≤ w) (h : percolation g w = .ok r) :
    r.1.NN ∧ 0 ≤ r.2 := by
  obtain ⟨top, ns, q, _, ht, hq, hns, h⟩ := percolation_ok h
  have nt := hw top (List.mem_of_getElem? ht)
  have hq := fdiv_ok hq
  have hq0 : 0 ≤ q := by rw [hq]; exact Rounded.div_nonneg h0 nt.height
  have h1 : ∀ n ∈ g.nodes.modify 0 (Node.setLwc (top.lwc + q)), NonNegLayer n :=
    all_modify hw 0 fun n hn => ⟨hn.height, hn.ice, Rounded.add_nonneg nt.water hq0⟩
  have h2 : ∀ n ∈ ns, NonNegLayer n := by
    revert hns h1
    generalize g.nodes.modify 0 (Node.setLwc (top.lwc + q)) = l
    intro hns h1
    cases l with
    | nil => cases hns; simp
    | cons a rest => exact percolateFrom_nn rest (h1 a (by simp)) (fun n hn => h1 n (by simp [hn])) hns
  obtain ⟨k, n, _, hk, rfl⟩ := getRunoff_ok h
  have nn := h2 n (List.mem_of_getElem? hk)
  exact ⟨all_modify h2 k fun m hm => ⟨hm.height, hm.ice, le_rfl⟩, Rounded.mul_nonneg nn.water nn.height⟩

theorem refreezeLayer_nn {c : Consts α} {n m : Node α} {d : α} (hn : NonNegLayer n) (h : refreezeLayer c n = .ok (m, d)) :
    NonNegLayer m := by
  unfold refreezeLayer at h
  split_ifs at h
  · simp only [bind_eq_ok] at h
    obtain ⟨θ, _, _, hoob, dT, _, h⟩ := h
    split_ifs at h
    rw [pure_eq_ok] at h; cases h
    unfold checkOob at hoob
    split_ifs at hoob with h1 h2
    exact ⟨hn.height, h1.1, h2.1⟩
  · rw [pure_eq_ok] at h; cases h
    exact ⟨hn.height, hn.ice, hn.water⟩

theorem refreezeLayers_nn {c : Consts α} : ∀ (ns : List (Node α)) {acc : α} {r : List (Node α) × α},
    (∀ n ∈ ns, NonNegLayer n) → refreezeLayers c acc ns = .ok r → ∀ n ∈ r.1, NonNegLayer n := by
  intro ns
  induction ns with
  | nil => intro acc r _ h; rw [refreezeLayers] at h; cases h; simp
  | cons n ns ih =>
    intro acc r hn h
    rw [refreezeLayers, bind_eq_ok] at h
    obtain ⟨⟨n', d⟩, h1, h⟩ := h
    simp only [bind_eq_ok] at h
    obtain ⟨⟨ns', t⟩, h2, h⟩ := h
    rw [pure_eq_ok] at h; subst h
    have := ih (fun m hm => hn m (by simp [hm])) h2
    intro m hm
    rcases List.mem_cons.1 hm with rfl | hm
    · exact refreezeLayer_nn (hn n (by simp)) h1
    · exact this m hm

theorem refreezing_nn {g : Grid α} {c : Consts α} {r : Grid α × α} (hw : g.NN) (h : refreezing c g = .ok r) : r.1.NN := by
  unfold Cosipy.refreezing at h
  rw [bind_eq_ok] at h; obtain ⟨⟨ns, t⟩, h1, h⟩ := h
  rw [pure_eq_ok] at h; subst h
  exact refreezeLayers_nn _ hw h1

section
variable [Transc α]

theorem applySnowfall_nn {g : Grid α} {c : Consts α} {dt snow rho t2 : α} (h1 : 0 ≤ c.iceDensity) (h2 : 0 ≤ c.airDensity)
    (h3 : c.airDensity ≤ rho) (hw : g.NN) : (applySnowfall c dt g snow rho t2).NN := by
  unfold applySnowfall
  split_ifs with hs
  · have hr : 0 ≤ rho := h2.trans h3
    have hi : 0 ≤ (rho - (1 - rho / c.iceDensity) * c.airDensity) / c.iceDensity := by
      refine Rounded.div_nonneg (Rounded.sub_nonneg (le_trans ?_ h3)) h1
      exact Rounded.mul_le h2 (Rounded.sub_le (Rounded.div_nonneg hr h1))
    have hnn : ∀ n ∈ pyInsert g.nodes 0 (Node.new c snow rho (pyMin t2 c.zeroTemperature) 0 none), NonNegLayer n :=
      all_pyInsert hw 0 ⟨hs.le, hi, le_rfl⟩
    unfold Grid.addFreshSnow
    simp only
    split_ifs <;> exact hnn
  · exact hw

theorem penLayer_nn {c : Consts α} (h1 : 0 ≤ c.iceDensity) (h2 : 0 ≤ c.waterDensity) (h4 : 0 ≤ c.specHeatIce)
    (h5 : 0 ≤ c.latHeatMelting) {dt e : α} {n : Node α} {o : Node α × Bool × α} (hn : NonNegLayer n)
    (h : penLayer c dt e n = .ok o) : NonNegLayer o.1 ∧ 0 ≤ o.2.2 := by
  unfold penLayer at h
  simp only [bind_eq_ok] at h
  obtain ⟨q, _, r, _, h⟩ := h
  split_ifs at h with ht
  · simp only [bind_eq_ok] at h
    have hA : 0 ≤ penA c := Rounded.div_nonneg (Rounded.mul_nonneg h4 h1) (Rounded.mul_nonneg h2 h5)
    have hdw : 0 ≤ penA c * (n.temperature + q * r - c.zeroTemperature) * n.iceFraction :=
      Rounded.mul_nonneg (Rounded.mul_nonneg hA (Rounded.sub_nonneg ht.le)) hn.ice
    obtain ⟨dh, _, h⟩ := h
    split_ifs at h with hd
    · rw [pure_eq_ok] at h; subst h
      exact ⟨hn, Rounded.mul_nonneg hdw hn.height⟩
    · simp only [bind_eq_ok] at h
      obtain ⟨w, hw, h⟩ := h
      rw [pure_eq_ok] at h; subst h
      have hh : 0 ≤ (1 - dh) * n.height := Rounded.mul_nonneg (Rounded.sub_nonneg (not_le.1 hd).le) hn.height
      have hw := fdiv_ok hw
      refine ⟨⟨hh, hn.ice, ?_⟩, Rounded.mul_nonneg hdw hh⟩
      rw [hw]
      exact Rounded.div_nonneg (Rounded.mul_nonneg (Rounded.add_nonneg hn.water hdw) hn.height) hh
  · rw [pure_eq_ok] at h; subst h
    exact ⟨⟨hn.height, hn.ice, hn.water⟩, le_rfl⟩

theorem penLayers_nn {c : Consts α} (h1 : 0 ≤ c.iceDensity) (h2 : 0 ≤ c.waterDensity) (h4 : 0 ≤ c.specHeatIce)
    (h5 : 0 ≤ c.latHeatMelting) {dt : α} : ∀ (ns : List (Node α)) (i : Int) (es : List α) (rm : List Int) (m : α)
    {r : List (Node α) × List Int × α}, (∀ n ∈ ns, NonNegLayer n) → 0 ≤ m → penLayers c dt i ns es rm m = .ok r →
    (∀ n ∈ r.1, NonNegLayer n) ∧ 0 ≤ r.2.2
  | [], i, es, rm, m, r, hn, hm, h => by rw [penLayers] at h; cases h; exact ⟨hn, hm⟩
  | [a], i, es, rm, m, r, hn, hm, h => by rw [penLayers] at h; cases h; exact ⟨hn, hm⟩
  | a :: b :: rest, i, [], rm, m, r, hn, hm, h => by rw [penLayers] at h; cases h
  | a :: b :: rest, i, e :: es, rm, m, r, hn, hm, h => by
    rw [penLayers, bind_eq_ok] at h
    obtain ⟨⟨a', del, x⟩, h6, h⟩ := h
    simp only [bind_eq_ok] at h
    obtain ⟨⟨ns, rm', m'⟩, h7, h⟩ := h
    rw [pure_eq_ok] at h; subst h
    have ha := penLayer_nn h1 h2 h4 h5 (hn a (by simp)) h6
    have hr := penLayers_nn h1 h2 h4 h5 (b :: rest) _ es _ _ (fun n hx => hn n (by simp at hx ⊢; tauto))
      (Rounded.add_nonneg hm ha.2) h7
    refine ⟨fun n hx => ?_, hr.2⟩
    rcases List.mem_cons.1 hx with rfl | hx
    · exact ha.1
    · exact hr.1 n hx

theorem radiationStep_nn {c : Consts α} (h1 : 0 ≤ c.iceDensity) (h2 : 0 ≤ c.waterDensity) (h4 : 0 ≤ c.specHeatIce)
    (h5 : 0 ≤ c.latHeatMelting) {g : Grid α} {sw dt : α} {r : Grid α × α × α} (hw : g.NN)
    (h : radiationStep c g sw dt = .ok r) : r.1.NN ∧ 0 ≤ r.2.1 := by
  unfold radiationStep at h
  split_ifs at h
  · unfold penetratingRadiation at h
    split at h
    · unfold methodBintanja at h
      simp only [bind_eq_ok] at h
      obtain ⟨ds, _, top, _, ⟨ns, rm, m⟩, h6, h⟩ := h
      have hp := penLayers_nn h1 h2 h4 h5 _ _ _ _ _ hw le_rfl h6
      have hg : Grid.NN { g with nodes := ns } := hp.1
      split_ifs at h
      · rw [pure_eq_ok] at h; subst h; exact hp
      · simp only [bind_eq_ok] at h
        obtain ⟨g1, h7, h⟩ := h
        rw [pure_eq_ok] at h; subst h
        exact ⟨hg.removeNode h7, hp.2⟩
    · cases h
  · cases h; exact ⟨hw, le_rfl⟩

/-- A layer with ice and water not negative (its height may be). -/
structure NonNegContent (n : Node α) : Prop where
  ice : 0 ≤ n.iceFraction
  water : 0 ≤ n.lwc

theorem NonNegLayer.content {n : Node α} (h : NonNegLayer n) : NonNegContent n := ⟨h.ice, h.water⟩

theorem booneUpdate_nn {d : α} (hd : 0 ≤ d) {n : Node α} (hn : NonNegLayer n) : NonNegContent (booneUpdate d n) := by
  have h2 : 0 ≤ d / 2.0 := Rounded.div_nonneg hd (lit_nonneg _ _ _)
  unfold booneUpdate
  refine ⟨Rounded.mul_nonneg (Rounded.add_nonneg zero_le_one ?_) hn.ice,
    Rounded.mul_nonneg (Rounded.add_nonneg zero_le_one ?_) hn.water⟩
  · split_ifs
    · exact hd
    · exact h2
  · split_ifs
    · exact le_rfl
    · exact h2

theorem booneLayers_nn {c : Consts α} (hx : ExpSigns α) (h1 : 0 ≤ c.iceDensity) (h2 : 0 ≤ c.waterDensity) (h3 : 0 ≤ c.airDensity)
    {dt : α} (hdt : 0 ≤ dt) : ∀ (k : Nat) (ms : α) (p : Option (Node α)) (ns : List (Node α)) {ns' : List (Node α)}, 0 ≤ ms →
    (∀ n ∈ p, NonNegLayer n) → (∀ n ∈ ns, NonNegLayer n) → booneLayers c dt k ms p ns = .ok ns' → ∀ n ∈ ns', NonNegContent n
  | 0, ms, p, ns, ns', _, _, hn, h => by
    rw [booneLayers] at h; cases h; exact fun n hm => (hn n hm).content
  | k + 1, ms, p, [], ns', _, _, hn, h => by rw [booneLayers] at h; cases h
  | k + 1, ms, p, a :: ns, ns', hms, hp, hn, h => by
    have na := hn a (by simp)
    have hr : ∀ n ∈ ns, NonNegLayer n := fun n hm => hn n (by simp [hm])
    rw [booneLayers] at h
    split_ifs at h
    · simp only [bind_eq_ok] at h
      obtain ⟨d, hd, tl, ht, h⟩ := h
      rw [pure_eq_ok] at h; subst h
      have hload : 0 ≤ booneLoad c p a := by
        unfold booneLoad
        cases p with
        | none =>
          exact Rounded.mul_nonneg (density_nn h1 h2 h3 na.ice na.water)
            (Rounded.div_nonneg na.height (lit_nonneg _ _ _))
        | some q =>
          have nq := hp q (by simp)
          exact Rounded.mul_nonneg (density_nn h1 h2 h3 nq.ice nq.water) nq.height
      have hms' := Rounded.add_nonneg hms hload
      have hd0 : 0 ≤ d := by
        unfold booneRate at hd
        simp only [bind_eq_ok] at hd
        obtain ⟨x, e, hd⟩ := hd
        rw [pure_eq_ok] at hd; subst hd
        have e := fdiv_ok e
        refine Rounded.mul_nonneg (Rounded.add_nonneg ?_ (Rounded.mul_nonneg (lit_nonneg _ _ _) (hx.nonneg _))) hdt
        rw [e]
        exact Rounded.div_nonneg (Rounded.mul_nonneg hms' (lit_nonneg _ _ _)) (Rounded.mul_nonneg (nat_nonneg _) (hx.nonneg _))
      have := booneLayers_nn hx h1 h2 h3 hdt k _ _ ns hms' (by simpa using na) hr ht
      intro n hm
      rcases List.mem_cons.1 hm with rfl | hm
      · exact booneUpdate_nn hd0 na
      · exact this n hm
    · simp only [bind_eq_ok] at h
      obtain ⟨tl, ht, h⟩ := h
      rw [pure_eq_ok] at h; subst h
      have := booneLayers_nn hx h1 h2 h3 hdt k _ _ ns hms (by simpa using na) hr ht
      intro n hm
      rcases List.mem_cons.1 hm with rfl | hm
      · exact na.content
      · exact this n hm

theorem vionnetUpdate_nn {d : α} (hd : d ≤ 0) {n : Node α} (hn : NonNegLayer n) : NonNegContent (vionnetUpdate d n) := by
  have h1 : 0 ≤ -d := Rounded.neg_nonneg hd
  have h2 : 0 ≤ -d / 2.0 := Rounded.div_nonneg h1 (lit_nonneg _ _ _)
  unfold vionnetUpdate
  refine ⟨Rounded.mul_nonneg (Rounded.add_nonneg zero_le_one ?_) hn.ice,
    Rounded.mul_nonneg (Rounded.add_nonneg zero_le_one ?_) hn.water⟩
  · split_ifs
    · exact h1
    · exact h2
  · split_ifs
    · exact le_rfl
    · exact h2

theorem vionnetRate_nonpos {c : Consts α} (hx : ExpSigns α) (h1 : 0 ≤ c.iceDensity) (h2 : 0 ≤ c.waterDensity)
    (h3 : 0 ≤ c.airDensity) {dt sig : α} (hdt : 0 ≤ dt) (hs : 0 ≤ sig) {n : Node α} (hn : NonNegLayer n) :
    vionnetRate dt sig c n ≤ 0 := by
  unfold vionnetRate
  refine Rounded.mul_nonpos (Rounded.div_nonpos (Rounded.neg_nonpos hs) ?_) hdt
  refine Rounded.mul_nonneg (Rounded.mul_nonneg (Rounded.mul_nonneg (Rounded.mul_nonneg ?_ zero_le_one) (nat_nonneg _)) ?_)
    (hx.nonneg _)
  · exact Rounded.div_nonneg zero_le_one (Rounded.add_nonneg zero_le_one
      (Rounded.mul_nonneg (lit_nonneg _ _ _) (Rounded.div_nonneg hn.water hn.height)))
  · exact Rounded.div_nonneg (density_nn h1 h2 h3 hn.ice hn.water) (nat_nonneg _)

theorem vionnetLayers_nn {c : Consts α} (hx : ExpSigns α) (h1 : 0 ≤ c.iceDensity) (h2 : 0 ≤ c.waterDensity)
    (h3 : 0 ≤ c.airDensity) {slope dt : α} (hcos : 0 ≤ Transc.cos slope) (hdt : 0 ≤ dt) : ∀ (k : Nat) (ms : α)
    (p : Option (Node α)) (ns : List (Node α)) {ns' : List (Node α)}, 0 ≤ ms →
    (∀ n ∈ p, NonNegLayer n) → (∀ n ∈ ns, NonNegLayer n) → vionnetLayers c slope dt k ms p ns = .ok ns' →
    ∀ n ∈ ns', NonNegContent n
  | 0, ms, p, ns, ns', _, _, hn, h => by
    rw [vionnetLayers] at h; cases h; exact fun n hm => (hn n hm).content
  | k + 1, ms, p, [], ns', _, _, hn, h => by rw [vionnetLayers] at h; cases h
  | k + 1, ms, p, a :: ns, ns', hms, hp, hn, h => by
    have na := hn a (by simp)
    have hr : ∀ n ∈ ns, NonNegLayer n := fun n hm => hn n (by simp [hm])
    rw [vionnetLayers] at h
    split_ifs at h
    · simp only [bind_eq_ok] at h
      obtain ⟨tl, ht, h⟩ := h
      rw [pure_eq_ok] at h; subst h
      have hload : 0 ≤ vionnetLoad c slope p a := by
        unfold vionnetLoad
        cases p with
        | none =>
          exact Rounded.mul_nonneg (Rounded.mul_nonneg (Rounded.mul_nonneg (lit_nonneg _ _ _) hcos)
            (density_nn h1 h2 h3 na.ice na.water)) (Rounded.div_nonneg na.height (lit_nonneg _ _ _))
        | some q =>
          have nq := hp q (by simp)
          exact Rounded.mul_nonneg (Rounded.mul_nonneg (Rounded.mul_nonneg (lit_nonneg _ _ _) hcos)
            (density_nn h1 h2 h3 nq.ice nq.water)) nq.height
      have hms' := Rounded.add_nonneg hms hload
      have := vionnetLayers_nn hx h1 h2 h3 hcos hdt k _ _ ns hms' (by simpa using na) hr ht
      intro n hm
      rcases List.mem_cons.1 hm with rfl | hm
      · exact vionnetUpdate_nn (vionnetRate_nonpos hx h1 h2 h3 hdt hms' na) na
      · exact this n hm
    · simp only [bind_eq_ok] at h
      obtain ⟨tl, ht, h⟩ := h
      rw [pure_eq_ok] at h; subst h
      have := vionnetLayers_nn hx h1 h2 h3 hcos hdt k _ _ ns hms (by simpa using na) hr ht
      intro n hm
      rcases List.mem_cons.1 hm with rfl | hm
      · exact na.content
      · exact this n hm

theorem empiricalLayer_nn {c : Consts α} (hx : ExpSigns α) (h1 : 0 ≤ c.iceDensity) (h2 : 0 ≤ c.waterDensity)
    (h3 : 0 ≤ c.airDensity) {dt : α} (hdt : 0 ≤ dt) {n n' : Node α} (hn : NonNegLayer n)
    (h : empiricalLayer c dt n = .ok n') : NonNegContent n' := by
  unfold empiricalLayer at h
  simp only [bind_eq_ok] at h
  obtain ⟨q, _, h⟩ := h
  split_ifs at h
  · simp only [bind_eq_ok] at h
    obtain ⟨q', _, h⟩ := h
    rw [pure_eq_ok] at h; subst h
    refine ⟨?_, hn.water⟩
    have hρ := density_nn h1 h2 h3 hn.ice hn.water
    have he := hx.le_one (-dt / 800000) (Rounded.div_nonpos (Rounded.neg_nonpos hdt) (nat_nonneg _))
    refine Rounded.div_nonneg (Rounded.add_nonneg_of_neg_le ?_) h1
    have h4 : (0 : α) - 600.0 ≤ n.density c - 600.0 := sub_mono hρ le_rfl
    rw [Rounded.zero_sub] at h4
    rcases le_total (n.density c - 600.0) 0 with h5 | h5
    · have := mul_anti_left h5 he
      rw [Rounded.mul_one] at this
      exact h4.trans this
    · exact le_trans (Rounded.neg_nonpos (lit_nonneg _ _ _)) (Rounded.mul_nonneg h5 (hx.nonneg _))
  · rw [pure_eq_ok] at h; subst h; exact hn.content

theorem empiricalLayers_nn {c : Consts α} (hx : ExpSigns α) (h1 : 0 ≤ c.iceDensity) (h2 : 0 ≤ c.waterDensity)
    (h3 : 0 ≤ c.airDensity) {dt : α} (hdt : 0 ≤ dt) : ∀ (k : Nat) (ns : List (Node α)) {ns' : List (Node α)},
    (∀ n ∈ ns, NonNegLayer n) → empiricalLayers c dt k ns = .ok ns' → ∀ n ∈ ns', NonNegContent n
  | 0, ns, ns', hn, h => by rw [empiricalLayers] at h; cases h; exact fun n hm => (hn n hm).content
  | k + 1, [], ns', hn, h => by rw [empiricalLayers] at h; cases h
  | k + 1, a :: ns, ns', hn, h => by
    rw [empiricalLayers] at h
    simp only [bind_eq_ok] at h
    obtain ⟨a', ha, tl, ht, h⟩ := h
    rw [pure_eq_ok] at h; subst h
    have := empiricalLayers_nn hx h1 h2 h3 hdt k ns (fun n hm => hn n (by simp [hm])) ht
    intro n hm
    rcases List.mem_cons.1 hm with rfl | hm
    · exact empiricalLayer_nn hx h1 h2 h3 hdt (hn a (by simp)) ha
    · exact this n hm

theorem densification_nn {c : Consts α} (hx : ExpSigns α) (h1 : 0 ≤ c.iceDensity) (h2 : 0 ≤ c.waterDensity)
    (h3 : 0 ≤ c.airDensity) {slope dt : α} (hcos : c.densificationMethod = .vionnet → 0 ≤ Transc.cos slope) (hdt : 0 ≤ dt)
    {g g' : Grid α} (hw : g.NN) (h : densification c g slope dt = .ok g') : ∀ n ∈ g'.nodes, NonNegContent n := by
  unfold densification at h
  split at h
  · unfold methodBoone at h
    simp only [bind_eq_ok] at h
    obtain ⟨k, _, ns, hk, h⟩ := h
    rw [pure_eq_ok] at h; subst h
    exact booneLayers_nn hx h1 h2 h3 hdt _ _ _ _ le_rfl (by simp) hw hk
  · rename_i hm
    unfold methodVionnet at h
    simp only [bind_eq_ok] at h
    obtain ⟨k, _, ns, hk, h⟩ := h
    rw [pure_eq_ok] at h; subst h
    exact vionnetLayers_nn hx h1 h2 h3 (hcos hm) hdt _ _ _ _ le_rfl (by simp) hw hk
  · unfold methodEmpirical at h
    simp only [bind_eq_ok] at h
    obtain ⟨k, _, ns, hk, h⟩ := h
    rw [pure_eq_ok] at h; subst h
    exact empiricalLayers_nn hx h1 h2 h3 hdt _ _ hw hk
  · cases h; exact fun n hm => (hw n hm).content
  · cases h

end

end
end Cosipy
