import Verif.Lemmas.Rounded
import Verif.Spec.Capped

/-! The upper limit of the ice fraction in rounded arithmetic: what every stage of a time step keeps. -/

set_option autoImplicit false
set_option linter.unusedSectionVars false

namespace Cosipy

section
variable {α : Type} [LinearOrder α] [Zero α] [One α] [Add α] [Sub α] [Mul α] [Div α] [Neg α] [NatCast α] [OfScientific α] [Rounded α]
  [RoundedDiv α]

open Rounded

/-- A quotient of a number by a larger one is at most one. -/
theorem div_le_one_of_le' {a b : α} (hb : 0 ≤ b) (h : a ≤ b) : a / b ≤ 1 :=
  (Rounded.div_mono hb h).trans (RoundedDiv.div_self_le hb)

/-- All layers of a column are without negative content and hold no more ice than their volume. -/
def Grid.Capped (g : Grid α) : Prop := ∀ n ∈ g.nodes, CappedLayer n

theorem merged_capped {a b : Node α} (ha : CappedLayer a) (hb : CappedLayer b) : CappedLayer (Grid.merged a b) := by
  have hh := Rounded.add_nonneg ha.height hb.height
  exact ⟨hh,
    Rounded.div_nonneg (Rounded.add_nonneg (Rounded.mul_nonneg ha.ice ha.height) (Rounded.mul_nonneg hb.ice hb.height)) hh,
    Rounded.div_nonneg (Rounded.add_nonneg (Rounded.mul_nonneg ha.water ha.height) (Rounded.mul_nonneg hb.water hb.height)) hh,
    div_le_one_of_le' hh (add_mono (Rounded.mul_le ha.height ha.full) (Rounded.mul_le hb.height hb.full))⟩

namespace Grid

theorem Capped.node {g : Grid α} (hw : g.Capped) {i : Int} {a : Node α} (h : g.node i = .ok a) : CappedLayer a := by
  unfold Grid.node at h
  obtain ⟨k, _, hk⟩ := pyGet_eq_ok.1 h
  exact hw a (List.mem_of_getElem? hk)

theorem Capped.modifyNode {g g' : Grid α} {i : Int} {f : Node α → Node α} (hw : g.Capped) (hf : ∀ n, CappedLayer n → CappedLayer (f n))
    (h : g.modifyNode i f = .ok g') : g'.Capped := by
  obtain ⟨k, _, rfl⟩ := modifyNode_eq_ok.1 h
  exact all_modify hw k hf

theorem Capped.updateNode {g g' : Grid α} {i : Int} {h t f w : α} (hw : g.Capped) (h1 : 0 ≤ h) (h2 : 0 ≤ f) (h3 : 0 ≤ w) (h4 : f ≤ 1)
    (he : g.updateNode i h t f w = .ok g') : g'.Capped := by
  obtain ⟨k, _, rfl⟩ := updateNode_eq_ok.1 he
  exact all_modify hw k fun n _ => ⟨h1, h2, h3, h4⟩

theorem Capped.removeNode {g g' : Grid α} {is : List Int} (hw : g.Capped) (h : g.removeNode is = .ok g') : g'.Capped := by
  unfold Grid.removeNode at h
  split_ifs at h
  · cases h; exact hw
  · cases h; exact fun n hn => hw n (List.mem_of_mem_tail hn)
  · rw [bind_eq_ok] at h
    obtain ⟨ns, h3, h4⟩ := h
    rw [pure_eq_ok] at h4; subst h4
    exact all_foldlM_pyDel hw h3

theorem Capped.mergeNodes {g g' : Grid α} {i : Int} (hw : g.Capped) (h : g.mergeNodes i = .ok g') : g'.Capped := by
  obtain ⟨p, q, a, b, _, _, h1, h2, _, rfl⟩ := mergeNodes_ok h
  intro n hn
  have hn' := List.mem_of_mem_eraseIdx hn
  rcases List.mem_or_eq_of_mem_set hn' with hn' | rfl
  · exact hw n hn'
  · exact merged_capped (hw a (List.mem_of_getElem? h1)) (hw b (List.mem_of_getElem? h2))

theorem Capped.correctLayerPass {g g' : Grid α} {c : Consts α} {i : Int} {h : α} (hw : g.Capped)
    (he : Grid.correctLayerPass c i h g = .ok (some g')) : g'.Capped := by
  unfold Grid.correctLayerPass at he
  rw [bind_eq_ok] at he; obtain ⟨a, _, he⟩ := he
  split_ifs at he
  · rw [bind_eq_ok] at he; obtain ⟨b, _, he⟩ := he
    split_ifs at he
    · rw [bind_eq_ok] at he; obtain ⟨g1, h1, he⟩ := he
      rw [pure_eq_ok] at he; cases he; exact hw.mergeNodes h1
    · rw [bind_eq_ok] at he; obtain ⟨g1, h1, he⟩ := he
      rw [pure_eq_ok] at he; cases he; exact hw.mergeNodes h1
    · rw [pure_eq_ok] at he; cases he
  · rw [pure_eq_ok] at he; cases he

theorem Capped.correctLayerSplit {g g' : Grid α} {c : Consts α} {i : Int} {h : α} (hh : 0 ≤ h) (hw : g.Capped)
    (he : Grid.correctLayerSplit c i h g = .ok g') : g'.Capped := by
  unfold Grid.correctLayerSplit at he
  rw [bind_eq_ok] at he; obtain ⟨a, ha, he⟩ := he
  have na := hw.node ha
  split_ifs at he with hlt
  · simp only [bind_eq_ok] at he
    obtain ⟨θ, hθ, x0, e0, x1, e1, g1, h1, n1, _, he⟩ := he
    rw [pure_eq_ok] at he; subst he
    have hθ0 := irr_nn na.ice hθ
    have e0 := fdiv_ok e0
    have e1 := fdiv_ok e1
    have hd : 0 ≤ a.height - h := Rounded.sub_nonneg hlt.le
    have n0 : 0 ≤ x0 := by
      rw [e0]
      refine Rounded.div_nonneg ?_ hh
      split_ifs
      · exact Rounded.mul_nonneg hθ0 na.height
      · exact Rounded.mul_nonneg na.water na.height
    have n1 : 0 ≤ x1 := by
      rw [e1]
      refine Rounded.div_nonneg ?_ hd
      split_ifs with h2
      · refine Rounded.sub_nonneg (mul_mono_right na.height ?_)
        by_contra h3
        exact absurd h2 (not_lt.2 (Rounded.sub_nonpos (not_le.1 h3).le))
      · exact le_rfl
    exact all_pyInsert (hw.updateNode hh na.ice n0 na.full h1) _ ⟨hd, na.ice, n1, na.full⟩
  · rw [pure_eq_ok] at he; subst he; exact hw

theorem Capped.correctLayer {g g' : Grid α} {fuel : Nat} {c : Consts α} {i : Int} {h : α} (hh : 0 ≤ h) (hw : g.Capped)
    (he : g.correctLayer fuel c i h = .ok g') : g'.Capped := by
  unfold Grid.correctLayer at he
  rw [bind_eq_ok] at he; obtain ⟨g1, h1, he⟩ := he
  exact Capped.correctLayerSplit hh
    (whileM_inv (fun g : Grid α => g.Capped) (fun s s' hs hb => Capped.correctLayerPass hs hb) fuel g g1 hw h1).1 he

theorem Capped.logSnowPass {s s' : LogState α} {fuel : Nat} {c : Consts α} (hs : 0 ≤ c.layerStretching) (hw : s.g.Capped ∧ 0 ≤ s.last)
    (he : Grid.logSnowPass fuel c s = .ok (some s')) : s'.g.Capped ∧ 0 ≤ s'.last := by
  unfold Grid.logSnowPass at he
  rw [bind_eq_ok] at he; obtain ⟨n, _, he⟩ := he
  split_ifs at he
  · rw [bind_eq_ok] at he; obtain ⟨g1, h1, he⟩ := he
    rw [pure_eq_ok] at he; cases he; exact ⟨hw.1.correctLayer hw.2 h1, Rounded.mul_nonneg hs hw.2⟩
  · rw [bind_eq_ok] at he; obtain ⟨g1, h1, he⟩ := he
    rw [pure_eq_ok] at he; cases he; exact ⟨hw.1.mergeNodes h1, hw.2⟩
  · rw [pure_eq_ok] at he; cases he; exact hw
  · rw [pure_eq_ok] at he; cases he

theorem Capped.logIcePass {s s' : LogState α} {fuel : Nat} {c : Consts α} (hs : 0 ≤ c.layerStretching) (hw : s.g.Capped ∧ 0 ≤ s.last)
    (he : Grid.logIcePass fuel c s = .ok (some s')) : s'.g.Capped ∧ 0 ≤ s'.last := by
  unfold Grid.logIcePass at he
  split_ifs at he
  · rw [bind_eq_ok] at he; obtain ⟨g1, h1, he⟩ := he
    rw [pure_eq_ok] at he; cases he; exact ⟨hw.1.correctLayer hw.2 h1, Rounded.mul_nonneg hs hw.2⟩
  · rw [bind_eq_ok] at he; obtain ⟨g1, h1, he⟩ := he
    rw [pure_eq_ok] at he; cases he; exact ⟨hw.1.mergeNodes h1, hw.2⟩
  · rw [pure_eq_ok] at he; cases he; exact hw
  · rw [pure_eq_ok] at he; cases he

theorem Capped.logProfile {g g' : Grid α} {fuel : Nat} {c : Consts α} (hs : 0 ≤ c.layerStretching) (hf : 0 ≤ c.firstLayerHeight)
    (hw : g.Capped) (he : g.logProfile fuel c = .ok g') : g'.Capped := by
  unfold Grid.logProfile at he
  simp only [bind_eq_ok] at he
  obtain ⟨_, _, s1, h1, _, _, _, _, _, _, s2, h2, he⟩ := he
  rw [pure_eq_ok] at he; subst he
  have hs1 := (whileM_inv (fun s : LogState α => s.g.Capped ∧ 0 ≤ s.last) (fun s s' hp hb => Capped.logSnowPass hs hp hb) _ _ _
    ⟨hw, hf⟩ h1).1
  refine (whileM_inv (fun s : LogState α => s.g.Capped ∧ 0 ≤ s.last) (fun s s' hp hb => Capped.logIcePass hs hp hb) _ _ _ ?_ h2).1.1
  exact hs1

theorem Capped.adaptSnowPass {s s' : AdaptState α} {c : Consts α} (hw : s.g.Capped)
    (he : Grid.adaptSnowPass c s = .ok (some s')) : s'.g.Capped := by
  unfold Grid.adaptSnowPass at he
  rw [bind_eq_ok] at he; obtain ⟨n, _, he⟩ := he
  split_ifs at he
  · simp only [bind_eq_ok] at he
    obtain ⟨a, _, b, _, he⟩ := he
    split_ifs at he
    · rw [bind_eq_ok] at he; obtain ⟨g1, h1, he⟩ := he
      rw [pure_eq_ok] at he; cases he; exact hw.mergeNodes h1
    · rw [bind_eq_ok] at he; obtain ⟨g1, h1, he⟩ := he
      rw [pure_eq_ok] at he; cases he; exact hw.removeNode h1
    · rw [pure_eq_ok] at he; cases he; exact hw
  · rw [pure_eq_ok] at he; cases he

theorem Capped.adaptIcePass {s s' : Grid α × Int} {c : Consts α} (hw : s.1.Capped)
    (he : Grid.adaptIcePass c s = .ok (some s')) : s'.1.Capped := by
  unfold Grid.adaptIcePass at he
  split_ifs at he
  · rw [bind_eq_ok] at he; obtain ⟨a, _, he⟩ := he
    split_ifs at he
    · rw [bind_eq_ok] at he; obtain ⟨g1, h1, he⟩ := he
      rw [pure_eq_ok] at he; cases he; exact hw.mergeNodes h1
    · rw [pure_eq_ok] at he; cases he; exact hw
  · rw [pure_eq_ok] at he; cases he

theorem Capped.adaptiveProfile {g g' : Grid α} {fuel : Nat} {c : Consts α} (hf : 0 ≤ c.firstLayerHeight) (hw : g.Capped)
    (he : g.adaptiveProfile fuel c = .ok g') : g'.Capped := by
  unfold Grid.adaptiveProfile at he
  simp only [bind_eq_ok] at he
  obtain ⟨s1, h1, n, _, ⟨g2, i2⟩, h2, ⟨g3, i3⟩, h3, he⟩ := he
  have hs1 := (whileM_inv (fun s : AdaptState α => s.g.Capped) (fun s s' hs hb => Capped.adaptSnowPass hs hb) _ _ _ hw h1).1
  have hg2 : g2.Capped := by
    split_ifs at h2
    · simp only [bind_eq_ok] at h2
      obtain ⟨a, _, h2⟩ := h2
      split_ifs at h2
      · rw [bind_eq_ok] at h2; obtain ⟨g4, h4, h2⟩ := h2
        rw [pure_eq_ok] at h2; cases h2; exact hs1.correctLayer hf h4
      · rw [pure_eq_ok] at h2; cases h2; exact hs1
    · simp only [bind_eq_ok] at h2
      obtain ⟨a, _, h2⟩ := h2
      rw [pure_eq_ok] at h2; cases h2; exact hs1
  have hg3 := (whileM_inv (fun s : Grid α × Int => s.1.Capped) (fun s s' hs hb => Capped.adaptIcePass hs hb) _ _ _ hg2 h3).1
  exact hg3.correctLayer hf he

theorem Capped.updateGrid {g g' : Grid α} {fuel : Nat} {c : Consts α} (hs : 0 ≤ c.layerStretching) (hf : 0 ≤ c.firstLayerHeight)
    (hw : g.Capped) (he : g.updateGrid fuel c = .ok g') : g'.Capped := by
  unfold Grid.updateGrid at he
  rw [bind_eq_ok] at he; obtain ⟨g1, h1, he⟩ := he
  have hg1 : g1.Capped := by
    unfold Grid.remesh at h1
    split at h1
    · exact hw.logProfile hs hf h1
    · exact hw.adaptiveProfile hf h1
    · cases h1; exact hw
  rw [bind_eq_ok] at he; obtain ⟨a, _, he⟩ := he
  split_ifs at he
  · exact hg1.removeNode he
  · rw [pure_eq_ok] at he; subst he; exact hg1

theorem Capped.setAll {g g' : Grid α} {f : α → Node α → Node α} {xs : List α} (hf : ∀ x n, CappedLayer n → CappedLayer (f x n))
    (hw : g.Capped) (he : g.setAll f xs = .ok g') : g'.Capped := by
  unfold Grid.setAll at he
  revert he hw
  generalize List.range g.numberNodes.toNat = l
  intro hw he
  induction l generalizing g with
  | nil => rw [List.foldlM_nil, pure_eq_ok] at he; subst he; exact hw
  | cons i l ih =>
    rw [List.foldlM_cons, bind_eq_ok] at he
    obtain ⟨g1, h1, he⟩ := he
    rw [bind_eq_ok] at h1; obtain ⟨x, _, h1⟩ := h1
    exact ih (hw.modifyNode (hf x) h1) he

theorem Capped.solveHeatEquation {g g' : Grid α} {fuel : Nat} {c : Consts α} {dt : α} (hw : g.Capped)
    (h : solveHeatEquation fuel c g dt = .ok g') : g'.Capped := by
  unfold Cosipy.solveHeatEquation at h
  simp only [bind_eq_ok] at h
  obtain ⟨_, _, _, _, ⟨_, cs⟩, _, h⟩ := h
  exact Capped.setAll (f := Node.setTemperature) (fun x n hn => ⟨hn.height, hn.ice, hn.water, hn.full⟩) hw h

theorem Capped.removeMeltWeq {g : Grid α} {fuel : Nat} {c : Consts α} {m : α} {r : Grid α × α} (h1 : 0 ≤ c.iceDensity)
    (h2 : 0 ≤ c.waterDensity) (h3 : 0 ≤ c.airDensity) (hw : g.Capped) (he : g.removeMeltWeq fuel c m = .ok r) : r.1.Capped ∧ 0 ≤ r.2 := by
  unfold Grid.removeMeltWeq at he
  rw [bind_eq_ok] at he; obtain ⟨s1, hl, he⟩ := he
  have hs1 := (whileM_inv (fun s : MeltState α => s.g.Capped ∧ 0 ≤ s.lwcFromLayers) (fun s s' hs hb => by
    unfold Grid.removeMeltPass at hb
    split_ifs at hb
    · rw [bind_eq_ok] at hb; obtain ⟨a, ha, hb⟩ := hb
      have na := hs.1.node ha
      simp only at hb
      split_ifs at hb with hlt
      · simp only [bind_eq_ok] at hb
        obtain ⟨x, hx, g1, hg1, hb⟩ := hb
        rw [pure_eq_ok] at hb; cases hb
        have hx := fdiv_ok hx
        have hx0 : 0 ≤ x := by
          rw [hx]
          exact Rounded.div_nonneg (Rounded.sub_nonneg hlt.le) (Rounded.div_nonneg (density_nn h1 h2 h3 na.ice na.water) h2)
        exact ⟨hs.1.modifyNode (f := Node.setHeight x) (fun n hn => ⟨hx0, hn.ice, hn.water, hn.full⟩) hg1, hs.2⟩
      · simp only [bind_eq_ok] at hb
        obtain ⟨g1, hg1, hb⟩ := hb
        rw [pure_eq_ok] at hb; cases hb
        exact ⟨hs.1.removeNode hg1, Rounded.add_nonneg hs.2 (Rounded.mul_nonneg na.water na.height)⟩
      · rw [pure_eq_ok] at hb; cases hb; exact hs
    · rw [pure_eq_ok] at hb; cases hb) _ _ _ ⟨hw, le_rfl⟩ hl).1
  rw [pure_eq_ok] at he; subst he
  simp only
  split_ifs <;> exact hs1

end Grid

theorem percolateFrom_capped : ∀ (rest : List (Node α)) {a : Node α} {ms : List (Node α)}, CappedLayer a →
    (∀ n ∈ rest, CappedLayer n) → percolateFrom a rest = .ok ms → ∀ n ∈ ms, CappedLayer n := by
  intro rest
  induction rest with
  | nil => intro a ms ha _ h; rw [percolateFrom] at h; cases h; simpa using ha
  | cons b rest ih =>
    intro a ms ha hr h
    have hb := hr b (by simp)
    have hr' : ∀ n ∈ rest, CappedLayer n := fun n hn => hr n (by simp [hn])
    rw [percolateFrom, bind_eq_ok] at h
    obtain ⟨e, he, h⟩ := h
    have he0 := irr_nn ha.ice he
    simp only at h
    split_ifs at h with hp
    · simp only [bind_eq_ok] at h
      obtain ⟨q, hq, tl, htl, h⟩ := h
      rw [pure_eq_ok] at h; subst h
      have hq := fdiv_ok hq
      have hq0 : 0 ≤ q := by rw [hq]; exact Rounded.div_nonneg (Rounded.mul_nonneg hp.le ha.height) hb.height
      have := ih (a := b.setLwc (b.lwc + q)) ⟨hb.height, hb.ice, Rounded.add_nonneg hb.water hq0, hb.full⟩ hr' htl
      intro n hn
      rcases List.mem_cons.1 hn with rfl | hn
      · exact ⟨ha.height, ha.ice, he0, ha.full⟩
      · exact this n hn
    · simp only [bind_eq_ok] at h
      obtain ⟨tl, htl, h⟩ := h
      rw [pure_eq_ok] at h; subst h
      have := ih hb hr' htl
      intro n hn
      rcases List.mem_cons.1 hn with rfl | hn
      · exact ha
      · exact this n hn

theorem percolation_capped {g : Grid α} {w : α} {r : Grid α × α} (hw : g.Capped) (h0 : 0 ≤ w) (h : percolation g w = .ok r) :
    r.1.Capped ∧ 0 ≤ r.2 := by
  obtain ⟨top, ns, q, _, ht, hq, hns, h⟩ := percolation_ok h
  have nt := hw top (List.mem_of_getElem? ht)
  have hq := fdiv_ok hq
  have hq0 : 0 ≤ q := by rw [hq]; exact Rounded.div_nonneg h0 nt.height
  have h1 : ∀ n ∈ g.nodes.modify 0 (Node.setLwc (top.lwc + q)), CappedLayer n :=
    all_modify hw 0 fun n hn => ⟨hn.height, hn.ice, Rounded.add_nonneg nt.water hq0, hn.full⟩
  have h2 : ∀ n ∈ ns, CappedLayer n := by
    revert hns h1
    generalize g.nodes.modify 0 (Node.setLwc (top.lwc + q)) = l
    intro hns h1
    cases l with
    | nil => cases hns; simp
    | cons a rest => exact percolateFrom_capped rest (h1 a (by simp)) (fun n hn => h1 n (by simp [hn])) hns
  obtain ⟨k, n, _, hk, rfl⟩ := getRunoff_ok h
  have nn := h2 n (List.mem_of_getElem? hk)
  exact ⟨all_modify h2 k fun m hm => ⟨hm.height, hm.ice, le_rfl, hm.full⟩, Rounded.mul_nonneg nn.water nn.height⟩

theorem refreezeLayer_capped {c : Consts α} {n m : Node α} {d : α} (hn : CappedLayer n) (h : refreezeLayer c n = .ok (m, d)) :
    CappedLayer m := by
  unfold refreezeLayer at h
  split_ifs at h
  · simp only [bind_eq_ok] at h
    obtain ⟨θ, _, _, hoob, dT, _, h⟩ := h
    split_ifs at h
    rw [pure_eq_ok] at h; cases h
    unfold checkOob at hoob
    split_ifs at hoob with h1 h2
    exact ⟨hn.height, h1.1, h2.1, h1.2⟩
  · rw [pure_eq_ok] at h; cases h
    exact ⟨hn.height, hn.ice, hn.water, hn.full⟩

theorem refreezeLayers_capped {c : Consts α} : ∀ (ns : List (Node α)) {acc : α} {r : List (Node α) × α},
    (∀ n ∈ ns, CappedLayer n) → refreezeLayers c acc ns = .ok r → ∀ n ∈ r.1, CappedLayer n := by
  intro ns
  induction ns with
  | nil => intro acc r _ h; rw [refreezeLayers] at h; cases h; simp
  | cons n ns ih =>
    intro acc r hn h
    rw [refreezeLayers, bind_eq_ok] at h
    obtain ⟨⟨n', d⟩, h1, h⟩ := h
    simp only [bind_eq_ok] at h
    obtain ⟨⟨ns', t⟩, h2, h⟩ := h
    rw [pure_eq_ok] at h; subst h
    have := ih (fun m hm => hn m (by simp [hm])) h2
    intro m hm
    rcases List.mem_cons.1 hm with rfl | hm
    · exact refreezeLayer_capped (hn n (by simp)) h1
    · exact this m hm

theorem refreezing_capped {g : Grid α} {c : Consts α} {r : Grid α × α} (hw : g.Capped) (h : refreezing c g = .ok r) : r.1.Capped := by
  unfold Cosipy.refreezing at h
  rw [bind_eq_ok] at h; obtain ⟨⟨ns, t⟩, h1, h⟩ := h
  rw [pure_eq_ok] at h; subst h
  exact refreezeLayers_capped _ hw h1

section
variable [Transc α]

theorem applySnowfall_capped {g : Grid α} {c : Consts α} {dt snow rho t2 : α} (h1 : 0 ≤ c.iceDensity) (h2 : 0 ≤ c.airDensity)
    (h3 : c.airDensity ≤ rho) (h4 : rho ≤ c.iceDensity) (hw : g.Capped) : (applySnowfall c dt g snow rho t2).Capped := by
  unfold applySnowfall
  split_ifs with hs
  · have hr : 0 ≤ rho := h2.trans h3
    have hi : 0 ≤ (rho - (1 - rho / c.iceDensity) * c.airDensity) / c.iceDensity := by
      refine Rounded.div_nonneg (Rounded.sub_nonneg (le_trans ?_ h3)) h1
      exact Rounded.mul_le h2 (Rounded.sub_le (Rounded.div_nonneg hr h1))
    have hi1 : (rho - (1 - rho / c.iceDensity) * c.airDensity) / c.iceDensity ≤ 1 := by
      refine div_le_one_of_le' h1 (le_trans (Rounded.sub_le (Rounded.mul_nonneg (Rounded.sub_nonneg ?_) h2)) h4)
      exact div_le_one_of_le' h1 h4
    have hnn : ∀ n ∈ pyInsert g.nodes 0 (Node.new c snow rho (pyMin t2 c.zeroTemperature) 0 none), CappedLayer n :=
      all_pyInsert hw 0 ⟨hs.le, hi, le_rfl, hi1⟩
    unfold Grid.addFreshSnow
    simp only
    split_ifs <;> exact hnn
  · exact hw

theorem penLayer_capped {c : Consts α} (h1 : 0 ≤ c.iceDensity) (h2 : 0 ≤ c.waterDensity) (h4 : 0 ≤ c.specHeatIce)
    (h5 : 0 ≤ c.latHeatMelting) {dt e : α} {n : Node α} {o : Node α × Bool × α} (hn : CappedLayer n)
    (h : penLayer c dt e n = .ok o) : CappedLayer o.1 ∧ 0 ≤ o.2.2 := by
  unfold penLayer at h
  simp only [bind_eq_ok] at h
  obtain ⟨q, _, r, _, h⟩ := h
  split_ifs at h with ht
  · simp only [bind_eq_ok] at h
    have hA : 0 ≤ penA c := Rounded.div_nonneg (Rounded.mul_nonneg h4 h1) (Rounded.mul_nonneg h2 h5)
    have hdw : 0 ≤ penA c * (n.temperature + q * r - c.zeroTemperature) * n.iceFraction :=
      Rounded.mul_nonneg (Rounded.mul_nonneg hA (Rounded.sub_nonneg ht.le)) hn.ice
    obtain ⟨dh, _, h⟩ := h
    split_ifs at h with hd
    · rw [pure_eq_ok] at h; subst h
      exact ⟨hn, Rounded.mul_nonneg hdw hn.height⟩
    · simp only [bind_eq_ok] at h
      obtain ⟨w, hw, h⟩ := h
      rw [pure_eq_ok] at h; subst h
      have hh : 0 ≤ (1 - dh) * n.height := Rounded.mul_nonneg (Rounded.sub_nonneg (not_le.1 hd).le) hn.height
      have hw := fdiv_ok hw
      refine ⟨⟨hh, hn.ice, ?_, hn.full⟩, Rounded.mul_nonneg hdw hh⟩
      rw [hw]
      exact Rounded.div_nonneg (Rounded.mul_nonneg (Rounded.add_nonneg hn.water hdw) hn.height) hh
  · rw [pure_eq_ok] at h; subst h
    exact ⟨⟨hn.height, hn.ice, hn.water, hn.full⟩, le_rfl⟩

theorem penLayers_capped {c : Consts α} (h1 : 0 ≤ c.iceDensity) (h2 : 0 ≤ c.waterDensity) (h4 : 0 ≤ c.specHeatIce)
    (h5 : 0 ≤ c.latHeatMelting) {dt : α} : ∀ (ns : List (Node α)) (i : Int) (es : List α) (rm : List Int) (m : α)
    {r : List (Node α) × List Int × α}, (∀ n ∈ ns, CappedLayer n) → 0 ≤ m → penLayers c dt i ns es rm m = .ok r →
    (∀ n ∈ r.1, CappedLayer n) ∧ 0 ≤ r.2.2
  | [], i, es, rm, m, r, hn, hm, h => by rw [penLayers] at h; cases h; exact ⟨hn, hm⟩
  | [a], i, es, rm, m, r, hn, hm, h => by rw [penLayers] at h; cases h; exact ⟨hn, hm⟩
  | a :: b :: rest, i, [], rm, m, r, hn, hm, h => by rw [penLayers] at h; cases h
  | a :: b :: rest, i, e :: es, rm, m, r, hn, hm, h => by
    rw [penLayers, bind_eq_ok] at h
    obtain ⟨⟨a', del, x⟩, h6, h⟩ := h
    simp only [bind_eq_ok] at h
    obtain ⟨⟨ns, rm', m'⟩, h7, h⟩ := h
    rw [pure_eq_ok] at h; subst h
    have ha := penLayer_capped h1 h2 h4 h5 (hn a (by simp)) h6
    have hr := penLayers_capped h1 h2 h4 h5 (b :: rest) _ es _ _ (fun n hx => hn n (by simp at hx ⊢; tauto))
      (Rounded.add_nonneg hm ha.2) h7
    refine ⟨fun n hx => ?_, hr.2⟩
    rcases List.mem_cons.1 hx with rfl | hx
    · exact ha.1
    · exact hr.1 n hx

theorem radiationStep_capped {c : Consts α} (h1 : 0 ≤ c.iceDensity) (h2 : 0 ≤ c.waterDensity) (h4 : 0 ≤ c.specHeatIce)
    (h5 : 0 ≤ c.latHeatMelting) {g : Grid α} {sw dt : α} {r : Grid α × α × α} (hw : g.Capped)
    (h : radiationStep c g sw dt = .ok r) : r.1.Capped ∧ 0 ≤ r.2.1 := by
  unfold radiationStep at h
  split_ifs at h
  · unfold penetratingRadiation at h
    split at h
    · unfold methodBintanja at h
      simp only [bind_eq_ok] at h
      obtain ⟨ds, _, top, _, ⟨ns, rm, m⟩, h6, h⟩ := h
      have hp := penLayers_capped h1 h2 h4 h5 _ _ _ _ _ hw le_rfl h6
      have hg : Grid.Capped { g with nodes := ns } := hp.1
      split_ifs at h
      · rw [pure_eq_ok] at h; subst h; exact hp
      · simp only [bind_eq_ok] at h
        obtain ⟨g1, h7, h⟩ := h
        rw [pure_eq_ok] at h; subst h
        exact ⟨hg.removeNode h7, hp.2⟩
    · cases h
  · cases h; exact ⟨hw, le_rfl⟩

end

end
end Cosipy
