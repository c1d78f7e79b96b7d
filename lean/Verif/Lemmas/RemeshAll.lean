import Verif.Lemmas.Remesh

/-! Layer-wise properties that survive remeshing. -/

set_option autoImplicit false
set_option linter.unusedSectionVars false

namespace Cosipy
section
variable {K : Type} [Field K] [LinearOrder K] [IsStrictOrderedRing K]

/-- A property of layers that merging and cutting preserve. -/
structure Closed (P : Node K → Prop) : Prop where
  merge : ∀ a b, a.height + b.height ≠ 0 → P a → P b → P (Grid.merged a b)
  split : ∀ h m x y, 0 < h → P m → SplitsTo h m x y → P x ∧ P y

variable {P : Node K → Prop}

theorem Closed.mergeNodes (hP : Closed P) {g g' : Grid K} {i : Int} (ha : ∀ n ∈ g.nodes, P n)
    (h : g.mergeNodes i = .ok g') : ∀ n ∈ g'.nodes, P n := by
  obtain ⟨p, q, a, b, hp, hq, h1, h2, hne, rfl⟩ := Grid.mergeNodes_ok h
  intro n hn
  have hn' := List.mem_of_mem_eraseIdx hn
  rcases List.mem_or_eq_of_mem_set hn' with hn' | rfl
  · exact ha n hn'
  · exact hP.merge a b (by simpa using hne) (ha a (List.mem_of_getElem? h1)) (ha b (List.mem_of_getElem? h2))

theorem Closed.mergesTo (hP : Closed P) {c : Consts K} {h : K} {run : List (Node K)} {m : Node K}
    (hm : MergesTo c h run m) (ha : ∀ n ∈ run, P n) : P m := by
  induction hm with
  | single a => exact ha a (by simp)
  | step _ _ hne _ ih => exact hP.merge _ _ hne (ih fun n hn => ha n (by simp [hn])) (ha _ (by simp))

theorem Closed.correctLayer (hP : Closed P) {g g' : Grid K} {fuel : Nat} {c : Consts K} {i : Int} {h : K} (hi : 0 ≤ i)
    (hw : g.WF) (hh : 0 < h) (ha : ∀ n ∈ g.nodes, P n) (he : g.correctLayer fuel c i h = .ok g') :
    ∀ n ∈ g'.nodes, P n := by
  obtain ⟨pre, run, post, m, new, hd, _, hm, hg', _, _, hnew⟩ := correctLayer_ok hi hw he
  rw [hd] at ha
  have hPm : P m := hP.mergesTo hm fun n hn => ha n (by simp [hn])
  have hPnew : ∀ n ∈ new, P n := by
    rcases hnew with ⟨_, rfl⟩ | ⟨x, y, hs, rfl⟩
    · simpa using hPm
    · have := hP.split h m x y hh hPm hs
      simpa using this
  rw [hg']
  intro n hn
  simp only [List.mem_append] at hn
  rcases hn with (hn | hn) | hn
  · exact ha n (by simp [hn])
  · exact hPnew n hn
  · exact ha n (by simp [hn])

theorem Closed.logProfile (hP : Closed P) {g g' : Grid K} {fuel : Nat} {c : Consts K} (hw : g.WF)
    (hf : 0 < c.firstLayerHeight) (hs : 0 < c.layerStretching) (ha : ∀ n ∈ g.nodes, P n)
    (he : g.logProfile fuel c = .ok g') : ∀ n ∈ g'.nodes, P n := by
  unfold Grid.logProfile at he
  simp only [bind_eq_ok] at he
  obtain ⟨_, _, s1, h1, _, _, _, _, n, _, s2, h2, he⟩ := he
  rw [pure_eq_ok] at he; subst he
  have k1 := (whileM_ind h1
    (fun s : Grid.LogState K => s.g.WF ∧ 0 ≤ s.idx ∧ 0 < s.last ∧ ∀ n ∈ s.g.nodes, P n) ⟨hw, le_rfl, hf, ha⟩ (by
      rintro s s' ⟨hws, hi, hl, ht⟩ hb
      refine ⟨hws.logSnowPass hb, ?_⟩
      obtain ⟨e, hcase⟩ := logSnowPass_ok hb
      refine ⟨by omega, ?_⟩
      rcases hcase with ⟨_, hc, _, hla⟩ | ⟨_, _, hc, _, hla⟩ | ⟨_, _, hc, _, hla⟩
      · exact ⟨by rw [hla]; positivity, hP.correctLayer hi hws hl ht hc⟩
      · exact ⟨by rw [hla]; exact hl, hP.mergeNodes ht hc⟩
      · rw [hc, hla]; exact ⟨hl, ht⟩)).1
  have k2 := (whileM_ind h2
    (fun s : Grid.LogState K => s.g.WF ∧ 0 ≤ s.idx ∧ 0 < s.last ∧ ∀ n ∈ s.g.nodes, P n)
    ⟨k1.1, Int.natCast_nonneg _, k1.2.2⟩ (by
      rintro s s' ⟨hws, hi, hl, ht⟩ hb
      refine ⟨hws.logIcePass hb, ?_⟩
      obtain ⟨_, e, hcase⟩ := logIcePass_ok hb
      refine ⟨by omega, ?_⟩
      rcases hcase with ⟨_, hc, _, hla⟩ | ⟨_, hc, _, hla⟩
      · exact ⟨by rw [hla]; positivity, hP.correctLayer hi hws hl ht hc⟩
      · exact ⟨by rw [hla]; exact hl, hP.mergeNodes ht hc⟩)).1
  exact k2.2.2.2

theorem Closed.adaptiveProfile (hP : Closed P) {g g' : Grid K} {fuel : Nat} {c : Consts K} (hw : g.WF)
    (hf : 0 < c.firstLayerHeight) (ha : ∀ n ∈ g.nodes, P n)
    (he : g.adaptiveProfile fuel c = .ok g') : ∀ n ∈ g'.nodes, P n := by
  obtain ⟨s, n, g2, g3, i2, i3, h1, hn, h2, h3, h4⟩ := adaptiveProfile_cases he
  have k1 := (whileM_ind h1
    (fun s : Grid.AdaptState K => s.g.WF ∧ 0 ≤ s.idx ∧ ∀ n ∈ s.g.nodes, P n) ⟨hw, le_rfl, ha⟩ (by
      rintro s s' ⟨hws, hi, ht⟩ hb
      refine ⟨hws.adaptSnowPass hb, ?_⟩
      rcases adaptSnowPass_ok hi hb with ⟨e, _, _, hm⟩ | ⟨e, _, pre, a, post, hd, _, _, hg⟩ | ⟨e, _, hg⟩
      · exact ⟨by omega, hP.mergeNodes ht hm⟩
      · refine ⟨by omega, fun n hn => ht n ?_⟩
        rw [hg] at hn; rw [hd]
        simp only [List.mem_append, List.mem_cons] at hn ⊢
        tauto
      · exact ⟨by omega, by rw [hg]; exact ht⟩)).1
  have h2' : g2.WF ∧ 0 ≤ i2 ∧ ∀ n ∈ g2.nodes, P n := by
    rcases h2 with ⟨rfl, rfl⟩ | ⟨hc, rfl⟩
    · exact ⟨k1.1, by omega, k1.2.2⟩
    · exact ⟨k1.1.correctLayer hc, by omega, hP.correctLayer (by omega) k1.1 hf k1.2.2 hc⟩
  have k3 := (whileM_ind h3 (fun p : Grid K × Int => p.1.WF ∧ 0 ≤ p.2 ∧ ∀ n ∈ p.1.nodes, P n) h2' (by
      rintro p p' ⟨hwp, hi, ht⟩ hb
      refine ⟨hwp.adaptIcePass hb, ?_⟩
      obtain ⟨_, ⟨e, hm⟩ | ⟨e, hm⟩⟩ := adaptIcePass_ok hb
      · exact ⟨by omega, hP.mergeNodes ht hm⟩
      · exact ⟨by omega, by rw [hm]; exact ht⟩)).1
  exact hP.correctLayer le_rfl k3.1 hf k3.2.2 h4

theorem Closed.remesh (hP : Closed P) {g g' : Grid K} {fuel : Nat} {c : Consts K} (hw : g.WF)
    (hf : 0 < c.firstLayerHeight) (hs : 0 < c.layerStretching) (ha : ∀ n ∈ g.nodes, P n)
    (he : g.remesh fuel c = .ok g') : ∀ n ∈ g'.nodes, P n := by
  unfold Grid.remesh at he
  split at he
  · exact hP.logProfile hw hf hs ha he
  · exact hP.adaptiveProfile hw hf ha he
  · cases he; exact ha

theorem updateGrid_cases {g g' : Grid K} {fuel : Nat} {c : Consts K} (h : g.updateGrid fuel c = .ok g') :
    ∃ g1 top rest, g.remesh fuel c = .ok g1 ∧ g1.nodes = top :: rest ∧
      ((c.minimumSnowLayerHeight ≤ top.height ∧ g' = g1) ∨
       (top.height < c.minimumSnowLayerHeight ∧
          g' = { g1 with nodes := rest, numberNodes := g1.numberNodes - 1 })) := by
  unfold Grid.updateGrid at h
  simp only [bind_eq_ok] at h
  obtain ⟨g1, h1, a, ha, h⟩ := h
  obtain ⟨pre, post, hd, hl⟩ := node_decomp le_rfl ha
  have : pre = [] := List.eq_nil_of_length_eq_zero (by omega)
  subst this
  refine ⟨g1, a, post, h1, by simpa using hd, ?_⟩
  split_ifs at h with hc
  · right
    refine ⟨hc, ?_⟩
    obtain ⟨k, hk, rfl⟩ := (Grid.removeNode_single (by rw [hd]; simp)).1 h
    obtain ⟨hk1, _⟩ := normIdx_eq_some_nonneg le_rfl hk
    have : k = 0 := by omega
    subst this
    simp [hd]
  · left
    rw [pure_eq_ok] at h
    exact ⟨not_lt.1 hc, h.symm⟩

theorem Closed.updateGrid (hP : Closed P) {g g' : Grid K} {fuel : Nat} {c : Consts K} (hw : g.WF)
    (hf : 0 < c.firstLayerHeight) (hs : 0 < c.layerStretching) (ha : ∀ n ∈ g.nodes, P n)
    (he : g.updateGrid fuel c = .ok g') : ∀ n ∈ g'.nodes, P n := by
  obtain ⟨g1, top, rest, h1, hd, hcase⟩ := updateGrid_cases he
  have h2 := hP.remesh hw hf hs ha h1
  rcases hcase with ⟨_, rfl⟩ | ⟨_, rfl⟩
  · exact h2
  · intro n hn
    exact h2 n (by rw [hd]; exact List.mem_cons_of_mem _ hn)

end
end Cosipy
