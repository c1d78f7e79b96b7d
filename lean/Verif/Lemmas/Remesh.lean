import Verif.Lemmas.Correct

/-! Column totals under remeshing. -/

set_option linter.unusedSectionVars false

set_option autoImplicit false

namespace Cosipy
section
variable {K : Type} [Field K] [LinearOrder K] [IsStrictOrderedRing K]

theorem mergeNodes_totals {g g' : Grid K} {i : Int} (hi : 0 ≤ i) (h : g.mergeNodes i = .ok g') :
    SameTotals g'.nodes g.nodes := by
  obtain ⟨pre, a, b, post, hd, _, hne, rfl⟩ := mergeNodes_decomp hi h
  rw [hd]
  have := (SameTotals.refl pre).append ((merged_totals hne).append (SameTotals.refl post))
  simpa using this

/-- Merging at index `-1`: totals are kept, except in a column of a single layer, which is lost. -/
theorem mergeNodes_wrap {g g' : Grid K} (h : g.mergeNodes (-1) = .ok g') :
    SameTotals g'.nodes g.nodes ∨ g'.nodes = [] := by
  obtain ⟨p, q, a, b, hp, hq, ha, hb, hne, rfl⟩ := Grid.mergeNodes_ok h
  have hp1 := normIdx_lt hp
  by_cases hpq : p = q
  · right
    subst hpq
    have : g.nodes.length = 1 := by
      unfold normIdx at hp hq
      split_ifs at hp hq <;> simp at hp hq <;> omega
    simp only
    apply List.eq_nil_of_length_eq_zero
    rw [List.length_eraseIdx_of_lt (by simpa using hp1), List.length_set]; omega
  · exact .inl (merge_totals hpq ha hb (by simpa using hne))

/-- The snow loop of `log_profile`. -/
theorem logSnowPass_ok {s s' : Grid.LogState K} {fuel : Nat} {c : Consts K}
    (h : Grid.logSnowPass fuel c s = .ok (some s')) :
    s'.idx = s.idx + 1 ∧
    ((s.last ≤ s.hrest ∧ s.g.correctLayer fuel c s.idx s.last = .ok s'.g ∧ s'.hrest = s.hrest - s.last ∧
        s'.last = c.layerStretching * s.last) ∨
     (s.hrest < s.last ∧ 0 < s.idx ∧ s.g.mergeNodes (s.idx - 1) = .ok s'.g ∧ s'.hrest = s.hrest ∧ s'.last = s.last) ∨
     (s.hrest < s.last ∧ s.idx ≤ 0 ∧ s'.g = s.g ∧ s'.hrest = s.hrest ∧ s'.last = s.last)) := by
  unfold Grid.logSnowPass at h
  rw [bind_eq_ok] at h; obtain ⟨n, _, h⟩ := h
  split_ifs at h with h1 h2 h3
  · rw [bind_eq_ok] at h; obtain ⟨g1, hg1, h⟩ := h
    rw [pure_eq_ok] at h; cases h
    exact ⟨rfl, .inl ⟨h2, hg1, rfl, rfl⟩⟩
  · rw [bind_eq_ok] at h; obtain ⟨g1, hg1, h⟩ := h
    rw [pure_eq_ok] at h; cases h
    exact ⟨rfl, .inr (.inl ⟨h3.1, h3.2, hg1, rfl, rfl⟩)⟩
  · rw [pure_eq_ok] at h; cases h
    have h4 := not_le.1 h2
    exact ⟨rfl, .inr (.inr ⟨h4, not_lt.1 fun h5 => h3 ⟨h4, h5⟩, rfl, rfl, rfl⟩)⟩
  · cases h

/-- The glacier loop of `log_profile`. -/
theorem logIcePass_ok {s s' : Grid.LogState K} {fuel : Nat} {c : Consts K}
    (h : Grid.logIcePass fuel c s = .ok (some s')) :
    s.idx < s.g.numberNodes ∧ s'.idx = s.idx + 1 ∧
    ((s.last ≤ s.hrest ∧ s.g.correctLayer fuel c s.idx s.last = .ok s'.g ∧ s'.hrest = s.hrest - s.last ∧
        s'.last = c.layerStretching * s.last) ∨
     (s.hrest < s.last ∧ s.g.mergeNodes (s.idx - 1) = .ok s'.g ∧ s'.hrest = s.hrest ∧ s'.last = s.last)) := by
  unfold Grid.logIcePass at h
  split_ifs at h with h1 h2 h3
  · rw [bind_eq_ok] at h; obtain ⟨g1, hg1, h⟩ := h
    rw [pure_eq_ok] at h; cases h
    exact ⟨h1, rfl, .inl ⟨h2, hg1, rfl, rfl⟩⟩
  · rw [bind_eq_ok] at h; obtain ⟨g1, hg1, h⟩ := h
    rw [pure_eq_ok] at h; cases h
    exact ⟨h1, rfl, .inr ⟨h3, hg1, rfl, rfl⟩⟩
  · exact absurd (not_le.1 h2) h3
  · cases h

theorem logProfile_totals {g g' : Grid K} {fuel : Nat} {c : Consts K} (hw : g.WF)
    (he : g.logProfile fuel c = .ok g') : SameTotals g'.nodes g.nodes ∨ g'.nodes = [] := by
  unfold Grid.logProfile at he
  simp only [bind_eq_ok] at he
  obtain ⟨_, _, s1, h1, _, _, _, _, n, _, s2, h2, he⟩ := he
  rw [pure_eq_ok] at he; subst he
  have k1 := (whileM_inv (body := Grid.logSnowPass fuel c)
    (fun s : Grid.LogState K => s.g.WF ∧ 0 ≤ s.idx ∧ SameTotals s.g.nodes g.nodes) (by
      rintro s s' ⟨hws, hi, ht⟩ hb
      refine ⟨hws.logSnowPass hb, ?_⟩
      obtain ⟨e, hcase⟩ := logSnowPass_ok hb
      refine ⟨by omega, ?_⟩
      rcases hcase with ⟨_, hc, _⟩ | ⟨_, hi', hc, _⟩ | ⟨_, _, hc, _⟩
      · exact (correctLayer_totals hi hws hc).trans ht
      · exact (mergeNodes_totals (by omega) hc).trans ht
      · rw [hc]; exact ht) _ _ _ ⟨hw, le_rfl, SameTotals.refl _⟩ h1).1
  have k2 := (whileM_ind h2
    (fun s : Grid.LogState K => s.g.WF ∧ 0 ≤ s.idx ∧ (SameTotals s.g.nodes g.nodes ∨ s.g.nodes = []))
    ⟨k1.1, Int.natCast_nonneg _, .inl k1.2.2⟩ (by
      rintro s s' ⟨hws, hi, ht⟩ hb
      refine ⟨hws.logIcePass hb, ?_⟩
      obtain ⟨hlt, e, hcase⟩ := logIcePass_ok hb
      refine ⟨by omega, ?_⟩
      rcases ht with ht | ht
      · rcases hcase with ⟨_, hc, _⟩ | ⟨_, hc, _⟩
        · exact .inl ((correctLayer_totals hi hws hc).trans ht)
        · rcases eq_or_lt_of_le hi with h0 | h0
          · rw [← h0] at hc
            exact (mergeNodes_wrap hc).imp (fun h => h.trans ht) id
          · exact .inl ((mergeNodes_totals (by omega) hc).trans ht)
      · rw [hws, ht] at hlt; simp at hlt; omega)).1
  exact k2.2.2

theorem removeNode_decomp {g g' : Grid K} {i : Int} (hi : 0 ≤ i) {a : Node K} (ha : g.node i = .ok a)
    (h : g.removeNode [i] = .ok g') :
    ∃ pre post, g.nodes = pre ++ a :: post ∧ (pre.length : Int) = i ∧
      g' = { g with nodes := pre ++ post, numberNodes := g.numberNodes - 1 } := by
  obtain ⟨pre, post, hd, hl⟩ := node_decomp hi ha
  refine ⟨pre, post, hd, hl, ?_⟩
  obtain ⟨k, hk, rfl⟩ := (Grid.removeNode_single (by rw [hd]; simp)).1 h
  obtain ⟨hk1, _⟩ := normIdx_eq_some_nonneg hi hk
  have : k = pre.length := by omega
  subst this
  congr 1
  rw [hd, List.eraseIdx_append_of_length_le (le_refl _)]; simp

/-- The snow loop of `adaptive_profile`. -/
theorem adaptSnowPass_ok {s s' : Grid.AdaptState K} {c : Consts K} (hi : 0 ≤ s.idx)
    (h : Grid.adaptSnowPass c s = .ok (some s')) :
    (s'.idx = s.idx ∧ s.mergeCounter ≤ c.mergeMax ∧ s'.mergeCounter = s.mergeCounter + 1 ∧
        s.g.mergeNodes s.idx = .ok s'.g) ∨
    (s'.idx = s.idx ∧ s'.mergeCounter = s.mergeCounter ∧ ∃ pre a post, s.g.nodes = pre ++ a :: post ∧
        (pre.length : Int) = s.idx ∧ a.height ≤ c.minimumSnowLayerHeight ∧
        s'.g = { s.g with nodes := pre ++ post, numberNodes := s.g.numberNodes - 1 }) ∨
    (s'.idx = s.idx + 1 ∧ s'.mergeCounter = s.mergeCounter ∧ s'.g = s.g) := by
  unfold Grid.adaptSnowPass at h
  rw [bind_eq_ok] at h; obtain ⟨n, _, h⟩ := h
  split_ifs at h with h1
  · simp only [bind_eq_ok] at h; obtain ⟨a, ha, b, hb, h⟩ := h
    split_ifs at h with h2 h3
    · rw [bind_eq_ok] at h; obtain ⟨g1, hg1, h⟩ := h
      rw [pure_eq_ok] at h; cases h
      exact .inl ⟨rfl, h2.2.2.2, rfl, hg1⟩
    · rw [bind_eq_ok] at h; obtain ⟨g1, hg1, h⟩ := h
      rw [pure_eq_ok] at h; cases h
      obtain ⟨pre, post, hd, hl, hg⟩ := removeNode_decomp hi ha hg1
      exact .inr (.inl ⟨rfl, rfl, pre, a, post, hd, hl, h3, hg⟩)
    · rw [pure_eq_ok] at h; cases h
      exact .inr (.inr ⟨rfl, rfl, rfl⟩)
  · cases h

theorem adaptIcePass_ok {s s' : Grid K × Int} {c : Consts K} (h : Grid.adaptIcePass c s = .ok (some s')) :
    s.2 < s.1.numberNodes - 1 ∧
    ((s'.2 = s.2 ∧ s.1.mergeNodes s.2 = .ok s'.1) ∨ (s'.2 = s.2 + 1 ∧ s'.1 = s.1)) := by
  unfold Grid.adaptIcePass at h
  split_ifs at h with h1
  · rw [bind_eq_ok] at h; obtain ⟨a, ha, h⟩ := h
    split_ifs at h with h2
    · rw [bind_eq_ok] at h; obtain ⟨g1, hg1, h⟩ := h
      rw [pure_eq_ok] at h; cases h
      exact ⟨h1, .inl ⟨rfl, hg1⟩⟩
    · rw [pure_eq_ok] at h; cases h
      exact ⟨h1, .inr ⟨rfl, rfl⟩⟩
  · cases h

/-- The parts of `adaptive_profile` after the snow loop. -/
theorem adaptiveProfile_cases {g g' : Grid K} {fuel : Nat} {c : Consts K} (h : g.adaptiveProfile fuel c = .ok g') :
    ∃ s n g2 g3 i2 i3, whileM (Grid.adaptSnowPass c) fuel ⟨g, 0, 0⟩ = .ok s ∧
      s.g.getNumberSnowLayers c = .ok n ∧
      ((g2 = s.g ∧ i2 = max 1 (n : Int)) ∨
        (s.g.correctLayer fuel c 1 c.firstLayerHeight = .ok g2 ∧ i2 = 2)) ∧
      whileM (Grid.adaptIcePass c) fuel (g2, i2) = .ok (g3, i3) ∧
      g3.correctLayer fuel c 0 c.firstLayerHeight = .ok g' := by
  unfold Grid.adaptiveProfile at h
  simp only [bind_eq_ok] at h
  obtain ⟨s1, h1, n, hn, ⟨g2, i2⟩, h2, ⟨g3, i3⟩, h3, h⟩ := h
  refine ⟨s1, n, g2, g3, i2, i3, h1, hn, ?_, h3, h⟩
  split_ifs at h2 with c1
  · rw [bind_eq_ok] at h2; obtain ⟨a, _, h2⟩ := h2
    split_ifs at h2
    · rw [bind_eq_ok] at h2; obtain ⟨gg, hgg, h2⟩ := h2
      rw [pure_eq_ok] at h2; cases h2
      rw [c1] at hgg
      exact .inr ⟨hgg, by omega⟩
    · rw [pure_eq_ok] at h2; cases h2
      exact .inl ⟨rfl, rfl⟩
  · rw [bind_eq_ok] at h2; obtain ⟨a, _, h2⟩ := h2
    rw [pure_eq_ok] at h2; cases h2
    exact .inl ⟨rfl, rfl⟩

theorem adaptiveProfile_totals {g g' : Grid K} {fuel : Nat} {c : Consts K} (hw : g.WF)
    (h : g.adaptiveProfile fuel c = .ok g') :
    ∃ removed : List (Node K), (∀ n ∈ removed, n.height ≤ c.minimumSnowLayerHeight) ∧
      SameTotals (g'.nodes ++ removed) g.nodes := by
  obtain ⟨s, n, g2, g3, i2, i3, h1, hn, h2, h3, h4⟩ := adaptiveProfile_cases h
  have k1 := (whileM_ind h1
    (fun s : Grid.AdaptState K => s.g.WF ∧ 0 ≤ s.idx ∧ ∃ removed : List (Node K),
      (∀ n ∈ removed, n.height ≤ c.minimumSnowLayerHeight) ∧ SameTotals (s.g.nodes ++ removed) g.nodes)
    ⟨hw, le_rfl, [], by simp, by simpa using SameTotals.refl _⟩ (by
      rintro s s' ⟨hws, hi, rm, hrm, ht⟩ hb
      refine ⟨hws.adaptSnowPass hb, ?_⟩
      rcases adaptSnowPass_ok hi hb with ⟨e, _, _, hm⟩ | ⟨e, _, pre, a, post, hd, _, hle, hg⟩ | ⟨e, _, hg⟩
      · exact ⟨by omega, rm, hrm, ((mergeNodes_totals hi hm).append (SameTotals.refl rm)).trans ht⟩
      · refine ⟨by omega, a :: rm, ?_, ?_⟩
        · intro n hn
          rcases List.mem_cons.1 hn with rfl | hn
          · exact hle
          · exact hrm n hn
        · refine SameTotals.trans ?_ ht
          rw [hg, hd]
          constructor <;> simp [sumHeight, sumIce, sumWater, sumHeat] <;> ring
      · exact ⟨by omega, rm, hrm, by rw [hg]; exact ht⟩)).1
  obtain ⟨hw1, _, rm, hrm, ht⟩ := k1
  refine ⟨rm, hrm, ?_⟩
  have h2' : g2.WF ∧ 0 ≤ i2 ∧ SameTotals g2.nodes s.g.nodes := by
    rcases h2 with ⟨rfl, rfl⟩ | ⟨hc, rfl⟩
    · exact ⟨hw1, by omega, SameTotals.refl _⟩
    · exact ⟨hw1.correctLayer hc, by omega, correctLayer_totals (by omega) hw1 hc⟩
  have k3 := (whileM_ind h3 (fun p : Grid K × Int => p.1.WF ∧ 0 ≤ p.2 ∧ SameTotals p.1.nodes s.g.nodes) h2' (by
      rintro p p' ⟨hwp, hi, ht⟩ hb
      refine ⟨hwp.adaptIcePass hb, ?_⟩
      obtain ⟨_, ⟨e, hm⟩ | ⟨e, hm⟩⟩ := adaptIcePass_ok hb
      · exact ⟨by omega, (mergeNodes_totals hi hm).trans ht⟩
      · exact ⟨by omega, by rw [hm]; exact ht⟩)).1
  exact (((correctLayer_totals le_rfl k3.1 h4).trans k3.2.2).append (SameTotals.refl rm)).trans ht

end
end Cosipy
