import Verif.Lemmas.Fuel
import Verif.Lemmas.WF
import Verif.Lemmas.Arith

/-! Fuel independence and termination of the grid operations, in any arithmetic. -/

set_option autoImplicit false
set_option linter.unusedSectionVars false

namespace Cosipy
section
variable {α : Type} [Add α] [Sub α] [Mul α] [Div α] [Neg α] [LT α] [LE α]
  [DecidableLT α] [DecidableLE α] [BEq α] [Zero α] [One α] [NatCast α] [OfScientific α]

theorem pyGet_nd {β : Type} (xs : List β) (i : Int) : pyGet xs i ≠ .error .diverge :=
  fun h => by cases pyGet_error h

theorem mergeNodes_nd (g : Grid α) (i : Int) : g.mergeNodes i ≠ .error .diverge :=
  fun h => by rcases Grid.mergeNodes_error h with h | h <;> cases h

theorem removeNode_nd (g : Grid α) (i : List Int) : g.removeNode i ≠ .error .diverge :=
  fun h => by cases Grid.removeNode_error h

theorem bind_nd {β γ : Type} {x : M β} {f : β → M γ} (hx : x ≠ .error .diverge)
    (hf : ∀ b, x = .ok b → f b ≠ .error .diverge) : (x >>= f) ≠ .error .diverge := by
  intro h
  rcases bind_eq_error.1 h with h | ⟨b, hb, h⟩
  · exact hx h
  · exact hf b hb h

theorem irr_nd (n : Node α) : n.irreducibleWaterContent ≠ .error .diverge := by
  unfold Node.irreducibleWaterContent
  split_ifs
  · exact bind_nd (fdiv_ne_diverge _ _) fun _ _ h => by cases h
  · simp
  · simp

theorem correctLayerPass_nd (c : Consts α) (i : Int) (h : α) (g : Grid α) :
    Grid.correctLayerPass c i h g ≠ .error .diverge := by
  unfold Grid.correctLayerPass Grid.node
  refine bind_nd (pyGet_nd _ _) fun a _ => ?_
  split_ifs
  · refine bind_nd (pyGet_nd _ _) fun b _ => ?_
    split_ifs
    · exact bind_nd (mergeNodes_nd _ _) fun _ _ h => by cases h
    · exact bind_nd (mergeNodes_nd _ _) fun _ _ h => by cases h
    · intro h; cases h
  · intro h; cases h

theorem mergeNodes_length {g g' : Grid α} {i : Int} (h : g.mergeNodes i = .ok g') :
    g'.nodes.length + 1 = g.nodes.length := by
  obtain ⟨p, q, a, b, hp, hq, _, _, _, rfl⟩ := Grid.mergeNodes_ok h
  have := normIdx_lt hq
  simp only
  rw [List.length_eraseIdx_of_lt (by simpa using this), List.length_set]; omega

theorem correctLayerPass_length {c : Consts α} {i : Int} {h : α} {g g' : Grid α}
    (he : Grid.correctLayerPass c i h g = .ok (some g')) : g'.nodes.length + 1 = g.nodes.length := by
  unfold Grid.correctLayerPass at he
  rw [bind_eq_ok] at he; obtain ⟨a, _, he⟩ := he
  split_ifs at he
  · rw [bind_eq_ok] at he; obtain ⟨b, _, he⟩ := he
    split_ifs at he
    · rw [bind_eq_ok] at he; obtain ⟨g1, h1, he⟩ := he
      rw [pure_eq_ok] at he; cases he; exact mergeNodes_length h1
    · rw [bind_eq_ok] at he; obtain ⟨g1, h1, he⟩ := he
      rw [pure_eq_ok] at he; cases he; exact mergeNodes_length h1
    · cases he
  · cases he

theorem correctLayerSplit_nd (c : Consts α) (i : Int) (h : α) (g : Grid α) :
    Grid.correctLayerSplit c i h g ≠ .error .diverge := by
  unfold Grid.correctLayerSplit
  refine bind_nd (pyGet_nd _ _) fun a _ => ?_
  split_ifs
  · refine bind_nd (irr_nd _) fun _ _ => bind_nd (fdiv_ne_diverge _ _) fun _ _ => bind_nd (fdiv_ne_diverge _ _)
      fun _ _ => bind_nd (fun h => by cases Grid.updateNode_error h) fun _ _ => bind_nd (pyGet_nd _ _) fun _ _ h => by
        cases h
  · intro h; cases h

theorem correctLayerSplit_length {c : Consts α} {i : Int} {h : α} {g g' : Grid α}
    (he : Grid.correctLayerSplit c i h g = .ok g') : g'.nodes.length ≤ g.nodes.length + 1 := by
  unfold Grid.correctLayerSplit at he
  rw [bind_eq_ok] at he; obtain ⟨a, _, he⟩ := he
  split_ifs at he
  · simp only [bind_eq_ok] at he
    obtain ⟨_, _, _, _, _, _, g1, h1, _, _, he⟩ := he
    obtain ⟨k, _, rfl⟩ := Grid.updateNode_eq_ok.1 h1
    rw [pure_eq_ok] at he; subst he
    simp [pyInsert_length]
  · rw [pure_eq_ok] at he; subst he; simp

theorem correctLayer_mono (c : Consts α) (g : Grid α) (i : Int) (h : α) :
    FuelMono fun n => g.correctLayer n c i h := by
  unfold Grid.correctLayer
  exact FuelMono.bind (FuelMono.while (body := fun _ => Grid.correctLayerPass c i h) (fun _ => .const _) _)
    fun _ => .const _

/-- `correct_layer` terminates, whatever the arithmetic. -/
theorem correctLayer_terminates (c : Consts α) (g : Grid α) (i : Int) (h : α) :
    Terminates fun n => g.correctLayer n c i h := by
  unfold Grid.correctLayer
  refine Terminates.bind (Terminates.while (body := fun _ => Grid.correctLayerPass c i h) (fun _ => .const _)
    (fun _ => True) (fun g => g.nodes.length) (fun s _ => .const (correctLayerPass_nd c i h s)) ?_ g trivial)
    fun b _ _ => .const (correctLayerSplit_nd c i h b)
  intro _ s s' _ hb
  exact ⟨trivial, by have := correctLayerPass_length hb; omega⟩

theorem correctLayer_length {fuel : Nat} {c : Consts α} {g g' : Grid α} {i : Int} {h : α}
    (he : g.correctLayer fuel c i h = .ok g') : g'.nodes.length ≤ g.nodes.length + 1 := by
  unfold Grid.correctLayer at he
  rw [bind_eq_ok] at he; obtain ⟨g1, h1, he⟩ := he
  have := (whileM_ind h1 (fun g1 : Grid α => g1.nodes.length ≤ g.nodes.length) le_rfl
    (fun s s' hs hb => by have := correctLayerPass_length hb; omega)).1
  have := correctLayerSplit_length he
  omega

theorem adaptSnowPass_nd {c : Consts α} {s : Grid.AdaptState α} (hw : s.g.WF) :
    Grid.adaptSnowPass c s ≠ .error .diverge := by
  unfold Grid.adaptSnowPass
  rw [Grid.getNumberSnowLayers_eq hw, ok_bind]
  split_ifs
  · refine bind_nd (pyGet_nd _ _) fun a _ => bind_nd (pyGet_nd _ _) fun b _ => ?_
    dsimp only
    split_ifs
    · exact bind_nd (mergeNodes_nd _ _) fun _ _ h => by cases h
    · exact bind_nd (removeNode_nd _ _) fun _ _ h => by cases h
    · intro h; cases h
  · intro h; cases h

theorem removeNode_length {g g' : Grid α} {i : Int} (hne : g.nodes ≠ []) (h : g.removeNode [i] = .ok g') :
    g'.nodes.length + 1 = g.nodes.length := by
  obtain ⟨k, hk, rfl⟩ := (Grid.removeNode_single hne).1 h
  have := normIdx_lt hk
  simp only
  rw [List.length_eraseIdx_of_lt this]; omega

theorem adaptSnowPass_measure {c : Consts α} {s s' : Grid.AdaptState α} (hw : s.g.WF) (hi : 0 ≤ s.idx)
    (h : Grid.adaptSnowPass c s = .ok (some s')) :
    0 ≤ s'.idx ∧ ((s'.g.nodes.length : Int) - s'.idx).toNat < ((s.g.nodes.length : Int) - s.idx).toNat := by
  unfold Grid.adaptSnowPass at h
  rw [Grid.getNumberSnowLayers_eq hw, ok_bind] at h
  have hn := Grid.nSnow_le c s.g.nodes
  split_ifs at h with h1
  · simp only [bind_eq_ok] at h
    obtain ⟨a, ha, b, _, h⟩ := h
    split_ifs at h
    · rw [bind_eq_ok] at h; obtain ⟨g1, hg1, h⟩ := h
      rw [pure_eq_ok] at h; cases h
      have := mergeNodes_length hg1
      exact ⟨hi, by simp only; omega⟩
    · rw [bind_eq_ok] at h; obtain ⟨g1, hg1, h⟩ := h
      rw [pure_eq_ok] at h; cases h
      have := removeNode_length (by intro h0; rw [h0] at hn h1; simp at hn; omega) hg1
      exact ⟨hi, by simp only; omega⟩
    · rw [pure_eq_ok] at h; cases h
      exact ⟨by simp only; omega, by simp only; omega⟩
  · cases h

theorem adaptIcePass_nd {c : Consts α} {s : Grid α × Int} : Grid.adaptIcePass c s ≠ .error .diverge := by
  unfold Grid.adaptIcePass
  split_ifs
  · refine bind_nd (pyGet_nd _ _) fun a _ => ?_
    split_ifs
    · exact bind_nd (mergeNodes_nd _ _) fun _ _ h => by cases h
    · intro h; cases h
  · intro h; cases h

theorem adaptIcePass_measure {c : Consts α} {s s' : Grid α × Int} (hw : s.1.WF)
    (h : Grid.adaptIcePass c s = .ok (some s')) :
    ((s'.1.nodes.length : Int) - s'.2).toNat < ((s.1.nodes.length : Int) - s.2).toNat := by
  unfold Grid.adaptIcePass at h
  unfold Grid.WF at hw
  split_ifs at h with h1
  · rw [bind_eq_ok] at h; obtain ⟨a, _, h⟩ := h
    split_ifs at h
    · rw [bind_eq_ok] at h; obtain ⟨g1, hg1, h⟩ := h
      rw [pure_eq_ok] at h; cases h
      have := mergeNodes_length hg1
      simp only; omega
    · rw [pure_eq_ok] at h; cases h
      simp only; omega
  · cases h

/-- `adaptive_profile` terminates, whatever the arithmetic. -/
theorem adaptiveProfile_terminates (c : Consts α) (g : Grid α) (hw : g.WF) :
    Terminates fun n => g.adaptiveProfile n c := by
  unfold Grid.adaptiveProfile
  refine Terminates.bind (Terminates.while (body := fun _ => Grid.adaptSnowPass c) (fun _ => .const _)
    (fun s => s.g.WF ∧ 0 ≤ s.idx) (fun s => ((s.g.nodes.length : Int) - s.idx).toNat)
    (fun s hs => .const (adaptSnowPass_nd hs.1)) ?_ _ ⟨hw, le_rfl⟩) ?_
  · intro _ s s' hs hb
    have := adaptSnowPass_measure hs.1 hs.2 hb
    exact ⟨⟨hs.1.adaptSnowPass hb, this.1⟩, this.2⟩
  intro s n hs
  have hws : s.g.WF := (whileM_ind hs (fun s : Grid.AdaptState α => s.g.WF) hw fun s s' h hb => h.adaptSnowPass hb).1
  simp only [Grid.getNumberSnowLayers_eq hws, ok_bind]
  refine Terminates.bind ?_ ?_
  · refine Terminates.ite (fun _ => ?_) fun _ => ?_
    · refine Terminates.bind (.const (pyGet_nd _ _)) fun a _ _ => ?_
      refine Terminates.ite (fun _ => ?_) fun _ => ?_
      · exact Terminates.bind (correctLayer_terminates c s.g _ _) fun b _ _ => .const fun h => by cases h
      · exact .const fun h => by cases h
    · exact Terminates.bind (.const (pyGet_nd _ _)) fun a _ _ => .const fun h => by cases h
  · rintro ⟨g2, i2⟩ m h2
    have hw2 : g2.WF := by
      split_ifs at h2
      · rw [bind_eq_ok] at h2; obtain ⟨a, _, h2⟩ := h2
        split_ifs at h2
        · rw [bind_eq_ok] at h2; obtain ⟨g3, h3, h2⟩ := h2
          rw [pure_eq_ok] at h2; cases h2; exact hws.correctLayer h3
        · rw [pure_eq_ok] at h2; cases h2; exact hws
      · rw [bind_eq_ok] at h2; obtain ⟨a, _, h2⟩ := h2
        rw [pure_eq_ok] at h2; cases h2; exact hws
    refine Terminates.bind (Terminates.while (body := fun _ => Grid.adaptIcePass c) (fun _ => .const _)
      (fun s => s.1.WF) (fun s => ((s.1.nodes.length : Int) - s.2).toNat) (fun s _ => .const adaptIcePass_nd) ?_ _ hw2) ?_
    · intro _ s s' hs hb
      exact ⟨hs.adaptIcePass hb, adaptIcePass_measure hs hb⟩
    · rintro ⟨g3, i3⟩ m h3
      exact correctLayer_terminates c g3 _ _

theorem logSnowPass_mono (c : Consts α) (s : Grid.LogState α) : FuelMono fun n => Grid.logSnowPass n c s := by
  unfold Grid.logSnowPass
  refine FuelMono.bind (.const _) fun _ => .ite (.ite ?_ (.const _)) (.const _)
  exact FuelMono.bind (correctLayer_mono c _ _ _) fun _ => .const _

theorem logIcePass_mono (c : Consts α) (s : Grid.LogState α) : FuelMono fun n => Grid.logIcePass n c s := by
  unfold Grid.logIcePass
  refine .ite (.ite ?_ (.const _)) (.const _)
  exact FuelMono.bind (correctLayer_mono c _ _ _) fun _ => .const _

theorem logSnowPass_terminates (c : Consts α) {s : Grid.LogState α} (hw : s.g.WF) :
    Terminates fun n => Grid.logSnowPass n c s := by
  unfold Grid.logSnowPass
  simp only [Grid.getNumberSnowLayers_eq hw, ok_bind]
  refine Terminates.ite (fun _ => ?_) fun _ => .const fun h => by cases h
  refine Terminates.ite (fun _ => ?_) fun _ => Terminates.ite (fun _ => ?_) fun _ => .const fun h => by cases h
  · exact Terminates.bind (correctLayer_terminates c _ _ _) fun _ _ _ => .const fun h => by cases h
  · exact Terminates.bind (.const (mergeNodes_nd _ _)) fun _ _ _ => .const fun h => by cases h

theorem logIcePass_terminates (c : Consts α) (s : Grid.LogState α) :
    Terminates fun n => Grid.logIcePass n c s := by
  unfold Grid.logIcePass
  refine Terminates.ite (fun _ => ?_) fun _ => .const fun h => by cases h
  refine Terminates.ite (fun _ => ?_) fun _ => Terminates.ite (fun _ => ?_) fun _ => .const fun h => by cases h
  · exact Terminates.bind (correctLayer_terminates c _ _ _) fun _ _ _ => .const fun h => by cases h
  · exact Terminates.bind (.const (mergeNodes_nd _ _)) fun _ _ _ => .const fun h => by cases h

end
end Cosipy
