import Verif.Lemmas.Remesh

/-! What `remove_melt_weq` does to a column, as a decomposition. -/

set_option autoImplicit false
set_option linter.unusedSectionVars false

namespace Cosipy
section
variable {K : Type} [Field K] [LinearOrder K] [IsStrictOrderedRing K]

/-- One pass on an existing layer. -/
theorem removeMeltPass_some {c : Consts K} {s s' : Grid.MeltState K} {i : Int} {a : Node K} {pre post : List (Node K)}
    (hd : s.g.nodes = pre ++ a :: post) (hl : (pre.length : Int) = i)
    (h : Grid.removeMeltPass c i s = .ok (some s')) :
    0 < s.melt ∧
    ((s.melt < a.weq c ∧ a.density c / c.waterDensity ≠ 0 ∧
        s' = ⟨{ s.g with nodes := pre ++ { a with height := (a.weq c - s.melt) / (a.density c / c.waterDensity) } :: post },
          0, s.lwcFromLayers⟩) ∨
     (a.weq c ≤ s.melt ∧
        s' = ⟨{ s.g with nodes := pre ++ post, numberNodes := s.g.numberNodes - 1 }, s.melt - a.weq c,
          s.lwcFromLayers + a.lwc * a.height⟩)) := by
  unfold Grid.removeMeltPass at h
  by_cases hc : 0 < s.melt ∧ i < s.g.numberNodes
  swap
  · rw [if_neg hc] at h; cases h
  rw [if_pos hc, node_of_decomp hd hl, ok_bind] at h
  refine ⟨hc.1, ?_⟩
  dsimp only at h
  change (if s.melt < a.weq c then _ else _) = _ at h
  split_ifs at h with h1 h2
  · left
    rw [bind_eq_ok] at h; obtain ⟨q, hq, h⟩ := h
    rw [fdiv_eq_ok] at hq
    rw [bind_eq_ok] at h; obtain ⟨g', hg', h⟩ := h
    rw [pure_eq_ok] at h
    refine ⟨h1, hq.1, ?_⟩
    unfold Grid.setNodeHeight at hg'
    obtain ⟨k, hk, rfl⟩ := Grid.modifyNode_eq_ok.1 hg'
    obtain ⟨hk1, _⟩ := normIdx_eq_some_nonneg (by omega) hk
    have : k = pre.length := by omega
    subst this
    simp only [Option.some.injEq] at h
    rw [← h, hd, modify_pre, hq.2]
    rfl
  · right
    rw [bind_eq_ok] at h; obtain ⟨g', hg', h⟩ := h
    rw [pure_eq_ok] at h
    refine ⟨h2, ?_⟩
    obtain ⟨k, hk, rfl⟩ := (Grid.removeNode_single (by rw [hd]; simp)).1 hg'
    obtain ⟨hk1, _⟩ := normIdx_eq_some_nonneg (by omega) hk
    have : k = pre.length := by omega
    subst this
    simp only [Option.some.injEq] at h
    rw [← h, hd, List.eraseIdx_append_of_length_le (le_refl _)]
    simp [Node.weq]
  · exact absurd (not_lt.1 h1) h2

/-- Outcome of the melt loop on the layers from position `pre.length` on. -/
structure MeltOutcome (c : Consts K) (pre layers : List (Node K)) (melt : K) (after : List (Node K)) (left water : K) : Prop where
  ex : ∃ removed rest, layers = removed ++ rest ∧ water = columnSum (fun n => n.lwc * n.height) removed ∧
    ((left = melt - columnSum (Node.weq c) removed ∧ after = pre ++ rest ∧ (left ≤ 0 ∨ rest = []) ∧
        (removed ≠ [] → 0 ≤ left) ∧ (removed ≠ [] → 0 < melt)) ∨
     (left = 0 ∧ ∃ a below, rest = a :: below ∧
        0 < melt - columnSum (Node.weq c) removed ∧ melt - columnSum (Node.weq c) removed < a.weq c ∧
        a.density c / c.waterDensity ≠ 0 ∧
        after = pre ++ { a with height :=
          (a.weq c - (melt - columnSum (Node.weq c) removed)) / (a.density c / c.waterDensity) } :: below))

theorem meltLoop_ok {c : Consts K} {pre : List (Node K)} : ∀ (fuel : Nat) {s s' : Grid.MeltState K} {layers : List (Node K)},
    s.g.WF → s.g.nodes = pre ++ layers →
    whileM (Grid.removeMeltPass c pre.length) fuel s = .ok s' →
    ∃ water after, MeltOutcome c pre layers s.melt after s'.melt water ∧
      s'.lwcFromLayers = s.lwcFromLayers + water ∧ s'.g.WF ∧
      s'.g = { s.g with nodes := after, numberNodes := s'.g.numberNodes } := by
  intro fuel
  induction fuel with
  | zero => intro s s' layers _ _ h; cases h
  | succ n ih =>
    intro s s' layers hw hd h
    rw [whileM] at h
    cases hb : Grid.removeMeltPass c pre.length s with
    | error e => rw [hb] at h; cases h
    | ok o =>
      rw [hb] at h
      cases o with
      | none =>
        simp only [Except.ok.injEq] at h; subst h
        refine ⟨0, pre ++ layers, ⟨[], layers, rfl, by simp, .inl ⟨by simp, rfl, ?_, by simp, by simp⟩⟩, by simp, hw, by rw [← hd]⟩
        by_contra hcon
        rw [not_or, not_le] at hcon
        obtain ⟨a, post, rfl⟩ := List.exists_cons_of_ne_nil hcon.2
        unfold Grid.removeMeltPass at hb
        have hlt : (pre.length : Int) < s.g.numberNodes := by rw [hw, hd]; simp
        rw [if_pos ⟨hcon.1, hlt⟩, node_of_decomp hd rfl, ok_bind] at hb
        dsimp only at hb
        split_ifs at hb
        · rw [bind_eq_ok] at hb; obtain ⟨_, _, hb⟩ := hb
          rw [bind_eq_ok] at hb; obtain ⟨_, _, hb⟩ := hb
          rw [pure_eq_ok] at hb; cases hb
        · rw [bind_eq_ok] at hb; obtain ⟨_, _, hb⟩ := hb
          rw [pure_eq_ok] at hb; cases hb
        · rw [pure_eq_ok] at hb; cases hb
      | some s1 =>
        simp only at h
        cases layers with
        | nil =>
          exfalso
          unfold Grid.removeMeltPass at hb
          have : ¬ (0 < s.melt ∧ (pre.length : Int) < s.g.numberNodes) := by
            rw [hw, hd]; simp
          rw [if_neg this] at hb; cases hb
        | cons a post =>
          obtain ⟨hpos, hcase⟩ := removeMeltPass_some hd rfl hb
          rcases hcase with ⟨h1, hne, rfl⟩ | ⟨h1, rfl⟩
          · -- partial melt: the next pass stops
            have hstop : Grid.removeMeltPass c pre.length
                ⟨{ s.g with nodes := pre ++ { a with height := (a.weq c - s.melt) / (a.density c / c.waterDensity) } :: post },
                  0, s.lwcFromLayers⟩ = .ok none := by
              unfold Grid.removeMeltPass
              rw [if_neg (by simp)]; rfl
            cases n with
            | zero => cases h
            | succ n =>
              rw [whileM, hstop] at h
              simp only [Except.ok.injEq] at h; subst h
              refine ⟨0, _, ⟨[], a :: post, rfl, by simp, .inr ⟨rfl, a, post, rfl, by simpa using hpos, by simpa using h1,
                hne, ?_⟩⟩, by simp, ?_, rfl⟩
              · simp
              · unfold Grid.WF at hw ⊢
                rw [hw, hd]; simp
          · have hw1 : Grid.WF { s.g with nodes := pre ++ post, numberNodes := s.g.numberNodes - 1 } := by
              unfold Grid.WF at hw ⊢
              simp only
              rw [hw, hd]; simp; omega
            obtain ⟨water, after, ⟨removed, rest, e1, e2, e3⟩, e4, e5, e6⟩ := ih hw1 rfl h
            simp only at e3 e4 e6
            refine ⟨a.lwc * a.height + water, after, ⟨a :: removed, rest, by rw [e1]; rfl, by rw [e2]; simp, ?_⟩,
              by rw [e4]; ring, e5, e6⟩
            rcases e3 with ⟨f1, f2, f3, f4, f5⟩ | ⟨f1, b, below, f2, f3, f4, f5, f6⟩
            · refine .inl ⟨by rw [f1]; simp; ring, f2, f3, fun _ => ?_, fun _ => hpos⟩
              by_cases hr : removed = []
              · rw [f1, hr]; simpa using h1
              · exact f4 hr
            · have e : s.melt - columnSum (Node.weq c) (a :: removed) =
                  s.melt - a.weq c - columnSum (Node.weq c) removed := by simp; ring
              exact .inr ⟨f1, b, below, f2, by rw [e]; exact f3, by rw [e]; exact f4, f5, by rw [e]; exact f6⟩

/-- The loop always ends, after at most one pass per layer and one more. -/
theorem meltLoop_returns {c : Consts K} {pre : List (Node K)} : ∀ (layers : List (Node K)) (fuel : Nat) (s : Grid.MeltState K),
    s.g.WF → s.g.nodes = pre ++ layers → layers.length + 2 ≤ fuel →
    ∃ s', whileM (Grid.removeMeltPass c pre.length) fuel s = .ok s' := by
  intro layers
  induction layers with
  | nil =>
    intro fuel s hw hd hf
    obtain ⟨n, rfl⟩ : ∃ n, fuel = n + 1 := ⟨fuel - 1, by omega⟩
    refine ⟨s, ?_⟩
    have : Grid.removeMeltPass c pre.length s = .ok none := by
      unfold Grid.removeMeltPass
      rw [if_neg (by rw [hw, hd]; simp)]; rfl
    rw [whileM, this]
  | cons a post ih =>
    intro fuel s hw hd hf
    obtain ⟨n, rfl⟩ : ∃ n, fuel = n + 1 := ⟨fuel - 1, by omega⟩
    by_cases hpos : 0 < s.melt
    swap
    · refine ⟨s, ?_⟩
      have : Grid.removeMeltPass c pre.length s = .ok none := by
        unfold Grid.removeMeltPass
        rw [if_neg (fun h => hpos h.1)]; rfl
      rw [whileM, this]
    have hlt : (pre.length : Int) < s.g.numberNodes := by rw [hw, hd]; simp
    have hb : ∃ s1, Grid.removeMeltPass c pre.length s = .ok (some s1) := by
      unfold Grid.removeMeltPass
      rw [if_pos ⟨hpos, hlt⟩, node_of_decomp hd rfl, ok_bind]
      dsimp only
      by_cases h1 : s.melt < a.height * (a.density c / c.waterDensity)
      · rw [if_pos h1]
        have hne : a.density c / c.waterDensity ≠ 0 := by
          intro h0; rw [h0, mul_zero] at h1; exact absurd (hpos.trans h1) (lt_irrefl _)
        rw [fdiv_of_ne hne, ok_bind]
        have := (Grid.modifyNode_eq_ok (g := s.g) (i := (pre.length : Int)) (f := Node.setHeight
          ((a.height * (a.density c / c.waterDensity) - s.melt) / (a.density c / c.waterDensity)))).2
          ⟨pre.length, normIdx_of_nat (by rw [hd]; simp), rfl⟩
        unfold Grid.setNodeHeight
        rw [this, ok_bind]
        exact ⟨_, rfl⟩
      · rw [if_neg h1, if_pos (not_lt.1 h1)]
        have := (Grid.removeNode_single (g := s.g) (i := (pre.length : Int)) (by rw [hd]; simp)).2
          ⟨pre.length, normIdx_of_nat (by rw [hd]; simp), rfl⟩
        rw [this, ok_bind]
        exact ⟨_, rfl⟩
    obtain ⟨s1, hb⟩ := hb
    rw [whileM, hb]
    simp only
    rcases (removeMeltPass_some hd rfl hb).2 with ⟨_, _, rfl⟩ | ⟨_, rfl⟩
    · obtain ⟨k, rfl⟩ : ∃ k, n = k + 1 := ⟨n - 1, by simp at hf; omega⟩
      have : ∀ g : Grid K, Grid.removeMeltPass c pre.length ⟨g, 0, s.lwcFromLayers⟩ = .ok none := by
        intro g
        unfold Grid.removeMeltPass
        rw [if_neg (by simp)]; rfl
      rw [whileM, this]
      exact ⟨_, rfl⟩
    · apply ih n
      · unfold Grid.WF at hw ⊢
        simp only
        rw [hw, hd]; simp; omega
      · rfl
      · simp at hf; omega

/-- The whole call at index 0. -/
theorem removeMelt_ok {c : Consts K} {g g' : Grid K} {fuel : Nat} {m w : K} (hw : g.WF)
    (h : g.removeMeltWeq fuel c m = .ok (g', w)) :
    ∃ left, MeltOutcome c [] g.nodes m g'.nodes left w ∧ g'.WF ∧
      g' = { g with nodes := g'.nodes, numberNodes := g'.numberNodes, newSnowHeight := g.newSnowHeight - left } := by
  unfold Grid.removeMeltWeq at h
  rw [bind_eq_ok] at h; obtain ⟨s, hs, h⟩ := h
  rw [pure_eq_ok] at h
  obtain ⟨water, after, ho, e1, e2, e3⟩ := meltLoop_ok (pre := []) (layers := g.nodes) fuel (s := ⟨g, m, 0⟩) hw rfl hs
  simp only [if_true, Prod.mk.injEq] at h
  obtain ⟨h1, h2⟩ := h
  simp only [zero_add] at e1 e3
  subst h1
  refine ⟨s.melt, ?_, e2, ?_⟩
  · rw [← h2, e1]
    show MeltOutcome c [] g.nodes m s.g.nodes s.melt water
    have : s.g.nodes = after := by rw [e3]
    rw [this]; exact ho
  · unfold Grid.setFreshSnowPropsHeight
    simp only
    rw [e3]

end
end Cosipy
