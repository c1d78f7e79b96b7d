import Verif.Lemmas.Sum
import Verif.Lemmas.WF

/-! What `correct_layer` does to a column, as a decomposition. -/

set_option linter.unusedSectionVars false

set_option autoImplicit false

namespace Cosipy
section
variable {K : Type} [Field K] [LinearOrder K] [IsStrictOrderedRing K]

/-- Both layers are snow or both are ice. -/
def SameSide (c : Consts K) (a b : Node K) : Prop :=
  (a.density c < c.snowIceThreshold ∧ b.density c < c.snowIceThreshold) ∨
  (c.snowIceThreshold ≤ a.density c ∧ c.snowIceThreshold ≤ b.density c)

/-- `run` is merged from the top into the single layer `m`, each time while the layer so far is thinner than `h`
and the next one is on the same side of the threshold. -/
inductive MergesTo (c : Consts K) (h : K) : List (Node K) → Node K → Prop
  | single (a : Node K) : MergesTo c h [a] a
  | step {run : List (Node K)} {m b : Node K} : MergesTo c h run m → m.height < h → m.height + b.height ≠ 0 →
      SameSide c m b → MergesTo c h (run ++ [b]) (Grid.merged m b)

theorem MergesTo.totals {c : Consts K} {h : K} {run : List (Node K)} {m : Node K} (hm : MergesTo c h run m) :
    SameTotals [m] run := by
  induction hm with
  | single a => exact SameTotals.refl _
  | step _ _ hne _ ih => exact (merged_totals hne).trans (ih.append (SameTotals.refl _))

theorem MergesTo.ne_nil {c : Consts K} {h : K} {run : List (Node K)} {m : Node K} (hm : MergesTo c h run m) :
    run ≠ [] := by
  cases hm <;> simp

/-- A property of layers that merging preserves. -/
theorem MergesTo.all {c : Consts K} {h : K} {run : List (Node K)} {m : Node K} (hm : MergesTo c h run m)
    (P : Node K → Prop) (hP : ∀ a b, P a → P b → P (Grid.merged a b)) (hr : ∀ n ∈ run, P n) : P m := by
  induction hm with
  | single a => exact hr a (by simp)
  | step _ _ _ _ ih => exact hP _ _ (ih fun n hn => hr n (by simp [hn])) (hr _ (by simp))

theorem node_decomp {g : Grid K} {i : Int} {a : Node K} (hi : 0 ≤ i) (h : g.node i = .ok a) :
    ∃ pre post, g.nodes = pre ++ a :: post ∧ (pre.length : Int) = i := by
  obtain ⟨k, hk, ha⟩ := pyGet_eq_ok.1 h
  obtain ⟨hk1, hk2⟩ := normIdx_eq_some_nonneg hi hk
  refine ⟨g.nodes.take k, g.nodes.drop (k + 1), ?_, by simp; omega⟩
  conv_lhs => rw [← List.take_append_drop k g.nodes, List.drop_eq_getElem_cons hk2]
  rw [List.getElem?_eq_getElem hk2] at ha
  simp only [Option.some.injEq] at ha
  rw [ha]

theorem node_of_decomp {g : Grid K} {i : Int} {a : Node K} {pre post : List (Node K)}
    (hd : g.nodes = pre ++ a :: post) (hl : (pre.length : Int) = i) : g.node i = .ok a := by
  subst hl
  unfold Grid.node
  apply pyGet_nat
  rw [hd]; simp

theorem decomp_unique {pre pre' : List (Node K)} {a a' : Node K} {post post' : List (Node K)}
    (h : pre ++ a :: post = pre' ++ a' :: post') (hl : pre.length = pre'.length) :
    pre = pre' ∧ a = a' ∧ post = post' := by
  have := List.append_inj h hl
  simpa using this

/-- The merging loop of `correct_layer`. -/
theorem correctLoop_ok {g g' : Grid K} {fuel : Nat} {c : Consts K} {i : Int} {h : K} (hi : 0 ≤ i)
    (hw : g.WF) {a : Node K} {pre post : List (Node K)} (hd : g.nodes = pre ++ a :: post) (hl : (pre.length : Int) = i)
    (he : whileM (Grid.correctLayerPass c i h) fuel g = .ok g') :
    ∃ run post' m, a :: post = run ++ post' ∧ MergesTo c h run m ∧
      g' = { g with nodes := pre ++ m :: post', numberNodes := g'.numberNodes } ∧ g'.WF ∧
      (m.height < h → ∀ b rest, post' = b :: rest → ¬ SameSide c m b) := by
  have key := whileM_inv (body := Grid.correctLayerPass c i h)
    (fun g1 : Grid K => g1.WF ∧ ∃ run post' m, a :: post = run ++ post' ∧ MergesTo c h run m ∧
      g1 = { g with nodes := pre ++ m :: post', numberNodes := g1.numberNodes }) ?_ fuel g g' ?_ he
  · obtain ⟨⟨hw', run, post', m, h1, h2, h3⟩, hend⟩ := key
    refine ⟨run, post', m, h1, h2, h3, hw', ?_⟩
    rintro hlt b rest rfl hside
    have hn : g'.node i = .ok m := node_of_decomp (post := b :: rest) (by rw [h3]) hl
    have hn2 : g'.node (i + 1) = .ok b := node_of_decomp (pre := pre ++ [m]) (post := rest) (by rw [h3]; simp) (by simp [hl])
    have hlen : i + 1 < g'.numberNodes := by
      rw [hw', h3]; simp; omega
    unfold Grid.correctLayerPass at hend
    rw [hn, ok_bind, if_pos ⟨hlt, hlen⟩, hn2, ok_bind] at hend
    rcases hside with hs | hs
    · rw [if_pos hs, bind_eq_ok] at hend
      obtain ⟨_, _, hend⟩ := hend; cases hend
    · rw [if_neg (fun hh => absurd hh.1 (not_lt.2 hs.1)), if_pos hs, bind_eq_ok] at hend
      obtain ⟨_, _, hend⟩ := hend; cases hend
  · rintro g1 g2 ⟨hw1, run, post', m, h1, h2, h3⟩ hb
    have hw2 := hw1.correctLayerPass hb
    refine ⟨hw2, ?_⟩
    have hn : g1.node i = .ok m := node_of_decomp (by rw [h3]) hl
    unfold Grid.correctLayerPass at hb
    rw [hn, ok_bind] at hb
    split_ifs at hb with hc
    · rw [bind_eq_ok] at hb; obtain ⟨b, hb1, hb⟩ := hb
      have fin : ∀ hside : SameSide c m b, g1.mergeNodes i = .ok g2 → ∃ run post' m, a :: post = run ++ post' ∧
          MergesTo c h run m ∧ g2 = { g with nodes := pre ++ m :: post', numberNodes := g2.numberNodes } := by
        intro hside hm
        obtain ⟨pre2, a2, b2, post2, hd2, hl2, hne, rfl⟩ := mergeNodes_decomp hi hm
        have e1 : g1.nodes = pre ++ m :: post' := by rw [h3]
        obtain ⟨rfl, rfl, rfl⟩ := decomp_unique (e1.symm.trans hd2) (by omega)
        have hbb : g1.node (i + 1) = .ok b2 :=
          node_of_decomp (pre := pre ++ [m]) (post := post2) (by rw [e1]; simp) (by simp [hl])
        rw [hbb] at hb1; cases hb1
        refine ⟨run ++ [b], post2, Grid.merged m b, by rw [h1]; simp, .step h2 hc.1 hne hside, ?_⟩
        rw [h3]
      split_ifs at hb with c1 c2
      · rw [bind_eq_ok] at hb; obtain ⟨g3, hm, hb⟩ := hb
        rw [pure_eq_ok] at hb; cases hb
        exact fin (.inl c1) hm
      · rw [bind_eq_ok] at hb; obtain ⟨g3, hm, hb⟩ := hb
        rw [pure_eq_ok] at hb; cases hb
        exact fin (.inr c2) hm
      · cases hb
    · cases hb
  · exact ⟨hw, [a], post, a, by simp, .single a, by rw [← hd]⟩

theorem modify_pre {β : Type} (pre : List β) (a : β) (post : List β) (f : β → β) :
    (pre ++ a :: post).modify pre.length f = pre ++ f a :: post := by
  induction pre with
  | nil => simp
  | cons x xs ih => simp [ih]

theorem insertIdx_pre {β : Type} (pre : List β) (x : β) (post : List β) :
    (pre ++ post).insertIdx pre.length x = pre ++ x :: post := by
  induction pre with
  | nil => simp
  | cons y xs ih => simp [ih]

/-- `m` is cut at height `h` into `x` (top) and `y`. -/
structure SplitsTo (h : K) (m x y : Node K) : Prop where
  ex : ∃ θ, m.irreducibleWaterContent = .ok θ ∧ h ≠ 0 ∧ m.height - h ≠ 0 ∧ h < m.height ∧
    x = { m with height := h, lwc := (if 0 < m.lwc - θ then θ * m.height else m.lwc * m.height) / h } ∧
    y = ⟨m.height - h, m.temperature,
      (if 0 < m.lwc - θ then m.lwc * m.height - θ * m.height else 0) / (m.height - h), m.iceFraction, 0⟩

theorem SplitsTo.totals {h : K} {m x y : Node K} (hs : SplitsTo h m x y) : SameTotals [x, y] [m] := by
  obtain ⟨θ, _, h0, h1, _, rfl, rfl⟩ := hs.ex
  constructor <;> simp [sumHeight, sumIce, sumWater, sumHeat]
  · ring
  · rw [mul_div_cancel₀ _ h0, mul_div_cancel₀ _ h1]; split_ifs <;> ring
  · ring

theorem correctSplit_ok {g g' : Grid K} {c : Consts K} {i : Int} {h : K} (hi : 0 ≤ i)
    {a : Node K} {pre post : List (Node K)} (hd : g.nodes = pre ++ a :: post) (hl : (pre.length : Int) = i)
    (he : Grid.correctLayerSplit c i h g = .ok g') :
    (¬ h < a.height ∧ g' = g) ∨
    (∃ x y, SplitsTo h a x y ∧ g' = { g with nodes := pre ++ x :: y :: post, numberNodes := g.numberNodes + 1 }) := by
  unfold Grid.correctLayerSplit at he
  rw [node_of_decomp hd hl, ok_bind] at he
  split_ifs at he with hc
  · right
    simp only [bind_eq_ok, fdiv_eq_ok] at he
    obtain ⟨θ, hθ, lw0, ⟨h0, rfl⟩, lw1, ⟨h1, rfl⟩, g1, hg1, a', ha', he⟩ := he
    obtain ⟨k, hk, rfl⟩ := Grid.updateNode_eq_ok.1 hg1
    obtain ⟨hk1, hk2⟩ := normIdx_eq_some_nonneg hi hk
    have hkp : k = pre.length := by omega
    subst hkp
    rw [pure_eq_ok] at he; subst he
    refine ⟨_, _, ⟨θ, hθ, h0, h1, hc, rfl, rfl⟩, ?_⟩
    have hmod : ∀ f : Node K → Node K, g.nodes.modify pre.length f = pre ++ f a :: post := by
      intro f; rw [hd, modify_pre]
    congr 1
    rw [← hl, show ((pre.length : Int) + 1) = ((pre.length + 1 : Nat) : Int) by omega, pyInsert_nat]
    · rw [hmod]
      have := insertIdx_pre (pre ++ [Grid.upd h a.temperature a.iceFraction
        ((if 0 < a.lwc - θ then θ * a.height else a.lwc * a.height) / h) a])
        (Node.new c (a.height - h) (a'.density c) a.temperature
          ((if 0 < a.lwc - θ then a.lwc * a.height - θ * a.height else 0) / (a.height - h)) (some a.iceFraction)) post
      simpa [Grid.upd, Node.new] using this
    · rw [hmod]; simp
  · left
    rw [pure_eq_ok] at he; exact ⟨hc, he.symm⟩

/-- What `correct_layer(i, h)` does for `i ≥ 0`. -/
theorem correctLayer_ok {g g' : Grid K} {fuel : Nat} {c : Consts K} {i : Int} {h : K} (hi : 0 ≤ i) (hw : g.WF)
    (he : g.correctLayer fuel c i h = .ok g') :
    ∃ pre run post m new, g.nodes = pre ++ run ++ post ∧ (pre.length : Int) = i ∧ MergesTo c h run m ∧
      g' = { g with nodes := pre ++ new ++ post, numberNodes := g'.numberNodes } ∧ g'.WF ∧
      (m.height < h → ∀ b rest, post = b :: rest → ¬ SameSide c m b) ∧
      ((m.height ≤ h ∧ new = [m]) ∨ (∃ x y, SplitsTo h m x y ∧ new = [x, y])) := by
  have hwf := hw.correctLayer he
  unfold Grid.correctLayer at he
  rw [bind_eq_ok] at he; obtain ⟨g1, h1, he⟩ := he
  have hnode : ∃ a, g.node i = .ok a := by
    cases fuel with
    | zero => rw [whileM] at h1; cases h1
    | succ n =>
      rw [whileM] at h1
      rcases hn : g.node i with e | a
      · exfalso
        have : Grid.correctLayerPass c i h g = .error e := by
          unfold Grid.correctLayerPass; rw [hn, error_bind]
        rw [this] at h1; cases h1
      · exact ⟨a, rfl⟩
  obtain ⟨a, ha⟩ := hnode
  obtain ⟨pre, post, hd, hl⟩ := node_decomp hi ha
  obtain ⟨run, post', m, hrun, hm, hg1, hw1, hend⟩ := correctLoop_ok hi hw hd hl h1
  have hd1 : g1.nodes = pre ++ m :: post' := by rw [hg1]
  rcases correctSplit_ok hi hd1 hl he with ⟨hn, rfl⟩ | ⟨x, y, hs, rfl⟩
  · refine ⟨pre, run, post', m, [m], by rw [hd, hrun]; simp, hl, hm, ?_, hwf, hend, .inl ⟨not_lt.1 hn, rfl⟩⟩
    simpa using hg1
  · refine ⟨pre, run, post', m, [x, y], by rw [hd, hrun]; simp, hl, hm, ?_, hwf, hend, .inr ⟨x, y, hs, rfl⟩⟩
    rw [hg1]; simp

theorem correctLayer_totals {g g' : Grid K} {fuel : Nat} {c : Consts K} {i : Int} {h : K} (hi : 0 ≤ i) (hw : g.WF)
    (he : g.correctLayer fuel c i h = .ok g') : SameTotals g'.nodes g.nodes := by
  obtain ⟨pre, run, post, m, new, hd, _, hm, hg', _, _, hnew⟩ := correctLayer_ok hi hw he
  have : SameTotals new run := by
    rcases hnew with ⟨_, rfl⟩ | ⟨x, y, hs, rfl⟩
    · exact hm.totals
    · exact hs.totals.trans hm.totals
  rw [hd, hg']
  exact ((SameTotals.refl pre).append this).append (SameTotals.refl post)

end
end Cosipy
