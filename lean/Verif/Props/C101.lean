import Verif.Props.C99

/-!
# C101 A column on the logarithmic mesh is left alone by remeshing

`log_profile` runs before every time step. A user expects it to do nothing once the layers have their target heights:
otherwise every step would mix layers (numerical diffusion). That is so for columns on the mesh, `C101_fixed_partial`: the layers
have the heights `h, s·h, s²·h, …`, the lowest snow layer and the lowest glacier layer possibly more. But the profile does
not produce such columns: what is left below the mesh is merged in pairs, one level further with every call
(`C101_refuted`), so that remeshing a remeshed column changes it again.
-/

set_option autoImplicit false
set_option linter.unusedSectionVars false

namespace Cosipy

/-! ### Spec -/
section
variable {K : Type} [Field K] [LinearOrder K] [IsStrictOrderedRing K]

/-- The layers `ns` follow the mesh from height `h` on, each `s` times as thick as the one above, and the next layer would
be `h'` thick. The last layer may hold a remainder that is too thin for another layer. -/
inductive Meshed (s : K) : K → List (Node K) → K → Prop
  | done {h : K} : Meshed s h [] h
  | layer {h h' : K} {n : Node K} {ns : List (Node K)} : n.height = h → Meshed s (s * h) ns h' → Meshed s h (n :: ns) h'
  | rest {h : K} {n : Node K} : h ≤ n.height → n.height - h < s * h → Meshed s h [n] (s * h)

/-- Dry snow over dry ice on the mesh of the configuration. -/
def OnMesh (c : Consts K) (snow ice : List (Node K)) : Prop :=
  ∃ h' h'', Meshed c.layerStretching c.firstLayerHeight snow h' ∧ Meshed c.layerStretching h' ice h''

/-! ### Lemmas -/

/-- Cutting a layer and merging the two parts again gives the layer back. -/
theorem SplitsTo.merged {h : K} {m x y : Node K} (hh : m.height ≠ 0) (hs : SplitsTo h m x y) : Grid.merged x y = m := by
  obtain ⟨θ, _, h0, h1, hlt, rfl, rfl⟩ := hs.ex
  have hw : (if 0 < m.lwc - θ then θ * m.height else m.lwc * m.height) +
      (if 0 < m.lwc - θ then m.lwc * m.height - θ * m.height else 0) = m.lwc * m.height := by split_ifs <;> ring
  unfold Grid.merged Grid.upd
  obtain ⟨mh, mt, mw, mi, mr⟩ := m
  simp only [Node.mk.injEq] at *
  have e : h + (mh - h) = mh := by ring
  refine ⟨e, ?_, ?_, ?_, trivial⟩
  · rw [e]; field_simp; ring
  · rw [div_mul_cancel₀ _ h0, div_mul_cancel₀ _ h1, hw, e, mul_div_cancel_right₀ _ hh]
  · rw [e]; field_simp; ring

/-- A layer that is thick enough is not merged with others. -/
theorem correctLayer_ge {g g' : Grid K} {fuel : Nat} {c : Consts K} {i : Int} {h : K} (hi : 0 ≤ i) {a : Node K}
    {pre post : List (Node K)} (hd : g.nodes = pre ++ a :: post) (hl : (pre.length : Int) = i) (hh : h ≤ a.height)
    (he : g.correctLayer fuel c i h = .ok g') :
    (¬ h < a.height ∧ g' = g) ∨
    (∃ x y, SplitsTo h a x y ∧ g' = { g with nodes := pre ++ x :: y :: post, numberNodes := g.numberNodes + 1 }) := by
  unfold Grid.correctLayer at he
  rw [bind_eq_ok] at he
  obtain ⟨g1, h1, he⟩ := he
  have hp : Grid.correctLayerPass c i h g = .ok none := by
    unfold Grid.correctLayerPass
    rw [node_of_decomp hd hl, ok_bind, if_neg (fun hc => absurd hc.1 (not_lt.2 hh))]
    rfl
  have : g1 = g := by
    cases fuel with
    | zero => rw [whileM] at h1; cases h1
    | succ n => rw [whileM, hp] at h1; cases h1; rfl
  subst this
  exact correctSplit_ok hi hd hl he

theorem Meshed.total {s h h' : K} {n : Node K} {ns : List (Node K)} (hm : Meshed s h (n :: ns) h')
    (hp : ∀ x ∈ ns, 0 ≤ x.height) : h ≤ n.height ∧ h ≤ sumHeight (n :: ns) := by
  have hs : 0 ≤ sumHeight ns := by
    unfold sumHeight columnSum
    exact List.sum_nonneg (by simpa using hp)
  have e : sumHeight (n :: ns) = n.height + sumHeight ns := by simp [sumHeight, columnSum]
  cases hm with
  | layer h1 _ => exact ⟨h1.ge, by rw [e, h1]; linarith⟩
  | rest h1 _ => exact ⟨h1, by rw [e]; linarith⟩

/-- Where `log_profile` stands in the part `part` of the column `pre ++ part ++ post`: before a layer, in the middle of a
layer with a remainder that has just been cut off, or past the part. -/
inductive MeshInv (c : Consts K) (g0 : Grid K) (pre part post : List (Node K)) (h' : K) (s : Grid.LogState K) : Prop
  | before {done todo : List (Node K)} : s.g = g0 → part = done ++ todo →
      s.idx = ((pre.length + done.length : Nat) : Int) → 0 < s.last → Meshed c.layerStretching s.last todo h' →
      s.hrest = sumHeight todo → MeshInv c g0 pre part post h' s
  | cut {done : List (Node K)} {a x y : Node K} {h : K} : part = done ++ [a] → SplitsTo h a x y → 0 < h →
      s.g = { g0 with nodes := pre ++ done ++ x :: y :: post, numberNodes := g0.numberNodes + 1 } →
      s.idx = ((pre.length + done.length + 1 : Nat) : Int) → s.hrest < s.last → s.last = h' →
      MeshInv c g0 pre part post h' s
  | past : s.g = g0 → ((pre.length + part.length : Nat) : Int) ≤ s.idx → s.last = h' → MeshInv c g0 pre part post h' s

theorem MeshInv.step {c : Consts K} (hst : 0 < c.layerStretching) {g0 : Grid K} {pre part post : List (Node K)} {h' : K}
    {fuel : Nat} {s s' : Grid.LogState K} (hd : g0.nodes = pre ++ part ++ post) (hpos : ∀ n ∈ part, 0 < n.height)
    (hi : MeshInv c g0 pre part post h' s) (hlt : s.g = g0 → s.idx < ((pre.length + part.length : Nat) : Int))
    (e : s'.idx = s.idx + 1)
    (hcase : (s.last ≤ s.hrest ∧ s.g.correctLayer fuel c s.idx s.last = .ok s'.g ∧ s'.hrest = s.hrest - s.last ∧
        s'.last = c.layerStretching * s.last) ∨
      (s.hrest < s.last ∧ s.g.mergeNodes (s.idx - 1) = .ok s'.g ∧ s'.hrest = s.hrest ∧ s'.last = s.last) ∨
      (s.hrest < s.last ∧ s.idx ≤ 0)) : MeshInv c g0 pre part post h' s' := by
  cases hi with
  | @before done todo hg hp hidx hl hm hr =>
    have hne : todo ≠ [] := by
      rintro rfl
      have := hlt hg
      rw [hidx, hp] at this; simp at this
    obtain ⟨a, rest, rfl⟩ := List.exists_cons_of_ne_nil hne
    have hrest : ∀ x ∈ rest, 0 < x.height := fun x hx => hpos x (by rw [hp]; simp [hx])
    obtain ⟨hge, htot⟩ := hm.total fun x hx => (hrest x hx).le
    rw [← hr] at htot
    obtain ⟨_, hc, hr', hl'⟩ : s.last ≤ s.hrest ∧ s.g.correctLayer fuel c s.idx s.last = .ok s'.g ∧
        s'.hrest = s.hrest - s.last ∧ s'.last = c.layerStretching * s.last := by
      rcases hcase with h | h | h
      · exact h
      · exact absurd h.1 (not_lt.2 htot)
      · exact absurd h.1 (not_lt.2 htot)
    rw [hg] at hc
    have hd' : g0.nodes = (pre ++ done) ++ a :: (rest ++ post) := by rw [hd, hp]; simp
    have hlast' : 0 < s'.last := by rw [hl']; exact mul_pos hst hl
    have hidx' : s'.idx = ((pre.length + (done ++ [a]).length : Nat) : Int) := by
      rw [e, hidx]; simp; omega
    have hcut := correctLayer_ge (by omega) hd' (by rw [hidx]; simp) hge hc
    cases hm with
    | layer h1 h2 =>
      rcases hcut with ⟨_, hg'⟩ | ⟨x, y, hs, _⟩
      · refine .before (done := done ++ [a]) (todo := rest) hg' (by rw [hp]; simp) hidx' hlast' (by rw [hl']; exact h2) ?_
        rw [hr', hr, ← h1]; simp [sumHeight, columnSum]
      · obtain ⟨_, _, _, _, h5, _⟩ := hs.ex
        exact absurd h1 h5.ne'
    | rest h1 h2 =>
      rcases hcut with ⟨h3, hg'⟩ | ⟨x, y, hs, hg'⟩
      · refine .before (done := done ++ [a]) (todo := []) hg' (by rw [hp]; simp) hidx' hlast'
          (by rw [hl']; exact .done) ?_
        rw [hr', hr, le_antisymm h1 (not_lt.1 h3)]; simp [sumHeight, columnSum]
      · refine .cut hp hs hl (by rw [hg']; simp) (by rw [e, hidx]; simp) ?_ hl'
        rw [hr', hr, hl']
        simpa [sumHeight, columnSum] using h2
  | @cut done a x y h hp hs hh hg hidx hlt' hl =>
    have ha := hpos a (by rw [hp]; simp)
    rcases hcase with h1 | ⟨_, h1, h2, h3⟩ | h1
    · exact absurd h1.1 (not_le.2 hlt')
    · obtain ⟨p, u, v, q, hd', hpl, _, hg'⟩ := mergeNodes_decomp (by omega) h1
      have e1 : p = pre ++ done ∧ u :: v :: q = x :: y :: post := by
        rw [hg] at hd'
        exact List.append_inj hd'.symm (by simp; omega)
      obtain ⟨rfl, e2⟩ := e1
      simp only [List.cons.injEq] at e2
      obtain ⟨rfl, rfl, rfl⟩ := e2
      refine .past ?_ (by rw [e, hidx, hp]; simp; omega) (h3.trans hl)
      rw [hg', hs.merged ha.ne', hg]
      have : pre ++ done ++ a :: q = g0.nodes := by rw [hd, hp]; simp
      rw [this]
      simp
    · omega
  | past hg hle _ => exact absurd (hlt hg) (not_lt.2 hle)

/-! ### Theorems -/

/-- **C101** (what is true): a column of dry snow over dry ice on the mesh is left exactly as it is by `log_profile()`. Full
statement: so is every column that `log_profile()` returns; that is false, see `C101_not_idempotent`. -/
theorem C101_fixed_partial {g g' : Grid K} {fuel : Nat} {c : Consts K} (hw : g.WF) (hf : 0 < c.firstLayerHeight)
    (hst : 0 < c.layerStretching) {snow ice : List (Node K)} (hcol : Parted c g.nodes snow ice) (hm : OnMesh c snow ice)
    (he : g.logProfile fuel c = .ok g') : g' = g := by
  obtain ⟨h', h'', m1, m2⟩ := hm
  unfold Grid.logProfile at he
  rw [Grid.getTotalSnowheight_eq hw, ok_bind] at he
  simp only [bind_eq_ok] at he
  obtain ⟨s1, h1, tot, ht, sn, hsn, n, hn, s2, h2, he⟩ := he
  rw [pure_eq_ok] at he; subst he
  have hss : pySum ((g.nodes.take (Grid.nSnow c g.nodes)).map Node.height) = sumHeight snow := by
    rw [pySum_eq, hcol.nSnow, hcol.eq]; simp [sumHeight, columnSum]
  have hcnt : ∀ s : Grid.LogState K, MeshInv c g [] snow ice h' s → s.g.WF ∧
      ∃ k, s.g.getNumberSnowLayers c = .ok k ∧ (s.g = g → k = snow.length) ∧ (s.g ≠ g → s.idx < (k : Int)) := by
    intro s hs
    cases hs with
    | before hg => exact ⟨by rw [hg]; exact hw, _, by rw [hg, Grid.getNumberSnowLayers_eq hw, hcol.nSnow], fun _ => rfl,
        fun h => absurd hg h⟩
    | past hg => exact ⟨by rw [hg]; exact hw, _, by rw [hg, Grid.getNumberSnowLayers_eq hw, hcol.nSnow], fun _ => rfl,
        fun h => absurd hg h⟩
    | @cut done a x y h hp hs hh hg hidx =>
      have hda := hcol.snow a (by rw [hp]; simp)
      obtain ⟨⟨d1, d2⟩, d3, d4⟩ := hda.1.split c hh hs
      have hcol' : Parted c s.g.nodes (done ++ [x, y]) ice := by
        refine ⟨by rw [hg]; simp, fun n hn => ?_, hcol.ice⟩
        simp only [List.mem_append, List.mem_cons, List.not_mem_nil, or_false] at hn
        rcases hn with hn | rfl | rfl
        · exact hcol.snow n (by rw [hp]; simp [hn])
        · exact ⟨d1, by unfold IsSnow; rw [d2]; exact hda.2⟩
        · exact ⟨d3, by unfold IsSnow; rw [d4]; exact hda.2⟩
      have hws : s.g.WF := by
        have := hw
        rw [hg]
        simp only [Grid.WF] at *
        rw [this, hcol.eq, hp]; simp; omega
      refine ⟨hws, _, by rw [Grid.getNumberSnowLayers_eq hws, hcol'.nSnow], fun h => ?_, fun _ => ?_⟩
      · exfalso
        have := congrArg Grid.numberNodes h
        rw [hg] at this; simp at this
      · rw [hidx]; simp
  have k1 := whileM_ind h1 (MeshInv c g [] snow ice h')
    (.before (done := []) (todo := snow) rfl rfl (by simp) hf m1 hss) (by
      intro s s' hs hb
      obtain ⟨hws, k, hk, hk1, hk2⟩ := hcnt s hs
      have hlt : s.idx < (k : Int) := by
        unfold Grid.logSnowPass at hb
        rw [hk, ok_bind] at hb
        by_contra hcon
        rw [if_neg hcon] at hb; cases hb
      obtain ⟨e, hcase⟩ := logSnowPass_ok hb
      refine hs.step hst (fuel := fuel) (by rw [hcol.eq]; simp) (fun n hn => (hcol.snow n hn).1.1)
        (fun hg => by rw [hk1 hg] at hlt; simpa using hlt) e ?_
      rcases hcase with h | h | h
      · exact .inl h
      · exact .inr (.inl ⟨h.1, h.2.2⟩)
      · exact .inr (.inr ⟨h.1, h.2.1⟩))
  have e1 : s1.g = g ∧ s1.last = h' := by
    obtain ⟨hs, hb⟩ := k1
    obtain ⟨hws, k, hk, hk1, hk2⟩ := hcnt s1 hs
    have hge : ¬ s1.idx < (k : Int) := by
      intro hcon
      unfold Grid.logSnowPass at hb
      rw [hk, ok_bind, if_pos hcon] at hb
      split_ifs at hb
      · rw [bind_eq_ok] at hb; obtain ⟨_, _, hb⟩ := hb; cases hb
      · rw [bind_eq_ok] at hb; obtain ⟨_, _, hb⟩ := hb; cases hb
      · cases hb
    have hg : s1.g = g := by
      by_contra hcon
      exact hge (hk2 hcon)
    refine ⟨hg, ?_⟩
    rw [hk1 hg] at hge
    cases hs with
    | @before done todo hg' hp hidx hl hm hr =>
      have : todo = [] := by
        rw [hidx, hp] at hge
        simp at hge
        cases todo with
        | nil => rfl
        | cons => simp at hge
      subst this
      cases hm; rfl
    | @cut done a x y h hp hs hh hg' =>
      have := congrArg Grid.numberNodes (hg'.symm.trans hg)
      simp at this
    | past _ _ hl => exact hl
  obtain ⟨eg, el⟩ := e1
  rw [eg] at ht hsn hn h2
  rw [Grid.getNumberSnowLayers_eq hw, Except.ok.injEq, hcol.nSnow] at hn
  rw [Grid.getTotalHeight_eq hw, Except.ok.injEq, pySum_eq, hcol.eq] at ht
  rw [Grid.getTotalSnowheight_eq hw, Except.ok.injEq, hss] at hsn
  have hrest : tot - sn = sumHeight ice := by
    rw [← ht, ← hsn]; simp [sumHeight, columnSum]
  have hlast : 0 < h' := by
    have pos : ∀ {h : K} {ns : List (Node K)} {h' : K}, Meshed c.layerStretching h ns h' → 0 < h → 0 < h' := by
      intro h ns h' hm
      induction hm with
      | done => exact id
      | layer _ _ ih => exact fun hp => ih (mul_pos hst hp)
      | rest => exact fun hp => mul_pos hst hp
    exact pos m1 hf
  have hcnt2 : ∀ s : Grid.LogState K, MeshInv c g snow ice [] h'' s →
      (s.g = g → s.g.numberNodes = ((snow.length + ice.length : Nat) : Int)) ∧ (s.g ≠ g → s.idx < s.g.numberNodes) := by
    have hnn : g.numberNodes = ((snow.length + ice.length : Nat) : Int) := by
      have := hw; simp only [Grid.WF] at this; rw [this, hcol.eq]; simp
    intro s hs
    refine ⟨fun h => by rw [h]; exact hnn, fun hne => ?_⟩
    cases hs with
    | before hg => exact absurd hg hne
    | past hg => exact absurd hg hne
    | @cut done a x y h hp hs hh hg hidx =>
      rw [hidx, hg]
      show _ < g.numberNodes + 1
      rw [hnn, hp]; simp
  have k2 := whileM_ind h2 (MeshInv c g snow ice [] h'')
    (.before (done := []) (todo := ice) rfl rfl (by simp [← hn]) (by rw [el]; exact hlast) (by rw [el]; exact m2) hrest) (by
      intro s s' hs hb
      obtain ⟨hlt, e, hcase⟩ := logIcePass_ok hb
      obtain ⟨q1, q2⟩ := hcnt2 s hs
      refine hs.step hst (fuel := fuel) (by rw [hcol.eq]; simp) (fun n hn => (hcol.ice n hn).1.1)
        (fun hg => by rw [← q1 hg]; exact hlt) e ?_
      rcases hcase with h | h
      · exact .inl h
      · exact .inr (.inl h))
  obtain ⟨hs, hb⟩ := k2
  obtain ⟨q1, q2⟩ := hcnt2 s2 hs
  by_contra hcon
  have hlt := q2 hcon
  unfold Grid.logIcePass at hb
  rw [if_pos hlt] at hb
  split_ifs at hb with h3 h4
  · rw [bind_eq_ok] at hb; obtain ⟨_, _, hb⟩ := hb; cases hb
  · rw [bind_eq_ok] at hb; obtain ⟨_, _, hb⟩ := hb; cases hb
  · cases hb

/-- **C101** for the whole of `update_grid()` with the logarithmic profile: if also the surface layer has the minimum
height, remeshing before a time step does nothing. -/
theorem C101_update_partial {g g' : Grid K} {fuel : Nat} {c : Consts K} (hr : c.remeshMethod = .logProfile) (hw : g.WF)
    (hf : 0 < c.firstLayerHeight) (hst : 0 < c.layerStretching) (hmin : c.minimumSnowLayerHeight ≤ c.firstLayerHeight)
    {snow ice : List (Node K)} (hcol : Parted c g.nodes snow ice) (hm : OnMesh c snow ice)
    (he : g.updateGrid fuel c = .ok g') : g' = g := by
  unfold Grid.updateGrid Grid.remesh at he
  rw [hr, bind_eq_ok] at he
  obtain ⟨g1, h1, he⟩ := he
  have e1 := C101_fixed_partial hw hf hst hcol hm h1
  subst e1
  rw [bind_eq_ok] at he
  obtain ⟨a, ha, he⟩ := he
  have hle : c.firstLayerHeight ≤ a.height := by
    unfold Grid.node at ha
    obtain ⟨k, hk, hk'⟩ := pyGet_eq_ok.1 ha
    have hk0 : k = 0 := by have := (normIdx_eq_some_nonneg le_rfl hk).1; omega
    subst hk0
    obtain ⟨h', h'', m1, m2⟩ := hm
    have head : ∀ {h h' : K} {ns : List (Node K)}, Meshed c.layerStretching h (a :: ns) h' → h ≤ a.height := by
      intro h h' ns hm
      cases hm with
      | layer h1 _ => exact h1.ge
      | rest h1 _ => exact h1
    rw [hcol.eq] at hk'
    cases snow with
    | nil =>
      cases m1
      cases ice with
      | nil => cases hk'
      | cons b t => cases hk'; exact head m2
    | cons b t => cases hk'; exact head m1
  rw [if_neg (not_lt.2 (hmin.trans hle)), pure_eq_ok] at he
  exact he.symm

end

/-! ### Violation -/

/-- 1 cm of ice over four layers of 2.5 mm of different temperatures. -/
private def exFine : Grid ℚ :=
  ⟨[⟨1/100, 265, 0, 1, 0⟩, ⟨1/400, 266, 0, 1, 0⟩, ⟨1/400, 267, 0, 1, 0⟩, ⟨1/400, 268, 0, 1, 0⟩, ⟨1/400, 270, 0, 1, 0⟩],
    5, 0, 0, 0⟩

/-- Heights and temperatures of a remeshed column. -/
private def shape (x : M (Grid ℚ)) : Option (List (ℚ × ℚ)) :=
  x.toOption.map fun g => g.nodes.map fun n => (n.height, n.temperature)

/-- **C101** (violation): with the shipped constants the first `log_profile()` leaves three layers, the second merges the
lower two of them, and only the third changes nothing any more. -/
theorem C101_refuted :
    exFine.WF ∧ Parted (Consts.default ℚ) exFine.nodes [] exFine.nodes ∧
    shape (exFine.logProfile 60 (Consts.default ℚ)) =
      some [(5/400, 1326/5), (2/400, 535/2), (1/400, 270)] ∧
    shape (exFine.logProfile 60 (Consts.default ℚ) >>= fun g => g.logProfile 60 (Consts.default ℚ)) =
      some [(5/400, 1326/5), (3/400, 805/3)] ∧
    shape (exFine.logProfile 60 (Consts.default ℚ) >>= fun g => g.logProfile 60 (Consts.default ℚ) >>= fun g =>
      g.logProfile 60 (Consts.default ℚ)) = some [(5/400, 1326/5), (3/400, 805/3)] := by
  refine ⟨by unfold Grid.WF; decide +kernel, ⟨rfl, by simp, ?_⟩, by decide +kernel, by decide +kernel, by decide +kernel⟩
  unfold DryLayer IsIce; decide +kernel

/-- **C101** (violation, as the negation of the expectation): remeshing twice is not remeshing once. -/
theorem C101_not_idempotent :
    ¬ ∀ (g g1 g2 : Grid ℚ) (fuel : Nat), g.WF → (∀ n ∈ g.nodes, DryLayer n) →
      g.logProfile fuel (Consts.default ℚ) = .ok g1 → g1.logProfile fuel (Consts.default ℚ) = .ok g2 → g2 = g1 := by
  intro hall
  obtain ⟨hw, hp, h1, h2, _⟩ := C101_refuted
  rcases hg1 : exFine.logProfile 60 (Consts.default ℚ) with e | g1
  · rw [hg1] at h1; cases h1
  · rcases hg2 : g1.logProfile 60 (Consts.default ℚ) with e | g2
    · rw [hg1, ok_bind, hg2] at h2; cases h2
    · have := hall _ _ _ _ hw (fun n hn => hp.dry hn) hg1 hg2
      rw [hg1] at h1
      rw [hg1, ok_bind, hg2, this, h1] at h2
      exact absurd h2 (by decide +kernel)

/-! ### Non-vacuity -/

/-- Snow on the mesh of the shipped constants with a remainder of 2 mm in the second layer, ice with one of 5 mm. -/
private def exMesh : Grid ℚ :=
  ⟨[⟨1/100, 265, 0, 3/10, 0⟩, ⟨14/1000, 266, 0, 2/5, 0⟩, ⟨144/10000, 267, 0, 1, 0⟩, ⟨2228/100000, 268, 0, 1, 0⟩], 4, 0, 0, 0⟩

example : exMesh.WF ∧ Parted (Consts.default ℚ) exMesh.nodes (exMesh.nodes.take 2) (exMesh.nodes.drop 2) ∧
    OnMesh (Consts.default ℚ) (exMesh.nodes.take 2) (exMesh.nodes.drop 2) ∧
    0 < (Consts.default ℚ).firstLayerHeight ∧ 0 < (Consts.default ℚ).layerStretching ∧
    (Consts.default ℚ).minimumSnowLayerHeight ≤ (Consts.default ℚ).firstLayerHeight ∧
    (exMesh.logProfile 60 (Consts.default ℚ)).isOk ∧ (exMesh.updateGrid 60 (Consts.default ℚ)).isOk := by
  refine ⟨by unfold Grid.WF; decide +kernel, ⟨rfl, ?_, ?_⟩, ?_, by decide +kernel, by decide +kernel, by decide +kernel,
    by decide +kernel, by decide +kernel⟩
  · unfold DryLayer IsSnow; decide +kernel
  · unfold DryLayer IsIce; decide +kernel
  · exact ⟨_, _, .layer (by decide +kernel) (.rest (by decide +kernel) (by decide +kernel)),
      .layer (by decide +kernel) (.rest (by decide +kernel) (by decide +kernel))⟩

end Cosipy
