import Verif.Lemmas.Closed
import Verif.Props.C04

/-!
# C09 The top layer has the configured first layer height after remeshing
-/

set_option autoImplicit false
set_option linter.unusedSectionVars false

namespace Cosipy
section
variable {K : Type} [Field K] [LinearOrder K] [IsStrictOrderedRing K]

theorem sumHeight_nonneg {ns : List (Node K)} (h : ∀ n ∈ ns, 0 < n.height) : 0 ≤ sumHeight ns := by
  unfold sumHeight columnSum
  apply List.sum_nonneg
  intro x hx
  obtain ⟨n, hn, rfl⟩ := List.mem_map.1 hx
  exact (h n hn).le

/-- **C09** (the first correction): if the column starts with snow layers of total height at least `h`, then after
`correct_layer(0, h)` the top layer has height exactly `h`. -/
theorem C09_first_correction {g g' : Grid K} {fuel : Nat} {c : Consts K} {h : K} (hair : 0 ≤ c.airDensity)
    (hw : g.WF) {snow rest : List (Node K)} (hd : g.nodes = snow ++ rest) (hsnow : ∀ n ∈ snow, IsSnow c n)
    (hsound : ∀ n ∈ g.nodes, Sound n) (hs : h ≤ sumHeight snow) (he : g.correctLayer fuel c 0 h = .ok g') :
    ∃ top below, g'.nodes = top :: below ∧ top.height = h := by
  obtain ⟨pre, run, post, m, new, hd', hl, hm, hg', _, hend, hnew⟩ := correctLayer_ok le_rfl hw he
  have hpre : pre = [] := List.eq_nil_of_length_eq_zero (by omega)
  subst hpre
  simp only [List.nil_append] at hd' hg'
  have hrs : ∀ n ∈ run, Sound n := fun n hn => hsound n (by rw [hd']; simp [hn])
  have hmh : m.height = sumHeight run := by
    have := hm.totals.height; simpa [sumHeight] using this
  have key : h ≤ m.height := by
    by_contra hlt
    rw [not_le] at hlt
    rw [hd] at hd'
    rcases List.append_eq_append_iff.1 hd' with ⟨a', ha, hb⟩ | ⟨c', ha, hb⟩
    · -- all the snow is in the run
      have : sumHeight run = sumHeight snow + sumHeight a' := by rw [ha]; simp [sumHeight]
      have h2 : 0 ≤ sumHeight a' := sumHeight_nonneg fun n hn => (hrs n (by rw [ha]; simp [hn])).1
      linarith
    · cases c' with
      | nil =>
        simp only [List.append_nil] at ha
        rw [ha] at hs
        linarith
      | cons b c' =>
        have hbs : IsSnow c b := hsnow b (by rw [ha]; simp)
        rcases hm.side hair hrs with hside | hside
        · exact hend hlt b (c' ++ rest) (by rw [hb]; simp) (.inl ⟨hside.2, hbs⟩)
        · obtain ⟨x, hx⟩ := List.exists_mem_of_ne_nil _ hm.ne_nil
          exact absurd (hside.1 x hx) (not_le.2 (hsnow x (by rw [ha]; simp [hx])))
  rcases hnew with ⟨hle, rfl⟩ | ⟨x, y, hsx, rfl⟩
  · exact ⟨m, post, by rw [hg']; simp, le_antisymm hle key⟩
  · obtain ⟨θ, _, _, _, _, rfl, rfl⟩ := hsx.ex
    exact ⟨_, _, by rw [hg']; rfl, rfl⟩

/-- A dry snow layer. -/
def DrySnow (c : Consts K) (n : Node K) : Prop :=
  0 < n.height ∧ n.lwc = 0 ∧ 0 < n.iceFraction ∧ n.iceFraction ≤ 1 ∧ IsSnow c n

theorem DrySnow.sound {c : Consts K} {n : Node K} (h : DrySnow c n) : Sound n :=
  ⟨h.1, by rw [h.2.1, add_zero]; exact h.2.2.2.1⟩

theorem DrySnow.merged {c : Consts K} (hair : 0 ≤ c.airDensity) {a b : Node K} (ha : DrySnow c a) (hb : DrySnow c b) :
    DrySnow c (Grid.merged a b) := by
  obtain ⟨u, v, hu, hv, huv, _, hi, hw⟩ := merged_weights ha.1 hb.1
  obtain ⟨x, y, hx, hy, hxy, hle, _⟩ := merged_density_le c hair ha.1 hb.1
  have hb1 := between_mono (lo := min a.iceFraction b.iceFraction) (hi := 1)
    (between_convex (a := a.iceFraction) (b := b.iceFraction) hu hv huv)
    ⟨min_le_left _ _, ha.2.2.2.1⟩ ⟨min_le_right _ _, hb.2.2.2.1⟩
  refine ⟨add_pos ha.1 hb.1, ?_, ?_, ?_, ?_⟩
  · rw [hw, ha.2.1, hb.2.1]; simp
  · rw [hi]; exact (lt_min ha.2.2.1 hb.2.2.1).trans_le hb1.1
  · rw [hi]; exact hb1.2
  · exact lt_of_le_of_lt (hle.trans (between_convex hx hy hxy).2) (max_lt ha.2.2.2.2 hb.2.2.2.2)

theorem DrySnow.split {c : Consts K} {h : K} {m x y : Node K} (hh : 0 < h) (hm : DrySnow c m) (hs : SplitsTo h m x y) :
    DrySnow c x ∧ DrySnow c y := by
  obtain ⟨θ, hθ, _, _, hlt, rfl, rfl⟩ := hs.ex
  have hθ0 := irr_nonneg hm.2.2.1 hθ
  have hd := hm.2.2.2.2
  unfold IsSnow Node.density Node.airPorosity at hd
  simp only [hm.2.1] at hd
  refine ⟨⟨hh, by simp [hm.2.1, not_lt.2 hθ0], hm.2.2.1, hm.2.2.2.1, ?_⟩,
    ⟨sub_pos.2 hlt, by simp [hm.2.1, not_lt.2 hθ0], hm.2.2.1, hm.2.2.2.1, ?_⟩⟩
  · unfold IsSnow Node.density Node.airPorosity
    simpa [hm.2.1, not_lt.2 hθ0] using hd
  · unfold IsSnow Node.density Node.airPorosity
    simpa [hm.2.1, not_lt.2 hθ0] using hd

theorem DrySnow.mergesTo {c : Consts K} (hair : 0 ≤ c.airDensity) {h : K} {run : List (Node K)} {m : Node K}
    (hm : MergesTo c h run m) (hr : ∀ n ∈ run, DrySnow c n) : DrySnow c m :=
  hm.all (DrySnow c) (fun _ _ => DrySnow.merged hair) hr

/-- Dry snow over ice. -/
structure SnowOverIce (c : Consts K) (ns snow ice : List (Node K)) : Prop where
  eq : ns = snow ++ ice
  snow : ∀ n ∈ snow, DrySnow c n
  ice : ∀ n ∈ ice, Sound n ∧ IsIce c n

theorem SnowOverIce.nSnow {c : Consts K} {ns snow ice : List (Node K)} (h : SnowOverIce c ns snow ice) :
    Grid.nSnow c ns = snow.length := by
  unfold Grid.nSnow
  rw [h.eq, List.filter_append, List.length_append]
  rw [List.filter_eq_self.2, List.filter_eq_nil_iff.2]
  · simp
  · intro n hn; simpa [IsIce] using (h.ice n hn).2
  · intro n hn; simpa [IsSnow] using (h.snow n hn).2.2.2.2

/-- `correct_layer(k, h)` inside the snow part changes only snow layers from `k` on. -/
theorem SnowOverIce.correctLayer {c : Consts K} (hair : 0 ≤ c.airDensity) {g g' : Grid K} {snow ice : List (Node K)}
    (hs : SnowOverIce c g.nodes snow ice) (hw : g.WF) {fuel : Nat} {i : Int} {h : K} (hi : 0 ≤ i) (hh : 0 < h)
    (hlt : i < snow.length) (he : g.correctLayer fuel c i h = .ok g') :
    ∃ pre run s2 new, snow = pre ++ run ++ s2 ∧ (pre.length : Int) = i ∧ new ≠ [] ∧
      SnowOverIce c g'.nodes (pre ++ new ++ s2) ice ∧ sumHeight new = sumHeight run := by
  obtain ⟨pre, run, post, m, new, hd, hl, hm, hg', _, _, hnew⟩ := correctLayer_ok hi hw he
  have hall : ∀ n ∈ g.nodes, Sound n := by
    intro n hn
    rw [hs.eq] at hn
    rcases List.mem_append.1 hn with hn | hn
    · exact (hs.snow n hn).sound
    · exact (hs.ice n hn).1
  have hrs : ∀ n ∈ run, Sound n := fun n hn => hall n (by rw [hd]; simp [hn])
  have hd2 := hd
  rw [hs.eq] at hd2
  obtain ⟨a, rest, ha⟩ := List.exists_cons_of_ne_nil hm.ne_nil
  have hasnow : a ∈ snow := by
    have h1 : (snow ++ ice)[pre.length]? = some a := by rw [hd2, ha]; simp
    rw [List.getElem?_append_left (by omega)] at h1
    exact List.mem_of_getElem? h1
  have hrun : ∀ n ∈ run, IsSnow c n := by
    rcases hm.side hair hrs with h | h
    · exact h.1
    · exact absurd (h.1 a (by simp [ha])) (not_le.2 (hs.snow a hasnow).2.2.2.2)
  have hs2 : ∃ s2, snow = pre ++ run ++ s2 ∧ post = s2 ++ ice := by
    rcases List.append_eq_append_iff.1 hd2 with ⟨a', h1, h2⟩ | ⟨c', h1, h2⟩
    · cases a' with
      | nil => exact ⟨[], by simpa using h1.symm, by simpa using h2.symm⟩
      | cons b a' =>
        exfalso
        have hb : IsIce c b := (hs.ice b (by rw [h2]; simp)).2
        have hlen : pre.length < snow.length := by omega
        rcases List.append_eq_append_iff.1 h1 with ⟨u, h3, h4⟩ | ⟨u, h3, h4⟩
        · have : b ∈ run := by rw [h4]; simp
          exact absurd (hrun b this) (not_lt.2 hb)
        · have := congrArg List.length h3
          simp at this; omega
    · exact ⟨c', h1, h2⟩
  obtain ⟨s2, h1, h2⟩ := hs2
  have hrd : ∀ n ∈ run, DrySnow c n := fun n hn => hs.snow n (by rw [h1]; simp [hn])
  have hmd := DrySnow.mergesTo hair hm hrd
  have hnewd : ∀ n ∈ new, DrySnow c n := by
    rcases hnew with ⟨_, rfl⟩ | ⟨x, y, hsx, rfl⟩
    · simpa using hmd
    · simpa using hmd.split hh hsx
  have htot : SameTotals new run := by
    rcases hnew with ⟨_, rfl⟩ | ⟨x, y, hs, rfl⟩
    · exact hm.totals
    · exact hs.totals.trans hm.totals
  refine ⟨pre, run, s2, new, h1, hl, by rcases hnew with ⟨_, rfl⟩ | ⟨x, y, _, rfl⟩ <;> simp, ⟨?_, ?_, hs.ice⟩,
    htot.height⟩
  · rw [hg', h2]; simp
  · intro n hn
    simp only [List.mem_append] at hn
    rcases hn with (hn | hn) | hn
    · exact hs.snow n (by rw [h1]; simp [hn])
    · exact hnewd n hn
    · exact hs.snow n (by rw [h1]; simp [hn])

/-- Merging two neighbouring snow layers. -/
theorem SnowOverIce.mergeNodes {c : Consts K} (hair : 0 ≤ c.airDensity) {g g' : Grid K} {snow ice : List (Node K)}
    (hs : SnowOverIce c g.nodes snow ice) {i : Int} (hi : 0 ≤ i) (hlt : i + 1 < snow.length)
    (he : g.mergeNodes i = .ok g') :
    ∃ pre a b s2, snow = pre ++ a :: b :: s2 ∧ (pre.length : Int) = i ∧
      SnowOverIce c g'.nodes (pre ++ Grid.merged a b :: s2) ice := by
  obtain ⟨pre, a, b, post, hd, hl, hne, rfl⟩ := mergeNodes_decomp hi he
  rw [hs.eq] at hd
  have hs2 : ∃ s2, snow = pre ++ a :: b :: s2 ∧ post = s2 ++ ice := by
    rcases List.append_eq_append_iff.1 (show snow ++ ice = (pre ++ [a, b]) ++ post by simpa using hd) with
      ⟨a', h1, h2⟩ | ⟨c', h1, h2⟩
    · have h3 := congrArg List.length h1
      simp only [List.length_append, List.length_cons, List.length_nil] at h3
      have : a' = [] := List.eq_nil_of_length_eq_zero (by omega)
      subst this
      exact ⟨[], by simpa using h1.symm, by simpa using h2.symm⟩
    · exact ⟨c', by simpa using h1, h2⟩
  obtain ⟨s2, h1, h2⟩ := hs2
  refine ⟨pre, a, b, s2, h1, hl, ⟨by simp [h2], ?_, hs.ice⟩⟩
  intro n hn
  simp only [List.mem_append, List.mem_cons] at hn
  rcases hn with hn | rfl | hn
  · exact hs.snow n (by rw [h1]; simp [hn])
  · exact DrySnow.merged hair (hs.snow a (by rw [h1]; simp)) (hs.snow b (by rw [h1]; simp))
  · exact hs.snow n (by rw [h1]; simp [hn])

/-- What the snow loop keeps true of the top layer. -/
structure TopInv (c : Consts K) (g0 : Grid K) (snow0 ice0 : List (Node K)) (s : Grid.LogState K) : Prop where
  wf : s.g.WF
  idx : 0 ≤ s.idx
  last : 0 < s.last
  start : s.idx = 0 → s.g = g0 ∧ s.last = c.firstLayerHeight ∧ s.hrest = sumHeight snow0
  one : s.idx = 1 → s.hrest = sumHeight snow0 - c.firstLayerHeight ∧ s.last = c.layerStretching * c.firstLayerHeight
  col : ∃ snow, SnowOverIce c s.g.nodes snow ice0 ∧ snow ≠ [] ∧
    (s.idx ≤ 1 → sumHeight snow = sumHeight snow0) ∧
    (1 ≤ s.idx → ∃ top below, snow = top :: below ∧ c.firstLayerHeight ≤ top.height) ∧
    (s.idx = 1 → ∃ top below, snow = top :: below ∧ top.height = c.firstLayerHeight) ∧
    (2 ≤ s.idx → c.firstLayerHeight * (1 + c.layerStretching) ≤ sumHeight snow0 →
      ∃ top b below, snow = top :: b :: below ∧ top.height = c.firstLayerHeight)

theorem TopInv.snowPass {c : Consts K} (hair : 0 ≤ c.airDensity) (hf : 0 < c.firstLayerHeight)
    (hst : 0 < c.layerStretching) {g0 : Grid K} {snow0 ice0 : List (Node K)}
    (h0 : SnowOverIce c g0.nodes snow0 ice0) (hsum : c.firstLayerHeight ≤ sumHeight snow0) {fuel : Nat}
    {s s' : Grid.LogState K} (hi : TopInv c g0 snow0 ice0 s) (hb : Grid.logSnowPass fuel c s = .ok (some s')) :
    TopInv c g0 snow0 ice0 s' := by
  have hw' := hi.wf.logSnowPass hb
  obtain ⟨snow, hcol, hne, hsame, hge, heq1, heq2⟩ := hi.col
  have hn : s.idx < (snow.length : Int) := by
    unfold Grid.logSnowPass at hb
    rw [Grid.getNumberSnowLayers_eq hi.wf, ok_bind, hcol.nSnow] at hb
    by_contra hcon
    rw [if_neg hcon] at hb; cases hb
  obtain ⟨e, hcase⟩ := logSnowPass_ok hb
  have hidx := hi.idx
  rcases hcase with ⟨hle, hc, hr, hla⟩ | ⟨hlt, hpos, hc, hr, hla⟩ | ⟨hlt, hle0, hc, hr, hla⟩
  · obtain ⟨pre, run, s2, new, h1, hl, hnn, hcol', htot⟩ := hcol.correctLayer hair hi.wf hidx hi.last hn hc
    have hss : sumHeight (pre ++ new ++ s2) = sumHeight snow := by
      rw [h1]; unfold sumHeight at htot ⊢; simp [htot]
    refine ⟨hw', by omega, by rw [hla]; exact mul_pos hst hi.last, fun h => by omega, ?_, pre ++ new ++ s2, hcol',
      by simp [hnn], ?_, ?_, ?_, ?_⟩
    · intro h
      obtain ⟨_, h2, h3⟩ := hi.start (by omega)
      rw [hr, hla, h2, h3]; exact ⟨rfl, rfl⟩
    · intro h
      rw [hss, hsame (by omega)]
    · intro _
      rcases eq_or_lt_of_le hidx with hz | hz
      · obtain ⟨h2, h3, _⟩ := hi.start hz.symm
        rw [← hz, h3] at hc
        have hcorr := C09_first_correction hair hi.wf (snow := snow) hcol.eq (fun n hn => (hcol.snow n hn).2.2.2.2)
          (by
            intro n hn
            rw [hcol.eq] at hn
            rcases List.mem_append.1 hn with hn | hn
            · exact (hcol.snow n hn).sound
            · exact (hcol.ice n hn).1) (by rw [hsame (by omega)]; exact hsum) hc
        obtain ⟨top, below, h4, h5⟩ := hcorr
        have h6 := hcol'.eq
        rw [h4] at h6
        cases hx : pre ++ new ++ s2 with
        | nil => simp [hnn] at hx
        | cons t b =>
          rw [hx] at h6
          simp only [List.cons_append, List.cons.injEq] at h6
          exact ⟨t, b, rfl, by rw [← h6.1, h5]⟩
      · obtain ⟨top, below, h4, h5⟩ := hge (by omega)
        cases pre with
        | nil => simp at hl; omega
        | cons p ps =>
          rw [h1] at h4
          simp only [List.cons_append, List.cons.injEq] at h4
          exact ⟨p, ps ++ new ++ s2, by simp, by rw [h4.1]; exact h5⟩
    · intro h
      obtain ⟨h2, h3, _⟩ := hi.start (by omega)
      have hz : s.idx = 0 := by omega
      rw [hz, h3] at hc
      have hcorr := C09_first_correction hair hi.wf (snow := snow) hcol.eq (fun n hn => (hcol.snow n hn).2.2.2.2)
          (by
            intro n hn
            rw [hcol.eq] at hn
            rcases List.mem_append.1 hn with hn | hn
            · exact (hcol.snow n hn).sound
            · exact (hcol.ice n hn).1) (by rw [hsame (by omega)]; exact hsum) hc
      obtain ⟨top, below, h4, h5⟩ := hcorr
      have h6 := hcol'.eq
      rw [h4] at h6
      cases hx : pre ++ new ++ s2 with
      | nil => simp [hnn] at hx
      | cons t b =>
        rw [hx] at h6
        simp only [List.cons_append, List.cons.injEq] at h6
        exact ⟨t, b, rfl, by rw [← h6.1, h5]⟩
    · intro h2 hbig
      have hex : ∃ top below, snow = top :: below ∧ top.height = c.firstLayerHeight := by
        rcases eq_or_lt_of_le (show 1 ≤ s.idx by omega) with h3 | h3
        · exact heq1 h3.symm
        · obtain ⟨t, b, bl, h4, h5⟩ := heq2 (by omega) hbig
          exact ⟨t, _, h4, h5⟩
      obtain ⟨top, below, h4, h5⟩ := hex
      cases pre with
      | nil => simp at hl; omega
      | cons p ps =>
        rw [h1] at h4
        simp only [List.cons_append, List.cons.injEq] at h4
        obtain ⟨x, xs, hx⟩ := List.exists_cons_of_ne_nil (show ps ++ new ++ s2 ≠ [] by simp [hnn])
        exact ⟨p, x, xs, by simpa using hx, by rw [h4.1]; exact h5⟩
  · obtain ⟨pre, a, b, s2, h1, hl, hcol'⟩ := hcol.mergeNodes hair (by omega) (by omega) hc
    refine ⟨hw', by omega, by rw [hla]; exact hi.last, fun h => by omega, fun h => by omega, _, hcol', by simp,
      fun h => by omega, ?_, fun h => by omega, ?_⟩
    · intro _
      obtain ⟨top, below, h4, h5⟩ := hge (by omega)
      cases pre with
      | nil =>
        rw [h1] at h4
        simp only [List.nil_append, List.cons.injEq] at h4
        refine ⟨_, _, rfl, ?_⟩
        have hb := (hcol.snow b (by rw [h1]; simp)).1
        show c.firstLayerHeight ≤ a.height + b.height
        rw [h4.1]; linarith
      | cons p ps =>
        rw [h1] at h4
        simp only [List.cons_append, List.cons.injEq] at h4
        exact ⟨p, _, List.cons_append, by rw [h4.1]; exact h5⟩
    · intro h2 hbig
      rcases eq_or_lt_of_le (show 1 ≤ s.idx by omega) with h3 | h3
      · obtain ⟨h6, h7⟩ := hi.one h3.symm
        exfalso
        rw [h6, h7] at hlt
        linarith
      · obtain ⟨t, b', bl, h4, h5⟩ := heq2 (by omega) hbig
        cases pre with
        | nil => simp at hl; omega
        | cons p ps =>
          rw [h1] at h4
          simp only [List.cons_append, List.cons.injEq] at h4
          obtain ⟨x, xs, hx⟩ := List.exists_cons_of_ne_nil (show ps ++ Grid.merged a b :: s2 ≠ [] by simp)
          exact ⟨p, x, xs, by simpa using hx, by rw [h4.1]; exact h5⟩
  · exfalso
    obtain ⟨h2, h3, h4⟩ := hi.start (by omega)
    rw [h3, h4] at hlt
    linarith

/-- Changes at or below layer `k` keep the first `k` layers. -/
theorem correctLayer_take {g g' : Grid K} {fuel : Nat} {c : Consts K} {k : Nat} {h : K} (hw : g.WF)
    (he : g.correctLayer fuel c k h = .ok g') : g'.nodes.take k = g.nodes.take k ∧ k < g.nodes.length := by
  obtain ⟨pre, run, post, m, new, hd, hl, hm, hg', _, _, _⟩ := correctLayer_ok (by omega) hw he
  have hk : pre.length = k := by omega
  rw [hg', hd]
  subst hk
  have : 0 < run.length := List.length_pos_iff.2 hm.ne_nil
  refine ⟨by simp, by simp; omega⟩

theorem logProfile_top {g g' : Grid K} {fuel : Nat} {c : Consts K} (hw : g.WF) (hair : 0 ≤ c.airDensity)
    (hf : 0 < c.firstLayerHeight) (hst : 0 < c.layerStretching) {snow ice : List (Node K)}
    (hcol : SnowOverIce c g.nodes snow ice) (hsum : c.firstLayerHeight ≤ sumHeight snow)
    (he : g.logProfile fuel c = .ok g') :
    ∃ top below, g'.nodes = top :: below ∧ c.firstLayerHeight ≤ top.height ∧
      (c.firstLayerHeight * (1 + c.layerStretching) ≤ sumHeight snow → top.height = c.firstLayerHeight) := by
  have hne : snow ≠ [] := by
    rintro rfl; simp [sumHeight] at hsum; linarith
  unfold Grid.logProfile at he
  rw [Grid.getTotalSnowheight_eq hw, ok_bind] at he
  simp only [bind_eq_ok] at he
  obtain ⟨s1, h1, _, _, _, _, n, hn, s2, h2, he⟩ := he
  rw [pure_eq_ok] at he; subst he
  have hsnowsum : pySum ((g.nodes.take (Grid.nSnow c g.nodes)).map Node.height) = sumHeight snow := by
    rw [pySum_eq, hcol.nSnow, hcol.eq]; simp [sumHeight, columnSum]
  obtain ⟨k1, hend⟩ := whileM_ind h1 (TopInv c g snow ice)
    ⟨hw, le_rfl, hf, fun _ => ⟨rfl, rfl, hsnowsum⟩, fun h => by simp at h, snow, hcol, hne, fun _ => rfl,
      fun h => by simp at h, fun h => by simp at h, fun h => by simp at h⟩
    (fun s s' hs hb => hs.snowPass hair hf hst hcol hsum hb)
  obtain ⟨snow1, hcol1, hne1, hsame, hge, heq1, heq2⟩ := k1.col
  rw [Grid.getNumberSnowLayers_eq k1.wf, Except.ok.injEq, hcol1.nSnow] at hn
  have hexit : (snow1.length : Int) ≤ s1.idx := by
    unfold Grid.logSnowPass at hend
    rw [Grid.getNumberSnowLayers_eq k1.wf, ok_bind, hcol1.nSnow] at hend
    by_contra hcon
    rw [if_pos (by omega)] at hend
    split_ifs at hend <;> simp only [bind_eq_ok, pure_eq_ok] at hend
    · obtain ⟨_, _, h⟩ := hend; cases h
    · obtain ⟨_, _, h⟩ := hend; cases h
    · cases hend
  have hpos : 0 < snow1.length := List.length_pos_iff.2 hne1
  obtain ⟨top1, below1, hs1, htop⟩ := hge (by omega)
  have hbigtop : c.firstLayerHeight * (1 + c.layerStretching) ≤ sumHeight snow →
      2 ≤ snow1.length ∧ top1.height = c.firstLayerHeight := by
    intro hbig
    rcases eq_or_lt_of_le (show 1 ≤ s1.idx by omega) with h3 | h3
    · obtain ⟨t, b, h4, h5⟩ := heq1 h3.symm
      have hl : snow1.length = 1 := by omega
      rw [h4] at hl
      simp at hl; subst hl
      have h6 := hsame (by omega)
      rw [h4] at h6
      simp [sumHeight] at h6
      rw [h5] at h6
      exfalso
      unfold sumHeight at hbig
      rw [← h6] at hbig
      have : 0 < c.firstLayerHeight * c.layerStretching := mul_pos hf hst
      linarith
    · obtain ⟨t, b, bl, h4, h5⟩ := heq2 (by omega) hbig
      rw [hs1] at h4
      simp only [List.cons.injEq] at h4
      exact ⟨by rw [hs1, h4.2]; simp, by rw [h4.1]; exact h5⟩
  have k2 := (whileM_ind h2 (fun s : Grid.LogState K => s.g.WF ∧ (snow1.length : Int) ≤ s.idx ∧ (∀ n ∈ s.g.nodes, 0 < n.height) ∧ 0 < s.last ∧
      ∃ top below, s.g.nodes = top :: below ∧ c.firstLayerHeight ≤ top.height ∧
        (c.firstLayerHeight * (1 + c.layerStretching) ≤ sumHeight snow → top.height = c.firstLayerHeight))
    ⟨k1.wf, by simp [← hn], by
        intro n hn
        rw [hcol1.eq] at hn
        rcases List.mem_append.1 hn with hn | hn
        · exact (hcol1.snow n hn).1
        · exact (hcol1.ice n hn).1.1, k1.last, top1, below1 ++ ice, by rw [hcol1.eq, hs1]; rfl, htop,
      fun h => (hbigtop h).2⟩ (by
      rintro s s' ⟨hws, hi, hall, hlast, top, below, hd, hth, hte⟩ hb
      obtain ⟨hlt, e, hcase⟩ := logIcePass_ok hb
      have hall' : ∀ n ∈ s'.g.nodes, 0 < n.height := by
        rcases hcase with ⟨_, hc, _⟩ | ⟨_, hc, _⟩
        · exact closed_height.correctLayer (by omega) hws hlast hall hc
        · exact closed_height.mergeNodes hall hc
      refine ⟨hws.logIcePass hb, by omega, hall', ?_, ?_⟩
      · rcases hcase with ⟨_, _, _, hl⟩ | ⟨_, _, _, hl⟩ <;> rw [hl]
        · exact mul_pos hst hlast
        · exact hlast
      rcases hcase with ⟨_, hc, _, _⟩ | ⟨_, hc, _, _⟩
      · obtain ⟨pre, run, post, m, new, hd', hl, hm, hg', _, _, _⟩ := correctLayer_ok (by omega) hws hc
        cases pre with
        | nil => simp at hl; omega
        | cons p ps =>
          rw [hd] at hd'
          simp only [List.cons_append, List.cons.injEq] at hd'
          exact ⟨p, ps ++ new ++ post, by rw [hg']; simp, by rw [← hd'.1]; exact hth, fun h => by rw [← hd'.1]; exact hte h⟩
      · obtain ⟨pre, a, b, post, hd', hl, hne, hg'⟩ := mergeNodes_decomp (by omega) hc
        cases pre with
        | nil =>
          have hb := hall b (by rw [hd']; simp)
          rw [hd] at hd'
          simp only [List.nil_append, List.cons.injEq] at hd'
          refine ⟨Grid.merged a b, post, by rw [hg']; rfl, ?_, fun h => ?_⟩
          · show c.firstLayerHeight ≤ a.height + b.height
            rw [← hd'.1]; linarith
          · have := (hbigtop h).1
            simp at hl; omega
        | cons p ps =>
          rw [hd] at hd'
          simp only [List.cons_append, List.cons.injEq] at hd'
          exact ⟨p, ps ++ Grid.merged a b :: post, by rw [hg']; rfl, by rw [← hd'.1]; exact hth, fun h => by rw [← hd'.1]; exact hte h⟩)).1
  obtain ⟨_, _, _, _, top, below, hd, h3, h4⟩ := k2
  exact ⟨top, below, hd, h3, h4⟩

/-- **C09** (what is true): for dry snow over ice with at least `first_layer_height` of snow, the top layer after
`log_profile()` is never thinner than `first_layer_height`. Full statement: it has exactly that height; that is
false, see `C09_top_layer_thicker`. Missing: columns with liquid water. -/
theorem C09_top_not_thinner_partial {g g' : Grid K} {fuel : Nat} {c : Consts K} (hw : g.WF) (hair : 0 ≤ c.airDensity)
    (hf : 0 < c.firstLayerHeight) (hst : 0 < c.layerStretching) {snow ice : List (Node K)}
    (hcol : SnowOverIce c g.nodes snow ice) (hsum : c.firstLayerHeight ≤ sumHeight snow)
    (he : g.logProfile fuel c = .ok g') :
    ∃ top below, g'.nodes = top :: below ∧ c.firstLayerHeight ≤ top.height := by
  obtain ⟨top, below, h1, h2, _⟩ := logProfile_top hw hair hf hst hcol hsum he
  exact ⟨top, below, h1, h2⟩

/-- **C09** (what is true): it has exactly that height once there is enough snow for the first two layers. -/
theorem C09_top_exact_partial {g g' : Grid K} {fuel : Nat} {c : Consts K} (hw : g.WF) (hair : 0 ≤ c.airDensity)
    (hf : 0 < c.firstLayerHeight) (hst : 0 < c.layerStretching) {snow ice : List (Node K)}
    (hcol : SnowOverIce c g.nodes snow ice)
    (hsum : c.firstLayerHeight * (1 + c.layerStretching) ≤ sumHeight snow)
    (he : g.logProfile fuel c = .ok g') :
    ∃ top below, g'.nodes = top :: below ∧ top.height = c.firstLayerHeight := by
  have hp := mul_pos hf hst
  obtain ⟨top, below, h1, _, h2⟩ := logProfile_top hw hair hf hst hcol (by linarith) he
  exact ⟨top, below, h1, h2 hsum⟩

end

/-- **C09** (violation): with 1.5 cm of dry snow and the shipped constants (`first_layer_height` 1 cm) the top layer
after `log_profile()` is 1.5 cm thick. -/
theorem C09_top_layer_thicker :
    (Consts.default ℚ).firstLayerHeight = 1/100 ∧
    ((⟨[⟨15/1000, 265, 0, 3/10, 0⟩, ⟨1, 270, 0, 1, 0⟩], 2, 0, 0, 0⟩ : Grid ℚ).logProfile 60
      (Consts.default ℚ)).toOption.map (fun g => g.nodes.head?.map fun n => n.height) = some (some (15/1000)) := by
  decide +kernel

/-! Non-vacuity. -/
private def exSnow : List (Node ℚ) := [⟨3/100, 265, 0, 3/10, 0⟩, ⟨3/100, 268, 0, 2/5, 0⟩]
private def exIce : List (Node ℚ) := [⟨1, 270, 0, 1, 0⟩]
private def exCol : Grid ℚ := ⟨exSnow ++ exIce, 3, 0, 0, 0⟩

example : exCol.WF ∧ SnowOverIce (Consts.default ℚ) exCol.nodes exSnow exIce ∧
    (Consts.default ℚ).firstLayerHeight * (1 + (Consts.default ℚ).layerStretching) ≤ sumHeight exSnow ∧
    (exCol.logProfile 60 (Consts.default ℚ)).isOk ∧ (exCol.correctLayer 60 (Consts.default ℚ) 0 (1/100)).isOk := by
  refine ⟨by unfold Grid.WF; decide +kernel, ⟨rfl, ?_, ?_⟩, ?_, by decide +kernel, by decide +kernel⟩
  · unfold DrySnow IsSnow; decide +kernel
  · unfold Sound IsIce; decide +kernel
  · unfold sumHeight columnSum; decide +kernel

end Cosipy
